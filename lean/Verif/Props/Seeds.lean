import Verif.Model.Seeds
import Verif.Lemmas.Bytes
/-!
# C43: account addresses of different roles never coincide
-/
namespace Ntt

theorem beN2_inj {a b : UInt16} (h : beN 2 a.toNat = beN 2 b.toNat) : a = b := wU16_inj h

theorem beN2_app_inj {a b : UInt16} {x y : Bytes} (h : beN 2 a.toNat ++ x = beN 2 b.toNat ++ y) :
    a = b ∧ x = y := by
  have := append_split h (by simp)
  exact ⟨beN2_inj this.1, this.2⟩

theorem b32_app_inj {a b : Bytes32} {x y : Bytes} (h : a.val ++ x = b.val ++ y) :
    a = b ∧ x = y := by
  have := append_split h (by simp [a.len, b.len])
  exact ⟨Bytes32.ext this.1, this.2⟩

end Ntt
namespace Ntt.Props
open Ntt

/-- Two seed strings of the manager program, each with its bump, coincide only for the same role
with the same parameters and the same bump. -/
theorem manager_seeds_injective (r1 r2 : Role) (b1 b2 : UInt8)
    (h : r1.seeds ++ [b1] = r2.seeds ++ [b2]) : r1 = r2 ∧ b1 = b2 := by
  have hb : r1.seeds = r2.seeds ∧ [b1] = [b2] := List.append_inj' h rfl
  obtain ⟨h, hb⟩ := hb
  refine ⟨?_, by simpa using hb⟩
  cases r1 <;> cases r2 <;>
    first
    | rfl
    | (exfalso; revert h; simp [Role.seeds, ascii]; done)
    | (have hl := congrArg List.length h
       simp [Role.seeds, ascii, Bytes32.len] at hl; done)
    | (simp only [Role.seeds, List.append_assoc] at h
       have h1 := (append_split h rfl).2
       first
       | (rw [beN2_inj h1]; done)
       | (rw [Bytes32.ext h1]; done)
       | (obtain ⟨e1, h2⟩ := beN2_app_inj h1
          rw [e1, Bytes32.ext h2]; done)
       | (obtain ⟨e1, h2⟩ := b32_app_inj h1
          rw [e1, Bytes32.ext h2]; done))

/-- The same for the quoter program. -/
theorem quoter_seeds_injective (r1 r2 : QuoterRole) (b1 b2 : UInt8)
    (h : r1.seeds ++ [b1] = r2.seeds ++ [b2]) : r1 = r2 ∧ b1 = b2 := by
  have hb : r1.seeds = r2.seeds ∧ [b1] = [b2] := List.append_inj' h rfl
  obtain ⟨h, hb⟩ := hb
  refine ⟨?_, by simpa using hb⟩
  cases r1 <;> cases r2 <;>
    first
    | rfl
    | (exfalso; revert h; simp [QuoterRole.seeds, ascii]; done)
    | (have hl := congrArg List.length h
       simp [QuoterRole.seeds, ascii, Bytes32.len] at hl; done)
    | (simp only [QuoterRole.seeds] at h
       have h1 := (append_split h rfl).2
       first
       | (rw [beN2_inj h1]; done)
       | (rw [Bytes32.ext h1]; done))

/-- The strings hashed into addresses also separate programs: equal preimages mean equal seeds,
bumps and program ids. -/
theorem preimage_injective (s1 s2 : Bytes) (b1 b2 : UInt8) (p1 p2 : Bytes32)
    (h : pdaPreimage s1 b1 p1 = pdaPreimage s2 b2 p2) : s1 = s2 ∧ b1 = b2 ∧ p1 = p2 := by
  have h1 := (List.append_inj' h rfl).1
  have h2 := List.append_inj' h1 (by simp [p1.len, p2.len])
  have h3 := List.append_inj' h2.1 rfl
  exact ⟨h3.1, by simpa using h3.2, Bytes32.ext h2.2⟩

/-- C43.  If two logical records of the manager program (any roles, parameters, bumps) got the same
address, then the hash collides on two different strings. -/
theorem addresses_never_coincide (sha : Bytes → Bytes32) (r1 r2 : Role) (b1 b2 : UInt8)
    (p1 p2 : Bytes32) (hne : r1 ≠ r2 ∨ p1 ≠ p2)
    (heq : sha (pdaPreimage r1.seeds b1 p1) = sha (pdaPreimage r2.seeds b2 p2)) :
    ∃ x y, x ≠ y ∧ sha x = sha y := by
  refine ⟨_, _, fun h => ?_, heq⟩
  obtain ⟨hs, hb, hp⟩ := preimage_injective _ _ _ _ _ _ h
  have := manager_seeds_injective r1 r2 b1 b2 (by rw [hs, hb])
  rcases hne with h' | h'
  · exact h' this.1
  · exact h' hp

/-- The roles with seed strings of equal length, where only the contents keep them apart. -/
example : (Role.config).seeds.length = (Role.peer 5).seeds.length ∧
    (Role.transceiverPeer 5).seeds.length = (Role.inboxRateLimit 5).seeds.length ∧
    (Role.inboxRateLimit 5).seeds.length = (Role.outboxItemSigner).seeds.length ∧
    (Role.config).seeds ≠ (Role.peer 5).seeds := by decide

/-- The hypothesis `r1 ≠ r2` is met, and the preimages differ although one seed constant is a
prefix of the other. -/
example : Role.lut ≠ Role.lutAuthority ∧
    (Role.lut).seeds <+: (Role.lutAuthority).seeds ∧
    pdaPreimage (Role.lut).seeds 255 (.ofByte 1) ≠
      pdaPreimage (Role.lutAuthority).seeds 255 (.ofByte 1) := by decide

end Ntt.Props

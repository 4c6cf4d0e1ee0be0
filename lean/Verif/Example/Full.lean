import Verif.Spec.Admin
import Verif.Example.History
import Mathlib.Data.List.Nodup
/-! # The example deployment with the largest possible number of transceivers -/
namespace Ntt.Example
open Ntt Ntt.Spec

/-- The owner registers these programs. -/
def register (l : List Bytes32) : List Tx := l.map fun t => ⟨rt 1004 [owner], .registerTransceiver t⟩

/-- 128 different programs. -/
def programs : List Bytes32 := (List.range 128).map fun i => A (UInt8.ofNat i)

/-- Initialise and register 128 transceivers. -/
def full : List Tx := setup.take 1 ++ register programs

theorem register_all : ∀ (l : List Bytes32) (s : State) (cfg : Config), s.config = some cfg → cfg.owner = owner →
    l.Nodup → (∀ t ∈ l, s.transceivers t = none) → cfg.nextTransceiverId.toNat + l.length ≤ 128 →
    registrations env s (register l) = l
  | [], _, _, _, _, _, _, _ => rfl
  | t :: l, s, cfg, hc, ho, nd, free, room => by
    obtain ⟨ht, nd⟩ := List.nodup_cons.mp nd
    rw [List.length_cons] at room
    have hset : ∃ en, cfg.enabledTransceivers.set cfg.nextTransceiverId true = .ok en := by
      unfold Bitmap.set
      rw [if_neg (by unfold Bitmap.bits; omega)]
      exact ⟨_, rfl⟩
    obtain ⟨en, hset⟩ := hset
    have hx : exec env (rt 1004 [owner]) s (.registerTransceiver t) = .ok ({ s with
        config := some { cfg with nextTransceiverId := cfg.nextTransceiverId + 1, enabledTransceivers := en }
        transceivers := upd s.transceivers t (some { id := cfg.nextTransceiverId, address := t }) }, []) := by
      change registerTransceiver _ _ _ = _
      unfold registerTransceiver State.asOwner
      simp only [hc, getSome, bind, Except.bind, require, ho, rt, List.mem_singleton, if_true, pure, Except.pure,
        free t List.mem_cons_self, hset]
      rw [if_pos (by omega)]
    have ih := register_all l { s with
        config := some { cfg with nextTransceiverId := cfg.nextTransceiverId + 1, enabledTransceivers := en }
        transceivers := upd s.transceivers t (some { id := cfg.nextTransceiverId, address := t }) } _ rfl ho nd
      (fun u hu => by
        have hne : u ≠ t := fun h => ht (h ▸ hu)
        change upd _ _ _ u = none
        unfold upd
        rw [if_neg hne]
        exact free u (List.mem_cons_of_mem _ hu))
      (by
        have : (cfg.nextTransceiverId + 1).toNat = cfg.nextTransceiverId.toNat + 1 := by
          rw [UInt8.toNat_add]; exact Nat.mod_eq_of_lt (by change _ + 1 < 256; omega)
        dsimp only
        rw [this]
        omega)
    change (match (Ix.registerTransceiver t), exec env (rt 1004 [owner]) s (.registerTransceiver t) with
      | .registerTransceiver tr, .ok _ => [tr]
      | _, _ => []) ++ registrations env (submit env s ⟨rt 1004 [owner], .registerTransceiver t⟩).1 (register l) = _
    unfold submit
    dsimp only
    rw [hx]
    dsimp only
    rw [ih]
    rfl

theorem programs_nodup : programs.Nodup := by
  refine List.Nodup.map_on (fun i hi j hj h => ?_) List.nodup_range
  have h1 := congrArg (fun b : Bytes32 => b.val.getLast?) h
  simp only [A, Bytes32.ofByte, List.getLast?_append, List.getLast?_singleton, Option.some_or, Option.some.injEq] at h1
  have h2 := congrArg UInt8.toNat h1
  rw [UInt8.toNat_ofNat', UInt8.toNat_ofNat'] at h2
  rw [List.mem_range] at hi hj
  omega

/-- The hypotheses of `C42_at_most_128` can be met. -/
theorem full_registrations : (registrations env s0 full).length = 128 := by
  have hp : programs.length = 128 := by rw [programs, List.length_map, List.length_range]
  have h := register_all programs (run env s0 (setup.take 1)).1 _ rfl rfl programs_nodup (fun _ _ => rfl)
    (by rw [hp]; exact (by decide : 0 + 128 ≤ 128))
  have first : ∀ l, registrations env s0 (setup.take 1 ++ register l) =
      registrations env (run env s0 (setup.take 1)).1 (register l) := fun _ => rfl
  rw [full, first, h, hp]

end Ntt.Example

import Verif.Spec.QuoterRaw
import Verif.Lemmas.Accounts
import Verif.Lemmas.Manager
import Verif.Lemmas.Entry
import Verif.Lemmas.Quoter
import Verif.Lemmas.Raw
import Verif.Props.Seeds
/-! # The quoter's accounts as bytes -/
namespace Ntt.QRaw
open Ntt Ntt.Quoter Ntt.Gov Ntt.Entry Ntt.Spec

/-! ### Instruction data -/

/-- The selectors, computed. -/
def qcode : QRequest → Bytes
  | .requestRelay _ => [89, 97, 113, 241, 27, 217, 30, 227]
  | .closeRelay => [218, 25, 154, 155, 17, 185, 163, 248]
  | .initializeQuoter => [175, 175, 109, 31, 13, 152, 155, 237]
  | .setAssistant => [217, 130, 101, 172, 30, 35, 165, 250]
  | .setFeeRecipient => [227, 18, 215, 42, 237, 246, 151, 66]
  | .registerChain _ => [230, 181, 152, 173, 20, 163, 157, 243]
  | .registerNtt _ _ _ => [103, 244, 204, 174, 110, 135, 216, 159]
  | .deregisterNtt _ => [18, 17, 172, 154, 99, 3, 31, 8]
  | .updateSolPrice _ => [166, 98, 183, 175, 125, 81, 109, 119]
  | .updateChainPrices _ _ => [243, 75, 47, 31, 155, 80, 1, 124]
  | .updateChainParams _ _ => [144, 67, 44, 132, 119, 187, 232, 62]

set_option maxRecDepth 100000 in
theorem qselector_code (r : QRequest) : qselector r = qcode r := by
  cases r <;> simp only [qselector, qfunctionName, qcode] <;> decide +kernel

set_option maxRecDepth 100000 in
theorem qdisc_code (k : QKind) :
    (Sha256.sha256 (ascii ['a', 'c', 'c', 'o', 'u', 'n', 't', ':'] ++ ascii (qtypeName k))).take 8 = (qdisc k).val := by
  cases k <;> decide +kernel

set_option maxRecDepth 100000 in
theorem outboxDisc_code : (Sha256.sha256 (ascii ['a', 'c', 'c', 'o', 'u', 'n', 't', ':'] ++
    ascii ['O', 'u', 't', 'b', 'o', 'x', 'I', 't', 'e', 'm'])).take 8 = outboxDisc.val := by decide +kernel

/-- The Borsh encoding of the arguments. -/
def qbody : QRequest → Bytes
  | .requestRelay a => (Borsh.u64.pair Borsh.u64).write (a.gasDropoff, a.maxFee)
  | .registerChain c => Borsh.u16.write c
  | .registerNtt p index cost => (Borsh.key.pair (Borsh.u8.pair Borsh.u32)).write (p, index, cost)
  | .deregisterNtt p => Borsh.key.write p
  | .updateSolPrice x => Borsh.u64.write x
  | .updateChainPrices x y => (Borsh.u64.pair Borsh.u64).write (x, y)
  | .updateChainParams x y => (Borsh.u64.pair Borsh.u64).write (x, y)
  | _ => []

theorem qbody_eq (r : QRequest) : qbody r = qargumentBytes r := by
  cases r <;> simp only [qbody, qargumentBytes, Borsh.pair, Borsh.u8, Borsh.u16, Borsh.u32, Borsh.u64, Borsh.key, List.append_assoc]

theorem qdata_eq (r : QRequest) : qdata r = qcode r ++ qbody r := by rw [qdata, qselector_code, qbody_eq]

theorem pair64_good : (Borsh.u64.pair Borsh.u64).Good fun _ => True :=
  good_all (Borsh.pair_good Borsh.u64_good Borsh.u64_good) fun _ => ⟨trivial, trivial⟩

theorem nttArgs_good : (Borsh.key.pair (Borsh.u8.pair Borsh.u32)).Good fun _ => True :=
  good_all (Borsh.pair_good Borsh.key_good (Borsh.pair_good Borsh.u8_good Borsh.u32_good)) fun _ => ⟨trivial, trivial, trivial⟩

theorem qarg_reads {α : Type} {c : Borsh α} (h : c.Good fun _ => True) (mk : α → QRequest) (a : α) (junk : Bytes) :
    qarg c mk (c.write a ++ junk) = .ok (mk a) := by
  simp only [qarg, h.reads a trivial junk]

theorem qarg_canon {α : Type} {c : Borsh α} (h : c.Good fun _ => True) {mk : α → QRequest} {bs : Bytes} {r : QRequest}
    (hr : qarg c mk bs = .ok r) : ∃ a junk, bs = c.write a ++ junk ∧ r = mk a := by
  unfold qarg at hr
  split at hr
  · rename_i a rest hx
    cases hr
    exact ⟨a, rest, (h.canon _ _ _ hx).1, rfl⟩
  · cases hr

theorem qdecode_qdata (r : QRequest) (junk : Bytes) : qdecode (qdata r ++ junk) = .ok r := by
  rw [qdata_eq, List.append_assoc]
  cases r with
  | requestRelay a =>
    exact qarg_reads pair64_good (fun x => .requestRelay { gasDropoff := x.1, maxFee := x.2 }) (a.gasDropoff, a.maxFee) junk
  | closeRelay => rfl
  | initializeQuoter => rfl
  | setAssistant => rfl
  | setFeeRecipient => rfl
  | registerChain c => exact qarg_reads Borsh.u16_good .registerChain c junk
  | registerNtt p i g => exact qarg_reads nttArgs_good (fun x => .registerNtt x.1 x.2.1 x.2.2) (p, i, g) junk
  | deregisterNtt p => exact qarg_reads Borsh.key_good .deregisterNtt p junk
  | updateSolPrice x => exact qarg_reads Borsh.u64_good .updateSolPrice x junk
  | updateChainPrices x y => exact qarg_reads pair64_good (fun x => .updateChainPrices x.1 x.2) (x, y) junk
  | updateChainParams x y => exact qarg_reads pair64_good (fun x => .updateChainParams x.1 x.2) (x, y) junk

theorem qite_ok {c : Prop} [Decidable c] {x y : Except Err QRequest} {r : QRequest} (h : (if c then x else y) = .ok r) :
    (c ∧ x = .ok r) ∨ y = .ok r := by
  by_cases hc : c
  · rw [if_pos hc] at h; exact Or.inl ⟨hc, h⟩
  · rw [if_neg hc] at h; exact Or.inr h

theorem qdispatch_canon {sel rest : Bytes} {r : QRequest} (h : qdispatch sel rest = .ok r) :
    ∃ junk, sel ++ rest = qcode r ++ (qbody r ++ junk) := by
  unfold qdispatch at h
  rcases qite_ok h with ⟨hs, h⟩ | h
  · subst hs
    obtain ⟨x, junk, rfl, rfl⟩ := qarg_canon pair64_good h
    exact ⟨junk, rfl⟩
  rcases qite_ok h with ⟨hs, h⟩ | h
  · subst hs; cases h; exact ⟨rest, rfl⟩
  rcases qite_ok h with ⟨hs, h⟩ | h
  · subst hs; cases h; exact ⟨rest, rfl⟩
  rcases qite_ok h with ⟨hs, h⟩ | h
  · subst hs; cases h; exact ⟨rest, rfl⟩
  rcases qite_ok h with ⟨hs, h⟩ | h
  · subst hs; cases h; exact ⟨rest, rfl⟩
  rcases qite_ok h with ⟨hs, h⟩ | h
  · subst hs
    obtain ⟨x, junk, rfl, rfl⟩ := qarg_canon Borsh.u16_good h
    exact ⟨junk, rfl⟩
  rcases qite_ok h with ⟨hs, h⟩ | h
  · subst hs
    obtain ⟨x, junk, rfl, rfl⟩ := qarg_canon nttArgs_good h
    exact ⟨junk, rfl⟩
  rcases qite_ok h with ⟨hs, h⟩ | h
  · subst hs
    obtain ⟨x, junk, rfl, rfl⟩ := qarg_canon Borsh.key_good h
    exact ⟨junk, rfl⟩
  rcases qite_ok h with ⟨hs, h⟩ | h
  · subst hs
    obtain ⟨x, junk, rfl, rfl⟩ := qarg_canon Borsh.u64_good h
    exact ⟨junk, rfl⟩
  rcases qite_ok h with ⟨hs, h⟩ | h
  · subst hs
    obtain ⟨x, junk, rfl, rfl⟩ := qarg_canon pair64_good h
    exact ⟨junk, rfl⟩
  rcases qite_ok h with ⟨hs, h⟩ | h
  · subst hs
    obtain ⟨x, junk, rfl, rfl⟩ := qarg_canon pair64_good h
    exact ⟨junk, rfl⟩
  cases h

theorem qdecode_canon {data : Bytes} {r : QRequest} (h : qdecode data = .ok r) : ∃ junk, data = qdata r ++ junk := by
  unfold qdecode at h
  split at h
  · obtain ⟨junk, hj⟩ := qdispatch_canon h
    refine ⟨junk, ?_⟩
    rw [qdata_eq, List.append_assoc, ← hj]
    rfl
  · cases h

/-! ### Layouts -/

theorem inst_size (x : Instance) : (Borsh.quoterInstance.write x).length = Borsh.quoterInstance.space := by
  simp [Borsh.quoterInstance, Borsh.struct, Borsh.pair, Borsh.key, Borsh.u64, Bytes32.len]

theorem chain_size (x : UInt8 × RegisteredChain) : (Borsh.registeredChain.write x).length = Borsh.registeredChain.space := by
  simp [Borsh.registeredChain, Borsh.struct, Borsh.pair, Borsh.u8, Borsh.u64]

theorem ntt_size (x : UInt8 × RegisteredNtt) : (Borsh.registeredNtt.write x).length = Borsh.registeredNtt.space := by
  simp [Borsh.registeredNtt, Borsh.struct, Borsh.pair, Borsh.u8, Borsh.u32]

theorem request_size (x : UInt64) : (Borsh.relayRequest.write x).length = Borsh.relayRequest.space := by
  simp [Borsh.relayRequest, Borsh.u64]

/-- A type all of whose values take the whole space. -/
structure Fixed {α : Type} (t : QTyp α) : Prop where
  good : t.layout.Good fun _ => True
  size : ∀ x, (t.layout.write x).length = t.layout.space

theorem fInst : Fixed tInst := ⟨Borsh.quoterInstance_good, inst_size⟩
theorem fChain : Fixed tChain := ⟨Borsh.registeredChain_good, chain_size⟩
theorem fNtt : Fixed tNtt := ⟨Borsh.registeredNtt_good, ntt_size⟩
theorem fRequest : Fixed tRequest := ⟨Borsh.u64_good, request_size⟩

/-- An account that holds a value of a type. -/
def holding {α : Type} (e : QEnv) (t : QTyp α) (x : α) : QAccount := ⟨e.programId, (qdisc t.kind).val ++ t.layout.write x⟩

section
variable {α β : Type} {e : QEnv} {t : QTyp α} {s s' : QLedger} {a : Bytes32} {x : α}

theorem qcontents_some : qcontents e t s a = some x ↔
    ∃ acc, s.accts a = some acc ∧ acc.owner = e.programId ∧ load (qdisc t.kind) t.layout acc.data = .ok x := by
  rw [qcontents, Raw.toOption_eq_some, loadAs, getSome_bind]
  constructor
  · rintro ⟨acc, h1, h2⟩
    rw [require_bind] at h2
    exact ⟨acc, h1, h2.1, h2.2⟩
  · rintro ⟨acc, h1, h2, h3⟩
    exact ⟨acc, h1, (require_bind).mpr ⟨h2, h3⟩⟩

theorem qloadAs_bind {f : α → Except Err β} {b : β} :
    (loadAs e t s a >>= f) = .ok b ↔ ∃ x, qcontents e t s a = some x ∧ f x = .ok b := by
  rw [ex_bind_ok]
  simp only [qcontents, Raw.toOption_eq_some]

theorem qcontents_congr (h : s'.accts a = s.accts a) : qcontents e t s' a = qcontents e t s a := by
  simp only [qcontents, loadAs, h]

theorem qcontents_none (h : s.accts a = none) : qcontents e t s a = none := by
  cases hc : qcontents e t s a with
  | none => rfl
  | some x =>
    obtain ⟨acc, h1, _, _⟩ := qcontents_some.mp hc
    rw [h] at h1; cases h1

theorem load_holding (f : Fixed t) (x : α) : load (qdisc t.kind) t.layout ((qdisc t.kind).val ++ t.layout.write x) = .ok x := by
  have := f.good.reads x trivial []
  rw [List.append_nil] at this
  simp only [load, check_append, bind, Except.bind, List.drop_left' (qdisc t.kind).len, this]

theorem qcontents_holding (f : Fixed t) (h : s.accts a = some (holding e t x)) : qcontents e t s a = some x :=
  qcontents_some.mpr ⟨_, h, rfl, load_holding f x⟩

theorem qcreate_bind {f : QLedger × α → Except Err β} {b : β} :
    (create e t s a >>= f) = .ok b ↔ ∃ x, s.accts a = none ∧ loadNew t.layout (newAccount t.layout) = .ok x ∧
      f ({ s with accts := upd s.accts a (some ⟨e.programId, newAccount t.layout⟩) }, x) = .ok b := by
  rw [ex_bind_ok]
  simp only [create, require_bind]
  simp only [ex_bind_ok, ex_pure_ok]
  constructor
  · rintro ⟨_, ⟨h1, x, h2, rfl⟩, h3⟩; exact ⟨x, h1, h2, h3⟩
  · rintro ⟨x, h1, h2, h3⟩; exact ⟨_, ⟨h1, x, h2, rfl⟩, h3⟩

/-- Writing an account of the right size. -/
theorem qstoreAs_eq (f : Fixed t) {acc : QAccount} (h : s.accts a = some acc) (ho : acc.owner = e.programId)
    (hl : acc.data.length = 8 + t.layout.space) :
    storeAs t s a x = .ok { s with accts := upd s.accts a (some (holding e t x)) } := by
  have h1 : store (qdisc t.kind) t.layout x acc.data = .ok ((qdisc t.kind).val ++ t.layout.write x) := by
    rw [store_ok_iff]
    refine ⟨by rw [f.size, hl], ?_⟩
    rw [f.size, ← hl, List.drop_length, List.append_nil]
  simp only [storeAs, h, getSome, pure, Except.pure, bind, Except.bind, h1, holding, ho]

theorem newAccount_length (c : Borsh α) : (newAccount c).length = 8 + c.space := by simp [newAccount]

theorem holding_length (f : Fixed t) : (holding e t x).data.length = 8 + t.layout.space := by
  simp [holding, (qdisc t.kind).len, f.size]

/-- The first 8 bytes of an account that is read as some type. -/
theorem load_take8 {disc : Discriminator} {c : Borsh α} {data : Bytes} {x : α} (h : load disc c data = .ok x) :
    data.take 8 = disc.val := by
  simp only [load, ex_bind_ok] at h
  obtain ⟨u, hd, _⟩ := h
  exact (discriminatorCheck_ok hd).2.symm

end

/-! ### What is where -/

/-- What is at the address of a role. -/
def Holds (e : QEnv) : QuoterRole → QAccount → Prop
  | .instance, acc => ∃ x, acc = holding e tInst x
  | .registeredChain c, acc => ∃ x, acc = holding e tChain (e.bump (.registeredChain c), x)
  | .registeredNtt p, acc => ∃ x, acc = holding e tNtt (e.bump (.registeredNtt p), x)
  | .relayRequest _, acc => ∃ x, acc = holding e tRequest x

/-- Everything of the quoter is where it belongs. -/
structure QInv (e : QEnv) (K : List QuoterRole) (s : QLedger) : Prop where
  own : ∀ a acc, s.accts a = some acc → acc.owner = e.programId →
    (acc.data = List.replicate acc.data.length 0) ∨ ∃ r ∈ K, a = e.addr r ∧ Holds e r acc
  placed : ∀ a acc, s.accts a = some acc → e.ownPda a = true → ∃ r ∈ K, a = e.addr r ∧ Holds e r acc

variable {e : QEnv} {K : List QuoterRole} {s s' : QLedger} {a : Bytes32}

theorem qaddrAt_inj (n : QNoShaCollision e K) {r r' : QuoterRole} (hr : r ∈ K) (hr' : r' ∈ K) {b b' : UInt8}
    (h : e.addrAt r b = e.addrAt r' b') : r = r' := by
  have h1 := n r hr r' hr' b b' h
  have h2 := Props.preimage_injective _ _ _ _ _ _ h1
  refine (Props.quoter_seeds_injective r r' b b' ?_).1
  rw [h2.1, h2.2.1]

theorem holding_take {α : Type} {t : QTyp α} {x : α} : (holding e t x).data.take 8 = (qdisc t.kind).val :=
  List.take_left' (qdisc t.kind).len

theorem qdisc_inj {k k' : QKind} (h : (qdisc k).val = (qdisc k').val) : k = k' := by
  cases k <;> cases k' <;> first | rfl | (exfalso; revert h; decide)

theorem qdisc_nonzero (k : QKind) (n : Nat) (h : (List.replicate n (0 : UInt8)).take 8 = (qdisc k).val) : False := by
  rw [List.take_replicate] at h
  have hl := congrArg List.length h
  rw [List.length_replicate, (qdisc k).len] at hl
  rw [hl] at h
  revert h
  cases k <;> decide

theorem holds_owner {r : QuoterRole} {acc : QAccount} (h : Holds e r acc) : acc.owner = e.programId := by
  cases r <;> obtain ⟨x, rfl⟩ := h <;> rfl

/-- An account read as some type holds it. -/
theorem QInv.role {α : Type} {t : QTyp α} {x : α} (i : QInv e K s) (h : qcontents e t s a = some x) :
    ∃ acc r, r ∈ K ∧ a = e.addr r ∧ s.accts a = some acc ∧ Holds e r acc ∧ acc.data.take 8 = (qdisc t.kind).val ∧
      load (qdisc t.kind) t.layout acc.data = .ok x := by
  obtain ⟨acc, h1, h2, h3⟩ := qcontents_some.mp h
  have ht := load_take8 h3
  rcases i.own a acc h1 h2 with hz | ⟨r, hr, ha, hh⟩
  · rw [hz] at ht; exact (qdisc_nonzero _ _ ht).elim
  · exact ⟨acc, r, hr, ha, h1, hh, ht, h3⟩

section
variable (i : QInv e K s)
include i

theorem QInv.inst {x : Instance} (h : qcontents e tInst s a = some x) :
    .instance ∈ K ∧ a = e.addr .instance ∧ s.accts a = some (holding e tInst x) ∧ (qtyped e K s).inst = some x := by
  obtain ⟨acc, r, hr, ha, h1, hh, ht, h3⟩ := i.role h
  cases r with
  | «instance» =>
    obtain ⟨y, rfl⟩ := hh
    have : y = x := by have := (load_holding fInst y).symm.trans h3; injection this
    subst this
    refine ⟨hr, ha, h1, ?_⟩
    rw [ha] at h
    simp only [qtyped, if_pos hr, h]
  | registeredChain c => obtain ⟨y, rfl⟩ := hh; rw [holding_take] at ht; cases qdisc_inj ht
  | registeredNtt c => obtain ⟨y, rfl⟩ := hh; rw [holding_take] at ht; cases qdisc_inj ht
  | relayRequest c => obtain ⟨y, rfl⟩ := hh; rw [holding_take] at ht; cases qdisc_inj ht

theorem QInv.chain {x : UInt8 × RegisteredChain} (h : qcontents e tChain s a = some x) :
    ∃ c, .registeredChain c ∈ K ∧ a = e.addr (.registeredChain c) ∧ x.1 = e.bump (.registeredChain c) ∧
      s.accts a = some (holding e tChain x) ∧ (qtyped e K s).chains c = some x.2 := by
  obtain ⟨acc, r, hr, ha, h1, hh, ht, h3⟩ := i.role h
  cases r with
  | registeredChain c =>
    obtain ⟨y, rfl⟩ := hh
    have : (e.bump (.registeredChain c), y) = x := by have := (load_holding fChain (e.bump (.registeredChain c), y)).symm.trans h3; injection this
    subst this
    refine ⟨c, hr, ha, rfl, h1, ?_⟩
    rw [ha] at h
    simp only [qtyped, if_pos hr, h, Option.map_some]
  | «instance» => obtain ⟨y, rfl⟩ := hh; rw [holding_take] at ht; cases qdisc_inj ht
  | registeredNtt c => obtain ⟨y, rfl⟩ := hh; rw [holding_take] at ht; cases qdisc_inj ht
  | relayRequest c => obtain ⟨y, rfl⟩ := hh; rw [holding_take] at ht; cases qdisc_inj ht

theorem QInv.ntt {x : UInt8 × RegisteredNtt} (h : qcontents e tNtt s a = some x) :
    ∃ c, .registeredNtt c ∈ K ∧ a = e.addr (.registeredNtt c) ∧ x.1 = e.bump (.registeredNtt c) ∧
      s.accts a = some (holding e tNtt x) ∧ (qtyped e K s).ntts c = some x.2 := by
  obtain ⟨acc, r, hr, ha, h1, hh, ht, h3⟩ := i.role h
  cases r with
  | registeredNtt c =>
    obtain ⟨y, rfl⟩ := hh
    have : (e.bump (.registeredNtt c), y) = x := by have := (load_holding fNtt (e.bump (.registeredNtt c), y)).symm.trans h3; injection this
    subst this
    refine ⟨c, hr, ha, rfl, h1, ?_⟩
    rw [ha] at h
    simp only [qtyped, if_pos hr, h, Option.map_some]
  | «instance» => obtain ⟨y, rfl⟩ := hh; rw [holding_take] at ht; cases qdisc_inj ht
  | registeredChain c => obtain ⟨y, rfl⟩ := hh; rw [holding_take] at ht; cases qdisc_inj ht
  | relayRequest c => obtain ⟨y, rfl⟩ := hh; rw [holding_take] at ht; cases qdisc_inj ht

theorem QInv.request {x : UInt64} (h : qcontents e tRequest s a = some x) :
    ∃ c, .relayRequest c ∈ K ∧ a = e.addr (.relayRequest c) ∧ s.accts a = some (holding e tRequest x) ∧
      (qtyped e K s).requests c = some x := by
  obtain ⟨acc, r, hr, ha, h1, hh, ht, h3⟩ := i.role h
  cases r with
  | relayRequest c =>
    obtain ⟨y, rfl⟩ := hh
    have : y = x := by have := (load_holding fRequest y).symm.trans h3; injection this
    subst this
    refine ⟨c, hr, ha, h1, ?_⟩
    rw [ha] at h
    simp only [qtyped, if_pos hr, h]
  | «instance» => obtain ⟨y, rfl⟩ := hh; rw [holding_take] at ht; cases qdisc_inj ht
  | registeredChain c => obtain ⟨y, rfl⟩ := hh; rw [holding_take] at ht; cases qdisc_inj ht
  | registeredNtt c => obtain ⟨y, rfl⟩ := hh; rw [holding_take] at ht; cases qdisc_inj ht

end

/-- Writing at the address of a role. -/
def setAt (s : QLedger) (a : Bytes32) (v : Option QAccount) : QLedger := { s with accts := upd s.accts a v }

theorem QInv.set (i : QInv e K s) {r : QuoterRole} (hr : r ∈ K) {v : Option QAccount} (hv : ∀ acc, v = some acc → Holds e r acc)
    (l : Bytes32 → Nat) (u : Option Bytes32) : QInv e K ⟨upd s.accts (e.addr r) v, l, u⟩ := by
  constructor
  · intro b acc h ho
    simp only [upd_eq] at h
    split at h
    · rename_i hb; exact Or.inr ⟨r, hr, hb, hv acc h⟩
    · exact i.own b acc h ho
  · intro b acc h hb
    simp only [upd_eq] at h
    split at h
    · rename_i hb; exact ⟨r, hr, hb, hv acc h⟩
    · exact i.placed b acc h hb

theorem QInv.relabel (i : QInv e K s) (l : Bytes32 → Nat) (u : Option Bytes32) : QInv e K ⟨s.accts, l, u⟩ := ⟨i.own, i.placed⟩

/-- Contents of the addresses of other roles stay. -/
theorem contents_set {α : Type} {t : QTyp α} (n : QNoShaCollision e K) {r r' : QuoterRole} (hr : r ∈ K) (hr' : r' ∈ K)
    (h : r' ≠ r) (v : Option QAccount) (l : Bytes32 → Nat) (u : Option Bytes32) :
    qcontents e t ⟨upd s.accts (e.addr r) v, l, u⟩ (e.addr r') = qcontents e t s (e.addr r') :=
  qcontents_congr (upd_other _ _ fun h' => h (qaddrAt_inj n hr' hr h'))

/-- What is read at the address written. -/
theorem contents_set_same {α : Type} {t : QTyp α} {v : Option QAccount} {l : Bytes32 → Nat} {u : Option Bytes32} :
    qcontents e t ⟨upd s.accts a v, l, u⟩ a = qcontents e t ⟨fun _ => v, l, u⟩ a :=
  qcontents_congr (upd_same _ _ _)

section
variable (n : QNoShaCollision e K) (l : Bytes32 → Nat) (u : Option Bytes32)
include n

theorem typed_inst (hr : .instance ∈ K) (x : Instance) :
    qtyped e K ⟨upd s.accts (e.addr .instance) (some (holding e tInst x)), l, u⟩ =
      { qtyped e K s with inst := some x, lamports := l } := by
  simp only [qtyped, if_pos hr]
  congr 1
  · exact qcontents_holding fInst (upd_same _ _ _)
  · funext c; split
    · rename_i h; rw [contents_set n hr h (by simp)]
    · rfl
  · funext c; split
    · rename_i h; rw [contents_set n hr h (by simp)]
    · rfl
  · funext c; split
    · rename_i h; rw [contents_set n hr h (by simp)]
    · rfl

theorem typed_chain {c : UInt16} (hr : .registeredChain c ∈ K) (x : UInt8 × RegisteredChain) :
    qtyped e K ⟨upd s.accts (e.addr (.registeredChain c)) (some (holding e tChain x)), l, u⟩ =
      { qtyped e K s with chains := upd (qtyped e K s).chains c (some x.2), lamports := l } := by
  simp only [qtyped]
  congr 1
  · split
    · rename_i h; rw [contents_set n hr h (by simp)]
    · rfl
  · funext c'
    rw [upd_eq]
    by_cases hc : c' = c
    · subst hc; rw [if_pos hr, if_pos rfl, qcontents_holding fChain (upd_same _ _ _)]; rfl
    · rw [if_neg hc]; split
      · rename_i h; rw [contents_set n hr h (by simpa using hc)]
      · rfl
  · funext c; split
    · rename_i h; rw [contents_set n hr h (by simp)]
    · rfl
  · funext c; split
    · rename_i h; rw [contents_set n hr h (by simp)]
    · rfl

theorem typed_ntt {p : Bytes32} (hr : .registeredNtt p ∈ K) {v : Option QAccount} {x : Option RegisteredNtt}
    (hv : v = x.map fun y => holding e tNtt (e.bump (.registeredNtt p), y)) :
    qtyped e K ⟨upd s.accts (e.addr (.registeredNtt p)) v, l, u⟩ =
      { qtyped e K s with ntts := upd (qtyped e K s).ntts p x, lamports := l } := by
  simp only [qtyped]
  congr 1
  · split
    · rename_i h; rw [contents_set n hr h (by simp)]
    · rfl
  · funext c; split
    · rename_i h; rw [contents_set n hr h (by simp)]
    · rfl
  · funext c'
    rw [upd_eq]
    by_cases hc : c' = p
    · subst hc; rw [if_pos hr, if_pos rfl]
      cases x with
      | none => rw [qcontents_none]; · rfl
                rw [hv]; exact upd_same _ _ _
      | some y => rw [qcontents_holding fNtt (x := (e.bump (.registeredNtt c'), y))]; · rfl
                  rw [hv]; exact upd_same _ _ _
    · rw [if_neg hc]; split
      · rename_i h; rw [contents_set n hr h (by simpa using hc)]
      · rfl
  · funext c; split
    · rename_i h; rw [contents_set n hr h (by simp)]
    · rfl

theorem typed_request {p : Bytes32} (hr : .relayRequest p ∈ K) {v : Option QAccount} {x : Option UInt64}
    (hv : v = x.map fun y => holding e tRequest y) :
    qtyped e K ⟨upd s.accts (e.addr (.relayRequest p)) v, l, u⟩ =
      { qtyped e K s with requests := upd (qtyped e K s).requests p x, lamports := l } := by
  simp only [qtyped]
  congr 1
  · split
    · rename_i h; rw [contents_set n hr h (by simp)]
    · rfl
  · funext c; split
    · rename_i h; rw [contents_set n hr h (by simp)]
    · rfl
  · funext c; split
    · rename_i h; rw [contents_set n hr h (by simp)]
    · rfl
  · funext c'
    rw [upd_eq]
    by_cases hc : c' = p
    · subst hc; rw [if_pos hr, if_pos rfl]
      cases x with
      | none => rw [qcontents_none]
                rw [hv]; exact upd_same _ _ _
      | some y => rw [qcontents_holding fRequest (x := y)]
                  rw [hv]; exact upd_same _ _ _
    · rw [if_neg hc]; split
      · rename_i h; rw [contents_set n hr h (by simpa using hc)]
      · rfl

end

/-- Creating an account and then writing it. -/
theorem qinit_eq {α : Type} {t : QTyp α} (f : Fixed t) (s : QLedger) (a : Bytes32) (x : α) :
    storeAs t { s with accts := upd s.accts a (some ⟨e.programId, newAccount t.layout⟩) } a x =
      .ok { s with accts := upd s.accts a (some (holding e t x)) } := by
  rw [qstoreAs_eq (e := e) f (upd_same _ _ _) rfl (newAccount_length _)]
  congr 2
  funext b
  by_cases hb : b = a
  · subst hb; simp
  · simp [upd_eq, hb]

/-- What a new account of each type reads as. -/
theorem new_inst : loadNew tInst.layout (newAccount tInst.layout) =
    .ok { owner := .zeroes, assistant := .zeroes, feeRecipient := .zeroes, solPrice := 0 } := by decide +kernel
theorem new_chain : loadNew tChain.layout (newAccount tChain.layout) =
    .ok (0, { maxGasDropoff := 0, basePrice := 0, nativePrice := 0, gasPrice := 0 }) := by decide +kernel
theorem new_ntt : loadNew tNtt.layout (newAccount tNtt.layout) = .ok (0, { wormholeTransceiverIndex := 0, gasCost := 0 }) := by
  decide +kernel
theorem new_request : loadNew tRequest.layout (newAccount tRequest.layout) = .ok 0 := by decide +kernel

end Ntt.QRaw

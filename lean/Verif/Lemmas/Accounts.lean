import Verif.Model.Accounts
import Verif.Lemmas.Borsh
import Verif.Lemmas.Bitmap
/-! # Lemmas on stored accounts -/
namespace Ntt

theorem ofLE_lt (bs : Bytes) : ofLE bs < 256 ^ bs.length := by
  induction bs with
  | nil => simp [ofLE]
  | cons b bs ih =>
    have := b.toNat_lt
    simp only [ofLE, List.length_cons, Nat.pow_succ]
    omega

theorem leN_ofLE (bs : Bytes) : leN bs.length (ofLE bs) = bs := by
  induction bs with
  | nil => rfl
  | cons b bs ih =>
    have hb := b.toNat_lt
    have h1 : (b.toNat + 256 * ofLE bs) / 256 = ofLE bs := by omega
    have h2 : UInt8.ofNat (b.toNat + 256 * ofLE bs) = b := by
      apply UInt8.toNat_inj.mp
      rw [UInt8.toNat_ofNat']
      omega
    simp only [List.length_cons, ofLE, leN, h1, h2, ih]

namespace Borsh

/-- Values satisfying `valid` are read back from what is written, whatever follows; they fit the space; and what is read
is a valid value and was written like that. -/
structure Good {α : Type} (c : Borsh α) (valid : α → Prop) : Prop where
  reads : ∀ a, valid a → c.read.Reads (c.write a) a
  fits : ∀ a, valid a → (c.write a).length ≤ c.space
  canon : ∀ bs a rest, c.read bs = .ok (a, rest) → bs = c.write a ++ rest ∧ valid a

/-- An integer type given by its value. -/
theorem int_good {α : Type} (k : Nat) (mk : Nat → α) (num : α → Nat) (h1 : ∀ a, mk (num a) = a)
    (h2 : ∀ a, num a < 256 ^ k) (h3 : ∀ n, n < 256 ^ k → num (mk n) = n) :
    Good { write := fun x => leN k (num x), read := do return mk (ofLE (← readN k)), space := k } fun _ => True := by
  refine ⟨?_, ?_, ?_⟩
  · intro a _ rest
    simp only [Reader.bind_apply, readN_reads' (leN k (num a)) (leN_length _ _) rest, Reader.pure_apply, ofLE_leN,
      Nat.mod_eq_of_lt (h2 a), h1]
  · intro a _; simp
  · intro bs a rest h
    obtain ⟨b, mid, hb, h⟩ := Reader.bind_ok h
    obtain ⟨rfl, rfl⟩ := Reader.pure_ok h
    obtain ⟨rfl, hl⟩ := readN_inv hb
    refine ⟨?_, trivial⟩
    have := ofLE_lt b
    rw [hl] at this
    simp only [h3 _ this]
    have e := leN_ofLE b
    rw [hl] at e
    rw [e]

theorem u8_good : u8.Good fun _ => True :=
  int_good 1 UInt8.ofNat UInt8.toNat (fun a => by simp) (fun a => a.toNat_lt)
    (fun n h => by rw [UInt8.toNat_ofNat']; exact Nat.mod_eq_of_lt h)

theorem u16_good : u16.Good fun _ => True :=
  int_good 2 UInt16.ofNat UInt16.toNat (fun a => by simp) (fun a => a.toNat_lt)
    (fun n h => by rw [UInt16.toNat_ofNat']; exact Nat.mod_eq_of_lt h)

theorem u32_good : u32.Good fun _ => True :=
  int_good 4 UInt32.ofNat UInt32.toNat (fun a => by simp) (fun a => a.toNat_lt)
    (fun n h => by rw [UInt32.toNat_ofNat']; exact Nat.mod_eq_of_lt h)

theorem u64_good : u64.Good fun _ => True :=
  int_good 8 UInt64.ofNat UInt64.toNat (fun a => by simp) (fun a => a.toNat_lt)
    (fun n h => by rw [UInt64.toNat_ofNat']; exact Nat.mod_eq_of_lt h)

theorem u128_good : u128.Good fun _ => True :=
  int_good 16 (BitVec.ofNat 128) BitVec.toNat (fun a => by simp) (fun a => a.isLt)
    (fun n h => by rw [BitVec.toNat_ofNat]; exact Nat.mod_eq_of_lt h)

/-- The integers an `i64` can hold. -/
def IsI64 (x : Int) : Prop := i64Min ≤ x ∧ x ≤ i64Max

theorem i64_good : i64.Good IsI64 := by
  have p : (256 : Nat) ^ 8 = 2 ^ 64 := by decide
  refine ⟨?_, ?_, ?_⟩
  · intro a ha rest
    obtain ⟨h1, h2⟩ := ha
    unfold i64Min at h1
    unfold i64Max at h2
    have hr := readN_reads' (n := 8) (leN 8 (a % 2 ^ 64).toNat) (leN_length _ _) rest
    simp only [i64, Reader.bind_apply, hr, Reader.pure_apply, ofLE_leN]
    congr 2
    rw [p, Nat.mod_eq_of_lt (by omega)]
    split <;> omega
  · intro a _; simp [i64]
  · intro bs a rest h
    obtain ⟨b, mid, hb, h⟩ := Reader.bind_ok h
    obtain ⟨e, rfl⟩ := Reader.pure_ok h
    obtain ⟨rfl, hl⟩ := readN_inv hb
    have hlt := ofLE_lt b
    rw [hl, p] at hlt
    have hv : IsI64 a ∧ (a % 2 ^ 64).toNat = ofLE b := by
      rw [← e]
      unfold IsI64 i64Min i64Max
      constructor
      · split <;> omega
      · split <;> omega
    refine ⟨?_, hv.1⟩
    have e' := leN_ofLE b
    rw [hl] at e'
    simp only [i64, hv.2, e']

theorem key_good : key.Good fun _ => True :=
  ⟨fun a _ => readBytes32_reads a, fun a _ => Nat.le_of_eq a.len, fun _ _ _ h => ⟨readBytes32_inv h, trivial⟩⟩

/-- Reading a tag byte. -/
theorem tag_apply (b : UInt8) (rest : Bytes) : borshU8 (b :: rest) = .ok (b, rest) := by
  have h := borshU8_reads b rest
  have e : leN 1 b.toNat = [b] := by simp [leN]
  rw [e] at h
  exact h

theorem tag_inv {bs rest : Bytes} {b : UInt8} (h : borshU8 bs = .ok (b, rest)) : bs = b :: rest := by
  have := (u8_good.canon bs b rest h).1
  have e : leN 1 b.toNat = [b] := by simp [leN]
  simpa [u8, e] using this

theorem bool_good : bool.Good fun _ => True := by
  refine ⟨?_, ?_, ?_⟩
  · intro a _ rest
    cases a <;> simp [bool, Reader.bind_apply, tag_apply, Reader.pure_apply]
  · intro a _; simp [bool]
  · intro bs a rest h
    obtain ⟨b, mid, hb, h'⟩ := Reader.bind_ok h
    clear h
    have h := h'
    clear h'
    have := tag_inv hb
    subst this
    split at h
    · obtain ⟨rfl, rfl⟩ := Reader.pure_ok h; subst b; exact ⟨rfl, trivial⟩
    · split at h
      · obtain ⟨rfl, rfl⟩ := Reader.pure_ok h; subst b; exact ⟨rfl, trivial⟩
      · cases h

theorem mode_good : mode.Good fun _ => True := by
  refine ⟨?_, ?_, ?_⟩
  · intro a _ rest
    cases a <;> simp [mode, Reader.bind_apply, tag_apply, Reader.pure_apply]
  · intro a _; cases a <;> simp [mode]
  · intro bs a rest h
    obtain ⟨b, mid, hb, h'⟩ := Reader.bind_ok h
    clear h
    have h := h'
    clear h'
    have := tag_inv hb
    subst this
    split at h
    · obtain ⟨rfl, rfl⟩ := Reader.pure_ok h; subst b; exact ⟨rfl, trivial⟩
    · split at h
      · obtain ⟨rfl, rfl⟩ := Reader.pure_ok h; subst b; exact ⟨rfl, trivial⟩
      · cases h

theorem option_good {α : Type} {c : Borsh α} {v : α → Prop} (hc : c.Good v) :
    c.option.Good fun o => ∀ a, o = some a → v a := by
  refine ⟨?_, ?_, ?_⟩
  · intro o ho rest
    cases o with
    | none => simp [option, Reader.bind_apply, tag_apply, Reader.pure_apply]
    | some a => simp [option, Reader.bind_apply, tag_apply, Reader.map_apply, hc.reads a (ho a rfl) rest]
  · intro o ho
    cases o with
    | none => simp [option]
    | some a => have := hc.fits a (ho a rfl); simp [option]; omega
  · intro bs o rest h
    obtain ⟨b, mid, hb, h'⟩ := Reader.bind_ok h
    clear h
    have h := h'
    clear h'
    have := tag_inv hb
    subst this
    split at h
    · obtain ⟨rfl, rfl⟩ := Reader.pure_ok h; subst b; exact ⟨rfl, fun _ e => by cases e⟩
    · split at h
      · obtain ⟨a, mid', ha, h⟩ := Reader.bind_ok h
        obtain ⟨rfl, rfl⟩ := Reader.pure_ok h
        obtain ⟨rfl, hv⟩ := hc.canon _ _ _ ha
        subst b
        exact ⟨rfl, fun _ e => by cases e; exact hv⟩
      · cases h

theorem pair_good {α β : Type} {c : Borsh α} {d : Borsh β} {v : α → Prop} {w : β → Prop} (hc : c.Good v)
    (hd : d.Good w) : (c.pair d).Good fun x => v x.1 ∧ w x.2 := by
  refine ⟨?_, ?_, ?_⟩
  · rintro ⟨a, b⟩ ⟨ha, hb⟩ rest
    simp only [pair, List.append_assoc, Reader.bind_apply, hc.reads a ha _, hd.reads b hb _, Reader.pure_apply]
  · rintro ⟨a, b⟩ ⟨ha, hb⟩
    have := hc.fits a ha
    have := hd.fits b hb
    simp only [pair, List.length_append]
    omega
  · rintro bs ⟨a, b⟩ rest h
    obtain ⟨a', mid, h1, h⟩ := Reader.bind_ok h
    obtain ⟨b', mid', h2, h⟩ := Reader.bind_ok h
    obtain ⟨e, rfl⟩ := Reader.pure_ok h
    cases e
    obtain ⟨rfl, hv⟩ := hc.canon _ _ _ h1
    obtain ⟨rfl, hw⟩ := hd.canon _ _ _ h2
    exact ⟨by simp [pair], hv, hw⟩

theorem struct_good {α β : Type} {c : Borsh α} {v : α → Prop} {mk : α → β} {fields : β → α} (hc : c.Good v)
    (h1 : ∀ b, mk (fields b) = b) (h2 : ∀ a, fields (mk a) = a) :
    (c.struct mk fields).Good fun b => v (fields b) := by
  refine ⟨?_, ?_, ?_⟩
  · intro b hb rest
    simp only [struct, Reader.bind_apply, hc.reads _ hb _, Reader.pure_apply, h1]
  · intro b hb; exact hc.fits _ hb
  · intro bs b rest h
    obtain ⟨a, mid, ha, h⟩ := Reader.bind_ok h
    obtain ⟨rfl, rfl⟩ := Reader.pure_ok h
    obtain ⟨rfl, hv⟩ := hc.canon _ _ _ ha
    refine ⟨?_, by rw [h2]; exact hv⟩
    simp only [struct, h2]

theorem Good.weaken {α : Type} {c : Borsh α} {v w : α → Prop} (h : c.Good v) (e : ∀ a, w a ↔ v a) : c.Good w :=
  ⟨fun a ha => h.reads a ((e a).mp ha), fun a ha => h.fits a ((e a).mp ha), fun bs a rest hr =>
    ⟨(h.canon bs a rest hr).1, (e a).mpr (h.canon bs a rest hr).2⟩⟩

theorem releaseStatus_good : releaseStatus.Good fun r => ∀ t, r = .releaseAfter t → IsI64 t := by
  refine ⟨?_, ?_, ?_⟩
  · intro r hr rest
    cases r with
    | notApproved => simp [releaseStatus, Reader.bind_apply, tag_apply, Reader.pure_apply]
    | released => simp [releaseStatus, Reader.bind_apply, tag_apply, Reader.pure_apply]
    | releaseAfter t =>
      simp [releaseStatus, Reader.bind_apply, tag_apply, Reader.map_apply, i64_good.reads t (hr t rfl) rest]
  · intro r hr
    cases r with
    | notApproved => simp [releaseStatus]
    | released => simp [releaseStatus]
    | releaseAfter t => simp [releaseStatus, i64]
  · intro bs r rest h
    obtain ⟨b, mid, hb, h'⟩ := Reader.bind_ok h
    clear h
    have h := h'
    clear h'
    have := tag_inv hb
    subst this
    split at h
    · obtain ⟨rfl, rfl⟩ := Reader.pure_ok h; subst b; exact ⟨rfl, fun _ e => by cases e⟩
    · split at h
      · obtain ⟨a, mid', ha, h⟩ := Reader.bind_ok h
        obtain ⟨rfl, rfl⟩ := Reader.pure_ok h
        obtain ⟨rfl, hv⟩ := i64_good.canon _ _ _ ha
        subst b
        exact ⟨rfl, fun _ e => by cases e; exact hv⟩
      · split at h
        · obtain ⟨rfl, rfl⟩ := Reader.pure_ok h; subst b; exact ⟨rfl, fun _ e => by cases e⟩
        · cases h

theorem bitmap_good : bitmap.Good fun _ => True := struct_good u128_good (fun _ => rfl) (fun _ => rfl)

theorem rateLimit_good : rateLimit.Good fun r => IsI64 r.lastTxTimestamp :=
  (struct_good (pair_good u64_good (pair_good u64_good i64_good)) (fun _ => rfl) (fun _ => rfl)).weaken
    fun r => by simp

theorem trimmedAmount_good : trimmedAmount.Good fun _ => True :=
  (struct_good (pair_good u64_good u8_good) (fun _ => rfl) (fun _ => rfl)).weaken fun r => by simp

theorem config_good : config.Good fun _ => True :=
  (struct_good (pair_good u8_good (pair_good key_good (pair_good (option_good key_good) (pair_good key_good
    (pair_good key_good (pair_good mode_good (pair_good u16_good (pair_good u8_good (pair_good u8_good
    (pair_good bitmap_good (pair_good bool_good key_good))))))))))) (fun _ => rfl) (fun _ => rfl)).weaken
    fun r => by simp

theorem inboxRateLimit_good : inboxRateLimit.Good fun r => IsI64 r.2.lastTxTimestamp :=
  (pair_good u8_good rateLimit_good).weaken fun r => by simp

theorem inboxItem_good : inboxItem.Good fun r => ∀ t, r.2.releaseStatus = .releaseAfter t → IsI64 t :=
  (struct_good (pair_good bool_good (pair_good u8_good (pair_good u64_good (pair_good key_good
    (pair_good bitmap_good releaseStatus_good))))) (fun _ => rfl) (fun _ => rfl)).weaken fun r => by simp

theorem outboxItem_good : outboxItem.Good fun r => IsI64 r.releaseTimestamp :=
  (struct_good (pair_good trimmedAmount_good (pair_good key_good (pair_good u16_good (pair_good key_good
    (pair_good key_good (pair_good i64_good bitmap_good)))))) (fun _ => rfl) (fun _ => rfl)).weaken fun r => by simp

theorem nttManagerPeer_good : nttManagerPeer.Good fun _ => True :=
  (struct_good (pair_good u8_good (pair_good key_good u8_good)) (fun _ => rfl) (fun _ => rfl)).weaken fun r => by simp

theorem registeredTransceiver_good : registeredTransceiver.Good fun _ => True :=
  (struct_good (pair_good u8_good (pair_good u8_good key_good)) (fun _ => rfl) (fun _ => rfl)).weaken fun r => by simp

theorem bumpKey_good : (u8.pair key).Good fun _ => True := (pair_good u8_good key_good).weaken fun r => by simp

theorem validatedMessage_good : validatedMessage.Good fun _ => True :=
  (struct_good (pair_good u16_good (pair_good key_good (pair_good key_good (pair_good key_good (pair_good key_good
    (pair_good trimmedAmount_good (pair_good key_good (pair_good u16_good key_good)))))))) (fun _ => rfl)
    (fun _ => rfl)).weaken fun r => by simp

theorem quoterInstance_good : quoterInstance.Good fun _ => True :=
  (struct_good (pair_good key_good (pair_good key_good (pair_good key_good u64_good))) (fun _ => rfl)
    (fun _ => rfl)).weaken fun r => by simp

theorem registeredChain_good : registeredChain.Good fun _ => True :=
  (struct_good (pair_good u8_good (pair_good u64_good (pair_good u64_good (pair_good u64_good u64_good))))
    (fun _ => rfl) (fun _ => rfl)).weaken fun r => by simp

theorem registeredNtt_good : registeredNtt.Good fun _ => True :=
  (struct_good (pair_good u8_good (pair_good u8_good u32_good)) (fun _ => rfl) (fun _ => rfl)).weaken fun r => by simp

end Borsh

section
variable {α : Type} {c : Borsh α} {v : α → Prop}

theorem store_ok_iff {disc : Discriminator} {a : α} {data data' : Bytes} :
    store disc c a data = .ok data' ↔ 8 + (c.write a).length ≤ data.length ∧
      data' = disc.val ++ (c.write a ++ data.drop (8 + (c.write a).length)) := by
  simp only [store, List.length_append, disc.len]
  split
  · rename_i h
    simp only [Except.ok.injEq, h, true_and, List.append_assoc]
    exact eq_comm
  · rename_i h
    simp [h]

theorem check_append (disc : Discriminator) (x : Bytes) : discriminatorCheck disc (disc.val ++ x) = .ok () := by
  have h1 : ¬ (disc.val ++ x).length < 8 := by simp [disc.len]
  have h2 : (disc.val ++ x).take 8 = disc.val := List.take_left' disc.len
  simp only [discriminatorCheck, if_neg h1, h2, ne_eq, not_true, if_false]

theorem load_store (hc : c.Good v) {disc : Discriminator} {a : α} (ha : v a) {data data' : Bytes}
    (h : store disc c a data = .ok data') : load disc c data' = .ok a ∧ data'.length = data.length := by
  obtain ⟨hl, rfl⟩ := store_ok_iff.mp h
  constructor
  · simp only [load, check_append, bind, Except.bind, List.drop_left' disc.len, hc.reads a ha _]
  · simp [disc.len]; omega

theorem load_inv (hc : c.Good v) {disc : Discriminator} {a : α} {data : Bytes} (h : load disc c data = .ok a) :
    v a ∧ ∃ rest, data = disc.val ++ (c.write a ++ rest) := by
  simp only [load, ex_bind_ok] at h
  obtain ⟨u, hd, h⟩ := h
  obtain ⟨hlen, htake⟩ := discriminatorCheck_ok hd
  cases hr : c.read (data.drop 8) with
  | error e => rw [hr] at h; cases h
  | ok r =>
    obtain ⟨a', rest⟩ := r
    rw [hr] at h
    cases h
    obtain ⟨e, hv⟩ := hc.canon _ _ _ hr
    refine ⟨hv, rest, ?_⟩
    rw [← e, htake, List.take_append_drop]

end
end Ntt

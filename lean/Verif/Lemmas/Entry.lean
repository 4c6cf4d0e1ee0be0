import Verif.Spec.Entry
import Verif.Lemmas.Accounts
/-! # Lemmas on instruction data -/
namespace Ntt.Entry
open Ntt Ntt.Spec Ntt.Raw

/-- The selectors, computed. -/
def code : Request → Bytes
  | .initializeManager _ => [175, 175, 109, 31, 13, 152, 155, 237]
  | .initializeLut _ => [155, 112, 198, 112, 126, 145, 105, 93]
  | .version => [118, 65, 195, 198, 129, 216, 252, 192]
  | .transferBurn _ => [75, 144, 26, 232, 39, 12, 75, 222]
  | .transferLock _ => [179, 158, 146, 148, 151, 46, 176, 200]
  | .redeem => [184, 12, 86, 149, 70, 196, 97, 225]
  | .releaseInboundMint _ => [12, 233, 74, 65, 60, 168, 49, 120]
  | .releaseInboundUnlock _ => [182, 162, 62, 206, 197, 137, 83, 98]
  | .transferOwnership => [65, 177, 215, 73, 53, 45, 99, 47]
  | .transferOwnershipOneStep => [130, 225, 134, 241, 78, 158, 4, 247]
  | .claimOwnership => [236, 166, 239, 222, 14, 45, 143, 254]
  | .setPaused _ => [91, 60, 125, 192, 176, 225, 166, 218]
  | .setPeer _ => [32, 70, 184, 229, 200, 115, 227, 177]
  | .registerTransceiver => [172, 141, 32, 200, 110, 135, 174, 119]
  | .setOutboundLimit _ => [218, 8, 1, 204, 167, 233, 10, 158]
  | .setInboundLimit _ _ => [45, 97, 172, 137, 164, 31, 209, 89]
  | .markOutboxItemAsReleased => [93, 152, 147, 221, 52, 245, 124, 107]
  | .setTransceiverPeer _ _ => [97, 196, 136, 33, 56, 25, 65, 109]
  | .receiveMessage => [134, 213, 143, 68, 235, 102, 232, 96]
  | .releaseOutbound _ => [202, 87, 51, 173, 142, 160, 188, 204]
  | .broadcastId => [199, 150, 145, 110, 189, 250, 86, 15]
  | .broadcastPeer _ => [201, 172, 42, 33, 200, 176, 49, 27]

set_option maxRecDepth 100000 in
theorem selector_code (r : Request) : selector r = code r := by
  cases r <;> simp only [selector, functionName, code] <;> decide +kernel

/-- The discriminators, computed. -/
def discCode : Kind → Bytes
  | .config => [155, 12, 170, 224, 30, 250, 204, 130]
  | .outboxRateLimit => [90, 54, 0, 72, 47, 186, 27, 88]
  | .inboxRateLimit => [239, 208, 232, 202, 74, 7, 235, 252]
  | .inboxItem => [237, 141, 204, 103, 187, 122, 57, 92]
  | .outboxItem => [8, 26, 126, 68, 121, 204, 188, 198]
  | .peer => [68, 173, 180, 96, 108, 182, 27, 82]
  | .transceiver => [231, 104, 182, 96, 168, 43, 216, 20]
  | .transceiverPeer => [178, 48, 7, 70, 2, 108, 85, 201]
  | .lut => [112, 62, 48, 33, 152, 111, 231, 21]
  | .message => [97, 0, 112, 125, 107, 220, 37, 181]

set_option maxRecDepth 100000 in
theorem discriminator_code (k : Kind) :
    (Sha256.sha256 (ascii ['a', 'c', 'c', 'o', 'u', 'n', 't', ':'] ++ ascii (typeName k))).take 8 = discCode k := by
  cases k <;> decide +kernel

set_option maxRecDepth 100000 in
theorem idl_code : (Sha256.sha256 (ascii ['i', 'n', 't', 'e', 'r', 'n', 'a', 'l', ':', 'I', 'd', 'l', 'A', 'c', 'c', 'o', 'u', 'n',
    't'])).take 8 = [24, 70, 98, 191, 58, 144, 123, 158] := by decide +kernel

theorem good_all {α : Type} {c : Borsh α} {v : α → Prop} (h : c.Good v) (hv : ∀ a, v a) : c.Good fun _ => True :=
  ⟨fun a _ => h.reads a (hv a), fun a _ => h.fits a (hv a), fun bs a rest hr => ⟨(h.canon bs a rest hr).1, trivial⟩⟩

theorem initializeArgs_good : initializeArgs.Good fun _ => True := by
  unfold initializeArgs
  exact good_all (Borsh.struct_good (Borsh.pair_good Borsh.u16_good (Borsh.pair_good Borsh.u64_good Borsh.mode_good))
    (fun _ => rfl) (fun _ => rfl)) (fun _ => ⟨trivial, trivial, trivial⟩)

theorem transferArgs_good : transferArgs.Good fun _ => True := by
  unfold transferArgs
  exact good_all (Borsh.struct_good (Borsh.pair_good Borsh.u64_good (Borsh.pair_good Borsh.u16_good
    (Borsh.pair_good Borsh.key_good Borsh.bool_good))) (fun _ => rfl) (fun _ => rfl)) (fun _ => ⟨trivial, trivial, trivial, trivial⟩)

theorem setPeerArgs_good : setPeerArgs.Good fun _ => True := by
  unfold setPeerArgs
  exact good_all (Borsh.struct_good (Borsh.pair_good Borsh.u16_good (Borsh.pair_good Borsh.key_good
    (Borsh.pair_good Borsh.u64_good Borsh.u8_good))) (fun _ => rfl) (fun _ => rfl)) (fun _ => ⟨trivial, trivial, trivial, trivial⟩)

theorem inboundLimitArgs_good : (Borsh.u64.pair Borsh.u16).Good fun _ => True :=
  good_all (Borsh.pair_good Borsh.u64_good Borsh.u16_good) fun _ => ⟨trivial, trivial⟩

theorem transceiverPeerArgs_good : (Borsh.u16.pair Borsh.key).Good fun _ => True :=
  good_all (Borsh.pair_good Borsh.u16_good Borsh.key_good) fun _ => ⟨trivial, trivial⟩

theorem arg_reads {α : Type} {c : Borsh α} (h : c.Good fun _ => True) (mk : α → Request) (a : α) (junk : Bytes) :
    arg c mk (c.write a ++ junk) = .ok (mk a) := by
  simp only [arg, h.reads a trivial junk]

theorem arg_canon {α : Type} {c : Borsh α} (h : c.Good fun _ => True) {mk : α → Request} {bs : Bytes} {r : Request}
    (hr : arg c mk bs = .ok r) : ∃ a junk, bs = c.write a ++ junk ∧ r = mk a := by
  unfold arg at hr
  split at hr
  · rename_i a rest hx
    cases hr
    exact ⟨a, rest, (h.canon _ _ _ hx).1, rfl⟩
  · cases hr

/-- The Borsh encoding of the arguments. -/
def body : Request → Bytes
  | .initializeManager a => initializeArgs.write a
  | .initializeLut a => Borsh.u64.write a
  | .version => []
  | .transferBurn a => transferArgs.write a
  | .transferLock a => transferArgs.write a
  | .redeem => []
  | .releaseInboundMint a => Borsh.bool.write a
  | .releaseInboundUnlock a => Borsh.bool.write a
  | .transferOwnership => []
  | .transferOwnershipOneStep => []
  | .claimOwnership => []
  | .setPaused a => Borsh.bool.write a
  | .setPeer a => setPeerArgs.write a
  | .registerTransceiver => []
  | .setOutboundLimit a => Borsh.u64.write a
  | .setInboundLimit a b => (Borsh.u64.pair Borsh.u16).write (a, b)
  | .markOutboxItemAsReleased => []
  | .setTransceiverPeer a b => (Borsh.u16.pair Borsh.key).write (a, b)
  | .receiveMessage => []
  | .releaseOutbound a => Borsh.bool.write a
  | .broadcastId => []
  | .broadcastPeer a => Borsh.u16.write a

theorem body_eq (r : Request) : body r = argumentBytes r := by
  cases r <;> simp only [body, argumentBytes, initializeArgs, transferArgs, setPeerArgs, Borsh.struct, Borsh.pair, Borsh.u8, Borsh.u16, Borsh.u64, Borsh.key, Borsh.bool, Borsh.mode, flagByte, List.append_assoc]
  rfl

theorem wire_eq (r : Request) : wire r = code r ++ body r := by rw [wire, selector_code, body_eq]

theorem decode_wire (r : Request) (junk : Bytes) : decode (wire r ++ junk) = .ok r := by
  rw [wire_eq, List.append_assoc]
  cases r with
  | initializeManager a => exact arg_reads initializeArgs_good .initializeManager a junk
  | initializeLut a => exact arg_reads Borsh.u64_good .initializeLut a junk
  | version => rfl
  | transferBurn a => exact arg_reads transferArgs_good .transferBurn a junk
  | transferLock a => exact arg_reads transferArgs_good .transferLock a junk
  | redeem => rfl
  | releaseInboundMint a => exact arg_reads Borsh.bool_good .releaseInboundMint a junk
  | releaseInboundUnlock a => exact arg_reads Borsh.bool_good .releaseInboundUnlock a junk
  | transferOwnership => rfl
  | transferOwnershipOneStep => rfl
  | claimOwnership => rfl
  | setPaused a => exact arg_reads Borsh.bool_good .setPaused a junk
  | setPeer a => exact arg_reads setPeerArgs_good .setPeer a junk
  | registerTransceiver => rfl
  | setOutboundLimit a => exact arg_reads Borsh.u64_good .setOutboundLimit a junk
  | setInboundLimit a b => exact arg_reads inboundLimitArgs_good (fun x => .setInboundLimit x.1 x.2) (a, b) junk
  | markOutboxItemAsReleased => rfl
  | setTransceiverPeer a b => exact arg_reads transceiverPeerArgs_good (fun x => .setTransceiverPeer x.1 x.2) (a, b) junk
  | receiveMessage => rfl
  | releaseOutbound a => exact arg_reads Borsh.bool_good .releaseOutbound a junk
  | broadcastId => rfl
  | broadcastPeer a => exact arg_reads Borsh.u16_good .broadcastPeer a junk

theorem ite_ok {c : Prop} [Decidable c] {x y : Except Err Request} {r : Request} (h : (if c then x else y) = .ok r) :
    (c ∧ x = .ok r) ∨ y = .ok r := by
  by_cases hc : c
  · rw [if_pos hc] at h; exact Or.inl ⟨hc, h⟩
  · rw [if_neg hc] at h; exact Or.inr h

theorem dispatch_canon {sel rest : Bytes} {r : Request} (h : dispatch sel rest = .ok r) :
    ∃ junk, sel ++ rest = code r ++ (body r ++ junk) := by
  unfold dispatch at h
  rcases ite_ok h with ⟨hs, h⟩ | h
  · subst hs
    obtain ⟨x, junk, rfl, rfl⟩ := arg_canon initializeArgs_good h
    exact ⟨junk, rfl⟩
  rcases ite_ok h with ⟨hs, h⟩ | h
  · subst hs
    obtain ⟨x, junk, rfl, rfl⟩ := arg_canon Borsh.u64_good h
    exact ⟨junk, rfl⟩
  rcases ite_ok h with ⟨hs, h⟩ | h
  · subst hs
    cases h
    exact ⟨rest, rfl⟩
  rcases ite_ok h with ⟨hs, h⟩ | h
  · subst hs
    obtain ⟨x, junk, rfl, rfl⟩ := arg_canon transferArgs_good h
    exact ⟨junk, rfl⟩
  rcases ite_ok h with ⟨hs, h⟩ | h
  · subst hs
    obtain ⟨x, junk, rfl, rfl⟩ := arg_canon transferArgs_good h
    exact ⟨junk, rfl⟩
  rcases ite_ok h with ⟨hs, h⟩ | h
  · subst hs
    cases h
    exact ⟨rest, rfl⟩
  rcases ite_ok h with ⟨hs, h⟩ | h
  · subst hs
    obtain ⟨x, junk, rfl, rfl⟩ := arg_canon Borsh.bool_good h
    exact ⟨junk, rfl⟩
  rcases ite_ok h with ⟨hs, h⟩ | h
  · subst hs
    obtain ⟨x, junk, rfl, rfl⟩ := arg_canon Borsh.bool_good h
    exact ⟨junk, rfl⟩
  rcases ite_ok h with ⟨hs, h⟩ | h
  · subst hs
    cases h
    exact ⟨rest, rfl⟩
  rcases ite_ok h with ⟨hs, h⟩ | h
  · subst hs
    cases h
    exact ⟨rest, rfl⟩
  rcases ite_ok h with ⟨hs, h⟩ | h
  · subst hs
    cases h
    exact ⟨rest, rfl⟩
  rcases ite_ok h with ⟨hs, h⟩ | h
  · subst hs
    obtain ⟨x, junk, rfl, rfl⟩ := arg_canon Borsh.bool_good h
    exact ⟨junk, rfl⟩
  rcases ite_ok h with ⟨hs, h⟩ | h
  · subst hs
    obtain ⟨x, junk, rfl, rfl⟩ := arg_canon setPeerArgs_good h
    exact ⟨junk, rfl⟩
  rcases ite_ok h with ⟨hs, h⟩ | h
  · subst hs
    cases h
    exact ⟨rest, rfl⟩
  rcases ite_ok h with ⟨hs, h⟩ | h
  · subst hs
    obtain ⟨x, junk, rfl, rfl⟩ := arg_canon Borsh.u64_good h
    exact ⟨junk, rfl⟩
  rcases ite_ok h with ⟨hs, h⟩ | h
  · subst hs
    obtain ⟨x, junk, rfl, rfl⟩ := arg_canon inboundLimitArgs_good h
    exact ⟨junk, rfl⟩
  rcases ite_ok h with ⟨hs, h⟩ | h
  · subst hs
    cases h
    exact ⟨rest, rfl⟩
  rcases ite_ok h with ⟨hs, h⟩ | h
  · subst hs
    obtain ⟨x, junk, rfl, rfl⟩ := arg_canon transceiverPeerArgs_good h
    exact ⟨junk, rfl⟩
  rcases ite_ok h with ⟨hs, h⟩ | h
  · subst hs
    cases h
    exact ⟨rest, rfl⟩
  rcases ite_ok h with ⟨hs, h⟩ | h
  · subst hs
    obtain ⟨x, junk, rfl, rfl⟩ := arg_canon Borsh.bool_good h
    exact ⟨junk, rfl⟩
  rcases ite_ok h with ⟨hs, h⟩ | h
  · subst hs
    cases h
    exact ⟨rest, rfl⟩
  rcases ite_ok h with ⟨hs, h⟩ | h
  · subst hs
    obtain ⟨x, junk, rfl, rfl⟩ := arg_canon Borsh.u16_good h
    exact ⟨junk, rfl⟩
  cases h

theorem decode_canon {bs : Bytes} {r : Request} (h : decode bs = .ok r) : ∃ junk, bs = wire r ++ junk := by
  unfold decode at h
  split at h
  · obtain ⟨junk, hj⟩ := dispatch_canon h
    exact ⟨junk, by rw [wire_eq, List.append_assoc, ← hj]; rfl⟩
  · cases h

end Ntt.Entry

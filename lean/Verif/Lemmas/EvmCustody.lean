import Verif.Lemmas.EvmOutbound
import Mathlib.Algebra.BigOperators.Group.Finset.Basic
import Mathlib.Algebra.Order.BigOperators.Group.Finset
import Mathlib.Algebra.BigOperators.Ring.Nat
/-! Where the tokens of an EVM deployment go. -/
namespace Ntt.Evm
open Ntt Ntt.Spec

/-! ### The token -/

theorem move_ok {t t' : Erc20} {fee : Fee} {src dst : Address} {n : Nat} (h : t.move fee src dst n = .ok t') :
    src ≠ Address.zero ∧ dst ≠ Address.zero ∧ n ≤ t.balance src ∧ t'.supply = t.supply ∧
    (∀ a, a ≠ src → t.balance a ≤ t'.balance a) ∧ t.balance src ≤ t'.balance src + n ∧
    (dst ≠ src → t.balance dst + (n - Nat.min (fee.of n) n) ≤ t'.balance dst) := by
  unfold Erc20.move at h
  rw [need_bind, need_bind] at h
  obtain ⟨⟨h1, h2⟩, h3, h⟩ := h
  rw [← Except.ok.inj h]
  refine ⟨h1, h2, h3, rfl, ?_, ?_, ?_⟩
  · intro a ha
    simp only [upd]
    grind
  · simp only [upd]
    grind
  · intro hd
    simp only [upd]
    grind

theorem burn_ok {t t' : Erc20} {src : Address} {n : Nat} (h : t.burn src n = .ok t') :
    n ≤ t.balance src ∧ t'.supply = t.supply - n ∧ (∀ a, a ≠ src → t'.balance a = t.balance a) ∧
    t'.balance src = t.balance src - n := by
  unfold Erc20.burn at h
  rw [need_bind] at h
  obtain ⟨h1, h⟩ := h
  rw [← Except.ok.inj h]
  exact ⟨h1, rfl, fun a ha => upd_other _ _ ha, upd_same _ _ _⟩

theorem mint_ok {t t' : Erc20} {dst : Address} {n : Nat} (h : t.mint dst n = .ok t') :
    dst ≠ Address.zero ∧ t.supply + n < 2 ^ 256 ∧ t'.supply = t.supply + n ∧
    (∀ a, a ≠ dst → t'.balance a = t.balance a) ∧ t'.balance dst = t.balance dst + n := by
  unfold Erc20.mint at h
  rw [need_bind, need_bind] at h
  obtain ⟨h1, h2, h⟩ := h
  rw [← Except.ok.inj h]
  exact ⟨h1, h2, rfl, fun a ha => upd_other _ _ ha, upd_same _ _ _⟩

/-! ### What a call does to it -/

/-- What a call did to the token, and which payments and takings it reported. -/
inductive Moves (e : Env) (c : Ctx) (k : Call) (t t' : Erc20) (ev : List Event) : Prop where
  | none (ht : t' = t) (hp : evmPayments ev = []) (ht : evmTakings ev = [])
  | pays (r : Address) (n : Nat) (h : Pays e t r n t') (hp : evmPayments ev = [(r, n)]) (ht : evmTakings ev = [])
  | pulls (n received : Nat) (hk : evmSpent k = n) (h : Pulls e t c.sender n received t')
      (hp : evmPayments ev = []) (ht : evmTakings ev = [(c.sender, received)])
  | move (dst : Address) (n : Nat) (hk : evmSpent k = n) (h : t.move e.fee c.sender dst n = .ok t') (hev : ev = [])
  | burn (n : Nat) (hk : k = .tokenBurn n) (h : t.burn c.sender n = .ok t') (hev : ev = [])

theorem sends_money {e : Env} {s : State} {q : UInt64} {a : Amount} {ch : UInt16} {r : Bytes32} {sd : Address}
    {ev : List Event} (h : Sends e s q a ch r sd ev) : evmPayments ev = [] ∧ evmTakings ev = [] := by
  obtain ⟨-, -, msg, -, hx⟩ := h
  constructor <;>
  · rw [List.eq_nil_iff_forall_not_mem]
    intro p hp
    obtain ⟨x, hm, hf⟩ := List.mem_filterMap.mp hp
    rcases (hx x).mp hm with ⟨t, -, rfl⟩ | ⟨t, -, -, p, -, rfl⟩ <;> simp at hf

theorem executeMsg_moves {e : Env} {c c' : Ctx} {k : Call} {src : UInt16} {m : Evm.NttManagerMessage} {s s' : State}
    {ev ev0 : List Event} (h : executeMsg e c' src m s = .ok (s', ev))
    (h0 : evmPayments ev0 = [] ∧ evmTakings ev0 = []) : Moves e c k s.token s'.token (ev0 ++ ev) := by
  have hp : evmPayments (ev0 ++ ev) = evmPayments ev := by
    unfold evmPayments at *; rw [List.filterMap_append, h0.1, List.nil_append]
  have ht : evmTakings (ev0 ++ ev) = evmTakings ev := by
    unfold evmTakings at *; rw [List.filterMap_append, h0.2, List.nil_append]
  obtain ⟨-, d, hd, ap, ⟨_, rfl, rfl⟩ | ⟨nx, h⟩⟩ := executeMsg_ok h
  · exact .none rfl hp ht
  · obtain ⟨r, a, asks', ⟨hl, rfl⟩ | ⟨s1, n, hl, hm, rfl⟩⟩ := handleTransfer_ok h
    · obtain ⟨_, _, rfl⟩ | ⟨hb, _⟩ := inboundLimit_ok hl
      · exact .none rfl hp ht
      · cases hb
    · obtain ⟨hb, _⟩ | ⟨_, _, inL, outL, _, _, rfl⟩ := inboundLimit_ok hl
      · cases hb
      · obtain ⟨hn, token, rfl, hpay⟩ := pays_of hm
        exact .pays r n hpay hp ht

theorem attestationReceived_moves {e : Env} {c c' : Ctx} {k : Call} {src : UInt16} {sm : Bytes32}
    {m : Evm.NttManagerMessage} {s s' : State} {ev : List Event}
    (h : attestationReceived e c' src sm m s = .ok (s', ev)) : Moves e c k s.token s'.token ev := by
  obtain ⟨en, -, -, d, s1, hr, h'⟩ := attestationReceived_ok h
  obtain ⟨hd, free, rfl⟩ := recordAttestation_ok hr
  obtain ⟨-, ev', h2, rfl⟩ | ⟨-, rfl, rfl⟩ := h'
  · have := executeMsg_moves (c := c) (k := k) (ev0 := [.attested d c'.sender]) h2 ⟨rfl, rfl⟩
    exact this
  · exact .none rfl rfl rfl

theorem deliver_moves {e : Env} {c c' : Ctx} {k' : Call} {t : Address} {src : UInt16} {p : Bytes} {s s' : State}
    {ev : List Event} (h : deliver e c t src p s = .ok (s', ev)) : Moves e c' k' s.token s'.token ev := by
  obtain ⟨tm, m, -, -, h⟩ := deliver_ok h
  exact attestationReceived_moves h

theorem call_moves {e : Env} {c : Ctx} {k : Call} {s s' : State} {ev : List Event}
    (h : call e c k s = .ok (s', ev)) : Moves e c k s.token s'.token ev := by
  cases k with
  | transfer amount chain recipient refundAddress shouldQueue instructions =>
    obtain ⟨small, h⟩ := need_bind.mp h
    obtain ⟨-, -, hr, received, s1, a, b, hq, ha, fits, hl, h⟩ := transfer_ok h
    obtain ⟨token, rfl, hp⟩ := pulls_of hq
    obtain ⟨x, -, ⟨rfl, -, -, -, rfl⟩ | ⟨rfl, -, outL, inL, -, -, rfl⟩⟩ := outboundLimit_ok hl
    · obtain ⟨-, rfl⟩ | ⟨hb, -⟩ := h
      · exact .pulls amount received rfl hp rfl rfl
      · cases hb
    · obtain ⟨hb, -⟩ | ⟨-, ev', hs, rfl⟩ := h
      · cases hb
      · have hs := sends_money (sends_of hs)
        refine .pulls amount received rfl hp hs.1 ?_
        have := hs.2
        unfold evmTakings at *
        rw [List.filterMap_cons, this]
  | attestationReceived src sm m => exact attestationReceived_moves h
  | executeMsg src _ m => exact executeMsg_moves (ev0 := []) h ⟨rfl, rfl⟩
  | completeInbound d =>
    obtain ⟨-, ts, late, n, hm, rfl⟩ := completeInbound_ok h
    obtain ⟨hn, token, rfl, hp⟩ := pays_of hm
    exact .pays _ n hp rfl rfl
  | completeOutbound seq =>
    obtain ⟨-, ts, late, rfl, hs⟩ := completeOutbound_ok h
    have hs := sends_money (sends_of hs)
    exact .none rfl hs.1 hs.2
  | cancelOutbound seq =>
    obtain ⟨-, ts, own, n, hm, rfl⟩ := cancelOutbound_ok h
    obtain ⟨hn, token, rfl, hp⟩ := pays_of hm
    exact .pays _ n hp rfl rfl
  | setPeer chain peer dec limit =>
    obtain ⟨-, -, -, -, -, rfl, a, x, -, -, rfl⟩ := setPeer_ok h
    exact .none rfl rfl rfl
  | setOutboundLimit limit =>
    obtain ⟨-, rfl, a, x, -, -, rfl⟩ := setOutboundLimit_ok h
    exact .none rfl rfl rfl
  | setInboundLimit limit chain =>
    obtain ⟨-, rfl, a, x, -, -, rfl⟩ := setInboundLimit_ok h
    exact .none rfl rfl rfl
  | setTransceiver t =>
    obtain ⟨-, rfl, reg, hr, rfl, hc⟩ := setTransceiver_ok h
    exact .none rfl rfl rfl
  | removeTransceiver t =>
    obtain ⟨-, rfl, reg, hr, rfl, hc⟩ := removeTransceiver_ok h
    exact .none rfl rfl rfl
  | setThreshold n =>
    obtain ⟨-, rfl, -, rfl, hc⟩ := setThreshold_ok h
    exact .none rfl rfl rfl
  | pause =>
    obtain ⟨-, rfl, rfl⟩ := pause_ok h
    exact .none rfl rfl rfl
  | unpause =>
    obtain ⟨-, rfl, rfl⟩ := unpause_ok h
    exact .none rfl rfl rfl
  | transferOwnership o =>
    obtain ⟨-, rfl, -, rfl⟩ := transferOwnership_ok h
    exact .none rfl rfl rfl
  | transferPauser p =>
    obtain ⟨-, rfl, rfl⟩ := transferPauser_ok h
    exact .none rfl rfl rfl
  | receiveMessage t vaa =>
    obtain ⟨-, -, s1, hc, h⟩ := receiveMessage_ok h
    obtain ⟨-, rfl⟩ := consumeVaa_ok hc
    have := deliver_moves (c' := c) (k' := .receiveMessage t vaa) h
    exact this
  | receiveRelayed t payload additional sourceAddress sourceChain deliveryHash =>
    obtain ⟨-, -, -, s1, hc, h⟩ := receiveRelayed_ok h
    obtain ⟨-, rfl⟩ := consumeVaa_ok hc
    have := deliver_moves (c' := c)
      (k' := .receiveRelayed t payload additional sourceAddress sourceChain deliveryHash) h
    exact this
  | setWormholePeer t chain peer =>
    obtain ⟨ht, -, -, -, rfl, rfl⟩ := setWormholePeer_ok h
    exact .none rfl rfl rfl
  | transferTransceiver t o =>
    obtain ⟨-, -, -, rfl, rfl⟩ := transferTransceiver_ok h
    exact .none rfl rfl rfl
  | tokenTransfer dst n =>
    obtain ⟨token, ht, h⟩ := ex_bind_ok.mp h
    obtain ⟨rfl, rfl⟩ := Prod.mk.inj (Except.ok.inj h)
    exact .move dst n rfl ht rfl
  | tokenBurn n =>
    obtain ⟨token, ht, h⟩ := ex_bind_ok.mp h
    obtain ⟨rfl, rfl⟩ := Prod.mk.inj (Except.ok.inj h)
    exact .burn n rfl ht rfl

theorem submit_moves (e : Env) (s : State) (tx : Tx) :
    Moves e tx.ctx tx.call s.token (submit e s tx).1.token (submit e s tx).2 := by
  cases h : call e tx.ctx tx.call s with
  | error _ =>
    have : submit e s tx = (s, []) := by unfold submit; rw [h]
    rw [this]; exact .none rfl rfl rfl
  | ok r =>
    obtain ⟨s', ev⟩ := r
    have : submit e s tx = (s', ev) := by unfold submit; rw [h]
    rw [this]; exact call_moves h

theorem given_append (a b : List Event) : evmGiven (a ++ b) = evmGiven a + evmGiven b := by
  simp [evmGiven, evmPayments]

theorem taken_append (a b : List Event) : evmTaken (a ++ b) = evmTaken a + evmTaken b := by
  simp [evmTaken, evmTakings]

/-- What `Moves` means for a balance. -/
theorem Moves.balance {e : Env} {c : Ctx} {k : Call} {t t' : Erc20} {ev : List Event} (h : Moves e c k t t' ev)
    (a : Address) (own : c.sender ≠ e.manager) :
    (a ≠ c.sender → a ≠ e.manager → t.balance a ≤ t'.balance a) ∧
    (a = c.sender → t.balance a ≤ t'.balance a + evmSpent k) := by
  cases h with
  | none ht => subst ht; exact ⟨fun _ _ => Nat.le_refl _, fun _ => Nat.le_add_right _ _⟩
  | pays r n h =>
    rcases h with ⟨-, h⟩ | ⟨-, h⟩
    · obtain ⟨-, -, -, -, h1, -, -⟩ := move_ok h
      refine ⟨fun _ hm => h1 a hm, fun ha => ?_⟩
      have := h1 a (by rw [ha]; exact own)
      omega
    · obtain ⟨-, -, -, h1, h2⟩ := mint_ok h
      by_cases ha : a = r
      · subst ha; rw [h2]; exact ⟨fun _ _ => by omega, fun _ => by omega⟩
      · rw [h1 a ha]; exact ⟨fun _ _ => by omega, fun _ => by omega⟩
  | pulls n received hk h =>
    obtain ⟨t1, h1, h2, h3⟩ := h
    obtain ⟨-, -, -, -, g1, g2, -⟩ := move_ok h1
    have key : a ≠ e.manager → t'.balance a = t1.balance a := by
      intro hm
      rcases h3 with ⟨-, rfl⟩ | ⟨-, h3⟩
      · rfl
      · exact (burn_ok h3).2.2.1 a hm
    refine ⟨fun hs hm => by rw [key hm]; exact g1 a hs, fun hs => ?_⟩
    rw [key (by rw [hs]; exact own), hs, hk]; exact g2
  | move dst n hk h =>
    obtain ⟨-, -, -, -, g1, g2, -⟩ := move_ok h
    exact ⟨fun hs _ => g1 a hs, fun hs => by rw [hs, hk]; exact g2⟩
  | burn n hk h =>
    obtain ⟨h1, -, h2, h3⟩ := burn_ok h
    subst hk
    refine ⟨fun hs _ => Nat.le_of_eq (h2 a hs).symm, fun hs => ?_⟩
    rw [hs, h3]; change _ ≤ t.balance c.sender - n + n; omega

/-- The balance of the manager of a locking deployment. -/
theorem Moves.locked {e : Env} {c : Ctx} {k : Call} {t t' : Erc20} {ev : List Event} (h : Moves e c k t t' ev)
    (own : c.sender ≠ e.manager) (locking : e.mode = .locking) :
    t.balance e.manager + evmTaken ev ≤ t'.balance e.manager + evmGiven ev := by
  unfold evmTaken evmGiven
  cases h with
  | none ht hp hk => rw [hp, hk, ht]
  | pays r n h hp hk =>
    rw [hp, hk]
    rcases h with ⟨-, h⟩ | ⟨h', -⟩
    · have := (move_ok h).2.2.2.2.2.1
      simpa using this
    · rw [locking] at h'; cases h'
  | pulls n received hk h hp ht =>
    rw [hp, ht]
    obtain ⟨t1, h1, h2, ⟨-, rfl⟩ | ⟨h3, -⟩⟩ := h
    · simp [h2]
    · rw [locking] at h3; cases h3
  | move dst n hk h hev =>
    have := (move_ok h).2.2.2.2.1 e.manager (Ne.symm own)
    rw [hev]; simpa [evmPayments, evmTakings] using this
  | burn n hk h hev =>
    have := (burn_ok h).2.2.1 e.manager (Ne.symm own)
    rw [hev]; simp [evmPayments, evmTakings, this]

/-! ### The supply -/

theorem sum_upd (F : Finset Address) (b : Address → Nat) (x : Address) (v : Nat) (hx : x ∈ F) :
    (∑ a ∈ F, upd b x v a) + b x = (∑ a ∈ F, b a) + v := by
  rw [← Finset.sum_erase_add F (fun a => upd b x v a) hx, ← Finset.sum_erase_add F b hx, upd_same]
  have : ∑ a ∈ F.erase x, upd b x v a = ∑ a ∈ F.erase x, b a :=
    Finset.sum_congr rfl fun a ha => upd_other _ _ (Finset.ne_of_mem_erase ha)
  omega

/-- No set of holders has more than the supply. -/
def Sound (t : Erc20) : Prop := ∀ F : Finset Address, ∑ a ∈ F, t.balance a ≤ t.supply

theorem Sound.one {t : Erc20} (h : Sound t) (a : Address) : t.balance a ≤ t.supply := by
  simpa using h {a}

theorem Sound.move {t t' : Erc20} {fee : Fee} {src dst : Address} {n : Nat} (hs : Sound t)
    (h : t.move fee src dst n = .ok t') : Sound t' := by
  unfold Erc20.move at h
  rw [need_bind, need_bind] at h
  obtain ⟨-, h3, h⟩ := h
  rw [← Except.ok.inj h]
  intro F
  let G := insert src (insert dst (insert fee.collector F))
  refine Nat.le_trans (Finset.sum_le_sum_of_subset (t := G) fun a ha => by simp [G, ha]) ?_
  have h0 := hs G
  have e1 := sum_upd G t.balance src (t.balance src - n) (by simp [G])
  generalize upd t.balance src (t.balance src - n) = b1 at e1 ⊢
  have e2 := sum_upd G b1 dst (b1 dst + (n - Nat.min (fee.of n) n)) (by simp [G])
  generalize upd b1 dst (b1 dst + (n - Nat.min (fee.of n) n)) = b2 at e2 ⊢
  have e3 := sum_upd G b2 fee.collector (b2 fee.collector + Nat.min (fee.of n) n) (by simp [G])
  have : Nat.min (fee.of n) n ≤ n := Nat.min_le_right _ _
  dsimp only
  omega

theorem Sound.burn {t t' : Erc20} {src : Address} {n : Nat} (hs : Sound t)
    (h : t.burn src n = .ok t') : Sound t' := by
  unfold Erc20.burn at h
  rw [need_bind] at h
  obtain ⟨h3, h⟩ := h
  rw [← Except.ok.inj h]
  intro F
  refine Nat.le_trans (Finset.sum_le_sum_of_subset (t := insert src F) fun a ha => by simp [ha]) ?_
  have h0 := hs (insert src F)
  have e1 := sum_upd (insert src F) t.balance src (t.balance src - n) (by simp)
  dsimp only
  omega

theorem Sound.mint {t t' : Erc20} {dst : Address} {n : Nat} (hs : Sound t)
    (h : t.mint dst n = .ok t') : Sound t' := by
  unfold Erc20.mint at h
  rw [need_bind, need_bind] at h
  obtain ⟨-, -, h⟩ := h
  rw [← Except.ok.inj h]
  intro F
  refine Nat.le_trans (Finset.sum_le_sum_of_subset (t := insert dst F) fun a ha => by simp [ha]) ?_
  have h0 := hs (insert dst F)
  have e1 := sum_upd (insert dst F) t.balance dst (t.balance dst + n) (by simp)
  dsimp only
  omega

theorem Moves.sound {e : Env} {c : Ctx} {k : Call} {t t' : Erc20} {ev : List Event} (h : Moves e c k t t' ev)
    (hs : Sound t) : Sound t' := by
  cases h with
  | none ht => rw [ht]; exact hs
  | pays r n h =>
    rcases h with ⟨-, h⟩ | ⟨-, h⟩
    · exact hs.move h
    · exact hs.mint h
  | pulls n received hk h =>
    obtain ⟨t1, h1, h2, ⟨-, rfl⟩ | ⟨-, h3⟩⟩ := h
    · exact hs.move h1
    · exact (hs.move h1).burn h3
  | move dst n hk h => exact hs.move h
  | burn n hk h => exact hs.burn h

/-- The supply of a token, whatever the mode: locking changes nothing, burning takes and gives. -/
theorem Moves.supply {e : Env} {c : Ctx} {k : Call} {t t' : Erc20} {ev : List Event} (h : Moves e c k t t' ev)
    (hs : Sound t) (user : ∀ n, k ≠ .tokenBurn n) :
    (e.mode = .locking → t'.supply = t.supply) ∧
    (e.mode = .burning → t'.supply + evmTaken ev = t.supply + evmGiven ev) := by
  unfold evmTaken evmGiven
  cases h with
  | none ht hp hk => rw [hp, hk, ht]; simp
  | pays r n h hp hk =>
    rw [hp, hk]
    rcases h with ⟨h', h⟩ | ⟨h', h⟩
    · have := (move_ok h).2.2.2.1
      simp [this, h']
    · have := (mint_ok h).2.2.1
      simp [this, h']
  | pulls n received hk h hp ht =>
    rw [hp, ht]
    obtain ⟨t1, h1, h2, ⟨h', rfl⟩ | ⟨h', h3⟩⟩ := h
    · have := (move_ok h1).2.2.2.1
      simp [this, h']
    · have g1 := (move_ok h1).2.2.2.1
      have g2 := (burn_ok h3).2.1
      have g3 := (burn_ok h3).1
      have g4 := (hs.move h1).one e.manager
      simp [h']; omega
  | move dst n hk h hev =>
    have := (move_ok h).2.2.2.1
    rw [hev]; simp [this, evmPayments, evmTakings]
  | burn n hk h hev => exact absurd hk (user n)

theorem Moves.supply_le {e : Env} {c : Ctx} {k : Call} {t t' : Erc20} {ev : List Event} (h : Moves e c k t t' ev)
    (hs : Sound t) (burning : e.mode = .burning) : t'.supply + evmTaken ev ≤ t.supply + evmGiven ev := by
  by_cases hk : ∃ n, k = .tokenBurn n
  · obtain ⟨n, rfl⟩ := hk
    cases h with
    | none ht hp hk => unfold evmTaken evmGiven; rw [hp, hk, ht]
    | pays r n h hp hk =>
      unfold evmTaken evmGiven
      rw [hp, hk]
      rcases h with ⟨h', h⟩ | ⟨h', h⟩
      · rw [burning] at h'; cases h'
      · have := (mint_ok h).2.2.1
        simp [this]
    | pulls m received hk h hp ht =>
      unfold evmTaken evmGiven
      rw [hp, ht]
      obtain ⟨t1, h1, h2, ⟨h', rfl⟩ | ⟨h', h3⟩⟩ := h
      · rw [burning] at h'; cases h'
      · have g1 := (move_ok h1).2.2.2.1
        have g2 := (burn_ok h3).2.1
        have g3 := (burn_ok h3).1
        have g4 := (hs.move h1).one e.manager
        simp; omega
    | move dst n hk h hev =>
      have := (move_ok h).2.2.2.1
      unfold evmTaken evmGiven
      rw [hev]; simp [this, evmPayments, evmTakings]
    | burn n hk h hev =>
      have := (burn_ok h).2.1
      unfold evmTaken evmGiven
      rw [hev]; simp [evmPayments, evmTakings]; omega
  · exact Nat.le_of_eq ((h.supply hs fun n hn => hk ⟨n, hn⟩).2 burning)

/-! ### Histories -/

theorem locked_run {e : Env} {s₀ : State} (txs : List Tx) (own : ∀ tx ∈ txs, tx.ctx.sender ≠ e.manager)
    (locking : e.mode = .locking) :
    s₀.token.balance e.manager + evmTaken (run e s₀ txs).2 ≤
      (run e s₀ txs).1.token.balance e.manager + evmGiven (run e s₀ txs).2 := by
  induction txs using List.reverseRecOn with
  | nil => exact Nat.le_refl _
  | append_singleton a tx ih =>
    have ih := ih fun t ht => own t (by simp [ht])
    have := (submit_moves e (run e s₀ a).1 tx).locked (own tx (by simp)) locking
    rw [run_snoc]
    dsimp only
    rw [given_append, taken_append]
    omega

theorem sound_run {e : Env} {s₀ : State} (sound : Sound s₀.token) (txs : List Tx) :
    Sound (run e s₀ txs).1.token := by
  induction txs using List.reverseRecOn with
  | nil => exact sound
  | append_singleton a tx ih =>
    rw [run_snoc]
    exact (submit_moves e (run e s₀ a).1 tx).sound ih

theorem minted_run {e : Env} {s₀ : State} (sound : Sound s₀.token) (txs : List Tx) (burning : e.mode = .burning) :
    (run e s₀ txs).1.token.supply + evmTaken (run e s₀ txs).2 ≤ s₀.token.supply + evmGiven (run e s₀ txs).2 ∧
    ((∀ tx ∈ txs, ∀ n, tx.call ≠ .tokenBurn n) →
      (run e s₀ txs).1.token.supply + evmTaken (run e s₀ txs).2 = s₀.token.supply + evmGiven (run e s₀ txs).2) := by
  induction txs using List.reverseRecOn with
  | nil => exact ⟨Nat.le_refl _, fun _ => rfl⟩
  | append_singleton a tx ih =>
    have h1 := (submit_moves e (run e s₀ a).1 tx).supply_le (sound_run sound a) burning
    have h2 := (submit_moves e (run e s₀ a).1 tx).supply (sound_run sound a)
    rw [run_snoc]
    dsimp only
    rw [given_append, taken_append]
    refine ⟨by omega, fun hn => ?_⟩
    have h3 := (h2 (hn tx (by simp))).2 burning
    have h4 := ih.2 fun t ht => hn t (by simp [ht])
    omega

/-- Those whose transfers wait are accounts, and so is the manager. -/
theorem waiting_run (e : Env) (deployer : Address) (token : Erc20) (now : Nat) (txs : List Tx) (seq : UInt64)
    (h : ((run e (initial e deployer token now) txs).1.outQueue seq).txTimestamp ≠ 0) :
    ((run e (initial e deployer token now) txs).1.outQueue seq).sender ≠ Address.zero ∧
      e.manager ≠ Address.zero := by
  refine run_induct (e := e) (s₀ := initial e deployer token now)
    (fun s _ => ∀ seq, (s.outQueue seq).txTimestamp ≠ 0 → (s.outQueue seq).sender ≠ Address.zero ∧
      e.manager ≠ Address.zero) ?_ ?_ ?_ txs seq h
  · intro seq h; exact absurd rfl h
  · rintro s ev s' hP ⟨reg, threshold, rfl, -⟩; exact hP
  · intro c s ev s' ev' hP hs seq
    have cleared : ∀ q, (upd s.outQueue q OutQueued.none seq).txTimestamp ≠ 0 →
        (upd s.outQueue q OutQueued.none seq).sender ≠ Address.zero ∧ e.manager ≠ Address.zero := by
      intro q hq
      by_cases hs : seq = q
      · subst hs; rw [upd_same] at hq; exact absurd rfl hq
      · rw [upd_other _ _ hs] at hq ⊢; exact hP seq hq
    cases hs with
    | queueOut n received chain r rf i a token' fits small hr hp ha =>
      obtain ⟨t1, h1, -⟩ := hp
      obtain ⟨g1, g2, -⟩ := move_ok h1
      intro hq
      dsimp only at hq ⊢
      by_cases hs : seq = s.sequence
      · subst hs; rw [upd_same]; exact ⟨g1, g2⟩
      · rw [upd_other _ _ hs] at hq ⊢; exact hP seq hq
    | completeOut q ev ts late hs => exact cleared q
    | cancel q n token' ts own hn hp => exact cleared q
    | _ => exact hP seq

end Ntt.Evm

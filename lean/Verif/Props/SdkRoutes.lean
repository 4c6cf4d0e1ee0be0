import Verif.Spec.SdkRoutes
import Verif.Props.SdkFlows
import Verif.Props.SdkFlowsEvm
/-!
# C113: the routes of the TypeScript SDK
-/
namespace Ntt.Props
open Ntt Spec

/-! ## Which contracts -/

section
variable {lower : String → String}

private theorem contractsOf_some {t : Sdk.TokenConfig} {k : Sdk.Contracts} (h : Sdk.contractsOf t = some k) : AreOf k t := by
  unfold Sdk.contractsOf at h
  cases hf : t.transceiver.find? (fun v => v.kind == "wormhole") with
  | none => rw [hf] at h; cases h
  | some x =>
    rw [hf] at h
    cases h
    have h1 := List.mem_of_find?_eq_some hf
    have h2 := List.find?_some hf
    refine ⟨rfl, rfl, rfl, ?_⟩
    obtain ⟨kd, ad⟩ := x
    have : kd = "wormhole" := by simpa using h2
    subst this
    exact h1

/-- **C113** (contracts): what is found for a token belongs to an entry for this chain and this token. -/
theorem C113_contracts (cfg : Sdk.RouteConfig) (token : Sdk.TokenId) (k : Sdk.Contracts) (h : Sdk.resolveNttContracts lower cfg token = some k) :
    ∃ g ∈ cfg, ∃ t ∈ g, t.chain = token.chain ∧ lower t.token = lower token.address ∧ AreOf k t := by
  induction cfg with
  | nil => cases h
  | cons g rest ih =>
    unfold Sdk.resolveNttContracts at h
    split at h
    · next t hf =>
      have := List.find?_some hf
      simp only [Bool.and_eq_true, beq_iff_eq] at this
      exact ⟨g, List.mem_cons_self .., t, List.mem_of_find?_eq_some hf, this.2, this.1, contractsOf_some h⟩
    · obtain ⟨g', hg, r⟩ := ih h
      exact ⟨g', List.mem_cons_of_mem _ hg, r⟩

/-- **C113** (one deployment): if the configuration is unambiguous, and the route offers the destination token for the source token, then the contracts with which it sends
and those which it asks at the destination are of the same group; a transfer that is found again by its message is completed with the same contracts. -/
theorem C113_same_deployment (cfg : Sdk.RouteConfig) (un : Unambiguous lower cfg) (r : Sdk.RouteRequest) (automatic : Bool) (units : Nat) (p : Sdk.Normalized)
    (offered : r.destination ∈ Sdk.resolveDestinationTokens lower cfg r.source r.source.chain r.destination.chain)
    (h : Sdk.validate lower cfg automatic r units = some p) :
    ∃ g ∈ cfg, ∃ t ∈ g, ∃ t' ∈ g, t.chain = r.source.chain ∧ lower t.token = lower r.source.address ∧ t'.chain = r.destination.chain ∧
      t'.token = r.destination.address ∧ AreOf p.source t ∧ AreOf p.destination t' ∧
      ∀ m, lower m = lower t.manager → Sdk.resolveDestinationNttContracts lower cfg ⟨r.source.chain, m⟩ r.destination.chain = some p.destination := by
  simp only [Sdk.validate, Option.bind_eq_bind, Option.bind_eq_some_iff, Option.pure_def, Option.some.injEq] at h
  obtain ⟨ks, hs, kd, hd, rfl⟩ := h
  dsimp only
  unfold Sdk.resolveDestinationTokens at offered
  rw [List.mem_filterMap] at offered
  obtain ⟨g, hg, ho⟩ := offered
  simp only [Option.bind_eq_bind, Option.bind_eq_some_iff, Option.pure_def, Option.some.injEq] at ho
  obtain ⟨t, ht, t', ht', heq⟩ := ho
  have e1 := List.find?_some ht
  have e2 := List.find?_some ht'
  have m1 := List.mem_of_find?_eq_some ht
  have m2 := List.mem_of_find?_eq_some ht'
  simp only [Bool.and_eq_true, beq_iff_eq] at e1 e2
  have htok : t'.token = r.destination.address := by rw [← heq]
  -- the same group is found for both tokens
  have found : ∀ (l : Sdk.RouteConfig), (∀ g ∈ l, g ∈ cfg) → ∀ (tok : Sdk.TokenId) (k : Sdk.Contracts) (x : Sdk.TokenConfig), x ∈ g → x.chain = tok.chain →
      lower x.token = lower tok.address → Sdk.resolveNttContracts lower l tok = some k → g ∈ l → Sdk.contractsOf x = some k := by
    intro l
    induction l with
    | nil => intro _ _ _ _ _ _ _ h; cases h
    | cons g1 rest ih =>
      intro hl tok k x hx hc hlow hres hin
      unfold Sdk.resolveNttContracts at hres
      split at hres
      · next y hf =>
        have hy := List.find?_some hf
        simp only [Bool.and_eq_true, beq_iff_eq] at hy
        have my := List.mem_of_find?_eq_some hf
        have hgg : g1 = g := by
          rcases Decidable.eq_or_ne g1 g with h | h
          · exact h
          · exfalso
            have := un.1
            rw [List.pairwise_iff_forall_sublist] at this
            obtain ⟨i, hi, rfl⟩ := List.mem_iff_getElem.mp (hl g1 (List.mem_cons_self ..))
            obtain ⟨j, hj, rfl⟩ := List.mem_iff_getElem.mp hg
            have hp := List.pairwise_iff_getElem.mp un.1
            rcases Nat.lt_trichotomy i j with hij | hij | hij
            · exact (hp i j hi hj hij y my x hx (hy.2.trans hc.symm)).1 (hy.1.trans hlow.symm)
            · subst hij; exact h rfl
            · exact (hp j i hj hi hij x hx y my (hc.trans hy.2.symm)).1 (hlow.trans hy.1.symm)
        subst hgg
        rw [un.2 g1 hg x hx y my (hc.trans hy.2.symm)]
        exact hres
      · next hf =>
        rcases List.mem_cons.mp hin with rfl | hin
        · have := List.find?_eq_none.mp hf x hx
          simp [hlow, hc] at this
        · exact ih (fun g h => hl g (List.mem_cons_of_mem _ h)) tok k x hx hc hlow hres hin
  have hks := found cfg (fun _ h => h) _ _ t m1 e1.1 e1.2 hs hg
  have hkd := found cfg (fun _ h => h) _ _ t' m2 e2 (by rw [htok]) hd hg
  refine ⟨g, hg, t, m1, t', m2, e1.1, e1.2, e2, htok, contractsOf_some hks, contractsOf_some hkd, ?_⟩
  intro mg hmg
  have found' : ∀ (l : Sdk.RouteConfig), (∀ g ∈ l, g ∈ cfg) → g ∈ l →
      Sdk.resolveDestinationNttContracts lower l ⟨r.source.chain, mg⟩ r.destination.chain = some kd := by
    intro l
    induction l with
    | nil => intro _ h; cases h
    | cons g1 rest ih =>
      intro hl hin
      unfold Sdk.resolveDestinationNttContracts
      split
      · next y hf =>
        have hy := List.find?_some hf
        simp only [Bool.and_eq_true, beq_iff_eq] at hy
        have my := List.mem_of_find?_eq_some hf
        have hgg : g1 = g := by
          rcases Decidable.eq_or_ne g1 g with h | h
          · exact h
          · exfalso
            obtain ⟨i, hi, rfl⟩ := List.mem_iff_getElem.mp (hl g1 (List.mem_cons_self ..))
            obtain ⟨j, hj, rfl⟩ := List.mem_iff_getElem.mp hg
            have hp := List.pairwise_iff_getElem.mp un.1
            rcases Nat.lt_trichotomy i j with hij | hij | hij
            · exact (hp i j hi hj hij y my t m1 (hy.2.trans e1.1.symm)).2 (hy.1.trans hmg)
            · subst hij; exact h rfl
            · exact (hp j i hj hi hij t m1 y my (e1.1.trans hy.2.symm)).2 (hmg.symm.trans hy.1.symm)
        subst hgg
        simp only [Option.bind_eq_bind, ht', Option.bind_some]
        exact hkd
      · next hf =>
        rcases List.mem_cons.mp hin with rfl | hin
        · have := List.find?_eq_none.mp hf t m1
          simp [hmg, e1.1] at this
        · exact ih (fun g h => hl g (List.mem_cons_of_mem _ h)) hin
  exact found' cfg (fun _ h => h) hg

/-- **C113**, what does not hold without that: if a token is in two groups, the route offers the destination tokens of both, but always sends with the contracts of the
first: what is asked for with the destination token of the second group is sent by a deployment that does not go there. -/
theorem C113_mixed (a b a' b' : Sdk.TokenConfig) (rest : Sdk.RouteConfig) (same : a.chain = a'.chain ∧ lower a.token = lower a'.token)
    (there : b.chain = b'.chain) (apart : a.chain ≠ b.chain) (k k' : Sdk.Contracts) (hk : Sdk.contractsOf a = some k) (hk' : Sdk.contractsOf b' = some k')
    (other : lower b.token ≠ lower b'.token) (units d d' : Nat) (automatic : Bool) :
    (⟨b'.chain, b'.token⟩ : Sdk.TokenId) ∈ Sdk.resolveDestinationTokens lower ([a, b] :: [a', b'] :: rest) ⟨a'.chain, a'.token⟩ a'.chain b'.chain ∧
    ∃ p, Sdk.validate lower ([a, b] :: [a', b'] :: rest) automatic ⟨⟨a'.chain, a'.token⟩, ⟨b'.chain, b'.token⟩, d, d'⟩ units = some p ∧
      AreOf p.source a ∧ AreOf p.destination b' := by
  have n1 : ¬ a'.chain = b'.chain := by rw [← same.1, ← there]; exact apart
  constructor
  · unfold Sdk.resolveDestinationTokens
    rw [List.mem_filterMap]
    refine ⟨[a', b'], by simp, ?_⟩
    simp [n1]
  · have h1 : Sdk.resolveNttContracts lower ([a, b] :: [a', b'] :: rest) ⟨a'.chain, a'.token⟩ = some k := by
      simp [Sdk.resolveNttContracts, same.1, same.2, hk]
    have h2 : Sdk.resolveNttContracts lower ([a, b] :: [a', b'] :: rest) ⟨b'.chain, b'.token⟩ = some k' := by
      have n2 : ¬ a.chain = b'.chain := by rw [same.1]; exact n1
      simp [Sdk.resolveNttContracts, n1, n2, other, hk']
    refine ⟨_, by simp only [Sdk.validate, h1, h2, Option.bind_eq_bind, Option.bind_some]; rfl, contractsOf_some hk, contractsOf_some hk'⟩

/-- **C113** (resuming): from the message of the transfer, the route finds the contracts that were chosen at the start, the chain and the amount. -/
theorem C113_resume (cfg : Sdk.RouteConfig) (un : Unambiguous lower cfg) (r : Sdk.RouteRequest) (automatic : Bool) (units : Nat) (p : Sdk.Normalized)
    (offered : r.destination ∈ Sdk.resolveDestinationTokens lower cfg r.source r.source.chain r.destination.chain)
    (h : Sdk.validate lower cfg automatic r units = some p) (canonical : UInt16 → Bytes32 → String) (x : Sdk.Message) (target receiver : Bytes32) (n : Nat)
    (carries : RouteCarries x source target r.destination.chain receiver n r.sourceDecimals)
    (written : lower (canonical r.source.chain source) = lower p.source.manager) :
    ∃ a d, Sdk.resume lower canonical cfg r.source.chain x = some (r.destination.chain, a, d, p.destination) ∧ SameValue a d n r.sourceDecimals := by
  obtain ⟨g, hg, t, ht, t', ht', -, -, -, -, ⟨-, hm, -⟩, -, hres⟩ := C113_same_deployment cfg un r automatic units p offered h
  obtain ⟨h1, -, h3, -, -, h6⟩ := carries
  refine ⟨_, _, ?_, h6⟩
  unfold Sdk.resume
  dsimp only
  rw [h1, h3, hres _ (by rw [written, hm])]
  rfl

end

/-! ## How much -/

section
variable {lower : String → String} {cfg : Sdk.RouteConfig} {r : Sdk.RouteRequest} {automatic : Bool} {units : Nat} {p : Sdk.Normalized}
  {duration capacity : Nat} {relay : Option Nat} {q : Sdk.RouteQuote}

private theorem same_unique {a b d n e : Nat} (h1 : SameValue a d n e) (h2 : SameValue b d n e) : a = b := by
  unfold SameValue at h1 h2
  exact Nat.eq_of_mul_eq_mul_right (Nat.pow_pos (by decide)) (h1.trans h2.symm)

private theorem normal (valid : Sdk.validate lower cfg automatic r units = some p) :
    p.amount = Sdk.trimAmount units r.sourceDecimals r.destinationDecimals ∧ p.queue = false ∧ p.automatic = automatic := by
  simp only [Sdk.validate, Option.bind_eq_bind, Option.bind_eq_some_iff, Option.pure_def, Option.some.injEq] at valid
  obtain ⟨ks, hs, kd, hd, rfl⟩ := valid
  exact ⟨rfl, rfl, rfl⟩

private theorem quote_some (quoted : Sdk.routeQuote r p duration capacity relay = some q) :
    q.sourceAmount = p.amount ∧ q.destinationAmount = Sdk.scale p.amount r.sourceDecimals r.destinationDecimals ∧
    q.warning = (if duration > 0 && Sdk.isCapacityThresholdExceeded q.destinationAmount capacity then some duration else none) ∧
    (p.automatic = true → q.relayFee = relay ∧ relay.isSome = true) ∧ (p.automatic = false → q.relayFee = none) := by
  unfold Sdk.routeQuote at quoted
  cases hau : p.automatic with
  | false =>
    rw [hau] at quoted
    cases quoted
    exact ⟨rfl, rfl, rfl, nofun, fun _ => rfl⟩
  | true =>
    rw [hau] at quoted
    cases relay with
    | none => cases quoted
    | some x => cases quoted; exact ⟨rfl, rfl, rfl, fun _ => ⟨rfl, rfl⟩, nofun⟩

/-- **C113** (quotes): what is quoted is the amount asked for, up to the digits that cannot be carried, and the same value in the token of the destination; of waiting is
warned exactly if what arrives is more than 95 hundredths of the capacity there; a price for relaying is quoted exactly if relaying was asked for. -/
theorem C113_quote (f t : UInt8) (hf : r.sourceDecimals = f.toNat) (ht : r.destinationDecimals = t.toNat)
    (valid : Sdk.validate lower cfg automatic r units = some p) (quoted : Sdk.routeQuote r p duration capacity relay = some q) :
    q.sourceAmount ≤ units ∧ units < q.sourceAmount + 10 ^ (f.toNat - wireDecimals f t) ∧ 10 ^ (f.toNat - wireDecimals f t) ∣ q.sourceAmount ∧
    SameValue q.destinationAmount t.toNat q.sourceAmount f.toNat ∧
    (∀ d, q.warning = some d ↔ d = duration ∧ 0 < duration ∧ capacity * 95 < q.destinationAmount * 100) ∧
    (automatic = true → q.relayFee = relay ∧ relay.isSome = true) ∧ (automatic = false → q.relayFee = none) := by
  obtain ⟨ha, -, hau⟩ := normal valid
  obtain ⟨h1, h2, h3, h4, h5⟩ := quote_some quoted
  obtain ⟨a1, a2, a3, a4⟩ := C108_amount units f t
  rw [hau] at h4 h5
  rw [ha, hf, ht] at h1 h2
  rw [h1]
  refine ⟨a2, a3, a1, by rw [h2]; exact a4, fun d => ?_, h4, h5⟩
  rw [h3]
  unfold Sdk.isCapacityThresholdExceeded
  have hiff : (q.destinationAmount > capacity * 95 / 100) ↔ capacity * 95 < q.destinationAmount * 100 := by omega
  by_cases hd : 0 < duration
  · by_cases hc : capacity * 95 < q.destinationAmount * 100
    · have := hiff.mpr hc
      simp [hd, hc, this, eq_comm]
    · have : ¬ capacity * 95 / 100 < q.destinationAmount := fun x => hc (hiff.mp x)
      simp [hc, this]
  · simp [hd]

/-- An amount of which only digits were kept that can be carried has the quoted value in the token of the destination, whether it is converted in one step (Solana) or in two (EVM). -/
private theorem arrives {a d s k w m n out : Nat} (hw : w ≤ s ∧ w ≤ k ∧ w ≤ m) (hd : 10 ^ (s - w) ∣ n) (same : SameValue a d n s)
    (hout : SameValue out k n s) : converted a d k = out ∧ converted (converted a d m) m k = out := by
  obtain ⟨j, rfl⟩ := hd
  have key : a * 10 ^ w = j * 10 ^ d := by
    unfold SameValue at same
    refine Nat.eq_of_mul_eq_mul_right (Nat.pow_pos (n := s - w) (show 0 < 10 by decide)) ?_
    rw [Nat.mul_assoc, ← Nat.pow_add, show w + (s - w) = s by omega, same, Nat.mul_comm (10 ^ (s - w)) j, Nat.mul_assoc, Nat.mul_assoc,
      Nat.mul_comm (10 ^ (s - w))]
  have conv : ∀ k, w ≤ k → converted a d k = j * 10 ^ (k - w) := by
    intro k hk
    unfold converted
    have : a * 10 ^ k = j * 10 ^ (k - w) * 10 ^ d := by
      have e : (10 : Nat) ^ k = 10 ^ w * 10 ^ (k - w) := by rw [← Nat.pow_add]; congr 1; omega
      rw [e, ← Nat.mul_assoc, key, Nat.mul_assoc, Nat.mul_comm (10 ^ d), ← Nat.mul_assoc]
    rw [this, Nat.mul_div_cancel _ (Nat.pow_pos (by decide))]
  have ho : out = j * 10 ^ (k - w) := by
    refine same_unique hout ?_
    unfold SameValue
    rw [Nat.mul_assoc, ← Nat.pow_add, Nat.mul_comm (10 ^ (s - w)) j, Nat.mul_assoc, ← Nat.pow_add]
    congr 2
    omega
  refine ⟨(conv k hw.2.1).trans ho.symm, ?_⟩
  rw [conv m hw.2.2, ho]
  unfold converted
  have : j * 10 ^ (m - w) * 10 ^ k = j * 10 ^ (k - w) * 10 ^ m := by
    rw [Nat.mul_assoc, Nat.mul_assoc, ← Nat.pow_add, ← Nat.pow_add]
    congr 2
    omega
  rw [this, Nat.mul_div_cancel _ (Nat.pow_pos (by decide))]

private theorem message_unique {knows : UInt16 → Bool} {x y : Sdk.Message} (hx : x.nttManagerPayload.payload.additionalPayload = [])
    (h : Sdk.deserialize (Sdk.readMessage knows) (sdkMessageBytes x []) = some y) : y = x := by
  obtain ⟨-, tail, ht, hl, e⟩ := (C108_reads knows y _).mp h
  rw [Sdk.sdkMessageBytes_eq, Sdk.sdkMessageBytes_eq] at e
  obtain ⟨h1, h2, h3, h4, h5, h6, h7, h8, h9, h10, h11, h12⟩ := Sdk.message_inj (by simp) (by omega) (by simp) (by omega) e
  have htl : tail = [] := List.length_eq_zero_iff.mp (by simp only [List.length_nil] at h3; omega)
  have hy : y.nttManagerPayload.payload.additionalPayload = [] := by
    subst htl
    rcases ht with ⟨-, h⟩ | ⟨len, q, -, h, -⟩
    · exact h
    · have := congrArg List.length h
      simp only [List.length_nil, List.length_append, uintBE_length] at this
      omega
  obtain ⟨ys, yr, ⟨yi, yn, ⟨yd, ya, yt, yo, yc, yp⟩⟩⟩ := y
  obtain ⟨xs, xr, ⟨xi, xn, ⟨xd, xa, xt, xo, xc, xp⟩⟩⟩ := x
  dsimp only at *
  subst_vars
  rfl

/-- **C113** (sending on EVM chains): if the transfer that the route starts goes through, the sender is debited exactly what was quoted, for the chain and the receiver;
every message published for it carries exactly this.  (Nothing waits: the route never asks for that.) -/
theorem C113_sends_evm (e : Evm.Env) (c : Evm.Ctx) (w : Evm.World) (sender : Evm.Address) (user : sender ≠ e.manager) (feeless : ∀ n, e.fee.of n = 0)
    (hf : r.sourceDecimals = e.tokenDecimals.toNat) (chain : UInt16)
    (valid : Sdk.validate lower cfg automatic r units = some p) (quoted : Sdk.routeQuote r p duration capacity relay = some q)
    (receiver : Bytes32) (plan : List Sdk.Planned) (built : Sdk.initiateEvm e c w sender p chain receiver = some plan) (txs : List Evm.WTx)
    (sub : Submitted e sender c plan txs) :
    (Evm.wrun e w txs).2 = [] ∨ ∃ ev, (Evm.wrun e w txs).2 = .debited w.s.sequence sender q.sourceAmount chain receiver :: ev ∧ ev ≠ [] ∧
      (∀ sq a m ch rc, .debited sq a m ch rc ∉ ev) ∧ (∀ sq, .queuedOut sq ∉ ev) ∧
      ∀ t payload, .published t payload ∈ ev → ∃ x, payload = sdkMessageBytes x [] ∧
        RouteCarries x e.manager.toWormhole (w.s.peers chain).peerAddress chain receiver q.sourceAmount r.sourceDecimals := by
  obtain ⟨ha, hq, -⟩ := normal valid
  obtain ⟨h1, -⟩ := quote_some quoted
  have hle : p.amount ≤ units := by
    rw [ha]; exact Nat.div_mul_le_self _ _
  unfold Sdk.initiateEvm at built
  rw [hq, ← h1] at built
  rw [← h1] at hle
  obtain ⟨l, prices, -, -, -, hp⟩ := C112_plan.mp built
  have last : ∀ (c2 : Evm.Ctx) (w2 : Evm.World), c2.sender = sender → w2.s = w.s → ∀ ins,
      (Evm.wsubmit e w2 ⟨c2, .contract (.transfer q.sourceAmount chain receiver receiver false ins)⟩).2 = [] ∨
      ∃ ev, (Evm.wsubmit e w2 ⟨c2, .contract (.transfer q.sourceAmount chain receiver receiver false ins)⟩).2 =
        .debited w.s.sequence sender q.sourceAmount chain receiver :: ev ∧ ev ≠ [] ∧
      (∀ sq a m ch rc, .debited sq a m ch rc ∉ ev) ∧ (∀ sq, .queuedOut sq ∉ ev) ∧
      ∀ t payload, .published t payload ∈ ev → ∃ x, payload = sdkMessageBytes x [] ∧
        RouteCarries x e.manager.toWormhole (w.s.peers chain).peerAddress chain receiver q.sourceAmount r.sourceDecimals := by
    intro c2 w2 hc2 hw2 ins
    unfold Evm.wsubmit
    dsimp only
    cases hcall : Evm.wcall e c2 w2 (.contract (.transfer q.sourceAmount chain receiver receiver false ins)) with
    | error x => exact .inl rfl
    | ok res =>
      obtain ⟨w', ev⟩ := res
      right
      obtain ⟨-, h, -, -⟩ := (C111_transfer_iff e c2 w2 w' ev q.sourceAmount chain receiver receiver false ins).mp hcall
      rw [hw2] at h
      simp only [Evm.call] at h
      rw [Evm.need_bind] at h
      obtain ⟨-, -, -, received, s1, a, b, hpull, htrim, -, hlim, hev⟩ := Evm.transfer_ok h.2
      obtain ⟨t1, hm, hb, hcase⟩ := Evm.pull_ok hpull
      have hrec : received = q.sourceAmount := by
        unfold Evm.Erc20.move at hm
        rw [Evm.need_bind, Evm.need_bind] at hm
        obtain ⟨-, hbal, hm⟩ := hm
        have hm := (Except.ok.inj hm).symm
        subst hm
        rw [feeless] at hb
        dsimp only at hb
        rw [show Nat.min 0 q.sourceAmount = 0 from Nat.zero_min _, hc2] at hb
        have hne : e.manager ≠ sender := fun h => user h.symm
        by_cases hcol : e.manager = e.fee.collector
        · rw [← hcol, upd_same, upd_same, upd_other _ _ hne] at hb
          omega
        · rw [upd_other _ _ hcol, upd_same, upd_other _ _ hne] at hb
          omega
      subst hrec
      obtain ⟨y, -, hl⟩ := Evm.outboundLimit_ok hlim
      rcases hl with ⟨-, hfalse, -⟩ | ⟨hbf, -, ol, il, -, -, hs'⟩
      · cases hfalse
      rw [hbf] at hev
      rcases hev with ⟨hfalse, -⟩ | ⟨-, ev', hsend, rfl⟩
      · cases hfalse
      obtain ⟨-, hen, -, msg, hmsg, hx⟩ := Evm.sendTransfer_ok hsend
      have hpeers : w'.s.peers = w.s.peers := by
        rw [hs']
        rcases hcase with ⟨-, rfl⟩ | ⟨-, t2, -, rfl⟩ <;> rfl
      refine ⟨ev', by rw [hc2], ?_, ?_, ?_, ?_⟩
      · obtain ⟨t, ht⟩ := List.exists_mem_of_ne_nil _ hen
        have := (hx _).mpr (.inl ⟨t, ht, rfl⟩)
        intro hnil
        rw [hnil] at this
        cases this
      · intro sq a m ch rc hin
        rcases (hx _).mp hin with ⟨t, -, h⟩ | ⟨t, -, -, p, -, h⟩ <;> cases h
      · intro sq hin
        rcases (hx _).mp hin with ⟨t, -, h⟩ | ⟨t, -, -, p, -, h⟩ <;> cases h
      · intro t payload hin
        rcases (hx _).mp hin with ⟨t, -, h⟩ | ⟨t', -, -, pl, hpub, h⟩
        · cases h
        cases h
        rw [hpeers] at hpub
        obtain ⟨-, hx1, -, hx3⟩ := (Evm.trimTransferAmount_iff _ (by omega) _ _ _).mp htrim
        obtain ⟨pb, hpb, hmb⟩ := ex_bind_ok.mp hmsg
        obtain ⟨-, hpb⟩ := (Evm.encodeNativeTokenTransfer_iff _ _).mp hpb
        obtain ⟨-, hmb⟩ := (Evm.encodeNttManagerMessage_iff _ _).mp hmb
        obtain ⟨-, -, hb⟩ := (Evm.encodeTransceiverMessage_iff _ _ _).mp hpub
        simp only [if_true, List.append_nil] at hpb
        have lp : pb.length = 79 := by rw [hpb]; simp
        have lq : msg.length = 145 := by rw [hmb]; simp [lp, Bytes32.len]
        have hpre : Evm.transceiverPrefix.val = uintBE 4 0x9945FF10 := by decide
        simp only [lp] at hmb
        simp only [lq] at hb
        rw [hmb, hpre] at hb
        refine ⟨⟨e.manager.toWormhole, (w.s.peers chain).peerAddress, ⟨Evm.idOfSequence w.s.sequence, c2.sender.toWormhole,
          ⟨a.getDecimals, a.getAmount, e.token.toWormhole, receiver, chain, []⟩⟩⟩, ?_, rfl, rfl, rfl, rfl, rfl, ?_⟩
        · rw [hb, Sdk.sdkMessageBytes_eq, hpb]
          simp [evmTransferBytes]
        · dsimp only
          unfold SameValue
          rw [hf, hx1, hx3, Nat.mul_assoc, ← Nat.pow_add]
          congr 2
          omega
  rcases submitted_cases hp sub with ⟨hlt, c1, c2', rfl, s1, s2, -⟩ | ⟨hle, c2', rfl, s2, -⟩
  · simp only [Evm.wrun, List.append_nil]
    have happ : (Evm.wsubmit e w ⟨c1, .approve e.manager q.sourceAmount⟩).2 = [] ∧
        (Evm.wsubmit e w ⟨c1, .approve e.manager q.sourceAmount⟩).1.s = w.s := by
      unfold Evm.wsubmit
      dsimp only
      cases h : Evm.wcall e c1 w (.approve e.manager q.sourceAmount) with
      | error x => exact ⟨rfl, rfl⟩
      | ok res =>
        unfold Evm.wcall at h
        dsimp only at h
        rw [Evm.need_bind] at h
        obtain ⟨-, h⟩ := h
        rw [← Except.ok.inj h]
        exact ⟨rfl, rfl⟩
    rw [happ.1, List.nil_append]
    exact last c2' _ s2 happ.2 _
  · simp only [Evm.wrun, List.append_nil]
    exact last c2' _ s2 rfl _

/-- **C113** (what is asked for on EVM chains): the last transaction is the transfer of what was quoted, to the chain and receiver, without waiting; Wormhole's transceiver
(number 0) is told to skip relayers exactly if relaying was not asked for. -/
theorem C113_starts_evm (e : Evm.Env) (c : Evm.Ctx) (w : Evm.World) (sender : Evm.Address) (chain : UInt16) (receiver : Bytes32)
    (valid : Sdk.validate lower cfg automatic r units = some p) (quoted : Sdk.routeQuote r p duration capacity relay = some q)
    (plan : List Sdk.Planned) (built : Sdk.initiateEvm e c w sender p chain receiver = some plan) :
    ∃ price l, plan.getLast? = some ⟨price, .contract (.transfer q.sourceAmount chain receiver receiver false (instructionsBytes l))⟩ ∧
      ∀ i skip, EvmTold (instructionFor l i).payload skip ↔ skip = (decide (i = 0) && !automatic) := by
  obtain ⟨-, hq, hau⟩ := normal valid
  obtain ⟨h1, -⟩ := quote_some quoted
  unfold Sdk.initiateEvm at built
  rw [hq, hau, ← h1] at built
  obtain ⟨l, prices, -, told, -, rfl⟩ := C112_plan.mp built
  exact ⟨prices.sum, l, by rw [List.getLast?_append]; rfl, told⟩

/-- **C113** (sending from Solana): if the transaction that the route starts with succeeds, the sender has been debited exactly what was quoted, and the message posted
carries exactly this to the receiver. -/
theorem C113_sends_solana (env : Env) (s s' : State) (rt : Rt) (sender receiver key : Bytes32) (chain : UInt16)
    (valid : Sdk.validate lower cfg automatic r units = some p) (quoted : Sdk.routeQuote r p duration capacity relay = some q)
    (hf : ∀ cf m, s.config = some cf → s.token.mints cf.mint = some m → r.sourceDecimals = m.decimals.toNat)
    (ht : ∀ pe, s.peers chain = some pe → r.destinationDecimals = pe.tokenDecimals.toNat) (ixs : List Ix)
    (built : Sdk.initiateSolana env s sender p chain receiver key = some ixs) (ev : List Event)
    (h : execAll env s (oneTransaction rt ixs) = .ok (s', ev)) :
    ∃ cf peer n x, s.config = some cf ∧ s.peers chain = some peer ∧ n.toNat = q.sourceAmount ∧
      ev = [.debited (env.ata sender cf.mint) sender key n, .posted (sdkMessageBytes x [])] ∧
      RouteCarries x env.programId peer.address chain receiver q.sourceAmount r.sourceDecimals := by
  obtain ⟨ha, hq, -⟩ := normal valid
  obtain ⟨h1, -⟩ := quote_some quoted
  unfold Sdk.initiateSolana at built
  rw [hq] at built
  obtain ⟨cf, mint, peer, n, item, rest, wire, hcf, hmint, hpeer, hev, hn, hv, -, hor⟩ := C110_transfer sender receiver key _ chain false ixs built h
  have hf := hf _ _ hcf hmint
  have ht := ht _ hpeer
  have hnn : n.toNat = q.sourceAmount := by
    rw [hn, h1, ha, hf, ht]
    unfold Sdk.trimAmount
    dsimp only
    rw [Nat.mul_div_cancel _ (Nat.pow_pos (by decide))]
  rcases hor with ⟨-, hrest⟩ | ⟨hfalse, -⟩
  · refine ⟨cf, peer, n, ⟨env.programId, peer.address, ⟨key, sender, ⟨wire.decimals, wire.amount, cf.mint, receiver, chain, []⟩⟩⟩, hcf, hpeer, hnn, ?_,
      rfl, rfl, rfl, rfl, rfl, ?_⟩
    · rw [hev, hrest]
      simp [transferMessage, sdkMessageBytes, sdkManagerBytes, sdkTransferBytes]
    · rw [← hnn, hf]
      exact hv
  · cases hfalse

/-- **C113** (arriving on EVM chains): whatever is paid for a message that carries what the route quoted, when the SDK redeems it, goes to the receiver and is what was
quoted to arrive. -/
theorem C113_arrives_evm (f : UInt8) (e : Evm.Env) (hf : r.sourceDecimals = f.toNat) (ht : r.destinationDecimals = e.tokenDecimals.toNat)
    (valid : Sdk.validate lower cfg automatic r units = some p) (quoted : Sdk.routeQuote r p duration capacity relay = some q)
    (x : Sdk.Message) (source target receiver : Bytes32) (chain : UInt16)
    (carries : RouteCarries x source target chain receiver q.sourceAmount r.sourceDecimals) (vaa : Evm.Vaa) (same : vaa.payload = sdkMessageBytes x [])
    (knows : UInt16 → Bool) (transceiver : Option Evm.Address) (k : Evm.Call) (built : Sdk.evmRedeem knows transceiver [.wormhole vaa] = some [k])
    (c : Evm.Ctx) (s s' : Evm.State) (ev : List Evm.Event) (h : Evm.call e c k s = .ok (s', ev)) (d : Bytes32) (to' : Evm.Address) (n : Nat)
    (paid : .paid d to' n ∈ ev) :
    n = q.destinationAmount ∧ receiver.val = List.replicate 12 0 ++ to'.val ∧ chain = e.chainId ∧ target = e.manager.toWormhole ∧
      (s.peers vaa.emitterChain).peerAddress = source := by
  obtain ⟨-, -, hdvd, hsame, -⟩ := C113_quote f e.tokenDecimals hf ht valid quoted
  obtain ⟨t, vaa', y, -, hl, hread, -, hsrc, htgt, ev', hev, hcase⟩ := C112_redeem transceiver _ k built s s' ev h
  obtain rfl : vaa = vaa' := by simpa using hl
  rw [same] at hread
  obtain ⟨c1, c2, c3, c4, c5, c6⟩ := carries
  obtain rfl := message_unique c5 hread
  rw [hev] at paid
  rcases hcase with rfl | rfl | ⟨r', n', rfl, asks⟩
  · simp at paid
  · simp at paid
  · simp only [List.mem_cons, reduceCtorEq, false_or, List.not_mem_nil, or_false, Evm.Event.paid.injEq] at paid
    obtain ⟨-, rfl, rfl⟩ := paid
    obtain ⟨a1, a2, a3⟩ := asks
    refine ⟨?_, by rw [← c4]; exact a2, by rw [← c3]; exact a1, by rw [← c2]; exact htgt, by rw [← c1]; exact hsrc⟩
    rw [a3]
    rw [hf] at c6
    exact (arrives (w := wireDecimals f e.tokenDecimals) (by unfold wireDecimals; omega) hdvd c6 hsame).2

/-- **C113** (arriving on Solana): the same. -/
theorem C113_arrives_solana (f : UInt8) (env : Env) (s s' : State) (rt : Rt) (cf : Config) (mint : Mint) (hcf : s.config = some cf)
    (hmint : s.token.mints cf.mint = some mint) (hf : r.sourceDecimals = f.toNat) (ht : r.destinationDecimals = mint.decimals.toNat)
    (valid : Sdk.validate lower cfg automatic r units = some p) (quoted : Sdk.routeQuote r p duration capacity relay = some q)
    (x : Sdk.Message) (source target receiver : Bytes32) (chain : UInt16)
    (carries : RouteCarries x source target chain receiver q.sourceAmount r.sourceDecimals) (vaa : Vaa) (same : vaa.payload = sdkMessageBytes x [])
    (knows : UInt16 → Bool) (ixs : List Ix) (built : Sdk.solanaRedeem knows env s vaa = some ixs) (ev : List Event)
    (h : execAll env s (oneTransaction rt ixs) = .ok (s', ev)) (d account : Bytes32) (n : UInt64) (first : s.inbox d = none)
    (paid : .paid d account n ∈ ev) : n.toNat = q.destinationAmount ∧ account = env.ata receiver cf.mint := by
  obtain ⟨-, -, hdvd, hsame, -⟩ := C113_quote f mint.decimals hf ht valid quoted
  obtain ⟨c1, c2, c3, c4, c5, c6⟩ := carries
  have hread : Sdk.deserialize (Sdk.readMessage knows) vaa.payload = some x := by
    unfold Sdk.solanaRedeem at built
    cases hr : Sdk.deserialize (Sdk.readMessage knows) vaa.payload with
    | none => simp [hr] at built
    | some y =>
      rw [same] at hr
      rw [message_unique c5 hr]
  obtain ⟨cf', mint', m, rest, dg, item, hcf', hmint', hm, -, -, -, -, -, hor, hfirst⟩ := C110_redeem knows vaa ixs built x hread c5 h
  obtain rfl : cf = cf' := Option.some.inj (hcf.symm.trans hcf')
  obtain rfl : mint = mint' := Option.some.inj (hmint.symm.trans hmint')
  obtain ⟨l1, l2, hl1, hl2, -, hbs⟩ := transceiver_read_inv hm
  have e := hbs.symm.trans same
  rw [Sdk.solanaBytes_eq, Sdk.sdkMessageBytes_eq] at e
  obtain ⟨-, -, -, -, -, -, h7, h8, -, h10, -, -⟩ := Sdk.message_inj (by omega) (by simp) (by omega) (by simp) e
  rcases hor with ⟨hev, -⟩ | ⟨hev, -⟩
  · rw [hev] at paid
    simp only [List.mem_cons, List.not_mem_nil, or_false, Event.paid.injEq] at paid
    obtain ⟨rfl, rfl, rfl⟩ := paid
    obtain ⟨-, ham⟩ := hfirst (by rw [first]; rfl)
    refine ⟨?_, by rw [h10, c4]⟩
    rw [ham, h7, h8]
    rw [hf] at c6
    exact (arrives (w := wireDecimals f mint.decimals) (m := wireDecimals f mint.decimals) (by unfold wireDecimals; omega) hdvd c6 hsame).1
  · rw [hev] at paid
    cases paid

/-- **C113** (from one EVM chain to another): whatever is paid for a message that was published for a transfer started by the route is what the route quoted to arrive, and
goes to the receiver. -/
theorem C113_evm_to_evm (e e' : Evm.Env) (c : Evm.Ctx) (w : Evm.World) (sender : Evm.Address) (user : sender ≠ e.manager) (feeless : ∀ n, e.fee.of n = 0)
    (hf : r.sourceDecimals = e.tokenDecimals.toNat) (ht : r.destinationDecimals = e'.tokenDecimals.toNat) (chain : UInt16)
    (valid : Sdk.validate lower cfg automatic r units = some p) (quoted : Sdk.routeQuote r p duration capacity relay = some q)
    (receiver : Bytes32) (plan : List Sdk.Planned) (started : Sdk.initiateEvm e c w sender p chain receiver = some plan) (txs : List Evm.WTx)
    (sub : Submitted e sender c plan txs) (t : Evm.Address) (vaa : Evm.Vaa) (published : .published t vaa.payload ∈ (Evm.wrun e w txs).2)
    (knows : UInt16 → Bool) (transceiver : Option Evm.Address) (k : Evm.Call) (built : Sdk.evmRedeem knows transceiver [.wormhole vaa] = some [k])
    (c' : Evm.Ctx) (s s' : Evm.State) (ev : List Evm.Event) (h : Evm.call e' c' k s = .ok (s', ev)) (d : Bytes32) (to' : Evm.Address) (n : Nat)
    (paid : .paid d to' n ∈ ev) : n = q.destinationAmount ∧ receiver.val = List.replicate 12 0 ++ to'.val ∧ chain = e'.chainId := by
  rcases C113_sends_evm e c w sender user feeless hf chain valid quoted receiver plan started txs sub with h0 | ⟨ev0, h0, -, -, -, hpub⟩
  · rw [h0] at published; cases published
  · rw [h0] at published
    simp only [List.mem_cons, reduceCtorEq, false_or] at published
    obtain ⟨x, hx, hc⟩ := hpub _ _ published
    obtain ⟨a1, a2, a3, -⟩ := C113_arrives_evm _ e' hf ht valid quoted x _ _ _ _ hc vaa hx knows transceiver k built c' s s' ev h d to' n paid
    exact ⟨a1, a2, a3⟩

/-- **C113** (from an EVM chain to Solana): the same. -/
theorem C113_evm_to_solana (e : Evm.Env) (c : Evm.Ctx) (w : Evm.World) (sender : Evm.Address) (user : sender ≠ e.manager) (feeless : ∀ n, e.fee.of n = 0)
    (env : Env) (s s' : State) (rt : Rt) (cf : Config) (mint : Mint) (hcf : s.config = some cf) (hmint : s.token.mints cf.mint = some mint)
    (hf : r.sourceDecimals = e.tokenDecimals.toNat) (ht : r.destinationDecimals = mint.decimals.toNat) (chain : UInt16)
    (valid : Sdk.validate lower cfg automatic r units = some p) (quoted : Sdk.routeQuote r p duration capacity relay = some q)
    (receiver : Bytes32) (plan : List Sdk.Planned) (started : Sdk.initiateEvm e c w sender p chain receiver = some plan) (txs : List Evm.WTx)
    (sub : Submitted e sender c plan txs) (t : Evm.Address) (vaa : Vaa) (published : .published t vaa.payload ∈ (Evm.wrun e w txs).2)
    (knows : UInt16 → Bool) (ixs : List Ix) (built : Sdk.solanaRedeem knows env s vaa = some ixs) (ev : List Event)
    (h : execAll env s (oneTransaction rt ixs) = .ok (s', ev)) (d account : Bytes32) (n : UInt64) (first : s.inbox d = none)
    (paid : .paid d account n ∈ ev) : n.toNat = q.destinationAmount ∧ account = env.ata receiver cf.mint := by
  rcases C113_sends_evm e c w sender user feeless hf chain valid quoted receiver plan started txs sub with h0 | ⟨ev0, h0, -, -, -, hpub⟩
  · rw [h0] at published; cases published
  · rw [h0] at published
    simp only [List.mem_cons, reduceCtorEq, false_or] at published
    obtain ⟨x, hx, hc⟩ := hpub _ _ published
    exact C113_arrives_solana _ env s s' rt cf mint hcf hmint hf ht valid quoted x _ _ _ _ hc vaa hx knows ixs built ev h d account n first paid

/-- **C113** (from Solana to an EVM chain): the same. -/
theorem C113_solana_to_evm (env : Env) (s s' : State) (rt : Rt) (cf : Config) (mint : Mint) (hcf : s.config = some cf)
    (hmint : s.token.mints cf.mint = some mint) (e : Evm.Env) (chain : UInt16) (hf : r.sourceDecimals = mint.decimals.toNat)
    (ht : r.destinationDecimals = e.tokenDecimals.toNat) (peer : Peer) (hpeer : s.peers chain = some peer) (recorded : peer.tokenDecimals = e.tokenDecimals)
    (valid : Sdk.validate lower cfg automatic r units = some p) (quoted : Sdk.routeQuote r p duration capacity relay = some q)
    (sender receiver key : Bytes32) (ixs : List Ix) (started : Sdk.initiateSolana env s sender p chain receiver key = some ixs) (ev : List Event)
    (h : execAll env s (oneTransaction rt ixs) = .ok (s', ev)) (vaa : Evm.Vaa) (posted : .posted vaa.payload ∈ ev)
    (knows : UInt16 → Bool) (transceiver : Option Evm.Address) (k : Evm.Call) (built : Sdk.evmRedeem knows transceiver [.wormhole vaa] = some [k])
    (c : Evm.Ctx) (s1 s1' : Evm.State) (ev1 : List Evm.Event) (h1 : Evm.call e c k s1 = .ok (s1', ev1)) (d : Bytes32) (to' : Evm.Address) (n : Nat)
    (paid : .paid d to' n ∈ ev1) : n = q.destinationAmount ∧ receiver.val = List.replicate 12 0 ++ to'.val ∧ chain = e.chainId := by
  obtain ⟨cf', peer', n', x, -, -, -, hev, hc⟩ := C113_sends_solana env s s' rt sender receiver key chain valid quoted
    (fun cf1 m1 h1 h2 => by
      obtain rfl : cf = cf1 := Option.some.inj (hcf.symm.trans h1)
      obtain rfl : mint = m1 := Option.some.inj (hmint.symm.trans h2)
      exact hf)
    (fun pe h1 => by
      obtain rfl : peer = pe := Option.some.inj (hpeer.symm.trans h1)
      rw [ht, recorded]) ixs started ev h
  rw [hev] at posted
  simp only [List.mem_cons, reduceCtorEq, false_or, List.not_mem_nil, or_false, Event.posted.injEq] at posted
  obtain ⟨a1, a2, a3, -⟩ := C113_arrives_evm _ e hf ht valid quoted x _ _ _ _ hc vaa posted knows transceiver k built c s1 s1' ev1 h1 d to' n paid
  exact ⟨a1, a2, a3⟩

end

/-! ## Cases -/

section
open Sdk

private def onSolana : TokenConfig := ⟨1, "So1", "NTT1", [⟨"other", "TR0"⟩, ⟨"wormhole", "TR1"⟩], some "Q1"⟩
private def onEvm : TokenConfig := ⟨2, "0xaa", "0xbb", [⟨"wormhole", "0xcc"⟩], none⟩
private def otherToken : TokenConfig := ⟨2, "0xab", "0xbc", [⟨"wormhole", "0xcd"⟩], none⟩
private def elsewhere : TokenConfig := ⟨1, "So2", "NTT2", [⟨"wormhole", "TR2"⟩], none⟩
private def twoTokens : RouteConfig := [[onSolana, onEvm], [otherToken, elsewhere]]

example : Unambiguous id twoTokens := by
  unfold Unambiguous twoTokens
  refine ⟨?_, ?_⟩ <;> simp [onSolana, onEvm, otherToken, elsewhere]

private def fromEvm : RouteRequest := ⟨⟨2, "0xaa"⟩, ⟨1, "So1"⟩, 18, 9⟩
private def fromSolana : RouteRequest := ⟨⟨1, "So1"⟩, ⟨2, "0xaa"⟩, 9, 18⟩

/-- What each token is offered; and the contracts that are found for them. -/
example : resolveSourceTokens twoTokens 2 = [⟨2, "0xaa"⟩, ⟨2, "0xab"⟩] ∧
    resolveDestinationTokens id twoTokens ⟨2, "0xaa"⟩ 2 1 = [⟨1, "So1"⟩] ∧ resolveDestinationTokens id twoTokens ⟨2, "0xab"⟩ 2 1 = [⟨1, "So2"⟩] ∧
    resolveNttContracts id twoTokens ⟨1, "So1"⟩ = some ⟨"So1", "NTT1", "TR1", some "Q1"⟩ ∧
    resolveNttContracts id twoTokens ⟨2, "0xad"⟩ = none ∧
    resolveDestinationNttContracts id twoTokens ⟨2, "0xbc"⟩ 1 = some ⟨"So2", "NTT2", "TR2", none⟩ := by decide +kernel

private theorem valid_from_evm (n : Nat) : validate id twoTokens false fromEvm n =
    some ⟨trimAmount n 18 9, ⟨"0xaa", "0xbb", "0xcc", none⟩, ⟨"So1", "NTT1", "TR1", some "Q1"⟩, false, false⟩ := by
  have h1 : resolveNttContracts id twoTokens fromEvm.source = some ⟨"0xaa", "0xbb", "0xcc", none⟩ := by decide +kernel
  have h2 : resolveNttContracts id twoTokens fromEvm.destination = some ⟨"So1", "NTT1", "TR1", some "Q1"⟩ := by decide +kernel
  unfold validate
  rw [h1, h2]
  rfl

private theorem valid_from_solana (n : Nat) : validate id twoTokens true fromSolana n =
    some ⟨trimAmount n 9 18, ⟨"So1", "NTT1", "TR1", some "Q1"⟩, ⟨"0xaa", "0xbb", "0xcc", none⟩, false, true⟩ := by
  have h1 : resolveNttContracts id twoTokens fromSolana.source = some ⟨"So1", "NTT1", "TR1", some "Q1"⟩ := by decide +kernel
  have h2 : resolveNttContracts id twoTokens fromSolana.destination = some ⟨"0xaa", "0xbb", "0xcc", none⟩ := by decide +kernel
  unfold validate
  rw [h1, h2]
  rfl

/-- Half a token and a little more: the little more is not sent; no warning, as there is room for more than 0.526. -/
example : (validate id twoTokens false fromEvm (5 * 10 ^ 17 + 7)).bind (fun p => routeQuote fromEvm p 86400 526315790 none) =
    some ⟨5 * 10 ^ 17, 500000000, none, none⟩ ∧
    (validate id twoTokens false fromEvm (5 * 10 ^ 17 + 7)).bind (fun p => routeQuote fromEvm p 86400 526315789 none) =
    some ⟨5 * 10 ^ 17, 500000000, some 86400, none⟩ := by
  rw [valid_from_evm]; decide +kernel

/-- With relaying, a relayer is needed. -/
example : (validate id twoTokens true fromSolana 3000000007).bind (fun p => routeQuote fromSolana p 0 0 (some 12)) =
      some ⟨3000000000, 3 * 10 ^ 18, none, some 12⟩ ∧
    (validate id twoTokens true fromSolana 3000000007).bind (fun p => routeQuote fromSolana p 0 0 none) = none := by
  rw [valid_from_solana]; decide +kernel

/-- The hypotheses of `C113_mixed`: the token `0xaa` is in two groups. -/
example : resolveDestinationTokens id [[onEvm, onSolana], [{ onEvm with manager := "0xdd" }, elsewhere]] ⟨2, "0xaa"⟩ 2 1 = [⟨1, "So1"⟩, ⟨1, "So2"⟩] ∧
    (resolveNttContracts id [[onEvm, onSolana], [{ onEvm with manager := "0xdd" }, elsewhere]] ⟨2, "0xaa"⟩).map Contracts.manager = some "0xbb" ∧
    (contractsOf onEvm).isSome ∧ (contractsOf elsewhere).isSome := by decide +kernel

end

section
open Example.EvmM

private def before'' : List Evm.WTx := (setup ++ life.take 4).map fun t => ⟨t.ctx, .contract t.call⟩
private def world'' : Evm.World := (Evm.wrun env (Evm.winitial env owner ⟨fun _ => 0, 0⟩ 1000) before'').1
private def ctx'' (now : Nat) : Evm.Ctx := (at_ user now .pause).ctx
private def halfToken : Sdk.Normalized := ⟨5 * 10 ^ 17, ⟨"0xaa", "0xbb", "0xcc", none⟩, ⟨"So1", "NTT1", "TR1", some "Q1"⟩, false, false⟩
private def halfMessage : Sdk.Message := ⟨env.manager.toWormhole, peer, ⟨Evm.idOfSequence 0, user.toWormhole,
  ⟨8, 50000000, env.token.toWormhole, Bytes32.ofByte 15, 1, []⟩⟩⟩

example : Sdk.validate id twoTokens false fromEvm (5 * 10 ^ 17 + 7) = some halfToken := by rw [valid_from_evm]; rfl

set_option maxRecDepth 100000 in
/-- The route hands an approval and a transfer to the wallet; they publish the message of half a token. -/
example : (Sdk.initiateEvm env (ctx'' 2009) world'' user halfToken 1 (Bytes32.ofByte 15)).map (fun plan =>
      (Evm.wrun env world'' (plan.map fun k => ⟨{ ctx'' 2010 with value := k.value }, k.call⟩)).2.filter
        fun ev => match ev with | .sent .. => false | _ => true) =
    some [.debited 0 user (5 * 10 ^ 17) 1 (Bytes32.ofByte 15), .published wormhole (sdkMessageBytes halfMessage [])] := by decide +kernel

example : RouteCarries halfMessage env.manager.toWormhole peer 1 (Bytes32.ofByte 15) (5 * 10 ^ 17) 18 ∧ user ≠ env.manager ∧ ∀ n, env.fee.of n = 0 :=
  ⟨⟨rfl, rfl, rfl, rfl, rfl, by unfold SameValue; decide⟩, by decide, fun _ => rfl⟩

private def oneMessage : Sdk.Message :=
  ⟨peer, env.manager.toWormhole, ⟨Bytes32.ofByte 23, Bytes32.ofByte 13, ⟨8, 100000000, Bytes32.ofByte 14, user.toWormhole, 2, []⟩⟩⟩

set_option maxRecDepth 100000 in
/-- A message from Solana of one token (1000000000 units there), which the other transceiver has already attested to: the SDK's transaction pays what the route quotes. -/
example : (vaa 23 100000000).payload = sdkMessageBytes oneMessage [] ∧
    (Sdk.evmRedeem (fun _ => true) (some wormhole) [.wormhole (vaa 23 100000000)]).map (fun l =>
      (Evm.run env (Evm.run env world''.s [at_ other 2011 (.attestationReceived 1 peer (message 23 100000000))]).1 (l.map fun k => ⟨ctx'' 2012, k⟩)).2) =
      some [.attested (Bytes32.ofByte 23) wormhole, .paid (Bytes32.ofByte 23) user (10 ^ 18)] := by decide +kernel

example : RouteCarries oneMessage peer env.manager.toWormhole 2 user.toWormhole 1000000000 9 ∧
    Sdk.scale (Sdk.trimAmount 1000000003 9 18) 9 18 = 10 ^ 18 ∧ Sdk.trimAmount 1000000003 9 18 = 1000000000 :=
  ⟨⟨rfl, rfl, rfl, rfl, rfl, by unfold SameValue; decide⟩, by decide, by decide⟩

end

section
open Example

private def routeEnv : Env :=
  { Example.env with ata := fun o m => if o = user ∧ m = mint then userAcct else Example.ata o m }

private def routeRt (now : Int) : Rt := Example.rt now [user, outKey]

private def threeTokens : Sdk.Normalized := ⟨3000000000, ⟨"So1", "NTT1", "TR1", some "Q1"⟩, ⟨"0xaa", "0xbb", "0xcc", none⟩, false, true⟩

example : Sdk.validate id twoTokens true fromSolana 3000000007 = some threeTokens := by rw [valid_from_solana]; rfl

set_option maxRecDepth 100000 in
/-- 3.000000007 tokens are asked for: 3 are quoted and sent. -/
example : (Sdk.initiateSolana routeEnv (run routeEnv s0 setup).1 user threeTokens 2 (A 50) outKey).map
      (fun ixs => (submitAll routeEnv (run routeEnv s0 setup).1 (oneTransaction (routeRt 2000) ixs)).2) =
    some [.debited userAcct user outKey 3000000000, .posted (sdkMessageBytes ⟨me, peerMgr, ⟨outKey, user, ⟨8, 300000000, mint, A 50, 2, []⟩⟩⟩ [])] := by rfl

private def twoMessage : Sdk.Message := ⟨peerMgr, me, ⟨A 60, A 61, ⟨8, 200000000, A 62, recipient, 1, []⟩⟩⟩
private def routeVaa : Vaa := { emitterChain := 2, emitterAddress := peerTr, payload := inBytes }
private def routeBefore : List Tx := setup ++ outbound ++ [⟨Example.rt 3000 [user], .token (.createAccount recAcct recipient mint)⟩]

set_option maxRecDepth 100000 in
/-- Two tokens of 18 decimals are redeemed on Solana. -/
example : inBytes = sdkMessageBytes twoMessage [] ∧ (run routeEnv s0 routeBefore).1.inbox inHash = none ∧
    (Sdk.solanaRedeem (fun _ => true) routeEnv (run routeEnv s0 routeBefore).1 routeVaa).map
      (fun ixs => (submitAll routeEnv (run routeEnv s0 routeBefore).1 (oneTransaction (routeRt 3001) ixs)).2) =
      some [.paid inHash recAcct 2000000000] ∧
    RouteCarries twoMessage peerMgr me 1 recipient (2 * 10 ^ 18) 18 ∧ Sdk.scale (Sdk.trimAmount (2 * 10 ^ 18) 18 9) 18 9 = 2000000000 :=
  ⟨by rfl, rfl, rfl, ⟨rfl, rfl, rfl, rfl, rfl, by unfold SameValue; decide⟩, by decide⟩

end

end Ntt.Props

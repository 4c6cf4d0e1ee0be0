import Verif.Lemmas.Client
import Verif.Lemmas.SystemDo
import Verif.Lemmas.RawComplete
import Verif.Lemmas.RawTrack
import Verif.Lemmas.Inbox
/-! # What clients build is what the program accepts -/
namespace Ntt.TokenState

/-- Mints persist and stay with their token program. -/
def ProgramsKept (t t' : TokenState) : Prop :=
  ∀ k m, t.mints k = some m → ∃ m', t'.mints k = some m' ∧ m'.program = m.program

theorem ProgramsKept.trans {a b c : TokenState} (h : ProgramsKept a b) (h' : ProgramsKept b c) : ProgramsKept a c := fun k m hm => by
  obtain ⟨m1, h1, e1⟩ := h k m hm
  obtain ⟨m2, h2, e2⟩ := h' k m1 h1
  exact ⟨m2, h2, e2.trans e1⟩

theorem ProgramsKept.of_eq {t t' : TokenState} (h : t'.mints = t.mints) : ProgramsKept t t' :=
  fun _ m hm => ⟨m, by rw [h]; exact hm, rfl⟩

theorem ProgramsKept.upd {t t' : TokenState} {k : Bytes32} {m m' : Mint} (hm : t.mints k = some m)
    (h : t'.mints = Ntt.upd t.mints k (some m')) (hd : m'.program = m.program) : ProgramsKept t t' := by
  intro j mj hj
  rw [h, upd_eq]
  split
  · subst j; rw [hm] at hj; cases hj; exact ⟨m', rfl, hd⟩
  · exact ⟨mj, hj, rfl⟩

theorem mintTo_programs {t t' : TokenState} {mint dst au : Bytes32} {n : Nat} (h : t.mintTo mint dst au n = .ok t') : ProgramsKept t t' := by
  obtain ⟨m, b, hm, _, _, _, _, _, rfl⟩ := mintTo_ok h
  exact .upd hm rfl rfl

theorem burn_programs {t t' : TokenState} {src mint au : Bytes32} {n : Nat} (h : t.burn src mint au n = .ok t') : ProgramsKept t t' := by
  obtain ⟨m, a, a', hm, _, _, _, _, _, rfl⟩ := burn_ok h
  exact .upd hm rfl rfl

theorem OpEffect.programs {t t' : TokenState} {ata : Bytes32 → Bytes32 → Bytes32} {signers : List Bytes32} {fee : Nat → Nat} {op : TokenOp}
    (h : OpEffect t ata signers fee op t') : ProgramsKept t t' := by
  cases h with
  | transfer src dst mint au n t' hau h => exact .of_eq (transfer_mints h)
  | mintTo mint dst au n t' hau h => exact mintTo_programs h
  | burn src mint au n t' hau h => exact burn_programs h
  | createMint k d au pr hk hm hn =>
    intro j m hj
    simp only
    rw [upd_eq]
    split
    · subst j; rw [hm] at hj; cases hj
    · exact ⟨m, hj, rfl⟩
  | setMintAuthority k au n m hm hau ha => exact .upd hm rfl rfl
  | _ => exact .of_eq rfl

end Ntt.TokenState

namespace Ntt
open Spec

section
variable {env : Env} {rt : Rt} {s s' : State} {ix : Ix} {ev : List Event}

theorem debit_programs {kind : Mode} {t t' : TokenState} {src cu mint se : Bytes32} {b : Nat} {a : UInt64} {fee : Nat → Nat}
    (h : debit kind env t src cu mint se b a fee = .ok t') : TokenState.ProgramsKept t t' := by
  cases kind with
  | locking =>
    simp only [debit, debitLock] at h
    obtain ⟨t1, h1, h⟩ := ex_bind_ok.mp h
    simp only [getSome_bind, require_bind] at h
    obtain ⟨_, _, _, _, h⟩ := h
    cases h
    exact .of_eq (TokenState.transfer_mints h1)
  | burning =>
    simp only [debit, debitBurn] at h
    obtain ⟨t1, h1, h⟩ := ex_bind_ok.mp h
    obtain ⟨t2, h2, h⟩ := ex_bind_ok.mp h
    simp only [getSome_bind, require_bind] at h
    obtain ⟨_, _, _, h⟩ := h
    cases h
    exact (TokenState.ProgramsKept.of_eq (TokenState.transfer_mints h1)).trans (TokenState.burn_programs h2)

theorem payOut_programs {kind : Mode} {t t' : TokenState} {cu rec mint : Bytes32} {a : UInt64} {fee : Nat → Nat}
    (h : payOut kind env t cu rec mint a fee = .ok t') : TokenState.ProgramsKept t t' := by
  cases kind with
  | locking => exact .of_eq (TokenState.transfer_mints h)
  | burning =>
    obtain ⟨t1, h1, h⟩ := ex_bind_ok.mp h
    exact (TokenState.mintTo_programs h1).trans (.of_eq (TokenState.transfer_mints h))

theorem Effect.programs (h : Effect env rt s ix s' ev) : TokenState.ProgramsKept s.token s'.token := by
  rcases h.token_writers with h | ⟨_, _, _, _, _, ⟨w⟩⟩ | ⟨_, _, _, _, _, ⟨w⟩⟩ | ⟨_, _, _, _, h⟩ | ⟨_, _, h, _⟩
  · exact .of_eq (by rw [h])
  · rw [w.hs']; exact debit_programs w.hdebit
  · rcases w.hs' with ⟨_, tk, _, _, h, hs, _⟩ | ⟨_, hs, _⟩
    · rw [hs]; exact payOut_programs h
    · rw [hs]; exact .of_eq rfl
  · exact .of_eq (ensureCustody_ok h).1
  · exact (TokenState.exec_ok h).programs

/-- The configuration names the token program of the mint and the custody account that belongs to both. -/
def Configured (env : Env) (s : State) : Prop :=
  ∀ cfg, s.config = some cfg → cfg.custody = env.ata env.tokenAuthority cfg.mint ∧
    ∃ m, s.token.mints cfg.mint = some m ∧ m.program = cfg.tokenProgram

theorem Configured.step (h : Configured env s) (he : Effect env rt s ix s' ev) : Configured env s' := by
  cases hc : s.config with
  | none =>
    rcases he.config_writers with hc' | ⟨_, hsig, mk, args, mint, hix, hm, hma, hc'⟩ | ⟨cfg, hcfg, _⟩
    · rw [hc] at hc'
      intro cfg h
      rw [hc'] at h
      cases h
    · obtain ⟨m', h1, h2⟩ := he.programs _ _ hm
      intro cfg h
      rw [hc'] at h
      cases h
      exact ⟨rfl, m', h1, h2⟩
    · rw [hc] at hcfg; cases hcfg
  | some cfg =>
    obtain ⟨cfg', hc', hsame⟩ := he.config_same hc
    obtain ⟨h1, m, h2, h3⟩ := h _ hc
    obtain ⟨m', h4, h5⟩ := he.programs _ _ h2
    intro c hcc
    rw [hc'] at hcc
    cases hcc
    rw [hsame.custody, hsame.mint, hsame.tokenProgram]
    exact ⟨h1, m', h4, h5.trans h3⟩

end
end Ntt

namespace Ntt.Client
open Ntt Ntt.Spec Ntt.Raw Ntt.Entry

section
variable {c : Setup} {K : List Role} {rt : RRt} {s : RState} {r : RState × List Event} {cfg : Config}

/-- The attestation an order refers to is at the address the client derives. -/
theorem message_read {tr : Bytes32} {chain : UInt16} {id : Bytes32} {v : ValidatedMessage}
    (h : (typed c.e.toREnv K s).messageAt c.e.env tr (refOf c.e.toREnv tr chain id) = some v) :
    ∃ acc, s.accts (c.e.find (Role.transceiverMessage chain id).seeds tr) = some acc ∧ tryFrom (c.e.disc .message) acc.data = .ok v := by
  unfold refOf at h
  by_cases ht : tr = c.e.programId
  · subst ht
    rw [if_pos rfl] at h
    obtain ⟨acc, h1, _, h2⟩ := contents_some.mp (of_received (ite_some h).2).2
    exact ⟨acc, h1, (load_message _ _).symm.trans h2⟩
  · rw [if_neg ht] at h
    have h := (if_neg (show ¬tr = c.e.env.programId from ht)).symm.trans h
    simp only [typed, attestation] at h
    generalize hacc : s.accts (c.e.find (Role.transceiverMessage chain id).seeds tr) = o at h
    cases o with
    | none => cases h
    | some acc => exact ⟨acc, rfl, toOption_eq_some.mp (ite_some h).2⟩

/-- The call that redeems passes that account. -/
theorem redeem_message {rix : RIx} {tr chain id} (h : SameCall c.e.toREnv rt rix (.redeem tr (refOf c.e.toREnv tr chain id))) :
    ∃ a, rix = .redeem a ∧ a.transceiver = c.e.addr (.registeredTransceiver tr) ∧
      a.transceiverMessage = c.e.find (Role.transceiverMessage chain id).seeds tr := by
  unfold refOf at h
  by_cases ht : tr = c.e.programId
  · rw [if_pos ht] at h
    cases h with
    | redeemOwn a t c' i h1 h2 => exact ⟨a, rfl, h1, by rw [ht]; exact h2⟩
  · rw [if_neg ht] at h
    generalize hix : Ix.redeem tr (.other (c.e.find (Role.transceiverMessage chain id).seeds tr)) = ix at h
    cases h <;> simp only [reduceCtorEq, Ix.redeem.injEq, and_false, MsgRef.other.injEq] at hix
    obtain ⟨rfl, h2⟩ := hix
    exact ⟨_, rfl, ‹_›, h2.symm⟩

theorem transferOut_payer {e : REnv} {kind : Mode} {a : TransferAccounts} {args : TransferArgs} {p : Bytes32} (hp : p ∈ rt.signers)
    (h : Raw.transferOut kind e rt s a args = .ok r) : Raw.transferOut kind e rt s { a with payer := p } args = .ok r := by
  simp only [Raw.transferOut, require_bind] at h ⊢
  exact ⟨hp, h.2⟩

theorem release_payer {e : REnv} {kind : Mode} {a : ReleaseInboundAccounts} {b : Bool} {p : Bytes32} (hp : p ∈ rt.signers)
    (h : Raw.releaseInbound kind e rt s a b = .ok r) : Raw.releaseInbound kind e rt s { a with payer := p } b = .ok r := by
  simp only [Raw.releaseInbound, require_bind] at h ⊢
  exact ⟨hp, h.2⟩

theorem redeem_payer {e : REnv} {a : RedeemAccounts} {p : Bytes32} (hp : p ∈ rt.signers)
    (h : Raw.redeem e rt s a = .ok r) : Raw.redeem e rt s { a with payer := p } = .ok r := by
  simp only [Raw.redeem, require_bind] at h ⊢
  exact ⟨hp, h.2⟩

theorem init_payer {e : REnv} {a : InitializeAccounts} {args : InitializeArgs} {p : Bytes32} (hp : p ∈ rt.signers)
    (h : Raw.initializeManager e rt s a args = .ok r) : Raw.initializeManager e rt s { a with payer := p } args = .ok r := by
  simp only [Raw.initializeManager, require_bind] at h ⊢
  exact ⟨hp, h.2⟩

theorem lut_payer {e : REnv} {a : InitializeLutAccounts} {slot : UInt64} {p : Bytes32} (hp : p ∈ rt.signers)
    (h : Raw.initializeLut e rt s a slot = .ok r) : Raw.initializeLut e rt s { a with payer := p } slot = .ok r := by
  simp only [Raw.initializeLut, require_bind] at h ⊢
  exact ⟨hp, h.2⟩

theorem setPeer_payer {e : REnv} {a : AdminAccounts} {args : SetPeerArgs} {p : Bytes32} (hp : p ∈ rt.signers)
    (h : Raw.setPeer e rt s a args = .ok r) : Raw.setPeer e rt s { a with payer := p } args = .ok r := by
  simp only [Raw.setPeer, require_bind] at h ⊢
  exact ⟨hp, h.2⟩

theorem register_payer {e : REnv} {a : AdminAccounts} {p : Bytes32} (hp : p ∈ rt.signers)
    (h : Raw.registerTransceiver e rt s a = .ok r) : Raw.registerTransceiver e rt s { a with payer := p } = .ok r := by
  simp only [Raw.registerTransceiver, Raw.asOwner_bind, require_bind] at h ⊢
  obtain ⟨x, h1, h2, h3, _, h4⟩ := h
  exact ⟨x, h1, h2, h3, hp, h4⟩

theorem setTransceiverPeer_payer {e : REnv} {a : AdminAccounts} {ch : UInt16} {ad : Bytes32} {p : Bytes32} (hp : p ∈ rt.signers)
    (h : Raw.setTransceiverPeer e rt s a ch ad = .ok r) : Raw.setTransceiverPeer e rt s { a with payer := p } ch ad = .ok r := by
  simp only [Raw.setTransceiverPeer, Raw.asOwner_bind, require_bind] at h ⊢
  obtain ⟨x, h1, h2, h3, _, h4⟩ := h
  exact ⟨x, h1, h2, h3, hp, h4⟩

theorem receive_payer {e : REnv} {a : ReceiveMessageAccounts} {p v : Bytes32} (hp : p ∈ rt.signers) (hv : rt.posted v = rt.posted a.vaa)
    (h : Raw.receiveMessage e rt s a = .ok r) : Raw.receiveMessage e rt s { a with payer := p, vaa := v } = .ok r := by
  simp only [Raw.receiveMessage, require_bind] at h ⊢
  rw [hv]
  exact ⟨hp, h.2⟩

theorem releaseOutbound_payer {e : REnv} {a : ReleaseOutboundAccounts} {b : Bool} {p : Bytes32} (hp : p ∈ rt.signers)
    (h : Raw.releaseOutbound e rt s a b = .ok r) : Raw.releaseOutbound e rt s { a with payer := p } b = .ok r := by
  simp only [Raw.releaseOutbound, require_bind] at h ⊢
  exact ⟨hp, h.2⟩

theorem broadcastId_payer {e : REnv} {a : BroadcastAccounts} {p m : Bytes32} (hp : p ∈ rt.signers) (hm : m ∈ rt.signers)
    (h : Raw.broadcastId e rt s a = .ok r) : Raw.broadcastId e rt s { a with payer := p, wormholeMessage := m } = .ok r := by
  simp only [Raw.broadcastId, require_bind, loadAs_bind, getSome_bind] at h ⊢
  obtain ⟨_, x, h1, h2, y, h3, _, h4⟩ := h
  exact ⟨hp, x, h1, h2, y, h3, hm, h4⟩

theorem broadcastPeer_payer {e : REnv} {a : BroadcastAccounts} {ch : UInt16} {p m : Bytes32} (hp : p ∈ rt.signers) (hm : m ∈ rt.signers)
    (h : Raw.broadcastPeer e rt s a ch = .ok r) : Raw.broadcastPeer e rt s { a with payer := p, wormholeMessage := m } ch = .ok r := by
  simp only [Raw.broadcastPeer, require_bind, loadAs_bind] at h ⊢
  obtain ⟨_, x, h1, h2, y, h3, _, h4⟩ := h
  exact ⟨hp, x, h1, h2, y, h3, hm, h4⟩

theorem lock_unused {e : REnv} (a : TransferAccounts) (args : TransferArgs) (x : Bytes32) :
    Raw.transferOut .locking e rt s { a with tokenAuthority := x } args = Raw.transferOut .locking e rt s a args := rfl

section
variable (hc : Canon c.e.toREnv K s) (n : NoShaCollision c.e.toREnv K) (hcfg : (typed c.e.toREnv K s).config = some cfg)
  (hok : Configured c.e.env (typed c.e.toREnv K s))
include hc hcfg

theorem the_config {a : Bytes32} {x : UInt8 × Config} (h : contents c.e.toREnv tConfig s a = some x) :
    a = c.e.addr .config ∧ x.2 = cfg := by
  have := typed_config hc h
  rw [hcfg] at this
  cases this
  exact ⟨(hc.config _ _ h).2.1, rfl⟩

include n hok in
theorem same_transferOut {kind : Mode} {a : TransferAccounts} {args : CTransferArgs} {fa payer : Bytes32}
    (hx : Raw.transferOut kind c.e.toREnv rt s a args.args = .ok r) (hpay : payer ∈ rt.signers)
    (hK : .inboxRateLimit args.recipientChain ∈ K ∧ .peer args.recipientChain ∈ K)
    (hfa : ∃ x, s.token.accts a.src = some x ∧ fa = x.owner) :
    Raw.transferOut kind c.e.toREnv rt s (transferAccounts c cfg payer a.src fa a.outboxItem args) args.args = .ok r := by
  obtain ⟨x0, hx0, rfl⟩ := hfa
  obtain ⟨p, config, mint, src, tp, item, ol, cust, il, peer, sess, ta⟩ := a
  simp only at hx0 ⊢
  have hkeep := hx
  simp only [Raw.transferOut, require_bind, Raw.notPaused_bind, getSome_bind, loadAs_bind, create_bind] at hx
  obtain ⟨_, x, hx1, _, _, hm, m, hmm, sa, hsa, _, htp, _, _, _, _, o, ho, hcu, _, _, _, i, hi, hia, q, hq, hqa, hse, hta, _⟩ := hx
  obtain ⟨rfl, rfl⟩ := the_config hc hcfg hx1
  obtain ⟨hok1, m', hok2, hok3⟩ := hok _ hcfg
  rw [hx0] at hsa
  cases hsa
  have h1 := (hc.outboxRateLimit _ _ ho).2
  have h2 := (typed_inboxLimit hc n hi hK.1 hia).2.1
  have h3 : peer = c.e.addr (.peer args.recipientChain) := by
    obtain ⟨c', k1, k2, _⟩ := hc.peer _ _ hq
    cases (addrAt_inj n k1 hK.2 (k2.symm.trans hqa) : Role.peer c' = .peer _)
    exact k2
  subst hm
  have h4 : m = m' := Option.some.inj (hmm.symm.trans hok2)
  subst h4
  rw [hok3] at htp
  subst htp h1 h2 h3 hcu hse
  rcases Mode.either kind with rfl | rfl
  · exact (lock_unused _ _ _).trans (transferOut_payer hpay hkeep)
  · cases hta rfl
    exact transferOut_payer hpay hkeep

include hok in
theorem same_release {kind : Mode} {a : ReleaseInboundAccounts} {rv : Bool} {chain : UInt16} {m : CMessage} {rec payer : Bytes32}
    (hx : Raw.releaseInbound kind c.e.toREnv rt s a rv = .ok r) (hpay : payer ∈ rt.signers)
    (hass : ∀ owner mint m, s.token.mints mint = some m → c.associated owner mint m.program = c.e.ata owner mint)
    (hi : a.inboxItem = c.e.addr (.inboxItem (filedAs c.e.toREnv chain m))) (hr : a.recipient = c.e.ata rec cfg.mint) :
    Raw.releaseInbound kind c.e.toREnv rt s (payoutAccounts c cfg payer chain m rec) rv = .ok r := by
  obtain ⟨p, config, item, recipient, ta, mint, tp, cust⟩ := a
  simp only at hi hr
  subst hi hr
  have hkeep := hx
  simp only [Raw.releaseInbound, require_bind, Raw.notPaused_bind, getSome_bind, loadAs_bind] at hx
  obtain ⟨_, x, hx1, _, _, _, hm, mi, hmm, htp, _, _, _, hta, hcu, _⟩ := hx
  obtain ⟨rfl, rfl⟩ := the_config hc hcfg hx1
  obtain ⟨hok1, m', hok2, hok3⟩ := hok _ hcfg
  subst hm
  have h4 : mi = m' := Option.some.inj (hmm.symm.trans hok2)
  subst h4
  have h5 := hass rec _ _ hmm
  rw [hok3] at htp h5
  subst htp hta hcu
  simp only [payoutAccounts, h5]
  exact release_payer hpay hkeep

include n in
theorem same_redeem {a : RedeemAccounts} {chain : UInt16} {m : CMessage} {tr payer : Bytes32} {v : ValidatedMessage}
    (hx : Raw.redeem c.e.toREnv rt s a = .ok r) (hpay : payer ∈ rt.signers)
    (hK : ∀ r ∈ touched c.e.toREnv rt s (.redeem a), r ∈ K)
    (ht : a.transceiver = c.e.addr (.registeredTransceiver tr))
    (hm : a.transceiverMessage = c.e.find (Role.transceiverMessage chain m.id).seeds tr)
    (hv : ∃ acc, s.accts (c.e.find (Role.transceiverMessage chain m.id).seeds tr) = some acc ∧ tryFrom (c.e.disc .message) acc.data = .ok v)
    (hch : v.fromChain = chain) (hpl : v.message.nttManagerPayload = m.plain) :
    Raw.exec c.e.toREnv rt s ((Order.redeem tr payer chain m).call c cfg) = .ok r := by
  obtain ⟨acc, hacc, hv⟩ := hv
  obtain ⟨p, config, peer, msg, transceiver, mint, item, il, ol⟩ := a
  simp only at ht hm
  subst ht hm
  simp only [touched, hacc, hv] at hK
  have hkeep := hx
  simp only [Raw.redeem, require_bind, loadAs_bind, getSome_bind] at hx
  obtain ⟨_, x, hx1, _, acc', hacc', h⟩ := hx
  rw [hacc] at hacc'
  cases hacc'
  obtain ⟨z1, z2, z3, z4⟩ := tryFrom_zc hv
  obtain ⟨fc, hfc, h⟩ := ex_bind_ok.mp h
  obtain ⟨_, _, h⟩ := ex_bind_ok.mp h
  obtain ⟨_, _, h⟩ := ex_bind_ok.mp h
  obtain ⟨pl, hpl', h⟩ := ex_bind_ok.mp h
  rw [z1] at hfc
  rw [z4] at hpl'
  cases hfc
  cases hpl'
  simp only [require_bind, loadAs_bind] at h
  obtain ⟨q, hq, hqa, _, _, _, _, _, _, h⟩ := h
  obtain ⟨_, _, h⟩ := ex_bind_ok.mp h
  simp only [require_bind, getSome_bind] at h
  obtain ⟨_, hmi, _, _, input, hin, hit, h⟩ := h
  obtain ⟨⟨s1, i0⟩, _, h⟩ := ex_bind_ok.mp h
  simp only [require_bind, loadAs_bind] at h
  obtain ⟨hil, _, _, o, ho, _⟩ := h
  obtain ⟨rfl, rfl⟩ := the_config hc hcfg hx1
  have h1 := (hc.outboxRateLimit _ _ ho).2
  have h2 : peer = c.e.addr (.peer v.fromChain) := by
    obtain ⟨c', k1, k2, _⟩ := hc.peer _ _ hq
    cases (addrAt_inj n k1 (hK _ (by simp)) (k2.symm.trans hqa) : Role.peer c' = .peer _)
    exact k2
  have hd : filedAs c.e.toREnv chain m = c.e.hash input := by
    rw [← hch]
    simp only [filedAs, ← hpl, hin, Option.getD_some]
  subst hch h1 h2 hil hmi hit
  simp only [Order.call, hd, Raw.exec]
  exact redeem_payer hpay hkeep

end

/-- If the instruction an order is for succeeds with some accounts, then it does so with those the client passes, to the same effect. -/
theorem same_call {o : Order} {ix : Ix} {rix : RIx} (hc : Canon c.e.toREnv K s) (n : NoShaCollision c.e.toREnv K)
    (hok : Configured c.e.env (typed c.e.toREnv K s)) (hf : Faithful c s)
    (hmeans : Means c rt (typed c.e.toREnv K s) cfg o ix) (hcfg : ConfigRead (typed c.e.toREnv K s) cfg o)
    (hsig : ∀ k ∈ o.signers, k ∈ rt.signers) (hcall : SameCall c.e.toREnv rt rix ix)
    (hK : ∀ r ∈ touched c.e.toREnv rt s rix, r ∈ K) (hx : Raw.exec c.e.toREnv rt s rix = .ok r) :
    Raw.exec c.e.toREnv rt s (o.call c cfg) = .ok r := by
  have hpay : ∀ p ∈ o.signers, p ∈ rt.signers := hsig
  cases o with
  | initializeManager payer owner mint tp chain limit mode =>
    obtain ⟨rfl, rfl, m, hm, rfl⟩ := hmeans
    generalize hix : Ix.initializeManager mint _ = ix at hcall
    cases hcall <;> simp only [reduceCtorEq, Ix.initializeManager.injEq] at hix
    rename_i a args
    obtain ⟨rfl, rfl⟩ := hix
    obtain ⟨p, dep, pd, config, mint, rl, ta, cust, tp⟩ := a
    have hkeep := hx
    simp only [Raw.exec, Raw.initializeManager, require_bind, create_bind, getSome_bind] at hx
    obtain ⟨_, hdep, hpd, hdep', hco, x, hx1, hx2, mi, hmi, hrl, y, hy1, hy2, hta, h⟩ := hx
    have : mi = m := Option.some.inj (hmi.symm.trans hm)
    subst this
    have h2 : tp = mi.program ∧ cust = c.e.ata ta mint := by
      split at h
      · simp only [require_bind, getSome_bind] at h
        obtain ⟨_, _, _, h1, h2, _⟩ := h
        exact ⟨h1, h2⟩
      · simp only [require_bind] at h
        exact ⟨h.1, h.2.1⟩
    obtain ⟨rfl, rfl⟩ := h2
    have h3 := hf.associated (c.e.addr .tokenAuthority) mint mi hm
    subst hpd hdep' hco hrl hta
    simp only [Order.call, Raw.exec, h3]
    exact init_payer (hpay _ (by simp [Order.signers])) hkeep
  | initializeLut payer slot =>
    cases hmeans
    cases hcall
    rename_i a
    obtain ⟨p, au, la, lut, config, cust, tp, mint, ta, ol⟩ := a
    have hkeep := hx
    simp only [Raw.exec, Raw.initializeLut, require_bind] at hx
    obtain ⟨_, hau, hla, hlu, h⟩ := hx
    obtain ⟨⟨s1, _⟩, _, h⟩ := ex_bind_ok.mp h
    simp only [require_bind, loadAs_bind] at h
    obtain ⟨x, hx1, hcu, htp, hmi, hta, o, ho, _⟩ := h
    obtain ⟨rfl, rfl⟩ := the_config hc hcfg hx1
    have h1 := (hc.outboxRateLimit _ _ ho).2
    subst hau hla hlu hcu htp hmi hta h1
    exact lut_payer (hpay _ (by simp [Order.signers])) hkeep
  | transferBurn payer src fa item a =>
    obtain ⟨rfl, hfa⟩ := hmeans
    generalize hix : Ix.transferBurn src item a.args = ix at hcall
    cases hcall <;> simp only [reduceCtorEq, Ix.transferBurn.injEq] at hix
    obtain ⟨rfl, rfl, rfl⟩ := hix
    exact same_transferOut hc n hcfg hok hx (hpay _ (by simp [Order.signers])) ⟨hK _ (by simp [touched, CTransferArgs.args]), hK _ (by simp [touched, CTransferArgs.args])⟩ hfa
  | transferLock payer src fa item a =>
    obtain ⟨rfl, hfa⟩ := hmeans
    generalize hix : Ix.transferLock src item a.args = ix at hcall
    cases hcall <;> simp only [reduceCtorEq, Ix.transferLock.injEq] at hix
    obtain ⟨rfl, rfl, rfl⟩ := hix
    exact same_transferOut hc n hcfg hok hx (hpay _ (by simp [Order.signers])) ⟨hK _ (by simp [touched, CTransferArgs.args]), hK _ (by simp [touched, CTransferArgs.args])⟩ hfa
  | redeem tr payer chain m =>
    obtain ⟨rfl, v, hv, hch, hpl⟩ := hmeans
    obtain ⟨a, rfl, h1, h2⟩ := redeem_message hcall
    exact same_redeem hc n hcfg hx (hpay _ (by simp [Order.signers])) hK h1 h2 (message_read hv) hch hpl
  | releaseInboundMint payer chain m rv rec =>
    obtain rfl := hmeans
    generalize hix : Ix.releaseInboundMint _ _ rv = ix at hcall
    cases hcall <;> simp only [reduceCtorEq, Ix.releaseInboundMint.injEq] at hix
    rename_i a _ _ hi
    obtain ⟨rfl, hr, rfl⟩ := hix
    exact same_release hc hcfg hok hx (hpay _ (by simp [Order.signers])) hf.associated hi hr.symm
  | releaseInboundUnlock payer chain m rv rec =>
    obtain rfl := hmeans
    generalize hix : Ix.releaseInboundUnlock _ _ rv = ix at hcall
    cases hcall <;> simp only [reduceCtorEq, Ix.releaseInboundUnlock.injEq] at hix
    rename_i a _ _ hi
    obtain ⟨rfl, hr, rfl⟩ := hix
    exact same_release hc hcfg hok hx (hpay _ (by simp [Order.signers])) hf.associated hi hr.symm
  | setPeer payer owner chain address limit dec =>
    obtain ⟨rfl, rfl⟩ := hmeans
    cases hcall
    rename_i a
    obtain ⟨p, ow, config, target, il, tr⟩ := a
    have hkeep := hx
    simp only [Raw.exec, Raw.setPeer, require_bind, Raw.asOwner_bind] at hx
    obtain ⟨_, x, hx1, _, how, hta, h⟩ := hx
    obtain ⟨⟨s1, _⟩, _, h⟩ := ex_bind_ok.mp h
    simp only [require_bind] at h
    obtain ⟨hil, _⟩ := h
    obtain ⟨rfl, rfl⟩ := the_config hc hcfg hx1
    subst how hta hil
    exact setPeer_payer (a := ⟨p, _, _, _, _, _⟩) (hpay _ (by simp [Order.signers])) hkeep
  | setPaused owner b =>
    obtain ⟨rfl, rfl⟩ := hmeans
    cases hcall
    rename_i a
    obtain ⟨p, ow, config, target, il, tr⟩ := a
    have hkeep := hx
    simp only [Raw.exec, Raw.setPaused, Raw.asOwner_bind] at hx
    obtain ⟨x, hx1, _, how, _⟩ := hx
    obtain ⟨rfl, rfl⟩ := the_config hc hcfg hx1
    subst how
    exact hkeep
  | setOutboundLimit owner limit =>
    obtain ⟨rfl, rfl⟩ := hmeans
    cases hcall
    rename_i a
    obtain ⟨p, ow, config, target, il, tr⟩ := a
    have hkeep := hx
    simp only [Raw.exec, Raw.setOutboundLimit, Raw.asOwner_bind, loadAs_bind] at hx
    obtain ⟨x, hx1, _, how, o, ho, _⟩ := hx
    obtain ⟨rfl, rfl⟩ := the_config hc hcfg hx1
    have h1 := (hc.outboxRateLimit _ _ ho).2
    subst how h1
    exact hkeep
  | setInboundLimit owner chain limit =>
    obtain ⟨rfl, rfl⟩ := hmeans
    cases hcall
    rename_i a
    obtain ⟨p, ow, config, target, il, tr⟩ := a
    have hkeep := hx
    simp only [Raw.exec, Raw.setInboundLimit, Raw.asOwner_bind, loadAs_bind, require_bind] at hx
    obtain ⟨x, hx1, _, how, o, ho, hta, _⟩ := hx
    obtain ⟨rfl, rfl⟩ := the_config hc hcfg hx1
    have h1 := (typed_inboxLimit hc n ho (hK _ (by simp [touched])) hta).2.1
    subst how h1
    exact hkeep
  | registerTransceiver t payer owner =>
    obtain ⟨rfl, rfl⟩ := hmeans
    generalize hix : Ix.registerTransceiver t = ix at hcall
    cases hcall <;> simp only [reduceCtorEq, Ix.registerTransceiver.injEq] at hix
    rename_i a
    obtain ⟨p, ow, config, target, il, tr⟩ := a
    simp only at hix
    subst hix
    have hkeep := hx
    simp only [Raw.exec, Raw.registerTransceiver, Raw.asOwner_bind, require_bind] at hx
    obtain ⟨x, hx1, _, how, _, _, hta, _⟩ := hx
    obtain ⟨rfl, rfl⟩ := the_config hc hcfg hx1
    subst how hta
    exact register_payer (a := ⟨p, _, _, _, _, _⟩) (hpay _ (by simp [Order.signers])) hkeep
  | setTransceiverPeer sender chain address =>
    obtain ⟨rfl, rfl⟩ := hmeans
    cases hcall
    rename_i a
    obtain ⟨p, ow, config, target, il, tr⟩ := a
    have hkeep := hx
    simp only [Raw.exec, Raw.setTransceiverPeer, Raw.asOwner_bind, require_bind] at hx
    obtain ⟨x, hx1, _, how, _, hta, _⟩ := hx
    obtain ⟨rfl, rfl⟩ := the_config hc hcfg hx1
    subst how hta
    exact setTransceiverPeer_payer (a := ⟨p, _, _, _, _, _⟩) (hpay _ (by simp [Order.signers])) hkeep
  | receive payer vaa chain m =>
    obtain ⟨v, msg, rfl, hv, rfl, hmsg, hid⟩ := hmeans
    cases hcall
    rename_i a hva
    obtain ⟨p, config, peer, va, tm⟩ := a
    simp only at hva
    simp only [touched, hva, hmsg] at hK
    have hkeep := hx
    simp only [Raw.exec, Raw.receiveMessage, require_bind, Raw.notPaused_bind, getSome_bind] at hx
    obtain ⟨_, x, hx1, _, v', hv', h⟩ := hx
    rw [hva] at hv'
    cases hv'
    obtain ⟨msg', hmsg', h⟩ := ex_bind_ok.mp h
    rw [hmsg] at hmsg'
    cases hmsg'
    simp only [require_bind, loadAs_bind] at h
    obtain ⟨q, hq, hqa, _, _, htm, _⟩ := h
    obtain ⟨rfl, rfl⟩ := the_config hc hcfg hx1
    have h2 : peer = c.e.addr (.transceiverPeer v.emitterChain) := by
      obtain ⟨c', k1, k2, _⟩ := hc.transceiverPeer _ _ hq
      cases (addrAt_inj n k1 (hK _ (by simp)) (k2.symm.trans hqa) : Role.transceiverPeer c' = .transceiverPeer _)
      exact k2
    rw [hid] at htm
    subst h2 htm
    exact receive_payer (a := ⟨p, _, _, va, _⟩) (hpay _ (by simp [Order.signers])) (hv.trans hva.symm) hkeep
  | releaseOutbound payer item rv =>
    obtain rfl := hmeans
    generalize hix : Ix.releaseOutbound _ item rv = ix at hcall
    cases hcall <;> simp only [reduceCtorEq, Ix.releaseOutbound.injEq] at hix
    rename_i a _ _ ht
    obtain ⟨rfl, rfl, rfl⟩ := hix
    obtain ⟨p, config, item, tr, wm, em⟩ := a
    simp only at ht
    subst ht
    have hkeep := hx
    simp only [Raw.exec, Raw.releaseOutbound, require_bind, Raw.notPaused_bind, loadAs_bind] at hx
    obtain ⟨_, x, hx1, _, i, hi, t, ht, h⟩ := hx
    obtain ⟨_, _, h⟩ := ex_bind_ok.mp h
    simp only [require_bind] at h
    obtain ⟨_, _, h⟩ := h
    obtain ⟨_, _, h⟩ := ex_bind_ok.mp h
    simp only [require_bind] at h
    obtain ⟨_, hwm, hem, _⟩ := h
    obtain ⟨rfl, rfl⟩ := the_config hc hcfg hx1
    subst hwm hem
    exact releaseOutbound_payer (hpay _ (by simp [Order.signers])) hkeep
  | broadcastId payer m =>
    obtain rfl := hmeans
    cases hcall
    rename_i a
    obtain ⟨p, config, mint, peer, wm, em⟩ := a
    have hkeep := hx
    simp only [Raw.exec, Raw.broadcastId, require_bind, loadAs_bind, getSome_bind] at hx
    obtain ⟨_, x, hx1, hmi, _, _, _, hem, _⟩ := hx
    obtain ⟨rfl, rfl⟩ := the_config hc hcfg hx1
    subst hmi hem
    exact broadcastId_payer (a := ⟨p, _, _, _, wm, _⟩) (hpay _ (by simp [Order.signers])) (hpay _ (by simp [Order.signers])) hkeep
  | broadcastPeer chain payer m =>
    obtain rfl := hmeans
    cases hcall
    rename_i a
    obtain ⟨p, config, mint, peer, wm, em⟩ := a
    have hkeep := hx
    simp only [Raw.exec, Raw.broadcastPeer, require_bind, loadAs_bind] at hx
    obtain ⟨_, x, hx1, hpe, _, _, _, hem, _⟩ := hx
    obtain ⟨rfl, rfl⟩ := the_config hc hcfg hx1
    subst hpe hem
    exact broadcastPeer_payer (a := ⟨p, _, _, _, wm, _⟩) (hpay _ (by simp [Order.signers])) (hpay _ (by simp [Order.signers])) hkeep

end
end Ntt.Client

namespace Ntt.Raw
open Ntt.Spec

/-- As `step_complete`, with the addresses that are derived. -/
theorem step_complete_touched {e : REnv} {K : List Role} {rt : RRt} {s : RState} (n : NoShaCollision e K) (g : GoodDiscriminators e)
    (own : OwnAddresses e K) (hc : Canon e K s) (hT : Neat e s) {ix : Ix} {t' : State} {ev' : List Event} (hm : isManagerIx ix = true)
    (hK : ∀ r ∈ creates e.env (typed e K s) ix, r ∈ K) (hs : Supplied e rt s ix)
    (h : Ntt.exec e.env rt.toRt (typed e K s) ix = .ok (t', ev')) :
    ∃ rix s', SameCall e rt rix ix ∧ (∀ r ∈ touched e rt s rix, r ∈ K) ∧ Raw.exec e rt s rix = .ok (s', ev'.map (onLedger e)) ∧
      typed e K s' = t' := by
  obtain ⟨rix, hcall, hK', hb, ⟨s', ev⟩, hx⟩ := step_total own n hc hT hm hK hs h
  obtain ⟨_, ix2, ev2, hcall2, h2, rfl⟩ := step_sim g n hc hK' hb hx
  have := call_unique n hcall hcall2 h h2
  subst this
  rw [h] at h2
  cases h2
  exact ⟨rix, s', hcall, hK', hx, rfl⟩

end Ntt.Raw

namespace Ntt.Sys
open Ntt Ntt.Spec Ntt.Raw Ntt.Gov Ntt.Entry

/-- As `submit_one`, with more accounts that need not sign. -/
theorem submit_more {e : SEnv} {x : OtherAccounts} {s s' : RState} {ev : List Event} {rt : SRt} {S : List Bytes32}
    (hS : ∀ k ∈ S, e.onCurve k = true ∧ k ≠ .zeroes) {rix : RIx} {req : Request}
    (h : requestOf rix = some req) (hp : RightPrograms e.toEEnv x rt.ert rix)
    (hx : Raw.exec e.toREnv (rt.signedBy S) s rix = .ok (s', ev)) (more : List AccountMeta) (hmore : ∀ a ∈ more, a.isSigner = false) :
    (submit e s ⟨rt, S, [.call [] ⟨e.programId, accountList e.toEEnv x rix ++ more, wire req⟩ []]⟩).1 = s' ∧
    (submit e s ⟨rt, S, [.call [] ⟨e.programId, accountList e.toEEnv x rix ++ more, wire req⟩ []]⟩).2.events = ev := by
  obtain ⟨l, hm, hl, _, _⟩ := manager_wire h hp hx more []
  rw [List.append_nil] at hm
  have hsig : ∀ a ∈ accountList e.toEEnv x rix ++ more, a.isSigner = true → a.pubkey ∈ S ∨ a.pubkey ∈ ([] : List Bytes).map e.sha := by
    intro a ha hs
    rcases List.mem_append.mp ha with ha | ha
    · refine Or.inl (signers_needed (x := x) h hx _ ?_)
      exact List.mem_map.mpr ⟨a, List.mem_filter.mpr ⟨ha, hs⟩, rfl⟩
    · rw [hmore a ha] at hs
      cases hs
  have hex : execAll e rt none S s [.call [] ⟨e.programId, accountList e.toEEnv x rix ++ more, wire req⟩ []] =
      .ok (s', ({ hashed := [] } : Log) ++ l ++ {}) := by
    simp only [execAll]
    refine ex_bind_ok.mpr ⟨(s', ({ hashed := [] } : Log) ++ l), ?_, rfl⟩
    simp only [exec]
    refine ex_bind_ok.mpr ⟨[], rfl, ?_⟩
    simp only [require_bind, if_true]
    exact ⟨fun _ h => (by cases h), hsig, rfl, ex_bind_ok.mpr ⟨_, hm, rfl⟩⟩
  unfold submit
  rw [if_pos hS, hex]
  exact ⟨rfl, by simp [Log.append_events, hl]⟩

end Ntt.Sys

namespace Ntt.Client
open Ntt Ntt.Spec Ntt.Raw Ntt.Entry

theorem call_request (c : Setup) (cfg : Config) (o : Order) : requestOf (o.call c cfg) = some o.request := by
  cases o <;> rfl

theorem means_manager {c : Setup} {rt : RRt} {t : State} {cfg : Config} {o : Order} {ix : Ix} (h : Means c rt t cfg o ix) :
    isManagerIx ix = true := by
  cases o <;> simp only [Means] at h
  case receive =>
    obtain ⟨_, _, rfl, _⟩ := h
    rfl
  all_goals first
    | (subst h; rfl)
    | (obtain ⟨rfl, _⟩ := h; rfl)

theorem extra_unsigned (c : Setup) (o : Order) : ∀ a ∈ extraAccounts c o, a.isSigner = false := by
  intro a ha
  cases o <;> simp only [extraAccounts, List.not_mem_nil, List.mem_cons, or_false] at ha
  rcases ha with rfl | rfl <;> rfl

theorem lock_unpaused {env : Env} {rt : Rt} {t : State} {cfg : Config} {src k : Bytes32} {args : TransferArgs} {r : State × List Event}
    (hcfg : t.config = some cfg) (h : Ntt.exec env rt t (.transferLock src k args) = .ok r) : cfg.paused = false := by
  simp only [Ntt.exec, Ntt.transferOut, Ntt.notPaused_bind] at h
  obtain ⟨c, h1, h2, _⟩ := h
  rw [hcfg] at h1
  cases h1
  exact h2

/-- The numbers a field of this type holds. -/
def fits (n : Nat) : IdlType → Prop
  | .u8 => n < 2 ^ 8
  | .u16 => n < 2 ^ 16
  | .u32 => n < 2 ^ 32
  | .u64 => n < 2 ^ 64
  | _ => False

/-- A number that does not fit is refused. -/
theorem encode_fits {ty : IdlType} {n : Nat} {b : Bytes} (h : encode ty (.num n) = some b) : fits n ty := by
  cases ty <;> simp only [encode, reduceCtorEq] at h
  all_goals exact (ite_some h).1

theorem args_inv {given : List (List String × Value)} {name : List String} {ty : IdlType} {rest : List (List String × IdlType)} {v : Value}
    {bs : Bytes} (hl : given.lookup name = some v) (h : encodeArgs given ((name, ty) :: rest) = some bs) :
    (∃ b, encode ty v = some b) ∧ ∃ b, encodeArgs given rest = some b := by
  unfold encodeArgs at h
  rw [hl] at h
  simp only [Option.bind_eq_bind, Option.bind_some] at h
  cases h1 : encode ty v with
  | none => rw [h1] at h; cases h
  | some b =>
    rw [h1] at h
    simp only [Option.bind_some] at h
    cases h2 : encodeArgs given rest with
    | none => rw [h2] at h; cases h
    | some b' => exact ⟨⟨b, rfl⟩, ⟨b', rfl⟩⟩

theorem instruction_args {e : EEnv} {idl : IdlInstruction} {strict : Bool} {args : List (List String × Value)}
    {accounts : List (List String × Bytes32)} {i : Gov.Instruction} (h : instruction e idl strict args accounts = some i) :
    ∃ b, encodeArgs args idl.args = some b := by
  unfold instruction at h
  cases h1 : encodeArgs args idl.args with
  | none => rw [h1] at h; cases h
  | some b => exact ⟨b, rfl⟩

theorem in_range {c : Setup} {cfg : Config} {o : Order} {i : Gov.Instruction} (h : build c cfg o = some i) : InRange o := by
  cases o with
  | initializeManager payer owner mint tp chain limit mode =>
    obtain ⟨b, h1⟩ := instruction_args h
    obtain ⟨_, _, h1⟩ := args_inv rfl h1
    obtain ⟨⟨_, h1⟩, _⟩ := args_inv rfl h1
    exact encode_fits h1
  | initializeLut payer slot =>
    obtain ⟨b, h1⟩ := instruction_args h
    obtain ⟨⟨_, h1⟩, _⟩ := args_inv rfl h1
    exact encode_fits h1
  | transferBurn payer src fa item a =>
    simp only [build, createTransferBurn, sessionAuthority_eq] at h
    by_contra hn
    simp only [InRange] at hn
    rw [if_neg hn] at h
    cases h
  | transferLock payer src fa item a =>
    simp only [build, createTransferLock, sessionAuthority_eq] at h
    by_contra hn
    simp only [InRange] at hn
    rw [if_neg hn] at h
    split at h <;> cases h
  | setPeer payer owner chain address limit dec =>
    obtain ⟨b, h1⟩ := instruction_args h
    obtain ⟨_, _, h1⟩ := args_inv rfl h1
    obtain ⟨_, _, h1⟩ := args_inv rfl h1
    obtain ⟨⟨_, h2⟩, _, h1⟩ := args_inv rfl h1
    obtain ⟨⟨_, h1⟩, _⟩ := args_inv rfl h1
    exact ⟨encode_fits h2, encode_fits h1⟩
  | setOutboundLimit owner limit =>
    obtain ⟨b, h1⟩ := instruction_args h
    obtain ⟨⟨_, h1⟩, _⟩ := args_inv rfl h1
    exact encode_fits h1
  | setInboundLimit owner chain limit =>
    obtain ⟨b, h1⟩ := instruction_args h
    obtain ⟨⟨_, h1⟩, _⟩ := args_inv rfl h1
    exact encode_fits h1
  | _ => trivial

end Ntt.Client

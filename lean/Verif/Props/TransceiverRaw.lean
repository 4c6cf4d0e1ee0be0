import Verif.Lemmas.TransceiverOrigin
import Verif.Lemmas.TransceiverEntry
import Verif.Props.Raw
import Verif.Example.TransceiverRaw
/-!
# Properties C83 and C84: the standalone transceiver over accounts and bytes

Histories of a ledger with both programs.  The transceiver is called with arbitrary bytes and account lists, the manager with arbitrary
accounts; other programs write whatever they like into their own accounts.
-/
namespace Ntt.Props
open Ntt Ntt.Spec Ntt.Raw Ntt.Gov Ntt.Entry Ntt.TRaw Ntt.Standalone

variable {e : TREnv} {s₀ : RState}

/-! ## C83 the accounts passed to the transceiver cannot change what it does -/

/-- **C83**: whatever the transceiver and the manager are called with, the transactions that succeed are, one by one, calls of the
instructions as described in terms of "the configuration", "the transceiver's peer for chain `c`", "the received message with this chain and
id", … (`Standalone.exec`, `Ntt.exec`), signed by the same keys at the same times, with the same effects: reading the ledger at the
addresses derived from the two programs' ids gives exactly the state those calls lead to, and the same transfers and messages are seen. -/
theorem C83_substitution (hne : e.programId ≠ e.transceiver) (g : GoodDiscriminators e.toREnv) (hu : Undeployed e.toREnv s₀)
    (huT : Undeployed e.own s₀) (txs : List LTx) (n : NoShaCollision e.toREnv (managerRoles e s₀ txs))
    (nT : NoShaCollision e.own (transceiverRoles e txs)) :
    let K := managerRoles e s₀ txs
    let KT := transceiverRoles e txs
    ∃ txs' ev', List.Forall₂ (SameLCall e) (leffective e s₀ txs) txs' ∧
      drun e.env (typedTransceiver e) (typedBoth e K KT s₀) txs' = (typedBoth e K KT (lrun e s₀ txs).1, ev') ∧
      (lrun e s₀ txs).2 = ev'.map (onLedger e.toREnv) := by
  obtain ⟨_, _, txs', ev', hm, hr, hev⟩ :=
    lrun_sim hne g n nT txs s₀ (undeployed_canon hu) (undeployed_canon huT) (fun _ h => h) fun _ h => h
  exact ⟨txs', ev', hm.imp fun _ _ h => h.same, hr, hev⟩

/-- **C83**: at any moment of any history, whatever either program accepts as an account of one of its own types is at the address derived
for it from that program's id. -/
theorem C83_well_placed (hne : e.programId ≠ e.transceiver) (g : GoodDiscriminators e.toREnv) (hu : Undeployed e.toREnv s₀)
    (huT : Undeployed e.own s₀) (txs : List LTx) (n : NoShaCollision e.toREnv (managerRoles e s₀ txs))
    (nT : NoShaCollision e.own (transceiverRoles e txs)) :
    WellPlaced e.toREnv (lrun e s₀ txs).1 ∧ WellPlaced e.own (lrun e s₀ txs).1 := by
  obtain ⟨h1, h2, _⟩ :=
    lrun_sim hne g n nT txs s₀ (undeployed_canon hu) (undeployed_canon huT) (fun _ h => h) fun _ h => h
  have key : ∀ {e' : REnv} {K : List Role} {s : RState}, Canon e' K s → WellPlaced e' s := fun hc =>
    { config := fun a x h => (hc.config a x h).2
      outboxRateLimit := fun a x h => (hc.outboxRateLimit a x h).2
      inboxRateLimit := fun a x h => (hc.inboxRateLimit a x h).imp fun _ h => h.2
      inboxItem := fun a x h => (hc.inboxItem a x h).imp fun _ h => h.2
      peer := fun a x h => (hc.peer a x h).imp fun _ h => h.2
      transceiver := fun a x h => (hc.transceiver a x h).2
      transceiverPeer := fun a x h => (hc.transceiverPeer a x h).imp fun _ h => h.2
      lut := fun a x h => (hc.lut a x h).2
      message := fun a x h => (hc.message a x h).2 }
  exact ⟨key h1, key h2⟩

/-- **C83**: whatever the manager will accept as an attestation of the standalone transceiver was received by the transceiver: the
transceiver was called with an account of the core bridge holding a message published on the chain named, by the address registered
for that chain, and the attestation has the contents of that message. -/
theorem C83_attestations_genuine (hne : e.programId ≠ e.transceiver) (g : GoodDiscriminators e.toREnv) (hu : Undeployed e.toREnv s₀)
    (huT : Undeployed e.own s₀) (txs : List LTx) (n : NoShaCollision e.toREnv (managerRoles e s₀ txs))
    (nT : NoShaCollision e.own (transceiverRoles e txs)) (a : Bytes32) (v : ValidatedMessage)
    (h : attestation e.toREnv (lrun e s₀ txs).1 e.transceiver a = some v) :
    ∃ rt metas data acc vaa msg bump, (⟨rt, .transceiver metas data⟩ : LTx) ∈ leffective e s₀ txs ∧
      TRaw.resolve e rt metas data = .ok (some (.receiveMessage acc)) ∧ rt.posted acc.vaa = some vaa ∧
      vaa.message = .ok msg ∧ v.fromChain = vaa.emitterChain ∧ v.message = msg.data ∧
      contents e.own tTransceiverPeer (lrun e s₀ txs).1 (e.own.addr (.transceiverPeer v.fromChain)) =
        some (bump, vaa.emitterAddress) := by
  obtain ⟨_, _, txs', ev', hm, hr, hev⟩ :=
    lrun_sim hne g n nT txs s₀ (undeployed_canon hu) (undeployed_canon huT) (fun _ h => h) fun _ h => h
  have h' : (drun e.env (typedTransceiver e) (typedBoth e (managerRoles e s₀ txs) (transceiverRoles e txs) s₀) txs').1.manager.foreign
      (typedTransceiver e).id a = some v := by rw [hr]; exact h
  rcases drun_genuine txs' _ (fun tx htx => (forall₂_right hm htx).elim fun _ hh => hh.2.honest) h' with
    h0 | ⟨tx', htx', vaa, msg, hix, hmsg, ha, hv, hp⟩
  · exfalso
    have h0 : attestation e.toREnv s₀ e.transceiver a = some v := h0
    simp only [attestation] at h0
    split at h0
    · cases h0
    · rename_i acc hacc
      rw [if_neg (fun hh => huT a acc hacc hh.1)] at h0
      cases h0
  · obtain ⟨tx, htx, hM⟩ := forall₂_right hm htx'
    rw [hr] at hp
    obtain ⟨rt', ix'⟩ := tx'
    simp only at hix
    subst hix
    have hs := hM.same
    cases hs
    rename_i rt metas data ix hres hcall
    cases hcall
    rename_i acc hvaa
    subst hv
    simp only [typedBoth] at hp
    split at hp
    · obtain ⟨⟨bump, p⟩, hpc, hpe⟩ := Option.map_eq_some_iff.mp hp
      subst hpe
      exact ⟨rt, metas, data, acc, vaa, msg, bump, htx, hres, hvaa, hmsg, rfl, rfl, hpc⟩
    · cases hp

/-- Before deployment, the typed state is empty: the histories of the typed model to which **C83** reduces are those that the other
claims speak about. -/
theorem C83_genesis (hu : Undeployed e.toREnv s₀) (huT : Undeployed e.own s₀) (K KT : List Role)
    (hd : ∀ k a, s₀.token.accts k = some a → a.owner = e.addr .tokenAuthority → a.delegate = none) :
    Genesis e.env (asBuiltin e.env (typedTransceiver e) (typedBoth e K KT s₀)) where
  config := by simp [asBuiltin, typedBoth, typed, undeployed_contents hu]
  outboxLimit := by simp [asBuiltin, typedBoth, typed, undeployed_contents hu]
  peers c := by simp [asBuiltin, typedBoth, typed, undeployed_contents hu]
  inboxLimits c := by simp [asBuiltin, typedBoth, typed, undeployed_contents hu]
  inbox h := by simp [asBuiltin, typedBoth, typed, undeployed_contents hu]
  outbox k := by simp [asBuiltin, typedBoth, typed, undeployed_contents hu]
  transceivers t := by
    simp only [asBuiltin, typedBoth, typed, undeployed_contents hu, upd_eq]
    split <;> simp
  transceiverPeers c := by simp [asBuiltin, typedBoth, undeployed_contents huT]
  received c i := by
    have : ∀ a, attestation e.toREnv s₀ e.transceiver a = none := by
      intro a
      simp only [attestation]
      split
      · rfl
      · rename_i acc hacc
        rw [if_neg (fun hh => huT a acc hacc hh.1)]
    simp [asBuiltin, typedBoth, typed, typedTransceiver, this]
  delegates := hd

/-- **C83**: a deployment that uses the standalone transceiver, with callers passing whatever they like, behaves like one that uses the
built-in transceiver: the transactions that succeed correspond one by one to transactions of a typed history with the built-in transceiver
(C54) that leads to the same accounts, transfers and messages.  So the claims about those histories hold here too. -/
theorem C83_builtin (hne : e.programId ≠ e.transceiver) (g : GoodDiscriminators e.toREnv) (hu : Undeployed e.toREnv s₀)
    (huT : Undeployed e.own s₀) (txs : List LTx) (n : NoShaCollision e.toREnv (managerRoles e s₀ txs))
    (nT : NoShaCollision e.own (transceiverRoles e txs)) (hp : e.transceiverPda (e.own.addr .outboxItemSigner) = true)
    (hs : ∀ tx ∈ txs, UsesStandalone e tx) :
    let K := managerRoles e s₀ txs
    let KT := transceiverRoles e txs
    ∃ txs' ev', List.Forall₂ (SameLCall e) (leffective e s₀ txs) txs' ∧
      Ntt.run e.env (asBuiltin e.env (typedTransceiver e) (typedBoth e K KT s₀)) (txs'.map (toBuiltinTx e (offered txs'))) =
        (asBuiltin e.env (typedTransceiver e) (typedBoth e K KT (lrun e s₀ txs).1), ev') ∧
      (lrun e s₀ txs).2 = ev'.map (onLedger e.toREnv) := by
  obtain ⟨_, _, txs', ev', hm, hr, hev⟩ :=
    lrun_sim hne g n nT txs s₀ (undeployed_canon hu) (undeployed_canon huT) (fun _ h => h) fun _ h => h
  refine ⟨txs', ev', hm.imp fun _ _ h => h.same, ?_, hev⟩
  have hoff : ∀ m ∈ offered txs', Role.transceiverMessage m.1 m.2 ∈ transceiverRoles e txs := by
    intro m hmm
    obtain ⟨tx, htx, hx⟩ := List.mem_filterMap.mp hmm
    obtain ⟨_, _, hM⟩ := forall₂_right hm htx
    exact hM.offers m (List.mem_filterMap.mpr ⟨tx, List.mem_singleton.mpr rfl, hx⟩)
  have hfor : ∀ a, (typedBoth e (managerRoles e s₀ txs) (transceiverRoles e txs) s₀).manager.foreign e.transceiver a = none := by
    intro a
    simp only [typedBoth, typed, attestation]
    split
    · rfl
    · rename_i acc hacc
      rw [if_neg (fun hh => huT a acc hacc hh.1)]
  have := C54_history_equivalent (env := e.env) (te := typedTransceiver e)
    (typedBoth e (managerRoles e s₀ txs) (transceiverRoles e txs) s₀) txs' hne.symm
    (fun m hm1 m' hm2 heq => by
      have := addr_inj nT (hoff m hm1) (hoff m' hm2) heq
      injection this with h1 h2
      exact Prod.ext h1 h2)
    (fun k => by simp [typedBoth, typed, undeployed_contents hu]) hfor
    (fun tx' htx' => by
      obtain ⟨tx, htx, hM⟩ := forall₂_right hm htx'
      exact hM.uses hp (hs tx (leffective_mem e txs s₀ htx)))
  rw [hr] at this
  exact this

/-- A claim about typed histories carried over (**C20**): one inbox item account pays out at most once, whatever the two programs are
called with. -/
theorem C83_account_pays_once (hne : e.programId ≠ e.transceiver) (g : GoodDiscriminators e.toREnv) (hu : Undeployed e.toREnv s₀)
    (huT : Undeployed e.own s₀) (txs : List LTx) (n : NoShaCollision e.toREnv (managerRoles e s₀ txs))
    (nT : NoShaCollision e.own (transceiverRoles e txs)) (hp : e.transceiverPda (e.own.addr .outboxItemSigner) = true)
    (hs : ∀ tx ∈ txs, UsesStandalone e tx) (a : Bytes32) : count (isPayoutOf a) (lrun e s₀ txs).2 ≤ 1 := by
  obtain ⟨txs', ev', _, hr, hev⟩ := C83_builtin hne g hu huT txs n nT hp hs
  rw [hev]
  generalize htt : txs'.map (toBuiltinTx e (offered txs')) = btxs at hr
  have fresh : FreshInbox (asBuiltin e.env (typedTransceiver e) (typedBoth e (managerRoles e s₀ txs) (transceiverRoles e txs) s₀)) :=
    fun h => by simp [asBuiltin, typedBoth, typed, undeployed_contents hu]
  have hmem : ∀ h acct m, Event.paid h acct m ∈ ev' → .inboxItem h ∈ managerRoles e s₀ txs := by
    intro h acct m hm
    have hm' : Event.paid h acct m ∈ (Ntt.run e.env (asBuiltin e.env (typedTransceiver e)
        (typedBoth e (managerRoles e s₀ txs) (transceiverRoles e txs) s₀)) btxs).2 := by rw [hr]; exact hm
    obtain ⟨pre, tx, post, s', ev, rfl, hx, heff, hm1, hsub⟩ := run_event hm'
    obtain ⟨kind, rv, hix, ⟨w⟩⟩ := heff.paid hm1
    obtain ⟨item', hi, _⟩ := C23_inbound_progress fresh pre (tx :: post) h w.item w.hitem
    rw [hr] at hi
    by_contra hK
    simp [asBuiltin, typedBoth, typed, hK] at hi
  by_cases hh : ∃ h acct m, Event.paid h acct m ∈ ev' ∧ e.addr (.inboxItem h) = a
  · obtain ⟨h, acct, m, hm, rfl⟩ := hh
    refine le_trans (le_of_eq ?_) (hr ▸ C20_paid_at_most_once (env := e.env) fresh btxs h)
    simp only [count]
    rw [List.filter_map, List.length_map]
    congr 1
    refine List.filter_congr fun ev hev => ?_
    cases ev with
    | paid h' acct' m' =>
      simp only [Function.comp, onLedger, isPayoutOf, decide_eq_decide]
      exact ⟨fun he => by cases addr_inj n (hmem _ _ _ hev) (hmem _ _ _ hm) he; rfl, fun he => by rw [he]⟩
    | _ => rfl
  · have : count (isPayoutOf a) (ev'.map (onLedger e.toREnv)) = 0 := by
      simp only [count, List.length_eq_zero_iff, List.filter_eq_nil_iff, List.mem_map]
      rintro _ ⟨ev, hev, rfl⟩
      cases ev with
      | paid h' acct' m' =>
        simp only [onLedger, isPayoutOf, decide_eq_true_eq]
        exact fun he => hh ⟨_, _, _, hev, he⟩
      | _ => simp [onLedger, isPayoutOf]
    omega

section
open Ntt.Example.TLedger
open Ntt.Example.Ledger (ledger0)

set_option maxRecDepth 100000 in
/-- Non-vacuity: a history with a transfer out and one in through the standalone transceiver, among attempts to go around it, meets the
hypotheses of all theorems of **C83**; the transfers succeed with the same events as with the built-in transceiver, and the attempts fail. -/
example : tenv.programId ≠ tenv.transceiver ∧ GoodDiscriminators tenv.toREnv ∧ Undeployed tenv.toREnv ledger0 ∧
    Undeployed tenv.own ledger0 ∧ NoShaCollision tenv.toREnv (managerRoles tenv ledger0 history) ∧
    NoShaCollision tenv.own (transceiverRoles tenv history) ∧ tenv.transceiverPda (tenv.own.addr .outboxItemSigner) = true ∧
    (∀ tx ∈ history, UsesStandalone tenv tx) ∧
    (leffective tenv ledger0 history).map (·.rt.now) = [1000, 1001, 1002, 1003, 2000, 2001, 2002, 2500, 3000, 3001, 3002, 3003] ∧
    (lrun tenv ledger0 history).2 = [ .debited Example.userAcct Example.user Example.outKey 3000000000, .posted Example.outBytes,
      .paid item Example.recAcct 2000000000 ] :=
  ⟨by decide, discriminators, undeployed.1, undeployed.2, noCollision, noCollisionOwn, (derived _).2.1, usesStandalone, history_effective,
    history_events⟩

set_option maxRecDepth 100000 in
/-- The attestation that **C83_attestations_genuine** speaks about exists at the end, and the forged one is none of the transceiver's. -/
example : attestation tenv.toREnv (lrun tenv ledger0 history).1 tenv.transceiver msg =
      some { fromChain := 2, message := Example.inMsg.data } ∧
    attestation tenv.toREnv (lrun tenv ledger0 history).1 tenv.transceiver (Example.A 80) = none ∧
    attestation tenv.toREnv (lrun tenv ledger0 history).1 (Example.A 81) (Example.A 80) =
      some { fromChain := 2, message := Example.inMsg.data } := by decide +kernel

/-- Non-vacuity of `C83_genesis`. -/
example : ∀ k a, ledger0.token.accts k = some a → a.owner = tenv.addr .tokenAuthority → a.delegate = none := by
  intro k a h _
  simp only [ledger0, Example.token0] at h
  split at h
  · cases h; rfl
  · cases h

end

/-! ## C84 what the transceiver does with the bytes and accounts it is called with -/

/-- **C84.** The bytes of a request are understood as that request, whatever follows them. -/
theorem C84_understood (r : TRequest) (junk : Bytes) : TRaw.decode (tWire r ++ junk) = .ok r := tdecode_wire r junk

/-- **C84.** Nothing else is understood: data that do not begin with the bytes of a request are refused, whatever accounts come with
them. -/
theorem C84_nothing_else (e : TREnv) (rt : ERt) (s : RState) (metas : List AccountMeta) (data : Bytes)
    (h : ∀ r, ¬ tWire r <+: data) : ∃ err, tentry e rt s metas data = .error err := by
  cases hd : TRaw.decode data with
  | ok r =>
    obtain ⟨junk, hj⟩ := tdecode_canon hd
    exact absurd ⟨junk, hj.symm⟩ (h r)
  | error x => exact ⟨x, by rw [tentry, TRaw.resolve, hd]; rfl⟩

/-- **C84.** No data can be read as two requests. -/
theorem C84_one_meaning (r r' : TRequest) (data : Bytes) (h : tWire r <+: data) (h' : tWire r' <+: data) : r = r' := by
  obtain ⟨j, rfl⟩ := h
  obtain ⟨j', h'⟩ := h'
  have h1 := tdecode_wire r j
  rw [← h', tdecode_wire r' j'] at h1
  cases h1
  rfl

/-- **C84.** Whatever the transceiver is called with, what happens is this: the call fails; or it asks for the type and nothing changes; or
the data are those of some instruction, the account list begins with its accounts with (at least) the flags they need, programs are what
they should be, and the effect is that of the instruction on these accounts, signed for by the accounts flagged as signers. -/
theorem C84_sound (e : TREnv) (rt : ERt) (s s' : RState) (ev : List Event) (pub : List Bytes) (metas : List AccountMeta) (data : Bytes)
    (h : tentry e rt s metas data = .ok (s', ev, pub)) :
    (tWire .transceiverType <+: data ∧ s' = s ∧ ev = [] ∧ pub = []) ∨
    ∃ ix x, tWire (tRequestOf ix) <+: data ∧ StartsWith metas (tAccountList e x ix) ∧ tRightPrograms e x rt ix ∧
      TRaw.exec e { rt with signers := signersOf metas } s ix = .ok (s', ev, pub) := by
  obtain ⟨o, ho, h⟩ := ex_bind_ok.mp h
  obtain ⟨req, hd, h1⟩ := ex_bind_ok.mp ho
  obtain ⟨junk, hj⟩ := tdecode_canon hd
  simp only [require_bind] at h1
  obtain ⟨hl, hok, h1⟩ := h1
  by_cases hv : req = .transceiverType
  · subst hv
    cases h1
    cases h
    exact .inl ⟨⟨junk, hj.symm⟩, rfl, rfl, rfl⟩
  · right
    obtain ⟨ix, hb, rfl, hp, hpre, hflags⟩ := tbind_sound hv hl hok
    rw [tresolve_eq hv hd hl hok hb] at ho
    cases ho
    refine ⟨ix, _, ⟨junk, hj.symm⟩, ⟨hpre, fun a ha => ?_⟩, hp, h⟩
    simpa [signersOf, writableOf, and_comm, and_left_comm, and_assoc] using hflags a ha

/-- **C84.** Conversely an instruction that would succeed does succeed when the transceiver is called with exactly the accounts and flags of
the list, whatever else follows. -/
theorem C84_complete (e : TREnv) (x : OtherAccounts) (rt : ERt) (s s' : RState) (ev : List Event) (pub : List Bytes) (ix : TRIx)
    (hp : tRightPrograms e x rt ix) (h : TRaw.exec e rt s ix = .ok (s', ev, pub)) (more : List AccountMeta) (junk : Bytes) :
    tentry e rt s (tAccountList e x ix ++ more) (tWire (tRequestOf ix) ++ junk) = .ok (s', ev, pub) := by
  rw [tentry_accountList hp]
  refine tsigners_suffice h _ (x := x) fun k hk => ?_
  simp only [signersOf, List.filter_append, List.map_append, List.mem_append]
  exact .inl hk

/-- **C84.** Only accounts passed as writable change, and no token account or mint ever does. -/
theorem C84_writes (e : TREnv) (rt : ERt) (s s' : RState) (ev : List Event) (pub : List Bytes) (metas : List AccountMeta) (data : Bytes)
    (h : tentry e rt s metas data = .ok (s', ev, pub)) :
    s'.token = s.token ∧ s'.upgradeAuthority = s.upgradeAuthority ∧ ∀ k, s'.accts k ≠ s.accts k → PassedWritable metas k := by
  rcases C84_sound e rt s s' ev pub metas data h with ⟨_, rfl, _⟩ | ⟨ix, x, _, hs, _, hx⟩
  · exact ⟨rfl, rfl, fun k hk => absurd rfl hk⟩
  · obtain ⟨h1, h2, h3⟩ := texec_only (x := x) hx
    refine ⟨h2, h3, fun k hk => ?_⟩
    have hw : k ∈ writableOf (tAccountList e x ix) := by
      by_contra hn
      exact hk (h1 k hn)
    obtain ⟨m, hm, rfl⟩ := List.mem_map.mp hw
    obtain ⟨hm, hmw⟩ := List.mem_filter.mp hm
    exact (hs.2 m hm).2 hmw

section
open Ntt.Example.TLedger
open Ntt.Example.Ledger (ledger0)
open Ntt.Example (A owner user mint outKey)

/-- The bytes of `set_wormhole_peer(2, …)` and of `receive_wormhole_message`. -/
example : tWire (.setTransceiverPeer 2 Example.peerTr) = [97, 196, 136, 33, 56, 25, 65, 109, 2, 0] ++ Example.peerTr.val ∧
    tWire .receiveMessage = [134, 213, 143, 68, 235, 102, 232, 96] := by
  rw [tWire_eq, tWire_eq]
  decide +kernel

/-- What a call of the transceiver publishes after the transfer out has been made. -/
def published (metas : List AccountMeta) (data : Bytes) : Option (List Bytes) :=
  (tentry tenv (trt 2002 []) (lrun tenv ledger0 (Example.TLedger.setup ++ transfers.take 2)).1 metas data).toOption.map (·.2.2)

set_option maxRecDepth 100000 in
/-- Releasing through the entry point: the message is published.  More accounts and data do no harm; without the payer's signature, with the
outbox item read-only, with two accounts swapped, with another program in place of the manager, or with an account missing it is refused. -/
example :
    let list := tAccountList tenv others (.releaseOutbound releaseAccounts true)
    let data := tCode (.releaseOutbound true) ++ [1]
    published list data = some [Example.outBytes] ∧
    published (list ++ [reads (A 5)]) (data ++ [7]) = some [Example.outBytes] ∧
    published (reads user :: list.drop 1) data = none ∧
    published (list.take 2 ++ [reads outKey] ++ list.drop 3) data = none ∧
    published (list.take 1 ++ [list.getD 3 (reads user), list.getD 2 (reads user), list.getD 1 (reads user)] ++ list.drop 4) data = none ∧
    published (list.take 13 ++ [reads (A 81)] ++ list.drop 14) data = none ∧
    published (list.take 14) data = none := by decide +kernel

set_option maxRecDepth 100000 in
/-- The hypotheses of `C84_complete`, for the same instruction. -/
example : tRightPrograms tenv others (trt 2002 [user]) (.releaseOutbound releaseAccounts true) ∧
    (TRaw.exec tenv (trt 2002 [user]) (lrun tenv ledger0 (Example.TLedger.setup ++ transfers.take 2)).1
      (.releaseOutbound releaseAccounts true)).toOption.map (·.2) =
        some ([.marked tid outKey], [Example.outBytes]) := by
  refine ⟨⟨?_, rfl⟩, ?_⟩ <;> decide +kernel

end

end Ntt.Props

import Verif.Lemmas.SystemRun
import Verif.Spec.System
import Verif.Props.RawSafety
import Verif.Props.RawTotal
import Verif.Props.Governance
import Verif.Example.System
/-!
# Properties C73 and C74: whole transactions

Transactions are trees of calls of the manager, the governance program, the programs of the chain, and any other programs.
-/
namespace Ntt.Props
open Ntt Ntt.Spec Ntt.Raw Ntt.Gov Ntt.Entry Ntt.Sys

variable {e : SEnv} {s₀ : RState} {K : List Role}

/-! ## C73 no program can forge the manager's signatures -/

/-- **C73** (nothing else happens): the effect and the events of a history of whole transactions are those of the elementary actions in its record,
one after the other, and no address derived from the manager's id signs any of them. -/
theorem C73_elementary (txs : List STx) (h : Sane e s₀ K (Sys.run e s₀ txs).2) :
    Raw.run e.toREnv s₀ (Sys.run e s₀ txs).2.steps = ((Sys.run e s₀ txs).1, (Sys.run e s₀ txs).2.events) ∧
    ∀ st ∈ (Sys.run e s₀ txs).2.steps, WalletSigned e.toREnv st ∧ NoPdaSigns e.toREnv st := by
  have f := flat_all h
  exact ⟨f.run, fun st hst => ⟨good_wallet h hst (f.good st hst), fun k hk => (f.good st hst k hk).1⟩⟩

/-- **C73** (signatures): whoever has signed for an elementary action of a transaction has signed the transaction, or is an address that
a program other than the manager has derived from its own id. -/
theorem C73_signatures (s : RState) (tx : STx) (st : RTx) (hst : st ∈ (Sys.submit e s tx).2.steps) (k : Bytes32) (hk : k ∈ st.rt.signers) :
    k ∈ tx.signers ∨ e.onCurve k = false ∧ ∃ x ∈ (Sys.submit e s tx).2.hashed, e.sha x = k ∧
      ∀ seeds, x ≠ derivation seeds e.programId := by
  rcases submit_ran e s tx with h1 | ⟨_, h1⟩
  · rw [h1] at hst; cases hst
  · rcases h1.signers st hst k hk with h2 | ⟨x, hx, h2, h3⟩
    · exact Or.inl h2
    · exact Or.inr ⟨h3, x, hx, h2, h1.foreign (by simp) x hx⟩

/-- **C73** (custody, see C69). -/
theorem C73_custody_covers_locked (txs : List STx) (h : Sane e s₀ K (Sys.run e s₀ txs).2)
    (hd : ∀ k a, s₀.token.accts k = some a → a.owner = e.addr .tokenAuthority → a.delegate = none) (a : Bytes32) (x : UInt8 × Config)
    (hx : contents e.toREnv tConfig (Sys.run e s₀ txs).1 a = some x) (hmode : x.2.mode = .locking) :
    totalDebited (Sys.run e s₀ txs).2.events ≤ ledgerBalance (Sys.run e s₀ txs).1 x.2.custody +
      (totalPaid (Sys.run e s₀ txs).2.events - totalPaidTo x.2.custody (Sys.run e s₀ txs).2.events) := by
  obtain ⟨h1, h2⟩ := C73_elementary txs h
  have := C69_custody_covers_locked h.discriminators h.undeployed hd _ h.noShaUsed (fun st hst => (h2 st hst).1) a x
    (by rw [h1]; exact hx) hmode
  rw [h1] at this
  exact this

/-- **C73** (payouts, see C20): no inbox item is paid out twice. -/
theorem C73_pays_once (txs : List STx) (h : Sane e s₀ K (Sys.run e s₀ txs).2) (a : Bytes32) :
    count (isPayoutOf a) (Sys.run e s₀ txs).2.events ≤ 1 := by
  have := C67_account_pays_once h.discriminators h.undeployed _ h.noShaUsed a
  rw [(C73_elementary txs h).1] at this
  exact this

/-- **C73** (payouts, see C21): a payout is preceded by votes of at least `threshold` programs for this inbox item. -/
theorem C73_payouts_attested (txs : List STx) (h : Sane e s₀ K (Sys.run e s₀ txs).2) (item account : Bytes32) (amount : UInt64)
    (hp : Event.paid item account amount ∈ (Sys.run e s₀ txs).2.events) :
    ∃ pre st post cfg, (Sys.run e s₀ txs).2.steps = pre ++ st :: post ∧
      contents e.toREnv tConfig (Raw.run e.toREnv s₀ pre).1 (e.addr .config) = some cfg ∧ 1 ≤ cfg.2.threshold.toNat ∧
      ∃ voters : Finset Bytes32, cfg.2.threshold.toNat ≤ voters.card ∧ ∀ p ∈ voters, ∃ v, VotedIn e.toREnv s₀ pre p item v := by
  obtain ⟨pre, st, post, cfg, h1, _, h3⟩ := C69_payouts_attested h.discriminators h.undeployed _ h.noShaUsed item account amount
    (by rw [(C73_elementary txs h).1]; exact hp)
  exact ⟨pre, st, post, cfg, h1, h3⟩

/-- **C73** (see C70): whatever programs put where, nothing is in the way of the manager's accounts. -/
theorem C73_unobstructed (txs : List STx) (h : Sane e s₀ K (Sys.run e s₀ txs).2) (r : Role) (hr : r ∈ K) :
    Unobstructed e.toREnv (Sys.run e s₀ txs).1 r := by
  obtain ⟨h1, h2⟩ := C73_elementary txs h
  have := C70_unobstructed h.discriminators h.undeployed h.vacant _ (fun st hst => (h2 st hst).2) K h.roles h.noSha
    (fun r hr => (h.own _).mpr ⟨r, hr, rfl⟩) r hr
  rw [h1] at this
  exact this

theorem canon_pre {pre : List STx} {tx : STx} (h : Sane e s₀ K (Sys.run e s₀ (pre ++ [tx])).2) :
    Canon e.toREnv K (Sys.run e s₀ pre).1 ∧
    (∀ r ∈ rolesUsed e.toREnv (Sys.run e s₀ pre).1 (Sys.submit e (Sys.run e s₀ pre).1 tx).2.steps, r ∈ K) ∧
    Raw.run e.toREnv (Sys.run e s₀ pre).1 (Sys.submit e (Sys.run e s₀ pre).1 tx).2.steps =
      ((Sys.submit e (Sys.run e s₀ pre).1 tx).1, (Sys.submit e (Sys.run e s₀ pre).1 tx).2.events) := by
  obtain ⟨f1, f2⟩ := flat_split h
  have hroles := h.roles
  rw [Sys.run_append, Sys.run_one, Log.append_steps, rolesUsed_append, f1.run] at hroles
  have := (run_sim h.discriminators h.noSha _ s₀ (undeployed_canon h.undeployed)
    fun r hr => hroles r (List.mem_append_left _ hr)).1
  rw [f1.run] at this
  exact ⟨this, fun r hr => hroles r (List.mem_append_right _ hr), f2.run⟩

/-- **C73** (administration): a transaction that nobody with a say in the administration signs, and in which no program derives such an
address, leaves the administration as it is. -/
theorem C73_administration (pre : List STx) (tx : STx) (h : Sane e s₀ K (Sys.run e s₀ (pre ++ [tx])).2)
    (hi : Initialised e.toREnv (Sys.run e s₀ pre).1)
    (ha : ∀ k, Administrator e.toREnv (Sys.run e s₀ pre).1 k →
      e.ownPda k = true ∨ Absent e tx (Sys.submit e (Sys.run e s₀ pre).1 tx).2 k) :
    administration e.toREnv (Sys.submit e (Sys.run e s₀ pre).1 tx).1 = administration e.toREnv (Sys.run e s₀ pre).1 := by
  obtain ⟨hc, hK, hrun⟩ := canon_pre h
  by_contra hne
  obtain ⟨p, st, q, k, h1, _, _, _, h4, h5⟩ := admin_first h.discriminators h.noSha _ _ hc hK hi (by rw [hrun]; exact hne)
  have hst : st ∈ (Sys.submit e (Sys.run e s₀ pre).1 tx).2.steps := by rw [h1]; simp
  rcases ha k h5 with h6 | h6
  · rw [((flat_split h).2.good st hst k h4).1] at h6
    cases h6
  · exact absent_signs h6 st hst h4

/-- **C73** (tokens): a transaction that neither the owner of a token account nor its delegate signs, and in which no program derives these
addresses, takes nothing from it, unless the manager does so in a transfer of exactly the arguments the owner has delegated for. -/
theorem C73_tokens (pre : List STx) (tx : STx) (h : Sane e s₀ K (Sys.run e s₀ (pre ++ [tx])).2) (k : Bytes32) (a : TokenAccount)
    (ha : (Sys.run e s₀ pre).1.token.accts k = some a)
    (hta : ∀ x, x = a.owner ∨ a.delegate = some x →
      x ≠ e.addr .tokenAuthority ∧ Absent e tx (Sys.submit e (Sys.run e s₀ pre).1 tx).2 x)
    (hs : ∀ st ∈ (Sys.submit e (Sys.run e s₀ pre).1 tx).2.steps, ∀ acc args,
      st.ix = .transferBurn acc args ∨ st.ix = .transferLock acc args → acc.src = k →
      ∀ x, x = a.owner ∨ a.delegate = some x → x ≠ e.addr (.sessionAuthority a.owner (e.hash args.bytes))) :
    NotLess k a (Sys.submit e (Sys.run e s₀ pre).1 tx).1 := by
  obtain ⟨_, _, hrun⟩ := canon_pre h
  have := kept_run (r := e.toREnv) (k := k) (a := a) ⟨(hta _ (Or.inl rfl)).1, fun hd => (hta _ (Or.inr hd)).1 rfl⟩
    (Sys.submit e (Sys.run e s₀ pre).1 tx).2.steps (Sys.run e s₀ pre).1 ⟨a, ha, rfl, rfl, rfl, rfl, le_refl _⟩ fun st hst =>
      ⟨absent_signs (hta _ (Or.inl rfl)).2 st hst, fun d hd => absent_signs (hta _ (Or.inr hd)).2 st hst,
        fun acc args hix hsrc => ⟨hs st hst acc args hix hsrc _ (Or.inl rfl), fun hd => hs st hst acc args hix hsrc _ (Or.inr hd) rfl⟩⟩
  rw [hrun] at this
  obtain ⟨a', h1, h2, _, h3⟩ := this
  exact ⟨a', h1, h2, h3⟩

/-! ## C74 a manager owned by governance changes only by vote -/

/-- **C74**: if only governance has a say in the administration of the manager, then a transaction that changes anything of it executes a
governance message which carries the signature of the governance authority.  If the message is for the manager or the loader, then the
(first) change is exactly what it asks for. -/
theorem C74_only_by_vote (pre : List STx) (tx : STx) (h : Sane e s₀ K (Sys.run e s₀ (pre ++ [tx])).2)
    (hi : Initialised e.toREnv (Sys.run e s₀ pre).1) (hg : Governed e (Sys.run e s₀ pre).1)
    (hne : administration e.toREnv (Sys.submit e (Sys.run e s₀ pre).1 tx).1 ≠ administration e.toREnv (Sys.run e s₀ pre).1) :
    ∃ p st q ex, (Sys.submit e (Sys.run e s₀ pre).1 tx).2.steps = p ++ st :: q ∧
      administration e.toREnv (Raw.run e.toREnv (Sys.run e s₀ pre).1 p).1 = administration e.toREnv (Sys.run e s₀ pre).1 ∧
      administration e.toREnv (Raw.submit e.toREnv (Raw.run e.toREnv (Sys.run e s₀ pre).1 p).1 st).1 ≠
        administration e.toREnv (Sys.run e s₀ pre).1 ∧
      isAdminAction st.ix = true ∧ ex ∈ (Sys.submit e (Sys.run e s₀ pre).1 tx).2.executed ∧
      (∃ a ∈ ex.instruction.accounts, a.isSigner = true ∧ a.pubkey = authority e) ∧ Asks e tx.rt ex.instruction st := by
  obtain ⟨hc, hK, hrun⟩ := canon_pre h
  obtain ⟨p, st, q, k, h1, h2, h3, hadm, h4, h5⟩ := admin_first h.discriminators h.noSha _ _ hc hK hi (by rw [hrun]; exact hne)
  have hst : st ∈ (Sys.submit e (Sys.run e s₀ pre).1 tx).2.steps := by rw [h1]; simp
  have hk : k = authority e := by
    rcases hg k h5 with h6 | h6
    · exact h6
    · rw [((flat_split h).2.good st hst k h4).1] at h6
      cases h6
  subst hk
  rcases submit_ran e (Sys.run e s₀ pre).1 tx with hn | ⟨hsg, hr⟩
  · rw [hn] at hst; cases hst
  · have hnc : ∀ x ∈ (Sys.submit e (Sys.run e s₀ pre).1 tx).2.hashed, e.sha x = e.genv.governancePda → x = authorityString e := by
      intro x hx he
      refine h.noCollision _ _ (.other x ?_) .authority he
      rw [Sys.run_append, Sys.run_one]
      exact List.mem_append_right _ hx
    rcases hr.authority hnc (by simp) st hst h4 with h6 | ⟨ex, hex, d⟩ | ⟨h6, _⟩
    · have := (hsg _ h6).1
      rw [show e.genv.governancePda = authority e from rfl, authority, h.authorityOffCurve] at this
      cases this
    · refine ⟨p, st, q, ex, h1, h2, h3, hadm, hex, signersOf_mem.mp d.signed, fun hp => ?_, fun m hp hm => d.native m hp hm hadm⟩
      rcases d.manager hp with ⟨b, c, hix⟩ | hres
      · rw [hix] at hadm; cases hadm
      · exact resolve_sound hres
    · cases h6

/-- **C74**: every message executed was posted, comes from the governance emitter on Solana and is addressed to the governance program, and
what was called is exactly its instruction, the placeholders standing for the governance authority and the submitter. -/
theorem C74_as_voted (s : RState) (txs : List STx) (ex : Executed) (hex : ex ∈ (Sys.run e s txs).2.executed) :
    (∃ tx ∈ txs, ∃ a, tx.rt.posted a = some ex.vaa) ∧ ex.vaa.emitterChain = 1 ∧ ex.vaa.emitterAddress = .ofByte 4 ∧
    ∃ m rest, ex.vaa.payload = governanceWire m ++ rest ∧ m.governanceProgramId = e.governance ∧
      ex.instruction.programId = m.programId ∧ ex.instruction.data = m.data ∧
      ex.instruction.accounts.length = m.accounts.length ∧
      ∀ (i : Nat) (h : i < m.accounts.length) (h' : i < ex.instruction.accounts.length),
        (ex.instruction.accounts[i]).isSigner = (m.accounts[i]).isSigner ∧
        (ex.instruction.accounts[i]).isWritable = (m.accounts[i]).isWritable ∧
        (ex.instruction.accounts[i]).pubkey = meant (authority e) ex.payer (m.accounts[i]).pubkey := by
  have key : ∃ tx ∈ txs, ∃ g g', Accepted e.genv tx.rt.grt g (g', ex) := by
    induction txs generalizing s with
    | nil => cases hex
    | cons tx rest ih =>
      rcases List.mem_append.mp hex with hex | hex
      · refine ⟨tx, List.mem_cons_self, ?_⟩
        rcases submit_ran e s tx with h1 | ⟨_, h1⟩
        · rw [h1] at hex; cases hex
        · exact h1.accepted ex hex
      · obtain ⟨tx', h1, h2⟩ := ih _ hex
        exact ⟨tx', List.mem_cons_of_mem _ h1, h2⟩
  obtain ⟨tx, htx, g, g', a⟩ := key
  obtain ⟨k, hk⟩ := a.posted
  exact ⟨⟨tx, htx, k, hk⟩, a.chain, a.emitter, accepted_instruction a⟩

/-- **C74**: no message is executed twice, whatever the programs in between do. -/
theorem C74_at_most_once (hg : e.governance ≠ e.programId) (s : RState) (txs : List STx) :
    ((Sys.run e s txs).2.executed.map fun ex => vaaKey ex.vaa).Nodup := by
  have h : Once e s (Sys.run e s txs).1 (Sys.run e s txs).2.executed :=
    run_ind (P := fun s s' l => Once e s s' l.executed) (fun _ => Once.none fun _ h => h) (fun _ _ _ _ _ h1 h2 => h1.append h2)
      (fun _ _ _ _ _ hr => hr.once hg (by simp)) txs s
  have h := h.nodup
  have eq : ((Sys.run e s txs).2.executed.map (markerOf e)) =
      ((Sys.run e s txs).2.executed.map fun ex => vaaKey ex.vaa).map fun k => e.genv.replayAddr k.1 k.2.1 k.2.2 := by
    rw [List.map_map]; rfl
  rw [eq] at h
  exact h.of_map _

/-! ## Concrete cases -/

section
open Ntt.Example Ntt.Example.Whole

/-- Non-vacuity (C73): the history of `Example/System.lean` meets the assumptions; in it a user transfers tokens by way of another program, which
tries to sign for others and hands an account over to the manager. -/
example : Sane senv ledger0 roles (Sys.run senv ledger0 Whole.history).2 ∧
    (Sys.run senv ledger0 Whole.history).2.events = [.debited userAcct user outKey 3000000000] :=
  ⟨sane, outcome.2.1⟩

theorem administrator_at {s : RState} (hc : Canon senv.toREnv Whole.roles s)
    (h1 : (contents senv.toREnv tConfig s Whole.cfg).map (fun x => (x.2.owner, x.2.pendingOwner)) = some (authority senv, none))
    (h2 : s.upgradeAuthority = some (authority senv)) {k : Bytes32} (h : Administrator senv.toREnv s k) : k = authority senv := by
  rcases h with ⟨c, x, hx, h⟩ | h
  · rw [← show _ = Whole.cfg from (hc.config c x hx).2.1, hx] at h1
    simp only [Option.map_some, Option.some.injEq, Prod.mk.injEq] at h1
    rcases h with h | h
    · rw [← h, h1.1]
    · rw [h1.2] at h; cases h
  · rw [h2] at h
    exact (Option.some.inj h).symm

/-- The transactions before the router's gift. -/
def beforeGift : List STx := [setUp, handOver, routed, forged]

theorem saneGift : Sane senv ledger0 Whole.roles (Sys.run senv ledger0 (beforeGift ++ [gift])).2 :=
  Sane.start (ys := [swapped, voted]) sane

set_option maxRecDepth 100000 in
/-- Non-vacuity (C73, administration and tokens): a transaction of somebody else that does something. -/
example :
    Initialised senv.toREnv (Sys.run senv ledger0 beforeGift).1 ∧
    (∀ k, Administrator senv.toREnv (Sys.run senv ledger0 beforeGift).1 k →
      senv.ownPda k = true ∨ Absent senv gift (Sys.submit senv (Sys.run senv ledger0 beforeGift).1 gift).2 k) ∧
    (∃ a, (Sys.run senv ledger0 beforeGift).1.token.accts userAcct = some a ∧ a.balance = 997000000000 ∧
      ∀ x, x = a.owner ∨ a.delegate = some x → x ≠ senv.addr .tokenAuthority ∧
        Absent senv gift (Sys.submit senv (Sys.run senv ledger0 beforeGift).1 gift).2 x) ∧
    (Sys.submit senv (Sys.run senv ledger0 beforeGift).1 gift).2.steps.length = 3 := by
  refine ⟨?_, fun k hk => Or.inr ?_, ?_, by decide +kernel⟩
  · have h : (contents senv.toREnv tConfig (Sys.run senv ledger0 beforeGift).1 Whole.cfg).isSome = true := by decide +kernel
    exact ⟨_, _, (Option.some_get h).symm⟩
  · rw [administrator_at (canon_pre saneGift).1 (by decide +kernel) (by decide +kernel) hk]
    refine ⟨by decide +kernel, Or.inr ?_⟩
    decide +kernel
  · refine ⟨{ mint, owner := user, balance := 997000000000,
              delegate := some (at' (.sessionAuthority user (Whole.hash args.bytes))), delegated := 7 }, by decide +kernel, rfl, ?_⟩
    rintro x (rfl | h)
    · exact ⟨by decide +kernel, by decide +kernel, Or.inr (by decide +kernel)⟩
    · cases h
      exact ⟨by decide +kernel, by decide +kernel, Or.inr (by decide +kernel)⟩

set_option maxRecDepth 100000 in
/-- Non-vacuity (C74): after the handover governance has all say, and its message pauses the deployment. -/
example :
    Initialised senv.toREnv (Sys.run senv ledger0 before).1 ∧ Governed senv (Sys.run senv ledger0 before).1 ∧
    administration senv.toREnv (Sys.submit senv (Sys.run senv ledger0 before).1 voted).1 ≠
      administration senv.toREnv (Sys.run senv ledger0 before).1 := by
  refine ⟨?_, fun k hk => Or.inl ?_, fun h => ?_⟩
  · have h : (contents senv.toREnv tConfig (Sys.run senv ledger0 before).1 Whole.cfg).isSome = true := by decide +kernel
    exact ⟨_, _, (Option.some_get h).symm⟩
  · exact administrator_at (canon_pre sane).1 (by decide +kernel) (by decide +kernel) hk
  · have h1 := congrFun (congrArg (fun x => x.settings.paused) h) Whole.cfg
    revert h1
    decide +kernel

end

end Ntt.Props

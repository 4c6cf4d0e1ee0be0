import Verif.Lemmas.SystemFree
import Verif.Lemmas.SystemDo
import Verif.Model.Sha256
import Verif.Props.SystemDo
/-!
# Property C90: what governance has voted for can be carried out, by anybody and exactly

The liveness side of C74.
-/
namespace Ntt.Props
open Ntt Ntt.Spec Ntt.Raw Ntt.Gov Ntt.Entry Ntt.Sys

variable {e : SEnv} {s₀ : RState} {K : List Role}

/-- **C90** (codes): the selector of the instruction and the code of the marker's account are the first 8 bytes of SHA-256 of their names. -/
theorem C90_codes :
    (Sha256.sha256 (ascii ['g', 'l', 'o', 'b', 'a', 'l', ':', 'g', 'o', 'v', 'e', 'r', 'n', 'a', 'n', 'c', 'e'])).take 8 = governanceSelector ∧
    (Sha256.sha256 (ascii ['a', 'c', 'c', 'o', 'u', 'n', 't', ':', 'R', 'e', 'p', 'l', 'a', 'y', 'P', 'r', 'o', 't', 'e', 'c', 't', 'i', 'o',
      'n'])).take 8 = replayDisc := by
  decide +kernel

/-- **C90** (nobody is in the way): as long as a message has not been executed, nothing is at the address of its marker, whatever whole
transactions are submitted. -/
theorem C90_not_blocked (txs : List STx) (h : Sane e s₀ K (Sys.run e s₀ txs).2) (v : PostedVaa)
    (hoff : e.onCurve (markerOf e v) = false)
    (hnc : ∀ x, Hashed e K (Sys.run e s₀ txs).2 x → e.sha x = markerOf e v → x = markerString e v.emitterChain v.emitterAddress v.sequence)
    (hc : ∀ st ∈ (Sys.run e s₀ txs).2.steps, ∀ a args, st.ix = .initializeManager a args → a.custody ≠ markerOf e v)
    (hfree : Free s₀ (markerOf e v)) (hne : ∀ ex ∈ (Sys.run e s₀ txs).2.executed, vaaKey ex.vaa ≠ vaaKey v) :
    Free (Sys.run e s₀ txs).1 (markerOf e v) := by
  have hm : markerString e v.emitterChain v.emitterAddress v.sequence ∉ (Sys.run e s₀ txs).2.hashed := by
    revert hne
    refine run_ind (P := fun _ _ l => (∀ ex ∈ l.executed, vaaKey ex.vaa ≠ vaaKey v) →
      markerString e v.emitterChain v.emitterAddress v.sequence ∉ l.hashed) (fun _ _ h => by cases h)
      (fun _ _ _ _ _ h1 h2 hne hm => ?_) (fun tx s s' l _ hr hne hm => ?_) txs s₀
    · rcases List.mem_append.mp hm with hm | hm
      · exact h1 (fun ex hx => hne ex (List.mem_append_left _ hx)) hm
      · exact h2 (fun ex hx => hne ex (List.mem_append_right _ hx)) hm
    · obtain ⟨ex, hx, e1, e2, e3⟩ := hr.marker (by simp) hm
      exact hne ex hx (by simp [vaaKey, e1, e2, e3])
  have hx : ∀ x ∈ (Sys.run e s₀ txs).2.hashed, e.sha x ≠ markerOf e v := fun x hx hh => hm (hnc x (.other x hx) hh ▸ hx)
  have hq : ∀ q ∈ rolesUsed e.toREnv s₀ (Sys.run e s₀ txs).2.steps, e.addr q ≠ markerOf e v := by
    intro q hq hh
    have := hnc _ (.manager q (e.bump q) (h.roles q hq)) hh
    rw [pdaPreimage_eq] at this
    exact h.distinct (derivation_inj this).2.symm
  have hown := fun x hx => h.notOwn (x := x) hx (run_foreign txs s₀ x hx)
  have key := run_ind (e := e) (P := fun s s' l => (∀ x ∈ l.hashed, e.ownPda (e.sha x) = false) → Neat e.toREnv s →
    (∀ x ∈ l.hashed, e.sha x ≠ markerOf e v) → (∀ q ∈ rolesUsed e.toREnv s l.steps, e.addr q ≠ markerOf e v) →
    (∀ st ∈ l.steps, ∀ a args, st.ix = .initializeManager a args → a.custody ≠ markerOf e v) → Free s (markerOf e v) →
    Flat e s s' l ∧ Free s' (markerOf e v)) (fun s _ _ _ _ _ hf => ⟨Flat.nil, hf⟩)
    (fun s s1 s2 l1 l2 h1 h2 ho hn hx hq hc hf => ?_) (fun tx s s' l hs hr ho hn hx hq hc hf => ?_) txs s₀
  · exact (key hown h.neat hx hq hc hfree).2
  · have hq1 : ∀ q ∈ rolesUsed e.toREnv s l1.steps, e.addr q ≠ markerOf e v := fun q h =>
      hq q (by rw [Log.append_steps, rolesUsed_append]; exact List.mem_append_left _ h)
    obtain ⟨f1, g1⟩ := h1 (fun x h => ho x (List.mem_append_left _ h)) hn (fun x h => hx x (List.mem_append_left _ h)) hq1
      (fun st h => hc st (List.mem_append_left _ h)) hf
    rw [Log.append_steps, rolesUsed_append, f1.run] at hq
    obtain ⟨f2, g2⟩ := h2 (fun x h => ho x (List.mem_append_right _ h)) (f1.neat h.discriminators hn)
      (fun x h => hx x (List.mem_append_right _ h)) (fun q h => hq q (List.mem_append_right _ h))
      (fun st h => hc st (List.mem_append_right _ h)) g1
    exact ⟨f1.append f2, g2⟩
  · have hg : ∀ k ∈ tx.signers, Good e k := fun k hk => ⟨h.onCurve (hs k hk).1, (hs k hk).2⟩
    refine ⟨hr.flat h.discriminators h.zeroOnCurve (by simp) hg ho hn, ?_⟩
    refine hr.free h.discriminators h.zeroOnCurve (by simp) hg ho hn (fun hA => ?_) hx hq hc hf
    rw [(hs _ hA).1] at hoff
    cases hoff

theorem substitute_meant (g p : Bytes32) (a : AccountMeta) : substitute g p a = { a with pubkey := meant g p a.pubkey } := by
  have o1 : a.pubkey = ownerSentinel ↔ a.pubkey.val = rightPadded ['o', 'w', 'n', 'e', 'r'] :=
    ⟨fun h => by rw [h]; decide, fun h => Bytes32.ext (by rw [h]; decide)⟩
  have o2 : a.pubkey = payerSentinel ↔ a.pubkey.val = rightPadded ['p', 'a', 'y', 'e', 'r'] :=
    ⟨fun h => by rw [h]; decide, fun h => Bytes32.ext (by rw [h]; decide)⟩
  unfold substitute meant
  simp only [o1, o2]
  split
  · rfl
  · split <;> rfl

/-- **C90** (what is accepted): the governance program accepts exactly the instructions that meet its documented demands; it then makes the
marker and calls exactly what the message asks for. -/
theorem C90_accepted_iff (rt : SRt) (s s' : RState) (ix : Instruction) (v : PostedVaa) (payer : Bytes32) (i : Instruction) :
    (∃ l, governance e rt s ix = .ok (s', ⟨v, payer, i⟩, l)) ↔ Submission e rt s ix v payer i ∧ s' = withMarker e s v := by
  have hsel : ∀ d : Bytes, d.take 8 = governanceSelector ↔ [11, 247, 203, 189, 82, 97, 41, 84] <+: d := by
    intro d
    rw [List.prefix_iff_eq_take]
    exact eq_comm
  have hsub : substitute (authority e) payer = fun a : AccountMeta => { a with pubkey := meant (authority e) payer a.pubkey } :=
    funext fun a => substitute_meant _ _ a
  constructor
  · rintro ⟨l, h⟩
    obtain ⟨⟨g, ex⟩, hacc, h⟩ := ex_bind_ok.mp h
    have hx : ex = ⟨v, payer, i⟩ ∧ s' = withMarker e s ex.vaa := by
      have h := Prod.mk.inj (Except.ok.inj h)
      exact ⟨(Prod.mk.inj h.2).1, h.1.symm⟩
    obtain ⟨rfl, hs⟩ := hx
    refine ⟨?_, hs⟩
    unfold accept at hacc
    rw [require_bind] at hacc
    obtain ⟨h0, hacc⟩ := hacc
    split at hacc
    · rename_i p g' a t m y rest heq
      simp only [require_bind, getSome_bind] at hacc
      obtain ⟨h1, h2, h3, h4, v', h5, hacc⟩ := hacc
      obtain ⟨msg, h6, hacc⟩ := ex_bind_ok.mp hacc
      simp only [require_bind, getSome_bind, ex_pure_ok] at hacc
      obtain ⟨h7, h8, h9, h10, h11, h12, h13, h14, j, h15, h16, h17, h18, h19⟩ := hacc
      obtain ⟨_, h19⟩ := Prod.mk.inj h19
      obtain ⟨rfl, rfl, rfl⟩ := Executed.mk.inj h19
      obtain ⟨rest', hm⟩ := message_ok.mp h6
      obtain ⟨hfit, hp⟩ := C53_canonical _ _ _ hm
      rw [toInstruction, if_pos h9] at h15
      cases h15
      rw [heq] at h1 h2 h4 h12 h16 h17 h18
      have hf : Free s (markerOf e v') := by
        have := of_decide_eq_false h13
        rw [not_not, h11] at this
        exact this
      refine ⟨(hsel _).mp h0, ⟨p, g', a, t, m, y, rest, heq, rfl, h3, h5, h10, h11, h14⟩, ?_, ?_, ⟨h7, h8, msg, rest', hp, hfit, h9, ?_⟩, hf,
        ?_, ?_, ?_⟩
      · rw [heq]; exact h1
      · intro k hk
        rw [heq]
        simp only [List.mem_cons, List.not_mem_nil, or_false] at hk
        rcases hk with rfl | rfl | rfl
        · exact h2
        · rw [h3] at h4; exact h4
        · rw [h11] at h12; exact h12
      · rw [h3]
        exact congrArg (fun f => (⟨msg.programId, msg.accounts.map f, msg.data⟩ : Instruction)) hsub
      · obtain ⟨b, hb, hb'⟩ := List.mem_map.mp h16
        rw [heq]
        exact ⟨b, hb, hb'⟩
      · intro b hb
        obtain ⟨c, hc, hc'⟩ := List.mem_map.mp (h17 b hb)
        rw [heq]
        exact ⟨c, hc, hc'⟩
      · rw [heq]; exact h18
    · cases hacc
  · rintro ⟨h, rfl⟩
    obtain ⟨p, g, a, t, m, y, rest, heq, rfl, h3, h5, h10, h11, h14⟩ := h.accounts
    obtain ⟨msg, rest', hp, hfit, hself, rfl⟩ := h.message.payload
    have hacc : accept e.genv rt.grt { replay := fun a => decide (¬ Free s a) } ix = .ok
        ({ replay := upd (fun a => decide (¬ Free s a)) m.pubkey true },
          ⟨v, p.pubkey, ⟨msg.programId, msg.accounts.map fun a => { a with pubkey := meant (authority e) p.pubkey a.pubkey }, msg.data⟩⟩) := by
      unfold accept
      rw [require_bind]
      refine ⟨(hsel _).mpr h.selector, ?_⟩
      rw [heq]
      show (_ >>= _ : Except Err _) = _
      simp only [require_bind, getSome_bind, ← heq]
      refine ⟨h.signed, h.writable _ (by simp), h3, h3 ▸ h.writable _ (by simp), v, h5, ex_bind_ok.mpr ⟨msg, ?_, ?_⟩⟩
      · exact message_ok.mpr ⟨rest', by rw [hp]; exact (C53_round_trip msg hfit).2 rest'⟩
      simp only [require_bind, getSome_bind, ex_pure_ok]
      refine ⟨h.message.chain, h.message.emitter, hself, h10, h11, h11 ▸ h.writable _ (by simp),
        by rw [h11]; simpa using h.vacant, h14, ⟨msg.programId, msg.accounts, msg.data⟩, if_pos hself, ?_, ?_, ?_, ?_⟩
      · obtain ⟨b, hb, hb'⟩ := h.program
        exact List.mem_map.mpr ⟨b, hb, hb'⟩
      · rw [h3, hsub]
        intro b hb
        obtain ⟨c, hc, hc'⟩ := h.present b hb
        exact List.mem_map.mpr ⟨c, hc, hc'⟩
      · rw [h3, hsub]
        exact h.passed
      · rw [h3, hsub]
    exact ⟨_, ex_bind_ok.mpr ⟨_, hacc, rfl⟩⟩

/-- The governance program accepts the instruction of `execution`. -/
theorem accepts {rt : SRt} {s : RState} {v : PostedVaa} {at' payer : Bytes32} {i : Instruction}
    (hv : rt.posted at' = some v) (ha : AsksFor e v payer i) (hx : rt.executable i.programId = true) (hf : Free s (markerOf e v))
    {ix : Instruction} {seeds : List Bytes} {acts : List Act} (hix : execution e v at' payer i = .call seeds ix acts) :
    ∃ l, governance e rt s ix = .ok (withMarker e s v, ⟨v, payer, i⟩, l) ∧ l.events = [] ∧ l.executed = [⟨v, payer, i⟩] := by
  obtain ⟨m, rest, hp, hfit, hself, rfl⟩ := ha.payload
  cases hix
  have hw : ∀ a ∈ m.accounts.map (substitute (authority e) payer), ∀ b c : Bool, (b = false ∨ a.isWritable = true) →
      ∃ a' ∈ [(⟨payer, true, true⟩ : AccountMeta), ⟨authority e, false, true⟩, ⟨at', false, false⟩, ⟨m.programId, false, false⟩,
        ⟨markerOf e v, false, true⟩, ⟨e.systemProgram, false, false⟩] ++
          (m.accounts.map fun a => { a with pubkey := meant (authority e) payer a.pubkey }).map
            (fun a => { a with isSigner := a.isSigner && decide (a.pubkey = payer) }),
        a'.pubkey = a.pubkey ∧ (b = true → a'.isWritable = true) := by
    intro a ha b c hb
    refine ⟨{ a with isSigner := a.isSigner && decide (a.pubkey = payer) }, List.mem_append_right _ (List.mem_map.mpr ⟨a, ?_, rfl⟩), rfl, ?_⟩
    · rw [show (fun a : AccountMeta => { a with pubkey := meant (authority e) payer a.pubkey }) = substitute (authority e) payer from
        funext fun a => (substitute_meant _ _ a).symm]
      exact ha
    · intro h; rcases hb with hb | hb
      · rw [h] at hb; cases hb
      · exact hb
  have hacc : accept e.genv rt.grt { replay := fun a => decide (¬ Free s a) }
      ⟨e.governance, [⟨payer, true, true⟩, ⟨authority e, false, true⟩, ⟨at', false, false⟩, ⟨m.programId, false, false⟩,
        ⟨markerOf e v, false, true⟩, ⟨e.systemProgram, false, false⟩] ++
          (m.accounts.map fun a => { a with pubkey := meant (authority e) payer a.pubkey }).map
            (fun a => { a with isSigner := a.isSigner && decide (a.pubkey = payer) }),
      [11, 247, 203, 189, 82, 97, 41, 84]⟩ = .ok
      ({ replay := upd (fun a => decide (¬ Free s a)) (markerOf e v) true },
        ⟨v, payer, ⟨m.programId, m.accounts.map (substitute (authority e) payer), m.data⟩⟩) := by
    unfold accept
    rw [require_bind]
    refine ⟨rfl, ?_⟩
    show (_ >>= _ : Except Err _) = _
    simp only [require_bind, getSome_bind]
    refine ⟨⟨_, List.mem_cons_self, rfl, rfl⟩, ⟨_, List.mem_cons_self, rfl, rfl⟩, rfl,
      ⟨_, List.mem_cons_of_mem _ List.mem_cons_self, rfl, rfl⟩, v, hv, ex_bind_ok.mpr ⟨m, ?_, ?_⟩⟩
    · exact message_ok.mpr ⟨rest, by rw [hp]; exact (C53_round_trip m hfit).2 rest⟩
    simp only [require_bind, getSome_bind, ex_pure_ok]
    refine ⟨ha.chain, ha.emitter, hself, hx, rfl, ⟨_, List.mem_cons_of_mem _ (List.mem_cons_of_mem _ (List.mem_cons_of_mem _
      (List.mem_cons_of_mem _ List.mem_cons_self))), rfl, rfl⟩, by simpa using hf, rfl, ⟨m.programId, m.accounts, m.data⟩, ?_, ?_, ?_, ?_, rfl⟩
    · exact if_pos hself
    · simp
    · intro a ha
      obtain ⟨a', h1, h2, _⟩ := hw a ha false false (Or.inl rfl)
      exact List.mem_map.mpr ⟨a', h1, h2⟩
    · intro a ha hwr
      obtain ⟨a', h1, h2, h3⟩ := hw a ha true false (Or.inr hwr)
      exact ⟨a', h1, h2, h3 rfl⟩
  rw [show substitute (authority e) payer = (fun a : AccountMeta => { a with pubkey := meant (authority e) payer a.pubkey }) from
        funext fun a => substitute_meant _ _ a] at hacc
  refine ⟨_, ex_bind_ok.mpr ⟨_, hacc, rfl⟩, rfl, rfl⟩

/-- **C90** (carried out): if a message of governance asks for an instruction of the manager that would succeed with the signatures of the
governance authority and of a wallet, and there is nothing at the address of its marker, then this wallet alone can have it executed, with
exactly the effect of that instruction. -/
theorem C90_carried_out (h1 : e.governance ≠ e.programId) (h2 : e.native e.governance = none)
    (h3 : e.onCurve (authority e) = false) (rt : SRt) (s : RState) (v : PostedVaa) (at' payer : Bytes32)
    (hp : e.onCurve payer = true ∧ payer ≠ .zeroes) (hv : rt.posted at' = some v) (hx : rt.executable e.programId = true)
    (hf : Free s (markerOf e v)) (rix : RIx) (req : Request) (hreq : requestOf rix = some req) (x : OtherAccounts)
    (ha : AsksFor e v payer ⟨e.programId, accountList e.toEEnv x rix, wire req⟩) (hr : RightPrograms e.toEEnv x rt.ert rix)
    (s' : RState) (ev : List Event) (hex : Raw.exec e.toREnv (rt.signedBy [authority e, payer]) (withMarker e s v) rix = .ok (s', ev)) :
    ∃ l, Sys.submit e s (executing e rt v at' payer ⟨e.programId, accountList e.toEEnv x rix, wire req⟩) = (s', l) ∧ l.events = ev ∧
      l.executed = [⟨v, payer, ⟨e.programId, accountList e.toEEnv x rix, wire req⟩⟩] := by
  obtain ⟨lg, hg, hg1, hg2⟩ := accepts (s := s) hv ha hx hf rfl
  obtain ⟨l, hm, hl, _, hl2⟩ := manager_wire hreq hr hex [] []
  rw [List.append_nil, List.append_nil] at hm
  have hsig := signers_needed (x := x) hreq hex
  refine ⟨({ hashed := [] } : Log) ++ (lg ++ (({ hashed := [derivation (e.withBump SEnv.governanceSeeds e.governance) e.governance] } : Log) ++ l
    ++ {})) ++ {}, ?_, ?_, ?_⟩
  · unfold Sys.submit executing execution
    rw [if_pos (by intro k hk; rw [List.mem_singleton.mp hk]; exact hp)]
    have : Sys.execAll e rt none [payer] s [execution e v at' payer ⟨e.programId, accountList e.toEEnv x rix, wire req⟩] =
        .ok (s', ({ hashed := [] } : Log) ++ (lg ++ (({ hashed := [derivation (e.withBump SEnv.governanceSeeds e.governance) e.governance] } : Log)
          ++ l ++ {})) ++ {}) := by
      simp only [Sys.execAll, execution]
      refine ex_bind_ok.mpr ⟨(s', ({ hashed := [] } : Log) ++ (lg ++ (({ hashed :=
        [derivation (e.withBump SEnv.governanceSeeds e.governance) e.governance] } : Log) ++ l ++ {}))), ?_, rfl⟩
      simp only [Sys.exec]
      refine ex_bind_ok.mpr ⟨[], rfl, ?_⟩
      rw [require_bind]
      refine ⟨fun _ h => (by cases h), ?_⟩
      rw [require_bind]
      refine ⟨?_, ?_⟩
      · intro a ha hs
        rcases List.mem_append.mp ha with ha | ha
        · simp only [List.mem_cons, List.not_mem_nil, or_false] at ha
          rcases ha with rfl | rfl | rfl | rfl | rfl | rfl
          · exact Or.inl (List.mem_singleton_self _)
          all_goals cases hs
        · obtain ⟨b, _, rfl⟩ := List.mem_map.mp ha
          simp only [Bool.and_eq_true, decide_eq_true_eq] at hs
          exact Or.inl (by simp [hs.2])
      · rw [if_neg h1, h2]
        simp only [if_true]
        rw [if_neg (show ¬ List.take 8 [11, 247, 203, 189, 82, 97, 41, 84] = idlSelector by decide)]
        refine ex_bind_ok.mpr ⟨_, hg, ?_⟩
        rw [require_bind]
        refine ⟨rfl, ex_bind_ok.mpr ⟨(s', ({ hashed :=
          [derivation (e.withBump SEnv.governanceSeeds e.governance) e.governance] } : Log) ++ l ++ {}), ?_, rfl⟩⟩
        simp only [Sys.execAll]
        refine ex_bind_ok.mpr ⟨(s', ({ hashed :=
          [derivation (e.withBump SEnv.governanceSeeds e.governance) e.governance] } : Log) ++ l), ?_, rfl⟩
        simp only [Sys.exec]
        refine ex_bind_ok.mpr ⟨[derivation (e.withBump SEnv.governanceSeeds e.governance) e.governance], rfl, ?_⟩
        rw [require_bind]
        refine ⟨fun y hy => by rw [List.mem_singleton.mp hy]; exact h3, ?_⟩
        rw [require_bind]
        refine ⟨?_, ?_⟩
        · intro a ha hs
          have hk := hsig a.pubkey (List.mem_map.mpr ⟨a, List.mem_filter.mpr ⟨ha, hs⟩, rfl⟩)
          rcases List.mem_cons.mp hk with hk | hk
          · exact Or.inr (by rw [hk]; exact List.mem_singleton_self _)
          · rw [List.mem_singleton.mp hk]
            exact Or.inl (by simp [signersOf])
        · rw [if_pos trivial, require_bind]
          exact ⟨rfl, ex_bind_ok.mpr ⟨_, hm, rfl⟩⟩
    simp only [execution] at this
    rw [this]
  · simp [Log.append_events, hg1, hl]
  · show [] ++ (lg.executed ++ ([] ++ l.executed ++ [])) ++ [] = _
    rw [hg2, hl2]; rfl

/-- Making the marker does not change what the manager sees. -/
theorem marker_contents {s : RState} {v : PostedVaa} (hg : e.governance ≠ e.programId) (hf : Free s (markerOf e v)) {α : Type} (t : Typ α)
    (a : Bytes32) : contents e.toREnv t (withMarker e s v) a = contents e.toREnv t s a := by
  by_cases h : a = markerOf e v
  · subst h
    have h1 : contents e.toREnv t s (markerOf e v) = none := by
      rw [contents, loadAs, hf.1]; rfl
    rw [h1]
    refine Option.eq_none_iff_forall_ne_some.mpr fun x hx => ?_
    obtain ⟨acc, h2, h3, _⟩ := contents_some.mp hx
    simp only [withMarker, upd_same] at h2
    cases h2
    exact hg h3
  · simp only [contents, loadAs, withMarker, upd_other _ _ h]

theorem marker_typed {s : RState} {v : PostedVaa} (hg : e.governance ≠ e.programId) (hf : Free s (markerOf e v)) :
    typed e.toREnv K (withMarker e s v) = typed e.toREnv K s := by
  have hat : attestation e.toREnv (withMarker e s v) = attestation e.toREnv s := by
    funext p a
    by_cases h : a = markerOf e v
    · subst h
      simp only [attestation, hf.1, withMarker, upd_same]
      split
      · have : borshValidated [e.findBump (SEnv.replaySeeds v.emitterChain v.emitterAddress v.sequence) e.governance] = .error .eof := rfl
        rw [tryFrom, show List.drop 8 (replayDisc ++ [e.findBump (SEnv.replaySeeds v.emitterChain v.emitterAddress v.sequence) e.governance]) =
          [e.findBump (SEnv.replaySeeds v.emitterChain v.emitterAddress v.sequence) e.governance] from rfl, this]
        cases discriminatorCheck (e.disc .message)
          (replayDisc ++ [e.findBump (SEnv.replaySeeds v.emitterChain v.emitterAddress v.sequence) e.governance]) <;> rfl
      · rfl
    · simp only [attestation, withMarker, upd_other _ _ h]
  unfold typed
  simp only [marker_contents hg hf, hat]
  rfl

/-- What the core bridge has posted matters to one instruction only. -/
theorem exec_posted {R : RRt} {s : RState} {rix : RIx} (h : ∀ a, rix ≠ .receiveMessage a) (p : Bytes32 → Option Vaa) :
    Raw.exec e.toREnv { R with posted := p } s rix = Raw.exec e.toREnv R s rix := by
  cases rix <;> first | rfl | exact absurd rfl (h _)

/-- **C90** (anything can be voted for): after any history of whole transactions, every instruction of the manager (other than receiving a
message) that the typed model lets succeed with the signatures of the governance authority and a wallet can be put into a message of
governance so that, once it is posted, this wallet alone can have it executed with exactly that effect. -/
theorem C90_anything_can_be_voted (txs : List STx) (h : Sane e s₀ K (Sys.run e s₀ txs).2) (hn : e.native e.governance = none) (rt : SRt)
    (payer : Bytes32) (hp : e.onCurve payer = true ∧ payer ≠ .zeroes) (hx : rt.executable e.programId = true) (n : UInt64)
    (hnc : ∀ r ∈ K, e.addr r ≠ e.sha (markerString e 1 (.ofByte 4) n)) (hf : Free (Sys.run e s₀ txs).1 (e.sha (markerString e 1 (.ofByte 4) n)))
    (ix : Ix) (hm : isManagerIx ix = true) (hrm : ∀ vaa, ix ≠ .receiveMessage vaa)
    (hc : ∀ r ∈ creates e.env (typed e.toREnv K (Sys.run e s₀ txs).1) ix, r ∈ K)
    (hsup : Supplied e.toREnv (rt.signedBy [authority e, payer]) (withMarker e (Sys.run e s₀ txs).1 ⟨1, .ofByte 4, n, []⟩) ix)
    (hmint : GoodMint e (Sys.run e s₀ txs).1)
    (hinit : ∀ k args m, ix = .initializeManager k args → (Sys.run e s₀ txs).1.token.mints k = some m →
      m.program = e.tokenProgram ∨ m.program = e.token2022Program)
    (x : OtherAccounts) (hb : rt.bridgeData x.bridge = true) (hl : rt.executable x.lutProgram = true)
    (t' : State) (ev' : List Event)
    (hex : Ntt.exec e.env (rt.signedBy [authority e, payer]).toRt (typed e.toREnv K (Sys.run e s₀ txs).1) ix = .ok (t', ev')) :
    ∃ rix req, SameCall e.toREnv (rt.signedBy [authority e, payer]) rix ix ∧ requestOf rix = some req ∧
      ∀ payload posted at', posted at' = some ⟨1, .ofByte 4, n, payload⟩ →
        AsksFor e ⟨1, .ofByte 4, n, payload⟩ payer ⟨e.programId, accountList e.toEEnv x rix, wire req⟩ →
        ∃ s' l, Sys.submit e (Sys.run e s₀ txs).1 (executing e { rt with posted } ⟨1, .ofByte 4, n, payload⟩ at' payer
            ⟨e.programId, accountList e.toEEnv x rix, wire req⟩) = (s', l) ∧
          typed e.toREnv K s' = t' ∧ l.events = ev'.map (onLedger e.toREnv) ∧
          l.executed = [⟨⟨1, .ofByte 4, n, payload⟩, payer, ⟨e.programId, accountList e.toEEnv x rix, wire req⟩⟩] := by
  obtain ⟨h1, h2⟩ := C73_elementary txs h
  have hst : (Raw.run e.toREnv s₀ (Sys.run e s₀ txs).2.steps).1 = (Sys.run e s₀ txs).1 := congrArg Prod.fst h1
  have hown : e.ownPda (e.sha (markerString e 1 (.ofByte 4) n)) = false := by
    rw [← Bool.not_eq_true]
    intro ho
    obtain ⟨r, hr, ha⟩ := (h.own _).mp ho
    exact hnc r hr ha.symm
  have ff := flat_foreign (rt := rt) (metas := []) (c := some (replayDisc ++
    [e.findBump (SEnv.replaySeeds 1 (.ofByte 4) n) e.governance])) h.distinct (by simp [signersOf]) (.inl ⟨hf, hown⟩)
  have hrun := ff.run
  have hlast : (Raw.run e.toREnv s₀ ((Sys.run e s₀ txs).2.steps ++ [⟨rt.ert.withSigners [], .foreignWrite e.governance
      (e.sha (markerString e 1 (.ofByte 4) n)) (some (replayDisc ++ [e.findBump (SEnv.replaySeeds 1 (.ofByte 4) n) e.governance]))⟩])).1 =
      withMarker e (Sys.run e s₀ txs).1 ⟨1, .ofByte 4, n, []⟩ := by
    rw [Raw.run_append, h1, hrun]
    rfl
  have htyped := marker_typed (K := K) (v := ⟨1, .ofByte 4, n, []⟩) h.distinct hf
  obtain ⟨rix, s', hcall, hex', ht⟩ := C70_accounts_can_be_supplied h.discriminators h.undeployed h.vacant
    ((Sys.run e s₀ txs).2.steps ++ [⟨rt.ert.withSigners [], .foreignWrite e.governance
      (e.sha (markerString e 1 (.ofByte 4) n)) (some (replayDisc ++ [e.findBump (SEnv.replaySeeds 1 (.ofByte 4) n) e.governance]))⟩])
    (fun st hs => by
      rcases List.mem_append.mp hs with hs | hs
      · exact (h2 st hs).2
      · rw [List.mem_singleton.mp hs]
        intro k hk
        cases hk) K
    (fun r hr => by
      rw [rolesUsed_append] at hr
      rcases List.mem_append.mp hr with hr | hr
      · exact h.roles r hr
      · cases hr) h.noSha (fun r hr => (h.own _).mpr ⟨r, hr, rfl⟩) (rt.signedBy [authority e, payer]) ix hm
    (by rw [hlast, htyped]; exact hc) (by rw [hlast]; exact hsup) t' ev' (by rw [hlast, htyped]; exact hex)
  rw [hlast] at hex'
  have hreq : ∃ req, requestOf rix = some req := by
    cases hcall <;> first | exact ⟨_, rfl⟩ | cases hm
  obtain ⟨req, hreq⟩ := hreq
  have hnr : ∀ a, rix ≠ .receiveMessage a := by
    rintro a rfl
    cases hcall
    exact hrm _ rfl
  have hi : ∀ a args m, rix = .initializeManager a args → (Sys.run e s₀ txs).1.token.mints a.mint = some m →
      m.program = e.tokenProgram ∨ m.program = e.token2022Program := by
    rintro a args m rfl
    cases hcall
    exact hinit _ _ m rfl
  refine ⟨rix, req, hcall, hreq, fun payload posted at' hposted ha => ?_⟩
  have hmint' : GoodMint e (withMarker e (Sys.run e s₀ txs).1 ⟨1, .ofByte 4, n, []⟩) := by
    intro c y m hy hm
    rw [marker_contents (v := ⟨1, .ofByte 4, n, []⟩) h.distinct hf] at hy
    exact hmint c y m hy hm
  have hex2 : Raw.exec e.toREnv (({ rt with posted } : SRt).signedBy [authority e, payer])
      (withMarker e (Sys.run e s₀ txs).1 ⟨1, .ofByte 4, n, payload⟩) rix = .ok (s', ev'.map (onLedger e.toREnv)) := by
    rw [show withMarker e (Sys.run e s₀ txs).1 ⟨1, .ofByte 4, n, payload⟩ = withMarker e (Sys.run e s₀ txs).1 ⟨1, .ofByte 4, n, []⟩ from rfl,
      show ({ rt with posted } : SRt).signedBy [authority e, payer] = { rt.signedBy [authority e, payer] with
        posted := (fun a => (posted a).map fun v =>
          { emitterChain := v.emitterChain, emitterAddress := v.emitterAddress, payload := v.payload }) } from rfl,
      exec_posted hnr]
    exact hex'
  obtain ⟨l, q1, q2, q3⟩ := C90_carried_out h.distinct hn h.authorityOffCurve { rt with posted } (Sys.run e s₀ txs).1 ⟨1, .ofByte 4, n, payload⟩
    at' payer hp hposted hx hf rix req hreq x ha (right_programs (rt := ({ rt with posted } : SRt).ert) hex2 rfl hmint' hi hb hl) s' _ hex2
  exact ⟨s', l, q1, ht, q2, q3⟩

/-! ## Concrete cases -/

section
open Ntt.Example Ntt.Example.Whole

/-- The message that pauses the deployment. -/
def pausing : PostedVaa := ⟨1, .ofByte 4, 5, governanceWire message⟩

set_option maxRecDepth 100000 in
/-- Non-vacuity (C90): before the message is executed, and whatever the router tried, nothing is at the address of its marker. -/
theorem pausing_free : Free (Sys.run senv ledger0 before).1 (markerOf senv pausing) := by
  have hh : ∀ x, Hashed senv roles (Sys.run senv ledger0 before).2 x → Hashed senv roles (Sys.run senv ledger0 history).2 x := by
    intro x hx
    cases hx with
    | manager r b hr => exact .manager r b hr
    | other x hx => exact .other x (by rw [Whole.history, Sys.run_append]; exact List.mem_append_left _ hx)
    | authority => exact .authority
  refine C90_not_blocked before sane.start pausing (by decide +kernel) (fun x hx h => ?_) ?_ (by decide +kernel) ?_
  · exact sane.noCollision x _ (hh x hx) (.other _ (by decide +kernel)) h
  · have : ∀ st ∈ (Sys.run senv ledger0 before).2.steps, (match st.ix with | .initializeManager a _ => a.custody | _ => custody) =
        custody := by decide +kernel
    intro st hst a args hix
    have h1 := this st hst
    rw [hix] at h1
    rw [show a.custody = custody from h1]
    decide +kernel
  · have : (Sys.run senv ledger0 before).2.executed.length = 0 := by decide +kernel
    intro ex hx
    rw [List.length_eq_zero_iff.mp this] at hx
    cases hx

/-- The instruction it asks for. -/
def thePause : RIx := .setPaused { admin cfg with owner := authority senv } true

set_option maxRecDepth 100000 in
theorem pausing_asks : AsksFor senv pausing mallory ⟨me, accountList senv.toEEnv ⟨A 157, A 158, A 159, A 160⟩ thePause, wire (.setPaused true)⟩ :=
  ⟨rfl, rfl, message, [], by rw [List.append_nil]; rfl, ⟨by decide, by decide⟩, rfl, by decide +kernel⟩

/-- Non-vacuity (C90): an instruction of `mallory` meets the demands. -/
example : ∃ ix, Submission senv (srt 3000) (Sys.run senv ledger0 before).1 ix pausing mallory
    ⟨me, accountList senv.toEEnv ⟨A 157, A 158, A 159, A 160⟩ thePause, wire (.setPaused true)⟩ := by
  obtain ⟨l, h, _⟩ := accepts (rt := srt 3000) (at' := A 70) rfl pausing_asks rfl pausing_free rfl
  exact ⟨_, ((C90_accepted_iff _ _ _ _ _ _ _).mp ⟨l, h⟩).1⟩

set_option maxRecDepth 100000 in
/-- Non-vacuity (C90): `mallory` of all people has the message executed, and the deployment is paused. -/
example : ∃ s' l, Sys.submit senv (Sys.run senv ledger0 before).1 (executing senv (srt 3000) pausing (A 70) mallory
      ⟨me, accountList senv.toEEnv ⟨A 157, A 158, A 159, A 160⟩ thePause, wire (.setPaused true)⟩) = (s', l) ∧ paused s' = some true ∧
    l.executed.map (·.vaa) = [pausing] := by
  have hok : (match Raw.exec senv.toREnv ((srt 3000).signedBy [authority senv, mallory])
      (withMarker senv (Sys.run senv ledger0 before).1 pausing) thePause with | .ok r => paused r.1 | .error _ => none) = some true := by
    decide +kernel
  cases hex : Raw.exec senv.toREnv ((srt 3000).signedBy [authority senv, mallory])
      (withMarker senv (Sys.run senv ledger0 before).1 pausing) thePause with
  | error _ => rw [hex] at hok; cases hok
  | ok r =>
    rw [hex] at hok
    obtain ⟨l, h1, _, h3⟩ := C90_carried_out (e := senv) (by decide) (by decide) (by decide +kernel) (srt 3000) _ pausing (A 70) mallory
      (by decide +kernel) rfl rfl pausing_free thePause (.setPaused true) rfl ⟨A 157, A 158, A 159, A 160⟩ pausing_asks trivial r.1 r.2 hex
    exact ⟨r.1, l, h1, hok, by rw [h3]; rfl⟩

set_option maxRecDepth 100000 in
/-- Non-vacuity (C90): governance can also vote for a new limit. -/
example : ∃ rix req, SameCall senv.toREnv ({ srt 3000 with bridgeData := fun _ => true }.signedBy [authority senv, mallory]) rix (.setOutboundLimit 7) ∧
      requestOf rix = some req ∧
      ∀ payload posted at', posted at' = some ⟨1, .ofByte 4, 6, payload⟩ →
        AsksFor senv ⟨1, .ofByte 4, 6, payload⟩ mallory ⟨me, accountList senv.toEEnv ⟨A 157, A 158, A 159, A 160⟩ rix, wire req⟩ →
        ∃ s' l, Sys.submit senv (Sys.run senv ledger0 before).1 (executing senv { srt 3000 with bridgeData := (fun _ => true), posted }
            ⟨1, .ofByte 4, 6, payload⟩ at' mallory ⟨me, accountList senv.toEEnv ⟨A 157, A 158, A 159, A 160⟩ rix, wire req⟩) = (s', l) ∧
          (typed senv.toREnv roles s').outboxLimit.map (·.limit) = some 7 := by
  have hown : ((typed senv.toREnv roles (Sys.run senv ledger0 before).1).config).map (·.owner) = some (authority senv) := by decide +kernel
  have hlim : ((typed senv.toREnv roles (Sys.run senv ledger0 before).1).outboxLimit.bind fun rl => (rl.setLimit 3000 7).toOption).map (·.limit) =
      some 7 := by decide +kernel
  obtain ⟨rl', hrl', h7⟩ := Option.map_eq_some_iff.mp hlim
  obtain ⟨rl, hrl, hset⟩ := Option.bind_eq_some_iff.mp hrl'
  have hset : rl.setLimit 3000 7 = .ok rl' := by
    cases h : rl.setLimit 3000 7 with
    | ok y => rw [h] at hset; cases hset; rfl
    | error y => rw [h] at hset; cases hset
  obtain ⟨c, hc, ho⟩ := Option.map_eq_some_iff.mp hown
  have hmint : GoodMint senv (Sys.run senv ledger0 before).1 := by
    have h1 : (contents senv.toREnv tConfig (Sys.run senv ledger0 before).1 cfg).map (·.2.mint) = some mint := by decide +kernel
    have h2 : ((Sys.run senv ledger0 before).1.token.mints mint).map (·.program) = some (A 90) := by decide +kernel
    intro c x m hx hm
    rw [← show _ = cfg from ((canon_all sane.start).config c x hx).2.1, hx] at h1
    rw [show x.2.mint = mint from Option.some.inj h1] at hm
    rw [hm] at h2
    exact Or.inl ((Option.some.inj h2).trans (by decide +kernel))
  have hex : Ntt.exec senv.env ({ srt 3000 with bridgeData := fun _ => true }.signedBy [authority senv, mallory]).toRt
      (typed senv.toREnv roles (Sys.run senv ledger0 before).1) (.setOutboundLimit 7) = .ok
      (({ typed senv.toREnv roles (Sys.run senv ledger0 before).1 with
          outboxLimit := some rl' } : State), []) := by
    refine Ntt.asOwner_bind.mpr ⟨c, hc, by rw [ho]; simp [SRt.signedBy], ?_⟩
    refine getSome_bind.mpr ⟨rl, hrl, ex_bind_ok.mpr ⟨rl', hset, rfl⟩⟩
  obtain ⟨rix, req, h1, h2, h3⟩ := C90_anything_can_be_voted (e := senv) before sane.start (by decide)
    { srt 3000 with bridgeData := fun _ => true } mallory (by decide +kernel) rfl 6 (by decide +kernel) (by decide +kernel)
    (.setOutboundLimit 7) rfl (by simp) (by simp [creates]) ⟨by simp [SRt.signedBy], trivial⟩ hmint (fun _ _ _ h => by cases h)
    ⟨A 157, A 158, A 159, A 160⟩ rfl rfl _ _ hex
  refine ⟨rix, req, h1, h2, fun payload posted at' hp ha => ?_⟩
  obtain ⟨s', l, q1, q2, _⟩ := h3 payload posted at' hp ha
  exact ⟨s', l, q1, by rw [q2]; exact congrArg some h7⟩

end

end Ntt.Props

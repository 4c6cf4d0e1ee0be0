import Verif.Lemmas.EvmNetwork
import Verif.Lemmas.Network
import Verif.Props.EvmInbound
import Verif.Props.EvmOutbound
import Verif.Props.Evm
import Verif.Props.Requests
/-!
# Lemmas about networks of Solana programs and EVM contracts
-/
namespace Ntt
open Spec Props

section
variable {M : Mixed}

/-! ### The history of one chain -/

theorem solOn_append (c : UInt16) (a b : List MTx) : solOn c (a ++ b) = solOn c a ++ solOn c b := by
  simp [solOn]

theorem evmOn_append (c : UInt16) (a b : List MTx) : evmOn c (a ++ b) = evmOn c a ++ evmOn c b := by
  simp [evmOn]

theorem solOn_split {c : UInt16} {txs : List MTx} {p : List Tx} {t : Tx} {q : List Tx}
    (h : solOn c txs = p ++ t :: q) :
    ∃ pre post, txs = pre ++ .solana c t :: post ∧ solOn c pre = p ∧ solOn c post = q := by
  induction txs generalizing p with
  | nil => simp [solOn] at h
  | cons x xs ih =>
    have skip : solOn c (x :: xs) = solOn c xs → solOn c [x] = [] →
        ∃ pre post, x :: xs = pre ++ .solana c t :: post ∧ solOn c pre = p ∧ solOn c post = q := fun h1 h2 => by
      rw [h1] at h
      obtain ⟨pre, post, h3, h4, h5⟩ := ih h
      exact ⟨x :: pre, post, by rw [h3]; rfl,
        by rw [show x :: pre = [x] ++ pre from rfl, solOn_append, h2, h4]; rfl, h5⟩
    cases x with
    | evm d tx => exact skip (by simp [solOn]) (by simp [solOn])
    | solana d tx =>
      by_cases hd : d = c
      · subst hd
        have e : solOn d (.solana d tx :: xs) = tx :: solOn d xs := by simp [solOn]
        rw [e] at h
        cases p with
        | nil =>
          simp only [List.nil_append, List.cons.injEq] at h
          exact ⟨[], xs, by rw [h.1]; rfl, rfl, h.2⟩
        | cons y p =>
          simp only [List.cons_append, List.cons.injEq] at h
          obtain ⟨pre, post, h1, h2, h3⟩ := ih h.2
          refine ⟨.solana d tx :: pre, post, by rw [h1]; rfl, ?_, h3⟩
          rw [← h2, ← h.1]; simp [solOn]
      · exact skip (by simp [solOn, hd]) (by simp [solOn, hd])

theorem evmOn_split {c : UInt16} {txs : List MTx} {p : List Evm.Tx} {t : Evm.Tx} {q : List Evm.Tx}
    (h : evmOn c txs = p ++ t :: q) :
    ∃ pre post, txs = pre ++ .evm c t :: post ∧ evmOn c pre = p ∧ evmOn c post = q := by
  induction txs generalizing p with
  | nil => simp [evmOn] at h
  | cons x xs ih =>
    have skip : evmOn c (x :: xs) = evmOn c xs → evmOn c [x] = [] →
        ∃ pre post, x :: xs = pre ++ .evm c t :: post ∧ evmOn c pre = p ∧ evmOn c post = q := fun h1 h2 => by
      rw [h1] at h
      obtain ⟨pre, post, h3, h4, h5⟩ := ih h
      exact ⟨x :: pre, post, by rw [h3]; rfl,
        by rw [show x :: pre = [x] ++ pre from rfl, evmOn_append, h2, h4]; rfl, h5⟩
    cases x with
    | solana d tx => exact skip (by simp [evmOn]) (by simp [evmOn])
    | evm d tx =>
      by_cases hd : d = c
      · subst hd
        have e : evmOn d (.evm d tx :: xs) = tx :: evmOn d xs := by simp [evmOn]
        rw [e] at h
        cases p with
        | nil =>
          simp only [List.nil_append, List.cons.injEq] at h
          exact ⟨[], xs, by rw [h.1]; rfl, rfl, h.2⟩
        | cons y p =>
          simp only [List.cons_append, List.cons.injEq] at h
          obtain ⟨pre, post, h1, h2, h3⟩ := ih h.2
          refine ⟨.evm d tx :: pre, post, by rw [h1]; rfl, ?_, h3⟩
          rw [← h2, ← h.1]; simp [evmOn]
      · exact skip (by simp [evmOn, hd]) (by simp [evmOn, hd])

theorem mem_solOn {c : UInt16} {txs : List MTx} {t : Tx} (h : t ∈ solOn c txs) : .solana c t ∈ txs := by
  obtain ⟨p, q, h⟩ := List.append_of_mem h
  obtain ⟨pre, post, rfl, -, -⟩ := solOn_split h
  simp

theorem mem_evmOn {c : UInt16} {txs : List MTx} {t : Evm.Tx} (h : t ∈ evmOn c txs) : .evm c t ∈ txs := by
  obtain ⟨p, q, h⟩ := List.append_of_mem h
  obtain ⟨pre, post, rfl, -, -⟩ := evmOn_split h
  simp

theorem Spec.MProper.prefix {a b : List MTx} (h : MProper M (a ++ b)) : MProper M a where
  solana := h.solana
  evm := h.evm
  agreed := fun t ht => h.agreed t (by simp [ht])
  authentic := {
    solana := fun pre c rt vaa post e => h.authentic.solana pre c rt vaa (post ++ b) (by rw [e]; simp)
    evm := fun pre c tx post e d token now he => h.authentic.evm pre c tx (post ++ b) e d token now (by rw [he]; simp) }
  collision := fun c e d token now hs tx ht tx' ht' => h.collision c e d token now hs
    tx (by rw [evmOn_append]; simp [ht]) tx' (by rw [evmOn_append]; simp [ht'])

theorem Spec.Published.mono {a : List MTx} {c : UInt16} {em : Bytes32} {p : Bytes} (h : Published M a c em p) (b : List MTx) :
    Published M (a ++ b) c em p := by
  unfold Published at *
  split at h <;> rename_i hs
  · rw [solOn_append, run_append]; exact ⟨h.1, List.mem_append_left _ h.2⟩
  · obtain ⟨t, h1, h2⟩ := h
    rw [evmOn_append, Evm.run_append]
    exact ⟨t, h1, List.mem_append_left _ h2⟩

theorem Spec.Debited.mono {a : List MTx} {c : UInt16} {id : Bytes32} {n : Nat} {ch : UInt16} {r : Bytes32}
    (h : Debited M a c id n ch r) (b : List MTx) : Debited M (a ++ b) c id n ch r := by
  unfold Debited at *
  split at h <;> rename_i hs
  · obtain ⟨p, t, q, sd, args, amount, h1, h2⟩ := h
    exact ⟨p, t, q ++ solOn c b, sd, args, amount, by rw [solOn_append, h1]; simp, h2⟩
  · obtain ⟨seq, sd, h1, h2⟩ := h
    rw [evmOn_append, Evm.run_append]
    exact ⟨seq, sd, h1, List.mem_append_left _ h2⟩

/-! ### The configuration of a Solana chain -/

/-- What the agreement guarantees on a Solana chain. -/
structure SolInv (M : Mixed) (c : UInt16) (env : Env) (mint : Bytes32) (decimals : UInt8) (mode : Mode) (s : State) :
    Prop where
  cfg : ∀ cfg, s.config = some cfg → cfg.mint = mint ∧ cfg.chainId = c ∧ cfg.mode = mode
  peers : ∀ c' p, s.peers c' = some p → c' ∈ M.chains ∧ c' ≠ c ∧ p.address = (M.side c').manager ∧
    p.tokenDecimals = (M.side c').decimals
  tpeers : ∀ c' a, s.transceiverPeers c' = some a → c' ∈ M.chains ∧ a ∈ (M.side c').emitters
  trs : ∀ tr t, s.transceivers tr = some t → tr = env.programId
  mint : ∃ m, s.token.mints mint = some m ∧ m.decimals = decimals

theorem SolInv.step {c : UInt16} {env : Env} {mint : Bytes32} {decimals : UInt8} {mode : Mode} {s₀ s s' : State} {tx : Tx}
    {ev : List Event} (hside : M.side c = .solana env mint decimals mode s₀) (h : SolInv M c env mint decimals mode s)
    (he : Effect env tx.rt s tx.ix s' ev) (ha : MAgreed M (.solana c tx)) : SolInv M c env mint decimals mode s' := by
  simp only [MAgreed, hside] at ha
  refine ⟨?_, ?_, ?_, ?_, ?_⟩
  · intro cfg hc
    cases hs : s.config with
    | some cfg0 =>
      obtain ⟨c', h1, h2⟩ := he.config_same hs
      rw [hc] at h1; cases h1
      obtain ⟨a1, a2, a3⟩ := h.cfg _ hs
      exact ⟨h2.mint.trans a1, h2.chainId.trans a2, h2.mode.trans a3⟩
    | none =>
      rcases he.config_writers with e | ⟨_, _, mk, args, mint, hix, _, _, e⟩ | ⟨cfg0, e, _⟩
      · rw [e, hs] at hc; cases hc
      · rw [hc] at e; cases e
        simp only [hix] at ha
        exact ha
      · rw [hs] at e; cases e
  · intro c' p hp
    rcases he.peers with e | ⟨args, cfg, hix, _, _, e⟩
    · rw [e] at hp; exact h.peers c' p hp
    · have e' := congrFun (congrArg State.peers e) c'
      rw [hp] at e'
      simp only [upd_eq] at e'
      split at e'
      · rename_i hc
        subst hc
        cases e'
        simp only [hix] at ha
        exact ha
      · exact h.peers c' p e'.symm
  · intro c' a hp
    rcases he.transceiverPeers with e | ⟨c0, a0, cfg, hix, _, _, _, e⟩
    · rw [e] at hp; exact h.tpeers c' a hp
    · rw [e, upd_eq] at hp
      split at hp
      · rename_i hc
        subst hc
        cases hp
        simp only [hix] at ha
        exact ha
      · exact h.tpeers c' a hp
  · intro tr t ht
    rcases he.transceivers with e | ⟨tr0, cfg, en, hix, _, _, _, _, _, e⟩
    · rw [e] at ht; exact h.trs tr t ht
    · have e' := congrFun (congrArg State.transceivers e) tr
      rw [ht] at e'
      simp only [upd_eq] at e'
      split at e'
      · rename_i hc
        subst hc
        simp only [hix] at ha
        exact ha
      · exact h.trs tr t e'.symm
  · obtain ⟨m, h1, h2⟩ := h.mint
    obtain ⟨m', h3, h4⟩ := he.mintsKept _ _ h1
    exact ⟨m', h3, h4.trans h2⟩

theorem sol_inv {txs : List MTx} (h : MProper M txs) {c : UInt16} (hc : c ∈ M.chains) {env : Env} {mint : Bytes32}
    {decimals : UInt8} {mode : Mode} {s₀ : State} (hside : M.side c = .solana env mint decimals mode s₀) :
    SolInv M c env mint decimals mode (run env s₀ (solOn c txs)).1 := by
  obtain ⟨g, tok⟩ := h.solana c hc _ _ _ _ _ hside
  refine run_induction (env := env) (P := SolInv M c env mint decimals mode) ⟨?_, ?_, ?_, ?_, tok⟩ ?_
  · intro cfg e; rw [g.config] at e; cases e
  · intro c' p e; rw [g.peers] at e; cases e
  · intro c' p e; rw [g.transceiverPeers] at e; cases e
  · intro c' p e; rw [g.transceivers] at e; cases e
  · intro s tx s' ev hm hi he
    exact hi.step hside he (h.agreed _ (mem_solOn hm)).2

/-! ### The configuration of an EVM chain -/

/-- What the agreement allows as a peer, and as the peer of a transceiver. -/
def PeerOk (M : Mixed) (ch : UInt16) (p : Bytes32) (d : UInt8) : Prop :=
  ch ∈ M.chains ∧ p = (M.side ch).manager ∧ d = (M.side ch).decimals
def EmitterOk (M : Mixed) (ch : UInt16) (a : Bytes32) : Prop := ch ∈ M.chains ∧ a ∈ (M.side ch).emitters

theorem evm_agrees {txs : List MTx} (h : MProper M txs) {c : UInt16} {e : Evm.Env} {d : Evm.Address} {token : Evm.Erc20}
    {now : Nat} (hside : M.side c = .evm e d token now) :
    ∀ tx ∈ evmOn c txs, Evm.Agrees e (PeerOk M) (EmitterOk M) tx ∧ tx.ctx.sender ∉ e.transceivers := by
  intro tx ht
  have ha := (h.agreed _ (mem_evmOn ht)).2
  simp only [MAgreed, hside] at ha
  refine ⟨⟨?_, ?_, ?_⟩, ha.1⟩
  · intro ch p dec l hk
    have := ha.2
    rw [hk] at this
    exact this
  · intro t ch a hk
    have := ha.2
    rw [hk] at this
    exact this
  · intro t hk
    have := ha.2
    rw [hk] at this
    exact this

theorem evm_kept {txs : List MTx} (h : MProper M txs) {c : UInt16} {e : Evm.Env} {d : Evm.Address} {token : Evm.Erc20}
    {now : Nat} (hside : M.side c = .evm e d token now) :
    Evm.Kept e (PeerOk M) (EmitterOk M) (Evm.run e (Evm.initial e d token now) (evmOn c txs)).1 :=
  Evm.agreed_run e d token now _ fun tx ht => (evm_agrees h hside tx ht).1

/-! ### Transfers -/

/-- The transfer that is announced with `m` was recorded on chain `s`. -/
def Recorded (M : Mixed) (txs : List MTx) (s : UInt16) (m : NttManagerMessage Ntt) : Prop :=
  match M.side s with
  | .solana env mint _ _ s₀ => ∃ item, (run env s₀ (solOn s txs)).1.outbox m.id = some item ∧
      m = (item.message env mint m.id).data.nttManagerPayload
  | .evm e d token now => ∃ seq sd n, m.id = Evm.idOfSequence seq ∧ m.sender = Evm.Address.toWormhole sd ∧
      m.payload.sourceToken = e.token.toWormhole ∧
      .debited seq sd n m.payload.toChain m.payload.to ∈ (Evm.run e (Evm.initial e d token now) (evmOn s txs)).2 ∧
      Evm.trimTransferAmount n e.tokenDecimals (M.side m.payload.toChain).decimals =
        .ok (Evm.pack m.payload.amount.amount m.payload.amount.decimals)

theorem Recorded.mono {a : List MTx} {s : UInt16} {m : NttManagerMessage Ntt} (h : Recorded M a s m) (b : List MTx) :
    Recorded M (a ++ b) s m := by
  unfold Recorded at *
  split at h <;> rename_i hs
  · obtain ⟨item, h1, h2⟩ := h
    rw [solOn_append, run_append]
    obtain ⟨item', h3, hl⟩ := run_outbox_later (env := ‹Env›) h1 (solOn s b)
    refine ⟨item', h3, h2.trans ?_⟩
    rw [hl.message]
  · obtain ⟨seq, sd, n, h1, h2, h3, h4, h5⟩ := h
    rw [evmOn_append, Evm.run_append]
    exact ⟨seq, sd, n, h1, h2, h3, List.mem_append_left _ h4, h5⟩

theorem id_val (seq : UInt64) : (Evm.idOfSequence seq).val = List.replicate 24 0 ++ uintBE 8 seq.toNat := by
  simp only [Evm.idOfSequence]
  rw [wU64_eq_uintBE]

theorem id_inj {a b : UInt64} (h : Evm.idOfSequence a = Evm.idOfSequence b) : a = b := by
  have h := congrArg (fun x => x.val) h
  simp only [id_val, List.append_cancel_left_eq] at h
  rw [← wU64_eq_uintBE, ← wU64_eq_uintBE] at h
  exact wU64_inj h

/-- Debits have different numbers. -/
theorem debit_unique {e : Evm.Env} {d : Evm.Address} {token : Evm.Erc20} {now : Nat} {txs : List Evm.Tx} {seq : UInt64}
    {sd sd' : Evm.Address} {n n' : Nat} {ch ch' : UInt16} {r r' : Bytes32}
    (h : .debited seq sd n ch r ∈ (Evm.run e (Evm.initial e d token now) txs).2)
    (h' : .debited seq sd' n' ch' r' ∈ (Evm.run e (Evm.initial e d token now) txs).2) :
    sd = sd' ∧ n = n' ∧ ch = ch' ∧ r = r' := by
  have hn := C93_numbers (e := e) (deployer := d) (token := token) (now := now) txs
  have hnd : ((Evm.run e (Evm.initial e d token now) txs).2.filterMap evmDebitNumber).Nodup := by
    rw [hn]
    refine List.Nodup.map_on ?_ List.nodup_range
    intro x hx y hy hxy
    have l := (Evm.run e (Evm.initial e d token now) txs).1.sequence.toNat_lt
    rw [List.mem_range] at hx hy
    have := congrArg UInt64.toNat hxy
    rw [UInt64.toNat_ofNat', UInt64.toNat_ofNat', Nat.mod_eq_of_lt (by omega), Nat.mod_eq_of_lt (by omega)] at this
    exact this
  generalize (Evm.run e (Evm.initial e d token now) txs).2 = ev at *
  clear hn
  induction ev with
  | nil => cases h
  | cons x l ih =>
    have key : ∀ {sd n ch r}, .debited seq sd n ch r ∈ l → seq ∈ l.filterMap evmDebitNumber :=
      fun h => List.mem_filterMap.mpr ⟨_, h, rfl⟩
    rcases List.mem_cons.mp h with h | h <;> rcases List.mem_cons.mp h' with h' | h'
    · rw [← h] at h'; cases h'; exact ⟨rfl, rfl, rfl, rfl⟩
    · rw [← h] at hnd
      simp only [List.filterMap_cons, evmDebitNumber, List.nodup_cons] at hnd
      exact absurd (key h') hnd.1
    · rw [← h'] at hnd
      simp only [List.filterMap_cons, evmDebitNumber, List.nodup_cons] at hnd
      exact absurd (key h) hnd.1
    · refine ih h h' ?_
      rw [List.filterMap_cons] at hnd
      split at hnd
      · exact hnd
      · exact (List.nodup_cons.mp hnd).2

theorem Recorded.unique {txs : List MTx} {s : UInt16} {m m' : NttManagerMessage Ntt} (h : Recorded M txs s m)
    (h' : Recorded M txs s m') (hid : m.id = m'.id) : m = m' := by
  unfold Recorded at *
  split at h <;> rename_i hs <;> simp only [hs] at h'
  · obtain ⟨item, h1, h2⟩ := h
    obtain ⟨item', h1', h2'⟩ := h'
    rw [← hid, h1] at h1'
    cases h1'
    rw [h2, h2', hid]
  · obtain ⟨seq, sd, n, h1, h2, h3, h4, h5⟩ := h
    obtain ⟨seq', sd', n', h1', h2', h3', h4', h5'⟩ := h'
    rw [h1, h1'] at hid
    cases id_inj hid
    obtain ⟨rfl, rfl, hch, hr⟩ := debit_unique h4 h4'
    rw [← hch, h5] at h5'
    have hp := Except.ok.inj h5'
    have e1 := congrArg Evm.Amount.getAmount hp
    have e2 := congrArg Evm.Amount.getDecimals hp
    simp only [Evm.pack_getAmount, Evm.pack_getDecimals] at e1 e2
    obtain ⟨id, sender, ⟨⟨amt, dec⟩, st, tc, to', x⟩⟩ := m
    obtain ⟨id', sender', ⟨⟨amt', dec'⟩, st', tc', to'', x'⟩⟩ := m'
    simp only at *
    subst h1 h1' h2 h2' h3 h3' hch hr e1 e2
    rfl

/-- A transfer: `n` units were taken on chain `s`, and `m` announces the same value. -/
structure MSent (M : Mixed) (txs : List MTx) (s : UInt16) (m : NttManagerMessage Ntt) (n : Nat) : Prop where
  recorded : Recorded M txs s m
  debit : Debited M txs s m.id n m.payload.toChain m.payload.to
  same : SameValue n (M.side s).decimals.toNat m.payload.amount.amount.toNat m.payload.amount.decimals.toNat
  decimals : m.payload.amount.decimals.toNat ≤ min 8 (M.side m.payload.toChain).decimals.toNat
  other : m.payload.toChain ≠ s
  final : ∀ e d token now, M.side s = .evm e d token now → ∃ seq u c p b, m.id = Evm.idOfSequence seq ∧
    .sent seq u c p b ∈ (Evm.run e (Evm.initial e d token now) (evmOn s txs)).2

theorem MSent.mono {a : List MTx} {s : UInt16} {m : NttManagerMessage Ntt} {n : Nat} (h : MSent M a s m n) (b : List MTx) :
    MSent M (a ++ b) s m n := ⟨h.recorded.mono b, h.debit.mono b, h.same, h.decimals, h.other, by
      intro e d token now hs
      obtain ⟨seq, u, c, p, b', h1, h2⟩ := h.final e d token now hs
      rw [evmOn_append, Evm.run_append]
      exact ⟨seq, u, c, p, b', h1, List.mem_append_left _ h2⟩⟩

theorem MSent.unique {txs : List MTx} {s : UInt16} {m m' : NttManagerMessage Ntt} {n n' : Nat} (h : MSent M txs s m n)
    (h' : MSent M txs s m' n') (hid : m.id = m'.id) : m = m' := h.recorded.unique h'.recorded hid

theorem prefix_bytes : whPrefix.val = uintBE 4 0x9945FF10 := by decide

/-- What is published is the message of a transfer, if it looks like a message. -/
theorem published_sent {txs : List MTx} (hp : MProper M txs) {s : UInt16} (hs : s ∈ M.chains) {em : Bytes32} {b : Bytes}
    (h : Published M txs s em b) (hb : b.take 4 = whPrefix.val) :
    ∃ m n, TransceiverMessage.write whPrefix Ntt.codec m = some b ∧ m.transceiverPayload = [] ∧
      MSent M txs s m.data.nttManagerPayload n ∧ m.data.sourceNttManager = (M.side s).manager ∧
      m.data.recipientNttManager = (M.side m.data.nttManagerPayload.payload.toChain).manager := by
  cases hside : M.side s with
  | solana env mint decimals mode s₀ =>
    simp only [Published, hside] at h
    obtain ⟨g, tok⟩ := hp.solana s hs _ _ _ _ _ hside
    obtain ⟨msg, rest, hread⟩ | ⟨_, _, _, cfg, mnt, -, -, -, -, rfl⟩ | ⟨_, _, _, ch, peer, -, -, -, rfl⟩ :=
      C60_every_publication _ _ h.2
    · obtain ⟨item, cfg, ho, hc, hm⟩ := posted_item g h.2 hread
      have inv := sol_inv hp hs hside
      obtain ⟨b1, b2, b3⟩ := inv.cfg _ hc
      obtain ⟨p3, t3, q3, debited, args, room, cfg3, mint3, peer3, f⟩ := outbox_facts g.outbox _ _ _ ho
      obtain ⟨P3, Q3, rfl, hP3, -⟩ := solOn_split f.split
      have inv3 := sol_inv hp.prefix hs hside
      rw [hP3] at inv3
      obtain ⟨m3, c1, c2⟩ := inv3.mint
      have hm3 : mint3.decimals = decimals := by
        have := f.hmint; rw [(inv3.cfg _ f.hcfg).1, c1] at this; cases this; exact c2
      have hval := f.value
      rw [hm3, (inv3.peers _ _ f.hpeer).2.2.2] at hval
      have hsame := (C08_debit_equals_announced _ _ _ _ _ hval).1
      obtain ⟨htrim, -⟩ := removeDust_eq.mp hval
      have hdec := (untrim_trim htrim).2.2.1
      rw [b1] at hm
      have hpay : msg.data.nttManagerPayload.payload.toChain = args.recipientChain ∧
          msg.data.nttManagerPayload.payload.to = args.recipientAddress ∧
          msg.data.nttManagerPayload.payload.amount = item.amount := by
        rw [hm]; exact ⟨f.chain, f.rcpt, rfl⟩
      refine ⟨msg, debited.toNat, ?_, by rw [hm]; rfl, ⟨?_, ?_, ?_, ?_, ?_,
        fun e d token now h => by rw [hside] at h; cases h⟩, by rw [hm]; rfl, ?_⟩
      · obtain ⟨p, t, q, s', ev, e, hx, heff, hmem, _⟩ := run_event h.2
        have hfor : isMessageFor env env.programId msg.data.nttManagerPayload.id (.posted b) = true := by
          simp only [isMessageFor]; rw [hread]; simp
        obtain ⟨w, r, _, _, _, _, _, hcase⟩ := heff.message_for (reg_inv g p) hmem hfor
        rcases hcase with ⟨_, _, e⟩ | ⟨rv, bytes, _, _, hwrite, e⟩
        · cases e
        cases e
        have hread' := TransceiverMessage.read_reads (NativeTokenTransfer.lawful EmptyPayload.lawful) _ _ hwrite []
        rw [List.append_nil] at hread'
        change TransceiverMessage.read whPrefix Ntt.codec b = _ at hread'
        rw [hread] at hread'
        have e := congrArg Prod.fst (Except.ok.inj hread')
        dsimp only at e
        rw [e]
        exact hwrite
      · simp only [Recorded, hside]
        exact ⟨item, ho, congrArg (fun m => m.data.nttManagerPayload) hm⟩
      · simp only [Debited, hside]
        exact ⟨p3, t3, q3, _, args, debited, f.split, f.sends, rfl, hpay.1.symm, hpay.2.1.symm⟩
      · rw [hpay.2.2, show (M.side s).decimals = decimals by rw [hside]; rfl]; exact hsame
      · rw [hpay.2.2, hpay.1]; omega
      · rw [hpay.1]; exact (inv3.peers _ _ f.hpeer).2.1
      · rw [hpay.1, ← (inv3.peers _ _ f.hpeer).2.2.1, ← f.mgr, hm]; rfl
    · exfalso
      rw [prefix_bytes] at hb
      simp only [transceiverInit, List.append_assoc] at hb
      rw [List.take_left' (by simp)] at hb
      exact absurd hb (by decide)
    · exfalso
      rw [prefix_bytes] at hb
      simp only [transceiverRegistration, List.append_assoc] at hb
      rw [List.take_left' (by simp)] at hb
      exact absurd hb (by decide)
  | evm e d token now =>
    simp only [Published, hside] at h
    obtain ⟨t, -, h⟩ := h
    have agrees := fun tx ht => (evm_agrees hp hside tx ht).1
    obtain ⟨ch, p, rfl⟩ | ⟨seq, sd, n, ch, r, x, peer, msg, h1, ⟨hn, hne, h2⟩, h3, h4, ⟨_, -, hpm, -⟩, u, c, p', m', hsent⟩ :=
      Evm.published_means e d token now (dec := fun ch => (M.side ch).decimals) (fun ch p d hh => hh.2.2)
        (evmOn s txs) agrees h
    · exfalso
      simp only [Evm.encodeTransceiverRegistration, List.append_assoc] at hb
      rw [List.take_left' (by exact Evm.peerPrefix.len)] at hb
      exact absurd hb (by decide)
    · obtain ⟨p, hp1, hp2⟩ := ex_bind_ok.mp h3
      let m : TransceiverMessage Ntt :=
        { data := { sourceNttManager := e.manager.toWormhole, recipientNttManager := peer
                    nttManagerPayload := { id := Evm.idOfSequence seq, sender := sd.toWormhole
                                           payload := { amount := ⟨x.getAmount, x.getDecimals⟩
                                                        sourceToken := e.token.toWormhole, toChain := ch, «to» := r
                                                        additionalPayload := {} } } }
          transceiverPayload := [] }
      have hsame : SameTransfer m.data.nttManagerPayload.payload
          { amount := x, sourceToken := e.token.toWormhole, «to» := r, toChain := ch, additionalPayload := [] } :=
        ⟨rfl, rfl, rfl, rfl, rfl, rfl⟩
      have hw := (C86_same_bytes m _ hsame b).mpr ⟨p, msg, hp1, hp2, h4⟩
      obtain ⟨-, g1, g2, g3⟩ := (Evm.trimTransferAmount_iff _ hn _ _ _).mp h2
      refine ⟨m, n, hw, rfl, ⟨?_, ?_, ?_, ?_, ?_, ?_⟩, rfl, hpm⟩
      · simp only [Recorded, hside]
        exact ⟨seq, sd, n, rfl, rfl, rfl, h1, by rw [Evm.pack_get]; exact h2⟩
      · simp only [Debited, hside]
        exact ⟨seq, sd, id_val seq, h1⟩
      · change SameValue n (M.side s).decimals.toNat x.getAmount.toNat x.getDecimals.toNat
        rw [hside]
        have := Evm.worth_of hn h2
        exact this.same
      · change x.getDecimals.toNat ≤ min 8 (M.side ch).decimals.toNat
        dsimp only at g1
        omega
      · rw [hp.evm s hs _ _ _ _ hside] at hne
        exact hne
      · intro e' d' token' now' h
        rw [hside] at h
        cases h
        exact ⟨seq, u, c, p', m', rfl, hsent⟩

/-! ### Payments -/

/-- The digest under which the chain pays out for `m` from chain `s`. -/
def DigestFor (M : Mixed) (d s : UInt16) (m : NttManagerMessage Ntt) (h : Bytes32) : Prop :=
  ∃ input, m.digestInput Ntt.codec s = some input ∧ h =
    match M.side d with
    | .solana env .. => env.hash input
    | .evm e .. => e.keccak input

theorem DigestFor.unique {d s : UInt16} {m : NttManagerMessage Ntt} {h h' : Bytes32} (a : DigestFor M d s m h)
    (b : DigestFor M d s m h') : h = h' := by
  obtain ⟨i, h1, rfl⟩ := a
  obtain ⟨i', h2, rfl⟩ := b
  rw [h1] at h2; cases h2; rfl

/-- Converting what was trimmed is exact. -/
theorem exact_of {n taken amt S D k : Nat} (hk : k ≤ D) (hn : n = converted amt k D) (hs : SameValue taken S amt k) :
    SameValue n D taken S := by
  unfold SameValue converted at *
  have hpos : ∀ k, 0 < 10 ^ k := fun k => Nat.pow_pos (by decide)
  have e : 10 ^ D = 10 ^ (D - k) * 10 ^ k := by rw [← Nat.pow_add]; congr 1; omega
  have hn : n = amt * 10 ^ (D - k) := by
    rw [hn, e, ← Nat.mul_assoc, Nat.mul_div_cancel _ (hpos _)]
  apply Nat.eq_of_mul_eq_mul_right (hpos k)
  calc n * 10 ^ S * 10 ^ k = amt * 10 ^ S * (10 ^ (D - k) * 10 ^ k) := by rw [hn]; ac_rfl
    _ = taken * 10 ^ k * 10 ^ D := by rw [← e, hs]
    _ = taken * 10 ^ D * 10 ^ k := by ac_rfl

theorem converted_twice {amt k m D : Nat} (h1 : k ≤ m) (h2 : m ≤ D) :
    converted (converted amt k m) m D = converted amt k D := by
  have hpos : ∀ k, 0 < 10 ^ k := fun k => Nat.pow_pos (by decide)
  have key : ∀ a {x y : Nat}, x ≤ y → converted a x y = a * 10 ^ (y - x) := by
    intro a x y hxy
    unfold converted
    have e : 10 ^ y = 10 ^ (y - x) * 10 ^ x := by rw [← Nat.pow_add]; congr 1; omega
    rw [e, ← Nat.mul_assoc, Nat.mul_div_cancel _ (hpos _)]
  rw [key _ h1, key _ h2, key _ (by omega), Nat.mul_assoc, ← Nat.pow_add]
  congr 2; omega

/-- Where a payment comes from. -/
structure Origin (M : Mixed) (P : List MTx) (d s : UInt16) (h account : Bytes32) (n : Nat) (m : NttManagerMessage Ntt)
    (taken : Nat) : Prop where
  source : s ∈ M.chains
  sent : MSent M P s m taken
  chain : m.payload.toChain = d
  account : account = accountOf M d m.payload.to
  value : SameValue n (M.side d).decimals.toNat taken (M.side s).decimals.toNat
  digest : DigestFor M d s m h

theorem solana_origin {txs : List MTx} (hp : MProper M txs) {d : UInt16} (hd : d ∈ M.chains) {env : Env} {mint : Bytes32}
    {decimals : UInt8} {mode : Mode} {s₀ : State} (hside : M.side d = .solana env mint decimals mode s₀)
    {h account : Bytes32} {amount : UInt64} (he : Event.paid h account amount ∈ (run env s₀ (solOn d txs)).2) :
    ∃ P x Q s m taken, txs = P ++ x :: Q ∧ Origin M P d s h account amount.toNat m taken := by
  obtain ⟨g, -⟩ := hp.solana d hd _ _ _ _ _ hside
  obtain ⟨p, t, q, cfg, mint', tr, id, v, hsplit, hatt, ⟨input, hin, hhash⟩, hcfg, hmint, hacct, ham, s', bef, hx,
    -⟩ := C22_payout_as_announced (env := env) (s₀ := s₀) g.inbox (solOn d txs) h account amount he
  obtain ⟨P, Q, rfl, hP, hQ⟩ := solOn_split hsplit
  have hpP := hp.prefix
  have inv := sol_inv hpP hd hside
  rw [hP] at inv
  obtain ⟨a1, a2, a3⟩ := inv.cfg _ hcfg
  -- the attestation
  obtain ⟨p1, t1, q1, hs1, at1⟩ := hatt
  obtain ⟨P1, Q1, rfl, hP1, -⟩ := solOn_split (hP.trans hs1)
  have hp1 := hpP.prefix
  have inv1 := sol_inv hp1 hd hside
  rw [hP1] at inv1
  obtain ⟨ref, t', hix, htr, -, hmsg⟩ := at1.through
  obtain ⟨cfg1, hcfg1, -, hto⟩ := at1.enabled
  have haddr : t'.address = env.programId := by
    have h1 := ((reg_inv g p1).lt _ hcfg1 _ _ htr).1
    rw [h1]; exact inv1.trs _ _ htr
  obtain ⟨-, hch1, -⟩ := inv1.cfg _ hcfg1
  cases ref with
  | other account => simp [State.messageAt, haddr] at hmsg
  | own c i =>
  simp only [State.messageAt, haddr, if_true] at hmsg
  obtain ⟨p2, t2, q2, vaa, cfg2, msg, rest, hs2, hix2, hec, htp, hread, hfc, hvm, -, -, -, -, -⟩ :=
    C44_from_registered_peer g _ _ _ _ hmsg
  obtain ⟨P2, Q2, rfl, hP2, -⟩ := solOn_split (hP1.trans hs2)
  have hp2 := hp1.prefix
  have inv2 := sol_inv hp2 hd hside
  rw [hP2] at inv2
  obtain ⟨hcc, hem⟩ := inv2.tpeers _ _ htp
  obtain ⟨rt2, ix2⟩ := t2
  simp only at hix2
  subst hix2 hec
  have hpost := hp1.authentic.solana P2 d rt2 vaa Q2 rfl hcc hem
  generalize hss : vaa.emitterChain = s at *
  -- the transfer at the source
  have htake : vaa.payload.take 4 = whPrefix.val := by
    obtain ⟨b, mid, hb, h'⟩ := Reader.bind_ok hread
    split at h'
    · cases h'
    · rename_i hb'
      rw [readBytes4_inv hb, not_not.mp hb']
      exact List.take_left' (by exact whPrefix.len)
  obtain ⟨m, taken, hw, -, sent, -⟩ := published_sent hp2 hcc hpost htake
  have hread' := TransceiverMessage.read_reads (NativeTokenTransfer.lawful EmptyPayload.lawful) _ _ hw []
  rw [List.append_nil] at hread'
  change TransceiverMessage.read whPrefix Ntt.codec _ = _ at hread'
  rw [hread] at hread'
  have hm : msg = m := congrArg Prod.fst (Except.ok.inj hread')
  subst hm
  have hto' : msg.data.nttManagerPayload.payload.toChain = d := by rw [← hch1, ← hto, hvm]
  obtain ⟨md, c3, c4⟩ := inv.mint
  have hmd : mint'.decimals = decimals := by
    have := hmint; rw [a1, c3] at this; cases this; exact c4
  refine ⟨P2 ++ .solana d ⟨rt2, .receiveMessage vaa⟩ :: Q2 ++ .solana d t1 :: Q1, _, Q, s, msg.data.nttManagerPayload,
    taken, rfl, hcc, ?_, hto', ?_, ?_, ?_⟩
  · have := sent.mono (.solana d ⟨rt2, .receiveMessage vaa⟩ :: Q2 ++ .solana d t1 :: Q1)
    simpa using this
  · rw [hacct, a1, hvm]
    simp only [accountOf, hside]
  · refine exact_of ?_ ?_ sent.same
    · have := sent.decimals
      rw [hto'] at this
      omega
    · rw [ham, hvm, hmd, hside]; rfl
  · refine ⟨input, ?_, ?_⟩
    · rw [← hin, hvm, hfc]
    · rw [hside]; exact hhash.symm

theorem evm_origin {txs : List MTx} (hp : MProper M txs) {d : UInt16} (hd : d ∈ M.chains) {e : Evm.Env}
    {dep : Evm.Address} {token : Evm.Erc20} {now : Nat} (hside : M.side d = .evm e dep token now)
    {h : Bytes32} {r : Evm.Address} {n : Nat}
    (he : .paid h r n ∈ (Evm.run e (Evm.initial e dep token now) (evmOn d txs)).2) :
    ∃ P x Q s m taken, txs = P ++ x :: Q ∧ Origin M P d s h r.toWormhole n m taken := by
  obtain ⟨p, t, q, s', ev, hsplit, hc, hm, -⟩ := Evm.run_event he
  have hsub : .paid h r n ∈ (Evm.submit e (Evm.run e (Evm.initial e dep token now) p).1 t).2 := by
    unfold Evm.submit; rw [hc]; exact hm
  obtain ⟨P, Q, rfl, hP, -⟩ := evmOn_split hsplit
  have heq : P ++ .evm d t :: Q = (P ++ [.evm d t]) ++ Q := by simp
  have hp' : MProper M (P ++ [.evm d t]) := by rw [heq] at hp; exact hp.prefix
  have hP' : evmOn d (P ++ [.evm d t]) = p ++ [t] := by rw [evmOn_append, hP]; simp [evmOn]
  obtain ⟨a, ⟨tx', htx', src, m', hashes', hd', asks⟩, ha⟩ := Evm.paid_hashed e dep token now p t h r n hsub
  obtain ⟨tr, hatt⟩ := Evm.paid_attested e dep token now p t h r n hsub
  have htr : tr ∈ e.transceivers := by
    have k := evm_kept hp' hside
    rw [hP'] at k
    exact k.reg _ ((Evm.att_run e dep token now (p ++ [t])).known _ _ hatt)
  have agrees := evm_agrees hp' hside
  rw [hP'] at agrees
  obtain ⟨p1, t1, q1, chain, emitter, hash, payload, source, m, extra, hs1, hdel, hpay, hdig, hpe, -, -⟩ :=
    C91_attestation_origin (e := e) (deployer := dep) (token := token) (now := now) (p ++ [t]) h tr htr
      (fun tx ht => (agrees tx ht).2) hatt
  obtain ⟨P1, Q1, hP1, hP1', -⟩ := evmOn_split (hP'.trans hs1)
  have hp1 : MProper M P1 := by rw [hP1] at hp'; exact hp'.prefix
  obtain ⟨hne, auth⟩ := hp'.authentic.evm P1 d t1 Q1 _ _ _ _ hP1 hside _ _ _ _ _ hdel
  have k1 := evm_kept hp1 hside
  rw [hP1'] at k1
  have hem : EmitterOk M chain emitter := by
    rcases k1.wh tr chain with h0 | h0
    · rw [hpe] at h0; exact absurd h0 hne
    · rw [hpe] at h0; exact h0
  -- the same message
  obtain ⟨rfl, rfl⟩ : chain = src ∧ m = m' := by
    refine hp'.collision d e dep token now hside t1 ?_ tx' ?_ _ _ _ _ h
      (.inr ⟨tr, emitter, hash, payload, source, e.manager.toWormhole, extra, hdel, hpay⟩) hashes' hdig
      (Evm.isDigest_of hd')
    · rw [hP', hs1]; simp
    · rw [hP']; exact htx'
  -- the transfer at the source
  have htake : payload.take 4 = whPrefix.val := by
    rw [hpay, prefix_bytes]
    simp only [evmTransceiverBytes, List.append_assoc]
    exact List.take_left' (by simp)
  obtain ⟨mm, taken, hw, hnil, sent, -⟩ := published_sent hp1 hem.1 (auth hem.1 hem.2) htake
  have hlen : payload.length = 217 := by
    have := transceiver_write_documented mm (by rw [hnil]; simp)
    rw [hw] at this
    rw [Option.some.inj this]
    simp [transceiverBytesWithLengths, hnil, Bytes32.len]
  have hl := hlen
  rw [hpay] at hl
  simp only [evmTransceiverBytes, withLength, nttManagerMessage, List.length_append, uintBE_length, Bytes32.len] at hl
  obtain ⟨tm, q', et, hparse, h1, h2, h3, h4, h5, h6, h7⟩ :=
    C86_evm_reads_solana mm payload hw (fun _ => 0) (fun _ => 0) (tx'.ctx.memory 2)
  obtain ⟨g1, g2⟩ := (Evm.parseBoth_iff _ _ _ _ _).mp hparse
  have g3 : Evm.parseTransceiverMessage Evm.transceiverPrefix ⟨payload, fun _ => 0⟩ =
      .ok ⟨source, e.manager.toWormhole, nttManagerMessage m.id.val m.sender.val m.payload, extra⟩ := by
    refine (Evm.parseTransceiverMessage_iff _ _ _).mpr ⟨?_, ?_, ?_⟩
    · simp only [nttManagerMessage, List.length_append, uintBE_length, Bytes32.len]; omega
    · show extra.length ≤ _
      omega
    · show payload = _
      rw [hpay]
      simp [evmTransceiverBytes, withLength, show Evm.transceiverPrefix.val = uintBE 4 0x9945FF10 by decide]
  have g4 : Evm.parseNttManagerMessage ⟨nttManagerMessage m.id.val m.sender.val m.payload, fun _ => 0⟩ = .ok m := by
    refine (Evm.parseNttManagerMessage_iff _ _).mpr ⟨?_, ?_⟩
    · omega
    · simp [nttManagerMessage]
  rw [g3] at g1
  cases g1
  rw [g4] at g2
  cases g2
  obtain ⟨ntt, native, i1, i2, i3, i4, i5⟩ := asks.ex
  rw [h6] at i1
  cases i1
  have hto : mm.data.nttManagerPayload.payload.toChain = d := by
    rw [← h7.recipientChain, i2, hp'.evm d hd _ _ _ _ hside]
  have hdec := sent.decimals
  rw [hto, hside] at hdec
  simp only [Side.decimals] at hdec
  have hpl : m.payload = evmTransferBytes et := by
    obtain ⟨-, j⟩ := (Evm.parseNativeTokenTransfer_iff _ _).mp h6
    rcases j with j | ⟨-, j⟩
    · have hex : extra.length = 0 := by simp only at h3; rw [h3, hnil]; rfl
      have := congrArg List.length j
      simp only [withLength, List.length_append, Evm.evmTransferBytes_length, uintBE_length] at this
      omega
    · exact j
  obtain ⟨R, hR⟩ : ∃ R, P = P1 ++ R := by
    have hh : P ++ [.evm d t] = P1 ++ .evm d t1 :: Q1 := hP1
    rcases List.append_eq_append_iff.mp hh with ⟨a', hx, hy⟩ | ⟨a', hx, hy⟩
    · cases a' with
      | nil => exact ⟨[], by simpa using hx.symm⟩
      | cons z zs => simp at hy
    · exact ⟨a', hx⟩
  refine ⟨P, _, Q, chain, mm.data.nttManagerPayload, taken, rfl, hem.1, ?_, hto, ?_, ?_, ?_⟩
  · rw [hR]; exact sent.mono R
  · simp only [accountOf, hside]
    rw [← h7.recipient]
    exact Bytes32.ext ((Evm.fromWormhole_iff _ _).mp i5).symm
  · refine exact_of ?_ ?_ sent.same
    · rw [hside]; simp only [Side.decimals]; omega
    · rw [Evm.received_eq i3 i4 ha, h7.amount, h7.decimals, hside]
      exact converted_twice (by omega) (Nat.min_le_right _ _)
  · obtain ⟨hlt, hd⟩ := hdig
    refine ⟨_, (C86_same_digest mm.data.nttManagerPayload et h7 chain _).mpr
      ⟨m.payload, nttManagerMessage m.id.val m.sender.val m.payload, ?_, ?_, rfl⟩, ?_⟩
    · rw [Evm.encodeNativeTokenTransfer_iff]
      simp [h7.nothingElse, hpl]
    · rw [← h4, ← h5]
      refine (Evm.encodeNttManagerMessage_iff _ _).mpr ⟨by simp only; omega, ?_⟩
      simp [nttManagerMessage]
    · rw [hd, hside]
      simp only [Evm.digestInput, wU16_eq_uintBE]

theorem not_paid_nil (d : UInt16) (h account : Bytes32) (n : Nat) : ¬ Paid M [] d h account n := by
  unfold Paid
  split
  · rintro ⟨_, _, hm⟩; cases hm
  · rintro ⟨_, _, hm⟩; cases hm

/-- A payment is made by some transaction. -/
theorem paid_first {txs : List MTx} {d : UInt16} {h account : Bytes32} {n : Nat} (hp : Paid M txs d h account n) :
    ∃ P x Q, txs = P ++ x :: Q ∧ ¬ Paid M P d h account n ∧ Paid M (P ++ [x]) d h account n := by
  induction txs using List.reverseRecOn with
  | nil => exact absurd hp (not_paid_nil _ _ _ _)
  | append_singleton l x ih =>
    by_cases hl : Paid M l d h account n
    · obtain ⟨P, y, Q, rfl, h1⟩ := ih hl
      exact ⟨P, y, Q ++ [x], by simp, h1⟩
    · exact ⟨l, x, [], rfl, hl, hp⟩

/-- The transfer that a payment is for. -/
theorem paid_origin {txs : List MTx} (hp : MProper M txs) {d : UInt16} (hd : d ∈ M.chains) {h account : Bytes32} {n : Nat}
    (he : Paid M txs d h account n) :
    ∃ P x Q s m taken, txs = P ++ x :: Q ∧ ¬ Paid M P d h account n ∧ Paid M (P ++ [x]) d h account n ∧
      Origin M P d s h account n m taken := by
  obtain ⟨P, x, Q, rfl, h1, h2⟩ := paid_first he
  have hp' : MProper M (P ++ [x]) := by
    rw [show P ++ x :: Q = (P ++ [x]) ++ Q by simp] at hp; exact hp.prefix
  have key : ∃ P' x' Q' s m taken, P ++ [x] = P' ++ x' :: Q' ∧ Origin M P' d s h account n m taken := by
    have h2' := h2
    unfold Paid at h2'
    split at h2'
    · rename_i hside
      obtain ⟨amount, rfl, hm⟩ := h2'
      exact solana_origin hp' hd hside hm
    · rename_i hside
      obtain ⟨r, rfl, hm⟩ := h2'
      exact evm_origin hp' hd hside hm
  obtain ⟨P', x', Q', s, m, taken, e, o⟩ := key
  obtain ⟨R, rfl⟩ : ∃ R, P = P' ++ R := by
    rcases List.append_eq_append_iff.mp e with ⟨a', hx, hy⟩ | ⟨a', hx, hy⟩
    · cases a' with
      | nil => exact ⟨[], by simpa using hx.symm⟩
      | cons z zs => simp at hy
    · exact ⟨a', hx⟩
  exact ⟨_, x, Q, s, m, taken, rfl, h1, h2, { o with sent := o.sent.mono R }⟩

end

end Ntt

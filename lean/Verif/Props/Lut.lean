import Verif.Lemmas.Lut
import Verif.Example.System
/-!
# Property C80: the canonical address lookup table
-/
namespace Ntt.Props
open Ntt Ntt.Spec Ntt.Raw Ntt.Entry Ntt.Lut

variable {e : LEnv} {s₀ : LState}

/-- No table that carries the program as its authority has been used before the program is deployed. -/
def FreshTables (e : LEnv) (s : LState) : Prop := ∀ k t, ProgramTable e s k t → t.active = true ∧ t.addresses = []

theorem lut_inv (g : GoodDiscriminators e.toREnv) (hu : Undeployed e.toREnv s₀.ledger) (hf : FreshTables e s₀) (txs : List LTx)
    (hs : ∀ tx ∈ txs, e.addr .lutAuthority ∉ tx.rt.signers) (K : List Role) (hK : ∀ r ∈ tableRoles e s₀ txs, r ∈ K)
    (n : NoShaCollision e.toREnv K) : Inv e K (Lut.run e s₀ txs) := by
  refine Inv.run g n txs s₀ ⟨undeployed_canon hu, fun k t h1 h2 => ?_, fun k hk => ?_⟩ hs hK
  · obtain ⟨h3, h4⟩ := hf k t ⟨h1, h2⟩
    exact ⟨h3, Or.inl h4⟩
  · simp [typed, undeployed_contents hu] at hk

/-- **C80** (contents): whoever creates, extends, freezes or closes tables, and whoever calls `initialize_lut` with whatever accounts: in
a table under the program's authority there is nothing but repetitions of the listing of the accounts of this deployment. -/
theorem C80_as_listed (g : GoodDiscriminators e.toREnv) (hu : Undeployed e.toREnv s₀.ledger) (hf : FreshTables e s₀) (txs : List LTx)
    (hs : ∀ tx ∈ txs, e.addr .lutAuthority ∉ tx.rt.signers) (K : List Role) (hK : ∀ r ∈ tableRoles e s₀ txs, r ∈ K)
    (n : NoShaCollision e.toREnv K) (k : Bytes32) (t : Table) (ht : ProgramTable e (Lut.run e s₀ txs) k t) :
    t.active = true ∧ (t.addresses = [] ∨ ∃ b cfg xs,
      contents e.toREnv tConfig (Lut.run e s₀ txs).ledger (e.addr .config) = some (b, cfg) ∧ xs ≠ [] ∧
      t.addresses = xs.flatMap (listing e cfg)) := by
  have h := lut_inv g hu hf txs hs K hK n
  obtain ⟨h1, h2⟩ := h.tables k t ht.1 ht.2
  refine ⟨h1, h2.imp id ?_⟩
  rintro ⟨cfg, xs, h3, h4, h5⟩
  exact ⟨_, cfg, xs, (of_config h.canon h3).2, h4, h5⟩

/-- **C80** (the note): whenever there is an account in which the program notes a table, that table exists, is in use, is under the
program's authority, and lists every account of the deployment at least once. -/
theorem C80_noted (g : GoodDiscriminators e.toREnv) (hu : Undeployed e.toREnv s₀.ledger) (hf : FreshTables e s₀) (txs : List LTx)
    (hs : ∀ tx ∈ txs, e.addr .lutAuthority ∉ tx.rt.signers) (K : List Role) (hK : ∀ r ∈ tableRoles e s₀ txs, r ∈ K)
    (n : NoShaCollision e.toREnv K) (a k : Bytes32) (b : UInt8) (hn : contents e.toREnv tLut (Lut.run e s₀ txs).ledger a = some (b, k)) :
    a = e.addr .lut ∧ ∃ t b' cfg x, ProgramTable e (Lut.run e s₀ txs) k t ∧ t.active = true ∧
      contents e.toREnv tConfig (Lut.run e s₀ txs).ledger (e.addr .config) = some (b', cfg) ∧
      ∀ y ∈ listing e cfg x, y ∈ t.addresses := by
  have h := lut_inv g hu hf txs hs K hK n
  obtain ⟨hl, ha, _⟩ := h.canon.lut a _ hn
  have hk : (typed e.toREnv K (Lut.run e s₀ txs).ledger).lut = some k := by simp only [typed, if_pos hl, ← ha, hn, Option.map]
  obtain ⟨t, h1, h2, h3⟩ := h.noted k hk
  obtain ⟨h4, h5⟩ := C80_as_listed g hu hf txs hs K hK n k t ⟨h1, h2⟩
  rcases h5 with h5 | ⟨b', cfg, xs, h5, h6, h7⟩
  · exact absurd h5 h3
  · cases xs with
    | nil => exact absurd rfl h6
    | cons x rest =>
      refine ⟨ha, t, b', cfg, x, ⟨h1, h2⟩, h4, h5, fun y hy => ?_⟩
      rw [h7]
      exact List.mem_append_left _ hy

/-- **C80** (old tables remain usable): a table under the program's authority is never closed, deactivated or handed over, and the place
of an address in it never changes: the list only grows at its end. -/
theorem C80_append_only : ∀ (post : List LTx), (∀ tx ∈ post, e.addr .lutAuthority ∉ tx.rt.signers) → ∀ (s : LState) (k : Bytes32) (t : Table),
    ProgramTable e s k t → ∃ t', ProgramTable e (Lut.run e s post) k t' ∧ t'.active = t.active ∧ t.addresses <+: t'.addresses
  | [], _, _, _, t, h => ⟨t, h, rfl, List.prefix_refl _⟩
  | tx :: rest, hs, s, k, t, h => by
    obtain ⟨t1, h1, h2, h3⟩ := grows (hs tx (by simp)) h
    obtain ⟨t2, h4, h5, h6⟩ := C80_append_only rest (fun x hx => hs x (List.mem_cons_of_mem _ hx)) _ k t1 h1
    exact ⟨t2, h4, h5.trans h2, h3.trans h6⟩

/-- **C80** (anybody can): after any history in which the program was set up, anybody who can pay can have a recent slot's table made or
extended, unless it is full (which takes 18 earlier calls for that slot); that somebody else created the table first does not matter.  The
fee collector and the sequence account listed are the caller's choice. -/
theorem C80_anybody_can (g : GoodDiscriminators e.toREnv) (hu : Undeployed e.toREnv s₀.ledger) (hv : Vacant e.toREnv s₀.ledger)
    (hf : FreshTables e s₀) (txs : List LTx)
    (hs : ∀ tx ∈ txs, e.addr .lutAuthority ∉ tx.rt.signers) (hp : ∀ tx ∈ txs, ∀ k ∈ tx.rt.signers, e.ownPda k = false)
    (K : List Role) (hK : ∀ r ∈ tableRoles e s₀ txs, r ∈ K) (hl : Role.lut ∈ K)
    (n : NoShaCollision e.toREnv K) (own : OwnAddresses e.toREnv K)
    (b : UInt8) (cfg : Config) (hcfg : contents e.toREnv tConfig (Lut.run e s₀ txs).ledger (e.addr .config) = some (b, cfg))
    (lim : RateLimitState) (hlim : contents e.toREnv tOutboxRateLimit (Lut.run e s₀ txs).ledger (e.addr .outboxRateLimit) = some lim)
    (rt : LRt) (payer : Bytes32) (hpay : payer ∈ rt.signers) (slot : UInt64) (hrec : rt.recent slot = true)
    (haddr : e.lutAddress slot = tableAddress e (e.addr .lutAuthority) slot)
    (x : BridgeAccounts) (hx : rt.bridgeData x.bridge = true) (before : List Bytes32)
    (ht : match (Lut.run e s₀ txs).tables (e.lutAddress slot) with
      | none => before = []
      | some t => ProgramTable e (Lut.run e s₀ txs) (e.lutAddress slot) t ∧ t.addresses = before ∧ before.length ≤ 242) :
    ∃ a s', Lut.exec e rt (Lut.run e s₀ txs) (.initializeLut a x slot) = .ok (s', []) ∧
      contents e.toREnv tLut s'.ledger (e.addr .lut) = some (e.bump .lut, e.lutAddress slot) ∧
      ∃ t, ProgramTable e s' (e.lutAddress slot) t ∧ t.addresses = before ++ listing e cfg x := by
  have h := lut_inv g hu hf txs hs K hK n
  obtain ⟨q1, _, q3⟩ := ledger_run (e := e) txs s₀
  have hT : Neat e.toREnv (Lut.run e s₀ txs).ledger := by
    rw [q1]
    refine neat_run g _ _ (neat_init hu hv) fun y hy k hk => ?_
    obtain ⟨tx, htx, hh⟩ := q3 y hy
    exact hp tx htx k (by rw [hh] at hk; exact hk)
  generalize Lut.run e s₀ txs = s at *
  obtain ⟨l', hl'⟩ := can_exec (R := rt.toRRt) (slot := slot) own n h.canon hT hl hcfg hlim hpay
  have hr : ∀ r ∈ touched e.toREnv rt.toRRt s.ledger (.initializeLut (passes e cfg payer slot) slot), r ∈ K := by
    simp [touched, hl]
  obtain ⟨c1, _, _, c4⟩ := typed_step g n h.canon hr hl'
  have hlut := c4 _ _ rfl
  have hnote : contents e.toREnv tLut l' (e.addr .lut) = some (e.bump .lut, e.lutAddress slot) := by
    simp only [typed, if_pos hl] at hlut
    obtain ⟨y, h1, h2⟩ := Option.map_eq_some_iff.mp hlut
    have h3 := (c1.lut _ _ h1).2.2
    rw [h1, ← h2, ← h3]
  obtain ⟨_, _, cfg', e1, e2⟩ := lut_accounts h.canon hl'
  have : cfg' = cfg := by
    have := typed_config h.canon hcfg
    rw [e1] at this
    exact Option.some.inj this
  subst this
  have hext : ∀ (tables : Bytes32 → Option Table) (t : Table), tables (e.lutAddress slot) = some t → t.authority = some (e.addr .lutAuthority) →
      t.active = true → t.addresses.length ≤ 242 →
      extendTable (e.addr .lutAuthority :: rt.signers) tables (e.lutAddress slot) (e.addr .lutAuthority) (entries e (passes e cfg' payer slot) x)
        = .ok (upd tables (e.lutAddress slot) (some { t with addresses := t.addresses ++ listing e cfg' x })) := by
    intro tables t h1 h2 h3 h4
    simp only [extendTable, getSome_bind, require_bind]
    refine ⟨t, h1, h2, List.mem_cons_self .., h3, by simp [entries], ?_, by rw [e2]; rfl⟩
    rw [e2]
    simp only [listing, List.length_cons, List.length_nil, capacity]
    omega
  refine ⟨passes e cfg' payer slot, ?_⟩
  have finish : ∀ (tables : Bytes32 → Option Table) (t : Table), createTable e rt s.tables (e.addr .lutAuthority) payer slot = .ok tables →
      tables (e.lutAddress slot) = some t → t.authority = some (e.addr .lutAuthority) → t.active = true → t.addresses.length ≤ 242 →
      t.addresses = before →
      ∃ s', Lut.exec e rt s (.initializeLut (passes e cfg' payer slot) x slot) = .ok (s', []) ∧
        contents e.toREnv tLut s'.ledger (e.addr .lut) = some (e.bump .lut, e.lutAddress slot) ∧
        ∃ t, ProgramTable e s' (e.lutAddress slot) t ∧ t.addresses = before ++ listing e cfg' x := by
    intro tables t h1 h2 h3 h4 h5 h6
    refine ⟨⟨l', upd tables (e.lutAddress slot) (some { t with addresses := t.addresses ++ listing e cfg' x })⟩, ?_, hnote, _,
      ⟨upd_same .., h3⟩, by rw [h6]⟩
    simp only [Lut.exec, Lut.initializeLut, require_bind]
    refine ⟨hx, ex_bind_ok.mpr ⟨_, hl', ?_⟩⟩
    simp only [require_bind]
    exact ⟨haddr.symm, ex_bind_ok.mpr ⟨_, h1, ex_bind_ok.mpr ⟨_, hext _ _ h2 h3 h4 h5, rfl⟩⟩⟩
  cases hk : s.tables (e.lutAddress slot) with
  | none =>
    rw [hk] at ht
    refine finish (upd s.tables (e.lutAddress slot) (some ⟨some (e.addr .lutAuthority), [], true⟩)) _ ?_ (upd_same ..) rfl rfl (by simp) ht.symm
    simp only [createTable, require_bind]
    refine ⟨hpay, hrec, ?_⟩
    rw [← haddr, hk]
    rfl
  | some t =>
    rw [hk] at ht
    refine finish s.tables t ?_ hk ht.1.2 (h.tables _ _ hk ht.1.2).1 (by rw [ht.2.1]; exact ht.2.2) ht.2.1
    simp only [createTable, require_bind]
    refine ⟨hpay, hrec, ?_⟩
    rw [← haddr, hk]
    rfl

/-! ### A concrete history -/

section
open Ntt.Example Ntt.Example.Whole

def lenv : LEnv := { senv.toEEnv with tableProgram := A 160, ownPda := fun a => a.val.head? = some 255 }

def lrt (now : Int) (signers : List Bytes32) (h : i64Min ≤ now ∧ now ≤ i64Max := by decide) : LRt :=
  { Ledger.rrt now signers h with bridgeData := fun a => a = A 157, recent := fun s => 90 ≤ s.toNat && s.toNat ≤ 100 }

def lutAccounts (payer : Bytes32) (slot : UInt64) : InitializeLutAccounts :=
  ⟨payer, at' .lutAuthority, senv.lutAddress slot, at' .lut, cfg, custody, A 90, mint, at' .tokenAuthority, at' .outboxRateLimit⟩

/-- The program is set up; Mallory creates a table for the program's authority first, tries to fill and to close it, and has the program
note a table with accounts of their own choice; the owner has another one made. -/
def lutHistory : List LTx :=
  [ ⟨lrt 1000 [owner], .other (.initializeManager
      { payer := owner, deployer := owner, programData, config := cfg, mint, rateLimit := at' .outboxRateLimit
        tokenAuthority := at' .tokenAuthority, custody, tokenProgram := A 90 } initArgs)⟩
  , ⟨lrt 1001 [mallory], .table (.create (at' .lutAuthority) mallory 95)⟩
  , ⟨lrt 1002 [mallory], .table (.extend (senv.lutAddress 95) (at' .lutAuthority) [A 66])⟩
  , ⟨lrt 1003 [mallory], .table (.close (senv.lutAddress 95) (at' .lutAuthority))⟩
  , ⟨lrt 1004 [mallory], .initializeLut { lutAccounts mallory 95 with custody := A 66 } ⟨A 157, A 158, A 159⟩ 95⟩
  , ⟨lrt 1005 [mallory], .initializeLut (lutAccounts mallory 95) ⟨A 157, A 66, A 67⟩ 95⟩
  , ⟨lrt 1006 [owner], .initializeLut (lutAccounts owner 96) ⟨A 157, A 158, A 159⟩ 96⟩
  , ⟨lrt 1007 [owner], .initializeLut (lutAccounts owner 95) ⟨A 157, A 158, A 159⟩ 95⟩ ]

def lutStart : LState := ⟨Example.Ledger.ledger0, fun _ => none⟩

def lutRoles : List Role := [.config, .outboxRateLimit, .lut]

set_option maxRecDepth 100000 in
theorem lut_roles : ∀ r ∈ tableRoles lenv lutStart lutHistory, r ∈ lutRoles := by decide +kernel

theorem lut_noCollision : NoShaCollision lenv.toREnv lutRoles := by
  have key : ∀ r ∈ lutRoles, ∀ r' ∈ lutRoles, mix r.seeds = mix r'.seeds → r = r' := by decide +kernel
  intro r hr r' hr' b b' h
  have h' := congrArg Bytes32.val h
  simp only [lenv, senv, Whole.sha_pda, List.cons.injEq] at h'
  rw [h'.1, key r hr r' hr' h'.2.2]

theorem lut_discriminators : GoodDiscriminators lenv.toREnv :=
  ⟨Ledger.discriminators.distinct, Ledger.discriminators.nonzero, Ledger.discriminators.idl⟩

theorem lut_undeployed : Undeployed lenv.toREnv lutStart.ledger := Ledger.undeployed

theorem lut_fresh : FreshTables lenv lutStart := fun _ _ h => by cases h.1

set_option maxRecDepth 100000 in
theorem lut_signers : ∀ tx ∈ lutHistory, lenv.addr .lutAuthority ∉ tx.rt.signers := by decide +kernel

set_option maxRecDepth 100000 in
/-- Only the attempts to fill, to close and to pass another custody fail. -/
example : (((Lut.run lenv lutStart lutHistory).tables (senv.lutAddress 95)).map (·.addresses.length),
    ((Lut.run lenv lutStart lutHistory).tables (senv.lutAddress 96)).map (·.addresses.length),
    (contents lenv.toREnv tLut (Lut.run lenv lutStart lutHistory).ledger (at' .lut)).map (·.2)) =
    (some 28, some 14, some (senv.lutAddress 95)) := by decide +kernel

set_option maxRecDepth 100000 in
example : ∃ t, ProgramTable lenv (Lut.run lenv lutStart lutHistory) (senv.lutAddress 95) t ∧ t.active = true ∧ custody ∈ t.addresses := by
  have h : (contents lenv.toREnv tLut (Lut.run lenv lutStart lutHistory).ledger (at' .lut)) = some (255, senv.lutAddress 95) := by
    decide +kernel
  obtain ⟨_, t, b', cfg', x, h1, h2, h3, h4⟩ := C80_noted lut_discriminators lut_undeployed lut_fresh lutHistory lut_signers lutRoles lut_roles
    lut_noCollision _ _ _ h
  have hc : (contents lenv.toREnv tConfig (Lut.run lenv lutStart lutHistory).ledger (lenv.addr .config)).map (·.2.custody) = some custody := by
    decide +kernel
  rw [h3] at hc
  have hc' : cfg'.custody = custody := Option.some.inj hc
  exact ⟨t, h1, h2, h4 _ (by simp [listing, hc'])⟩

set_option maxRecDepth 100000 in
/-- The user can have one made for slot 97. -/
example : ∃ a s', Lut.exec lenv (lrt 2000 [user]) (Lut.run lenv lutStart lutHistory) (.initializeLut a ⟨A 157, A 158, A 159⟩ 97) = .ok (s', []) := by
  have hc : (contents lenv.toREnv tConfig (Lut.run lenv lutStart lutHistory).ledger (lenv.addr .config)).isSome := by decide +kernel
  have hl : (contents lenv.toREnv tOutboxRateLimit (Lut.run lenv lutStart lutHistory).ledger (lenv.addr .outboxRateLimit)).isSome := by
    decide +kernel
  obtain ⟨⟨b, c⟩, hc⟩ := Option.isSome_iff_exists.mp hc
  obtain ⟨l, hl⟩ := Option.isSome_iff_exists.mp hl
  have hv : Vacant lenv.toREnv lutStart.ledger := by
    intro a ha
    have h : ∀ k : Bytes32, k.val.head? ≠ some 255 → a ≠ k := by
      rintro k hk rfl
      exact hk (by simpa [lenv] using ha)
    simp [lutStart, Ledger.ledger0, token0, h (A 80) (by decide), h userAcct (by decide), h mint (by decide)]
  have ho : OwnAddresses lenv.toREnv lutRoles := by
    intro r _
    show decide ((at' r).val.head? = some 255) = true
    rw [at_head]; rfl
  have ht : ((Lut.run lenv lutStart lutHistory).tables (lenv.lutAddress 97)).isNone := by decide +kernel
  obtain ⟨a, s', h, _⟩ := C80_anybody_can lut_discriminators lut_undeployed hv lut_fresh lutHistory lut_signers (by decide +kernel) lutRoles lut_roles
    (by decide) lut_noCollision ho b c hc l hl (lrt 2000 [user]) user (by decide +kernel) 97 (by decide +kernel) (by decide +kernel)
    ⟨A 157, A 158, A 159⟩ (by decide +kernel) [] (by rw [Option.isNone_iff_eq_none.mp ht])
  exact ⟨a, s', h⟩

set_option maxRecDepth 100000 in
/-- The table for slot 95 keeps what it had after the first six transactions. -/
example : ∃ t t', ProgramTable lenv (Lut.run lenv lutStart (lutHistory.take 6)) (senv.lutAddress 95) t ∧ t.addresses.length = 14 ∧
    ProgramTable lenv (Lut.run lenv (Lut.run lenv lutStart (lutHistory.take 6)) (lutHistory.drop 6)) (senv.lutAddress 95) t' ∧
    t.addresses <+: t'.addresses := by
  have h : ((Lut.run lenv lutStart (lutHistory.take 6)).tables (senv.lutAddress 95)).map (fun t => (t.authority, t.addresses.length)) =
      some (some (lenv.addr .lutAuthority), 14) := by decide +kernel
  obtain ⟨t, h1, h2⟩ := Option.map_eq_some_iff.mp h
  obtain ⟨t', h3, _, h4⟩ := C80_append_only (e := lenv) (lutHistory.drop 6) (fun tx h => lut_signers tx (List.mem_of_mem_drop h)) _ _ t
    ⟨h1, congrArg Prod.fst h2⟩
  exact ⟨t, t', ⟨h1, congrArg Prod.fst h2⟩, congrArg Prod.snd h2, h3, h4⟩

end

end Ntt.Props

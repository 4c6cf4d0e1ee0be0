import Verif.Lemmas.EntryWrites
import Verif.Example.Raw
/-!
# C71, C72: instruction data and account lists

What the deployed program does with the bytes and the account list it is called with.
-/
namespace Ntt.Props
open Ntt Ntt.Spec Ntt.Raw Ntt.Gov Ntt.Entry

/-! ### C71 -/

/-- **C71.** The bytes of a request are understood as that request, whatever follows them. -/
theorem C71_understood (r : Request) (junk : Bytes) : decode (wire r ++ junk) = .ok r := decode_wire r junk

/-- **C71.** Nothing else is understood: data that do not begin with the bytes of a request are refused, whatever accounts come with
them, and change nothing. -/
theorem C71_nothing_else (e : EEnv) (rt : ERt) (s : RState) (metas : List AccountMeta) (data : Bytes)
    (h : ∀ r, ¬ wire r <+: data) : ∃ err, entry e rt s metas data = .error err := by
  cases hd : decode data with
  | ok r =>
    obtain ⟨junk, hj⟩ := decode_canon hd
    exact absurd ⟨junk, hj.symm⟩ (h r)
  | error x => exact ⟨x, by rw [entry, resolve, hd]; rfl⟩

/-- **C71.** No data can be read as two requests: the bytes of one request are never the beginning of those of another. -/
theorem C71_one_meaning (r r' : Request) (data : Bytes) (h : wire r <+: data) (h' : wire r' <+: data) : r = r' := by
  obtain ⟨j, rfl⟩ := h
  obtain ⟨j', h'⟩ := h'
  have h1 := decode_wire r j
  rw [← h', decode_wire r' j'] at h1
  cases h1
  rfl

/-- **C71.** The discriminators Anchor computes for the program's account types do what `GoodDiscriminators` asks for: they differ from
each other, from zero, and from that of IDL accounts. -/
theorem C71_discriminators (e : REnv) (h : AnchorDiscriminators e) : GoodDiscriminators e where
  distinct := by
    intro k k'
    rw [h.1 k, h.1 k', discriminator_code, discriminator_code]
    cases k <;> cases k' <;> decide
  nonzero := by
    intro k
    rw [h.1 k, discriminator_code]
    cases k <;> decide
  idl := by
    intro k
    rw [h.1 k, h.2, discriminator_code, idl_code]
    cases k <;> decide

/-! ### C72 -/

/-- **C72.** Whatever the program is called with, what happens is this: the call fails; or it asks for the version and nothing changes; or
the data are those of some instruction, the account list begins with its accounts with (at least) the flags they need, programs are what
they should be, and the effect is that of the instruction on these accounts, signed for by the accounts flagged as signers. -/
theorem C72_sound (e : EEnv) (rt : ERt) (s s' : RState) (ev : List Event) (metas : List AccountMeta) (data : Bytes)
    (h : entry e rt s metas data = .ok (s', ev)) :
    (wire .version <+: data ∧ s' = s ∧ ev = []) ∨
    ∃ rix req x, requestOf rix = some req ∧ wire req <+: data ∧ StartsWith metas (accountList e x rix) ∧
      RightPrograms e x rt rix ∧ Raw.exec e.toREnv { rt.toRRt with signers := signersOf metas } s rix = .ok (s', ev) := by
  obtain ⟨o, ho, h⟩ := ex_bind_ok.mp h
  obtain ⟨req, hd, h1⟩ := ex_bind_ok.mp ho
  obtain ⟨junk, hj⟩ := decode_canon hd
  simp only [require_bind] at h1
  obtain ⟨hl, hok, h1⟩ := h1
  by_cases hv : req = .version
  · subst hv
    cases h1
    cases h
    exact .inl ⟨⟨junk, hj.symm⟩, rfl, rfl⟩
  · right
    obtain ⟨rix, hb, hr, hp, hpre, hflags⟩ := bind_sound hv hl hok
    rw [resolve_eq hv hd hl hok hb] at ho
    cases ho
    refine ⟨rix, req, _, hr, ⟨junk, hj.symm⟩, ⟨hpre, fun a ha => ?_⟩, hp, h⟩
    simpa [signersOf, writableOf, and_comm, and_left_comm, and_assoc] using hflags a ha

/-- **C72.** Conversely an instruction that would succeed does succeed when the program is called with exactly the accounts and flags of
the list, whatever else follows. -/
theorem C72_complete (e : EEnv) (x : OtherAccounts) (rt : ERt) (s s' : RState) (ev : List Event) (rix : RIx) (req : Request)
    (hr : requestOf rix = some req) (hp : RightPrograms e x rt rix)
    (h : Raw.exec e.toREnv rt.toRRt s rix = .ok (s', ev)) (more : List AccountMeta) (junk : Bytes) :
    entry e rt s (accountList e x rix ++ more) (wire req ++ junk) = .ok (s', ev) := by
  rw [entry_accountList hr hp]
  refine signers_suffice hr h _ (x := x) fun k hk => ?_
  simp only [signersOf, List.filter_append, List.map_append, List.mem_append]
  exact .inl hk

/-- **C72.** Only accounts passed as writable change. -/
theorem C72_writes (e : EEnv) (rt : ERt) (s s' : RState) (ev : List Event) (metas : List AccountMeta) (data : Bytes)
    (h : entry e rt s metas data = .ok (s', ev)) (k : Bytes32) (hk : Differs e s s' k) : PassedWritable metas k := by
  rcases C72_sound e rt s s' ev metas data h with ⟨_, rfl, _⟩ | ⟨rix, req, x, hr, _, hs, _, hx⟩
  · rcases hk with hk | hk | hk | hk
    · exact absurd rfl hk
    · exact absurd rfl hk
    · exact absurd rfl hk
    · exact absurd rfl hk.2
  · have ho := exec_only (x := x) hr _ _ hx
    have hw : k ∈ writableOf (accountList e x rix) := by
      by_contra hn
      rcases hk with hk | hk | hk | ⟨rfl, hk⟩
      · exact hk (ho.accts k hn)
      · exact hk (ho.token k hn).1
      · exact hk (ho.token k hn).2
      · exact hk (ho.authority hn)
    obtain ⟨m, hm, rfl⟩ := List.mem_map.mp hw
    obtain ⟨hm, hmw⟩ := List.mem_filter.mp hm
    exact (hs.2 m hm).2 hmw

/-! ### Concrete cases -/

section
open Ntt.Example Ntt.Example.Ledger

/-- The deployment of `Example/Raw.lean` with the programs it uses. -/
def eenv : EEnv :=
  { renv with
    systemProgram := A 150
    tokenProgram := A 90
    token2022Program := A 151
    associatedTokenProgram := A 152
    bpfLoader := A 153
    wormholeProgram := A 154
    clockSysvar := A 155
    rentSysvar := A 156 }

def ert : ERt := { rrt 2500 [] with bridgeData := fun k => decide (k = A 157) }

/-- The ledger after the deployment. -/
def deployed : RState := (Raw.run renv ledger0 Ledger.setup).1

/-- Whether a configuration at its place says that the deployment is paused. -/
def pausedNow (s : RState) : Option Bool :=
  match loadAs renv tConfig s cfg with
  | .ok c => some c.2.paused
  | .error _ => none

def outcome (r : Except Err (RState × List Event)) : Option Bool :=
  match r with
  | .ok (s, _) => pausedNow s
  | .error _ => none

/-- The bytes of `set_paused(true)`. -/
def pauseData : Bytes := [91, 60, 125, 192, 176, 225, 166, 218, 1]

set_option maxRecDepth 100000 in
example : wire (.setPaused true) = pauseData ∧ decode pauseData = .ok (.setPaused true) ∧ (decode (pauseData.take 8)).toOption.isNone ∧
    (decode ([92] ++ pauseData.drop 1)).toOption.isNone ∧ (decode (pauseData.take 8 ++ [2])).toOption.isNone := by
  refine ⟨?_, ?_⟩
  · rw [wire, selector_code]; rfl
  · refine ⟨rfl, ?_⟩; decide +kernel

/-- The owner can pause; not without the owner's signature, not with the configuration read-only, not with the accounts swapped, and
not with an account missing.  More accounts and more data do no harm. -/
example :
    outcome (entry eenv ert deployed [⟨owner, true, false⟩, ⟨cfg, false, true⟩] pauseData) = some true ∧
    outcome (entry eenv ert deployed [⟨owner, true, true⟩, ⟨cfg, false, true⟩, ⟨user, true, true⟩] (pauseData ++ [7])) = some true ∧
    outcome (entry eenv ert deployed [⟨owner, false, false⟩, ⟨cfg, false, true⟩] pauseData) = none ∧
    outcome (entry eenv ert deployed [⟨owner, true, false⟩, ⟨cfg, false, false⟩] pauseData) = none ∧
    outcome (entry eenv ert deployed [⟨cfg, true, true⟩, ⟨owner, true, true⟩] pauseData) = none ∧
    outcome (entry eenv ert deployed [⟨owner, true, false⟩] pauseData) = none := by decide +kernel

/-- The hypotheses of `C72_complete`: the transfer of `Example/Raw.lean`. -/
example : requestOf (.transferLock transferAccounts args) = some (.transferLock args) ∧
    RightPrograms eenv ⟨A 157, A 158, A 159, A 160⟩ ert (.transferLock transferAccounts args) :=
  ⟨rfl, .inl rfl⟩

set_option maxRecDepth 100000 in
/-- The whole transfer through the entry point: after the approval the tokens are taken. -/
example :
    ((entry eenv ert (Raw.run renv ledger0 (Ledger.setup ++ transfers.take 1)).1
      (accountList eenv ⟨A 157, A 158, A 159, A 160⟩ (.transferLock transferAccounts args))
      (wire (.transferLock args))).toOption.map Prod.snd) = some [.debited userAcct user outKey 3000000000] := by
  rw [wire, selector_code]
  decide +kernel

/-- The real discriminators. -/
example : AnchorDiscriminators renv := by
  refine ⟨fun k => ?_, ?_⟩
  · rw [discriminator_code]; cases k <;> rfl
  · rw [idl_code]; rfl

end

end Ntt.Props

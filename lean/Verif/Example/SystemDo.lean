import Verif.Example.SystemNet
/-!
# An approved transfer on the spoke that somebody tries to hold up

The spoke of `Example/SystemNet.lean` after the message was delivered; then `mallory` has a program try to pause the manager, and
publishes an announcement.
-/
namespace Ntt.Example.Bridge
open Ntt Ntt.Spec Ntt.Raw Ntt.Gov Ntt.Entry Ntt.Sys Ntt.Example.Whole

/-- The router asks the manager to pause, in the name of an address it derives. -/
def obstruct : STx :=
  { rt := brt 3100 true, signers := [mallory]
    acts := [.call [] ⟨router, [⟨mallory, true, true⟩], []⟩
      [.call [routerSeeds] ⟨me, [⟨routerPda, true, false⟩, ⟨cfg, false, true⟩], pauseData⟩ []]] }

/-- An announcement, with another key of theirs for the message account. -/
def announce : STx :=
  { rt := brt 3200 true, signers := [mallory, outKey]
    acts :=
      [ .call [] ⟨router, [], []⟩ [.call [routerSeeds] ⟨router, [⟨routerPda, true, false⟩], []⟩ []]
      , .call [] (toManager (.broadcastId
          { payer := mallory, config := cfg, mint, peer := .zeroes, wormholeMessage := outKey, emitter := at' .emitter }) .broadcastId) [] ] }

def approved : List STx := [spokeSetup.tx, deliver.tx]
def meanwhile : List STx := [obstruct, announce]

set_option maxRecDepth 100000 in
theorem checked3 : Checked (start 2) (Sys.run benv (start 2) (approved ++ meanwhile)).2 where
  undeployed := by intro a acc h; cases h
  vacant := by
    intro a ha
    have h : a ≠ mint := by
      rintro rfl
      exact absurd ha (by decide)
    simp [start, spoke0, h]
  roles := by decide +kernel
  distinct := by decide +kernel
  foreign := by decide +kernel
  transfers := by decide +kernel

set_option maxRecDepth 100000 in
/-- Meanwhile the announcement is published and the router derives addresses; nothing else happens. -/
theorem meanwhile_happens :
    (Sys.run benv (Sys.run benv (start 2) approved).1 meanwhile).2.steps.length = 1 ∧
    (Sys.run benv (Sys.run benv (start 2) approved).1 meanwhile).2.events.length = 1 ∧
    (Sys.run benv (Sys.run benv (start 2) approved).1 meanwhile).2.hashed.length = 1 := by decide +kernel

end Ntt.Example.Bridge

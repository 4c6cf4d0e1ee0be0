import Verif.Model.Accounts
/-! # Specification for C65: account contents survive storage -/
namespace Ntt.Spec
open Ntt

/-- The integers a 64-bit signed integer can hold. -/
def Int64Range (x : Int) : Prop := -9223372036854775808 ≤ x ∧ x ≤ 9223372036854775807

/-- Contents `a` with `holds a` can be stored in accounts of `8 + size` bytes and survive there; nothing else can be
read from an account. -/
structure SurvivesStorage {α : Type} (c : Borsh α) (size : Nat) (holds : α → Prop) : Prop where
  /-- An account is created with room for the contents, and not more than the largest contents need. -/
  created : (newAccount c).length = 8 + size
  /-- Storing works whatever the account contained before, keeps its size, and loading gives back what was stored. -/
  stored : ∀ disc a data, holds a → data.length = 8 + size →
    ∃ data', store disc c a data = .ok data' ∧ data'.length = 8 + size ∧ load disc c data' = .ok a
  /-- What is loaded is admissible, and storing it again unchanged leaves every byte as it was. -/
  loaded : ∀ disc a data, load disc c data = .ok a → holds a ∧ store disc c a data = .ok data

/-- All times recorded in the accounts of the program fit a 64-bit signed integer. -/
structure TimesFit (s : State) : Prop where
  outboundLimit : ∀ l, s.outboxLimit = some l → Int64Range l.lastTxTimestamp
  inboundLimit : ∀ c l, s.inboxLimits c = some l → Int64Range l.lastTxTimestamp
  outbox : ∀ k i, s.outbox k = some i → Int64Range i.releaseTimestamp
  inbox : ∀ h i t, s.inbox h = some i → i.releaseStatus = .releaseAfter t → Int64Range t

end Ntt.Spec

import Verif.Lemmas.Borsh
/-!
# C06: stored attestations read back the same through both readers
-/
namespace Ntt.Props

/-- C06.  Store any attested message in an account (discriminator + Borsh fields) with any trailing
bytes `pad` after it: full deserialisation and every zero-copy reader return the stored values. -/
theorem stored_attestation_reads_back (disc : Discriminator) (v : ValidatedMessage) (pad : Bytes) :
    let data := v.account disc ++ pad
    tryFrom disc data = .ok v ∧
    zcFromChain disc data = .ok v.fromChain ∧
    zcSourceManager disc data = .ok v.message.sourceNttManager ∧
    zcRecipientManager disc data = .ok v.message.recipientNttManager ∧
    zcManagerPayload disc data = .ok v.message.nttManagerPayload := by
  intro data
  have h : tryFrom disc data = .ok v := by
    simp only [tryFrom, data, discriminatorCheck_account, ex_ok_bind, borshValidated_reads]
  exact ⟨h, tryFrom_zc h⟩

/-- C06, for arbitrary account bytes (also ones the program did not write, e.g. an account of
another transceiver program): whenever full deserialisation accepts them, every zero-copy reader
returns the same field values. -/
theorem zero_copy_agrees_with_full (disc : Discriminator) (data : Bytes) (v : ValidatedMessage)
    (h : tryFrom disc data = .ok v) :
    zcFromChain disc data = .ok v.fromChain ∧
    zcSourceManager disc data = .ok v.message.sourceNttManager ∧
    zcRecipientManager disc data = .ok v.message.recipientNttManager ∧
    zcManagerPayload disc data = .ok v.message.nttManagerPayload := tryFrom_zc h

/-- A stored message used in the examples. -/
def exStored : ValidatedMessage where
  fromChain := 0x0102
  message :=
    { sourceNttManager := .ofByte 1
      recipientNttManager := .ofByte 2
      nttManagerPayload :=
        { id := .ofByte 3, sender := .ofByte 4
          payload := { amount := ⟨0x0102030405060708, 9⟩, sourceToken := .ofByte 5
                       toChain := 0x0304, to := .ofByte 6, additionalPayload := {} } } }

/-- A discriminator used in the examples. -/
def exDisc : Discriminator := ⟨[1, 2, 3, 4, 5, 6, 7, 8], rfl⟩

set_option maxRecDepth 8000 in
/-- The account really is little endian at the documented offsets, and junk after it is ignored. -/
example : (exStored.account exDisc).take 10 = [1, 2, 3, 4, 5, 6, 7, 8, 2, 1] ∧
    zcFromChain exDisc (exStored.account exDisc ++ [9, 9, 9]) = .ok 0x0102 := ⟨rfl, rfl⟩

/-- The hypothesis of `zero_copy_agrees_with_full` is met by stored accounts; a wrong
discriminator is refused by all readers. -/
example : tryFrom exDisc (exStored.account exDisc ++ [7]) = .ok exStored :=
  (stored_attestation_reads_back exDisc exStored [7]).1

set_option maxRecDepth 8000 in
example : zcFromChain exDisc (0 :: (exStored.account exDisc).tail) = .error .constraint := rfl

end Ntt.Props

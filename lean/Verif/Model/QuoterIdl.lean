import Verif.Model.Idl
/-!
# The interface description (IDL) of the relay quoter

Generated from `/repo/solana/ts/idl/2_0_0/json/ntt_quoter.json`, which the quoter client reads (`/repo/solana/ts/lib/quoter.ts:15`).  The struct that is the
only argument of an instruction is flattened.
-/
namespace Ntt.Client.Idl

/-- `ntt_quoter.json:5-53`. -/
def quoter_requestRelay : IdlInstruction :=
  { name := "requestRelay"
    accounts :=
      [⟨["payer"], true, true⟩, ⟨["instance"], false, false⟩, ⟨["registeredChain"], false, false⟩,
      ⟨["registeredNtt"], false, false⟩, ⟨["outboxItem"], false, false⟩, ⟨["relayRequest"], true, false⟩,
      ⟨["systemProgram"], false, false⟩]
    args := [(["gasDropoff"], .u64), (["maxFee"], .u64)] }

/-- `ntt_quoter.json:54-84`. -/
def quoter_closeRelay : IdlInstruction :=
  { name := "closeRelay"
    accounts :=
      [⟨["authority"], false, true⟩, ⟨["instance"], false, false⟩, ⟨["feeRecipient"], true, false⟩,
      ⟨["relayRequest"], true, false⟩, ⟨["systemProgram"], false, false⟩]
    args := [] }

/-- `ntt_quoter.json:85-119`. -/
def quoter_initialize : IdlInstruction :=
  { name := "initialize"
    accounts :=
      [⟨["owner"], true, true⟩, ⟨["instance"], true, false⟩, ⟨["feeRecipient"], false, false⟩,
      ⟨["programData"], true, false⟩, ⟨["systemProgram"], false, false⟩]
    args := [] }

/-- `ntt_quoter.json:120-141`. -/
def quoter_setAssistant : IdlInstruction :=
  { name := "setAssistant"
    accounts :=
      [⟨["owner"], false, true⟩, ⟨["instance"], true, false⟩, ⟨["assistant"], false, false⟩]
    args := [] }

/-- `ntt_quoter.json:142-162`. -/
def quoter_setFeeRecipient : IdlInstruction :=
  { name := "setFeeRecipient"
    accounts :=
      [⟨["owner"], false, true⟩, ⟨["instance"], true, false⟩, ⟨["feeRecipient"], false, false⟩]
    args := [] }

/-- `ntt_quoter.json:163-195`. -/
def quoter_registerChain : IdlInstruction :=
  { name := "registerChain"
    accounts :=
      [⟨["authority"], true, true⟩, ⟨["instance"], false, false⟩, ⟨["registeredChain"], true, false⟩,
      ⟨["systemProgram"], false, false⟩]
    args := [(["chainId"], .u16)] }

/-- `ntt_quoter.json:196-228`. -/
def quoter_registerNtt : IdlInstruction :=
  { name := "registerNtt"
    accounts :=
      [⟨["authority"], true, true⟩, ⟨["instance"], false, false⟩, ⟨["registeredNtt"], true, false⟩,
      ⟨["systemProgram"], false, false⟩]
    args := [(["nttProgramId"], .key), (["wormholeTransceiverIndex"], .u8), (["gasCost"], .u32)] }

/-- `ntt_quoter.json:229-261`. -/
def quoter_deregisterNtt : IdlInstruction :=
  { name := "deregisterNtt"
    accounts :=
      [⟨["authority"], true, true⟩, ⟨["instance"], false, false⟩, ⟨["registeredNtt"], true, false⟩,
      ⟨["systemProgram"], false, false⟩]
    args := [(["nttProgramId"], .key)] }

/-- `ntt_quoter.json:262-284`. -/
def quoter_updateSolPrice : IdlInstruction :=
  { name := "updateSolPrice"
    accounts :=
      [⟨["authority"], false, true⟩, ⟨["instance"], true, false⟩]
    args := [(["solPrice"], .u64)] }

/-- `ntt_quoter.json:285-312`. -/
def quoter_updateChainPrices : IdlInstruction :=
  { name := "updateChainPrices"
    accounts :=
      [⟨["authority"], false, true⟩, ⟨["instance"], false, false⟩, ⟨["registeredChain"], true, false⟩]
    args := [(["nativePrice"], .u64), (["gasPrice"], .u64)] }

/-- `ntt_quoter.json:313-340`. -/
def quoter_updateChainParams : IdlInstruction :=
  { name := "updateChainParams"
    accounts :=
      [⟨["authority"], false, true⟩, ⟨["instance"], false, false⟩, ⟨["registeredChain"], true, false⟩]
    args := [(["maxGasDropoff"], .u64), (["basePrice"], .u64)] }

end Ntt.Client.Idl

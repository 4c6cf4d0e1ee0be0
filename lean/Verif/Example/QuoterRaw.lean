import Verif.Spec.QuoterRaw
import Verif.Example.Raw
/-!
# A concrete ledger and history of the quoter

Set up, a request for the transfer of `Example/Raw.lean`, attempts to pass other accounts, and the request is closed.
-/
namespace Ntt.Example.Relay
open Ntt Ntt.Spec Ntt.QRaw Ntt.Quoter Ntt.Gov Ntt.Entry

/-- A stand-in for SHA-256 as in `Example/Raw.lean`; what it gives starts with 238. -/
def qsha (bs : Bytes) : Bytes32 := Ledger.pad (238 :: (bs.take (bs.length - 53)).reverse)

def qenv : QEnv :=
  { programId := A 210, systemProgram := .zeroes, programData := A 211, sha := qsha, findBump := fun _ => 255
    ownPda := fun a => a.val.head? = some 238 }

def inst : Bytes32 := qenv.addr .instance
def chain2 : Bytes32 := qenv.addr (.registeredChain 2)
def nttMe : Bytes32 := qenv.addr (.registeredNtt me)
def request : Bytes32 := qenv.addr (.relayRequest outKey)
def assistant : Bytes32 := A 161
def feeRecipient : Bytes32 := A 160

/-- A transaction with one instruction: the accounts flagged as signer and writable. -/
def callTx (signers : List Bytes32) (accounts : List (Bytes32 × Bool × Bool)) (data : Bytes) : QLTx :=
  ⟨1002240, signers, .call (accounts.map fun a => ⟨a.1, a.2.1, a.2.2⟩) data⟩

/-- The outbox item the manager of `Example/Raw.lean` left at the end of its history. -/
def itemAccount : Option QAccount := ((Raw.run Ledger.renv Ledger.ledger0 Ledger.history).1.accts outKey).map fun a => ⟨a.owner, a.data⟩

/-- Nothing but wallets with lamports; the owner may upgrade the program. -/
def qledger0 : QLedger :=
  { accts := fun _ => none, lamports := fun k => if k = owner ∨ k = user then 100000000000 else 0, upgradeAuthority := some owner }

def setup : List QLTx :=
  [ ⟨0, [user], .write outKey itemAccount⟩
  , callTx [owner] [(owner, true, true), (inst, false, true), (feeRecipient, false, false), (A 211, false, true), (.zeroes, false, false)]
      (qdata .initializeQuoter)
  , callTx [owner] [(owner, true, false), (inst, false, true), (assistant, false, false)] (qdata .setAssistant)
  , callTx [assistant] [(assistant, true, true), (inst, false, false), (chain2, false, true), (.zeroes, false, false)] (qdata (.registerChain 2))
  , callTx [assistant] [(assistant, true, true), (inst, false, false), (nttMe, false, true), (.zeroes, false, false)]
      (qdata (.registerNtt me 0 250000))
  , callTx [assistant] [(assistant, true, false), (inst, false, true)] (qdata (.updateSolPrice 150000000))
  , callTx [assistant] [(assistant, true, false), (inst, false, false), (chain2, false, true)] (qdata (.updateChainPrices 3000000000 5000000000))
  , callTx [assistant] [(assistant, true, false), (inst, false, false), (chain2, false, true)] (qdata (.updateChainParams 100000000 2000000)) ]

def reqMetas : List AccountMeta :=
  [⟨user, true, true⟩, ⟨inst, false, false⟩, ⟨chain2, false, false⟩, ⟨nttMe, false, false⟩, ⟨outKey, false, false⟩, ⟨request, false, true⟩,
    ⟨.zeroes, false, false⟩]

def reqArgs : RequestRelayArgs := { gasDropoff := 10000000, maxFee := 300000000 }

def requestTx : QLTx := ⟨1002240, [user], .call reqMetas (qdata (.requestRelay reqArgs) ++ [7])⟩

/-- A cheaper "configuration" in an account of another program, and a zero-filled account given to the quoter. -/
def attacks : List QLTx :=
  [ ⟨0, [user], .write (A 80) (some ⟨A 81, (qdisc .inst).val ++ Borsh.quoterInstance.write ⟨user, user, user, 1⟩⟩)⟩
  , ⟨0, [user], .write (A 82) (some ⟨A 210, List.replicate 112 0⟩)⟩
  , callTx [user] [(user, true, false), (A 80, false, false), (user, false, true), (request, false, true), (.zeroes, false, false)] (qdata .closeRelay)
  , callTx [user] [(user, true, false), (A 82, false, false), (user, false, true), (request, false, true), (.zeroes, false, false)] (qdata .closeRelay)
  , callTx [assistant] [(assistant, true, false), (inst, false, false), (user, false, true), (request, false, true), (.zeroes, false, false)]
      (qdata .closeRelay)
  , ⟨0, [user], .programTransfer request user 5⟩ ]

def closeTx : QLTx :=
  callTx [assistant] [(assistant, true, false), (inst, false, false), (feeRecipient, false, true), (request, false, true), (.zeroes, false, false)]
    (qdata .closeRelay)

def relayRoles : List QuoterRole :=
  [.instance, .registeredChain 2, .registeredNtt me, .relayRequest outKey, .registeredNtt me, .registeredChain 2]

set_option maxRecDepth 100000 in
theorem setup_roles : qrolesUsed qenv qledger0 (setup ++ [requestTx]) = relayRoles := by decide +kernel

set_option maxRecDepth 100000 in
theorem all_roles : qrolesUsed qenv qledger0 ((setup ++ requestTx :: attacks) ++ [closeTx]) = relayRoles := by decide +kernel

theorem qsha_pda (seeds : Bytes) (b : UInt8) (p : Bytes32) : qsha (pdaPreimage seeds b p) = Ledger.pad (238 :: b :: seeds.reverse) := by
  have h : (seeds ++ [b] ++ p.val ++ ascii ['P', 'r', 'o', 'g', 'r', 'a', 'm', 'D', 'e', 'r', 'i', 'v', 'e', 'd', 'A', 'd', 'd', 'r',
      'e', 's', 's']).length - 53 = (seeds ++ [b]).length := by
    simp only [List.length_append, p.len, ascii, List.length_map, List.length_cons, List.length_nil]
    omega
  rw [qsha, pdaPreimage, h, List.append_assoc (seeds ++ [b]), List.take_left']
  · simp
  · rfl

theorem pad_cons2 (a b : UInt8) (bs : Bytes) : (Ledger.pad (a :: b :: bs)).val = a :: b :: (bs ++ List.replicate 32 0).take 30 := by
  simp [Ledger.pad]

theorem relay_noCollision : QNoShaCollision qenv relayRoles := by
  have key : ∀ r ∈ relayRoles, ∀ r' ∈ relayRoles, (r.seeds.reverse ++ List.replicate 32 0).take 30 =
      (r'.seeds.reverse ++ List.replicate 32 0).take 30 → r = r' := by decide +kernel
  intro r hr r' hr' b b' h
  have h' := congrArg Bytes32.val h
  simp only [qenv, qsha_pda, pad_cons2, List.cons.injEq] at h'
  rw [h'.2.1, key r hr r' hr' h'.2.2]

theorem relay_ownPdas : OwnPdas qenv := by
  intro r b
  simp [QEnv.addrAt, qenv, qsha_pda, pad_cons2]

theorem relay_undeployed : QUndeployed qenv qledger0 :=
  ⟨(fun _ _ h => by cases h), fun _ _ => rfl⟩

set_option maxRecDepth 100000 in
/-- The request costs 0.238333333 SOL (35.75 USD); the attacks fail; closing pays the fee recipient. -/
theorem relay_outcome :
    (qlexec qenv 1002240 [user] (qlrun qenv qledger0 setup) requestTx.ix).isOk = true ∧
    (let s := qlrun qenv qledger0 (setup ++ requestTx :: attacks)
     s.lamports request = 238333333 ∧ s.lamports user = 100000000000 - 238333333 ∧ qcontents qenv tRequest s request = some 10000000 ∧
     qcontents qenv tInst s inst = some ⟨owner, assistant, feeRecipient, 150000000⟩) ∧
    (let s := qlrun qenv qledger0 ((setup ++ requestTx :: attacks) ++ [closeTx])
     s.lamports request = 0 ∧ s.lamports feeRecipient = 238333333) := by decide +kernel

end Ntt.Example.Relay

import Verif.Spec.EvmManager
import Verif.Spec.Network
import Mathlib.Algebra.BigOperators.Group.Finset.Basic
/-!
# Solana programs and EVM contracts connected by Wormhole

Every chain runs either the Solana programs (`Model/Manager.lean`) or the EVM contracts (`Model/EvmManager.lean`),
with its own accounts or storage, so chains influence each other only through messages.  A history of the network is
one list of transactions, each on some chain.
-/
namespace Ntt.Spec
open Ntt

/-- What is deployed on a chain, for which token, and how it started. -/
inductive Side where
  | solana (env : Env) (mint : Bytes32) (decimals : UInt8) (mode : Mode) (start : State)
  | evm (env : Evm.Env) (deployer : Evm.Address) (token : Evm.Erc20) (now : Nat)

/-- A deployment over several chains. -/
structure Mixed where
  chains : List UInt16
  side : UInt16 → Side

/-- A transaction on a chain. -/
inductive MTx where
  | solana (chain : UInt16) (tx : Tx)
  | evm (chain : UInt16) (tx : Evm.Tx)

def MTx.chain : MTx → UInt16
  | .solana c _ | .evm c _ => c

/-- What happens on chain `c`, if the Solana programs run there. -/
def solOn (c : UInt16) (txs : List MTx) : List Tx :=
  txs.filterMap fun | .solana d tx => if d = c then some tx else none | .evm _ _ => none

/-- What happens on chain `c`, if the EVM contracts run there. -/
def evmOn (c : UInt16) (txs : List MTx) : List Evm.Tx :=
  txs.filterMap fun | .evm d tx => if d = c then some tx else none | .solana _ _ => none

/-- The address of the manager, in the format of Wormhole. -/
def Side.manager : Side → Bytes32
  | .solana env .. => env.programId
  | .evm e .. => e.manager.toWormhole

/-- The addresses in whose names Wormhole messages are published. -/
def Side.emitters : Side → List Bytes32
  | .solana env .. => [env.emitter]
  | .evm e .. => e.transceivers.map Evm.Address.toWormhole

/-- The decimals of the token. -/
def Side.decimals : Side → UInt8
  | .solana _ _ decimals _ _ => decimals
  | .evm e .. => e.tokenDecimals

/-- The mode of the manager. -/
def Side.mode : Side → Mode
  | .solana _ _ _ mode _ => mode
  | .evm e .. => e.mode

/-! ### What can be observed -/

/-- On chain `c`, `emitter` has published `payload`. -/
def Published (M : Mixed) (txs : List MTx) (c : UInt16) (emitter : Bytes32) (payload : Bytes) : Prop :=
  match M.side c with
  | .solana env _ _ _ s₀ => emitter = env.emitter ∧ Event.posted payload ∈ (run env s₀ (solOn c txs)).2
  | .evm e d token now => ∃ t : Evm.Address, emitter = t.toWormhole ∧
      Evm.Event.published t payload ∈ (Evm.run e (Evm.initial e d token now) (evmOn c txs)).2

/-- On chain `c`, `n` units of the token were taken for the transfer `id` to `recipient` on chain `chain`. -/
def Debited (M : Mixed) (txs : List MTx) (c : UInt16) (id : Bytes32) (n : Nat) (chain : UInt16)
    (recipient : Bytes32) : Prop :=
  match M.side c with
  | .solana env _ _ _ s₀ => ∃ p t q sender args amount, solOn c txs = p ++ t :: q ∧
      Sends env (run env s₀ p).1 t id sender amount args ∧ n = amount.toNat ∧ args.recipientChain = chain ∧
      args.recipientAddress = recipient
  | .evm e d token now => ∃ seq sender, id.val = List.replicate 24 0 ++ uintBE 8 seq.toNat ∧
      Evm.Event.debited seq sender n chain recipient ∈ (Evm.run e (Evm.initial e d token now) (evmOn c txs)).2

/-- On chain `c`, `n` units of the token were paid into `account` for the message with digest `h`. -/
def Paid (M : Mixed) (txs : List MTx) (c : UInt16) (h account : Bytes32) (n : Nat) : Prop :=
  match M.side c with
  | .solana env _ _ _ s₀ => ∃ amount, n = amount.toNat ∧ Event.paid h account amount ∈ (run env s₀ (solOn c txs)).2
  | .evm e d token now => ∃ r : Evm.Address, account = r.toWormhole ∧
      Evm.Event.paid h r n ∈ (Evm.run e (Evm.initial e d token now) (evmOn c txs)).2

/-- The account of `recipient` on chain `c`: on Solana the associated token account, on an EVM chain the address
itself. -/
def accountOf (M : Mixed) (c : UInt16) (recipient : Bytes32) : Bytes32 :=
  match M.side c with
  | .solana env mint _ _ _ => env.ata recipient mint
  | .evm .. => recipient

/-- On chain `c`, `n` units of the token were given back for the transfer `id`, which was cancelled.  (On Solana
transfers cannot be cancelled.) -/
def Returned (M : Mixed) (txs : List MTx) (c : UInt16) (id : Bytes32) (n : Nat) : Prop :=
  match M.side c with
  | .solana .. => False
  | .evm e d token now => ∃ seq sender, id.val = List.replicate 24 0 ++ uintBE 8 seq.toNat ∧
      Evm.Event.cancelled seq sender n ∈ (Evm.run e (Evm.initial e d token now) (evmOn c txs)).2

/-! ### Totals -/

/-- How much was taken for transfers on chain `c`. -/
def takenOn (M : Mixed) (txs : List MTx) (c : UInt16) : Nat :=
  match M.side c with
  | .solana env _ _ _ s₀ => totalDebited (run env s₀ (solOn c txs)).2
  | .evm e d token now => evmTaken (Evm.run e (Evm.initial e d token now) (evmOn c txs)).2

/-- How much was given on chain `c`: paid for messages, or given back for cancelled transfers. -/
def givenOn (M : Mixed) (txs : List MTx) (c : UInt16) : Nat :=
  match M.side c with
  | .solana env _ _ _ s₀ => totalPaid (run env s₀ (solOn c txs)).2
  | .evm e d token now => evmGiven (Evm.run e (Evm.initial e d token now) (evmOn c txs)).2

/-- How much of the token the manager of chain `c` holds. -/
def lockedOn (M : Mixed) (txs : List MTx) (c : UInt16) : Nat :=
  match M.side c with
  | .solana env _ _ _ s₀ =>
    match (run env s₀ (solOn c txs)).1.config with
    | some cfg => balanceOf (run env s₀ (solOn c txs)).1 cfg.custody
    | none => 0
  | .evm e d token now => (Evm.run e (Evm.initial e d token now) (evmOn c txs)).1.token.balance e.manager

/-- The supply of the token on chain `c`. -/
def supplyOn (M : Mixed) (txs : List MTx) (c : UInt16) : Nat :=
  match M.side c with
  | .solana env mint _ _ s₀ => supplyOf (run env s₀ (solOn c txs)).1 mint
  | .evm e d token now => (Evm.run e (Evm.initial e d token now) (evmOn c txs)).1.token.supply

/-- The value of `n` units on chain `c`, in the smallest unit that any number of decimals allows. -/
def worthOn (M : Mixed) (c : UInt16) (n : Nat) : Nat := n * 10 ^ (255 - (M.side c).decimals.toNat)

/-! ### What is assumed -/

/-- The configuration matches: the owners register as peers only the managers of participating chains, with the true
decimals, as peers of transceivers only their emitters, and no other transceivers than the built-in one (Solana) or
Wormhole transceivers of this deployment (EVM), which do not send transactions of their own. -/
def MAgreed (M : Mixed) : MTx → Prop
  | .solana c tx =>
    match M.side c with
    | .evm .. => True
    | .solana env mint _ mode _ =>
      match tx.ix with
      | .initializeManager mint' args => mint' = mint ∧ args.chainId = c ∧ args.mode = mode
      | .setPeer a => a.chainId ∈ M.chains ∧ a.chainId ≠ c ∧ a.address = (M.side a.chainId).manager ∧
          a.tokenDecimals = (M.side a.chainId).decimals
      | .setTransceiverPeer ch a => ch ∈ M.chains ∧ a ∈ (M.side ch).emitters
      | .registerTransceiver tr => tr = env.programId
      | _ => True
  | .evm c tx =>
    match M.side c with
    | .solana .. => True
    | .evm e .. => tx.ctx.sender ∉ e.transceivers ∧
      match tx.call with
      | .setPeer ch p decimals _ => ch ∈ M.chains ∧ p = (M.side ch).manager ∧ decimals = (M.side ch).decimals
      | .setWormholePeer _ ch a => ch ∈ M.chains ∧ a ∈ (M.side ch).emitters
      | .setTransceiver t => t ∈ e.transceivers
      | _ => True

/-- Attestations are authentic: what is attested in the name of an emitter of a participating chain was published by
it before.  Nothing is attested in the name of the zero address.  (Anything else may be attested by anybody.) -/
structure MAuthentic (M : Mixed) (txs : List MTx) : Prop where
  solana : ∀ pre c rt vaa post, txs = pre ++ .solana c ⟨rt, .receiveMessage vaa⟩ :: post →
    vaa.emitterChain ∈ M.chains → vaa.emitterAddress ∈ (M.side vaa.emitterChain).emitters →
    Published M pre vaa.emitterChain vaa.emitterAddress vaa.payload
  evm : ∀ pre c tx post e d token now, txs = pre ++ .evm c tx :: post → M.side c = .evm e d token now →
    ∀ t chain emitter hash payload, EvmDelivers e tx t chain emitter hash payload → emitter ≠ Bytes32.zeroes ∧
      (chain ∈ M.chains → emitter ∈ (M.side chain).emitters → Published M pre chain emitter payload)

/-- The transaction makes the contracts hash the message `m` from chain `chain`: it asks to execute it, attests to
it, or delivers it to a transceiver. -/
def EvmHashes (e : Evm.Env) (tx : Evm.Tx) (chain : UInt16) (m : Evm.NttManagerMessage) : Prop :=
  (∃ source, tx.call = .executeMsg chain source m ∨ tx.call = .attestationReceived chain source m) ∨
  ∃ t emitter hash payload source target extra, EvmDelivers e tx t chain emitter hash payload ∧
    payload = evmTransceiverBytes source target (nttManagerMessage m.id.val m.sender.val m.payload) extra

/-- The hash function of the EVM chains does not collide on what is hashed in this history. -/
def MNoCollision (M : Mixed) (txs : List MTx) : Prop :=
  ∀ c e d token now, M.side c = .evm e d token now →
    ∀ tx ∈ evmOn c txs, ∀ tx' ∈ evmOn c txs, ∀ chain m chain' m' h, EvmHashes e tx chain m → EvmHashes e tx' chain' m' →
      IsDigest e chain m h → IsDigest e chain' m' h → chain = chain' ∧ m = m'

/-- A history of a matching deployment: everything was just deployed and the tokens exist, the owners configure as
agreed, attestations are authentic.  Everything else is arbitrary. -/
structure MProper (M : Mixed) (txs : List MTx) : Prop where
  solana : ∀ c ∈ M.chains, ∀ env mint decimals mode s₀, M.side c = .solana env mint decimals mode s₀ →
    Genesis env s₀ ∧ ∃ m, s₀.token.mints mint = some m ∧ m.decimals = decimals
  evm : ∀ c ∈ M.chains, ∀ e d token now, M.side c = .evm e d token now → e.chainId = c
  agreed : ∀ t ∈ txs, t.chain ∈ M.chains ∧ MAgreed M t
  authentic : MAuthentic M txs
  collision : MNoCollision M txs

/-- The payment of `n` into `account` on chain `d` for the message with digest `h` is for the transfer `id` made on
chain `s`: when it was paid, that transfer had been debited before, on another chain, for the owner of the account
and with the same value. -/
def MPaysFor (M : Mixed) (txs : List MTx) (d : UInt16) (h account : Bytes32) (n : Nat) (s : UInt16) (id : Bytes32) :
    Prop :=
  s ∈ M.chains ∧ s ≠ d ∧ ∃ pre tx post, txs = pre ++ tx :: post ∧ ¬ Paid M pre d h account n ∧
    Paid M (pre ++ [tx]) d h account n ∧
    ∃ taken recipient, Debited M pre s id taken d recipient ∧ account = accountOf M d recipient ∧
      SameValue n (M.side d).decimals.toNat taken (M.side s).decimals.toNat

/-- The transaction is not sent in the name of the programs or the manager themselves. -/
def MUser (M : Mixed) : MTx → Prop
  | .solana c tx => ∀ env mint decimals mode s₀, M.side c = .solana env mint decimals mode s₀ → UserSigned env tx
  | .evm c tx => ∀ e d token now, M.side c = .evm e d token now → tx.ctx.sender ≠ e.manager

/-- After this history the chain is in operation: the Solana programs are initialised, the balances of the EVM token
were no more than its supply. -/
def MReady (M : Mixed) (txs : List MTx) (c : UInt16) : Prop :=
  match M.side c with
  | .solana env _ _ _ s₀ => (run env s₀ (solOn c txs)).1.config ≠ none
  | .evm _ _ token _ => ∀ F : Finset Evm.Address, ∑ a ∈ F, token.balance a ≤ token.supply

end Ntt.Spec

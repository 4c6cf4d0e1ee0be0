import Verif.Example.Network
import Verif.Example.EvmManager
import Verif.Lemmas.WireFormat
import Verif.Spec.MixedNetwork
/-!
# The Solana programs connected to the EVM contracts

A locking hub on chain 1 with the Solana programs (9 decimals) and a burning spoke on chain 2 with the EVM contracts
(18 decimals).  A user locks 3 tokens on the hub for an address on the spoke, which receives them and sends 1 token
back, which `recipient` receives on the hub.
-/
namespace Ntt.Example.Mix
open Ntt Spec Example

/-- The contracts of the other example; here only one transceiver is registered. -/
def evmEnv : Evm.Env := EvmM.env

def net : Mixed :=
  { chains := [1, 2]
    side := fun c => if c = 1 then .solana Two.env1 mint 9 .locking s0 else .evm evmEnv EvmM.owner ⟨fun _ => 0, 0⟩ 1000 }

def sol (n : Int) (signer : Bytes32) (ix : Ix) : MTx := .solana 1 ⟨rt n [signer], ix⟩
def evm (n : Nat) (sender : Evm.Address) (c : Evm.Call) : MTx := .evm 2 (EvmM.at_ sender n c)

def setup : List MTx :=
  [ sol 1000 owner (.initializeManager mint { chainId := 1, limit := 5000000000, mode := .locking })
  , evm 1000 EvmM.owner (.setTransceiver EvmM.wormhole)
  , sol 1001 owner (.setPeer { chainId := 2, address := evmEnv.manager.toWormhole, limit := 5000000000, tokenDecimals := 18 })
  , evm 1001 EvmM.owner (.setPeer 1 me 9 (5 * 10 ^ 18))
  , sol 1002 owner (.setTransceiverPeer 2 EvmM.wormhole.toWormhole)
  , evm 1002 EvmM.owner (.setWormholePeer EvmM.wormhole 1 (A 106))
  , sol 1003 owner (.registerTransceiver me)
  , evm 1003 EvmM.owner (.setOutboundLimit (5 * 10 ^ 18)) ]

def sent : OutboxItem :=
  { amount := ⟨300000000, 8⟩, sender := user, recipientChain := 2, recipientNttManager := evmEnv.manager.toWormhole
    recipientAddress := EvmM.user.toWormhole, releaseTimestamp := 2001, released := .new }

/-- What the Solana programs publish. -/
def sentBytes : Bytes := ((sent.message Two.env1 mint outKey).write whPrefix Ntt.codec).getD []

/-- What the EVM contracts publish. -/
def backBytes : Bytes :=
  Evm.transceiverPrefix.val ++ evmEnv.manager.toWormhole.val ++ me.val
    ++ withLength (nttManagerMessage (Evm.idOfSequence 0).val EvmM.user.toWormhole.val (evmTransferBytes
      { amount := Evm.pack 100000000 8, sourceToken := evmEnv.token.toWormhole, «to» := recipient, toChain := 1,
        additionalPayload := [] }))
    ++ withLength []

def life : List MTx :=
  [ sol 2000 user (.token (.approve userAcct user (A 104) 3000000007))
  , sol 2001 outKey (.transferLock userAcct outKey
      { amount := 3000000007, recipientChain := 2, recipientAddress := EvmM.user.toWormhole, shouldQueue := false })
  , sol 2002 user (.releaseOutbound me outKey true)
  , evm 2003 EvmM.relayer (.receiveMessage EvmM.wormhole ⟨A 150, 1, A 106, sentBytes⟩)
  , evm 3000 EvmM.user (.transfer (10 ^ 18) 1 recipient recipient false [0])
  , sol 3001 user (.receiveMessage { emitterChain := 2, emitterAddress := EvmM.wormhole.toWormhole, payload := backBytes })
  , sol 3002 user (.redeem me (.own 2 (A 0)))
  , sol 3003 user (.token (.createAccount recAcct recipient mint))
  , sol 3004 user (.releaseInboundUnlock (A 0) recAcct true) ]

def history : List MTx := setup ++ life

set_option maxRecDepth 100000 in
theorem events1 : (run Two.env1 s0 (solOn 1 history)).2 =
    [.debited userAcct user outKey 3000000000, .posted sentBytes, .paid (A 0) recAcct 1000000000] := by
  decide +kernel

set_option maxRecDepth 100000 in
theorem events2 : (Evm.run evmEnv (Evm.initial evmEnv EvmM.owner ⟨fun _ => 0, 0⟩ 1000) (evmOn 2 history)).2 =
    [.published EvmM.wormhole (Evm.encodeTransceiverRegistration ⟨Evm.peerPrefix, 1, A 106⟩),
     .attested outKey EvmM.wormhole, .paid outKey EvmM.user (3 * 10 ^ 18),
     .debited 0 EvmM.user (10 ^ 18) 1 recipient,
     .sent 0 EvmM.wormhole 1 me (nttManagerMessage (Evm.idOfSequence 0).val EvmM.user.toWormhole.val (evmTransferBytes
      { amount := Evm.pack 100000000 8, sourceToken := evmEnv.token.toWormhole, «to» := recipient, toChain := 1,
        additionalPayload := [] })),
     .published EvmM.wormhole backBytes] := by
  decide +kernel

/-- Bytes determine the message that is in them. -/
theorem message_unique {a b a' b' : Bytes32} {m m' : Evm.NttManagerMessage} {x x' : Bytes}
    (hm : m.payload.length < 65536) (hm' : m'.payload.length < 65536)
    (h : evmTransceiverBytes a b (nttManagerMessage m.id.val m.sender.val m.payload) x =
      evmTransceiverBytes a' b' (nttManagerMessage m'.id.val m'.sender.val m'.payload) x') : m = m' := by
  simp only [evmTransceiverBytes, withLength, nttManagerMessage, List.append_assoc] at h
  have h := (List.append_inj h (by simp)).2
  have h := (List.append_inj h (by simp [Bytes32.len])).2
  have h := (List.append_inj h (by simp [Bytes32.len])).2
  have h := (List.append_inj h (by simp [uintBE_length])).2
  obtain ⟨h1, h⟩ := List.append_inj h (by simp [Bytes32.len])
  obtain ⟨h2, h⟩ := List.append_inj h (by simp [Bytes32.len])
  obtain ⟨h3, h⟩ := List.append_inj h (by simp [uintBE_length])
  have h4 := uintBE_inj (by simpa using hm) (by simpa using hm') h3
  have h5 := (List.append_inj h h4).1
  obtain ⟨i, s, p⟩ := m
  obtain ⟨i', s', p'⟩ := m'
  simp only at h1 h2 h5
  rw [Bytes32.ext h1, Bytes32.ext h2, h5]

theorem noCollision : MNoCollision net history := by
  intro c e d token now hside tx ht tx' ht' chain m chain' m' h h1 h2 h3 h4
  have hc : c ≠ 1 := by rintro rfl; cases hside
  have he : net.side c = .evm evmEnv EvmM.owner ⟨fun _ => 0, 0⟩ 1000 := by unfold net; simp [hc]
  rw [he] at hside
  cases hside
  have only : ∀ tx ∈ evmOn c history, ∀ chain m, EvmHashes evmEnv tx chain m → chain = 1 ∧ ∃ source target extra,
      sentBytes = evmTransceiverBytes source target (nttManagerMessage m.id.val m.sender.val m.payload) extra := by
    intro tx ht chain m hh
    simp only [evmOn, List.mem_filterMap] at ht
    obtain ⟨x, hx, hx'⟩ := ht
    simp only [history, setup, life, List.cons_append, List.nil_append, List.mem_cons, List.not_mem_nil,
      or_false] at hx
    rcases hx with rfl | rfl | rfl | rfl | rfl | rfl | rfl | rfl | rfl | rfl | rfl | rfl | rfl | rfl | rfl | rfl |
      rfl <;> simp only [sol, evm, Option.ite_none_right_eq_some, Option.some.injEq, reduceCtorEq] at hx' <;>
      obtain ⟨-, rfl⟩ := hx' <;>
      simp only [EvmHashes, EvmDelivers, EvmM.at_, reduceCtorEq, or_self, false_and, exists_false,
        Evm.Call.receiveMessage.injEq, Evm.Vaa.mk.injEq, or_false, false_or] at hh
    obtain ⟨t, em, hash, payload, source, target, extra, ⟨-, -, rfl, -, rfl⟩, e⟩ := hh
    exact ⟨rfl, source, target, extra, e⟩
  obtain ⟨rfl, s1, t1, x1, e1⟩ := only tx ht chain m h1
  obtain ⟨rfl, s2, t2, x2, e2⟩ := only tx' ht' chain' m' h2
  exact ⟨rfl, message_unique h3.1 h4.1 (e1.symm.trans e2)⟩

theorem published1 : Published net (history.take 11) 1 (A 106) sentBytes := by
  have h : Event.posted sentBytes ∈ (run Two.env1 s0 (solOn 1 (history.take 11))).2 := by
    set_option maxRecDepth 100000 in decide +kernel
  exact ⟨rfl, h⟩

theorem published2 : Published net (history.take 13) 2 EvmM.wormhole.toWormhole backBytes := by
  have h : Evm.Event.published EvmM.wormhole backBytes ∈
      (Evm.run evmEnv (Evm.initial evmEnv EvmM.owner ⟨fun _ => 0, 0⟩ 1000) (evmOn 2 (history.take 13))).2 := by
    set_option maxRecDepth 100000 in decide +kernel
  exact ⟨_, rfl, h⟩

theorem authentic : MAuthentic net history where
  solana := by
    intro pre d rt' vaa post h hc he
    obtain ⟨h1, h2⟩ := Two.split_take h
    have hl : pre.length < 17 := by
      have := congrArg List.length h
      simp [history, setup, life] at this
      omega
    rw [h1]
    generalize pre.length = n at *
    have hv : n = 13 ∧ vaa = { emitterChain := 2, emitterAddress := EvmM.wormhole.toWormhole, payload := backBytes } := by
      rcases n with _ | _ | _ | _ | _ | _ | _ | _ | _ | _ | _ | _ | _ | _ | _ | _ | _ | n <;>
        first
        | omega
        | (simp [history, setup, life, sol, evm] at h2; done)
        | (simp [history, setup, life, sol, evm] at h2; exact ⟨rfl, h2.2.2.symm⟩)
    obtain ⟨rfl, rfl⟩ := hv
    exact published2
  evm := by
    intro pre c tx post e d token now h hside t chain emitter hash payload hd
    obtain ⟨h1, h2⟩ := Two.split_take h
    have hl : pre.length < 17 := by
      have := congrArg List.length h
      simp [history, setup, life] at this
      omega
    rw [h1]
    generalize pre.length = n at *
    have hv : n = 11 ∧ chain = 1 ∧ emitter = A 106 ∧ payload = sentBytes := by
      rcases n with _ | _ | _ | _ | _ | _ | _ | _ | _ | _ | _ | _ | _ | _ | _ | _ | _ | n <;>
        first
        | omega
        | (simp [history, setup, life, sol, evm] at h2; done)
        | (simp only [history, setup, life, sol, evm, List.cons_append, List.nil_append, List.getElem?_cons_succ,
            List.getElem?_cons_zero, Option.some.injEq, MTx.evm.injEq] at h2
           obtain ⟨-, rfl⟩ := h2
           simp only [EvmDelivers, EvmM.at_, reduceCtorEq, false_and, or_self, or_false,
             Evm.Call.receiveMessage.injEq, Evm.Vaa.mk.injEq] at hd
           done)
        | (simp only [history, setup, life, sol, evm, List.cons_append, List.nil_append, List.getElem?_cons_succ,
            List.getElem?_cons_zero, Option.some.injEq, MTx.evm.injEq] at h2
           obtain ⟨-, rfl⟩ := h2
           simp only [EvmDelivers, EvmM.at_, reduceCtorEq, false_and, or_false,
             Evm.Call.receiveMessage.injEq, Evm.Vaa.mk.injEq] at hd
           exact ⟨rfl, hd.2.2.1.symm, hd.2.2.2.1.symm, hd.2.2.2.2.symm⟩)
    obtain ⟨rfl, rfl, rfl, rfl⟩ := hv
    exact ⟨by decide, fun _ _ => published1⟩

theorem side1 : net.side 1 = .solana Two.env1 mint 9 .locking s0 := rfl
theorem side2 : net.side 2 = .evm evmEnv EvmM.owner ⟨fun _ => 0, 0⟩ 1000 := rfl
theorem chains : net.chains = [1, 2] := rfl

theorem proper : MProper net history where
  solana := by
    intro c hc env mint' decimals mode s hside
    simp only [net] at hside
    split at hside <;> cases hside
    exact ⟨Two.start_genesis 1, _, rfl, rfl⟩
  evm := by
    intro c hc e d token now hside
    simp only [net, List.mem_cons, List.not_mem_nil, or_false] at hc
    rcases hc with rfl | rfl <;> cases hside
    rfl
  agreed := by
    intro t ht
    simp only [history, setup, life, List.cons_append, List.nil_append, List.mem_cons, List.not_mem_nil,
      or_false] at ht
    rcases ht with rfl | rfl | rfl | rfl | rfl | rfl | rfl | rfl | rfl | rfl | rfl | rfl | rfl | rfl | rfl | rfl |
      rfl <;> refine ⟨by decide, ?_⟩ <;>
        simp only [sol, evm, MAgreed, side1, side2, chains, EvmM.at_, Side.manager, Side.decimals, Side.emitters] <;>
        decide
  authentic := authentic
  collision := noCollision

theorem user1 (t : MTx) (ht : t ∈ history) : MUser net t := by
  simp only [history, setup, life, List.cons_append, List.nil_append, List.mem_cons, List.not_mem_nil,
    or_false] at ht
  rcases ht with rfl | rfl | rfl | rfl | rfl | rfl | rfl | rfl | rfl | rfl | rfl | rfl | rfl | rfl | rfl | rfl |
    rfl <;> first
    | (intro env mint' decimals mode s hside
       cases hside
       exact Two.signed_by _ (by decide) 1 _ _)
    | (intro e d token now hside
       cases hside
       decide)

end Ntt.Example.Mix

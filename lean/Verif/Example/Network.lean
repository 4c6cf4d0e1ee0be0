import Verif.Example.History
import Verif.Spec.Network
import Verif.Lemmas.Conservation
/-!
# Two connected deployments

A locking hub on chain 1 (9 decimals) and a burning spoke on chain 2 (18 decimals).  A user locks 3 tokens on the
hub for `recipient` on the spoke, who receives them there and sends 1 token back, which is still in flight.
-/
namespace Ntt.Example.Two
open Ntt Spec Example

/-- Sees only the last byte of the id. -/
def hash (bs : Bytes) : Bytes32 := A (bs.getD 33 0)

def env1 : Env := { Example.env with hash }
def env2 : Env := { Example.env with programId := peerMgr, emitter := peerTr, hash }

def net : Net :=
  { chains := [1, 2]
    env := fun c => if c = 1 then env1 else env2
    mint := fun _ => mint
    decimals := fun c => if c = 1 then 9 else 18
    mode := fun c => if c = 1 then .locking else .burning }

/-- No tokens on the spoke. -/
def spoke0 : State :=
  { s0 with token :=
      { mints := fun k =>
          if k = mint then some { decimals := 18, supply := 0, authority := some tokenAuth, program := A 90 } else none
        accts := fun _ => none } }

def start (c : UInt16) : State := if c = 1 then s0 else spoke0

def backKey : Bytes32 := A 15

def setup : List NTx :=
  [ ⟨1, rt 1000 [owner], .initializeManager mint { chainId := 1, limit := 5000000000, mode := .locking }⟩
  , ⟨2, rt 1000 [owner], .initializeManager mint
      { chainId := 2, limit := 5000000000000000000, mode := .burning }⟩
  , ⟨1, rt 1001 [owner], .setPeer { chainId := 2, address := peerMgr, limit := 5000000000, tokenDecimals := 18 }⟩
  , ⟨2, rt 1001 [owner], .setPeer
      { chainId := 1, address := me, limit := 5000000000000000000, tokenDecimals := 9 }⟩
  , ⟨1, rt 1002 [owner], .setTransceiverPeer 2 peerTr⟩
  , ⟨2, rt 1002 [owner], .setTransceiverPeer 1 (A 106)⟩
  , ⟨1, rt 1003 [owner], .registerTransceiver me⟩
  , ⟨2, rt 1003 [owner], .registerTransceiver peerMgr⟩ ]

def sent : OutboxItem :=
  { amount := ⟨300000000, 8⟩, sender := user, recipientChain := 2, recipientNttManager := peerMgr
    recipientAddress := recipient, releaseTimestamp := 2001, released := .new }

def sentBytes : Bytes := ((sent.message env1 mint outKey).write whPrefix Ntt.codec).getD []

def life : List NTx :=
  [ ⟨1, rt 2000 [user], .token (.approve userAcct user (A 104) 3000000007)⟩
  , ⟨1, rt 2001 [outKey], .transferLock userAcct outKey
      { amount := 3000000007, recipientChain := 2, recipientAddress := recipient, shouldQueue := false }⟩
  , ⟨1, rt 2002 [user], .releaseOutbound me outKey true⟩
  , ⟨2, rt 2003 [user], .receiveMessage { emitterChain := 1, emitterAddress := A 106, payload := sentBytes }⟩
  , ⟨2, rt 2004 [user], .redeem peerMgr (.own 1 outKey)⟩
  , ⟨2, rt 2005 [user], .token (.createAccount recAcct recipient mint)⟩
  , ⟨2, rt 2006 [user], .releaseInboundMint (A 5) recAcct true⟩
  , ⟨2, rt 3000 [recipient], .token (.approve recAcct recipient (A 104) 1000000000000000000)⟩
  , ⟨2, rt 3001 [backKey], .transferBurn recAcct backKey
      { amount := 1000000000000000000, recipientChain := 1, recipientAddress := user, shouldQueue := false }⟩ ]

def history : List NTx := setup ++ life

set_option maxRecDepth 20000 in
theorem events1 : eventsOf net start history 1 = [.debited userAcct user outKey 3000000000, .posted sentBytes] := by
  decide +kernel

set_option maxRecDepth 20000 in
theorem events2 : eventsOf net start history 2 =
    [.paid (A 5) recAcct 3000000000000000000, .debited recAcct recipient backKey 1000000000000000000] := by
  decide +kernel

/-- A recorded transfer was debited. -/
theorem outbox_debited {env : Env} {s : State} (h0 : ∀ k, s.outbox k = none) {txs : List Tx} {k : Bytes32}
    {i : OutboxItem} (h : (run env s txs).1.outbox k = some i) :
    ∃ a sd n, Event.debited a sd k n ∈ (run env s txs).2 := by
  obtain ⟨p, t, q, n, args, _, _, _, _, f⟩ := outbox_facts h0 txs k i h
  obtain ⟨a, _, s', _, _, _, hx⟩ := f.sends
  refine ⟨a, i.sender, n, ?_⟩
  rw [f.split, run_append]
  exact List.mem_append_right _ (by simp [run, submit, hx])

theorem start_genesis (c : UInt16) : Genesis (net.env c) (start c) := by
  unfold start net
  simp only
  split
  · exact ⟨rfl, rfl, fun _ => rfl, fun _ => rfl, fun _ => rfl, fun _ => rfl, fun _ => rfl, fun _ => rfl,
      fun _ _ => rfl, s0_genesis.delegates⟩
  · exact ⟨rfl, rfl, fun _ => rfl, fun _ => rfl, fun _ => rfl, fun _ => rfl, fun _ => rfl, fun _ => rfl,
      fun _ _ => rfl, fun _ _ h => (by cases h)⟩

theorem outbox1 {key : Bytes32} {i : OutboxItem} (h : (stateOf net start history 1).outbox key = some i) :
    key = outKey := by
  unfold stateOf at h
  obtain ⟨a, sd, n, he⟩ := outbox_debited (env := net.env 1) (s := start 1) (start_genesis 1).outbox (txs := onChain 1 history) h
  have e := events1
  unfold eventsOf at e
  rw [e] at he
  simp at he
  exact he.2.2.1

theorem outbox2 {key : Bytes32} {i : OutboxItem} (h : (stateOf net start history 2).outbox key = some i) :
    key = backKey := by
  unfold stateOf at h
  obtain ⟨a, sd, n, he⟩ := outbox_debited (env := net.env 2) (s := start 2) (start_genesis 2).outbox (txs := onChain 2 history) h
  have e := events2
  unfold eventsOf at e
  rw [e] at he
  simp at he
  exact he.2.2.1

set_option maxRecDepth 20000 in
theorem noCollision : NoDigestCollision net start history := by
  have key : ∀ s ∈ net.chains, ∀ key i, digestOf net start history s key = some i →
      (s = 1 ∧ key = outKey) ∨ (s = 2 ∧ key = backKey) := by
    intro s hs key i h
    simp only [digestOf] at h
    split at h <;> [skip; cases h]
    rename_i item ho
    simp only [net, List.mem_cons, List.not_mem_nil, or_false] at hs
    rcases hs with rfl | rfl
    · exact Or.inl ⟨rfl, outbox1 ho⟩
    · exact Or.inr ⟨rfl, outbox2 ho⟩
  have d1 : (digestOf net start history 1 outKey).map hash = some (A 5) := by decide +kernel
  have d2 : (digestOf net start history 2 backKey).map hash = some (A 15) := by decide +kernel
  intro d hd s hs s' hs' k k' i i' h h' e
  have e : hash i = hash i' := by
    simp only [net, List.mem_cons, List.not_mem_nil, or_false] at hd
    rcases hd with rfl | rfl <;> exact e
  rcases key s hs k i h with ⟨rfl, rfl⟩ | ⟨rfl, rfl⟩ <;> rcases key s' hs' k' i' h' with ⟨rfl, rfl⟩ | ⟨rfl, rfl⟩
  · rw [h] at h'; cases h'; rfl
  · rw [h] at d1; rw [h'] at d2
    simp only [Option.map_some, Option.some.injEq] at d1 d2
    rw [d1, d2] at e; exact absurd e (by decide)
  · rw [h] at d2; rw [h'] at d1
    simp only [Option.map_some, Option.some.injEq] at d1 d2
    rw [d1, d2] at e; exact absurd e (by decide)
  · rw [h] at h'; cases h'; rfl

theorem split_take {α : Type} {l pre post : List α} {x : α} (h : l = pre ++ x :: post) :
    pre = l.take pre.length ∧ l[pre.length]? = some x := by
  subst h; simp

set_option maxRecDepth 20000 in
theorem authentic : Authentic net start history := by
  intro pre d rt' vaa post h hc he
  obtain ⟨h1, h2⟩ := split_take h
  have hl : pre.length < 17 := by
    have := congrArg List.length h
    simp [history, setup, life] at this
    omega
  rw [h1]
  generalize pre.length = n at *
  have hv : n = 11 ∧ vaa = { emitterChain := 1, emitterAddress := A 106, payload := sentBytes } := by
    rcases n with _ | _ | _ | _ | _ | _ | _ | _ | _ | _ | _ | _ | _ | _ | _ | _ | _ | n <;>
      first
      | omega
      | (simp [history, setup, life] at h2; done)
      | (simp [history, setup, life] at h2; exact ⟨rfl, h2.2.2.symm⟩)
  obtain ⟨rfl, rfl⟩ := hv
  decide +kernel

theorem proper : Proper net start history where
  genesis := fun c _ => start_genesis c
  tokens := by
    intro c _
    unfold start net
    simp only
    split
    · exact ⟨_, rfl, rfl⟩
    · exact ⟨_, rfl, rfl⟩
  agreed := by
    intro t ht
    simp only [history, setup, life, List.cons_append, List.nil_append, List.mem_cons, List.not_mem_nil,
      or_false] at ht
    rcases ht with rfl | rfl | rfl | rfl | rfl | rfl | rfl | rfl | rfl | rfl | rfl | rfl | rfl | rfl | rfl | rfl |
      rfl <;> simp only [Agreed] <;> decide
  authentic := authentic

theorem signed_by : ∀ b : UInt8, (b = 1 ∨ b = 2 ∨ b = 5 ∨ b = 9 ∨ b = 15) → ∀ c n ix,
    UserSigned (net.env c) ⟨rt n [A b], ix⟩ := by
  intro b hb c n ix
  have e : ∀ o h, (net.env c).sessionAuthority o h = Example.env.sessionAuthority o h := by
    intro o h; unfold net; simp only; split <;> rfl
  have e1 : (net.env c).tokenAuthority = A 101 := by unfold net; simp only; split <;> rfl
  have e2 : (net.env c).upgradeLock = A 102 := by unfold net; simp only; split <;> rfl
  have e3 : (net.env c).outboxSigner (net.env c).programId = A 105 := by unfold net; simp only; split <;> rfl
  rcases hb with rfl | rfl | rfl | rfl | rfl <;>
    exact ⟨by rw [e1]; simp only [rt]; decide, by rw [e2]; simp only [rt]; decide,
      fun _ _ _ _ => by rw [e, e1]; exact session_ne _ _,
      by rw [e3]; simp only [rt]; decide, by simp only [rt]; decide⟩

theorem userSigned : ∀ t ∈ history, UserSigned (net.env t.chain) t.tx := by
  intro t ht
  simp only [history, setup, life, List.cons_append, List.nil_append, List.mem_cons, List.not_mem_nil,
    or_false] at ht
  rcases ht with rfl | rfl | rfl | rfl | rfl | rfl | rfl | rfl | rfl | rfl | rfl | rfl | rfl | rfl | rfl | rfl |
    rfl <;> exact signed_by _ (by decide) _ _ _

end Ntt.Example.Two

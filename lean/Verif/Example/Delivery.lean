import Verif.Example.Network
/-!
# A transfer with interference

As in `Example/Network.lean`, but on the spoke the attested message is presented twice, a stranger tries to pause
the program, and everybody waits for a day before the transfer is paid out.
-/
namespace Ntt.Example.Slow
open Ntt Spec Example Example.Two

def vaa : Vaa := { emitterChain := 1, emitterAddress := A 106, payload := sentBytes }

/-- Up to the publication of the message. -/
def sending : List NTx := Two.setup ++ Two.life.take 3
def receive : Tx := ⟨rt 2003 [user], .receiveMessage vaa⟩
def interference : List NTx := [⟨2, rt 2003 [user], .receiveMessage vaa⟩, ⟨2, rt 2003 [user], .setPaused true⟩]
def redeem : Tx := ⟨rt 2004 [user], .redeem peerMgr (.own 1 outKey)⟩
def account : List NTx := [⟨2, rt 2005 [user], .token (.createAccount recAcct recipient mint)⟩]
def release : Tx := ⟨rt 88404 [user], .releaseInboundMint (A 5) recAcct true⟩

def history : List NTx :=
  sending ++ ⟨2, receive⟩ :: interference ++ ⟨2, redeem⟩ :: account ++ [⟨2, release⟩]

set_option maxRecDepth 20000 in
theorem events1 : eventsOf net start history 1 = [.debited userAcct user outKey 3000000000, .posted sentBytes] := by
  decide +kernel

set_option maxRecDepth 20000 in
theorem events2 : eventsOf net start history 2 = [.paid (A 5) recAcct 3000000000000000000] := by
  decide +kernel

theorem noCollision : NoDigestCollision net start history := by
  have key : ∀ s ∈ net.chains, ∀ key i, digestOf net start history s key = some i → s = 1 ∧ key = outKey := by
    intro s hs key i h
    simp only [digestOf] at h
    split at h <;> [skip; cases h]
    rename_i item ho
    unfold stateOf at ho
    obtain ⟨a, sd, n, he⟩ := outbox_debited (env := net.env s) (s := start s) (start_genesis s).outbox
      (txs := onChain s history) ho
    simp only [net, List.mem_cons, List.not_mem_nil, or_false] at hs
    rcases hs with rfl | rfl
    · have e := events1
      unfold eventsOf at e
      rw [e] at he
      simp at he
      exact ⟨rfl, he.2.2.1⟩
    · have e := events2
      unfold eventsOf at e
      rw [e] at he
      simp at he
  intro d _ s hs s' hs' k k' i i' h h' _
  obtain ⟨rfl, rfl⟩ := key s hs k i h
  obtain ⟨rfl, rfl⟩ := key s' hs' k' i' h'
  rw [h] at h'; cases h'; rfl

set_option maxRecDepth 20000 in
theorem authentic : Authentic net start history := by
  intro pre d rt' v post h hc he
  obtain ⟨h1, h2⟩ := split_take h
  have hl : pre.length < 17 := by
    have := congrArg List.length h
    simp [history, sending, Two.setup, Two.life, interference, account] at this
    omega
  rw [h1]
  generalize pre.length = n at *
  have hv : (n = 11 ∨ n = 12) ∧ v = vaa := by
    rcases n with _ | _ | _ | _ | _ | _ | _ | _ | _ | _ | _ | _ | _ | _ | _ | _ | _ | n <;>
      first
      | omega
      | (simp [history, sending, Two.setup, Two.life, interference, account, receive, redeem, release] at h2; done)
      | (simp [history, sending, Two.setup, Two.life, interference, account, receive, redeem, release] at h2
         exact ⟨by omega, h2.2.2.symm⟩)
  obtain ⟨rfl | rfl, rfl⟩ := hv <;> decide +kernel

theorem proper : Proper net start history where
  genesis := Two.proper.genesis
  tokens := Two.proper.tokens
  agreed := by
    intro t ht
    simp only [history, sending, Two.setup, Two.life, interference, account, receive, redeem, release, List.take,
      List.cons_append, List.nil_append, List.mem_cons, List.not_mem_nil, or_false] at ht
    rcases ht with rfl | rfl | rfl | rfl | rfl | rfl | rfl | rfl | rfl | rfl | rfl | rfl | rfl | rfl | rfl | rfl |
      rfl <;> simp only [Agreed] <;> decide
  authentic := authentic

end Ntt.Example.Slow

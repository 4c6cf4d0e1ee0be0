import Verif.Model.Lut
import Verif.Spec.Raw
/-!
# Specification for C80: the lookup table
-/
namespace Ntt.Spec
open Ntt Ntt.Raw Ntt.Entry Ntt.Lut

/-- The roles whose addresses are derived in a history. -/
def tableRoles (e : LEnv) (s : LState) : List LTx → List Role
  | [] => []
  | tx :: rest => (match tx.ix with
      | .initializeLut a _ slot => touched e.toREnv tx.rt.toRRt s.ledger (.initializeLut a slot)
      | .other ix => touched e.toREnv tx.rt.toRRt s.ledger ix
      | .table _ => []) ++ tableRoles e (Lut.submit e s tx) rest

/-- The accounts every transfer needs, in the order in which clients find them: of the program, of the token, of the core bridge. -/
def listing (e : LEnv) (cfg : Config) (x : BridgeAccounts) : List Bytes32 :=
  [ e.programId, e.addr .config, cfg.custody, cfg.tokenProgram, cfg.mint, e.addr .tokenAuthority, e.addr .outboxRateLimit
  , x.bridge, x.feeCollector, x.sequence, e.wormholeProgram, e.systemProgram, e.clockSysvar, e.rentSysvar ]

/-- A table under the authority of the program. -/
def ProgramTable (e : LEnv) (s : LState) (k : Bytes32) (t : Table) : Prop := s.tables k = some t ∧ t.authority = some (e.addr .lutAuthority)

end Ntt.Spec

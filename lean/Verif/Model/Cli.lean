import Verif.Model.SdkAdmin
/-!
# Model of the command line tool: limits as text, differences, and `ntt push`

`cli/src/index.ts` and `cli/src/diff.ts`. Texts are lists of characters. Not modelled: files, terminals, confirmation, keys, deployment and upgrades
themselves, `missingConfigs`.
-/
namespace Ntt.Cli
open Sdk

abbrev Text := List Char

/-! ### Limits as text -/

/-- `str.slice(0, -decimals)`, `cli/src/index.ts:1847`. (JavaScript: `-0` is `0`.) -/
def sliceTo (s : Text) (decimals : Nat) : Text := if decimals = 0 then [] else s.take (s.length - decimals)

/-- `str.slice(-decimals)`, `cli/src/index.ts:1847`. (JavaScript: `-0` is `0`.) -/
def sliceFrom (s : Text) (decimals : Nat) : Text := if decimals = 0 then s else s.drop (s.length - decimals)

/-- `formatNumber`, `cli/src/index.ts:1842-1852`. -/
def formatNumber (n decimals : Nat) : Text :=
  if n = 0 then '0' :: '.' :: List.replicate decimals '0'
  else
    let str := Nat.toDigits 10 n
    let formatted := sliceTo str decimals ++ '.' :: sliceFrom str decimals
    if formatted.head? = some '.' then '0' :: formatted else formatted

/-- `formatted.split(".")`, `cli/src/index.ts:1856`. -/
def split : Text → List Text
  | [] => [[]]
  | c :: s =>
    if c = '.' then [] :: split s
    else match split s with
      | [] => [[c]]
      | h :: t => (c :: h) :: t

/-- `checkNumberFormatting`, `cli/src/index.ts:1854-1864`. -/
def checkNumberFormatting (formatted : Text) (decimals : Nat) : Bool :=
  match split formatted with
  | [_, fraction] => fraction.length == decimals
  | _ => false

/-- `BigInt(text.replace(".", ""))`, `cli/src/index.ts:1491-1496`, `1592-1608`: only the first point is left out. Simplified: of the texts that `BigInt`
takes only those of digits are modelled, not signs, spaces and other bases. -/
def limitOf (text : Text) : Option Nat :=
  let digits := text.erase '.'
  if digits.all Char.isDigit then some (Nat.ofDigitChars 10 digits 0) else none

/-! ### Differences -/

/-- What a file can have at an entry, except arrays, which configurations do not have. (JSON) -/
inductive Leaf where
  | text (t : Text)
  | flag (b : Bool)
  | number (n : Nat)
deriving DecidableEq

mutual
/-- A value of a configuration. (JSON) -/
inductive Tree where
  | leaf (v : Leaf)
  | node (e : Entries)
/-- The entries of an object, in their order. (JSON) -/
inductive Entries where
  | nil
  | cons (key : String) (value : Tree) (rest : Entries)
end

/-- `obj[key]`. (JavaScript) -/
def Entries.get : Entries → String → Option Tree
  | .nil, _ => none
  | .cons k v rest, key => if k = key then some v else rest.get key

/-- What `diffObjects` finds at a key: only values, or differences inside of two objects, `cli/src/diff.ts:3-12`. -/
inductive Diff where
  | entry (push pull : Option Tree)
  | node (d : List (String × Diff))

/-- The second loop of `diffObjects`, `cli/src/diff.ts:37-41`. -/
def onlyIn (a : Entries) : Entries → List (String × Diff)
  | .nil => []
  | .cons k v rest => (if (a.get k).isSome then [] else [(k, .entry none (some v))]) ++ onlyIn a rest

mutual
/-- One key that both objects have, `cli/src/diff.ts:24-30`, with the pruning of `cli/src/diff.ts:43-50`: nothing if there is no difference. -/
def diffValue : Tree → Tree → Option Diff
  | .node x, .node y =>
    let d := diffKeys x y ++ onlyIn x y
    if d.isEmpty then none else some (.node d)
  | .leaf v, .leaf w => if v = w then none else some (.entry (some (.leaf v)) (some (.leaf w)))
  | a, b => some (.entry (some a) (some b))
/-- The first loop of `diffObjects`, `cli/src/diff.ts:21-35`. -/
def diffKeys : Entries → Entries → List (String × Diff)
  | .nil, _ => []
  | .cons k v rest, b =>
    (match b.get k with
      | none => [(k, .entry (some v) none)]
      | some w => ((diffValue v w).map fun d => (k, d)).toList) ++ diffKeys rest b
end

/-- `diffObjects`, `cli/src/diff.ts:18-53`. -/
def diffObjects (a b : Entries) : List (String × Diff) := diffKeys a b ++ onlyIn a b

/-! ### `ntt push` -/

/-- What `pushDeployment` does, one after the other. -/
inductive Step (A : Type) where
  | upgrade (old new : Text)
  | set (s : Setting A)
  | transceiverPauser (newPauser : A)

/-- `diff[k]?.push` as a text that is not empty, `cli/src/index.ts:1580-1608`. Simplified: values that are no texts, which the types exclude, count as missing. -/
def pushedText : Option Diff → Option Text
  | some (.entry (some (.leaf (.text t))) _) => if t = [] then none else some t
  | _ => none

/-- A new limit, `cli/src/index.ts:1592-1598`, `1603-1608`; `none` if `BigInt` throws. -/
def pushLimit {A : Type} (setting : Nat → Setting A) (d : Option Diff) : Option (List (Step A)) :=
  match pushedText d with
  | none => some []
  | some t => (limitOf t).map fun n => [.set (setting n)]

/-- The limits of incoming transfers, `cli/src/index.ts:1599-1610`. `chain` is `assertChain` with the number of the chain (external, the SDK). -/
def pushInbound {A : Type} (chain : String → Option UInt16) : List (String × Diff) → Option (List (Step A))
  | [] => some []
  | (c, d) :: rest => do
    let ch ← chain c
    let first ← pushLimit (.inboundLimit ch) (some d)
    let others ← pushInbound chain rest
    return first ++ others

/-- The settings of the Wormhole transceiver, `cli/src/index.ts:1619-1627`. `address` is `toUniversal` (external, the SDK). -/
def pushWormhole {A : Type} (address : Text → Option A) : List (String × Diff) → Option (List (Step A))
  | [] => some []
  | (l, d) :: rest => do
    if l = "pauser" then
      let p ← (pushedText (some d)).bind address
      let others ← pushWormhole address rest
      return .transceiverPauser p :: others
    else none

/-- `transceivers`, `cli/src/index.ts:1617-1633`. -/
def pushTransceivers {A : Type} (address : Text → Option A) : List (String × Diff) → Option (List (Step A))
  | [] => some []
  | (j, d) :: rest => do
    if j = "wormhole" then
      match d with
      | .node w =>
        let first ← pushWormhole address w
        let others ← pushTransceivers address rest
        return first ++ others
      | .entry _ _ => none
    else none

/-- One pass of the loop of `pushDeployment` over keys other than `version` and `owner`, `cli/src/index.ts:1575-1638`. Fields that cannot be set stop the
tool: `none`. If one side lacks all limits, the difference has neither `outbound` nor `inbound`, so that nothing is done; if one side lacks `inbound`, its
only keys are `push` and `pull`, which are no chains. -/
def pushField {A : Type} (chain : String → Option UInt16) (address : Text → Option A) (k : String) (d : Diff) : Option (List (Step A)) :=
  if k = "pauser" then (pushedText (some d)).bind address |>.map fun a => [.set (.pauser a)]
  else if k = "paused" then
    match d with
    | .entry (some (.leaf (.flag true))) _ => some [.set .pause]
    | _ => some [.set .unpause]
  else if k = "limits" then
    match d with
    | .entry _ _ => some []
    | .node l => do
      let out ← pushLimit .outboundLimit (l.lookup "outbound")
      let into ← match l.lookup "inbound" with
        | some (.node i) => pushInbound chain i
        | some (.entry _ _) => none
        | none => some []
      return out ++ into
  else if k = "transceivers" then
    match d with
    | .node t => pushTransceivers address t
    | .entry _ _ => none
  else none

/-- `pushDeployment`, `cli/src/index.ts:1553-1648`: the steps if every question is answered with yes; first an upgrade, last a new owner. The triple is what
the loop has collected: the upgrade, the transactions, the new owner. Simplified: with a version on one side only the tool stops. -/
def pushLoop {A : Type} (chain : String → Option UInt16) (address : Text → Option A) :
    List (String × Diff) → List (Step A) × List (Step A) × List (Step A) → Option (List (Step A))
  | [], (up, txs, own) => some (up ++ txs ++ own)
  | (k, d) :: rest, (up, txs, own) =>
    if k = "version" then
      match d with
      | .entry (some (.leaf (.text new))) (some (.leaf (.text old))) => pushLoop chain address rest ([.upgrade old new], txs, own)
      | _ => none
    else if k = "owner" then do
      let a ← (pushedText (some d)).bind address
      pushLoop chain address rest (up, txs, [.set (.owner a)])
    else do
      let steps ← pushField chain address k d
      pushLoop chain address rest (up, txs ++ steps, own)

/-- `pushDeployment`, `cli/src/index.ts:1553-1648`, for a local and a remote configuration. -/
def pushDeployment {A : Type} (chain : String → Option UInt16) (address : Text → Option A) (locally remotely : Entries) : Option (List (Step A)) :=
  pushLoop chain address (diffObjects locally remotely) ([], [], [])

/-- The configuration of a chain, `ChainConfig`, `cli/src/index.ts:1728-1749`. -/
structure Conf where
  version : Text
  mode : Text
  paused : Bool
  owner : Text
  manager : Text
  token : Text
  threshold : Nat
  wormhole : Text
  transceiverPauser : Option Text
  outbound : Text
  inbound : List (String × Text)
  pauser : Option Text
deriving DecidableEq

/-- The entries of the limits of incoming transfers, `cli/src/index.ts:1920-1922`. -/
def inboundEntries : List (String × Text) → Entries
  | [] => .nil
  | (c, t) :: rest => .cons c (.leaf (.text t)) (inboundEntries rest)

/-- An entry only if there is a value, `cli/src/index.ts:1744-1749`. -/
def optionalEntry (key : String) : Option Text → Entries
  | none => .nil
  | some t => .cons key (.leaf (.text t)) .nil

/-- The configuration as an object, `cli/src/index.ts:1728-1749`. -/
def Conf.entries (c : Conf) : Entries :=
  .cons "version" (.leaf (.text c.version)) <| .cons "mode" (.leaf (.text c.mode)) <| .cons "paused" (.leaf (.flag c.paused)) <|
  .cons "owner" (.leaf (.text c.owner)) <| .cons "manager" (.leaf (.text c.manager)) <| .cons "token" (.leaf (.text c.token)) <|
  .cons "transceivers" (.node (.cons "threshold" (.leaf (.number c.threshold)) <|
    .cons "wormhole" (.node (.cons "address" (.leaf (.text c.wormhole)) (optionalEntry "pauser" c.transceiverPauser))) .nil)) <|
  .cons "limits" (.node (.cons "outbound" (.leaf (.text c.outbound)) <| .cons "inbound" (.node (inboundEntries c.inbound)) .nil)) <|
  optionalEntry "pauser" c.pauser

/-- `pullChainConfig` and `pullInboundLimits`, `cli/src/index.ts:1699-1751`, `1898-1925`: the settings among what is pulled, in place of those of `c`.
`write` writes addresses (external); `chains` are the other chains of the deployment with their names. -/
def pull {A : Type} (write : A → Text) (chains : List (String × UInt16)) (decimals : Nat) (paused : Bool) (owner : A) (pauser : Option A)
    (outboundLimit : Nat) (peer : UInt16 → Option ShownPeer) (c : Conf) : Conf :=
  { c with
    paused
    owner := write owner
    pauser := pauser.map write
    outbound := formatNumber outboundLimit decimals
    inbound := chains.map fun (name, ch) => (name, formatNumber ((peer ch).elim 0 (·.inboundLimit)) decimals) }

end Ntt.Cli

import Verif.Model.Calls

/-!
# Using a description of a program

A description (idls/*.json) lists the types, the accounts and the arguments of the instructions. Here is
how a client uses it that knows nothing else about the program: the meaning of the nodes of
Codama's format (formerly Kinobi), modelled from its documentation. No code of the repository does
this; the generated clients are the result of doing it once.
-/

namespace Verif

/-- Number of items of an `arrayTypeNode`: a count in front (`prefixedCountNode`), all the rest
(`remainderCountNode`) or a fixed number (`fixedCountNode`). -/
inductive CountNode
  | counted (w : Nat)
  | rest
  | exactly (n : Nat)

/-- Type nodes. Widths of numbers are in bytes; all numbers are unsigned and little endian. A
`definedTypeLinkNode` refers to a type of the description (`link`) or, with `importFrom: "hooked"`, to
hand-written code that is not in it (`hooked`). -/
inductive NodeType
  | num (w : Nat)
  | bool (w : Nat)
  | bytes
  | string
  | publicKey
  | link (name : String)
  | hooked (name : String)
  | option (w : Nat) (item : NodeType)
  | array (count : CountNode) (item : NodeType)
  | sized (w : Nat) (item : NodeType)
  | padded (n : Nat) (item : NodeType)
  | struct (fields : List (String × NodeType))
  | enum (w : Nat) (variants : List (String × Option NodeType))

/-- Values. -/
inductive NodeVal
  | num (n : Nat)
  | bool (b : Bool)
  | bytes (b : Bytes)
  | key (k : Key)
  | absent
  | present (v : NodeVal)
  | list (vs : List NodeVal)
  | fields (fs : List (String × NodeVal))
  | variant (name : String) (v : Option NodeVal)

/-- A number. -/
def putNum (w n : Nat) : Option Bytes := if n < 256 ^ w then some (toLE w n) else none

/-- All items. -/
def putAll (put : NodeVal → Option Bytes) : List NodeVal → Option Bytes
  | [] => some []
  | v :: vs => do
    let b ← put v
    let r ← putAll put vs
    return b ++ r

/-- All fields, in the order of the description. -/
def putFields (put : NodeType → NodeVal → Option Bytes) (vs : List (String × NodeVal)) :
    List (String × NodeType) → Option Bytes
  | [] => some []
  | (name, t) :: fs => do
    let v ← vs.lookup name
    let b ← put t v
    let r ← putFields put vs fs
    return b ++ r

/-- Position and contents of a variant. -/
def findVariant (name : String) : Nat → List (String × Option NodeType) →
    Option (Nat × Option NodeType)
  | _, [] => none
  | i, (n, t) :: vs => if n = name then some (i, t) else findVariant name (i + 1) vs

/-- The bytes of a value of a type, if it has this type and fits. Links are followed `fuel` times. -/
def putNode (types : List (String × NodeType)) : Nat → NodeType → NodeVal → Option Bytes
  | 0, _, _ => none
  | _ + 1, .num w, .num n => putNum w n
  | _ + 1, .bool w, .bool b => putNum w (if b then 1 else 0)
  | _ + 1, .bytes, .bytes b => some b
  | _ + 1, .string, .bytes b => if validUtf8 b then some b else none
  | _ + 1, .publicKey, .key k => some k.1
  | f + 1, .link name, v => do
    let t ← types.lookup name
    putNode types f t v
  | _ + 1, .option w _, .absent => putNum w 0
  | f + 1, .option w t, .present v => do
    let p ← putNum w 1
    let b ← putNode types f t v
    return p ++ b
  | f + 1, .array (.counted w) t, .list vs => do
    let p ← putNum w vs.length
    let b ← putAll (putNode types f t) vs
    return p ++ b
  | f + 1, .array .rest t, .list vs => putAll (putNode types f t) vs
  | f + 1, .array (.exactly n) t, .list vs =>
    if vs.length = n then putAll (putNode types f t) vs else none
  | f + 1, .sized w t, v => do
    let b ← putNode types f t v
    let p ← putNum w b.length
    return p ++ b
  | f + 1, .padded n t, v => do
    let b ← putNode types f t v
    if b.length ≤ n then some (b ++ zeros (n - b.length)) else none
  | f + 1, .struct fields, .fields vs => putFields (putNode types f) vs fields
  | f + 1, .enum w variants, .variant name v => do
    let (i, t) ← findVariant name 0 variants
    let p ← putNum w i
    match t, v with
    | none, none => return p
    | some t, some v => do
      let b ← putNode types f t v
      return p ++ b
    | _, _ => none
  | _ + 1, _, _ => none

/-! ## Instructions -/

/-- `isSigner`. -/
inductive SignerNode
  | yes | no | either

/-- `defaultValue` of an account: the identity or the payer of the client, the system program, or the
system program if another account is given. -/
inductive AccountDefault
  | identity
  | payer
  | system
  | systemIf (account : String)

/-- `instructionAccountNode`. -/
structure AccountNode where
  name : String
  isWritable : Bool
  isSigner : SignerNode
  isOptional : Bool
  default : Option AccountDefault

/-- `instructionArgumentNode`; `omitted` means that the caller cannot choose the value. -/
structure ArgNode where
  name : String
  type : NodeType
  default : Option NodeVal
  omitted : Bool

/-- `instructionNode`, with the strategy `programId` for optional accounts. -/
structure InstrNode where
  accounts : List AccountNode
  args : List ArgNode

/-- The accounts that a caller names, each with whether it signs. -/
abbrev Named := List (String × (Key × Bool))

/-- The entry for an account. The flag of the caller counts only if the description leaves it open. -/
def AccountNode.build (program : Key) (given : Named) (a : AccountNode) : Option Meta :=
  match given.lookup a.name with
  | some (k, s) =>
    some ⟨k, match a.isSigner with
      | .yes => true
      | .no => false
      | .either => s, a.isWritable⟩
  | none => if a.isOptional then some ⟨program, false, false⟩ else none

/-- All accounts. -/
def buildMetas (program : Key) (given : Named) : List AccountNode → Option (List Meta)
  | [] => some []
  | a :: as => do
    let m ← a.build program given
    let ms ← buildMetas program given as
    return m :: ms

/-- The value of an argument. -/
def ArgNode.value (vs : List (String × NodeVal)) (a : ArgNode) : Option NodeVal :=
  if a.omitted then a.default
  else match vs.lookup a.name with
    | some v => some v
    | none => a.default

/-- All arguments. -/
def buildArgs (put : NodeType → NodeVal → Option Bytes) (vs : List (String × NodeVal)) :
    List ArgNode → Option Bytes
  | [] => some []
  | a :: as => do
    let v ← a.value vs
    let b ← put a.type v
    let r ← buildArgs put vs as
    return b ++ r

/-- Accounts that are not given get their default. -/
def fillDefaults (identity payer : Key) : List AccountNode → Named → Named
  | [], given => given
  | a :: as, given =>
    match given.lookup a.name, a.default with
    | none, some .identity =>
      fillDefaults identity payer as (given ++ [(a.name, (identity, true))])
    | none, some .payer => fillDefaults identity payer as (given ++ [(a.name, (payer, true))])
    | none, some .system => fillDefaults identity payer as (given ++ [(a.name, (Key.system, false))])
    | none, some (.systemIf other) =>
      match given.lookup other with
      | some _ => fillDefaults identity payer as (given ++ [(a.name, (Key.system, false))])
      | none => fillDefaults identity payer as given
    | _, _ => fillDefaults identity payer as given

/-- An instruction from a description. Links are followed at most 16 times. -/
def InstrNode.build (types : List (String × NodeType)) (program : Key) (given : Named)
    (vs : List (String × NodeVal)) (i : InstrNode) : Option ClientIx := do
  let metas ← buildMetas program given i.accounts
  let data ← buildArgs (putNode types 16) vs i.args
  return ⟨metas, data⟩

/-- An instruction by its name. -/
def buildFrom (types : List (String × NodeType)) (instrs : List (String × InstrNode)) (program : Key)
    (name : String) (given : Named) (vs : List (String × NodeVal)) : Option ClientIx := do
  let i ← instrs.lookup name
  i.build types program given vs

/-- The same after filling in the defaults of the accounts. -/
def buildFilled (types : List (String × NodeType)) (instrs : List (String × InstrNode))
    (program identity payer : Key) (name : String) (given : Named) (vs : List (String × NodeVal)) :
    Option ClientIx := do
  let i ← instrs.lookup name
  i.build types program (fillDefaults identity payer i.accounts given) vs

end Verif

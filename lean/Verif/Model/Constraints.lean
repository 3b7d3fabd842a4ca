import Verif.Model.Header

/-!
# Constraints

programs/asset/types/src/constraints/*.rs. A constraint is a tree of operators; on chain it
is a byte string in which every operator is a header `[type: u32, size: u32]` followed by
`size` bytes. Alignment failures of the `bytemuck` casts are not modelled.
-/

namespace Verif

/-- The tree of `Box<dyn Assertable>` values produced by `Constraint::from_bytes`:
`And` (and.rs:11-13), `Not` (not.rs:12-14), `Or` (or.rs:11-13), `OwnedBy`
(owned_by.rs:14-20), `PubkeyMatch` (pubkey_match.rs:14-20), `Empty` (empty.rs:12). The
account selector of the two leaf operators is kept as the raw `u64`. -/
inductive Cst
  | and (cs : List Cst)
  | not (c : Cst)
  | or (cs : List Cst)
  | ownedBy (account : Nat) (owners : List Key)
  | pubkeyMatch (account : Nat) (pubkeys : List Key)
  | empty
  deriving Repr

/-- `bytemuck::cast_slice` of `n` keys (length checked by the caller). -/
def keysFrom : Nat → Bytes → List Key
  | 0, _ => []
  | n + 1, b => Key.ofBytes (b.take 32) :: keysFrom n (b.drop 32)

/-- `OwnedBy::from_bytes` / `PubkeyMatch::from_bytes`: `split_at(8)` panics on less than
8 bytes, `cast_slice` panics unless the rest is a multiple of 32 bytes —
owned_by.rs:22-29, pubkey_match.rs:22-29. -/
def parseKeys (b : Bytes) : Except Err (Nat × List Key) :=
  if b.length < 8 then .error .panic
  else if (b.length - 8) % 32 ≠ 0 then .error .panic
  else .ok (u64At b 0, keysFrom ((b.length - 8) / 32) (b.drop 8))

mutual
/-- `Constraint::from_bytes` — constraints/mod.rs:233-257. Returns the tree and
`Constraint::size()` (mod.rs:221-223). `fuel` bounds the nesting; `parseConstraint` supplies
enough. -/
def parseC : Nat → Bytes → Except Err (Cst × Nat)
  | 0, _ => .error .diverge
  | fuel + 1, b =>
    if b.length < 8 then .error .panic
    else
      let ty := u32At b 0
      let size := u32At b 4
      if 5 < ty then .error .panic
      else if b.length - 8 < size then .error .panic
      else
        let body := (b.drop 8).take size
        if ty = 0 then do return (Cst.and (← parseL fuel body), 8 + size)
        else if ty = 1 then do return (Cst.not (← parseC fuel body).1, 8 + size)
        else if ty = 2 then do return (Cst.or (← parseL fuel body), 8 + size)
        else if ty = 3 then do
          let (a, ks) ← parseKeys body
          return (Cst.ownedBy a ks, 8 + size)
        else if ty = 4 then do
          let (a, ks) ← parseKeys body
          return (Cst.pubkeyMatch a ks, 8 + size)
        else return (Cst.empty, 8 + size)

/-- The loops of `And::from_bytes` (and.rs:15-28) and `Or::from_bytes` (or.rs:15-28). -/
def parseL : Nat → Bytes → Except Err (List Cst)
  | 0, _ => .error .diverge
  | fuel + 1, b =>
    if b.isEmpty then .ok []
    else do
      let (c, n) ← parseC fuel b
      let cs ← parseL fuel (b.drop n)
      return c :: cs
end

/-- `Constraint::from_bytes` with enough fuel for any input. -/
def parseConstraint (b : Bytes) : Except Err Cst := do
  return (← parseC (b.length + 2) b).1

/-- `Target` — constraints/mod.rs:38-53. -/
structure Target where
  key : Key
  owner : Key
  empty : Bool
  deriving DecidableEq, Repr

/-- `Context` — constraints/mod.rs:26-36. -/
structure CCtx where
  asset : Target
  authority : Target
  recipient : Option Target

/-- `get_account!` — constraints/mod.rs:98-110. A selector outside `0..=2` is an enum with an
invalid discriminant. -/
def CCtx.pick (ctx : CCtx) (sel : Nat) : Except Err Target :=
  if sel = 0 then .ok ctx.asset
  else if sel = 1 then .ok ctx.authority
  else if sel = 2 then
    match ctx.recipient with
    | some t => .ok t
    | none => .error .notEnoughAccountKeys
  else .error .undef

mutual
/-- `Assertable::assert`; `true` is `Assertion::Pass` — constraints/mod.rs:259-262,
not.rs:24-29, owned_by.rs:31-42, pubkey_match.rs:31-40, empty.rs:20-23. -/
def evalC (ctx : CCtx) : Cst → Except Err Bool
  | .and cs => evalAnd ctx cs
  | .or cs => evalOr ctx cs
  | .not c => do return !(← evalC ctx c)
  | .ownedBy a owners => do
    let t ← ctx.pick a
    return owners.contains t.owner && !t.empty
  | .pubkeyMatch a keys => do
    let t ← ctx.pick a
    return keys.contains t.key
  | .empty => .ok true

/-- `And::assert` — and.rs:31-40. -/
def evalAnd (ctx : CCtx) : List Cst → Except Err Bool
  | [] => .ok true
  | c :: cs => do
    let r ← evalC ctx c
    if r then evalAnd ctx cs else return false

/-- `Or::assert` — or.rs:31-43. -/
def evalOr (ctx : CCtx) : List Cst → Except Err Bool
  | [] => .ok false
  | c :: cs => do
    let r ← evalC ctx c
    if r then return true else evalOr ctx cs
end

/-! ## Builders -/

/-- The common `build` of all builders: an empty buffer is first resized to one operator
header, then the type and the content length are written over the first eight bytes —
and.rs:67-82, not.rs:52-67, or.rs:70-85, owned_by.rs:73-88, pubkey_match.rs:71-86,
empty.rs:34-49. -/
def opBuild (ty : Nat) (buf : Bytes) : Bytes :=
  let buf := if buf.isEmpty then zeros 8 else buf
  splice (splice buf 0 (toLE 4 ty)) 4 (toLE 4 (buf.length - 8))

/-- `AndBuilder::default` / `OrBuilder::default` — and.rs:54-58, or.rs:57-61. -/
def listBuilderDefault : Bytes := zeros 8

/-- `AndBuilder::add` / `OrBuilder::add` — and.rs:60-65, or.rs:63-68. -/
def listBuilderAdd (buf built : Bytes) : Bytes := buf ++ built

/-- `NotBuilder::set` — not.rs:43-50. -/
def notBuilderSet (buf built : Bytes) : Bytes := reallocBytes buf 8 ++ built

/-- `OwnedByBuilder::set` / `PubkeyMatchBuilder::set` — owned_by.rs:57-71,
pubkey_match.rs:55-69. -/
def keysBuilderSet (buf : Bytes) (account : Nat) (keys : List Key) : Bytes :=
  reallocBytes buf 8 ++ toLE 8 account ++ keys.flatMap (·.1)

mutual
/-- Building a whole tree with the builder API: `default`, then `add`/`set` for every
child, then `build`. -/
def buildC : Cst → Bytes
  | .and cs => opBuild 0 (buildL listBuilderDefault cs)
  | .not c => opBuild 1 (notBuilderSet [] (buildC c))
  | .or cs => opBuild 2 (buildL listBuilderDefault cs)
  | .ownedBy a ks => opBuild 3 (keysBuilderSet [] a ks)
  | .pubkeyMatch a ks => opBuild 4 (keysBuilderSet [] a ks)
  | .empty => opBuild 5 []

/-- Successive `add`s on an `AndBuilder` or `OrBuilder`. -/
def buildL (buf : Bytes) : List Cst → Bytes
  | [] => buf
  | c :: cs => buildL (listBuilderAdd buf (buildC c)) cs
end

/-! ## Serialization of a parsed constraint -/

mutual
/-- `Constraint::as_bytes` (constraints/mod.rs:225-231) for a constraint whose operator
size is the size of its content, as builders produce (the model does not keep the size
word of a parsed operator). -/
def asBytesC : Cst → Bytes
  | .and cs => let b := asBytesL cs; toLE 4 0 ++ toLE 4 b.length ++ b
  | .not c =>
    -- not.rs:31-36: the header of the inner constraint, then the inner constraint again;
    -- the outer size word is the size of the inner constraint
    let b := asBytesC c
    toLE 4 1 ++ toLE 4 b.length ++ (b.take 8 ++ b)
  | .or cs => let b := asBytesL cs; toLE 4 2 ++ toLE 4 b.length ++ b
  | .ownedBy a ks =>
    let b := toLE 8 a ++ ks.flatMap (·.1); toLE 4 3 ++ toLE 4 b.length ++ b
  | .pubkeyMatch a ks =>
    let b := toLE 8 a ++ ks.flatMap (·.1); toLE 4 4 ++ toLE 4 b.length ++ b
  | .empty => toLE 4 5 ++ toLE 4 0

/-- `And::as_bytes` / `Or::as_bytes` — and.rs:42-48, or.rs:45-51. -/
def asBytesL : List Cst → Bytes
  | [] => []
  | c :: cs => asBytesC c ++ asBytesL cs
end

end Verif

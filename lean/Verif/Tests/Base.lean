import Verif.Model.JsTyped
import Verif.Model.Errors
import Verif.Examples

/-!
# Playing the tests of the clients on the model

clients/js/asset/test/*.test.ts and clients/rust/asset/tests/*.rs run against the real program on a
validator. What they expect is the only evidence in the repository of what the real program does that
does not come from its text. The files beside this one are these tests written as lists of `Act`s; a
test passes when every act ends as the test expects.

Not repository code: umi (transactions are all or nothing; an account signs or is writable when some
instruction of the transaction says so, the identity pays the fee and is both), the rent of the
validator, the texts it has for the builtin errors.
-/

namespace Verif.Tests

open Verif Verif.Ex

/-- `umi.identity`, which is also `umi.payer`. -/
def identity : Key := k 1

/-- The context of umi. -/
def ctx : JsContext := ⟨identity, identity⟩

/-- A literal in plain characters. -/
def txt (s : String) : Bytes := s.toList.map fun c => UInt8.ofNat c.toNat

/-- What stands in for the images the tests download: `n` bytes. -/
def image (n : Nat) : Bytes := (List.range n).map fun i => UInt8.ofNat i

/-! ## Transactions -/

/-- The environment of a transaction with the metas `ms`. -/
def txEnv (L : Ledger) (ms : List Meta) : Env where
  program := prog
  rent := fun n => (128 + n) * 6960
  inCpi := false
  pda := fun _ bump _ => some (k bump)
  signer := fun x => x == identity || ms.any fun m => m.key == x && m.signer
  writable := fun x => x == identity || ms.any fun m => m.key == x && m.writable
  origLen := fun x => (L x).data.length

/-- The instructions of a transaction one after another. -/
def runAll (ms : List Meta) : Ledger → List ClientIx → Except Err Ledger
  | L, [] => .ok L
  | L, i :: is =>
    match executeBytes (txEnv L ms) L i.keys i.data with
    | .error e => .error e
    | .ok L' => runAll ms L' is

/-- A transaction: all or nothing. -/
def runTx (L : Ledger) (is : List ClientIx) : Except Err Ledger :=
  runAll (is.flatMap (·.metas)) L is

/-- The accounts with their addresses, written down. -/
abbrev Accounts := List (Key × Account)

/-- The accounts after a transaction: those it names, and the others as they were. -/
def settle (l : Accounts) (L : Ledger) (ks : List Key) : Accounts :=
  ks.map (fun x => (x, L x)) ++ l.filter fun p => !ks.contains p.1

/-- What a builder holds: transactions. -/
abbrev Build := Except Err (List (List ClientIx))

/-- The transactions one after another; those before a failed one stay. -/
def runTxs : Accounts → List (List ClientIx) → Accounts × Option Err
  | l, [] => (l, none)
  | l, t :: ts =>
    match runTx (ledger l) t with
    | .error e => (l, some e)
    | .ok L => runTxs (settle l L (t.flatMap (·.keys)).eraseDups) ts

/-- `sendAndConfirm`. -/
def send (l : Accounts) : Build → Accounts × Option Err
  | .error e => (l, some e)
  | .ok ts => runTxs l ts

/-! ## Builders -/

/-- A builder of one instruction. -/
def one (i : Except Err ClientIx) : Build := i.map fun i => [[i]]

/-- A group of builders: a transaction each. -/
def each (cs : Except Err (List Call)) : Build := cs.map fun cs => cs.map fun c => [c.build prog]

/-- `add` and `append`: everything in one transaction. -/
def joined : List Build → Build
  | [] => .ok [[]]
  | b :: bs =>
    match b, joined bs with
    | .ok ts, .ok us => .ok [ts.flatten ++ us.flatten]
    | .error e, _ => .error e
    | _, .error e => .error e

/-- The function of the client for one instruction. -/
def call (x : JsInput) : Build := one (jsInstruction prog ctx x)

/-- The arguments of `create` and `mint` as the tests give them. -/
def args (asset : Key) (authority : Option (Key × Bool) := none) (owner group groupAuthority payer :
    Option Key := none) (name : Bytes) (standard : Option Standard := none)
    (isMutable : Option Bool := none) (extensions : List JsExt := []) : JsMintArgs :=
  ⟨asset, authority, owner, group, groupAuthority, payer, name, standard, isMutable, extensions⟩

/-- `create`. -/
def create (x : JsMintArgs) (extensions : Option (List JsExt) := none) : Build :=
  one (jsCreateTyped prog ctx x extensions)

/-- `mint`. -/
def mint (x : JsMintArgs) : Build := each (jsMint ctx x)

/-- `initialize`. -/
def init (asset : Key) (payer : Option Key) (v : JsExt) : Build :=
  each (jsInitialize ctx asset payer v)

/-- `allocate`. -/
def allocate (asset : Key) (payer : Option Key) (v : JsExt) : Build :=
  one (jsAllocateTyped prog ctx asset payer v)

/-- `update`. -/
def update (asset : Key) (authority buffer group payer : Option Key := none)
    (name : Option Bytes := none) (isMutable : Option Bool := none) (extension : Option JsExt := none) :
    Build :=
  one (jsUpdateTyped prog ctx ⟨asset, authority, buffer, group, payer, name, isMutable, .bucket [], none⟩
    extension)

/-- `updateWithBuffer`; the buffer gets the address `k 98`. -/
def updateWithBuffer (asset : Key) (authority buffer group payer : Option Key := none)
    (name : Option Bytes := none) (isMutable : Option Bool := none) (extension : JsExt) : Build :=
  each (jsUpdateWithBuffer ctx (k 98)
    ⟨asset, authority, buffer, group, payer, name, isMutable, extension, none⟩)

/-! ## Expectations -/

/-- The text of an error: that of the errors of the program, that of the runtime for the builtin ones,
and the one text the tests know from the log (group.rs:105-109). -/
def texts : Err → List String
  | .asset .extensionDataInvalid => ["Extension data invalid", "Maximum group size reached"]
  | .asset e => [e.message]
  | .invalidArgument => ["invalid program argument"]
  | .missingRequiredSignature => ["missing required signature for instruction"]
  | .notEnoughAccountKeys => ["insufficient account keys for instruction"]
  | .accountDataTooSmall => ["account data too small for instruction"]
  | .invalidInstructionData => ["invalid instruction data"]
  | .invalidAccountData => ["invalid account data for instruction"]
  | _ => []

/-- `b` occurs in `a`. -/
def occurs (b : List Char) : List Char → Bool
  | [] => b.isEmpty
  | c :: a => b.isPrefixOf (c :: a) || occurs b a

/-- `{ message: /…/ }` -/
def saysText (e : Err) (pattern : String) : Bool :=
  (texts e).any fun t => occurs pattern.toList t.toList

/-- What a test says about an extension: some of its fields. -/
inductive ExtLike
  | attributes (values : List (Bytes × Bytes))
  | links (values : List (Bytes × Bytes))
  | creators (values : List (Key × Option Bool × Nat))
  | metadata (symbol description uri imageUri : Option Bytes)
  | grouping (size maxSize : Option Nat) (delegate : Option (Option Key))
  | royalties (basisPoints : Nat) (constraint : Option Cst)
  | manager (address : Option Key) (roles : List Role)
  | properties (values : List (Bytes × JsValue))
  | blob (contentType data : Bytes)
  | bucket (data : Bytes)
  | proxy (authority : Option Key)

/-- A field that may not be mentioned. -/
def like {α : Type} [DecidableEq α] (want : Option α) (got : α) : Bool :=
  match want with
  | none => true
  | some w => w = got

/-- A creator. -/
def likeCreator (w : Key × Option Bool × Nat) (c : JsCreator) : Bool :=
  w.1 = c.address && like w.2.1 c.verified && w.2.2 = c.share

/-- Item by item. -/
def likeAll {α β : Type} (f : α → β → Bool) : List α → List β → Bool
  | [], [] => true
  | a :: as, b :: bs => f a b && likeAll f as bs
  | _, _ => false

/-- The same constraint: the same bytes. -/
def sameCst (a b : Cst) : Bool :=
  match jsPutC a, jsPutC b with
  | .ok x, .ok y => x = y
  | _, _ => false

/-- `t.like` for an extension. -/
def ExtLike.fits : ExtLike → JsExt → Bool
  | .attributes w, .attributes v => w = v
  | .links w, .links v => w = v
  | .creators w, .creators v => likeAll likeCreator w v
  | .metadata s d u i, .metadata m =>
    like s m.symbol && like d m.description && like u m.uri && like i m.imageUri
  | .grouping s m d, .grouping s' m' d' => like s s' && like m m' && like d d'
  | .royalties b c, .royalties b' c' => b = b' && (match c with | none => true | some c => sameCst c c')
  | .manager a r, .manager a' r' => a = a' && r = r'
  | .properties w, .properties v => w = v
  | .blob t d, .blob t' d' => t = t' && d = d'
  | .bucket d, .bucket d' => d = d'
  | .proxy a, .proxy _ _ _ a' => a = a'
  | _, _ => false

/-- What a test says about an asset: some of its fields. -/
structure Shown where
  state : Option Nat
  standard : Option Standard
  isMutable : Option Bool
  owner : Option Key
  group : Option (Option Key)
  authority : Option Key
  delegate : Option (Option (Key × Option (List Role)))
  name : Option Bytes
  extensions : Option (List ExtLike)

/-- The object a test compares an asset with; fields it leaves out are `none`. -/
def obj (state : Option Nat := none) (standard : Option Standard := none)
    (isMutable : Option Bool := none) (owner : Option Key := none)
    (group : Option (Option Key) := none) (authority : Option Key := none)
    (delegate : Option (Option (Key × Option (List Role))) := none) (name : Option Bytes := none)
    (extensions : Option (List ExtLike) := none) : Shown :=
  ⟨state, standard, isMutable, owner, group, authority, delegate, name, extensions⟩

/-- The delegate: the roles need not be mentioned. -/
def likeDelegate (w : Option (Key × Option (List Role))) (d : Option (Key × List Role)) : Bool :=
  match w, d with
  | none, none => true
  | some (a, rs), some (b, rs') => a = b && like rs rs'
  | _, _ => false

/-- `t.like` for an asset. Arrays are compared with their lengths. -/
def Shown.fits (w : Shown) (A : JsAsset) : Bool :=
  like w.state A.state && like (w.standard.map jsStandard) A.standard && like w.isMutable A.isMutable &&
    like w.owner A.owner && like w.group A.group && like w.authority A.authority &&
    (match w.delegate with | none => true | some d => likeDelegate d A.delegate) &&
    like w.name A.name &&
    (match w.extensions with | none => true | some l => likeAll ExtLike.fits l A.extensions)

/-- `fetchAsset`: an account of the program, read. -/
def fetch (l : Accounts) (x : Key) : Option JsAsset :=
  if (ledger l x).owner = prog then
    match jsAsset id (ledger l x).data with
    | .ok A => some A
    | .error _ => none
  else none

/-- `umi.rpc.accountExists`. -/
def accountExists (l : Accounts) (x : Key) : Bool := (ledger l x).lamports ≠ 0

/-- What happens in a test. -/
inductive Act
  /-- `await ….sendAndConfirm(umi)` -/
  | ok (b : Build)
  /-- `await t.throwsAsync(….sendAndConfirm(umi), { message: /…/ })` -/
  | fails (b : Build) (pattern : String)
  /-- `t.like(await fetchAsset(umi, x), …)` -/
  | shows (x : Key) (w : Shown)
  /-- `t.true(await umi.rpc.accountExists(x))` -/
  | present (x : Key)
  /-- `t.false(await umi.rpc.accountExists(x))` -/
  | absent (x : Key)
  /-- `t.true(account.data.length === n)` -/
  | size (x : Key) (n : Nat)
  /-- `await ….sendAndConfirm(umi)`, after which the account is longer -/
  | grows (x : Key) (b : Build)
  /-- `getProperty(await fetchAsset(umi, x), name, …).value` -/
  | property (x : Key) (name : Bytes) (v : JsValue)
  /-- Assertions about one extension of the asset. -/
  | ext (x : Key) (i : Nat) (w : ExtLike)
  /-- `process_transaction(tx).await.unwrap_err()` with the error of the instruction -/
  | failsWith (b : Build) (e : Err)
  /-- Assertions about the bytes of an account. -/
  | reads (x : Key) (f : Bytes → Bool)

/-- The test goes through. -/
def play : Accounts → List Act → Bool
  | _, [] => true
  | l, .ok b :: as =>
    match send l b with
    | (l', none) => play l' as
    | _ => false
  | l, .fails b p :: as =>
    match send l b with
    | (l', some e) => saysText e p && play l' as
    | _ => false
  | l, .shows x w :: as =>
    (match fetch l x with | some A => w.fits A | none => false) && play l as
  | l, .present x :: as => accountExists l x && play l as
  | l, .absent x :: as => !accountExists l x && play l as
  | l, .size x n :: as => (ledger l x).data.length == n && play l as
  | l, .grows x b :: as =>
    match send l b with
    | (l', none) => decide ((ledger l x).data.length < (ledger l' x).data.length) && play l' as
    | _ => false
  | l, .property x n v :: as =>
    (match fetch l x with
      | some A => (match A.get .properties with
        | some (.properties l) => l.find? (fun p => p.1 = n) = some (n, v)
        | _ => false)
      | none => false) && play l as
  | l, .ext x i w :: as =>
    (match fetch l x with
      | some A => (match A.extensions[i]? with | some e => w.fits e | none => false)
      | none => false) && play l as
  | l, .failsWith b e :: as =>
    match send l b with
    | (l', some e') => decide (e' = e) && play l' as
    | _ => false
  | l, .reads x f :: as => accountExists l x && f (ledger l x).data && play l as

/-- The validator before a test: the identity has been given lamports. -/
def start : Accounts := [(identity, ⟨100000000000, [], Key.system⟩)]

/-- The test passes. -/
def passes (as : List Act) : Bool := play start as

/-- All the tests of a list pass. -/
inductive AllPass : List (List Act) → Prop
  | nil : AllPass []
  | cons {t : List Act} {ts : List (List Act)} (h : passes t = true) (hs : AllPass ts) :
    AllPass (t :: ts)

theorem AllPass.passes {ts : List (List Act)} (h : AllPass ts) : ∀ t ∈ ts, passes t = true := by
  induction h with
  | nil => simp
  | cons h _ ih => exact List.forall_mem_cons.2 ⟨h, ih⟩

end Verif.Tests

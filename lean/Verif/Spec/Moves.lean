import Verif.Spec.Machine
import Verif.Spec.Auth
import Verif.Spec.Readable

/-!
# The life of an asset, as a state machine

`Move E accts k i A A'` lists everything that may happen to an asset `A` stored in account
`k` when instruction `i` runs on the accounts `accts`, and who has to sign for it. It speaks
about records and lists of extensions only.
-/

namespace Verif.Spec

open Verif

/-- The delegate in the Manager extension. -/
def Asset.manager (A : Asset) : Option Delegate :=
  (lookup .manager A.exts).map fun p => ⟨keyAt p 0, byteAt p 32⟩

/-- The delegate approved by the holder. -/
def Asset.holderDelegate (A : Asset) : Option Delegate :=
  if A.delegate = Key.default then none else some ⟨A.delegate, A.roles⟩

/-- `s` is the governing delegate and has the role. -/
def Asset.Delegated (A : Asset) (s : Key) (r : Role) : Prop :=
  ∃ x, governing A.manager A.holderDelegate = some x ∧ x.address = s ∧ HasRole x r

/-- `s` may lock and unlock: the governing delegate with the role, or the owner while no
holder delegate is set. -/
def Asset.MayLock (A : Asset) (s : Key) : Prop :=
  A.Delegated s .lock ∨ (A.delegate = Key.default ∧ s = A.owner)

/-- One more member, as a 64-bit counter. -/
def more (n : Nat) : Nat := (n + 1) % 18446744073709551616

/-- One member less, as a 64-bit counter. -/
def fewer (n : Nat) : Nat := if n = 0 then 18446744073709551615 else n - 1

/-- The group with another number of members. -/
def Asset.resized (A : Asset) (p : Bytes) (n : Nat) : Asset :=
  { A with exts := setExt .grouping (withMembers p n) A.exts }

/-- `q` is the Creators data `p` with the `verified` byte of `c` set to `v` in every record
of `c`. -/
def SetsFlags (c : Key) (v : UInt8) (p q : Bytes) : Prop :=
  p.length % 34 = 0 ∧ q.length = p.length ∧ ∀ i, i * 34 + 34 ≤ p.length →
    slice q (i * 34) 32 = slice p (i * 34) 32 ∧ byteAt q (i * 34 + 33) = byteAt p (i * 34 + 33) ∧
    byteAt q (i * 34 + 32) =
      if slice p (i * 34) 32 = c.1 then v else byteAt p (i * 34 + 32)

/-- `p` is what an update of the authority stores: the data when it is readable and acceptable,
and nothing when the update comes without data. The data replaced has to be readable, too. -/
def UpdatesTo (authority : Key) (e : ExtInput) (old : Option Bytes) (p : Bytes) : Prop :=
  match e.data with
  | some new => Accepted (some authority) e.ty old new p ∧ p.length = e.length.toNat ∧
      ((e.ty = .manager ∨ e.ty = .proxy) → old ≠ none) ∧
      Readable e.ty new ∧ ∀ o, old = some o → Readable e.ty o
  | none => p = [] ∧ e.length = 0

/-- `p` is what is stored when the authority updates from a buffer with the extension header `h`
and the data `d`. The acceptance rules are applied to the header followed by the data, instead
of the data. -/
def TakesFrom (authority : Key) (t : ExtType) (old : Option Bytes) (p : Bytes) : Prop :=
  ∃ h d q : Bytes, h.length = 16 ∧ leNat (h.take 4) = t.toU32 ∧ leNat (slice h 4 4) = d.length ∧
    Accepted (some authority) t old ((h ++ d).take d.length) q ∧
    p = (q ++ (h ++ d).drop d.length).drop 16 ∧ ((t = .manager ∨ t = .proxy) → old ≠ none) ∧
    Readable t ((h ++ d).take d.length) ∧ ∀ o, old = some o → Readable t o

/-- The instruction is none of the business of account `k`, or it asks for nothing. -/
def Idle (accts : List Key) (k : Key) (A : Asset) : Instr → Prop
  | .group | .ungroup => accts.head? ≠ some k ∧ accts[1]? ≠ some k
  | .resize _ => True
  | .transfer => accts.head? = some k → accts[2]? = some A.owner
  | .revoke (.some _) => accts.head? = some k → A.delegate = Key.default
  | _ => accts.head? ≠ some k

/-- What an instruction may do to an asset. -/
inductive Move (E : Env) (accts : List Key) (k : Key) : Instr → Asset → Asset → Prop
  /-- Nothing happens. -/
  | stay (i : Instr) (A : Asset) (hi : Idle accts k A i) : Move E accts k i A A
  | transfer (A : Asset) (s r : Key) (rest : List Key) (ha : accts = k :: s :: r :: rest)
      (hs : E.signer s = true) (hauth : A.owner = s ∨ A.Delegated s .transfer)
      (hlock : A.state ≠ 1) (hsoul : A.standard ≠ 2) :
      Move E accts k .transfer A { A with owner := r, delegate := Key.default, roles := 0 }
  | approve (A : Asset) (x : DelegateInput) (o d : Key) (roles : UInt8) (rest : List Key)
      (ha : accts = k :: o :: d :: rest) (hs : E.signer o = true) (ho : A.owner = o)
      (hlock : A.state ≠ 1) :
      Move E accts k (.approve x) A { A with delegate := d, roles := roles }
  | revoke (A : Asset) (x : DelegateInput) (s d : Key) (roles : UInt8) (rest : List Key)
      (ha : accts = k :: s :: rest) (hs : E.signer s = true)
      (hauth : A.owner = s ∨ (A.delegate ≠ Key.default ∧ A.delegate = s))
      (hlock : A.state ≠ 1) (hd : d = A.delegate ∨ (d = Key.default ∧ roles = 0)) :
      Move E accts k (.revoke x) A { A with delegate := d, roles := roles }
  | lock (A : Asset) (s : Key) (rest : List Key) (ha : accts = k :: s :: rest)
      (hs : E.signer s = true) (hauth : A.MayLock s) (hlock : A.state ≠ 1) :
      Move E accts k .lock A { A with state := 1 }
  | unlock (A : Asset) (s : Key) (rest : List Key) (ha : accts = k :: s :: rest)
      (hs : E.signer s = true) (hauth : A.MayLock s) :
      Move E accts k .unlock A { A with state := 0 }
  | join (A : Asset) (g s : Key) (rest : List Key) (ha : accts = k :: g :: s :: rest)
      (hs : E.signer s = true) (hg : A.group = Key.default) :
      Move E accts k .group A { A with group := g }
  | leave (A : Asset) (g s : Key) (rest : List Key) (ha : accts = k :: g :: s :: rest)
      (hs : E.signer s = true) (hg : A.group = g) :
      Move E accts k .ungroup A { A with group := Key.default }
  | handover (A : Asset) (s n : Key) (rest : List Key) (ha : accts = k :: s :: n :: rest)
      (hs : E.signer s = true) (hn : E.signer n = true) (hauth : A.authority = s)
      (hmut : A.mutableByte ≠ 0) :
      Move E accts k .handover A { A with authority := n }
  | retitle (A : Asset) (x : UpdateInput) (s : Key) (rest : List Key) (ha : accts = k :: s :: rest)
      (hs : E.signer s = true) (hauth : A.authority = s) (hmut : A.mutableByte ≠ 0)
      (hx : x.extension = none) :
      Move E accts k (.update x) A (A.retitled x)
  | update (A : Asset) (x : UpdateInput) (s : Key) (rest : List Key) (e : ExtInput) (p : Bytes)
      (ha : accts = k :: s :: rest) (hs : E.signer s = true) (hauth : A.authority = s)
      (hmut : A.mutableByte ≠ 0) (hx : x.extension = some e) (he : e.ty ≠ .none)
      (hp : UpdatesTo s e (lookup e.ty A.exts) p) :
      Move E accts k (.update x) A { A.retitled x with exts := setExt e.ty p A.exts }
  /-- The data comes from a buffer account. -/
  | updateFrom (A : Asset) (x : UpdateInput) (s b : Key) (rest : List Key) (t : ExtType) (p : Bytes)
      (ha : accts = k :: s :: b :: rest) (hs : E.signer s = true) (hauth : A.authority = s)
      (hmut : A.mutableByte ≠ 0) (hx : x.extension = none) (hb : b ≠ E.program) (ht : t ≠ .none)
      (hp : TakesFrom s t (lookup t A.exts) p) :
      Move E accts k (.update x) A { A.retitled x with exts := setExt t p A.exts }
  | remove (A : Asset) (t : ExtType) (s : Key) (rest : List Key) (ha : accts = k :: s :: rest)
      (hs : E.signer s = true) (hauth : A.authority = s) (hmut : A.mutableByte ≠ 0)
      (ht : t ≠ .none ∧ t ≠ .manager ∧ t ≠ .proxy) :
      Move E accts k (.remove t) A { A with exts := removeExt t A.exts }
  | verify (A : Asset) (c : Key) (rest : List Key) (p q : Bytes) (ha : accts = k :: c :: rest)
      (hs : E.signer c = true) (hp : lookup .creators A.exts = some p) (hq : SetsFlags c 1 p q) :
      Move E accts k .verify A { A with exts := setExt .creators q A.exts }
  | unverify (A : Asset) (c : Key) (rest : List Key) (p q : Bytes) (ha : accts = k :: c :: rest)
      (hs : E.signer c = true) (hp : lookup .creators A.exts = some p) (hq : SetsFlags c 0 p q) :
      Move E accts k .unverify A { A with exts := setExt .creators q A.exts }
  /-- The asset is a group and gets a member. -/
  | memberIn (A : Asset) (i : Instr) (p : Bytes) (hi : i = .group ∨ ∃ x, i = .create x)
      (ha : k ∈ accts) (hk : accts.head? ≠ some k) (hp : lookup .grouping A.exts = some p)
      (hl : 16 ≤ p.length) (hm : limitOf p = 0 ∨ membersOf p < limitOf p) :
      Move E accts k i A
        (A.resized p (more (membersOf p)))
  /-- The asset is a group and loses a member. -/
  | memberOut (A : Asset) (i : Instr) (p : Bytes) (hi : i = .ungroup ∨ i = .burn)
      (ha : k ∈ accts) (hk : accts.head? ≠ some k) (hp : lookup .grouping A.exts = some p)
      (hl : 16 ≤ p.length) :
      Move E accts k i A
        (A.resized p (fewer (membersOf p)))

/-- The account is closed. -/
def Gone (L : Ledger) (k : Key) : Prop := L k = ⟨0, [], Key.system⟩

/-- The instruction does not do to account `k` what the program gets wrong: updating an
extension of type `None`, or removing an extension that is not the last one. -/
def Sound (k : Key) (A : Asset) (accts : List Key) : Instr → Prop
  | .update x => accts.head? = some k → ∀ e, x.extension = some e → e.ty ≠ .none
  | .remove t => accts.head? = some k →
      t ≠ .none ∧ (A.exts.map (·.1)).getLast? = some t ∧ (A.exts.map (·.1)).count t = 1
  | _ => True

/-- A history in which account `k` is not burned: instructions by anybody on any accounts, and
whatever other programs do. -/
inductive Life (program k : Key) : Ledger → Ledger → Prop
  | refl (L : Ledger) : Life program k L L
  | instr {L L' L'' : Ledger} (E : Env) (accts : List Key) (i : Instr) (hl : Life program k L L')
      (hp : E.program = program) (h : execute E L' accts i = .ok L'')
      (hb : ¬ (i = .burn ∧ accts.head? = some k)) : Life program k L L''
  | foreign {L L' L'' : Ledger} (hl : Life program k L L') (h : Foreign program L' L'') :
      Life program k L L''

/-- The same, leaving out what the program gets wrong on account `k` (`Sound`), and with a
condition `P` on the instructions. -/
inductive SoundLife (program k : Key) (P : List Key → Instr → Prop) : Ledger → Ledger → Prop
  | refl (L : Ledger) : SoundLife program k P L L
  | instr {L L' L'' : Ledger} (E : Env) (accts : List Key) (i : Instr)
      (hl : SoundLife program k P L L')
      (hp : E.program = program) (h : execute E L' accts i = .ok L'')
      (hb : ¬ (i = .burn ∧ accts.head? = some k)) (hP : P accts i)
      (hs : ∀ A, Stores program L' k A → Sound k A accts i) : SoundLife program k P L L''
  | foreign {L L' L'' : Ledger} (hl : SoundLife program k P L L') (h : Foreign program L' L'') :
      SoundLife program k P L L''

/-- Same type, and same data up to the program's bookkeeping. -/
def SameExtn (x y : Extn) : Prop := y.1 = x.1 ∧ SameButBooks x.1 x.2 y.2

end Verif.Spec

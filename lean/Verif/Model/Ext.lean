import Verif.Model.Header

/-!
# Extension headers and walks over the extension area

programs/asset/types/src/extensions/mod.rs and programs/asset/types/src/state/asset.rs.
-/

namespace Verif

/-- `ExtensionType` — types/src/extensions/mod.rs:200-214. -/
inductive ExtType
  | none | attributes | blob | creators | links | metadata | grouping | royalties
  | manager | proxy | properties | bucket
  deriving DecidableEq, Repr

/-- `TryFrom<u32> for ExtensionType` — types/src/extensions/mod.rs:216-236. -/
def ExtType.ofU32 : Nat → Option ExtType
  | 0 => some .none
  | 1 => some .attributes
  | 2 => some .blob
  | 3 => some .creators
  | 4 => some .links
  | 5 => some .metadata
  | 6 => some .grouping
  | 7 => some .royalties
  | 8 => some .manager
  | 9 => some .proxy
  | 10 => some .properties
  | 11 => some .bucket
  | _ => Option.none

/-- `From<ExtensionType> for u32` — types/src/extensions/mod.rs:238-255. -/
def ExtType.toU32 : ExtType → Nat
  | .none => 0
  | .attributes => 1
  | .blob => 2
  | .creators => 3
  | .links => 4
  | .metadata => 5
  | .grouping => 6
  | .royalties => 7
  | .manager => 8
  | .proxy => 9
  | .properties => 10
  | .bucket => 11

/-- `Extension` header: type, length, boundary (the fourth word is unused) —
types/src/extensions/mod.rs:55-118. The boundary is an absolute offset in the account. -/
structure Hdr where
  ty : Nat
  len : Nat
  bnd : Nat
  deriving DecidableEq, Repr

/-- `Extension::load(&data[off..off + 16])` after the range check. -/
def hdrAt (d : Bytes) (off : Nat) : Hdr := ⟨u32At d off, u32At d (off + 4), u32At d (off + 8)⟩

/-- `set_extension_type`, `set_length`, `set_boundary` on the header at `off`; the fourth
word is left as it is — types/src/extensions/mod.rs:93-118. -/
def setHdr (d : Bytes) (off ty len bnd : Nat) : Bytes :=
  splice d off (toLE 4 ty ++ toLE 4 len ++ toLE 4 bnd)

/-- The loop shared by `Asset::contains`, `Asset::get`, `Asset::get_mut` and
`Asset::get_extension` — types/src/state/asset.rs:81-95, 101-119, 125-143, 220-237.
Returns the offset of the header of the first extension of type `t`. -/
def findFrom (t : ExtType) (d : Bytes) : Nat → Nat → Except Err (Option Nat)
  | 0, _ => .error .diverge
  | fuel + 1, cursor =>
    if cursor + extLen ≤ d.length then
      let h := hdrAt d cursor
      if ExtType.ofU32 h.ty = some t then .ok (some cursor)
      else if ExtType.ofU32 h.ty = some .none then .ok Option.none
      else findFrom t d fuel h.bnd
    else .ok Option.none

/-- Offset of the first extension of type `t`, starting at `Asset::LEN`. -/
def find (t : ExtType) (d : Bytes) : Except Err (Option Nat) :=
  findFrom t d (d.length + 1) assetLen

/-- `Asset::contains` — types/src/state/asset.rs:81-95. -/
def assetContains (t : ExtType) (d : Bytes) : Except Err Bool := do
  let r ← find t d
  return r.isSome

/-- Data range of an extension found at `cursor`: `data[start..end]`, panics out of range —
types/src/state/asset.rs:109-111. -/
def payloadAt (d : Bytes) (cursor : Nat) : Except Err Bytes :=
  let h := hdrAt d cursor
  if cursor + extLen + h.len ≤ d.length then .ok (slice d (cursor + extLen) h.len)
  else .error .panic

/-- `Asset::get` up to `T::from_bytes`: the raw payload of the first extension of type `t` —
types/src/state/asset.rs:101-119. -/
def assetGet (t : ExtType) (d : Bytes) : Except Err (Option Bytes) := do
  match ← find t d with
  | Option.none => return Option.none
  | some c => return some (← payloadAt d c)

/-- `Asset::get_mut` up to `T::from_bytes_mut`: offset of the payload and payload —
types/src/state/asset.rs:125-143. -/
def assetGetMut (t : ExtType) (d : Bytes) : Except Err (Option (Nat × Bytes)) := do
  match ← find t d with
  | Option.none => return Option.none
  | some c => return some (c + extLen, ← payloadAt d c)

/-- `Asset::get_extensions` — types/src/state/asset.rs:153-171: unrecognised types are
skipped, `None` stops. -/
def extensionsFrom (d : Bytes) : Nat → Nat → Except Err (List ExtType)
  | 0, _ => .error .diverge
  | fuel + 1, cursor =>
    if cursor + extLen ≤ d.length then
      let h := hdrAt d cursor
      match ExtType.ofU32 h.ty with
      | some .none => .ok []
      | some t => do return t :: (← extensionsFrom d fuel h.bnd)
      | Option.none => extensionsFrom d fuel h.bnd
    else .ok []

@[inherit_doc extensionsFrom]
def getExtensions (d : Bytes) : Except Err (List ExtType) :=
  extensionsFrom d (d.length + 1) assetLen

/-- `Asset::first_extension` — types/src/state/asset.rs:178-189. -/
def firstExtension (d : Bytes) : Option (Hdr × Nat) :=
  if assetLen + extLen ≤ d.length then
    let h := hdrAt d assetLen
    match ExtType.ofU32 h.ty with
    | some .none => Option.none
    | some _ => some (h, assetLen + extLen)
    | Option.none => Option.none
  else Option.none

/-- `Asset::last_extension` — types/src/state/asset.rs:196-213. -/
def lastFrom (d : Bytes) : Nat → Nat → Option (Hdr × Nat) → Except Err (Option (Hdr × Nat))
  | 0, _, _ => .error .diverge
  | fuel + 1, cursor, last =>
    if cursor + extLen ≤ d.length then
      let h := hdrAt d cursor
      match ExtType.ofU32 h.ty with
      | some .none => .ok last
      | Option.none => .ok last
      | some _ => lastFrom d fuel h.bnd (some (h, cursor + extLen))
    else .ok last

@[inherit_doc lastFrom]
def lastExtension (d : Bytes) : Except Err (Option (Hdr × Nat)) :=
  lastFrom d (d.length + 1) assetLen Option.none

/-- `Extension::get` / `Extension::get_mut` up to the conversion —
types/src/extensions/mod.rs:124-166. Works on the bytes after the asset header; `cursor` is
relative to them and the next cursor is `boundary as usize - Asset::LEN`, which wraps for a
boundary below 168: the wrapped cursor plus 16 then either wraps around again (boundary at
least 152), so that the slice below it panics, or is larger than the data. -/
def extFindFrom (t : ExtType) (e : Bytes) : Nat → Nat → Except Err (Option Nat)
  | 0, _ => .error .diverge
  | fuel + 1, cursor =>
    if cursor + extLen ≤ e.length then
      let h := hdrAt e cursor
      if ExtType.ofU32 h.ty = some t then .ok (some cursor)
      else if ExtType.ofU32 h.ty = some .none then .ok Option.none
      else if assetLen ≤ h.bnd then extFindFrom t e fuel (h.bnd - assetLen)
      else if assetLen ≤ h.bnd + extLen then .error .panic
      else .ok Option.none
    else .ok Option.none

@[inherit_doc extFindFrom]
def extGet (t : ExtType) (e : Bytes) : Except Err (Option (Nat × Bytes)) := do
  match ← extFindFrom t e (e.length + 1) 0 with
  | Option.none => return Option.none
  | some c => return some (c + extLen, ← payloadAt e c)

end Verif

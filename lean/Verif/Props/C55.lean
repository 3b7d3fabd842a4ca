import Verif.Props.C22
import Verif.Props.C23
import Verif.Props.C54
import Verif.Lemmas.JsWrites

/-!
# C55 — the JavaScript client writes the bytes the program reads
-/

namespace Verif.Props

open Verif Verif.Spec

/-- The client writes a value exactly when it can be stored — short texts, numbers in range,
constraints on the three accounts, no role None — and then it writes what the Rust builders write. In
every other case it throws. -/
theorem C55_bytes (v : JsExt) (p : Bytes) : jsWriteExt v = .ok p ↔ Writable v ∧ p = rustWrites v :=
  jsWriteExt_ok v p

/-- For up to 256 creators the bytes are those of the Rust `CreatorsBuilder`. -/
theorem C55_creators (cs : List JsCreator) (h : cs.length ≤ 256) :
    (cs.foldl (fun b c => b.add c.address c.verified (UInt8.ofNat c.share)) ({} : CreatorsBuilder)).data =
      rustWrites (.creators cs) := by
  have := (creatorsBuilder_foldl (cs.map fun c => (c.address, c.verified, UInt8.ofNat c.share))
    (by rw [List.length_map]; exact h)).1
  rw [List.foldl_map, List.map_map] at this
  exact this

/-- The program reads back what was written, and the data is of the form the client expects. -/
theorem C55_read (text : Bytes → Bytes) (v : JsExt) (h : Writable v)
    (hl : (rustWrites v).length < 4294967296) :
    shown text v.type (rustWrites v) = .ok (reread text v) ∧ Modern v.type (rustWrites v) := by
  cases v with
  | attributes l =>
    have e : readPairList (rustWrites (.attributes l)) = .ok l := C23_pairs l h
    constructor
    · show (readPairList (rustWrites (.attributes l))).map _ = _
      rw [e]; rfl
    · exact ⟨l, h, rustWrites_pairs l⟩
  | links l =>
    have e : readPairList (rustWrites (.links l)) = .ok l := C23_pairs l h
    constructor
    · show (readPairList (rustWrites (.links l))).map _ = _
      rw [e]; rfl
    · exact ⟨l, h, rustWrites_pairs l⟩
  | blob ct data =>
    have e : readBlob (rustWrites (.blob ct data)) = .ok (ct, data) := C23_blob ct data h
    constructor
    · show (readBlob (rustWrites (.blob ct data))).map _ = _
      rw [e]; rfl
    · exact ⟨ct, data, h, rfl⟩
  | creators cs =>
    have e : readCreators (rustWrites (.creators cs)) = .ok (cs.map storedCreator) := by
      exact readCreators_bytes _
    constructor
    · show (readCreators (rustWrites (.creators cs))).map _ = _
      rw [e]
      simp only [Except.map, reread, List.map_map]
      congr 2
      have : cs.map (shownCreator ∘ storedCreator) = cs.map id :=
        List.map_congr_left fun c hc => shownCreator_stored c (h c hc)
      rw [this, List.map_id]
    · refine ⟨?_, ?_⟩
      · simp [rustWrites, length_creatorsBytes]
      · simp only [rustWrites, creatorList_bytes, List.mem_map]
        rintro _ ⟨c, -, rfl⟩
        exact podBool_range _
  | metadata m =>
    obtain ⟨h1, h2, h3, h4⟩ := h
    have e : readMetadata (rustWrites (.metadata m)) = .ok m :=
      C23_metadata (some m.symbol) (some m.description) (some m.uri) (some m.imageUri) h1 h2 h3 h4
    constructor
    · show (readMetadata (rustWrites (.metadata m))).map _ = _
      rw [e]; rfl
    · refine ⟨m.symbol, m.description, m.uri, m.imageUri, [], h1, h2, h3, h4, ?_⟩
      rw [List.append_nil, ← List.append_assoc, ← List.append_assoc]
      rfl
  | grouping s m d =>
    obtain ⟨e, h48⟩ := readGrouping_members (d := d) h.1 h.2
    constructor
    · show (readGrouping (withMembers (groupingBuilderSet (some m) d) s)).map _ = _
      rw [e]
      simp only [Except.map, shownKey_getD]
      rfl
    · exact h48
  | royalties bp c =>
    obtain ⟨h1, h2, h3⟩ := h
    have hb : (buildC c).length ≤ 2 ^ 32 := by
      have : (rustWrites (.royalties bp c)).length = 8 + (buildC c).length := by
        simp only [rustWrites, royaltiesBuilderSet, List.length_append, length_toLE]
      omega
    have e : readRoyalties (rustWrites (.royalties bp c)) = .ok ⟨bp, c⟩ :=
      C23_royalties bp c h1 (selectorsFit_of_selectable c h2) hb
    constructor
    · show (readRoyalties (rustWrites (.royalties bp c))).map _ = _
      rw [e]; rfl
    · exact ⟨_, e, h2⟩
  | manager a rs =>
    have e := C23_manager ⟨a.getD Key.default, rs.foldl (fun m r => m ||| roleBit r) 0⟩
    constructor
    · show (readManager (rustWrites (.manager a rs))).map _ = _
      rw [rustWrites, e]
      simp only [Except.map, reread, shownKey_getD, shownRoles_mask rs h]
    · have := (a.getD Key.default).2
      show 33 ≤ (rustWrites (.manager a rs)).length
      simp [rustWrites, managerBuilderSet, this]
  | proxy pr seeds bump a =>
    have hs : (Key.ofBytes seeds).1 = seeds := by
      unfold Key.ofBytes
      simp [h.1]
    have e := C23_proxy pr (Key.ofBytes seeds) (UInt8.ofNat bump) a
    constructor
    · show (readProxy (rustWrites (.proxy pr seeds bump a))).map _ = _
      rw [rustWrites, e]
      simp only [Except.map, reread, shownKey_getD, hs]
      rw [UInt8.toNat_ofNat_of_lt' h.2]
    · exact readProxy_iff.mp ⟨_, e⟩
  | properties l =>
    have e := C23_properties (l.map fun x => (x.1, storedValue x.2)) (by
      intro x hx
      obtain ⟨y, hy, rfl⟩ := List.mem_map.mp hx
      refine ⟨(h y hy).1, ?_⟩
      have := (h y hy).2
      revert this
      cases y.2 <;> exact fun h => h)
    rw [List.foldl_map] at e
    constructor
    · show (readPropList (rustWrites (.properties l))).map _ = _
      rw [rustWrites, e]
      simp only [Except.map, reread, List.map_map]
      congr 2
      refine List.map_congr_left fun x _ => ?_
      simp only [Function.comp, shownValue_stored]
    · refine ⟨_, e, ?_⟩
      intro x hx
      obtain ⟨y, -, rfl⟩ := List.mem_map.mp hx
      cases y.2 with
      | boolean b => exact podBool_range b
      | _ => trivial
  | bucket data => exact ⟨rfl, trivial⟩

/-- Reading with the client what the client wrote: texts come back decoded, the default key as no
key, roles in order and once, no roles as the role None. -/
theorem C55_round_trip (dec : Bytes → Bytes) (v : JsExt) (p : Bytes) (h : jsWriteExt v = .ok p)
    (hl : p.length < 4294967296) : jsReadExt dec v.type p = .ok (reread (jsText dec) v) := by
  obtain ⟨h1, rfl⟩ := (jsWriteExt_ok v p).mp h
  obtain ⟨h2, h3⟩ := C55_read (jsText dec) v h1 hl
  obtain ⟨w, h4, h5, -⟩ := jsReadExt_shown (dec := dec) h3 (by cases v <;> simp [JsExt.type])
  rw [h2] at h4
  rw [h5, ← h4]

section Examples
open Verif.Ex

/-- A royalties value with a constraint. -/
def someRoyalties : JsExt :=
  .royalties 500 (.or [.not (.ownedBy 2 [k 7]), .pubkeyMatch 1 [k 8, k 9], .and []])

example : Writable someRoyalties := by
  refine ⟨by decide, ?_, by decide +kernel⟩
  simp [Selectable]

example : (jsWriteExt someRoyalties).map List.length = .ok 160 ∧
    jsWriteExt (.properties [([97], .number 258), ([98], .text [99]), ([100], .boolean true)]) =
      .ok [1, 97, 1, 2, 1, 0, 0, 0, 0, 0, 0, 1, 98, 0, 1, 99, 1, 100, 2, 1] ∧
    jsWriteExt (.metadata ⟨[83], [], [104], []⟩) = .ok [1, 83, 0, 1, 104, 0] := by
  decide +kernel

/-- Roles and keys as they come back. -/
example : (jsWriteExt (.manager (some Key.default) [.burn, .transfer, .burn])).bind
      (fun p => (jsReadExt id .manager p).map fun
        | .manager a rs => (a, rs)
        | _ => (some (k 1), [])) = .ok (none, [.transfer, .burn]) ∧
    (jsWriteExt (.manager (some (k 4)) [])).bind
      (fun p => (jsReadExt id .manager p).map fun
        | .manager a rs => (a, rs)
        | _ => (some (k 1), [])) = .ok (some (k 4), [.none]) := by
  decide +kernel

/-- A text of 256 bytes, the role None and an account selector 3 are refused. The Rust builder stores
such a text with length 0 (C23). -/
theorem C55_refused : jsWriteExt (.blob (List.replicate 256 65) []) = .error .panic ∧
    jsWriteExt (.manager (some (k 4)) [.transfer, .none]) = .error .panic ∧
    jsWriteExt (.royalties 5 (.ownedBy 3 [])) = .error .panic := by
  decide +kernel

end Examples

end Verif.Props

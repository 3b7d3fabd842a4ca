import Verif.Lemmas.Properties
import Verif.Examples
import Verif.Props.C15
import Verif.Props.C23

/-!
# C71 — a property is found under its name, with its type
-/

namespace Verif.Props

open Verif Verif.Spec Verif.Ex

section

variable {d p name : Bytes} {l : List (Bytes × PropValue)} {t : PropType} {v : PropValue}

theorem property_slots (hp : assetGet .properties d = .ok (some p)) (hl : readPropList p = .ok l) :
    ∃ ss, assetProperty d t name = slotGet d ss t name ∧
      ss.map (fun x => (x.1, x.2.value)) = l ∧ ∀ x ∈ ss, x.2.At d := by
  unfold assetGet at hp
  inv at hp
  obtain ⟨o, h1, h2⟩ := hp
  cases o with
  | none => cases h2
  | some c =>
    inv at h2
    obtain ⟨q, h3, h4⟩ := h2
    cases h4
    have h3' := h3
    unfold payloadAt at h3
    simp only at h3
    split at h3
    · rename_i hb
      have hlen : p.length = (hdrAt d c).len := by
        cases h3
        unfold slice
        rw [List.length_take, List.length_drop]
        omega
      obtain ⟨ss, h5, h6⟩ := slots_read (c + extLen) hl
      refine ⟨ss, ?_, h6, slots_at h5 ?_ (by omega)⟩
      · unfold assetProperty assetGetMut
        rw [h1]
        simp only [bind, Except.bind]
        rw [h3']
        simp only [pure, Except.pure]
        rw [h5]
      · rw [hlen]
        cases h3
        rfl
    · cases h3

theorem slots_first {ss : List (Bytes × Slot)} (h : FirstNamed (ss.map fun x => (x.1, x.2.value)) name v) :
    ∃ s, s.value = v ∧ (name, s) ∈ ss ∧ ss.find? (fun x => x.1 = name) = some (name, s) := by
  obtain ⟨before, after, h1, h2⟩ := h
  obtain ⟨bs, as, rfl, rfl, h3⟩ := List.map_eq_append_iff.mp h1
  obtain ⟨⟨n, s⟩, rest, rfl, h4, rfl⟩ := List.map_eq_cons_iff.mp h3
  cases h4
  refine ⟨s, rfl, by simp, ?_⟩
  rw [List.find?_append, List.find?_eq_none.mpr, Option.none_or, List.find?_cons_of_pos (by simp)]
  intro x hx
  have := h2 (x.1, x.2.value) (List.mem_map.mpr ⟨x, hx, rfl⟩)
  simpa using this

/-- Asking for the type of the value gives the value. -/
theorem C71_typed (hp : assetGet .properties d = .ok (some p)) (hl : readPropList p = .ok l)
    (hv : FirstNamed l name v) (hs : ZeroOne v) : assetProperty d (typeOf v) name = .ok (some v) := by
  obtain ⟨ss, h1, rfl, h3⟩ := property_slots (t := typeOf v) (name := name) hp hl
  obtain ⟨s, h4, h5, h6⟩ := slots_first hv
  rw [h1, slotGet, h6]
  have ha := h3 _ h5
  unfold Slot.At at ha
  simp only [h4] at ha
  cases v with
  | text x => simp only [typeOf, castSlot, h4]; rfl
  | number n =>
    simp only at ha
    simp only [typeOf, castSlot, h4]
    rw [if_pos ha.1, ha.2]
    rfl
  | boolean b =>
    simp only at ha
    simp only [typeOf, castSlot, h4]
    rw [ha.2, if_pos (show b ≤ 1 from hs)]
    rfl

/-- Nothing is found exactly when there is no property of the name: a value of another type is not
reported as absent. -/
theorem C71_absent (hp : assetGet .properties d = .ok (some p)) (hl : readPropList p = .ok l) :
    assetProperty d t name = .ok none ↔ ∀ x ∈ l, x.1 ≠ name := by
  obtain ⟨ss, h1, rfl, -⟩ := property_slots (t := t) (name := name) hp hl
  rw [h1, slotGet]
  constructor
  · intro h
    split at h
    · rename_i hf
      intro x hx
      obtain ⟨y, hy, rfl⟩ := List.mem_map.mp hx
      have := List.find?_eq_none.mp hf y hy
      simpa using this
    · rename_i s _
      cases hc : castSlot d s.2 t with
      | error e => rw [hc] at h; cases h
      | ok w => rw [hc] at h; cases h
  · intro h
    rw [List.find?_eq_none.mpr]
    intro x hx
    have := h (x.1, x.2.value) (List.mem_map.mpr ⟨x, hx, rfl⟩)
    simpa using this

/-- What was added with the builder is found, if names are not repeated. -/
theorem C71_built (hl : ∀ x ∈ l, x.1.length ≤ 255 ∧ x.2.Fits)
    (hp : assetGet .properties d = .ok (some (l.foldl (fun b x => propsBuilderAdd b x.1 x.2) [])))
    (hd : (l.map (·.1)).Nodup) (hm : (name, v) ∈ l) (hs : ZeroOne v) :
    assetProperty d (typeOf v) name = .ok (some v) := by
  refine C71_typed hp (C23_properties l hl) ?_ hs
  obtain ⟨a, b, rfl⟩ := List.append_of_mem hm
  refine ⟨a, b, rfl, fun x hx e => ?_⟩
  rw [List.map_append, List.map_cons, List.nodup_append] at hd
  exact hd.2.2 _ (List.mem_map.mpr ⟨x, hx, rfl⟩) _ (List.mem_cons_self ..) e

/-- A boolean asked for as a number is the boolean with the seven bytes after it, whatever they
are; if the account ends before, bytes outside of it are read. -/
theorem C71_boolean_as_number {b : UInt8} (hp : assetGet .properties d = .ok (some p))
    (hl : readPropList p = .ok l) (hv : FirstNamed l name (.boolean b)) :
    ∃ o, o < d.length ∧ byteAt d o = b ∧ assetProperty d .number name =
      if o + 8 ≤ d.length then .ok (some (.number (b.toNat + 256 * leNat (slice d (o + 1) 7))))
      else .error .undef := by
  obtain ⟨ss, h1, rfl, h3⟩ := property_slots (t := .number) (name := name) hp hl
  obtain ⟨s, h4, h5, h6⟩ := slots_first hv
  have ha := h3 _ h5
  unfold Slot.At at ha
  simp only [h4] at ha
  refine ⟨s.pos, ha.1, ha.2, ?_⟩
  rw [h1, slotGet, h6]
  simp only [castSlot, h4]
  split
  · have e : slice d s.pos 8 = b :: slice d (s.pos + 1) 7 := by
      unfold slice
      rw [List.drop_eq_getElem_cons ha.1, List.take_succ_cons]
      congr 1
      have := ha.2
      unfold byteAt at this
      rw [List.getD_eq_getElem?_getD, List.getElem?_eq_getElem ha.1, Option.getD_some] at this
      exact this
    rw [e]
    rfl
  · rfl

/-- A number asked for as a boolean is its lowest byte, which must be 0 or 1. -/
theorem C71_number_as_boolean {n : Nat} (hp : assetGet .properties d = .ok (some p))
    (hl : readPropList p = .ok l) (hv : FirstNamed l name (.number n)) :
    assetProperty d .boolean name =
      if n % 256 ≤ 1 then .ok (some (.boolean (UInt8.ofNat (n % 256)))) else .error .undef := by
  obtain ⟨ss, h1, rfl, h3⟩ := property_slots (t := .boolean) (name := name) hp hl
  obtain ⟨s, h4, h5, h6⟩ := slots_first hv
  have ha := h3 _ h5
  unfold Slot.At at ha
  simp only [h4] at ha
  have hlt : s.pos < d.length := by omega
  have e : UInt8.ofNat (n % 256) = byteAt d s.pos ∧ n % 256 = (byteAt d s.pos).toNat := by
    rw [← ha.2]
    unfold slice
    rw [List.drop_eq_getElem_cons hlt, List.take_succ_cons]
    have hb : byteAt d s.pos = d[s.pos] := by
      unfold byteAt
      rw [List.getD_eq_getElem?_getD, List.getElem?_eq_getElem hlt, Option.getD_some]
    rw [hb, leNat]
    have : (d[s.pos].toNat + 256 * leNat (List.take 7 (List.drop (s.pos + 1) d))) % 256 =
        d[s.pos].toNat := by
      have := d[s.pos].toNat_lt
      omega
    rw [this]
    exact ⟨UInt8.ofNat_toNat, rfl⟩
  rw [h1, slotGet, h6, e.1]
  simp only [castSlot, h4, e.2]
  have : (byteAt d s.pos ≤ 1) = ((byteAt d s.pos).toNat ≤ 1) := rfl
  simp only [this]
  split <;> rfl

/-- All other confusions have no defined result, and neither has a boolean other than 0 and 1. -/
theorem C71_undefined (hp : assetGet .properties d = .ok (some p)) (hl : readPropList p = .ok l)
    (hv : FirstNamed l name v)
    (h : (typeOf v = .text ∧ t ≠ .text) ∨ (typeOf v ≠ .text ∧ t = .text) ∨ (t = .boolean ∧ ∃ b, v = .boolean b ∧ 1 < b)) :
    assetProperty d t name = .error .undef := by
  obtain ⟨ss, h1, rfl, h3⟩ := property_slots (t := t) (name := name) hp hl
  obtain ⟨s, h4, h5, h6⟩ := slots_first hv
  have ha := h3 _ h5
  unfold Slot.At at ha
  simp only [h4] at ha
  rw [h1, slotGet, h6]
  rcases h with ⟨h, ht⟩ | ⟨h, rfl⟩ | ⟨rfl, b, rfl, hb⟩
  · cases v <;> simp [typeOf] at h
    cases t <;> simp [castSlot, h4] at ht ⊢ <;> rfl
  · cases v <;> simp [typeOf] at h <;> simp [castSlot, h4] <;> rfl
  · simp only [castSlot, h4]
    rw [ha.2, if_neg (by rw [UInt8.not_le]; exact hb)]
    rfl

/-- `PropertiesMut::remove` takes the values of the name out of the vector, and no others … -/
theorem C71_remove {mem other : Bytes} {ss : List (Bytes × Slot)} :
    slotGet mem (slotRemove mem ss name).2 t name = .ok none ∧
    (other ≠ name → slotGet mem (slotRemove mem ss name).2 t other = slotGet mem ss t other) := by
  unfold slotRemove slotGet
  constructor
  · rw [List.find?_eq_none.mpr]
    intro x hx
    have := (List.mem_filter.mp hx).2
    simpa using this
  · intro h
    rw [List.find?_filter]
    congr 1
    refine congrArg (fun f => List.find? f ss) (funext fun x => ?_)
    by_cases e : x.1 = other
    · simp [e, h]
    · simp [e]

/-- … but not out of the account. -/
theorem C71_remove_stays {ss : List (Bytes × Slot)} :
    assetProperty (slotRemove d ss name).1 t name = assetProperty d t name := rfl

end

section Examples

/-- "public" is true, "price" is 7, "kind" is "x". -/
def somePropList : List (Bytes × PropValue) :=
  [([112, 117, 98, 108, 105, 99], .boolean 1), ([112, 114, 105, 99, 101], .number 7),
    ([107, 105, 110, 100], .text [120])]

/-- An asset with the properties, created with the program. -/
def propAsset (l : List (Bytes × PropValue)) : Except Err Bytes :=
  let p := l.foldl (fun b x => propsBuilderAdd b x.1 x.2) []
  (run empties [k 1, k 5] createAccts
    (.create ⟨[65], .nonFungible, true, some [⟨.properties, UInt32.ofNat p.length, some p⟩]⟩)).map fun L => (L (k 1)).data

/-- Each property is found with its type. -/
example : ((propAsset somePropList).bind fun d => assetProperty d .boolean [112, 117, 98, 108, 105, 99]) =
      .ok (some (.boolean 1)) ∧
    ((propAsset somePropList).bind fun d => assetProperty d .number [112, 114, 105, 99, 101]) =
      .ok (some (.number 7)) ∧
    ((propAsset somePropList).bind fun d => assetProperty d .text [107, 105, 110, 100]) =
      .ok (some (.text [120])) ∧
    ((propAsset somePropList).bind fun d => assetProperty d .text [107]) = .ok none := by
  decide +kernel

/-- The claim is false: "public" is a boolean, but is also found as a number, made of the name and the
value of the next property. As a text it has no defined value. And the program accepts a boolean that is
neither true nor false, which has no defined value either. -/
theorem C71_false :
    ((propAsset somePropList).bind fun d => assetProperty d .number [112, 117, 98, 108, 105, 99]) =
      .ok (some (.number (leNat [1, 5, 112, 114, 105, 99, 101, 1]))) ∧
    ((propAsset [([112, 117, 98, 108, 105, 99], .boolean 7)]).bind fun d =>
      assetProperty d .boolean [112, 117, 98, 108, 105, 99]) = .error .undef ∧
    ((propAsset somePropList).bind fun d => assetProperty d .text [112, 117, 98, 108, 105, 99]) =
      .error .undef := by
  decide +kernel

end Examples

end Verif.Props

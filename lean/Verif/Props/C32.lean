import Verif.Lemmas.Trail
import Verif.Examples

/-!
# C32 — traversal of the extension area is safe

`HasExts d es` (Verif/Spec/Layout.lean) says that account data `d` stores exactly the
extensions `es`. Accounts created and updated by the program satisfy it (C24, C26, C33).
-/

namespace Verif.Props

open Verif Verif.Spec

/-- The contents are determined by the data. -/
theorem C32_contents_unique {d : Bytes} {es es' : List Extn} (h : HasExts d es)
    (h' : HasExts d es') : es = es' := h.unique h'

/-- `Asset::get` returns the data of the first extension of the type, or nothing. -/
theorem C32_get {d : Bytes} {es : List Extn} (h : HasExts d es) {t : ExtType} (ht : t ≠ .none) :
    assetGet t d = .ok (lookup t es) := assetGet_walk h ht

/-- `Asset::contains` answers whether there is an extension of the type. -/
theorem C32_contains {d : Bytes} {es : List Extn} (h : HasExts d es) {t : ExtType}
    (ht : t ≠ .none) : assetContains t d = .ok (decide (t ∈ es.map (·.1))) := by
  obtain ⟨e, h, he⟩ := h
  unfold assetContains
  rcases find_walk h he ht with ⟨h1, h2, h3⟩ | ⟨pre, p, post, m, rfl, _, h3, h4, h5, h6⟩
  · rw [h3]
    have : t ∉ es.map (·.1) := by
      intro hm
      obtain ⟨x, hx, rfl⟩ := List.mem_map.mp hm
      exact h2 x hx rfl
    simp [this, bind, Except.bind, pure, Except.pure]
  · rw [h6]
    simp [bind, Except.bind, pure, Except.pure]

/-- `Extension::get`, which works on the bytes after the header, finds the same data at the
same place as `Asset::get_mut`. -/
theorem C32_extension_get_agrees {d : Bytes} {es : List Extn} (h : HasExts d es) {t : ExtType}
    (ht : t ≠ .none) :
    (lookup t es = none ∧ assetGetMut t d = .ok none ∧ extGet t (d.drop 168) = .ok none) ∨
    (∃ p off, lookup t es = some p ∧ assetGetMut t d = .ok (some (168 + off, p)) ∧
      extGet t (d.drop 168) = .ok (some (off, p)) ∧ 168 + off + p.length ≤ d.length) := by
  obtain ⟨e, h, he⟩ := h
  rcases find_walk h he ht with ⟨h1, h2, h3⟩ | ⟨pre, p, post, m, rfl, hpre, h3, h4, h5, h6⟩
  · rcases extGet_walk h he ht with ⟨_, g2⟩ | ⟨_, q, _, _, _, _, g3, _⟩
    · left
      refine ⟨h1, ?_, g2⟩
      unfold assetGetMut
      rw [h3]; rfl
    · rw [h1] at g3; cases g3
  · rcases extGet_walk h he ht with ⟨g1, _⟩ | ⟨pre', q, post', m', heq, hpre', g3, g4, g5, g6⟩
    · rw [h3] at g1; cases g1
    · right
      rw [h3, Option.some.injEq] at g3
      subst g3
      have hmm : m' = m := by
        -- both are the start of the first extension of the type
        have hle := h4.le
        have hfind : find t d = .ok (some m') := by
          unfold find
          have hlen' := g4.length_le
          have hle' := g5.le
          have : d.length + 1 = pre'.length + ((d.length - pre'.length) + 1) := by omega
          rw [this, show assetLen = 168 from rfl, findFrom_skip g4 hpre', findFrom]
          obtain ⟨k1, k2, k3, _⟩ := g5.head
          rw [if_pos k1]
          simp only
          rw [k2, if_pos rfl]
        rw [h6] at hfind
        simpa using hfind.symm
      subst hmm
      have hle := h4.le
      obtain ⟨k1, k2, k3, k4, k5, k6, k7, _⟩ := h5.head
      refine ⟨p, m' - 168 + 16, h3, ?_, g6, by omega⟩
      unfold assetGetMut
      rw [h6]
      simp only [bind, Except.bind]
      rw [payloadAt_walk h5]
      have : m' + extLen = 168 + (m' - 168 + 16) := by unfold extLen; omega
      rw [this]; rfl

/-- `Asset::get_extensions` lists the types in order. -/
theorem C32_get_extensions {d : Bytes} {es : List Extn} (h : HasExts d es) :
    getExtensions d = .ok (es.map (·.1)) := getExtensions_walk h

/-- `Asset::last_extension` finds the last extension: its type and length, where its data
starts and where it ends. -/
theorem C32_last_extension {d : Bytes} {es : List Extn} (h : HasExts d es) :
    (es = [] ∧ lastExtension d = .ok none) ∨
    ∃ pre t p off e, es = pre ++ [(t, p)] ∧
      lastExtension d = .ok (some (⟨t.toU32, p.length, e⟩, off)) ∧
      slice d off p.length = p ∧ off + p.length ≤ e ∧ e ≤ d.length := by
  obtain ⟨e, h, he⟩ := h
  rcases lastExtension_walk h he with ⟨h1, h2⟩ | ⟨pre, t, p, m, rfl, h1, h2, h3⟩
  · exact Or.inl ⟨h2, h1⟩
  · right
    have hle := h2.le
    obtain ⟨k1, k2, k3, k4, k5, k6, k7, k8⟩ := h2.head
    have := k8.le
    exact ⟨pre, t, p, m + 16, e, rfl, h3, k7, by omega, by omega⟩

/-- `Asset::first_extension` finds the first extension. -/
theorem C32_first_extension {d : Bytes} {es : List Extn} (h : HasExts d es) :
    match es with
    | [] => firstExtension d = none
    | (t, p) :: _ => ∃ b, firstExtension d = some (⟨t.toU32, p.length, b⟩, 184) ∧
        slice d 184 p.length = p := by
  obtain ⟨e, h, he⟩ := h
  have e168 : assetLen = 168 := rfl
  have e16 : extLen = 16 := rfl
  cases es with
  | nil =>
    cases h
    simp only
    unfold firstExtension
    rw [e168]
    rcases he.cases with hc | ⟨hc, hc2⟩
    · rw [if_neg hc]
    · rw [if_pos hc]; simp only; rw [hc2]
  | cons x xs =>
    obtain ⟨t, p⟩ := x
    obtain ⟨k1, k2, k3, k4, k5, k6, k7, k8⟩ := h.head
    have hty : (hdrAt d 168).ty = t.toU32 := by cases h with | cons ht h0 => exact h0
    refine ⟨(hdrAt d 168).bnd, ?_, k7⟩
    unfold firstExtension
    rw [e168, if_pos k1]
    simp only
    rw [k2, ← hty, ← k4]
    cases t <;> first | exact absurd rfl k3 | rfl

/-- Extensions of types unknown to this version are left out of the list of extensions, and those
after them are still listed. -/
theorem C32_unknown_listed {d : Bytes} {es : List (Nat × Nat)} {e : Nat} (h : Trail d 168 es e)
    (he : Ends d e) : getExtensions d = .ok (es.filterMap fun x => ExtType.ofU32 x.1) :=
  extensionsFrom_trail h he h.fuel_ok

/-- An extension behind ones of unknown types is still found. -/
theorem C32_unknown_found {d : Bytes} {es : List (Nat × Nat)} {e : Nat} (h : Trail d 168 es e)
    (he : Ends d e) {t : ExtType} (ht : t ≠ .none) :
    find t d = .ok ((es.find? fun x => x.1 = t.toU32).map (·.2)) :=
  findFrom_trail h he ht h.fuel_ok

/-- `Asset::last_extension`, however, takes an extension of an unknown type for the end. -/
theorem C32_unknown_last {d : Bytes} {es : List (Nat × Nat)} {e : Nat} (h : Trail d 168 es e)
    (he : Ends d e) : lastExtension d =
      .ok ((es.takeWhile fun x => known x.1).getLast?.map fun x => (hdrAt d x.2, x.2 + 16)) := by
  have := lastFrom_trail h he h.fuel_ok none
  rw [Option.or_none] at this
  exact this

/-! ## Concrete case -/

/-- An account with a Blob, an extension of type 12 and a Manager. -/
def unknownExt : Bytes :=
  Ex.header 0 1 1 (Ex.k 2) Key.default (Ex.k 3) (Ex.k 4) 7 [65, 66] ++
    Ex.block 168 .blob [1, 2] ++ toLE 4 12 ++ toLE 4 8 ++ toLE 4 216 ++ zeros 12 ++
    Ex.block 216 .manager ((Ex.k 6).1 ++ [3])

theorem unknownExt_trail : Trail unknownExt 168 [(2, 168), (12, 192), (8, 216)] 272 := by
  refine .cons (bnd := 192) (by decide +kernel) (by decide) (by decide +kernel) (by decide +kernel)
    (by decide) ?_
  refine .cons (bnd := 216) (by decide +kernel) (by decide) (by decide +kernel) (by decide +kernel)
    (by decide) ?_
  exact .cons (bnd := 272) (by decide +kernel) (by decide) (by decide +kernel) (by decide +kernel)
    (by decide) .nil

example : getExtensions unknownExt = .ok [.blob, .manager] ∧
    find .manager unknownExt = .ok (some 216) ∧
    (lastExtension unknownExt).map (·.map (·.2)) = .ok (some 184) := by decide +kernel

/-- An account with two extensions and some spare zero bytes. -/
def twoExts : Bytes :=
  Ex.header 0 1 1 (Ex.k 2) Key.default (Ex.k 3) (Ex.k 4) 7 [65, 66] ++
    Ex.blocks 168 [(.attributes, [1, 97, 1, 98]), (.manager, (Ex.k 6).1 ++ [3])] ++ zeros 40

example : HasExts twoExts [(.attributes, [1, 97, 1, 98]), (.manager, (Ex.k 6).1 ++ [3])] := by
  refine ⟨248, ?_, by right; decide +kernel⟩
  refine Walk.cons (bnd := 192) (by decide) (by decide +kernel) (by decide +kernel)
    (by decide +kernel) (by decide +kernel) (by decide +kernel) ?_
  refine Walk.cons (bnd := 248) (by decide) (by decide +kernel) (by decide +kernel)
    (by decide +kernel) (by decide +kernel) (by decide +kernel) ?_
  exact Walk.nil (by decide +kernel)

example : assetGet .manager twoExts = .ok (some ((Ex.k 6).1 ++ [3])) ∧
    assetGet .blob twoExts = .ok none ∧
    getExtensions twoExts = .ok [.attributes, .manager] := by
  decide +kernel

end Verif.Props

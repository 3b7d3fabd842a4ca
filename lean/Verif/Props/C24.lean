import Verif.Lemmas.Shape
import Verif.Examples

/-!
# C24 — updating an extension stores exactly the new data and preserves all others
-/

namespace Verif.Props

open Verif Verif.Spec

variable {E : Env} {L L' : Ledger} {accts : List Key} {x : UpdateInput}

/-- `updateValidate` accepts the data up to what the program maintains itself. -/
theorem updatePayload_books {e : ExtInput} {old : Option Bytes} {au : Key} {pl : Bytes}
    (h : match e.data with
      | some data => updateValidate e.ty data old au = .ok pl
      | none => pl = []) : SameButBooks e.ty (e.data.getD []) pl := by
  cases hd : e.data with
  | none => rw [hd] at h; subst h; exact SameButBooks.refl _ _
  | some data => rw [hd] at h; exact updateValidate_books h

/-- Update with inline data: name and mutability are as requested, the extension of the type
holds the new data (apart from creator flags and group size), at its old place or at the end;
nothing else about the asset changes. -/
theorem C24_update_inline_partial {e : ExtInput} (hx : x.extension = some e) (he : e.ty ≠ .none)
    (h : execute E L accts (.update x) = .ok L') :
    ∃ a rest, accts = a :: rest ∧ ∀ A, Stores E.program L a A →
      ∃ data, SameButBooks e.ty (e.data.getD []) data ∧ data.length = e.length.toNat ∧
        Stores E.program L' a { A.retitled x with exts := setExt e.ty data A.exts } := by
  obtain ⟨a, au, b, g, p, s, rest, rfl, hp⟩ := exec_update h
  refine ⟨a, _, rfl, fun A hs => ?_⟩
  have hmax := execute_maxLen h (k := a) (by simp) hs.2.1
  unfold processUpdate at hp
  inv at hp
  obtain ⟨_, _, _, _, _, hp⟩ := hp
  rw [hx] at hp
  cases hb : optAcc E b with
  | some b => rw [hb] at hp; cases hp
  | none =>
    rw [hb] at hp
    obtain ⟨pl, h1, h2, h3⟩ := updateArgs_stores (stores_updateHeader hs x) he hmax hp
    exact ⟨pl, updatePayload_books h3, h2, h1⟩

/-- What readers see after such an update. -/
theorem C24_readers {A : Asset} {t : ExtType} {data : Bytes} {p a : Key} (ht : t ≠ .none)
    (h : Stores p L a A) (h' : Stores p L' a { A.retitled x with exts := setExt t data A.exts }) :
    assetGet t (L' a).data = .ok (some data) ∧
    ∀ t', t' ≠ .none → t' ≠ t → assetGet t' (L' a).data = assetGet t' (L a).data := by
  have e1 := h.2.2.2.hasExts
  have e2 := h'.2.2.2.hasExts
  simp only at e2
  have l1 : ∀ es, lookup t (setExt t data es) = some data := by
    intro es
    induction es with
    | nil => simp [setExt, lookup]
    | cons y ys ih =>
      obtain ⟨t', p'⟩ := y
      rw [setExt]
      split
      · simp [lookup]
      · rename_i hn; rw [lookup, if_neg hn]; exact ih
  have l2 : ∀ t', t' ≠ t → ∀ es, lookup t' (setExt t data es) = lookup t' es := by
    intro t' htt es
    induction es with
    | nil => simp [setExt, lookup, Ne.symm htt]
    | cons y ys ih =>
      obtain ⟨t'', p'⟩ := y
      rw [setExt]
      split
      · rename_i hn
        rw [lookup, lookup, if_neg (Ne.symm htt), if_neg (by rw [hn]; exact Ne.symm htt)]
      · rw [lookup, lookup, ih]
  refine ⟨by rw [assetGet_walk e2 ht, l1], fun t' ht' htt => ?_⟩
  rw [assetGet_walk e2 ht', assetGet_walk e1 ht', l2 t' htt]

/-- Update without an extension changes name and mutability only. -/
theorem C24_update_header (hx : x.extension = none)
    (h : execute E L accts (.update x) = .ok L') :
    ∃ a au b rest, accts = a :: au :: b :: rest ∧ (b = E.program → ∀ A, Stores E.program L a A →
      Stores E.program L' a (A.retitled x)) := by
  obtain ⟨a, au, b, g, p, s, rest, rfl, hp⟩ := exec_update h
  refine ⟨a, au, b, _, rfl, fun hb A hs => ?_⟩
  unfold processUpdate at hp
  inv at hp
  obtain ⟨_, _, _, _, _, hp⟩ := hp
  rw [hx, show optAcc E b = none by unfold optAcc; rw [if_pos hb]] at hp
  cases hp
  exact stores_updateHeader hs x

/-! Concrete cases. -/

section Examples
open Verif.Ex

/-- An asset with three extensions. -/
def three : Ledger :=
  ledger [(k 1, owned (header 0 0 1 (k 2) Key.default (k 3) Key.default 0 [65] ++
      blocks 168 [(.attributes, [1, 97, 1, 98]), (.blob, [1, 120, 5, 6, 7, 8, 9]),
        (.links, [1, 99, 2, 100, 101])])),
    (k 2, wallet), (k 3, wallet), (k 5, wallet), (Key.system, wallet)]

/-- The extensions of `three`. -/
example : getExtensions (three (k 1)).data = .ok [.attributes, .blob, .links] := by decide +kernel

/-- Growing the one in the middle. -/
example :
    (after (run three [k 3, k 5] [k 1, k 3, prog, prog, k 5, Key.system] (.update
      ⟨some [90], none, some ⟨.blob, 20, some ([1, 121] ++ zeros 18)⟩⟩)) (k 1)).map (fun a =>
        (a.data.length, (view a.data).name.take 2, [assetGet .attributes a.data,
          assetGet .blob a.data, assetGet .links a.data])) =
    .ok (256, [90, 0], [.ok (some [1, 97, 1, 98]), .ok (some ([1, 121] ++ zeros 18)),
      .ok (some [1, 99, 2, 100, 101])]) := by decide +kernel

/-- Appending a new one. -/
example :
    (after (run three [k 3, k 5] [k 1, k 3, prog, prog, k 5, Key.system] (.update
      ⟨none, none, some ⟨.bucket, 3, some [1, 2, 3]⟩⟩)) (k 1)).map (fun a =>
        (getExtensions a.data, assetGet .bucket a.data, assetGet .links a.data)) =
    .ok (.ok [.attributes, .blob, .links, .bucket], .ok (some [1, 2, 3]),
      .ok (some [1, 99, 2, 100, 101])) := by decide +kernel

/-- The exclusion of type `None` is needed: with spare zero bytes at the end of the account such
an update is accepted although no extension of that type exists; the account grows by a copy of
its own header and the extension cannot be found afterwards. -/
theorem C24_none_type_corrupts :
    let L := ledger [(k 1, owned (header 0 0 1 (k 2) Key.default (k 3) Key.default 0 [65] ++
        blocks 168 [(.bucket, [7])] ++ zeros 16)), (k 3, wallet), (k 5, wallet)]
    (after (run L [k 3, k 5] [k 1, k 3, prog, prog, k 5, Key.system]
      (.update ⟨none, none, some ⟨.none, 8, some (zeros 8)⟩⟩)) (k 1)).map (fun a =>
        (a.data.length, getExtensions a.data, slice a.data 220 4)) =
    .ok (408, .ok [.bucket], [2, 2, 2, 2]) := by decide +kernel

end Examples

end Verif.Props

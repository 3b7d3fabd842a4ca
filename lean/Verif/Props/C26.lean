import Verif.Lemmas.Shape
import Verif.Lemmas.Allocate
import Verif.Examples

/-!
# C26 — resizing never alters the asset
-/

namespace Verif.Props

open Verif Verif.Spec

variable {E : Env} {L L' : Ledger} {accts : List Key}

/-- Resize needs the signing authority of a mutable asset, and keeps the asset: header and
extensions are the same; the account has the requested size, which for Trim is where the
extensions end. -/
theorem C26_resize {s : Strategy} (h : execute E L accts (.resize s) = .ok L') :
    ∃ a au p y rest, accts = a :: au :: p :: y :: rest ∧ ∀ A, Stores E.program L a A →
      E.signer au = true ∧ au = A.authority ∧ A.mutableByte ≠ 0 ∧ Stores E.program L' a A ∧
      (L' a).data.length = resizedTo (L a).data.length A.exts s := by
  obtain ⟨a, au, p, y, rest, rfl, hp⟩ := exec_resize h
  exact ⟨a, au, p, y, rest, rfl, fun A hs =>
    processResize_stores hs (execute_maxLen h (k := a) (by simp) hs.2.1) hp⟩

/-- A Resize never brings an account to more than 10240 bytes above the size it had at the start of
the instruction. -/
theorem C26_limit {s : Strategy} (h : execute E L accts (.resize s) = .ok L') :
    ∃ a rest, accts = a :: rest ∧ ((L a).data.length ≤ E.origLen a + 10240 →
      (L' a).data.length ≤ E.origLen a + 10240) := by
  obtain ⟨a, au, p, y, rest, rfl, hp⟩ := exec_resize h
  refine ⟨a, _, rfl, fun hb => ?_⟩
  unfold processResize at hp
  inv at hp
  obtain ⟨_, _, _, _, _, size, _, hr⟩ := hp
  exact resize_bound hr hb

/-- Every reader of extensions gives the same answer before and after. -/
theorem C26_readers {A : Asset} {p a : Key} (h : Stores p L a A) (h' : Stores p L' a A) :
    getExtensions (L' a).data = getExtensions (L a).data ∧
    ∀ t, t ≠ .none → assetGet t (L' a).data = assetGet t (L a).data := by
  have e1 := h.2.2.2.hasExts
  have e2 := h'.2.2.2.hasExts
  exact ⟨by rw [getExtensions_walk e1, getExtensions_walk e2], fun t ht => by
    rw [assetGet_walk e1 ht, assetGet_walk e2 ht]⟩

section Examples
open Verif.Ex

/-- An asset with one extension and 40 spare bytes. -/
def spare : Ledger :=
  ledger [(k 1, owned (header 0 0 1 (k 2) Key.default (k 3) Key.default 0 [65] ++
      blocks 168 [(.attributes, [1, 97, 1, 98])] ++ zeros 40)),
    (k 2, wallet), (k 3, wallet), (k 5, wallet)]

example : (spare (k 1)).data.length = 232 := by decide +kernel

example : (after (run spare [k 3] [k 1, k 3, k 5, Key.system] (.resize .trim)) (k 1)).map (fun a =>
    (a.data.length, getExtensions a.data, assetGet .attributes a.data)) =
    .ok (192, .ok [.attributes], .ok (some [1, 97, 1, 98])) := by decide +kernel

example : (after (run spare [k 3, k 5] [k 1, k 3, k 5, Key.system] (.resize (.extend 100)))
      (k 1)).map (fun a => (a.data.length, getExtensions a.data, assetGet .attributes a.data)) =
    .ok (332, .ok [.attributes], .ok (some [1, 97, 1, 98])) := by decide +kernel

/-- 10240 bytes more, but not one more than that. -/
example : (run spare [k 3, k 5] [k 1, k 3, k 5, Key.system] (.resize (.extend 10240))).isOk = true ∧
    (run spare [k 3, k 5] [k 1, k 3, k 5, Key.system] (.resize (.extend 10241))).isOk = false := by
  decide +kernel

/-- Only the authority. -/
example : (run spare [k 2] [k 1, k 2, k 5, Key.system] (.resize .trim)).isOk = false := by
  decide +kernel

end Examples

end Verif.Props

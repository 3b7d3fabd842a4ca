import Verif.Lemmas.CreateStores
import Verif.Lemmas.ExtList
import Verif.Props.C15

/-!
# C33 — extensions are created in the requested order with the requested content

The content is what is requested; the order is not: `swap_remove(0)` moves the last extension
to the front of the rest, so that all but the first are created in reverse order.
-/

namespace Verif.Props

open Verif Verif.Spec

section
variable {E : Env} {L L' : Ledger} {accts : List Key} {x : CreateInput}

/-- The order in which a list is created. -/
def firstThenReversed {α : Type} : List α → List α
  | [] => []
  | x :: xs => x :: xs.reverse

theorem swapRemoveOrder_eq {α : Type} (n : Nat) (xs : List α) (h : xs.length ≤ n) :
    swapRemoveOrder n xs = firstThenReversed xs := by
  induction n generalizing xs with
  | zero =>
    cases xs with
    | nil => rfl
    | cons => simp at h
  | succ n ih =>
    cases xs with
    | nil => rfl
    | cons x xs =>
      rw [swapRemoveOrder]
      cases hl : xs.getLast? with
      | none =>
        rw [List.getLast?_eq_none_iff] at hl
        subst hl; rfl
      | some y =>
        have he : xs = xs.dropLast ++ [y] := by
          obtain ⟨ys, rfl⟩ := List.getLast?_eq_some_iff.mp hl
          simp
        simp only
        have hlen : xs.length = xs.dropLast.length + 1 := by
          conv_lhs => rw [he]
          simp
        rw [ih _ (by simp only [List.length_cons] at h ⊢; omega)]
        conv_rhs => rw [he]
        simp [firstThenReversed]

/-- `y` has the type of `x`, and the data of `x` up to the verified flags of creators. -/
def Carries (x y : Extn) : Prop :=
  y.1 = x.1 ∧ y.2.length = x.2.length ∧
    ∀ i : Nat, y.2[i]? ≠ x.2[i]? → y.1 = .creators ∧ i % 34 = 32

theorem keyAt_bytes {p q : Bytes} {o i : Nat} (h : keyAt p o = keyAt q o) (hp : o + 32 ≤ p.length)
    (hq : o + 32 ≤ q.length) (hi : i < 32) : p[o + i]? = q[o + i]? := by
  have := congrArg Subtype.val h
  unfold keyAt at this
  rw [ofBytes_val (length_slice hp), ofBytes_val (length_slice hq)] at this
  have := congrArg (·[i]?) this
  simpa only [getElem?_slice, if_pos hi] using this

/-- Accepted new data is the given data up to the flags. -/
theorem accepted_carries {au : Option Key} {t : ExtType} {p q : Bytes}
    (h : Accepted au t none p q) :
    q.length = p.length ∧ ∀ i : Nat, q[i]? ≠ p[i]? → t = .creators ∧ i % 34 = 32 := by
  have same : q = p → q.length = p.length ∧
      ∀ i : Nat, q[i]? ≠ p[i]? → t = .creators ∧ i % 34 = 32 := by
    rintro rfl
    exact ⟨rfl, fun i hi => absurd rfl hi⟩
  cases t with
  | none => exact h.elim
  | creators =>
    obtain ⟨_, h1, h2, h3, _⟩ := h
    refine ⟨h2, fun i hi => ⟨rfl, ?_⟩⟩
    by_contra hm
    apply hi
    by_cases hl : i < p.length
    swap
    · rw [List.getElem?_eq_none (by omega), List.getElem?_eq_none (by omega)]
    have hj : i / 34 < p.length / 34 := by omega
    have hc := congrArg (·[i / 34]?) h3
    simp only [creatorList, List.getElem?_map, h2, List.getElem?_range hj, Option.map_some,
      Option.some.injEq, creatorAt, Creator.mk.injEq] at hc
    obtain ⟨c1, _, c2⟩ := hc
    by_cases hr : i % 34 < 32
    · have := keyAt_bytes (i := i % 34) c1 (by omega) (by omega) hr
      rwa [show 34 * (i / 34) + i % 34 = i by omega] at this
    · have e : 34 * (i / 34) + 33 = i := by omega
      rw [e] at c2
      rw [getElem?_eq_byteAt, getElem?_eq_byteAt, c2, h2]
  | grouping => exact same h.2.2.1
  | royalties => exact same h.1
  | manager => exact same h.1
  | proxy => exact same h.1
  | attributes => exact same h
  | blob => exact same h
  | links => exact same h
  | metadata => exact same h
  | properties => exact same h
  | bucket => exact same h

/-- After a Create on an account without data the asset has exactly the extensions asked for,
each with exactly the data asked for, and of the length asked for: the first one first, the
others in reverse order. -/
theorem C33_content_partial (h : execute E L accts (.create x) = .ok L')
    (hl : ∀ k, E.origLen k = (L k).data.length)
    (hu : ∀ a, accts.head? = some a → (L a).data = []) (hx : Sane (asked x)) :
    ∃ a A, accts.head? = some a ∧ Stores E.program L' a A ∧
      List.Forall₂ Carries ((firstThenReversed (asked x)).map asExtn) A.exts ∧
      ∀ y ∈ asked x, (given y).length = y.length.toNat := by
  obtain ⟨a, au, o, g, ga, p, s, rest, es1, rfl, _, _, h1, h2, h3, _⟩ :=
    create_stores (es := []) h hl (fun a ha => Or.inl ⟨hu a ha, rfl⟩)
      (fun a ha => by rw [hu a ha]; simp) hx
  refine ⟨a, _, rfl, h1, ?_, h3⟩
  rw [List.nil_append, show createOrder (asked x) = firstThenReversed (asked x) from
    swapRemoveOrder_eq _ _ (Nat.le_refl _)] at h2
  refine h2.imp ?_
  rintro ⟨t, p⟩ ⟨t', q⟩ ⟨rfl, hq⟩
  exact ⟨rfl, accepted_carries hq⟩

/-- With at most two extensions this is the requested order. -/
theorem C33_order_partial {α : Type} (xs : List α) (h : xs.length ≤ 2) :
    firstThenReversed xs = xs := by
  match xs, h with
  | [], _ => rfl
  | [_], _ => rfl
  | [_, _], _ => rfl

end

section Examples
open Verif.Ex

/-- Three extensions. -/
def threeCreators : CreateInput :=
  ⟨[65], .nonFungible, true, some [⟨.blob, 2, some [0, 9]⟩, ⟨.bucket, 1, some [2]⟩,
    ⟨.properties, 0, some []⟩]⟩

/-- The order is not kept. -/
theorem C33_false :
    ((run empties [k 1, k 5] createAccts (.create threeCreators)).map fun L => (L (k 1)).data) =
      .ok (header 0 0 1 (k 2) Key.default (k 3) Key.default 0 [65] ++
        blocks 168 [(.blob, [0, 9]), (.properties, []), (.bucket, [2])]) := by decide +kernel

end Examples
end Verif.Props

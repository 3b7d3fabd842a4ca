import Verif.Lemmas.CreateStores
import Verif.Lemmas.ExtList
import Verif.Examples

/-!
# C15 — Create yields exactly the requested asset, once
-/

namespace Verif.Props

open Verif Verif.Spec

section
variable {E : Env} {L L' : Ledger} {accts : List Key} {x : CreateInput}

/-- What a successful Create says about any account, whatever it contained before. -/
theorem C15_create (h : execute E L accts (.create x) = .ok L') :
    ∃ a au o rest es, accts = a :: au :: o :: rest ∧ E.signer a = true ∧
      (((L a).data = [] ∧ (L a).owner = Key.system) ∨
        ((L a).owner = E.program ∧ (assetAt L a).disc = 0)) ∧
      IsAsset E.program L' a ∧
      (assetAt L' a).standard = x.standard.toU8 ∧
      (assetAt L' a).mutableByte = (if x.isMutable then 1 else 0) ∧
      (assetAt L' a).owner = o ∧ (assetAt L' a).authority = au ∧
      (assetAt L' a).name = storedName x.name ∧ HasExts (L' a).data es ∧
      (x.standard = .managed ↔ ExtType.manager ∈ es.map (·.1)) ∧
      (x.standard = .proxied ↔ ExtType.proxy ∈ es.map (·.1)) := by
  obtain ⟨a, au, o, g, ga, p, s, rest, L2, es0, es, rfl, hs, hprev, _, ho, hlen, hge,
    ⟨v, v1, v2, v3, v4, v5, v6, v7, v8, v9, v10, v11, v12⟩, hx0, hx1, hf, hcl, hman, hprx, hpda⟩ :=
    create_result h
  refine ⟨a, au, o, _, es, rfl, hs, ?_, ⟨ho, by omega, by rw [v12]; exact v5⟩,
    by rw [v12]; exact v6, by rw [v12]; exact v7, by rw [v12]; exact v8, by rw [v12]; exact v9,
    by rw [v12]; exact v10, hx1, hman, hprx⟩
  rcases hprev with h | h
  · exact Or.inl ⟨h.1, h.2.1⟩
  · exact Or.inr ⟨h.1, h.2.2⟩

/-- On an account without data, or a buffer with completely written extensions `es`, Create
yields exactly the asset asked for: unlocked, without delegate, in no other than the given
group, with the extensions of the buffer followed by those asked for. -/
theorem C15_exact (h : execute E L accts (.create x) = .ok L')
    (hl : ∀ k, E.origLen k = (L k).data.length) {es : List Extn}
    (hu : ∀ a, accts.head? = some a → Unborn L a es)
    (hm : ∀ a, accts.head? = some a → (L a).data.length ≤ 10485760) (hx : Sane (asked x)) :
    ∃ a au o g rest es0 es1, accts = a :: au :: o :: g :: rest ∧
      Stores E.program L' a (newAsset x o au (if g = E.program then none else some g) es1) ∧
      es0.Perm ((asked x).map asExtn) ∧ List.Forall₂ (Born au) (es ++ es0) es1 := by
  obtain ⟨a, au, o, g, ga, p, s, rest, es1, rfl, _, _, h1, h2, _⟩ := create_stores h hl hu hm hx
  exact ⟨a, au, o, g, _, _, es1, rfl, h1, (createOrder_perm _).map _, h2⟩

/-- An initialised asset can never be created, allocated or written again. -/
theorem C15_once {a : Key} {i : Instr} (ha : IsAsset E.program L a) (hk : accts.head? = some a)
    (hi : (∃ x, i = .create x) ∨ (∃ x, i = .allocate x) ∨ ∃ x, i = .write x) :
    ∃ e, execute E L accts i = .error e := by
  have hne : (L a).data ≠ [] := by
    intro h0
    have := ha.2.1
    rw [h0] at this
    simp at this
  have hd : hDisc (L a).data = 1 := ha.2.2
  cases h : execute E L accts i with
  | error e => exact ⟨e, rfl⟩
  | ok L' =>
    exfalso
    rcases hi with ⟨x, rfl⟩ | ⟨x, rfl⟩ | ⟨x, rfl⟩
    · obtain ⟨b, au, o, rest, es, rfl, _, hp, _⟩ := C15_create h
      obtain rfl : b = a := by simpa using hk
      rcases hp with h | h
      · exact hne h.1
      · rw [ha.2.2] at h
        exact absurd h.2 (by decide)
    · obtain ⟨b, p, s, rest, rfl, hp⟩ := exec_allocate h
      obtain rfl : b = a := by simpa using hk
      rcases (processAllocate_eff hp).2.2.2 with h | h
      · exact hne h.1
      · rw [hd] at h
        exact absurd h.2.2 (by decide)
    · obtain ⟨b, p, s, rest, rfl, hp⟩ := exec_write h
      obtain rfl : b = a := by simpa using hk
      have := (processWrite_eff hp).2.2.2.2.2
      rw [hd] at this
      exact absurd this (by decide)

end

section Examples
open Verif.Ex

/-- Nothing but wallets; and a buffer with one extension. -/
def empties : Ledger := ledger [(k 2, wallet), (k 3, wallet), (k 5, wallet)]
@[inherit_doc empties]
def withExt : Ledger :=
  ledger [(k 1, owned (zeros 168 ++ blocks 168 [(.attributes, [1, 97, 1, 98])])),
    (k 2, wallet), (k 3, wallet), (k 5, wallet)]

/-- A managed asset with a blob. -/
def request : CreateInput :=
  ⟨[65, 66], .managed, true, some [⟨.manager, 33, some ((k 6).1 ++ [3])⟩, ⟨.blob, 3, some [0, 2, 3]⟩]⟩

/-- Accounts of a Create without group. -/
def createAccts : List Key := [k 1, k 3, k 2, prog, prog, k 5, Key.system]

/-- The hypotheses can be met. -/
example : Unborn empties (k 1) [] := Or.inl ⟨by decide +kernel, rfl⟩
example : Unborn withExt (k 1) [(.attributes, [1, 97, 1, 98])] := by
  refine Or.inr (Or.inl ⟨⟨by decide +kernel, by decide +kernel⟩, 192, ?_, ?_⟩)
  · exact Packed.cons (by decide) (by decide +kernel) (by decide +kernel) (by decide +kernel)
      (by decide +kernel) (Packed.nil (by decide +kernel))
  · intro i hi
    have : (withExt (k 1)).data.length = 192 := by decide +kernel
    unfold byteAt
    rw [List.getD_eq_getElem?_getD, List.getElem?_eq_none (by omega)]
    rfl
example : Sane (asked request) := by
  intro x hx
  have : x = ⟨.manager, 33, some ((k 6).1 ++ [3])⟩ ∨ x = ⟨.blob, 3, some [0, 2, 3]⟩ := by
    simpa [asked, request] using hx
  rcases this with rfl | rfl
  · exact ⟨⟨by decide, by rintro p ⟨⟩; decide +kernel⟩, by decide⟩
  · exact ⟨⟨by decide, by rintro p ⟨⟩; decide +kernel⟩, by decide⟩

/-- Both accounts can be made an asset; the same a second time fails, and so does a managed
asset without Manager extension. -/
example :
    ((run empties [k 1, k 5] createAccts (.create request)).map fun L => (L (k 1)).data) =
      .ok (header 0 1 1 (k 2) Key.default (k 3) Key.default 0 [65, 66] ++
        blocks 168 [(.manager, (k 6).1 ++ [3]), (.blob, [0, 2, 3])]) ∧
    ((run withExt [k 1, k 5] createAccts (.create request)).map fun L => (L (k 1)).data) =
      .ok (header 0 1 1 (k 2) Key.default (k 3) Key.default 0 [65, 66] ++
        blocks 168 [(.attributes, [1, 97, 1, 98]), (.manager, (k 6).1 ++ [3]), (.blob, [0, 2, 3])]) := by
  decide +kernel
example :
    ((run empties [k 1, k 5] createAccts (.create request)).bind fun L =>
      run L [k 1, k 5] createAccts (.create request)).isOk = false ∧
    (run empties [k 1, k 5] createAccts (.create ⟨[65], .managed, true, none⟩)).isOk = false ∧
    (run empties [k 1, k 5] createAccts (.create ⟨[65], .nonFungible, true, none⟩)).isOk = true := by
  decide +kernel

end Examples
end Verif.Props

import Verif.Spec.Birth
import Verif.Lemmas.Allocate

/-!
# The asset made by Create
-/

namespace Verif

open Verif.Spec

theorem swapRemoveOrder_perm {α : Type} (n : Nat) (xs : List α) (h : xs.length ≤ n) :
    (swapRemoveOrder n xs).Perm xs := by
  induction n generalizing xs with
  | zero =>
    cases xs with
    | nil => exact .nil
    | cons => simp at h
  | succ n ih =>
    cases xs with
    | nil => exact .nil
    | cons x xs =>
      rw [swapRemoveOrder]
      cases hl : xs.getLast? with
      | none =>
        rw [List.getLast?_eq_none_iff] at hl
        subst hl; exact .refl _
      | some y =>
        simp only
        refine .cons x ?_
        have hne : xs ≠ [] := by rintro rfl; simp at hl
        have hxs : xs = xs.dropLast ++ [y] := by
          rw [List.getLast?_eq_some_iff] at hl
          obtain ⟨ys, rfl⟩ := hl
          simp
        have hlen : (y :: xs.dropLast).length ≤ n := by
          simp only [List.length_cons, List.length_dropLast] at h ⊢
          have := List.length_pos_iff.mpr hne
          omega
        refine (ih _ hlen).trans ?_
        conv => rhs; rw [hxs]
        exact (List.perm_append_singleton y xs.dropLast).symm

/-- Create processes its extensions in some order. -/
theorem createOrder_perm (xs : List ExtInput) : (createOrder xs).Perm xs :=
  swapRemoveOrder_perm _ _ (Nat.le_refl _)

theorem keyAt_zero {d : Bytes} {o : Nat} (hl : o + 32 ≤ d.length)
    (h : ∀ i, o ≤ i → i < o + 32 → byteAt d i = 0) : keyAt d o = Key.default := by
  apply Key.ext
  unfold keyAt
  rw [ofBytes_val (length_slice hl)]
  apply List.ext_getElem?
  intro i
  rw [getElem?_slice]
  by_cases hi : i < 32
  · rw [if_pos hi, getElem?_eq_byteAt, if_pos (by omega), h _ (by omega) (by omega)]
    have : Key.default.1 = List.replicate 32 0 := rfl
    rw [this, List.getElem?_replicate, if_pos hi]
  · rw [if_neg hi]
    exact (List.getElem?_eq_none (by have := Key.default.2; omega)).symm

theorem view_blank {d : Bytes} (h : Blank d) :
    (view d).state = 0 ∧ (view d).group = Key.default ∧ (view d).delegate = Key.default ∧
      (view d).roles = 0 := by
  obtain ⟨hl, hz⟩ := h
  exact ⟨hz 1 (by omega), keyAt_zero (by omega) fun i _ _ => hz i (by omega),
    keyAt_zero (by omega) fun i _ _ => hz i (by omega), hz 132 (by omega)⟩

theorem complete_zeros {n : Nat} (h : 168 ≤ n) : Complete (zeros n) [] := by
  have hl : (zeros n).length = n := by simp [zeros]
  exact ⟨⟨by omega, fun i _ => byteAt_zeros n i⟩, 168, Packed.nil (by omega),
    fun i _ => byteAt_zeros n i⟩

theorem forall2_types_hooked {au : Option Key} {a b : List Extn}
    (h : List.Forall₂ (Hooked au) a b) : b.map (·.1) = a.map (·.1) := by
  induction h with
  | nil => rfl
  | cons h _ ih => rw [List.map_cons, List.map_cons, ih, h.1]

theorem createPrepare_unborn {E : Env} {L L1 : Ledger} {a : Key} {p s : Option Key}
    {x : CreateInput} {es : List Extn} (h : createPrepare E L a p s x = .ok L1)
    (hu : Unborn L a es) (hl : (L a).data.length ≤ E.origLen a + maxIncrease) :
    AllWritten (L1 a).data es ∧ (L1 a).data.length ≤ E.origLen a + maxIncrease := by
  unfold createPrepare at h
  simp only at h
  split at h
  · rename_i hd
    have hb := createAccount_bound h
    obtain ⟨_, q, _⟩ := createAccount_eff h
    have hes : es = [] := by
      rcases hu with hu | hu
      · exact hu.2
      · have := hu.blank.1
        rw [hd] at this; simp at this
    subst hes
    rw [q]
    have e168 : assetLen = 168 := rfl
    refine ⟨Or.inl (complete_zeros (by omega)), ?_⟩
    simp only [zeros, List.length_replicate]
    omega
  · rename_i hd
    inv at h
    obtain ⟨_, _, _, rfl⟩ := h
    rcases hu with hu | hu
    · exact absurd hu.1 hd
    · exact ⟨hu, hl⟩

/-- Create on an empty account or a buffer makes exactly the asset asked for. -/
theorem create_stores {E : Env} {L L' : Ledger} {accts : List Key} {x : CreateInput}
    (h : execute E L accts (.create x) = .ok L') (hl : ∀ k, E.origLen k = (L k).data.length)
    {es : List Extn} (hu : ∀ a, accts.head? = some a → Unborn L a es)
    (hm : ∀ a, accts.head? = some a → (L a).data.length ≤ 10485760) (hx : Sane (asked x)) :
    ∃ a au o g ga p s rest es1, accts = a :: au :: o :: g :: ga :: p :: s :: rest ∧
      E.signer a = true ∧
      (((L a).data = [] ∧ (L a).owner = Key.system ∧ (L a).lamports = 0) ∨
       ((L a).owner = E.program ∧ 168 ≤ (L a).data.length ∧ hDisc (L a).data = 0)) ∧
      Stores E.program L' a (newAsset x o au (optAcc E g) es1) ∧
      List.Forall₂ (Born au) (es ++ (createOrder (asked x)).map asExtn) es1 ∧
      (∀ y ∈ asked x, (given y).length = y.length.toNat) ∧
      ((es.map (·.1)).Nodup → (es1.map (·.1)).Nodup) ∧
      (x.standard = .managed ↔ ExtType.manager ∈ es1.map (·.1)) ∧
      (x.standard = .proxied ↔ ExtType.proxy ∈ es1.map (·.1)) ∧
      (∀ px, lookup .proxy es1 = some px →
        E.pda (slice px 32 32) (byteAt px 64) (keyAt px 0) = some a) := by
  obtain ⟨a, au, o, g, ga, p, s, rest, L2, es0, es1, rfl, hs, hprev, ⟨L1, h1, h2⟩, ho, hlen, hge,
    ⟨v, v1, v2, v3, v4, v5, v6, v7, v8, v9, v10, v11, v12⟩, hx0, hx1, hf, hcl, hman, hprx, hpda⟩ :=
    create_result h
  have hu := hu a rfl
  have hm := hm a rfl
  have hmax := execute_maxLen h (k := a) (by simp) hm
  have emax : maxDataLen = 10485760 := rfl
  have einc : maxIncrease = 10240 := rfl
  have hla := hl a
  obtain ⟨hw1, hb1⟩ := createPrepare_unborn h1 hu (by omega)
  have hx' : ∀ y ∈ createOrder (x.extensions.getD []), Fits y ∧ y.ty ≠ .none := fun y hy =>
    hx y ((createOrder_perm _).mem_iff.mp hy)
  obtain ⟨q1, q2, q3, q4⟩ := allocateAll_buffer h2 hw1 (by omega) hb1 hx' hx0
  obtain ⟨z1, z2, z3, z4⟩ := view_blank q2.1
  have hclean := hcl q2.clean
  refine ⟨a, au, o, g, ga, p, s, rest, es1, rfl, hs, hprev, ?_, ?_, ?_, ?_, hman, hprx, hpda⟩
  · refine ⟨⟨ho, by omega, by rw [v12]; exact v5⟩, by omega, ?_, hclean⟩
    rw [v12]
    unfold newAsset Asset.of
    simp only [Asset.mk.injEq]
    unfold assetAt at v1 v2 v3 v4
    rw [v1, v2, v3, v4, v6, v7, v8, v9, v10, z1, z2, z3, z4]
    simp
  · have : es ++ (createOrder (asked x)).map asExtn = es0 := q1.symm
    rw [this]
    have htypes := hx0.types
    clear q1 q2 q3 q4 hclean hcl hman hprx hpda hx1 hx0 this
    induction hf with
    | nil => exact .nil
    | @cons y z ys zs hyz _ ih =>
      refine .cons (Hooked.accepted (htypes y (by simp)) hyz) (ih fun w hw => htypes w (by simp [hw]))
  · intro y hy
    exact q3 y ((createOrder_perm _).mem_iff.mpr hy)
  · intro hn
    rw [forall2_types_hooked hf]
    exact q4 hn

end Verif

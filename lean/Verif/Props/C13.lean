import Verif.Lemmas.Inv
import Verif.Lemmas.Lookup
import Verif.Examples

/-!
# C13 — group and ungroup are authorised by the group
-/

namespace Verif.Spec

open Verif

/-- The Grouping record `g` of an asset and its position in the extension area. -/
def GroupRecord (a : AssetView) (off : Nat) (g : Grouping) : Prop :=
  ∃ p, First 6 168 a.extensions 0 (some (off, p)) ∧ GroupingIn p g.size g.maxSize g.delegate

/-- `k` may add and remove members: the authority of the group asset or the grouping
delegate. -/
def GroupManager (a : AssetView) (g : Grouping) (k : Key) : Prop :=
  k = a.authority ∨ (g.delegate ≠ Key.default ∧ k = g.delegate)

/-- Both accounts keep everything but their data; no other account changes. -/
def OnlyData2 (L L' : Ledger) (k₁ k₂ : Key) : Prop :=
  (∀ x, x ≠ k₁ → x ≠ k₂ → L' x = L x) ∧
  ∀ x, (L' x).lamports = (L x).lamports ∧ (L' x).owner = (L x).owner ∧
    (L' x).data.length = (L x).data.length

/-- The 8 bytes of the group size replaced by `n`. -/
def withSize (a : AssetView) (off n : Nat) : AssetView :=
  { a with extensions := splice a.extensions off (toLE 8 n) }

end Verif.Spec

namespace Verif.Props

open Verif Verif.Spec

theorem groupAuthority_ok {d : Bytes} {g : Grouping} {k : Key}
    (h : groupAuthority d g k = .ok ()) : GroupManager (view d) g k := by
  unfold groupAuthority at h
  split at h
  · split at h
    · rename_i hd
      rw [require_ok] at h
      exact Or.inr ⟨hd, h.symm⟩
    · cases h
  · rename_i hn
    exact Or.inl (not_not.mp hn)

/-- The effect on the ledger shared by Group and Ungroup. -/
theorem group_effect {L : Ledger} {a gk newGroup : Key} {off n : Nat} {p : Bytes} {g : Grouping}
    (hne : gk ≠ a) (ha : 168 ≤ (L a).data.length) (hg : 168 ≤ (L gk).data.length)
    (hx : extGet .grouping ((L gk).data.drop assetLen) = .ok (some (off, p)))
    (hr : readGrouping p = .ok g) :
    OnlyData2 L ((L.setData a (setGroup (L a).data newGroup)).setData gk
      (splice (L gk).data (assetLen + off) (setGroupSize p n))) a gk ∧
    assetAt ((L.setData a (setGroup (L a).data newGroup)).setData gk
      (splice (L gk).data (assetLen + off) (setGroupSize p n))) a =
      { assetAt L a with group := newGroup } ∧
    assetAt ((L.setData a (setGroup (L a).data newGroup)).setData gk
      (splice (L gk).data (assetLen + off) (setGroupSize p n))) gk =
      withSize (assetAt L gk) off n := by
  obtain ⟨h1, h2⟩ := extGet_range hx
  have h3 := (readGrouping_length hr).1
  have hel : ((L gk).data.drop assetLen).length = (L gk).data.length - 168 := by
    simp [assetLen]
  have hsz : (setGroupSize p n).length = p.length := length_splice (by rw [length_toLE]; omega)
  have hb : 168 + off + (setGroupSize p n).length ≤ (L gk).data.length := by omega
  refine ⟨⟨fun x hxa hxg => ?_, fun x => ?_⟩, ?_, ?_⟩
  · rw [Ledger.setData_other _ _ hxg, Ledger.setData_other _ _ hxa]
  · by_cases hxg : x = gk
    · subst hxg
      rw [Ledger.setData_same, Ledger.setData_other _ _ hne]
      exact ⟨rfl, rfl, length_splice hb⟩
    · rw [Ledger.setData_other _ _ hxg]
      by_cases hxa : x = a
      · subst hxa
        rw [Ledger.setData_same]
        exact ⟨rfl, rfl, length_setGroup ha _⟩
      · rw [Ledger.setData_other _ _ hxa]
        exact ⟨rfl, rfl, rfl⟩
  · unfold assetAt
    rw [Ledger.setData_other _ _ (fun h => hne h.symm), Ledger.setData_same]
    exact view_setGroup ha _
  · unfold assetAt
    rw [Ledger.setData_same]
    show view (splice (L gk).data (168 + off) (setGroupSize p n)) = _
    rw [view_splice_ext hg hb]
    unfold withSize view
    simp only [AssetView.mk.injEq, true_and]
    exact splice_splice_prefix h1 h2 (by rw [length_toLE]; omega)

/-- Authorisation, preconditions, effect and frame of a successful Group. -/
theorem C13_group {E : Env} {L L' : Ledger} {accts : List Key}
    (h : execute E L accts .group = .ok L') :
    ∃ asset group authority rest, accts = asset :: group :: authority :: rest ∧
      IsAsset E.program L asset ∧ IsAsset E.program L group ∧ asset ≠ group ∧
      E.signer authority = true ∧
      ∃ off g, GroupRecord (assetAt L group) off g ∧
        GroupManager (assetAt L group) g authority ∧
        (assetAt L asset).authority = (assetAt L group).authority ∧
        (assetAt L asset).group = Key.default ∧
        (g.maxSize = 0 ∨ g.size < g.maxSize) ∧
        OnlyData2 L L' asset group ∧
        assetAt L' asset = { assetAt L asset with group := group } ∧
        assetAt L' group = withSize (assetAt L group) off ((g.size + 1) % 2 ^ 64) := by
  obtain ⟨a, gk, au, rest, rfl, hp⟩ := exec_group h
  unfold processGroup at hp
  inv at hp
  obtain ⟨hs, hoa, hog, hia, hne, hig, hgr, hau, r, hx, hp⟩ := hp
  cases r with
  | none => cases hp
  | some r =>
    obtain ⟨off, p⟩ := r
    inv at hp
    obtain ⟨g, hr, hga, hfull, rfl⟩ := hp
    obtain ⟨e1, e2, e3⟩ := group_effect (n := (g.size + 1) % two64) (newGroup := gk) hne
      hia.1 hig.1 hx hr
    exact ⟨a, gk, au, rest, rfl, ⟨hoa, hia.1, hia.2⟩, ⟨hog, hig.1, hig.2⟩, fun h => hne h.symm, hs,
      off, g, ⟨p, extGet_first hx, readGrouping_in hr⟩, groupAuthority_ok hga, hau.symm, hgr, hfull, e1, e2, e3⟩

/-- Authorisation, preconditions, effect and frame of a successful Ungroup. (The size of a
group that has a member is positive — C11 —, then the new size is one less.) -/
theorem C13_ungroup {E : Env} {L L' : Ledger} {accts : List Key}
    (h : execute E L accts .ungroup = .ok L') :
    ∃ asset group authority rest, accts = asset :: group :: authority :: rest ∧
      IsAsset E.program L asset ∧ IsAsset E.program L group ∧ asset ≠ group ∧
      E.signer authority = true ∧
      ∃ off g, GroupRecord (assetAt L group) off g ∧
        GroupManager (assetAt L group) g authority ∧
        (assetAt L asset).group = group ∧
        OnlyData2 L L' asset group ∧
        assetAt L' asset = { assetAt L asset with group := Key.default } ∧
        assetAt L' group =
          withSize (assetAt L group) off (if g.size = 0 then 2 ^ 64 - 1 else g.size - 1) := by
  obtain ⟨a, gk, au, rest, rfl, hp⟩ := exec_ungroup h
  unfold processUngroup at hp
  inv at hp
  obtain ⟨hs, hoa, hog, hia, hne, hig, hgr, r, hx, hp⟩ := hp
  cases r with
  | none => cases hp
  | some r =>
    obtain ⟨off, p⟩ := r
    inv at hp
    obtain ⟨g, hr, hga, rfl⟩ := hp
    have hsz : g.size < two64 := by
      rw [(readGrouping_length hr).2]
      have := leNat_lt (slice p 0 8)
      have h8 : (slice p 0 8).length ≤ 8 := length_slice_le _ _ _
      have : 256 ^ (slice p 0 8).length ≤ 256 ^ 8 := Nat.pow_le_pow_right (by omega) h8
      have e : two64 = 256 ^ 8 := by decide
      omega
    have hn : (g.size + two64 - 1) % two64 = if g.size = 0 then 2 ^ 64 - 1 else g.size - 1 := by
      have e : two64 = 18446744073709551616 := rfl
      rw [e] at hsz ⊢
      split <;> omega
    obtain ⟨e1, e2, e3⟩ := group_effect (n := (g.size + two64 - 1) % two64)
      (newGroup := Key.default) hne hia.1 hig.1 hx hr
    exact ⟨a, gk, au, rest, rfl, ⟨hoa, hia.1, hia.2⟩, ⟨hog, hig.1, hig.2⟩, fun h => hne h.symm, hs,
      off, g, ⟨p, extGet_first hx, readGrouping_in hr⟩, groupAuthority_ok hga, hgr, e1, e2, hn ▸ e3⟩

/-! ## Concrete cases -/

/-- Group `k 7` (one member of at most two, delegate `k 8`), asset `k 1` outside, asset
`k 9` inside; all with authority `k 3`. -/
def groupLedger : Ledger :=
  Ex.ledger [
    (Ex.k 1, Ex.owned (Ex.header 0 0 1 (Ex.k 2) Key.default (Ex.k 3) Key.default 0 [65])),
    (Ex.k 7, Ex.owned (Ex.header 0 0 1 (Ex.k 2) Key.default (Ex.k 3) Key.default 0 [71] ++
      Ex.blocks 168 [(.attributes, [1, 97, 1, 98]),
        (.grouping, toLE 8 1 ++ toLE 8 2 ++ (Ex.k 8).1)])),
    (Ex.k 9, Ex.owned (Ex.header 0 0 1 (Ex.k 2) (Ex.k 7) (Ex.k 3) Key.default 0 [66]))]

/-- The delegate of the group groups and ungroups. -/
example :
    Ex.after (Ex.run groupLedger [Ex.k 8] [Ex.k 1, Ex.k 7, Ex.k 8] .group) (Ex.k 1) =
      .ok (Ex.owned (Ex.header 0 0 1 (Ex.k 2) (Ex.k 7) (Ex.k 3) Key.default 0 [65])) ∧
    Ex.after (Ex.run groupLedger [Ex.k 8] [Ex.k 1, Ex.k 7, Ex.k 8] .group) (Ex.k 7) =
      .ok (Ex.owned (Ex.header 0 0 1 (Ex.k 2) Key.default (Ex.k 3) Key.default 0 [71] ++
        Ex.blocks 168 [(.attributes, [1, 97, 1, 98]),
          (.grouping, toLE 8 2 ++ toLE 8 2 ++ (Ex.k 8).1)])) ∧
    Ex.after (Ex.run groupLedger [Ex.k 3] [Ex.k 9, Ex.k 7, Ex.k 3] .ungroup) (Ex.k 7) =
      .ok (Ex.owned (Ex.header 0 0 1 (Ex.k 2) Key.default (Ex.k 3) Key.default 0 [71] ++
        Ex.blocks 168 [(.attributes, [1, 97, 1, 98]),
          (.grouping, toLE 8 0 ++ toLE 8 2 ++ (Ex.k 8).1)])) := by
  decide +kernel

/-- A stranger cannot, nor can anybody group the group into itself. -/
example :
    Ex.after (Ex.run groupLedger [Ex.k 2] [Ex.k 1, Ex.k 7, Ex.k 2] .group) (Ex.k 1) =
      .error (.asset .invalidAuthority) ∧
    Ex.after (Ex.run groupLedger [Ex.k 3] [Ex.k 7, Ex.k 7, Ex.k 3] .group) (Ex.k 1) =
      .error .accountBorrowFailed := by
  decide +kernel

end Verif.Props

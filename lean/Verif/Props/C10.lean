import Verif.Lemmas.Inv
import Verif.Lemmas.Lookup
import Verif.Examples

/-!
# C10 — burn is authorised and complete
-/

namespace Verif.Spec

open Verif

/-- The Grouping record `g` of an account and the position of its size. -/
def GroupData (d : Bytes) (off : Nat) (g : Grouping) : Prop :=
  ∃ p, First 6 0 d 168 (some (off, p)) ∧ GroupingIn p g.size g.maxSize g.delegate

/-- The account has no Grouping extension. -/
def NoGroup (d : Bytes) : Prop := First 6 0 d 168 none

/-- The data of a group after one member left. -/
def MemberLeft (d d' : Bytes) : Prop :=
  ∃ off g, GroupData d off g ∧ 0 < g.size ∧ d' = splice d off (toLE 8 (g.size - 1))

end Verif.Spec

namespace Verif.Props

open Verif Verif.Spec

theorem assetGet_eq (t : ExtType) (d : Bytes) :
    assetGet t d = (assetGetMut t d).map (Option.map Prod.snd) := by
  unfold assetGet assetGetMut
  cases find t d with
  | error e => rfl
  | ok r =>
    cases r with
    | none => rfl
    | some c =>
      simp only [bind, Except.bind]
      cases payloadAt d c <;> rfl

/-- Effect of closing an account. -/
theorem closeAccount_ok {L L' : Ledger} {k r : Key} (h : closeAccount L k r = .ok L') :
    r ≠ k ∧ L' k = ⟨0, [], Key.system⟩ ∧
    L' r = { L r with lamports := (L r).lamports + (L k).lamports } ∧
    ∀ x, x ≠ k → x ≠ r → L' x = L x := by
  unfold closeAccount at h
  split at h
  · cases h
  · rename_i hr
    split at h
    · cases h
    · cases h
      refine ⟨hr, ?_, ?_, fun x h1 h2 => ?_⟩
      · rw [Ledger.set_same]
      · rw [Ledger.set_other _ _ hr, Ledger.setLamports_same]
      · rw [Ledger.set_other _ _ h1, Ledger.setLamports_other _ _ h2]

theorem burnGroup_ok {L L1 : Ledger} {a : Key} {ga : Option Key}
    (h : burnGroup L a ga (L a).data = .ok L1) :
    ((assetAt L a).group = Key.default ∧ L1 = L) ∨
    ((assetAt L a).group ≠ Key.default ∧ ga = some (assetAt L a).group ∧
      (assetAt L a).group ≠ a ∧
      ∃ d', MemberLeft (L (assetAt L a).group).data d' ∧
        L1 = L.setData (assetAt L a).group d') := by
  unfold burnGroup nullable at h
  by_cases hg : hGroup (L a).data = Key.default
  · rw [if_pos hg] at h
    cases h
    exact Or.inl ⟨hg, rfl⟩
  · rw [if_neg hg] at h
    right
    refine ⟨hg, ?_⟩
    cases ga with
    | none => cases h
    | some k =>
      inv at h
      obtain ⟨rfl, hne, r, hr, h⟩ := h
      cases r with
      | none => cases h
      | some r =>
        obtain ⟨off, p⟩ := r
        inv at h
        obtain ⟨g, hg', hz, rfl⟩ := h
        have h1 := assetGetMut_range hr
        have h2 := readGrouping_length hg'
        refine ⟨rfl, hne, _, ⟨off, g, ⟨p, assetGetMut_first hr, readGrouping_in hg'⟩, by omega, ?_⟩, rfl⟩
        exact splice_splice_prefix h1.1 h1.2 (by rw [length_toLE]; omega)

/-- Authorisation, effect and frame of a successful Burn. The lamports go to the recipient,
or to the signer when no recipient is given. -/
theorem C10_burn {E : Env} {L L' : Ledger} {accts : List Key}
    (h : execute E L accts .burn = .ok L') :
    ∃ asset signer recipient groupAcc rest dest,
      accts = asset :: signer :: recipient :: groupAcc :: rest ∧
      dest = (if recipient = E.program then signer else recipient) ∧
      IsAsset E.program L asset ∧ E.signer signer = true ∧
      ((assetAt L asset).owner = signer ∨ IsDelegate (L asset).data signer .burn) ∧
      (NoGroup (L asset).data ∨ ∃ off g, GroupData (L asset).data off g ∧ g.size = 0) ∧
      dest ≠ asset ∧
      L' asset = ⟨0, [], Key.system⟩ ∧
      (L' dest).lamports = (L dest).lamports + (L asset).lamports ∧
      (∀ x, x ≠ asset → (L' x).owner = (L x).owner) ∧
      (∀ x, x ≠ asset → x ≠ dest → (L' x).lamports = (L x).lamports) ∧
      (∀ x, x ≠ asset → x ≠ (assetAt L asset).group ∨ (assetAt L asset).group = Key.default →
        (L' x).data = (L x).data) ∧
      ((assetAt L asset).group ≠ Key.default →
        groupAcc = (assetAt L asset).group ∧ groupAcc ≠ asset ∧
        (L groupAcc).owner = E.program ∧
        MemberLeft (L groupAcc).data (L' groupAcc).data) := by
  obtain ⟨a, s, r, ga, rest, rfl, hp⟩ := exec_burn h
  unfold processBurn at hp
  inv at hp
  obtain ⟨ho, hs, hi, allowed, hal, rfl, L1, hb, res, hres, hp⟩ := hp
  have hdest : (optAcc E r).getD s = if r = E.program then s else r := by
    unfold optAcc; split <;> rfl
  -- the asset is not a non-empty group
  have hclose : closeAccount L1 a (if r = E.program then s else r) = .ok L' ∧
      (NoGroup (L a).data ∨ ∃ off g, GroupData (L a).data off g ∧ g.size = 0) := by
    rw [assetGet_eq] at hres
    cases hm : assetGetMut .grouping (L a).data with
    | error e => rw [hm] at hres; cases hres
    | ok m =>
      rw [hm] at hres
      simp only [Except.map, Except.ok.injEq] at hres
      subst hres
      cases m with
      | none =>
        simp only [Option.map_none] at hp
        rw [hdest] at hp
        exact ⟨hp, Or.inl (assetGetMut_first hm)⟩
      | some m =>
        simp only [Option.map_some] at hp
        inv at hp
        obtain ⟨g, hg, hz, hp⟩ := hp
        rw [hdest] at hp
        exact ⟨hp, Or.inr ⟨m.1, g, ⟨m.2, assetGetMut_first hm, readGrouping_in hg⟩, hz⟩⟩
  obtain ⟨hclose, hngr⟩ := hclose
  obtain ⟨hne, hc1, hc2, hc3⟩ := closeAccount_ok hclose
  have hga : ∀ k, optAcc E ga = some k → ga = k := by
    unfold optAcc; intro k; split <;> simp
  refine ⟨a, s, r, ga, rest, _, rfl, rfl, ⟨ho, hi.1, hi.2⟩, hs, ownerOrDelegate_true hal, hngr, hne,
    hc1, ?_⟩
  generalize (if r = E.program then s else r) = dest at *
  rcases burnGroup_ok hb with ⟨hg, rfl⟩ | ⟨hg, hgk, hgne, d', hd', rfl⟩
  · refine ⟨by rw [hc2], fun x hx => ?_, fun x hx hxd => by rw [hc3 x hx hxd], fun x hx _ => ?_,
      fun hn => absurd hg hn⟩
    · by_cases hxd : x = dest
      · subst hxd; rw [hc2]
      · rw [hc3 x hx hxd]
    · by_cases hxd : x = dest
      · subst hxd; rw [hc2]
      · rw [hc3 x hx hxd]
  · obtain rfl := hga _ hgk
    generalize hgg : (assetAt L a).group = g at *
    have ha1 : (L.setData g d') a = L a := Ledger.setData_other _ _ (fun h => hgne h.symm)
    have hown : ∀ x, ((L.setData g d') x).owner = (L x).owner := by
      intro x
      by_cases hx : x = g
      · subst hx; rw [Ledger.setData_same]
      · rw [Ledger.setData_other _ _ hx]
    have hlam : ∀ x, ((L.setData g d') x).lamports = (L x).lamports := by
      intro x
      by_cases hx : x = g
      · subst hx; rw [Ledger.setData_same]
      · rw [Ledger.setData_other _ _ hx]
    have hdat : ∀ x, x ≠ a → (L' x).data = ((L.setData g d') x).data := by
      intro x hx
      by_cases hxd : x = dest
      · subst hxd; rw [hc2]
      · rw [hc3 x hx hxd]
    have hgd : (L' g).data = d' := by
      rw [hdat g hgne, Ledger.setData_same]
    refine ⟨by rw [hc2]; simp only [hlam], fun x hx => ?_, fun x hx hxd => by rw [hc3 x hx hxd, hlam],
      fun x hx hxg => by
        rw [hdat x hx, Ledger.setData_other _ _ (hxg.resolve_right hg)],
      fun _ => ⟨rfl, hgne, ?_, by rw [hgd]; exact hd'⟩⟩
    · by_cases hxd : x = dest
      · subst hxd; rw [hc2]; exact hown _
      · rw [hc3 x hx hxd]; exact hown _
    · have hall := (execute_ok h).2.2.2 g (by simp)
      have hdne : (L' g).data ≠ (L g).data := by
        rw [hgd]
        obtain ⟨off, gr, ⟨p, h1, h2⟩, hz, rfl⟩ := hd'
        obtain ⟨h3, h4⟩ := h1.range rfl
        have h5 := h2.length
        have h6 := h2.1.symm
        intro he
        have hsl := congrArg (fun z => leNat (slice z off 8)) he
        rw [slice_splice_same (by rw [length_toLE]; omega) (by rw [length_toLE])] at hsl
        have h7 : slice (L g).data off 8 = slice p 0 8 := by
          apply List.ext_getElem?
          intro i
          rw [getElem?_slice, getElem?_slice, h4, getElem?_slice]
          by_cases hi8 : i < 8
          · rw [if_pos hi8, if_pos hi8, if_pos (by omega)]; congr 1; omega
          · rw [if_neg hi8, if_neg hi8]
        rw [h7, ← h6, leNat_toLE] at hsl
        have hlt : gr.size < 256 ^ 8 := by
          rw [h6]
          have := leNat_lt (slice p 0 8)
          rwa [length_slice (by omega)] at this
        rw [Nat.mod_eq_of_lt (by omega)] at hsl
        omega
      have hdnil : (L g).data ≠ [] := by
        obtain ⟨off, gr, ⟨p, h1, h2⟩, _, _⟩ := hd'
        have h3 := (h1.range rfl).1
        have h5 := h2.length
        intro hn
        rw [hn] at h3
        have : ([] : Bytes).length = 0 := rfl
        omega
      unfold changeAllowed at hall
      simp only [Bool.or_eq_true, Bool.and_eq_true, decide_eq_true_eq] at hall
      rcases hall with hall | ⟨⟨_, _⟩, (hall | hall) | hall⟩
      · exact absurd (by rw [hall]) hdne
      · exact hall
      · exact absurd hall.2 hdnil
      · exact absurd hall.1 hdne

/-! ## Concrete cases -/

/-- Asset `k 1` is a member of group `k 7`, whose size is 3. -/
def burnLedger : Ledger :=
  Ex.ledger [
    (Ex.k 1, Ex.owned (Ex.header 0 0 1 (Ex.k 2) (Ex.k 7) (Ex.k 3) Key.default 0 [65])),
    (Ex.k 7, Ex.owned (Ex.header 0 0 1 (Ex.k 2) Key.default (Ex.k 3) Key.default 0 [71] ++
      Ex.blocks 168 [(.grouping, toLE 8 3 ++ toLE 8 0 ++ Key.default.1)])),
    (Ex.k 2, Ex.wallet), (Ex.k 5, Ex.wallet)]

example :
    Ex.after (Ex.run burnLedger [Ex.k 2] [Ex.k 1, Ex.k 2, Ex.k 5, Ex.k 7] .burn) (Ex.k 1) =
      .ok ⟨0, [], Key.system⟩ ∧
    Ex.after (Ex.run burnLedger [Ex.k 2] [Ex.k 1, Ex.k 2, Ex.k 5, Ex.k 7] .burn) (Ex.k 5) =
      .ok ⟨6000000, [], Key.system⟩ ∧
    Ex.after (Ex.run burnLedger [Ex.k 2] [Ex.k 1, Ex.k 2, Ex.k 5, Ex.k 7] .burn) (Ex.k 7) =
      .ok (Ex.owned (Ex.header 0 0 1 (Ex.k 2) Key.default (Ex.k 3) Key.default 0 [71] ++
      Ex.blocks 168 [(.grouping, toLE 8 2 ++ toLE 8 0 ++ Key.default.1)])) := by
  decide +kernel

/-- The group itself cannot be burned while it has members; nor a member without its
group. -/
example :
    Ex.after (Ex.run burnLedger [Ex.k 2] [Ex.k 7, Ex.k 2, Ex.k 5, Ex.prog] .burn) (Ex.k 1) =
      .error (.asset .groupNotEmpty) ∧
    Ex.after (Ex.run burnLedger [Ex.k 2] [Ex.k 1, Ex.k 2, Ex.k 5, Ex.prog] .burn) (Ex.k 1) =
      .error .notEnoughAccountKeys := by
  decide +kernel

end Verif.Props

import Verif.Lemmas.Shape
import Verif.Lemmas.Cut
import Verif.Examples

/-!
# C25 — removing an extension removes only that extension

True when it is the last extension; false in general, because the end offsets stored in the
extensions after it are not adjusted.
-/

namespace Verif.Props

open Verif Verif.Spec

variable {E : Env} {L L' : Ledger} {accts : List Key}

/-- Remove of the last extension: signed by the authority of a mutable asset, it takes away
that extension and changes nothing else. -/
theorem C25_remove_last_partial {t : ExtType} (ht : t ≠ .none)
    (h : execute E L accts (.remove t) = .ok L') :
    ∃ a au g r rest, accts = a :: au :: g :: r :: rest ∧ ∀ A, Stores E.program L a A →
      (A.exts.map (·.1)).getLast? = some t → (A.exts.map (·.1)).count t = 1 →
      E.signer au = true ∧ au = A.authority ∧ A.mutableByte ≠ 0 ∧
      Stores E.program L' a { A with exts := removeExt t A.exts } := by
  obtain ⟨a, au, g, r, rest, rfl, hp⟩ := exec_remove h
  exact ⟨a, au, g, r, rest, rfl, fun A hs hl hc =>
    processRemove_stores hs ht hl hc (execute_maxLen h (k := a) (by simp) hs.2.1) hp⟩

/-- Remove at any place: signed by the authority of a mutable asset, it cuts the first extension of the type
out of the account and changes no other byte. -/
theorem C25_cut {t : ExtType} (ht : t ≠ .none) (h : execute E L accts (.remove t) = .ok L') :
    ∃ a au g r rest, accts = a :: au :: g :: r :: rest ∧ ∀ A, Stores E.program L a A →
      E.signer au = true ∧ au = A.authority ∧ A.mutableByte ≠ 0 ∧ (L' a).owner = E.program ∧
      (L' a).data.take 168 = (L a).data.take 168 ∧
      ∃ pre p post, FoundAt t pre p post A.exts ∧
        (L' a).data = cut (packedEnd 168 pre) (packedEnd 168 (pre ++ [(t, p)])) (L a).data := by
  obtain ⟨a, au, g, r, rest, rfl, hp⟩ := exec_remove h
  refine ⟨a, au, g, r, rest, rfl, fun A hs => ?_⟩
  obtain ⟨h1, h2, h3, h4, pre, p, post, h5, h6⟩ := processRemove_cut hs ht hp
  refine ⟨h1, h2, h3, h4, ?_, pre, p, post, h5, h6⟩
  have hle := le_packedEnd 168 pre
  have hl : 168 ≤ (L a).data.length := hs.1.2.1
  rw [h6]
  unfold cut
  rw [List.take_append_of_le_length (by rw [List.length_take]; omega), List.take_take,
    Nat.min_eq_left hle]

/-- The extensions before the removed one and the first one after it are read as before. -/
theorem C25_neighbours_partial {t : ExtType} (ht : t ≠ .none) (h : execute E L accts (.remove t) = .ok L') :
    ∃ a rest, accts = a :: rest ∧ ∀ A, Stores E.program L a A →
      ∃ pre p post, FoundAt t pre p post A.exts ∧
        ∀ u q, u ≠ .none → lookup u (pre ++ post.take 1) = some q → assetGet u (L' a).data = .ok (some q) := by
  obtain ⟨a, au, g, r, rest, rfl, hp⟩ := exec_remove h
  refine ⟨a, _, rfl, fun A hs => ?_⟩
  obtain ⟨_, _, _, _, pre, p, post, h5, h6⟩ := processRemove_cut hs ht hp
  refine ⟨pre, p, post, h5, fun u q hu hq => ?_⟩
  obtain ⟨e, hpk, _⟩ := hs.2.2.2
  rw [h5.1] at hpk
  rw [h6]
  exact cut_reads hpk hu hq

/-- Of the others nothing is found any more, when they took up no more room than the extension removed: the
search goes on at the end that the neighbour had before. -/
theorem C25_lost {t : ExtType} (ht : t ≠ .none) (h : execute E L accts (.remove t) = .ok L') :
    ∃ a rest, accts = a :: rest ∧ ∀ A, Stores E.program L a A →
      ∃ pre p post, FoundAt t pre p post A.exts ∧
        (post ≠ [] → (L a).data.length < staleEnd pre t p post + 16 +
            (packedEnd 168 (pre ++ [(t, p)]) - packedEnd 168 pre) →
          ∀ u, u ≠ .none → assetGet u (L' a).data = .ok (lookup u (pre ++ post.take 1))) := by
  obtain ⟨a, au, g, r, rest, rfl, hp⟩ := exec_remove h
  refine ⟨a, _, rfl, fun A hs => ?_⟩
  obtain ⟨_, _, _, _, pre, p, post, h5, h6⟩ := processRemove_cut hs ht hp
  refine ⟨pre, p, post, h5, fun hne hlen u hu => ?_⟩
  obtain ⟨e, hpk, _⟩ := hs.2.2.2
  rw [h5.1] at hpk
  obtain ⟨c1, c2, _⟩ := cut_parts hpk
  rw [h6]
  refine cut_loses hpk hu hne ?_
  rw [length_cut c1 c2]
  unfold staleEnd at hlen ⊢
  have : packedEnd 168 (pre ++ [(t, p)]) ≤ packedEnd 168 (pre ++ (t, p) :: post.take 1) := by
    rw [show (t, p) :: post.take 1 = [(t, p)] ++ post.take 1 from rfl, ← List.append_assoc,
      packedEnd_append 168 (pre ++ [(t, p)])]
    exact le_packedEnd _ _
  omega

/-- So the claim holds when at most one extension follows and the account has no bytes to spare. -/
theorem C25_last_two_partial {t : ExtType} (ht : t ≠ .none) (h : execute E L accts (.remove t) = .ok L') :
    ∃ a rest, accts = a :: rest ∧ ∀ A, Stores E.program L a A → Tight L a A →
      ∃ pre p post, FoundAt t pre p post A.exts ∧ (post.length = 1 →
        ∀ u, u ≠ .none → assetGet u (L' a).data = .ok (lookup u (removeExt t A.exts))) := by
  obtain ⟨a, rest, ha, hall⟩ := C25_lost ht h
  refine ⟨a, rest, ha, fun A hs htight => ?_⟩
  obtain ⟨pre, p, post, h5, h6⟩ := hall A hs
  refine ⟨pre, p, post, h5, fun hpost u hu => ?_⟩
  obtain ⟨x, rfl⟩ := List.length_eq_one_iff.mp hpost
  rw [h5.1, removeExt_some h5.2]
  refine h6 (by simp) ?_ u hu
  rw [show (L a).data.length = packedEnd 168 A.exts from htight, h5.1]
  show packedEnd 168 (pre ++ (t, p) :: [x]) < packedEnd 168 (pre ++ (t, p) :: [x]) + 16 + _
  omega

/-- Manager and Proxy extensions are never removed, and a Grouping extension only while the
group is empty, whatever the account contains. -/
theorem C25_protected {t : ExtType} (h : execute E L accts (.remove t) = .ok L') :
    t ≠ .manager ∧ t ≠ .proxy ∧ (t = .grouping → ∃ a rest off p max delegate, accts = a :: rest ∧
      First 6 0 (L a).data 168 (some (off, p)) ∧ GroupingIn p 0 max delegate) := by
  obtain ⟨a, au, g, r, rest, rfl, hp⟩ := exec_remove h
  unfold processRemove at hp
  inv at hp
  obtain ⟨_, _, _, _, _, y, _, hp⟩ := hp
  cases y with
  | none => cases hp
  | some y =>
    simp only at hp
    inv at hp
    obtain ⟨hr, _⟩ := hp
    refine ⟨?_, ?_, ?_⟩
    · rintro rfl; cases hr
    · rintro rfl; cases hr
    · rintro rfl
      unfold removeAllowed at hr
      simp only at hr
      inv at hr
      obtain ⟨z, hz, hr⟩ := hr
      cases z with
      | none => cases hr
      | some p =>
        simp only at hr
        inv at hr
        obtain ⟨gr, hg, hr⟩ := hr
        obtain ⟨q, h1, h2⟩ := assetGet_first hz
        cases q with
        | none => cases h2
        | some q =>
          cases h2
          have := readGrouping_in hg
          rw [hr] at this
          exact ⟨a, _, q.1, q.2, _, _, rfl, h1, this⟩

section Examples
open Verif.Ex

/-- An asset with attributes, a blob and links. -/
def abc : Ledger :=
  ledger [(k 1, owned (header 0 0 1 (k 2) Key.default (k 3) Key.default 0 [65] ++
      blocks 168 [(.attributes, [1, 97, 1, 98]), (.blob, [1, 120, 5, 6, 7, 8, 9]),
        (.links, [1, 99, 2, 100, 101])])),
    (k 2, wallet), (k 3, wallet), (k 5, wallet)]

/-- Removing the last one. -/
example : (after (run abc [k 3] [k 1, k 3, prog, k 5] (.remove .links)) (k 1)).map (fun a =>
    (a.data.length, getExtensions a.data, assetGet .blob a.data)) =
    .ok (216, .ok [.attributes, .blob], .ok (some [1, 120, 5, 6, 7, 8, 9])) := by decide +kernel

/-- Removing the one before: the last one is still found. -/
example : (after (run abc [k 3] [k 1, k 3, prog, k 5] (.remove .blob)) (k 1)).map (fun a =>
    (a.data.length, getExtensions a.data, assetGet .links a.data)) =
    .ok (216, .ok [.attributes, .links], .ok (some [1, 99, 2, 100, 101])) := by decide +kernel

/-- The full claim is false: after removing the first of three extensions, the third is no
longer found. -/
theorem C25_false :
    (assetGet .links (abc (k 1)).data = .ok (some [1, 99, 2, 100, 101])) ∧
    (after (run abc [k 3] [k 1, k 3, prog, k 5] (.remove .attributes)) (k 1)).map (fun a =>
      (getExtensions a.data, assetGet .links a.data)) = .ok (.ok [.blob], .ok none) := by
  decide +kernel

/-- An empty extension at the end of the account cannot be removed at all. -/
theorem C25_empty_last_stays :
    let L := ledger [(k 1, owned (header 0 0 1 (k 2) Key.default (k 3) Key.default 0 [65] ++
      blocks 168 [(.attributes, [])])), (k 3, wallet), (k 5, wallet)]
    getExtensions (L (k 1)).data = .ok [.attributes] ∧
    (after (run L [k 3] [k 1, k 3, prog, k 5] (.remove .attributes)) (k 1)) =
      .error (.asset .extensionNotFound) := by decide +kernel

end Examples

end Verif.Props

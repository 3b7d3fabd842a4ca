import Verif.Lemmas.RustAsset
import Verif.Props.C38
import Verif.Props.C54

/-!
# C72 — the Rust client reads what the program stores

`strict` stands for the two ways of the crate `kaigan` to treat a value that cannot be read (see
`Model/RustAsset`); the theorems hold for both.
-/

namespace Verif.Props

open Verif Verif.Spec

section

variable {d p : Bytes} {strict : Bool}

theorem clientRoles_shown (b : UInt8) : clientRoles b = shownRoles b := by
  rw [← C38_clients_agree, jsDecodeRoles_eq]

theorem takeWhile_all {α : Type} {f : α → Bool} {l : List α} (h : ∀ x ∈ l, f x = true) :
    l.takeWhile f = l := by
  induction l with
  | nil => rfl
  | cons a l ih =>
    rw [List.takeWhile_cons, if_pos (h a (List.mem_cons_self ..)),
      ih fun x hx => h x (List.mem_cons_of_mem _ hx)]

/-- The client reads an account exactly when it holds a header with bytes in range, and shows the
fields of the program. -/
theorem C72_header {J : RustAsset} :
    rustAsset d = some J ↔ 168 ≤ d.length ∧ (view d).disc.toNat ≤ 1 ∧ (view d).state.toNat ≤ 1 ∧
      ((view d).mutableByte = 0 ∨ (view d).mutableByte = 1) ∧
      ∃ s, Standard.ofTag (view d).standard.toNat = some s ∧ J = rustShown (view d) s := by
  have key : 168 ≤ d.length → rustAsset d =
      (twoValues (byteAt d 0).toNat).bind fun disc => (twoValues (byteAt d 1).toNat).bind fun state =>
      (Standard.ofTag (byteAt d 2).toNat).bind fun s =>
      if byteAt d 3 = 0 ∨ byteAt d 3 = 1 then
        some ⟨disc, state, s, podTrue (byteAt d 3), keyAt d 4, clientKey (keyAt d 36), keyAt d 68,
          clientKey (keyAt d 100), clientRoles (byteAt d 132), slice d 133 35⟩ else none := by
    intro hl
    unfold rustAsset
    have e0 := readTag_at (f := twoValues) (d := d) (o := 0) (by omega)
    rw [List.drop_zero] at e0
    rw [e0]
    cases twoValues (byteAt d 0).toNat with
    | none => rfl
    | some a =>
      simp only [Option.map_some, Option.bind_eq_bind, Option.bind_some, Nat.zero_add]
      rw [readTag_at (by omega)]
      cases twoValues (byteAt d 1).toNat with
      | none => rfl
      | some b =>
        simp only [Option.map_some, Option.bind_some, Nat.reduceAdd]
        rw [readTag_at (by omega)]
        cases Standard.ofTag (byteAt d 2).toNat with
        | none => rfl
        | some c =>
          simp only [Option.map_some, Option.bind_some, Nat.reduceAdd]
          rw [readBool_at (by omega)]
          split
          · simp only [Option.bind_some, Nat.reduceAdd]
            rw [readKey_at (by omega)]
            simp only [Option.bind_some, Nat.reduceAdd]
            rw [readKey_at (by omega)]
            simp only [Option.bind_some, Nat.reduceAdd]
            rw [readKey_at (by omega)]
            simp only [Option.bind_some, Nat.reduceAdd]
            rw [readKey_at (by omega)]
            simp only [Option.bind_some, Nat.reduceAdd]
            rw [readU8_at (by omega)]
            simp only [Option.bind_some, Nat.reduceAdd]
            rw [readN_at (by omega)]
            rfl
          · rfl
  constructor
  · intro h
    have hl := rustAsset_long h
    rw [key hl] at h
    simp only [Option.bind_eq_some_iff] at h
    obtain ⟨a, h1, b, h2, s, h3, h4⟩ := h
    split at h4
    · rename_i hm
      cases h4
      obtain ⟨g1, rfl⟩ := twoValues_iff.mp h1
      obtain ⟨g2, rfl⟩ := twoValues_iff.mp h2
      refine ⟨hl, g1, g2, hm, s, h3, ?_⟩
      simp only [rustShown, view, clientKey_shown, clientRoles_shown]
    · cases h4
  · rintro ⟨hl, h1, h2, hm, s, h3, rfl⟩
    rw [key hl, show twoValues (byteAt d 0).toNat = some (byteAt d 0).toNat from twoValues_iff.mpr ⟨h1, rfl⟩,
      show twoValues (byteAt d 1).toNat = some (byteAt d 1).toNat from twoValues_iff.mpr ⟨h2, rfl⟩,
      show Standard.ofTag (byteAt d 2).toNat = some s from h3]
    simp only [Option.bind_some]
    rw [if_pos (show byteAt d 3 = 0 ∨ byteAt d 3 = 1 from hm)]
    simp only [rustShown, view, clientKey_shown, clientRoles_shown]

/-- Every stored asset whose header bytes are in range is read. -/
theorem C72_stored {program k : Key} {L : Ledger} {A : Asset} (h : Stores program L k A)
    (hr : HeaderInRange A) :
    ∃ s, Standard.ofTag A.standard.toNat = some s ∧
      rustAsset (L k).data = some ⟨1, A.state.toNat, s, podTrue A.mutableByte, A.owner, shownKey A.group,
        A.authority, shownKey A.delegate, shownRoles A.roles, A.name⟩ := by
  obtain ⟨h1, -, h3, -⟩ := h
  obtain ⟨st, es⟩ : ∃ st, Standard.ofTag A.standard.toNat = some st := by
    have := hr.2.1
    generalize A.standard.toNat = n at this
    match n, this with
    | 0, _ => exact ⟨_, rfl⟩
    | 1, _ => exact ⟨_, rfl⟩
    | 2, _ => exact ⟨_, rfl⟩
    | 3, _ => exact ⟨_, rfl⟩
  refine ⟨st, es, ?_⟩
  rw [h3] at es hr ⊢
  refine C72_header.mpr ⟨h1.2.1, ?_, hr.1, ?_, st, es, ?_⟩
  · rw [show (view (L k).data).disc = 1 from h1.2.2]; decide
  · have hm : (view (L k).data).mutableByte.toNat ≤ 1 := hr.2.2
    generalize (view (L k).data).mutableByte = m at hm ⊢
    rcases Nat.le_one_iff_eq_zero_or_eq_one.mp hm with h | h
    · exact .inl (UInt8.toNat_inj.mp h)
    · exact .inr (UInt8.toNat_inj.mp h)
  · unfold rustShown
    rw [show (view (L k).data).disc = 1 from h1.2.2]
    rfl

/-- Attributes and links: the client that insists reads exactly what the program reads, if it is UTF-8. -/
theorem C72_pairs {l : List (Bytes × Bytes)} :
    rustPairs true p = some l ↔ readPairList p = .ok l ∧ ∀ x ∈ l, goodPair x = true :=
  pairs_strict (by omega) (Nat.le_refl _)

/-- The client that does not insist shows those before the first that is not UTF-8. -/
theorem C72_pairs_lenient {l : List (Bytes × Bytes)} (h : readPairList p = .ok l) :
    rustPairs false p = some (l.takeWhile goodPair) := pairs_lenient h (Nat.le_refl _)

/-- So both show the same as the program when all texts are UTF-8. -/
theorem C72_pairs_same {l : List (Bytes × Bytes)} (h : readPairList p = .ok l)
    (hg : ∀ x ∈ l, goodPair x = true) : rustPairs strict p = some l := by
  cases strict
  · rw [C72_pairs_lenient h, takeWhile_all hg]
  · exact C72_pairs.mpr ⟨h, hg⟩

/-- Blob. -/
theorem C72_blob {x : Bytes × Bytes} :
    rustBlob p = some x ↔ readBlob p = .ok x ∧ validUtf8 x.1 = true := by
  obtain ⟨s, r⟩ := x
  unfold rustBlob readBlob
  rw [readStr8_iff]
  constructor
  · rintro ⟨hv, n, h, rfl⟩
    rw [h]
    exact ⟨rfl, hv⟩
  · rintro ⟨h, hv⟩
    inv at h
    obtain ⟨⟨s', n⟩, h1, h2⟩ := h
    cases h2
    exact ⟨hv, n, h1, rfl⟩

/-- Bucket. -/
theorem C72_bucket : ∃ b, rustBucket p = some b ∧ readBucket p = .ok b := ⟨p, rfl, rfl⟩

/-- Creators: the same as the program reads, as long as the mark of each is 0 or 1. -/
theorem C72_creators {cs : List Creator} (h : readCreators p = .ok cs)
    (hg : ∀ c ∈ cs, c.verified = 0 ∨ c.verified = 1) :
    rustCreators strict p = some (cs.map rustCreator) := by
  unfold readCreators at h
  split at h
  · cases h
  · rename_i hm
    cases h
    have hg' : ∀ c ∈ creatorsFrom (p.length / 34) p, goodCreator c = true := by
      intro c hc; simpa [goodCreator] using hg c hc
    unfold rustCreators
    rw [creators_any strict (n := p.length / 34) (by omega) (Nat.le_refl _), if_neg,
      takeWhile_all hg']
    rintro ⟨-, c, hc, hf⟩
    rw [hg' c hc] at hf
    cases hf

/-- Grouping, with the delegate. -/
theorem C72_grouping {g : Grouping} (h : readGrouping p = .ok g) :
    rustGrouping p = if p.length = 48 then some (g.size, g.maxSize, shownKey g.delegate) else none := by
  unfold readGrouping at h
  split at h
  · cases h
  · split at h
    · rw [if_neg (by omega)]
      cases hr : rustGrouping p with
      | none => rfl
      | some z =>
        unfold rustGrouping at hr
        simp only [Option.bind_eq_bind, Option.bind_eq_some_iff] at hr
        obtain ⟨a0, h0, a1, h1, a2, h2, -⟩ := hr
        have e0 := readU64_rest h0
        have e1 := readU64_rest h1
        have e2 := readKey_rest h2
        omega
    · split at h
      · rename_i hl
        cases h
        rw [if_pos hl]
        unfold rustGrouping
        have e0 := readU64_at (d := p) (o := 0) (by omega)
        rw [List.drop_zero] at e0
        rw [e0]
        simp only [Option.bind_eq_bind, Option.bind_some, Nat.reduceAdd]
        rw [readU64_at (by omega)]
        simp only [Option.bind_some, Nat.reduceAdd]
        rw [readKey_at (by omega)]
        rfl
      · cases h

/-- Manager. -/
theorem C72_manager : rustManager p =
    match readManager p with
    | .ok x => some (shownKey x.address, shownRoles x.roles)
    | .error _ => none := by
  unfold readManager
  by_cases hl : p.length < 33
  · rw [if_pos hl]
    cases hr : rustManager p with
    | none => rfl
    | some z =>
      unfold rustManager at hr
      simp only [Option.bind_eq_bind, Option.bind_eq_some_iff] at hr
      obtain ⟨a0, h0, a1, h1, -⟩ := hr
      have e0 := readKey_rest h0
      have e1 := readU8_rest h1
      omega
  · rw [if_neg hl]
    unfold rustManager
    have e0 := readKey_at (d := p) (o := 0) (by omega)
    rw [List.drop_zero] at e0
    rw [e0]
    simp only [Option.bind_eq_bind, Option.bind_some, Nat.reduceAdd]
    rw [readU8_at (by omega)]
    simp only [Option.bind_some, clientKey_shown, clientRoles_shown]
    rfl

/-- Proxy. -/
theorem C72_proxy {x : Proxy} (h : readProxy p = .ok x) :
    rustProxy p = some (x.program, x.seeds, x.bump, shownKey x.authority) := by
  unfold readProxy at h
  split at h
  · cases h
  · rename_i hl
    cases h
    unfold rustProxy
    have e0 := readKey_at (d := p) (o := 0) (by omega)
    rw [List.drop_zero] at e0
    rw [e0]
    simp only [Option.bind_eq_bind, Option.bind_some, Nat.reduceAdd]
    rw [readN_at (by omega)]
    simp only [Option.bind_some, Nat.reduceAdd]
    rw [readU8_at (by omega)]
    simp only [Option.bind_some, Nat.reduceAdd]
    rw [readKey_at (by omega)]
    rfl

/-- Metadata: what the program reads, if there is a fourth text, and all are UTF-8. -/
theorem C72_metadata {m : Metadata} :
    rustMetadata p = some m ↔ readMetadata p = .ok m ∧ validUtf8 m.symbol = true ∧
      validUtf8 m.description = true ∧ validUtf8 m.uri = true ∧ validUtf8 m.imageUri = true ∧
      m.symbol.length + m.description.length + m.uri.length + 3 < p.length := by
  have size : ∀ {b s : Bytes} {n : Nat}, readStr b = .ok (s, n) → n = s.length + 1 := by
    intro b s n h
    unfold readStr at h
    split at h
    · cases h
    · split at h
      · cases h
      · cases h
        rw [List.length_take]
        omega
  unfold rustMetadata readMetadata
  simp only [Option.bind_eq_bind, Option.bind_eq_some_iff]
  constructor
  · rintro ⟨⟨s1, b1⟩, h1, ⟨s2, b2⟩, h2, ⟨s3, b3⟩, h3, ⟨s4, b4⟩, h4, h5⟩
    cases h5
    obtain ⟨v1, n1, e1, rfl⟩ := readStr8_iff.mp h1
    obtain ⟨v2, n2, e2, rfl⟩ := readStr8_iff.mp h2
    obtain ⟨v3, n3, e3, rfl⟩ := readStr8_iff.mp h3
    obtain ⟨v4, n4, e4, rfl⟩ := readStr8_iff.mp h4
    simp only [List.drop_drop] at e2 e3 e4
    have l4 := readStr_size e4
    rw [List.length_drop] at l4
    have z1 := size e1
    have z2 := size e2
    have z3 := size e3
    refine ⟨?_, v1, v2, v3, v4, by simp only; omega⟩
    rw [e1]
    simp only [bind, Except.bind]
    rw [e2]
    simp only
    rw [e3]
    simp only
    rw [if_neg (by rw [List.isEmpty_iff, ← List.length_eq_zero_iff, List.length_drop]; omega), e4]
    rfl
  · rintro ⟨h, v1, v2, v3, v4, hl⟩
    inv at h
    obtain ⟨⟨s1, n1⟩, e1, ⟨s2, n2⟩, e2, ⟨s3, n3⟩, e3, h⟩ := h
    have z1 := size e1
    have z2 := size e2
    have z3 := size e3
    simp only at h e2 e3
    split at h
    · rename_i he
      rw [List.isEmpty_iff, ← List.length_eq_zero_iff, List.length_drop] at he
      cases h
      simp only at hl
      omega
    · inv at h
      obtain ⟨⟨s4, n4⟩, e4, h⟩ := h
      cases h
      refine ⟨_, readStr8_iff.mpr ⟨v1, n1, e1, rfl⟩, _, readStr8_iff.mpr ⟨v2, n2, e2, rfl⟩, _,
        readStr8_iff.mpr ⟨v3, n3, by rw [List.drop_drop]; exact e3, rfl⟩, _,
        readStr8_iff.mpr ⟨v4, n4, by rw [List.drop_drop, List.drop_drop, ← Nat.add_assoc]; exact e4, rfl⟩, rfl⟩

end

section Examples
open Verif.Ex

/-- The client reads the header of the asset of C54, and its extensions. -/
example : (rustAsset (showcaseL (k 1)).data).map (fun J =>
    decide (J.discriminator = 1 ∧ J.state = 0 ∧ J.standard = .nonFungible ∧ J.isMutable = true ∧ J.group = none ∧
      J.roles = [.transfer, .burn] ∧ J.delegate = some (k 4))) = some true := by decide +kernel
example : ((readBy (fun p => .ok (rustMetadata p)) .metadata showcaseL).toOption.bind id).map
      (fun m => [m.symbol, m.description, m.uri, m.imageUri]) = some [[83], [], [104, 105], [112]] ∧
    ((readBy (fun p => .ok (rustGrouping p)) .grouping showcaseL).toOption.bind id) =
      some (0, 7, some (k 6)) ∧
    ((readBy (fun p => .ok (rustCreators true p)) .creators showcaseL).toOption.bind id) =
      some [(k 3, true, 60), (k 4, false, 40)] ∧
    ((readBy (fun p => .ok (rustManager p)) .manager showcaseL).toOption.bind id) =
      some (some (k 8), [.transfer, .lock]) := by decide +kernel
example : rustPairs true [1, 97, 1, 98] = some [([97], [98])] ∧
    rustBlob [1, 97, 5, 6] = some ([97], [5, 6]) ∧
    (rustProxy ((k 1).1 ++ (k 2).1 ++ [254] ++ (k 3).1)).isSome = true := by decide +kernel

/-- The full claim is false. The program accepts Metadata without a fourth text and Grouping without a
delegate, and reads them; the client does not. And of texts that are not UTF-8, which the program accepts
too, the client reads nothing, or only what is before. -/
theorem C72_false :
    ((oneExt .metadata [1, 97, 1, 98, 1, 99]).bind fun L => readBy (fun p => .ok
      ((readMetadata p).isOk, (rustMetadata p).isSome)) .metadata L) = .ok (true, false) ∧
    ((oneExt .grouping (zeros 16)).bind fun L => readBy (fun p => .ok
      ((readGrouping p).isOk, (rustGrouping p).isSome)) .grouping L) = .ok (true, false) ∧
    ((oneExt .attributes [1, 97, 1, 98, 1, 255, 1, 99, 1, 100, 1, 101]).bind fun L =>
      readBy readPairList .attributes L) = .ok [([97], [98]), ([255], [99]), ([100], [101])] ∧
    ((oneExt .attributes [1, 97, 1, 98, 1, 255, 1, 99, 1, 100, 1, 101]).bind fun L => readBy (fun p => .ok
      ((rustPairs true p).isSome, (rustPairs false p).getD [])) .attributes L) =
        .ok (false, [([97], [98])]) := by decide +kernel

end Examples

end Verif.Props

import Verif.Lemmas.Payload

/-!
# C23 — extension builders and readers are inverse
-/

namespace Verif.Props

open Verif Verif.Spec

/-- Attributes and links: adding pairs to a builder and reading them back. -/
theorem C23_pairs (l : List (Bytes × Bytes))
    (h : ∀ p ∈ l, p.1.length ≤ 255 ∧ p.2.length ≤ 255) :
    readPairList (l.foldl (fun b p => pairsBuilderAdd b p.1 p.2) []) = .ok l := by
  rw [foldl_pairsBuilderAdd, List.nil_append]
  exact readPairs_pairsBytes l _ (by omega) h

/-- A trait read by name is the first one added with that name. -/
theorem C23_attribute_lookup (l : List (Bytes × Bytes)) (name value : Bytes) :
    attributesGet l name = some value ↔
      ∃ before after, l = before ++ (name, value) :: after ∧ ∀ p ∈ before, p.1 ≠ name := by
  unfold attributesGet
  rw [Option.map_eq_some_iff]
  constructor
  · rintro ⟨⟨n, v⟩, h, rfl⟩
    rw [List.find?_eq_some_iff_append] at h
    obtain ⟨h1, before, after, h2, h3⟩ := h
    simp only [decide_eq_true_eq] at h1
    subst h1
    exact ⟨before, after, h2, fun p hp => by simpa using h3 p hp⟩
  · rintro ⟨before, after, rfl, h⟩
    refine ⟨(name, value), ?_, rfl⟩
    rw [List.find?_eq_some_iff_append]
    exact ⟨by simp, before, after, rfl, fun p hp => by simpa using h p hp⟩

/-- Blob. -/
theorem C23_blob (contentType data : Bytes) (h : contentType.length ≤ 255) :
    readBlob (blobBuilderSet contentType data) = .ok (contentType, data) := by
  unfold readBlob blobBuilderSet
  rw [readStr_writeStr _ _ h]
  simp only [bind, Except.bind, pure, Except.pure]
  rw [List.drop_left' (length_writeStr _)]

/-- Bucket. -/
theorem C23_bucket (data : Bytes) : readBucket (bucketBuilderSet data) = .ok data := rfl

/-- Metadata: an absent string is read as the empty string. -/
theorem C23_metadata (symbol description uri imageUri : Option Bytes)
    (h1 : (symbol.getD []).length ≤ 255) (h2 : (description.getD []).length ≤ 255)
    (h3 : (uri.getD []).length ≤ 255) (h4 : (imageUri.getD []).length ≤ 255) :
    readMetadata (metadataBuilderSet symbol description uri imageUri) =
      .ok ⟨symbol.getD [], description.getD [], uri.getD [], imageUri.getD []⟩ := by
  unfold readMetadata metadataBuilderSet
  rw [List.append_assoc, List.append_assoc, readStr_writeOptStr _ _ h1]
  simp only [bind, Except.bind]
  rw [List.drop_left' rfl, readStr_writeOptStr _ _ h2]
  simp only
  rw [drop_append_add _ _ _ _ rfl, List.drop_left' rfl, readStr_writeOptStr _ _ h3]
  simp only
  rw [Nat.add_assoc, drop_append_add _ _ _ _ rfl, drop_append_add _ _ _ _ rfl, List.drop_left' rfl]
  have h := readStr_writeOptStr imageUri [] h4
  rw [List.append_nil] at h
  have hne : (writeOptStr imageUri).isEmpty = false := by cases imageUri <;> rfl
  rw [hne, h]
  rfl

/-- Properties with text, number and boolean values. -/
theorem C23_properties (l : List (Bytes × PropValue))
    (h : ∀ p ∈ l, p.1.length ≤ 255 ∧ p.2.Fits) :
    readPropList (l.foldl (fun b p => propsBuilderAdd b p.1 p.2) []) = .ok l := by
  rw [foldl_propsBuilderAdd, List.nil_append]
  exact readProps_propsBytes l _ (by omega) h

/-- Creators (the builder counts in a `u8`, so up to 256 of them). -/
theorem C23_creators (cs : List (Key × Bool × UInt8)) (h : cs.length ≤ 256) :
    readCreators (cs.foldl (fun b c => b.add c.1 c.2.1 c.2.2) ({} : CreatorsBuilder)).data =
      .ok (cs.map fun c => ⟨c.1, podBool c.2.1, c.2.2⟩) := by
  rw [(creatorsBuilder_foldl cs h).1, readCreators_bytes]

/-- Grouping: the size starts at zero; no maximum is stored as zero, no delegate as the
default key. -/
theorem C23_grouping (maxSize : Option Nat) (delegate : Option Key)
    (h : maxSize.getD 0 < 2 ^ 64) :
    readGrouping (groupingBuilderSet maxSize delegate) =
      .ok ⟨0, maxSize.getD 0, delegate.getD Key.default⟩ := by
  have hk := (delegate.getD Key.default).2
  have hl : (groupingBuilderSet maxSize delegate).length = 48 := by
    simp only [groupingBuilderSet, List.length_append, length_toLE, hk]
  unfold readGrouping
  rw [if_neg (by omega), if_neg (by omega), if_pos hl]
  have e1 : u64At (groupingBuilderSet maxSize delegate) 0 = 0 := by
    unfold u64At groupingBuilderSet
    rw [List.append_assoc, slice_append_left _ _ _ (length_toLE 8 _).symm,
      leNat_toLE_of_lt (by omega)]
  have e2 : u64At (groupingBuilderSet maxSize delegate) 8 = maxSize.getD 0 := by
    unfold u64At groupingBuilderSet
    rw [List.append_assoc, slice_append_right _ _ _ _ (length_toLE 8 _).symm,
      List.take_left' (length_toLE 8 _), leNat_toLE_of_lt (by omega)]
  have e3 : keyAt (groupingBuilderSet maxSize delegate) 16 = delegate.getD Key.default := by
    unfold keyAt groupingBuilderSet
    rw [slice_append_right _ _ _ _ (by simp [length_toLE]), List.take_of_length_le (by omega),
      ofBytes_key]
  rw [e1, e2, e3]

/-- Royalties: basis points and the constraint tree. -/
theorem C23_royalties (bp : Nat) (c : Cst) (hb : bp < 2 ^ 64) (hs : SelectorsFit c)
    (hl : (buildC c).length ≤ 2 ^ 32) :
    readRoyalties (royaltiesBuilderSet bp (buildC c)) = .ok ⟨bp, c⟩ := by
  have h8 := length_toLE 8 bp
  unfold readRoyalties royaltiesBuilderSet
  rw [if_neg (by rw [List.length_append]; omega), List.drop_left' h8]
  have hp : parseConstraint (buildC c) = .ok c := by
    unfold parseConstraint
    have := parseC_buildC c ((buildC c).length + 2) [] (by omega) hs hl
    rw [List.append_nil] at this
    rw [this]; rfl
  rw [hp]
  have e1 : u64At (toLE 8 bp ++ buildC c) 0 = bp := by
    unfold u64At
    rw [slice_append_left _ _ _ h8.symm, leNat_toLE_of_lt (by omega)]
  simp only [bind, Except.bind, pure, Except.pure, e1]

/-- Manager. -/
theorem C23_manager (x : Delegate) : readManager (managerBuilderSet x) = .ok x := by
  have hk := x.address.2
  unfold readManager managerBuilderSet
  rw [if_neg (by simp [hk])]
  have e1 : keyAt (x.address.1 ++ [x.roles]) 0 = x.address := by
    unfold keyAt; rw [slice_append_left _ _ _ hk.symm, ofBytes_key]
  have e2 : byteAt (x.address.1 ++ [x.roles]) 32 = x.roles := by
    rw [byteAt_append_right _ _ _ (by omega), hk]; rfl
  rw [e1, e2]

/-- Proxy. -/
theorem C23_proxy (program seeds : Key) (bump : UInt8) (authority : Option Key) :
    readProxy (proxyBuilderSet program seeds bump authority) =
      .ok ⟨program, seeds.1, bump, authority.getD Key.default⟩ := by
  have h1 := program.2
  have h2 := seeds.2
  have h3 := (authority.getD Key.default).2
  unfold readProxy proxyBuilderSet
  rw [if_neg (by simp [h1, h2, h3])]
  have e1 : keyAt (program.1 ++ seeds.1 ++ [bump] ++ (authority.getD Key.default).1) 0 = program := by
    unfold keyAt
    rw [List.append_assoc, List.append_assoc, slice_append_left _ _ _ h1.symm, ofBytes_key]
  have e2 : slice (program.1 ++ seeds.1 ++ [bump] ++ (authority.getD Key.default).1) 32 32 =
      seeds.1 := by
    rw [List.append_assoc, List.append_assoc, slice_append_right _ _ _ _ h1.symm,
      List.take_left' h2]
  have e3 : byteAt (program.1 ++ seeds.1 ++ [bump] ++ (authority.getD Key.default).1) 64 = bump := by
    rw [byteAt_append_left _ _ _ (by simp [h1, h2]), byteAt_append_right _ _ _ (by simp [h1, h2])]
    simp [h1, h2, byteAt]
  have e4 : keyAt (program.1 ++ seeds.1 ++ [bump] ++ (authority.getD Key.default).1) 65 =
      authority.getD Key.default := by
    unfold keyAt
    rw [slice_append_right _ _ _ _ (by simp [h1, h2]), List.take_of_length_le (by omega),
      ofBytes_key]
  rw [e1, e2, e3, e4]

/-- Why strings are bounded: the prefix of a longer string wraps, and it is not read back. -/
theorem C23_long_string_is_lost :
    ∃ s : Bytes, s.length = 256 ∧ readStr (writeStr s) = .ok ([], 1) :=
  ⟨List.replicate 256 65, by decide +kernel, by decide +kernel⟩

/-! ## Concrete cases -/

example : ∀ p ∈ [(([99, 97, 116] : Bytes), ([] : Bytes)), ([100, 111, 103], [1, 2, 3])],
    p.1.length ≤ 255 ∧ p.2.length ≤ 255 := by decide

example : readPairList (pairsBuilderAdd (pairsBuilderAdd [] [99, 97, 116] []) [100] [1, 2]) =
    .ok [([99, 97, 116], []), ([100], [1, 2])] := by decide +kernel

example : ∀ p ∈ [(([99] : Bytes), PropValue.text [1, 2]), ([100], .number 77), ([], .boolean 1)],
    p.1.length ≤ 255 ∧ p.2.Fits := by
  simp [PropValue.Fits]

example : readMetadata (metadataBuilderSet (some [83, 89]) none (some [104]) none) =
    .ok ⟨[83, 89], [], [104], []⟩ := by decide +kernel

end Verif.Props

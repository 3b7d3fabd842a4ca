import Verif.Model.Json
import Verif.Props.C23
import Verif.Props.C43

/-!
# C44 — extension data from JSON is read back as described
-/

namespace Verif.Props

open Verif Verif.Spec

/-- The program reads in the data `b` what the JSON value says. -/
def ReadsAs (v : JsonValue) (b : Bytes) : Prop :=
  match v with
  | .creators l => readCreators b = .ok (l.map fun c => ⟨c.1, if c.2.1 then 1 else 0, c.2.2⟩)
  | .attributes l => readPairList b = .ok l
  | .links l => readPairList b = .ok l
  | .blob contentType file => readBlob b = .ok (contentType, file)
  | .metadata symbol description uri => readMetadata b = .ok ⟨symbol, description, uri, []⟩
  | .royalties kind bp items => readRoyalties b = .ok ⟨bp.toNat, jsonConstraint kind items⟩

/-- Strings have at most 255 bytes; a list of keys has fewer than 2^26 items. -/
def JsonFits : JsonValue → Prop
  | .creators _ => True
  | .attributes l | .links l => ∀ p ∈ l, p.1.length ≤ 255 ∧ p.2.length ≤ 255
  | .blob contentType _ => contentType.length ≤ 255
  | .metadata symbol description uri =>
    symbol.length ≤ 255 ∧ description.length ≤ 255 ∧ uri.length ≤ 255
  | .royalties _ _ items => items.length < 67108864

theorem jsonStr_eq (s : Bytes) : jsonStr s = writeStr s := rfl

theorem foldl_flatMap {α : Type} (f : α → Bytes) (l : List α) (b : Bytes) :
    l.foldl (fun acc x => acc ++ f x) b = b ++ l.flatMap f := by
  induction l generalizing b with
  | nil => simp
  | cons x l ih => rw [List.foldl_cons, ih]; simp

theorem length_flatMap_keys (l : List Key) : (l.flatMap (·.1)).length = 32 * l.length := by
  induction l with
  | nil => rfl
  | cons x l ih => rw [List.flatMap_cons, List.length_append, ih, x.2, List.length_cons]; omega

theorem length_opBuild (ty : Nat) (b : Bytes) (h : 8 ≤ b.length) :
    (opBuild ty b).length = b.length := by
  unfold opBuild
  have hne : b.isEmpty = false := by
    cases b with
    | nil => simp at h
    | cons => rfl
  simp only [hne, Bool.false_eq_true, if_false]
  rw [length_splice (by rw [length_splice (by rw [length_toLE]; omega), length_toLE]; omega),
    length_splice (by rw [length_toLE]; omega)]

theorem jsonConstraint_small (kind : RoyaltiesKind) (items : List Key)
    (h : items.length < 67108864) :
    SelectorsFit (jsonConstraint kind items) ∧
      (buildC (jsonConstraint kind items)).length ≤ 2 ^ 32 := by
  have hk : ∀ ty, (opBuild ty (keysBuilderSet [] 0 items)).length = 16 + 32 * items.length := by
    intro ty
    have : (keysBuilderSet [] 0 items).length = 16 + 32 * items.length := by
      unfold keysBuilderSet
      simp only [List.length_append, length_toLE, length_flatMap_keys]
      have : (reallocBytes ([] : Bytes) 8).length = 8 := rfl
      omega
    rw [length_opBuild _ _ (by omega), this]
  cases kind with
  | allowlist =>
    refine ⟨by simp [jsonConstraint, SelectorsFit], ?_⟩
    simp only [jsonConstraint, buildC]
    rw [hk]; omega
  | denylist =>
    refine ⟨by simp [jsonConstraint, SelectorsFit], ?_⟩
    simp only [jsonConstraint, buildC]
    have h1 := hk 3
    have h2 : (notBuilderSet [] (opBuild 3 (keysBuilderSet [] 0 items))).length =
        24 + 32 * items.length := by
      unfold notBuilderSet
      rw [List.length_append, h1]
      have : (reallocBytes ([] : Bytes) 8).length = 8 := rfl
      omega
    rw [length_opBuild _ _ (by omega), h2]
    omega

/-- The data made from a JSON value is read back as the value. -/
theorem C44_read (v : JsonValue) (h : JsonFits v) : ReadsAs v v.data := by
  cases v with
  | creators l =>
    simp only [ReadsAs, JsonValue.data]
    rw [foldl_flatMap, List.nil_append]
    have : l.flatMap jsonCreator =
        creatorsBytes (l.map fun c => ⟨c.1, if c.2.1 then 1 else 0, c.2.2⟩) := by
      unfold creatorsBytes
      rw [List.flatMap_map]
      rfl
    rw [this, readCreators_bytes]
  | attributes l =>
    simp only [ReadsAs, JsonValue.data]
    rw [foldl_flatMap, List.nil_append]
    exact readPairs_pairsBytes l _ (Nat.le_refl _) h
  | links l =>
    simp only [ReadsAs, JsonValue.data]
    rw [foldl_flatMap, List.nil_append]
    exact readPairs_pairsBytes l _ (Nat.le_refl _) h
  | blob ct file => exact C23_blob ct file h
  | metadata sy de ur =>
    obtain ⟨h1, h2, h3⟩ := h
    simp only [ReadsAs, JsonValue.data, jsonStr_eq]
    unfold readMetadata
    rw [List.append_assoc, readStr_writeStr _ _ h1]
    simp only [bind, Except.bind]
    rw [List.drop_left' (length_writeStr _), readStr_writeStr _ _ h2]
    simp only
    rw [drop_append_add _ _ _ _ (length_writeStr _), List.drop_left' (length_writeStr _)]
    have h4 := readStr_writeStr ur [] h3
    rw [List.append_nil] at h4
    rw [h4]
    simp only
    have : ((writeStr sy ++ (writeStr de ++ writeStr ur)).drop
        (sy.length + 1 + (de.length + 1) + (ur.length + 1))).isEmpty = true := by
      rw [List.isEmpty_iff]
      apply List.drop_of_length_le
      simp only [List.length_append, length_writeStr]
      omega
    simp [this]
    rfl
  | royalties kind bp items =>
    obtain ⟨h1, h2⟩ := jsonConstraint_small kind items h
    exact C23_royalties bp.toNat _ bp.toBitVec.isLt h1 h2

/-- The extension type of a JSON value. -/
def typeOf : JsonValue → ExtType
  | .creators _ => .creators
  | .attributes _ => .attributes
  | .links _ => .links
  | .blob _ _ => .blob
  | .metadata _ _ _ => .metadata
  | .royalties _ _ _ => .royalties

/-- The extension `e` stores what the JSON value says; creators are verified if and only if they are
the owner. -/
def StoredAs (owner : Key) (v : JsonValue) (e : Extn) : Prop :=
  e.1 = typeOf v ∧
  match v with
  | .creators l => creatorList e.2 = l.map fun c => ⟨c.1, if owner = c.1 then 1 else 0, c.2.2⟩
  | v => ReadsAs v e.2

theorem readCreators_list {p : Bytes} {cs : List Creator} (h : readCreators p = .ok cs) :
    creatorList p = cs := by
  rw [readCreators_eq.mp h, creatorList_bytes]

/-- Minting an asset with extensions from JSON: the extensions are stored as described, in
order. -/
theorem C44_minted {program : Key} {L L' : Ledger} {x : MintArgs} {vs : List JsonValue}
    (h : Submitted program x.asset L (mint program x) L') (h0 : (L x.asset).data = [])
    (hn : Text x.name) (hv : x.exts = vs.map fun v => (typeOf v, v.data))
    (hx : ∀ v ∈ vs, JsonFits v ∧ v.data.length ≤ 10485760) :
    ∃ es, Stores program L' x.asset (newAsset (createOf x) x.owner x.owner none es) ∧
      List.Forall₂ (StoredAs x.owner) vs es := by
  obtain ⟨es, h1, h2⟩ := C43_mint h h0 hn (by
    intro e he
    rw [hv] at he
    obtain ⟨v, hvm, rfl⟩ := List.mem_map.mp he
    exact ⟨by cases v <;> simp [typeOf], (hx v hvm).2⟩)
  refine ⟨es, h1, ?_⟩
  rw [hv, List.forall₂_map_left_iff] at h2
  clear h1 hv h
  induction h2 with
  | nil => exact .nil
  | @cons v e vs es hve _ ih =>
    refine .cons ?_ (ih fun v h => hx v (by simp [h]))
    have hr := C44_read v (hx v (by simp)).1
    obtain ⟨g1, g2⟩ := hve
    refine ⟨g1, ?_⟩
    cases v with
    | creators l =>
      obtain ⟨_, _, _, g3, _⟩ := g2
      simp only
      rw [g3, readCreators_list hr, List.map_map]
      apply List.map_congr_left
      intro c _
      simp [flagFor]
    | _ =>
      have := accepted_other (by simp [typeOf]) g2
      simp only at this ⊢
      rw [this]
      exact hr

/-! ## Concrete cases -/

section Examples
open Verif.Ex

/-- Three values. -/
def jsonValues : List JsonValue :=
  [.attributes [([97], [98]), ([], [99])], .creators [(k 2, false, 60), (k 3, true, 40)],
    .metadata [83] [] [117, 114, 108]]

example : ∀ v ∈ jsonValues, v.data.length ≤ 10485760 := by decide +kernel
example : JsonFits (.attributes [([97], [98]), ([], [99])]) ∧ JsonFits (.metadata [83] [] [117]) := by
  simp [JsonFits]
example : (sendAll empties (mint prog ⟨k 1, k 2, none, [65], .nonFungible, false,
      jsonValues.map fun v => (typeOf v, v.data)⟩)).map (fun L => (L (k 1)).data) =
    .ok (header 0 0 0 (k 2) Key.default (k 2) Key.default 0 [65] ++
      blocks 168 [(.attributes, [1, 97, 1, 98, 0, 1, 99]),
        (.creators, (k 2).1 ++ [1, 60] ++ (k 3).1 ++ [0, 40]),
        (.metadata, [1, 83, 0, 3, 117, 114, 108])]) := by
  decide +kernel

/-- A longer string is cut, and what follows is read as other strings: the limit is needed. -/
theorem C44_long_string :
    (readPairList (JsonValue.attributes [(List.replicate 258 97, [98])]).data).map List.length ≠
      .ok 1 := by
  decide +kernel

end Examples
end Verif.Props

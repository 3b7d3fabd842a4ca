import Verif.Lemmas.Js
import Verif.Lemmas.Check
import Verif.Props.C15

/-!
# C54 — the JavaScript client shows what the program stores

It does for data of today's form (`Modern`). Older or unusual data, which the program reads without
complaint, makes the client throw or show something else: the witnesses are at the end.
-/

namespace Verif.Props

open Verif Verif.Spec

section
variable {dec : Bytes → Bytes} {program k : Key} {L L' : Ledger} {A : Asset}

/-- The client reads the header and every extension of a stored asset, in order, and shows of each
what the program reads in it. -/
theorem C54_shows_partial (h : Stores program L k A) (hf : JsFriendly A) (hs : NoStub L k A) :
    ∃ vs, jsAsset dec (L k).data = .ok (shownAsset (jsText dec) A vs) ∧
      A.exts.map (fun x => shown (jsText dec) x.1 x.2) = vs.map .ok :=
  have ⟨vs, h1, h2, _⟩ := jsAsset_stores (dec := dec) h hf.1 hs hf.2
  ⟨vs, h1, h2⟩

/-- Looking up an extension in the client gives what the program finds. -/
theorem C54_get_partial (h : Stores program L k A) (hf : JsFriendly A) (hs : NoStub L k A)
    {t : ExtType} (ht : t ≠ .none) :
    ∃ J, jsAsset dec (L k).data = .ok J ∧ ∃ r, assetGet t (L k).data = .ok r ∧
      match r with
      | some p => ∃ v, shown (jsText dec) t p = .ok v ∧ J.get t = some v
      | none => J.get t = none := by
  obtain ⟨vs, h1, h2, h3⟩ := jsAsset_stores (dec := dec) h hf.1 hs hf.2
  refine ⟨_, h1, lookup t A.exts, assetGet_walk h.2.2.2.hasExts ht, ?_⟩
  simp only [shownAsset, JsAsset.get]
  generalize A.exts = es at h2 h3
  clear h1
  induction es generalizing vs with
  | nil =>
    cases vs with
    | nil => rfl
    | cons => cases h2
  | cons x xs ih =>
    obtain ⟨s, p⟩ := x
    cases vs with
    | nil => cases h2
    | cons v vs =>
      simp only [List.map_cons, List.cons.injEq] at h2 h3
      rw [lookup]
      by_cases hst : s = t
      · subst hst
        rw [if_pos rfl]
        refine ⟨v, h2.1, ?_⟩
        rw [List.find?_cons_of_pos (by simp [← h3.1])]
      · rw [if_neg hst, List.find?_cons_of_neg (by simp [← h3.1, hst])]
        exact ih vs h2.2 h3.2

/-- Data stays of the form the client expects, whatever instructions follow, as long as updates bring
such data along (in the instruction). -/
theorem C54_life_partial (h : Stores program L k A) (hf : JsFriendly A)
    (hl : SoundLife program k (StoresModern program) L L') :
    ∃ A', Stores program L' k A' ∧ JsFriendly A' ∧ (NoStub L' k A' → ∃ vs,
      jsAsset dec (L' k).data = .ok (shownAsset (jsText dec) A' vs) ∧
      A'.exts.map (fun x => shown (jsText dec) x.1 x.2) = vs.map .ok) := by
  obtain ⟨A', h1, h2⟩ := SoundLife.invariant (I := JsFriendly)
    (fun E accts i A A' hE hP hI hm => jsFriendly_move (hE ▸ hP) hI hm) h hf hl
  exact ⟨A', h1, h2, C54_shows_partial h1 h2⟩

/-- A name without null characters that fits is shown as it was given, if decoding leaves it alone. -/
theorem C54_name (n : Bytes) (hn : n.length ≤ 35) (h0 : (0 : UInt8) ∉ n)
    (hd : dec (storedName n) = storedName n) : jsText dec (storedName n) = n := by
  rw [jsText, hd, storedName]
  have e : (n ++ List.replicate 35 (0 : UInt8)).take 35 = n ++ List.replicate (35 - n.length) 0 := by
    rw [List.take_append, List.take_of_length_le hn, List.take_replicate]
    congr 2
    omega
  rw [e, List.filter_append, List.filter_eq_self.2 (fun a ha => by
    simp only [ne_eq, decide_eq_true_eq]
    rintro rfl
    exact h0 ha), List.filter_eq_nil_iff.2 (fun a ha => by
    simp [List.eq_of_mem_replicate ha]), List.append_nil]

/-- With one to fifteen bytes after the last extension the client cannot read the asset. -/
theorem C54_stub_throws (h : Stores program L k A) (hf : JsFriendly A) (hs : ¬ NoStub L k A) :
    jsAsset dec (L k).data = .error .panic := jsAsset_stub h hf.1 hs hf.2

/-- An extension of a type that this version of the client does not know (of a later version of the
program) is passed over: the extensions before and after it are shown as if it were not there. -/
theorem C54_unknown {d : Bytes} {m e : Nat} {es fs : List Extn} (h1 : Walk d 168 es m)
    (hin : m + 16 ≤ (hdrAt d m).bnd) (hu : ExtType.ofU32 (hdrAt d m).ty = none)
    (h2 : Walk d (hdrAt d m).bnd fs e)
    (he : e = d.length ∨ e + 16 ≤ d.length ∧ leNat (slice d e 4) = 0)
    (hm : ∀ x ∈ es ++ fs, Modern x.1 x.2) :
    ∃ vs, jsExts dec d (d.length + 1) 168 = .ok vs ∧
      (es ++ fs).map (fun x => shown (jsText dec) x.1 x.2) = vs.map .ok := by
  obtain ⟨ws, w1, w2, _⟩ := jsExts_walk (dec := dec) h2 he (fun x hx => hm x (by simp [hx]))
    (fuel := fs.length + 1) (by omega)
  have l1 := h1.length_le
  have l2 := h2.length_le
  have hlen := h2.le
  have := jsExts_skip (dec := dec) (fuel := fs.length + 1) (by omega) hu
  rw [w1] at this
  obtain ⟨vs, v1, v2⟩ := jsExts_prefix h1 (fun x hx => hm x (by simp [hx])) (by omega) this
  refine ⟨vs ++ ws, ?_, by rw [List.map_append, List.map_append, v2, w2]⟩
  have := jsExts_fuel v1 (d.length + 1 - (es.length + (fs.length + 1 + 1)))
  rwa [show es.length + (fs.length + 1 + 1) + (d.length + 1 - (es.length + (fs.length + 1 + 1))) =
    d.length + 1 by omega] at this

/-- The client shows an account only when it has the size of a header at least and is initialised: it
throws on every buffer. -/
theorem C54_only {d : Bytes} {J : JsAsset} (h : jsAsset dec d = .ok J) :
    assetLen ≤ d.length ∧ hDisc d = discAsset := by
  have num : ∀ {n : Nat} {b r : Bytes} {v : Nat}, jsNum n b = .ok (v, r) →
      v = leNat (b.take n) ∧ b.length = n + r.length := by
    intro n b r v h
    unfold jsNum at h
    split at h
    · cases h
    · cases h; simp; omega
  have key : ∀ {b r : Bytes} {v : Key}, jsKey b = .ok (v, r) → b.length = 32 + r.length := by
    intro b r v h
    unfold jsKey at h
    split at h
    · cases h
    · cases h; simp; omega
  have enum : ∀ {l : Nat} {b r : Bytes} {v : Nat}, jsEnum 1 l b = .ok (v, r) →
      v = leNat (b.take 1) ∧ b.length = 1 + r.length := by
    intro l b r v h
    unfold jsEnum at h
    inv at h
    obtain ⟨⟨n, r'⟩, h1, h⟩ := h
    simp only at h
    split at h
    · cases h
    · cases h; exact num h1
  have bool : ∀ {b r : Bytes} {v : Bool}, jsBool b = .ok (v, r) → b.length = 1 + r.length := by
    intro b r v h
    unfold jsBool at h
    inv at h
    obtain ⟨⟨n, r'⟩, h1, h⟩ := h
    cases h; exact (num h1).2
  unfold jsAsset at h
  inv at h
  obtain ⟨⟨_, _⟩, h1, ⟨_, _⟩, h2, ⟨_, _⟩, h3, ⟨_, _⟩, h4, ⟨_, _⟩, h5, ⟨_, _⟩, h6, ⟨_, _⟩, h7, ⟨_, _⟩, h8,
    ⟨_, _⟩, h9, h⟩ := h
  have h1 := enum h1
  have h2 := enum h2
  have h3 := enum h3
  have h4 := bool h4
  have h5 := key h5
  have h6 := key h6
  have h7 := key h7
  have h8 := key h8
  have h9 := num h9
  simp only at h h1 h2 h3 h4 h5 h6 h7 h8 h9
  split at h
  · simp [bind, Except.bind] at h
  split at h
  · simp [bind, Except.bind] at h
  rename_i hr hd
  have e : assetLen = 168 := rfl
  refine ⟨by omega, ?_⟩
  cases d with
  | nil => simp only [List.length_nil] at h1; omega
  | cons b d =>
    simp [leNat] at h1
    exact UInt8.toNat.inj (show b.toNat = 1 by omega)

end

section Examples
open Verif.Ex

/-- The attributes and the manager of an asset with an extension of type 77 between them. -/
example : (jsExts _root_.id (zeros 168 ++ block 168 .attributes [1, 97, 1, 98] ++
      (toLE 4 77 ++ toLE 4 3 ++ toLE 4 216 ++ toLE 4 0 ++ [1, 2, 3, 0, 0, 0, 0, 0]) ++
      block 216 .manager ((k 8).1 ++ [3])) 300 168).map (·.map JsExt.type) =
    .ok [.attributes, .manager] := by decide +kernel

/-- A request for an asset with one extension, and its creation. -/
def oneExt (t : ExtType) (p : Bytes) : Except Err Ledger :=
  run empties [k 1, k 5] createAccts
    (.create ⟨[65, 66], .nonFungible, true, some [⟨t, UInt32.ofNat p.length, some p⟩]⟩)

/-- Name and first extension according to the client. -/
def jsFirst (L : Ledger) : Except Err (Bytes × Option JsExt) :=
  (jsAsset id (L (k 1)).data).map fun J => (J.name, J.extensions.head?)

/-- What a reader of the program reads in an extension. -/
def readBy {α : Type} (reader : Bytes → Except Err α) (t : ExtType) (L : Ledger) : Except Err α :=
  (assetGet t (L (k 1)).data).bind fun p => reader (p.getD [])

/-- The strings of metadata. -/
def JsExt.strings : Option JsExt → List Bytes
  | some (.metadata m) => [m.symbol, m.description, m.uri, m.imageUri]
  | _ => []

/-- The values of properties. -/
def JsExt.values : Option JsExt → List (Bytes × JsValue)
  | some (.properties l) => l
  | _ => []

/-- An asset with six extensions. -/
def showcase : Asset :=
  ⟨0, 0, 1, k 2, Key.default, k 3, k 4, 5, storedName [65, 66],
    [(.metadata, [1, 83, 0, 2, 104, 105, 1, 112]), (.grouping, toLE 8 0 ++ toLE 8 7 ++ (k 6).1),
      (.creators, (k 3).1 ++ [1, 60] ++ (k 4).1 ++ [0, 40]), (.properties, [1, 110, 1, 5, 0, 0, 0, 0, 0, 0, 0, 1, 98, 2, 1]),
      (.royalties, toLE 8 250 ++ buildC (.not (.ownedBy 2 [k 7]))), (.manager, (k 8).1 ++ [3])]⟩

/-- The account that stores it. -/
def showcaseL : Ledger :=
  ledger [(k 1, owned (header 0 0 1 (k 2) Key.default (k 3) (k 4) 5 [65, 66] ++ blocks 168 showcase.exts))]

/-- The hypotheses can be met, and what the client shows. -/
example : Stores prog showcaseL (k 1) showcase ∧ NoStub showcaseL (k 1) showcase ∧ HeaderInRange showcase :=
  ⟨checkStores_sound (by decide +kernel), Or.inl (by unfold Tight; decide +kernel),
    by unfold HeaderInRange; decide⟩
/-- The client throws on the same bytes before they are initialised. -/
example : (jsAsset id (showcaseL (k 1)).data).isOk = true ∧
    (jsAsset id (setByte (showcaseL (k 1)).data 0 0)).isOk = false := by decide +kernel
example : (jsAsset id (showcaseL (k 1)).data).map (fun J =>
    decide (J.name = [65, 66] ∧ J.isMutable = true ∧ J.group = none ∧
      J.delegate = some (k 4, [.transfer, .burn]))) = .ok true := by decide +kernel
example : (jsAsset id (showcaseL (k 1)).data).map (fun J => J.extensions.map JsExt.type) =
    .ok [.metadata, .grouping, .creators, .properties, .royalties, .manager] := by decide +kernel
example : (jsAsset id (showcaseL (k 1)).data).map (fun J =>
    (JsExt.strings (J.get .metadata), JsExt.values (J.get .properties))) =
    .ok ([[83], [], [104, 105], [112]], [([110], .number 5), ([98], .boolean true)]) := by
  decide +kernel
example : (match jsAsset id (showcaseL (k 1)).data with
    | .ok J => (match J.get .royalties, J.get .creators, J.get .grouping with
      | some (.royalties bp (.not (.ownedBy a ks))), some (.creators cs), some (.grouping s m d) =>
        decide (bp = 250 ∧ a = 2 ∧ ks = [k 7] ∧ cs = [⟨k 3, true, 60⟩, ⟨k 4, false, 40⟩] ∧
          s = 0 ∧ m = 7 ∧ d = some (k 6))
      | _, _, _ => false)
    | .error _ => false) = true := by decide +kernel

/-- The property is false for data that is not of today's form, although the program stores and reads
it:
* Metadata of three strings (without the image, as it was before), when its data ends at a multiple
  of 8: the client throws.
* Grouping without delegate (16 bytes): the client throws.
* A boolean property with the byte 2, which the program takes for true: the client shows false.
* Metadata of three strings that replaces longer metadata: the client shows the old image, whose bytes
  are still there after the end of the data; for the program there is no image.
* One byte after the last extension: the client throws. -/
theorem C54_false :
    (do let L ← oneExt .metadata [0, 0, 5, 104, 105, 106, 107, 108]
        return (← readBy readMetadata .metadata L, (jsFirst L).isOk)) =
      .ok (⟨[], [], [104, 105, 106, 107, 108], []⟩, false) ∧
    (do let L ← oneExt .grouping (zeros 16)
        return (← readBy readGrouping .grouping L, (jsFirst L).isOk)) =
      .ok (⟨0, 0, Key.default⟩, false) ∧
    (do let L ← oneExt .properties [1, 97, 2, 2]
        return (← readBy readPropList .properties L, JsExt.values (← jsFirst L).2)) =
      .ok ([([97], .boolean 2)], [([97], .boolean false)]) ∧ podTrue 2 = true ∧
    (do let L ← oneExt .metadata [0, 0, 0, 3, 112, 113, 114]
        let L ← run L [k 3, k 5] [k 1, k 3, prog, prog, k 5, Key.system]
          (.update ⟨none, none, some ⟨.metadata, 3, some [0, 0, 0]⟩⟩)
        return (← readBy readMetadata .metadata L, JsExt.strings (← jsFirst L).2)) =
      .ok (⟨[], [], [], []⟩, [[], [], [], [112, 113, 114]]) ∧
    (do let L ← oneExt .bucket [7]
        let L ← run L [k 3, k 5] [k 1, k 3, k 5, Key.system] (.resize (.extend 1))
        return (← readBy readBucket .bucket L, (jsFirst L).isOk)) = .ok ([7], false) := by
  refine ⟨?_, ?_, ?_, ?_, ?_, ?_⟩ <;> decide +kernel

/-- Metadata with the image and Grouping with a delegate are fine. -/
example : ((oneExt .metadata [0, 0, 5, 104, 105, 106, 107, 108, 0]).map fun L =>
      (jsFirst L).map fun x => (x.1, JsExt.strings x.2)) =
      .ok (.ok ([65, 66], [[], [], [104, 105, 106, 107, 108], []])) ∧
    ((oneExt .grouping (zeros 48)).map fun L => (jsFirst L).isOk) = .ok true := by
  decide +kernel

end Examples

end Verif.Props

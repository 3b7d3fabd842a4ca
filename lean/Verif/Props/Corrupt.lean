import Verif.Lemmas.Life
import Verif.Props.C41

/-!
# What goes wrong in histories that are not used as intended

Negations of C03, C04, C08, C09 and C28. All histories start from a ledger in which the program owns
nothing. `fixBoundaries` adds to the boundary of whatever it takes for the next extension header,
and an address of zero leads it to the header of the asset.
-/

namespace Verif.Props

open Verif Verif.Spec Verif.Ex

/-- A list of steps, one after the other. -/
def runAll : List (List Key × List Key × Instr) → Ledger → Except Err Ledger
  | [], L => .ok L
  | (s, a, i) :: rest, L => (run L s a i).bind (runAll rest)

theorem runAll_steps {xs : List (List Key × List Key × Instr)} {L0 L L' : Ledger}
    (hs : Steps prog L0 L) (h : runAll xs L = .ok L') : Steps prog L0 L' := by
  induction xs generalizing L with
  | nil => cases h; exact hs
  | cons x xs ih =>
    obtain ⟨s, a, i⟩ := x
    unfold runAll at h
    cases h1 : run L s a i with
    | error => rw [h1] at h; cases h
    | ok L1 =>
      rw [h1] at h
      exact ih (.tail _ _ _ hs (.instr (env L s) _ _ _ i rfl (fun _ => rfl) h1)) h

theorem runAll_life {xs : List (List Key × List Key × Instr)} {L0 L L' : Ledger} {x : Key}
    (hs : Life prog x L0 L) (h : runAll xs L = .ok L') (hb : ∀ y ∈ xs, y.2.2 ≠ .burn) :
    Life prog x L0 L' := by
  induction xs generalizing L with
  | nil => cases h; exact hs
  | cons y xs ih =>
    obtain ⟨s, a, i⟩ := y
    unfold runAll at h
    cases h1 : run L s a i with
    | error => rw [h1] at h; cases h
    | ok L1 =>
      rw [h1] at h
      exact ih (.instr (env L s) a i hs rfl h1 fun hx => hb (s, a, i) (by simp) hx.1) h
        fun y hy => hb y (by simp [hy])

/-- Two histories, one after the other: what they make of an account. -/
theorem runAll_two {xs ys : List (List Key × List Key × Instr)} {α : Type} {L0 : Ledger}
    {f : Ledger → Ledger → α} {r : α}
    (h : ((runAll xs L0).bind fun L1 => (runAll ys L1).map (f L1)) = .ok r) :
    ∃ L1 L2, runAll xs L0 = .ok L1 ∧ runAll ys L1 = .ok L2 ∧ f L1 L2 = r := by
  cases h1 : runAll xs L0 with
  | error => rw [h1] at h; cases h
  | ok L1 =>
    rw [h1] at h
    obtain ⟨L2, h2, h3⟩ := ok_of_map h
    exact ⟨L1, L2, rfl, h2, h3⟩

/-- Is this account an asset? -/
def isAssetB (L : Ledger) (x : Key) : Bool :=
  decide ((L x).owner = prog ∧ 168 ≤ (L x).data.length ∧ (assetAt L x).disc = 1)

theorem isAssetB_sound {L : Ledger} {x : Key} (h : isAssetB L x = true) : IsAsset prog L x := by
  simpa [isAssetB, IsAsset] using h

/-- An asset is created with two extensions and gets some room. -/
def plain (st : Standard) : List (List Key × List Key × Instr) :=
  [([k 1, k 5], createAccts, .create ⟨[65], st, true,
      some [⟨.attributes, 4, some [1, 97, 1, 98]⟩, ⟨.blob, 3, some [0, 7, 8]⟩]⟩),
    ([k 3, k 5], [k 1, k 3, k 5, Key.system], .resize (.extend 16))]

/-- Its first extension is removed, and the other one is updated. -/
def removeUpdate : List (List Key × List Key × Instr) :=
  [([k 3], [k 1, k 3, prog, k 5], .remove .attributes),
    ([k 3], [k 1, k 3, prog, prog, k 5, Key.system],
      .update ⟨none, none, some ⟨.blob, 3, some [0, 7, 9]⟩⟩)]

/-- The full claim C03 is false: Remove and Update by the authority change the owner of a
soulbound asset. -/
theorem C03_false : ∃ L0 L1 L2 x, Genesis prog L0 ∧ Steps prog L0 L1 ∧ IsAsset prog L1 x ∧
    (assetAt L1 x).standard = 2 ∧ Life prog x L1 L2 ∧ IsAsset prog L2 x ∧
    (assetAt L2 x).standard = 2 ∧ (assetAt L2 x).owner ≠ (assetAt L1 x).owner := by
  have h : ((runAll (plain .soulbound) empties).bind fun L1 => (runAll removeUpdate L1).map fun L2 =>
      (isAssetB L1 (k 1), (assetAt L1 (k 1)).standard, isAssetB L2 (k 1), (assetAt L2 (k 1)).standard,
        decide ((assetAt L2 (k 1)).owner ≠ (assetAt L1 (k 1)).owner))) =
      .ok (true, 2, true, 2, true) := by decide +kernel
  obtain ⟨L1, L2, h1, h2, h3⟩ := runAll_two (f := fun L1 L2 => (isAssetB L1 (k 1),
    (assetAt L1 (k 1)).standard, isAssetB L2 (k 1), (assetAt L2 (k 1)).standard,
    decide ((assetAt L2 (k 1)).owner ≠ (assetAt L1 (k 1)).owner))) h
  simp only [Prod.mk.injEq] at h3
  obtain ⟨a1, a2, a3, a4, a5⟩ := h3
  exact ⟨empties, L1, L2, k 1, empties_genesis, runAll_steps (.refl _) h1, isAssetB_sound a1, a2,
    runAll_life (.refl _) h2 (by decide), isAssetB_sound a3, a4, of_decide_eq_true a5⟩

/-- The full claim C04 is false: the same happens to a locked asset. -/
theorem C04_false : ∃ L0 L1 L2 x, Genesis prog L0 ∧ Steps prog L0 L1 ∧ IsAsset prog L1 x ∧
    (assetAt L1 x).state = 1 ∧ Life prog x L1 L2 ∧ IsAsset prog L2 x ∧
    (assetAt L2 x).state = 1 ∧ (assetAt L2 x).owner ≠ (assetAt L1 x).owner := by
  have h : ((runAll (plain .nonFungible ++ [([k 2], [k 1, k 2], .lock)]) empties).bind fun L1 =>
      (runAll removeUpdate L1).map fun L2 =>
      (isAssetB L1 (k 1), (assetAt L1 (k 1)).state, isAssetB L2 (k 1), (assetAt L2 (k 1)).state,
        decide ((assetAt L2 (k 1)).owner ≠ (assetAt L1 (k 1)).owner))) =
      .ok (true, 1, true, 1, true) := by decide +kernel
  obtain ⟨L1, L2, h1, h2, h3⟩ := runAll_two (f := fun L1 L2 => (isAssetB L1 (k 1),
    (assetAt L1 (k 1)).state, isAssetB L2 (k 1), (assetAt L2 (k 1)).state,
    decide ((assetAt L2 (k 1)).owner ≠ (assetAt L1 (k 1)).owner))) h
  simp only [Prod.mk.injEq] at h3
  obtain ⟨a1, a2, a3, a4, a5⟩ := h3
  exact ⟨empties, L1, L2, k 1, empties_genesis, runAll_steps (.refl _) h1, isAssetB_sound a1, a2,
    runAll_life (.refl _) h2 (by decide), isAssetB_sound a3, a4, of_decide_eq_true a5⟩

/-- More data than announced: the rest of a blob, and two extension headers. The boundary of the
first skips the second. -/
def overlong (t o : Nat) : Bytes :=
  [7, 8] ++ zeros 5 ++ (toLE 4 ExtType.links.toU32 ++ toLE 4 0 ++ toLE 4 224 ++ zeros 4) ++
    (toLE 4 t ++ zeros 4 ++ toLE 4 (o + 16) ++ zeros 4)

/-- An asset is created from a buffer with such data. -/
def crafted (t o : Nat) : List (List Key × List Key × Instr) :=
  [([k 1, k 5], [k 1, k 5, Key.system], .allocate ⟨.blob, 3, some [0]⟩),
    ([k 1, k 5], [k 1, k 5, Key.system], .write ⟨false, overlong t o⟩),
    ([k 1, k 5], createAccts, .create ⟨[65], .nonFungible, true, none⟩)]

/-- The forged extension is updated. -/
def updateForged : List (List Key × List Key × Instr) :=
  [([k 3], [k 1, k 3, prog, prog, prog, prog], .update ⟨none, none, some ⟨.links, 0, none⟩⟩)]

/-- The full claim C09 is false: an Update changes the authority, to a key that did not sign. -/
theorem C09_false : ∃ L0 L1 L2 x E accts u, Genesis prog L0 ∧ Steps prog L0 L1 ∧ IsAsset prog L1 x ∧
    E.program = prog ∧ execute E L1 accts (.update u) = .ok L2 ∧ IsAsset prog L2 x ∧
    (assetAt L2 x).authority ≠ (assetAt L1 x).authority ∧
    E.signer (assetAt L2 x).authority = false := by
  have h : ((runAll (crafted 0 60) empties).bind fun L1 =>
      (run L1 [k 3] [k 1, k 3, prog, prog, prog, prog]
        (.update ⟨none, none, some ⟨.links, 0, none⟩⟩)).map fun L2 =>
      (isAssetB L1 (k 1), isAssetB L2 (k 1),
        decide ((assetAt L2 (k 1)).authority ≠ (assetAt L1 (k 1)).authority),
        decide ((assetAt L2 (k 1)).authority ≠ k 3))) =
      .ok (true, true, true, true) := by decide +kernel
  cases h1 : runAll (crafted 0 60) empties with
  | error => rw [h1] at h; cases h
  | ok L1 =>
    rw [h1] at h
    obtain ⟨L2, h2, h3⟩ := ok_of_map h
    simp only [Prod.mk.injEq] at h3
    obtain ⟨a1, a2, a3, a4⟩ := h3
    refine ⟨empties, L1, L2, k 1, env L1 [k 3], _, _, empties_genesis, runAll_steps (.refl _) h1,
      isAssetB_sound a1, rfl, h2, isAssetB_sound a2, of_decide_eq_true a3, ?_⟩
    have := of_decide_eq_true a4
    show [k 3].contains _ = false
    simpa using this

/-- Then the chain of extensions leads into the header, where another one is added: the account
is cut to 120 bytes. -/
def cutOff : List (List Key × List Key × Instr) :=
  updateForged ++ [([k 3, k 5], [k 1, k 3, prog, prog, k 5, prog],
    .update ⟨none, none, some ⟨.metadata, 0, none⟩⟩)]

/-- The full claim C28 is false: an asset disappears without Burn. -/
theorem C28_false : ∃ L0 L1 L2 x, Genesis prog L0 ∧ Steps prog L0 L1 ∧ IsAsset prog L1 x ∧
    Life prog x L1 L2 ∧ ¬ IsAsset prog L2 x := by
  have h : ((runAll (crafted 1 100) empties).bind fun L1 => (runAll cutOff L1).map fun L2 =>
      (isAssetB L1 (k 1), (L2 (k 1)).data.length)) = .ok (true, 120) := by decide +kernel
  obtain ⟨L1, L2, h1, h2, h3⟩ := runAll_two (f := fun L1 L2 =>
    (isAssetB L1 (k 1), (L2 (k 1)).data.length)) h
  simp only [Prod.mk.injEq] at h3
  obtain ⟨a1, a2⟩ := h3
  refine ⟨empties, L1, L2, k 1, empties_genesis, runAll_steps (.refl _) h1, isAssetB_sound a1,
    runAll_life (.refl _) h2 (by decide), fun h => ?_⟩
  have := h.2.1
  omega

/-- A delegate that looks like the header of a Creators extension, and the creator found after it:
the rest of the delegate, its roles and the first bytes of the name. -/
def innerKey : Key :=
  Key.ofBytes (toLE 4 3 ++ toLE 4 34 ++ toLE 4 1016 ++ zeros 4 ++ List.replicate 16 9)
@[inherit_doc innerKey]
def innerCreator : Key := Key.ofBytes (List.replicate 16 9 ++ [1] ++ [65, 66] ++ zeros 13)

/-- An asset whose extensions lead to its delegate becomes immutable. -/
def nameSteps : List (List Key × List Key × Instr) :=
  [([k 1, k 5], [k 1, k 5, Key.system], .allocate ⟨.blob, 3, some [0]⟩),
    ([k 1, k 5], [k 1, k 5, Key.system], .write ⟨false, overlong 1 100⟩),
    ([k 1, k 5], createAccts, .create ⟨[65, 66], .nonFungible, true, none⟩),
    ([k 2], [k 1, k 2, innerKey], .approve (.some [.transfer])),
    ([k 3], [k 1, k 3, prog, prog, prog, prog],
      .update ⟨none, some false, some ⟨.links, 0, none⟩⟩)]

/-- The full claim C08 is false: the verified flag is a byte of the name. -/
theorem C08_false : ∃ L0 L1 L2 x, Genesis prog L0 ∧ Steps prog L0 L1 ∧ IsAsset prog L1 x ∧
    (assetAt L1 x).mutableByte = 0 ∧ Life prog x L1 L2 ∧ IsAsset prog L2 x ∧
    (assetAt L2 x).name ≠ (assetAt L1 x).name := by
  have h : ((runAll nameSteps empties).bind fun L1 =>
      (runAll [([innerCreator], [k 1, innerCreator], .verify)] L1).map fun L2 =>
      (isAssetB L1 (k 1), (assetAt L1 (k 1)).mutableByte, isAssetB L2 (k 1),
        decide ((assetAt L2 (k 1)).name ≠ (assetAt L1 (k 1)).name))) =
      .ok (true, 0, true, true) := by decide +kernel
  obtain ⟨L1, L2, h1, h2, h3⟩ := runAll_two (f := fun L1 L2 => (isAssetB L1 (k 1),
    (assetAt L1 (k 1)).mutableByte, isAssetB L2 (k 1),
    decide ((assetAt L2 (k 1)).name ≠ (assetAt L1 (k 1)).name))) h
  simp only [Prod.mk.injEq] at h3
  obtain ⟨a1, a2, a3, a4⟩ := h3
  exact ⟨empties, L1, L2, k 1, empties_genesis, runAll_steps (.refl _) h1, isAssetB_sound a1, a2,
    runAll_life (.refl _) h2 (by decide), isAssetB_sound a3, of_decide_eq_true a4⟩

/-- A group whose last extension starts inside the Grouping data becomes immutable. -/
def nestedSteps : List (List Key × List Key × Instr) :=
  [([k 1, k 5], [k 1, k 5, Key.system], .allocate ⟨.blob, 3, some [0]⟩),
    ([k 1, k 5], [k 1, k 5, Key.system], .write ⟨false, [7, 8] ++ zeros 5 ++
      (toLE 4 ExtType.links.toU32 ++ toLE 4 0 ++ toLE 4 240 ++ zeros 4) ++
      (toLE 4 ExtType.grouping.toU32 ++ toLE 4 16 ++ toLE 4 256 ++ zeros 4) ++
      (toLE 8 0 ++ toLE 8 1032)⟩),
    ([k 1, k 5], createAccts, .create ⟨[65], .nonFungible, true, none⟩),
    ([k 6, k 5], [k 6, k 3, k 2, prog, prog, k 5, Key.system],
      .create ⟨[66], .nonFungible, true, none⟩),
    ([k 3], [k 1, k 3, prog, prog, prog, prog],
      .update ⟨none, some false, some ⟨.links, 0, none⟩⟩)]

/-- Nor does the list of extensions of an immutable asset stay: a new member of the group adds an
extension to it. -/
theorem C08_extensions_false : ∃ L0 L1 L2 x es es', Genesis prog L0 ∧ Steps prog L0 L1 ∧
    IsAsset prog L1 x ∧ (assetAt L1 x).mutableByte = 0 ∧ Life prog x L1 L2 ∧
    getExtensions (L1 x).data = .ok es ∧ getExtensions (L2 x).data = .ok es' ∧ es ≠ es' := by
  have h : ((runAll nestedSteps empties).bind fun L1 =>
      (runAll [([k 3], [k 6, k 1, k 3], .group)] L1).map fun L2 =>
      (isAssetB L1 (k 1), (assetAt L1 (k 1)).mutableByte, getExtensions (L1 (k 1)).data,
        getExtensions (L2 (k 1)).data)) =
      .ok (true, 0, .ok [.blob, .links, .grouping], .ok [.blob, .links, .grouping, .attributes]) := by
    decide +kernel
  obtain ⟨L1, L2, h1, h2, h3⟩ := runAll_two (f := fun L1 L2 => (isAssetB L1 (k 1),
    (assetAt L1 (k 1)).mutableByte, getExtensions (L1 (k 1)).data, getExtensions (L2 (k 1)).data)) h
  simp only [Prod.mk.injEq] at h3
  obtain ⟨a1, a2, a3, a4⟩ := h3
  exact ⟨empties, L1, L2, k 1, _, _, empties_genesis, runAll_steps (.refl _) h1, isAssetB_sound a1, a2,
    runAll_life (.refl _) h2 (by decide), a3, a4, by decide⟩

end Verif.Props

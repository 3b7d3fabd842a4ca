import Verif.Model.Extensions
import Verif.Lemmas.Constraint
import Mathlib.Data.List.Induction

/-!
# Lemmas about extension payloads: reading what was written
-/

namespace Verif

theorem length_writeStr (s : Bytes) : (writeStr s).length = s.length + 1 := rfl

theorem readStr_writeStr (s rest : Bytes) (h : s.length ≤ 255) :
    readStr (writeStr s ++ rest) = .ok (s, s.length + 1) := by
  have hn : (UInt8.ofNat s.length).toNat = s.length := by
    rw [UInt8.toNat_ofNat']; omega
  unfold readStr writeStr
  simp [hn]

theorem drop_append_add (a b : Bytes) (n m : Nat) (h : n = a.length) :
    (a ++ b).drop (n + m) = b.drop m := by
  subst h; simp [List.drop_append]

/-- Bytes of a list of pairs of prefix strings. -/
def pairsBytes (l : List (Bytes × Bytes)) : Bytes := l.flatMap fun p => writeStr p.1 ++ writeStr p.2

theorem foldl_pairsBuilderAdd (l : List (Bytes × Bytes)) (buf : Bytes) :
    l.foldl (fun b p => pairsBuilderAdd b p.1 p.2) buf = buf ++ pairsBytes l := by
  induction l generalizing buf with
  | nil => simp [pairsBytes]
  | cons p l ih => rw [List.foldl_cons, ih]; simp [pairsBytes, pairsBuilderAdd]

theorem readPairs_pairsBytes (l : List (Bytes × Bytes)) (fuel : Nat)
    (hf : (pairsBytes l).length + 1 ≤ fuel)
    (h : ∀ p ∈ l, p.1.length ≤ 255 ∧ p.2.length ≤ 255) :
    readPairs fuel (pairsBytes l) = .ok l := by
  induction l generalizing fuel with
  | nil =>
    obtain ⟨n, rfl⟩ : ∃ n, fuel = n + 1 := ⟨fuel - 1, by omega⟩
    rfl
  | cons p l ih =>
    obtain ⟨n, rfl⟩ : ∃ n, fuel = n + 1 := ⟨fuel - 1, by omega⟩
    have hp := h p (by simp)
    have e : pairsBytes (p :: l) = writeStr p.1 ++ (writeStr p.2 ++ pairsBytes l) := by
      simp [pairsBytes]
    rw [e] at hf ⊢
    simp only [List.length_append, length_writeStr] at hf
    have hne : (writeStr p.1 ++ (writeStr p.2 ++ pairsBytes l)).isEmpty = false := by
      simp [writeStr]
    rw [readPairs, hne]
    simp only [Bool.false_eq_true, if_false]
    rw [readStr_writeStr _ _ hp.1]
    simp only [bind, Except.bind]
    have e2 : (writeStr p.1 ++ (writeStr p.2 ++ pairsBytes l)).drop (p.1.length + 1) =
        writeStr p.2 ++ pairsBytes l := List.drop_left' (length_writeStr _)
    rw [e2, readStr_writeStr _ _ hp.2]
    simp only
    rw [drop_append_add _ _ _ _ (length_writeStr _).symm, List.drop_left' (length_writeStr _),
      ih n (by omega) (fun q hq => h q (by simp [hq]))]
    rfl

theorem readStr_writeOptStr (s : Option Bytes) (rest : Bytes) (h : (s.getD []).length ≤ 255) :
    readStr (writeOptStr s ++ rest) = .ok (s.getD [], (writeOptStr s).length) := by
  cases s with
  | none => simp [writeOptStr, readStr]
  | some s => exact readStr_writeStr s rest h

/-- Bytes of a list of properties. -/
def propsBytes (l : List (Bytes × PropValue)) : Bytes :=
  l.flatMap fun p => writeStr p.1 ++ writePropValue p.2

theorem foldl_propsBuilderAdd (l : List (Bytes × PropValue)) (buf : Bytes) :
    l.foldl (fun b p => propsBuilderAdd b p.1 p.2) buf = buf ++ propsBytes l := by
  induction l generalizing buf with
  | nil => simp [propsBytes]
  | cons p l ih => rw [List.foldl_cons, ih]; simp [propsBytes, propsBuilderAdd]

/-- The value can be stored: a text fits the prefix, a number is a `u64`. -/
def PropValue.Fits : PropValue → Prop
  | .text s => s.length ≤ 255
  | .number n => n < 2 ^ 64
  | .boolean _ => True

theorem readPropValue_write (v : PropValue) (rest : Bytes) (h : v.Fits) :
    readPropValue (writePropValue v ++ rest) = .ok (v, (writePropValue v).length) := by
  cases v with
  | text s =>
    simp only [writePropValue, List.cons_append, readPropValue, if_true]
    rw [readStr_writeStr s rest h]
    rfl
  | number n =>
    simp only [writePropValue, List.cons_append, readPropValue]
    have hl := length_toLE 8 n
    rw [if_neg (by decide), if_pos trivial, if_neg (by rw [List.length_append]; omega),
      List.take_left' hl, leNat_toLE_of_lt (by unfold PropValue.Fits at h; omega)]
    simp [hl]
  | boolean b => simp [writePropValue, readPropValue]

theorem readProps_propsBytes (l : List (Bytes × PropValue)) (fuel : Nat)
    (hf : (propsBytes l).length + 1 ≤ fuel)
    (h : ∀ p ∈ l, p.1.length ≤ 255 ∧ p.2.Fits) :
    readProps fuel (propsBytes l) = .ok l := by
  induction l generalizing fuel with
  | nil =>
    obtain ⟨n, rfl⟩ : ∃ n, fuel = n + 1 := ⟨fuel - 1, by omega⟩
    rfl
  | cons p l ih =>
    obtain ⟨n, rfl⟩ : ∃ n, fuel = n + 1 := ⟨fuel - 1, by omega⟩
    have hp := h p (by simp)
    have e : propsBytes (p :: l) = writeStr p.1 ++ (writePropValue p.2 ++ propsBytes l) := by
      simp [propsBytes]
    rw [e] at hf ⊢
    simp only [List.length_append, length_writeStr] at hf
    have hne : (writeStr p.1 ++ (writePropValue p.2 ++ propsBytes l)).isEmpty = false := by
      simp [writeStr]
    rw [readProps, hne]
    simp only [Bool.false_eq_true, if_false]
    rw [readStr_writeStr _ _ hp.1]
    simp only [bind, Except.bind]
    have e2 : (writeStr p.1 ++ (writePropValue p.2 ++ propsBytes l)).drop (p.1.length + 1) =
        writePropValue p.2 ++ propsBytes l := List.drop_left' (length_writeStr _)
    rw [e2, readPropValue_write _ _ hp.2]
    simp only
    rw [drop_append_add _ _ _ _ (length_writeStr _).symm, List.drop_left' rfl,
      ih n (by omega) (fun q hq => h q (by simp [hq]))]
    rfl

/-! ## Creators -/

theorem length_creatorBytes (c : Creator) : (creatorBytes c).length = 34 := by
  simp [creatorBytes, c.address.2]

theorem length_creatorsBytes (cs : List Creator) : (creatorsBytes cs).length = 34 * cs.length := by
  induction cs with
  | nil => rfl
  | cons c cs ih =>
    simp only [creatorsBytes, List.flatMap_cons, List.length_append, length_creatorBytes,
      List.length_cons] at *
    omega

theorem byteAt_append_right (a b : Bytes) (i : Nat) (h : a.length ≤ i) :
    byteAt (a ++ b) i = byteAt b (i - a.length) := by
  unfold byteAt
  rw [List.getD_eq_getElem?_getD, List.getD_eq_getElem?_getD, List.getElem?_append_right h]

theorem byteAt_append_left (a b : Bytes) (i : Nat) (h : i < a.length) :
    byteAt (a ++ b) i = byteAt a i := by
  unfold byteAt
  rw [List.getD_eq_getElem?_getD, List.getD_eq_getElem?_getD, List.getElem?_append_left h]

theorem creatorsFrom_bytes (cs : List Creator) (rest : Bytes) (n : Nat) (h : n = cs.length) :
    creatorsFrom n (creatorsBytes cs ++ rest) = cs := by
  subst h
  induction cs with
  | nil => rfl
  | cons c cs ih =>
    have e : creatorsBytes (c :: cs) ++ rest = creatorBytes c ++ (creatorsBytes cs ++ rest) := by
      simp [creatorsBytes]
    rw [e, List.length_cons, creatorsFrom, List.drop_left' (length_creatorBytes c), ih]
    have hk := c.address.2
    have e1 : (creatorBytes c ++ (creatorsBytes cs ++ rest)).take 32 = c.address.1 := by
      unfold creatorBytes
      rw [List.append_assoc, List.take_left' hk]
    have e2 : byteAt (creatorBytes c ++ (creatorsBytes cs ++ rest)) 32 = c.verified := by
      rw [byteAt_append_left _ _ _ (by rw [length_creatorBytes]; omega)]
      unfold creatorBytes
      rw [byteAt_append_right _ _ _ (by omega), hk]; rfl
    have e3 : byteAt (creatorBytes c ++ (creatorsBytes cs ++ rest)) 33 = c.share := by
      rw [byteAt_append_left _ _ _ (by rw [length_creatorBytes]; omega)]
      unfold creatorBytes
      rw [byteAt_append_right _ _ _ (by omega), hk]; rfl
    rw [e1, e2, e3, ofBytes_key]

theorem readCreators_bytes (cs : List Creator) : readCreators (creatorsBytes cs) = .ok cs := by
  have hl := length_creatorsBytes cs
  unfold readCreators
  rw [if_neg (by omega)]
  have := creatorsFrom_bytes cs [] ((creatorsBytes cs).length / 34) (by omega)
  rw [List.append_nil] at this
  rw [this]

theorem length_creatorsFrom (n : Nat) (b : Bytes) : (creatorsFrom n b).length = n := by
  induction n generalizing b with
  | zero => rfl
  | succ n ih => simp [creatorsFrom, ih]

theorem creatorBytes_read (b : Bytes) (h : 34 ≤ b.length) :
    creatorBytes ⟨Key.ofBytes (b.take 32), byteAt b 32, byteAt b 33⟩ = b.take 34 := by
  unfold creatorBytes
  rw [ofBytes_val (by simp; omega)]
  have e : b.take 34 = b.take 32 ++ (b.drop 32).take 2 := by
    rw [show (34 : Nat) = 32 + 2 from rfl, List.take_add]
  rw [e]
  congr 1
  have h32 : 32 < b.length := by omega
  have h33 : 33 < b.length := by omega
  unfold byteAt
  rw [List.getD_eq_getElem?_getD, List.getD_eq_getElem?_getD, List.getElem?_eq_getElem h32,
    List.getElem?_eq_getElem h33, List.drop_eq_getElem_cons h32, List.drop_eq_getElem_cons h33]
  rfl

theorem creatorsBytes_from (n : Nat) (b : Bytes) (h : b.length = 34 * n) :
    creatorsBytes (creatorsFrom n b) = b := by
  induction n generalizing b with
  | zero =>
    have : b = [] := List.length_eq_zero_iff.mp (by omega)
    subst this; rfl
  | succ n ih =>
    have := ih (b.drop 34) (by simp; omega)
    simp only [creatorsFrom, creatorsBytes, List.flatMap_cons] at *
    rw [this, creatorBytes_read b (by omega), List.take_append_drop]

/-- The creators read are those whose bytes are stored. -/
theorem readCreators_eq {b : Bytes} {cs : List Creator} :
    readCreators b = .ok cs ↔ b = creatorsBytes cs := by
  constructor
  · intro h
    unfold readCreators at h
    rw [ite_error_ok] at h
    obtain ⟨h1, h2⟩ := h
    cases h2
    exact (creatorsBytes_from _ _ (by omega)).symm
  · rintro rfl; exact readCreators_bytes cs

theorem creatorsBytes_append (a b : List Creator) :
    creatorsBytes (a ++ b) = creatorsBytes a ++ creatorsBytes b := by simp [creatorsBytes]

/-- The state of the builder after adding the creators of a list. -/
theorem creatorsBuilder_foldl (cs : List (Key × Bool × UInt8)) (h : cs.length ≤ 256) :
    (cs.foldl (fun b c => b.add c.1 c.2.1 c.2.2) ({} : CreatorsBuilder)).data =
      creatorsBytes (cs.map fun c => ⟨c.1, podBool c.2.1, c.2.2⟩) ∧
    (cs.foldl (fun b c => b.add c.1 c.2.1 c.2.2) ({} : CreatorsBuilder)).count =
      UInt8.ofNat cs.length := by
  induction cs using List.reverseRecOn with
  | nil => exact ⟨rfl, rfl⟩
  | append_singleton cs c ih =>
    simp only [List.length_append, List.length_cons, List.length_nil] at h
    obtain ⟨ih1, ih2⟩ := ih (by omega)
    rw [List.foldl_append, List.foldl_cons, List.foldl_nil]
    generalize cs.foldl (fun b c => b.add c.1 c.2.1 c.2.2) ({} : CreatorsBuilder) = B0 at *
    simp only [CreatorsBuilder.add, ih1, ih2]
    have hn : (UInt8.ofNat cs.length).toNat = cs.length := by
      rw [UInt8.toNat_ofNat']; omega
    constructor
    · rw [List.map_append, creatorsBytes_append, hn]
      have hl : (creatorsBytes (cs.map fun c => (⟨c.1, podBool c.2.1, c.2.2⟩ : Creator))).length =
          cs.length * 34 := by
        rw [length_creatorsBytes, List.length_map]; omega
      generalize hB : creatorsBytes (cs.map fun c => (⟨c.1, podBool c.2.1, c.2.2⟩ : Creator)) = B at *
      unfold splice
      rw [length_creatorBytes, List.take_left' hl]
      have : (B ++ zeros 34).drop (cs.length * 34 + 34) = [] :=
        List.drop_eq_nil_of_le (by simp [zeros]; omega)
      rw [this, List.append_nil]
      simp [creatorsBytes]
    · simp

end Verif

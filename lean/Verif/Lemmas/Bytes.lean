import Verif.Model.Header

/-!
# Lemmas about slices, splices and little-endian integers
-/

namespace Verif

theorem getElem?_splice {d bs : Bytes} {o : Nat} (h : o ≤ d.length) (i : Nat) :
    (splice d o bs)[i]? =
      if i < o then d[i]? else if i < o + bs.length then bs[i - o]? else d[i]? := by
  unfold splice
  have hl : (d.take o).length = o := by simp [h]
  by_cases h1 : i < o
  · simp only [h1, if_true]
    rw [List.append_assoc, List.getElem?_append_left (by omega), List.getElem?_take]
    simp [h1]
  · simp only [h1, if_false]
    by_cases h2 : i < o + bs.length
    · simp only [h2, if_true]
      rw [List.getElem?_append_left (by simp; omega), List.getElem?_append_right (by omega), hl]
    · simp only [h2, if_false]
      rw [List.getElem?_append_right (by simp; omega), List.getElem?_drop]
      congr 1; simp; omega

theorem length_splice {d bs : Bytes} {o : Nat} (h : o + bs.length ≤ d.length) :
    (splice d o bs).length = d.length := by
  unfold splice; simp; omega

theorem getElem?_slice (d : Bytes) (o n i : Nat) :
    (slice d o n)[i]? = if i < n then d[o + i]? else none := by
  unfold slice
  rw [List.getElem?_take]; split <;> simp [List.getElem?_drop]

theorem length_slice {d : Bytes} {o n : Nat} (h : o + n ≤ d.length) : (slice d o n).length = n := by
  unfold slice; simp; omega

theorem length_slice_le (d : Bytes) (o n : Nat) : (slice d o n).length ≤ n := by
  unfold slice; simp; omega

theorem slice_splice_disjoint {d bs : Bytes} {o off n : Nat} (h : o + bs.length ≤ d.length)
    (hd : off + n ≤ o ∨ o + bs.length ≤ off) :
    slice (splice d o bs) off n = slice d off n := by
  apply List.ext_getElem?
  intro i
  rw [getElem?_slice, getElem?_slice]
  split
  · rw [getElem?_splice (by omega)]
    split
    · rfl
    · split
      · omega
      · rfl
  · rfl

theorem slice_splice_same {d bs : Bytes} {o n : Nat} (h : o + bs.length ≤ d.length)
    (hn : n = bs.length) :
    slice (splice d o bs) o n = bs := by
  subst hn
  apply List.ext_getElem?
  intro i
  rw [getElem?_slice]
  split
  · rw [getElem?_splice (by omega)]
    rw [if_neg (by omega), if_pos (by omega)]
    congr 1; omega
  · rw [List.getElem?_eq_none (by omega)]

/-- A slice lying inside the spliced region. -/
theorem slice_splice_inside {d bs : Bytes} {o off n : Nat} (h : o + bs.length ≤ d.length)
    (h1 : o ≤ off) (h2 : off + n ≤ o + bs.length) :
    slice (splice d o bs) off n = slice bs (off - o) n := by
  apply List.ext_getElem?
  intro i
  rw [getElem?_slice, getElem?_slice]
  split
  · rw [getElem?_splice (by omega), if_neg (by omega), if_pos (by omega)]
    congr 1; omega
  · rfl

theorem byteAt_splice_disjoint {d bs : Bytes} {o i : Nat} (h : o + bs.length ≤ d.length)
    (hd : i < o ∨ o + bs.length ≤ i) : byteAt (splice d o bs) i = byteAt d i := by
  unfold byteAt
  rw [List.getD_eq_getElem?_getD, List.getD_eq_getElem?_getD, getElem?_splice (by omega)]
  split
  · rfl
  · rw [if_neg (by omega)]

theorem byteAt_splice_inside {d bs : Bytes} {o i : Nat} (h : o + bs.length ≤ d.length)
    (h1 : o ≤ i) (h2 : i < o + bs.length) : byteAt (splice d o bs) i = byteAt bs (i - o) := by
  unfold byteAt
  rw [List.getD_eq_getElem?_getD, List.getD_eq_getElem?_getD, getElem?_splice (by omega),
    if_neg (by omega), if_pos (by omega)]

theorem splice_slice_self {d : Bytes} {o n : Nat} (h : o + n ≤ d.length) :
    splice d o (slice d o n) = d := by
  apply List.ext_getElem?
  intro i
  rw [getElem?_splice (by omega), length_slice h]
  split
  · rfl
  · split
    · rw [getElem?_slice, if_pos (by omega)]; congr 1; omega
    · rfl

theorem splice_nil (d : Bytes) (o : Nat) : splice d o [] = d := by simp [splice]

/-! ## Little-endian integers -/

theorem length_toLE (n v : Nat) : (toLE n v).length = n := by
  induction n generalizing v with
  | zero => rfl
  | succ n ih => simp [toLE, ih]

theorem leNat_toLE (n v : Nat) : leNat (toLE n v) = v % 256 ^ n := by
  induction n generalizing v with
  | zero => simp [toLE, leNat, Nat.mod_one]
  | succ n ih =>
    simp only [toLE, leNat, ih]
    rw [Nat.pow_succ', Nat.mod_mul]
    simp

theorem leNat_toLE_of_lt {n v : Nat} (h : v < 256 ^ n) : leNat (toLE n v) = v := by
  rw [leNat_toLE, Nat.mod_eq_of_lt h]

theorem leNat_append (a b : Bytes) : leNat (a ++ b) = leNat a + 256 ^ a.length * leNat b := by
  induction a with
  | nil => simp [leNat]
  | cons x xs ih =>
    rw [List.cons_append, leNat, leNat, ih, List.length_cons, Nat.pow_succ, Nat.mul_add,
      Nat.mul_comm (256 ^ xs.length) 256, Nat.mul_assoc, Nat.add_assoc]

theorem leNat_lt (b : Bytes) : leNat b < 256 ^ b.length := by
  induction b with
  | nil => simp [leNat]
  | cons x xs ih =>
    simp only [leNat, List.length_cons, Nat.pow_succ]
    have := x.toNat_lt
    omega

theorem toLE_leNat (b : Bytes) : toLE b.length (leNat b) = b := by
  induction b with
  | nil => rfl
  | cons x xs ih =>
    simp only [leNat, List.length_cons, toLE]
    have := x.toNat_lt
    congr 1
    · apply UInt8.toNat_inj.mp; simp
    · have h2 : (x.toNat + 256 * leNat xs) / 256 = leNat xs := by omega
      rw [h2, ih]

theorem leNat_inj {a b : Bytes} (hl : a.length = b.length) (h : leNat a = leNat b) : a = b := by
  rw [← toLE_leNat a, ← toLE_leNat b, hl, h]

/-! ## Keys -/

theorem Key.ext {a b : Key} (h : a.1 = b.1) : a = b := Subtype.ext h

theorem Key.length (k : Key) : k.1.length = 32 := k.2

theorem ofBytes_val {b : Bytes} (h : b.length = 32) : (Key.ofBytes b).1 = b := by
  unfold Key.ofBytes
  simp [h]

theorem ofBytes_key (k : Key) : Key.ofBytes k.1 = k := Key.ext (ofBytes_val k.2)

theorem keyAt_splice_same {d : Bytes} {o : Nat} {k : Key} (h : o + 32 ≤ d.length) :
    keyAt (splice d o k.1) o = k := by
  unfold keyAt
  rw [slice_splice_same (by rw [k.2]; exact h) k.2.symm, ofBytes_key]

theorem keyAt_splice_disjoint {d bs : Bytes} {o off : Nat} (h : o + bs.length ≤ d.length)
    (hd : off + 32 ≤ o ∨ o + bs.length ≤ off) : keyAt (splice d o bs) off = keyAt d off := by
  unfold keyAt; rw [slice_splice_disjoint h hd]

end Verif

import Verif.Model.Memory
import Verif.Lemmas.Bytes
import Verif.Lemmas.Except

/-!
# Lemmas on the memory of an instruction
-/

namespace Verif

variable {M : Loader} {E : Env} {R : Ram} {L : Ledger}

theorem length_slotHead (k : Key) : (slotHead M E L k).length = 88 := by
  simp [slotHead, zeros, length_toLE, Key.length]

theorem slots_append (seen xs ys : List Key) :
    slots M E R seen (xs ++ ys) = slots M E R seen xs ++ slots M E R (seen ++ xs) ys := by
  induction xs generalizing seen with
  | nil => simp [slots]
  | cons x xs ih => simp [slots, ih, List.append_assoc]

/-- Where an account first occurs. -/
theorem first_split {x : Key} : ∀ {ks : List Key}, x ∈ ks →
    ∃ post, ks = ks.takeWhile (fun y => decide (y ≠ x)) ++ x :: post
  | k :: ks, h => by
    by_cases hk : k = x
    · subst hk; exact ⟨ks, by simp⟩
    · obtain ⟨post, hp⟩ := first_split ((List.mem_cons.mp h).resolve_left (Ne.symm hk))
      refine ⟨post, ?_⟩
      rw [List.takeWhile_cons_of_pos (by simpa using hk), List.cons_append, ← hp]

theorem of_mem_takeWhile {p : Key → Bool} {a : Key} : ∀ {ks : List Key}, a ∈ ks.takeWhile p → p a = true
  | k :: ks, h => by
    cases hk : p k with
    | false => rw [List.takeWhile_cons_of_neg (by simp [hk])] at h; cases h
    | true =>
      rw [List.takeWhile_cons_of_pos hk] at h
      rcases List.mem_cons.mp h with rfl | h
      · exact hk
      · exact of_mem_takeWhile h

theorem not_mem_first {x : Key} (ks : List Key) : x ∉ ks.takeWhile (fun y => decide (y ≠ x)) := by
  intro h
  have := of_mem_takeWhile h
  simp at this

theorem image_split {accts : List Key} {x : Key} (h : x ∈ accts) :
    ∃ pre post, image M E R accts = pre ++ slot M E R x ++ post ∧
      pre.length = place M E R accts x := by
  obtain ⟨post, hp⟩ := first_split h
  refine ⟨toLE 8 accts.length ++ slots M E R [] (accts.takeWhile (fun y => decide (y ≠ x))),
    slots M E R (accts.takeWhile (fun y => decide (y ≠ x)) ++ [x]) post ++ M.trailer, ?_, ?_⟩
  · unfold image
    conv => lhs; rw [show slots M E R [] accts = slots M E R [] (accts.takeWhile (fun y => decide (y ≠ x)) ++ x :: post) from congrArg _ hp]
    rw [slots_append, slots, if_neg (by simpa using not_mem_first accts)]
    simp [List.append_assoc]
  · simp [place, length_toLE]

/-- The bytes of an account in memory. -/
theorem image_slot {accts : List Key} {x : Key} (h : x ∈ accts) {i : Nat}
    (hi : i < (slot M E R x).length) :
    (image M E R accts)[place M E R accts x + i]? = (slot M E R x)[i]? := by
  obtain ⟨pre, post, he, hl⟩ := image_split (M := M) (E := E) (R := R) h
  rw [he, List.append_assoc, List.getElem?_append_right (by omega), List.getElem?_append_left (by omega)]
  congr 1; omega

theorem slot_fits {accts : List Key} {x : Key} (h : x ∈ accts) :
    place M E R accts x + (slot M E R x).length ≤ (image M E R accts).length := by
  obtain ⟨pre, post, he, hl⟩ := image_split (M := M) (E := E) (R := R) h
  rw [he]; simp; omega

theorem place_after {accts : List Key} {x y : Key} (hx : x ∈ accts)
    (hy : y ∈ accts.takeWhile (fun z => decide (z ≠ x))) :
    place M E R accts y + (slot M E R y).length ≤ place M E R accts x := by
  obtain ⟨post, hp⟩ := first_split hx
  obtain ⟨mid, hm⟩ := first_split hy
  have key : accts.takeWhile (fun z => decide (z ≠ y)) =
      (accts.takeWhile (fun z => decide (z ≠ x))).takeWhile (fun z => decide (z ≠ y)) := by
    generalize hq : accts.takeWhile (fun z => decide (z ≠ x)) = q at *
    generalize hr : q.takeWhile (fun z => decide (z ≠ y)) = r at *
    rw [hp, hm, List.append_assoc, List.takeWhile_append_of_pos (by
      intro a ha; rw [← hr] at ha; exact of_mem_takeWhile ha)]
    simp
  unfold place
  rw [key]
  conv => rhs; rw [hm, slots_append, slots, if_neg (by simpa using not_mem_first _)]
  simp; omega

theorem before_or {x y : Key} (hne : x ≠ y) : ∀ {ks : List Key}, x ∈ ks → y ∈ ks →
    y ∈ ks.takeWhile (fun z => decide (z ≠ x)) ∨ x ∈ ks.takeWhile (fun z => decide (z ≠ y))
  | k :: ks, hx, hy => by
    by_cases h1 : k = x
    · right; subst h1; rw [List.takeWhile_cons_of_pos (by simpa using hne)]; simp
    · by_cases h2 : k = y
      · left; subst h2; rw [List.takeWhile_cons_of_pos (by simpa using hne.symm)]; simp
      · have := before_or hne ((List.mem_cons.mp hx).resolve_left (Ne.symm h1))
          ((List.mem_cons.mp hy).resolve_left (Ne.symm h2))
        rw [List.takeWhile_cons_of_pos (by simpa using h1), List.takeWhile_cons_of_pos (by simpa using h2)]
        exact this.imp (List.mem_cons_of_mem _) (List.mem_cons_of_mem _)

/-- Different accounts do not overlap. -/
theorem place_disjoint {accts : List Key} {x y : Key} (hne : x ≠ y) (hx : x ∈ accts) (hy : y ∈ accts) :
    place M E R accts y + (slot M E R y).length ≤ place M E R accts x ∨
      place M E R accts x + (slot M E R x).length ≤ place M E R accts y :=
  (before_or hne hx hy).imp (place_after hx) (place_after hy)

theorem slice_agree {a b : Bytes} {o n : Nat} (h : ∀ j, o ≤ j → j < o + n → a[j]? = b[j]?) :
    slice a o n = slice b o n := by
  apply List.ext_getElem?
  intro i
  rw [getElem?_slice, getElem?_slice]
  split
  · exact h _ (by omega) (by omega)
  · rfl

theorem slice_app {p b q : Bytes} {o n : Nat} (ho : o = p.length) (hn : n = b.length) :
    slice (p ++ b ++ q) o n = b := by
  subst ho hn; simp [slice]

theorem u64At_app {p q : Bytes} {o n : Nat} (ho : o = p.length) (hn : n < two64) :
    u64At (p ++ toLE 8 n ++ q) o = n := by
  have e64 : two64 = 256 ^ 8 := rfl
  rw [e64] at hn
  unfold u64At
  rw [slice_app ho (length_toLE _ _).symm, leNat_toLE_of_lt hn]

/-- What the head of an account says. -/
theorem head_reads {k : Key} {pre tail : Bytes} {o : Nat} (ho : o = pre.length)
    (h1 : (L k).lamports < two64) (h2 : (L k).data.length < two64) :
    u64At (pre ++ slotHead M E L k ++ tail) (o + 72) = (L k).lamports ∧
    u64At (pre ++ slotHead M E L k ++ tail) (o + 80) = (L k).data.length ∧
    keyAt (pre ++ slotHead M E L k ++ tail) (o + 40) = (L k).owner := by
  have ek := Key.length k
  have eo := Key.length (L k).owner
  have eh : slotHead M E L k = [0xff, flag (E.signer k), flag (E.writable k), flag (M.executable k)] ++
    zeros 4 ++ k.1 ++ (L k).owner.1 ++ toLE 8 (L k).lamports ++ toLE 8 (L k).data.length := rfl
  refine ⟨?_, ?_, ?_⟩
  · rw [show pre ++ slotHead M E L k ++ tail = (pre ++ [0xff, flag (E.signer k), flag (E.writable k),
      flag (M.executable k)] ++ zeros 4 ++ k.1 ++ (L k).owner.1) ++ toLE 8 (L k).lamports ++
      (toLE 8 (L k).data.length ++ tail) by rw [eh]; simp only [List.append_assoc],
      u64At_app (by simp [zeros, ek, eo, ho]) h1]
  · rw [show pre ++ slotHead M E L k ++ tail = (pre ++ [0xff, flag (E.signer k), flag (E.writable k),
      flag (M.executable k)] ++ zeros 4 ++ k.1 ++ (L k).owner.1 ++ toLE 8 (L k).lamports) ++
      toLE 8 (L k).data.length ++ tail by rw [eh]; simp only [List.append_assoc],
      u64At_app (by simp [zeros, ek, eo, ho, length_toLE]) h2]
  · unfold keyAt
    rw [show pre ++ slotHead M E L k ++ tail = (pre ++ [0xff, flag (E.signer k), flag (E.writable k),
      flag (M.executable k)] ++ zeros 4 ++ k.1) ++ (L k).owner.1 ++
      (toLE 8 (L k).lamports ++ toLE 8 (L k).data.length ++ tail) by
        rw [eh]; simp only [List.append_assoc],
      slice_app (by simp [zeros, ek, ho]) eo.symm, ofBytes_key]

theorem length_all (k : Key) : (R.all k).length = R.cap k := by simp [Ram.all, Ram.cap]

theorem length_slot (k : Key) : (slot M E R k).length = 96 + R.cap k := by
  simp [slot, length_slotHead, slotTail, length_toLE, Ram.cap]; omega

/-- Bytes of an account, in memory. -/
theorem image_all {accts : List Key} {x : Key} (h : x ∈ accts) {i : Nat} (hi : i < R.cap x) :
    (image M E R accts)[place M E R accts x + 88 + i]? = (R.all x)[i]? := by
  have e : slot M E R x = slotHead M E R.led x ++ R.all x ++ toLE 8 (M.epoch x) := by
    simp [slot, slotTail, Ram.all, List.append_assoc]
  rw [Nat.add_assoc, image_slot h (by rw [length_slot]; omega), e, List.append_assoc,
    List.getElem?_append_right (by rw [length_slotHead]; omega), length_slotHead,
    List.getElem?_append_left (by rw [length_all]; omega)]
  congr 1; omega

/-- Bytes of the data of an account, in memory. -/
theorem image_data {accts : List Key} {x : Key} (h : x ∈ accts) {i : Nat}
    (hi : i < (R.led x).data.length) :
    (image M E R accts)[place M E R accts x + 88 + i]? = (R.led x).data[i]? := by
  rw [image_all h (by unfold Ram.cap; omega), Ram.all, List.getElem?_append_left hi]

/-- What is read from the head of an account that is as it was. -/
theorem head_kept {accts : List Key} {x : Key} {mem : Bytes} (hx : x ∈ accts)
    (hn : (R.led x).lamports < two64 ∧ (R.led x).data.length < two64)
    (hh : ∀ j, place M E R accts x + 40 ≤ j → j < place M E R accts x + 88 →
      mem[j]? = (image M E R accts)[j]?) :
    u64At mem (place M E R accts x + 72) = (R.led x).lamports ∧
    u64At mem (place M E R accts x + 80) = (R.led x).data.length ∧
    keyAt mem (place M E R accts x + 40) = (R.led x).owner := by
  obtain ⟨pre, post, he, hl⟩ := image_split (M := M) (E := E) (R := R) hx
  rw [slot, show pre ++ (slotHead M E R.led x ++ (R.led x).data ++ slotTail M R x) ++ post =
    pre ++ slotHead M E R.led x ++ ((R.led x).data ++ slotTail M R x ++ post) by
      simp only [List.append_assoc]] at he
  obtain ⟨a1, a2, a3⟩ := head_reads (M := M) (E := E)
    (tail := (R.led x).data ++ slotTail M R x ++ post) hl.symm hn.1 hn.2
  rw [← he] at a1 a2 a3
  refine ⟨?_, ?_, ?_⟩
  · rw [← a1]; unfold u64At; rw [slice_agree fun j h1 h2 => hh j (by omega) (by omega)]
  · rw [← a2]; unfold u64At; rw [slice_agree fun j h1 h2 => hh j (by omega) (by omega)]
  · rw [← a3]; unfold keyAt; rw [slice_agree fun j h1 h2 => hh j (by omega) (by omega)]

/-- An account whose head is as it was, with other data. -/
theorem readAccount_data {accts : List Key} {x : Key} {d' mem : Bytes} (hx : x ∈ accts)
    (hn : (R.led x).lamports < two64 ∧ (R.led x).data.length < two64)
    (hd : d'.length = (R.led x).data.length)
    (hh : ∀ j, place M E R accts x + 40 ≤ j → j < place M E R accts x + 88 →
      mem[j]? = (image M E R accts)[j]?)
    (hin : ∀ i < d'.length, mem[place M E R accts x + 88 + i]? = d'[i]?) :
    readAccount mem (place M E R accts x) = { R.led x with data := d' } := by
  obtain ⟨b1, b2, b3⟩ := head_kept hx hn hh
  have b4 : slice mem (place M E R accts x + 88) (R.led x).data.length = d' := by
    apply List.ext_getElem?
    intro i
    rw [getElem?_slice]
    split
    · exact hin i (by omega)
    · rw [List.getElem?_eq_none (by omega)]
  unfold readAccount
  rw [b1, b2, b3, b4]

/-- An account whose head is as it was, with other bytes. -/
theorem readAccount_of {accts : List Key} {x : Key} {b mem : Bytes} (hx : x ∈ accts)
    (hn : (R.led x).lamports < two64 ∧ (R.led x).data.length < two64)
    (hb : b.length = R.cap x)
    (hh : ∀ j, place M E R accts x + 40 ≤ j → j < place M E R accts x + 88 →
      mem[j]? = (image M E R accts)[j]?)
    (hin : ∀ i < b.length, mem[place M E R accts x + 88 + i]? = b[i]?) :
    readAccount mem (place M E R accts x) =
        { R.led x with data := b.take (R.led x).data.length } ∧
      readBehind mem (place M E R accts x) (R.cap x) = b.drop (R.led x).data.length := by
  obtain ⟨b1, b2, b3⟩ := head_kept hx hn hh
  have hc : R.cap x = (R.led x).data.length + (R.behind x).length := rfl
  constructor
  · have b4 : slice mem (place M E R accts x + 88) (R.led x).data.length =
        b.take (R.led x).data.length := by
      apply List.ext_getElem?
      intro i
      rw [getElem?_slice, List.getElem?_take]
      split
      · exact hin i (by omega)
      · rfl
    unfold readAccount
    rw [b1, b2, b3, b4]
  · unfold readBehind
    rw [b2]
    apply List.ext_getElem?
    intro i
    rw [getElem?_slice, List.getElem?_drop]
    split
    · rw [Nat.add_assoc (place M E R accts x + 88), hin _ (by omega)]
    · rw [List.getElem?_eq_none (by omega)]

/-- An account that is as it was. -/
theorem readAccount_same {accts : List Key} {x : Key} {mem : Bytes} (hx : x ∈ accts)
    (hn : (R.led x).lamports < two64 ∧ (R.led x).data.length < two64)
    (h : ∀ j, place M E R accts x + 40 ≤ j → j < place M E R accts x + 88 + R.cap x →
      mem[j]? = (image M E R accts)[j]?) :
    readAccount mem (place M E R accts x) = R.led x ∧
      readBehind mem (place M E R accts x) (R.cap x) = R.behind x := by
  have := readAccount_of (M := M) (E := E) (b := R.all x) hx hn (length_all x)
    (fun j h1 h2 => h j h1 (by omega)) fun i hi => by
      rw [length_all] at hi
      rw [h _ (by omega) (by omega), image_all hx hi]
  simpa [Ram.all] using this

/-- The condition under which accounts are read back. -/
theorem readBack_ok {accts : List Key} {mem : Bytes} {R' : Ram}
    (h : readBack M E R accts mem = .ok R') :
    R' = ⟨fun x => if x ∈ accts then readAccount mem (place M E R accts x) else R.led x,
      fun x => if x ∈ accts then readBehind mem (place M E R accts x) (R.cap x) else R.behind x⟩ := by
  unfold readBack at h
  split at h
  · cases h; rfl
  · cases h

/-- A write into memory that changes only the bytes of one account. -/
theorem readBack_split {accts : List Key} {k : Key} {b mem : Bytes} (hk : k ∈ accts)
    (hn : ∀ x ∈ accts, (R.led x).lamports < two64 ∧ (R.led x).data.length < two64)
    (hb : b.length = R.cap k)
    (hin : ∀ i < b.length, mem[place M E R accts k + 88 + i]? = b[i]?)
    (hout : ∀ j, ¬ (place M E R accts k + 88 ≤ j ∧ j < place M E R accts k + 88 + b.length) →
      mem[j]? = (image M E R accts)[j]?) :
    readBack M E R accts mem = .ok (R.split k b (R.led k).data.length) := by
  have far : ∀ x ∈ accts, x ≠ k → ∀ j, place M E R accts x + 40 ≤ j →
      j < place M E R accts x + 88 + R.cap x → mem[j]? = (image M E R accts)[j]? := by
    intro x hx hxk j h1 h2
    have hdis := place_disjoint (M := M) (E := E) (R := R) hxk hx hk
    have hlx := length_slot (M := M) (E := E) (R := R) x
    have hlk := length_slot (M := M) (E := E) (R := R) k
    exact hout j (by omega)
  have hc : ∀ x ∈ accts, u64At mem (place M E R accts x + 80) ≤ R.cap x := by
    intro x hx
    have : u64At mem (place M E R accts x + 80) = (R.led x).data.length := by
      by_cases hxk : x = k
      · subst hxk
        exact (head_kept hx (hn x hx) fun j h1 h2 => hout j (by omega)).2.1
      · exact (head_kept hx (hn x hx) fun j h1 h2 => far x hx hxk j h1 (by omega)).2.1
    rw [this]; unfold Ram.cap; omega
  unfold readBack
  rw [if_pos hc]
  unfold Ram.split
  congr 2
  · funext x
    by_cases hx : x ∈ accts
    · rw [if_pos hx]
      by_cases hxk : x = k
      · subst hxk
        rw [(readAccount_of hx (hn x hx) hb (fun j h1 h2 => hout j (by omega)) hin).1]
        simp [Ledger.setData, Ledger.set]
      · rw [(readAccount_same hx (hn x hx) (far x hx hxk)).1]
        simp [Ledger.setData, Ledger.set, hxk]
    · rw [if_neg hx]
      have : x ≠ k := fun h => hx (h ▸ hk)
      simp [Ledger.setData, Ledger.set, this]
  · funext x
    by_cases hx : x ∈ accts
    · rw [if_pos hx]
      by_cases hxk : x = k
      · subst hxk
        rw [(readAccount_of hx (hn x hx) hb (fun j h1 h2 => hout j (by omega)) hin).2, if_pos rfl]
      · rw [(readAccount_same hx (hn x hx) (far x hx hxk)).2, if_neg hxk]
    · rw [if_neg hx, if_neg (fun h : x = k => hx (h ▸ hk))]

theorem split_self (k : Key) : R.split k (R.all k) (R.led k).data.length = R := by
  obtain ⟨L, B⟩ := R
  unfold Ram.split Ram.all
  congr 1
  · funext x
    by_cases h : x = k
    · subst h; simp [Ledger.setData, Ledger.set]
    · simp [Ledger.setData, Ledger.set, h]
  · funext x
    by_cases h : x = k
    · subst h; simp
    · simp [h]

/-- Reading back what was written. -/
theorem readBack_image {accts : List Key} {k : Key} (hk : k ∈ accts)
    (hn : ∀ x ∈ accts, (R.led x).lamports < two64 ∧ (R.led x).data.length < two64) :
    readBack M E R accts (image M E R accts) = .ok R := by
  rw [readBack_split (b := R.all k) hk hn (length_all k)
    (fun i hi => image_all hk (by rw [length_all] at hi; exact hi)) fun _ _ => rfl, split_self]

theorem splice_slice {b : Bytes} {o n : Nat} (h : o + n ≤ b.length) : splice b o (slice b o n) = b := by
  have hl : (slice b o n).length = n := length_slice h
  apply List.ext_getElem?
  intro i
  rw [getElem?_splice (by omega), hl]
  split
  · rfl
  · split
    · rw [getElem?_slice, if_pos (by omega)]; congr 1; omega
    · rfl

/-- A write that stays within the bytes of the account. -/
theorem writeRaw_split {accts : List Key} {k : Key} {dst : Nat} {bs : Bytes} (hk : k ∈ accts)
    (hn : ∀ x ∈ accts, (R.led x).lamports < two64 ∧ (R.led x).data.length < two64)
    (h : dst + bs.length ≤ R.cap k) :
    writeRaw M E R accts k dst bs =
      .ok (R.split k (splice (R.all k) dst bs) (R.led k).data.length) := by
  have hfit := slot_fits (M := M) (E := E) (R := R) hk
  have hlk := length_slot (M := M) (E := E) (R := R) k
  have hla := length_all (R := R) k
  have hls : (splice (R.all k) dst bs).length = R.cap k := by rw [length_splice (by omega), hla]
  unfold writeRaw
  dsimp only
  rw [if_neg (by omega), readBack_split hk hn hls]
  · intro i hi
    rw [getElem?_splice (by omega), getElem?_splice (by omega)]
    by_cases c1 : i < dst
    · rw [if_pos (by omega), if_pos c1, image_all hk (by omega)]
    · rw [if_neg (by omega), if_neg c1]
      by_cases c2 : i < dst + bs.length
      · rw [if_pos (by omega), if_pos c2]; congr 1; omega
      · rw [if_neg (by omega), if_neg c2, image_all hk (by omega)]
  · intro j hj
    rw [getElem?_splice (by omega)]
    by_cases c1 : j < place M E R accts k + 88 + dst
    · rw [if_pos c1]
    · rw [if_neg c1, if_neg (by omega)]

theorem set_self (k : Key) : R.led.setData k (R.led k).data = R.led := by
  funext x
  by_cases h : x = k
  · subst h; simp [Ledger.setData, Ledger.set]
  · simp [Ledger.setData, Ledger.set, h]

/-- A write inside the data of the account. -/
theorem writeRaw_data {accts : List Key} {k : Key} {dst : Nat} {bs : Bytes} (hk : k ∈ accts)
    (hn : ∀ x ∈ accts, (R.led x).lamports < two64 ∧ (R.led x).data.length < two64)
    (h : dst + bs.length ≤ (R.led k).data.length) :
    writeRaw M E R accts k dst bs =
      .ok (R.set (R.led.setData k (splice (R.led k).data dst bs))) := by
  rw [writeRaw_split hk hn (by unfold Ram.cap; omega)]
  have hl : (splice (R.led k).data dst bs).length = (R.led k).data.length := length_splice h
  have e : splice (R.all k) dst bs = splice (R.led k).data dst bs ++ R.behind k := by
    unfold splice Ram.all
    rw [List.take_append_of_le_length (by omega), List.drop_append_of_le_length (by omega)]
    simp only [List.append_assoc]
  unfold Ram.split Ram.set
  rw [e]
  congr 2
  · congr 1
    rw [← hl, List.take_left']
    rfl
  · funext x
    by_cases hx : x = k
    · subst hx; rw [if_pos rfl, List.drop_left' hl]
    · rw [if_neg hx]

/-- A move inside the data of the account has the effect it has in the rest of the model. -/
theorem memmoveRaw_inside {accts : List Key} {k : Key} {dst src n : Nat} {d' : Bytes} (hk : k ∈ accts)
    (hn : ∀ x ∈ accts, (R.led x).lamports < two64 ∧ (R.led x).data.length < two64)
    (h : memmove (R.led k).data dst src n = .ok d') :
    memmoveRaw M E R accts k dst src n = .ok (R.set (R.led.setData k d')) := by
  have hfit := slot_fits (M := M) (E := E) (R := R) hk
  have hlk := length_slot (M := M) (E := E) (R := R) k
  have hc : R.cap k = (R.led k).data.length + (R.behind k).length := rfl
  unfold memmove at h
  unfold memmoveRaw
  by_cases h0 : n = 0
  · rw [if_pos h0] at h
    cases h
    simp only [if_pos h0, set_self, Ram.set]
  · rw [if_neg h0] at h
    split at h
    · cases h
    · rename_i hle
      cases h
      dsimp only
      rw [if_neg h0, if_neg (by omega)]
      have hs : slice (image M E R accts) (place M E R accts k + 88 + src) n =
          slice (R.led k).data src n := by
        apply List.ext_getElem?
        intro i
        rw [getElem?_slice, getElem?_slice]
        split
        · rw [Nat.add_assoc, image_data hk (by omega)]
        · rfl
      have hl : (slice (R.led k).data src n).length = n := length_slice (by omega)
      rw [hs, writeRaw_data hk hn (by omega)]

end Verif

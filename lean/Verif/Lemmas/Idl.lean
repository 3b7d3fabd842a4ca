import Mathlib.Data.List.Forall2
import Verif.Lemmas.Bytes
import Verif.Lemmas.Except
import Verif.Spec.Idl

/-!
# Reading the interface description: lemmas
-/

namespace Verif

variable {J : Type}

private theorem cut_at (b : Bytes) {o n : Nat} (h : o + n ≤ b.length) :
    b = b.take o ++ slice b o n ++ b.drop (o + n) := by
  rw [slice, List.append_assoc, show b.drop (o + n) = (b.drop o).drop n by rw [List.drop_drop],
    List.take_append_drop, List.take_append_drop]

private theorem slice_mid (p m r : Bytes) : slice (p ++ m ++ r) p.length m.length = m := by
  simp [slice]

theorem sectionBytes_ok {b bs : Bytes} {off : Nat} (ho : off + 16 < 2 ^ 64) (hb : b.length < 2 ^ 64) :
    sectionBytes b off = .ok bs ↔ Spec.PointsTo b off bs := by
  have e4 : (off + 4) % 2 ^ 64 = off + 4 := Nat.mod_eq_of_lt (by omega)
  have e8 : (off + 8) % 2 ^ 64 = off + 8 := Nat.mod_eq_of_lt (by omega)
  have e16 : (off + 16) % 2 ^ 64 = off + 16 := Nat.mod_eq_of_lt ho
  constructor
  · intro h
    unfold sectionBytes sectionPointer at h
    simp only [e4, e8, e16] at h
    by_cases h1 : off + 8 < off + 4 ∨ b.length < off + 8
    · rw [if_pos h1] at h; cases h
    rw [if_neg h1] at h
    by_cases h2 : off + 16 < off + 8 ∨ b.length < off + 16
    · rw [if_pos h2] at h; cases h
    rw [if_neg h2] at h
    replace h2 : off + 16 ≤ b.length := by omega
    have hx : leNat (slice b (off + 4) 4) < 2 ^ 32 := by
      have := leNat_lt (slice b (off + 4) 4)
      rw [length_slice (by omega)] at this
      omega
    have hn : leNat (slice b (off + 8) 8) < 2 ^ 64 := by
      have := leNat_lt (slice b (off + 8) 8)
      rw [length_slice (by omega)] at this
      omega
    have ex := toLE_leNat (slice b (off + 4) 4)
    have en := toLE_leNat (slice b (off + 8) 8)
    rw [length_slice (by omega)] at ex en
    have key : b = b.take off ++ slice b off 4 ++ slice b (off + 4) 4 ++ slice b (off + 8) 8 ++
        b.drop (off + 16) := by
      have a1 := cut_at b (o := off + 8) (n := 8) (by omega)
      have a2 : b.take (off + 8) = b.take off ++ slice b off 4 ++ slice b (off + 4) 4 := by
        simp only [slice]
        rw [show b.take (off + 8) = b.take (off + 4 + 4) from rfl, List.take_add, List.take_add]
      rw [a2] at a1
      exact a1
    generalize leNat (slice b (off + 4) 4) = x at *
    generalize leNat (slice b (off + 8) 8) = n at *
    simp only [bind, Except.bind] at h
    split at h
    · cases h
    · rename_i hs
      have hs' : x + n < 2 ^ 64 := by
        apply Classical.byContradiction; intro hc
        have : (x + n) % 2 ^ 64 = x + n - 2 ^ 64 := by
          rw [Nat.mod_eq_sub_mod (by omega), Nat.mod_eq_of_lt (by omega)]
        omega
      rw [Nat.mod_eq_of_lt hs'] at h hs
      rw [Nat.add_sub_cancel_left] at h
      have hbs := Except.ok.inj h
      have hin : x + n ≤ b.length := by omega
      have hl : bs.length = n := by rw [← hbs]; exact length_slice hin
      refine ⟨b.take off, slice b off 4, b.take x, b.drop (off + 16), x, ?_, ?_, ?_, hx, ?_, ?_, ?_⟩
      · rw [ex, hl, en]; exact key
      · rw [List.length_take]; omega
      · exact length_slice (by omega)
      · omega
      · exact ⟨b.drop (x + n), by rw [← hbs]; exact cut_at b hin⟩
      · rw [List.length_take]; omega
  · rintro ⟨pre, junk, mid, rest, x, hb1, hp, hj, hx, hn, ⟨fin, hb2⟩, hm⟩
    have hlen1 : b.length = off + 16 + rest.length := by
      have := congrArg List.length hb1
      simp only [List.length_append, length_toLE] at this
      omega
    have hlen2 : b.length = x + bs.length + fin.length := by
      have := congrArg List.length hb2
      simp only [List.length_append] at this
      omega
    have s1 : slice b (off + 4) 4 = toLE 4 x := by
      have := slice_mid (pre ++ junk) (toLE 4 x) (toLE 8 bs.length ++ rest)
      rw [List.length_append, length_toLE, hp, hj] at this
      rw [hb1]; simpa only [List.append_assoc] using this
    have s2 : slice b (off + 8) 8 = toLE 8 bs.length := by
      have := slice_mid (pre ++ junk ++ toLE 4 x) (toLE 8 bs.length) rest
      rw [List.length_append, List.length_append, length_toLE, length_toLE, hp, hj] at this
      rw [← hb1] at this
      exact this
    have s3 : slice b x bs.length = bs := by
      have := slice_mid mid bs fin
      rw [hm, ← hb2] at this
      exact this
    unfold sectionBytes sectionPointer
    simp only [e4, e8, e16]
    rw [if_neg (by omega), if_neg (by omega), s1, s2, leNat_toLE_of_lt (by simpa using hx),
      leNat_toLE_of_lt (by simpa using hn)]
    simp only [bind, Except.bind]
    rw [Nat.mod_eq_of_lt (by omega : x + bs.length < 2 ^ 64), if_neg (by omega),
      Nat.add_sub_cancel_left, s3]

theorem sectionBytes_error {b : Bytes} {off : Nat} {e : IdlErr} (h : sectionBytes b off = .error e) :
    e = .panic := by
  unfold sectionBytes at h
  cases hp : sectionPointer b off with
  | error e' =>
    rw [hp] at h
    have h : Except.error e' = Except.error e := h
    cases h
    unfold sectionPointer at hp
    simp only at hp
    split at hp
    · cases hp; rfl
    · split at hp
      · cases hp; rfl
      · cases hp
  | ok q =>
    rw [hp] at h
    simp only [bind, Except.bind] at h
    split at h
    · cases h; rfl
    · cases h

private theorem lower_iff (x y : UInt8) (hy : 97 ≤ y.toNat ∧ y.toNat ≤ 122) :
    lowerByte x = y ↔ (x.toNat = y.toNat ∧ ¬ (65 ≤ x.toNat ∧ x.toNat ≤ 90) ∨
      65 ≤ x.toNat ∧ x.toNat ≤ 90 ∧ y.toNat = x.toNat + 32) := by
  have hx := x.toNat_lt
  unfold lowerByte
  split
  · rename_i h
    rw [← UInt8.toNat_inj, UInt8.toNat_add]
    have : (32 : UInt8).toNat = 32 := rfl
    rw [this, Nat.mod_eq_of_lt (by omega)]
    omega
  · rename_i h
    rw [← UInt8.toNat_inj]
    omega

theorem lower_text {s t : Bytes} (ht : ∀ y ∈ t, 97 ≤ y.toNat ∧ y.toNat ≤ 122) :
    s.map lowerByte = t ↔ Spec.SameLetters s t := by
  induction t generalizing s with
  | nil => simp [Spec.SameLetters]
  | cons y t ih =>
    cases s with
    | nil => simp [Spec.SameLetters]
    | cons x s =>
      have ih := ih (s := s) fun y h => ht y (by simp [h])
      rw [Spec.SameLetters, List.forall₂_cons, List.map_cons, List.cons.injEq,
        lower_iff x y (ht y (by simp)), ih, Spec.SameLetters]

theorem parse_iff {s : Bytes} {t : IdlType} :
    IdlType.parse s = some t ↔ Spec.SameLetters s (Spec.kindName t) := by
  have ea : IdlType.anchor.text = Spec.kindName .anchor := by decide +kernel
  have ec : IdlType.codama.text = Spec.kindName .codama := by decide +kernel
  have ha : s.map lowerByte = Spec.kindName .anchor ↔ Spec.SameLetters s (Spec.kindName .anchor) :=
    lower_text (by decide)
  have hc : s.map lowerByte = Spec.kindName .codama ↔ Spec.SameLetters s (Spec.kindName .codama) :=
    lower_text (by decide)
  unfold IdlType.parse
  rw [ea, ec]
  cases t
  · rw [← ha]
    split
    · simp_all
    · split <;> simp_all
  · rw [← hc]
    split
    · rename_i h
      simp only [h]
      decide
    · split <;> simp_all

theorem LastOf.unique {ss : List Section} {name : String} {P Q : Section → Prop}
    (h1 : Spec.LastOf ss name P) (h2 : Spec.LastOf ss name Q) : ∃ s ∈ ss, P s ∧ Q s := by
  obtain ⟨p1, s1, q1, e1, n1, hP, l1⟩ := h1
  obtain ⟨p2, s2, q2, e2, n2, hQ, l2⟩ := h2
  have key : s1 = s2 := by
    rw [e1] at e2
    rcases List.append_eq_append_iff.mp e2 with ⟨x, _, hx⟩ | ⟨x, _, hx⟩
    · cases x with
      | nil => exact (List.cons.inj hx).1
      | cons y x =>
        obtain ⟨_, hq⟩ := List.cons.inj hx
        exact absurd n2 (l1 s2 (by rw [hq]; simp))
    · cases x with
      | nil => exact (List.cons.inj hx).1.symm
      | cons y x =>
        obtain ⟨_, hq⟩ := List.cons.inj hx
        exact absurd n1 (l2 s1 (by rw [hq]; simp))
  subst key
  exact ⟨s1, by rw [e1]; simp, hP, hQ⟩

/-- What the loop leaves in a variable set by the sections of a name. -/
def Ends {α : Type} (ss : List Section) (name : String) (P : α → Section → Prop) (o o' : Option α) :
    Prop :=
  (∃ v, o' = some v ∧ Spec.LastOf ss name (P v)) ∨ (∀ x ∈ ss, x.name ≠ some name) ∧ o' = o

private theorem Ends.skip {α : Type} {ss : List Section} {name : String} {P : α → Section → Prop}
    {o o' : Option α} {s : Section} (hs : s.name ≠ some name) (h : Ends ss name P o o') :
    Ends (s :: ss) name P o o' := by
  rcases h with ⟨v, hv, pre, x, post, e, h1, h2, h3⟩ | ⟨h1, h2⟩
  · exact .inl ⟨v, hv, s :: pre, x, post, by rw [e]; rfl, h1, h2, h3⟩
  · refine .inr ⟨?_, h2⟩
    intro x hx
    rcases List.mem_cons.mp hx with rfl | hx
    · exact hs
    · exact h1 x hx

private theorem Ends.set {α : Type} {ss : List Section} {name : String} {P : α → Section → Prop}
    {o' : Option α} {v : α} {s : Section} (hs : s.name = some name) (hv : P v s)
    (h : Ends ss name P (some v) o') (o : Option α) : Ends (s :: ss) name P o o' := by
  rcases h with ⟨w, hw, pre, x, post, e, h1, h2, h3⟩ | ⟨h1, h2⟩
  · exact .inl ⟨w, hw, s :: pre, x, post, by rw [e]; rfl, h1, h2, h3⟩
  · exact .inl ⟨v, h2, [], s, ss, rfl, hs, hv, h1⟩

theorem unwrapIdl_ok {α : Type} {o : Option α} {a : α} : unwrapIdl o = .ok a ↔ o = some a := by
  cases o <;> simp [unwrapIdl]

theorem unwrapIdl_error {α : Type} {o : Option α} {e : IdlErr} (h : unwrapIdl o = .error e) :
    e = .panic ∧ o = none := by
  cases o
  · cases h; exact ⟨rfl, rfl⟩
  · cases h

private theorem ok_bind {α β : Type} {x : Except IdlErr α} {f : α → Except IdlErr β} {c : β}
    (h : x >>= f = .ok c) : ∃ a, x = .ok a ∧ f a = .ok c := by
  cases x with
  | error e' => cases h
  | ok a => exact ⟨a, rfl, h⟩

/-- One round. -/
theorem idlStep_ok {lib : IdlLibs J} {b : Bytes} {st st' : Option IdlType × Option J} {s : Section}
    (ho : s.offset + 16 < 2 ^ 64) (hb : b.length < 2 ^ 64) (h : idlStep lib b st s = .ok st') :
    (s.name = some ".idl.data" ∧ ∃ j, Spec.SaysIdl lib b s j ∧ st' = (st.1, some j)) ∨
    (s.name = some ".idl.type" ∧ ∃ t, Spec.SaysType b s t ∧ st' = (some t, st.2)) ∨
    (s.name ≠ some ".idl.data" ∧ s.name ≠ some ".idl.type" ∧ st' = st) := by
  unfold idlStep at h
  by_cases h1 : s.name = some ".idl.data"
  · rw [if_pos h1] at h
    obtain ⟨z, hz, h⟩ := ok_bind h
    obtain ⟨d, hd, h⟩ := ok_bind h
    obtain ⟨j, hj, h⟩ := ok_bind h
    exact .inl ⟨h1, j, ⟨z, d, (sectionBytes_ok ho hb).mp hz, unwrapIdl_ok.mp hd,
      unwrapIdl_ok.mp hj⟩, (Except.ok.inj h).symm⟩
  · rw [if_neg h1] at h
    by_cases h2 : s.name = some ".idl.type"
    · rw [if_pos h2] at h
      obtain ⟨z, hz, h⟩ := ok_bind h
      obtain ⟨t, ht, h⟩ := ok_bind h
      exact .inr (.inl ⟨h2, t, ⟨z, (sectionBytes_ok ho hb).mp hz,
        parse_iff.mp (unwrapIdl_ok.mp ht)⟩, (Except.ok.inj h).symm⟩)
    · rw [if_neg h2] at h
      exact .inr (.inr ⟨h1, h2, (Except.ok.inj h).symm⟩)

private theorem error_bind {α β : Type} {x : Except IdlErr α} {f : α → Except IdlErr β} {e : IdlErr}
    (h : x >>= f = .error e) : x = .error e ∨ ∃ a, x = .ok a ∧ f a = .error e := by
  cases x with
  | error e' => cases h; exact .inl rfl
  | ok a => exact .inr ⟨a, rfl, h⟩

theorem idlStep_error {lib : IdlLibs J} {b : Bytes} {st : Option IdlType × Option J} {s : Section}
    {e : IdlErr} (ho : s.offset + 16 < 2 ^ 64) (hb : b.length < 2 ^ 64)
    (h : idlStep lib b st s = .error e) :
    e = .panic ∧ ¬ Spec.Legible lib b [s] := by
  unfold idlStep at h
  by_cases h1 : s.name = some ".idl.data"
  · rw [if_pos h1] at h
    have need (hn : ¬ ∃ j, Spec.SaysIdl lib b s j) : ¬ Spec.Legible lib b [s] :=
      fun hl => hn (hl.2 s (by simp) h1)
    rcases error_bind h with hz | ⟨z, hz, h⟩
    · refine ⟨sectionBytes_error hz, need ?_⟩
      rintro ⟨j, bs, d, hp, _⟩
      rw [(sectionBytes_ok ho hb).mpr hp] at hz; cases hz
    rcases error_bind h with hd | ⟨d, hd, h⟩
    · refine ⟨(unwrapIdl_error hd).1, need ?_⟩
      rintro ⟨j, bs, d, hp, hi, _⟩
      have := hz.symm.trans ((sectionBytes_ok ho hb).mpr hp)
      cases this
      rw [(unwrapIdl_error hd).2] at hi; cases hi
    rcases error_bind h with hj | ⟨j, hj, h⟩
    · refine ⟨(unwrapIdl_error hj).1, need ?_⟩
      rintro ⟨j, bs, d', hp, hi, hk⟩
      have := hz.symm.trans ((sectionBytes_ok ho hb).mpr hp)
      cases this
      have := (unwrapIdl_ok.mp hd).symm.trans hi
      cases this
      rw [(unwrapIdl_error hj).2] at hk; cases hk
    · cases h
  · rw [if_neg h1] at h
    by_cases h2 : s.name = some ".idl.type"
    · rw [if_pos h2] at h
      have need (hn : ¬ ∃ t, Spec.SaysType b s t) : ¬ Spec.Legible lib b [s] :=
        fun hl => hn (hl.1 s (by simp) h2)
      rcases error_bind h with hz | ⟨z, hz, h⟩
      · refine ⟨sectionBytes_error hz, need ?_⟩
        rintro ⟨t, bs, hp, _⟩
        rw [(sectionBytes_ok ho hb).mpr hp] at hz; cases hz
      rcases error_bind h with ht | ⟨t, ht, h⟩
      · refine ⟨(unwrapIdl_error ht).1, need ?_⟩
        rintro ⟨t, bs, hp, hs⟩
        have := hz.symm.trans ((sectionBytes_ok ho hb).mpr hp)
        cases this
        rw [parse_iff.mpr hs] at ht; cases ht
      · cases h
    · rw [if_neg h2] at h; cases h

theorem idlLoop_ok {lib : IdlLibs J} {b : Bytes} {ss : List Section}
    {st st' : Option IdlType × Option J} (ho : Spec.SaneOffsets ss) (hb : b.length < 2 ^ 64)
    (h : idlLoop lib b ss st = .ok st') :
    Spec.Legible lib b ss ∧ Ends ss ".idl.type" (fun t s => Spec.SaysType b s t) st.1 st'.1 ∧
      Ends ss ".idl.data" (fun j s => Spec.SaysIdl lib b s j) st.2 st'.2 := by
  induction ss generalizing st with
  | nil =>
    cases h
    exact ⟨⟨fun s h => (by cases h), fun s h => (by cases h)⟩, .inr ⟨fun s h => (by cases h), rfl⟩,
      .inr ⟨fun s h => (by cases h), rfl⟩⟩
  | cons s ss ih =>
    obtain ⟨st1, h1, h2⟩ := ok_bind h
    obtain ⟨⟨l1, l2⟩, et, ed⟩ := ih (fun x hx => ho x (by simp [hx])) h2
    have nd : (".idl.data" : String) ≠ ".idl.type" := by decide
    have grow {name : String} {P : Section → Prop} (hl : Spec.EachOf ss name P)
        (hs : s.name = some name → P s) : Spec.EachOf (s :: ss) name P := by
      intro x hx hn
      rcases List.mem_cons.mp hx with rfl | hx
      · exact hs hn
      · exact hl x hx hn
    rcases idlStep_ok (ho s (by simp)) hb h1 with ⟨hn, j, hj, rfl⟩ | ⟨hn, t, ht, rfl⟩ | ⟨n1, n2, rfl⟩
    · have hn' : s.name ≠ some ".idl.type" := by rw [hn]; simp
      exact ⟨⟨grow l1 fun h => absurd h hn', grow l2 fun _ => ⟨j, hj⟩⟩, et.skip hn', ed.set hn hj _⟩
    · have hn' : s.name ≠ some ".idl.data" := by rw [hn]; simp
      exact ⟨⟨grow l1 fun _ => ⟨t, ht⟩, grow l2 fun h => absurd h hn'⟩, et.set hn ht _, ed.skip hn'⟩
    · exact ⟨⟨grow l1 fun h => absurd h n2, grow l2 fun h => absurd h n1⟩, et.skip n2, ed.skip n1⟩

theorem idlLoop_error {lib : IdlLibs J} {b : Bytes} {ss : List Section}
    {st : Option IdlType × Option J} {e : IdlErr} (ho : Spec.SaneOffsets ss)
    (hb : b.length < 2 ^ 64) (h : idlLoop lib b ss st = .error e) :
    e = .panic ∧ ¬ Spec.Legible lib b ss := by
  induction ss generalizing st with
  | nil => cases h
  | cons s ss ih =>
    rcases error_bind h with h1 | ⟨st1, _, h2⟩
    · obtain ⟨he, hl⟩ := idlStep_error (ho s (by simp)) hb h1
      refine ⟨he, fun hh => hl ⟨?_, ?_⟩⟩
      · intro x hx; rw [List.mem_singleton.mp hx]; exact hh.1 s (by simp)
      · intro x hx; rw [List.mem_singleton.mp hx]; exact hh.2 s (by simp)
    · obtain ⟨he, hl⟩ := ih (fun x hx => ho x (by simp [hx])) h2
      exact ⟨he, fun hh => hl ⟨fun x hx => hh.1 x (by simp [hx]), fun x hx => hh.2 x (by simp [hx])⟩⟩

theorem SaysType.unique {b : Bytes} {s : Section} {t u : IdlType} (ho : s.offset + 16 < 2 ^ 64)
    (hb : b.length < 2 ^ 64) (h1 : Spec.SaysType b s t) (h2 : Spec.SaysType b s u) : t = u := by
  obtain ⟨x, hx, hs⟩ := h1
  obtain ⟨y, hy, ht⟩ := h2
  have := ((sectionBytes_ok ho hb).mpr hx).symm.trans ((sectionBytes_ok ho hb).mpr hy)
  cases this
  have := (parse_iff.mpr hs).symm.trans (parse_iff.mpr ht)
  cases this; rfl

theorem SaysIdl.unique {lib : IdlLibs J} {b : Bytes} {s : Section} {j k : J}
    (ho : s.offset + 16 < 2 ^ 64) (hb : b.length < 2 ^ 64) (h1 : Spec.SaysIdl lib b s j)
    (h2 : Spec.SaysIdl lib b s k) : j = k := by
  obtain ⟨x, d, hx, hi, hj⟩ := h1
  obtain ⟨y, e, hy, hi', hk⟩ := h2
  have := ((sectionBytes_ok ho hb).mpr hx).symm.trans ((sectionBytes_ok ho hb).mpr hy)
  cases this
  have := hi.symm.trans hi'
  cases this
  have := hj.symm.trans hk
  cases this; rfl

end Verif

import Verif.Lemmas.Idl

/-!
# C81: the interface description read from a binary is the one that was put in
-/

namespace Verif.Props

open Verif

variable {J : Type}

/-- The section of the name leads to these bytes, and it is the only one of the name. -/
def Holds (b : Bytes) (ss : List Section) (name : String) (bs : Bytes) : Prop :=
  ∃ pre s post x, ss = pre ++ s :: post ∧ s.name = some name ∧
    (∀ y ∈ pre ++ post, y.name ≠ some name) ∧ s.offset + 16 ≤ b.length ∧ x + bs.length ≤ b.length ∧
    x < 2 ^ 32 ∧ slice b s.offset 16 = fatPointer x bs ∧ slice b x bs.length = bs

/-- The tool returns a description exactly if every section of the two names can be read, and then
it returns what the last of them say. -/
theorem C81_exact (lib : IdlLibs J) (b : Bytes) (t : IdlType) (j : J) (hb : b.length < 2 ^ 64)
    (ho : ∀ ss, lib.elf b = some ss → Spec.SaneOffsets ss) :
    parseIdl lib b = .ok (t, j) ↔ ∃ ss, lib.elf b = some ss ∧ Spec.Legible lib b ss ∧
      Spec.LastOf ss ".idl.type" (fun s => Spec.SaysType b s t) ∧
      Spec.LastOf ss ".idl.data" (fun s => Spec.SaysIdl lib b s j) := by
  unfold parseIdl
  cases he : lib.elf b with
  | none => simp
  | some ss =>
    replace ho := ho ss he
    cases hl : idlLoop lib b ss (none, none) with
    | error e =>
      simp only [hl, bind, Except.bind]
      constructor
      · intro h; cases h
      · rintro ⟨_, h, hh, _⟩
        cases h
        exact absurd hh (idlLoop_error ho hb hl).2
    | ok st =>
      simp only [hl, bind, Except.bind]
      obtain ⟨hh, et, ed⟩ := idlLoop_ok ho hb hl
      obtain ⟨ot, oj⟩ := st
      constructor
      · intro h
        refine ⟨ss, rfl, hh, ?_⟩
        cases ot with
        | none => cases h
        | some t' =>
          cases oj with
          | none => cases h
          | some j' =>
            cases h
            rcases et with ⟨_, h1, et⟩ | ⟨_, h1⟩
            · cases h1
              rcases ed with ⟨_, h1, ed⟩ | ⟨_, h1⟩
              · cases h1; exact ⟨et, ed⟩
              · cases h1
            · cases h1
      · rintro ⟨_, h, _, ht, hd⟩
        cases h
        have e1 : ot = some t := by
          rcases et with ⟨t', h1, h2⟩ | ⟨h1, _⟩
          · obtain ⟨s, hs, a, c⟩ := LastOf.unique h2 ht
            rw [← SaysType.unique (ho s hs) hb a c]; exact h1
          · obtain ⟨pre, s, post, rfl, hn, _⟩ := ht
            exact absurd hn (h1 s (by simp))
        have e2 : oj = some j := by
          rcases ed with ⟨t', h1, h2⟩ | ⟨h1, _⟩
          · obtain ⟨s, hs, a, c⟩ := LastOf.unique h2 hd
            rw [← SaysIdl.unique (ho s hs) hb a c]; exact h1
          · obtain ⟨pre, s, post, rfl, hn, _⟩ := hd
            exact absurd hn (h1 s (by simp))
        rw [e1, e2]; rfl

/-- The tool says that there is no description exactly if the file is no binary, or if nothing is
wrong with the sections except that one of the two names is missing. -/
theorem C81_missing (lib : IdlLibs J) (b : Bytes) (hb : b.length < 2 ^ 64)
    (ho : ∀ ss, lib.elf b = some ss → Spec.SaneOffsets ss) :
    printIdl lib b = .notFound ↔ lib.elf b = none ∨ ∃ ss, lib.elf b = some ss ∧
      Spec.Legible lib b ss ∧
      ((∀ s ∈ ss, s.name ≠ some ".idl.type") ∨ ∀ s ∈ ss, s.name ≠ some ".idl.data") := by
  unfold printIdl parseIdl
  cases he : lib.elf b with
  | none => simp
  | some ss =>
    replace ho := ho ss he
    cases hl : idlLoop lib b ss (none, none) with
    | error e =>
      simp only [hl, bind, Except.bind]
      obtain ⟨rfl, hn⟩ := idlLoop_error ho hb hl
      constructor
      · intro h; cases h
      · rintro (h | ⟨_, h, hh, _⟩)
        · cases h
        · cases h; exact absurd hh hn
    | ok st =>
      simp only [hl, bind, Except.bind]
      obtain ⟨hh, et, ed⟩ := idlLoop_ok ho hb hl
      obtain ⟨ot, oj⟩ := st
      have gone {α : Type} {name : String} {P : α → Section → Prop} {o : Option α}
          (h : Ends ss name P none o) : o = none ↔ ∀ s ∈ ss, s.name ≠ some name := by
        rcases h with ⟨v, rfl, pre, s, post, e, hn, _⟩ | ⟨h1, rfl⟩
        · constructor
          · intro h; cases h
          · intro h; exact absurd hn (h s (by rw [e]; simp))
        · exact ⟨fun _ => h1, fun _ => rfl⟩
      have gt := gone et
      have gd := gone ed
      constructor
      · intro h
        refine .inr ⟨ss, rfl, hh, ?_⟩
        cases ot with
        | none => exact .inl (gt.mp rfl)
        | some t =>
          cases oj with
          | none => exact .inr (gd.mp rfl)
          | some j => cases h
      · rintro (h | ⟨_, h, _, h1 | h1⟩)
        · cases h
        · cases h
          have e := gt.mpr h1
          simp only at e
          subst e; rfl
        · cases h
          have e := gd.mpr h1
          simp only at e
          subst e
          cases ot <;> rfl

/-- The tool crashes exactly if one of the sections cannot be read. -/
theorem C81_crash (lib : IdlLibs J) (b : Bytes) (hb : b.length < 2 ^ 64)
    (ho : ∀ ss, lib.elf b = some ss → Spec.SaneOffsets ss) :
    printIdl lib b = .crash ↔ ∃ ss, lib.elf b = some ss ∧ ¬ Spec.Legible lib b ss := by
  unfold printIdl parseIdl
  cases he : lib.elf b with
  | none => simp
  | some ss =>
    replace ho := ho ss he
    cases hl : idlLoop lib b ss (none, none) with
    | error e =>
      simp only [hl, bind, Except.bind]
      obtain ⟨rfl, hn⟩ := idlLoop_error ho hb hl
      exact ⟨fun _ => ⟨ss, rfl, hn⟩, fun _ => rfl⟩
    | ok st =>
      simp only [hl, bind, Except.bind]
      have hh := (idlLoop_ok ho hb hl).1
      constructor
      · intro h
        obtain ⟨ot, oj⟩ := st
        cases ot <;> cases oj <;> cases h
      · rintro ⟨_, h, hn⟩
        cases h; exact absurd hh hn

private theorem text_kind (t : IdlType) : t.text = Spec.kindName t := by
  cases t <;> decide +kernel

private theorem letters_self (t : IdlType) : Spec.SameLetters t.text (Spec.kindName t) :=
  parse_iff.mp (by cases t <;> decide +kernel)

private theorem Holds.points {b bs : Bytes} {ss : List Section} {name : String}
    (h : Holds b ss name bs) (hb : b.length < 2 ^ 64) {P : Section → Prop}
    (hP : ∀ s, Spec.PointsTo b s.offset bs → P s) :
    Spec.EachOf ss name P ∧ Spec.LastOf ss name P := by
  obtain ⟨pre, s, post, x, rfl, hn, only, h1, h2, hx, hf, hs⟩ := h
  have cut (o n : Nat) (h : o + n ≤ b.length) : b = b.take o ++ slice b o n ++ b.drop (o + n) := by
    rw [slice, List.append_assoc, show b.drop (o + n) = (b.drop o).drop n by rw [List.drop_drop],
      List.take_append_drop, List.take_append_drop]
  have key : P s := by
    apply hP
    refine ⟨b.take s.offset, zeros 4, b.take x, b.drop (s.offset + 16), x, ?_, ?_, rfl, hx, ?_,
      ⟨b.drop (x + bs.length), ?_⟩, ?_⟩
    · have := cut s.offset 16 h1
      rw [hf] at this
      simpa only [fatPointer, List.append_assoc] using this
    · rw [List.length_take]; omega
    · omega
    · have := cut x bs.length h2
      rw [hs] at this
      exact this
    · rw [List.length_take]; omega
  refine ⟨?_, pre, s, post, rfl, hn, key, fun y hy => only y (by simp [hy])⟩
  intro y hy hyn
  rcases List.mem_append.mp hy with hy | hy
  · exact absurd hyn (only y (by simp [hy]))
  · rcases List.mem_cons.mp hy with rfl | hy
    · exact key
    · exact absurd hyn (only y (by simp [hy]))

/-- What is embedded is found: if the only section `.idl.type` holds a reference to the text of a
kind and the only section `.idl.data` one to the compressed description, then the tool prints this
kind and this description, whatever else is in the file. -/
theorem C81_embedded (lib : IdlLibs J) (b : Bytes) (ss : List Section) (t : IdlType) (j : J)
    (z data : Bytes) (hb : b.length < 2 ^ 64) (he : lib.elf b = some ss)
    (ho : Spec.SaneOffsets ss) (h1 : Holds b ss ".idl.type" t.text) (h2 : Holds b ss ".idl.data" z)
    (hi : lib.inflate z = some data) (hj : lib.json data = some j) :
    printIdl lib b = .idl t j := by
  have p1 := h1.points hb (P := fun s => Spec.SaysType b s t) fun s h => ⟨_, h, letters_self t⟩
  have p2 := h2.points hb (P := fun s => Spec.SaysIdl lib b s j) fun s h => ⟨_, _, h, hi, hj⟩
  have := (C81_exact lib b t j hb (fun x hx => by rw [he] at hx; cases hx; exact ho)).mpr
    ⟨ss, he, ⟨fun s h1 h2 => ⟨t, p1.1 s h1 h2⟩, fun s h1 h2 => ⟨j, p2.1 s h1 h2⟩⟩, p1.2, p2.2⟩
  unfold printIdl
  rw [this]

/-- Texts of kinds: exactly the two names, capital letters allowed. -/
theorem C81_kind (s : Bytes) (t : IdlType) :
    IdlType.parse s = some t ↔ Spec.SameLetters s (Spec.kindName t) := parse_iff

/-! ## A concrete file -/

namespace Idl

/-- A toy binary: 7 bytes, the text of the kind, the compressed description (3 bytes), then the two
references. -/
def file (kind : Bytes) : Bytes :=
  [127, 69, 76, 70, 0, 0, 0] ++ kind ++ [7, 8, 9] ++ fatPointer 7 kind ++
    fatPointer (7 + kind.length) [7, 8, 9] ++ [1, 2]

/-- Its sections. -/
def sections (kind : Bytes) : List Section :=
  [⟨some ".text", 3⟩, ⟨some ".idl.type", 10 + kind.length⟩, ⟨none, 5⟩,
    ⟨some ".idl.data", 26 + kind.length⟩]

/-- Toy libraries: the compressed form is the description backwards, descriptions are not empty. -/
def libs (ss : List Section) : IdlLibs Bytes :=
  ⟨fun b => if b.take 4 = [127, 69, 76, 70] then some ss else none, fun z => some z.reverse,
    fun d => if d = [] then none else some d⟩

end Idl

open Idl in
example : printIdl (libs (sections (ascii "codama"))) (file (ascii "codama")) =
    .idl .codama [9, 8, 7] := by decide +kernel

open Idl in
example : printIdl (libs (sections (ascii "Anchor"))) (file (ascii "Anchor")) =
    .idl .anchor [9, 8, 7] := by decide +kernel

open Idl in
example : printIdl (libs ((sections (ascii "codama")).drop 2)) (file (ascii "codama")) =
    .notFound := by decide +kernel

open Idl in
example : printIdl (libs []) [1, 2, 3] = .notFound := by decide +kernel

open Idl in
example : Holds (file (ascii "codama")) (sections (ascii "codama")) ".idl.type" IdlType.codama.text ∧
    Holds (file (ascii "codama")) (sections (ascii "codama")) ".idl.data" [7, 8, 9] ∧
    Spec.SaneOffsets (sections (ascii "codama")) :=
  ⟨⟨[⟨some ".text", 3⟩], ⟨some ".idl.type", 16⟩, [⟨none, 5⟩, ⟨some ".idl.data", 32⟩], 7,
    by decide +kernel⟩,
   ⟨[⟨some ".text", 3⟩, ⟨some ".idl.type", 16⟩, ⟨none, 5⟩], ⟨some ".idl.data", 32⟩, [], 13,
    by decide +kernel⟩, by unfold Spec.SaneOffsets; decide +kernel⟩

/-- The function promises a result or an error, but it panics, and the tool with it: if the kind is
none of the two; if a section is cut off; and also if the description is there, but one more section
of the name leads nowhere. -/
theorem C81_false :
    (∃ (lib : IdlLibs Bytes) (b : Bytes), parseIdl lib b = .error .panic ∧
      lib.elf b = some (Idl.sections (ascii "kinobi")) ∧ b = Idl.file (ascii "kinobi")) ∧
    (∃ (lib : IdlLibs Bytes) (b : Bytes) (s : Section), parseIdl lib b = .error .panic ∧
      lib.elf b = some [s] ∧ b.length < s.offset + 16) ∧
    (∃ (lib lib' : IdlLibs Bytes) (b : Bytes) (ss : List Section) (s : Section),
      lib.elf b = some ss ∧ parseIdl lib b = .ok (.codama, [9, 8, 7]) ∧
      lib'.elf b = some (ss ++ [s]) ∧ lib'.inflate = lib.inflate ∧ lib'.json = lib.json ∧
      printIdl lib' b = .crash) := by
  refine ⟨⟨Idl.libs (Idl.sections (ascii "kinobi")), Idl.file (ascii "kinobi"), by decide +kernel,
      by decide +kernel, rfl⟩,
    ⟨Idl.libs [⟨some ".idl.data", 3⟩], [127, 69, 76, 70, 0, 0], ⟨some ".idl.data", 3⟩,
      by decide +kernel, by decide +kernel, by decide +kernel⟩,
    ⟨Idl.libs (Idl.sections (ascii "codama")),
      Idl.libs (Idl.sections (ascii "codama") ++ [⟨some ".idl.type", 40⟩]),
      Idl.file (ascii "codama"), Idl.sections (ascii "codama"), ⟨some ".idl.type", 40⟩,
      by decide +kernel, by decide +kernel, by decide +kernel, rfl, rfl, by decide +kernel⟩⟩

end Verif.Props

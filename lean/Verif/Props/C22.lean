import Verif.Lemmas.Constraint

/-!
# C22 — constraint builders and parser are inverse
-/

namespace Verif.Props

open Verif Verif.Spec

/-- Parsing what a builder produced gives the same tree back, for every tree whose encoding
fits the 32 bit length field. -/
theorem C22_parse_build (c : Cst) (hs : SelectorsFit c) (hl : (buildC c).length ≤ 2 ^ 32) :
    parseConstraint (buildC c) = .ok c := by
  unfold parseConstraint
  have := parseC_buildC c ((buildC c).length + 2) [] (by omega) hs hl
  rw [List.append_nil] at this
  rw [this]; rfl

/-- The parser consumes exactly the bytes of the constraint, whatever follows them (this is
how the operands of And and Or are separated). -/
theorem C22_parse_build_prefix (c : Cst) (rest : Bytes) (hs : SelectorsFit c)
    (hl : (buildC c).length ≤ 2 ^ 32) :
    parseC ((buildC c ++ rest).length + 2) (buildC c ++ rest) = .ok (c, (buildC c).length) :=
  parseC_buildC c _ rest (by rw [List.length_append]; omega) hs hl

/-- Distinct constraints have distinct encodings. -/
theorem C22_build_injective (c c' : Cst) (hs : SelectorsFit c) (hs' : SelectorsFit c')
    (hl : (buildC c).length ≤ 2 ^ 32) (h : buildC c = buildC c') : c = c' := by
  have h1 := C22_parse_build c hs hl
  have h2 := C22_parse_build c' hs' (h ▸ hl)
  rw [h, h2] at h1
  exact (Except.ok.inj h1).symm

/-- Reading a constraint terminates on every input: it yields a tree or one of the panics of
the code, never an endless loop. -/
theorem C22_parse_terminates (b : Bytes) : parseConstraint b ≠ .error .diverge := by
  unfold parseConstraint
  have := (parse_fuel (b.length + 2)).1 b (by omega)
  cases h : parseC (b.length + 2) b with
  | error e => rw [h] at this; simpa [bind, Except.bind] using this
  | ok a => simp [bind, Except.bind, pure, Except.pure]

/-- Writing a parsed constraint back (`as_bytes`) gives the bytes the builders make, as long
as it contains no Not. -/
theorem C22_as_bytes_partial (c : Cst) (h : NotFree c) : asBytesC c = buildC c :=
  asBytesC_eq c h

/-- With a Not it does not: the header of the operand is written twice, so that an operand
appears that was not there. This is why the previous theorem is partial. -/
theorem C22_as_bytes_not_is_wrong :
    asBytesC (.and [.not .empty]) = buildC (.and [.not .empty, .empty]) ∧
    parseConstraint (asBytesC (.and [.not .empty])) = .ok (.and [.not .empty, .empty]) := by
  have h : asBytesC (.and [.not .empty]) = buildC (.and [.not .empty, .empty]) := by
    decide +kernel
  refine ⟨h, ?_⟩
  rw [h]
  exact C22_parse_build _ (by simp [SelectorsFit]) (by decide +kernel)

/-! ## A concrete case -/

def cstEx22 : Cst :=
  let k (n : UInt8) : Key := Key.ofBytes (List.replicate 32 n)
  .and [.or [.ownedBy 2 [k 6, k 7], .pubkeyMatch 0 []], .not (.pubkeyMatch 1 [k 5]), .empty]

example : SelectorsFit cstEx22 ∧ (buildC cstEx22).length = 176 ∧
    (parseConstraint (buildC cstEx22)).toBool = true := by
  refine ⟨?_, by decide +kernel, by decide +kernel⟩
  simp [cstEx22, SelectorsFit]

example : NotFree (.or [.and [], .pubkeyMatch 1 [Key.default]]) := by simp [NotFree]

end Verif.Props

import Verif.Model.Constraints

/-!
# Which bytes say which constraint

An operator is a number, the length of what follows, and what follows: the operands one after the other, or a
selector and keys. Behind the operand of a negation, and in an operator without operands, there may be
anything.
-/

namespace Verif.Spec

open Verif

/-- Operator number `n` with the given contents. -/
def operator (n : Nat) (body : Bytes) : Bytes := toLE 4 n ++ (toLE 4 body.length ++ body)

/-- The bytes of keys, one after the other. -/
def keyBytes (ks : List Key) : Bytes := ks.flatMap fun x => x.1

mutual
/-- The bytes say the constraint. -/
inductive Meaning : Bytes → Cst → Prop
  | and {body : Bytes} {cs : List Cst} (hl : body.length < 2 ^ 32) (h : Meanings body cs) :
      Meaning (operator 0 body) (.and cs)
  | not {b rest : Bytes} {c : Cst} (hl : (b ++ rest).length < 2 ^ 32) (h : Meaning b c) :
      Meaning (operator 1 (b ++ rest)) (.not c)
  | or {body : Bytes} {cs : List Cst} (hl : body.length < 2 ^ 32) (h : Meanings body cs) :
      Meaning (operator 2 body) (.or cs)
  | ownedBy {a : Nat} {ks : List Key} (hl : (toLE 8 a ++ keyBytes ks).length < 2 ^ 32) (ha : a < 2 ^ 64) :
      Meaning (operator 3 (toLE 8 a ++ keyBytes ks)) (.ownedBy a ks)
  | pubkeyMatch {a : Nat} {ks : List Key} (hl : (toLE 8 a ++ keyBytes ks).length < 2 ^ 32) (ha : a < 2 ^ 64) :
      Meaning (operator 4 (toLE 8 a ++ keyBytes ks)) (.pubkeyMatch a ks)
  | empty {body : Bytes} (hl : body.length < 2 ^ 32) : Meaning (operator 5 body) .empty

/-- The bytes say the constraints, one after the other. -/
inductive Meanings : Bytes → List Cst → Prop
  | nil : Meanings [] []
  | cons {b bs : Bytes} {c : Cst} {cs : List Cst} (h : Meaning b c) (hs : Meanings bs cs) :
      Meanings (b ++ bs) (c :: cs)
end

end Verif.Spec

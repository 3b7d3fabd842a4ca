import Verif.Lemmas.Saying
import Verif.Lemmas.Readable
import Verif.Props.C20

/-!
# C93: the bytes of a constraint say one thing

See Spec/Saying for which bytes say which constraint.
-/

namespace Verif.Props

open Verif Verif.Spec Verif.Ex

variable {b b' r r' p : Bytes} {c c' : Cst}

/-- **C93**: the program reads a constraint exactly where one is said; what follows it is not looked at. -/
theorem C93_reads : parseConstraint b = .ok c ↔ ∃ x rest, b = x ++ rest ∧ Meaning x c := parse_meaning

/-- No bytes say two things, nor does one constraint begin with another. -/
theorem C93_one (h : Meaning b c) (h' : Meaning b' c') (he : b ++ r = b' ++ r') : b = b' ∧ c = c' := by
  have h1 := reads_meaning h (b.length + b'.length) r (by omega)
  rw [he, reads_meaning h' (b.length + b'.length) r' (by omega)] at h1
  have h2 := Except.ok.inj h1
  exact ⟨(List.append_inj he (congrArg Prod.snd h2).symm).1, (congrArg Prod.fst h2).symm⟩

/-- Data of royalties is accepted exactly if it gives a rate of at most 100% and says a constraint. -/
theorem C93_royalties {q : Bytes} {au : Option Key} : onCreate .royalties p au = .ok q ↔
    q = p ∧ ∃ rate x rest, rate ≤ 10000 ∧ p = toLE 8 rate ++ (x ++ rest) ∧ ∃ c, Meaning x c := by
  show royaltiesCheck p = .ok q ↔ _
  unfold royaltiesCheck readRoyalties
  constructor
  · intro h
    inv at h
    obtain ⟨g, hg, h⟩ := h
    split at hg
    · cases hg
    · rename_i hl
      inv at hg
      obtain ⟨c, hc, rfl⟩ := hg
      obtain ⟨x, rest, hx, hm⟩ := parse_meaning.mp hc
      split at h
      · cases h
      · rename_i hb
        cases h
        refine ⟨rfl, u64At p 0, x, rest, Nat.le_of_not_lt hb, ?_, c, hm⟩
        have h8 : (slice p 0 8).length = 8 := length_slice (by omega)
        have := toLE_leNat (slice p 0 8)
        rw [h8] at this
        rw [← hx]
        show p = toLE 8 (leNat (slice p 0 8)) ++ p.drop 8
        rw [this]
        exact (List.take_append_drop 8 p).symm
  · rintro ⟨rfl, rate, x, rest, hr, rfl, c, hm⟩
    have hd : (toLE 8 rate ++ (x ++ rest)).drop 8 = x ++ rest := List.drop_left' (length_toLE 8 rate)
    have hb : u64At (toLE 8 rate ++ (x ++ rest)) 0 = rate := by
      unfold u64At
      rw [slice_append_left _ _ _ (length_toLE 8 rate).symm, leNat_toLE_of_lt (by omega)]
    rw [if_neg (by rw [List.length_append, length_toLE]; omega), hd, parse_meaning.mpr ⟨x, rest, rfl, hm⟩, hb]
    simp only [bind, Except.bind, pure, Except.pure]
    rw [if_neg (by omega)]

/-- A transfer other than between wallets of an asset with royalties goes through only if what the royalties
say holds of the asset, the signer and the recipient. -/
theorem C93_gate {E : Env} {L L' : Ledger} {a s t : Key} {accts : List Key} {rate : Nat} {x rest : Bytes}
    (h : execute E L (a :: s :: t :: accts) .transfer = .ok L') (hw : ¬ WalletToWallet E L s t)
    (hp : Reads (L a).data .royalties (some (toLE 8 rate ++ (x ++ rest)))) (hm : Meaning x c) :
    Holds ⟨seen L a, seen L s, some (seen L t)⟩ c := by
  obtain ⟨c', h1, h2⟩ := (C20_own h hp).resolve_left hw
  rw [List.drop_left' (length_toLE 8 rate), parse_meaning.mpr ⟨x, rest, rfl, hm⟩] at h1
  cases h1
  exact h2

/-- The builders say what they are asked to, … -/
theorem C93_built (hs : SelectorsFit c) (hl : (buildC c).length ≤ 2 ^ 32) : Meaning (buildC c) c := by
  obtain ⟨x, rest, h1, h2⟩ := parse_meaning.mp (C22_parse_build c hs hl)
  obtain ⟨h3, h4⟩ := meaning_least h2
  have := congrArg List.length h1
  rw [List.length_append] at this
  rw [← h4 (by omega)]
  exact h2

/-- … and nobody says it in fewer bytes, or differently in as many. -/
theorem C93_shortest (h : Meaning b c) :
    (buildC c).length ≤ b.length ∧ (b.length = (buildC c).length → b = buildC c) :=
  ⟨(meaning_least h).1, fun hl => (meaning_least h).2 (by omega)⟩

/-- **C93** fails in one respect: a constraint can be said in several ways, by leaving bytes in an operator
without operands or behind the operand of a negation. -/
theorem C93_false : ∃ b b' c, b ≠ b' ∧ Meaning b c ∧ Meaning b' c ∧
    parseConstraint b = .ok c ∧ parseConstraint b' = .ok c := by
  have h1 : Meaning (operator 1 (operator 5 [] ++ [])) (.not .empty) := .not (by decide) (.empty (by decide))
  have h2 : Meaning (operator 1 (operator 5 [] ++ [7])) (.not .empty) := .not (by decide) (.empty (by decide))
  exact ⟨_, _, _, by decide, h1, h2, parse_meaning.mpr ⟨_, [], (List.append_nil _).symm, h1⟩,
    parse_meaning.mpr ⟨_, [], (List.append_nil _).symm, h2⟩⟩

/-! ## Concrete bytes -/

/-- "Not the recipient `k 7`", with three bytes to spare, and what is refused. -/
example : Meaning ([1, 0, 0, 0, 51, 0, 0, 0] ++ ([4, 0, 0, 0, 40, 0, 0, 0] ++ ([2, 0, 0, 0, 0, 0, 0, 0] ++
    (k 7).1) ++ [9, 9, 9])) (.not (.pubkeyMatch 2 [k 7])) :=
  .not (b := operator 4 (toLE 8 2 ++ keyBytes [k 7])) (rest := [9, 9, 9]) (by decide +kernel)
    (.pubkeyMatch (by decide +kernel) (by decide))

/-- Without a whole selector, with half a key, or with an unknown operator nothing is said. -/
example : (parseConstraint (operator 3 [0, 0, 0, 0, 0, 0])).isOk = false ∧
    (parseConstraint (operator 4 (zeros 24))).isOk = false ∧
    (parseConstraint (operator 6 [])).isOk = false := by
  refine ⟨?_, ?_, ?_⟩ <;> decide +kernel

/-- The transfer of `market` that `C93_gate` is about. -/
example : gated = toLE 8 500 ++ (buildC (.not (.pubkeyMatch 2 [k 7])) ++ []) ∧
    (run market [k 2] [k 1, k 2, k 6, prog] .transfer).isOk = true ∧
    (run market [k 2] [k 1, k 2, k 7, prog] .transfer).isOk = false := by
  refine ⟨?_, ?_, ?_⟩ <;> decide +kernel

end Verif.Props

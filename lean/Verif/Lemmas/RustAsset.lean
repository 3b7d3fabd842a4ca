import Verif.Lemmas.Wire
import Verif.Lemmas.Payload
import Verif.Lemmas.Properties
import Verif.Spec.RustAsset

/-!
# Lemmas on the readers of the Rust client
-/

namespace Verif

open Verif.Spec

theorem readN_at {d : Bytes} {o n : Nat} (h : o + n ≤ d.length) :
    readN n (d.drop o) = some (slice d o n, d.drop (o + n)) := by
  rw [readN, if_neg (by rw [List.length_drop]; omega), List.drop_drop]
  rfl

theorem readU8_at {d : Bytes} {o : Nat} (h : o < d.length) :
    readU8 (d.drop o) = some (byteAt d o, d.drop (o + 1)) := by
  rw [List.drop_eq_getElem_cons h, readU8]
  unfold byteAt
  rw [List.getD_eq_getElem?_getD, List.getElem?_eq_getElem h, Option.getD_some]

theorem readKey_at {d : Bytes} {o : Nat} (h : o + 32 ≤ d.length) :
    readKey (d.drop o) = some (keyAt d o, d.drop (o + 32)) := by
  unfold readKey
  rw [readN_at h]
  rfl

theorem readU64_at {d : Bytes} {o : Nat} (h : o + 8 ≤ d.length) :
    readU64 (d.drop o) = some (u64At d o, d.drop (o + 8)) := by
  unfold readU64
  rw [readN_at h]
  rfl

theorem readN_rest {n : Nat} {bs b rest : Bytes} (h : readN n bs = some (b, rest)) :
    bs.length = n + rest.length := by
  obtain ⟨h1, rfl⟩ := (readN_iff _ _ _ _).mp h
  rw [List.length_append, h1]

theorem readU8_rest {bs rest : Bytes} {b : UInt8} (h : readU8 bs = some (b, rest)) :
    bs.length = 1 + rest.length := by
  rw [(readU8_iff _ _ _).mp h, List.length_cons]; omega

theorem readKey_rest {bs rest : Bytes} {b : Key} (h : readKey bs = some (b, rest)) :
    bs.length = 32 + rest.length := by
  unfold readKey at h
  simp only [Option.bind_eq_bind, Option.bind_eq_some_iff] at h
  obtain ⟨⟨x, y⟩, h1, h2⟩ := h
  cases h2
  exact readN_rest h1

theorem readU64_rest {bs rest : Bytes} {b : Nat} (h : readU64 bs = some (b, rest)) :
    bs.length = 8 + rest.length := by
  unfold readU64 at h
  simp only [Option.bind_eq_bind, Option.bind_eq_some_iff] at h
  obtain ⟨⟨x, y⟩, h1, h2⟩ := h
  cases h2
  exact readN_rest h1

theorem readBool_rest {bs rest : Bytes} {b : Bool} (h : readBool bs = some (b, rest)) :
    bs.length = 1 + rest.length := by
  unfold readBool at h
  simp only [Option.bind_eq_bind, Option.bind_eq_some_iff] at h
  obtain ⟨⟨x, y⟩, h1, h2⟩ := h
  have := readU8_rest h1
  simp only at h2
  split at h2
  · cases h2; exact this
  · split at h2 <;> cases h2
    exact this

theorem readTag_rest {α : Type} {f : Nat → Option α} {bs rest : Bytes} {b : α}
    (h : readTag f bs = some (b, rest)) : bs.length = 1 + rest.length := by
  unfold readTag at h
  simp only [Option.bind_eq_bind, Option.bind_eq_some_iff] at h
  obtain ⟨⟨x, y⟩, h1, z, h2, h3⟩ := h
  cases h3
  exact readU8_rest h1

theorem readBool_at {d : Bytes} {o : Nat} (h : o < d.length) :
    readBool (d.drop o) =
      if byteAt d o = 0 ∨ byteAt d o = 1 then some (podTrue (byteAt d o), d.drop (o + 1)) else none := by
  unfold readBool
  rw [readU8_at h]
  simp only [Option.bind_eq_bind, Option.bind_some]
  by_cases h0 : byteAt d o = 0
  · rw [if_pos h0, if_pos (.inl h0), h0]; rfl
  · by_cases h1 : byteAt d o = 1
    · rw [if_neg h0, if_pos h1, if_pos (.inr h1), h1]; rfl
    · rw [if_neg h0, if_neg h1, if_neg (by tauto)]

theorem readTag_at {α : Type} {f : Nat → Option α} {d : Bytes} {o : Nat} (h : o < d.length) :
    readTag f (d.drop o) = (f (byteAt d o).toNat).map fun a => (a, d.drop (o + 1)) := by
  unfold readTag
  rw [readU8_at h]
  simp only [Option.bind_eq_bind, Option.bind_some]
  cases f (byteAt d o).toNat <;> rfl

theorem twoValues_iff {n m : Nat} : twoValues n = some m ↔ n ≤ 1 ∧ m = n := by
  match n with
  | 0 => simp [twoValues, eq_comm]
  | 1 => simp [twoValues, eq_comm]
  | n + 2 => simp [twoValues]

theorem clientKey_shown (k : Key) : clientKey k = shownKey k := rfl

theorem rustAsset_long {d : Bytes} {J : RustAsset} (h : rustAsset d = some J) : 168 ≤ d.length := by
  unfold rustAsset at h
  simp only [Option.bind_eq_bind, Option.bind_eq_some_iff] at h
  obtain ⟨a0, h0, a1, h1, a2, h2, a3, h3, a4, h4, a5, h5, a6, h6, a7, h7, a8, h8, a9, h9, -⟩ := h
  have e0 := readTag_rest h0
  have e1 := readTag_rest h1
  have e2 := readTag_rest h2
  have e3 := readBool_rest h3
  have e4 := readKey_rest h4
  have e5 := readKey_rest h5
  have e6 := readKey_rest h6
  have e7 := readKey_rest h7
  have e8 := readU8_rest h8
  have e9 := readN_rest h9
  omega

theorem readStr8_iff {b s rest : Bytes} :
    readStr8 b = some (s, rest) ↔ validUtf8 s = true ∧ ∃ n, readStr b = .ok (s, n) ∧ rest = b.drop n := by
  unfold readStr8 readStr
  cases b with
  | nil => simp [readU8]
  | cons n r =>
    simp only [readU8, Option.bind_eq_bind, Option.bind_some, readN]
    by_cases hl : r.length < n.toNat
    · simp [hl]
    · simp only [hl, if_false, Option.bind_some]
      constructor
      · intro h
        split at h
        · rename_i hv
          cases h
          exact ⟨hv, n.toNat + 1, rfl, rfl⟩
        · cases h
      · rintro ⟨hv, m, h1, rfl⟩
        cases h1
        rw [if_pos hv]
        rfl

theorem readPair8_iff {b rest : Bytes} {x : Bytes × Bytes} :
    readPair8 b = some (x, rest) ↔ goodPair x = true ∧ ∃ n m, readStr b = .ok (x.1, n) ∧
      readStr (b.drop n) = .ok (x.2, m) ∧ rest = b.drop (n + m) := by
  unfold readPair8 goodPair
  simp only [Option.bind_eq_bind, Option.bind_eq_some_iff, Bool.and_eq_true]
  constructor
  · rintro ⟨⟨s, b1⟩, h1, ⟨t, b2⟩, h2, h3⟩
    cases h3
    obtain ⟨v1, n, e1, rfl⟩ := readStr8_iff.mp h1
    obtain ⟨v2, m, e2, rfl⟩ := readStr8_iff.mp h2
    exact ⟨⟨v1, v2⟩, n, m, e1, e2, List.drop_drop⟩
  · rintro ⟨⟨v1, v2⟩, n, m, e1, e2, rfl⟩
    refine ⟨(x.1, b.drop n), readStr8_iff.mpr ⟨v1, n, e1, rfl⟩, (x.2, b.drop (n + m)),
      readStr8_iff.mpr ⟨v2, m, e2, List.drop_drop.symm⟩, rfl⟩

theorem pairs_lenient {f F : Nat} {b : Bytes} {l : List (Bytes × Bytes)} (h : readPairs f b = .ok l)
    (hF : b.length ≤ F) : remainder false readPair8 F b = some (l.takeWhile goodPair) := by
  induction f generalizing F b l with
  | zero => cases h
  | succ f ih =>
    rw [readPairs] at h
    split at h
    · rename_i he
      cases h
      cases F with
      | zero => rfl
      | succ F => rw [remainder, if_pos he]; rfl
    · rename_i he
      inv at h
      obtain ⟨⟨x, n⟩, h1, ⟨y, m⟩, h2, rest, h3, rfl⟩ := h
      have s1 := readStr_size h1
      have s2 := readStr_size h2
      cases F with
      | zero => omega
      | succ F =>
        rw [remainder, if_neg he, List.takeWhile_cons]
        by_cases hg : goodPair (x, y) = true
        · have := (readPair8_iff (b := b) (x := (x, y)) (rest := b.drop (n + m))).mpr
            ⟨hg, n, m, h1, h2, rfl⟩
          rw [this]
          simp only [hg, if_true]
          rw [ih h3 (by show (b.drop (n + m)).length ≤ F; rw [List.length_drop]; omega)]
          rfl
        · have : readPair8 b = none := by
            cases hr : readPair8 b with
            | none => rfl
            | some z =>
              obtain ⟨⟨u, v⟩, w⟩ := z
              obtain ⟨g, n', m', e1, e2, -⟩ := readPair8_iff.mp hr
              rw [h1] at e1
              cases e1
              rw [h2] at e2
              cases e2
              exact absurd g hg
          rw [this]
          simp [hg]

theorem pairs_strict {f F : Nat} {b : Bytes} {l : List (Bytes × Bytes)} (hf : b.length < f)
    (hF : b.length ≤ F) :
    remainder true readPair8 F b = some l ↔ readPairs f b = .ok l ∧ ∀ x ∈ l, goodPair x = true := by
  induction F generalizing f b l with
  | zero =>
    have : b = [] := List.length_eq_zero_iff.mp (by omega)
    subst this
    cases f with
    | zero => omega
    | succ f =>
      rw [remainder, readPairs, if_pos (show ([] : Bytes).isEmpty = true from rfl)]
      constructor
      · intro h; cases h; exact ⟨rfl, by simp⟩
      · rintro ⟨h, -⟩; cases h; rfl
  | succ F ih =>
    cases f with
    | zero => omega
    | succ f =>
      rw [remainder, readPairs]
      by_cases he : b.isEmpty = true
      · rw [if_pos he, if_pos he]
        constructor
        · intro h; cases h; exact ⟨rfl, by simp⟩
        · rintro ⟨h, -⟩; cases h; rfl
      · rw [if_neg he, if_neg he]
        constructor
        · intro h
          cases hr : readPair8 b with
          | none => rw [hr] at h; cases h
          | some z =>
            obtain ⟨x, w⟩ := z
            rw [hr] at h
            simp only [Option.map_eq_some_iff] at h
            obtain ⟨l', h1, rfl⟩ := h
            obtain ⟨g, n, m, e1, e2, rfl⟩ := readPair8_iff.mp hr
            have s1 := readStr_size e1
            have s2 := readStr_size e2
            obtain ⟨h2, h3⟩ := (ih (f := f) (by rw [List.length_drop]; omega)
              (by rw [List.length_drop]; omega)).mp h1
            rw [e1]
            simp only [bind, Except.bind]
            rw [e2]
            simp only
            rw [h2]
            exact ⟨rfl, by simpa using ⟨g, fun a b hab => h3 _ hab⟩⟩
        · rintro ⟨h, hg⟩
          inv at h
          obtain ⟨⟨x, n⟩, h1, ⟨y, m⟩, h2, rest, h3, rfl⟩ := h
          have s1 := readStr_size h1
          have s2 := readStr_size h2
          rw [(readPair8_iff (b := b) (x := (x, y)) (rest := b.drop (n + m))).mpr
            ⟨hg _ (List.mem_cons_self ..), n, m, h1, h2, rfl⟩]
          simp only [Option.map_eq_some_iff]
          have hl : (b.drop (n + m)).length = b.length - (n + m) := List.length_drop
          exact ⟨rest, (ih (f := f) (by omega) (by omega)).mpr
            ⟨h3, fun x hx => hg x (List.mem_cons_of_mem _ hx)⟩, rfl⟩

theorem readCreator8_cons {b : Bytes} (h : 34 ≤ b.length) :
    readCreator8 b = if byteAt b 32 = 0 ∨ byteAt b 32 = 1 then
      some ((Key.ofBytes (b.take 32), podTrue (byteAt b 32), byteAt b 33), b.drop 34) else none := by
  unfold readCreator8
  have e := readKey_at (d := b) (o := 0) (by omega)
  rw [List.drop_zero] at e
  rw [e]
  simp only [Option.bind_eq_bind, Option.bind_some, Nat.zero_add]
  rw [readBool_at (by omega)]
  split
  · simp only [Option.bind_some]
    rw [readU8_at (by omega)]
    rfl
  · rfl

theorem creators_any {n F : Nat} {b : Bytes} (strict : Bool) (hb : b.length = 34 * n) (hF : b.length ≤ F) :
    remainder strict readCreator8 F b =
      if strict = true ∧ ∃ c ∈ creatorsFrom n b, goodCreator c = false then none
      else some (((creatorsFrom n b).takeWhile goodCreator).map rustCreator) := by
  induction n generalizing F b with
  | zero =>
    have : b = [] := List.length_eq_zero_iff.mp (by omega)
    subst this
    rw [if_neg (by simp [creatorsFrom])]
    cases F <;> rfl
  | succ n ih =>
    cases F with
    | zero => omega
    | succ F =>
      have hne : ¬ b.isEmpty = true := by
        rw [List.isEmpty_iff]; intro e; rw [e] at hb; simp at hb
      rw [remainder, if_neg hne, readCreator8_cons (by omega), creatorsFrom, List.takeWhile_cons]
      have hg : goodCreator ⟨Key.ofBytes (b.take 32), byteAt b 32, byteAt b 33⟩ = true ↔
          byteAt b 32 = 0 ∨ byteAt b 32 = 1 := by simp [goodCreator]
      by_cases hv : byteAt b 32 = 0 ∨ byteAt b 32 = 1
      · rw [if_pos hv, if_pos (hg.mpr hv)]
        simp only
        rw [ih (by rw [List.length_drop]; omega) (by rw [List.length_drop]; omega)]
        have : (∃ c ∈ (⟨Key.ofBytes (b.take 32), byteAt b 32, byteAt b 33⟩ : Creator) ::
            creatorsFrom n (b.drop 34), goodCreator c = false) ↔
            ∃ c ∈ creatorsFrom n (b.drop 34), goodCreator c = false := by
          simp [hg.mpr hv]
        simp only [this]
        split <;> simp [rustCreator]
      · rw [if_neg hv]
        have hf : goodCreator ⟨Key.ofBytes (b.take 32), byteAt b 32, byteAt b 33⟩ = false := by
          rw [Bool.eq_false_iff]; exact fun h => hv (hg.mp h)
        cases strict
        · simp [hf]
        · simp [hf]

end Verif

import Verif.Lemmas.Wire
import Verif.Lemmas.Utf8
import Verif.Examples

/-!
# C30 — Instruction decoding is unambiguous and total
-/

namespace Verif.Props

open Verif Verif.Spec

/-- Decoding is exactly the inverse of encoding: it succeeds on the encodings of instructions and
on nothing else. -/
theorem C30_decode_iff (bs : Bytes) (i : Instr) :
    decode bs = some i ↔ InstrOk i ∧ bs = encode i := by
  unfold decode
  constructor
  · intro h
    split at h
    · rename_i j heq
      cases h
      simpa using (readInstr_codec _ _ _).mp heq
    · cases h
  · rintro ⟨h, rfl⟩
    have := (readInstr_codec (encode i) i []).mpr ⟨h, by simp⟩
    rw [this]

/-- Every instruction that can be serialised decodes back to itself. -/
theorem C30_roundtrip {i : Instr} (h : InstrOk i) : decode (encode i) = some i :=
  (C30_decode_iff _ _).mpr ⟨h, rfl⟩

/-- Decoding never succeeds with bytes left over: no encoding is a proper prefix of anything
that decodes. -/
theorem C30_no_leftover {i j : Instr} {rest : Bytes} (h : InstrOk i)
    (hd : decode (encode i ++ rest) = some j) : rest = [] ∧ j = i := by
  obtain ⟨hj, he⟩ := (C30_decode_iff _ _).mp hd
  have h1 := (readInstr_codec (encode i ++ rest) i rest).mpr ⟨h, rfl⟩
  have h2 := (readInstr_codec (encode i ++ rest) j []).mpr ⟨hj, by rw [he]; simp⟩
  rw [h1] at h2
  cases h2
  exact ⟨rfl, rfl⟩

/-- Two different instructions never share an encoding. -/
theorem C30_injective {i j : Instr} (hi : InstrOk i) (hj : InstrOk j) (h : encode i = encode j) :
    i = j := by
  have h1 := C30_roundtrip hi
  rw [h, C30_roundtrip hj] at h1
  cases h1; rfl

/-- What the program runs on instruction data is a decoded instruction; everything else is
rejected without effect. -/
theorem C30_execute {E : Env} {L L' : Ledger} {accts : List Key} {bs : Bytes} :
    executeBytes E L accts bs = .ok L' ↔
      ∃ i, InstrOk i ∧ bs = encode i ∧ execute E L accts i = .ok L' := by
  unfold executeBytes
  constructor
  · intro h
    cases hd : decode bs with
    | none => rw [hd] at h; cases h
    | some i =>
      rw [hd] at h
      obtain ⟨h1, h2⟩ := (C30_decode_iff _ _).mp hd
      exact ⟨i, h1, h2, h⟩
  · rintro ⟨i, h1, rfl, h⟩
    rw [C30_roundtrip h1]
    exact h

/-- The names that can be decoded are the encodings of lists of Unicode characters, as Lean
encodes them. -/
theorem C30_text (s : Bytes) :
    Text s ↔ s.length < 2 ^ 32 ∧ ∃ cs : List Char, s = cs.flatMap String.utf8EncodeChar :=
  and_congr Iff.rfl (validUtf8_iff s)

section Examples
open Verif.Ex

example : Text ("Niñο€😀".toList.flatMap String.utf8EncodeChar) :=
  (C30_text _).mpr ⟨by decide +kernel, _, rfl⟩
/-- Half of a surrogate pair, a character in too many bytes, a character beyond the last one. -/
example : ∀ s ∈ [[0xED, 0xA0, 0x80], [0xE0, 0x82, 0x80], [0xC0, 0x80], [0xF4, 0x90, 0x80, 0x80]],
    ¬ Text s := by
  have h : ∀ s ∈ [[0xED, 0xA0, 0x80], [0xE0, 0x82, 0x80], [0xC0, 0x80], [0xF4, 0x90, 0x80, 0x80]],
      validUtf8 s = false := by decide +kernel
  exact fun s hs ht => Bool.false_ne_true ((h s hs).symm.trans ht.2)

/-- A Create with a name and two extensions. -/
def wireCreate : Instr := .create ⟨[206, 177, 65], .managed, true,
  some [⟨.manager, 33, some [1, 2]⟩, ⟨.blob, 3, none⟩]⟩

example : encode wireCreate =
    [2, 3, 0, 0, 0, 206, 177, 65, 1, 1, 1, 2, 0, 0, 0, 8, 33, 0, 0, 0, 1, 2, 0, 0, 0, 1, 2,
      2, 3, 0, 0, 0, 0] ∧ decode (encode wireCreate) = some wireCreate := by decide +kernel
example : InstrOk wireCreate := by
  refine ⟨⟨by show (3 : Nat) < 4294967296; omega, by decide +kernel⟩, ?_⟩
  intro xs hxs
  cases hxs
  refine ⟨by show (2 : Nat) < 4294967296; omega, fun e he p hp => ?_⟩
  simp only [List.mem_cons, List.not_mem_nil, or_false] at he
  rcases he with rfl | rfl
  · cases hp; show (2 : Nat) < 4294967296; omega
  · cases hp
/-- Extra bytes, an overlong string, bad UTF-8, an unknown tag, a `bool` of 2, a missing byte. -/
example : ∀ bs ∈ [[7, 0], [12, 0, 5, 0, 0, 0, 1, 2], [10, 1, 1, 0, 0, 0, 255, 0, 0], [18],
    [12, 2, 0, 0, 0, 0], [17, 1, 9]], decode bs = none := by decide +kernel
example : decode [17, 1, 9, 1] = some (.resize (.extend 265)) := by decide +kernel
/-- Running instruction data: the owner of `simple` transfers it. -/
example : (executeBytes (env simple [k 2]) simple [k 1, k 2, k 5, prog] [7]).isOk = true ∧
    (executeBytes (env simple [k 2]) simple [k 1, k 2, k 5, prog] [7, 7]).isOk = false := by
  decide +kernel

end Examples

end Verif.Props

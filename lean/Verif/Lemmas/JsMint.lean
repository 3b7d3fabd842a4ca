import Verif.Spec.JsMint
import Verif.Lemmas.JsWrites
import Verif.Lemmas.Mint

/-!
# The instructions of the JavaScript client's `mint`
-/

namespace Verif

open Verif.Spec

/-- A chunk of the client. -/
def jsPiece (size : Nat) (data : Bytes) (i : Nat) : Bytes :=
  slice data (i * size) (min ((i + 1) * size) data.length - i * size)

theorem jsPieces_flatten {size : Nat} {data : Bytes} (n : Nat) :
    ((List.range n).map (jsPiece size data)).flatten = data.take (n * size) := by
  induction n with
  | zero => simp
  | succ n ih =>
    rw [List.range_succ, List.map_append, List.flatten_append, ih]
    simp only [List.map_cons, List.map_nil, List.flatten_cons, List.flatten_nil, List.append_nil]
    have e : jsPiece size data n = (data.drop (n * size)).take size := by
      unfold jsPiece slice
      have h1 : (n + 1) * size = n * size + size := Nat.succ_mul n size
      rw [h1]
      by_cases h : n * size + size ≤ data.length
      · rw [Nat.min_eq_left h, Nat.add_sub_cancel_left]
      · rw [Nat.min_eq_right (by omega), List.take_of_length_le (by simp),
          List.take_of_length_le (by simp; omega)]
    rw [e, Nat.succ_mul, List.take_add]

theorem jsPieces_all {size : Nat} {data : Bytes} (hs : 0 < size) :
    ((List.range ((data.length + size - 1) / size)).map (jsPiece size data)).flatten = data ∧
    ∀ i, i < (data.length + size - 1) / size → jsPiece size data i ≠ [] ∧
      (jsPiece size data i).length ≤ size := by
  have hdm := Nat.div_add_mod (data.length + size - 1) size
  have hlt := Nat.mod_lt (data.length + size - 1) hs
  rw [Nat.mul_comm] at hdm
  refine ⟨?_, ?_⟩
  · rw [jsPieces_flatten, List.take_of_length_le]
    omega
  · intro i hi
    have h1 : (i + 1) * size ≤ (data.length + size - 1) / size * size := Nat.mul_le_mul_right _ hi
    have h2 : (i + 1) * size = i * size + size := Nat.succ_mul i size
    have h3 : (jsPiece size data i).length = min (min ((i + 1) * size) data.length - i * size)
        (data.length - i * size) := by
      unfold jsPiece slice
      rw [List.length_take, List.length_drop]
    constructor
    · intro h0
      rw [h0, List.length_nil] at h3
      omega
    · omega

/-- How the client splits data that is longer than a chunk. -/
theorem jsWrites_split {size : Nat} {data : Bytes} (hs : 0 < size) :
    ∃ cs, jsWrites size data = (match cs with
        | [] => []
        | c :: cs => ⟨true, c⟩ :: cs.map fun c => ⟨false, c⟩) ∧
      cs.flatten = data ∧ (∀ c ∈ cs, c ≠ [] ∧ c.length ≤ size) := by
  obtain ⟨h1, h2⟩ := jsPieces_all (size := size) (data := data) hs
  refine ⟨_, ?_, h1, ?_⟩
  · unfold jsWrites
    generalize (data.length + size - 1) / size = n
    cases n with
    | zero => rfl
    | succ n =>
      rw [List.range_succ_eq_map]
      simp only [List.map_cons, List.map_map]
      rfl
  · intro c hc
    obtain ⟨i, hi, rfl⟩ := List.mem_map.mp hc
    exact h2 i (List.mem_range.mp hi)

/-- The calls for one extension, as a function of its bytes. -/
def jsExtCalls (k p : Key) (e : Extn) : List Call :=
  if jsChunkSize < e.2.length then
    jsAllocate k (some p) ⟨e.1, UInt32.ofNat e.2.length, none⟩ ::
      (jsWrites jsChunkSize e.2).map fun w => .write k p Key.system w
  else [jsAllocate k (some p) ⟨e.1, UInt32.ofNat e.2.length, some e.2⟩]

theorem jsExtCalls_split (k p : Key) (e : Extn) : Split k p e (jsExtCalls k p e) := by
  have ec : jsChunkSize = 850 := rfl
  unfold jsExtCalls
  by_cases hl : jsChunkSize < e.2.length
  · rw [if_pos hl]
    obtain ⟨cs, h1, h2, h3⟩ := jsWrites_split (size := jsChunkSize) (data := e.2) (by omega)
    refine ⟨⟨e.1, UInt32.ofNat e.2.length, none⟩, cs, true, ?_, rfl, rfl, h2, by simp [given],
      fun c hc => ⟨(h3 c hc).1, by have := (h3 c hc).2; omega⟩, fun _ => ⟨rfl, ?_⟩⟩
    · rw [h1]
      cases cs with
      | nil => rfl
      | cons c cs =>
        simp only [List.map_cons, List.map_map, writesOf]
        rfl
    · intro c hc
      have : c ∈ cs := List.mem_of_mem_head? hc
      have := (h3 c this).2
      omega
  · rw [if_neg hl]
    refine ⟨_, [], false, rfl, rfl, rfl, by simp [given], by simp only [given, Option.getD_some]; omega,
      by simp, by intro h; cases h⟩

theorem jsInitialize_ok {ctx : JsContext} {asset p : Key} {v : JsExt} {cs : List Call} :
    jsInitialize ctx asset (some p) v = .ok cs ↔
      Writable v ∧ (rustWrites v).length < 4294967296 ∧ cs = jsExtCalls asset p (jsExtn v) := by
  unfold jsInitialize
  simp only [bind_ok, jsWriteExt_ok]
  constructor
  · rintro ⟨data, ⟨hw, rfl⟩, h⟩
    by_cases h32 : 4294967296 ≤ (rustWrites v).length
    · rw [if_pos h32] at h
      cases h
    · rw [if_neg h32] at h
      refine ⟨hw, by omega, ?_⟩
      unfold jsExtCalls jsExtn
      simp only [pure, Except.pure] at h
      split at h
      · rename_i hc
        rw [if_pos hc]
        cases h
        rfl
      · rename_i hc
        rw [if_neg hc]
        cases h
        rfl
  · rintro ⟨hw, h32, rfl⟩
    refine ⟨_, ⟨hw, rfl⟩, ?_⟩
    rw [if_neg (by omega)]
    unfold jsExtCalls jsExtn
    simp only [pure, Except.pure]
    split <;> rfl

theorem jsInitializeAll_ok {ctx : JsContext} {asset p : Key} {vs : List JsExt} {cs : List Call} :
    jsInitializeAll ctx asset (some p) vs = .ok cs ↔
      (∀ v ∈ vs, Writable v ∧ (rustWrites v).length < 4294967296) ∧
        cs = (vs.map jsExtn).flatMap (jsExtCalls asset p) := by
  induction vs generalizing cs with
  | nil =>
    simp only [jsInitializeAll, Except.ok.injEq, List.map_nil, List.flatMap_nil]
    exact ⟨fun h => ⟨by simp, h.symm⟩, fun h => h.2.symm⟩
  | cons v vs ih =>
    simp only [jsInitializeAll, bind_ok, pure_ok, jsInitialize_ok, ih, List.map_cons,
      List.flatMap_cons, List.mem_cons, forall_eq_or_imp]
    constructor
    · rintro ⟨_, ⟨h1, h2, rfl⟩, _, ⟨h3, rfl⟩, rfl⟩
      exact ⟨⟨⟨h1, h2⟩, h3⟩, rfl⟩
    · rintro ⟨⟨⟨h1, h2⟩, h3⟩, rfl⟩
      exact ⟨_, ⟨h1, h2, rfl⟩, _, ⟨h3, rfl⟩, rfl⟩

end Verif

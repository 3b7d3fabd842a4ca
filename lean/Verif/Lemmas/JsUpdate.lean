import Verif.Spec.JsUpdate
import Verif.Lemmas.JsMint
import Verif.Lemmas.Births

/-!
# The instructions of the JavaScript client's `updateWithBuffer`
-/

namespace Verif

open Verif.Spec

/-! ## Sending in two parts -/

section
variable {E : Env} {L L' : Ledger}

theorem sends_append {xs ys : List ClientIx} (h : sends E L (xs ++ ys) = .ok L') :
    ∃ L1, sends E L xs = .ok L1 ∧ sends E L1 ys = .ok L' := by
  induction xs generalizing L with
  | nil => exact ⟨L, rfl, h⟩
  | cons x xs ih =>
    rw [List.cons_append, sends] at h
    cases h1 : executeBytes (serving E L x) L x.keys x.data with
    | error e => rw [h1] at h; cases h
    | ok L1 =>
      rw [h1] at h
      obtain ⟨L2, h2, h3⟩ := ih h
      exact ⟨L2, by rw [sends, h1]; exact h2, h3⟩

theorem sends_head {c : Call} {xs : List ClientIx} (hc : InstrOk (instrOf c))
    (h : sends E L (c.build E.program :: xs) = .ok L') :
    ∃ L1, execute (serving E L (c.build E.program)) L (c.build E.program).keys (instrOf c) = .ok L1 ∧
      sends E L1 xs = .ok L' := by
  rw [sends] at h
  cases h1 : executeBytes (serving E L (c.build E.program)) L (c.build E.program).keys
      (c.build E.program).data with
  | error e => rw [h1] at h; cases h
  | ok L1 =>
    rw [h1] at h
    exact ⟨L1, executeBytes_call hc h1, h⟩

/-- What the instructions leave alone: data and owner of the accounts that are not in `K`, everything
of those that are not in `P` either; and the sum of all lamports. -/
theorem sends_frame {K P : List Key} {cs : List Call} (hc : ∀ c ∈ cs, InstrOk (instrOf c))
    (hK : ∀ c ∈ cs, ∀ y ∈ dataKeys (instrOf c) (c.build E.program).keys, y ∈ K)
    (hP : ∀ c ∈ cs, ∀ y ∈ (c.build E.program).keys, y ∈ P)
    (h : sends E L (cs.map (·.build E.program)) = .ok L') :
    (∀ y, y ∉ K → (L' y).data = (L y).data ∧ (L' y).owner = (L y).owner) ∧
    (∀ y, y ∉ K → y ∉ P → L' y = L y) ∧
    ∀ ks : List Key, ks.Nodup → (∀ y ∈ K, y ∈ ks) → (∀ y ∈ P, y ∈ ks) →
      total ks L < two64 → total ks L' = total ks L := by
  induction cs generalizing L with
  | nil => cases h; exact ⟨fun _ _ => ⟨rfl, rfl⟩, fun _ _ _ => rfl, fun _ _ _ _ _ => rfl⟩
  | cons c cs ih =>
    rw [List.map_cons] at h
    obtain ⟨L1, h1, h2⟩ := sends_head (hc c (by simp)) h
    obtain ⟨i1, i2, i3⟩ := ih (fun d h => hc d (by simp [h])) (fun d h => hK d (by simp [h]))
      (fun d h => hP d (by simp [h])) h2
    obtain ⟨k, rest, -, e⟩ := execute_effect h1
    have hK := hK c (by simp)
    have hP := hP c (by simp)
    refine ⟨?_, ?_, ?_⟩
    · intro y hy
      obtain ⟨a1, a2⟩ := e.data y fun h => hy (hK y h)
      obtain ⟨b1, b2⟩ := i1 y hy
      exact ⟨b1.trans a1, b2.trans a2⟩
    · intro y hy hy'
      rw [i2 y hy hy', e.other y (fun h => hy (hK y h)) (fun h => hy' (hP y h))]
    · intro ks hn h3 h4 ht
      have e1 := e.conserve ks hn (fun y h => h3 y (hK y h)) (fun y h => h4 y (hP y h)) ht
      rw [i3 ks hn h3 h4 (by omega), e1]

end

/-! ## The instructions -/

section
variable {ctx : JsContext} {fresh payer : Key} {x : JsUpdateArgs} {calls : List Call}

/-- The instructions that fill the buffer. -/
def jsFill (fresh payer : Key) (size : Nat) (e : Extn) : List Call :=
  jsAllocate fresh (some payer) ⟨e.1, UInt32.ofNat e.2.length, none⟩ ::
    (jsWrites size e.2).map fun w => .write fresh payer Key.system w

theorem jsFill_split {size : Nat} {e : Extn} (h0 : 0 < size) (h1 : size ≤ 1200)
    (h2 : size < e.2.length) : Split fresh payer e (jsFill fresh payer size e) := by
  obtain ⟨cs, c1, c2, c3⟩ := jsWrites_split (size := size) (data := e.2) h0
  refine ⟨⟨e.1, UInt32.ofNat e.2.length, none⟩, cs, true, ?_, rfl, rfl, c2, by simp [given],
    fun c hc => ⟨(c3 c hc).1, by have := (c3 c hc).2; omega⟩, fun _ => ⟨rfl, ?_⟩⟩
  · unfold jsFill
    rw [c1]
    cases cs with
    | nil => rfl
    | cons c cs =>
      simp only [List.map_cons, List.map_map, writesOf]
      rfl
  · intro c hc
    have : c ∈ cs := List.mem_of_mem_head? hc
    have := (c3 c this).2
    omega

/-- The instructions of an update through a buffer. -/
theorem jsUpdate_chunked (hp : x.payer = some payer) (hl : Spec.JsUpdateArgs.Chunked x)
    (h : jsUpdateWithBuffer ctx fresh x = .ok calls) :
    Writable x.extension ∧ (rustWrites x.extension).length < 4294967296 ∧
      0 < x.chunkSize.getD jsChunkSize ∧
      calls = jsFill fresh payer (x.chunkSize.getD jsChunkSize) (jsExtn x.extension) ++
        [.update x.asset (x.authority.getD ctx.identity) (some fresh) x.group (some payer)
          (some Key.system) ⟨x.name, x.isMutable, none⟩, .close fresh payer] := by
  unfold jsUpdateWithBuffer at h
  simp only [bind_ok, jsWriteExt_ok] at h
  obtain ⟨data, ⟨hw, rfl⟩, h⟩ := h
  by_cases h32 : 4294967296 ≤ (rustWrites x.extension).length
  · rw [if_pos h32] at h
    cases h
  · rw [if_neg h32] at h
    simp only [pure, Except.pure] at h
    rw [if_pos (show _ < _ from hl)] at h
    by_cases h0 : x.chunkSize.getD jsChunkSize = 0
    · rw [if_pos h0] at h
      cases h
    · rw [if_neg h0] at h
      refine ⟨hw, by omega, by omega, ?_⟩
      cases h
      rw [hp]
      rfl

/-- The only instruction of an update that fits a chunk. -/
theorem jsUpdate_inline (hl : ¬ Spec.JsUpdateArgs.Chunked x)
    (h : jsUpdateWithBuffer ctx fresh x = .ok calls) :
    Writable x.extension ∧ (rustWrites x.extension).length < 4294967296 ∧
      calls = [.update x.asset (x.authority.getD ctx.identity) x.buffer x.group x.payer
        (x.payer.map fun _ => Key.system) ⟨x.name, x.isMutable, some ⟨x.extension.type,
          UInt32.ofNat (rustWrites x.extension).length, some (rustWrites x.extension)⟩⟩] := by
  unfold jsUpdateWithBuffer at h
  simp only [bind_ok, jsWriteExt_ok] at h
  obtain ⟨data, ⟨hw, rfl⟩, h⟩ := h
  by_cases h32 : 4294967296 ≤ (rustWrites x.extension).length
  · rw [if_pos h32] at h
    cases h
  · rw [if_neg h32] at h
    simp only [pure, Except.pure] at h
    rw [if_neg (show ¬ _ < _ from hl)] at h
    cases h
    exact ⟨hw, by omega, rfl⟩

end

end Verif

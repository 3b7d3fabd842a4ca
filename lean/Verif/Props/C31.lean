import Verif.Lemmas.Chunks
import Verif.Lemmas.Accept
import Verif.Lemmas.CreateStores
import Verif.Props.C15

/-!
# C31 — Chunked allocation equals one-shot allocation
-/

namespace Verif.Props

open Verif Verif.Spec

section
variable {E : Env} {L L' : Ledger} {accts : List Key} {x : ExtInput} {a : Key}

/-- The bytes after Allocate: everything is there, or the extension is begun. -/
theorem allocate_open {base : Bytes} (h : execute E L accts (.allocate x) = .ok L')
    (hk : accts.head? = some a) (ho : Open (L a).data base) (hm : (L a).data.length ≤ 10485760)
    (hf : Fits x) (ht : x.ty ≠ .none) :
    (given x).length ≤ x.length.toNat ∧
    ((given x).length = x.length.toNat → (L' a).data = finished base x.ty (given x)) ∧
    ((given x).length ≠ x.length.toNat →
      (L' a).data = begun base x.ty x.length.toNat (given x) ∧
      ∃ es, Pending (L' a).data es x.ty x.length.toNat (given x)) := by
  obtain ⟨b, p, s, rest, rfl, hp⟩ := exec_allocate h
  obtain rfl : b = a := by simpa using hk
  rcases ho with ⟨h1, rfl⟩ | ⟨rfl, hb, es, hpk⟩
  · obtain ⟨e1, e2⟩ := allocate_empty_exact hp h1 hf
    obtain ⟨_, q1, _, q2⟩ := allocate_empty hp h1 hf ht
    exact ⟨q1, e1, fun hne => ⟨e2 hne, _, q2 hne⟩⟩
  · obtain ⟨e1, e2⟩ := allocate_complete_exact hp hb hpk hf ht
    obtain ⟨_, q1, _, q2⟩ := allocate_complete hp
      ⟨hb, _, hpk, fun i hi => byteAt_of_length_le hi⟩ (by omega) hf ht
    exact ⟨q1, e1, fun hne => ⟨e2 hne, _, q2 hne⟩⟩

/-- Allocating with all data at once appends the extension to the account. -/
theorem C31_whole {base : Bytes} (h : execute E L accts (.allocate x) = .ok L')
    (hk : accts.head? = some a) (ho : Open (L a).data base) (hm : (L a).data.length ≤ 10485760)
    (hf : Fits x) (ht : x.ty ≠ .none) (hall : (given x).length = x.length.toNat) :
    (L' a).data = finished base x.ty (given x) :=
  (allocate_open h hk ho hm hf ht).2.1 hall

/-- Appending to a begun extension until all data is there. -/
theorem appends_exact {L L' : Ledger} {cs : List Bytes} (h : Appends a L cs L') :
    ∀ {base p : Bytes} {es : List Extn} {t : ExtType} {n : Nat}, (L a).data = begun base t n p →
      Pending (L a).data es t n p → p.length < n → (∀ c ∈ cs, c ≠ []) →
      (p ++ cs.flatten).length = n →
      ∃ q, Accepted none t none (p ++ cs.flatten) q ∧ (L' a).data = finished base t q := by
  induction h with
  | refl L =>
    intro base p es t n _ _ h1 _ h2
    simp at h2
    omega
  | other hd hr ih =>
    intro base p es t n h1 h2 h3 h4 h5
    rw [← hd] at h1 h2
    exact ih h1 h2 h3 h4 h5
  | @write L1 L2 L3 c cs E accts hk hw hr ih =>
    intro base p es t n h1 h2 h3 h4 h5
    obtain ⟨b, pk, sk, rest, rfl, hp⟩ := exec_write hw
    obtain rfl : b = a := by simpa using hk
    have hlen : (p ++ (c :: cs).flatten).length = p.length + c.length + cs.flatten.length := by
      simp; omega
    rw [hlen] at h5
    have hle : p.length + c.length ≤ n := by omega
    have hassoc : p ++ (c :: cs).flatten = (p ++ c) ++ cs.flatten := by simp
    have hwp := write_pending hp h2 (by unfold written; simpa using hle)
    have htt : t ≠ .none := h2.2.1
    rcases write_exact hp h2 h1 hle with ⟨g1, g2⟩ | ⟨g1, q, g2, g3⟩
    · rcases hwp with ⟨_, w2⟩ | ⟨w1, _⟩
      · rw [hassoc]
        exact ih g2 w2 (by simpa using g1) (fun d hd => h4 d (by simp [hd]))
          (by simp only [List.length_append]; omega)
      · unfold written at w1
        simp at w1
        omega
    · have hnil : cs = [] := by
        cases cs with
        | nil => rfl
        | cons d ds =>
          have h6 := h4 d (by simp)
          have : 0 < d.length := List.length_pos_iff.mpr h6
          simp at h5
          omega
      subst hnil
      rw [hassoc]
      simp only [List.flatten_nil, List.append_nil]
      refine ⟨q, onCreate_accepted htt g2, ?_⟩
      rw [← g3]
      clear ih hlen hassoc hwp g3 h1 h2 hw hp hk h4 h5
      generalize hcs : ([] : List Bytes) = cs at hr
      induction hr with
      | refl => rfl
      | write => cases hcs
      | other hd _ ih => rw [ih hcs, hd]

/-- Allocating with a first chunk and appending the others, whatever the split: the extension is
appended to the account with the data that the program accepts for the whole. -/
theorem C31_chunked {base : Bytes} {cs : List Bytes} {L2 : Ledger}
    (h : execute E L accts (.allocate x) = .ok L')
    (hk : accts.head? = some a) (ho : Open (L a).data base) (hm : (L a).data.length ≤ 10485760)
    (hf : Fits x) (ht : x.ty ≠ .none) (hne : (given x).length ≠ x.length.toNat)
    (hw : Appends a L' cs L2) (hcs : ∀ c ∈ cs, c ≠ [])
    (hall : (given x ++ cs.flatten).length = x.length.toNat) :
    ∃ q, Accepted none x.ty none (given x ++ cs.flatten) q ∧
      (L2 a).data = finished base x.ty q := by
  obtain ⟨g1, _, g2⟩ := allocate_open h hk ho hm hf ht
  obtain ⟨g3, es, g4⟩ := g2 hne
  exact appends_exact hw g3 g4 (by omega) hcs hall

theorem accepted_other {au : Option Key} {t : ExtType} {p q : Bytes} (ht : t ≠ .creators)
    (h : Accepted au t none p q) : q = p := by
  cases t <;> simp only [Accepted] at h
  case creators => exact absurd rfl ht
  case grouping => exact h.2.2.1
  all_goals first | exact h | exact h.1

/-- For all types but Creators both ways leave the same bytes in the account. -/
theorem C31_same_partial {base : Bytes} {cs : List Bytes} {M M' L2 : Ledger} {E' : Env}
    {accts' : List Key} {x' : ExtInput}
    (h : execute E L accts (.allocate x) = .ok L') (hk : accts.head? = some a)
    (h' : execute E' M accts' (.allocate x') = .ok M') (hk' : accts'.head? = some a)
    (hd : (M a).data = (L a).data)
    (ho : Open (L a).data base) (hm : (L a).data.length ≤ 10485760)
    (hf : Fits x) (ht : x.ty ≠ .none ∧ x.ty ≠ .creators)
    (hne : (given x).length ≠ x.length.toNat)
    (hw : Appends a L' cs L2) (hcs : ∀ c ∈ cs, c ≠ [])
    (hall : (given x ++ cs.flatten).length = x.length.toNat)
    (hx : x' = ⟨x.ty, x.length, some (given x ++ cs.flatten)⟩) :
    (L2 a).data = (M' a).data := by
  obtain ⟨q, q1, q2⟩ := C31_chunked h hk ho hm hf ht.1 hne hw hcs hall
  subst hx
  obtain rfl := accepted_other ht.2 q1
  have hlt := hf.1
  have hf' : Fits ⟨x.ty, x.length, some (given x ++ cs.flatten)⟩ := by
    refine ⟨hlt, fun p hp => ?_⟩
    cases hp
    omega
  rw [q2, C31_whole h' hk' (by rw [hd]; exact ho) (by rw [hd]; exact hm) hf' ht.1 hall]
  rfl

/-- Creators: the same bytes up to the verified flags, which are clear after the last Write. -/
theorem C31_creators_partial {base : Bytes} {cs : List Bytes} {L2 : Ledger}
    (h : execute E L accts (.allocate x) = .ok L')
    (hk : accts.head? = some a) (ho : Open (L a).data base) (hm : (L a).data.length ≤ 10485760)
    (hf : Fits x) (ht : x.ty = .creators) (hne : (given x).length ≠ x.length.toNat)
    (hw : Appends a L' cs L2) (hcs : ∀ c ∈ cs, c ≠ [])
    (hall : (given x ++ cs.flatten).length = x.length.toNat) :
    ∃ q, q.length = x.length.toNat ∧
      creatorList q = (creatorList (given x ++ cs.flatten)).map (fun c => { c with verified := 0 }) ∧
      (L2 a).data = finished base .creators q := by
  obtain ⟨q, q1, q2⟩ := C31_chunked h hk ho hm hf (by rw [ht]; decide) hne hw hcs hall
  rw [ht] at q1 q2
  obtain ⟨_, _, r1, r2, _⟩ := q1
  refine ⟨q, by omega, ?_, q2⟩
  rw [r2]
  rfl

/-- No other extension can be allocated before all data is written. -/
theorem C31_order {es : List Extn} {t : ExtType} {n : Nat} {p : Bytes}
    (hp : Pending (L a).data es t n p) (hlt : p.length < n) (hk : accts.head? = some a)
    (hm : (L a).data.length ≤ 10485760) (hf : Fits x) (ht : x.ty ≠ .none) :
    ∃ e, execute E L accts (.allocate x) = .error e := by
  cases h : execute E L accts (.allocate x) with
  | error e => exact ⟨e, rfl⟩
  | ok L' =>
    obtain ⟨b, pk, s, rest, rfl, hpa⟩ := exec_allocate h
    obtain rfl : b = a := by simpa using hk
    have := (allocate_pending hpa hp (by omega) hf ht).1
    omega

end

section Examples
open Verif.Ex

/-- The accounts of Allocate and Write. -/
def bufferAccts : List Key := [k 1, k 5, Key.system]

/-- Allocating an extension of `n` bytes with a first chunk, then appending the others. -/
def inChunks (t : ExtType) (n : UInt32) (c : Bytes) (cs : List Bytes) : Except Err Ledger := do
  let L1 ← run withExt [k 1, k 5] bufferAccts (.allocate ⟨t, n, some c⟩)
  cs.foldlM (fun L c => run L [k 1, k 5] bufferAccts (.write ⟨false, c⟩)) L1

/-- The data of the account. -/
def dataOf (r : Except Err Ledger) : Except Err Bytes := r.map fun L => (L (k 1)).data

/-- Three chunks or one: the same account; 24 more bytes than the buffer had. -/
example : dataOf (inChunks .blob 5 [0, 1] [[2, 3], [4]]) = dataOf (inChunks .blob 5 [0, 1, 2, 3, 4] []) ∧
    (dataOf (inChunks .blob 5 [0, 1] [[2, 3], [4]])).map (·.length) = .ok 216 := by decide +kernel
/-- The buffer is open. -/
example : Open (withExt (k 1)).data (withExt (k 1)).data := by
  refine Or.inr ⟨rfl, ⟨by decide +kernel, by decide +kernel⟩, [(.attributes, [1, 97, 1, 98])], ?_⟩
  rw [show (withExt (k 1)).data.length = 192 by decide +kernel]
  exact Packed.cons (by decide) (by decide +kernel) (by decide +kernel) (by decide +kernel)
    (by decide +kernel) (Packed.nil (by decide +kernel))
example : Fits ⟨.blob, 5, some [0, 1]⟩ := by
  refine ⟨?_, fun p hp => ?_⟩
  · show (5 : Nat) ≤ 10485760; omega
  · cases hp; show (2 : Nat) < 4294967296; omega
/-- A chunk is missing: nothing else can be allocated. -/
example : (dataOf do
    let L1 ← inChunks .blob 5 [0, 1] [[2, 3]]
    run L1 [k 1, k 5] bufferAccts (.allocate ⟨.links, 4, some [1, 97, 1, 98]⟩)) =
    .error (.asset .incompleteExtensionData) := by decide +kernel

/-- A creator that claims to be verified. -/
def boaster : Bytes := (k 7).1 ++ [1, 100]

/-- The property is false for Creators: the last Write clears the flags, Allocate does not. -/
theorem C31_false :
    (dataOf (inChunks .creators 34 [7] [boaster.drop 1])).map (byteAt · (192 + 16 + 32)) = .ok 0 ∧
    (dataOf (inChunks .creators 34 boaster [])).map (byteAt · (192 + 16 + 32)) = .ok 1 := by
  decide +kernel

end Examples

end Verif.Props

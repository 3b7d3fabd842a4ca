import Verif.Spec.Calls
import Verif.Lemmas.Life
import Verif.Props.C15
import Verif.Props.C30
import Verif.Props.C31

/-!
# Lemmas on the instructions of `mint`
-/

namespace Verif

open Verif.Spec Verif.Props

/-! ## Chunks -/

theorem chunksOf_flatten (n : Nat) : ∀ (fuel : Nat) (b : Bytes), b.length ≤ fuel →
    (chunksOf n fuel b).flatten = b
  | 0, b, h => by
    have : b = [] := List.eq_nil_of_length_eq_zero (by omega)
    subst this; rfl
  | fuel + 1, b, h => by
    unfold chunksOf
    split
    · rename_i hb
      simp at hb; subst hb; rfl
    · rw [List.flatten_cons, chunksOf_flatten n fuel _ (by simp; omega), List.take_append_drop]

theorem chunksOf_ne_nil (n : Nat) : ∀ (fuel : Nat) (b : Bytes), ∀ c ∈ chunksOf n fuel b, c ≠ []
  | 0, b, c, h => by simp [chunksOf] at h
  | fuel + 1, b, c, h => by
    unfold chunksOf at h
    split at h
    · simp at h
    · rename_i hb
      rcases List.mem_cons.mp h with rfl | h
      · intro h0
        rw [List.take_eq_nil_iff] at h0
        simp at hb
        rcases h0 with h0 | h0
        · omega
        · exact hb h0
      · exact chunksOf_ne_nil n fuel _ c h

theorem chunksOf_length (n : Nat) : ∀ (fuel : Nat) (b : Bytes),
    ∀ c ∈ chunksOf n fuel b, c.length ≤ n + 1
  | 0, b, c, h => by simp [chunksOf] at h
  | fuel + 1, b, c, h => by
    unfold chunksOf at h
    split at h
    · simp at h
    · rcases List.mem_cons.mp h with rfl | h
      · simp; omega
      · exact chunksOf_length n fuel _ c h

/-! ## Wire format -/

theorem Call.data_eq (program : Key) (c : Call) : (c.build program).data = encode (instrOf c) := by
  cases c <;>
    simp [Call.build, Call.discriminator, Call.args, encode, instrOf, encCreateInput,
      encUpdateInput, encWriteInput]

theorem executeBytes_call {E : Env} {L L' : Ledger} {program : Key} {c : Call}
    (hc : InstrOk (instrOf c))
    (h : executeBytes E L (c.build program).keys (c.build program).data = .ok L') :
    execute E L (c.build program).keys (instrOf c) = .ok L' := by
  rw [Call.data_eq] at h
  obtain ⟨i, h1, h2, h3⟩ := C30_execute.mp h
  rw [C30_injective hc h1 h2]
  exact h3

/-! ## Histories -/

section
variable {program k : Key} {L L' : Ledger}

theorem Spec.Submitted.head {x : ClientIx} {xs : List ClientIx}
    (h : Submitted program k L (x :: xs) L') :
    ∃ L0 E L1, (L0 k).data = (L k).data ∧ ((L k).owner = program → (L0 k).owner = program) ∧
      E.program = program ∧ (∀ a, E.origLen a = (L0 a).data.length) ∧
      executeBytes E L0 x.keys x.data = .ok L1 ∧ Submitted program k L1 xs L' := by
  generalize hx : x :: xs = ys at h
  induction h with
  | done => cases hx
  | send E hp hl h hr _ => cases hx; exact ⟨_, E, _, rfl, id, hp, hl, h, hr⟩
  | other hd ho hr ih =>
    obtain ⟨L0, E, L1, h1, h2, h3, h4, h5, h6⟩ := ih hx
    exact ⟨L0, E, L1, h1.trans hd, fun h => h2 (ho h), h3, h4, h5, h6⟩

theorem Spec.Submitted.last (h : Submitted program k L [] L') :
    (L' k).data = (L k).data ∧ ((L k).owner = program → (L' k).owner = program) := by
  generalize hx : ([] : List ClientIx) = ys at h
  induction h with
  | done => exact ⟨rfl, id⟩
  | send => cases hx
  | other hd ho hr ih =>
    obtain ⟨h1, h2⟩ := ih hx
    exact ⟨h1.trans hd, fun h => h2 (ho h)⟩

/-- The Writes of a list append their chunks. -/
theorem Spec.Submitted.appends {payer sys : Key} {rest : List ClientIx} :
    ∀ {cs : List Bytes} {L : Ledger}, (∀ c ∈ cs, Short c) → (L k).data.length ≤ 10485760 →
      Submitted program k L ((cs.map fun c =>
        (Call.write k payer sys ⟨false, c⟩).build program) ++ rest) L' →
      ∃ L2, Appends k L cs L2 ∧ (L2 k).data.length ≤ 10485760 ∧ Submitted program k L2 rest L'
  | [], L, _, hm, h => ⟨L, Appends.refl L, hm, h⟩
  | c :: cs, L, hc, hm, h => by
    obtain ⟨L0, E, L1, h1, _, h2, h3, h4, h5⟩ := h.head
    have h4' := executeBytes_call (c := Call.write k payer sys ⟨false, c⟩) (hc c (by simp)) h4
    have hm1 := execute_maxLen (k := k) h4' (by simp [ClientIx.keys, Call.build, Call.metas, metaRw])
      (by rw [h1]; exact hm)
    obtain ⟨L2, g1, g2, g3⟩ := appends (cs := cs) (fun c h => hc c (by simp [h])) hm1 h5
    exact ⟨L2, Appends.other h1 (Appends.write E _ (by rfl) h4' g1), g2, g3⟩

end

/-! ## Buffers -/

/-- The extensions `es` are written to the account, and nothing else. -/
def Ready (d : Bytes) (es : List Extn) : Prop :=
  (d = [] ∧ es = []) ∨ (Blank d ∧ Packed d 168 es d.length)

theorem blank_zeros {n : Nat} (h : 168 ≤ n) : Blank (List.replicate n 0) := by
  refine ⟨by rw [List.length_replicate]; exact h, ?_⟩
  intro i hi
  simp [byteAt, List.getD_eq_getElem?_getD, List.getElem?_replicate, Nat.lt_of_lt_of_le hi h]

theorem packed_zeros (n : Nat) :
    Packed (List.replicate n 0) n [] (List.replicate n (0 : UInt8)).length := by
  rw [List.length_replicate]
  exact Packed.nil (by rw [List.length_replicate]; exact Nat.le_refl _)

theorem Ready.open {d : Bytes} {es : List Extn} (h : Ready d es) :
    ∃ base, Open d base ∧ Blank base ∧ Packed base 168 es base.length := by
  rcases h with ⟨rfl, rfl⟩ | ⟨h1, h2⟩
  · exact ⟨List.replicate 168 0, Or.inl ⟨rfl, rfl⟩, blank_zeros (Nat.le_refl _), packed_zeros 168⟩
  · exact ⟨d, Or.inr ⟨rfl, h1, es, h2⟩, h1, h2⟩

theorem Ready.unborn {L : Ledger} {k : Key} {es : List Extn} (h : Ready (L k).data es) :
    Unborn L k es := by
  rcases h with h | ⟨h1, h2⟩
  · exact Or.inl h
  · refine Or.inr (Or.inl ⟨h1, _, h2, ?_⟩)
    intro i hi
    simp [byteAt, List.getD_eq_getElem?_getD, List.getElem?_eq_none hi]

theorem slice_mid (a b c : Bytes) (o n : Nat) (ho : o = a.length) (hn : n = b.length) :
    slice (a ++ b ++ c) o n = b := by
  subst ho hn
  unfold slice
  simp

/-- Appending an extension to a packed list. -/
theorem finished_ready {base q : Bytes} {es : List Extn} {t : ExtType} (hb : Blank base)
    (hp : Packed base 168 es base.length) (ht : t ≠ .none)
    (hm : (finished base t q).length ≤ 10485760) :
    Ready (finished base t q) (es ++ [(t, q)]) := by
  have hru := le_roundUp8 (base.length + 16 + q.length)
  have hlen : (finished base t q).length = roundUp8 (base.length + 16 + q.length) := by
    unfold finished
    simp [length_begun]
    omega
  rw [hlen] at hm
  have htl : t.toU32 < 256 ^ 4 := by cases t <;> decide
  refine Or.inr ⟨⟨by rw [hlen]; have := hb.1; omega, ?_⟩, ?_⟩
  · intro i hi
    have := hb.2 i hi
    have h168 := hb.1
    unfold byteAt at *
    unfold finished begun
    rw [List.append_assoc, List.append_assoc, List.getD_eq_getElem?_getD, List.getElem?_append_left
      (by omega), ← List.getD_eq_getElem?_getD]
    exact this
  · rw [packed_append]
    refine ⟨base.length, hp.congr (by rw [hlen]; omega) ?_, ?_⟩
    · intro i _ hi
      unfold finished begun
      rw [List.append_assoc, List.append_assoc, List.getElem?_append_left hi]
    · rw [hlen]
      generalize hz : List.replicate (roundUp8 (base.length + 16 + q.length) -
        (base.length + 16 + q.length)) (0 : UInt8) = z
      have hf : finished base t q = base ++ toLE 4 t.toU32 ++ toLE 4 q.length ++
          toLE 4 (roundUp8 (base.length + 16 + q.length)) ++ List.replicate 4 0 ++ q ++ z := by
        unfold finished begun headOf
        rw [hz]
        simp
      refine Packed.cons ht ?_ ?_ ?_ ?_ (Packed.nil (by rw [hlen]; exact Nat.le_refl _))
      · rw [hf]
        have := slice_mid base (toLE 4 t.toU32) (toLE 4 q.length ++
          toLE 4 (roundUp8 (base.length + 16 + q.length)) ++ List.replicate 4 0 ++ q ++ z)
          base.length 4 rfl (length_toLE 4 _).symm
        simp only [List.append_assoc] at this ⊢
        rw [this, leNat_toLE_of_lt htl]
      · rw [hf]
        have := slice_mid (base ++ toLE 4 t.toU32) (toLE 4 q.length)
          (toLE 4 (roundUp8 (base.length + 16 + q.length)) ++ List.replicate 4 0 ++ q ++ z)
          (base.length + 4) 4 (by simp [length_toLE]) (length_toLE 4 _).symm
        simp only [List.append_assoc] at this ⊢
        rw [this, leNat_toLE_of_lt (by omega)]
      · rw [hf]
        have := slice_mid (base ++ toLE 4 t.toU32 ++ toLE 4 q.length)
          (toLE 4 (roundUp8 (base.length + 16 + q.length))) (List.replicate 4 0 ++ q ++ z)
          (base.length + 8) 4 (by simp [length_toLE]) (length_toLE 4 _).symm
        simp only [List.append_assoc] at this ⊢
        rw [this, leNat_toLE_of_lt (by omega)]
      · rw [hf]
        exact slice_mid (base ++ toLE 4 t.toU32 ++ toLE 4 q.length ++
          toLE 4 (roundUp8 (base.length + 16 + q.length)) ++ List.replicate 4 0) q z
          (base.length + 16) q.length (by simp [length_toLE]) rfl

/-! ## Acceptance -/

/-- Data accepted without authority and then with one is accepted with it. -/
theorem accepted_trans {au : Key} {t : ExtType} {p q r : Bytes} (h : Accepted none t none p q)
    (h' : Accepted (some au) t none q r) : Accepted (some au) t none p r := by
  cases t <;> simp only [Accepted] at h h' ⊢
  case creators =>
    obtain ⟨_, a1, a2, a3, a4, a5⟩ := h
    obtain ⟨_, b1, b2, b3, b4, b5⟩ := h'
    refine ⟨(by intro o h; cases h), a1, by omega, ?_, b4, by simp⟩
    rw [b3, a3, List.map_map]
    rfl
  case grouping =>
    obtain ⟨_, _, rfl, _⟩ := h
    exact h'
  all_goals first
    | exact h'.trans h
    | (obtain ⟨rfl, _⟩ := h; exact h')

/-! ## Data in pieces -/

section
variable {k : Key} {es : List Extn}

/-- On an extension without data, overwriting with a part of the data is appending it. -/
theorem write_first {E : Env} {L : Ledger} {t : ExtType} {n : Nat} {c : Bytes} {pk sk : Key}
    (h : Pending (L k).data es t n []) (hc : c.length < n) (o : Bool) :
    processWrite E L k pk sk ⟨o, c⟩ = processWrite E L k pk sk ⟨false, c⟩ := by
  obtain ⟨m, _, hl, hlast⟩ := lastExtension_pending h
  cases o with
  | false => rfl
  | true =>
    simp only [List.length_nil, Nat.add_zero] at hl
    unfold processWrite
    simp only [hlast, bind, Except.bind, hl, if_true, Bool.false_eq_true, if_false]
    rw [if_neg (show ¬ (m + 16 + c.length = m + 16 + n) by omega)]

theorem execute_write_first {E : Env} {L : Ledger} {t : ExtType} {n : Nat} {c : Bytes}
    {accts : List Key} (hk : accts.head? = some k)
    (h : Pending (L k).data es t n []) (hc : c.length < n) (o : Bool) :
    execute E L accts (.write ⟨o, c⟩) = execute E L accts (.write ⟨false, c⟩) := by
  rcases accts with _ | ⟨a, _ | ⟨b, _ | ⟨s, rest⟩⟩⟩
  · cases hk
  · rfl
  · rfl
  · obtain rfl : a = k := by simpa using hk
    have e : ∀ x, dispatch E L (.write x) (((a :: b :: s :: rest)).take 7) =
        processWrite E L a b s x := fun x => rfl
    unfold execute processInstr
    rw [e, e, write_first h hc]
    rfl

/-- Writes with the given chunks, the first of them with the given flag. -/
def writesOf (k p : Key) (o : Bool) : List Bytes → List Call
  | [] => []
  | c :: cs => .write k p Key.system ⟨o, c⟩ :: cs.map fun c => .write k p Key.system ⟨false, c⟩

theorem writesOf_false (k p : Key) (cs : List Bytes) :
    writesOf k p false cs = cs.map fun c => .write k p Key.system ⟨false, c⟩ := by
  cases cs <;> rfl

/-- The calls bring the extension `e` into the account: Allocate with the first part of the data,
Writes with the rest. The first Write may overwrite, if there was no data and it is not the last. -/
def Split (k p : Key) (e : Extn) (calls : List Call) : Prop :=
  ∃ x cs o, calls = Call.allocate k (some p) (some Key.system) x :: writesOf k p o cs ∧
    x.ty = e.1 ∧ x.length = UInt32.ofNat e.2.length ∧ given x ++ cs.flatten = e.2 ∧
    (given x).length ≤ 1200 ∧ (∀ c ∈ cs, c ≠ [] ∧ c.length ≤ 1200) ∧
    (o = true → given x = [] ∧ ∀ c, cs.head? = some c → c.length < e.2.length)

/-- How the Rust client splits the data. -/
theorem mintExt_split (k p : Key) (e : Extn) : Split k p e (mintExt k p e) := by
  have em : maxAllocateData = 920 := rfl
  refine ⟨⟨e.1, UInt32.ofNat e.2.length, some (e.2.take (min e.2.length maxAllocateData))⟩,
    laterChunks e.2, false, ?_, rfl, rfl, ?_, ?_, ?_, (by intro h; cases h)⟩
  · rw [writesOf_false]; rfl
  · simp only [given, Option.getD_some]
    unfold laterChunks
    split
    · rename_i hlong
      rw [chunksOf_flatten _ _ _ (by simp), Nat.min_eq_right (by omega), List.take_append_drop]
    · rename_i hlong
      rw [Nat.min_eq_left (by omega), List.take_length]
      simp
  · simp only [given, Option.getD_some, List.length_take]
    omega
  · intro c hc
    unfold laterChunks at hc
    split at hc
    · exact ⟨chunksOf_ne_nil _ _ _ c hc, by
        have := chunksOf_length _ _ _ c hc
        unfold maxWriteData at this
        omega⟩
    · cases hc

end

end Verif

import Verif.Lemmas.Aligned
import Verif.Lemmas.Reads
import Verif.Props.C19
import Verif.Props.C51

/-!
# C90 — numbers are only read where they may lie
-/

namespace Verif.Props

open Verif Verif.Spec Verif.Ex

/-- **C90**, in accounts: the extensions of an asset lie at multiples of 8, so all views of
their data are aligned, wherever the data of the account (a multiple of 8) is. -/
theorem C90_stored {d : Bytes} {pre post : List Extn} {t : ExtType} {p : Bytes} {e : Nat}
    (h : Packed d 168 (pre ++ (t, p) :: post) e) (hr : Regular t p) :
    ∃ off, Packed d 168 pre off ∧ 8 ∣ off ∧ leNat (slice d off 4) = t.toU32 ∧
      slice d (off + 16) p.length = p ∧
      ∀ base, 8 ∣ base → Aligned (base + (off + 16)) (views t p) := by
  obtain ⟨off, h1, h2⟩ := packed_append.mp h
  have hm := packed_mod h1 (by decide)
  cases h2 with
  | cons _ h0 _ _ hp _ =>
    refine ⟨off, h1, Nat.dvd_of_mod_eq_zero hm, h0, hp, fun base hb v hv => ?_⟩
    exact (views_regular hr v hv).dvd (by omega)

private theorem checked {E : Env} {L L' : Ledger} {accts : List Key} {x : UpdateInput}
    (h : execute E L accts (.update x) = .ok L') :
    executeAligned E L accts (.update x) = if alignedInput x then .ok L' else .error .panic := by
  unfold executeAligned
  rw [h]
  change _ = if (Instr.update x).aligned then _ else _
  simp only [bind, Except.bind, require]
  by_cases ha : (Instr.update x).aligned = true
  · rw [if_pos ha, if_pos ha]; rfl
  · rw [if_neg ha, if_neg ha]

/-- **C90**, in arguments: an Update with data for a group or for royalties, made by the builders, goes
through exactly if the lengths of the new name and of the data add up to a multiple of 8. Otherwise it
panics. -/
theorem C90_update_partial {E : Env} {L L' : Ledger} {accts : List Key} {x : UpdateInput}
    (h : execute E L accts (.update x) = .ok L') {e : ExtInput} {p : Bytes}
    (he : x.extension = some e) (hp : e.data = some p) (hr : Regular e.ty p) (hn : Numeric e.ty)
    (hs : nameLength x + p.length ≤ 32768) :
    (8 ∣ nameLength x + p.length → executeAligned E L accts (.update x) = .ok L') ∧
    (¬ 8 ∣ nameLength x + p.length → executeAligned E L accts (.update x) = .error .panic) := by
  have key : alignedInput x = true ↔ 8 ∣ nameLength x + p.length := by
    have e1 : alignedInput x = alignedAt (inlineAddr x p) (views e.ty p) := by
      unfold alignedInput; rw [he]; simp only [hp]
    rw [e1, alignedAt_iff, aligned_iff _ hr hn, inlineAddr_eq x p (regular_length hr hn) hs]
    unfold heapTop
    omega
  rw [checked h]
  exact ⟨fun h8 => if_pos (key.mpr h8), fun h8 => if_neg fun c => h8 (key.mp c)⟩

/-- **C90**: an Update without a new name is not affected, as the builders make data of 8, 16, … bytes. -/
theorem C90_unnamed_partial {E : Env} {L L' : Ledger} {accts : List Key} {x : UpdateInput}
    (h : execute E L accts (.update x) = .ok L') (hx : x.name = none)
    (hr : ∀ e p, x.extension = some e → e.data = some p →
      Regular e.ty p ∧ (e.ty = .grouping → 8 ∣ p.length) ∧ p.length ≤ 32768) :
    executeAligned E L accts (.update x) = .ok L' := by
  have h0 : nameLength x = 0 := by unfold nameLength; rw [hx]; rfl
  rcases he : x.extension with _ | e
  · rw [checked h]; unfold alignedInput
    rw [he]; rfl
  rcases hp : e.data with _ | p
  · rw [checked h]; unfold alignedInput
    rw [he]; simp only [hp]; rfl
  obtain ⟨h1, h2, h3⟩ := hr e p he hp
  by_cases hn : Numeric e.ty
  · refine (C90_update_partial h he hp h1 hn (by omega)).1 ?_
    rw [h0, Nat.zero_add]
    rcases hn with hn | hn
    · exact h2 hn
    · obtain ⟨bp, c, _, rfl⟩ := h1.2 hn
      rw [royaltiesBuilderSet, List.length_append, length_toLE]
      have := length_buildC_mod c
      omega
  · rw [checked h]; unfold alignedInput
    rw [he]
    simp only [hp]
    rw [views_plain p hn]
    rfl

/-- Where the data in the arguments of Update lies: below the name at the end of the heap; data of length
zero lies nowhere, and its address is 1. -/
theorem C90_address {x : UpdateInput} {p : Bytes} (h : nameLength x + p.length ≤ 32768) :
    (p = [] → inlineAddr x p = 1) ∧
    (p ≠ [] → inlineAddr x p + nameLength x + p.length = 12884901888 + 32768) := by
  constructor
  · rintro rfl
    rfl
  · intro hp
    have hl : p.length ≠ 0 := by simpa using hp
    unfold inlineAddr vecAlloc nameLength heapTop at *
    rw [if_neg hl]
    split <;> simp only at * <;> omega

/-- **C90**: what succeeds with the panics succeeds without them, with the same result. All statements on what an instruction that succeeds
has done therefore hold with the panics, too. -/
theorem C90_safe {E : Env} {L L' : Ledger} {accts : List Key} {i : Instr}
    (h : executeAligned E L accts i = .ok L') : execute E L accts i = .ok L' := by
  unfold executeAligned at h
  obtain ⟨L1, h1, h2⟩ := bind_ok.mp h
  obtain ⟨_, _, h3⟩ := bind_ok.mp h2
  cases h3
  exact h1

/-- **C51** with alignment: an Update of an extension, with data as the builders make it, succeeds exactly
when the mutable asset's authority signs and, for a group and for royalties, the lengths of the new name and
of the data add up to a multiple of 8. -/
theorem C51_update_aligned {E : Env} {L : Ledger} {k s g p y : Key} {rest : List Key} {A : Asset}
    {x : UpdateInput} {e : ExtInput} {b q : Bytes} (hs : Stores E.program L k A)
    (hu : Usable E k A) (hf : Fresh E L k)
    (hc : ∀ z ∈ s :: E.program :: g :: p :: y :: rest, Whole E.program L z)
    (hx : x.extension = some e) (ht : e.ty ≠ .none)
    (hq : UpdatesTo s e (lookup e.ty A.exts) q)
    (ho : Unobstructed L k A e.ty q.length)
    (hr : RoomFor E L k A e.ty q (optAcc E p) (optAcc E y))
    (hb : e.data = some b) (hreg : Regular e.ty b) (hl : nameLength x + b.length ≤ 32768) :
    (∃ L', executeAligned E L (k :: s :: E.program :: g :: p :: y :: rest) (.update x) = .ok L' ∧
      Stores E.program L' k { A.retitled x with exts := setExt e.ty q A.exts }) ↔
    (E.signer s = true ∧ A.authority = s ∧ A.mutableByte ≠ 0) ∧
      (Numeric e.ty → 8 ∣ nameLength x + b.length) := by
  have key := C51_update (k := k) (s := s) (g := g) (p := p) (y := y) (rest := rest) hs hu hf hc hx ht hq
    ho hr
  constructor
  · rintro ⟨L', h, hS⟩
    have h' := C90_safe h
    refine ⟨key.mp ⟨L', h', hS⟩, fun hn => ?_⟩
    by_cases h8 : 8 ∣ nameLength x + b.length
    · exact h8
    · rw [(C90_update_partial h' hx hb hreg hn hl).2 h8] at h
      cases h
  · rintro ⟨h1, h2⟩
    obtain ⟨L', h', hS⟩ := key.mpr h1
    refine ⟨L', ?_, hS⟩
    by_cases hn : Numeric e.ty
    · exact (C90_update_partial h' hx hb hreg hn hl).1 (h2 hn)
    · rw [checked h']
      unfold alignedInput
      rw [hx]
      simp only [hb]
      rw [views_plain b hn]
      rfl

/-- **C90**: the other instructions take no such view of their arguments. -/
theorem C90_others {E : Env} {L : Ledger} {accts : List Key} {i : Instr} (h : ∀ x, i ≠ .update x) :
    executeAligned E L accts i = execute E L accts i := by
  unfold executeAligned
  cases hx : execute E L accts i with
  | error => rfl
  | ok L1 =>
    cases i with
    | update x => exact absurd rfl (h x)
    | _ => rfl

/-- An Update of the asset `k 1` with a new name and a group of at most 5. -/
def renameGroup (name : Bytes) : Instr :=
  .update ⟨some name, none, some ⟨.grouping, 48, some (groupingBuilderSet (some 5) none)⟩⟩

/-- An Update of the asset `k 1` with a new name and royalties. -/
def renameRoyalties (name : Bytes) : Instr :=
  .update ⟨some name, none, some ⟨.royalties, 16, some (plainRoyalties 500)⟩⟩

/-- **C90** fails: the Update of a group goes through with a name of 8 letters, and panics with one of
3, although there is nothing wrong with it. -/
theorem C90_group_false :
    let go := fun n => executeAligned (env simple [k 3, k 5]) simple
      [k 1, k 3, prog, prog, k 5, Key.system] (renameGroup n)
    (run simple [k 3, k 5] [k 1, k 3, prog, prog, k 5, Key.system] (renameGroup [65, 66, 67])).isOk
      = true ∧
    (go [65, 66, 67]).map (fun _ => ()) = .error .panic ∧
    (go [65, 66, 67, 68, 69, 70, 71, 72]).isOk = true := by decide +kernel

/-- … and the same with royalties. -/
theorem C90_royalties_false :
    let go := fun n => executeAligned (env simple [k 3, k 5]) simple
      [k 1, k 3, prog, prog, k 5, Key.system] (renameRoyalties n)
    (run simple [k 3, k 5] [k 1, k 3, prog, prog, k 5, Key.system]
      (renameRoyalties [65, 66, 67])).isOk = true ∧
    (go [65, 66, 67]).map (fun _ => ()) = .error .panic ∧
    (go []).isOk = true := by decide +kernel

/-- One property `name` with a number. -/
def oneNumber (name : Bytes) : Bytes := UInt8.ofNat name.length :: name ++ [1] ++ toLE 8 7

/-- **C90** fails for the numbers of properties: the number of a property `version`, the
only one, in the first extension of an asset, is read at offset 193. That of `points` is read
at 192. -/
theorem C90_number_false :
    ((propSlots 20 (oneNumber [118, 101, 114, 115, 105, 111, 110]) 184).map numberViews) =
      .ok [(193, 8)] ∧ ¬ Aligned 0 [(193, 8)] ∧
    ((propSlots 20 (oneNumber [112, 111, 105, 110, 116, 115]) 184).map numberViews) =
      .ok [(192, 8)] ∧ Aligned 0 [(192, 8)] := by
  refine ⟨by decide +kernel, ?_, by decide +kernel, ?_⟩
  · intro h
    exact absurd (h _ (List.mem_singleton.mpr rfl)) (by decide)
  · intro v hv
    rcases List.mem_singleton.mp hv with rfl
    decide

/-- A constraint whose `Empty` has one byte too many puts what follows at an odd place, also in an
account. -/
example : alignedAt 0 (views .royalties (toLE 8 500 ++ opBytes 0 (opBytes 5 [0] ++ opBytes 5 []))) = false ∧
    alignedAt 0 (views .royalties (royaltiesBuilderSet 500 (buildC (.and [.empty, .not (.ownedBy 1 [k 7])]))))
      = true ∧
    views .royalties (royaltiesBuilderSet 500 (buildC (.and [.empty, .not (.ownedBy 1 [k 7])]))) =
      [(0, 8), (8, 4), (16, 4), (24, 4), (32, 4), (40, 8)] := by decide +kernel

example : Regular .royalties (plainRoyalties 500) := by
  refine ⟨nofun, fun _ => ⟨500, .empty, ?_, rfl⟩⟩
  rw [buildC_empty, length_opBytes]
  decide

end Verif.Props

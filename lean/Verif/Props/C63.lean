import Verif.Spec.Inline
import Verif.Lemmas.Inline
import Verif.Props.C52

/-!
# C63 — creating an asset with a single instruction
-/

namespace Verif.Props

open Verif Verif.Spec

section
variable {E : Env} {L L' : Ledger} {k au owner ga p : Key} {x : CreateInput} {rest : List Key}

/-- Creation with all extensions in the instruction goes through when the extensions are acceptable,
fit the standard and the payer can pay. -/
theorem C63_accepted (hx : InlineOk au (asked x)) (hst : StandardFits E k x.standard ((asked x).map asExtn))
    (hp : Payable E L k p (packedEnd 168 ((asked x).map asExtn)))
    (hf : ∀ y ∈ asked x, Fits y)
    (hl : ∀ a, E.origLen a = (L a).data.length) (h64 : (L p).lamports < 18446744073709551616)
    (hprog : E.program ≠ Key.system ∧ p ≠ E.program)
    (hwh : ∀ y ∈ [au, owner, E.program, ga, Key.system] ++ rest, Whole E.program L y) :
    ∃ L' es, execute E L (k :: au :: owner :: E.program :: ga :: p :: Key.system :: rest)
        (.create x) = .ok L' ∧
      Stores E.program L' k (newAsset x owner au none es) ∧
      Tight L' k (newAsset x owner au none es) ∧
      List.Forall₂ (Born au) ((createOrder (asked x)).map asExtn) es ∧
      (L' p).lamports + (L' k).lamports = (L p).lamports ∧
      ∀ y, y ≠ k → y ≠ p → L' y = L y := by
  have hd : (L k).data = [] := by rw [hp.unused]
  have hu : Underway E.program L k p (L p).lamports :=
    ⟨hp.other, hp.wallet, by rw [hp.unused]; rfl, fun _ => hp.unused, fun h => absurd hd h⟩
  have hs : Serves E L k p := ⟨hp.signer, hp.writable, hl k⟩
  obtain ⟨L', c1, c2, c3, c4⟩ := create_inline_live (au := au) (owner := owner) (x := x)
    (ga := optAcc E ga) hu hs hd (fun y hy => ⟨hf y hy, (hx.2 y hy).1, (hx.2 y hy).2.1⟩) hx.1
    (by
      intro y hy
      obtain ⟨h1, _, h2, q, _, h3⟩ := hx.2 y hy
      exact ⟨q, (onCreate_iff h1).mpr ⟨h3, h2⟩⟩)
    hst hp.small hp.rent h64
  have hex : execute E L (k :: au :: owner :: E.program :: ga :: p :: Key.system :: rest)
      (.create x) = .ok L' := by
    refine accept_open hu hs (fun h => absurd hd h) rfl ?_ hprog.1 rfl ?_ c2 ?_
    · intro y hy h1 h2
      simp only [List.mem_cons] at hy
      rcases hy with h | h | h | h | h | h | h | h
      · exact absurd h h1
      · exact hwh y (by simp [h])
      · exact hwh y (by simp [h])
      · exact hwh y (by simp [h])
      · exact hwh y (by simp [h])
      · exact absurd h h2
      · exact hwh y (by simp [h])
      · exact hwh y (by simp [h])
    · show processCreate E L k au owner (optAcc E E.program) (optAcc E ga) (optAcc E p)
        (optAcc E Key.system) x = _
      rw [show optAcc E E.program = none from if_pos rfl,
        show optAcc E p = some p from if_neg hprog.2,
        show optAcc E Key.system = some Key.system from if_neg (Ne.symm hprog.1)]
      exact c1
    · have := hp.small
      omega
  obtain ⟨a, au', o, g, ga', p', s', rest', es, hacc, _, _, hst', hborn, _⟩ := create_stores (es := [])
    hex hl
    (by intro a ha; cases ha; exact Or.inl ⟨hd, rfl⟩)
    (by intro a ha; cases ha; rw [hd]; simp)
    (fun y hy => ⟨hf y hy, (hx.2 y hy).1⟩)
  simp only [List.cons.injEq] at hacc
  obtain ⟨rfl, rfl, rfl, rfl, rfl, rfl, rfl, rfl⟩ := hacc
  rw [show optAcc E E.program = none from if_pos rfl] at hst'
  refine ⟨L', es, hex, hst', ?_, hborn, ?_, c2.others⟩
  · show (L' k).data.length = packedEnd 168 es
    rw [c4, ← packedEnd_perm ((createOrder_perm (asked x)).map asExtn)]
    exact (packedEnd_born hborn).symm
  · rw [c2.sum, hp.unused]
    rfl

theorem forall2_mem_left {α β : Type} {R : α → β → Prop} {xs : List α} {ys : List β}
    (h : List.Forall₂ R xs ys) {x : α} (hx : x ∈ xs) : ∃ y ∈ ys, R x y := by
  induction h with
  | nil => cases hx
  | cons hr _ ih =>
    rcases List.mem_cons.mp hx with rfl | hx
    · exact ⟨_, by simp, hr⟩
    · obtain ⟨y, h1, h2⟩ := ih hx
      exact ⟨y, by simp [h1], h2⟩

theorem forall2_types_born {au : Key} {a b : List Extn} (h : List.Forall₂ (Born au) a b) :
    b.map (·.1) = a.map (·.1) := by
  induction h with
  | nil => rfl
  | cons h _ ih => rw [List.map_cons, List.map_cons, ih, h.1]

/-- And only then. -/
theorem C63_needed (h : execute E L (k :: au :: owner :: E.program :: ga :: p :: Key.system :: rest)
      (.create x) = .ok L') (hd : (L k).data = []) (hf : ∀ y ∈ asked x, Fits y ∧ y.ty ≠ .none)
    (hl : ∀ a, E.origLen a = (L a).data.length) :
    InlineOk au (asked x) ∧ StandardFits E k x.standard ((asked x).map asExtn) ∧
      Payable E L k p (packedEnd 168 ((asked x).map asExtn)) := by
  have hperm := createOrder_perm (asked x)
  obtain ⟨a, au', o, g, ga', p', s', rest', es1, hacc, hsk, _, _, hborn, hlen, hnd, hman, hprx, hpda⟩ :=
    create_stores (es := []) h hl
    (by intro a ha; cases ha; exact Or.inl ⟨hd, rfl⟩) (by intro a ha; cases ha; rw [hd]; simp) hf
  simp only [List.cons.injEq] at hacc
  obtain ⟨rfl, rfl, rfl, rfl, rfl, rfl, rfl, rfl⟩ := hacc
  rw [List.nil_append] at hborn
  obtain ⟨a, au', o, g, ga', p', s', rest', L2, es0, es2, hacc, _, _, ⟨L1, h1, h2⟩, _, _, _, _, hx0,
    hx2, hhook, _⟩ := create_result h
  simp only [List.cons.injEq] at hacc
  obtain ⟨rfl, rfl, rfl, rfl, rfl, rfl, rfl, rfl⟩ := hacc
  have hu := createPrepare_unborn h1 (es := []) (Or.inl ⟨hd, rfl⟩) (by rw [hd]; simp)
  obtain ⟨q1, _, _, q4⟩ := allocateAll_buffer h2 hu.1 (by rw [hl, hd]; simp) hu.2
    (fun y hy => hf y (hperm.mem_iff.mp hy)) hx0
  have hes0 : es0 = (createOrder (asked x)).map asExtn := by rw [q1]; rfl
  clear q1
  subst hes0
  have hnodup : ((asked x).map (·.ty)).Nodup := by
    have := q4 (by simp)
    rw [List.map_map] at this
    exact ((hperm.map _).nodup_iff).mp this
  have hty : ∀ t, t ∈ es1.map (·.1) ↔ t ∈ ((asked x).map asExtn).map (·.1) := by
    intro t
    rw [forall2_types_born hborn]
    exact ((hperm.map asExtn).map (·.1)).mem_iff
  have hone : ∀ y ∈ asked x, ∃ q, onCreate y.ty (given y) (some au) = .ok q := by
    intro y hy
    obtain ⟨⟨t2, q'⟩, _, hw2⟩ := forall2_mem_left hhook
      (List.mem_map_of_mem (f := asExtn) (hperm.mem_iff.mpr hy))
    exact ⟨q', hw2.2⟩
  refine ⟨⟨hnodup, fun y hy => ?_⟩, ⟨?_, ?_, fun px hpx => ?_⟩, ?_⟩
  · obtain ⟨q, h3⟩ := hone y hy
    obtain ⟨h4, h5⟩ := (onCreate_iff (hf y hy).2).mp h3
    exact ⟨(hf y hy).2, hlen y hy, h5, q, rfl, h4⟩
  · rw [hman, hty]
  · rw [hprx, hty]
  · obtain ⟨y, hy, he⟩ := List.mem_map.mp (lookup_mem hpx)
    obtain ⟨⟨t1, q⟩, hz1, hz2⟩ := forall2_mem_left hborn
      (List.mem_map_of_mem (f := asExtn) (hperm.mem_iff.mpr hy))
    rw [he] at hz2
    obtain ⟨rfl, hz3⟩ := hz2
    simp only [Accepted] at hz3
    obtain rfl := hz3.1
    exact hpda q (lookup_of_mem (hnd (by simp)) hz1)
  · rw [createPrepare_empty hd hlen] at h1
    unfold createAccount optAcc at h1
    split at h1
    · cases h1
    rename_i p0 hp0
    split at hp0
    · cases hp0
    cases hp0
    inv at h1
    obtain ⟨_, h1⟩ := h1
    split at h1
    · cases h1
    inv at h1
    obtain ⟨_, h1⟩ := h1
    unfold systemCreate at h1
    split at h1
    · rename_i hc
      obtain ⟨c1, c2, c3, c4, c5, c6, c7, c8, c9, _, c11, c12, _⟩ := hc
      refine ⟨⟨c3, c1⟩, ⟨c4, c2⟩, ?_, c5, ⟨c6, c7⟩, c8, c12⟩
      generalize L k = acc at *
      obtain ⟨a, b, c⟩ := acc
      simp only at c9 c11 hd
      subst c9 c11 hd
      rfl
    · cases h1

/-- Both together: the exact condition under which an unused account becomes an asset with a single
instruction. -/
theorem C63_iff (hd : (L k).data = []) (hf : ∀ y ∈ asked x, Fits y ∧ y.ty ≠ .none)
    (hl : ∀ a, E.origLen a = (L a).data.length) (h64 : (L p).lamports < 18446744073709551616)
    (hprog : E.program ≠ Key.system ∧ p ≠ E.program)
    (hwh : ∀ y ∈ [au, owner, E.program, ga, Key.system] ++ rest, Whole E.program L y) :
    (∃ L', execute E L (k :: au :: owner :: E.program :: ga :: p :: Key.system :: rest)
        (.create x) = .ok L') ↔
      InlineOk au (asked x) ∧ StandardFits E k x.standard ((asked x).map asExtn) ∧
        Payable E L k p (packedEnd 168 ((asked x).map asExtn)) := by
  constructor
  · rintro ⟨L', h⟩
    exact C63_needed h hd hf hl
  · rintro ⟨h1, h2, h3⟩
    obtain ⟨L', _, h, _⟩ := C63_accepted h1 h2 h3 (fun y hy => (hf y hy).1) hl h64 hprog hwh
    exact ⟨L', h⟩

/-- The Rust client's Create (and the one of the JavaScript client, C59), sent in a transaction of its
own. -/
theorem C63_client {signs : Bool} (hn : Text x.name) (hx : InlineOk au (asked x))
    (hst : StandardFits E k x.standard ((asked x).map asExtn))
    (hu : L k = ⟨0, [], Key.system⟩) (hne : p ≠ k)
    (hw : (L p).owner = Key.system ∧ (L p).data = [])
    (hr : E.rent (packedEnd 168 ((asked x).map asExtn)) ≤ (L p).lamports)
    (h64 : (L p).lamports < 18446744073709551616)
    (hmax : packedEnd 168 ((asked x).map asExtn) ≤ 10240)
    (hprog : E.program ≠ Key.system ∧ p ≠ E.program)
    (hwh : ∀ y ∈ [au, owner, E.program, Key.system], Whole E.program L y) :
    ∃ L' es, sends E L [(Call.create k (au, signs) owner none none (some p) (some Key.system) x).build
        E.program] = .ok L' ∧
      Stores E.program L' k (newAsset x owner au none es) ∧
      Tight L' k (newAsset x owner au none es) ∧
      List.Forall₂ (Born au) ((createOrder (asked x)).map asExtn) es ∧
      (L' p).lamports + (L' k).lamports = (L p).lamports ∧
      ∀ y, y ≠ k → y ≠ p → L' y = L y := by
  generalize hC : Call.create k (au, signs) owner none none (some p) (some Key.system) x = C
  generalize hE : serving E L (C.build E.program) = E1
  have hpr : E1.program = E.program := by rw [← hE]; rfl
  have hs : Serves E1 L k p := by rw [← hE, ← hC]; exact serves_create
  have hlen : ∀ y ∈ asked x, (given y).length ≤ 10240 := by
    intro y hy
    obtain ⟨pre, post, he⟩ := List.append_of_mem hy
    rw [he, List.map_append, packedEnd_append] at hmax
    simp only [List.map_cons, packedEnd, asExtn] at hmax
    have := le_packedEnd (roundUp8 (packedEnd 168 (pre.map fun x => (x.ty, given x)) + 16 +
      (given y).length)) (post.map fun x => (x.ty, given x))
    have := le_roundUp8 (packedEnd 168 (pre.map fun x => (x.ty, given x)) + 16 + (given y).length)
    have e : asExtn = fun x => (x.ty, given x) := rfl
    rw [e] at hmax
    omega
  have hfits : ∀ y ∈ asked x, Fits y := by
    intro y hy
    have h1 := hlen y hy
    refine ⟨by have := (hx.2 y hy).2.1; omega, fun q hq => ?_⟩
    unfold given at h1
    rw [hq] at h1
    simp only [Option.getD_some] at h1
    omega
  obtain ⟨L', es, h1, h2⟩ := C63_accepted (E := E1) (L := L) (k := k) (au := au) (owner := owner)
    (ga := E.program) (p := p) (x := x) (rest := []) hx (by rw [← hE]; exact hst)
    ⟨hs.signer, hs.writable, hu, hne, hw, by rw [← hE]; exact hr, hmax⟩ hfits
    (by rw [← hE]; exact fun _ => rfl) h64 (by rw [hpr]; exact hprog)
    (by
      rw [hpr]
      intro y hy
      refine hwh y ?_
      simpa using hy)
  rw [hpr] at h1 h2
  refine ⟨L', es, ?_, h2⟩
  rw [send_call (c := C) (by
    rw [← hC]
    refine ⟨hn, fun l hl => ⟨?_, fun y hy q hq => ?_⟩⟩
    · have := packedEnd_ge 168 ((asked x).map asExtn)
      unfold asked at this hmax
      rw [hl] at this hmax
      simp only [Option.getD_some, List.length_map] at this hmax
      show l.length < 4294967296
      omega
    · exact (hfits y (by unfold asked; rw [hl]; exact hy)).2 q hq) (by rw [hE]; rw [← hC]; exact h1)]
  rfl

end

section Examples
open Verif.Ex

/-- An asset with attributes, creators and royalties in one instruction. -/
def oneStep : CreateInput :=
  ⟨[65, 66], .nonFungible, true, some
    [⟨.attributes, 4, some [1, 97, 1, 98]⟩,
      ⟨.creators, 68, some ((k 2).1 ++ [0, 60] ++ (k 3).1 ++ [1, 40])⟩,
      ⟨.royalties, 16, some [244, 1, 0, 0, 0, 0, 0, 0, 5, 0, 0, 0, 0, 0, 0, 0]⟩]⟩

theorem oneStep_ok : InlineOk (k 2) (asked oneStep) := by
  refine ⟨by decide +kernel, fun x hx => ?_⟩
  have hx' : x = ⟨.attributes, 4, some [1, 97, 1, 98]⟩ ∨
      x = ⟨.creators, 68, some ((k 2).1 ++ [0, 60] ++ (k 3).1 ++ [1, 40])⟩ ∨
      x = ⟨.royalties, 16, some [244, 1, 0, 0, 0, 0, 0, 0, 5, 0, 0, 0, 0, 0, 0, 0]⟩ := by
    simpa only [asked, oneStep, Option.getD_some, List.mem_cons, List.not_mem_nil, or_false] using hx
  have key : ∀ x : ExtInput, x.ty ≠ .none → (∃ q, onCreate x.ty (given x) (some (k 2)) = .ok q) →
      Readable x.ty (given x) ∧ ∃ q, Born (k 2) (asExtn x) (x.ty, q) := by
    rintro x h ⟨q, hq⟩
    obtain ⟨h1, h2⟩ := (onCreate_iff h).mp hq
    exact ⟨h2, q, rfl, h1⟩
  rcases hx' with rfl | rfl | rfl
  · exact ⟨by decide, by decide +kernel, key _ (by decide) ⟨[1, 97, 1, 98], by decide +kernel⟩⟩
  · exact ⟨by decide, by decide +kernel, key _ (by decide)
      ⟨(k 2).1 ++ [1, 60] ++ (k 3).1 ++ [0, 40], by decide +kernel⟩⟩
  · exact ⟨by decide, by decide +kernel, key _ (by decide)
      ⟨[244, 1, 0, 0, 0, 0, 0, 0, 5, 0, 0, 0, 0, 0, 0, 0], by decide +kernel⟩⟩

theorem oneStep_fits : StandardFits (env empties []) (k 1) oneStep.standard
    ((asked oneStep).map asExtn) := by
  refine ⟨by decide +kernel, by decide +kernel, ?_⟩
  intro p hp
  rw [show lookup .proxy ((asked oneStep).map asExtn) = none by decide +kernel] at hp
  cases hp

example : ∃ L' es, sends (env empties []) empties
      [(Call.create (k 1) (k 2, false) (k 4) none none (some (k 5)) (some Key.system) oneStep).build
        prog] = .ok L' ∧
    Stores prog L' (k 1) (newAsset oneStep (k 4) (k 2) none es) ∧
    es.map (·.1) = [.attributes, .royalties, .creators] ∧
    (L' (k 5)).lamports + (L' (k 1)).lamports = 5000000 := by
  obtain ⟨L', es, h1, h2, _, h3, h4, _⟩ := C63_client (E := env empties []) (L := empties)
    (k := k 1) (au := k 2) (owner := k 4) (p := k 5) (x := oneStep) (signs := false)
    ⟨by show (2 : Nat) < 4294967296; omega, by decide +kernel⟩ oneStep_ok oneStep_fits
    (by decide +kernel) (by decide +kernel) (by decide +kernel) (by decide +kernel)
    (by decide +kernel) (by decide +kernel) (by decide +kernel) (by
      intro y hy h1 h2
      have hy' : y = k 2 ∨ y = k 4 ∨ y = prog ∨ y = Key.system := by
        simpa only [env, List.mem_cons, List.not_mem_nil, or_false] using hy
      rcases hy' with rfl | rfl | rfl | rfl <;> (revert h2; decide +kernel))
  refine ⟨L', es, h1, h2, ?_, h4⟩
  rw [forall2_types_born h3]
  decide +kernel

/-- What does not satisfy the condition is refused: an extension that is announced longer than its
data, a second one of the same type, and more than 10 KiB. -/
def oneStepWith (xs : List ExtInput) : Bool :=
  (sends (env empties []) empties
    [(Call.create (k 1) (k 2, false) (k 4) none none (some (k 5)) (some Key.system)
      ⟨[65], .nonFungible, true, some xs⟩).build prog]).isOk
example : oneStepWith [⟨.blob, 3, some [1, 97, 98]⟩] = true ∧
    oneStepWith [⟨.blob, 4, some [1, 97, 98]⟩] = false ∧
    oneStepWith [⟨.blob, 3, some [1, 97, 98]⟩, ⟨.blob, 3, some [1, 97, 98]⟩] = false := by
  decide +kernel
example : oneStepWith [⟨.blob, 10056, some (zeros 10056)⟩] = true ∧
    oneStepWith [⟨.blob, 10057, some (zeros 10057)⟩] = false := by decide +kernel

end Examples
end Verif.Props

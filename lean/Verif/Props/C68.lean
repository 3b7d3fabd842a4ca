import Verif.Lemmas.Strangers
import Verif.Props.C69
import Verif.Props.C48
import Verif.Props.Corrupt
import Verif.Props.C10
import Verif.Props.C29

/-!
# C68 — every member of a group was admitted by it
-/

namespace Verif.Props

open Verif Verif.Spec

/-- As long as the instructions are used as intended: every member of a group was made one by a Group
or Create instruction signed by the authority of the group or its delegate, and has been one ever
since.

The full claim has no condition on the instructions; it is refuted below. -/
theorem C68_admitted_partial {program g k : Key} {L0 L : Ledger} (h0 : Genesis program L0)
    (hs : ProperSteps program L0 L) (hg : g ≠ Key.default) (hm : Member program L g k) :
    ∃ E L1 L2 accts i s, E.program = program ∧ ProperSteps program L0 L1 ∧
      ¬ Member program L1 g k ∧ execute E L1 accts i = .ok L2 ∧
      AsksToJoin program accts g k s i ∧ Admits E L1 g s ∧ Belongs program g k L2 L :=
  admitted h0.wellFormed hg (fun h => h0 k h.1.1) hs hm

section
variable {E : Env} {L L' : Ledger} {k p g : Key}

theorem member_live (hu : L k = ⟨0, [], Key.system⟩) (hne : p ≠ k)
    (hw : (L p).owner = Key.system ∧ (L p).data = []) (ha : Affords E 208 (L p).lamports)
    (hp : E.program ≠ Key.system ∧ p ≠ E.program) (hsys : Whole E.program L Key.system) :
    ∃ L' A, sends E L ((forgery k p (copyOf (memberBytes g p))).map (·.build E.program)) = .ok L' ∧
      Stores E.program L' k A ∧ A.group = g ∧ A.delegate = p ∧ A.roles = 255 ∧ A.state = 0 ∧
      A.standard = 0 ∧ A.exts = [] ∧ Paid L L' k p := by
  have hl := length_memberBytes g p
  have hc : (copyOf (memberBytes g p)).length = 192 := by
    rw [copyOf_length (Nat.le_of_eq hl.symm), hl]; decide
  obtain ⟨L', r1, r2, r3, r4⟩ := forgery_live (w := copyOf (memberBytes g p)) hu hne hw
    (by rw [hc]; exact ha) (by omega) (by omega) (by omega) hp hsys
  obtain ⟨o, _, ho⟩ := forged_stores (Nat.le_of_eq hl.symm) (by omega) (memberBytes_clean g p) r2 r3
  obtain ⟨v1, v2, v3⟩ := memberBytes_view g p
  exact ⟨L', _, r1, ho, v1, v2, v3, rfl, rfl, rfl, r4⟩

/-- Anybody can make a member of any group in an unused account, and be its delegate with all roles.
Only they and the account sign (`C69_signers`), and nothing else changes, the group included. -/
theorem C68_anyone (hu : L k = ⟨0, [], Key.system⟩) (hne : p ≠ k)
    (hw : (L p).owner = Key.system ∧ (L p).data = []) (ha : Affords E 208 (L p).lamports)
    (hp : E.program ≠ Key.system ∧ p ≠ E.program) (hsys : Whole E.program L Key.system) :
    ∃ L', sends E L ((forgery k p (copyOf (memberBytes g p))).map (·.build E.program)) = .ok L' ∧
      Member E.program L' g k ∧ (assetAt L' k).delegate = p ∧ (assetAt L' k).roles = 255 ∧
      ∀ y, y ≠ k → y ≠ p → L' y = L y := by
  obtain ⟨L', A, r1, r2, a1, a2, a3, _, _, _, r4⟩ := member_live (g := g) hu hne hw ha hp hsys
  have hA := r2.2.2.1
  refine ⟨L', r1, ⟨r2.1, ?_⟩, ?_, ?_, r4.others⟩
  · rw [← a1, hA]; rfl
  · rw [← a2, hA]; rfl
  · rw [← a3, hA]; rfl

/-- By burning it again they make the group believe that it has one member less. It costs them nothing,
and nothing else changes. -/
theorem C68_shrink {G : Asset} {q : Bytes} (hu : L k = ⟨0, [], Key.system⟩) (hne : p ≠ k)
    (hw : (L p).owner = Key.system ∧ (L p).data = []) (ha : Affords E 208 (L p).lamports)
    (hp : E.program ≠ Key.system ∧ p ≠ E.program) (hsys : Whole E.program L Key.system)
    (hreal : g ≠ Key.default ∧ p ≠ Key.default ∧ g ≠ E.program)
    (hG : Stores E.program L g G) (hlock : G.state ≠ 1) (hq : IsGroup G q) (hm : membersOf q ≠ 0) :
    ∃ L', sends E L ((shrink k p g).map (·.build E.program)) = .ok L' ∧
      Stores E.program L' g (G.resized q (membersOf q - 1)) ∧ (L' g).lamports = (L g).lamports ∧
      ∀ y, y ≠ g → L' y = L y := by
  obtain ⟨L1, A, r1, r2, a1, a2, a3, a4, a5, a6, r4⟩ := member_live (g := g) hu hne hw ha hp hsys
  have hgk : g ≠ k := by
    rintro rfl
    have h := hG.1.1
    rw [hu] at h
    exact hp.1 h.symm
  have hgp : g ≠ p := by
    rintro rfl
    have h := hG.1.2.1
    rw [hw.2] at h
    exact absurd h (by decide)
  have eg : L1 g = L g := r4.others g hgk hgp
  have hG1 : Stores E.program L1 g G := hG.congr (by rw [eg]) (by rw [eg])
  let c : Call := .burn k p (some p) (some g)
  have hkeys : (c.build E.program).keys = [k, p, p, g] := rfl
  have hsum : (L1 p).lamports + (L1 k).lamports = (L p).lamports := by
    rw [r4.sum, hu]; rfl
  have hcalm : ∀ x ∈ [p, p, g], Calm E.program L1 x := by
    intro x hx
    simp only [List.mem_cons, List.not_mem_nil, or_false] at hx
    rcases hx with rfl | rfl | rfl
    · intro ho; rw [r4.owner, hw.1] at ho; exact absurd ho.symm hp.1
    · intro ho; rw [r4.owner, hw.1] at ho; exact absurd ho.symm hp.1
    · exact calm_stores hG1 hlock
  obtain ⟨L2, b1, b2, b3⟩ := C48_burn (E := serving E L1 (c.build E.program)) (L := L1) (k := k)
    (s := p) (r := p) (g := g) (rest := []) (A := A) r2
    ⟨by simp [serving, c, Call.build, Call.metas, metaRw], fun h => by rw [a5] at h; cases h⟩
    (by intro q hq; rw [a6] at hq; cases hq) hcalm
    (by simp [serving, c, Call.build, Call.metas, metaRw])
    (.inr ⟨⟨p, 255⟩, by
      unfold Asset.manager Asset.holderDelegate
      rw [a6, a2, a3, if_neg hreal.2.1]
      rfl, rfl, by show (255 : UInt8) &&& 4 ≠ 0; decide⟩)
    (by rw [a4]; decide) (by intro q hq; rw [a6] at hq; cases hq)
    (fun _ => ⟨a1.symm, hgk, hreal.2.2, by simp [serving, c, Call.build, Call.metas, metaRw, metaOpt],
      G, q, hG1, hq, hm⟩)
    hp.2 hne (by simp [serving, c, Call.build, Call.metas, metaRw, metaOpt])
    (by rw [r4.data, hw.2]; decide)
    (by rw [hsum]; exact ha.1)
  obtain ⟨_, _, s3⟩ := burn_shrinks b1 r2 (by rw [a1]; exact hreal.1) (by rw [a1]; exact hG1) hq.1
  refine ⟨L2, ?_, s3, ?lamports, ?_⟩
  case lamports =>
    obtain ⟨a, s, r, ga, rest, dest, he, hd, _, _, _, _, _, _, _, _, hl, _⟩ := C10_burn b1
    cases he
    rw [hl g hgk (by subst hd; split <;> exact hgp), eg]
  · unfold shrink
    rw [List.map_append]
    exact sends_then r1 (sends_one trivial (by rw [hkeys]; exact b1))
  · intro y hy
    by_cases hyk : y = k
    · rw [hyk, b2, hu]
    · by_cases hyp : y = p
      · subst hyp
        obtain ⟨_, _, _, he⟩ := execute_effect b1
        obtain ⟨d1, d2⟩ := he.data y (by simp [dataKeys, Instr.dataPositions, hyk, Ne.symm hgp])
        have hlam : (L2 y).lamports = (L y).lamports := b3.trans hsum
        cases h2 : L2 y with
        | mk l d o =>
          rw [h2] at hlam d1 d2
          cases hy0 : L y with
          | mk l0 d0 o0 =>
            rw [hy0] at hlam
            have e1 := r4.data
            have e2 := r4.owner
            rw [hy0] at e1 e2
            simp only at hlam d1 d2 e1 e2
            rw [hlam, d1, d2, e1, e2]
      · rw [C29_not_passed b1 y (by simp [hyk, hyp, hy]), r4.others y hyk hyp]

theorem withMembers_self {q : Bytes} (h : 8 ≤ q.length) : withMembers q (membersOf q) = q := by
  unfold withMembers membersOf
  have := toLE_leNat (q.take 8)
  rw [show (q.take 8).length = 8 by rw [List.length_take]; omega] at this
  rw [this, List.take_append_drop]

/-- Doing so as often as the group has members, anybody makes any unlocked group believe that it has
none. It costs them nothing, and nothing else changes: its members are still there. -/
theorem C68_drain (hne : p ≠ k) (hp : E.program ≠ Key.system ∧ p ≠ E.program)
    (hreal : g ≠ Key.default ∧ p ≠ Key.default ∧ g ≠ E.program) :
    ∀ (n : Nat) {L : Ledger} {G : Asset} {q : Bytes}, membersOf q = n →
      L k = ⟨0, [], Key.system⟩ → (L p).owner = Key.system ∧ (L p).data = [] →
      Affords E 208 (L p).lamports → Whole E.program L Key.system →
      Stores E.program L g G → G.state ≠ 1 → IsGroup G q →
      ∃ L', sends E L ((List.replicate n (shrink k p g)).flatten.map (·.build E.program)) = .ok L' ∧
        Stores E.program L' g (G.resized q 0) ∧ ∀ y, y ≠ g → L' y = L y := by
  intro n
  induction n with
  | zero =>
    intro L G q hn _ _ _ _ hG _ hq
    refine ⟨L, rfl, ?_, fun _ _ => rfl⟩
    have e : withMembers q 0 = q := by rw [← hn]; exact withMembers_self (by have := hq.2.1; omega)
    unfold Asset.resized
    rw [e, setExt_self hq.1]
    exact hG
  | succ n ih =>
    intro L G q hn hu hw ha hsys hG hlock hq
    obtain ⟨L1, h1, h2, _, h3⟩ := C68_shrink hu hne hw ha hp hsys hreal hG hlock hq (by omega)
    have hgk : k ≠ g := by
      rintro rfl
      have h := hG.1.1
      rw [hu] at h
      exact hp.1 h.symm
    have hgp : p ≠ g := by
      rintro rfl
      have h := hG.1.2.1
      rw [hw.2] at h
      exact absurd h (by decide)
    have e8 : 8 ≤ q.length := by have := hq.2.1; omega
    have hlt := membersOf_lt hq.2.1
    rw [hn, Nat.add_sub_cancel] at h2
    have hq1 : IsGroup (G.resized q n) (withMembers q n) := by
      refine ⟨lookup_setExt_same, ?_, ?_⟩ <;> rw [Verif.length_withMembers n e8]
      · exact hq.2.1
      · exact hq.2.2
    obtain ⟨L2, g1, g2, g3⟩ := ih (L := L1) (G := G.resized q n) (q := withMembers q n)
      (membersOf_with (by omega)) (by rw [h3 k hgk]; exact hu) (by rw [h3 p hgp]; exact hw)
      (by rw [h3 p hgp]; exact ha)
      (by
        by_cases hs : Key.system = g
        · rw [hs]; exact whole_stores h2
        · unfold Whole; rw [h3 _ hs]; exact hsys) h2 hlock hq1
    refine ⟨L2, ?_, ?_, fun y hy => (g3 y hy).trans (h3 y hy)⟩
    · rw [List.replicate_succ, List.flatten_cons, List.map_append]
      exact sends_then h1 g1
    · have e : (G.resized q n).resized (withMembers q n) 0 = G.resized q 0 := by
        unfold Asset.resized
        simp only
        rw [setExt_twice, withMembers_twice]
      rwa [e] at g2

/-- After that no member of the group can be burned, whoever signs. -/
theorem C68_stuck {A G : Asset} {q : Bytes} {accts : List Key} (hs : Stores E.program L k A)
    (hA : A.group ≠ Key.default) (hG : Stores E.program L A.group G)
    (hq : lookup .grouping G.exts = some q) (h0 : membersOf q = 0) (hk : accts.head? = some k) :
    ∀ L', execute E L accts .burn ≠ .ok L' := by
  intro L' h
  obtain ⟨a, s, r, g', rest, rfl, _⟩ := exec_burn h
  obtain rfl : a = k := by simpa using hk
  exact (burn_shrinks h hs hA hG hq).2.1 h0

end

section Examples
open Verif.Ex

/-- A group exists; then somebody else forges a member of it. -/
def intruder : Except Err Ledger :=
  (run empties [k 1, k 3, k 5] [k 1, k 3, k 2, prog, prog, k 5, Key.system] makeGroup).bind fun L0 =>
  (run L0 [k 7, k 5] [k 7, k 5, Key.system] (.allocate ⟨.blob, 8, none⟩)).bind fun L1 =>
  (run L1 [k 7, k 5] [k 7, k 5, Key.system] (.write ⟨false, detour 0⟩)).bind fun L2 =>
  run L2 [k 7, k 5] [k 7, k 5, Key.system] (.allocate ⟨.attributes,
    UInt32.ofNat (copyOf (memberBytes (k 1) (k 5))).length, some (copyOf (memberBytes (k 1) (k 5)))⟩)

/-- No Group instruction, and no Create signed by `k 7`. -/
def NoJoin (E : Env) (i : Instr) : Prop :=
  i ≠ .group ∧ ∀ x, i = .create x → E.signer (k 7) = false

theorem intruder_steps {L : Ledger} (h : intruder = .ok L) : StepsBy prog NoJoin empties L := by
  unfold intruder at h
  cases h0 : run empties [k 1, k 3, k 5] [k 1, k 3, k 2, prog, prog, k 5, Key.system] makeGroup with
  | error => rw [h0] at h; cases h
  | ok L0 =>
    rw [h0] at h
    simp only [Except.bind] at h
    cases h1 : run L0 [k 7, k 5] [k 7, k 5, Key.system] (.allocate ⟨.blob, 8, none⟩) with
    | error => rw [h1] at h; cases h
    | ok L1 =>
      rw [h1] at h
      simp only at h
      cases h2 : run L1 [k 7, k 5] [k 7, k 5, Key.system] (.write ⟨false, detour 0⟩) with
      | error => rw [h2] at h; cases h
      | ok L2 =>
        rw [h2] at h
        refine .instr (env L2 [k 7, k 5]) _ _ (.instr (env L1 [k 7, k 5]) _ _
          (.instr (env L0 [k 7, k 5]) _ _ (.instr (env empties [k 1, k 3, k 5]) _ _ (.refl _) rfl
            (fun _ => rfl) ⟨(by intro h; cases h), fun _ _ => by decide +kernel⟩ h0) rfl (fun _ => rfl)
            ⟨(by intro h; cases h), (by intro x h; cases h)⟩ h1) rfl (fun _ => rfl)
            ⟨(by intro h; cases h), (by intro x h; cases h)⟩ h2) rfl (fun _ => rfl)
            ⟨(by intro h; cases h), (by intro x h; cases h)⟩ h

/-- The full claim is false: `k 7` is a member of the group `k 1`, although nobody was ever added to
any group: there was no Group instruction, and no Create of `k 7`. The group has the size 0. -/
theorem C68_false : ∃ L0 L, Genesis prog L0 ∧ StepsBy prog NoJoin L0 L ∧
    Member prog L (k 1) (k 7) ∧ assetGet .grouping (L (k 1)).data = .ok (some (groupBytes 0 2)) := by
  have h : (intruder.map fun L => (decide ((L (k 7)).owner = prog ∧ 168 ≤ (L (k 7)).data.length ∧
      (assetAt L (k 7)).disc = 1 ∧ (assetAt L (k 7)).group = k 1),
      assetGet .grouping (L (k 1)).data)) = .ok (true, .ok (some (groupBytes 0 2))) := by
    decide +kernel
  obtain ⟨L, h1, h2⟩ := ok_of_map h
  simp only [Prod.mk.injEq, decide_eq_true_eq] at h2
  exact ⟨empties, L, empties_genesis, intruder_steps h1,
    ⟨⟨h2.1.1, h2.1.2.1, h2.1.2.2.1⟩, h2.1.2.2.2⟩, h2.2⟩

/-- Somebody keeps Grouping data for 5 members in the buffer `k 9`; a stranger forges a member of it. -/
def bufferMember : List (List Key × List Key × Instr) :=
  [([k 9, k 3], [k 9, k 3, Key.system], .allocate ⟨.grouping, 16, some (toLE 8 5 ++ toLE 8 9)⟩),
    ([k 7, k 5], [k 7, k 5, Key.system], .allocate ⟨.blob, 8, none⟩),
    ([k 7, k 5], [k 7, k 5, Key.system], .write ⟨false, detour 0⟩),
    ([k 7, k 5], [k 7, k 5, Key.system], .allocate ⟨.attributes,
      UInt32.ofNat (copyOf (memberBytes (k 9) (k 5))).length,
      some (copyOf (memberBytes (k 9) (k 5)))⟩)]

/-- The group of Burn is a second exception to C42: the stranger burns the forged member, and the size
kept in the buffer, which is no asset and did not sign, goes down. -/
theorem C42_burn_false : ∃ L0 L1 L2 x E accts, Genesis prog L0 ∧ Steps prog L0 L1 ∧
    E.program = prog ∧ execute E L1 accts .burn = .ok L2 ∧ (L1 x).owner = prog ∧
    (assetAt L1 x).disc = 0 ∧ E.signer x = false ∧
    assetGet .grouping (L1 x).data = .ok (some (toLE 8 5 ++ toLE 8 9)) ∧
    assetGet .grouping (L2 x).data = .ok (some (toLE 8 4 ++ toLE 8 9)) := by
  have h : ((runAll bufferMember empties).bind fun L1 =>
      (run L1 [k 5] [k 7, k 5, k 5, k 9] .burn).map fun L2 =>
      (decide ((L1 (k 9)).owner = prog ∧ (assetAt L1 (k 9)).disc = 0),
        decide (assetGet .grouping (L1 (k 9)).data = .ok (some (toLE 8 5 ++ toLE 8 9)) ∧
          assetGet .grouping (L2 (k 9)).data = .ok (some (toLE 8 4 ++ toLE 8 9))))) =
      .ok (true, true) := by
    decide +kernel
  cases h1 : runAll bufferMember empties with
  | error => rw [h1] at h; cases h
  | ok L1 =>
    rw [h1] at h
    obtain ⟨L2, h2, h3⟩ := ok_of_map h
    simp only [Prod.mk.injEq, decide_eq_true_eq] at h3
    obtain ⟨⟨a1, a2⟩, a3, a4⟩ := h3
    exact ⟨empties, L1, L2, k 9, env L1 [k 5], _, empties_genesis, runAll_steps (.refl _) h1, rfl,
      h2, a1, a2, (show [k 5].contains (k 9) = false by decide +kernel), a3, a4⟩

/-- The group `k 1` with the member `k 7` of `k 2` (C11); a stranger drains it. -/
def drained : Except Err Ledger :=
  twoCreates.bind fun L => sends (env L []) L ((shrink (k 8) (k 5) (k 1)).map (·.build prog))

/-- The group has the size 0 now, and its member is still there, and nothing is left of the forged one. -/
example : (drained.map fun L => (assetGet .grouping (L (k 1)).data, (assetAt L (k 7)).group,
    (L (k 8)).data)) = .ok (.ok (some (groupBytes 0 2)), k 1, []) := by decide +kernel

/-- Before, the owner could burn the member; now they cannot. -/
example : (twoCreates.bind fun L => run L [k 2] [k 7, k 2, k 2, k 1] .burn).isOk = true ∧
    (drained.bind fun L => run L [k 2] [k 7, k 2, k 2, k 1] .burn).isOk = false := by
  decide +kernel

/-- And when the authority takes the member out of the group, its size becomes 2^64 - 1. -/
example : ((drained.bind fun L => run L [k 3] [k 7, k 1, k 3] .ungroup).map fun L =>
    assetGet .grouping (L (k 1)).data) = .ok (.ok (some (groupBytes 18446744073709551615 2))) := by
  decide +kernel

/-- A genuine member: admitted by a Create that the authority of the group signed. -/
example : ∃ L, twoCreates = .ok L ∧ ∃ E L1 L2 accts i s, E.program = prog ∧
    ProperSteps prog empties L1 ∧ ¬ Member prog L1 (k 1) (k 7) ∧ execute E L1 accts i = .ok L2 ∧
    AsksToJoin prog accts (k 1) (k 7) s i ∧ Admits E L1 (k 1) s ∧ Belongs prog (k 1) (k 7) L2 L := by
  have h : (twoCreates.map fun L => decide ((L (k 7)).owner = prog ∧
      168 ≤ (L (k 7)).data.length ∧ (assetAt L (k 7)).disc = 1 ∧ (assetAt L (k 7)).group = k 1)) =
      .ok true := by decide +kernel
  obtain ⟨L, h1, h2⟩ := ok_of_map h
  obtain ⟨L', h3, h4⟩ := twoCreates_counted
  rw [h1] at h3
  cases h3
  have h5 := of_decide_eq_true h2
  exact ⟨L, h1, C68_admitted_partial empties_genesis (proper_of_counted h4) (by decide +kernel)
    ⟨⟨h5.1, h5.2.1, h5.2.2.1⟩, h5.2.2.2⟩⟩

end Examples

end Verif.Props

import Verif.Props.C97

/-!
# C98 — a member of a group can leave it
-/

namespace Verif.Props

open Verif Verif.Spec

section
variable {E : Env} {program k g : Key} {L L' : Ledger} {A G : Asset}

/-- Taking a member out looks at the data of the group. -/
theorem leave_reads {s : Key} {rest : List Key} (hG : Stores E.program L g G)
    (h : execute E L (k :: g :: s :: rest) .ungroup = .ok L') : GroupReadable G := by
  intro p hp
  obtain ⟨a, b, c, rest', he, hq⟩ := exec_ungroup h
  cases he
  unfold processUngroup at hq
  inv at hq
  obtain ⟨_, _, _, _, _, _, _, r, h4, h5⟩ := hq
  obtain ⟨off, hoff⟩ := extGet_ok hG (by decide) hp
  rw [hoff] at h4
  cases h4
  simp only at h5
  inv at h5
  obtain ⟨gr, hgr, _⟩ := h5
  exact readGrouping_ok hgr

/-- Burning a member looks at the data of the group. -/
theorem member_burn_reads {accts : List Key} (hs : Stores E.program L k A)
    (hG : Stores E.program L A.group G) (hreal : A.group ≠ Key.default) (hk : accts.head? = some k)
    (h : execute E L accts .burn = .ok L') : GroupReadable G := by
  intro p hp
  obtain ⟨a, s, r, g', rest, rfl, ht⟩ := exec_burn h
  obtain rfl : a = k := by simpa using hk
  unfold processBurn at ht
  inv at ht
  obtain ⟨_, _, _, al, _, _, L1, hb, _⟩ := ht
  unfold burnGroup at hb
  rw [hs.group_eq] at hb
  unfold nullable at hb
  rw [if_neg hreal] at hb
  simp only at hb
  cases ho : optAcc E g' with
  | none => rw [ho] at hb; cases hb
  | some ga =>
    rw [ho] at hb
    simp only at hb
    inv at hb
    obtain ⟨rfl, _, m, hm, hb⟩ := hb
    have hget := hG.get (t := .grouping) (by decide)
    rw [hp, assetGet_eq, hm] at hget
    cases m with
    | none => cases hget
    | some m =>
      obtain ⟨off, q⟩ := m
      cases hget
      simp only at hb
      inv at hb
      obtain ⟨gr, hgr, _⟩ := hb
      exact readGrouping_ok hgr

/-- A member of a group whose data cannot be read is still a member after any instruction that does not
destroy its data. -/
theorem held_step {accts : List Key} {i : Instr} (hs : Stores E.program L k A) (hA : A.group = g)
    (hreal : g ≠ Key.default) (hG : Stores E.program L g G) (hn : ¬ GroupReadable G)
    (hsafe : Spec.Sound k A accts i) (h : execute E L accts i = .ok L') :
    ∃ B, Stores E.program L' k B ∧ B.group = g ∧ Move E accts k i A B := by
  subst hA
  rcases refine hs h hsafe with ⟨rfl, hk, _⟩ | ⟨B, hB, hm⟩
  · exact absurd (member_burn_reads hs hG hreal hk h) hn
  · refine ⟨B, hB, ?_, hm⟩
    cases hm with
    | join _ _ _ _ _ _ hg => exact absurd hg hreal
    | leave _ g' s rest ha _ hg =>
      subst ha hg
      exact absurd (leave_reads hG h) hn
    | _ => rfl

/-- An immutable asset stays immutable, and its Grouping data unreadable. -/
theorem closed_step {accts : List Key} {i : Instr} (hG : Stores E.program L g G)
    (hn : ¬ GroupReadable G) (hm : G.mutableByte = 0) (h : execute E L accts i = .ok L')
    (hl : ∀ x, E.origLen x = (L x).data.length) :
    ∃ G', Stores E.program L' g G' ∧ ¬ GroupReadable G' ∧ G'.mutableByte = 0 := by
  obtain ⟨G', h1, h2, _⟩ := C96_forever hG hn hm
    (.instr E accts i (.refl L) rfl hl trivial h)
  refine ⟨G', h1, h2, ?_⟩
  rcases refine hG h (sound_immutable hG hm h) with ⟨rfl, hk, _⟩ | ⟨C, hC, hmv⟩
  · exact absurd (burn_reads hG hk h) hn
  · obtain rfl := hC.unique h1
    cases hmv with
    | retitle _ _ _ _ _ _ _ h => exact absurd hm h
    | update _ _ _ _ _ _ _ _ _ h => exact absurd hm h
    | updateFrom _ _ _ _ _ _ _ _ _ _ h => exact absurd hm h
    | _ => exact hm

/-- An immutable member of an immutable group whose data cannot be read stays in it, and is never
burned, whatever anybody does. -/
theorem C98_forever (hs : Stores program L k A) (hm : A.mutableByte = 0) (hA : A.group = g)
    (hreal : g ≠ Key.default) (hG : Stores program L g G) (hn : ¬ GroupReadable G)
    (hGm : G.mutableByte = 0) (h : StepsBy program (fun _ _ => True) L L') :
    ∃ B, Stores program L' k B ∧ B.group = g := by
  suffices (∃ B, Stores program L' k B ∧ B.group = g ∧ B.mutableByte = 0) ∧
      ∃ G', Stores program L' g G' ∧ ¬ GroupReadable G' ∧ G'.mutableByte = 0 by
    obtain ⟨⟨B, h1, h2, _⟩, _⟩ := this
    exact ⟨B, h1, h2⟩
  induction h with
  | refl => exact ⟨⟨A, hs, hA, hm⟩, G, hG, hn, hGm⟩
  | foreign _ hf ih =>
    obtain ⟨⟨B, b1, b2⟩, G', c1, c2⟩ := ih
    exact ⟨⟨B, b1.foreign hf, b2⟩, G', c1.foreign hf, c2⟩
  | instr E accts i _ hp hl _ h ih =>
    obtain ⟨⟨B, b1, b2, b3⟩, G', c1, c2, c3⟩ := ih
    subst hp
    refine ⟨?_, closed_step c1 c2 c3 h hl⟩
    obtain ⟨C, d1, d2, d3⟩ := held_step b1 b2 hreal c1 c2 (sound_immutable b1 b3 h) h
    refine ⟨C, d1, d2, ?_⟩
    cases d3 with
    | retitle _ _ _ _ _ _ _ h => exact absurd b3 h
    | update _ _ _ _ _ _ _ _ _ h => exact absurd b3 h
    | updateFrom _ _ _ _ _ _ _ _ _ _ h => exact absurd b3 h
    | _ => exact b3

/-- So does any other member, as long as the instructions are used as intended. -/
theorem C98_members_partial (hw : WellFormed program L) (hs : Stores program L k A) (hA : A.group = g)
    (hreal : g ≠ Key.default) (hG : Stores program L g G) (hn : ¬ GroupReadable G)
    (hGm : G.mutableByte = 0) (h : ProperSteps program L L') :
    ∃ B, Stores program L' k B ∧ B.group = g := by
  suffices (∃ B, Stores program L' k B ∧ B.group = g) ∧
      ∃ G', Stores program L' g G' ∧ ¬ GroupReadable G' ∧ G'.mutableByte = 0 from this.1
  induction h with
  | refl => exact ⟨⟨A, hs, hA⟩, G, hG, hn, hGm⟩
  | tail hss h ih =>
    obtain ⟨⟨B, b1, b2⟩, G', c1, c2, c3⟩ := ih
    cases h with
    | foreign hf => exact ⟨⟨B, b1.foreign hf, b2⟩, G', c1.foreign hf, c2, c3⟩
    | instr E accts i hp hl h hi =>
      subst hp
      have hd : Distinct B.exts := by
        rcases (wf_steps hw hss k b1.1.1).2 with ⟨C, hC, hd⟩ | hb
        · rw [b1.unique hC]; exact hd
        · exact absurd b1.init hb.not_init
      obtain ⟨C, d1, d2, _⟩ := held_step b1 b2 hreal c1 c2 (hi.sound b1 hd) h
      exact ⟨⟨C, d1, d2⟩, closed_step c1 c2 c3 h hl⟩

/-- The authority of any group that is not immutable can, with one instruction, keep all its immutable
members in the group for ever. -/
theorem C98_anyone {b p y : Key} {rest : List Key} (hG : Stores E.program L g G)
    (hreal : g ≠ Key.default) (hu : Usable E g G) (hf : Fresh E L g)
    (hw : ∀ z ∈ G.authority :: E.program :: b :: p :: y :: rest, Whole E.program L z)
    (hsig : E.signer G.authority = true) (hmut : G.mutableByte ≠ 0)
    (ho : Unobstructed L g G .grouping 0)
    (hr : RoomFor E L g G .grouping [] (optAcc E p) (optAcc E y)) :
    ∃ L1, execute E L (g :: G.authority :: E.program :: b :: p :: y :: rest)
        (.update (emptying .grouping)) = .ok L1 ∧
      ∀ k A, Stores E.program L k A → A.group = g → A.mutableByte = 0 →
        ∀ L2, StepsBy E.program (fun _ _ => True) L1 L2 →
          ∃ B, Stores E.program L2 k B ∧ B.group = g := by
  obtain ⟨L1, h1, h2⟩ := (C51_update (s := G.authority) (g := b) (p := p) (y := y) (rest := rest)
    (x := emptying .grouping) (e := ⟨.grouping, 0, none⟩) (q := []) hG hu hf hw rfl (by decide)
    (by exact ⟨rfl, rfl⟩) ho hr).mpr ⟨hsig, rfl, hmut⟩
  refine ⟨L1, h1, fun k A hA hAg hAm L2 h => ?_⟩
  rcases refine hA h1 (sound_immutable hA hAm h1) with ⟨hi, _⟩ | ⟨B, hB, hm⟩
  · cases hi
  · have hb : B.group = g ∧ B.mutableByte = 0 := by
      cases hm with
      | retitle _ _ _ _ _ _ _ h => exact absurd hAm h
      | update _ _ _ _ _ _ _ _ _ h => exact absurd hAm h
      | updateFrom _ _ _ _ _ _ _ _ _ _ h => exact absurd hAm h
      | _ => exact ⟨hAg, hAm⟩
    exact C98_forever hB hb.2 hb.1 hreal h2
      (fun hop => by
        have := (hop [] lookup_setExt_same).1
        simp at this) rfl h

/-- As long as the data of the group can be read, whoever may admit members can let this one go. -/
theorem C98_leave_partial {s : Key} {rest : List Key} {p : Bytes} (hs : Stores E.program L k A)
    (hu : Usable E k A) (hG : Stores E.program L A.group G) (hgw : E.writable A.group = true)
    (hne : A.group ≠ k) (hc : ∀ x ∈ A.group :: s :: rest, Whole E.program L x)
    (hp : lookup .grouping G.exts = some p) (hr : GroupReadable G) (hsig : E.signer s = true)
    (hmay : MayGroup G p s) :
    ∃ L', execute E L (k :: A.group :: s :: rest) .ungroup = .ok L' ∧
      Stores E.program L' k { A with group := Key.default } := by
  obtain ⟨L', h1, h2, _⟩ := (C48_ungroup hs hu hG hgw hne hc ⟨hp, hr p hp⟩).mpr ⟨hsig, rfl, hmay⟩
  exact ⟨L', h1, h2⟩

/-- So after every history of the group without updates without data or from a buffer, its authority can
let any member go. -/
theorem C98_history_partial {P : List Key → Instr → Prop} (hP : ∀ l i, P l i → WithData program g l i)
    (hG : Stores program L g G) (h0 : AllReadable G.exts) (hl : SoundLife program g P L L') :
    ∃ G', Stores program L' g G' ∧ ∀ (E : Env) (k : Key) (A : Asset) (rest : List Key),
      E.program = program → Stores program L' k A → A.group = g → g ≠ k → Usable E k A →
      E.writable g = true → (∀ x ∈ g :: G'.authority :: rest, Whole program L' x) →
      lookup .grouping G'.exts ≠ none → E.signer G'.authority = true →
      ∃ L'' : Ledger, execute E L' (k :: g :: G'.authority :: rest) .ungroup = .ok L'' ∧
        Stores program L'' k { A with group := Key.default } := by
  obtain ⟨G', h1, h2⟩ := group_history hP hG h0 hl
  refine ⟨G', h1, fun E k A rest hE hA hAg hne hu hgw hc hp hsig => ?_⟩
  subst hE hAg
  obtain ⟨p, hp⟩ := Option.ne_none_iff_exists'.mp hp
  exact C98_leave_partial hA hu h1 hgw hne hc hp h2 hsig (.inl rfl)

end

section Examples
open Verif.Ex

/-- `k 1` is a group of the authority `k 3`, and `k 7` is created in it for `k 2`, immutable; then `k 3`
makes the data of the group empty. -/
def hostages : List (List Key × List Key × Instr) :=
  [([k 1, k 5], createAccts, .create ⟨[65], .nonFungible, true, some [⟨.grouping, 48, some (zeros 48)⟩]⟩),
    ([k 7, k 5, k 3], [k 7, k 3, k 2, k 1, k 3, k 5, Key.system],
      .create ⟨[66], .nonFungible, false, none⟩),
    ([k 3, k 5], updateAccts, .update (emptying .grouping))]

/-- The group in the end. -/
def hostageGroup : Asset :=
  ⟨0, 0, 0, k 2, Key.default, k 3, Key.default, 0, podStr35 [65], [(.grouping, [])]⟩

/-- The member. -/
def hostage : Asset :=
  ⟨0, 0, 0, k 2, k 1, k 3, Key.default, 0, podStr35 [66], []⟩

/-- The full claim is false: `k 7` is in the group for ever, whatever anybody does. -/
theorem C98_false : ∃ L, ProperSteps prog empties L ∧ Stores prog L (k 1) hostageGroup ∧
    Stores prog L (k 7) hostage ∧
    ∀ L', StepsBy prog (fun _ _ => True) L L' → ∃ B, Stores prog L' (k 7) B ∧ B.group = k 1 := by
  have h : ((runAll hostages empties).map fun L => checkStores prog L (k 1) hostageGroup &&
      checkStores prog L (k 7) hostage) = .ok true := by decide +kernel
  obtain ⟨L, h1, h2⟩ := ok_of_map h
  rw [Bool.and_eq_true] at h2
  have hG := checkStores_sound h2.1
  have hA := checkStores_sound h2.2
  refine ⟨L, runAll_proper ?_ (.refl _) h1, hG, hA, fun L' h =>
    C98_forever hA rfl rfl (by decide) hG (fun hop => absurd (hop [] rfl).1 (by decide)) rfl h⟩
  intro x hx L
  simp only [hostages, List.mem_cons, List.not_mem_nil, or_false] at hx
  rcases hx with rfl | rfl | rfl
  · intro y hy
    obtain rfl : y = ⟨.grouping, 48, some (zeros 48)⟩ := by simpa [asked] using hy
    exact ⟨by unfold Fits; decide +kernel, by decide⟩
  · intro y hy; cases hy
  · exact ⟨fun e he => by cases he; decide, fun b hb hne => by cases hb; exact absurd rfl hne⟩

/-- Before the last step `k 7` could have been burned by its owner, or taken out by the authority of
the group. -/
example :
    (runAll (hostages.take 2 ++ [([k 2], [k 7, k 2, k 5, k 1], .burn)]) empties).isOk = true ∧
    (runAll (hostages ++ [([k 2], [k 7, k 2, k 5, k 1], .burn)]) empties).isOk = false ∧
    (runAll (hostages.take 2 ++ [([k 3], [k 7, k 1, k 3], .ungroup)]) empties).isOk = true ∧
    (runAll (hostages ++ [([k 3], [k 7, k 1, k 3], .ungroup)]) empties).isOk = false := by
  decide +kernel

end Examples

end Verif.Props

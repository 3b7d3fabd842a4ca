import Verif.Props.C95
import Verif.Props.C50
import Verif.Props.C67

/-!
# C96 — the owner can burn an asset
-/

namespace Verif.Props

open Verif Verif.Spec

section
variable {E : Env} {program k : Key} {L0 L L' : Ledger} {A B : Asset}

theorem readGrouping_ok {p : Bytes} {g : Grouping} (h : readGrouping p = .ok g) :
    16 ≤ p.length ∧ p.length ≤ 48 := by
  unfold readGrouping at h
  split at h
  · cases h
  · split at h
    · constructor <;> omega
    · split at h
      · constructor <;> omega
      · cases h

/-- Burning looks at the data of the group that the asset is. -/
theorem burn_reads {accts : List Key} (hs : Stores E.program L k A) (hk : accts.head? = some k)
    (h : execute E L accts .burn = .ok L') : GroupReadable A := by
  intro p hp
  obtain ⟨a', s', r', g', rest', rfl, ht⟩ := exec_burn h
  obtain rfl : a' = k := by simpa using hk
  unfold processBurn at ht
  inv at ht
  obtain ⟨_, h1, _, al, h3, h4, L1, h5, m, h6, ht⟩ := ht
  rw [hs.get (by decide), hp] at h6
  cases h6
  simp only at ht
  inv at ht
  obtain ⟨gr, hgr', _⟩ := ht
  exact readGrouping_ok hgr'

/-- A transfer looks at the royalties of the asset. -/
theorem transfer_reads {accts : List Key} (hs : Stores E.program L k A) (hk : accts.head? = some k)
    (h : execute E L accts .transfer = .ok L') {p : Bytes} (hp : lookup .royalties A.exts = some p) :
    8 ≤ p.length := by
  obtain ⟨a', s', r', g', rest', rfl, ht⟩ := exec_transfer h
  obtain rfl : a' = k := by simpa using hk
  unfold processTransfer at ht
  inv at ht
  obtain ⟨_, h1, _, b, hb, _⟩ := ht
  unfold processRoyalties at hb
  rw [hs.get (by decide), hp] at hb
  simp only [bind, Except.bind] at hb
  cases hr : readRoyalties p with
  | error e => rw [hr] at hb; cases hb
  | ok r =>
    unfold readRoyalties at hr
    split at hr
    · cases hr
    · omega

/-- The owner of an unlocked asset that is in no group and has no members burns it: the account is
gone, and whoever they name gets its rent. It does not matter what the manager says, nor whether it can
be read. -/
theorem C96_burn_partial {r g : Key} {rest : List Key} (hs : Stores E.program L k A) (hu : Usable E k A)
    (hc : ∀ x ∈ A.owner :: r :: g :: rest, Calm E.program L x) (hsig : E.signer A.owner = true)
    (hlock : A.state ≠ 1) (hg : A.group = Key.default)
    (hempty : ∀ p, lookup .grouping A.exts = some p → 16 ≤ p.length ∧ p.length ≤ 48 ∧ membersOf p = 0)
    (hr : r ≠ E.program) (hrk : r ≠ k) (hrw : E.writable r = true)
    (hrd : (L r).data.length ≤ 10485760) (hsum : (L r).lamports + (L k).lamports < 2 ^ 64) :
    ∃ L', execute E L (k :: A.owner :: r :: g :: rest) .burn = .ok L' ∧ Gone L' k ∧
      (L' r).lamports = (L r).lamports + (L k).lamports := by
  obtain ⟨L', hclose, hgone, hgot, hcom⟩ :=
    burn_commit (L1 := L) hs hu rfl (fun _ => rfl) (fun _ => .inl rfl) hrk hrw hrd hsum
  refine ⟨L', accept_calm hs hu rfl (calm_all hs hlock hc) ?_ (fun x _ => hcom x), hgone, hgot⟩
  show processBurn E L k A.owner (optAcc E r) (optAcc E g) = _
  have er : (optAcc E r).getD A.owner = r := by unfold optAcc; rw [if_neg hr]; rfl
  have hL1 : burnGroup L k (optAcc E g) (L k).data = .ok L := by
    unfold burnGroup
    rw [hs.group_eq]
    unfold nullable
    rw [if_pos hg]
  unfold processBurn
  inv
  refine ⟨hs.1.1, hsig, hs.init, true, ownerOrDelegate_owner hs rfl, rfl, L, hL1, _,
    hs.get (by decide), ?_⟩
  cases hp : lookup .grouping A.exts with
  | none => simp only [er]; exact hclose
  | some p =>
    obtain ⟨h1, h2, h3⟩ := hempty p hp
    simp only [er]
    inv
    exact ⟨_, readGrouping_total h1 h2, h3, hclose⟩

/-- Extensions that can all be read (as after Create, `C50_created`) leave the group readable after every
history without updates without data or from a buffer. -/
theorem group_history {P : List Key → Instr → Prop} (hP : ∀ l i, P l i → WithData program k l i)
    (hs : Stores program L k A) (h0 : AllReadable A.exts) (hl : SoundLife program k P L L') :
    ∃ A', Stores program L' k A' ∧ GroupReadable A' := by
  obtain ⟨A', h1, h2⟩ := C50_history_partial hP hs h0 hl
  exact ⟨A', h1, fun p hp => h2 _ _ (lookup_mem hp)⟩

/-- So it is the updates without data, and those from a buffer, that can keep the owner from burning:
after every history without them the burn is accepted. -/
theorem C96_history_partial {P : List Key → Instr → Prop} (hP : ∀ l i, P l i → WithData program k l i)
    (hs : Stores program L k A) (h0 : AllReadable A.exts) (hl : SoundLife program k P L L') :
    ∃ A', Stores program L' k A' ∧ ∀ (E : Env) (r g : Key) (rest : List Key), E.program = program →
      Usable E k A' → (∀ x ∈ A'.owner :: r :: g :: rest, Calm program L' x) →
      E.signer A'.owner = true → A'.state ≠ 1 → A'.group = Key.default →
      (∀ p, lookup .grouping A'.exts = some p → membersOf p = 0) →
      r ≠ program → r ≠ k → E.writable r = true → (L' r).data.length ≤ 10485760 →
      (L' r).lamports + (L' k).lamports < 2 ^ 64 →
      ∃ L'' : Ledger, execute E L' (k :: A'.owner :: r :: g :: rest) .burn = .ok L'' ∧ Gone L'' k ∧
        (L'' r).lamports = (L' r).lamports + (L' k).lamports := by
  obtain ⟨A', h1, h2⟩ := group_history hP hs h0 hl
  refine ⟨A', h1, fun E r g rest hE hu hc hsig hlock hg hm hr hrk hrw hrd hsum => ?_⟩
  subst hE
  exact C96_burn_partial h1 hu hc hsig hlock hg
    (fun p hp => ⟨(h2 p hp).1, (h2 p hp).2, hm p hp⟩) hr hrk hrw hrd hsum

/-- As long as the instructions are used as intended: if the data of the group that an asset is cannot
be read, then an Update that its authority signed has made it so. -/
theorem C96_cause_partial (h0 : Genesis program L0) (hs : ProperSteps program L0 L)
    (hA : Stores program L k A) (hn : ¬ GroupReadable A) :
    ∃ E L1 L2 s rest x B, E.program = program ∧ ProperSteps program L0 L1 ∧
      execute E L1 (k :: s :: rest) (.update x) = .ok L2 ∧ Stores program L1 k B ∧
      GroupReadable B ∧ B.authority = s ∧ E.signer s = true ∧ B.mutableByte ≠ 0 ∧
      Since program k (fun C => ¬ GroupReadable C) L2 L := by
  obtain ⟨E, L1, L2, accts, i, A', rfl, h2, h3, h4, h5, h6, h7⟩ :=
    origin (P := fun C => ¬ GroupReadable C) h0 hs hA hn
  rcases h7 with ⟨x, au, o, rest, g, es0, es, rfl, rfl, g1, g2, rfl, hb⟩ | ⟨B, hB, hd, hnB, hm, _⟩
  · exfalso
    apply h5
    intro p hp
    obtain ⟨y, _, hy1, hy2⟩ := forall2_mem_right hb (lookup_mem hp)
    have hy1 : ExtType.grouping = y.1 := hy1
    rw [← hy1] at hy2
    obtain ⟨c1, c2, c3, _⟩ := hy2
    have c3 : p = y.2 := c3
    rw [c3]
    exact ⟨c1, c2⟩
  have hR : GroupReadable B := not_not.mp hnB
  have same : lookup .grouping A'.exts = lookup .grouping B.exts → False := by
    intro e
    apply h5
    unfold GroupReadable
    rw [e]
    exact hR
  cases hm with
  | update _ x s rest e p ha hsg hauth hmut hx he hp =>
    subst ha
    exact ⟨E, L1, L2, s, rest, x, B, rfl, h2, h3, hB, hR, hauth, hsg, hmut, h6⟩
  | updateFrom _ x s b rest t p ha hsg hauth hmut hx hb ht hp =>
    subst ha
    exact ⟨E, L1, L2, s, b :: rest, x, B, rfl, h2, h3, hB, hR, hauth, hsg, hmut, h6⟩
  | remove _ t s rest ha hsg hauth hmut ht =>
    exfalso
    by_cases hte : t = .grouping
    · subst hte
      apply h5
      intro p hp
      have hp : lookup .grouping (removeExt .grouping B.exts) = some p := hp
      rw [lookup_removeExt_same hd] at hp
      cases hp
    · exact same (lookup_removeExt_ne (Ne.symm hte))
  | verify => exact (same (lookup_setExt_ne (by decide))).elim
  | unverify => exact (same (lookup_setExt_ne (by decide))).elim
  | memberIn _ _ p _ _ _ hp hl _ =>
    exfalso
    apply h5
    intro q hq
    have hq : lookup .grouping (setExt .grouping (withMembers p _) B.exts) = some q := hq
    rw [lookup_setExt_same] at hq
    cases hq
    have := hR p hp
    rw [length_withMembers (by omega)]
    exact this
  | memberOut _ _ p _ _ _ hp hl =>
    exfalso
    apply h5
    intro q hq
    have hq : lookup .grouping (setExt .grouping (withMembers p _) B.exts) = some q := hq
    rw [lookup_setExt_same] at hq
    cases hq
    have := hR p hp
    rw [length_withMembers (by omega)]
    exact this
  | _ => exact (same rfl).elim

/-- An immutable asset whose Grouping data cannot be read is never burned, whatever anybody does. If
its royalties cannot be read either, it never changes hands. -/
theorem C96_forever (hs : Stores program L k A) (hn : ¬ GroupReadable A) (hm : A.mutableByte = 0)
    (h : StepsBy program (fun _ _ => True) L L') :
    ∃ A', Stores program L' k A' ∧ ¬ GroupReadable A' ∧
      ((∃ p, lookup .royalties A.exts = some p ∧ p.length < 8) → A'.owner = A.owner) := by
  suffices ∃ A', Stores program L' k A' ∧ A'.mutableByte = 0 ∧ ¬ GroupReadable A' ∧
      lookup .royalties A'.exts = lookup .royalties A.exts ∧
      ((∃ p, lookup .royalties A.exts = some p ∧ p.length < 8) → A'.owner = A.owner) by
    obtain ⟨A', h1, _, h2, _, h3⟩ := this
    exact ⟨A', h1, h2, h3⟩
  induction h with
  | refl => exact ⟨A, hs, hm, hn, rfl, fun _ => rfl⟩
  | foreign _ hf ih =>
    obtain ⟨B, g, r⟩ := ih
    exact ⟨B, g.foreign hf, r⟩
  | instr E accts i _ hp _ _ h ih =>
    obtain ⟨B, hB, b1, b2, b3, b4⟩ := ih
    subst hp
    have hgr : ∀ C : Asset, lookup .grouping C.exts = lookup .grouping B.exts → ¬ GroupReadable C := by
      intro C e hC
      apply b2
      unfold GroupReadable
      rw [← e]
      exact hC
    rcases refine hB h (sound_immutable hB b1 h) with ⟨rfl, c2, _⟩ | ⟨C, hC, hmv⟩
    · exact absurd (burn_reads hB c2 h) b2
    · refine ⟨C, hC, ?_⟩
      have hbad : ∀ p n, lookup .grouping B.exts = some p → 16 ≤ p.length →
          ¬ GroupReadable (B.resized p n) := by
        intro p n hp hl hC
        apply b2
        intro q hq
        rw [hp] at hq
        cases hq
        have := hC _ (show lookup .grouping (setExt .grouping (withMembers p n) B.exts) = _ from
          lookup_setExt_same)
        rw [length_withMembers (by omega)] at this
        exact this
      cases hmv with
      | transfer _ s r rest ha =>
        refine ⟨b1, hgr _ rfl, b3, ?_⟩
        rintro ⟨p, h1, h2⟩
        have := transfer_reads hB (by rw [ha]; rfl) h (b3.trans h1)
        omega
      | handover _ _ _ _ _ _ _ _ h => exact absurd b1 h
      | retitle _ _ _ _ _ _ _ h => exact absurd b1 h
      | update _ _ _ _ _ _ _ _ _ h => exact absurd b1 h
      | updateFrom _ _ _ _ _ _ _ _ _ _ h => exact absurd b1 h
      | remove _ _ _ _ _ _ _ h => exact absurd b1 h
      | verify => exact ⟨b1, hgr _ (lookup_setExt_ne (by decide)), (lookup_setExt_ne (by decide)).trans b3, b4⟩
      | unverify => exact ⟨b1, hgr _ (lookup_setExt_ne (by decide)), (lookup_setExt_ne (by decide)).trans b3, b4⟩
      | memberIn _ _ p _ _ _ hp hl _ =>
        exact ⟨b1, hbad p _ hp hl, (lookup_setExt_ne (by decide)).trans b3, b4⟩
      | memberOut _ _ p _ _ _ hp hl =>
        exact ⟨b1, hbad p _ hp hl, (lookup_setExt_ne (by decide)).trans b3, b4⟩
      | _ => exact ⟨b1, hgr _ rfl, b3, b4⟩

/-- The Update without data of a type, which makes the asset immutable. -/
def emptying (t : ExtType) : UpdateInput := ⟨none, some false, some ⟨t, 0, none⟩⟩

/-- The authority of any asset that is not immutable can make sure, with one instruction, that nobody
ever burns it: its rent is lost. -/
theorem C96_anyone {g p y : Key} {rest : List Key} (hs : Stores E.program L k A)
    (hu : Usable E k A) (hf : Fresh E L k)
    (hw : ∀ z ∈ A.authority :: E.program :: g :: p :: y :: rest, Whole E.program L z)
    (hsig : E.signer A.authority = true) (hmut : A.mutableByte ≠ 0)
    (ho : Unobstructed L k A .grouping 0)
    (hr : RoomFor E L k A .grouping [] (optAcc E p) (optAcc E y)) :
    ∃ L1, execute E L (k :: A.authority :: E.program :: g :: p :: y :: rest)
        (.update (emptying .grouping)) = .ok L1 ∧
      ∀ L2, StepsBy E.program (fun _ _ => True) L1 L2 → IsAsset E.program L2 k := by
  obtain ⟨L1, h1, h2⟩ := (C51_update (s := A.authority) (g := g) (p := p) (y := y) (rest := rest)
    (x := emptying .grouping) (e := ⟨.grouping, 0, none⟩) (q := []) hs hu hf hw rfl (by decide)
    (by exact ⟨rfl, rfl⟩) ho hr).mpr ⟨hsig, rfl, hmut⟩
  refine ⟨L1, h1, fun L2 h => ?_⟩
  obtain ⟨A', g1, _⟩ := C96_forever h2
    (fun hop => by
      have := (hop [] lookup_setExt_same).1
      simp at this)
    rfl h
  exact g1.1

end

section Examples
open Verif.Ex

/-- `k 1` is created for `k 2`; then its authority `k 3` gives it empty royalties and makes it an empty
group. -/
def clutched : List (List Key × List Key × Instr) :=
  [([k 1, k 5], createAccts, .create ⟨[65], .nonFungible, true, none⟩),
    ([k 3, k 5], updateAccts, .update ⟨none, none, some ⟨.royalties, 0, none⟩⟩),
    ([k 3, k 5], updateAccts, .update (emptying .grouping))]

/-- What it is then. -/
def clutchedAsset : Asset :=
  ⟨0, 0, 0, k 2, Key.default, k 3, Key.default, 0, podStr35 [65], [(.royalties, []), (.grouping, [])]⟩

/-- The full claim is false: an unlocked asset that stays with `k 2`, and is never burned, whatever
anybody does. -/
theorem C96_false : ∃ L A, ProperSteps prog empties L ∧ Stores prog L (k 1) A ∧ A.state = 0 ∧
    A.owner = k 2 ∧ A.group = Key.default ∧
    ∀ L', StepsBy prog (fun _ _ => True) L L' →
      ∃ A', Stores prog L' (k 1) A' ∧ A'.owner = k 2 := by
  have h : ((runAll clutched empties).map fun L => checkStores prog L (k 1) clutchedAsset) =
      .ok true := by decide +kernel
  obtain ⟨L, h1, h2⟩ := ok_of_map h
  have hst := checkStores_sound h2
  refine ⟨L, _, runAll_proper ?_ (.refl _) h1, hst, rfl, rfl, rfl, fun L' h => ?_⟩
  · intro x hx L
    simp only [clutched, List.mem_cons, List.not_mem_nil, or_false] at hx
    rcases hx with rfl | rfl | rfl
    · intro y hy; cases hy
    · exact ⟨fun e he => by cases he; decide, fun b hb hne => by cases hb; exact absurd rfl hne⟩
    · exact ⟨fun e he => by cases he; decide, fun b hb hne => by cases hb; exact absurd rfl hne⟩
  · obtain ⟨A', g1, _, g3⟩ := C96_forever hst
      (fun hop => absurd (hop [] rfl).1 (by decide)) rfl h
    exact ⟨A', g1, g3 ⟨[], rfl, by decide⟩⟩

/-- The owner could have burned it before the last step, and transferred it before the last two. -/
example :
    (runAll (clutched.take 2 ++ [([k 2], [k 1, k 2, k 5, prog], .burn)]) empties).isOk = true ∧
    (runAll (clutched ++ [([k 2], [k 1, k 2, k 5, prog], .burn)]) empties).isOk = false ∧
    (runAll (clutched.take 1 ++ [([k 2], [k 1, k 2, k 5, prog], .transfer)]) empties).isOk = true ∧
    (runAll (clutched.take 2 ++ [([k 2], [k 1, k 2, k 5, prog], .transfer)]) empties).isOk = false := by
  decide +kernel

end Examples

end Verif.Props

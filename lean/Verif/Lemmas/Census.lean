import Verif.Spec.Census
import Verif.Lemmas.WellFormed

/-!
# Counting the members of groups
-/

namespace Verif

open Verif.Spec

variable {program : Key} {E : Env} {L L' : Ledger} {k a g : Key} {accts : List Key} {A A' : Asset}
  {p q : Bytes} {ms : List Key}

/-! ## Data -/

theorem membersOf_lt (h : 16 ≤ p.length) : membersOf p < 18446744073709551616 := by
  unfold membersOf
  have := leNat_lt (p.take 8)
  have hl : (p.take 8).length = 8 := by rw [List.length_take]; omega
  rw [hl] at this
  simpa using this

theorem length_withMembers (n : Nat) (h : 8 ≤ p.length) : (withMembers p n).length = p.length := by
  unfold withMembers
  rw [List.length_append, length_toLE, List.length_drop]
  omega

theorem membersOf_with {n : Nat} (hn : n < 18446744073709551616) : membersOf (withMembers p n) = n := by
  unfold membersOf withMembers
  rw [List.take_left' (length_toLE 8 n), leNat_toLE]
  exact Nat.mod_eq_of_lt (by simpa using hn)

theorem limitOf_with (n : Nat) : limitOf (withMembers p n) = limitOf p := by
  unfold limitOf withMembers slice
  rw [List.drop_left' (length_toLE 8 n)]

/-! ## Members -/

theorem Spec.WellFormed.stores (hw : WellFormed program L) (h : IsAsset program L k) :
    ∃ A, Stores program L k A ∧ Distinct A.exts := by
  rcases (hw k h.1).2 with ht | hb
  · exact ht
  · have h1 : byteAt (L k).data 0 = 0 := hb.disc
    have h2 : byteAt (L k).data 0 = 1 := h.2.2
    rw [h1] at h2
    exact absurd h2 (by decide)

theorem member_iff (hw : WellFormed program L) :
    Member program L g k ↔ ∃ A, Stores program L k A ∧ A.group = g := by
  constructor
  · rintro ⟨h1, h2⟩
    obtain ⟨A, hA, _⟩ := hw.stores h1
    exact ⟨A, hA, by rw [hA.2.2.1]; exact h2⟩
  · rintro ⟨A, hA, h2⟩
    exact ⟨hA.1, by rw [hA.2.2.1] at h2; exact h2⟩

theorem Spec.GroupOf.unique (h : GroupOf program L g p) (h' : GroupOf program L g q) : p = q := by
  obtain ⟨A, h1, h2⟩ := h
  obtain ⟨B, h3, h4⟩ := h'
  rw [h1.unique h3] at h2
  exact Option.some.inj (h2.symm.trans h4)

theorem groupOf_iff (hs : Stores program L g A) :
    GroupOf program L g p ↔ lookup .grouping A.exts = some p := by
  constructor
  · rintro ⟨B, h1, h2⟩
    rwa [hs.unique h1]
  · exact fun h => ⟨A, hs, h⟩

/-! ## One group -/

/-- The books of group `g` are right. -/
def Entry (program : Key) (L : Ledger) (g : Key) : Prop :=
  ∃ ms, Roll program L g ms ∧
    (∀ p, GroupOf program L g p → 16 ≤ p.length ∧ membersOf p = ms.length) ∧
    (ms ≠ [] → ∃ p, GroupOf program L g p)

/-- Group data that does not change the number of members, nor sets a limit below it. -/
def QuietData (p p' : Bytes) : Prop :=
  p' = p ∨ (16 ≤ p'.length ∧ membersOf p' = membersOf p ∧
    (limitOf p' = 0 ∨ membersOf p' ≤ limitOf p'))

/-- Nothing happens to the members of `g`. -/
def GroupQuiet (program : Key) (L L' : Ledger) (g : Key) : Prop :=
  (∀ p', GroupOf program L' g p' → (∃ p, GroupOf program L g p ∧ QuietData p p') ∨
    ((¬ ∃ p, GroupOf program L g p) ∧ 16 ≤ p'.length ∧ membersOf p' = 0)) ∧
  ∀ p, GroupOf program L g p → (∃ p', GroupOf program L' g p') ∨ membersOf p = 0

theorem entry_same (he : Entry program L g)
    (hm : ∀ k, Member program L' g k ↔ Member program L g k) (hq : GroupQuiet program L L' g) :
    Entry program L' g := by
  obtain ⟨ms, ⟨h1, h2⟩, h3, h4⟩ := he
  refine ⟨ms, ⟨h1, fun k => (h2 k).trans (hm k).symm⟩, fun p' hp' => ?_, fun hne => ?_⟩
  · rcases hq.1 p' hp' with ⟨p, hp, hd⟩ | ⟨hn, hl, h0⟩
    · obtain ⟨g1, g2⟩ := h3 p hp
      rcases hd with rfl | ⟨k1, k2, _⟩
      · exact ⟨g1, g2⟩
      · exact ⟨k1, by rw [k2, g2]⟩
    · refine ⟨hl, ?_⟩
      rw [h0]
      by_cases hms : ms = []
      · rw [hms]; rfl
      · exact absurd (h4 hms) hn
  · obtain ⟨p, hp⟩ := h4 hne
    rcases hq.2 p hp with h | h
    · exact h
    · have := (h3 p hp).2
      rw [h] at this
      exact absurd (List.length_eq_zero_iff.mp this.symm) hne

theorem entry_join (he : Entry program L g) (hn : ¬ Member program L g a)
    (hm : ∀ k, Member program L' g k ↔ Member program L g k ∨ k = a)
    (hp : GroupOf program L g p)
    (hp' : GroupOf program L' g (withMembers p (more (membersOf p))))
    (hfew : ∀ ms, Roll program L' g ms → ms.length < 18446744073709551616) :
    Entry program L' g := by
  obtain ⟨ms, ⟨h1, h2⟩, h3, _⟩ := he
  obtain ⟨g1, g2⟩ := h3 p hp
  have hroll : Roll program L' g (a :: ms) := by
    refine ⟨List.nodup_cons.mpr ⟨fun h => hn ((h2 a).mp h), h1⟩, fun k => ?_⟩
    rw [hm k, List.mem_cons, h2 k]
    tauto
  have hlt := hfew _ hroll
  rw [List.length_cons] at hlt
  have hmore : more (membersOf p) = ms.length + 1 := by
    unfold more
    rw [g2]
    exact Nat.mod_eq_of_lt hlt
  refine ⟨a :: ms, hroll, fun q hq => ?_, fun _ => ⟨_, hp'⟩⟩
  rw [hq.unique hp', hmore, length_withMembers _ (by omega), membersOf_with hlt]
  exact ⟨g1, rfl⟩

theorem entry_leave (he : Entry program L g) (ha : Member program L g a)
    (hm : ∀ k, Member program L' g k ↔ Member program L g k ∧ k ≠ a)
    (hp : GroupOf program L g p)
    (hp' : GroupOf program L' g (withMembers p (fewer (membersOf p)))) :
    Entry program L' g ∧ fewer (membersOf p) < membersOf p := by
  obtain ⟨ms, ⟨h1, h2⟩, h3, _⟩ := he
  obtain ⟨g1, g2⟩ := h3 p hp
  have hmem := (h2 a).mpr ha
  have hpos : 0 < ms.length := List.length_pos_of_mem hmem
  have hlt := membersOf_lt g1
  have hfewer : fewer (membersOf p) = ms.length - 1 := by
    unfold fewer
    rw [if_neg (by omega), g2]
  refine ⟨⟨ms.erase a, ⟨h1.erase a, fun k => ?_⟩, fun q hq => ?_, fun _ => ⟨_, hp'⟩⟩, by omega⟩
  · rw [hm k, ← h2 k, h1.mem_erase_iff]
    tauto
  · rw [hq.unique hp', hfewer, length_withMembers _ (by omega), membersOf_with (by omega),
      List.length_erase_of_mem hmem]
    exact ⟨g1, rfl⟩

/-! ## All groups -/

/-- The limits hold as well. -/
def Kept (program : Key) (L : Ledger) : Prop := Consistent program L ∧ Limited program L

theorem limited_quiet (hl : ∀ p, GroupOf program L g p → limitOf p = 0 ∨ membersOf p ≤ limitOf p)
    (hq : GroupQuiet program L L' g) (hp : GroupOf program L' g p) :
    limitOf p = 0 ∨ membersOf p ≤ limitOf p := by
  rcases hq.1 p hp with ⟨q, h1, rfl | ⟨_, _, h2⟩⟩ | ⟨_, _, h2⟩
  · exact hl _ h1
  · exact h2
  · rw [h2]; exact Or.inr (Nat.zero_le _)

theorem consistent_quiet (hc : Consistent program L) (hw : WellFormed program L')
    (hm : ∀ g, g ≠ Key.default → ∀ k, Member program L' g k ↔ Member program L g k)
    (hq : ∀ g, GroupQuiet program L L' g) :
    Consistent program L' ∧ (Limited program L → Limited program L') :=
  ⟨⟨hw, fun g hg => entry_same (hc.2 g hg) (hm g hg) (hq g)⟩,
    fun hl g _ hg hp => limited_quiet (fun p => hl g p hg) (hq g) hp⟩

theorem groupQuiet_refl (h : ∀ p, GroupOf program L' g p ↔ GroupOf program L g p) :
    GroupQuiet program L L' g :=
  ⟨fun p' hp' => Or.inl ⟨p', (h p').mp hp', Or.inl rfl⟩, fun p hp => Or.inl ⟨p, (h p).mpr hp⟩⟩

/-- Account `a` joins the group `g`; nothing happens to any other account. -/
theorem consistent_join {Ag Aa : Asset} (hc : Consistent program L) (hw : WellFormed program L')
    (hne : g ≠ a) (hpa : ∀ g', g' ≠ Key.default → ¬ Member program L g' a)
    (ha : Stores program L' a Aa) (hag : Aa.group = g)
    (hg : Stores program L g Ag) (hp : lookup .grouping Ag.exts = some p)
    (hlim : limitOf p = 0 ∨ membersOf p < limitOf p) (h16 : 16 ≤ p.length)
    (hg' : Stores program L' g (Ag.resized p (more (membersOf p))))
    (ho : ∀ k, k ≠ a → k ≠ g → ∀ A, Stores program L' k A ↔ Stores program L k A)
    (hqa : GroupQuiet program L L' a)
    (hfew : ∀ g ms, Roll program L' g ms → ms.length < 18446744073709551616) :
    Consistent program L' ∧ (Limited program L → Limited program L') := by
  have hpg : GroupOf program L g p := ⟨Ag, hg, hp⟩
  have hpg' : GroupOf program L' g (withMembers p (more (membersOf p))) :=
    ⟨_, hg', lookup_setExt_same⟩
  have hmem : ∀ g' k, k ≠ a → (Member program L' g' k ↔ Member program L g' k) := by
    intro g' k hka
    rw [member_iff hw, member_iff hc.1]
    by_cases hkg : k = g
    · subst hkg
      constructor
      · rintro ⟨A, hA, h⟩
        rw [hA.unique hg'] at h
        exact ⟨Ag, hg, h⟩
      · rintro ⟨A, hA, h⟩
        rw [hA.unique hg] at h
        exact ⟨_, hg', h⟩
    · constructor
      · rintro ⟨A, hA, h⟩; exact ⟨A, (ho k hka hkg A).mp hA, h⟩
      · rintro ⟨A, hA, h⟩; exact ⟨A, (ho k hka hkg A).mpr hA, h⟩
  have haM : ∀ g', Member program L' g' a ↔ g' = g := by
    intro g'
    rw [member_iff hw]
    constructor
    · rintro ⟨A, hA, h⟩
      rw [hA.unique ha, hag] at h
      exact h.symm
    · rintro rfl; exact ⟨Aa, ha, hag⟩
  have hquiet : ∀ g', g' ≠ g → GroupQuiet program L L' g' := by
    intro g' hgg
    by_cases hga : g' = a
    · subst hga; exact hqa
    · refine groupQuiet_refl fun q => ?_
      constructor
      · rintro ⟨A, hA, h⟩; exact ⟨A, (ho g' hga hgg A).mp hA, h⟩
      · rintro ⟨A, hA, h⟩; exact ⟨A, (ho g' hga hgg A).mpr hA, h⟩
  refine ⟨⟨hw, fun g' hg'd => ?_⟩, fun hl g' q hg'd hq => ?_⟩
  · by_cases hgg : g' = g
    · subst hgg
      refine entry_join (hc.2 g' hg'd) (hpa g' hg'd) (fun k => ?_) hpg hpg' (hfew g')
      by_cases hka : k = a
      · subst hka
        simp [(haM g').mpr rfl]
      · rw [hmem g' k hka]; simp [hka]
    · refine entry_same (hc.2 g' hg'd) (fun k => ?_) (hquiet g' hgg)
      by_cases hka : k = a
      · subst hka
        constructor
        · intro h; exact absurd ((haM g').mp h) hgg
        · intro h; exact absurd h (hpa g' hg'd)
      · exact hmem g' k hka
  · by_cases hgg : g' = g
    · subst hgg
      rw [hq.unique hpg', limitOf_with]
      have h1 := membersOf_lt h16
      rcases hlim with h | h
      · exact Or.inl h
      · right
        have : more (membersOf p) = membersOf p + 1 := by
          unfold more
          have : limitOf p < 18446744073709551616 := by
            unfold limitOf
            have := leNat_lt (slice p 8 8)
            rw [length_slice (by omega)] at this
            simpa using this
          exact Nat.mod_eq_of_lt (by omega)
        rw [this, membersOf_with]
        · omega
        · have : limitOf p < 18446744073709551616 := by
            unfold limitOf
            have := leNat_lt (slice p 8 8)
            rw [length_slice (by omega)] at this
            simpa using this
          omega
    · exact limited_quiet (fun p => hl g' p hg'd) (hquiet g' hgg) hq

/-- Account `a` leaves the group `g`; nothing happens to any other account. -/
theorem consistent_leave {Ag Aa : Asset} (hc : Consistent program L) (hw : WellFormed program L')
    (hne : g ≠ a) (hpa : ∀ g', g' ≠ Key.default → ¬ Member program L' g' a)
    (ha : Stores program L a Aa) (hag : Aa.group = g)
    (hg : Stores program L g Ag) (hp : lookup .grouping Ag.exts = some p)
    (hg' : Stores program L' g (Ag.resized p (fewer (membersOf p))))
    (ho : ∀ k, k ≠ a → k ≠ g → ∀ A, Stores program L' k A ↔ Stores program L k A)
    (hqa : GroupQuiet program L L' a) :
    Consistent program L' ∧ (Limited program L → Limited program L') := by
  have hpg : GroupOf program L g p := ⟨Ag, hg, hp⟩
  have hpg' : GroupOf program L' g (withMembers p (fewer (membersOf p))) :=
    ⟨_, hg', lookup_setExt_same⟩
  have hmem : ∀ g' k, k ≠ a → (Member program L' g' k ↔ Member program L g' k) := by
    intro g' k hka
    rw [member_iff hw, member_iff hc.1]
    by_cases hkg : k = g
    · subst hkg
      constructor
      · rintro ⟨A, hA, h⟩
        rw [hA.unique hg'] at h
        exact ⟨Ag, hg, h⟩
      · rintro ⟨A, hA, h⟩
        rw [hA.unique hg] at h
        exact ⟨_, hg', h⟩
    · constructor
      · rintro ⟨A, hA, h⟩; exact ⟨A, (ho k hka hkg A).mp hA, h⟩
      · rintro ⟨A, hA, h⟩; exact ⟨A, (ho k hka hkg A).mpr hA, h⟩
  have haM : ∀ g', Member program L g' a ↔ g' = g := by
    intro g'
    rw [member_iff hc.1]
    constructor
    · rintro ⟨A, hA, h⟩
      rw [hA.unique ha, hag] at h
      exact h.symm
    · rintro rfl; exact ⟨Aa, ha, hag⟩
  have hquiet : ∀ g', g' ≠ g → GroupQuiet program L L' g' := by
    intro g' hgg
    by_cases hga : g' = a
    · subst hga; exact hqa
    · refine groupQuiet_refl fun q => ?_
      constructor
      · rintro ⟨A, hA, h⟩; exact ⟨A, (ho g' hga hgg A).mp hA, h⟩
      · rintro ⟨A, hA, h⟩; exact ⟨A, (ho g' hga hgg A).mpr hA, h⟩
  have hleave : g ≠ Key.default → Entry program L' g ∧ fewer (membersOf p) < membersOf p := by
    intro hgd
    refine entry_leave (hc.2 g hgd) ((haM g).mpr rfl) (fun k => ?_) hpg hpg'
    by_cases hka : k = a
    · subst hka
      constructor
      · intro h; exact absurd h (hpa g hgd)
      · rintro ⟨_, h⟩; exact absurd rfl h
    · rw [hmem g k hka]; simp [hka]
  refine ⟨⟨hw, fun g' hg'd => ?_⟩, fun hl g' q hg'd hq => ?_⟩
  · by_cases hgg : g' = g
    · subst hgg
      exact (hleave hg'd).1
    · refine entry_same (hc.2 g' hg'd) (fun k => ?_) (hquiet g' hgg)
      by_cases hka : k = a
      · subst hka
        constructor
        · intro h; exact absurd h (hpa g' hg'd)
        · intro h; exact absurd ((haM g').mp h) hgg
      · exact hmem g' k hka
  · by_cases hgg : g' = g
    · subst hgg
      obtain ⟨ms, _, h3, _⟩ := hc.2 g' hg'd
      have h1 := membersOf_lt (h3 p hpg).1
      have h2 := (hleave hg'd).2
      rw [hq.unique hpg', limitOf_with, membersOf_with (by omega)]
      rcases hl g' p hg'd hpg with h | h
      · exact Or.inl h
      · right; omega
    · exact limited_quiet (fun p => hl g' p hg'd) (hquiet g' hgg) hq

/-! ## Instructions that do not move members -/

/-- What leaves groups and members alone. -/
def QuietAsset (A A' : Asset) : Prop :=
  A'.group = A.group ∧
  (∀ p', lookup .grouping A'.exts = some p' →
    (∃ p, lookup .grouping A.exts = some p ∧ QuietData p p') ∨
    (lookup .grouping A.exts = none ∧ 16 ≤ p'.length ∧ membersOf p' = 0)) ∧
  ∀ p, lookup .grouping A.exts = some p → (∃ p', lookup .grouping A'.exts = some p') ∨
    membersOf p = 0

theorem QuietAsset.of_eq (h1 : A'.group = A.group)
    (h2 : lookup .grouping A'.exts = lookup .grouping A.exts) : QuietAsset A A' :=
  ⟨h1, fun p' hp' => Or.inl ⟨p', h2 ▸ hp', Or.inl rfl⟩, fun p hp => Or.inl ⟨p, h2.trans hp⟩⟩

theorem lookup_removeExt_same {t : ExtType} {es : List Extn} (h : Distinct es) :
    lookup t (removeExt t es) = none := by
  unfold Distinct at h
  induction es with
  | nil => rfl
  | cons y ys ih =>
    obtain ⟨t', p'⟩ := y
    rw [List.map_cons, List.nodup_cons] at h
    unfold removeExt
    split
    · rename_i ht
      rw [lookup_eq_none]
      rw [← ht]
      exact h.1
    · rename_i ht
      unfold lookup
      rw [if_neg ht]
      exact ih h.2

theorem quiet_groupUpdate {au : Key} {old : Option Bytes} {new : Bytes}
    (h : Accepted (some au) .grouping old new p) :
    (∃ o, old = some o ∧ QuietData o p) ∨ (old = none ∧ 16 ≤ p.length ∧ membersOf p = 0) := by
  unfold Accepted at h
  simp only at h
  obtain ⟨h1, _, h3⟩ := h
  cases old with
  | none =>
    simp only at h3
    obtain ⟨rfl, h4⟩ := h3
    exact Or.inr ⟨rfl, h1, h4⟩
  | some o =>
    simp only at h3
    obtain ⟨h4, rfl, h5⟩ := h3
    have hm := membersOf_with (p := new) (membersOf_lt h4)
    exact Or.inl ⟨o, rfl, Or.inr ⟨by rw [length_withMembers _ (by omega)]; exact h1, hm,
      by rw [hm, limitOf_with]; exact h5⟩⟩

theorem quiet_set {t : ExtType} {A0 : Asset} (h0 : A0.group = A.group) (h1 : A0.exts = A.exts)
    (h : t = .grouping → (∃ o, lookup .grouping A.exts = some o ∧ QuietData o p) ∨
      (lookup .grouping A.exts = none ∧ 16 ≤ p.length ∧ membersOf p = 0)) :
    QuietAsset A { A0 with exts := setExt t p A.exts } := by
  by_cases ht : t = .grouping
  · subst ht
    refine ⟨h0, fun p' hp' => ?_, fun q _ => Or.inl ⟨p, lookup_setExt_same⟩⟩
    simp only at hp'
    rw [lookup_setExt_same] at hp'
    cases hp'
    exact h rfl
  · exact QuietAsset.of_eq h0 (lookup_setExt_ne (Ne.symm ht))

/-- The type of an update from a buffer. -/
theorem update_from {au b : Key} {rest : List Key} {x : UpdateInput} (hs : Stores E.program L k A)
    (h : execute E L (k :: au :: b :: rest) (.update x) = .ok L') (hx : x.extension = none)
    (hbp : b ≠ E.program) :
    ∃ t p, t.toU32 = leNat (slice (L b).data 168 4) ∧
      Stores E.program L' k { A.retitled x with exts := setExt t p A.exts } := by
  obtain ⟨_, _, _, g, pa, s, rest, he, hp⟩ := exec_update h
  cases he
  have hmax := execute_maxLen h (k := k) (by simp) hs.2.1
  unfold processUpdate at hp
  inv at hp
  obtain ⟨hsig, ho, hi, ha, hm, hp⟩ := hp
  have hs1 := stores_updateHeader hs x
  rw [hx, show optAcc E b = some b from if_neg hbp] at hp
  simp only at hp
  obtain ⟨hd, off, t, v, g1, g2, g4, g3⟩ := updateBuffer_stores hs1 hmax hp
  have hbk : b ≠ k := by
    unfold updateBuffer at hp
    inv at hp
    exact hp.2.1
  rw [Ledger.setData_other _ _ hbk] at g1 g3
  have hhd : hd = hdrAt (L b).data 168 := by
    unfold firstExtension at g1
    split at g1
    · simp only at g1
      split at g1
      · cases g1
      · cases g1; rfl
      · cases g1
    · cases g1
  have ht : t ≠ .none := by
    rintro rfl
    unfold firstExtension at g1
    split at g1
    · simp only at g1
      split at g1
      · cases g1
      · rename_i hne
        cases g1
        rw [hne] at g2
        cases g2
        simp_all
      · cases g1
    · cases g1
  obtain ⟨g3, g5⟩ := g3 ht
  refine ⟨t, _, ?_, g5⟩
  have : leNat (slice (L b).data 168 4) = hd.ty := by rw [hhd]; rfl
  rw [this, toU32_ofU32 g2]

theorem grouping_of_get (hs : Stores program L k A) {r : Option Bytes}
    (h : assetGet .grouping (L k).data = .ok r) : r = lookup .grouping A.exts := by
  obtain ⟨e, h1, h2⟩ := hs.2.2.2
  rw [assetGet_walk ⟨e, h1.walk, Or.inr h2⟩ (by decide)] at h
  cases h; rfl

/-- A group with members cannot be removed. -/
theorem remove_empty {rest : List Key} (hs : Stores E.program L k A)
    (h : execute E L (k :: rest) (.remove .grouping) = .ok L')
    (hl : lookup .grouping A.exts = some p) : membersOf p = 0 := by
  obtain ⟨a, au, g, r, rest, he, hp⟩ := exec_remove h
  cases he
  unfold processRemove at hp
  inv at hp
  obtain ⟨_, _, _, _, _, y, _, hp⟩ := hp
  cases y with
  | none => cases hp
  | some y =>
    simp only at hp
    inv at hp
    obtain ⟨hr, _⟩ := hp
    unfold removeAllowed at hr
    simp only at hr
    inv at hr
    obtain ⟨z, hz, hr⟩ := hr
    rw [grouping_of_get hs hz, hl] at hr
    simp only at hr
    inv at hr
    obtain ⟨gr, hg, hr⟩ := hr
    rw [← members_eq hg]
    exact hr

/-- A group with members cannot be burned. -/
theorem burn_empty {rest : List Key} (hs : Stores E.program L k A)
    (h : execute E L (k :: rest) .burn = .ok L')
    (hl : lookup .grouping A.exts = some p) : membersOf p = 0 := by
  obtain ⟨a, s, r, g, rest, he, hp⟩ := exec_burn h
  cases he
  unfold processBurn at hp
  inv at hp
  obtain ⟨_, _, _, _, _, _, L1, _, res, hz, hp⟩ := hp
  rw [grouping_of_get hs hz, hl] at hp
  simp only at hp
  inv at hp
  obtain ⟨gr, hg, h0, _⟩ := hp
  rw [← members_eq hg]
  exact h0

/-- Instructions that move members. -/
def Busy : Instr → Prop
  | .group | .ungroup | .burn | .create _ => True
  | _ => False

theorem quiet_move {i : Instr} (hs : Stores E.program L k A) (hd : Distinct A.exts)
    (h : execute E L accts i = .ok L') (hi : Proper E.program L accts i)
    (hu : ∀ x e, i = .update x → x.extension = some e → e.ty = .grouping → e.data ≠ none)
    (hb : ¬ Busy i) : ∃ A', Stores E.program L' k A' ∧ QuietAsset A A' := by
  rcases refine hs h (hi.sound hs hd) with ⟨rfl, _, _⟩ | ⟨A', hs', hm⟩
  · exact absurd trivial hb
  refine ⟨A', hs', ?_⟩
  cases hm with
  | stay _ _ => exact .of_eq rfl rfl
  | transfer => exact .of_eq rfl rfl
  | approve => exact .of_eq rfl rfl
  | revoke => exact .of_eq rfl rfl
  | lock => exact .of_eq rfl rfl
  | unlock => exact .of_eq rfl rfl
  | join => exact absurd trivial hb
  | leave => exact absurd trivial hb
  | handover => exact .of_eq rfl rfl
  | retitle => exact .of_eq rfl rfl
  | update _ x s rest e p ha _ _ _ hx he hp =>
    refine quiet_set rfl rfl fun ht => ?_
    unfold UpdatesTo at hp
    cases hdt : e.data with
    | none => exact absurd hdt (hu x e rfl hx ht)
    | some new =>
      rw [hdt] at hp
      simp only at hp
      rw [ht] at hp
      exact quiet_groupUpdate hp.1
  | updateFrom _ x s b rest t p ha _ _ _ hx hbp _ _ =>
    subst ha
    obtain ⟨t', p', g1, g2⟩ := update_from hs h hx hbp
    rw [hs'.unique g2]
    refine quiet_set rfl rfl fun ht => ?_
    subst ht
    exact absurd g1.symm (hi.2 b rfl hbp).2
  | remove _ t s rest ha _ _ _ _ =>
    subst ha
    by_cases ht : t = .grouping
    · subst ht
      refine ⟨rfl, fun p' hp' => ?_, fun p hp => Or.inr (remove_empty hs h hp)⟩
      simp only at hp'
      rw [lookup_removeExt_same hd] at hp'
      cases hp'
    · exact .of_eq rfl (lookup_removeExt_ne (Ne.symm ht))
  | verify => exact .of_eq rfl (lookup_setExt_ne (by decide))
  | unverify => exact .of_eq rfl (lookup_setExt_ne (by decide))
  | memberIn _ _ p hi' =>
    rcases hi' with rfl | ⟨x, rfl⟩ <;> exact absurd trivial hb
  | memberOut _ _ p hi' =>
    rcases hi' with rfl | rfl <;> exact absurd trivial hb

/-- Only Create makes assets. -/
theorem born_before {i : Instr} (hw : WellFormed E.program L) (h : execute E L accts i = .ok L')
    (hl : ∀ k, E.origLen k = (L k).data.length) (hi : Proper E.program L accts i)
    (hs : Stores E.program L' k A') (hc : ∀ x, i = .create x → accts.head? ≠ some k) :
    ∃ A, Stores E.program L k A ∧ Distinct A.exts := by
  have hold : (L k).data.length ≤ 10485760 ∧ (Tidy E.program L k ∨ Buffer (L k).data) := by
    by_cases hn : (L k).owner = E.program
    · exact hw k hn
    · rw [(newly_owned h hs.1.1 hn).2]
      exact ⟨by simp, Or.inr buffer_nil⟩
  rcases hold.2 with ht | hb
  · exact ht
  · rcases wf_buffer h hl hi hb hold.1 with ⟨⟨x, hx, hk⟩, _⟩ | hb'
    · exact absurd hk (hc x hx)
    · exact absurd hs.init hb'.not_init

theorem kept_quiet {i : Instr} (hc : Consistent E.program L) (h : execute E L accts i = .ok L')
    (hl : ∀ k, E.origLen k = (L k).data.length) (hi : Proper E.program L accts i)
    (hu : ∀ x e, i = .update x → x.extension = some e → e.ty = .grouping → e.data ≠ none)
    (hb : ¬ Busy i) :
    Consistent E.program L' ∧ (Limited E.program L → Limited E.program L') := by
  have hw' := wf_instr hc.1 h hl hi
  have hnc : ∀ x, i ≠ .create x := by rintro x rfl; exact hb trivial
  have back : ∀ {k A'}, Stores E.program L' k A' → ∃ A, Stores E.program L k A ∧ QuietAsset A A' := by
    intro k A' hs'
    obtain ⟨A, hs, hd⟩ := born_before hc.1 h hl hi hs' fun x hx => absurd hx (hnc x)
    obtain ⟨B, g1, g2⟩ := quiet_move hs hd h hi hu hb
    rw [g1.unique hs'] at g2
    exact ⟨A, hs, g2⟩
  have forth : ∀ {k A}, Stores E.program L k A → ∃ A', Stores E.program L' k A' ∧ QuietAsset A A' := by
    intro k A hs
    obtain ⟨B, hB, hd⟩ := hc.1.stores hs.1
    obtain rfl := hs.unique hB
    exact quiet_move hs hd h hi hu hb
  refine consistent_quiet hc hw' (fun g _ k => ?_) (fun g => ?_)
  · rw [member_iff hw', member_iff hc.1]
    constructor
    · rintro ⟨A', hs', hg⟩
      obtain ⟨A, hs, hq⟩ := back hs'
      exact ⟨A, hs, hq.1.symm.trans hg⟩
    · rintro ⟨A, hs, hg⟩
      obtain ⟨A', hs', hq⟩ := forth hs
      exact ⟨A', hs', hq.1.trans hg⟩
  · refine ⟨?_, ?_⟩
    · rintro p' ⟨A', hs', hp'⟩
      obtain ⟨A, hs, hq⟩ := back hs'
      rcases hq.2.1 p' hp' with ⟨p, hp, hd⟩ | ⟨h1, h2⟩
      · exact Or.inl ⟨p, ⟨A, hs, hp⟩, hd⟩
      · refine Or.inr ⟨?_, h2⟩
        rintro ⟨p, hp⟩
        rw [(groupOf_iff hs).mp hp] at h1
        cases h1
    · rintro p ⟨A, hs, hp⟩
      obtain ⟨A', hs', hq⟩ := forth hs
      rcases hq.2.2 p hp with ⟨p', hp'⟩ | h0
      · exact Or.inl ⟨p', A', hs', hp'⟩
      · exact Or.inr h0

/-! ## Instructions that move members -/

theorem stores_frame {i : Instr} (h : execute E L accts i = .ok L') (hk : k ∉ dataKeys i accts)
    (A : Asset) : Stores program L' k A ↔ Stores program L k A := by
  obtain ⟨_, _, _, he⟩ := execute_effect h
  obtain ⟨h1, h2⟩ := he.data k hk
  exact ⟨fun hs => hs.congr h2.symm h1.symm, fun hs => hs.congr h2 h1⟩

theorem not_dataKeys {i : Instr} {n : Nat} (hi : i.dataPositions = [0, n])
    (h0 : accts[0]? = some a) (hn : accts[n]? = some g) (ha : k ≠ a) (hg : k ≠ g) :
    k ∉ dataKeys i accts := by
  intro hk
  rcases mem_two hi hk h0 with h | h
  · exact ha h
  · rw [hn] at h; exact hg (Option.some.inj h).symm

theorem group_checks {au : Key} (h : processGroup E L a g au = .ok L') :
    IsAsset E.program L a ∧ IsAsset E.program L g := by
  unfold processGroup at h
  inv at h
  obtain ⟨_, h1, h2, h3, _, h4, _⟩ := h
  exact ⟨⟨h1, h3.1, h3.2⟩, ⟨h2, h4.1, h4.2⟩⟩

theorem ungroup_checks {au : Key} (h : processUngroup E L a g au = .ok L') :
    IsAsset E.program L a ∧ IsAsset E.program L g := by
  unfold processUngroup at h
  inv at h
  obtain ⟨_, h1, h2, h3, _, h4, _⟩ := h
  exact ⟨⟨h1, h3.1, h3.2⟩, ⟨h2, h4.1, h4.2⟩⟩

theorem groupQuiet_exts {B : Asset} (hs : Stores program L k A) (hs' : Stores program L' k B)
    (h : B.exts = A.exts) : GroupQuiet program L L' k :=
  groupQuiet_refl fun p => by rw [groupOf_iff hs, groupOf_iff hs', h]

theorem kept_group (hc : Consistent E.program L) (h : execute E L accts .group = .ok L')
    (hl : ∀ k, E.origLen k = (L k).data.length)
    (hfew : ∀ g ms, Roll E.program L' g ms → ms.length < 18446744073709551616) :
    Consistent E.program L' ∧ (Limited E.program L → Limited E.program L') := by
  have hw' := wf_instr hc.1 h hl trivial
  obtain ⟨a, g, au, rest, rfl, hp⟩ := exec_group h
  obtain ⟨ia, ig⟩ := group_checks hp
  obtain ⟨Aa, ha, _⟩ := hc.1.stores ia
  obtain ⟨Ag, hg, _⟩ := hc.1.stores ig
  obtain ⟨_, hdef, ha'⟩ := group_asset hp ha
  obtain ⟨hne, p, hpg, h16, hlim, hg'⟩ := group_group hp hg
  refine consistent_join hc hw' hne (fun g' hg' hm => ?_) ha' rfl hg hpg hlim h16 hg'
    (fun k hka hkg A => stores_frame h (not_dataKeys rfl rfl rfl hka hkg) A)
    (groupQuiet_exts ha ha' rfl) hfew
  obtain ⟨A, hA, e⟩ := (member_iff hc.1).mp hm
  rw [hA.unique ha, hdef] at e
  exact hg' e.symm

theorem kept_ungroup (hc : Consistent E.program L) (h : execute E L accts .ungroup = .ok L')
    (hl : ∀ k, E.origLen k = (L k).data.length) :
    Consistent E.program L' ∧ (Limited E.program L → Limited E.program L') := by
  have hw' := wf_instr hc.1 h hl trivial
  obtain ⟨a, g, au, rest, rfl, hp⟩ := exec_ungroup h
  obtain ⟨ia, ig⟩ := ungroup_checks hp
  obtain ⟨Aa, ha, _⟩ := hc.1.stores ia
  obtain ⟨Ag, hg, _⟩ := hc.1.stores ig
  obtain ⟨_, hdef, ha'⟩ := ungroup_asset hp ha
  obtain ⟨hne, p, hpg, h16, hg'⟩ := ungroup_group hp hg
  refine consistent_leave hc hw' hne (fun g' hg' hm => ?_) ha hdef hg hpg hg'
    (fun k hka hkg A => stores_frame h (not_dataKeys rfl rfl rfl hka hkg) A)
    (groupQuiet_exts ha ha' rfl)
  obtain ⟨A, hA, e⟩ := (member_iff hw').mp hm
  rw [hA.unique ha'] at e
  exact hg' e.symm

theorem gone_not_stores (h : Gone L k) (hs : Stores program L k A) : False := by
  have := hs.1.2.1
  rw [h] at this
  simp at this

theorem kept_burn (hc : Consistent E.program L) (h : execute E L accts .burn = .ok L')
    (hl : ∀ k, E.origLen k = (L k).data.length) :
    Consistent E.program L' ∧ (Limited E.program L → Limited E.program L') := by
  have hw' := wf_instr hc.1 h hl trivial
  obtain ⟨a, s, r, g, rest, rfl, hp⟩ := exec_burn h
  have ia : IsAsset E.program L a := by
    unfold processBurn at hp
    inv at hp
    obtain ⟨h1, _, h2, _⟩ := hp
    exact ⟨h1, h2.1, h2.2⟩
  obtain ⟨Aa, ha, _⟩ := hc.1.stores ia
  obtain ⟨L1, hb, hcl⟩ := burn_inv hp
  have hgone : Gone L' a := close_self hcl
  have hnot : ∀ A, ¬ Stores E.program L' a A := fun A hs => gone_not_stores hgone hs
  have hnm : ∀ g', ¬ Member E.program L' g' a := by
    intro g' hm
    obtain ⟨A, hA, _⟩ := (member_iff hw').mp hm
    exact hnot A hA
  have hqa : GroupQuiet E.program L L' a := by
    refine ⟨?_, ?_⟩
    · rintro p' ⟨A, hA, _⟩; exact absurd hA (hnot A)
    · intro p hpa
      exact Or.inr (burn_empty ha h ((groupOf_iff ha).mp hpa))
  by_cases hd : Aa.group = Key.default
  · have hL1 : L1 = L := by
      unfold burnGroup at hb
      rw [show hGroup (L a).data = Aa.group from ha.group_eq, hd] at hb
      rw [show nullable Key.default = none from rfl] at hb
      cases hb; rfl
    subst hL1
    have ho : ∀ k, k ≠ a → ∀ A, Stores E.program L' k A ↔ Stores E.program L1 k A := by
      intro k hk A
      obtain ⟨c1, c2⟩ := close_other E hcl hk
      exact ⟨fun hs => hs.congr c2.symm c1.symm, fun hs => hs.congr c2 c1⟩
    refine consistent_quiet hc hw' (fun g' hg' k => ?_) (fun g' => ?_)
    · by_cases hk : k = a
      · subst hk
        refine ⟨fun hm => absurd hm (hnm g'), fun hm => ?_⟩
        obtain ⟨A, hA, e⟩ := (member_iff hc.1).mp hm
        rw [hA.unique ha, hd] at e
        exact absurd e.symm hg'
      · rw [member_iff hw', member_iff hc.1]
        simp only [ho k hk]
    · by_cases hk : g' = a
      · subst hk; exact hqa
      · refine groupQuiet_refl fun p => ?_
        unfold GroupOf
        simp only [ho g' hk]
  · -- the group exists, by consistency
    obtain ⟨ms, ⟨_, hms⟩, hcount, hex⟩ := hc.2 Aa.group hd
    have hmem : a ∈ ms := (hms a).mpr ((member_iff hc.1).mpr ⟨Aa, ha, rfl⟩)
    obtain ⟨p, Ag, hg, hpg⟩ := hex (List.ne_nil_of_mem hmem)
    have hb' := hb
    unfold burnGroup at hb'
    rw [show hGroup (L a).data = Aa.group from ha.group_eq,
      show nullable Aa.group = some Aa.group from if_neg hd] at hb'
    cases hopt : optAcc E g with
    | none => rw [hopt] at hb'; cases hb'
    | some ga =>
      rw [hopt] at hb' hp
      simp only at hb'
      inv at hb'
      obtain ⟨e1, hne, y, hy, hb'⟩ := hb'
      have hga : ga = g := by
        unfold optAcc at hopt
        split at hopt
        · cases hopt
        · cases hopt; rfl
      subst hga
      rw [e1] at hg hcount
      have hpos : membersOf p ≠ 0 := by
        rw [(hcount p ⟨Ag, hg, hpg⟩).2]
        exact Nat.ne_of_gt (List.length_pos_of_mem hmem)
      have hg' : Stores E.program L' ga (Ag.resized p (fewer (membersOf p))) := by
        rcases burn_group hp hg hne with hsame | ⟨q, q1, _, _, q4⟩
        · -- the data changes, so this cannot be
          exfalso
          cases y with
          | none => cases hb'
          | some y =>
            obtain ⟨off, q⟩ := y
            inv at hb'
            obtain ⟨gr, hr, hz, rfl⟩ := hb'
            obtain ⟨c1, c2⟩ := close_other E hcl hne
            rw [Ledger.setData_same, members_eq hr] at c1
            rw [Ledger.setData_same] at c2
            obtain ⟨g1, g2⟩ := hg.replaceMut (L' := L') (q := setGroupSize q (membersOf q - 1))
              (by decide) hy (length_setGroupSize _ (readGrouping_ok hr).1) c2 c1
            rw [setGroupSize_eq] at g2
            obtain rfl : p = q := Option.some.inj (hpg.symm.trans g1)
            have e := congrArg (fun A : Asset => lookup .grouping A.exts) (hsame.unique g2)
            simp only [lookup_setExt_same] at e
            rw [hpg] at e
            have e2 := congrArg membersOf (Option.some.inj e)
            have hlt := membersOf_lt (readGrouping_ok hr).1
            rw [membersOf_with (by omega)] at e2
            omega
        · obtain rfl : p = q := Option.some.inj (hpg.symm.trans q1)
          unfold fewer
          rw [if_neg hpos]
          exact q4
      refine consistent_leave hc hw' hne (fun g' _ => hnm g') ha e1 hg hpg hg'
        (fun k hka hkg A => stores_frame h (not_dataKeys rfl rfl rfl hka hkg) A) hqa

theorem kept_create {x : CreateInput} (hc : Consistent E.program L)
    (h : execute E L accts (.create x) = .ok L') (hl : ∀ k, E.origLen k = (L k).data.length)
    (hi : Sane (asked x))
    (hfew : ∀ g ms, Roll E.program L' g ms → ms.length < 18446744073709551616) :
    Consistent E.program L' ∧ (Limited E.program L → Limited E.program L') := by
  have hw' := wf_instr hc.1 h hl hi
  obtain ⟨a, au, o, g, ga, pa, s, rest, rfl, hp⟩ := exec_create h
  obtain ⟨_, L1, L2, d, types, h1, h2, _, _, _, _, h3⟩ := processCreate_inv hp
  obtain ⟨e1, o1, hprev⟩ := createPrepare_eff h1
  obtain ⟨e2, _⟩ := allocateAll_eff h2 o1
  have hbuf : (L a).data.length ≤ 10485760 ∧ Buffer (L a).data := by
    rcases hprev with ⟨hd, _, _⟩ | ⟨ho, hl1, hd, _⟩
    · rw [hd]; exact ⟨by simp, buffer_nil⟩
    · refine ⟨(hc.1 a ho).1, ?_⟩
      rcases (hc.1 a ho).2 with ⟨A, hA, _⟩ | hb
      · exact (not_uninit hA hd).elim
      · exact hb
  obtain ⟨es, hu, hde⟩ := buffer_unborn h rfl hbuf.2 hbuf.1 hi
  obtain ⟨_, _, _, _, _, _, _, _, es1, heq, _, _, hs', hborn, _⟩ :=
    create_stores (es := es) h hl (by rintro b ⟨⟩; exact hu) (by rintro b ⟨⟩; exact hbuf.1) hi
  cases heq
  have hna : ∀ A, ¬ Stores E.program L a A := fun A hs => hbuf.2.not_init hs.init
  have hnm : ∀ g', ¬ Member E.program L g' a := by
    intro g' hm
    obtain ⟨A, hA, _⟩ := (member_iff hc.1).mp hm
    exact hna A hA
  have hqa : GroupQuiet E.program L L' a := by
    refine ⟨fun p' hp' => Or.inr ⟨?_, ?_⟩, ?_⟩
    · rintro ⟨p, A, hA, _⟩; exact hna A hA
    · have hm := lookup_mem ((groupOf_iff hs').mp hp')
      obtain ⟨y, _, hy1, hy2⟩ := forall2_mem_right hborn hm
      rw [← hy1] at hy2
      rcases quiet_groupUpdate hy2 with ⟨_, hn, _⟩ | ⟨_, hq⟩
      · cases hn
      · exact hq
    · rintro p ⟨A, hA, _⟩; exact absurd hA (hna A)
  have hsame : ∀ k, k ≠ a → ((L2.setData a (createHeader d o au x)) k).data = (L k).data ∧
      ((L2.setData a (createHeader d o au x)) k).owner = (L k).owner := by
    intro k hka
    rw [Ledger.setData_other _ _ hka, (e2.data k hka).1, (e1.data k hka).1, (e2.data k hka).2,
      (e1.data k hka).2]
    exact ⟨rfl, rfl⟩
  rcases h3 with ⟨hgn, rfl⟩ | ⟨g', hg', h3⟩
  · have ho : ∀ k, k ≠ a → ∀ A, Stores E.program (L2.setData a (createHeader d o au x)) k A ↔
        Stores E.program L k A := by
      intro k hk A
      obtain ⟨c1, c2⟩ := hsame k hk
      exact ⟨fun hs => hs.congr c2.symm c1.symm, fun hs => hs.congr c2 c1⟩
    refine consistent_quiet hc hw' (fun g' hgd k => ?_) (fun g' => ?_)
    · by_cases hk : k = a
      · subst hk
        refine ⟨fun hm => ?_, fun hm => absurd hm (hnm g')⟩
        obtain ⟨A, hA, e⟩ := (member_iff hw').mp hm
        rw [hA.unique hs', hgn] at e
        exact absurd e.symm hgd
      · rw [member_iff hw', member_iff hc.1]
        simp only [ho k hk]
    · by_cases hk : g' = a
      · subst hk; exact hqa
      · refine groupQuiet_refl fun p => ?_
        unfold GroupOf
        simp only [ho g' hk]
  · have hgg : g' = g := by
      unfold optAcc at hg'
      split at hg'
      · cases hg'
      · cases hg'; rfl
    subst hgg
    have hga : g' ≠ a := by
      have h3' := h3
      unfold processGroup at h3'
      inv at h3'
      exact h3'.2.2.2.2.1
    obtain ⟨c1, c2⟩ := hsame g' hga
    have ig : IsAsset E.program L g' := by
      obtain ⟨_, i1, i2, i3⟩ := group_checks h3
      unfold assetAt at i3
      rw [c1] at i2 i3
      rw [c2] at i1
      exact ⟨i1, i2, i3⟩
    obtain ⟨Ag, hg, _⟩ := hc.1.stores ig
    obtain ⟨hne, p, hpg, h16, hlim, hgr⟩ := group_group h3 (hg.congr c2 c1)
    exact consistent_join hc hw' hne (fun _ _ => hnm _) hs' (by rw [hg']; rfl) hg hpg hlim h16 hgr
      (fun k hka hkg A => stores_frame h (not_dataKeys rfl rfl rfl hka hkg) A) hqa hfew

/-! ## Histories -/

theorem kept_step (hc : Consistent program L) (h : CountedStep program L L') :
    Consistent program L' ∧ (Limited program L → Limited program L') := by
  cases h with
  | foreign hf =>
    have hw' := wf_foreign hc.1 hf
    have ho : ∀ k A, Stores program L' k A ↔ Stores program L k A := by
      intro k A
      refine ⟨fun hs => ?_, fun hs => hs.foreign hf⟩
      by_cases hn : (L k).owner = program
      · obtain ⟨h1, h2⟩ := (hf k).1 hn
        exact hs.congr (hn.trans h1.symm) h2.symm
      · have hz := ((hf k).2 hn hs.1.1).1
        have h1 : byteAt (L' k).data 0 = 1 := hs.1.2.2
        have h2 := hs.1.2.1
        rw [hz _ (List.mem_of_getElem? (getElem?_byteAt (by omega)))] at h1
        exact absurd h1 (by decide)
    refine consistent_quiet hc hw' (fun g _ k => ?_) (fun g => groupQuiet_refl fun p => ?_)
    · rw [member_iff hw', member_iff hc.1]
      simp only [ho]
    · unfold GroupOf
      simp only [ho]
  | instr E accts i hp hl h hi hu hfew =>
    subst hp
    by_cases hb : Busy i
    · cases i with
      | group => exact kept_group hc h hl hfew
      | ungroup => exact kept_ungroup hc h hl
      | burn => exact kept_burn hc h hl
      | create x => exact kept_create hc h hl hi hfew
      | _ => exact hb.elim
    · exact kept_quiet hc h hl hi hu hb

theorem kept_steps (hc : Consistent program L) (h : CountedSteps program L L') :
    Consistent program L' ∧ (Limited program L → Limited program L') := by
  induction h with
  | refl => exact ⟨hc, id⟩
  | tail _ h ih =>
    obtain ⟨h1, h2⟩ := kept_step ih.1 h
    exact ⟨h1, h2 ∘ ih.2⟩

theorem Spec.Genesis.consistent (h : Genesis program L) : Consistent program L :=
  ⟨h.wellFormed, fun g _ => ⟨[], ⟨List.nodup_nil, fun k =>
    ⟨fun hk => by simp at hk, fun hk => absurd hk.1.1 (h k)⟩⟩,
    fun _ ⟨_, hA, _⟩ => absurd hA.1.1 (h g), fun hn => absurd rfl hn⟩⟩

theorem Spec.Genesis.limited (h : Genesis program L) : Limited program L :=
  fun g _ _ ⟨_, hA, _⟩ => absurd hA.1.1 (h g)

end Verif

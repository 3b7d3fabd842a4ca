import Verif.Spec.Capture
import Verif.Props.C49
import Verif.Props.C63
import Verif.Props.C04
import Verif.Props.C13
import Verif.Lemmas.Life
import Verif.Lemmas.JsUpdate
import Verif.Lemmas.Census

/-!
# C65 — an asset joins a group only with the consent of those who own or administer it
-/

namespace Verif.Props

open Verif Verif.Spec

theorem sends_then {E : Env} {L L1 L2 : Ledger} {xs ys : List ClientIx}
    (h1 : sends E L xs = .ok L1) (h2 : sends E L1 ys = .ok L2) : sends E L (xs ++ ys) = .ok L2 := by
  induction xs generalizing L with
  | nil => cases h1; exact h2
  | cons x xs ih =>
    rw [sends] at h1
    rw [List.cons_append, sends]
    cases h : executeBytes (serving E L x) L x.keys x.data with
    | error e => rw [h] at h1; cases h1
    | ok L' =>
      rw [h] at h1
      exact ih h1

theorem sends_one {E : Env} {L L' : Ledger} {c : Call} (hc : InstrOk (instrOf c))
    (h : execute (serving E L (c.build E.program)) L (c.build E.program).keys (instrOf c) = .ok L') :
    sends E L [c.build E.program] = .ok L' := by
  rw [sends, Call.data_eq, C30_execute.mpr ⟨instrOf c, hc, rfl, h⟩]
  rfl

section
variable {E : Env} {L L' : Ledger} {k g s : Key} {A : Asset}

theorem length_groupOf (s : Key) : (groupOf s).length = 48 := by
  unfold groupOf
  rw [List.length_append, List.length_replicate, s.2]

theorem groupInput_ok (au : Key) : InlineOk au (asked (groupInput s)) := by
  refine ⟨by simp [asked, groupInput], fun x hx => ?_⟩
  obtain rfl : x = ⟨.grouping, 48, some (groupOf s)⟩ := by simpa [asked, groupInput] using hx
  have hl : (given ⟨.grouping, 48, some (groupOf s)⟩).length = 48 := length_groupOf s
  refine ⟨by simp, hl, ⟨by omega, by omega⟩, groupOf s, rfl, ?_⟩
  refine ⟨by show 16 ≤ (groupOf s).length; rw [length_groupOf]; omega,
    Nat.le_of_eq (length_groupOf s), rfl, ?_⟩
  show leNat ((groupOf s).take 8) = 0
  unfold groupOf
  rw [List.take_append_of_le_length (by simp)]
  decide

theorem keyAt_groupOf (s : Key) : keyAt (groupOf s) 16 = s := by
  unfold keyAt slice groupOf
  rw [List.drop_left' (by simp), List.take_of_length_le (Nat.le_of_eq s.2), ofBytes_key]

theorem limitOf_groupOf (s : Key) : limitOf (groupOf s) = 0 := by
  unfold limitOf slice groupOf
  rw [List.drop_append_of_le_length (by simp), List.take_append_of_le_length (by simp)]
  decide

theorem keyAt_withMembers {p : Bytes} (n : Nat) (h : 8 ≤ p.length) :
    keyAt (withMembers p n) 16 = keyAt p 16 := by
  unfold keyAt slice withMembers
  rw [List.drop_append, List.drop_of_length_le (by rw [length_toLE]; omega), List.nil_append,
    length_toLE, List.drop_drop]

/-- Only the stranger and the new account sign. -/
theorem C65_signers {au program : Key} :
    ∀ c ∈ capture k g s au, ∀ m ∈ c.metas program, m.signer = true → m.key = s ∨ m.key = g := by
  intro c hc m hm hs
  simp only [capture, intake, List.cons_append, List.nil_append, List.mem_cons, List.not_mem_nil,
    or_false] at hc
  rcases hc with rfl | rfl | rfl <;>
    simp only [Call.metas, metaRw, metaRo, metaOpt, List.mem_cons, List.not_mem_nil, or_false] at hm
  · rcases hm with rfl | rfl | rfl | rfl | rfl | rfl | rfl <;> simp_all
  · rcases hm with rfl | rfl | rfl <;> simp_all
  · rcases hm with rfl | rfl <;> simp_all

theorem call_frame {c : Call} (hc : InstrOk (instrOf c)) (h : sends E L [c.build E.program] = .ok L')
    {y : Key} (hy : y ∉ dataKeys (instrOf c) (c.build E.program).keys) :
    (L' y).data = (L y).data ∧ (L' y).owner = (L y).owner := by
  obtain ⟨L1, h1, h2⟩ := sends_head hc h
  cases h2
  obtain ⟨a, rest, -, e⟩ := execute_effect h1
  exact e.data y hy

/-- The asset `k` of `owner` is held in the locked group `g` of `s`. -/
structure Held (program : Key) (L : Ledger) (k g s au owner : Key) : Prop where
  other : g ≠ k
  real : g ≠ Key.default
  asset : ∃ A, Stores program L k A ∧ A.group = g ∧ A.authority = au ∧ A.owner = owner ∧
    lookup .royalties A.exts = none
  group : ∃ G p, Stores program L g G ∧ G.state = 1 ∧ G.owner = s ∧ G.delegate = Key.default ∧
    G.authority = au ∧ lookup .manager G.exts = none ∧ lookup .grouping G.exts = some p ∧
    p.length = 48 ∧ keyAt p 16 = s

/-- The group after the first two calls. -/
def intakeGroup (s au : Key) : Asset :=
  Asset.resized (newAsset (groupInput s) s au none [(ExtType.grouping, groupOf s)]) (groupOf s)
    (more (membersOf (groupOf s)))

/-- The first two calls: the asset is in the group. -/
theorem taken_in (hs : Stores E.program L k A) (hg : A.group = Key.default) (hp : A.standard ≠ 3)
    (hu : L g = ⟨0, [], Key.system⟩) (hne : s ≠ g) (hreal : g ≠ Key.default ∧ s ≠ Key.default)
    (hw : (L s).owner = Key.system ∧ (L s).data = [])
    (hr : E.rent 232 ≤ (L s).lamports) (h64 : (L s).lamports < 18446744073709551616)
    (hprog : E.program ≠ Key.system ∧ s ≠ E.program)
    (hwh : ∀ y ∈ [A.authority, E.program, Key.system], Whole E.program L y) :
    ∃ L', sends E L ((intake k g s A.authority).map (·.build E.program)) = .ok L' ∧ g ≠ k ∧ k ≠ s ∧
      Stores E.program L' k { A with group := g } ∧
      Stores E.program L' g (intakeGroup s A.authority) ∧
      (L' s).lamports + (L' g).lamports = (L s).lamports ∧
      (∀ y, y ≠ k → y ≠ g → (L' y).data = (L y).data ∧ (L' y).owner = (L y).owner) ∧
      ∀ y, y ≠ k → y ≠ g → y ≠ s → L' y = L y := by
  have hkg : g ≠ k := by
    rintro rfl
    have := hs.1.1
    rw [hu] at this
    exact hprog.1 this.symm
  have hks : k ≠ s := by
    rintro rfl
    have := hs.1.1
    rw [hw.1] at this
    exact hprog.1 this.symm
  have hpe : packedEnd 168 ((asked (groupInput s)).map asExtn) = 232 := by
    show roundUp8 (168 + 16 + (groupOf s).length) = 232
    rw [length_groupOf]
    rfl
  obtain ⟨L1, es, a1, a2, a3, a4, a5, a6⟩ := C63_client (E := E) (L := L) (k := g) (p := s)
    (owner := s) (au := A.authority) (signs := false) (x := groupInput s)
    ⟨by show (1 : Nat) < 4294967296; omega, by show validUtf8 [71] = true; decide⟩ (groupInput_ok _)
    ⟨by simp [groupInput, asked, asExtn], by simp [groupInput, asked, asExtn],
      by intro p h; simp [groupInput, asked, asExtn, lookup] at h⟩
    hu hne hw (by rw [hpe]; exact hr) h64 (by rw [hpe]; omega) hprog
    (by
      intro y hy
      simp only [List.mem_cons, List.not_mem_nil, or_false] at hy
      rcases hy with rfl | rfl | h
      · exact hwh _ (by simp)
      · intro h1; rw [hw.1] at h1; exact absurd h1.symm hprog.1
      · exact hwh y (by rcases h with h | h <;> simp [h]))
  have hes : es = [(.grouping, groupOf s)] := by
    have hb : List.Forall₂ (Born A.authority) [(.grouping, groupOf s)] es := a4
    cases hb with
    | cons hb ht =>
      cases ht
      obtain ⟨h1, _, _, h2, _⟩ := hb
      exact congrArg (· :: []) (Prod.ext h1 h2)
  subst hes
  clear a4
  have b1 : Stores E.program L1 k A := hs.congr (by rw [a6 k hkg.symm hks]) (by rw [a6 k hkg.symm hks])
  have hok : InstrOk (instrOf (.create g (A.authority, false) s none none (some s) (some Key.system)
      (groupInput s))) := by
    refine ⟨⟨by show (1 : Nat) < 4294967296; omega, by show validUtf8 [71] = true; decide⟩, ?_⟩
    rintro l hl
    cases hl
    refine ⟨by show (1 : Nat) < 4294967296; omega, fun e he => ?_⟩
    obtain rfl := List.mem_singleton.mp he
    intro d hd
    cases hd
    show (groupOf s).length < 4294967296
    rw [length_groupOf]
    omega
  have f1 : ∀ y, y ≠ g → (L1 y).data = (L y).data ∧ (L1 y).owner = (L y).owner := by
    intro y hy
    by_cases hys : y = s
    · refine call_frame hok a1 ?_
      intro h
      have h' : y = g ∨ y = E.program := by
        simpa [dataKeys, Instr.dataPositions, instrOf, Call.build, ClientIx.keys, Call.metas, metaRw,
          metaRo, metaOpt] using h
      rcases h' with h | h
      · exact hy h
      · exact hprog.2 (hys.symm.trans h)
    · rw [a6 y hy hys]
      exact ⟨rfl, rfl⟩
  have hs1 : (L1 s).owner ≠ E.program := by
    rw [(f1 s hne).2, hw.1]
    exact Ne.symm hprog.1
  -- the asset joins
  obtain ⟨L2, c1, c2, c3⟩ := (C48_group (E := serving E L1 ((Call.group k g s).build E.program))
      (L := L1) (k := k) (A := A) (s := s) (rest := []) (p := groupOf s) b1
      ⟨by simp [serving, Call.build, Call.metas, metaRw, metaRo], fun h => absurd h hp⟩ a2
      (by simp [serving, Call.build, Call.metas, metaRw, metaRo]) hkg
      (by
        intro y hy
        simp only [List.mem_cons, List.not_mem_nil, or_false] at hy
        rcases hy with rfl | rfl
        · exact whole_stores a2
        · exact fun h => absurd h hs1)
      ⟨rfl, by rw [length_groupOf]; omega, Nat.le_of_eq (length_groupOf s)⟩).mpr
    ⟨by simp [serving, Call.build, Call.metas, metaRw, metaRo], hg, rfl,
      Or.inr ⟨length_groupOf s, by rw [keyAt_groupOf]; exact hreal.2, keyAt_groupOf s⟩,
      Or.inl (limitOf_groupOf s)⟩
  have c1' : sends E L1 [(Call.group k g s).build E.program] = .ok L2 := sends_one trivial c1
  have f2 : ∀ y, y ≠ k → y ≠ g → (L2 y).data = (L1 y).data ∧ (L2 y).owner = (L1 y).owner := by
    intro y h1 h2
    refine call_frame (c := .group k g s) trivial c1' ?_
    intro h
    have h' : y = k ∨ y = g := by
      simpa [dataKeys, Instr.dataPositions, instrOf, Call.build, ClientIx.keys, Call.metas, metaRw,
        metaRo, metaOpt] using h
    exact h'.elim h1 h2
  have f3 : OnlyData2 L1 L2 k g := by
    obtain ⟨a, b, c, rest, he, _, _, _, _, _, _, _, _, _, _, _, ho, _⟩ := C13_group c1
    have he' : [k, g, s] = a :: b :: c :: rest := he
    cases he'
    exact ho
  refine ⟨L2, sends_then a1 c1', hkg, hks, c2, c3, ?_, fun y h1 h2 => ?_, fun y h1 h2 h3 => ?_⟩
  · rw [(f3.2 s).1, (f3.2 g).1, a5]
  · exact ⟨(f2 y h1 h2).1.trans (f1 y h2).1, (f2 y h1 h2).2.trans (f1 y h2).2⟩
  · rw [f3.1 y h1 h2, a6 y h2 h3]

/-- Whoever pays for it can take any asset that is not in a group, and not proxied, into a group of
their own: neither the owner nor the authority of the asset has to do anything. -/
theorem C65_anyone (hs : Stores E.program L k A) (hg : A.group = Key.default) (hp : A.standard ≠ 3)
    (hu : L g = ⟨0, [], Key.system⟩) (hne : s ≠ g) (hreal : g ≠ Key.default ∧ s ≠ Key.default)
    (hw : (L s).owner = Key.system ∧ (L s).data = [])
    (hr : E.rent 232 ≤ (L s).lamports) (h64 : (L s).lamports < 18446744073709551616)
    (hprog : E.program ≠ Key.system ∧ s ≠ E.program)
    (hwh : ∀ y ∈ [A.authority, E.program, Key.system], Whole E.program L y) :
    ∃ L' G p, sends E L ((capture k g s A.authority).map (·.build E.program)) = .ok L' ∧
      Stores E.program L' k { A with group := g } ∧ Stores E.program L' g G ∧ G.state = 1 ∧
      G.owner = s ∧ G.delegate = Key.default ∧ G.authority = A.authority ∧
      lookup .manager G.exts = none ∧ lookup .grouping G.exts = some p ∧ p.length = 48 ∧
      keyAt p 16 = s ∧
      ∀ y, y ≠ k → y ≠ g → (L' y).data = (L y).data ∧ (L' y).owner = (L y).owner := by
  obtain ⟨L2, c1, hkg, hks, c2, c3, _, f2, _⟩ := taken_in hs hg hp hu hne hreal hw hr h64 hprog hwh
  have hs2 : (L2 s).owner ≠ E.program := by
    rw [(f2 s hks.symm hne).2, hw.1]
    exact Ne.symm hprog.1
  -- the group is locked
  generalize hG2 : intakeGroup s A.authority = G2 at c3
  obtain ⟨L3, d1, d2⟩ := (C48_lock (E := serving E L2 ((Call.lock g s).build E.program))
      (L := L2) (k := g) (A := G2) (s := s) (rest := []) c3
      ⟨by simp [serving, Call.build, Call.metas, metaRw, metaRo], by subst hG2; intro h; cases h⟩
      (by subst hG2; intro q h; cases h)
      (by
        intro y hy
        simp only [List.mem_cons, List.not_mem_nil, or_false] at hy
        subst hy
        exact fun h => absurd h hs2)).mpr
    ⟨by simp [serving, Call.build, Call.metas, metaRw, metaRo], by subst hG2; exact Or.inr ⟨rfl, rfl⟩,
      by subst hG2; show (0 : UInt8) ≠ 1; decide⟩
  have d1' : sends E L2 [(Call.lock g s).build E.program] = .ok L3 := sends_one trivial d1
  have f3 : ∀ y, y ≠ g → (L3 y).data = (L2 y).data ∧ (L3 y).owner = (L2 y).owner := by
    intro y h1
    refine call_frame (c := .lock g s) trivial d1' ?_
    intro h
    exact h1 (by
      simpa [dataKeys, Instr.dataPositions, instrOf, Call.build, ClientIx.keys, Call.metas, metaRw,
        metaRo, metaOpt] using h)
  refine ⟨L3, { G2 with state := 1 }, withMembers (groupOf s) (more (membersOf (groupOf s))),
    by rw [capture, List.map_append]; exact sends_then c1 d1', c2.congr (f3 k hkg.symm).2 (f3 k hkg.symm).1, d2, rfl, ?_, ?_,
    ?_, ?_, ?_, ?_, ?_, ?_⟩
  · subst hG2; rfl
  · subst hG2; rfl
  · subst hG2; rfl
  · subst hG2; rfl
  · subst hG2; rfl
  · rw [length_withMembers (by rw [length_groupOf]; omega), length_groupOf]
  · rw [keyAt_withMembers _ (by rw [length_groupOf]; omega), keyAt_groupOf]
  · intro y h1 h2
    exact ⟨(f3 y h2).1.trans (f2 y h1 h2).1, (f3 y h2).2.trans (f2 y h1 h2).2⟩

/-- Then the asset is held: without royalties of its own it cannot be transferred to anybody else,
and it cannot be burned, whoever signs. -/
theorem C65_held {program : Key} {au owner : Key} (h : Held program L k g s au owner) (hE : E.program = program)
    {accts : List Key} (hk : accts.head? = some k) :
    (∀ L', execute E L accts .burn ≠ .ok L') ∧
    (accts[2]? ≠ some owner → ∀ L', execute E L accts .transfer ≠ .ok L') := by
  subst hE
  obtain ⟨A, h1, h2, _, h4, h5⟩ := h.asset
  obtain ⟨G, p, g1, g2, _⟩ := h.group
  obtain ⟨r1, r2⟩ := C49_locked_group h1 hk (h2 ▸ h.real) (h2 ▸ g1) g2
  exact ⟨r1, fun hr => r2 h5 (h4 ▸ hr)⟩

/-- What happens to an asset whose authority does not sign. -/
theorem sound_unsigned {accts : List Key} {i : Instr} (hs : Stores E.program L k A)
    (hau : E.signer A.authority = false) (h : execute E L accts i = .ok L') : Spec.Sound k A accts i := by
  cases i with
  | update x =>
    intro hh
    obtain ⟨a, au, b, g, p, s, rest, rfl, hp⟩ := exec_update h
    obtain rfl : a = k := by simpa using hh
    obtain ⟨_, h1, _, _, h2, _⟩ := processUpdate_eff hp
    rw [hs.authority_eq] at h2
    rw [← h2, hau] at h1
    cases h1
  | remove t =>
    intro hh
    obtain ⟨a, au, g, r, rest, rfl, hp⟩ := exec_remove h
    obtain rfl : a = k := by simpa using hh
    unfold processRemove at hp
    inv at hp
    have h1 := hp.1
    have h2 := hp.2.2.2.1
    rw [hs.authority_eq] at h2
    rw [← h2, hau] at h1
    cases h1
  | _ => trivial

/-- Who may take an asset out of a group. -/
theorem ungroup_by {G : Asset} {p : Bytes} {rest : List Key} (hG : Stores E.program L g G) (hp : IsGroup G p)
    (h : execute E L (k :: g :: s :: rest) .ungroup = .ok L') :
    E.signer s = true ∧ MayGroup G p s := by
  obtain ⟨off, hoff⟩ := extGet_ok hG (by decide) hp.1
  have hread := readGrouping_total hp.2.1 hp.2.2
  obtain ⟨a, b, c, rest', he, hq⟩ := exec_ungroup h
  cases he
  unfold processUngroup at hq
  inv at hq
  obtain ⟨h1, _, _, _, _, _, h2, r, h4, h5⟩ := hq
  rw [hoff] at h4
  cases h4
  simp only at h5
  inv at h5
  obtain ⟨gr, h6, h7, _⟩ := h5
  rw [hread] at h6
  cases h6
  refine ⟨h1, ?_⟩
  unfold groupAuthority at h7
  rw [hG.authority_eq] at h7
  unfold MayGroup
  by_cases ha : G.authority = s
  · exact Or.inl ha
  · rw [if_pos (Ne.symm ha)] at h7
    right
    by_cases h48 : p.length = 48
    · rw [if_pos h48] at h7
      split at h7
      · rename_i hd
        inv at h7
        exact ⟨h48, hd, h7⟩
      · cases h7
    · rw [if_neg h48] at h7
      simp at h7

/-- And it stays held for as long as neither the stranger nor the authority signs anything: whatever
the owner does, the asset keeps its owner. -/
theorem C65_permanent {program au owner : Key} (h : Held program L k g s au owner)
    (hl : Without program [s, au] L L') : Held program L' k g s au owner := by
  induction hl with
  | refl => exact h
  | foreign _ hf ih =>
    obtain ⟨A, a1, a2⟩ := ih.asset
    obtain ⟨G, p, g1, g2⟩ := ih.group
    exact ⟨h.other, h.real, ⟨A, a1.foreign hf, a2⟩, ⟨G, p, g1.foreign hf, g2⟩⟩
  | @instr L2 L3 E accts i _ hp hn hx ih =>
    subst hp
    have hns := hn s (by simp)
    have hna := hn au (by simp)
    obtain ⟨A, a1, a2, a3, a4, a5⟩ := id ih.asset
    obtain ⟨G, p, g1, g2, g3, g4, g5, g6, g7, g8, g9⟩ := id ih.group
    refine ⟨h.other, h.real, ?_, ?_⟩
    · rcases refine a1 hx (sound_unsigned a1 (a3 ▸ hna) hx) with ⟨b1, b2, _⟩ | ⟨A', b1, b2⟩
      · subst b1
        exact absurd hx ((C65_held ih rfl b2).1 _)
      · refine ⟨A', b1, ?_⟩
        cases b2 with
        | stay => exact ⟨a2, a3, a4, a5⟩
        | transfer _ s' r rest ha =>
          refine ⟨a2, a3, ?_, a5⟩
          subst ha
          by_contra hr
          exact (C65_held ih rfl rfl).2 (by simpa using hr) _ hx
        | join _ _ _ _ _ _ hg => exact absurd (a2.symm.trans hg) h.real
        | leave _ g' s' rest ha hs' hg =>
          subst ha
          obtain rfl : g = g' := a2.symm.trans hg
          obtain ⟨_, hm | ⟨_, _, hm⟩⟩ := ungroup_by g1 ⟨g7, by omega, by omega⟩ hx
          · rw [← hm, g5, hna] at hs'; cases hs'
          · rw [← hm, g9, hns] at hs'; cases hs'
        | handover _ s' _ _ _ hs' _ hauth => rw [← hauth, a3, hna] at hs'; cases hs'
        | retitle _ _ s' _ _ hs' hauth => rw [← hauth, a3, hna] at hs'; cases hs'
        | update _ _ s' _ _ _ _ hs' hauth => rw [← hauth, a3, hna] at hs'; cases hs'
        | updateFrom _ _ s' _ _ _ _ _ hs' hauth => rw [← hauth, a3, hna] at hs'; cases hs'
        | remove _ _ s' _ _ hs' hauth => rw [← hauth, a3, hna] at hs'; cases hs'
        | verify => exact ⟨a2, a3, a4, by rw [← a5]; exact lookup_setExt_ne (by decide)⟩
        | unverify => exact ⟨a2, a3, a4, by rw [← a5]; exact lookup_setExt_ne (by decide)⟩
        | memberIn => exact ⟨a2, a3, a4, by rw [← a5]; exact lookup_setExt_ne (by decide)⟩
        | memberOut => exact ⟨a2, a3, a4, by rw [← a5]; exact lookup_setExt_ne (by decide)⟩
        | _ => exact ⟨a2, a3, a4, a5⟩
    · rcases refine g1 hx (sound_unsigned g1 (g5 ▸ hna) hx) with ⟨b1, b2, _⟩ | ⟨G', b1, b2⟩
      · subst b1
        obtain ⟨e, he⟩ := C04_not_burned (E := E) (L := L2) (k := g) (accts := accts) g1.1
          (by rw [← g2]; exact (congrArg Asset.state g1.2.2.1).symm) b2
        rw [he] at hx
        cases hx
      · refine ⟨G', ?_⟩
        cases b2 with
        | stay => exact ⟨p, b1, g2, g3, g4, g5, g6, g7, g8, g9⟩
        | transfer _ _ _ _ _ _ _ hlk => exact absurd g2 hlk
        | approve _ _ _ _ _ _ _ _ _ hlk => exact absurd g2 hlk
        | revoke _ _ _ _ _ _ _ _ _ hlk => exact absurd g2 hlk
        | lock _ _ _ _ _ _ hlk => exact absurd g2 hlk
        | unlock _ s' _ _ hs' hauth =>
          rcases hauth with ⟨x, h1, h2, _⟩ | ⟨_, h1⟩
          · exfalso
            have e1 : G.manager = none := by unfold Asset.manager; rw [g6]; rfl
            have e2 : G.holderDelegate = none := by unfold Asset.holderDelegate; rw [if_pos g4]
            rw [e1, e2] at h1
            cases h1
          · rw [h1, g3, hns] at hs'
            cases hs'
        | handover _ s' _ _ _ hs' _ hauth => rw [← hauth, g5, hna] at hs'; cases hs'
        | retitle _ _ s' _ _ hs' hauth => rw [← hauth, g5, hna] at hs'; cases hs'
        | update _ _ s' _ _ _ _ hs' hauth => rw [← hauth, g5, hna] at hs'; cases hs'
        | updateFrom _ _ s' _ _ _ _ _ hs' hauth => rw [← hauth, g5, hna] at hs'; cases hs'
        | remove _ _ s' _ _ hs' hauth => rw [← hauth, g5, hna] at hs'; cases hs'
        | verify => exact ⟨p, b1, g2, g3, g4, g5, (lookup_setExt_ne (by decide)).trans g6,
            (lookup_setExt_ne (by decide)).trans g7, g8, g9⟩
        | unverify => exact ⟨p, b1, g2, g3, g4, g5, (lookup_setExt_ne (by decide)).trans g6,
            (lookup_setExt_ne (by decide)).trans g7, g8, g9⟩
        | memberIn _ _ q hi hq1 hq2 hq =>
          obtain rfl : p = q := by rw [g7] at hq; cases hq; rfl
          exact ⟨_, b1, g2, g3, g4, g5, (lookup_setExt_ne (by decide)).trans g6, lookup_setExt_same,
            by rw [length_withMembers (by omega), g8], by rw [keyAt_withMembers _ (by omega), g9]⟩
        | memberOut _ _ q hi hq1 hq2 hq =>
          obtain rfl : p = q := by rw [g7] at hq; cases hq; rfl
          exact ⟨_, b1, g2, g3, g4, g5, (lookup_setExt_ne (by decide)).trans g6, lookup_setExt_same,
            by rw [length_withMembers (by omega), g8], by rw [keyAt_withMembers _ (by omega), g9]⟩
        | _ => exact ⟨p, b1, g2, g3, g4, g5, g6, g7, g8, g9⟩

/-- What is true: whoever adds an asset to a group is the authority of the asset, or the delegate
named in the data of a group that has the same authority as the asset (an authority that did not have
to sign when the group was created). -/
theorem C65_joined_partial {accts : List Key} (h : execute E L accts .group = .ok L') :
    ∃ k g s rest, accts = k :: g :: s :: rest ∧ E.signer s = true ∧
      (assetAt L k).authority = (assetAt L g).authority ∧
      (s = (assetAt L k).authority ∨ ∃ off r, GroupRecord (assetAt L g) off r ∧ s = r.delegate) := by
  obtain ⟨k, g, s, rest, h1, _, _, _, h2, off, r, h3, h4, h5, _⟩ := C13_group h
  refine ⟨k, g, s, rest, h1, h2, h5, ?_⟩
  rcases h4 with h | ⟨_, h⟩
  · exact Or.inl (h.trans h5.symm)
  · exact Or.inr ⟨off, r, h3, h⟩

/-- The authority of the asset can take it out again, being the authority of the group. After that
it is as it was before, so that it can be captured again (`C65_anyone`). -/
theorem C65_released {G : Asset} {p : Bytes} {au : Key} (hs : Stores E.program L k { A with group := g })
    (hu : Usable E k A) (hG : Stores E.program L g G) (hp : IsGroup G p) (hgw : E.writable g = true)
    (hne : g ≠ k) (hg : A.group = Key.default) (hau : G.authority = au) (hsig : E.signer au = true)
    (hwh : Whole E.program L au) :
    ∃ L', execute E L [k, g, au] .ungroup = .ok L' ∧ Stores E.program L' k A := by
  obtain ⟨L', h1, h2, _⟩ := (C48_ungroup (s := au) (rest := []) hs hu hG hgw hne (by
    intro x hx
    simp only [List.mem_cons, List.not_mem_nil, or_false] at hx
    rcases hx with rfl | rfl
    · exact whole_stores hG
    · exact hwh) hp).mpr ⟨hsig, rfl, Or.inl hau⟩
  refine ⟨L', h1, ?_⟩
  obtain ⟨a, b, c, d, e, f, g', h', i, j⟩ := A
  simp only at hg
  subst hg
  exact h2

end

section Examples
open Verif.Ex

/-- The asset in `simple`. -/
def simpleAsset : Asset :=
  ⟨0, 0, 1, k 2, Key.default, k 3, k 4, 7, podStr35 [65, 66], []⟩

/-- The negation: the wallet `k 5`, a stranger, takes the asset `k 1` of `k 2` with the authority
`k 3` into a group. Before, the owner could transfer it; afterwards, and for as long as neither the
stranger nor the authority signs anything, nobody can transfer it to another owner or burn it. -/
theorem C65_false :
    (∃ L', execute (env simple [k 2]) simple [k 1, k 2, k 6, prog] .transfer = .ok L') ∧
    ∃ L', sends (env simple []) simple
        ((capture (k 1) (k 30) (k 5) (k 3)).map (·.build prog)) = .ok L' ∧
      Held prog L' (k 1) (k 30) (k 5) (k 3) (k 2) ∧
      ∀ L1, Without prog [k 5, k 3] L' L1 → ∀ E accts L2, E.program = prog →
        accts.head? = some (k 1) →
        execute E L1 accts .burn ≠ .ok L2 ∧
        (accts[2]? ≠ some (k 2) → execute E L1 accts .transfer ≠ .ok L2) := by
  have hs : Stores prog simple (k 1) simpleAsset := checkStores_sound (by decide +kernel)
  constructor
  · have : (run simple [k 2] [k 1, k 2, k 6, prog] .transfer).isOk = true := by decide +kernel
    unfold run at this
    cases h : execute (env simple [k 2]) simple [k 1, k 2, k 6, prog] .transfer with
    | ok L' => exact ⟨L', rfl⟩
    | error e => rw [h] at this; cases this
  · obtain ⟨L', G, p, h1, h2, h3, h4, h5, h6, h7, h8, h9, h10, h11, _⟩ :=
      C65_anyone (E := env simple []) (L := simple) (k := k 1) (g := k 30) (s := k 5) (A := simpleAsset)
        hs rfl (by decide) (by decide +kernel) (by decide +kernel) (by decide +kernel)
        (by decide +kernel) (by decide +kernel) (by decide +kernel) (by decide +kernel)
        (by
          intro y hy h1 h2
          simp only [List.mem_cons, List.not_mem_nil, or_false] at hy
          rcases hy with rfl | rfl | rfl <;> exact absurd h1 (by decide +kernel))
    have hheld : Held prog L' (k 1) (k 30) (k 5) (k 3) (k 2) :=
      ⟨by decide +kernel, by decide +kernel, ⟨_, h2, rfl, rfl, rfl, rfl⟩,
        ⟨G, p, h3, h4, h5, h6, h7, h8, h9, h10, h11⟩⟩
    refine ⟨L', h1, hheld, fun L1 hl E accts L2 hE hk => ?_⟩
    obtain ⟨r1, r2⟩ := C65_held (C65_permanent hheld hl) hE hk
    exact ⟨r1 L2, fun hr => r2 hr L2⟩

/-- The same by calculation: the stranger's calls go through, and the owner's transfer, with or
without the group account, does not. -/
example : ((sends (env simple []) simple ((capture (k 1) (k 30) (k 5) (k 3)).map (·.build prog))).map
    fun L => ((assetAt L (k 1)).group == k 30, (run L [k 2] [k 1, k 2, k 6, prog] .transfer).isOk,
      (run L [k 2] [k 1, k 2, k 6, k 30] .transfer).isOk, (run L [k 2] [k 1, k 2, prog, k 30] .burn).isOk,
      (run L [k 3] [k 1, k 30, k 3] .ungroup).isOk)) =
    .ok (true, false, false, false, true) := by decide +kernel

end Examples
end Verif.Props

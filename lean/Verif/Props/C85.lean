import Verif.Spec.Orphan
import Verif.Props.C11
import Verif.Props.C42
import Verif.Props.C65
import Verif.Props.C68

/-!
# C85 — the group of an asset exists
-/

namespace Verif.Props

open Verif Verif.Spec

/-- As long as the instructions are used as intended: the group of an asset is an asset with a
Grouping extension that counts it.

The full claim has no condition on the instructions; it is refuted below for every asset. -/
theorem C85_exists_partial {program : Key} {L0 L : Ledger} (h0 : Genesis program L0)
    (hs : CountedSteps program L0 L) {k : Key} (hk : IsAsset program L k)
    (hg : (assetAt L k).group ≠ Key.default) :
    ∃ G p, Stores program L (assetAt L k).group G ∧ lookup .grouping G.exts = some p ∧
      leNat (p.take 8) ≠ 0 := C11_member_partial h0 hs hk hg

section
variable {E : Env} {L L' : Ledger} {k g f s p : Key} {A : Asset} {program : Key}

/-- Only the one who does it signs, with their wallets and new accounts. -/
theorem C85_signers {au : Key} :
    ∀ c ∈ orphan k g f s p au, ∀ m ∈ c.metas program, m.signer = true →
      m.key = s ∨ m.key = p ∨ m.key = g ∨ m.key = f := by
  intro c hc m hm hs
  simp only [orphan, intake, shrink, forgery, List.cons_append, List.nil_append, List.mem_cons,
    List.not_mem_nil, or_false] at hc
  rcases hc with rfl | rfl | rfl | rfl | rfl | rfl | rfl <;>
    simp only [Call.metas, metaRw, metaRo, metaOpt, List.mem_cons, List.not_mem_nil, or_false] at hm
  · rcases hm with rfl | rfl | rfl | rfl | rfl | rfl | rfl <;> simp_all
  · rcases hm with rfl | rfl | rfl <;> simp_all
  · rcases hm with rfl | rfl | rfl <;> simp_all
  · rcases hm with rfl | rfl | rfl <;> simp_all
  · rcases hm with rfl | rfl | rfl <;> simp_all
  · rcases hm with rfl | rfl | rfl | rfl <;> simp_all
  · rcases hm with rfl | rfl | rfl | rfl <;> simp_all

/-- Whoever pays for it can put any asset that is not in a group, and not proxied, into a group that
does not exist: neither the owner nor the authority of the asset has to do anything. -/
theorem C85_anyone (hs : Stores E.program L k A) (hg : A.group = Key.default) (hp : A.standard ≠ 3)
    (hu : L g = ⟨0, [], Key.system⟩) (hf : L f = ⟨0, [], Key.system⟩)
    (hfg : f ≠ g) (hne : s ≠ g) (hpg : p ≠ g) (hpf : p ≠ f) (hsf : f ≠ s) (hps : p ≠ s)
    (hreal : g ≠ Key.default ∧ s ≠ Key.default ∧ p ≠ Key.default ∧ g ≠ E.program)
    (hw : (L s).owner = Key.system ∧ (L s).data = [])
    (hwp : (L p).owner = Key.system ∧ (L p).data = [])
    (hr : E.rent 232 ≤ (L s).lamports) (h64 : (L s).lamports < 18446744073709551616)
    (ha : Affords E 208 (L p).lamports)
    (hprog : E.program ≠ Key.system ∧ s ≠ E.program ∧ p ≠ E.program)
    (hwh : ∀ y ∈ [A.authority, E.program, Key.system], Whole E.program L y)
    (hself : (L E.program).owner ≠ E.program) :
    ∃ L', sends E L ((orphan k g f s p A.authority).map (·.build E.program)) = .ok L' ∧
      Stores E.program L' k { A with group := g } ∧ L' g = ⟨0, [], Key.system⟩ ∧
      (L' s).lamports = (L s).lamports ∧ ∀ y, y ≠ k → y ≠ g → y ≠ s → L' y = L y := by
  obtain ⟨L1, a1, hkg, hks, a2, a3, a4, a5, a6⟩ := taken_in hs hg hp hu hne ⟨hreal.1, hreal.2.1⟩ hw hr
    h64 ⟨hprog.1, hprog.2.1⟩ hwh
  have own : ∀ y, (L y).owner = Key.system → y ≠ k := by
    rintro y hy rfl
    exact hprog.1 (hs.1.1.symm.trans hy)
  have hpk' : E.program ≠ k := by
    intro h
    rw [h] at hself
    exact hself (h ▸ hs.1.1)
  have hfk : f ≠ k := own f (by rw [hf])
  have hpk : p ≠ k := own p hwp.1
  have ef : L1 f = L f := a6 f hfk hfg hsf
  have ep : L1 p = L p := a6 p hpk hpg hps
  have hm : membersOf (withMembers (groupOf s) (more (membersOf (groupOf s)))) = 1 := by
    have h0 : membersOf (groupOf s) = 0 := by
      unfold membersOf groupOf
      rw [List.take_append_of_le_length (by simp)]
      decide
    rw [h0]
    exact membersOf_with (by decide)
  have hq : IsGroup (intakeGroup s A.authority)
      (withMembers (groupOf s) (more (membersOf (groupOf s)))) := by
    refine ⟨lookup_setExt_same, ?_, ?_⟩ <;>
      rw [Verif.length_withMembers _ (by rw [length_groupOf]; omega), length_groupOf] <;> omega
  have hwsys : Whole E.program L1 Key.system := by
    by_cases h1 : Key.system = k
    · rw [h1]; exact whole_stores a2
    by_cases h2 : Key.system = g
    · rw [h2]; exact whole_stores a3
    · unfold Whole
      rw [(a5 _ h1 h2).1, (a5 _ h1 h2).2]
      exact hwh _ (by simp)
  obtain ⟨L2, b1, b2, b3, b4⟩ := C68_shrink (E := E) (L := L1) (k := f) (p := p) (g := g)
    (by rw [ef, hf]) hpf (by rw [ep]; exact hwp) (by rw [ep]; exact ha) ⟨hprog.1, hprog.2.2⟩ hwsys
    ⟨hreal.1, hreal.2.2.1, hreal.2.2.2⟩ a3 (by show (0 : UInt8) ≠ 1; decide) hq (by rw [hm]; decide)
  rw [hm] at b2
  have es : L2 s = L1 s := b4 s hne
  have hs1 : (L1 s).owner = Key.system ∧ (L1 s).data = [] := by
    rw [(a5 s hks.symm hne).1, (a5 s hks.symm hne).2]
    exact hw
  let c : Call := .burn g s (some s) none
  have hkeys : (c.build E.program).keys = [g, s, s, E.program] := rfl
  generalize hG : (intakeGroup s A.authority).resized _ (1 - 1) = G at b2
  have hG0 : ∀ q, lookup .grouping G.exts = some q → IsGroup G q ∧ membersOf q = 0 := by
    subst hG
    intro q hq'
    have e : lookup .grouping ((intakeGroup s A.authority).resized
        (withMembers (groupOf s) (more (membersOf (groupOf s)))) (1 - 1)).exts =
        some (withMembers (withMembers (groupOf s) (more (membersOf (groupOf s)))) 0) :=
      lookup_setExt_same
    rw [e] at hq'
    cases hq'
    refine ⟨⟨e, ?_, ?_⟩, membersOf_with (by decide)⟩ <;>
      rw [Verif.length_withMembers _ (by
          rw [Verif.length_withMembers _ (by rw [length_groupOf]; omega), length_groupOf]; omega),
        Verif.length_withMembers _ (by rw [length_groupOf]; omega), length_groupOf] <;> omega
  obtain ⟨L3, c1, c2, c3⟩ := C48_burn (E := serving E L2 (c.build E.program)) (L := L2) (k := g)
    (s := s) (r := s) (g := E.program) (rest := []) (A := G) b2
    ⟨by simp [serving, c, Call.build, Call.metas, metaRw], by subst hG; intro h; cases h⟩
    (by subst hG; intro q h; cases h)
    (by
      intro x hx
      simp only [List.mem_cons, List.not_mem_nil, or_false] at hx
      have h1 : Calm E.program L2 s := by
        intro h
        rw [es, hs1.1] at h
        exact absurd h.symm hprog.1
      rcases hx with rfl | rfl | rfl
      · exact h1
      · exact h1
      · intro h
        have e : L2 E.program = L E.program := by
          rw [b4 _ (Ne.symm hreal.2.2.2), a6 _ hpk' (Ne.symm hreal.2.2.2) (Ne.symm hprog.2.1)]
        rw [e] at h
        exact absurd h hself)
    (by simp [serving, c, Call.build, Call.metas, metaRw])
    (.inl (by subst hG; rfl)) (by subst hG; show (0 : UInt8) ≠ 1; decide) hG0
    (fun h => absurd (show G.group = Key.default by subst hG; rfl) h)
    hprog.2.1 hne (by simp [serving, c, Call.build, Call.metas, metaRw, metaOpt])
    (by rw [es, hs1.2]; decide)
    (by rw [es, b3]; omega)
  have fr : ∀ y, y ≠ g → y ≠ s → L3 y = L2 y := by
    intro y h1 h2
    obtain ⟨a, b, r, ga, rest, dest, he, hd, _, _, _, _, _, _, _, d1, d2, d3, _⟩ := C10_burn c1
    cases he
    have hgr : (assetAt L2 g).group = Key.default := by
      have : G.group = Key.default := by subst hG; rfl
      rw [← this, b2.2.2.1]
      rfl
    have e1 := d1 y h1
    have e2 := d2 y h1 (by subst hd; split <;> exact h2)
    have e3 := d3 y h1 (.inr hgr)
    cases h3 : L3 y
    cases h4 : L2 y
    rw [h3, h4] at e1 e2 e3
    simp only at e1 e2 e3
    rw [e1, e2, e3]
  refine ⟨L3, ?_, ?_, c2, ?_, fun y h1 h2 h3 => ?_⟩
  · unfold orphan
    rw [List.map_append, List.map_append]
    exact sends_then (sends_then a1 b1) (sends_one trivial (by rw [hkeys]; exact c1))
  · refine a2.congr ?_ ?_ <;> rw [fr k hkg.symm hks, b4 k hkg.symm]
  · rw [c3, es, b3]
    exact a4
  · rw [fr y h2 h3, b4 y h2, a6 y h1 h2 h3]

theorem hollow_zero (h : ∀ b ∈ (L g).data, b = 0) (off n : Nat) : leNat (slice (L g).data off n) = 0 := by
  have : ∀ l : Bytes, (∀ b ∈ l, b = 0) → leNat l = 0 := by
    intro l
    induction l with
    | nil => intro _; rfl
    | cons b l ih =>
      intro hl
      have h1 := hl b (by simp)
      have h2 := ih fun x hx => hl x (by simp [hx])
      subst h1
      simp [leNat, h2]
  exact this _ fun b hb => h b (List.mem_of_mem_drop (List.mem_of_mem_take hb))

theorem hollow_not_asset (h : Hollow program L g) : ¬ IsAsset program L g := by
  rintro ⟨h1, h2, h3⟩
  have h4 := h h1
  have h5 : byteAt (L g).data 0 = 1 := h3
  unfold byteAt at h5
  cases hd : (L g).data with
  | nil => rw [hd] at h2; exact absurd h2 (by decide)
  | cons b l =>
    rw [hd] at h4 h5
    have := h4 b (by simp)
    subst this
    cases h5

/-- No asset that is in such a group can be burned. -/
theorem hollow_not_burned {accts : List Key} {a : Key} (hg : g ≠ Key.default)
    (hl : Hollow E.program L g) (hk : accts.head? = some a) (ha : (assetAt L a).group = g) :
    execute E L accts .burn ≠ .ok L' := by
  intro h
  obtain ⟨a', b, r, ga, rest, dest, rfl, _, _, _, _, _, _, _, _, _, _, _, h1⟩ := C10_burn h
  obtain rfl : a' = a := by simpa using hk
  obtain ⟨rfl, _, h2, off, gr, ⟨q, h3, _⟩, _⟩ := h1 (ha ▸ hg)
  rw [ha] at h2 h3
  have hz := hollow_zero (hl h2) 168 4
  cases h3 with
  | here _ ht _ => rw [hz] at ht; cases ht
  | next _ _ hnz _ _ => exact hnz hz

/-- As long as the group does not exist, the asset cannot be burned, taken out of the group or put into
another one, whoever signs; and unless it has royalties of its own, it cannot be transferred. -/
theorem C85_stuck {accts : List Key} (hs : Stores E.program L k A) (hg : A.group ≠ Key.default)
    (hl : Hollow E.program L A.group) (hk : accts.head? = some k) :
    execute E L accts .burn ≠ .ok L' ∧ execute E L accts .ungroup ≠ .ok L' ∧
    execute E L accts .group ≠ .ok L' ∧
    (lookup .royalties A.exts = none → accts[2]? ≠ some A.owner →
      execute E L accts .transfer ≠ .ok L') := by
  have e : (assetAt L k).group = A.group := by rw [hs.2.2.1]; rfl
  refine ⟨hollow_not_burned hg hl hk e, fun h => ?_, fun h => ?_, fun hr ho h => ?_⟩
  · obtain ⟨a, g', au, rest, rfl, hq⟩ := exec_ungroup h
    obtain rfl : a = k := by simpa using hk
    have h1 := ungroup_needs_asset hq
    unfold processUngroup at hq
    inv at hq
    obtain ⟨_, _, _, _, _, _, h2, _⟩ := hq
    rw [show hGroup (L a).data = A.group from hs.group_eq] at h2
    exact hollow_not_asset (h2 ▸ hl) h1
  · obtain ⟨a, g', au, rest, rfl, _, _, _, _, _, _, _, _, _, h2, _⟩ := C13_group h
    obtain rfl : a = k := by simpa using hk
    exact hg (e.symm.trans h2)
  · obtain ⟨a, b, r, g', rest, rfl, _⟩ := exec_transfer h
    obtain rfl : a = k := by simpa using hk
    obtain ⟨_, h1, h2, _⟩ := C20_group h (hr ▸ reads_lookup hs.hasExts (by decide)) (by rw [e]; exact hg)
      (by rw [← show A.owner = (assetAt L a).owner by rw [hs.2.2.1]; rfl]
          intro hh
          exact ho (by simp [hh]))
    rw [e] at h1 h2
    have hz := hollow_zero (hl h1) 0 1
    have h3 : byteAt (L A.group).data 0 = 1 := h2
    unfold byteAt at h3
    cases hd : (L A.group).data with
    | nil => rw [hd] at h3; cases h3
    | cons x l =>
      rw [hd] at h3
      have := (hl h1) x (by rw [hd]; simp)
      subst this
      cases h3

/-- Nobody but the holder of its key can bring the group into being. -/
theorem hollow_stays {accts : List Key} {i : Instr} (hg : g ≠ Key.default) (hne : g ≠ E.program)
    (hl : Hollow E.program L g) (hs : E.signer g = false) (h : execute E L accts i = .ok L') :
    Hollow E.program L' g := by
  have hn := hollow_not_asset hl
  have keep : (L' g).data = (L g).data ∧ (L' g).owner = (L g).owner := by
    cases i with
    | burn =>
      obtain ⟨a, b, r, ga, rest, dest, rfl, _, h0, _, _, _, _, _, _, h1, _, h2, _⟩ := C10_burn h
      have hga : g ≠ a := by rintro rfl; exact hn h0
      refine ⟨h2 g hga ?_, h1 g hga⟩
      by_cases e : (assetAt L a).group = g
      · exact absurd h (hollow_not_burned hg hl rfl e)
      · exact .inl (Ne.symm e)
    | update x =>
      by_cases hb : accts[2]? = some g
      · exfalso
        obtain ⟨a, au, b, g', p, s, rest, rfl, hp⟩ := exec_update h
        obtain rfl : b = g := by simpa using hb
        unfold optAcc at hp
        rw [if_neg hne] at hp
        unfold processUpdate at hp
        inv at hp
        obtain ⟨_, _, _, _, _, hp⟩ := hp
        cases hxe : x.extension with
        | some e => rw [hxe] at hp; cases hp
        | none =>
          rw [hxe] at hp
          simp only at hp
          unfold updateBuffer at hp
          inv at hp
          obtain ⟨h1, h2, _, _, hp⟩ := hp
          have hda : L.setData a (updateHeader (L a).data x) b = L b := Ledger.setData_other _ _ h2
          rw [hda] at h1 hp
          have hz : u32At (L b).data 168 = 0 := hollow_zero (hl h1) 168 4
          have hfe : firstExtension (L b).data = none := by
            unfold firstExtension
            split
            · simp only [hdrAt, assetLen]
              rw [hz]
              rfl
            · rfl
          rw [hfe] at hp
          cases hp
      · obtain ⟨h1, h2, _⟩ := C42_signed_partial h hn hs (by rintro y ⟨⟩; exact hb) (by rintro ⟨⟩)
        exact ⟨h1, h2⟩
    | _ =>
      obtain ⟨h1, h2, _⟩ := C42_signed_partial h hn hs (by rintro y ⟨⟩) (by rintro ⟨⟩)
      exact ⟨h1, h2⟩
  intro ho
  rw [keep.1]
  exact hl (keep.2 ▸ ho)

theorem hollow_foreign (hl : Hollow program L g) (h : Foreign program L L') : Hollow program L' g := by
  intro ho
  by_cases h1 : (L g).owner = program
  · rw [((h g).1 h1).2]
    exact hl h1
  · exact ((h g).2 h1 ho).1

/-- An immutable asset without royalties then stays with its owner for good, whoever signs whatever
they want, the owner and the authority of the asset included: only the key of the lost group could
change that. -/
theorem C85_forever {owner : Key} (h : Orphaned program L k g owner)
    (hl : Without program [g] L L') : Orphaned program L' k g owner := by
  induction hl with
  | refl => exact h
  | foreign _ hf ih =>
    obtain ⟨A, a1, a2⟩ := ih.asset
    exact ⟨h.real, h.account, hollow_foreign ih.lost hf, ⟨A, a1.foreign hf, a2⟩⟩
  | @instr L2 L3 E accts i _ hp hn hx ih =>
    subst hp
    obtain ⟨A, a1, a2, a3, a4, a5⟩ := id ih.asset
    refine ⟨h.real, h.account, hollow_stays h.real h.account ih.lost (hn g (by simp)) hx, ?_⟩
    have hreal : A.group ≠ Key.default := a2 ▸ h.real
    have hlost : Hollow E.program L2 A.group := a2 ▸ ih.lost
    rcases refine a1 hx (sound_immutable a1 a4 hx) with ⟨b1, b2, _⟩ | ⟨A', b1, b2⟩
    · subst b1
      exact absurd hx (C85_stuck a1 hreal hlost b2).1
    · refine ⟨A', b1, ?_⟩
      cases b2 with
      | stay => exact ⟨a2, a3, a4, a5⟩
      | transfer _ s' r rest ha =>
        refine ⟨a2, ?_, a4, a5⟩
        subst ha
        by_contra hr
        exact (C85_stuck a1 hreal hlost rfl).2.2.2 a5 (by simpa [a3] using hr) hx
      | join _ _ _ _ _ _ hg => exact absurd hg hreal
      | leave _ g' s' rest ha =>
        subst ha
        exact absurd hx (C85_stuck a1 hreal hlost rfl).2.1
      | handover _ _ _ _ _ _ _ _ hm => exact absurd a4 hm
      | retitle _ _ _ _ _ _ _ hm => exact absurd a4 hm
      | update _ _ _ _ _ _ _ _ _ hm => exact absurd a4 hm
      | updateFrom _ _ _ _ _ _ _ _ _ _ hm => exact absurd a4 hm
      | remove _ _ _ _ _ _ _ hm => exact absurd a4 hm
      | verify => exact ⟨a2, a3, a4, by rw [← a5]; exact lookup_setExt_ne (by decide)⟩
      | unverify => exact ⟨a2, a3, a4, by rw [← a5]; exact lookup_setExt_ne (by decide)⟩
      | memberIn => exact ⟨a2, a3, a4, by rw [← a5]; exact lookup_setExt_ne (by decide)⟩
      | memberOut => exact ⟨a2, a3, a4, by rw [← a5]; exact lookup_setExt_ne (by decide)⟩
      | _ => exact ⟨a2, a3, a4, a5⟩

end

section Examples
open Verif.Ex

/-- Wallets only. -/
def purses : Ledger :=
  ledger [(k 2, wallet), (k 3, wallet), (k 4, wallet), (k 5, wallet), (k 6, wallet)]

/-- `k 4` creates the immutable asset `k 1` for the owner `k 2` and the authority `k 3`. -/
def keepsake : Except Err Ledger :=
  run purses [k 1, k 4] [k 1, k 3, k 2, prog, prog, k 4, Key.system]
    (.create ⟨[65], .nonFungible, false, none⟩)

/-- That asset. -/
def keepsakeAsset : Asset :=
  ⟨0, 0, 0, k 2, Key.default, k 3, Key.default, 0, podStr35 [65], []⟩

/-- The negation: an immutable asset is created on an empty program, and its owner could transfer it.
Then somebody who has nothing to do with it, with the wallets `k 5` and `k 6`, puts it into a group that
does not exist (`C85_signers`). From then on, whoever else signs whatever they want, the asset cannot be
transferred to anybody, burned or taken out of that group. -/
theorem C85_false : ∃ L0 L1 L2, Genesis prog L0 ∧ Steps prog L0 L1 ∧
    (∃ L', execute (env L1 [k 2]) L1 [k 1, k 2, k 9, prog] .transfer = .ok L') ∧
    sends (env L1 []) L1
      ((orphan (k 1) (k 30) (k 31) (k 5) (k 6) (k 3)).map (·.build prog)) = .ok L2 ∧
    IsAsset prog L2 (k 1) ∧ (assetAt L2 (k 1)).group = k 30 ∧ ¬ IsAsset prog L2 (k 30) ∧
    ∀ L3, Without prog [k 30] L2 L3 → ∀ E accts L4, E.program = prog → accts.head? = some (k 1) →
      execute E L3 accts .burn ≠ .ok L4 ∧ execute E L3 accts .ungroup ≠ .ok L4 ∧
      (accts[2]? ≠ some (k 2) → execute E L3 accts .transfer ≠ .ok L4) := by
  have hk : (keepsake.map fun L1 => (checkStores prog L1 (k 1) keepsakeAsset,
      (run L1 [k 2] [k 1, k 2, k 9, prog] .transfer).isOk,
      decide (L1 (k 30) = ⟨0, [], Key.system⟩ ∧ L1 (k 31) = ⟨0, [], Key.system⟩ ∧
        L1 (k 5) = wallet ∧ L1 (k 6) = wallet ∧ (L1 (k 3)).owner ≠ prog ∧ (L1 prog).owner ≠ prog ∧
        (L1 Key.system).owner ≠ prog))) = .ok (true, true, true) := by decide +kernel
  obtain ⟨L1, h1, h2⟩ := ok_of_map hk
  simp only [Prod.mk.injEq, decide_eq_true_eq] at h2
  obtain ⟨b1, b2, b3, b4, b5, b6, b7, b8, b9⟩ := h2
  have hs : Stores prog L1 (k 1) keepsakeAsset := checkStores_sound b1
  obtain ⟨L2, c1, c2, c3, c4, c5⟩ := C85_anyone (E := env L1 []) (L := L1) (k := k 1) (g := k 30)
    (f := k 31) (s := k 5) (p := k 6) (A := keepsakeAsset) hs rfl (by decide) b3 b4
    (by decide +kernel) (by decide +kernel) (by decide +kernel) (by decide +kernel)
    (by decide +kernel) (by decide +kernel)
    (show k 30 ≠ Key.default ∧ k 5 ≠ Key.default ∧ k 6 ≠ Key.default ∧ k 30 ≠ prog by decide +kernel)
    (by rw [b5]; exact ⟨rfl, rfl⟩) (by rw [b6]; exact ⟨rfl, rfl⟩)
    (by rw [b5]; show 128 + 232 ≤ 5000000; omega) (by rw [b5]; decide)
    (by
      rw [b6]
      refine ⟨by decide, fun n hn => ?_⟩
      show 128 + n ≤ 5000000
      omega)
    (show prog ≠ Key.system ∧ k 5 ≠ prog ∧ k 6 ≠ prog by decide +kernel)
    (by
      intro y hy h
      simp only [List.mem_cons, List.not_mem_nil, or_false] at hy
      rcases hy with rfl | rfl | rfl
      · exact absurd h b7
      · exact absurd h b8
      · exact absurd h b9)
    b8
  have ho : Orphaned prog L2 (k 1) (k 30) (k 2) :=
    ⟨by decide +kernel, by decide +kernel, (by intro h b hb; rw [c3] at hb; exact absurd hb (by simp)),
      ⟨_, c2, rfl, rfl, rfl, rfl⟩⟩
  refine ⟨purses, L1, L2, ?_, ?_, ?_, c1, c2.1, ?_, hollow_not_asset ho.lost,
    fun L3 hl E accts L4 hE hk => ?_⟩
  · exact ledger_owner (by decide +kernel) (by decide +kernel)
  · exact .tail _ _ _ (.refl _) (.instr (env purses [k 1, k 4]) _ _ _ _ rfl (fun _ => rfl) h1)
  · unfold run at b2
    cases h : execute (env L1 [k 2]) L1 [k 1, k 2, k 9, prog] .transfer with
    | ok L' => exact ⟨L', rfl⟩
    | error e => rw [h] at b2; cases b2
  · have := congrArg Asset.group c2.2.2.1
    exact this.symm
  · have h := C85_forever ho hl
    obtain ⟨A, a1, a2, a3, _, a5⟩ := h.asset
    rw [← hE] at a1
    obtain ⟨r1, r2, _, r4⟩ := C85_stuck (L' := L4) a1 (a2 ▸ h.real) (by rw [a2, hE]; exact h.lost) hk
    exact ⟨r1, r2, fun hr => r4 a5 (a3 ▸ hr)⟩

/-- The same by calculation. The stranger has lost nothing; neither the owner nor the authority can do
anything about it. -/
example : (keepsake.bind fun L1 => (sends (env L1 []) L1
    ((orphan (k 1) (k 30) (k 31) (k 5) (k 6) (k 3)).map (·.build prog))).map fun L =>
    (decide ((assetAt L (k 1)).group = k 30), (L (k 5)).lamports, (L (k 6)).lamports,
      [(run L [k 2] [k 1, k 2, k 9, prog] .transfer).isOk,
        (run L [k 2] [k 1, k 2, k 9, k 30] .transfer).isOk,
        (run L [k 2] [k 1, k 2, prog, k 30] .burn).isOk,
        (run L [k 3] [k 1, k 30, k 3] .ungroup).isOk])) =
    .ok (true, 5000000, 5000000, [false, false, false, false]) := by decide +kernel

/-- Only the holder of the key of the lost group can help: they make the group anew, and release the
asset. -/
example : (keepsake.bind fun L1 => (sends (env L1 []) L1
    ((orphan (k 1) (k 30) (k 31) (k 5) (k 6) (k 3) ++
      [Call.create (k 30) (k 3, false) (k 5) none none (some (k 5)) (some Key.system) (groupInput (k 5)),
        .ungroup (k 1) (k 30) (k 5)]).map (·.build prog))).map fun L =>
    (decide ((assetAt L (k 1)).group = Key.default),
      (run L [k 2] [k 1, k 2, k 9, prog] .transfer).isOk)) = .ok (true, true) := by decide +kernel

end Examples
end Verif.Props

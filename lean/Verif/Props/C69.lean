import Verif.Lemmas.Forge
import Verif.Props.C11
import Verif.Props.C48
import Verif.Props.C65

/-!
# C69 — assets come into being only by Create
-/

namespace Verif.Props

open Verif Verif.Spec

section
variable {E : Env} {L L' : Ledger} {k p : Key}

/-- Anybody can give an unused account any content they like, but for the first 16 bytes, and these
make it an asset: whatever the 8-aligned bytes `w`, three calls without Create succeed, and store
them. -/
theorem C69_anything {w : Bytes} (hu : L k = ⟨0, [], Key.system⟩) (hne : p ≠ k)
    (hw : (L p).owner = Key.system ∧ (L p).data = [])
    (ha : Affords E (16 + w.length) (L p).lamports)
    (h1 : 192 ≤ w.length) (h2 : w.length ≤ 10000) (h8 : w.length % 8 = 0)
    (hp : E.program ≠ Key.system ∧ p ≠ E.program) (hsys : Whole E.program L Key.system) :
    ∃ L', sends E L ((forgery k p w).map (·.build E.program)) = .ok L' ∧
      (L' k).data = forgedHeader w.length ++ w ∧ IsAsset E.program L' k ∧
      ∀ y, y ≠ k → y ≠ p → L' y = L y := by
  obtain ⟨L', r1, r2, r3, r4⟩ := forgery_live hu hne hw ha h1 h2 h8 hp hsys
  refine ⟨L', r1, r3, ⟨r2, ?_, ?_⟩, r4.others⟩
  · rw [r3, List.length_append, forgedHeader_length]; omega
  · show byteAt (L' k).data 0 = 1
    rw [r3]
    rfl

/-- The three calls are Allocate, Write and Allocate. Nobody but the account itself and the one who
pays for it signs them. -/
theorem C69_signers {program : Key} {w : Bytes} :
    (∀ c ∈ forgery k p w, ∀ x, instrOf c ≠ .create x) ∧
    ∀ c ∈ forgery k p w, ∀ m ∈ c.metas program, m.signer = true → m.key = k ∨ m.key = p := by
  refine ⟨?_, ?_⟩
  · intro c hc x
    simp only [forgery, List.mem_cons, List.not_mem_nil, or_false] at hc
    rcases hc with rfl | rfl | rfl <;> (intro h; cases h)
  · intro c hc m hm hs
    simp only [forgery, List.mem_cons, List.not_mem_nil, or_false] at hc
    rcases hc with rfl | rfl | rfl <;>
      simp only [Call.metas, metaRw, metaRo, metaOpt, List.mem_cons, List.not_mem_nil, or_false] at hm <;>
      rcases hm with rfl | rfl | rfl <;> simp_all

/-- In this way every asset can be made, with whatever group, authority, delegate, roles, name and
extensions, except that it is unlocked, non-fungible and immutable, and that its owner is random.
Nothing that Create checks is checked: the size of groups, the verified flags of creators, the
account of a proxied asset. `d` is the content of the account to be copied. -/
theorem C69_counterfeit {d : Bytes} {es : List Extn} (hd : CleanExts d es) (h1 : 168 ≤ d.length)
    (h2 : d.length ≤ 9960) (hu : L k = ⟨0, [], Key.system⟩) (hne : p ≠ k)
    (hw : (L p).owner = Key.system ∧ (L p).data = [])
    (ha : Affords E (roundUp8 d.length + 40) (L p).lamports)
    (hp : E.program ≠ Key.system ∧ p ≠ E.program) (hsys : Whole E.program L Key.system) :
    ∃ L' o, sends E L ((forgery k p (copyOf d)).map (·.build E.program)) = .ok L' ∧
      Stores E.program L' k
        { Asset.of (view d) es with state := 0, standard := 0, mutableByte := 0, owner := o } ∧
      ∀ y, y ≠ k → y ≠ p → L' y = L y := by
  have hl := copyOf_length h1
  have hru := le_roundUp8 d.length
  have h8 : roundUp8 d.length % 8 = 0 := by unfold roundUp8; omega
  have hup : roundUp8 d.length ≤ d.length + 7 := by unfold roundUp8; omega
  obtain ⟨L', r1, r2, r3, r4⟩ := forgery_live (w := copyOf d) hu hne hw
    (by rw [hl, show 16 + (roundUp8 d.length + 24) = roundUp8 d.length + 40 by omega]; exact ha)
    (by omega) (by omega) (by omega) hp hsys
  obtain ⟨o, _, ho⟩ := forged_stores h1 (by omega) hd r2 r3
  exact ⟨L', o, r1, ho, r4.others⟩

/-- For example a copy of an existing asset. -/
theorem C69_copy {b : Key} {B : Asset} (hb : Stores E.program L b B)
    (h2 : (L b).data.length ≤ 9960) (hu : L k = ⟨0, [], Key.system⟩) (hne : p ≠ k)
    (hw : (L p).owner = Key.system ∧ (L p).data = [])
    (ha : Affords E (roundUp8 (L b).data.length + 40) (L p).lamports)
    (hp : E.program ≠ Key.system ∧ p ≠ E.program) (hsys : Whole E.program L Key.system) :
    ∃ L' o, sends E L ((forgery k p (copyOf (L b).data)).map (·.build E.program)) = .ok L' ∧
      Stores E.program L' k { B with state := 0, standard := 0, mutableByte := 0, owner := o } ∧
      Stores E.program L' b B := by
  obtain ⟨b1, b2, b3, b4⟩ := id hb
  obtain ⟨L', o, r1, r2, r3⟩ := C69_counterfeit (k := k) (p := p) b4 b1.2.1 h2 hu hne hw ha hp hsys
  refine ⟨L', o, r1, ?_, ?_⟩
  · rw [b3]; exact r2
  · have e : L' b = L b := by
      refine r3 b ?_ ?_
      · rintro rfl
        have h := b1.1
        rw [hu] at h
        exact hp.1 h.symm
      · rintro rfl
        have h := b1.2.1
        rw [hw.2] at h
        exact absurd h (by decide)
    exact hb.congr (by rw [e]) (by rw [e])

/-- And a copy that nothing tells from the original: of every unlocked, immutable, non-fungible
asset without delegate there can be a second one, with the same authority, group, name and
extensions, and thus the same verified creators, for any owner. Again only the account and the one
who pays sign (`C69_perfect_signers`). -/
theorem C69_perfect {b o : Key} {B : Asset} (hb : Stores E.program L b B)
    (h1 : B.state = 0 ∧ B.standard = 0 ∧ B.mutableByte = 0)
    (h2 : B.delegate = Key.default ∧ B.roles = 0) (h3 : lookup .manager B.exts = none)
    (h4 : RoyaltiesReadable B)
    (h5 : B.group ≠ Key.default → B.group ≠ E.program ∧
      ∃ G, Stores E.program L B.group G ∧ G.state ≠ 1 ∧ RoyaltiesReadable G)
    (h6 : (L b).data.length ≤ 9960) (hu : L k = ⟨0, [], Key.system⟩) (hne : p ≠ k)
    (hw : (L p).owner = Key.system ∧ (L p).data = [])
    (ho : (L o).owner = Key.system ∧ o ≠ k ∧ slice o.1 8 4 ≠ [0, 0, 0, 0])
    (ha : Affords E (roundUp8 (L b).data.length + 40) (L p).lamports)
    (hp : E.program ≠ Key.system ∧ p ≠ E.program) (hpk : p ≠ Key.default ∧ k ≠ E.program)
    (hself : (L E.program).owner ≠ E.program)
    (htop : E.inCpi = false) (hsys : Whole E.program L Key.system) :
    ∃ L', sends E L ((perfect k p o (if B.group = Key.default then none else some B.group)
        (L b).data).map (·.build E.program)) = .ok L' ∧
      Stores E.program L' k { B with owner := o } ∧ Stores E.program L' b B := by
  obtain ⟨b1, b2, b3, b4⟩ := id hb
  have hlen := b1.2.1
  have hl := length_setDelegate (d := (L b).data) hlen p 255
  have hclean : CleanExts (setDelegate (L b).data p 255) B.exts := by
    refine b4.congr_drop hlen (by omega) ?_
    exact drop_splice (by simp [p.2]) hlen
  have hl2 := copyOf_length (d := setDelegate (L b).data p 255) (by omega)
  have hup : roundUp8 (L b).data.length ≤ (L b).data.length + 7 := by unfold roundUp8; omega
  have hru := le_roundUp8 (L b).data.length
  have h8 : roundUp8 (L b).data.length % 8 = 0 := by unfold roundUp8; omega
  rw [hl] at hl2
  obtain ⟨L1, r1, r2, r3, r4⟩ := forgery_live (w := copyOf (setDelegate (L b).data p 255)) hu hne hw
    (by rw [hl2, show 16 + (roundUp8 (L b).data.length + 24) = roundUp8 (L b).data.length + 40 by omega]
        exact ha)
    (by omega) (by omega) (by omega) hp hsys
  obtain ⟨q, hq, hs⟩ := forged_stores (by omega) (by omega) hclean r2 r3
  rw [view_setDelegate hlen] at hs
  have keep : ∀ {x : Key} {X : Asset}, Stores E.program L x X → Stores E.program L1 x X := by
    intro x X hX
    have e : L1 x = L x := by
      refine r4.others x ?_ ?_
      · rintro rfl
        have h := hX.1.1
        rw [hu] at h
        exact hp.1 h.symm
      · rintro rfl
        have h := hX.1.2.1
        rw [hw.2] at h
        exact absurd h (by decide)
    exact hX.congr (by rw [e]) (by rw [e])
  have hoq : q ≠ o := by rintro rfl; exact ho.2.2 hq
  have hp1 : (L1 p).owner = Key.system := r4.owner.trans hw.1
  have ho1 : (L1 o).owner = Key.system := by
    by_cases e : o = p
    · rw [e]; exact hp1
    · rw [r4.others o ho.2.1 e]; exact ho.1
  have roy : ∀ {X : Asset}, RoyaltiesReadable X → ∀ {E' : Env}, E'.inCpi = false →
      RoyaltiesAllow E' L1 k p o X := by
    intro X hX E' hE y hy
    obtain ⟨y1, c, y2⟩ := hX y hy
    exact ⟨y1, c, y2, .inl ⟨hE, hp1, ho1⟩⟩
  generalize hc : (Call.transfer k p o (if B.group = Key.default then none else some B.group)) = c
  have hkeys : (c.build E.program).keys =
      [k, p, o, if B.group = Key.default then E.program else B.group] := by
    subst hc
    split <;> rfl
  let C : Asset := { B with owner := q, delegate := p, roles := 255 }
  have hsC : Stores E.program L1 k C := by
    have e : C = { Asset.of { view (L b).data with delegate := p, roles := 255 } B.exts with
        state := 0, standard := 0, mutableByte := 0, owner := q } := by
      show ({ B with owner := q, delegate := p, roles := 255 } : Asset) = _
      obtain ⟨f1, f2, f3⟩ := h1
      let f : Asset → Asset := fun X => { X with state := 0, standard := 0, mutableByte := 0 }
      have e2 := congrArg (fun X => { f X with owner := q, delegate := p, roles := 255 }) b3
      refine Eq.trans ?_ e2
      simp only [f, f1, f2, f3]
    rw [e]; exact hs
  obtain ⟨L2, t1, t2⟩ := C48_transfer (E := serving E L1 (c.build E.program)) (L := L1) (k := k)
    (s := p) (r := o) (g := if B.group = Key.default then E.program else B.group) (rest := [])
    (A := C) hsC
    ⟨by subst hc; simp [serving, Call.build, Call.metas, metaRw],
      fun h => absurd (h1.2.1.symm.trans h) (by decide)⟩
    (fun y hy => by rw [show C.exts = B.exts from rfl, h3] at hy; cases hy)
    (by
      intro x hx
      simp only [List.mem_cons, List.not_mem_nil, or_false] at hx
      rcases hx with rfl | rfl | rfl
      · intro h; rw [hp1] at h; exact absurd h.symm hp.1
      · intro h; rw [ho1] at h; exact absurd h.symm hp.1
      · split
        · intro h
          refine absurd h ?_
          show (L1 E.program).owner ≠ E.program
          rw [r4.others _ (Ne.symm hpk.2) (Ne.symm hp.2)]
          exact hself
        · rename_i hg
          obtain ⟨_, G, hG, hG1, _⟩ := h5 hg
          exact calm_stores (E := E) (keep hG) hG1)
    (by subst hc; simp [serving, Call.build, Call.metas, metaRw, metaRo])
    (.inr ⟨⟨p, 255⟩, by
      unfold Asset.manager Asset.holderDelegate
      rw [show C.exts = B.exts from rfl, h3, if_neg (show C.delegate ≠ Key.default from hpk.1)]
      rfl, rfl, (by show (255 : UInt8) &&& 1 ≠ 0; decide)⟩)
    (by show B.state ≠ 1; rw [h1.1]; decide) (by show B.standard ≠ 2; rw [h1.2.1]; decide)
    (roy h4 htop)
    (by
      intro g1 _
      have g1' : B.group ≠ Key.default := g1
      rw [if_neg g1']
      obtain ⟨g2, G, hG, _, hG2⟩ := h5 g1'
      refine ⟨rfl, ?_, g2, G, keep hG, roy hG2 htop⟩
      intro h
      have h' := hG.1.1
      rw [h, hu] at h'
      exact hp.1 h'.symm)
  refine ⟨L2, ?_, ?_, ?_⟩
  · unfold perfect
    rw [List.map_append]
    refine sends_then r1 (sends_one (by subst hc; trivial) ?_)
    rw [hc, hkeys]
    subst hc
    exact t1
  · have h := t2 hoq
    have e : ({ C with owner := o, delegate := Key.default, roles := 0 } : Asset) = { B with owner := o } := by
      show ({ B with owner := o, delegate := Key.default, roles := 0 } : Asset) = _
      rw [← h2.1, ← h2.2]
    rw [e] at h
    exact h
  · refine (stores_frame t1 (k := b) ?_ B).mpr (keep hb)
    show b ∉ [k]
    rw [List.mem_singleton]
    rintro rfl
    have h := b1.1
    rw [hu] at h
    exact hp.1 h.symm

theorem C69_perfect_signers {program o : Key} {g : Option Key} {d : Bytes} :
    (∀ c ∈ perfect k p o g d, ∀ x, instrOf c ≠ .create x) ∧
    ∀ c ∈ perfect k p o g d, ∀ m ∈ c.metas program, m.signer = true → m.key = k ∨ m.key = p := by
  obtain ⟨h1, h2⟩ := C69_signers (k := k) (p := p) (program := program)
    (w := copyOf (setDelegate d p 255))
  refine ⟨?_, ?_⟩
  · intro c hc x
    rcases List.mem_append.mp hc with hc | hc
    · exact h1 c hc x
    · obtain rfl := List.mem_singleton.mp hc
      intro h; cases h
  · intro c hc m hm hs
    rcases List.mem_append.mp hc with hc | hc
    · exact h2 c hc m hm hs
    · obtain rfl := List.mem_singleton.mp hc
      simp only [Call.metas, metaRw, metaRo, metaOpt, List.mem_cons, List.not_mem_nil, or_false] at hm
      rcases hm with rfl | rfl | rfl | rfl
      · cases hs
      · exact .inr rfl
      · cases hs
      · cases g <;> cases hs

end

/-- As long as the instructions are used as intended: every asset was made by a Create that it signed,
and has been an asset ever since.

The full claim has no condition on the instructions; it is refuted below. -/
theorem C69_created_partial {program k : Key} {L0 L : Ledger} (h0 : Genesis program L0)
    (hs : ProperSteps program L0 L) (ha : IsAsset program L k) :
    ∃ E L1 L2 accts x, E.program = program ∧ ProperSteps program L0 L1 ∧ ¬ IsAsset program L1 k ∧
      execute E L1 accts (.create x) = .ok L2 ∧ accts.head? = some k ∧ E.signer k = true ∧
      Alive program k L2 L := by
  obtain ⟨E, L1, L2, accts, x, h1, h2, h3, _, _, h6, h7, h8⟩ :=
    created h0.wellFormed (fun h => h0 k h.1) hs ha
  refine ⟨E, L1, L2, accts, x, h1, h2, h3, h6, h7, ?_, h8⟩
  obtain ⟨a, au, o, g, ga, pa, s, rest, rfl, hp⟩ := exec_create h6
  obtain rfl : a = k := by simpa using h7
  exact (processCreate_inv hp).1

/-- It has the standard that was asked for, and if it was to be immutable it still has the name
and the authority it was made with. -/
theorem C69_standard_partial {program k : Key} {L0 L : Ledger} (h0 : Genesis program L0)
    (hs : ProperSteps program L0 L) (ha : IsAsset program L k) :
    ∃ E L1 L2 accts x, E.program = program ∧ ProperSteps program L0 L1 ∧
      execute E L1 accts (.create x) = .ok L2 ∧ accts.head? = some k ∧
      (assetAt L k).standard = x.standard.toU8 ∧
      (x.isMutable = false → (assetAt L k).mutableByte = 0 ∧
        (assetAt L k).name = storedName x.name ∧ accts[1]? = some (assetAt L k).authority) := by
  obtain ⟨E, L1, L2, accts, x, h1, h2, h3, h4, h5, h6, h7, h8⟩ :=
    created h0.wellFormed (fun h => h0 k h.1) hs ha
  subst h1
  have hw1 := wf_steps h0.wellFormed h2
  have hw2 := wf_instr hw1 h6 h4 h5
  have hbuf : (L1 k).data.length ≤ 10485760 ∧ Buffer (L1 k).data := by
    by_cases hn : (L1 k).owner = E.program
    · refine ⟨(hw1 k hn).1, ?_⟩
      rcases (hw1 k hn).2 with ⟨A, hA, _⟩ | hb
      · exact absurd hA.1 h3
      · exact hb
    · have ho : (L2 k).owner = E.program := by
        have : ∀ {M M'}, Alive E.program k M M' → (M k).owner = E.program := by
          intro M M' h
          induction h with
          | refl h => exact h.1
          | tail _ _ _ ih => exact ih
        exact this h8
      rw [(newly_owned h6 ho hn).2]
      exact ⟨by simp, buffer_nil⟩
  obtain ⟨es, hu, _⟩ := buffer_unborn h6 h7 hbuf.2 hbuf.1 h5
  obtain ⟨a, au, o, g, ga, pa, s, rest, es1, rfl, _, _, hst, _⟩ :=
    create_stores (es := es) h6 h4 (by intro b hb; rw [h7] at hb; cases hb; exact hu)
      (by intro b hb; rw [h7] at hb; cases hb; exact hbuf.1) h5
  obtain rfl : a = k := by simpa using h7
  obtain ⟨_, A', hA', q1, q2⟩ := Alive.invariant (I := fun A => A.standard = x.standard.toU8 ∧
      (x.isMutable = false → A.mutableByte = 0 ∧ A.name = storedName x.name ∧ A.authority = au))
    (by
      rintro E' accts' i A A' hm ⟨g1, g2⟩
      cases hm with
      | handover _ _ _ _ _ _ _ _ hmut => exact ⟨g1, fun hx => absurd (g2 hx).1 hmut⟩
      | retitle _ _ _ _ _ _ _ hmut => exact ⟨g1, fun hx => absurd (g2 hx).1 hmut⟩
      | update _ _ _ _ _ _ _ _ _ hmut => exact ⟨g1, fun hx => absurd (g2 hx).1 hmut⟩
      | updateFrom _ _ _ _ _ _ _ _ _ _ hmut => exact ⟨g1, fun hx => absurd (g2 hx).1 hmut⟩
      | _ => exact ⟨g1, g2⟩) hw2 h8 hst
    ⟨rfl, fun hx => ⟨by simp [newAsset, hx], rfl, rfl⟩⟩
  refine ⟨E, L1, L2, _, x, rfl, h2, h6, rfl, ?_, fun hx => ?_⟩
  · rw [← q1, hA'.2.2.1]; rfl
  · obtain ⟨r1, r2, r3⟩ := q2 hx
    rw [hA'.2.2.1] at r1 r2 r3
    exact ⟨r1, r2, congrArg some r3.symm⟩

section Examples
open Verif.Ex

/-- An asset in the group `k 1`, of which `k 3` is the authority and a verified creator. -/
def fakeContent : Bytes :=
  header 0 0 1 (k 6) (k 1) (k 3) Key.default 0 [70] ++ blocks 168 [(.creators, (k 3).1 ++ [1, 100])]

/-- The three calls, one after the other. -/
def faked : Except Err Ledger :=
  (run empties [k 7, k 5] [k 7, k 5, Key.system] (.allocate ⟨.blob, 8, none⟩)).bind fun L1 =>
  (run L1 [k 7, k 5] [k 7, k 5, Key.system] (.write ⟨false, detour 0⟩)).bind fun L2 =>
  run L2 [k 7, k 5] [k 7, k 5, Key.system]
    (.allocate ⟨.attributes, UInt32.ofNat (copyOf fakeContent).length, some (copyOf fakeContent)⟩)

theorem faked_steps {L : Ledger} (h : faked = .ok L) :
    StepsBy prog (fun E i => (∀ x, i ≠ .create x) ∧ ∀ y, E.signer y = true → y = k 7 ∨ y = k 5)
      empties L := by
  have hsig : ∀ (L : Ledger) y, (env L [k 7, k 5]).signer y = true → y = k 7 ∨ y = k 5 := by
    intro L y hy
    simpa [env] using hy
  unfold faked at h
  cases h1 : run empties [k 7, k 5] [k 7, k 5, Key.system] (.allocate ⟨.blob, 8, none⟩) with
  | error => rw [h1] at h; cases h
  | ok L1 =>
    rw [h1] at h
    simp only [Except.bind] at h
    cases h2 : run L1 [k 7, k 5] [k 7, k 5, Key.system] (.write ⟨false, detour 0⟩) with
    | error => rw [h2] at h; cases h
    | ok L2 =>
      rw [h2] at h
      exact .instr (env L2 [k 7, k 5]) _ _ (.instr (env L1 [k 7, k 5]) _ _
        (.instr (env empties [k 7, k 5]) _ _ (.refl _) rfl (fun _ => rfl)
          ⟨(by intro x hx; cases hx), hsig _⟩ h1) rfl (fun _ => rfl)
          ⟨(by intro x hx; cases hx), hsig _⟩ h2) rfl (fun _ => rfl)
          ⟨(by intro x hx; cases hx), hsig _⟩ h

/-- The full claim is false: an asset with the authority `k 3`, who is a verified creator of it,
although nothing was ever created, and `k 3` never signed anything. -/
theorem C69_false : ∃ L0 L a, Genesis prog L0 ∧
    StepsBy prog (fun E i => (∀ x, i ≠ .create x) ∧ ∀ y, E.signer y = true → y = k 7 ∨ y = k 5) L0 L ∧
    IsAsset prog L a ∧ (assetAt L a).authority = k 3 ∧
    assetGet .creators (L a).data = .ok (some ((k 3).1 ++ [1, 100])) := by
  have h : (faked.map fun L => (decide ((L (k 7)).owner = prog ∧ 168 ≤ (L (k 7)).data.length ∧
      (assetAt L (k 7)).disc = 1 ∧ (assetAt L (k 7)).authority = k 3),
      assetGet .creators (L (k 7)).data)) = .ok (true, .ok (some ((k 3).1 ++ [1, 100]))) := by
    decide +kernel
  obtain ⟨L, h1, h2⟩ := ok_of_map h
  simp only [Prod.mk.injEq, decide_eq_true_eq] at h2
  exact ⟨empties, L, k 7, empties_genesis, faked_steps h1,
    ⟨h2.1.1, h2.1.2.1, h2.1.2.2.1⟩, h2.1.2.2.2, h2.2⟩

/-- The same by the calls of the client. -/
example : ((sends (env empties []) empties
    ((forgery (k 7) (k 5) (copyOf fakeContent)).map (·.build prog))).map fun L =>
      ((assetAt L (k 7)).authority, (assetAt L (k 7)).group, assetGet .creators (L (k 7)).data)) =
    .ok (k 3, k 1, .ok (some ((k 3).1 ++ [1, 100]))) := by decide +kernel

/-- An immutable asset of `k 2` with a verified creator `k 3`, in account `k 1`. -/
def genuine : Ledger :=
  let d := header 0 0 0 (k 2) Key.default (k 3) Key.default 0 [70] ++
    blocks 168 [(.creators, (k 3).1 ++ [1, 100])]
  ledger [(k 1, owned d), (k 2, wallet), (k 3, wallet), (k 5, wallet)]

/-- The copy in `k 7` differs from the original only in the owner, `k 5` (and has 40 unused bytes
at the end). -/
example : ((sends (env genuine []) genuine
    ((perfect (k 7) (k 5) (k 5) none (genuine (k 1)).data).map (·.build prog))).map fun L =>
      decide ((L (k 7)).owner = prog ∧ assetAt L (k 7) = { assetAt genuine (k 1) with
        owner := k 5, extensions := (assetAt L (k 7)).extensions } ∧
        assetGet .creators (L (k 7)).data = .ok (some ((k 3).1 ++ [1, 100])))) =
    .ok true := by decide +kernel

/-- The content satisfies the conditions. -/
example : CleanExts fakeContent [(.creators, (k 3).1 ++ [1, 100])] :=
  ⟨224, .cons (by decide) (by decide +kernel) (by decide +kernel) (by decide +kernel)
    (by decide +kernel) (.nil (by decide +kernel)), by decide +kernel⟩

theorem proper_of_counted {program : Key} {L L' : Ledger} (h : CountedSteps program L L') :
    ProperSteps program L L' := by
  induction h with
  | refl => exact .refl _
  | tail _ h ih =>
    cases h with
    | instr E accts i hp hl h hi _ _ => exact .tail ih (.instr E accts i hp hl h hi)
    | foreign h => exact .tail ih (.foreign h)

/-- A genuine history: a group and an asset in it (see C11). Both were created. -/
example : ∃ L, twoCreates = .ok L ∧ ∀ a ∈ [k 1, k 7], ∃ E L1 L2 accts x, E.program = prog ∧
    ProperSteps prog empties L1 ∧ ¬ IsAsset prog L1 a ∧ execute E L1 accts (.create x) = .ok L2 ∧
    accts.head? = some a ∧ E.signer a = true ∧ Alive prog a L2 L := by
  have h : (twoCreates.map fun L => decide (∀ a ∈ [k 1, k 7], (L a).owner = prog ∧
      168 ≤ (L a).data.length ∧ (assetAt L a).disc = 1)) = .ok true := by decide +kernel
  obtain ⟨L, h1, h2⟩ := ok_of_map h
  obtain ⟨L', h3, h4⟩ := twoCreates_counted
  rw [h1] at h3
  cases h3
  exact ⟨L, h1, fun a ha => C69_created_partial empties_genesis (proper_of_counted h4)
    (of_decide_eq_true h2 a ha)⟩

end Examples

end Verif.Props

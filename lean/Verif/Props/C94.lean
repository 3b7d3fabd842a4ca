import Verif.Lemmas.Since
import Verif.Props.C06
import Verif.Props.C07
import Verif.Props.C68
import Verif.Props.C17
import Verif.Lemmas.Check

/-!
# C94 — powers over an asset come from those who could give them
-/

namespace Verif.Props

open Verif Verif.Spec

section
variable {program k : Key} {L0 L : Ledger} {A : Asset}

/-- As long as the instructions are used as intended: the owner got the asset when it was created, or
from the owner or the delegate of the time. -/
theorem C94_owner_partial (h0 : Genesis program L0) (hs : ProperSteps program L0 L)
    (hA : Stores program L k A) : Acquired program k A.owner L0 L := by
  obtain ⟨E, L1, L2, accts, i, A', h1, h2, h3, h4, h5, h6, h7⟩ :=
    origin (P := (·.owner = A.owner)) h0 hs hA rfl
  refine ⟨E, L1, L2, accts, i, h1, h2, h3, h6, ?_⟩
  rcases h7 with ⟨x, au, o, rest, g, es0, es, rfl, rfl, g1, g2, rfl, _⟩ | ⟨B, hB, _, hn, hm, _⟩
  · obtain rfl : o = A.owner := h5
    exact .inl ⟨x, au, rest, rfl, rfl, g1, g2⟩
  · cases hm with
    | transfer _ s r rest ha hs hauth hlock hsoul =>
      obtain rfl : r = A.owner := h5
      exact .inr ⟨B, s, rest, rfl, ha, hB, hn, hs, hauth, hlock, hsoul⟩
    | _ => exact absurd h5 hn

/-- The authority was given by the one who created the asset, or took over from the authority of the
time. -/
theorem C94_authority_partial (h0 : Genesis program L0) (hs : ProperSteps program L0 L)
    (hA : Stores program L k A) : TookOver program k A.authority L0 L := by
  obtain ⟨E, L1, L2, accts, i, A', h1, h2, h3, h4, h5, h6, h7⟩ :=
    origin (P := (·.authority = A.authority)) h0 hs hA rfl
  refine ⟨E, L1, L2, accts, i, h1, h2, h3, h6, ?_⟩
  rcases h7 with ⟨x, au, o, rest, g, es0, es, rfl, rfl, g1, g2, rfl, _⟩ | ⟨B, hB, _, hn, hm, _⟩
  · obtain rfl : au = A.authority := h5
    exact .inl ⟨x, _, rfl, rfl, g1, g2⟩
  · cases hm with
    | handover _ s n rest ha hs hn' hauth hmut =>
      obtain rfl : n = A.authority := h5
      exact .inr ⟨B, s, rest, rfl, ha, hB, hn, hauth, hs, hn', hmut⟩
    | _ => exact absurd h5 hn

/-- Each role of the delegate was asked for in an Approve that the owner of today signed. Ever since
the asset has belonged to them, and the delegate has been the same and had the role. -/
theorem C94_delegate_partial (h0 : Genesis program L0) (hs : ProperSteps program L0 L)
    (hA : Stores program L k A) (hd : A.delegate ≠ Key.default) {r : Role}
    (hr : HasRole ⟨A.delegate, A.roles⟩ r) :
    ∃ E L1 L2 x rest, E.program = program ∧ ProperSteps program L0 L1 ∧
      execute E L1 (k :: A.owner :: A.delegate :: rest) (.approve x) = .ok L2 ∧
      E.signer A.owner = true ∧ Requested x r ∧
      Since program k (·.Entrusted A.owner A.delegate r) L2 L := by
  obtain ⟨E, L1, L2, accts, i, A', rfl, h2, h3, h4, h5, h6, h7⟩ :=
    origin (P := (·.Entrusted A.owner A.delegate r)) h0 hs hA ⟨rfl, rfl, hr⟩
  obtain ⟨p1, p2, p3⟩ := h5
  rcases h7 with ⟨x, au, o, rest, g, es0, es, rfl, rfl, g1, g2, rfl, _⟩ | ⟨B, hB, _, hn, hm, _⟩
  · exact absurd p2.symm hd
  cases hm with
  | transfer => exact absurd p2.symm hd
  | approve _ x o d roles rest ha hsg ho _ =>
    subst ha
    obtain rfl : d = A.delegate := p2
    have p1' : B.owner = A.owner := p1
    obtain rfl : o = A.owner := ho.symm.trans p1'
    refine ⟨E, L1, L2, x, rest, rfl, h2, h3, hsg, ?_, h6⟩
    obtain ⟨a, o', d', rest', he, _, _, _, _, roles', hv, hroles⟩ := C06_approve h3
    cases he
    have e1 : roles' = roles := by
      have := h4.2.2.1
      rw [hv] at this
      exact (congrArg Asset.roles this).symm
    subst e1
    rcases (hroles r).mp p3 with h | ⟨h, h'⟩
    · exact h.1
    · exfalso
      apply hn
      have e2 := hB.2.2.1
      have e3 : B.delegate = (assetAt L1 k).delegate := congrArg Asset.delegate e2
      have e4 : B.roles = (assetAt L1 k).roles := congrArg Asset.roles e2
      unfold holderDelegate at h
      split at h
      · cases h
      · have e5 : (assetAt L1 k).delegate = A.delegate := by
          have := congrArg (fun z : Option Delegate => z.map (·.address)) h
          simpa using this
        exact ⟨p1', e3.trans e5, by rw [e4]; exact h'⟩
  | revoke _ x s d roles rest ha hsg hauth _ hdd =>
    exfalso
    subst ha
    obtain ⟨a, s', rest', he, _, _, _, _, _, hg, _⟩ := C07_revoke h3
    cases he
    have q1 : (assetAt L2 k).delegate = A.delegate := by
      rw [← p2]; exact (congrArg Asset.delegate h4.2.2.1).symm
    have q2 : HasRole ⟨A.delegate, (assetAt L2 k).roles⟩ r := by
      have : roles = (assetAt L2 k).roles := congrArg Asset.roles h4.2.2.1
      rw [← this]; exact p3
    obtain ⟨⟨y, y1, y2⟩, _⟩ := (hg r).mp ⟨⟨A.delegate, (assetAt L2 k).roles⟩, by
      unfold holderDelegate; rw [q1, if_neg hd], q2⟩
    unfold holderDelegate at y1
    split at y1
    · cases y1
    · next hne =>
      cases y1
      have e3 : B.delegate = (assetAt L1 k).delegate := congrArg Asset.delegate hB.2.2.1
      have e4 : B.roles = (assetAt L1 k).roles := congrArg Asset.roles hB.2.2.1
      have e5 : B.delegate = A.delegate := by
        rcases hdd with h | ⟨h, _⟩
        · rw [← h]; exact p2
        · exact absurd (p2.symm.trans h) hd
      exact hn ⟨p1, e5, by rw [e4, ← e5, e3]; exact y2⟩
  | _ => exact absurd ⟨p1, p2, p3⟩ hn

/-- An asset that is locked was locked by the owner or the delegate of the time. -/
theorem C94_locked_partial (h0 : Genesis program L0) (hs : ProperSteps program L0 L)
    (hA : Stores program L k A) (hl : A.state = 1) : LockedBy program k L0 L := by
  obtain ⟨E, L1, L2, accts, i, A', h1, h2, h3, h4, h5, h6, h7⟩ :=
    origin (P := (·.state = 1)) h0 hs hA hl
  rcases h7 with ⟨x, au, o, rest, g, es0, es, rfl, rfl, g1, g2, rfl, _⟩ | ⟨B, hB, _, hn, hm, _⟩
  · exact absurd (show (0 : UInt8) = 1 from h5) (by decide)
  · cases hm with
    | lock _ s rest ha hs hauth hlock =>
      subst ha
      exact ⟨E, L1, L2, s, rest, B, h1, h2, h3, hB, hlock, hs, hauth, h6⟩
    | unlock => exact absurd (show (0 : UInt8) = 1 from h5) (by decide)
    | _ => exact absurd h5 hn

/-- A verified creator signed the instruction that made them one, or the asset was created with them as
its authority; they have been verified ever since. -/
theorem C94_verified_partial (h0 : Genesis program L0) (hs : ProperSteps program L0 L)
    (hA : Stores program L k A) {c : Key} (hv : VerifiedIn A.exts c) :
    ∃ E L1 L2 accts i, E.program = program ∧ ProperSteps program L0 L1 ∧
      execute E L1 accts i = .ok L2 ∧ Since program k (fun B => VerifiedIn B.exts c) L2 L ∧
      ((∃ x rest, i = .create x ∧ accts = k :: c :: rest ∧ E.signer k = true) ∨
        E.signer c = true ∧ ∃ B, Stores program L1 k B ∧ ¬ VerifiedIn B.exts c) := by
  obtain ⟨E, L1, L2, accts, i, A', rfl, h2, h3, h4, h5, h6, h7⟩ :=
    origin (P := fun B => VerifiedIn B.exts c) h0 hs hA hv
  refine ⟨E, L1, L2, accts, i, rfl, h2, h3, h6, ?_⟩
  rcases h7 with ⟨x, au, o, rest, g, es0, es, rfl, rfl, g1, g2, rfl, hb⟩ | ⟨B, hB, hd, hn, hm, hi⟩
  · obtain ⟨q, hq, r, hr, rfl, hrv⟩ := h5
    obtain ⟨y, _, hy1, hy2⟩ := forall2_mem_right hb hq
    have hy1 : ExtType.creators = y.1 := hy1
    rw [← hy1] at hy2
    rcases accepted_verified hy2 hr hrv with ⟨_, h, _⟩ | h
    · cases h
    · cases h
      exact .inl ⟨x, _, rfl, rfl, g1⟩
  · refine .inr ⟨?_, B, hB, hn⟩
    by_cases hbuf : NoBuffer E.program accts i
    · exact C17_consent_partial hB h3 (hi.sound hB hd) hbuf h4 hn h5
    · exfalso
      cases hm with
      | updateFrom _ x s b rest t p ha hsg hauth hmut hx hbp ht hp =>
        subst ha
        obtain ⟨t', p', ht', hst⟩ := update_from hB h3 hx hbp
        have hA' := h4.unique hst
        have hc : t' ≠ .creators := by
          rintro rfl
          exact (hi.2 b rfl hbp).1 ht'.symm
        obtain ⟨q, hq, hr⟩ := h5
        rw [hA'] at hq
        rcases mem_setExt hq with h | h
        · exact hc (congrArg Prod.fst h).symm
        · exact hn ⟨q, h, hr⟩
      | retitle => exact hn h5
      | update _ x s rest e p ha hsg hauth hmut hx he hp =>
        apply hbuf
        intro h
        rw [hx] at h
        cases h
      | stay => exact hn h5
      | memberIn _ i p hi' => rcases hi' with rfl | ⟨_, rfl⟩ <;> exact hbuf trivial
      | memberOut _ i p hi' => rcases hi' with rfl | rfl <;> exact hbuf trivial
      | _ => exact hbuf trivial

/-- The data of an extension is there since the asset was created, or was stored by an Update that the
authority of the time signed, when the asset was mutable; with the data given, if it was given in the
instruction. -/
theorem C94_data_partial (h0 : Genesis program L0) (hs : ProperSteps program L0 L)
    (hA : Stores program L k A) {t : ExtType} {q : Bytes} (ht : t ≠ .creators ∧ t ≠ .grouping)
    (hq : lookup t A.exts = some q) :
    ∃ E L1 L2 accts i, E.program = program ∧ ProperSteps program L0 L1 ∧
      execute E L1 accts i = .ok L2 ∧ Since program k (fun B => lookup t B.exts = some q) L2 L ∧
      ((∃ x rest, i = .create x ∧ accts = k :: rest ∧ E.signer k = true) ∨
        ∃ B x s rest, i = .update x ∧ accts = k :: s :: rest ∧ Stores program L1 k B ∧
          B.authority = s ∧ E.signer s = true ∧ B.mutableByte ≠ 0 ∧
          ((t = .manager ∨ t = .proxy) → q ≠ [] → lookup t B.exts ≠ none) ∧
          ∀ e, x.extension = some e → e.ty = t ∧ e.data.getD [] = q) := by
  obtain ⟨E, L1, L2, accts, i, A', rfl, h2, h3, h4, h5, h6, h7⟩ :=
    origin (P := fun B => lookup t B.exts = some q) h0 hs hA hq
  refine ⟨E, L1, L2, accts, i, rfl, h2, h3, h6, ?_⟩
  rcases h7 with ⟨x, au, o, rest, g, es0, es, rfl, rfl, g1, g2, rfl, hb⟩ | ⟨B, hB, hd, hn, hm, hi⟩
  · exact .inl ⟨x, _, rfl, rfl, g1⟩
  · right
    cases hm with
    | update _ x s rest e p ha hsg hauth hmut hx he hp =>
      have hte : e.ty = t := by
        by_contra hne
        exact hn (by rw [← h5]; exact (lookup_setExt_ne (Ne.symm hne)).symm)
      subst hte
      have hpq : p = q := by
        have h5' : lookup e.ty (setExt e.ty p B.exts) = some q := h5
        rw [lookup_setExt_same] at h5'
        cases h5'
        rfl
      subst hpq
      refine ⟨B, x, s, rest, rfl, ha, hB, hauth, hsg, hmut, ?_, ?_⟩
      · intro hm hne
        unfold UpdatesTo at hp
        split at hp
        · exact hp.2.2.1 hm
        · exact absurd hp.1 hne
      · intro e' he'
        rw [hx] at he'
        cases he'
        refine ⟨rfl, ?_⟩
        unfold UpdatesTo at hp
        split at hp
        · next new hnew =>
          have := hp.1
          rw [hnew]
          unfold Accepted at this
          split at this
          · exact this.elim
          · exact absurd ‹_› ht.1
          · exact absurd ‹_› ht.2
          · exact this.1.symm
          · exact this.1.symm
          · exact this.1.symm
          · exact this.symm
        · next hnone => rw [hnone]; exact hp.1.symm
    | updateFrom _ x s b rest t' p ha hsg hauth hmut hx hbp ht' hp =>
      have hte : t' = t := by
        by_contra hne
        exact hn (by rw [← h5]; exact (lookup_setExt_ne (Ne.symm hne)).symm)
      subst hte
      refine ⟨B, x, s, _, rfl, ha, hB, hauth, hsg, hmut, ?_, ?_⟩
      · intro hm _
        obtain ⟨_, _, _, _, _, _, _, _, h, _⟩ := hp
        exact h hm
      · intro e he
        rw [hx] at he
        cases he
    | remove _ t' s rest ha hsg hauth hmut _ =>
      exfalso
      by_cases hte : t' = t
      · subst hte
        have h5' : lookup t' (removeExt t' B.exts) = some q := h5
        rw [lookup_removeExt_same hd] at h5'
        cases h5'
      · exact hn (by rw [← h5]; exact (lookup_removeExt_ne (Ne.symm hte)).symm)
    | verify => exact absurd (by rw [← h5]; exact (lookup_setExt_ne ht.1).symm) hn
    | unverify => exact absurd (by rw [← h5]; exact (lookup_setExt_ne ht.1).symm) hn
    | memberIn => exact absurd (by rw [← h5]; exact (lookup_setExt_ne ht.2).symm) hn
    | memberOut => exact absurd (by rw [← h5]; exact (lookup_setExt_ne ht.2).symm) hn
    | _ => exact absurd h5 hn

/-- Used otherwise, the instructions let anybody become a delegate of an asset with all roles, which
nobody approved: three calls without Approve and without Create, that only they and the account
sign. -/
theorem C94_anyone {E : Env} {p g : Key} (hu : L k = ⟨0, [], Key.system⟩) (hne : p ≠ k)
    (hw : (L p).owner = Key.system ∧ (L p).data = []) (ha : Affords E 208 (L p).lamports)
    (hp : E.program ≠ Key.system ∧ p ≠ E.program) (hsys : Whole E.program L Key.system) :
    ∃ (L' : Ledger) (cs : List Call), sends E L (cs.map (·.build E.program)) = .ok L' ∧
      (∀ c ∈ cs, (∀ x, instrOf c ≠ .approve x) ∧ (∀ x, instrOf c ≠ .create x) ∧
        ∀ m ∈ c.metas E.program, m.signer = true → m.key = k ∨ m.key = p) ∧
      IsAsset E.program L' k ∧ (assetAt L' k).delegate = p ∧ (assetAt L' k).roles = 255 := by
  obtain ⟨L', h1, h2, h3, h4, _⟩ := C68_anyone (g := g) hu hne hw ha hp hsys
  obtain ⟨g1, g2⟩ := C69_signers (k := k) (p := p) (program := E.program)
    (w := copyOf (memberBytes g p))
  refine ⟨L', _, h1, fun c hc => ⟨fun x hx => ?_, g1 c hc, g2 c hc⟩, h2.1, h3, h4⟩
  simp only [forgery, List.mem_cons, List.not_mem_nil, or_false] at hc
  rcases hc with rfl | rfl | rfl <;> cases hx

end

section Examples
open Verif.Ex

/-- The full claim is false: `k 3` is the authority of an asset that nobody created, and never signed
anything. -/
theorem C94_false : ∃ L0 L a, Genesis prog L0 ∧
    StepsBy prog (fun E i => (∀ x, i ≠ .create x) ∧ ∀ y, E.signer y = true → y = k 7 ∨ y = k 5) L0 L ∧
    IsAsset prog L a ∧ (assetAt L a).authority = k 3 := by
  obtain ⟨L0, L, a, h1, h2, h3, h4, _⟩ := C69_false
  exact ⟨L0, L, a, h1, h2, h3, h4⟩

/-- `k 1` is created for `k 2`, who makes `k 4` a delegate; the delegate transfers it to `k 6`, who makes
`k 5` a delegate for all, takes back one role, and `k 5` locks it. The authority `k 3` hands over to
`k 8`. -/
def career : List (List Key × List Key × Instr) :=
  [([k 1, k 5], createAccts, .create ⟨[65], .nonFungible, true, none⟩),
    ([k 2], [k 1, k 2, k 4], .approve .all),
    ([k 4], [k 1, k 4, k 6, prog], .transfer),
    ([k 6], [k 1, k 6, k 5], .approve .all),
    ([k 6], [k 1, k 6], .revoke (.some [.burn])),
    ([k 3, k 8], [k 1, k 3, k 8], .handover),
    ([k 5], [k 1, k 5], .lock)]

/-- What has become of it. -/
def careerAsset : Asset :=
  ⟨1, 0, 1, k 6, Key.default, k 8, k 5, 3, podStr35 [65], []⟩

theorem runAll_proper {xs : List (List Key × List Key × Instr)} {L0 L L' : Ledger}
    (hx : ∀ x ∈ xs, ∀ L, Proper prog L x.2.1 x.2.2)
    (hs : ProperSteps prog L0 L) (h : runAll xs L = .ok L') : ProperSteps prog L0 L' := by
  induction xs generalizing L with
  | nil => cases h; exact hs
  | cons x xs ih =>
    obtain ⟨s, a, i⟩ := x
    unfold runAll at h
    cases h1 : run L s a i with
    | error => rw [h1] at h; cases h
    | ok L1 =>
      rw [h1] at h
      exact ih (fun y hy => hx y (List.mem_cons_of_mem _ hy))
        (.tail hs (.instr (env L s) _ i rfl (fun _ => rfl) h1 (hx _ List.mem_cons_self L))) h

theorem career_run : ∃ L, ProperSteps prog empties L ∧ Stores prog L (k 1) careerAsset := by
  have h : ((runAll career empties).map fun L => checkStores prog L (k 1) careerAsset) = .ok true := by
    decide +kernel
  obtain ⟨L, h1, h2⟩ := ok_of_map h
  refine ⟨L, runAll_proper ?_ (.refl _) h1, checkStores_sound h2⟩
  intro x hx L
  simp only [career, List.mem_cons, List.not_mem_nil, or_false] at hx
  rcases hx with rfl | rfl | rfl | rfl | rfl | rfl | rfl
  · intro y hy; cases hy
  all_goals trivial

/-- So its owner, its authority, its delegate and its lock have their origins; the role of burning that
was taken back is gone. -/
example : ∃ L, Stores prog L (k 1) careerAsset ∧ Acquired prog (k 1) (k 6) empties L ∧
    TookOver prog (k 1) (k 8) empties L ∧ LockedBy prog (k 1) empties L ∧
    (∃ E L1 L2 x rest, E.program = prog ∧ ProperSteps prog empties L1 ∧
      execute E L1 (k 1 :: k 6 :: k 5 :: rest) (.approve x) = .ok L2 ∧ E.signer (k 6) = true ∧
      Requested x .transfer ∧ Since prog (k 1) (·.Entrusted (k 6) (k 5) .transfer) L2 L) ∧
    ¬ HasRole ⟨k 5, careerAsset.roles⟩ .burn := by
  obtain ⟨L, h1, h2⟩ := career_run
  refine ⟨L, h2, C94_owner_partial empties_genesis h1 h2, C94_authority_partial empties_genesis h1 h2,
    C94_locked_partial empties_genesis h1 h2 rfl, ?_, ?_⟩
  · exact C94_delegate_partial (r := .transfer) empties_genesis h1 h2 (by decide +kernel)
      (show (3 : UInt8) &&& 1 ≠ 0 by decide)
  · show ¬ ((3 : UInt8) &&& 4 ≠ 0)
    decide

/-- The authority gives a new asset an attribute and an unverified creator, who then signs. -/
def origins : List (List Key × List Key × Instr) :=
  [([k 1, k 5], createAccts, .create ⟨[65], .nonFungible, true, none⟩),
    ([k 3, k 5], updateAccts, .update ⟨none, none, some ⟨.attributes, 4, some [1, 97, 1, 98]⟩⟩),
    ([k 3, k 5], updateAccts, .update ⟨none, none, some ⟨.creators, 34, some (rec (k 10) 0 100)⟩⟩),
    ([k 10], [k 1, k 10], .verify)]

/-- What it is then. -/
def originsAsset : Asset :=
  ⟨0, 0, 1, k 2, Key.default, k 3, Key.default, 0, podStr35 [65],
    [(.attributes, [1, 97, 1, 98]), (.creators, rec (k 10) 1 100)]⟩

theorem origins_run : ∃ L, ProperSteps prog empties L ∧ Stores prog L (k 1) originsAsset := by
  have h : ((runAll origins empties).map fun L => checkStores prog L (k 1) originsAsset) = .ok true := by
    decide +kernel
  obtain ⟨L, h1, h2⟩ := ok_of_map h
  refine ⟨L, runAll_proper ?_ (.refl _) h1, checkStores_sound h2⟩
  intro x hx L
  simp only [origins, List.mem_cons, List.not_mem_nil, or_false] at hx
  rcases hx with rfl | rfl | rfl | rfl
  · intro y hy; cases hy
  · exact ⟨fun e he => by cases he; decide, fun b hb hne => by cases hb; exact absurd rfl hne⟩
  · exact ⟨fun e he => by cases he; decide, fun b hb hne => by cases hb; exact absurd rfl hne⟩
  · trivial

/-- The attribute and the verification have their origins. -/
example : ∃ L, Stores prog L (k 1) originsAsset ∧
    (∃ E L1 L2 accts i, E.program = prog ∧ execute E L1 accts i = .ok L2 ∧
      Since prog (k 1) (fun B => lookup .attributes B.exts = some [1, 97, 1, 98]) L2 L) ∧
    ∃ E L1 L2 accts i, E.program = prog ∧ execute E L1 accts i = .ok L2 ∧
      Since prog (k 1) (fun B => VerifiedIn B.exts (k 10)) L2 L := by
  obtain ⟨L, h1, h2⟩ := origins_run
  refine ⟨L, h2, ?_, ?_⟩
  · obtain ⟨E, L1, L2, accts, i, g1, _, g2, g3, _⟩ :=
      C94_data_partial (t := .attributes) (q := [1, 97, 1, 98]) empties_genesis h1 h2 (by decide) rfl
    exact ⟨E, L1, L2, accts, i, g1, g2, g3⟩
  · obtain ⟨E, L1, L2, accts, i, g1, _, g2, g3, _⟩ :=
      C94_verified_partial (c := k 10) empties_genesis h1 h2
        ⟨_, List.mem_cons_of_mem _ List.mem_cons_self, by decide +kernel⟩
    exact ⟨E, L1, L2, accts, i, g1, g2, g3⟩

end Examples
end Verif.Props

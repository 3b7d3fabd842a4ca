import Verif.Lemmas.Effect
import Verif.Lemmas.Mint
import Verif.Spec.Privileges

/-!
# Processors depend only on the privileges of some accounts
-/

namespace Verif

open Verif.Spec

section
variable {E : Env} {ms : List Meta} {L : Ledger}

/-- The requested signature of an account is the one it gives. -/
def SameSigner (E : Env) (ms : List Meta) (k : Key) : Prop := (only E ms).signer k = E.signer k

/-- The same for write access. -/
def SameWritable (E : Env) (ms : List Meta) (k : Key) : Prop :=
  (only E ms).writable k = E.writable k

theorem Spec.Grants.signer (h : Grants E ms) {m : Meta} (hm : m ∈ ms) (hs : m.signer = true) :
    SameSigner E ms m.key := by
  unfold SameSigner
  rw [(h m hm).1 hs]
  exact List.any_eq_true.mpr ⟨m, hm, by simp [hs]⟩

theorem Spec.Grants.writable (h : Grants E ms) {m : Meta} (hm : m ∈ ms) (hs : m.writable = true) :
    SameWritable E ms m.key := by
  unfold SameWritable
  rw [(h m hm).2 hs]
  exact List.any_eq_true.mpr ⟨m, hm, by simp [hs]⟩

theorem Spec.Grants.below (h : Grants E ms) {k : Key} (hk : (only E ms).signer k = true) :
    E.signer k = true := by
  obtain ⟨m, hm, h2⟩ := List.any_eq_true.mp hk
  simp only [Bool.and_eq_true, decide_eq_true_eq] at h2
  rw [← h2.1]
  exact (h m hm).1 h2.2

theorem Spec.Grants.same (h : Grants E ms) {m : Meta} (hm : m ∈ ms)
    (hs : E.signer m.key = true → m.signer = true) : SameSigner E ms m.key := by
  by_cases he : E.signer m.key = true
  · exact h.signer hm (hs he)
  · unfold SameSigner
    rw [Bool.not_eq_true] at he
    rw [he]
    by_contra hne
    rw [Bool.not_eq_false] at hne
    rw [h.below hne] at he
    cases he

/-- An account list of which everything is given and that asks for no less than the call. -/
structure Covers (E : Env) (c : Call) (ms : List Meta) : Prop where
  grants : Grants E ms
  asks : ∀ m ∈ c.metas E.program, ∃ m' ∈ ms, m'.key = m.key ∧
    (m.signer = true → m'.signer = true) ∧ (m.writable = true → m'.writable = true)

theorem Spec.Grants.covers {c : Call} (h : Grants E (c.metas E.program)) :
    Covers E c (c.metas E.program) := ⟨h, fun m hm => ⟨m, hm, rfl, id, id⟩⟩

section
variable {c : Call}

theorem Covers.signer (h : Covers E c ms) {m : Meta} (hm : m ∈ c.metas E.program)
    (hs : m.signer = true) : SameSigner E ms m.key := by
  obtain ⟨m', hm', hk, h1, _⟩ := h.asks m hm
  rw [← hk]
  exact h.grants.signer hm' (h1 hs)

theorem Covers.writable (h : Covers E c ms) {m : Meta} (hm : m ∈ c.metas E.program)
    (hs : m.writable = true) : SameWritable E ms m.key := by
  obtain ⟨m', hm', hk, _, h2⟩ := h.asks m hm
  rw [← hk]
  exact h.grants.writable hm' (h2 hs)

theorem Covers.same (h : Covers E c ms) {m : Meta} (hm : m ∈ c.metas E.program)
    (hs : E.signer m.key = true → m.signer = true) : SameSigner E ms m.key := by
  obtain ⟨m', hm', hk, h1, _⟩ := h.asks m hm
  rw [← hk]
  exact h.grants.same hm' fun he => h1 (hs (by rw [← hk]; exact he))

theorem Covers.more (h : Covers E c ms) {k : Key}
    (hk : (only E (c.metas E.program)).writable k = true) : (only E ms).writable k = true := by
  obtain ⟨m, hm, h2⟩ := List.any_eq_true.mp hk
  simp only [Bool.and_eq_true, decide_eq_true_eq] at h2
  obtain ⟨m', hm', hk', _, h3⟩ := h.asks m hm
  exact List.any_eq_true.mpr ⟨m', hm', by simp [hk', h2.1, h3 h2.2]⟩

end

/-- What `resize` and account creation need. -/
structure SamePayer (E : Env) (ms : List Meta) (k : Key) (payer : Option Key) : Prop where
  signer : ∀ p, payer = some p → SameSigner E ms p
  writable : ∀ p, payer = some p → SameWritable E ms p
  target : SameWritable E ms k

variable {k : Key} {payer sys : Option Key}

theorem systemTransfer_only {p : Key} {n : Nat} (h1 : SameSigner E ms p)
    (h2 : SameWritable E ms p) (h3 : SameWritable E ms k) :
    systemTransfer (only E ms) L p k n = systemTransfer E L p k n := by
  unfold SameSigner at h1
  unfold SameWritable at h2 h3
  unfold systemTransfer
  rw [h1, h2, h3]

theorem systemCreate_only {p : Key} {n m : Nat} {o : Key} (h1 : SameSigner E ms p)
    (h2 : SameWritable E ms p) (h3 : SameWritable E ms k) (h4 : SameSigner E ms k) :
    systemCreate (only E ms) L p k n m o = systemCreate E L p k n m o := by
  unfold SameSigner at h1 h4
  unfold SameWritable at h2 h3
  unfold systemCreate
  rw [h1, h2, h3, h4]

theorem resize_only {n : Nat} (h : SamePayer E ms k payer) :
    resize (only E ms) L n k payer sys = resize E L n k payer sys := by
  have hf : resizeFund (only E ms) L n k payer sys = resizeFund E L n k payer sys := by
    unfold resizeFund
    cases payer with
    | none => rfl
    | some p =>
      cases sys with
      | none => rfl
      | some s =>
        simp only [systemTransfer_only (h.signer p rfl) (h.writable p rfl) h.target]
        rw [h.signer p rfl]
        rfl
  unfold resize resizeLamports
  rw [hf]
  rfl

theorem createAccount_only {n : Nat} (h : SamePayer E ms k payer) (hk : SameSigner E ms k) :
    createAccount (only E ms) L k payer sys n = createAccount E L k payer sys n := by
  unfold createAccount
  cases payer with
  | none => rfl
  | some p =>
    cases sys with
    | none => simp only [h.signer p rfl]; rw [h.signer p rfl]
    | some s =>
      simp only [systemCreate_only (h.signer p rfl) (h.writable p rfl) h.target hk]
      rw [h.signer p rfl]
      rfl

theorem processAllocate_only {x : ExtInput} (h : SamePayer E ms k payer)
    (hk : SameSigner E ms k) :
    processAllocate (only E ms) L k payer sys x = processAllocate E L k payer sys x := by
  have hs : ∀ b o d, saveExtensionData (only E ms) L k payer sys x b o d =
      saveExtensionData E L k payer sys x b o d := by
    intro b o d
    unfold saveExtensionData allocateSpace
    simp only [createAccount_only h hk, resize_only h]
  unfold processAllocate
  simp only [hs]
  rw [hk]
  rfl

theorem allocateAll_only {xs : List ExtInput} (h : SamePayer E ms k payer)
    (hk : SameSigner E ms k) :
    allocateAll (only E ms) k payer sys xs L = allocateAll E k payer sys xs L := by
  induction xs generalizing L with
  | nil => rfl
  | cons x xs ih =>
    unfold allocateAll
    simp only [processAllocate_only h hk, ih]

theorem processGroup_only {g au : Key} (h : SameSigner E ms au) :
    processGroup (only E ms) L k g au = processGroup E L k g au := by
  unfold processGroup
  rw [h]
  rfl

theorem processCreate_only {au o : Key} {g ga : Option Key} {x : CreateInput}
    (h : SamePayer E ms k payer) (hk : SameSigner E ms k)
    (hg : g ≠ none → SameSigner E ms (ga.getD au)) :
    processCreate (only E ms) L k au o g ga payer sys x =
      processCreate E L k au o g ga payer sys x := by
  have hp : createPrepare (only E ms) L k payer sys x = createPrepare E L k payer sys x := by
    unfold createPrepare
    simp only [createAccount_only h hk]
    rfl
  unfold processCreate
  rw [hp, hk]
  simp only [allocateAll_only h hk]
  cases g with
  | none => rfl
  | some g =>
    simp only [processGroup_only (hg (by simp))]
    rfl

theorem updateFinish_only {t : ExtType} {off : Nat} {cur : Option (Nat × Nat)} {p : Bytes}
    (h : SamePayer E ms k payer) :
    updateFinish (only E ms) L k payer sys t off cur p =
      updateFinish E L k payer sys t off cur p := by
  unfold updateFinish updateMove resizeIf
  simp only [resize_only h]

theorem processUpdate_only {au : Key} {b : Option Key} {x : UpdateInput}
    (h : SamePayer E ms k payer) (hs : SameSigner E ms au) :
    processUpdate (only E ms) L k au b payer sys x = processUpdate E L k au b payer sys x := by
  unfold processUpdate updateArgs updateBuffer
  simp only [updateFinish_only h]
  rw [hs]
  rfl

theorem processWrite_only {p s : Key} {x : WriteInput} (h : SamePayer E ms k (some p))
    (hs : SameSigner E ms k) :
    processWrite (only E ms) L k p s x = processWrite E L k p s x := by
  unfold processWrite
  simp only [resize_only h]
  rw [hs, h.signer p rfl]
  rfl

theorem resize_only_none {n : Nat} {r : Key} :
    resize (only E ms) L n k (some r) none = resize E L n k (some r) none := by
  unfold resize resizeLamports resizeFund
  rfl

theorem processRemove_only {au r : Key} {t : ExtType} (hs : SameSigner E ms au) :
    processRemove (only E ms) L k au r t = processRemove E L k au r t := by
  unfold processRemove
  simp only [resize_only_none]
  rw [hs]
  rfl

theorem processResize_only {au p : Key} {s : Strategy} (h : SamePayer E ms k (some p))
    (hs : SameSigner E ms au) :
    processResize (only E ms) L k au p sys s = processResize E L k au p sys s := by
  unfold processResize
  simp only [resize_only h]
  rw [hs]
  rfl

/-- The first account of every instruction is an initialised asset or has signed. -/
theorem dispatch_first {accts : List Key} {i : Instr} {L' : Ledger} {x : Key}
    (h : dispatch E L i accts = .ok L') (hx : accts.head? = some x) :
    IsAsset E.program L x ∨ E.signer x = true := by
  cases i with
  | close =>
    obtain ⟨b, r, rest, rfl, hp⟩ := disp_close h
    obtain rfl : b = x := by simpa using hx
    unfold processClose at hp
    inv at hp
    exact Or.inr hp.1
  | burn =>
    obtain ⟨a, s, r, g, rest, rfl, hp⟩ := disp_burn h
    obtain rfl : a = x := by simpa using hx
    unfold processBurn at hp
    inv at hp
    obtain ⟨h1, _, h3, _⟩ := hp
    exact Or.inl ⟨h1, h3.1, h3.2⟩
  | create y =>
    obtain ⟨a, au, o, g, ga, p, s, rest, rfl, hp⟩ := disp_create h
    obtain rfl : a = x := by simpa using hx
    exact Or.inr (processCreate_inv hp).1
  | approve y =>
    obtain ⟨a, o, d, rest, rfl, hp⟩ := disp_approve h
    obtain rfl : a = x := by simpa using hx
    unfold processApprove at hp
    inv at hp
    obtain ⟨h1, h2, _⟩ := hp
    exact Or.inl ⟨h1, h2.1, h2.2⟩
  | allocate y =>
    obtain ⟨a, p, s, rest, rfl, hp⟩ := disp_allocate h
    obtain rfl : a = x := by simpa using hx
    exact Or.inr (processAllocate_eff hp).2.1
  | lock =>
    obtain ⟨a, s, rest, rfl, hp⟩ := disp_lock h
    obtain rfl : a = x := by simpa using hx
    unfold processLock at hp
    inv at hp
    obtain ⟨_, h1, h2, _⟩ := hp
    exact Or.inl ⟨h1, h2.1, h2.2⟩
  | revoke y =>
    obtain ⟨a, s, rest, rfl, hp⟩ := disp_revoke h
    obtain rfl : a = x := by simpa using hx
    unfold processRevoke at hp
    inv at hp
    obtain ⟨_, h1, h2, _⟩ := hp
    exact Or.inl ⟨h1, h2.1, h2.2⟩
  | transfer =>
    obtain ⟨a, s, r, g, rest, rfl, hp⟩ := disp_transfer h
    obtain rfl : a = x := by simpa using hx
    unfold processTransfer at hp
    inv at hp
    obtain ⟨h1, _, h2, _⟩ := hp
    exact Or.inl ⟨h1, h2.1, h2.2⟩
  | unlock =>
    obtain ⟨a, s, rest, rfl, hp⟩ := disp_unlock h
    obtain rfl : a = x := by simpa using hx
    unfold processUnlock at hp
    inv at hp
    obtain ⟨_, h1, h2, _⟩ := hp
    exact Or.inl ⟨h1, h2.1, h2.2⟩
  | unverify =>
    obtain ⟨a, c, rest, rfl, hp⟩ := disp_unverify h
    obtain rfl : a = x := by simpa using hx
    unfold processUnverify processSetVerified at hp
    inv at hp
    obtain ⟨_, h1, h2, _⟩ := hp
    exact Or.inl ⟨h1, h2.1, h2.2⟩
  | update y =>
    obtain ⟨a, au, b, g, p, s, rest, rfl, hp⟩ := disp_update h
    obtain rfl : a = x := by simpa using hx
    obtain ⟨_, _, h1, h2, _⟩ := processUpdate_eff hp
    exact Or.inl ⟨h1, h2.1, h2.2⟩
  | verify =>
    obtain ⟨a, c, rest, rfl, hp⟩ := disp_verify h
    obtain rfl : a = x := by simpa using hx
    unfold processVerify processSetVerified at hp
    inv at hp
    obtain ⟨_, h1, h2, _⟩ := hp
    exact Or.inl ⟨h1, h2.1, h2.2⟩
  | write y =>
    obtain ⟨a, p, s, rest, rfl, hp⟩ := disp_write h
    obtain rfl : a = x := by simpa using hx
    exact Or.inr (processWrite_eff hp).2.1
  | group =>
    obtain ⟨a, g, au, rest, rfl, hp⟩ := disp_group h
    obtain rfl : a = x := by simpa using hx
    unfold processGroup at hp
    inv at hp
    obtain ⟨_, h1, _, h2, _⟩ := hp
    exact Or.inl ⟨h1, h2.1, h2.2⟩
  | ungroup =>
    obtain ⟨a, g, au, rest, rfl, hp⟩ := disp_ungroup h
    obtain rfl : a = x := by simpa using hx
    unfold processUngroup at hp
    inv at hp
    obtain ⟨_, h1, _, h2, _⟩ := hp
    exact Or.inl ⟨h1, h2.1, h2.2⟩
  | handover =>
    obtain ⟨a, au, na, rest, rfl, hp⟩ := disp_handover h
    obtain rfl : a = x := by simpa using hx
    unfold processHandover at hp
    inv at hp
    obtain ⟨_, _, h1, h2, _⟩ := hp
    exact Or.inl ⟨h1, h2.1, h2.2⟩
  | remove t =>
    obtain ⟨a, au, g, r, rest, rfl, hp⟩ := disp_remove h
    obtain rfl : a = x := by simpa using hx
    unfold processRemove at hp
    inv at hp
    obtain ⟨_, h1, h2, _⟩ := hp
    exact Or.inl ⟨h1, h2.1, h2.2⟩
  | resize y =>
    obtain ⟨a, au, p, s, rest, rfl, hp⟩ := disp_resize h
    obtain rfl : a = x := by simpa using hx
    unfold processResize at hp
    inv at hp
    obtain ⟨_, h1, h2, _⟩ := hp
    exact Or.inl ⟨h1, h2.1, h2.2⟩


theorem burnGroup_data {g : Option Key} {d : Bytes} {L' : Ledger} {x : Key}
    (h : burnGroup L k g d = .ok L') (hx : L' x ≠ L x) : (L x).data ≠ [] := by
  unfold burnGroup at h
  split at h
  · cases h; exact absurd rfl hx
  · split at h
    · cases h
    · rename_i ga
      inv at h
      obtain ⟨_, _, r, hr, h⟩ := h
      cases r with
      | none => cases h
      | some r =>
        inv at h
        obtain ⟨_, _, _, rfl⟩ := h
        by_cases hg : x = ga
        · subst hg
          intro h0
          rw [h0] at hr
          have : assetGetMut .grouping [] = .ok none := by decide +kernel
          rw [this] at hr
          cases hr
        · exact absurd (Ledger.setData_other _ _ hg) hx

/-- A second account that is written is an account of the program, or had data. -/
theorem dispatch_second {accts : List Key} {i : Instr} {L' : Ledger} {x : Key}
    (h : dispatch E L i accts = .ok L') (hx : x ∈ dataKeys i accts) (h0 : accts.head? ≠ some x)
    (hp : x ≠ E.program) (hc : (L' x).data ≠ (L x).data) :
    (L x).owner = E.program ∨ (L x).data ≠ [] := by
  have hopt : ∀ {y z : Key}, optAcc E y = some z → z = y := by
    intro y z h
    unfold optAcc at h
    split at h
    · cases h
    · cases h; rfl
  cases i with
  | burn =>
    obtain ⟨a, s, r, g, rest, rfl, hb⟩ := disp_burn h
    have hxa : x ≠ a := by rintro rfl; exact h0 rfl
    unfold processBurn at hb
    inv at hb
    obtain ⟨_, _, _, _, _, _, L1, hb, res, _, hcl⟩ := hb
    have hclose : ∀ r', closeAccount L1 a r' = .ok L' → (L' x).data = (L1 x).data := by
      intro r' hcl
      exact ((Effect.close (E := E) (K := [a]) (P := [r']) hcl (by simp) (by simp)).data x
        (by simpa using hxa)).1
    have hd : (L' x).data = (L1 x).data := by
      cases res with
      | none => exact hclose _ hcl
      | some p =>
        inv at hcl
        obtain ⟨_, _, _, hcl⟩ := hcl
        exact hclose _ hcl
    refine Or.inr (burnGroup_data hb ?_)
    intro he
    rw [he] at hd
    exact hc hd
  | create y =>
    obtain ⟨a, au, o, g, ga, p, s, rest, rfl, hb⟩ := disp_create h
    have hxa : x ≠ a := by rintro rfl; exact h0 rfl
    obtain ⟨_, _, e, ef⟩ := dispatch_effect h
    cases e
    obtain ⟨_, L1, L2, d, types, h1, h2, _, _, _, _, h3⟩ := processCreate_inv hb
    rcases h3 with ⟨_, rfl⟩ | ⟨g', hg', h3⟩
    · obtain ⟨e1, o1, _⟩ := createPrepare_eff h1
      obtain ⟨e2, _⟩ := allocateAll_eff h2 o1
      rw [Ledger.setData_other _ _ hxa, (e2.data x hxa).1, (e1.data x hxa).1] at hc
      exact absurd rfl hc
    · obtain rfl := hopt hg'
      have hxg : x = g' := by
        have : x = a ∨ x = g' := by simpa [dataKeys, Instr.dataPositions] using hx
        exact this.resolve_left hxa
      subst hxg
      left
      rw [← ef.newOwner x hxa]
      unfold processGroup at h3
      inv at h3
      obtain ⟨_, _, h4, _, _, _, _, _, r, _, h3⟩ := h3
      cases r with
      | none => cases h3
      | some r =>
        inv at h3
        obtain ⟨_, _, _, _, _, rfl⟩ := h3
        rw [Ledger.setData_same]
        simp only
        rw [Ledger.setData_other _ _ hxa]
        exact h4
  | group =>
    obtain ⟨a, g, au, rest, rfl, hb⟩ := disp_group h
    have hxa : x ≠ a := by rintro rfl; exact h0 rfl
    have : x = a ∨ x = g := by simpa [dataKeys, Instr.dataPositions] using hx
    obtain rfl := this.resolve_left hxa
    unfold processGroup at hb
    inv at hb
    exact Or.inl hb.2.2.1
  | ungroup =>
    obtain ⟨a, g, au, rest, rfl, hb⟩ := disp_ungroup h
    have hxa : x ≠ a := by rintro rfl; exact h0 rfl
    have : x = a ∨ x = g := by simpa [dataKeys, Instr.dataPositions] using hx
    obtain rfl := this.resolve_left hxa
    unfold processUngroup at hb
    inv at hb
    exact Or.inl hb.2.2.1
  | update y =>
    obtain ⟨a, au, b, g, p, s, rest, rfl, hb⟩ := disp_update h
    have hxa : x ≠ a := by rintro rfl; exact h0 rfl
    have : x = a ∨ x = b := by simpa [dataKeys, Instr.dataPositions] using hx
    obtain rfl := this.resolve_left hxa
    rw [show optAcc E x = some x by simp [optAcc, hp]] at hb
    unfold processUpdate at hb
    inv at hb
    obtain ⟨_, _, _, _, _, hb⟩ := hb
    split at hb
    · simp_all
    · simp_all
    · rename_i b' _ hbb
      cases hbb
      unfold updateBuffer at hb
      inv at hb
      left
      have := hb.1
      rwa [Ledger.setData_other _ _ hxa] at this
    · cases hb
  | _ =>
    cases accts with
    | nil => simp [dataKeys] at hx
    | cons a rest =>
      simp [dataKeys, Instr.dataPositions] at hx
      subst hx
      exact absurd rfl h0

end

end Verif

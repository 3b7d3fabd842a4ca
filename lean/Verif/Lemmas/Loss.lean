import Verif.Lemmas.Effect
import Verif.Lemmas.Hooks

/-!
# When the asset itself loses lamports
-/

namespace Verif

variable {E : Env} {k : Key} {payer sys : Option Key} {L L' : Ledger}

theorem length_reallocBytes (d : Bytes) (n : Nat) : (reallocBytes d n).length = n := by
  unfold reallocBytes zeros; simp; omega

theorem memcpy_length {d d' bs : Bytes} {off : Nat} (h : memcpy d off bs = .ok d') :
    d'.length = d.length := by
  unfold memcpy at h
  split at h
  · cases h
  · split at h
    · cases h
    · cases h; exact length_splice (by omega)

theorem copyData_length {d d' bs : Bytes} {off : Nat} (h : copyData d off bs = .ok d') :
    d'.length = d.length := by
  unfold copyData at h
  split at h
  · cases h; rfl
  · exact memcpy_length h

theorem memmove_length {d d' : Bytes} {a b n : Nat} (h : memmove d a b n = .ok d') :
    d'.length = d.length := by
  unfold memmove at h
  split at h
  · cases h; rfl
  · split at h
    · cases h
    · rename_i hc
      cases h
      rw [not_or] at hc
      apply length_splice
      rw [length_slice (by omega)]
      omega

theorem writeHdr_length {d d' : Bytes} {o a b c : Nat} (h : writeHdr d o a b c = .ok d') :
    d'.length = d.length := by
  unfold writeHdr at h
  split at h
  · cases h
  · cases h
    unfold setHdr
    have : extLen = 16 := rfl
    apply length_splice
    simp only [List.length_append, length_toLE]
    omega

theorem fixBoundaries_length {delta : Int} {n : Nat} {d d' : Bytes} {c : Nat}
    (h : fixBoundaries delta n d c = .ok d') : d'.length = d.length := by
  induction n generalizing d c with
  | zero => cases h
  | succ n ih =>
    rw [fixBoundaries] at h
    split at h
    · split at h
      · cases h
      · have : extLen = 16 := rfl
        rw [ih h, length_splice (by rw [length_toLE]; omega)]
    · cases h; rfl

theorem resize_loss {size : Nat} (h : resize E L size k payer sys = .ok L')
    (hk : (L k).owner ≠ Key.system) (hl : (L' k).lamports < (L k).lamports) :
    (L' k).data.length < (L k).data.length := by
  obtain ⟨_, d, _, g⟩ := resize_eff h
  rw [d, length_reallocBytes]
  by_cases hs : (L k).data.length ≤ size
  · have := g hk hs; omega
  · omega

theorem resizeIf_loss {c : Bool} {size : Nat} (h : resizeIf E c L size k payer sys = .ok L')
    (hk : (L k).owner ≠ Key.system) (hl : (L' k).lamports < (L k).lamports) :
    (L' k).data.length < (L k).data.length ∧ c = true := by
  unfold resizeIf at h
  cases c with
  | true => exact ⟨resize_loss (by simpa using h) hk hl, rfl⟩
  | false => simp only [Bool.false_eq_true, if_false, Except.ok.injEq] at h; subst h; omega

theorem resizeIf_false {size : Nat} (h : resizeIf E false L size k payer sys = .ok L') :
    L' = L := by
  unfold resizeIf at h
  simp only [Bool.false_eq_true, if_false, Except.ok.injEq] at h
  exact h.symm

theorem updateMove_loss {cur : Option (Nat × Nat)} {n u : Nat} {delta : Int}
    (h : updateMove E L k payer sys cur n u delta = .ok L')
    (hk : (L k).owner ≠ Key.system) (hl : (L' k).lamports < (L k).lamports) :
    (L' k).data.length < (L k).data.length := by
  unfold updateMove at h
  cases cur with
  | none => exact resize_loss h hk hl
  | some c =>
    obtain ⟨len, b⟩ := c
    simp only at h
    split at h
    · cases h; omega
    · inv at h
      obtain ⟨r, _, h⟩ := h
      cases r with
      | none => cases h
      | some r =>
        inv at h
        obtain ⟨L1, h1, d, hd, h2⟩ := h
        have hdl := memmove_length hd
        have o1 := (resizeIf_eff h1).2
        by_cases hpos : 0 < delta
        · have hneg : decide (delta < 0) = false := decide_eq_false (by omega)
          rw [hneg] at h2
          obtain rfl := resizeIf_false h2
          rw [Ledger.setData_same] at hl ⊢
          simp only at hl ⊢
          rw [hdl]
          exact (resizeIf_loss h1 hk hl).1
        · rw [decide_eq_false hpos] at h1
          obtain rfl := resizeIf_false h1
          have := (resizeIf_loss h2 (by rw [Ledger.setData_same]; exact hk)
            (by rw [Ledger.setData_same]; exact hl)).1
          rw [Ledger.setData_same] at this
          simp only at this
          omega

theorem updateFinish_loss {t : ExtType} {off : Nat} {cur : Option (Nat × Nat)} {pl : Bytes}
    (h : updateFinish E L k payer sys t off cur pl = .ok L')
    (hk : (L k).owner ≠ Key.system) (hl : (L' k).lamports < (L k).lamports) :
    (L' k).data.length < (L k).data.length := by
  unfold updateFinish at h
  inv at h
  obtain ⟨L1, h1, d1, e1, d2, e2, d3, e3, rfl⟩ := h
  rw [Ledger.setData_same] at hl ⊢
  simp only at hl ⊢
  rw [copyData_length e3, fixBoundaries_length e2, writeHdr_length e1]
  exact updateMove_loss h1 hk hl

theorem length_updateHeader {d : Bytes} (x : UpdateInput) (hd : 168 ≤ d.length) :
    (updateHeader d x).length = d.length := by
  unfold updateHeader
  cases x.name with
  | none =>
    cases x.isMutable with
    | none => rfl
    | some m => exact length_setMutable hd m
  | some n =>
    cases x.isMutable with
    | none => exact length_setName hd n
    | some m =>
      exact (length_setMutable (by rw [length_setName hd]; exact hd) m).trans (length_setName hd n)

theorem processUpdate_loss {au : Key} {buf : Option Key} {x : UpdateInput}
    (h : processUpdate E L k au buf payer sys x = .ok L')
    (hk : (L k).owner ≠ Key.system) (hl : (L' k).lamports < (L k).lamports) :
    (L' k).data.length < (L k).data.length := by
  unfold processUpdate at h
  inv at h
  obtain ⟨_, _, hi, _, _, h⟩ := h
  have hlen : ((L.setData k (updateHeader (L k).data x)) k).data.length = (L k).data.length := by
    rw [Ledger.setData_same]; exact length_updateHeader x hi.1
  have hown : ((L.setData k (updateHeader (L k).data x)) k).owner ≠ Key.system := by
    rw [Ledger.setData_same]; exact hk
  have hlam : ((L.setData k (updateHeader (L k).data x)) k).lamports = (L k).lamports := by
    rw [Ledger.setData_same]
  generalize L.setData k (updateHeader (L k).data x) = M at *
  rw [← hlen]
  rw [← hlam] at hl
  cases hx : x.extension with
  | none =>
    rw [hx] at h
    cases buf with
    | none =>
      simp only at h
      obtain rfl := pure_ok.mp h
      omega
    | some b =>
      simp only at h
      unfold updateBuffer at h
      inv at h
      obtain ⟨_, hne, _, _, h⟩ := h
      cases hf : firstExtension (M b).data with
      | none => rw [hf] at h; cases h
      | some r =>
        rw [hf] at h
        obtain ⟨hd, o⟩ := r
        simp only at h
        cases ht : ExtType.ofU32 hd.ty with
        | none => rw [ht] at h; cases h
        | some t =>
          rw [ht] at h
          inv at h
          obtain ⟨⟨off, cur⟩, _, _, _, old, _, v, _, _, h⟩ := h
          have e : ∀ d, (M.setData b d) k = M k := fun d =>
            Ledger.setData_other _ _ (fun h => hne h.symm)
          have := updateFinish_loss h (by rw [e]; exact hown) (by rw [e]; exact hl)
          rwa [e] at this
  | some e =>
    rw [hx] at h
    cases buf with
    | some b => cases h
    | none =>
      simp only at h
      unfold updateArgs at h
      inv at h
      obtain ⟨⟨off, cur⟩, _, pl, _, _, _, h⟩ := h
      exact updateFinish_loss h hown hl

theorem processRemove_loss {au r : Key} {t : ExtType}
    (h : processRemove E L k au r t = .ok L')
    (hk : (L k).owner ≠ Key.system) (hl : (L' k).lamports < (L k).lamports) :
    (L' k).data.length < (L k).data.length := by
  unfold processRemove at h
  inv at h
  obtain ⟨_, _, _, _, _, r, _, h⟩ := h
  cases r with
  | none => cases h
  | some r =>
    inv at h
    obtain ⟨_, d1, hd, h⟩ := h
    have := resize_loss h (by rw [Ledger.setData_same]; exact hk)
      (by rw [Ledger.setData_same]; exact hl)
    rw [Ledger.setData_same] at this
    simp only at this
    rwa [memmove_length hd] at this

theorem processResize_loss {au p : Key} {s : Strategy}
    (h : processResize E L k au p sys s = .ok L')
    (hk : (L k).owner ≠ Key.system) (hl : (L' k).lamports < (L k).lamports) :
    (L' k).data.length < (L k).data.length := by
  unfold processResize at h
  inv at h
  obtain ⟨_, _, _, _, _, size, _, h⟩ := h
  exact resize_loss h hk hl

/-- The first account loses lamports only when it signed, when it is burned or when it
shrinks. -/
theorem execute_loss {accts : List Key} {i : Instr} {x : Key} {rest : List Key}
    (h : execute E L accts i = .ok L') (hsys : E.program ≠ Key.system) (hx : accts = x :: rest)
    (hl : (L' x).lamports < (L x).lamports) :
    (E.signer x = true ∨ i = .burn ∨ (L' x).data.length < (L x).data.length) ∧
      (L x).owner = E.program := by
  subst hx
  have hset : ∀ (M : Ledger) (y : Key) (d : Bytes) (z : Key),
      ((M.setData y d) z).lamports = (M z).lamports := by
    intro M y d z
    by_cases hz : z = y
    · subst hz; rw [Ledger.setData_same]
    · rw [Ledger.setData_other _ _ hz]
  have owner_of : (L x).owner = Key.system ∧ (L x).lamports = 0 ∨ (L x).owner = E.program →
      (L x).owner = E.program := by
    rintro (⟨_, h0⟩ | h)
    · omega
    · exact h
  cases i with
  | close =>
    obtain ⟨b, r, rest, he, hp⟩ := exec_close h
    cases he
    unfold processClose at hp
    inv at hp
    exact ⟨Or.inl hp.1, hp.2.1⟩
  | burn =>
    obtain ⟨a, s, r, g, rest, he, hp⟩ := exec_burn h
    cases he
    unfold processBurn at hp
    inv at hp
    exact ⟨Or.inr (Or.inl rfl), hp.1⟩
  | create y =>
    obtain ⟨a, au, o, g, ga, p, s, rest, he, hp⟩ := exec_create h
    cases he
    obtain ⟨hs, L1, L2, d, types, h1, _⟩ := processCreate_inv hp
    refine ⟨Or.inl hs, owner_of ?_⟩
    rcases (createPrepare_eff h1).2.2 with ⟨_, h1, h2⟩ | ⟨h1, _⟩
    · exact Or.inl ⟨h1, h2⟩
    · exact Or.inr h1
  | approve y =>
    obtain ⟨a, o, d, rest, he, hp⟩ := exec_approve h
    cases he
    unfold processApprove at hp
    inv at hp
    obtain ⟨_, _, _, _, hp⟩ := hp
    split at hp <;> obtain rfl := pure_ok.mp hp <;> rw [hset] at hl <;> omega
  | allocate y =>
    obtain ⟨a, p, s, rest, he, hp⟩ := exec_allocate h
    cases he
    obtain ⟨_, hs, _, hc⟩ := processAllocate_eff hp
    refine ⟨Or.inl hs, owner_of ?_⟩
    rcases hc with ⟨_, h1, h2⟩ | ⟨h1, _⟩
    · exact Or.inl ⟨h1, h2⟩
    · exact Or.inr h1
  | lock =>
    obtain ⟨a, s, rest, he, hp⟩ := exec_lock h
    cases he
    unfold processLock at hp
    inv at hp
    obtain ⟨_, _, _, _, rfl⟩ := hp
    rw [hset] at hl; omega
  | revoke y =>
    obtain ⟨a, s, rest, he, hp⟩ := exec_revoke h
    cases he
    unfold processRevoke at hp
    inv at hp
    obtain ⟨_, _, _, _, hp⟩ := hp
    cases y with
    | all => obtain rfl := pure_ok.mp hp; rw [hset] at hl; omega
    | some rs =>
      simp only at hp
      split at hp
      · split at hp <;> obtain rfl := pure_ok.mp hp <;> rw [hset] at hl <;> omega
      · obtain rfl := pure_ok.mp hp; omega
  | transfer =>
    obtain ⟨a, s, r, g, rest, he, hp⟩ := exec_transfer h
    cases he
    unfold processTransfer at hp
    inv at hp
    obtain ⟨_, _, _, _, _, _, _, _, _, hp⟩ := hp
    split at hp
    · obtain rfl := pure_ok.mp hp; omega
    · inv at hp
      obtain ⟨_, rfl⟩ := hp
      rw [hset] at hl; omega
  | unlock =>
    obtain ⟨a, s, rest, he, hp⟩ := exec_unlock h
    cases he
    unfold processUnlock at hp
    inv at hp
    obtain ⟨_, _, _, _, rfl⟩ := hp
    rw [hset] at hl; omega
  | unverify =>
    obtain ⟨a, s, rest, he, hp⟩ := exec_unverify h
    cases he
    unfold processUnverify processSetVerified at hp
    inv at hp
    obtain ⟨_, _, _, r, _, hp⟩ := hp
    cases r with
    | none => cases hp
    | some r =>
      inv at hp
      obtain ⟨_, _, _, rfl⟩ := hp
      rw [hset] at hl; omega
  | update y =>
    obtain ⟨a, au, b, g, p, s, rest, he, hp⟩ := exec_update h
    cases he
    have ho := (processUpdate_eff hp).2.2.1
    exact ⟨Or.inr (Or.inr (processUpdate_loss hp (by rw [ho]; exact hsys) hl)), ho⟩
  | verify =>
    obtain ⟨a, s, rest, he, hp⟩ := exec_verify h
    cases he
    unfold processVerify processSetVerified at hp
    inv at hp
    obtain ⟨_, _, _, r, _, hp⟩ := hp
    cases r with
    | none => cases hp
    | some r =>
      inv at hp
      obtain ⟨_, _, _, rfl⟩ := hp
      rw [hset] at hl; omega
  | write y =>
    obtain ⟨a, p, s, rest, he, hp⟩ := exec_write h
    cases he
    obtain ⟨_, hs, ho, _⟩ := processWrite_eff hp
    exact ⟨Or.inl hs, ho⟩
  | group =>
    obtain ⟨a, g, au, rest, he, hp⟩ := exec_group h
    cases he
    unfold processGroup at hp
    inv at hp
    obtain ⟨_, _, _, _, _, _, _, _, r, _, hp⟩ := hp
    cases r with
    | none => cases hp
    | some r =>
      inv at hp
      obtain ⟨_, _, _, _, rfl⟩ := hp
      rw [hset, hset] at hl; omega
  | ungroup =>
    obtain ⟨a, g, au, rest, he, hp⟩ := exec_ungroup h
    cases he
    unfold processUngroup at hp
    inv at hp
    obtain ⟨_, _, _, _, _, _, _, r, _, hp⟩ := hp
    cases r with
    | none => cases hp
    | some r =>
      inv at hp
      obtain ⟨_, _, _, rfl⟩ := hp
      rw [hset, hset] at hl; omega
  | handover =>
    obtain ⟨a, au, na, rest, he, hp⟩ := exec_handover h
    cases he
    unfold processHandover at hp
    inv at hp
    obtain ⟨_, _, _, _, _, _, rfl⟩ := hp
    rw [hset] at hl; omega
  | remove t =>
    obtain ⟨a, au, g, r, rest, he, hp⟩ := exec_remove h
    cases he
    have ho := (processRemove_eff hp).2.2.2.1
    exact ⟨Or.inr (Or.inr (processRemove_loss hp (by rw [ho]; exact hsys) hl)), ho⟩
  | resize s =>
    obtain ⟨a, au, p, y, rest, he, hp⟩ := exec_resize h
    cases he
    have ho := (processResize_eff hp).2.2.2.1
    exact ⟨Or.inr (Or.inr (processResize_loss hp (by rw [ho]; exact hsys) hl)), ho⟩

end Verif

import Verif.Spec.Reach
import Verif.Lemmas.Near
import Verif.Lemmas.Agree
import Verif.Lemmas.Overwrite
import Verif.Lemmas.Rent

/-!
# How far Update and Write reach, whatever the accounts contain
-/

namespace Verif

variable {M : Loader} {E : Env} {R R' : Ram} {k : Key} {payer sys : Option Key} {accts : List Key}

theorem Near.cap_eq (h : Near k payer R R') (x : Key) : R'.cap x = R.cap x := by
  by_cases hx : x = k
  · subst hx; exact h.cap
  · unfold Ram.cap; rw [(h.data x hx).1, h.behind x hx]

theorem length_slots {R1 R2 : Ram} (h : ∀ x, R2.cap x = R1.cap x) (seen ks : List Key) :
    (slots M E R2 seen ks).length = (slots M E R1 seen ks).length := by
  induction ks generalizing seen with
  | nil => rfl
  | cons x ks ih =>
    rw [slots, slots, List.length_append, List.length_append, ih]
    congr 1
    split
    · rfl
    · rw [length_slot, length_slot, h]

theorem length_image {R1 R2 : Ram} (h : ∀ x, R2.cap x = R1.cap x) (ks : List Key) :
    (image M E R2 ks).length = (image M E R1 ks).length := by
  unfold image
  rw [List.length_append, List.length_append, List.length_append, List.length_append,
    length_slots h]

/-- The move of an update keeps to the account, or the update fails. -/
theorem updateMoveRaw_near {cur : Option (Nat × Nat)} {n u : Nat} {delta : Int} (hk : k ∈ accts)
    (hn : Numeric R accts) (hc : R.cap k < two64) (ho : E.origLen k + maxIncrease ≤ R.cap k)
    (himg : (image M E R accts).length < 1073741824)
    (hd : ∀ cl b, cur = some (cl, b) → u < 1073741824 ∧ delta = wrapI32 ((u : Int) - (b : Int)))
    (h : updateMoveRaw M E R accts k payer sys cur n u delta = .ok R') :
    Near k payer R R' ∧ (cur = none → (R'.led k).data.length = u) := by
  unfold updateMoveRaw at h
  rcases cur with _ | ⟨cl, b⟩
  · obtain ⟨h1, h2, _⟩ := resizeRaw_near h ho
    exact ⟨h1, fun _ => h2⟩
  · refine ⟨?_, by intro h; cases h⟩
    obtain ⟨hu, hd⟩ := hd cl b rfl
    simp only at h
    split at h
    · cases h; exact Near.refl
    · inv at h
      obtain ⟨y, _, h⟩ := h
      rcases y with _ | ⟨hh, off⟩
      · cases h
      simp only at h
      inv at h
      obtain ⟨R1, g1, R2, g2, g3⟩ := h
      obtain ⟨n1, n2, n3⟩ := resizeIfRaw_near g1 ho
      have hn1 := n1.numeric hn hc
      have hcap1 := n1.cap
      unfold memmoveRaw at g2
      simp only at g2
      split at g2
      · -- nothing moves
        cases g2
        exact n1.trans (resizeIfRaw_near g3 (by omega)).1
      · rename_i hne
        split at g2
        · cases g2
        · rename_i hfit
          have him := length_image (M := M) (E := E) n1.cap_eq accts
          have hlen : (slice (image M E R1 accts) (place M E R1 accts k + 88 + b) (hh.bnd - b)).length =
            hh.bnd - b := length_slice (by omega)
          have hb : hh.bnd < 1073741824 := by omega
          rw [wrapI32_small (by omega) (by omega)] at hd
          rcases Int.lt_trichotomy delta 0 with hneg | hzero | hpos
          · have e1 : decide (0 < delta) = false := decide_eq_false (by omega)
            have e2 : decide (delta < 0) = true := decide_eq_true hneg
            obtain rfl := n3 e1
            obtain ⟨w1, w2, w3, w4⟩ := writeRaw_length hk hn1 g2
            obtain ⟨m1, m2, _⟩ := resizeIfRaw_near g3 (by omega)
            obtain ⟨m3, m4⟩ := m2 e2
            have hle : u + (slice (image M E R1 accts) (place M E R1 accts k + 88 + b)
                (hh.bnd - b)).length ≤ R1.cap k := by
              rw [hlen]; omega
            exact (writeRaw_near (payer := payer) hk hn1 g2 hle).1.trans m1
          · -- everything moves to where it is
            have e2 : decide (delta < 0) = false := decide_eq_false (by omega)
            obtain rfl : u = b := by omega
            have hw : writeRaw M E R1 accts k u (slice (image M E R1 accts)
                (place M E R1 accts k + 88 + u) (hh.bnd - u)) = .ok R1 := by
              unfold writeRaw
              simp only
              rw [if_neg (by omega), splice_slice (by omega), readBack_image hk hn1]
            rw [hw] at g2
            cases g2
            exact n1.trans (resizeIfRaw_near g3 (by omega)).1
          · have e1 : decide (0 < delta) = true := decide_eq_true hpos
            obtain ⟨m3, m4⟩ := n2 e1
            have hle : u + (slice (image M E R1 accts) (place M E R1 accts k + 88 + b)
                (hh.bnd - b)).length ≤ R1.cap k := by
              rw [hlen]; omega
            have w := writeRaw_near (payer := payer) hk hn1 g2 hle
            have := w.1.cap
            exact n1.trans (w.1.trans (resizeIfRaw_near g3 (by omega)).1)

/-- The accounts other than `k` and those of `K` keep data and owner, and if they do not pay also their
lamports. -/
def Reaches (k : Key) (K : List Key) (payer : Option Key) (L L' : Ledger) : Prop :=
  ∀ x, x ≠ k → x ∉ K → (L' x).data = (L x).data ∧ (L' x).owner = (L x).owner ∧
    (payer ≠ some x → L' x = L x)

theorem Near.reaches (h : Near k payer R R') (K : List Key) : Reaches k K payer R.led R'.led :=
  fun x hx _ => ⟨(h.data x hx).1, (h.data x hx).2, h.other x hx⟩

theorem Reaches.trans {K : List Key} {L1 L2 L3 : Ledger} (h1 : Reaches k K payer L1 L2)
    (h2 : Reaches k K payer L2 L3) : Reaches k K payer L1 L3 := fun x hx hK => by
  obtain ⟨a1, a2, a3⟩ := h1 x hx hK
  obtain ⟨b1, b2, b3⟩ := h2 x hx hK
  exact ⟨b1.trans a1, b2.trans a2, fun hp => (b3 hp).trans (a3 hp)⟩

/-- Where the search of an update ends. -/
theorem updateFind_found {t : ExtType} {d : Bytes} {n c o : Nat} {y : Nat × Nat}
    (h : updateFind t d n c = .ok (o, some y)) : o + 16 ≤ d.length := by
  have e16 : extLen = 16 := rfl
  induction n generalizing c with
  | zero => cases h
  | succ n ih =>
    unfold updateFind at h
    split at h
    · split at h
      · cases h
      · simp only at h
        split at h
        · cases h; omega
        · split at h
          · cases h
          · exact ih h
    · cases h

/-- The second half of an update. -/
theorem updateFinishRaw_reaches {s : Key} {rest : List Key} {buffer : Option Key} {t : ExtType} {o : Nat}
    {cur : Option (Nat × Nat)} {p : Bytes} (hacc : ∀ b, buffer = some b → b ≠ k ∧ accts = k :: s :: b :: rest)
    (hk : k ∈ accts) (hn : Numeric R accts) (hc : R.cap k < two64)
    (ho : E.origLen k + maxIncrease ≤ R.cap k) (hroom : (R.led k).data.length + 10240 ≤ R.cap k)
    (hcb : ∀ b, buffer = some b → 10240 ≤ R.cap b)
    (himg : (image M E R accts).length < 1073741824)
    (hcur : ∀ y, cur = some y → o + 16 ≤ (R.led k).data.length) (hp : p.length < 536870912)
    (hsmall : buffer = none → p.length ≤ 10240) (hlen : (R.led k).data.length ≤ 10485760)
    (h : updateFinishRaw M E R accts k payer sys buffer t o cur p = .ok R') :
    Reaches k (match buffer with | none => [] | some b => [s, b]) payer R.led R'.led := by
  have e16 : extLen = 16 := rfl
  have e168 : assetLen = 168 := rfl
  have hal : o + 16 + p.length ≤ align8 (o + 16 + p.length) ∧
      align8 (o + 16 + p.length) < o + 16 + p.length + 8 := by unfold align8; omega
  unfold updateFinishRaw at h
  simp only [e16] at h
  inv at h
  obtain ⟨R1, h1, d1, hd1, d2, hd2, hf⟩ := h
  obtain ⟨n1, n2⟩ := updateMoveRaw_near hk hn hc ho himg (by
    rintro cl b rfl
    have := hcur _ rfl
    exact ⟨by omega, rfl⟩) h1
  have hl : d2.length = (R1.led k).data.length := by
    rw [fixBoundaries_length hd2, writeHdr_length hd1]
  have h2 := n1.trans (near_setData (payer := payer) hl)
  have hn2 := h2.numeric hn hc
  have hwh := (writeHdr_ok hd1).1
  have hdl : (Ram.led (R1.set (R1.led.setData k d2)) k).data.length = (R1.led k).data.length := by
    simp only [Ram.set, Ledger.setData_same, hl]
  generalize R1.set (R1.led.setData k d2) = R2 at *
  have hcap := h2.cap
  split at hf
  · cases hf; exact h2.reaches _
  · rename_i hne
    inv at hf
    obtain ⟨bs, hbs, hov, hm⟩ := hf
    have hbl : bs.length = p.length := by
      unfold updateSource at hbs
      cases buffer with
      | none => cases hbs; rfl
      | some b =>
        simp only at hbs
        split at hbs
        · cases hbs
        · cases hbs; exact length_slice (by omega)
    have hpos : 0 < p.length := List.length_pos_iff.mpr hne
    refine (h2.reaches _).trans ?_
    unfold memcpyRaw at hm
    split at hm
    · cases hm
    · rename_i hoff
      by_cases hin : o + 16 + bs.length ≤ R2.cap k
      · exact (writeRaw_near (payer := payer) hk hn2 hm hin).1.reaches _
      · -- the copy leaves the account
        cases buffer with
        | none =>
          exfalso
          have hs := hsmall rfl
          rcases cur with _ | y
          · have := n2 rfl
            have hc2 : R2.cap k = (R2.led k).data.length + (R2.behind k).length := rfl
            omega
          · have := hcur _ rfl
            omega
        | some b =>
          obtain ⟨hbk, hac⟩ := hacc b rfl
          have hcb := hcb b rfl
          have hb2 := h2.cap_eq b
          have hbm : b ∈ accts := by rw [hac]; simp
          intro x hx hK
          simp only [List.mem_cons, List.not_mem_nil, or_false, not_or] at hK
          have key : R'.led x = R2.led x := by
            refine (writeRaw_other hn2 hm fun hxm => ?_).1
            left
            have hpk : place M E R2 accts k = 8 := by rw [hac]; exact place_head' _
            have hbx : b ∈ accts.takeWhile (fun z => decide (z ≠ x)) := by
              rw [hac, List.takeWhile_cons_of_pos (by simpa using Ne.symm hx)]
              rw [List.takeWhile_cons_of_pos (by simpa using Ne.symm hK.1)]
              rw [List.takeWhile_cons_of_pos (by simpa using Ne.symm hK.2)]
              simp
            have p1 := place_after (M := M) (E := E) (R := R2) hxm hbx
            have p2 := place_disjoint (M := M) (E := E) (R := R2) hbk hbm hk
            have p3 : 8 ≤ place M E R2 accts b := by unfold place; omega
            rw [length_slot] at p1 p2
            rw [length_slot] at p2
            unfold Overlaps at hov
            simp only [e168, e16] at hov
            rw [hpk] at hov p2 ⊢
            have hc2 : R2.cap k = (R2.led k).data.length + (R2.behind k).length := rfl
            omega
          rw [key]
          exact ⟨rfl, rfl, fun _ => rfl⟩

/-- What an instruction finds in memory: enough room behind the accounts. -/
structure Roomy (M : Loader) (E : Env) (R : Ram) (accts : List Key) : Prop where
  numeric : Numeric R accts
  cap : ∀ x ∈ accts, R.cap x < two64
  orig : ∀ x ∈ accts, E.origLen x + maxIncrease ≤ R.cap x
  room : ∀ x ∈ accts, (R.led x).data.length + 10240 ≤ R.cap x
  short : ∀ x ∈ accts, (R.led x).data.length ≤ 10485760
  image : (image M E R accts).length < 1073741824

theorem Roomy.setData {d : Bytes} (h : Roomy M E R accts) (hk : k ∈ accts)
    (hd : d.length = (R.led k).data.length) : Roomy M E (R.set (R.led.setData k d)) accts := by
  have n := near_setData (payer := none) hd
  have hl : ∀ x, (Ram.led (R.set (R.led.setData k d)) x).data.length = (R.led x).data.length := by
    intro x
    by_cases hx : x = k
    · subst hx; simp only [Ram.set, Ledger.setData_same, hd]
    · rw [(n.data x hx).1]
  refine ⟨n.numeric h.numeric (h.cap k hk), fun x hx => ?_, fun x hx => ?_, fun x hx => ?_,
    fun x hx => ?_, ?_⟩
  · rw [n.cap_eq]; exact h.cap x hx
  · rw [n.cap_eq]; exact h.orig x hx
  · rw [n.cap_eq, hl]; exact h.room x hx
  · rw [hl]; exact h.short x hx
  · rw [length_image n.cap_eq]; exact h.image

theorem roomy_start {L : Ledger} (h : Spec.Loaded E L accts)
    (hi : (image M E (.start L) accts).length < 1073741824) : Roomy M E (.start L) accts := by
  obtain ⟨h1, h2⟩ := start_facts h
  refine ⟨h1, fun x hx => (h2 x hx).1, fun x hx => (h2 x hx).2, fun x hx => ?_,
    fun x hx => (h x hx).2.1, hi⟩
  have e1 := (h2 x hx).2
  have e2 := (h x hx).2.2
  have em : maxIncrease = 10240 := rfl
  show (L x).data.length + _ ≤ _
  omega

theorem argsPayload_small {d v : Bytes} {o : Nat} {cur : Option (Nat × Nat)} {au : Key} {x : ExtInput}
    (hs : ∀ p, x.data = some p → p.length ≤ 10240) (h : argsPayload d o cur au x = .ok v) :
    v.length ≤ 10240 := by
  unfold argsPayload at h
  cases hx : x.data with
  | none => rw [hx] at h; cases h; exact Nat.zero_le _
  | some p =>
    rw [hx] at h
    simp only at h
    inv at h
    obtain ⟨old, _, h⟩ := h
    rw [updateValidate_length h]
    exact hs p hx

theorem updateArgsRaw_reaches {s : Key} {x : ExtInput} (hk : k ∈ accts) (hr : Roomy M E R accts)
    (hs : ∀ p, x.data = some p → p.length ≤ 10240)
    (h : updateArgsRaw M E R accts k s payer sys x = .ok R') : Reaches k [] payer R.led R'.led := by
  unfold updateArgsRaw at h
  simp only at h
  inv at h
  obtain ⟨⟨o, cur⟩, hf, p, hp, h⟩ := h
  simp only at hp h
  obtain ⟨_, _, h⟩ := h
  have := argsPayload_small hs hp
  exact updateFinishRaw_reaches (s := s) (rest := []) (by intro b hb; cases hb) hk hr.numeric
    (hr.cap k hk) (hr.orig k hk) (hr.room k hk) (by intro b hb; cases hb) hr.image
    (by rintro y rfl; exact updateFind_found hf) (by omega) (fun _ => this) (hr.short k hk) h

theorem updateBufferRaw_reaches {s b : Key} {rest : List Key} (hacc : accts = k :: s :: b :: rest)
    (hr : Roomy M E R accts) (h : updateBufferRaw M E R accts k s b payer sys = .ok R') :
    Reaches k [s, b] payer R.led R'.led := by
  have hk : k ∈ accts := by rw [hacc]; simp
  have hb : b ∈ accts := by rw [hacc]; simp
  unfold updateBufferRaw at h
  simp only at h
  inv at h
  obtain ⟨_, hbk, hlen, _, h⟩ := h
  split at h
  · cases h
  rename_i hh off _
  split at h
  · cases h
  rename_i t _
  inv at h
  obtain ⟨⟨o, cur⟩, hf, h⟩ := h
  simp only at h
  obtain ⟨_, hin, old, _, v, hv, _, h⟩ := h
  have hl : (splice (R.led b).data assetLen v).length = (R.led b).data.length := by
    have := updateValidate_length hv
    have hsl := length_slice (d := (R.led b).data) (o := assetLen) (n := hh.len) (by omega)
    rw [length_splice (by omega)]
  have hr1 := hr.setData hb hl
  have nb := near_setData (payer := payer) hl
  have hsame : (R.set (R.led.setData b (splice (R.led b).data assetLen v))).led k = R.led k :=
    Ledger.setData_other _ _ (Ne.symm hbk)
  have hsb := hr.short b hb
  have hpl : (slice (splice (R.led b).data assetLen v) (assetLen + extLen) hh.len).length ≤ 10485760 := by
    unfold slice
    rw [List.length_take, List.length_drop, hl]
    omega
  generalize R.set (R.led.setData b (splice (R.led b).data assetLen v)) = R1 at *
  have h1 : Reaches k [s, b] payer R.led R1.led := fun x hx hK => by
    have hxb : x ≠ b := fun e => hK (by simp [e])
    exact ⟨(nb.data x hxb).1, (nb.data x hxb).2, nb.other x hxb⟩
  have hroom := hr1.room b hb
  exact h1.trans (updateFinishRaw_reaches (s := s) (rest := rest) (buffer := some b)
    (by intro b' hb'; cases hb'; exact ⟨hbk, hacc⟩) hk hr1.numeric (hr1.cap k hk) (hr1.orig k hk)
    (hr1.room k hk) (by intro b' hb'; cases hb'; omega) hr1.image
    (by rintro y rfl; rw [hsame]; exact updateFind_found hf) (by omega) (by intro hb'; cases hb')
    (hr1.short k hk) h)

theorem processUpdateRaw_reaches {s b : Key} {rest : List Key} {x : UpdateInput}
    (hacc : accts = k :: s :: b :: rest) (hr : Roomy M E R accts)
    (hs : ∀ e p, x.extension = some e → e.data = some p → p.length ≤ 10240)
    (h : processUpdateRaw M E R accts k s (optAcc E b) payer sys x = .ok R') :
    Reaches k (match optAcc E b with | none => [] | some b => [s, b]) payer R.led R'.led := by
  have hk : k ∈ accts := by rw [hacc]; simp
  unfold processUpdateRaw at h
  simp only at h
  inv at h
  obtain ⟨_, _, hi, _, _, h⟩ := h
  have hl := length_updateHeader x hi.1
  have hr1 := hr.setData hk hl
  have n := near_setData (payer := payer) hl
  generalize R.set (R.led.setData k (updateHeader (R.led k).data x)) = R1 at *
  rcases hx : x.extension with _ | e <;> rcases hb : optAcc E b with _ | b' <;> rw [hx, hb] at h <;>
    simp only at h ⊢
  · cases h; exact n.reaches _
  · have : b' = b := by
      unfold optAcc at hb; split at hb <;> cases hb; rfl
    subst this
    exact (n.reaches _).trans (updateBufferRaw_reaches hacc hr1 h)
  · exact (n.reaches _).trans (updateArgsRaw_reaches hk hr1 (hs e · hx) h)
  · cases h

theorem processWriteRaw_reaches {p s : Key} {x : WriteInput} (hk : k ∈ accts) (hr : Roomy M E R accts)
    (hs : x.bytes.length ≤ 10240) (h : processWriteRaw M E R accts k p s x = .ok R') :
    Near k (some p) R R' := by
  unfold processWriteRaw at h
  simp only at h
  inv at h
  obtain ⟨_, _, _, _, _, _, y, hy, h⟩ := h
  rcases y with _ | ⟨hh, off⟩
  · cases h
  simp only at h
  inv at h
  obtain ⟨_, R1, h1, R2, h2, h⟩ := h
  obtain ⟨n1, n2, n3, _⟩ := resizeRaw_near h1 (hr.orig k hk)
  have hc := n1.cap
  have hroom := hr.room k hk
  unfold memcpyRaw at h2
  rw [if_neg (fun hlt => by rw [if_pos hlt] at h2; cases h2)] at h2
  have hw := (writeRaw_near (payer := some p) hk (n1.numeric hr.numeric (hr.cap k hk)) h2 (by
    by_cases hov : x.overwrite = true
    · rw [if_pos hov] at n3 ⊢; omega
    · rw [if_neg hov]; omega)).1
  have n12 := n1.trans hw
  split at h
  · cases h; exact n12
  · inv at h
    obtain ⟨d2, hd2, rfl⟩ := h
    exact n12.trans (near_setData (writeValidate_length hd2))

/-- An update is signed by the authority of the asset, and a buffer is no asset. -/
theorem processUpdateRaw_who {s : Key} {b : Option Key} {x : UpdateInput}
    (h : processUpdateRaw M E R accts k s b payer sys x = .ok R') :
    E.signer s = true ∧ hAuthority (R.led k).data = s ∧ ∀ y, b = some y → y ≠ k → hDisc (R.led y).data = discUninit := by
  unfold processUpdateRaw at h
  simp only at h
  inv at h
  obtain ⟨h1, _, _, h2, _, h⟩ := h
  refine ⟨h1, h2, ?_⟩
  rintro y rfl hy
  split at h
  · rename_i he; cases he
  · rename_i he; cases he
  · rename_i _ _ he
    cases he
    unfold updateBufferRaw at h
    simp only at h
    inv at h
    have h4 := h.2.2.2.1
    simp only [Ram.set] at h4
    rwa [Ledger.setData_other _ _ hy] at h4
  · cases h

/-- What is written to is no asset. -/
theorem processWriteRaw_who {p s : Key} {x : WriteInput}
    (h : processWriteRaw M E R accts k p s x = .ok R') : hDisc (R.led k).data = discUninit := by
  unfold processWriteRaw at h
  simp only at h
  inv at h
  exact h.2.2.2.2.2.1

end Verif

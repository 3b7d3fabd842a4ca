import Verif.Spec.Memory
import Verif.Lemmas.Near
import Verif.Lemmas.InBounds
import Verif.Lemmas.Rent
import Verif.Lemmas.UpdateLayout
import Verif.Lemmas.Hooks

/-!
# Where the model with memory agrees with the one without
-/

namespace Verif

variable {M : Loader} {E : Env} {R : Ram} {k : Key} {payer sys : Option Key} {accts : List Key}
variable {P Q : Ram → Prop}

/-- The same outcome, with `P` for the accounts; unless the model without memory gives up. -/
def Tracks (P : Ram → Prop) (x : Except Err Ram) (y : Except Err Ledger) : Prop :=
  y = .error .oob ∨ (∃ e, x = .error e ∧ y = .error e) ∨ ∃ R, x = .ok R ∧ y = .ok R.led ∧ P R

theorem tracks_ok {L : Ledger} (hl : R.led = L) (h : P R) : Tracks P (.ok R) (.ok L) :=
  .inr (.inr ⟨R, rfl, by rw [hl], h⟩)

theorem tracks_error {e : Err} : Tracks P (.error e) (.error e) := .inr (.inl ⟨e, rfl, rfl⟩)

theorem tracks_bind {x : Except Err Ram} {y : Except Err Ledger} {f : Ram → Except Err Ram}
    {g : Ledger → Except Err Ledger} (h : Tracks P x y) (hf : ∀ R, P R → Tracks Q (f R) (g R.led)) :
    Tracks Q (x >>= f) (y >>= g) := by
  rcases h with rfl | ⟨e, rfl, rfl⟩ | ⟨R, rfl, rfl, hp⟩
  · exact .inl rfl
  · exact tracks_error
  · exact hf R hp

theorem tracks_same {α : Type} {x : Except Err α} {f : α → Except Err Ram}
    {g : α → Except Err Ledger} (hf : ∀ a, x = .ok a → Tracks Q (f a) (g a)) :
    Tracks Q (x >>= f) (x >>= g) := by
  rcases x with e | a
  · exact tracks_error
  · exact hf a rfl

theorem tracks_require {c : Prop} [Decidable c] {e : Err} {f : Unit → Except Err Ram}
    {g : Unit → Except Err Ledger} (hf : c → Tracks Q (f ()) (g ())) :
    Tracks Q (require c e >>= f) (require c e >>= g) :=
  tracks_same fun _ h => hf (require_ok.mp h)

theorem Tracks.eq {x : Except Err Ram} {y : Except Err Ledger} (h : Tracks P x y)
    (hy : y ≠ .error .oob) : x.map Ram.led = y := by
  rcases h with h | ⟨e, rfl, rfl⟩ | ⟨R, rfl, rfl, _⟩
  · exact absurd h hy
  · rfl
  · rfl

theorem take_all {d : Bytes} {m n : Nat} (h : n ≤ d.length + m) :
    (d ++ zeros m).take n = reallocBytes d n := by
  unfold reallocBytes zeros
  rw [List.take_append, List.take_replicate]
  congr 2
  omega

theorem resize_tracks {size : Nat} (hz : ∃ m, R.behind k = zeros m)
    (ho : E.origLen k + maxIncrease ≤ R.cap k) :
    Tracks (Near k payer R) (resizeRaw E R size k payer sys) (resize E R.led size k payer sys) := by
  obtain ⟨m, hm⟩ := hz
  have hnear := fun R' (h : resizeRaw E R size k payer sys = .ok R') => (resizeRaw_near h ho).1
  unfold resizeRaw resize at *
  rcases h1 : resizeLamports E R.led size k payer sys with e | L1
  · exact tracks_error
  · rw [h1] at hnear
    have hd := (resizeLamports_eff h1).2.1
    have hc : R.cap k = (R.led k).data.length + (R.behind k).length := rfl
    simp only [bind, Except.bind] at *
    unfold reallocRaw realloc at *
    split
    · rename_i hs
      rw [if_pos (show size = (L1 k).data.length from hs)]
      exact tracks_ok rfl (hnear _ (if_pos hs))
    · rename_i hs
      rw [if_neg (show ¬ size = (L1 k).data.length from hs)]
      split
      · rename_i hb; exact tracks_error
      · rename_i hb
        refine tracks_ok ?_ (hnear _ (by rw [if_neg hs, if_neg hb]))
        simp only [Ram.split, Ram.set, Ram.all, hm]
        rw [take_all]
        rw [hm, zeros, List.length_replicate] at hc
        rw [hd]
        omega

theorem resizeIf_tracks {size : Nat} {c : Bool} (hz : ∃ m, R.behind k = zeros m)
    (ho : E.origLen k + maxIncrease ≤ R.cap k) :
    Tracks (Near k payer R) (resizeIfRaw E c R size k payer sys) (resizeIf E c R.led size k payer sys) := by
  unfold resizeIfRaw resizeIf
  cases c with
  | true => exact resize_tracks hz ho
  | false => exact tracks_ok rfl Near.refl

theorem memmove_tracks {dst src n : Nat} (hk : k ∈ accts) (hn : Numeric R accts) :
    Tracks (fun R' => Near k payer R R' ∧ R'.behind = R.behind) (memmoveRaw M E R accts k dst src n)
      ((memmove (R.led k).data dst src n).map (R.led.setData k)) := by
  rcases hm : memmove (R.led k).data dst src n with e | d1
  · left
    unfold memmove at hm
    split at hm
    · cases hm
    · split at hm
      · cases hm; rfl
      · cases hm
  · rw [memmoveRaw_inside hk hn hm]
    refine tracks_ok rfl ⟨near_setData ?_, rfl⟩
    unfold memmove at hm
    split at hm
    · cases hm; rfl
    · split at hm
      · cases hm
      · cases hm
        rw [length_splice]
        rw [length_slice (by omega)]; omega

theorem setData_twice {L : Ledger} (d d' : Bytes) : (L.setData k d).setData k d' = L.setData k d' := by
  funext x
  by_cases hx : x = k
  · subst hx; rw [Ledger.setData_same, Ledger.setData_same, Ledger.setData_same]
  · rw [Ledger.setData_other _ _ hx, Ledger.setData_other _ _ hx, Ledger.setData_other _ _ hx]

theorem memcpy_tracks {off : Nat} {bs : Bytes} (hk : k ∈ accts) (hn : Numeric R accts) :
    Tracks (Near k payer R) (memcpyRaw M E R accts k off bs)
      ((memcpy (R.led k).data off bs).map (R.led.setData k)) := by
  unfold memcpyRaw memcpy
  split
  · exact tracks_error
  · split
    · exact .inl rfl
    · rw [writeRaw_data hk hn (by omega)]
      exact tracks_ok rfl (near_setData (length_splice (by omega)))

/-! ## Remove -/

theorem remove_tracks {a au r : Key} {t : ExtType} (ha : a ∈ accts) (hn : Numeric R accts)
    (hz : ∃ m, R.behind a = zeros m) (ho : E.origLen a + maxIncrease ≤ R.cap a) :
    Tracks (fun _ => True) (processRemoveRaw M E R accts a au r t)
      (processRemove E R.led a au r t) := by
  unfold processRemoveRaw processRemove
  simp only
  refine tracks_require fun _ => tracks_require fun _ => tracks_require fun _ =>
    tracks_require fun _ => tracks_require fun _ => tracks_same fun y _ => ?_
  rcases y with _ | ⟨o, b⟩
  · exact tracks_error
  · refine tracks_same fun _ _ => ?_
    have := memmove_tracks (M := M) (E := E) (payer := some r) (dst := o) (src := b)
      (n := (R.led a).data.length - b) ha hn
    have e : (memmove (R.led a).data o b ((R.led a).data.length - b) >>= fun d1 =>
        resize E (R.led.setData a d1) ((R.led a).data.length - (b - o)) a (some r) none) =
      ((memmove (R.led a).data o b ((R.led a).data.length - b)).map (R.led.setData a) >>= fun L =>
        resize E L ((R.led a).data.length - (b - o)) a (some r) none) := by
      cases memmove (R.led a).data o b ((R.led a).data.length - b) <;> rfl
    rw [e]
    refine tracks_bind this fun R1 hR => ?_
    rcases resize_tracks (R := R1) (k := a) (payer := some r) (sys := none)
      (size := (R.led a).data.length - (b - o)) (by rw [hR.2]; exact hz) (by rw [hR.1.cap]; exact ho)
      with h | h | ⟨R2, h1, h2, _⟩
    · exact .inl h
    · exact .inr (.inl h)
    · exact .inr (.inr ⟨R2, h1, h2, trivial⟩)

/-! ## Update -/

theorem updateMove_tracks {cur : Option (Nat × Nat)} {n u : Nat} {delta : Int} (ha : k ∈ accts)
    (hn : Numeric R accts) (hc : R.cap k < two64) (hz : ∃ m, R.behind k = zeros m)
    (ho : E.origLen k + maxIncrease ≤ R.cap k) :
    Tracks (Near k payer R) (updateMoveRaw M E R accts k payer sys cur n u delta)
      (updateMove E R.led k payer sys cur n u delta) := by
  unfold updateMoveRaw updateMove
  rcases cur with _ | ⟨cl, b⟩
  · exact resize_tracks hz ho
  · simp only
    split
    · exact tracks_ok rfl Near.refl
    · refine tracks_same fun y _ => ?_
      rcases y with _ | ⟨h, o⟩
      · exact tracks_error
      · simp only
        by_cases hd : 0 < delta
        · have e1 : decide (0 < delta) = true := decide_eq_true hd
          have e2 : decide (delta < 0) = false := decide_eq_false (by omega)
          rw [e1, e2]
          refine tracks_bind (resizeIf_tracks hz ho) fun R1 h1 => ?_
          have := memmove_tracks (M := M) (E := E) (payer := payer) (dst := u) (src := b)
            (n := h.bnd - b) ha (h1.numeric hn hc)
          rcases hm : memmove (R1.led k).data u b (h.bnd - b) with e | d
          · rw [hm] at this
            rcases this with hx | ⟨e', hx, hy⟩ | ⟨_, _, hy, _⟩
            · cases hx; exact .inl rfl
            · cases hy; rw [hx]; exact tracks_error
            · cases hy
          · rw [memmoveRaw_inside ha (h1.numeric hn hc) hm]
            rw [hm] at this
            simp only [bind, Except.bind, resizeIfRaw, resizeIf]
            rw [memmoveRaw_inside ha (h1.numeric hn hc) hm] at this
            rcases this with hx | ⟨e', hx, hy⟩ | ⟨R2, hx, hy, hz⟩
            · cases hx
            · cases hy
            · cases hx
              exact tracks_ok rfl (h1.trans hz.1)
        · have e1 : decide (0 < delta) = false := decide_eq_false hd
          rw [e1]
          simp only [resizeIfRaw, resizeIf, bind, Except.bind, Bool.false_eq_true, if_false]
          rcases memmove_tracks (M := M) (E := E) (payer := payer) (dst := u) (src := b)
            (n := h.bnd - b) ha hn with hx | ⟨e', hx, hy⟩ | ⟨R2, hx, hy, h2⟩
          · rcases hm : memmove (R.led k).data u b (h.bnd - b) with e | d
            · rw [hm] at hx; cases hx; exact .inl rfl
            · rw [hm] at hx; cases hx
          · rcases hm : memmove (R.led k).data u b (h.bnd - b) with e | d
            · rw [hm] at hy; cases hy; rw [hx]; exact tracks_error
            · rw [hm] at hy; cases hy
          · rcases hm : memmove (R.led k).data u b (h.bnd - b) with e | d
            · rw [hm] at hy; cases hy
            · rw [hm] at hy
              have hy' : R.led.setData k d = R2.led := Except.ok.inj hy
              rw [hx]
              simp only
              rw [hy']
              have := resizeIf_tracks (E := E) (R := R2) (k := k) (payer := payer) (sys := sys)
                (size := ((h.bnd : Int) + delta).toNat) (c := decide (delta < 0))
                (by rw [h2.2]; exact hz) (by rw [h2.1.cap]; exact ho)
              rcases this with g | g | ⟨R3, g1, g2, g3⟩
              · exact .inl g
              · exact .inr (.inl g)
              · exact .inr (.inr ⟨R3, g1, g2, h2.1.trans g3⟩)

theorem weaken {x : Except Err Ram} {y : Except Err Ledger} (h : Tracks P x y) :
    Tracks (fun _ => True) x y := by
  rcases h with h | h | ⟨R2, h1, h2, _⟩
  · exact .inl h
  · exact .inr (.inl h)
  · exact .inr (.inr ⟨R2, h1, h2, trivial⟩)

theorem updateFinish_tracks {buffer : Option Key} {t : ExtType} {o : Nat} {cur : Option (Nat × Nat)}
    {p : Bytes} (ha : k ∈ accts) (hn : Numeric R accts) (hc : R.cap k < two64)
    (hz : ∃ m, R.behind k = zeros m) (ho : E.origLen k + maxIncrease ≤ R.cap k)
    (hb : ∀ b, buffer = some b → b ∈ accts ∧ b ≠ k ∧ slice (R.led b).data 184 p.length = p ∧
      (p = [] ∨ 184 + p.length ≤ (R.led b).data.length)) :
    Tracks (fun _ => True) (updateFinishRaw M E R accts k payer sys buffer t o cur p)
      (updateFinish E R.led k payer sys t o cur p) := by
  have e16 : extLen = 16 := rfl
  have e168 : assetLen = 168 := rfl
  unfold updateFinishRaw updateFinish
  simp only
  refine tracks_bind (updateMove_tracks ha hn hc hz ho) fun R1 h1 => ?_
  refine tracks_same fun d1 hd1 => tracks_same fun d2 hd2 => ?_
  have hl : d2.length = (R1.led k).data.length := by
    rw [fixBoundaries_length hd2, writeHdr_length hd1]
  have h2 := h1.trans (near_setData (payer := payer) hl)
  have hn2 := h2.numeric hn hc
  unfold copyData
  by_cases hp : p = []
  · rw [if_pos hp, if_pos hp]
    exact tracks_ok rfl trivial
  · rw [if_neg hp, if_neg hp]
    have hdat : ((R1.set (R1.led.setData k d2)).led k).data = d2 := by
      simp only [Ram.set, Ledger.setData_same]
    have hled : (R1.set (R1.led.setData k d2)).led = R1.led.setData k d2 := rfl
    have hlt := (hb · ·)
    generalize R1.set (R1.led.setData k d2) = R2 at *
    have hsrc : updateSource R2 buffer p = .ok p := by
      unfold updateSource
      cases buffer with
      | none => rfl
      | some b =>
        obtain ⟨b1, b2, b3, b4⟩ := hb b rfl
        simp only
        rw [(h2.data b b2).1, e168, e16]
        rw [if_neg (by have := b4.resolve_left hp; omega), b3]
    rw [hsrc]
    simp only [bind, Except.bind]
    have hcp := memcpy_tracks (M := M) (E := E) (payer := payer) (off := o + extLen) (bs := p) ha hn2
    rw [hdat, hled] at hcp
    by_cases hov : Overlaps M E R2 accts k buffer (o + extLen) p.length
    · -- not when the copy stays inside
      rcases hm : memcpy d2 (o + extLen) p with e | d
      · unfold memcpy at hm
        split at hm
        · have := (writeHdr_ok hd1).1
          omega
        · split at hm
          · cases hm; exact .inl rfl
          · cases hm
      · unfold memcpy at hm
        split at hm
        · cases hm
        · split at hm
          · cases hm
          · exfalso
            cases buffer with
            | none => exact hov
            | some b =>
              obtain ⟨b1, b2, b3, b4⟩ := hb b rfl
              replace b4 := b4.resolve_left hp
              unfold Overlaps at hov
              simp only at hov
              have hdis := place_disjoint (M := M) (E := E) (R := R2) b2 b1 ha
              have hlk := length_slot (M := M) (E := E) (R := R2) k
              have hlb := length_slot (M := M) (E := E) (R := R2) b
              have c1 : R2.cap k = (R2.led k).data.length + (R2.behind k).length := rfl
              have c2 : R2.cap b = (R2.led b).data.length + (R2.behind b).length := rfl
              rw [(h2.data b b2).1] at c2
              rw [hdat] at c1
              omega
    · rw [show require (¬ Overlaps M E R2 accts k buffer (o + extLen) p.length) Err.oob = .ok () from
        if_pos hov]
      simp only
      rcases hcp with hx | ⟨e, hx, hy⟩ | ⟨R3, hx, hy, _⟩
      · rcases hm : memcpy d2 (o + extLen) p with e | d
        · rw [hm] at hx; cases hx; exact .inl rfl
        · rw [hm] at hx; cases hx
      · rcases hm : memcpy d2 (o + extLen) p with e | d
        · rw [hm] at hy; cases hy; rw [hx]; exact tracks_error
        · rw [hm] at hy; cases hy
      · rcases hm : memcpy d2 (o + extLen) p with e | d
        · rw [hm] at hy; cases hy
        · rw [hm] at hy
          have hy' : (R1.led.setData k d2).setData k d = R3.led := Except.ok.inj hy
          rw [setData_twice] at hy'
          exact .inr (.inr ⟨R3, hx, by simp only [pure, Except.pure]; rw [hy'], trivial⟩)

theorem updateArgs_tracks {s : Key} {x : ExtInput} (ha : k ∈ accts) (hn : Numeric R accts)
    (hc : R.cap k < two64) (hz : ∃ m, R.behind k = zeros m)
    (ho : E.origLen k + maxIncrease ≤ R.cap k) :
    Tracks (fun _ => True) (updateArgsRaw M E R accts k s payer sys x)
      (updateArgs E R.led k s payer sys x) := by
  unfold updateArgsRaw updateArgs
  simp only
  refine tracks_same fun y _ => ?_
  obtain ⟨o, cur⟩ := y
  simp only
  exact tracks_same fun p _ => tracks_require fun _ => tracks_require fun _ =>
    updateFinish_tracks ha hn hc hz ho fun b hb => by cases hb

theorem updateBuffer_tracks {s b : Key} (ha : k ∈ accts) (hm : b ∈ accts) (hn : Numeric R accts)
    (hc : R.cap k < two64) (hz : ∃ m, R.behind k = zeros m)
    (ho : E.origLen k + maxIncrease ≤ R.cap k) :
    Tracks (fun _ => True) (updateBufferRaw M E R accts k s b payer sys)
      (updateBuffer E R.led k s b payer sys) := by
  have e16 : extLen = 16 := rfl
  have e168 : assetLen = 168 := rfl
  unfold updateBufferRaw updateBuffer
  simp only
  refine tracks_require fun _ => tracks_require fun hne => tracks_require fun hlen =>
    tracks_require fun _ => ?_
  rcases firstExtension (R.led b).data with _ | ⟨h, o⟩
  · exact tracks_error
  simp only
  rcases ExtType.ofU32 h.ty with _ | t
  · exact tracks_error
  simp only
  refine tracks_same fun y _ => ?_
  obtain ⟨o, cur⟩ := y
  simp only
  refine tracks_require fun _ => tracks_require fun hle => tracks_same fun old _ =>
    tracks_same fun v hv => tracks_require fun hor => ?_
  have hvl : v.length = h.len := by
    rw [updateValidate_length hv, length_slice hle]
  have hbl : (splice (R.led b).data assetLen v).length = (R.led b).data.length :=
    length_splice (by omega)
  have hb1 := near_setData (R := R) (k := b) (payer := payer) hbl
  have hnk := hne.symm
  have h1 : Numeric (R.set (R.led.setData b (splice (R.led b).data assetLen v))) accts := by
    intro x hx
    refine ⟨hb1.lamports x (hn x hx).1, ?_⟩
    by_cases hxb : x = b
    · subst hxb
      simp only [Ram.set, Ledger.setData_same, hbl]; exact (hn x hx).2
    · rw [(hb1.data x hxb).1]; exact (hn x hx).2
  have h2 : (R.set (R.led.setData b (splice (R.led b).data assetLen v))).cap k = R.cap k := by
    simp only [Ram.cap, Ram.set, Ledger.setData_other _ _ hnk]
  have hsl : h.len = 0 ∨ assetLen + extLen + h.len ≤ (splice (R.led b).data assetLen v).length := hor
  have hpl : (slice (splice (R.led b).data assetLen v) (assetLen + extLen) h.len).length = h.len := by
    rcases hsl with h0 | h0
    · rw [h0]; simp [slice]
    · exact length_slice h0
  refine updateFinish_tracks (R := R.set (R.led.setData b (splice (R.led b).data assetLen v))) ha h1
    (by rw [h2]; exact hc) hz (by rw [h2]; exact ho) ?_
  rintro b' ⟨⟩
  refine ⟨hm, hne, ?_, ?_⟩
  · simp only [Ram.set, Ledger.setData_same, hpl]; rfl
  · simp only [Ram.set, Ledger.setData_same, hpl]
    rcases hsl with h0 | h0
    · left; rw [h0]; simp [slice]
    · right; omega

theorem update_tracks {s : Key} {buffer : Option Key} {x : UpdateInput} (ha : k ∈ accts)
    (hm : ∀ b, buffer = some b → b ∈ accts) (hn : Numeric R accts)
    (hc : R.cap k < two64) (hz : ∃ m, R.behind k = zeros m)
    (ho : E.origLen k + maxIncrease ≤ R.cap k) :
    Tracks (fun _ => True) (processUpdateRaw M E R accts k s buffer payer sys x)
      (processUpdate E R.led k s buffer payer sys x) := by
  unfold processUpdateRaw processUpdate
  simp only
  refine tracks_require fun _ => tracks_require fun _ => tracks_require fun hi =>
    tracks_require fun _ => tracks_require fun _ => ?_
  have hl : (updateHeader (R.led k).data x).length = (R.led k).data.length :=
    length_updateHeader x hi.1
  have h1 := near_setData (R := R) (k := k) (payer := payer) hl
  have h2 := h1.numeric hn hc
  have h3 := h1.cap
  rcases x.extension with _ | e <;> rcases buffer with _ | b
  · exact tracks_ok rfl trivial
  · exact updateBuffer_tracks (R := R.set _) ha (hm b rfl) h2 (by omega) hz (by omega)
  · exact updateArgs_tracks (R := R.set _) ha h2 (by omega) hz (by omega)
  · exact tracks_error

/-! ## Write -/

theorem write_tracks {p s : Key} {x : WriteInput} (ha : k ∈ accts) (hn : Numeric R accts)
    (hc : R.cap k < two64) (hz : ∃ m, R.behind k = zeros m)
    (ho : E.origLen k + maxIncrease ≤ R.cap k) :
    Tracks (fun _ => True) (processWriteRaw M E R accts k p s x) (processWrite E R.led k p s x) := by
  unfold processWriteRaw processWrite
  simp only
  refine tracks_require fun _ => tracks_require fun _ => tracks_require fun _ =>
    tracks_require fun _ => tracks_require fun _ => tracks_require fun _ => tracks_same fun y _ => ?_
  rcases y with _ | ⟨h, off⟩
  · exact tracks_error
  simp only
  refine tracks_require fun _ => tracks_bind (resize_tracks hz ho) fun R1 h1 => ?_
  have hn1 := h1.numeric hn hc
  generalize (if x.overwrite = true then off else (R.led k).data.length) = start
  rcases memcpy_tracks (M := M) (E := E) (payer := some p) (off := start) (bs := x.bytes) ha hn1 with
    hx | ⟨e', hx, hy⟩ | ⟨R2, hx, hy, h2⟩
  · rcases hm : memcpy (R1.led k).data start x.bytes with e | d
    · rw [hm] at hx; cases hx; exact .inl rfl
    · rw [hm] at hx; cases hx
  · rcases hm : memcpy (R1.led k).data start x.bytes with e | d
    · rw [hm] at hy; cases hy; rw [hx]; exact tracks_error
    · rw [hm] at hy; cases hy
  · rcases hm : memcpy (R1.led k).data start x.bytes with e | d
    · rw [hm] at hy; cases hy
    · rw [hm] at hy
      have hy' : R1.led.setData k d = R2.led := Except.ok.inj hy
      have hd : (R2.led k).data = d := by rw [← hy', Ledger.setData_same]
      rw [hx]
      simp only [bind, Except.bind]
      rw [hd]
      split
      · exact tracks_ok hy'.symm trivial
      · rcases hv : writeValidate d with e | d2
        · exact tracks_error
        · refine tracks_ok ?_ trivial
          show R2.led.setData k d2 = _
          rw [← hy', setData_twice]

/-! ## Instructions -/

theorem start_facts {L : Ledger} (h : Spec.Loaded E L accts) :
    Numeric (.start L) accts ∧ ∀ x ∈ accts, (Ram.start L).cap x < two64 ∧
      E.origLen x + maxIncrease ≤ (Ram.start L).cap x := by
  have e64 : two64 = 18446744073709551616 := rfl
  have em : maxIncrease = 10240 := rfl
  refine ⟨fun x hx => ⟨(h x hx).1, ?_⟩, fun x hx => ?_⟩
  · have := (h x hx).2.1
    show (L x).data.length < _
    omega
  · obtain ⟨_, h2, h3⟩ := h x hx
    have : (Ram.start L).cap x = (L x).data.length + (maxIncrease + (align8 (L x).data.length - (L x).data.length)) := by
      simp only [Ram.cap, Ram.start, zeros, List.length_replicate]
    have h8 : align8 (L x).data.length < (L x).data.length + 8 := by unfold align8; omega
    omega

theorem dispatch_tracks {L : Ledger} {i : Instr} {ks : List Key} (hk : ∀ x ∈ ks, x ∈ accts)
    (h : Spec.Loaded E L accts) (hy : dispatch E L i ks ≠ .error .oob) :
    dispatchRaw M E L accts i ks = dispatch E L i ks := by
  obtain ⟨h1, h2⟩ := start_facts h
  have hz : ∀ x, ∃ m, (Ram.start L).behind x = zeros m := fun x => ⟨_, rfl⟩
  unfold dispatchRaw
  split
  · have ha := hk _ (List.mem_cons_self)
    exact (remove_tracks ha h1 (hz _) (h2 _ ha).2).eq hy
  · rename_i asset authority buffer _ payer sys _
    have ha := hk _ (List.mem_cons_self)
    refine (update_tracks ha ?_ h1 (h2 _ ha).1 (hz _) (h2 _ ha).2).eq hy
    intro b hb
    unfold optAcc at hb
    split at hb
    · cases hb
    · cases hb; exact hk _ (by simp)
  · have ha := hk _ (List.mem_cons_self)
    exact (write_tracks ha h1 (h2 _ ha).1 (hz _) (h2 _ ha).2).eq hy
  · rfl

end Verif

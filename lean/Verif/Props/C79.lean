import Verif.Lemmas.Reach
import Verif.Props.C16
import Verif.Props.C75
import Verif.Props.C76
import Verif.Props.C77

/-!
# C79: No instruction but Remove reaches accounts that it is not about
-/

namespace Verif.Props

open Verif Verif.Spec

section
variable {M : Loader} {E : Env} {program k : Key} {L L' : Ledger} {accts : List Key} {A : Asset} {i : Instr}

theorem executeRaw_ok (h : executeRaw M E L accts i = .ok L') :
    dispatchRaw M E L accts i (accts.take 7) = .ok L' ∧
    ∀ k ∈ accts, changeAllowed E k (L k) (L' k) = true := by
  unfold executeRaw at h
  inv at h
  obtain ⟨_, _, _, _, L1, h1, h⟩ := h
  by_cases hc : accts.all (fun k => changeAllowed E k (L k) (L1 k)) = true
  · rw [if_pos hc] at h
    cases h
    exact ⟨h1, fun k hk => List.all_eq_true.mp hc k hk⟩
  · rw [if_neg hc] at h
    cases h

theorem small_modest (h : Small i) (hp : Plain i) : Modest i := by
  cases i with
  | allocate x => exact fun p hx => Nat.lt_of_le_of_lt (h p hx) (by decide)
  | create x => exact fun y hy p hx => Nat.lt_of_le_of_lt (h y hy p hx) (by decide)
  | update x => exact hp.elim
  | _ => trivial

theorem take_seven {a : Key} {rest : List Key} (h : accts.take 7 = a :: rest) :
    accts = a :: (accts.drop 1) ∧ rest = (accts.drop 1).take 6 := by
  cases accts with
  | nil => cases h
  | cons x xs =>
    simp only [List.take_succ_cons, List.cons.injEq] at h
    obtain ⟨rfl, rfl⟩ := h
    exact ⟨rfl, rfl⟩

theorem getElem?_seven {p : Nat} (hp : p < 7) : (accts.take 7)[p]? = accts[p]? :=
  List.getElem?_take_of_lt hp

/-- The three cases: the instruction is as in the rest of the model, an Update, or a Write. -/
theorem raw_cases (hm : Mapped M E L accts) (hs : Small i)
    (hr : NotRemove i ∨ execute E L accts i ≠ .error .oob) (h : executeRaw M E L accts i = .ok L') :
    execute E L accts i = .ok L' ∨
    (∃ x a s b g p y rest R, i = .update x ∧ accts = a :: s :: b :: g :: p :: y :: rest ∧
      processUpdateRaw M E (.start L) accts a s (optAcc E b) (optAcc E p) (optAcc E y) x = .ok R ∧ R.led = L') ∨
    (∃ x a p y rest R, i = .write x ∧ accts = a :: p :: y :: rest ∧
      processWriteRaw M E (.start L) accts a p y x = .ok R ∧ R.led = L') := by
  by_cases ho : execute E L accts i = .error .oob
  · right
    have hd := (executeRaw_ok h).1
    have plain : Plain i → False := fun hp => by
      exact C75_plain hp (small_modest hs hp) ho
    unfold dispatchRaw at hd
    split at hd
    · rcases hr with hr | hr
      · exact hr.elim
      · exact absurd ho hr
    · rename_i x a s b g p y rest heq
      left
      obtain ⟨R, h1, h2⟩ := ok_of_map hd
      have hacc : ∃ rest', accts = a :: s :: b :: g :: p :: y :: rest' := by
        rcases accts with _ | ⟨a1, _ | ⟨a2, _ | ⟨a3, _ | ⟨a4, _ | ⟨a5, _ | ⟨a6, r⟩⟩⟩⟩⟩⟩ <;>
          simp at heq
        obtain ⟨rfl, rfl, rfl, rfl, rfl, rfl, _⟩ := heq
        exact ⟨_, rfl⟩
      obtain ⟨rest', hacc⟩ := hacc
      exact ⟨x, a, s, b, g, p, y, rest', R, rfl, hacc, h1, h2⟩
    · rename_i x a p y rest heq
      right
      obtain ⟨R, h1, h2⟩ := ok_of_map hd
      have hacc : ∃ rest', accts = a :: p :: y :: rest' := by
        rcases accts with _ | ⟨a1, _ | ⟨a2, _ | ⟨a3, r⟩⟩⟩ <;> simp at heq
        obtain ⟨rfl, rfl, rfl, _⟩ := heq
        exact ⟨_, rfl⟩
      obtain ⟨rest', hacc⟩ := hacc
      exact ⟨x, a, p, y, rest', R, rfl, hacc, h1, h2⟩
    · rename_i j _ _ _ h1 h2
      exfalso
      cases j with
      | update x =>
        obtain ⟨a, s, b, g, p, y, rest, he, _⟩ := disp_update hd
        exact h1 _ _ _ _ _ _ _ _ rfl he
      | write x =>
        obtain ⟨a, p, y, rest, he, _⟩ := disp_write hd
        exact h2 _ _ _ _ _ rfl he
      | remove t =>
        rcases hr with hr | hr
        · exact hr
        · exact hr ho
      | _ => exact plain trivial
  · left
    rw [← C76_agrees hm.1 ho]
    exact h

theorem mem_accountsAt {ps : List Nat} {p : Nat} {x : Key} (hp : p ∈ ps) (h : accts[p]? = some x) :
    x ∈ accountsAt ps accts :=
  List.mem_filterMap.mpr ⟨p, hp, h⟩

theorem keys_accountsAt {ps qs : List Nat} {x : Key} (hq : ∀ p ∈ ps, p ∈ qs ∧ p < 7)
    (h : x ∈ ps.filterMap fun p => (accts.take 7)[p]?) : x ∈ accountsAt qs accts := by
  obtain ⟨p, hp, hx⟩ := List.mem_filterMap.mp h
  obtain ⟨h1, h2⟩ := hq p hp
  rw [getElem?_seven h2] at hx
  exact mem_accountsAt h1 hx

theorem optAcc_eq {p x : Key} (h : optAcc E p = some x) : p = x := by
  unfold optAcc at h
  split at h
  · cases h
  · exact Option.some.inj h

/-- Whatever the accounts contain, an instruction other than Remove changes only accounts that it
declares writable, and perhaps the authority that signs an Update. -/
theorem C79_reach_partial (hm : Mapped M E L accts) (hs : Small i)
    (hr : NotRemove i ∨ execute E L accts i ≠ .error .oob) (h : executeRaw M E L accts i = .ok L') {x : Key}
    (hx : L' x ≠ L x) :
    x ∈ accountsAt (declared i) accts ∨
      ((∃ u, i = .update u) ∧ accts[1]? = some x ∧ E.signer x = true) := by
  rcases raw_cases hm hs hr h with h | ⟨u, a, s, b, g, p, y, rest, R, rfl, hacc, h1, rfl⟩ |
    ⟨u, a, p, y, rest, R, rfl, hacc, h1, rfl⟩
  · left
    obtain ⟨_, _, hd, _⟩ := execute_ok h
    obtain ⟨a, rest, _, he⟩ := dispatch_effect hd
    by_contra hn
    refine hx (he.other x (fun hk => hn ?_) fun hk => hn ?_)
    · exact keys_accountsAt (by cases i <;> simp [Instr.dataPositions, declared, stored]) hk
    · exact keys_accountsAt (by cases i <;> simp [Instr.payPositions, declared, stored]) hk
  · have hsig := (processUpdateRaw_who h1).1
    have hre := processUpdateRaw_reaches hacc (roomy_start hm.1 hm.2) hs h1
    by_contra hn
    simp only [not_or] at hn
    obtain ⟨n1, n2⟩ := hn
    have hxa : x ≠ a := fun e => n1 (mem_accountsAt (p := 0) (by simp [declared, stored]) (by rw [hacc, e]; rfl))
    have hxs : x ≠ s := fun e => n2 ⟨⟨u, rfl⟩, by rw [hacc, e]; rfl, by rw [e]; exact hsig⟩
    have hxb : x ≠ b := fun e => n1 (mem_accountsAt (p := 2) (by simp [declared, stored]) (by rw [hacc, e]; rfl))
    have hxp : optAcc E p ≠ some x := fun e => n1 (mem_accountsAt (p := 4) (by simp [declared, stored]) (by
      rw [hacc, ← optAcc_eq e]; rfl))
    refine hx ((hre x hxa ?_).2.2 hxp)
    cases hb : optAcc E b with
    | none => exact List.not_mem_nil
    | some b' =>
      obtain rfl := optAcc_eq hb
      simp only [List.mem_cons, List.not_mem_nil, or_false, not_or]
      exact ⟨hxs, hxb⟩
  · left
    have ha : a ∈ accts := by rw [hacc]; simp
    have hn := processWriteRaw_reaches ha (roomy_start hm.1 hm.2) hs h1
    by_contra n1
    have hxa : x ≠ a := fun e => n1 (mem_accountsAt (p := 0) (by simp [declared, stored]) (by rw [hacc, e]; rfl))
    have hxp : some p ≠ some x := fun e => n1 (mem_accountsAt (p := 1) (by simp [declared, stored]) (by
      rw [hacc, ← Option.some.inj e]; rfl))
    exact hx (hn.other x hxa hxp)

/-- Data and owner change only where data is stored: those who pay keep theirs. -/
theorem C79_data_partial (hm : Mapped M E L accts) (hs : Small i)
    (hr : NotRemove i ∨ execute E L accts i ≠ .error .oob) (h : executeRaw M E L accts i = .ok L') {x : Key}
    (hx : (L' x).data ≠ (L x).data ∨ (L' x).owner ≠ (L x).owner) :
    x ∈ accountsAt (stored i) accts ∨
      ((∃ u, i = .update u) ∧ accts[1]? = some x ∧ E.signer x = true) := by
  rcases raw_cases hm hs hr h with h | ⟨u, a, s, b, g, p, y, rest, R, rfl, hacc, h1, rfl⟩ |
    ⟨u, a, p, y, rest, R, rfl, hacc, h1, rfl⟩
  · left
    obtain ⟨_, _, hd, _⟩ := execute_ok h
    obtain ⟨a, rest, _, he⟩ := dispatch_effect hd
    by_contra hn
    have := he.data x fun hk => hn (keys_accountsAt (by cases i <;> simp [Instr.dataPositions, declared, stored]) hk)
    rcases hx with hx | hx
    · exact hx this.1
    · exact hx this.2
  · have hsig := (processUpdateRaw_who h1).1
    have hre := processUpdateRaw_reaches hacc (roomy_start hm.1 hm.2) hs h1
    by_contra hn
    simp only [not_or] at hn
    obtain ⟨n1, n2⟩ := hn
    have hxa : x ≠ a := fun e => n1 (mem_accountsAt (p := 0) (by simp [declared, stored]) (by rw [hacc, e]; rfl))
    have hxs : x ≠ s := fun e => n2 ⟨⟨u, rfl⟩, by rw [hacc, e]; rfl, by rw [e]; exact hsig⟩
    have hxb : x ≠ b := fun e => n1 (mem_accountsAt (p := 2) (by simp [declared, stored]) (by rw [hacc, e]; rfl))
    have := hre x hxa (by
      cases hb : optAcc E b with
      | none => exact List.not_mem_nil
      | some b' =>
        obtain rfl := optAcc_eq hb
        simp only [List.mem_cons, List.not_mem_nil, or_false, not_or]
        exact ⟨hxs, hxb⟩)
    rcases hx with hx | hx
    · exact hx this.1
    · exact hx this.2.1
  · left
    have ha : a ∈ accts := by rw [hacc]; simp
    have hn := processWriteRaw_reaches ha (roomy_start hm.1 hm.2) hs h1
    by_contra n1
    have hxa : x ≠ a := fun e => n1 (mem_accountsAt (p := 0) (by simp [declared, stored]) (by rw [hacc, e]; rfl))
    have := hn.data x hxa
    rcases hx with hx | hx
    · exact hx this.1
    · exact hx this.2

/-- Hence strangers cannot change an asset in the memory of the program either, except by Remove. -/
theorem C79_strangers_partial (hm : Mapped M E L accts) (hs : Small i)
    (hr : NotRemove i ∨ execute E L accts i ≠ .error .oob) (hk : Stores E.program L k A)
    (ho : Outside E A) (hsk : E.signer k = false) (h : executeRaw M E L accts i = .ok L') :
    ∃ A', Stores E.program L' k A' ∧ SameAsset A A' := by
  have hdisc : hDisc (L k).data ≠ discUninit := by
    have := hk.init.2
    rw [this]; decide
  have keep : (L' k).data = (L k).data ∧ (L' k).owner = (L k).owner → ∃ A', Stores E.program L' k A' ∧ SameAsset A A' :=
    fun e => ⟨A, hk.congr e.2 e.1, .refl _⟩
  have hau : hAuthority (L k).data = A.authority := by rw [hk.2.2.1]; rfl
  rcases raw_cases hm hs hr h with h | ⟨u, a, s, b, g, p, y, rest, R, rfl, hacc, h1, rfl⟩ |
    ⟨u, a, p, y, rest, R, rfl, hacc, h1, rfl⟩
  · obtain ⟨A', h1, h2, _⟩ := C77_step_partial hk ho h
    exact ⟨A', h1, h2⟩
  · obtain ⟨w1, w2, w3⟩ := processUpdateRaw_who h1
    have hre := processUpdateRaw_reaches hacc (roomy_start hm.1 hm.2) hs h1
    have hka : k ≠ a := by
      rintro rfl
      have : s = A.authority := w2.symm.trans hau
      rw [this, ho _ (.inr (.inl rfl))] at w1
      cases w1
    have hks : k ≠ s := by rintro rfl; rw [hsk] at w1; cases w1
    have := hre k hka (by
      cases hb : optAcc E b with
      | none => exact List.not_mem_nil
      | some b' =>
        simp only [List.mem_cons, List.not_mem_nil, or_false, not_or]
        refine ⟨hks, ?_⟩
        rintro rfl
        exact hdisc (w3 _ hb hka))
    exact keep ⟨this.1, this.2.1⟩
  · have ha : a ∈ accts := by rw [hacc]; simp
    have hn := processWriteRaw_reaches ha (roomy_start hm.1 hm.2) hs h1
    have hka : k ≠ a := by rintro rfl; exact hdisc (processWriteRaw_who h1)
    exact keep (hn.data k hka)

/-- And over any history. -/
theorem C79_history_partial (hs : Stores program L k A) (hl : RawStrangers program k A L L') :
    ∃ A', Stores program L' k A' ∧ SameAsset A A' := by
  induction hl with
  | refl => exact ⟨A, hs, .refl _⟩
  | instr M E accts i _ hp hm hi h ho hk hr ih =>
    obtain ⟨B, h1, h2⟩ := ih
    subst hp
    obtain ⟨A', h3, h4⟩ := C79_strangers_partial hm hi hr h1 (h2.outside ho) hk h
    exact ⟨A', h3, h2.trans h4⟩
  | foreign _ hf ih =>
    obtain ⟨B, h1, h2⟩ := ih
    exact ⟨B, h1.foreign hf, h2⟩

end

section Examples
open Verif.Ex

/-- The asset of `C75_stale`, whose last extension claims bytes past the end of the account. -/
def stale : Except Err Ledger :=
  twoNew.bind fun L => run L [k 3] [k 1, k 3, prog, k 5] (.remove .attributes)

instance {M : Loader} {E : Env} {L : Ledger} {accts : List Key} : Decidable (Mapped M E L accts) := by
  unfold Mapped Loaded; infer_instance

theorem both_ok {x : Except Err Ledger} {f : Ledger → Bool} {g : Ledger → Except Err Ledger}
    (h : x.map f = .ok true) (h' : (x.bind g).map (fun _ => ()) = .error .oob) :
    ∃ L, x = .ok L ∧ f L = true ∧ g L = .error .oob := by
  rcases x with e | L
  · cases h
  · refine ⟨L, rfl, Except.ok.inj h, ?_⟩
    change (g L).map _ = _ at h'
    rcases e : g L with y | y
    · rw [e] at h'; exact congrArg _ (Except.error.inj h')
    · rw [e] at h'; cases h'

theorem stale_raw : (stale.map fun L => decide (Mapped someLoader (env L [k 3, k 5]) L updateAccts) &&
      (executeRaw someLoader (env L [k 3, k 5]) L updateAccts
        (.update ⟨none, none, some ⟨.blob, 32, some (zeros 32)⟩⟩)).isOk) = .ok true := by decide +kernel

theorem stale_oob : (stale.bind fun L => run L [k 3, k 5] updateAccts
      (.update ⟨none, none, some ⟨.blob, 32, some (zeros 32)⟩⟩)).map (fun _ => ()) = .error .oob := by
  decide +kernel

/-- An update uses these bytes; the rest of the model gives up here (`C75_stale`). In memory the update
succeeds: the bytes are in the room behind the account. Only the asset and the payer change. -/
example : ∃ L L', stale = .ok L ∧
    run L [k 3, k 5] updateAccts (.update ⟨none, none, some ⟨.blob, 32, some (zeros 32)⟩⟩) = .error .oob ∧
    executeRaw someLoader (env L [k 3, k 5]) L updateAccts
      (.update ⟨none, none, some ⟨.blob, 32, some (zeros 32)⟩⟩) = .ok L' ∧
    ∀ x, x ≠ k 1 → x ≠ k 5 → x ≠ prog → x ≠ k 3 → L' x = L x := by
  have ok := stale_raw
  have oob := stale_oob
  generalize stale = x at *
  obtain ⟨L, h1, h2, h3⟩ := both_ok ok oob
  obtain ⟨h4, h5⟩ := Bool.and_eq_true_iff.mp h2
  rcases e : executeRaw someLoader (env L [k 3, k 5]) L updateAccts
    (.update ⟨none, none, some ⟨.blob, 32, some (zeros 32)⟩⟩) with z | L'
  · rw [e] at h5; cases h5
  · refine ⟨L, L', h1, h3, e, fun x n1 n2 n3 n4 => ?_⟩
    by_contra hx
    rcases C79_reach_partial (i := .update ⟨none, none, some ⟨.blob, 32, some (zeros 32)⟩⟩) (of_decide_eq_true h4) (by rintro e p ⟨⟩ ⟨⟩; decide) (.inl trivial) e hx
      with hm | ⟨_, hm, _⟩
    · simp [accountsAt, declared, updateAccts] at hm
      rcases hm with rfl | rfl | rfl
      · exact n1 rfl
      · exact n3 rfl
      · exact n2 rfl
    · exact n4 (Option.some.inj hm).symm

/-- A stranger `k 5` creates an asset; in memory as in the rest of the model, `k 1` stays as it is. -/
example : ∃ L', executeRaw someLoader (env simple [k 30, k 5]) simple [k 30, k 3, k 2, prog, prog, k 5, Key.system]
      (.create ⟨[65], .nonFungible, true, some [⟨.attributes, 4, some [1, 97, 1, 98]⟩]⟩) = .ok L' ∧
    ∃ A', Stores prog L' (k 1) A' ∧ SameAsset simpleAsset A' := by
  have hs : Stores prog simple (k 1) simpleAsset := checkStores_sound (by decide +kernel)
  have hm : Mapped someLoader (env simple [k 30, k 5]) simple [k 30, k 3, k 2, prog, prog, k 5, Key.system] := by
    decide +kernel
  have h : (executeRaw someLoader (env simple [k 30, k 5]) simple [k 30, k 3, k 2, prog, prog, k 5, Key.system]
    (.create ⟨[65], .nonFungible, true, some [⟨.attributes, 4, some [1, 97, 1, 98]⟩]⟩)).isOk = true := by
    decide +kernel
  cases e : executeRaw someLoader (env simple [k 30, k 5]) simple [k 30, k 3, k 2, prog, prog, k 5, Key.system]
    (.create ⟨[65], .nonFungible, true, some [⟨.attributes, 4, some [1, 97, 1, 98]⟩]⟩) with
  | error => rw [e] at h; cases h
  | ok L' =>
    refine ⟨L', rfl, C79_history_partial hs (.instr someLoader _ _ _ (.refl _) rfl hm ?_ e (fun x hx => ?_)
      (by decide) (.inl trivial))⟩
    · intro y hy p hp
      simp [asked] at hy
      subst hy
      cases hp
      decide
    · rcases simple_entitled hx with rfl | rfl | rfl <;> decide

/-- A removal can change an account that it does not declare: the one of `C76_false`. -/
theorem C79_false : ∃ L L', executeRaw someLoader (callEnv (env simple []) L [k 31] [k 30, k 1]) L
      [k 30, k 31, prog, k 31, k 1] (.remove .none) = .ok L' ∧
    k 1 ∉ accountsAt (declared (.remove .none)) [k 30, k 31, prog, k 31, k 1] ∧ L' (k 1) ≠ L (k 1) := by
  obtain ⟨_, L2, L3, _, _, h3, _, h4, h5⟩ := C76_false
  refine ⟨L2, L3, h3, by decide, fun e => ?_⟩
  have h6 := h4.congr (L' := L3) (by rw [e]) (by rw [e])
  have h7 := congrArg Asset.owner (h6.unique h5)
  revert h7
  decide

end Examples

end Verif.Props

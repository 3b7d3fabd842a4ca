import Verif.Lemmas.CrashCreate
import Verif.Lemmas.Check
import Verif.Examples
import Verif.Props.C16
import Verif.Props.C49

/-!
# C92: refusals, not crashes

See Spec/Crash for what counts as a crash, and for the assets that are intact.
-/

namespace Verif.Props

open Verif Verif.Spec Verif.Ex

variable {E : Env} {L : Ledger} {accts : List Key} {i : Instr}

theorem tame_scan (ks : List Key) (h : ∀ k ∈ ks, Proven E.program L k) : Tame (lockedScan E L ks) := by
  induction ks with
  | nil => exact tame_ok _
  | cons x ks ih =>
    unfold lockedScan
    simp only
    have ih := ih fun k hk => h k (by simp [hk])
    split
    · rename_i hx
      have hl : 1 < (L x).data.length := by
        rcases h x (by simp) hx.1 with ⟨A, hs, _⟩ | hn
        · have := hs.1.2.1; omega
        · exact absurd hx.2.2 hn.1
      have hr : require (1 < (L x).data.length) Err.panic = .ok () := require_ok.mpr hl
      refine tame_bind (tame_is hr) fun _ _ => ?_
      split
      · exact tame_pure _
      · exact ih
    · exact ih

theorem tame_proxied (h : ∀ k ∈ accts, Proven E.program L k) : Tame (proxiedCheck E L accts) := by
  unfold proxiedCheck
  split
  · exact tame_ok _
  · rename_i x _
    simp only
    split
    · rename_i hx
      have hl : 2 < (L x).data.length := by
        rcases h x (by simp) hx.1 with ⟨A, hs, _⟩ | ⟨_, hn⟩
        · have := hs.1.2.1; omega
        · exact hn.resolve_left hx.2
      have hr : require (2 < (L x).data.length) Err.panic = .ok () := require_ok.mpr hl
      exact tame_bind (tame_is hr) fun _ _ => tame_require (by decide)
    · exact tame_ok _

theorem tame_dispatch (hp : ∀ k ∈ accts, Proven E.program L k) (hi : Careful E.program L accts i) (hl : Affordable L)
    (hg : GroupKept E.program L accts i) (ho : ∀ k, E.origLen k = (L k).data.length) :
    Tame (dispatch E L i accts) := by
  unfold dispatch
  split
  case h_1 => exact tame_processClose hl
  case h_2 =>
    refine tame_processBurn (hp _ (by simp)) hl fun x hx => ?_
    unfold optAcc at hx
    split at hx
    · cases hx
    · rename_i hne
      cases hx
      exact ⟨hp _ (by simp), (hg _ rfl).resolve_left hne⟩
  case h_3 =>
    refine tame_processCreate (hi.2.2 _ rfl) (ho _) hi.1 hi.2.1 fun y hy => ?_
    unfold optAcc at hy
    split at hy
    · cases hy
    · cases hy; exact hp _ (by simp)
  case h_4 => exact tame_processApprove
  case h_5 => exact tame_processAllocate hi.1 (hi.2 _ rfl)
  case h_6 => exact tame_processLock (hp _ (by simp))
  case h_7 => exact tame_processRevoke
  case h_8 =>
    refine tame_processTransfer (hp _ (by simp)) fun x hx => ?_
    unfold optAcc at hx
    split at hx
    · cases hx
    · cases hx
      exact ⟨hp _ (by simp), hg _ rfl⟩
  case h_9 => exact tame_processUnlock (hp _ (by simp))
  case h_10 => exact tame_setVerified (hp _ (by simp))
  case h_11 =>
    have hb := hi.1 _ rfl
    unfold optAcc
    rw [if_pos hb]
    refine tame_processUpdate (hp _ (by simp)) fun A e hs he => ?_
    obtain ⟨h1, h2, h3⟩ := hi.2 e he
    obtain ⟨h4, h5⟩ := h3 _ A rfl hs
    exact ⟨h4, h1, h2, h5⟩
  case h_12 => exact tame_setVerified (hp _ (by simp))
  case h_13 => exact tame_write (hi _ rfl)
  case h_14 => exact tame_processGroup fun _ => hp _ (by simp)
  case h_15 => exact tame_processUngroup (hp _ (by simp))
  case h_16 => exact tame_processHandover
  case h_17 => exact tame_processRemove hi (hp _ (by simp))
  case h_18 => exact tame_processResize (hp _ (by simp))
  case h_19 => exact tame_error (by decide)

/-- **C92**: whoever sends it, with whichever accounts and signatures, an instruction that brings no
unreadable data does not crash, if the assets named can be read.

The full claim is for all accounts of the program and all data; it is refuted below. -/
theorem C92_steady_partial {e : Err} (hp : ∀ k ∈ accts.take 7, Proven E.program L k)
    (hi : Careful E.program L (accts.take 7) i) (hl : Affordable L)
    (hg : GroupKept E.program L (accts.take 7) i) (ho : ∀ k, E.origLen k = (L k).data.length)
    (h : execute E L accts i = .error e) : ¬ Crash e := by
  have ht : Tame (execute E L accts i) := by
    unfold execute
    refine tame_bind ?_ fun _ _ => by taming
    unfold processInstr
    exact tame_bind (tame_proxied hp) fun _ _ => tame_bind (tame_scan _ hp) fun _ _ =>
      tame_bind (tame_require (by decide)) fun _ _ => tame_dispatch hp hi hl hg ho
  exact ht e h

/-! ## Crashes -/

/-- **C92** fails: an account of the program with one or two bytes makes every instruction that starts with
it panic … -/
theorem C92_short {x : Key} {rest : List Key} (ho : (L x).owner = E.program)
    (hl : (L x).data.length = 1 ∨ (L x).data.length = 2) : execute E L (x :: rest) i = .error .panic := by
  unfold execute processInstr proxiedCheck
  simp only [List.take_succ_cons]
  rw [if_pos ⟨ho, by intro h; rw [h] at hl; simp at hl⟩]
  unfold require
  rw [if_neg (by omega)]
  rfl

theorem C92_short_false :
    (run (ledger [(k 1, owned [0])]) [k 1, k 2] [k 1, k 2] .close).map (fun _ => ()) = .error .panic := by
  decide +kernel

/-- … a transfer with an empty account of the program as group does … -/
theorem C92_group_false :
    (run (ledger [(k 1, owned (header 0 0 1 (k 2) (k 7) (k 3) Key.default 0 [65])), (k 7, owned []),
      (k 2, wallet)]) [k 2] [k 1, k 2, k 5, k 7] .transfer).map (fun _ => ()) = .error .panic := by
  decide +kernel

/-- … so does an update with data that cannot be read … -/
theorem C92_data_false :
    (run simple [k 3, k 5] updateAccts (.update ⟨none, none, some ⟨.grouping, 2, some [1, 2]⟩⟩)).map
      (fun _ => ()) = .error .panic := by decide +kernel

/-- … so does joining a group whose first header points before the end of the asset header … -/
theorem C92_boundary_false :
    (run (ledger [(k 1, owned (header 0 0 1 (k 2) Key.default (k 3) Key.default 0 [65])),
      (k 7, owned (header 0 0 1 (k 2) Key.default (k 3) Key.default 0 [71] ++ [1, 0, 0, 0] ++ zeros 4 ++
        [160, 0, 0, 0] ++ zeros 4))]) [k 3] [k 1, k 7, k 3] .group).map (fun _ => ()) = .error .panic := by
  decide +kernel

/-- … and a transfer of an asset whose royalties refer to an account of kind 3 compares what is none of the
three kinds. -/
theorem C92_selector_false :
    (run (ledger [(k 1, owned (header 0 0 1 (k 2) Key.default (k 3) Key.default 0 [65] ++
        blocks 168 [(.royalties, toLE 8 100 ++ buildC (.pubkeyMatch 3 [k 9]))])), (k 2, wallet),
        (k 7, ⟨1, [1], k 77⟩)]) [k 2] [k 1, k 2, k 7, prog] .transfer).map (fun _ => ()) = .error .undef := by
  decide +kernel

/-! ## A ledger without crashes -/

theorem ledger_find (l : List (Key × Account)) (x : Key) :
    (∃ p ∈ l, p.1 = x ∧ ledger l x = p.2) ∨ ledger l x = ⟨0, [], Key.system⟩ := by
  unfold ledger
  split
  · rename_i p hp
    have h2 := List.find?_some hp
    exact .inl ⟨p, List.mem_of_find?_eq_some hp, by simpa using h2, rfl⟩
  · exact .inr rfl

/-- What holds of all accounts in the list holds of all accounts of `managed`. -/
theorem managed_all {P : Key × Account → Prop} (x : Key) (h0 : P (x, ⟨0, [], Key.system⟩))
    (h1 : P (k 1, managed (k 1))) (h2 : ∀ n, P (k n, wallet)) : P (x, managed x) := by
  have hf : (∃ p : Key × Account, p ∈ _ ∧ p.1 = x ∧ managed x = p.2) ∨
      managed x = ⟨0, [], Key.system⟩ := ledger_find _ x
  rcases hf with ⟨⟨a, b⟩, hp, hx, h⟩ | h
  · simp only at hx h
    rw [h, ← hx]
    simp only [List.mem_cons, Prod.mk.injEq, List.not_mem_nil, or_false] at hp
    rcases hp with ⟨rfl, _⟩ | ⟨rfl, rfl⟩ | ⟨rfl, rfl⟩ | ⟨rfl, rfl⟩ | ⟨rfl, rfl⟩ | ⟨rfl, rfl⟩
    · rw [← h, ← hx]; exact h1
    all_goals exact h2 _
  · rw [h]; exact h0

theorem managed_affordable : Affordable managed := by
  have h : ∀ x, (managed x).lamports ≤ 5000000 := fun x =>
    managed_all (P := fun p => p.2.lamports ≤ 5000000) x (Nat.zero_le _) (by decide +kernel) fun _ => Nat.le_refl _
  intro x y _
  have := h x
  have := h y
  omega

theorem managed_proven (x : Key) : Proven prog managed x := by
  intro ho
  have hne : Key.system ≠ prog := by decide +kernel
  obtain rfl : x = k 1 :=
    managed_all (P := fun p => p.2.owner = prog → p.1 = k 1) x (fun h => absurd h hne)
      (fun _ => rfl) (fun _ h => absurd h hne) ho
  refine .inl ⟨Asset.of (assetAt managed (k 1)) [(.attributes, [1, 97, 1, 98]), (.manager, (k 6).1 ++ [3])],
    checkStores_sound (by decide +kernel), ?_, nofun, nofun, nofun⟩
  intro p hp
  have : p = (k 6).1 ++ [3] := by
    have h : lookup ExtType.manager [(.attributes, [1, 97, 1, 98]), (.manager, (k 6).1 ++ [3])] = some p := hp
    cases h; rfl
  rw [this]; decide +kernel

/-- Transfers of the managed asset, by anyone to anyone, do not crash. -/
example (s r : Key) (signers : List Key) (e : Err)
    (h : run managed signers [k 1, s, r, prog] .transfer = .error e) : ¬ Crash e :=
  C92_steady_partial (E := env managed signers) (accts := [k 1, s, r, prog]) (i := .transfer)
    (fun x _ => managed_proven x) trivial managed_affordable
    (fun g hg ho => by cases hg; exact absurd (show (managed prog).owner = prog from ho) (by decide +kernel)) (fun _ => rfl) h

/-- They are refused, for instance when the owner does not sign, or carried out. -/
example : (run managed [k 5] [k 1, k 5, k 3, prog] .transfer).map (fun _ => ()) =
    .error (.asset .invalidTransferAuthority) ∧
    (run managed [k 2] [k 1, k 2, k 3, prog] .transfer).isOk = true := by
  constructor <;> decide +kernel

/-- Updates with attributes that can be read do not crash either. -/
example (au payer : Key) (signers : List Key) (e : Err)
    (h : run managed signers [k 1, au, prog, prog, payer, Key.system]
      (.update ⟨none, none, some ⟨.attributes, 4, some [1, 99, 1, 98]⟩⟩) = .error e) : ¬ Crash e := by
  refine C92_steady_partial (E := env managed signers) (accts := [k 1, au, prog, prog, payer, Key.system])
    (i := .update ⟨none, none, some ⟨.attributes, 4, some [1, 99, 1, 98]⟩⟩) (fun x _ => managed_proven x)
    ⟨fun b hb => ?_, fun x hx => ?_⟩ managed_affordable trivial (fun _ => rfl) h
  · cases hb; rfl
  · cases hx
    refine ⟨by decide, by decide, fun x A hx hA => ?_⟩
    cases hx
    have hS : Stores prog managed (k 1) (Asset.of (assetAt managed (k 1))
      [(.attributes, [1, 97, 1, 98]), (.manager, (k 6).1 ++ [3])]) := checkStores_sound (by decide +kernel)
    obtain rfl := hA.unique hS
    refine ⟨show (managed (k 1)).data.length = packedEnd 168 _ by decide +kernel, fun p hp => ?_⟩
    cases hp
    refine ⟨⟨[([99], [98])], by simp [ShortString], rfl⟩, fun o ho => ?_⟩
    cases ho
    exact ⟨[([97], [98])], by simp [ShortString], rfl⟩

end Verif.Props

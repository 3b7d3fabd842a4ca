import Verif.Examples
import Verif.Lemmas.Unasked
import Verif.Props.C27

/-!
# C88 — privileges

More signatures and more write privileges never make an instruction fail, nor change what it does.
Signatures that it does not ask for have no effect at all.
-/

namespace Verif.Props

open Verif Verif.Spec

variable {E E' : Env} {L L' : Ledger} {accts : List Key} {i : Instr}

theorem of_payers {o y : Option Key} {x : Key} (h : x ∈ payers o y) : o = some x := by
  unfold payers at h
  split at h
  · exact Option.mem_toList.mp h
  · cases h

theorem askedFor_sub : ∀ x ∈ askedFor E i accts, x ∈ accts := by
  intro x hx
  have hp : ∀ {p : Key} {y : Option Key}, x ∈ payers (optAcc E p) y → x = p := by
    intro p y h
    have := optAcc_mem (List.mem_singleton_self p) (of_payers h)
    exact List.mem_singleton.mp this
  unfold askedFor at hx
  split at hx
  case h_3 a au o g ga p s l =>
    simp only [List.mem_cons, List.mem_append] at hx ⊢
    rcases hx with hx | hx | hx
    · exact .inl hx
    · simp [hp hx]
    · split at hx
      · rw [List.mem_singleton] at hx
        subst hx
        unfold optAcc
        split <;> simp
      · cases hx
  case h_5 a p s l =>
    simp only [List.mem_cons] at hx ⊢
    rcases hx with hx | hx
    · exact .inl hx
    · simp [hp hx]
  case h_11 x a au b g p s l =>
    simp only [List.mem_cons] at hx ⊢
    rcases hx with hx | hx
    · simp [hx]
    · simp [hp hx]
  case h_18 x a au p s l =>
    simp only [List.mem_cons] at hx ⊢
    rcases hx with hx | hx
    · simp [hx]
    · simp [Option.some.inj (of_payers hx)]
  all_goals
    simp only [List.mem_cons, List.not_mem_nil, or_false] at hx ⊢ <;>
      first | (simp [hx]; done) | (rcases hx with hx | hx <;> simp [hx])

theorem askedFor_take : askedFor E i (accts.take 7) = askedFor E i accts := by
  rcases accts with _ | ⟨a, _ | ⟨b, _ | ⟨c, _ | ⟨d, _ | ⟨e, _ | ⟨f, _ | ⟨g, l⟩⟩⟩⟩⟩⟩⟩ <;>
    cases i <;> rfl

theorem askedIfProxied_of {ks : List Key} {x : Key} (h : ks.head? = some x) (ho : (L x).owner = E.program)
    (hl : 2 < (L x).data.length) (hs : hStandard (L x).data = Standard.proxied.toU8) :
    x ∈ askedIfProxied E L ks := by
  cases ks with
  | nil => cases h
  | cons y l =>
    cases h
    unfold askedIfProxied
    simp only
    rw [if_pos]
    · exact List.mem_singleton_self _
    · refine ⟨ho, ?_⟩
      have : (L x).data[2]? = some (hStandard (L x).data) := by
        unfold hStandard byteAt
        rw [List.getD_eq_getElem?_getD, List.getElem?_eq_getElem hl]
        rfl
      rw [this, hs]
      rfl

theorem env_grant (g : Endows E E' accts T) : E' = E.grant E'.signer E'.writable E'.origLen := by
  obtain ⟨h1, h2, h3, h4, _⟩ := g
  cases E'
  simp only at h1 h2 h3 h4
  subst h1 h2 h3 h4
  rfl

/-- What is accepted is accepted with more privileges on the accounts named, and with any on all
others; and it has the same outcome. -/
theorem C88_more (g : Endows E E' accts accts) (h : execute E L accts i = .ok L') :
    execute E' L accts i = .ok L' := by
  have hm : More E E'.signer E'.writable E'.origLen accts accts := ⟨fun _ h => h, g.signs, g.writes, g.lens⟩
  rw [env_grant g]
  unfold execute at h ⊢
  refine below_bind (more_processInstr accts accts (fun x hx => List.mem_of_mem_take hx) i
    (fun x hx => List.mem_of_mem_take (askedFor_sub x hx)) fun x hx _ _ _ => ?_) (fun M => ?_) L' h
  · exact List.mem_of_mem_take (List.mem_of_mem_head? hx)
  · refine below_when (fun ha => ?_) (below_refl _)
    rw [List.all_eq_true] at ha ⊢
    intro x hx
    have := ha x hx
    unfold changeAllowed at this ⊢
    simp only [Bool.or_eq_true, Bool.and_eq_true, decide_eq_true_eq] at this ⊢
    rcases this with h | ⟨⟨h1, h2⟩, h3⟩
    · exact .inl h
    · refine .inr ⟨⟨g.writes x hx h1, h2⟩, ?_⟩
      rcases h3 with (h3 | ⟨⟨h3, h4⟩, h5⟩) | h3
      · exact .inl (.inl h3)
      · exact .inl (.inr ⟨⟨h3, g.signs x hx h4⟩, h5⟩)
      · exact .inr h3

/-- Privileges on accounts that are not named do not matter. -/
theorem C88_named (g : Endows E E' accts accts) (g' : Endows E' E accts accts) :
    execute E L accts i = .ok L' ↔ execute E' L accts i = .ok L' :=
  ⟨C88_more g, C88_more g'⟩

/-- Nor do signatures that are not asked for: those asked for are enough. -/
theorem C88_asked (hsys : E.program ≠ Key.system) {ks : List Key} (hn : ks.Nodup)
    (hks : ∀ x ∈ accts, x ∈ ks) (ht : sumLamports L ks < 2 ^ 64)
    (g : Endows E E' accts (askedFor E i accts ++ askedIfProxied E L accts))
    (h : execute E L accts i = .ok L') : execute E' L accts i = .ok L' := by
  have hsub : ∀ x ∈ askedFor E i accts ++ askedIfProxied E L accts, x ∈ accts := by
    intro x hx
    rcases List.mem_append.mp hx with hx | hx
    · exact askedFor_sub x hx
    · cases accts with
      | nil => cases hx
      | cons y l =>
        unfold askedIfProxied at hx
        simp only at hx
        split at hx
        · exact List.mem_cons.mpr (.inl (List.mem_singleton.mp hx))
        · cases hx
  have hm : More E E'.signer E'.writable E'.origLen accts (askedFor E i accts ++ askedIfProxied E L accts) :=
    ⟨hsub, g.signs, g.writes, g.lens⟩
  have he := env_grant g
  obtain ⟨M, h1, h2⟩ := bind_ok.mp h
  have h3 : processInstr E' L (accts.take 7) i = .ok M := by
    rw [he]
    refine more_processInstr accts (askedFor E i accts ++ askedIfProxied E L accts)
      (fun x hx => List.mem_of_mem_take hx) i (fun x hx => ?_) (fun x hx ho hl hs => ?_) M h1
    · rw [askedFor_take] at hx
      exact List.mem_append_left _ hx
    · refine List.mem_append_right _ (askedIfProxied_of ?_ ho hl hs)
      cases accts with
      | nil => exact hx
      | cons y l => exact hx
  have hd : dispatch E' L i (accts.take 7) = .ok M := by
    unfold processInstr at h3
    inv at h3
    obtain ⟨_, _, _, _, h3⟩ := h3
    exact h3
  obtain ⟨a, l, hal, hf⟩ := dispatch_first_data hd
  obtain ⟨a', l', hal', eff⟩ := dispatch_effect hd
  rw [hal] at hal'
  cases hal'
  unfold execute
  rw [h3]
  change (if _ then _ else _) = _
  change (if _ then _ else _) = _ at h2
  split at h2
  case isFalse => cases h2
  rename_i ha
  obtain rfl := pure_ok.mp h2
  rw [if_pos]
  · rfl
  rw [List.all_eq_true] at ha ⊢
  intro x hx
  have := ha x hx
  unfold changeAllowed at this ⊢
  simp only [Bool.or_eq_true, Bool.and_eq_true, decide_eq_true_eq] at this ⊢
  rcases this with h | ⟨⟨h1, h2⟩, h3⟩
  · exact .inl h
  · refine .inr ⟨⟨g.writes x hx h1, h2⟩, ?_⟩
    rw [g.program]
    rcases h3 with (h3 | ⟨⟨h3, h4⟩, h5⟩) | h3
    · exact .inl (.inl h3)
    · by_cases hxa : x = a
      · subst hxa
        rcases hf with hf | hf
        · rw [g.program, h3] at hf
          exact absurd hf.symm hsys
        · refine .inl (.inr ⟨⟨h3, g.signs x (List.mem_append_left _ ?_) h4⟩, h5⟩)
          rw [askedFor_take] at hf
          have e : askedFor E' i accts = askedFor E i accts := by rw [env_grant g]; rfl
          rwa [e] at hf
      · by_cases hlt : (M x).lamports < (L x).lamports
        · rw [sumLamports_eq] at ht
          refine .inl (.inr ⟨⟨h3, (eff.loss ks hn (fun y hy => ?_) (fun y hy => ?_) ht x hxa hlt).1⟩, h5⟩)
          · unfold dataKeys at hy
            obtain ⟨p, _, hp⟩ := List.mem_filterMap.mp hy
            exact hks y (List.mem_of_mem_take (List.mem_of_getElem? hp))
          · unfold payKeys at hy
            obtain ⟨p, _, hp⟩ := List.mem_filterMap.mp hy
            exact hks y (List.mem_of_mem_take (List.mem_of_getElem? hp))
        · refine .inr ⟨?_, eff.newOwner x hxa, by omega⟩
          rw [h5]
          refine dispatch_empty hd ?_ h5
          rw [hal]
          exact fun hh => hxa (Option.some.inj hh).symm
    · exact .inr h3

/-! ## Concrete instructions -/

open Verif.Ex

/-- Everybody signs, and everything is writable. -/
example : Endows (env simple [k 2]) (env simple [k 1, k 2, k 3, k 4, k 5]) [k 1, k 2, k 5, prog]
    [k 1, k 2, k 5, prog] := by
  have h : ∀ x ∈ [k 1, k 2, k 5, prog], (env simple [k 2]).signer x = true →
      (env simple [k 1, k 2, k 3, k 4, k 5]).signer x = true := by decide +kernel
  exact ⟨rfl, rfl, rfl, rfl, h, fun _ _ h => h, fun _ _ => rfl⟩

/-- A transfer asks for the signature of the second account only. -/
example : askedFor (env simple []) .transfer [k 1, k 2, k 5, prog] = [k 2] ∧
    askedIfProxied (env simple []) simple [k 1, k 2, k 5, prog] = [] := by decide +kernel

example : (after (run simple [k 2] [k 1, k 2, k 5, prog] .transfer) (k 1)).map (hOwner ·.data) =
      .ok (k 5) ∧
    (after (run simple [k 1, k 2, k 3, k 4, k 5] [k 1, k 2, k 5, prog] .transfer) (k 1)).map
      (hOwner ·.data) = .ok (k 5) := by decide +kernel

/-- A new asset needs its own signature and the payer's; its authority and its owner need not
sign. -/
example : askedFor (env simple []) (.create ⟨[65], .nonFungible, true, none⟩)
    [k 7, k 3, k 2, prog, prog, k 5, Key.system] = [k 7, k 5] := by decide +kernel

/-- Without a signature that is asked for, the transfer is refused. -/
theorem C88_needed : ∃ E E' L L', execute E L [k 1, k 2, k 5, prog] .transfer = .ok L' ∧
    Endows E E' [k 1, k 2, k 5, prog] [k 1, k 5, prog] ∧
    execute E' L [k 1, k 2, k 5, prog] .transfer = .error .missingRequiredSignature := by
  have h : ∃ L', run simple [k 2] [k 1, k 2, k 5, prog] .transfer = .ok L' := by
    have hd : ((run simple [k 2] [k 1, k 2, k 5, prog] .transfer).map fun _ => ()) = .ok () := by
      decide +kernel
    cases hr : run simple [k 2] [k 1, k 2, k 5, prog] .transfer with
    | error e => rw [hr] at hd; cases hd
    | ok L' => exact ⟨L', rfl⟩
  obtain ⟨L', h⟩ := h
  have hs : ∀ x ∈ [k 1, k 5, prog], (env simple [k 2]).signer x = true →
      (env simple []).signer x = true := by decide +kernel
  have hf : ((execute (env simple []) simple [k 1, k 2, k 5, prog] .transfer).map fun _ => ()) =
      .error .missingRequiredSignature := by decide +kernel
  refine ⟨env simple [k 2], env simple [], simple, L', h,
    ⟨rfl, rfl, rfl, rfl, hs, fun _ _ h => h, fun _ _ => rfl⟩, ?_⟩
  cases hr : execute (env simple []) simple [k 1, k 2, k 5, prog] .transfer with
  | error e => rw [hr] at hf; exact congrArg _ (Except.error.inj hf)
  | ok M => rw [hr] at hf; cases hf

end Verif.Props

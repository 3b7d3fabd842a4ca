import Verif.Spec.Constraint
import Verif.Lemmas.Except
import Verif.Lemmas.Bytes

/-!
# Lemmas about constraints: evaluation, building, parsing
-/

namespace Verif

open Verif.Spec

/-! ## Evaluation -/

theorem pick_eq (ctx : CCtx) (a : Nat) (t : Target) :
    ctx.pick a = .ok t ↔ account ctx a = some t := by
  unfold CCtx.pick account
  match a with
  | 0 => simp
  | 1 => simp
  | 2 => cases h : ctx.recipient <;> simp
  | n + 3 => simp

mutual
theorem evalC_holds (ctx : CCtx) (c : Cst) (b : Bool) (h : evalC ctx c = .ok b) :
    b = true ↔ Holds ctx c := by
  match c with
  | .and cs =>
    rw [evalC] at h; rw [Holds]
    exact evalAnd_holds ctx cs b h
  | .or cs =>
    rw [evalC] at h; rw [Holds]
    exact evalOr_holds ctx cs b h
  | .not c =>
    rw [evalC] at h; rw [Holds]
    simp only [bind_ok, pure_ok] at h
    obtain ⟨b', h1, rfl⟩ := h
    have := evalC_holds ctx c b' h1
    cases b' <;> simp_all
  | .ownedBy a owners =>
    rw [evalC] at h; rw [Holds]
    simp only [bind_ok, pure_ok] at h
    obtain ⟨t, h1, rfl⟩ := h
    rw [pick_eq] at h1
    simp [h1]
  | .pubkeyMatch a keys =>
    rw [evalC] at h; rw [Holds]
    simp only [bind_ok, pure_ok] at h
    obtain ⟨t, h1, rfl⟩ := h
    rw [pick_eq] at h1
    simp [h1]
  | .empty =>
    rw [evalC] at h; rw [Holds]
    simp_all

theorem evalAnd_holds (ctx : CCtx) (cs : List Cst) (b : Bool) (h : evalAnd ctx cs = .ok b) :
    b = true ↔ ∀ c ∈ cs, Holds ctx c := by
  match cs with
  | [] => rw [evalAnd] at h; simp_all
  | c :: cs =>
    rw [evalAnd] at h
    simp only [bind_ok] at h
    obtain ⟨r, h1, h2⟩ := h
    have ih1 := evalC_holds ctx c r h1
    cases r with
    | true =>
      simp only [if_true] at h2
      have ih2 := evalAnd_holds ctx cs b h2
      simp_all
    | false =>
      simp [pure_ok] at h2
      simp_all

theorem evalOr_holds (ctx : CCtx) (cs : List Cst) (b : Bool) (h : evalOr ctx cs = .ok b) :
    b = true ↔ ∃ c, ∃ _ : c ∈ cs, Holds ctx c := by
  match cs with
  | [] => rw [evalOr] at h; simp_all
  | c :: cs =>
    rw [evalOr] at h
    simp only [bind_ok] at h
    obtain ⟨r, h1, h2⟩ := h
    have ih1 := evalC_holds ctx c r h1
    cases r with
    | true =>
      simp [pure_ok] at h2
      simp_all
    | false =>
      simp at h2
      have ih2 := evalOr_holds ctx cs b h2
      simp_all
end

mutual
theorem evalC_total (ctx : CCtx) (c : Cst) (h : Scoped ctx c) : ∃ b, evalC ctx c = .ok b := by
  match c with
  | .and cs =>
    rw [Scoped] at h; rw [evalC]
    exact evalAnd_total ctx cs h
  | .or cs =>
    rw [Scoped] at h; rw [evalC]
    exact evalOr_total ctx cs h
  | .not c =>
    rw [Scoped] at h; rw [evalC]
    obtain ⟨b, hb⟩ := evalC_total ctx c h
    exact ⟨!b, by rw [hb]; rfl⟩
  | .ownedBy a owners =>
    rw [Scoped] at h; rw [evalC]
    obtain ⟨t, ht⟩ := Option.isSome_iff_exists.mp h
    rw [← pick_eq] at ht
    exact ⟨_, by rw [bind_ok]; exact ⟨t, ht, rfl⟩⟩
  | .pubkeyMatch a keys =>
    rw [Scoped] at h; rw [evalC]
    obtain ⟨t, ht⟩ := Option.isSome_iff_exists.mp h
    rw [← pick_eq] at ht
    exact ⟨_, by rw [bind_ok]; exact ⟨t, ht, rfl⟩⟩
  | .empty => rw [evalC]; exact ⟨_, rfl⟩

theorem evalAnd_total (ctx : CCtx) (cs : List Cst) (h : ∀ c ∈ cs, Scoped ctx c) :
    ∃ b, evalAnd ctx cs = .ok b := by
  match cs with
  | [] => rw [evalAnd]; exact ⟨_, rfl⟩
  | c :: cs =>
    obtain ⟨r, hr⟩ := evalC_total ctx c (h c (by simp))
    obtain ⟨b, hb⟩ := evalAnd_total ctx cs (fun c hc => h c (by simp [hc]))
    rw [evalAnd]
    cases r with
    | true => exact ⟨b, by simp [bind_ok, hr, hb]⟩
    | false => exact ⟨false, by simp [bind_ok, pure_ok, hr]⟩

theorem evalOr_total (ctx : CCtx) (cs : List Cst) (h : ∀ c ∈ cs, Scoped ctx c) :
    ∃ b, evalOr ctx cs = .ok b := by
  match cs with
  | [] => rw [evalOr]; exact ⟨_, rfl⟩
  | c :: cs =>
    obtain ⟨r, hr⟩ := evalC_total ctx c (h c (by simp))
    obtain ⟨b, hb⟩ := evalOr_total ctx cs (fun c hc => h c (by simp [hc]))
    rw [evalOr]
    cases r with
    | false => exact ⟨b, by simp [bind_ok, hr, hb]⟩
    | true => exact ⟨true, by simp [bind_ok, pure_ok, hr]⟩
end

mutual
theorem evalC_err (ctx : CCtx) (c : Cst) (e : Err) (h : evalC ctx c = .error e) :
    e = .notEnoughAccountKeys ∨ e = .undef := by
  have pe : ∀ a e, ctx.pick a = .error e → e = .notEnoughAccountKeys ∨ e = .undef := by
    intro a e h
    unfold CCtx.pick at h
    split at h
    · cases h
    split at h
    · cases h
    split at h
    · split at h <;> simp_all
    · simp_all
  match c with
  | .and cs => rw [evalC] at h; exact evalAnd_err ctx cs e h
  | .or cs => rw [evalC] at h; exact evalOr_err ctx cs e h
  | .not c =>
    rw [evalC] at h
    cases h1 : evalC ctx c with
    | error e' =>
      rw [h1] at h; simp [bind, Except.bind] at h; subst h
      exact evalC_err ctx c e' h1
    | ok b => rw [h1] at h; simp [bind, Except.bind, pure, Except.pure] at h
  | .ownedBy a owners =>
    rw [evalC] at h
    cases h1 : ctx.pick a with
    | error e' =>
      rw [h1] at h; simp [bind, Except.bind] at h; subst h
      exact pe a e' h1
    | ok b => rw [h1] at h; simp [bind, Except.bind, pure, Except.pure] at h
  | .pubkeyMatch a keys =>
    rw [evalC] at h
    cases h1 : ctx.pick a with
    | error e' =>
      rw [h1] at h; simp [bind, Except.bind] at h; subst h
      exact pe a e' h1
    | ok b => rw [h1] at h; simp [bind, Except.bind, pure, Except.pure] at h
  | .empty => rw [evalC] at h; cases h

theorem evalAnd_err (ctx : CCtx) (cs : List Cst) (e : Err) (h : evalAnd ctx cs = .error e) :
    e = .notEnoughAccountKeys ∨ e = .undef := by
  match cs with
  | [] => rw [evalAnd] at h; cases h
  | c :: cs =>
    rw [evalAnd] at h
    cases h1 : evalC ctx c with
    | error e' =>
      rw [h1] at h; simp [bind, Except.bind] at h; subst h
      exact evalC_err ctx c e' h1
    | ok b =>
      rw [h1] at h
      cases b with
      | true => exact evalAnd_err ctx cs e (by simpa [bind, Except.bind] using h)
      | false => simp [bind, Except.bind, pure, Except.pure] at h

theorem evalOr_err (ctx : CCtx) (cs : List Cst) (e : Err) (h : evalOr ctx cs = .error e) :
    e = .notEnoughAccountKeys ∨ e = .undef := by
  match cs with
  | [] => rw [evalOr] at h; cases h
  | c :: cs =>
    rw [evalOr] at h
    cases h1 : evalC ctx c with
    | error e' =>
      rw [h1] at h; simp [bind, Except.bind] at h; subst h
      exact evalC_err ctx c e' h1
    | ok b =>
      rw [h1] at h
      cases b with
      | false => exact evalOr_err ctx cs e (by simpa [bind, Except.bind] using h)
      | true => simp [bind, Except.bind, pure, Except.pure] at h
end

/-! ## Building -/

/-- An operator on the wire: type, content length, content. -/
def opBytes (ty : Nat) (body : Bytes) : Bytes := toLE 4 ty ++ toLE 4 body.length ++ body

theorem length_opBytes (ty : Nat) (body : Bytes) : (opBytes ty body).length = 8 + body.length := by
  simp [opBytes, length_toLE]; omega

theorem opBuild_eq (ty : Nat) (hd body : Bytes) (h : hd.length = 8) :
    opBuild ty (hd ++ body) = opBytes ty body := by
  unfold opBuild opBytes
  have hne : (hd ++ body).isEmpty = false := by
    cases hd with
    | nil => simp at h
    | cons a l => rfl
  have h4 := length_toLE 4 ty
  simp only [hne, Bool.false_eq_true, if_false]
  have e1 : splice (hd ++ body) 0 (toLE 4 ty) = toLE 4 ty ++ hd.drop 4 ++ body := by
    unfold splice
    simp [length_toLE, List.drop_append, h]
  rw [e1]
  unfold splice
  have hl : (hd ++ body).length - 8 = body.length := by simp [h]
  rw [hl]
  simp [length_toLE, List.drop_append, h, h4]

theorem opBuild_nil (ty : Nat) : opBuild ty [] = opBytes ty [] := by
  have := opBuild_eq ty (zeros 8) [] (by simp [zeros])
  rw [← this]; rfl

theorem buildL_eq (buf : Bytes) (cs : List Cst) :
    buildL buf cs = buf ++ cs.flatMap buildC := by
  induction cs generalizing buf with
  | nil => simp [buildL]
  | cons c cs ih => rw [buildL, ih]; simp [listBuilderAdd]

theorem buildC_and (cs : List Cst) : buildC (.and cs) = opBytes 0 (cs.flatMap buildC) := by
  rw [buildC, buildL_eq, listBuilderDefault, opBuild_eq _ _ _ (by simp [zeros])]

theorem buildC_or (cs : List Cst) : buildC (.or cs) = opBytes 2 (cs.flatMap buildC) := by
  rw [buildC, buildL_eq, listBuilderDefault, opBuild_eq _ _ _ (by simp [zeros])]

theorem buildC_not (c : Cst) : buildC (.not c) = opBytes 1 (buildC c) := by
  rw [buildC, notBuilderSet, opBuild_eq _ _ _ (by simp [reallocBytes, zeros])]

/-- Content of a leaf operator. -/
def keyBody (a : Nat) (ks : List Key) : Bytes := toLE 8 a ++ ks.flatMap (·.1)

theorem buildC_ownedBy (a : Nat) (ks : List Key) :
    buildC (.ownedBy a ks) = opBytes 3 (keyBody a ks) := by
  rw [buildC, keysBuilderSet, List.append_assoc,
    opBuild_eq _ _ _ (by simp [reallocBytes, zeros]), keyBody]

theorem buildC_pubkeyMatch (a : Nat) (ks : List Key) :
    buildC (.pubkeyMatch a ks) = opBytes 4 (keyBody a ks) := by
  rw [buildC, keysBuilderSet, List.append_assoc,
    opBuild_eq _ _ _ (by simp [reallocBytes, zeros]), keyBody]

theorem buildC_empty : buildC .empty = opBytes 5 [] := by
  rw [buildC, opBuild_nil]

theorem length_buildC_ge (c : Cst) : 8 ≤ (buildC c).length := by
  cases c <;>
    simp only [buildC_and, buildC_or, buildC_not, buildC_ownedBy, buildC_pubkeyMatch, buildC_empty,
      length_opBytes] <;> omega

/-! ## Parsing what was built -/

theorem slice_append_left (a b : Bytes) (n : Nat) (h : n = a.length) : slice (a ++ b) 0 n = a := by
  subst h; simp [slice]

theorem slice_append_right (a b : Bytes) (o n : Nat) (h : o = a.length) :
    slice (a ++ b) o n = b.take n := by
  subst h; simp [slice]

theorem keysFrom_flatMap (ks : List Key) (n : Nat) (h : n = ks.length) :
    keysFrom n (ks.flatMap (·.1)) = ks := by
  subst h
  induction ks with
  | nil => rfl
  | cons k ks ih =>
    simp only [List.length_cons, keysFrom, List.flatMap_cons]
    rw [List.take_left' k.2, List.drop_left' k.2, ofBytes_key, ih]

theorem length_flatMap_keys (ks : List Key) : (ks.flatMap (·.1)).length = 32 * ks.length := by
  induction ks with
  | nil => rfl
  | cons k ks ih => simp only [List.flatMap_cons, List.length_append, ih, k.2, List.length_cons]; omega

theorem parseKeys_keyBody (a : Nat) (ks : List Key) (ha : a < 2 ^ 64) :
    parseKeys (keyBody a ks) = .ok (a, ks) := by
  have hl : (keyBody a ks).length = 8 + 32 * ks.length := by
    rw [keyBody, List.length_append, length_toLE, length_flatMap_keys]
  unfold parseKeys
  rw [if_neg (by omega), if_neg (by omega)]
  have h1 : u64At (keyBody a ks) 0 = a := by
    unfold u64At keyBody
    rw [slice_append_left _ _ _ (length_toLE 8 a).symm, leNat_toLE_of_lt (by omega)]
  have h2 : (keyBody a ks).drop 8 = ks.flatMap (·.1) := by
    unfold keyBody; exact List.drop_left' (length_toLE 8 a)
  rw [h1, h2, hl, keysFrom_flatMap _ _ (by omega)]

/-- One operator read from its bytes followed by anything. -/
theorem parseC_op (fuel ty : Nat) (body rest : Bytes) (hty : ty ≤ 5) (hb : body.length < 2 ^ 32) :
    parseC (fuel + 1) (opBytes ty body ++ rest) =
      (if ty = 0 then do return (Cst.and (← parseL fuel body), 8 + body.length)
        else if ty = 1 then do return (Cst.not (← parseC fuel body).1, 8 + body.length)
        else if ty = 2 then do return (Cst.or (← parseL fuel body), 8 + body.length)
        else if ty = 3 then do
          let (a, ks) ← parseKeys body
          return (Cst.ownedBy a ks, 8 + body.length)
        else if ty = 4 then do
          let (a, ks) ← parseKeys body
          return (Cst.pubkeyMatch a ks, 8 + body.length)
        else return (Cst.empty, 8 + body.length)) := by
  have hl := length_opBytes ty body
  rw [parseC, if_neg (by rw [List.length_append]; omega)]
  have h0 : u32At (opBytes ty body ++ rest) 0 = ty := by
    unfold u32At opBytes
    rw [List.append_assoc, List.append_assoc,
      slice_append_left _ _ _ (length_toLE 4 ty).symm, leNat_toLE_of_lt (by omega)]
  have h4 : u32At (opBytes ty body ++ rest) 4 = body.length := by
    unfold u32At opBytes
    rw [List.append_assoc, List.append_assoc, slice_append_right _ _ _ _ (length_toLE 4 ty).symm,
      List.take_left' (length_toLE 4 _), leNat_toLE_of_lt (by omega)]
  have hbody : ((opBytes ty body ++ rest).drop 8).take body.length = body := by
    unfold opBytes
    rw [List.append_assoc, List.drop_left' (by simp [length_toLE]), List.take_left' rfl]
  simp only [h0, h4, hbody]
  rw [if_neg (by omega), if_neg (by rw [List.length_append]; omega)]

mutual
theorem parseC_buildC (c : Cst) (fuel : Nat) (rest : Bytes) (hf : (buildC c).length ≤ fuel)
    (hs : SelectorsFit c) (hl : (buildC c).length ≤ 2 ^ 32) :
    parseC fuel (buildC c ++ rest) = .ok (c, (buildC c).length) := by
  have h8 := length_buildC_ge c
  obtain ⟨n, rfl⟩ : ∃ n, fuel = n + 1 := ⟨fuel - 1, by omega⟩
  match c with
  | .and cs =>
    rw [buildC_and] at *
    rw [length_opBytes] at *
    rw [SelectorsFit] at hs
    rw [parseC_op _ _ _ _ (by omega) (by omega)]
    simp only [if_true]
    rw [parseL_flatMap cs n (by omega) hs (by omega)]
    rfl
  | .or cs =>
    rw [buildC_or] at *
    rw [length_opBytes] at *
    rw [SelectorsFit] at hs
    rw [parseC_op _ _ _ _ (by omega) (by omega)]
    simp only [Nat.reduceEqDiff, if_false, if_true]
    rw [parseL_flatMap cs n (by omega) hs (by omega)]
    rfl
  | .not c =>
    rw [buildC_not] at *
    rw [length_opBytes] at *
    rw [SelectorsFit] at hs
    rw [parseC_op _ _ _ _ (by omega) (by omega)]
    have := parseC_buildC c n [] (by omega) hs (by omega)
    rw [List.append_nil] at this
    rw [this]
    rfl
  | .ownedBy a ks =>
    rw [buildC_ownedBy] at *
    rw [length_opBytes] at *
    rw [SelectorsFit] at hs
    rw [parseC_op _ _ _ _ (by omega) (by omega), parseKeys_keyBody a ks hs]
    rfl
  | .pubkeyMatch a ks =>
    rw [buildC_pubkeyMatch] at *
    rw [length_opBytes] at *
    rw [SelectorsFit] at hs
    rw [parseC_op _ _ _ _ (by omega) (by omega), parseKeys_keyBody a ks hs]
    rfl
  | .empty =>
    rw [buildC_empty] at *
    rw [parseC_op _ _ _ _ (by omega) (by simp)]
    rfl

theorem parseL_flatMap (cs : List Cst) (fuel : Nat) (hf : (cs.flatMap buildC).length + 1 ≤ fuel)
    (hs : ∀ c ∈ cs, SelectorsFit c) (hl : (cs.flatMap buildC).length ≤ 2 ^ 32) :
    parseL fuel (cs.flatMap buildC) = .ok cs := by
  obtain ⟨n, rfl⟩ : ∃ n, fuel = n + 1 := ⟨fuel - 1, by omega⟩
  match cs with
  | [] => rw [parseL]; rfl
  | c :: cs =>
    have h8 := length_buildC_ge c
    simp only [List.flatMap_cons, List.length_append] at hf hl ⊢
    rw [parseL, if_neg (by
      simp only [List.isEmpty_iff]; intro h
      have := congrArg List.length h
      rw [List.length_append, List.length_nil] at this; omega)]
    rw [parseC_buildC c n _ (by omega) (hs c (by simp)) (by omega)]
    have := parseL_flatMap cs n (by omega) (fun c hc => hs c (by simp [hc])) (by omega)
    simp only [bind, Except.bind]
    rw [List.drop_left' rfl, this]
    rfl
end

/-! ## Writing back -/

mutual
theorem asBytesC_eq (c : Cst) (h : NotFree c) : asBytesC c = buildC c := by
  match c with
  | .and cs =>
    rw [NotFree] at h
    rw [buildC_and, asBytesC, asBytesL_eq cs h]; rfl
  | .or cs =>
    rw [NotFree] at h
    rw [buildC_or, asBytesC, asBytesL_eq cs h]; rfl
  | .not c => rw [NotFree] at h; exact h.elim
  | .ownedBy a ks => rw [buildC_ownedBy, asBytesC]; rfl
  | .pubkeyMatch a ks => rw [buildC_pubkeyMatch, asBytesC]; rfl
  | .empty => rw [buildC_empty, asBytesC]; rfl

theorem asBytesL_eq (cs : List Cst) (h : ∀ c ∈ cs, NotFree c) :
    asBytesL cs = cs.flatMap buildC := by
  match cs with
  | [] => rw [asBytesL]; rfl
  | c :: cs =>
    rw [asBytesL, asBytesC_eq c (h c (by simp)), asBytesL_eq cs (fun c hc => h c (by simp [hc]))]
    rfl
end

/-! ## Enough fuel -/

theorem parseC_size (fuel : Nat) (b : Bytes) (c : Cst) (n : Nat)
    (h : parseC fuel b = .ok (c, n)) : 8 ≤ n := by
  cases fuel with
  | zero => rw [parseC] at h; cases h
  | succ f =>
    rw [parseC] at h
    simp only [ite_error_ok] at h
    obtain ⟨-, -, -, h⟩ := h
    repeat' split at h
    all_goals
      first
        | (simp only [bind_ok, pure_ok, Prod.mk.injEq] at h
           obtain ⟨_, _, _, h⟩ := h
           omega)
        | (simp only [pure_ok, Prod.mk.injEq] at h
           omega)

theorem parse_fuel (fuel : Nat) :
    (∀ b : Bytes, b.length + 1 ≤ fuel → parseC fuel b ≠ .error .diverge) ∧
    (∀ b : Bytes, b.length + 2 ≤ fuel → parseL fuel b ≠ .error .diverge) := by
  induction fuel with
  | zero => exact ⟨fun b h => by omega, fun b h => by omega⟩
  | succ n ih =>
    obtain ⟨ihC, ihL⟩ := ih
    constructor
    · intro b h
      rw [parseC]
      split
      · simp
      simp only
      split
      · simp
      split
      · simp
      have hb : ((b.drop 8).take (u32At b 4)).length ≤ b.length - 8 := by simp; omega
      have h1 := ihC ((b.drop 8).take (u32At b 4)) (by omega)
      have h2 := ihL ((b.drop 8).take (u32At b 4)) (by omega)
      have hk : ∀ x, parseKeys x ≠ .error .diverge := by
        intro x; unfold parseKeys; repeat' split
        all_goals simp
      have h3 := hk ((b.drop 8).take (u32At b 4))
      generalize (b.drop 8).take (u32At b 4) = body at *
      repeat' split
      · cases h : parseL n body <;> simp_all [bind, Except.bind, pure, Except.pure]
      · cases h : parseC n body <;> simp_all [bind, Except.bind, pure, Except.pure]
      · cases h : parseL n body <;> simp_all [bind, Except.bind, pure, Except.pure]
      · cases h : parseKeys body <;> simp_all [bind, Except.bind, pure, Except.pure]
      · cases h : parseKeys body <;> simp_all [bind, Except.bind, pure, Except.pure]
      · simp [pure, Except.pure]
    · intro b h
      rw [parseL]
      split
      · simp
      · have h1 := ihC b (by omega)
        cases hc : parseC n b with
        | error e => rw [hc] at h1; simpa [bind, Except.bind] using h1
        | ok r =>
          obtain ⟨c, s⟩ := r
          have hs := parseC_size _ _ _ _ hc
          have hne : 0 < b.length := by
            cases b with
            | nil => simp_all
            | cons x xs => simp
          have h2 := ihL (b.drop s) (by simp; omega)
          cases hl : parseL n (b.drop s) with
          | error e => rw [hl] at h2; simpa [bind, Except.bind, hl] using h2
          | ok r => simp [bind, Except.bind, hl, pure, Except.pure]

end Verif

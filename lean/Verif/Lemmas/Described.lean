import Verif.Lemmas.Wire
import Verif.Spec.Described

/-!
# Instructions built from the description: lemmas
-/

namespace Verif

open Verif.Spec

theorem put_extType (n : Nat) (t : ExtType) :
    putNode codamaTypes (n + 2) (.link "extensionType") (.variant (extName t) none) = some [t.tag] := by
  cases t <;> rfl

theorem put_standard (n : Nat) (t : Standard) :
    putNode codamaTypes (n + 2) (.link "standard") (.variant (standardName t) none) = some [t.tag] := by
  cases t <;> rfl

theorem put_role (n : Nat) (t : Role) :
    putNode codamaTypes (n + 2) (.link "delegateRole") (.variant (roleName t) none) = some [t.tag] := by
  cases t <;> rfl

theorem put_bool (n : Nat) (b : Bool) :
    putNode codamaTypes (n + 1) (.bool 1) (.bool b) = some (encBool b) := by
  cases b <;> rfl

theorem put_bytes {b : Bytes} (n : Nat) (h : Short b) :
    putNode codamaTypes (n + 2) (.sized 4 .bytes) (.bytes b) = some (encBytes b) := by
  simp only [putNode, bind, Option.bind, putNum]
  rw [if_pos (show b.length < 256 ^ 4 from h)]
  rfl

theorem put_text {b : Bytes} (n : Nat) (h : Text b) :
    putNode codamaTypes (n + 2) (.sized 4 .string) (.bytes b) = some (encBytes b) := by
  simp only [putNode, bind, Option.bind, putNum, h.2, if_true]
  rw [if_pos (show b.length < 256 ^ 4 from h.1)]
  rfl

theorem put_maybe {α : Type} {f : α → NodeVal} {g : α → Bytes} {t : NodeType} {n : Nat} {o : Option α}
    (h : ∀ a, o = some a → putNode codamaTypes n t (f a) = some (g a)) :
    putNode codamaTypes (n + 1) (.option 1 t) (maybe f o) = some (encOpt g o) := by
  cases o with
  | none => rfl
  | some a =>
    simp only [putNode, maybe, h a rfl]
    rfl

theorem putAll_map {α : Type} {f : α → NodeVal} {g : α → Bytes} {p : NodeVal → Option Bytes}
    {l : List α} (h : ∀ a ∈ l, p (f a) = some (g a)) : putAll p (l.map f) = some (l.flatMap g) := by
  induction l with
  | nil => rfl
  | cons a l ih =>
    simp only [List.map_cons, putAll, h a (by simp), ih fun b hb => h b (by simp [hb])]
    rfl

theorem put_list {α : Type} {f : α → NodeVal} {g : α → Bytes} {t : NodeType} {n : Nat} {l : List α}
    (hs : Short l) (h : ∀ a ∈ l, putNode codamaTypes n t (f a) = some (g a)) :
    putNode codamaTypes (n + 1) (.array (.counted 4) t) (.list (l.map f)) = some (encVec g l) := by
  simp only [putNode, putAll_map h, putNum, List.length_map]
  rw [if_pos (show l.length < 256 ^ 4 from hs)]
  rfl

theorem put_u32 (n : Nat) (v : UInt32) :
    putNode codamaTypes (n + 1) (.num 4) (.num v.toNat) = some (toLE 4 v.toNat) := by
  simp only [putNode, putNum]
  rw [if_pos (show v.toNat < 256 ^ 4 from v.toNat_lt)]

theorem put_ext {x : ExtInput} (n : Nat) (h : ExtOk x) :
    putNode codamaTypes (n + 5) (.link "extensionInput") (extValue x) = some (encExtInput x) := by
  have e : putNode codamaTypes (n + 5) (.link "extensionInput") (extValue x) =
      putFields (putNode codamaTypes (n + 3)) [("extensionType", .variant (extName x.ty) none),
        ("length", .num x.length.toNat), ("data", maybe .bytes x.data)]
        [("extensionType", .link "extensionType"), ("length", .num 4),
          ("data", .option 1 (.sized 4 (.bytes)))] := rfl
  rw [e]
  have l1 (a b c : NodeVal) : List.lookup "extensionType"
    [("extensionType", a), ("length", b), ("data", c)] = some a := rfl
  have l2 (a b c : NodeVal) : List.lookup "length"
    [("extensionType", a), ("length", b), ("data", c)] = some b := rfl
  have l3 (a b c : NodeVal) : List.lookup "data"
    [("extensionType", a), ("length", b), ("data", c)] = some c := rfl
  simp only [putFields, l1, l2, l3, put_extType, put_u32,
    put_maybe (fun b hb => put_bytes n (h b hb)), bind, Option.bind, pure]
  simp [encExtInput]

theorem put_delegate {x : DelegateInput} (n : Nat) (h : RolesOk x) :
    putNode codamaTypes (n + 6) (.link "delegateInput") (delegateValue x) =
      some (encDelegateInput x) := by
  cases x with
  | all => rfl
  | some rs =>
    have e : putNode codamaTypes (n + 6) (.link "delegateInput") (delegateValue (.some rs)) =
      (do let b ← (do
            let b ← putNode codamaTypes (n + 3) (.array (.counted 4) (.link "delegateRole"))
              (.list (rs.map fun r => .variant (roleName r) none))
            let r ← some []
            some (b ++ r))
          some ([1] ++ b)) := rfl
    rw [e, put_list h (fun r _ => put_role n r)]
    simp [encDelegateInput]

theorem put_strategy {x : Strategy} (n : Nat) :
    putNode codamaTypes (n + 4) (.link "strategy") (strategyValue x) = some (encStrategy x) := by
  cases x with
  | trim => rfl
  | extend v =>
    have e : putNode codamaTypes (n + 4) (.link "strategy") (strategyValue (.extend v)) =
      (do let b ← (do
            let b ← putNum 2 v.toNat
            let r ← some []
            some (b ++ r))
          some ([1] ++ b)) := rfl
    rw [e, putNum, if_pos (show v.toNat < 256 ^ 2 from v.toNat_lt)]
    simp [encStrategy]

/-! ## The other direction: what can be built at all -/

section Inverse
variable {types : List (String × NodeType)} {n : Nat} {v : NodeVal} {bs : Bytes}

theorem putNum_some {w k : Nat} : putNum w k = some bs ↔ k < 256 ^ w ∧ toLE w k = bs := by
  unfold putNum
  split
  · rename_i h; simp [h]
  · rename_i h; simp [h]

theorem findVariant_some {name : String} {vs : List (String × Option NodeType)} {i j : Nat}
    {t : Option NodeType} (h : findVariant name i vs = some (j, t)) :
    ∃ k, j = i + k ∧ ∃ m, vs[k]? = some (m, t) := by
  induction vs generalizing i with
  | nil => cases h
  | cons x vs ih =>
    obtain ⟨m, u⟩ := x
    unfold findVariant at h
    split at h
    · cases h; exact ⟨0, rfl, m, rfl⟩
    · obtain ⟨k, hk, m', hm⟩ := ih h
      exact ⟨k + 1, by omega, m', by simpa using hm⟩

theorem putNode_enum {w : Nat} {vs : List (String × Option NodeType)}
    (h : putNode types (n + 1) (.enum w vs) v = some bs) :
    ∃ k m t, vs[k]? = some (m, t) ∧ k < 256 ^ w ∧ (t = none ∧ bs = toLE w k ∨
      ∃ t' v' b, t = some t' ∧ putNode types n t' v' = some b ∧ bs = toLE w k ++ b) := by
  cases v with
  | variant name o =>
    simp only [putNode, bind, Option.bind_eq_some_iff] at h
    obtain ⟨⟨i, t⟩, hf, p, hp, h⟩ := h
    obtain ⟨k, rfl, m, hm⟩ := findVariant_some hf
    obtain ⟨hk, rfl⟩ := putNum_some.mp hp
    rw [Nat.zero_add] at hk h
    refine ⟨k, m, t, hm, hk, ?_⟩
    cases t with
    | none =>
      cases o with
      | none => exact .inl ⟨rfl, (Option.some.inj h).symm⟩
      | some _ => cases h
    | some t' =>
      cases o with
      | none => cases h
      | some v' =>
        simp only [Option.bind_eq_some_iff] at h
        obtain ⟨b, hb, h⟩ := h
        exact .inr ⟨t', v', b, rfl, hb, (Option.some.inj h).symm⟩
  | _ => simp [putNode] at h

theorem putNode_link {name : String} :
    putNode types (n + 1) (.link name) v = (types.lookup name).bind fun t => putNode types n t v := by
  cases v <;> rfl

theorem putNode_num {w : Nat} (h : putNode types (n + 1) (.num w) v = some bs) :
    ∃ k, k < 256 ^ w ∧ bs = toLE w k := by
  cases v with
  | num k => exact ⟨k, (putNum_some.mp h).1, (putNum_some.mp h).2.symm⟩
  | _ => simp [putNode] at h

theorem putNode_bool (h : putNode types (n + 1) (.bool 1) v = some bs) : ∃ b, bs = encBool b := by
  cases v with
  | bool b => exact ⟨b, by cases b <;> cases h <;> rfl⟩
  | _ => simp [putNode] at h

theorem putNode_sized {w : Nat} {t : NodeType} (h : putNode types (n + 1) (.sized w t) v = some bs) :
    ∃ b, putNode types n t v = some b ∧ b.length < 256 ^ w ∧ bs = toLE w b.length ++ b := by
  have e : putNode types (n + 1) (.sized w t) v = (do
    let b ← putNode types n t v
    let p ← putNum w b.length
    return p ++ b) := by cases v <;> rfl
  rw [e] at h
  simp only [bind, Option.bind_eq_some_iff] at h
  obtain ⟨b, hb, p, hp, h⟩ := h
  obtain ⟨hl, rfl⟩ := putNum_some.mp hp
  exact ⟨b, hb, hl, (Option.some.inj h).symm⟩

theorem putNode_bytes (h : putNode types (n + 2) (.sized 4 .bytes) v = some bs) :
    ∃ b, Short b ∧ bs = encBytes b := by
  obtain ⟨b, _, hl, rfl⟩ := putNode_sized h
  exact ⟨b, hl, rfl⟩

theorem putNode_text (h : putNode types (n + 2) (.sized 4 .string) v = some bs) :
    ∃ b, Text b ∧ bs = encBytes b := by
  obtain ⟨b, hb, hl, rfl⟩ := putNode_sized h
  refine ⟨b, ⟨hl, ?_⟩, rfl⟩
  cases v with
  | bytes s =>
    simp only [putNode] at hb
    split at hb
    · cases hb; assumption
    · cases hb
  | _ => simp [putNode] at hb

theorem putNode_option {α : Type} {P : α → Prop} {g : α → Bytes} {t : NodeType}
    (ht : ∀ v bs, putNode types n t v = some bs → ∃ a, P a ∧ bs = g a)
    (h : putNode types (n + 1) (.option 1 t) v = some bs) : ∃ o, IfAny P o ∧ bs = encOpt g o := by
  cases v with
  | absent => exact ⟨none, fun _ h => (by cases h), (Option.some.inj h).symm⟩
  | present v =>
    simp only [putNode, bind, Option.bind_eq_some_iff] at h
    obtain ⟨p, hp, b, hb, h⟩ := h
    obtain ⟨a, ha, rfl⟩ := ht _ _ hb
    cases hp; cases h
    exact ⟨some a, fun _ h => (by cases h; exact ha), rfl⟩
  | _ => simp [putNode] at h

theorem putAll_some {α : Type} {P : α → Prop} {g : α → Bytes} {p : NodeVal → Option Bytes}
    (ht : ∀ v bs, p v = some bs → ∃ a, P a ∧ bs = g a) {vs : List NodeVal}
    (h : putAll p vs = some bs) :
    ∃ l : List α, l.length = vs.length ∧ (∀ a ∈ l, P a) ∧ bs = l.flatMap g := by
  induction vs generalizing bs with
  | nil => exact ⟨[], rfl, fun _ h => (by cases h), (Option.some.inj h).symm⟩
  | cons v vs ih =>
    simp only [putAll, bind, Option.bind_eq_some_iff] at h
    obtain ⟨b, hb, r, hr, h⟩ := h
    obtain ⟨a, ha, rfl⟩ := ht _ _ hb
    obtain ⟨l, hl, hP, rfl⟩ := ih hr
    cases h
    refine ⟨a :: l, by simp [hl], ?_, rfl⟩
    intro c hc
    rcases List.mem_cons.mp hc with rfl | hc
    · exact ha
    · exact hP c hc

theorem putNode_list {α : Type} {P : α → Prop} {g : α → Bytes} {t : NodeType}
    (ht : ∀ v bs, putNode types n t v = some bs → ∃ a, P a ∧ bs = g a)
    (h : putNode types (n + 1) (.array (.counted 4) t) v = some bs) :
    ∃ l, (Short l ∧ ∀ a ∈ l, P a) ∧ bs = encVec g l := by
  cases v with
  | list vs =>
    simp only [putNode, bind, Option.bind_eq_some_iff] at h
    obtain ⟨p, hp, b, hb, h⟩ := h
    obtain ⟨l, hl, hP, rfl⟩ := putAll_some ht hb
    obtain ⟨hk, rfl⟩ := putNum_some.mp hp
    cases h
    exact ⟨l, ⟨by unfold Short; rw [hl]; exact hk, hP⟩, by rw [encVec, hl]⟩
  | _ => simp [putNode] at h

theorem putFields_cons {put : NodeType → NodeVal → Option Bytes} {vs : List (String × NodeVal)}
    {name : String} {t : NodeType} {fs : List (String × NodeType)}
    (h : putFields put vs ((name, t) :: fs) = some bs) :
    ∃ v b r, put t v = some b ∧ putFields put vs fs = some r ∧ bs = b ++ r := by
  simp only [putFields, bind, Option.bind_eq_some_iff] at h
  obtain ⟨v, _, b, hb, r, hr, h⟩ := h
  exact ⟨v, b, r, hb, hr, (Option.some.inj h).symm⟩

theorem putNode_struct {fs : List (String × NodeType)}
    (h : putNode types (n + 1) (.struct fs) v = some bs) :
    ∃ vs, putFields (putNode types n) vs fs = some bs := by
  cases v with
  | fields vs => exact ⟨vs, h⟩
  | _ => simp [putNode] at h

theorem unput_extType (h : putNode codamaTypes (n + 2) (.link "extensionType") v = some bs) :
    ∃ t : ExtType, bs = [t.tag] := by
  rw [putNode_link] at h
  obtain ⟨k, m, t, hk, _, e⟩ := putNode_enum h
  clear h
  rcases k with _ | _ | _ | _ | _ | _ | _ | _ | _ | _ | _ | _ | k
  case succ => cases hk
  all_goals
    cases hk
    obtain ⟨_, h⟩ | ⟨_, _, _, h, _⟩ := e
    rotate_left
    · cases h
    rw [h]
  · exact ⟨.none, rfl⟩
  · exact ⟨.attributes, rfl⟩
  · exact ⟨.blob, rfl⟩
  · exact ⟨.creators, rfl⟩
  · exact ⟨.links, rfl⟩
  · exact ⟨.metadata, rfl⟩
  · exact ⟨.grouping, rfl⟩
  · exact ⟨.royalties, rfl⟩
  · exact ⟨.manager, rfl⟩
  · exact ⟨.proxy, rfl⟩
  · exact ⟨.properties, rfl⟩
  · exact ⟨.bucket, rfl⟩

theorem unput_standard (h : putNode codamaTypes (n + 2) (.link "standard") v = some bs) :
    ∃ t : Standard, bs = [t.tag] := by
  rw [putNode_link] at h
  obtain ⟨k, m, t, hk, _, e⟩ := putNode_enum h
  clear h
  rcases k with _ | _ | _ | _ | k
  case succ => cases hk
  all_goals
    cases hk
    obtain ⟨_, h⟩ | ⟨_, _, _, h, _⟩ := e
    rotate_left
    · cases h
    rw [h]
  · exact ⟨.nonFungible, rfl⟩
  · exact ⟨.managed, rfl⟩
  · exact ⟨.soulbound, rfl⟩
  · exact ⟨.proxied, rfl⟩

theorem unput_role (h : putNode codamaTypes (n + 2) (.link "delegateRole") v = some bs) :
    ∃ t : Role, bs = [t.tag] := by
  rw [putNode_link] at h
  obtain ⟨k, m, t, hk, _, e⟩ := putNode_enum h
  clear h
  rcases k with _ | _ | _ | _ | k
  case succ => cases hk
  all_goals
    cases hk
    obtain ⟨_, h⟩ | ⟨_, _, _, h, _⟩ := e
    rotate_left
    · cases h
    rw [h]
  · exact ⟨.none, rfl⟩
  · exact ⟨.transfer, rfl⟩
  · exact ⟨.lock, rfl⟩
  · exact ⟨.burn, rfl⟩

theorem unput_ext (h : putNode codamaTypes (n + 5) (.link "extensionInput") v = some bs) :
    ∃ x : ExtInput, ExtOk x ∧ bs = encExtInput x := by
  rw [putNode_link] at h
  obtain ⟨vs, hs⟩ := putNode_struct h
  clear h
  obtain ⟨_, b1, _, h1, e1, rfl⟩ := putFields_cons hs
  clear hs
  obtain ⟨_, b2, _, h2, e2, rfl⟩ := putFields_cons e1
  clear e1
  obtain ⟨_, b3, _, h3, e3, rfl⟩ := putFields_cons e2
  clear e2
  cases e3
  obtain ⟨t, rfl⟩ := unput_extType h1
  obtain ⟨k, hk, rfl⟩ := putNode_num h2
  obtain ⟨o, ho, rfl⟩ := putNode_option (fun _ _ h => putNode_bytes h) h3
  refine ⟨⟨t, UInt32.ofNat k, o⟩, ho, ?_⟩
  rw [encExtInput, UInt32.toNat_ofNat_of_lt' hk]
  simp

theorem unput_delegate (h : putNode codamaTypes (n + 6) (.link "delegateInput") v = some bs) :
    ∃ x : DelegateInput, RolesOk x ∧ bs = encDelegateInput x := by
  rw [putNode_link] at h
  obtain ⟨k, m, t, hk, _, e⟩ := putNode_enum h
  clear h
  rcases k with _ | _ | k
  · cases hk
    obtain ⟨_, rfl⟩ | ⟨_, _, _, h, _⟩ := e
    · exact ⟨.all, trivial, rfl⟩
    · cases h
  · cases hk
    obtain ⟨h, _⟩ | ⟨_, _, _, h, hb, rfl⟩ := e
    · cases h
    · cases h
      obtain ⟨vs, hs⟩ := putNode_struct hb
      clear hb
      obtain ⟨_, b1, _, h1, e1, rfl⟩ := putFields_cons hs
      cases e1
      obtain ⟨l, ⟨hl, _⟩, rfl⟩ := putNode_list (P := fun _ => True) (g := fun r => [Role.tag r])
        (fun _ _ h => (unput_role h).imp fun _ h => ⟨trivial, h⟩) h1
      exact ⟨.some l, hl, by simp [encDelegateInput, toLE]⟩
  · cases hk

theorem unput_strategy (h : putNode codamaTypes (n + 4) (.link "strategy") v = some bs) :
    ∃ x : Strategy, bs = encStrategy x := by
  rw [putNode_link] at h
  obtain ⟨k, m, t, hk, _, e⟩ := putNode_enum h
  clear h
  rcases k with _ | _ | k
  · cases hk
    obtain ⟨_, rfl⟩ | ⟨_, _, _, h, _⟩ := e
    · exact ⟨.trim, rfl⟩
    · cases h
  · cases hk
    obtain ⟨h, _⟩ | ⟨_, _, _, h, hb, rfl⟩ := e
    · cases h
    · cases h
      obtain ⟨vs, hs⟩ := putNode_struct hb
      clear hb
      obtain ⟨_, b1, _, h1, e1, rfl⟩ := putFields_cons hs
      cases e1
      obtain ⟨k, hk, rfl⟩ := putNode_num h1
      exact ⟨.extend (UInt16.ofNat k), by
        rw [encStrategy, UInt16.toNat_ofNat_of_lt' hk]; simp [toLE]⟩
  · cases hk

end Inverse

/-! ## Accounts -/

section Accounts
variable {program : Key} {given : Named} {name : String} {w : Bool} {d : Option AccountDefault} {m : Meta}

theorem build_yes (h : AccountNode.build program given ⟨name, w, .yes, false, d⟩ = some m) :
    ∃ k, m = ⟨k, true, w⟩ := by
  unfold AccountNode.build at h
  split at h
  · exact ⟨_, (Option.some.inj h).symm⟩
  · cases h

theorem build_no (h : AccountNode.build program given ⟨name, w, .no, false, d⟩ = some m) :
    ∃ k, m = ⟨k, false, w⟩ := by
  unfold AccountNode.build at h
  split at h
  · exact ⟨_, (Option.some.inj h).symm⟩
  · cases h

theorem build_either (h : AccountNode.build program given ⟨name, w, .either, false, d⟩ = some m) :
    ∃ k : Key × Bool, m = ⟨k.1, k.2, w⟩ := by
  unfold AccountNode.build at h
  split at h
  · exact ⟨(_, _), (Option.some.inj h).symm⟩
  · cases h

theorem build_optYes (h : AccountNode.build program given ⟨name, w, .yes, true, d⟩ = some m) :
    ∃ o, m = metaOpt program (fun k => ⟨k, true, w⟩) o := by
  unfold AccountNode.build at h
  split at h
  · exact ⟨some _, (Option.some.inj h).symm⟩
  · exact ⟨none, (Option.some.inj h).symm⟩

theorem build_optNo (h : AccountNode.build program given ⟨name, w, .no, true, d⟩ = some m) :
    ∃ o, m = metaOpt program (fun k => ⟨k, false, w⟩) o := by
  unfold AccountNode.build at h
  split at h
  · exact ⟨some _, (Option.some.inj h).symm⟩
  · exact ⟨none, (Option.some.inj h).symm⟩

theorem buildMetas_cons {a : AccountNode} {as : List AccountNode} {ms : List Meta}
    (h : buildMetas program given (a :: as) = some ms) :
    ∃ m ms', a.build program given = some m ∧ buildMetas program given as = some ms' ∧
      ms = m :: ms' := by
  simp only [buildMetas, bind, Option.bind_eq_some_iff] at h
  obtain ⟨m, hm, ms', hms, h⟩ := h
  exact ⟨m, ms', hm, hms, (Option.some.inj h).symm⟩

theorem buildArgs_cons {put : NodeType → NodeVal → Option Bytes} {vs : List (String × NodeVal)}
    {a : ArgNode} {as : List ArgNode} {bs : Bytes} (h : buildArgs put vs (a :: as) = some bs) :
    ∃ v b r, a.value vs = some v ∧ put a.type v = some b ∧ buildArgs put vs as = some r ∧
      bs = b ++ r := by
  simp only [buildArgs, bind, Option.bind_eq_some_iff] at h
  obtain ⟨v, hv, b, hb, r, hr, h⟩ := h
  exact ⟨v, b, r, hv, hb, hr, (Option.some.inj h).symm⟩

end Accounts

/-! ## Extension data -/

theorem put_short {types : List (String × NodeType)} {b : Bytes} (n : Nat) (hu : validUtf8 b = true)
    (h : ShortString b) : putNode types (n + 2) (.sized 1 .string) (.bytes b) = some (prefixed b) := by
  simp only [putNode, bind, Option.bind, putNum, hu, if_true]
  rw [if_pos (show b.length < 256 ^ 1 by unfold ShortString at h; omega)]
  rfl

theorem putFields_step {put : NodeType → NodeVal → Option Bytes} {vs : List (String × NodeVal)}
    {name : String} {t : NodeType} {fs : List (String × NodeType)} {v : NodeVal} {b r : Bytes}
    (hv : vs.lookup name = some v) (hb : put t v = some b) (hr : putFields put vs fs = some r) :
    putFields put vs ((name, t) :: fs) = some (b ++ r) := by
  simp only [putFields, hv, hr, hb, Option.bind_eq_bind, Option.bind_some]
  rfl

theorem put_byteList {types : List (String × NodeType)} (n : Nat) (b : Bytes) :
    putNode types (n + 2) (.array .rest (.num 1)) (byteList b) = some b := by
  have h : putAll (putNode types (n + 1) (.num 1)) (b.map fun x => .num x.toNat) =
      some (b.flatMap fun x => [x]) := by
    refine putAll_map fun a _ => ?_
    simp only [putNode, putNum]
    rw [if_pos (by have := a.toNat_lt; omega)]
    simp [toLE]
  simp only [putNode, byteList]
  rw [h]
  simp

theorem put_struct {types : List (String × NodeType)} {name : String} {fs : List (String × NodeType)}
    {vs : List (String × NodeVal)} {n : Nat} (h : types.lookup name = some (.struct fs)) :
    putNode types (n + 2) (.link name) (.fields vs) = putFields (putNode types n) vs fs := by
  simp only [putNode, h, bind, Option.bind]

end Verif

import Verif.Spec.JsWrites
import Verif.Lemmas.Js

/-!
# The writers of the JavaScript client
-/

namespace Verif

open Verif.Spec

theorem jsPutNum_ok {n v : Nat} {b : Bytes} : jsPutNum n v = .ok b ↔ v < 256 ^ n ∧ b = toLE n v := by
  unfold jsPutNum
  split
  · rename_i h
    simp only [Except.ok.injEq]
    exact ⟨fun e => ⟨h, e.symm⟩, fun e => e.2.symm⟩
  · rename_i h
    constructor
    · intro e; cases e
    · intro e; exact absurd e.1 h

theorem jsPutStr_ok {s b : Bytes} : jsPutStr s = .ok b ↔ ShortString s ∧ b = prefixed s := by
  unfold jsPutStr ShortString
  simp only [bind_ok, pure_ok, jsPutNum_ok]
  have e : ∀ n, toLE 1 n = [UInt8.ofNat n] := fun n => rfl
  constructor
  · rintro ⟨_, ⟨h, rfl⟩, rfl⟩
    exact ⟨by omega, rfl⟩
  · rintro ⟨h, rfl⟩
    exact ⟨_, ⟨by omega, rfl⟩, rfl⟩

theorem jsPutAll_ok {α : Type} {f : α → Except Err Bytes} {g : α → Bytes} {P : α → Prop}
    (h : ∀ x b, f x = .ok b ↔ P x ∧ b = g x) (l : List α) (b : Bytes) :
    jsPutAll f l = .ok b ↔ (∀ x ∈ l, P x) ∧ b = l.flatMap g := by
  induction l generalizing b with
  | nil =>
    simp only [jsPutAll, Except.ok.injEq, List.flatMap_nil]
    exact ⟨fun e => ⟨by simp, e.symm⟩, fun e => e.2.symm⟩
  | cons x xs ih =>
    simp only [jsPutAll, bind_ok, pure_ok, h, ih, List.flatMap_cons, List.mem_cons, forall_eq_or_imp]
    constructor
    · rintro ⟨_, ⟨h1, rfl⟩, _, ⟨h2, rfl⟩, rfl⟩
      exact ⟨⟨h1, h2⟩, rfl⟩
    · rintro ⟨⟨h1, h2⟩, rfl⟩
      exact ⟨_, ⟨h1, rfl⟩, _, ⟨h2, rfl⟩, rfl⟩

theorem jsPutPair_ok (x : Bytes × Bytes) (b : Bytes) : jsPutPair x = .ok b ↔
    (ShortString x.1 ∧ ShortString x.2) ∧ b = prefixed x.1 ++ prefixed x.2 := by
  simp only [jsPutPair, bind_ok, pure_ok, jsPutStr_ok]
  constructor
  · rintro ⟨_, ⟨h1, rfl⟩, _, ⟨h2, rfl⟩, rfl⟩
    exact ⟨⟨h1, h2⟩, rfl⟩
  · rintro ⟨⟨h1, h2⟩, rfl⟩
    exact ⟨_, ⟨h1, rfl⟩, _, ⟨h2, rfl⟩, rfl⟩

theorem jsPutCreator_ok (c : JsCreator) (b : Bytes) :
    jsPutCreator c = .ok b ↔ c.share < 256 ∧ b = creatorBytes (storedCreator c) := by
  simp only [jsPutCreator, bind_ok, pure_ok, jsPutNum_ok]
  have e : c.address.1 ++ jsPutBool c.verified ++ toLE 1 c.share = creatorBytes (storedCreator c) := by
    rw [List.append_assoc]
    rfl
  constructor
  · rintro ⟨_, ⟨h1, rfl⟩, rfl⟩
    exact ⟨by omega, e⟩
  · rintro ⟨h1, rfl⟩
    exact ⟨_, ⟨by omega, rfl⟩, e⟩

theorem jsPutProperty_ok (x : Bytes × JsValue) (b : Bytes) : jsPutProperty x = .ok b ↔
    (ShortString x.1 ∧ ValueWritable x.2) ∧ b = prefixed x.1 ++ valueData (storedValue x.2) := by
  obtain ⟨n, v⟩ := x
  cases v with
  | text s =>
    simp only [jsPutProperty, bind_ok, pure_ok, jsPutStr_ok, ValueWritable, storedValue, valueData]
    constructor
    · rintro ⟨_, ⟨h1, rfl⟩, _, ⟨h2, rfl⟩, rfl⟩
      exact ⟨⟨h1, h2⟩, by simp⟩
    · rintro ⟨⟨h1, h2⟩, rfl⟩
      exact ⟨_, ⟨h1, rfl⟩, _, ⟨h2, rfl⟩, by simp⟩
  | number m =>
    simp only [jsPutProperty, bind_ok, pure_ok, jsPutStr_ok, jsPutNum_ok, ValueWritable, storedValue,
      valueData]
    have e : (256 : Nat) ^ 8 = 18446744073709551616 := by decide
    rw [e]
    constructor
    · rintro ⟨_, ⟨h1, rfl⟩, _, ⟨h2, rfl⟩, rfl⟩
      exact ⟨⟨h1, h2⟩, by simp⟩
    · rintro ⟨⟨h1, h2⟩, rfl⟩
      exact ⟨_, ⟨h1, rfl⟩, _, ⟨h2, rfl⟩, by simp⟩
  | boolean c =>
    simp only [jsPutProperty, bind_ok, pure_ok, jsPutStr_ok, ValueWritable, storedValue, valueData,
      and_true]
    constructor
    · rintro ⟨_, ⟨h1, rfl⟩, rfl⟩
      exact ⟨h1, by simp [jsPutBool, podBool]⟩
    · rintro ⟨h1, rfl⟩
      exact ⟨_, ⟨h1, rfl⟩, by simp [jsPutBool, podBool]⟩

/-! ## Constraints -/

theorem jsPutOp_ok {ty : Nat} {body b : Bytes} (ht : ty ≤ 5) : jsPutOp ty body = .ok b ↔
    body.length < 4294967296 ∧ b = opBytes ty body := by
  simp only [jsPutOp, bind_ok, pure_ok, jsPutNum_ok]
  have e : (256 : Nat) ^ 4 = 4294967296 := by decide
  rw [e]
  constructor
  · rintro ⟨_, ⟨-, rfl⟩, _, ⟨h, rfl⟩, rfl⟩
    exact ⟨h, rfl⟩
  · rintro ⟨h, rfl⟩
    exact ⟨_, ⟨by omega, rfl⟩, _, ⟨h, rfl⟩, rfl⟩

theorem jsPutKeys_ok {a : Nat} {ks : List Key} {b : Bytes} : jsPutKeys a ks = .ok b ↔
    a ≤ 2 ∧ b = keyBody a ks := by
  unfold jsPutKeys
  split
  · rename_i h
    constructor
    · intro e; cases e
    · intro e; omega
  · rename_i h
    simp only [bind_ok, pure_ok, jsPutNum_ok]
    constructor
    · rintro ⟨_, ⟨-, rfl⟩, rfl⟩
      exact ⟨by omega, rfl⟩
    · rintro ⟨h, rfl⟩
      exact ⟨_, ⟨by omega, rfl⟩, rfl⟩

theorem length_le_flatMap {α : Type} (f : α → Bytes) {l : List α} {x : α} (h : x ∈ l) :
    (f x).length ≤ (l.flatMap f).length := by
  induction l with
  | nil => cases h
  | cons y ys ih =>
    simp only [List.flatMap_cons, List.length_append]
    rcases List.mem_cons.mp h with rfl | h
    · omega
    · have := ih h
      omega

mutual
theorem jsPutC_ok (c : Cst) (b : Bytes) : jsPutC c = .ok b ↔
    Selectable c ∧ (buildC c).length < 4294967304 ∧ b = buildC c := by
  cases c with
  | and cs =>
    rw [jsPutC, Selectable, buildC_and, length_opBytes]
    simp only [bind_ok, jsPutOp_ok (show 0 ≤ 5 by omega), jsPutL_ok cs]
    constructor
    · rintro ⟨_, ⟨h1, rfl⟩, h3, rfl⟩
      exact ⟨fun c hc => (h1 c hc).1, by omega, rfl⟩
    · rintro ⟨h1, h2, rfl⟩
      refine ⟨_, ⟨fun c hc => ⟨h1 c hc, ?_⟩, rfl⟩, by omega, rfl⟩
      have := length_le_flatMap buildC hc
      omega
  | not c =>
    rw [jsPutC, Selectable, buildC_not, length_opBytes]
    simp only [bind_ok, jsPutOp_ok (show 1 ≤ 5 by omega), jsPutC_ok c]
    constructor
    · rintro ⟨_, ⟨h1, h2, rfl⟩, h3, rfl⟩
      exact ⟨h1, by omega, rfl⟩
    · rintro ⟨h1, h2, rfl⟩
      exact ⟨_, ⟨h1, by omega, rfl⟩, by omega, rfl⟩
  | or cs =>
    rw [jsPutC, Selectable, buildC_or, length_opBytes]
    simp only [bind_ok, jsPutOp_ok (show 2 ≤ 5 by omega), jsPutL_ok cs]
    constructor
    · rintro ⟨_, ⟨h1, rfl⟩, h3, rfl⟩
      exact ⟨fun c hc => (h1 c hc).1, by omega, rfl⟩
    · rintro ⟨h1, h2, rfl⟩
      refine ⟨_, ⟨fun c hc => ⟨h1 c hc, ?_⟩, rfl⟩, by omega, rfl⟩
      have := length_le_flatMap buildC hc
      omega
  | ownedBy a ks =>
    rw [jsPutC, Selectable, buildC_ownedBy, length_opBytes]
    simp only [bind_ok, jsPutOp_ok (show 3 ≤ 5 by omega), jsPutKeys_ok]
    constructor
    · rintro ⟨_, ⟨h1, rfl⟩, h3, rfl⟩
      exact ⟨h1, by omega, rfl⟩
    · rintro ⟨h1, h2, rfl⟩
      exact ⟨_, ⟨h1, rfl⟩, by omega, rfl⟩
  | pubkeyMatch a ks =>
    rw [jsPutC, Selectable, buildC_pubkeyMatch, length_opBytes]
    simp only [bind_ok, jsPutOp_ok (show 4 ≤ 5 by omega), jsPutKeys_ok]
    constructor
    · rintro ⟨_, ⟨h1, rfl⟩, h3, rfl⟩
      exact ⟨h1, by omega, rfl⟩
    · rintro ⟨h1, h2, rfl⟩
      exact ⟨_, ⟨h1, rfl⟩, by omega, rfl⟩
  | empty =>
    rw [jsPutC, Selectable, buildC_empty, length_opBytes, jsPutOp_ok (show 5 ≤ 5 by omega)]
    simp

theorem jsPutL_ok (cs : List Cst) (b : Bytes) : jsPutL cs = .ok b ↔
    (∀ c ∈ cs, Selectable c ∧ (buildC c).length < 4294967304) ∧ b = cs.flatMap buildC := by
  cases cs with
  | nil =>
    simp only [jsPutL, Except.ok.injEq, List.flatMap_nil]
    exact ⟨fun e => ⟨by simp, e.symm⟩, fun e => e.2.symm⟩
  | cons c cs =>
    simp only [jsPutL, bind_ok, pure_ok, jsPutC_ok c, jsPutL_ok cs, List.flatMap_cons, List.mem_cons,
      forall_eq_or_imp]
    constructor
    · rintro ⟨_, ⟨h1, h2, rfl⟩, _, ⟨h3, rfl⟩, rfl⟩
      exact ⟨⟨⟨h1, h2⟩, h3⟩, rfl⟩
    · rintro ⟨⟨⟨h1, h2⟩, h3⟩, rfl⟩
      exact ⟨_, ⟨h1, h2, rfl⟩, _, ⟨h3, rfl⟩, rfl⟩
end

/-! ## Roles and keys -/

theorem jsEncodeKey_eq (a : Option Key) : jsEncodeKey a = a.getD Key.default := by cases a <;> rfl

/-- The roles among three flags. -/
theorem roles_fold (rs : List Role) (m : UInt32) :
    (Role.none ∈ rs → (rs.foldl (fun acc r => acc ||| jsBit r) m).toNat ≥ 2147483648) ∧
    (m ≤ 7 → Role.none ∉ rs → rs.foldl (fun acc r => acc ||| jsBit r) m ≤ 7 ∧
      (rs.foldl (fun acc r => acc ||| jsBit r) m).toUInt8 =
        rs.foldl (fun acc r => acc ||| roleBit r) m.toUInt8) := by
  have keep : ∀ (rs : List Role) (m : UInt32), m.toNat ≥ 2147483648 →
      (rs.foldl (fun acc r => acc ||| jsBit r) m).toNat ≥ 2147483648 := by
    intro rs
    induction rs with
    | nil => intro m h; exact h
    | cons r rs ih =>
      intro m h
      refine ih _ ?_
      rw [UInt32.toNat_or]
      exact Nat.le_trans h Nat.left_le_or
  induction rs generalizing m with
  | nil => exact ⟨fun h => (List.not_mem_nil h).elim, fun h _ => ⟨h, rfl⟩⟩
  | cons r rs ih =>
    simp only [List.foldl_cons, List.mem_cons, not_or]
    constructor
    · rintro (rfl | h)
      · refine keep rs _ ?_
        rw [UInt32.toNat_or]
        exact Nat.le_trans (show 2147483648 ≤ (jsBit Role.none).toNat by decide) Nat.right_le_or
      · exact (ih _).1 h
    · rintro hm ⟨hr, h⟩
      have key : ∀ n : Fin 8, ∀ r ∈ [Role.transfer, .lock, .burn],
          (UInt32.ofNat n.1 ||| jsBit r ≤ 7) ∧
          (UInt32.ofNat n.1 ||| jsBit r).toUInt8 = (UInt32.ofNat n.1).toUInt8 ||| roleBit r := by
        decide +kernel
      have hr' : r ∈ [Role.transfer, .lock, .burn] := by cases r <;> simp_all
      have hn : m.toNat < 8 := by
        have := UInt32.le_iff_toNat_le.mp hm
        have e : (7 : UInt32).toNat = 7 := rfl
        omega
      obtain ⟨k1, k2⟩ := key ⟨m.toNat, hn⟩ r hr'
      rw [show UInt32.ofNat m.toNat = m from UInt32.ofNat_toNat] at k1 k2
      have := (ih (m ||| jsBit r)).2 k1 h
      rw [k2] at this
      exact this

theorem jsEncodeRoles_ok {rs : List Role} {m : UInt8} : jsEncodeRoles rs = some m ↔
    Role.none ∉ rs ∧ m = rs.foldl (fun m r => m ||| roleBit r) 0 := by
  have h := roles_fold rs 0
  unfold jsEncodeRoles
  constructor
  · intro e
    by_cases hn : Role.none ∈ rs
    · have := h.1 hn
      simp only at e
      rw [if_neg] at e
      · cases e
      · intro hc
        have := UInt32.le_iff_toNat_le.mp hc
        have e : (255 : UInt32).toNat = 255 := rfl
        omega
    · obtain ⟨h1, h2⟩ := h.2 (by decide) hn
      simp only at e
      split at e
      · cases e
        exact ⟨hn, h2⟩
      · cases e
  · rintro ⟨hn, rfl⟩
    obtain ⟨h1, h2⟩ := h.2 (by decide) hn
    simp only
    rw [if_pos (UInt32.le_trans h1 (by decide)), h2]
    rfl

/-- What the mask shows. -/
theorem roles_mask (rs : List Role) (m : UInt8) (hm : m ≤ 7) (h : Role.none ∉ rs) :
    rs.foldl (fun m r => m ||| roleBit r) m ≤ 7 ∧
    (rs.foldl (fun m r => m ||| roleBit r) m = 0 ↔ m = 0 ∧ rs = []) ∧
    (∀ r ∈ [Role.transfer, .lock, .burn], rs.foldl (fun m r => m ||| roleBit r) m &&& roleBit r = 0 ↔
      m &&& roleBit r = 0 ∧ r ∉ rs) := by
  induction rs generalizing m with
  | nil => simp [hm]
  | cons x xs ih =>
    simp only [List.mem_cons, not_or] at h
    have hx : x ∈ [Role.transfer, .lock, .burn] := by
      have := h.1
      cases x <;> simp_all
    have key : ∀ n : Fin 8, ∀ x ∈ [Role.transfer, .lock, .burn],
        UInt8.ofNat n.1 ||| roleBit x ≤ 7 ∧ UInt8.ofNat n.1 ||| roleBit x ≠ 0 ∧
        ∀ r ∈ [Role.transfer, .lock, .burn], ((UInt8.ofNat n.1 ||| roleBit x) &&& roleBit r = 0 ↔
          UInt8.ofNat n.1 &&& roleBit r = 0 ∧ r ≠ x) := by
      decide +kernel
    have hn : m.toNat < 8 := by
      have := UInt8.le_iff_toNat_le.mp hm
      have e : (7 : UInt8).toNat = 7 := rfl
      omega
    obtain ⟨k1, k2, k3⟩ := key ⟨m.toNat, hn⟩ x hx
    rw [show UInt8.ofNat m.toNat = m from UInt8.ofNat_toNat] at k1 k2 k3
    obtain ⟨i1, i2, i3⟩ := ih _ k1 h.2
    refine ⟨i1, ?_, ?_⟩
    · rw [List.foldl_cons, i2]
      simp [k2]
    · intro r hr
      rw [List.foldl_cons, i3 r hr, k3 r hr, List.mem_cons, not_or, and_assoc]

theorem shownRoles_mask (rs : List Role) (h : Role.none ∉ rs) :
    shownRoles (rs.foldl (fun m r => m ||| roleBit r) 0) =
      if rs = [] then [.none] else [Role.transfer, .lock, .burn].filter (· ∈ rs) := by
  obtain ⟨-, h2, h3⟩ := roles_mask rs 0 (by decide) h
  unfold shownRoles
  simp only [h2, true_and]
  by_cases he : rs = []
  · rw [if_pos he, if_pos he]
  · rw [if_neg he, if_neg he]
    have a := h3 .transfer (by simp)
    have b := h3 .lock (by simp)
    have c := h3 .burn (by simp)
    simp only [UInt8.zero_and, true_and] at a b c
    rw [show (1 : UInt8) = roleBit .transfer from rfl, show (2 : UInt8) = roleBit .lock from rfl,
      show (4 : UInt8) = roleBit .burn from rfl]
    simp only [a, b, c]
    by_cases ht : Role.transfer ∈ rs <;> by_cases hl : Role.lock ∈ rs <;>
      by_cases hb : Role.burn ∈ rs <;> simp [ht, hl, hb]

/-! ## Extensions -/

theorem rustWrites_pairs (l : List (Bytes × Bytes)) :
    l.foldl (fun b x => pairsBuilderAdd b x.1 x.2) [] = l.flatMap fun x => prefixed x.1 ++ prefixed x.2 := by
  rw [foldl_pairsBuilderAdd]
  rfl

theorem rustWrites_props (l : List (Bytes × JsValue)) :
    l.foldl (fun b x => propsBuilderAdd b x.1 (storedValue x.2)) [] =
      l.flatMap fun x => prefixed x.1 ++ valueData (storedValue x.2) := by
  have h := foldl_propsBuilderAdd (l.map fun x => (x.1, storedValue x.2)) []
  rw [List.foldl_map] at h
  rw [h]
  unfold propsBytes
  rw [List.nil_append, List.flatMap_map]
  rfl

theorem jsWriteExt_ok (v : JsExt) (p : Bytes) :
    jsWriteExt v = .ok p ↔ Writable v ∧ p = rustWrites v := by
  have e8 : (256 : Nat) ^ 8 = 18446744073709551616 := by decide
  cases v with
  | attributes l =>
    rw [jsWriteExt, jsPutAll_ok jsPutPair_ok, Writable, rustWrites, rustWrites_pairs]
  | links l =>
    rw [jsWriteExt, jsPutAll_ok jsPutPair_ok, Writable, rustWrites, rustWrites_pairs]
  | blob ct data =>
    simp only [jsWriteExt, bind_ok, pure_ok, jsPutStr_ok, Writable, rustWrites]
    constructor
    · rintro ⟨_, ⟨h, rfl⟩, rfl⟩
      exact ⟨h, rfl⟩
    · rintro ⟨h, rfl⟩
      exact ⟨_, ⟨h, rfl⟩, rfl⟩
  | creators cs =>
    rw [jsWriteExt, jsPutAll_ok jsPutCreator_ok, Writable, rustWrites, creatorsBytes, List.flatMap_map]
  | metadata m =>
    simp only [jsWriteExt, bind_ok, pure_ok, jsPutStr_ok, Writable, rustWrites]
    constructor
    · rintro ⟨_, ⟨h1, rfl⟩, _, ⟨h2, rfl⟩, _, ⟨h3, rfl⟩, _, ⟨h4, rfl⟩, rfl⟩
      exact ⟨⟨h1, h2, h3, h4⟩, rfl⟩
    · rintro ⟨⟨h1, h2, h3, h4⟩, rfl⟩
      exact ⟨_, ⟨h1, rfl⟩, _, ⟨h2, rfl⟩, _, ⟨h3, rfl⟩, _, ⟨h4, rfl⟩, rfl⟩
  | grouping s m d =>
    simp only [jsWriteExt, bind_ok, pure_ok, jsPutNum_ok, Writable, rustWrites, e8]
    have e : toLE 8 s ++ toLE 8 m ++ (jsEncodeKey d).1 = withMembers (groupingBuilderSet (some m) d) s := by
      unfold withMembers groupingBuilderSet
      rw [jsEncodeKey_eq, List.append_assoc, List.append_assoc, List.drop_left' (length_toLE 8 0)]
      rfl
    constructor
    · rintro ⟨_, ⟨h1, rfl⟩, _, ⟨h2, rfl⟩, rfl⟩
      exact ⟨⟨h1, h2⟩, e⟩
    · rintro ⟨⟨h1, h2⟩, rfl⟩
      exact ⟨_, ⟨h1, rfl⟩, _, ⟨h2, rfl⟩, e⟩
  | royalties bp c =>
    simp only [jsWriteExt, bind_ok, pure_ok, jsPutNum_ok, jsPutC_ok, Writable, rustWrites, e8]
    constructor
    · rintro ⟨_, ⟨h1, rfl⟩, _, ⟨h2, h3, rfl⟩, rfl⟩
      exact ⟨⟨h1, h2, h3⟩, rfl⟩
    · rintro ⟨⟨h1, h2, h3⟩, rfl⟩
      exact ⟨_, ⟨h1, rfl⟩, _, ⟨h2, h3, rfl⟩, rfl⟩
  | manager a rs =>
    simp only [jsWriteExt, Writable, rustWrites, jsEncodeKey_eq]
    cases h : jsEncodeRoles rs with
    | none =>
      constructor
      · intro e; cases e
      · rintro ⟨hn, -⟩
        rw [jsEncodeRoles_ok.mpr ⟨hn, rfl⟩] at h
        cases h
    | some m =>
      obtain ⟨h1, rfl⟩ := jsEncodeRoles_ok.mp h
      simp only [Except.ok.injEq]
      exact ⟨fun e => ⟨h1, e.symm⟩, fun e => e.2.symm⟩
  | proxy pr seeds bump a =>
    simp only [jsWriteExt, Writable, rustWrites, jsEncodeKey_eq]
    by_cases hs : seeds.length = 32
    · have e : (Key.ofBytes seeds).1 = seeds := by
        unfold Key.ofBytes
        simp [hs]
      simp only [hs, ne_eq, not_true_eq_false, if_false, bind_ok, pure_ok, jsPutNum_ok, true_and]
      have e2 : pr.1 ++ seeds ++ toLE 1 bump ++ (a.getD Key.default).1 =
          proxyBuilderSet pr (Key.ofBytes seeds) (UInt8.ofNat bump) a := by
        unfold proxyBuilderSet
        rw [e]
        rfl
      constructor
      · rintro ⟨_, ⟨h1, rfl⟩, rfl⟩
        exact ⟨by omega, e2⟩
      · rintro ⟨h1, rfl⟩
        exact ⟨_, ⟨by omega, rfl⟩, e2⟩
    · simp [hs, bind, Except.bind]
  | properties l =>
    rw [jsWriteExt, jsPutAll_ok jsPutProperty_ok, Writable, rustWrites, rustWrites_props]
  | bucket data =>
    simp only [jsWriteExt, Writable, rustWrites, Except.ok.injEq, true_and]
    exact ⟨fun e => e.symm, fun e => e.symm⟩

/-! ## Reading back -/

mutual
theorem selectorsFit_of_selectable (c : Cst) (h : Selectable c) : SelectorsFit c := by
  cases c with
  | and cs =>
    rw [Selectable] at h
    rw [SelectorsFit]
    exact selectorsFit_all cs h
  | or cs =>
    rw [Selectable] at h
    rw [SelectorsFit]
    exact selectorsFit_all cs h
  | not c =>
    rw [Selectable] at h
    rw [SelectorsFit]
    exact selectorsFit_of_selectable c h
  | ownedBy a ks =>
    rw [Selectable] at h
    rw [SelectorsFit]
    omega
  | pubkeyMatch a ks =>
    rw [Selectable] at h
    rw [SelectorsFit]
    omega
  | empty =>
    rw [SelectorsFit]
    trivial

theorem selectorsFit_all (cs : List Cst) (h : ∀ c ∈ cs, Selectable c) : ∀ c ∈ cs, SelectorsFit c := by
  cases cs with
  | nil => intro c hc; cases hc
  | cons c cs =>
    intro x hx
    rcases List.mem_cons.mp hx with e | hx
    · rw [e]; exact selectorsFit_of_selectable c (h c (List.mem_cons_self ..))
    · exact selectorsFit_all cs (fun y hy => h y (List.mem_cons_of_mem _ hy)) x hx
end

theorem podTrue_podBool (b : Bool) : podTrue (podBool b) = b := by cases b <;> rfl

theorem podBool_range (b : Bool) : podBool b = 0 ∨ podBool b = 1 := by cases b <;> simp [podBool]

theorem shownCreator_stored (c : JsCreator) (h : c.share < 256) : shownCreator (storedCreator c) = c := by
  obtain ⟨a, v, s⟩ := c
  simp only [shownCreator, storedCreator, podTrue_podBool, JsCreator.mk.injEq, true_and]
  exact UInt8.toNat_ofNat_of_lt' h

theorem shownValue_stored (text : Bytes → Bytes) (v : JsValue) :
    shownValue text (storedValue v) = rereadValue text v := by
  cases v <;> simp [shownValue, storedValue, rereadValue, podTrue_podBool]

theorem shownKey_getD (a : Option Key) : shownKey (a.getD Key.default) = a.bind shownKey := by
  cases a with
  | none => simp [shownKey]
  | some a => rfl

theorem readGrouping_members {n m : Nat} {d : Option Key} (hn : n < 18446744073709551616)
    (hm : m < 18446744073709551616) :
    readGrouping (withMembers (groupingBuilderSet (some m) d) n) = .ok ⟨n, m, d.getD Key.default⟩ ∧
    (withMembers (groupingBuilderSet (some m) d) n).length = 48 := by
  have hk := (d.getD Key.default).2
  have e : withMembers (groupingBuilderSet (some m) d) n =
      toLE 8 n ++ (toLE 8 m ++ (d.getD Key.default).1) := by
    unfold withMembers groupingBuilderSet
    rw [List.append_assoc, List.drop_left' (length_toLE 8 0)]
    rfl
  rw [e]
  have hl : (toLE 8 n ++ (toLE 8 m ++ (d.getD Key.default).1)).length = 48 := by
    simp only [List.length_append, length_toLE, hk]
  refine ⟨?_, hl⟩
  unfold readGrouping
  rw [if_neg (by omega), if_neg (by omega), if_pos hl]
  have e1 : u64At (toLE 8 n ++ (toLE 8 m ++ (d.getD Key.default).1)) 0 = n := by
    unfold u64At
    rw [slice_append_left _ _ _ (length_toLE 8 _).symm, leNat_toLE_of_lt (by omega)]
  have e2 : u64At (toLE 8 n ++ (toLE 8 m ++ (d.getD Key.default).1)) 8 = m := by
    unfold u64At
    rw [slice_append_right _ _ _ _ (length_toLE 8 _).symm,
      List.take_left' (length_toLE 8 _), leNat_toLE_of_lt (by omega)]
  have e3 : keyAt (toLE 8 n ++ (toLE 8 m ++ (d.getD Key.default).1)) 16 = d.getD Key.default := by
    unfold keyAt
    rw [← List.append_assoc, slice_append_right _ _ _ _ (by simp [length_toLE]),
      List.take_of_length_le (by omega), ofBytes_key]
  rw [e1, e2, e3]

end Verif

import Verif.Spec.Js
import Verif.Lemmas.Readable
import Verif.Lemmas.Constraint
import Verif.Lemmas.Shape
import Verif.Lemmas.Life
import Verif.Lemmas.ExtList

/-!
# The readers of the JavaScript client on data the program can read
-/

namespace Verif

open Verif.Spec

variable {dec : Bytes → Bytes} {b r s : Bytes}

theorem jsNum_app {n : Nat} {a : Bytes} (h : a.length = n) (r : Bytes) :
    jsNum n (a ++ r) = .ok (leNat a, r) := by
  unfold jsNum
  rw [if_neg (by rw [List.length_append]; omega), ← h, List.take_left, List.drop_left]

theorem jsNum_slice {n : Nat} (h : n ≤ b.length) : jsNum n b = .ok (leNat (b.take n), b.drop n) := by
  unfold jsNum
  rw [if_neg (by omega)]

theorem jsKey_app (k : Key) (r : Bytes) : jsKey (k.1 ++ r) = .ok (k, r) := by
  unfold jsKey
  have h := k.2
  rw [if_neg (by rw [List.length_append]; omega), List.take_left' h, List.drop_left' h, ofBytes_key]

theorem jsKey_slice (h : 32 ≤ b.length) : jsKey b = .ok (Key.ofBytes (b.take 32), b.drop 32) := by
  unfold jsKey
  rw [if_neg (by omega)]

theorem leNat_single (c : UInt8) : leNat [c] = c.toNat := by simp [leNat]

theorem jsNum_cons (c : UInt8) (r : Bytes) : jsNum 1 (c :: r) = .ok (c.toNat, r) := by
  rw [show c :: r = [c] ++ r from rfl, jsNum_app (n := 1) (a := [c]) rfl, leNat_single]

theorem jsBool_cons (c : UInt8) (r : Bytes) : jsBool (c :: r) = .ok (c.toNat == 1, r) := by
  unfold jsBool
  rw [jsNum_cons]
  rfl

theorem jsBool_pod {c : UInt8} (h : c = 0 ∨ c = 1) (r : Bytes) :
    jsBool (c :: r) = .ok (podTrue c, r) := by
  rw [jsBool_cons]
  rcases h with rfl | rfl <;> rfl

theorem jsEnum_cons {last : Nat} {c : UInt8} (h : c.toNat ≤ last) (r : Bytes) :
    jsEnum 1 last (c :: r) = .ok (c.toNat, r) := by
  unfold jsEnum
  rw [jsNum_cons]
  simp only [bind, Except.bind]
  rw [if_neg (by omega)]
  rfl

theorem jsStr_prefixed (h : ShortString s) (r : Bytes) :
    jsStr dec (prefixed s ++ r) = .ok (jsText dec s, r) := by
  unfold ShortString at h
  unfold jsStr prefixed
  rw [List.cons_append, jsNum_cons]
  have hn : (UInt8.ofNat s.length).toNat = s.length := by
    rw [UInt8.toNat_ofNat']
    omega
  simp only [bind, Except.bind]
  rw [hn, if_neg (by rw [List.length_append]; omega), List.take_left, List.drop_left]
  rfl

/-- Reading items that are written one after the other. -/
theorem jsItems_flatMap {α β : Type} {item : Bytes → Except Err (α × Bytes)} {f : β → Bytes}
    {g : β → α} (l : List β) (hne : ∀ x ∈ l, f x ≠ []) (h : ∀ x ∈ l, ∀ r, item (f x ++ r) = .ok (g x, r))
    {fuel : Nat} (hf : (l.flatMap f).length < fuel) : jsItems item fuel (l.flatMap f) = .ok (l.map g) := by
  induction l generalizing fuel with
  | nil =>
    cases fuel with
    | zero => simp at hf
    | succ n => simp [jsItems]
  | cons x xs ih =>
    cases fuel with
    | zero => simp at hf
    | succ n =>
      have hx := hne x (by simp)
      have hlen : 0 < (f x).length := List.length_pos_iff.mpr hx
      rw [List.flatMap_cons, List.length_append] at hf
      have hemp : (f x ++ xs.flatMap f).isEmpty = false := by
        cases hfx : f x with
        | nil => exact absurd hfx hx
        | cons => rfl
      rw [List.flatMap_cons, jsItems, hemp, h x (by simp)]
      simp only [Bool.false_eq_true, if_false, bind, Except.bind]
      rw [ih (fun y hy => hne y (by simp [hy])) (fun y hy => h y (by simp [hy])) (by omega)]
      rfl

theorem jsRest_flatMap {α β : Type} {item : Bytes → Except Err (α × Bytes)} {f : β → Bytes}
    {g : β → α} (l : List β) (hne : ∀ x ∈ l, f x ≠ []) (h : ∀ x ∈ l, ∀ r, item (f x ++ r) = .ok (g x, r)) :
    jsRest item (l.flatMap f) = .ok (l.map g) := jsItems_flatMap l hne h (by omega)

theorem jsPair_app {x : Bytes × Bytes} (h1 : ShortString x.1) (h2 : ShortString x.2) (r : Bytes) :
    jsPair dec (prefixed x.1 ++ prefixed x.2 ++ r) = .ok ((jsText dec x.1, jsText dec x.2), r) := by
  unfold jsPair
  rw [List.append_assoc, jsStr_prefixed h1]
  simp only [bind, Except.bind]
  rw [jsStr_prefixed h2]
  rfl

theorem jsPairs {l : List (Bytes × Bytes)} (h : ∀ x ∈ l, ShortString x.1 ∧ ShortString x.2) :
    jsRest (jsPair dec) (pairsData l) = .ok (l.map fun x => (jsText dec x.1, jsText dec x.2)) :=
  jsRest_flatMap l (fun x _ => by simp [prefixed]) fun x hx => jsPair_app (h x hx).1 (h x hx).2

theorem jsCreator_app {c : Creator} (h : c.verified = 0 ∨ c.verified = 1) (r : Bytes) :
    jsCreator (creatorBytes c ++ r) = .ok (shownCreator c, r) := by
  unfold jsCreator creatorBytes
  rw [List.append_assoc, jsKey_app]
  simp only [bind, Except.bind, List.cons_append, List.nil_append]
  rw [jsBool_pod h]
  simp only [jsNum_cons]
  rfl

theorem jsCreators {l : List Creator} (h : ∀ c ∈ l, c.verified = 0 ∨ c.verified = 1) :
    jsRest jsCreator (creatorsBytes l) = .ok (l.map shownCreator) :=
  jsRest_flatMap l (fun x _ hx => by
    have := length_creatorBytes x
    rw [hx] at this
    cases this) fun x hx => jsCreator_app (h x hx)

theorem jsProperty_app {x : Bytes × PropValue} (h1 : ShortString x.1) (h2 : ValueFits x.2)
    (h3 : PlainValue x.2) (r : Bytes) :
    jsProperty dec (prefixed x.1 ++ valueData x.2 ++ r) =
      .ok ((jsText dec x.1, shownValue (jsText dec) x.2), r) := by
  obtain ⟨n, v⟩ := x
  unfold jsProperty
  rw [List.append_assoc, jsStr_prefixed h1]
  simp only [bind, Except.bind]
  cases v with
  | text s =>
    simp only [valueData, List.cons_append, if_true]
    rw [jsEnum_cons (by decide)]
    simp only
    rw [jsStr_prefixed h2]
    rfl
  | number n =>
    simp only [valueData, List.cons_append, if_true]
    rw [if_neg (by decide), jsEnum_cons (by decide)]
    simp only
    have h2' : n < 256 ^ 8 := h2
    rw [jsNum_app (length_toLE 8 n), leNat_toLE_of_lt h2']
    rfl
  | boolean c =>
    simp only [valueData, List.cons_append, List.nil_append, if_true]
    rw [if_neg (by decide), if_neg (by decide), jsEnum_cons (by decide)]
    simp only
    rw [jsBool_pod h3]
    rfl

theorem jsProperties {l : List (Bytes × PropValue)} (h : ∀ x ∈ l, ShortString x.1 ∧ ValueFits x.2)
    (hp : ∀ x ∈ l, PlainValue x.2) : jsRest (jsProperty dec) (propertiesData l) =
      .ok (l.map fun x => (jsText dec x.1, shownValue (jsText dec) x.2)) :=
  jsRest_flatMap l (fun x _ => by simp [prefixed]) fun x hx =>
    jsProperty_app (h x hx).1 (h x hx).2 (hp x hx)

/-! ## Constraints -/

theorem jsItems_keys (n : Nat) {b : Bytes} (h : b.length = 32 * n) {fuel : Nat} (hf : b.length < fuel) :
    jsItems jsKey fuel b = .ok (keysFrom n b) := by
  induction n generalizing b fuel with
  | zero =>
    cases fuel with
    | zero => omega
    | succ m =>
      obtain rfl : b = [] := List.eq_nil_of_length_eq_zero (by omega)
      rfl
  | succ n ih =>
    cases fuel with
    | zero => omega
    | succ m =>
      have hemp : b.isEmpty = false := by
        cases b with
        | nil => simp at h
        | cons => rfl
      rw [jsItems, hemp, jsKey_slice (by omega)]
      simp only [Bool.false_eq_true, if_false, bind, Except.bind]
      rw [ih (b := b.drop 32) (by rw [List.length_drop]; omega) (by rw [List.length_drop]; omega)]
      rfl

theorem jsKeys_eq {b : Bytes} {a : Nat} {ks : List Key} (h : parseKeys b = .ok (a, ks)) (ha : a ≤ 2) :
    jsKeys b = .ok (a, ks) := by
  unfold parseKeys at h
  split at h
  · cases h
  split at h
  · cases h
  rename_i h1 h2
  simp only [Except.ok.injEq, Prod.mk.injEq] at h
  obtain ⟨rfl, rfl⟩ := h
  have e : u64At b 0 = leNat (b.take 8) := by simp [u64At, slice]
  unfold jsKeys jsEnum
  rw [jsNum_slice (by omega)]
  rw [e] at ha
  simp only [bind, Except.bind]
  rw [if_neg (by omega)]
  simp only [pure, Except.pure, jsRest]
  rw [jsItems_keys ((b.length - 8) / 32) (by rw [List.length_drop]; omega) (by omega), e]

theorem u32_first {c : UInt8} {t : Bytes} (h : u32At (c :: t) 0 ≤ 5) :
    u32At (c :: t) 0 = c.toNat := by
  have e : u32At (c :: t) 0 = c.toNat + 256 * leNat (t.take 3) := by
    simp [u32At, slice, leNat]
  omega

theorem jsC_eq (fuel : Nat) :
    (∀ b c n, parseC fuel b = .ok (c, n) → Selectable c → jsC fuel b = .ok (c, b.drop n)) ∧
    (∀ b cs, parseL fuel b = .ok cs → (∀ c ∈ cs, Selectable c) → jsL fuel b = .ok cs) := by
  induction fuel with
  | zero =>
    refine ⟨fun b c n h => ?_, fun b cs h => ?_⟩
    · rw [parseC] at h; cases h
    · rw [parseL] at h; cases h
  | succ f ih =>
    obtain ⟨ihC, ihL⟩ := ih
    refine ⟨fun b c n h hs => ?_, fun b cs h hs => ?_⟩
    · rw [parseC] at h
      cases b with
      | nil => simp at h
      | cons x t =>
        split at h
        · cases h
        rename_i h8
        simp only at h
        split at h
        · cases h
        rename_i h5
        split at h
        · cases h
        rename_i hsz
        have hx := u32_first (c := x) (t := t) (by omega)
        rw [jsC]
        simp only
        rw [if_neg (by omega), if_neg h8]
        rw [hx] at h
        have hz : ∀ m : UInt8, (x.toNat = m.toNat) ↔ x = m := fun m => UInt8.toNat_inj
        have z0 : (x.toNat = 0) ↔ x = 0 := hz 0
        have z1 : (x.toNat = 1) ↔ x = 1 := hz 1
        have z2 : (x.toNat = 2) ↔ x = 2 := hz 2
        have z3 : (x.toNat = 3) ↔ x = 3 := hz 3
        have z4 : (x.toNat = 4) ↔ x = 4 := hz 4
        simp only [z0, z1, z2, z3, z4] at h
        generalize u32At (x :: t) 4 = size at h
        generalize List.take size (List.drop 8 (x :: t)) = body at h
        split at h
        · rename_i hc
          rw [if_pos hc]
          simp only [bind_ok, pure_ok, Prod.mk.injEq] at h
          obtain ⟨cs, h, rfl, rfl⟩ := h
          rw [ihL _ _ h (by intro c hc; rw [Selectable] at hs; exact hs c hc)]
          rfl
        rename_i hc; rw [if_neg hc]; clear hc
        split at h
        · rename_i hc
          rw [if_pos hc]
          simp only [bind_ok, pure_ok, Prod.mk.injEq] at h
          obtain ⟨⟨c', m⟩, h, rfl, rfl⟩ := h
          rw [ihC _ _ _ h (by rw [Selectable] at hs; exact hs)]
          rfl
        rename_i hc; rw [if_neg hc]; clear hc
        split at h
        · rename_i hc
          rw [if_pos hc]
          simp only [bind_ok, pure_ok, Prod.mk.injEq] at h
          obtain ⟨cs, h, rfl, rfl⟩ := h
          rw [ihL _ _ h (by intro c hc; rw [Selectable] at hs; exact hs c hc)]
          rfl
        rename_i hc; rw [if_neg hc]; clear hc
        split at h
        · rename_i hc
          rw [if_pos hc]
          simp only [bind_ok, pure_ok, Prod.mk.injEq] at h
          obtain ⟨⟨a, ks⟩, h, rfl, rfl⟩ := h
          rw [jsKeys_eq h (by rw [Selectable] at hs; exact hs)]
          rfl
        rename_i hc; rw [if_neg hc]; clear hc
        split at h
        · rename_i hc
          rw [if_pos hc]
          simp only [bind_ok, pure_ok, Prod.mk.injEq] at h
          obtain ⟨⟨a, ks⟩, h, rfl, rfl⟩ := h
          rw [jsKeys_eq h (by rw [Selectable] at hs; exact hs)]
          rfl
        rename_i hc; rw [if_neg hc]; clear hc
        simp only [pure_ok, Prod.mk.injEq] at h
        obtain ⟨rfl, rfl⟩ := h
        rfl
    · rw [parseL] at h
      rw [jsL]
      split at h
      · rename_i he
        rw [if_pos he]
        cases h
        rfl
      · rename_i he
        rw [if_neg he]
        simp only [bind_ok, pure_ok] at h
        obtain ⟨⟨c, n⟩, h1, cs', h2, rfl⟩ := h
        rw [ihC _ _ _ h1 (hs c (by simp))]
        simp only [bind, Except.bind]
        rw [ihL _ _ h2 (fun x hx => hs x (by simp [hx]))]
        rfl

theorem jsConstraint_eq {c : Cst} (h : parseConstraint b = .ok c) (hs : Selectable c) :
    ∃ r, jsConstraint b = .ok (c, r) := by
  unfold parseConstraint at h
  simp only [bind_ok, pure_ok] at h
  obtain ⟨⟨c', n⟩, h, rfl⟩ := h
  exact ⟨_, (jsC_eq _).1 _ _ _ h hs⟩

/-! ## Extensions -/

theorem jsDecodeKey_eq (k : Key) : jsDecodeKey k = shownKey k := rfl

theorem jsDecodeRoles_eq (c : UInt8) : jsDecodeRoles c = shownRoles c := by
  have h : ∀ n : Fin 256, jsDecodeRoles (UInt8.ofNat n.1) = shownRoles (UInt8.ofNat n.1) := by
    decide +kernel
  have := h ⟨c.toNat, c.toNat_lt⟩
  rwa [UInt8.ofNat_toNat] at this

theorem readMetadata_four {s d u i : Bytes} (hs : ShortString s) (hd : ShortString d)
    (hu : ShortString u) (hi : ShortString i) (more : Bytes) :
    readMetadata (prefixed s ++ (prefixed d ++ (prefixed u ++ (prefixed i ++ more)))) =
      .ok ⟨s, d, u, i⟩ := by
  unfold readMetadata
  rw [readStr_prefixed hs]
  simp only [bind, Except.bind, drop_prefixed]
  rw [readStr_prefixed hd]
  simp only
  rw [drop_append_add (prefixed s) _ (s.length + 1) _ rfl, drop_prefixed, readStr_prefixed hu]
  simp only [pure, Except.pure]
  rw [Nat.add_assoc, drop_append_add (prefixed s) _ (s.length + 1) _ rfl,
    drop_append_add (prefixed d) _ (d.length + 1) _ rfl, drop_prefixed,
    if_neg (by simp [prefixed]), readStr_prefixed hi]

/-- Bytes after the four strings do not matter. -/
theorem modern_metadata_append {p : Bytes} (h : Modern .metadata p) (q : Bytes) :
    Modern .metadata (p ++ q) ∧ ∀ text, shown text .metadata (p ++ q) = shown text .metadata p := by
  obtain ⟨s, d, u, i, more, hs, hd, hu, hi, rfl⟩ := h
  have e : prefixed s ++ (prefixed d ++ (prefixed u ++ (prefixed i ++ more))) ++ q =
      prefixed s ++ (prefixed d ++ (prefixed u ++ (prefixed i ++ (more ++ q)))) := by
    simp only [List.append_assoc]
  refine ⟨⟨s, d, u, i, more ++ q, hs, hd, hu, hi, e⟩, fun text => ?_⟩
  rw [e]
  simp only [shown, readMetadata_four hs hd hu hi]

theorem jsReadExt_shown {t : ExtType} {p : Bytes} (h : Modern t p) (ht : t ≠ .none) :
    ∃ v, shown (jsText dec) t p = .ok v ∧ jsReadExt dec t p = .ok v ∧ v.type = t := by
  cases t with
  | none => exact absurd rfl ht
  | attributes =>
    obtain ⟨l, hl, rfl⟩ := h
    have e := readPairList_iff.2 ⟨hl, rfl⟩
    refine ⟨.attributes (l.map fun x => (jsText dec x.1, jsText dec x.2)), ?_, ?_, rfl⟩
    · simp only [shown, e]; rfl
    · simp only [jsReadExt, jsPairs hl]; rfl
  | links =>
    obtain ⟨l, hl, rfl⟩ := h
    have e := readPairList_iff.2 ⟨hl, rfl⟩
    refine ⟨.links (l.map fun x => (jsText dec x.1, jsText dec x.2)), ?_, ?_, rfl⟩
    · simp only [shown, e]; rfl
    · simp only [jsReadExt, jsPairs hl]; rfl
  | blob =>
    obtain ⟨ct, data, hc, rfl⟩ := h
    refine ⟨.blob (jsText dec ct) data, ?_, ?_, rfl⟩
    · simp only [shown, readBlob, readStr_prefixed hc, bind, Except.bind, drop_prefixed]
      rfl
    · simp only [jsReadExt, jsStr_prefixed hc]; rfl
  | creators =>
    obtain ⟨hl, hv⟩ := h
    have e := creatorsBytes_list hl
    refine ⟨.creators ((creatorList p).map shownCreator), ?_, ?_, rfl⟩
    · have e2 := readCreators_bytes (creatorList p)
      rw [e] at e2
      simp only [shown, e2]; rfl
    · have e2 := jsCreators hv
      rw [e] at e2
      simp only [jsReadExt, e2]; rfl
  | metadata =>
    obtain ⟨s, d, u, i, more, hs, hd, hu, hi, rfl⟩ := h
    refine ⟨.metadata ⟨jsText dec s, jsText dec d, jsText dec u, jsText dec i⟩, ?_, ?_, rfl⟩
    · have hr := readMetadata_four hs hd hu hi more
      simp only [shown, hr]; rfl
    · simp only [jsReadExt, jsStr_prefixed hs, jsStr_prefixed hd, jsStr_prefixed hu,
        jsStr_prefixed hi, bind, Except.bind]
      rfl
  | grouping =>
    have hl : p.length = 48 := h
    refine ⟨.grouping (u64At p 0) (u64At p 8) (shownKey (keyAt p 16)), ?_, ?_, rfl⟩
    · simp only [shown, readGrouping]
      rw [if_neg (by omega), if_neg (by omega), if_pos hl]
      rfl
    · simp only [jsReadExt]
      rw [jsNum_slice (by omega)]
      simp only [bind, Except.bind]
      rw [jsNum_slice (by rw [List.length_drop]; omega)]
      simp only
      rw [jsKey_slice (by simp only [List.length_drop]; omega)]
      simp only [List.drop_drop]
      rfl
  | royalties =>
    obtain ⟨r, hr, hs⟩ := h
    have hr' := hr
    unfold readRoyalties at hr
    split at hr
    · cases hr
    rename_i h8
    simp only [bind_ok, pure_ok] at hr
    obtain ⟨c, hc, rfl⟩ := hr
    obtain ⟨rest, hj⟩ := jsConstraint_eq hc hs
    refine ⟨.royalties (u64At p 0) c, ?_, ?_, rfl⟩
    · simp only [shown, hr']; rfl
    · simp only [jsReadExt]
      rw [jsNum_slice (by omega)]
      simp only [bind, Except.bind, hj]
      rfl
  | manager =>
    have hl : 33 ≤ p.length := h
    refine ⟨.manager (shownKey (keyAt p 0)) (shownRoles (byteAt p 32)), ?_, ?_, rfl⟩
    · simp only [shown, readManager]
      rw [if_neg (by omega)]
      rfl
    · simp only [jsReadExt]
      rw [jsKey_slice (by omega)]
      have hd : p.drop 32 = byteAt p 32 :: p.drop 33 := by
        rw [List.drop_eq_getElem_cons (show 32 < p.length by omega)]
        simp [byteAt, List.getD, List.getElem?_eq_getElem (show 32 < p.length by omega)]
      simp only [bind, Except.bind, hd, jsNum_cons, UInt8.ofNat_toNat]
      rw [jsDecodeRoles_eq]
      rfl
  | proxy =>
    have hl : p.length = 97 := h
    refine ⟨.proxy (keyAt p 0) (slice p 32 32) (byteAt p 64).toNat (shownKey (keyAt p 65)), ?_, ?_, rfl⟩
    · simp only [shown, readProxy]
      rw [if_neg (by omega)]
      rfl
    · simp only [jsReadExt]
      rw [jsKey_slice (by omega)]
      have hd : (p.drop 32).drop 32 = byteAt p 64 :: p.drop 65 := by
        rw [List.drop_drop, List.drop_eq_getElem_cons (show 32 + 32 < p.length by omega)]
        simp [byteAt, List.getD, List.getElem?_eq_getElem (show 64 < p.length by omega)]
      simp only [bind, Except.bind]
      rw [if_neg (by rw [List.length_drop]; omega)]
      simp only [pure, Except.pure, hd, jsNum_cons]
      rw [jsKey_slice (by rw [List.length_drop]; omega)]
      rfl
  | properties =>
    obtain ⟨l, hl, hp⟩ := h
    obtain ⟨hf, rfl⟩ := readPropList_iff.1 hl
    refine ⟨.properties (l.map fun x => (jsText dec x.1, shownValue (jsText dec) x.2)), ?_, ?_, rfl⟩
    · simp only [shown, hl]; rfl
    · simp only [jsReadExt, jsProperties hf hp]; rfl
  | bucket => exact ⟨.bucket p, rfl, rfl, rfl⟩

/-! ## Accounts -/

theorem slice_append_slice (d : Bytes) (a m n : Nat) :
    slice d a (m + n) = slice d a m ++ slice d (a + m) n := by
  unfold slice
  rw [List.take_add, List.drop_drop]

theorem jsReadExt_at {d : Bytes} {off bnd : Nat} {t : ExtType} {p : Bytes} (hmod : Modern t p)
    (ht : t ≠ .none) (hb : off + 16 + p.length ≤ bnd) (hp : slice d (off + 16) p.length = p) :
    ∃ v, shown (jsText dec) t p = .ok v ∧ jsReadExt dec t (slice d (off + 16)
      ((if t = .metadata then bnd else off + 16 + p.length) - (off + 16))) = .ok v ∧ v.type = t := by
  split
  · rename_i htm
    subst htm
    have hsl : slice d (off + 16) (bnd - (off + 16)) =
        p ++ slice d (off + 16 + p.length) (bnd - (off + 16) - p.length) := by
      conv => rhs; lhs; rw [← hp]
      rw [← slice_append_slice]
      congr 1
      omega
    obtain ⟨m1, m2⟩ := modern_metadata_append hmod
      (slice d (off + 16 + p.length) (bnd - (off + 16) - p.length))
    rw [hsl, ← m2]
    exact jsReadExt_shown m1 ht
  · rw [Nat.add_sub_cancel_left, hp]
    exact jsReadExt_shown hmod ht

theorem jsExts_walk {d : Bytes} {off e : Nat} {es : List Extn} (h : Walk d off es e)
    (he : e = d.length ∨ e + 16 ≤ d.length ∧ leNat (slice d e 4) = 0)
    (hm : ∀ x ∈ es, Modern x.1 x.2) {fuel : Nat} (hf : es.length < fuel) :
    ∃ vs, jsExts dec d fuel off = .ok vs ∧ es.map (fun x => shown (jsText dec) x.1 x.2) = vs.map .ok ∧
      es.map (·.1) = vs.map JsExt.type := by
  induction h generalizing fuel with
  | nil hle =>
    cases fuel with
    | zero => cases hf
    | succ n =>
      refine ⟨[], ?_, rfl, rfl⟩
      rw [jsExts]
      rcases he with rfl | ⟨h1, h2⟩
      · rw [if_pos (Nat.le_refl _)]
      · rw [if_neg (by omega), if_neg (by omega)]
        have e0 : (hdrAt d _).ty = 0 := h2
        simp only [e0, if_true]
  | @cons off bnd e t p rest ht h0 h1 h2 hb hp hr ih =>
    cases fuel with
    | zero => cases hf
    | succ n =>
      obtain ⟨vs, i1, i2, i3⟩ := ih he (fun x hx => hm x (by simp [hx])) (fuel := n)
        (by simp only [List.length_cons] at hf; omega)
      have hle := hr.le
      have hmod : Modern t p := hm (t, p) (by simp)
      obtain ⟨v, v1, v2, v3⟩ := jsReadExt_at (dec := dec) hmod ht hb hp
      refine ⟨v :: vs, ?_, by simp only [List.map_cons, v1, i2], by simp only [List.map_cons, v3, i3]⟩
      rw [jsExts, if_neg (by omega), if_neg (by omega)]
      have e0 : (hdrAt d off).ty = t.toU32 := h0
      have e1 : (hdrAt d off).len = p.length := h1
      have e2 : (hdrAt d off).bnd = bnd := h2
      simp only [e0, e1, e2]
      rw [if_neg (toU32_ne_zero ht), ofU32_toU32]
      simp only [v2, i1, bind, Except.bind]
      rfl

/-- Extensions before a place where the rest is read. -/
theorem jsExts_prefix {d : Bytes} {off m : Nat} {es : List Extn} (h : Walk d off es m)
    (hm : ∀ x ∈ es, Modern x.1 x.2) {fuel : Nat} {ws : List JsExt} (hin : m + 16 ≤ d.length)
    (hw : jsExts dec d fuel m = .ok ws) :
    ∃ vs, jsExts dec d (es.length + fuel) off = .ok (vs ++ ws) ∧
      es.map (fun x => shown (jsText dec) x.1 x.2) = vs.map .ok := by
  induction h with
  | nil hle => exact ⟨[], by rw [List.length_nil, Nat.zero_add]; exact hw, rfl⟩
  | @cons off bnd e t p rest ht h0 h1 h2 hb hp hr ih =>
    obtain ⟨vs, i1, i2⟩ := ih (fun x hx => hm x (by simp [hx])) hin hw
    have hle := hr.le
    obtain ⟨v, v1, v2, v3⟩ := jsReadExt_at (dec := dec) (hm (t, p) (by simp)) ht hb hp
    refine ⟨v :: vs, ?_, by simp only [List.map_cons, v1, i2]⟩
    rw [List.length_cons, Nat.add_right_comm, jsExts, if_neg (by omega), if_neg (by omega)]
    have e0 : (hdrAt d off).ty = t.toU32 := h0
    have e1 : (hdrAt d off).len = p.length := h1
    have e2 : (hdrAt d off).bnd = bnd := h2
    simp only [e0, e1, e2]
    rw [if_neg (toU32_ne_zero ht), ofU32_toU32]
    simp only [v2, i1, bind, Except.bind]
    rfl

/-- An extension of a type that is not known is passed over. -/
theorem jsExts_skip {d : Bytes} {m fuel : Nat} (hin : m + 16 ≤ d.length)
    (hu : ExtType.ofU32 (hdrAt d m).ty = none) :
    jsExts dec d (fuel + 1) m = jsExts dec d fuel (hdrAt d m).bnd := by
  rw [jsExts, if_neg (by omega), if_neg (by omega)]
  simp only
  rw [if_neg (by intro h; rw [h] at hu; cases hu), hu]

/-- More rounds than needed change nothing. -/
theorem jsExts_fuel {d : Bytes} {m fuel : Nat} {ws : List JsExt}
    (hw : jsExts dec d fuel m = .ok ws) (n : Nat) : jsExts dec d (fuel + n) m = .ok ws := by
  induction fuel generalizing m ws with
  | zero => cases hw
  | succ fuel ih =>
    rw [Nat.add_right_comm, jsExts]
    rw [jsExts] at hw
    split at hw
    · rw [if_pos (by assumption)]; exact hw
    · rw [if_neg (by assumption)]
      split at hw
      · cases hw
      · rw [if_neg (by assumption)]
        simp only at hw ⊢
        split at hw
        · rw [if_pos (by assumption)]; exact hw
        · rw [if_neg (by assumption)]
          cases ht : ExtType.ofU32 (hdrAt d m).ty with
          | none => rw [ht] at hw; exact ih hw
          | some t =>
            rw [ht] at hw
            simp only [bind_ok] at hw ⊢
            obtain ⟨v, h1, vs, h2, h3⟩ := hw
            exact ⟨v, h1, vs, ih h2, h3⟩

theorem jsExts_stub {d : Bytes} {off e : Nat} {es : List Extn} (h : Walk d off es e)
    (he : e < d.length ∧ d.length < e + 16) (hm : ∀ x ∈ es, Modern x.1 x.2) {fuel : Nat}
    (hf : es.length < fuel) : jsExts dec d fuel off = .error .panic := by
  induction h generalizing fuel with
  | nil hle =>
    cases fuel with
    | zero => cases hf
    | succ n => rw [jsExts, if_neg (by omega), if_pos (by omega)]
  | @cons off bnd e t p rest ht h0 h1 h2 hb hp hr ih =>
    cases fuel with
    | zero => cases hf
    | succ n =>
      have i1 := ih he (fun x hx => hm x (by simp [hx])) (fuel := n)
        (by simp only [List.length_cons] at hf; omega)
      have hle := hr.le
      obtain ⟨v, v1, v2, v3⟩ := jsReadExt_at (dec := dec) (hm (t, p) (by simp)) ht hb hp
      rw [jsExts, if_neg (by omega), if_neg (by omega)]
      have e0 : (hdrAt d off).ty = t.toU32 := h0
      have e1 : (hdrAt d off).len = p.length := h1
      have e2 : (hdrAt d off).bnd = bnd := h2
      simp only [e0, e1, e2]
      rw [if_neg (toU32_ne_zero ht), ofU32_toU32]
      simp only [v2, i1, bind, Except.bind]

theorem drop_byte {d : Bytes} {n : Nat} (h : n < d.length) : d.drop n = byteAt d n :: d.drop (n + 1) := by
  rw [List.drop_eq_getElem_cons h]
  simp [byteAt, List.getD, List.getElem?_eq_getElem h]

theorem jsKey_drop {d : Bytes} {n : Nat} (h : n + 32 ≤ d.length) :
    jsKey (d.drop n) = .ok (keyAt d n, d.drop (n + 32)) := by
  rw [jsKey_slice (by rw [List.length_drop]; omega), List.drop_drop]
  rfl

theorem jsAsset_header {program : Key} {L : Ledger} {k : Key} {A : Asset} (h : Stores program L k A)
    (hh : HeaderInRange A) : jsAsset dec (L k).data =
      (jsExts dec (L k).data ((L k).data.length + 1) 168).map (shownAsset (jsText dec) A) := by
  obtain ⟨⟨-, hlen, hdisc⟩, -, hA, -⟩ := h
  obtain ⟨h1, h2, h3⟩ := hh
  rw [hA] at h1 h2 h3 ⊢
  simp only [Asset.of, assetAt, view] at h1 h2 h3 hdisc ⊢
  generalize (L k).data = d at *
  have hb : byteAt d 3 = 0 ∨ byteAt d 3 = 1 := by
    have h0 := UInt8.toNat_inj (a := byteAt d 3) (b := 0)
    have h1 := UInt8.toNat_inj (a := byteAt d 3) (b := 1)
    have e0 : (0 : UInt8).toNat = 0 := rfl
    have e1 : (1 : UInt8).toNat = 1 := rfl
    rw [e0] at h0
    rw [e1] at h1
    rcases Nat.le_one_iff_eq_zero_or_eq_one.1 h3 with h | h
    · exact .inl (h0.1 h)
    · exact .inr (h1.1 h)
  have d0 : jsEnum 1 1 d = .ok (1, d.drop 1) := by
    have := jsEnum_cons (last := 1) (c := byteAt d 0) (by rw [hdisc]; decide) (d.drop 1)
    rw [← drop_byte (d := d) (n := 0) (by omega), List.drop_zero, hdisc] at this
    exact this
  have d1 : jsEnum 1 1 (d.drop 1) = .ok ((byteAt d 1).toNat, d.drop 2) := by
    rw [drop_byte (by omega), jsEnum_cons h1]
  have d2 : jsEnum 1 3 (d.drop 2) = .ok ((byteAt d 2).toNat, d.drop 3) := by
    rw [drop_byte (by omega), jsEnum_cons h2]
  have d3 : jsBool (d.drop 3) = .ok (podTrue (byteAt d 3), d.drop 4) := by
    rw [drop_byte (by omega), jsBool_pod hb]
  have d4 : jsKey (d.drop 4) = .ok (keyAt d 4, d.drop 36) := jsKey_drop (by omega)
  have d5 : jsKey (d.drop 36) = .ok (keyAt d 36, d.drop 68) := jsKey_drop (by omega)
  have d6 : jsKey (d.drop 68) = .ok (keyAt d 68, d.drop 100) := jsKey_drop (by omega)
  have d7 : jsKey (d.drop 100) = .ok (keyAt d 100, d.drop 132) := jsKey_drop (by omega)
  have d8 : jsNum 1 (d.drop 132) = .ok ((byteAt d 132).toNat, d.drop 133) := by
    rw [drop_byte (by omega), jsNum_cons]
  unfold jsAsset
  simp only [d0, d1, d2, d3, d4, d5, d6, d7, d8, bind, Except.bind]
  rw [if_neg (by rw [List.length_drop]; omega)]
  simp only [pure, Except.pure, ne_eq, not_true_eq_false, if_false, UInt8.ofNat_toNat, jsDecodeRoles_eq]
  cases jsExts dec d (d.length + 1) 168 <;> rfl

theorem jsAsset_stores {program : Key} {L : Ledger} {k : Key} {A : Asset} (h : Stores program L k A)
    (hh : HeaderInRange A) (hs : NoStub L k A) (hm : ∀ x ∈ A.exts, Modern x.1 x.2) :
    ∃ vs, jsAsset dec (L k).data = .ok (shownAsset (jsText dec) A vs) ∧
      A.exts.map (fun x => shown (jsText dec) x.1 x.2) = vs.map .ok ∧
      A.exts.map (·.1) = vs.map JsExt.type := by
  rw [jsAsset_header h hh]
  obtain ⟨-, -, -, e, hp, hz⟩ := h
  have hend : e = packedEnd 168 A.exts := hp.end_eq
  have he : e = (L k).data.length ∨ e + 16 ≤ (L k).data.length ∧ leNat (slice (L k).data e 4) = 0 := by
    rcases hs with hs | hs
    · left; rw [hend]; exact hs.symm
    · right; exact ⟨by rw [hend]; exact hs, hz⟩
  have hlt := hp.walk.length_le
  have hle := hp.walk.le
  obtain ⟨vs, v1, v2, v3⟩ := jsExts_walk (dec := dec) hp.walk he hm
    (fuel := (L k).data.length + 1) (by omega)
  exact ⟨vs, by rw [v1]; rfl, v2, v3⟩

theorem jsAsset_stub {program : Key} {L : Ledger} {k : Key} {A : Asset} (h : Stores program L k A)
    (hh : HeaderInRange A) (hs : ¬ NoStub L k A) (hm : ∀ x ∈ A.exts, Modern x.1 x.2) :
    jsAsset dec (L k).data = .error .panic := by
  rw [jsAsset_header h hh]
  obtain ⟨-, -, -, e, hp, hz⟩ := h
  have hend : e = packedEnd 168 A.exts := hp.end_eq
  have hlt := hp.walk.length_le
  have hle := hp.walk.le
  unfold NoStub Tight at hs
  rw [jsExts_stub (dec := dec) hp.walk (by omega) hm (fuel := (L k).data.length + 1) (by omega)]
  rfl

/-! ## The form of the data is kept -/

theorem mem_creatorList {p : Bytes} {c : Creator} (h : c ∈ creatorList p) :
    ∃ i, i * 34 + 34 ≤ p.length ∧ c = creatorAt p i := by
  simp only [creatorList, List.mem_map, List.mem_range] at h
  obtain ⟨i, hi, rfl⟩ := h
  exact ⟨i, by omega, rfl⟩

theorem modern_flags {c : Key} {v : UInt8} {p q : Bytes} (h : Modern .creators p) (hv : v = 0 ∨ v = 1)
    (hq : SetsFlags c v p q) : Modern .creators q := by
  obtain ⟨h1, h2⟩ := h
  obtain ⟨q1, q2, q3⟩ := hq
  refine ⟨by rw [q2]; exact h1, fun x hx => ?_⟩
  obtain ⟨i, hi, rfl⟩ := mem_creatorList hx
  rw [q2] at hi
  have h3 := (q3 i hi).2.2
  have hm : creatorAt p i ∈ creatorList p := by
    simp only [creatorList, List.mem_map, List.mem_range]
    exact ⟨i, by omega, rfl⟩
  have h4 := h2 _ hm
  simp only [creatorAt] at h4 ⊢
  rw [Nat.mul_comm] at h4 ⊢
  rw [h3]
  split
  · exact hv
  · exact h4

theorem modern_accepted {au : Key} {t : ExtType} {old : Option Bytes} {new q : Bytes}
    (h : Accepted (some au) t old new q) (hn : Modern t new) (ho : ∀ o, old = some o → Modern t o) :
    Modern t q := by
  cases t with
  | creators =>
    obtain ⟨-, h1, h2, h3, -⟩ := h
    refine ⟨by rw [h2]; exact h1, fun c hc => ?_⟩
    rw [h3] at hc
    simp only [List.mem_map] at hc
    obtain ⟨x, hx, rfl⟩ := hc
    simp only [flagFor]
    split
    · rename_i y hy
      have hmem := List.mem_of_find?_eq_some hy
      cases old with
      | none => cases hmem
      | some o => exact (ho o rfl).2 y hmem
    · split <;> simp
  | grouping =>
    have hl : new.length = 48 := hn
    obtain ⟨-, -, h⟩ := h
    cases old with
    | none => rw [h.1]; exact hn
    | some o =>
      rw [h.2.1]
      show (withMembers new _).length = 48
      rw [withMembers, List.length_append, length_toLE, List.length_drop]
      omega
  | none => exact absurd h (by intro h; cases h)
  | royalties => rw [h.1]; exact hn
  | manager => rw [h.1]; exact hn
  | proxy => rw [h.1]; exact hn
  | attributes | blob | links | metadata | properties | bucket =>
    have e : q = new := h
    rw [e]; exact hn

theorem headerInRange_retitled {A : Asset} (h : HeaderInRange A) (x : UpdateInput) :
    HeaderInRange (A.retitled x) := by
  refine ⟨h.1, h.2.1, ?_⟩
  simp only [Asset.retitled]
  split
  · split <;> decide
  · exact h.2.2

theorem jsFriendly_setExt {A : Asset} (h : ∀ x ∈ A.exts, Modern x.1 x.2) {t : ExtType} {p : Bytes}
    (hp : Modern t p) : ∀ x ∈ setExt t p A.exts, Modern x.1 x.2 := by
  intro x hx
  rcases mem_setExt hx with rfl | hx
  · exact hp
  · exact h x hx

theorem jsFriendly_move {E : Env} {accts : List Key} {k : Key} {i : Instr} {A A' : Asset}
    (hP : StoresModern E.program accts i) (h : JsFriendly A) (hm : Move E accts k i A A') :
    JsFriendly A' := by
  obtain ⟨h1, h2⟩ := h
  cases hm with
  | stay => exact ⟨h1, h2⟩
  | transfer => exact ⟨h1, h2⟩
  | approve => exact ⟨h1, h2⟩
  | revoke => exact ⟨h1, h2⟩
  | lock => exact ⟨⟨show (1 : UInt8).toNat ≤ 1 by decide, h1.2⟩, h2⟩
  | unlock => exact ⟨⟨show (0 : UInt8).toNat ≤ 1 by decide, h1.2⟩, h2⟩
  | join => exact ⟨h1, h2⟩
  | leave => exact ⟨h1, h2⟩
  | handover => exact ⟨h1, h2⟩
  | retitle _ x => exact ⟨headerInRange_retitled h1 x, h2⟩
  | update _ x s rest e p ha hs hauth hmut hx he hp =>
    obtain ⟨new, hd, hn⟩ := hP.2 e hx
    refine ⟨headerInRange_retitled h1 x, jsFriendly_setExt h2 ?_⟩
    unfold UpdatesTo at hp
    rw [hd] at hp
    exact modern_accepted hp.1 hn fun o ho => h2 _ (lookup_mem ho)
  | updateFrom _ x s b rest t p ha hs hauth hmut hx hb =>
    have := hP.1 hx
    rw [ha] at this
    rcases this with h | h
    · cases h
    · exact absurd (Option.some.inj h) hb
  | remove _ t => exact ⟨h1, fun x hx => h2 x (mem_removeExt hx)⟩
  | verify _ c rest p q ha hs hp hq =>
    exact ⟨h1, jsFriendly_setExt h2 (modern_flags (h2 _ (lookup_mem hp)) (.inr rfl) hq)⟩
  | unverify _ c rest p q ha hs hp hq =>
    exact ⟨h1, jsFriendly_setExt h2 (modern_flags (h2 _ (lookup_mem hp)) (.inl rfl) hq)⟩
  | memberIn _ _ p hi ha hk hp =>
    refine ⟨h1, jsFriendly_setExt h2 ?_⟩
    have hl : p.length = 48 := h2 _ (lookup_mem hp)
    show (withMembers p _).length = 48
    rw [withMembers, List.length_append, length_toLE, List.length_drop]
    omega
  | memberOut _ _ p hi ha hk hp =>
    refine ⟨h1, jsFriendly_setExt h2 ?_⟩
    have hl : p.length = 48 := h2 _ (lookup_mem hp)
    show (withMembers p _).length = 48
    rw [withMembers, List.length_append, length_toLE, List.length_drop]
    omega

end Verif

import Verif.Spec.Wire
import Verif.Lemmas.Bytes

/-!
# Readers and writers fit together
-/

namespace Verif

open Verif.Spec

/-- The reader `r` reads exactly what `f` writes, for the values in `P`. -/
def Codec {α : Type} (r : Reader α) (f : α → Bytes) (P : α → Prop) : Prop :=
  ∀ bs a rest, r bs = some (a, rest) ↔ P a ∧ bs = f a ++ rest

theorem readU8_iff (bs : Bytes) (b : UInt8) (rest : Bytes) :
    readU8 bs = some (b, rest) ↔ bs = b :: rest := by
  cases bs with
  | nil => simp [readU8]
  | cons x xs => simp [readU8]

theorem readN_iff (n : Nat) (bs b rest : Bytes) :
    readN n bs = some (b, rest) ↔ b.length = n ∧ bs = b ++ rest := by
  unfold readN
  constructor
  · intro h
    split at h
    · cases h
    · cases h
      exact ⟨by simp; omega, (List.take_append_drop n bs).symm⟩
  · rintro ⟨h1, rfl⟩
    subst h1
    simp

theorem readU32_codec : Codec readU32 (fun n => toLE 4 n.toNat) (fun _ => True) := by
  intro bs n rest
  unfold readU32
  simp only [Option.bind_eq_bind, Option.bind_eq_some_iff, Prod.exists, readN_iff,
    Option.pure_def, Option.some.injEq, Prod.mk.injEq, true_and]
  constructor
  · rintro ⟨b, r, ⟨hl, rfl⟩, rfl, rfl⟩
    have hlt := leNat_lt b
    rw [hl] at hlt
    rw [UInt32.toNat_ofNat_of_lt' (by simpa using hlt), ← hl, toLE_leNat]
  · rintro rfl
    refine ⟨_, _, ⟨length_toLE _ _, rfl⟩, ?_, rfl⟩
    rw [leNat_toLE_of_lt (by have := n.toNat_lt; simpa using this)]
    simp

theorem readU16_codec : Codec readU16 (fun n => toLE 2 n.toNat) (fun _ => True) := by
  intro bs n rest
  unfold readU16
  simp only [Option.bind_eq_bind, Option.bind_eq_some_iff, Prod.exists, readN_iff,
    Option.pure_def, Option.some.injEq, Prod.mk.injEq, true_and]
  constructor
  · rintro ⟨b, r, ⟨hl, rfl⟩, rfl, rfl⟩
    have hlt := leNat_lt b
    rw [hl] at hlt
    rw [UInt16.toNat_ofNat_of_lt' (by simpa using hlt), ← hl, toLE_leNat]
  · rintro rfl
    refine ⟨_, _, ⟨length_toLE _ _, rfl⟩, ?_, rfl⟩
    rw [leNat_toLE_of_lt (by have := n.toNat_lt; simpa using this)]
    simp

theorem readBool_codec : Codec readBool encBool (fun _ => True) := by
  intro bs b rest
  unfold readBool encBool
  simp only [Option.bind_eq_bind, Option.bind_eq_some_iff, Prod.exists, readU8_iff]
  constructor
  · rintro ⟨x, r, rfl, h⟩
    split at h
    · cases h; simp_all
    · split at h
      · cases h; simp_all
      · cases h
  · rintro ⟨_, rfl⟩
    cases b
    · exact ⟨0, rest, rfl, rfl⟩
    · exact ⟨1, rest, rfl, rfl⟩

theorem readOpt_codec {α : Type} {r : Reader α} {f : α → Bytes} {P : α → Prop}
    (h : Codec r f P) : Codec (readOpt r) (encOpt f) (IfAny P) := by
  intro bs o rest
  unfold readOpt
  simp only [Option.bind_eq_bind, Option.bind_eq_some_iff, Prod.exists, readU8_iff]
  constructor
  · rintro ⟨x, q, rfl, h1⟩
    split at h1
    · cases h1
      subst x
      exact ⟨(by intro a ha; cases ha), rfl⟩
    · split at h1
      · simp only [Option.bind_eq_some_iff, Prod.exists] at h1
        obtain ⟨a, s, h2, h3⟩ := h1
        cases h3
        obtain ⟨hp, rfl⟩ := (h _ _ _).mp h2
        subst x
        exact ⟨(by intro b hb; cases hb; exact hp), rfl⟩
      · cases h1
  · rintro ⟨hp, rfl⟩
    cases o with
    | none => exact ⟨0, rest, rfl, by simp⟩
    | some a =>
      refine ⟨1, f a ++ rest, rfl, ?_⟩
      rw [if_neg (by decide), if_pos rfl, (h _ _ _).mpr ⟨hp a rfl, rfl⟩]
      rfl

theorem readMany_codec {α : Type} {r : Reader α} {f : α → Bytes} {P : α → Prop}
    (h : Codec r f P) (n : Nat) (bs : Bytes) (as : List α) (rest : Bytes) :
    readMany r n bs = some (as, rest) ↔
      as.length = n ∧ (∀ a ∈ as, P a) ∧ bs = as.flatMap f ++ rest := by
  induction n generalizing bs as with
  | zero =>
    simp only [readMany, Option.some.injEq, Prod.mk.injEq]
    constructor
    · rintro ⟨rfl, rfl⟩; simp
    · rintro ⟨h1, _, h2⟩
      obtain rfl := List.eq_nil_of_length_eq_zero h1
      exact ⟨rfl, by simpa using h2⟩
  | succ n ih =>
    simp only [readMany, Option.bind_eq_bind, Option.bind_eq_some_iff, Prod.exists]
    constructor
    · rintro ⟨a, q, h1, as', q', h2, h3⟩
      cases h3
      obtain ⟨hp, rfl⟩ := (h _ _ _).mp h1
      obtain ⟨h4, h5, rfl⟩ := (ih _ _).mp h2
      refine ⟨by simp [h4], ?_, by simp⟩
      intro b hb
      rcases List.mem_cons.mp hb with rfl | hb
      · exact hp
      · exact h5 b hb
    · rintro ⟨h1, h2, rfl⟩
      cases as with
      | nil => cases h1
      | cons a as =>
        refine ⟨a, as.flatMap f ++ rest, (h _ _ _).mpr ⟨h2 a (by simp), by simp⟩, as, rest,
          (ih _ _).mpr ⟨by simpa using h1, fun b hb => h2 b (by simp [hb]), rfl⟩, rfl⟩

theorem short_toNat {α : Type} {l : List α} (h : Short l) :
    (UInt32.ofNat l.length).toNat = l.length := UInt32.toNat_ofNat_of_lt' h

theorem short_of {α : Type} {l : List α} {n : UInt32} (h : l.length = n.toNat) : Short l := by
  unfold Short; rw [h]; exact n.toNat_lt

theorem readVec_codec {α : Type} {r : Reader α} {f : α → Bytes} {P : α → Prop}
    (h : Codec r f P) : Codec (readVec r) (encVec f) (fun l => Short l ∧ ∀ a ∈ l, P a) := by
  intro bs l rest
  unfold readVec encVec
  simp only [Option.bind_eq_bind, Option.bind_eq_some_iff, Prod.exists]
  constructor
  · rintro ⟨n, q, h1, h2⟩
    obtain ⟨_, rfl⟩ := (readU32_codec _ _ _).mp h1
    obtain ⟨h3, h4, rfl⟩ := (readMany_codec h _ _ _ _).mp h2
    exact ⟨⟨short_of h3, h4⟩, by rw [h3]; simp⟩
  · rintro ⟨⟨h1, h2⟩, rfl⟩
    refine ⟨UInt32.ofNat l.length, l.flatMap f ++ rest, (readU32_codec _ _ _).mpr ⟨trivial, ?_⟩,
      (readMany_codec h _ _ _ _).mpr ⟨(short_toNat h1).symm, h2, rfl⟩⟩
    simp only [short_toNat h1, List.append_assoc]

theorem readBytes_codec : Codec readBytes encBytes Short := by
  intro bs l rest
  unfold readBytes encBytes
  simp only [Option.bind_eq_bind, Option.bind_eq_some_iff, Prod.exists, readN_iff]
  constructor
  · rintro ⟨n, q, h1, h2, rfl⟩
    obtain ⟨_, rfl⟩ := (readU32_codec _ _ _).mp h1
    exact ⟨short_of h2, by rw [h2]; simp⟩
  · rintro ⟨h1, rfl⟩
    refine ⟨UInt32.ofNat l.length, l ++ rest, (readU32_codec _ _ _).mpr ⟨trivial, ?_⟩,
      (short_toNat h1).symm, rfl⟩
    simp only [short_toNat h1, List.append_assoc]

theorem readString_codec : Codec readString encBytes Text := by
  intro bs l rest
  unfold readString
  simp only [Option.bind_eq_bind, Option.bind_eq_some_iff, Prod.exists]
  constructor
  · rintro ⟨s, q, h1, h2⟩
    split at h2
    · rename_i hv
      cases h2
      obtain ⟨h3, rfl⟩ := (readBytes_codec _ _ _).mp h1
      exact ⟨⟨h3, hv⟩, rfl⟩
    · cases h2
  · rintro ⟨⟨h1, h2⟩, rfl⟩
    exact ⟨l, rest, (readBytes_codec _ _ _).mpr ⟨h1, rfl⟩, by rw [if_pos h2]; rfl⟩

theorem readTag_codec {α : Type} {ofTag : Nat → Option α} {tag : α → UInt8}
    (h : ∀ b a, ofTag b = some a ↔ b = (tag a).toNat) :
    Codec (readTag ofTag) (fun a => [tag a]) (fun _ => True) := by
  intro bs a rest
  unfold readTag
  simp only [Option.bind_eq_bind, Option.bind_eq_some_iff, Prod.exists, readU8_iff, h,
    Option.pure_def, Option.some.injEq, Prod.mk.injEq, true_and]
  constructor
  · rintro ⟨b, r, rfl, c, h1, rfl, rfl⟩
    rw [UInt8.toNat_inj] at h1
    rw [h1]; rfl
  · rintro rfl
    exact ⟨tag a, rest, rfl, a, rfl, rfl, rfl⟩

theorem extType_tag (b : Nat) (a : ExtType) : ExtType.ofTag b = some a ↔ b = a.tag.toNat := by
  constructor
  · intro h
    unfold ExtType.ofTag at h
    split at h <;> first | (cases h; rfl) | cases h
  · rintro rfl
    cases a <;> rfl

theorem standard_tag (b : Nat) (a : Standard) : Standard.ofTag b = some a ↔ b = a.tag.toNat := by
  constructor
  · intro h
    unfold Standard.ofTag at h
    split at h <;> first | (cases h; rfl) | cases h
  · rintro rfl
    cases a <;> rfl

theorem role_tag (b : Nat) (a : Role) : Role.ofTag b = some a ↔ b = a.tag.toNat := by
  constructor
  · intro h
    unfold Role.ofTag at h
    split at h <;> first | (cases h; rfl) | cases h
  · rintro rfl
    cases a <;> rfl

theorem readExtInput_codec : Codec readExtInput encExtInput ExtOk := by
  intro bs x rest
  unfold readExtInput encExtInput ExtOk
  simp only [Option.bind_eq_bind, Option.bind_eq_some_iff, Prod.exists,
    (readTag_codec extType_tag) _ _ _, readU32_codec _ _ _, readOpt_codec readBytes_codec _ _ _,
    Option.pure_def, Option.some.injEq, Prod.mk.injEq, true_and]
  constructor
  · rintro ⟨t, r, rfl, n, q, rfl, d, s, ⟨h, rfl⟩, rfl, rfl⟩
    exact ⟨h, by simp⟩
  · rintro ⟨h, rfl⟩
    exact ⟨x.ty, _, by simp, x.length, _, rfl, x.data, rest, ⟨h, rfl⟩, rfl, rfl⟩

theorem readCreateInput_codec : Codec readCreateInput encCreateInput
    (fun x => Text x.name ∧ IfAny (fun xs => Short xs ∧ ∀ e ∈ xs, ExtOk e) x.extensions) := by
  intro bs x rest
  unfold readCreateInput encCreateInput
  simp only [Option.bind_eq_bind, Option.bind_eq_some_iff, Prod.exists,
    (readTag_codec standard_tag) _ _ _, readString_codec _ _ _, readBool_codec _ _ _,
    readOpt_codec (readVec_codec readExtInput_codec) _ _ _,
    Option.pure_def, Option.some.injEq, Prod.mk.injEq, true_and]
  constructor
  · rintro ⟨t, r, ⟨h1, rfl⟩, n, q, rfl, d, s, rfl, e, u, ⟨h2, rfl⟩, rfl, rfl⟩
    exact ⟨⟨h1, h2⟩, by simp⟩
  · rintro ⟨⟨h1, h2⟩, rfl⟩
    exact ⟨x.name, _, ⟨h1, by simp only [List.append_assoc]⟩, x.standard, _, rfl, x.isMutable, _,
      rfl, x.extensions, rest, ⟨h2, rfl⟩, rfl, rfl⟩

theorem readUpdateInput_codec : Codec readUpdateInput encUpdateInput
    (fun x => IfAny Text x.name ∧ IfAny ExtOk x.extension) := by
  intro bs x rest
  unfold readUpdateInput encUpdateInput
  simp only [Option.bind_eq_bind, Option.bind_eq_some_iff, Prod.exists,
    readOpt_codec readString_codec _ _ _, readOpt_codec readBool_codec _ _ _,
    readOpt_codec readExtInput_codec _ _ _,
    Option.pure_def, Option.some.injEq, Prod.mk.injEq]
  constructor
  · rintro ⟨t, r, ⟨h1, rfl⟩, n, q, ⟨_, rfl⟩, e, u, ⟨h2, rfl⟩, rfl, rfl⟩
    exact ⟨⟨h1, h2⟩, by simp⟩
  · rintro ⟨⟨h1, h2⟩, rfl⟩
    exact ⟨x.name, _, ⟨h1, by simp only [List.append_assoc]⟩, x.isMutable, _,
      ⟨fun _ _ => trivial, rfl⟩, x.extension, rest, ⟨h2, rfl⟩, rfl, rfl⟩

theorem readWriteInput_codec : Codec readWriteInput encWriteInput (fun x => Short x.bytes) := by
  intro bs x rest
  unfold readWriteInput encWriteInput
  simp only [Option.bind_eq_bind, Option.bind_eq_some_iff, Prod.exists,
    readBool_codec _ _ _, readBytes_codec _ _ _,
    Option.pure_def, Option.some.injEq, Prod.mk.injEq, true_and]
  constructor
  · rintro ⟨t, r, rfl, n, q, ⟨h1, rfl⟩, rfl, rfl⟩
    exact ⟨h1, by simp⟩
  · rintro ⟨h1, rfl⟩
    exact ⟨x.overwrite, _, by simp only [List.append_assoc], x.bytes, rest, ⟨h1, rfl⟩, rfl, rfl⟩

theorem readDelegateInput_codec : Codec readDelegateInput encDelegateInput RolesOk := by
  intro bs x rest
  unfold readDelegateInput
  simp only [Option.bind_eq_bind, Option.bind_eq_some_iff, Prod.exists, readU8_iff]
  constructor
  · rintro ⟨t, r, rfl, h⟩
    split at h
    · rename_i ht
      obtain rfl : t = 0 := UInt8.toNat_inj.mp ht
      cases h
      exact ⟨trivial, rfl⟩
    · rename_i ht
      obtain rfl : t = 1 := UInt8.toNat_inj.mp ht
      simp only [Option.bind_eq_some_iff, Prod.exists, readVec_codec (readTag_codec role_tag) _ _ _]
        at h
      obtain ⟨rs, q, ⟨h1, rfl⟩, h2⟩ := h
      cases h2
      exact ⟨h1.1, rfl⟩
    · cases h
  · rintro ⟨h, rfl⟩
    cases x with
    | all => exact ⟨0, rest, rfl, rfl⟩
    | some rs =>
      refine ⟨1, _, rfl, ?_⟩
      show Option.bind (readVec (readTag Role.ofTag) (encVec (fun a => [Role.tag a]) rs ++ rest)) _ = _
      rw [(readVec_codec (readTag_codec role_tag) _ rs rest).mpr ⟨⟨h, by simp⟩, rfl⟩]
      rfl

theorem readStrategy_codec : Codec readStrategy encStrategy (fun _ => True) := by
  intro bs x rest
  unfold readStrategy
  simp only [Option.bind_eq_bind, Option.bind_eq_some_iff, Prod.exists, readU8_iff]
  constructor
  · rintro ⟨t, r, rfl, h⟩
    split at h
    · rename_i ht
      obtain rfl : t = 0 := UInt8.toNat_inj.mp ht
      cases h
      exact ⟨trivial, rfl⟩
    · rename_i ht
      obtain rfl : t = 1 := UInt8.toNat_inj.mp ht
      simp only [Option.bind_eq_some_iff, Prod.exists, readU16_codec _ _ _] at h
      obtain ⟨rs, q, ⟨_, rfl⟩, h2⟩ := h
      cases h2
      exact ⟨trivial, rfl⟩
    · cases h
  · rintro ⟨_, rfl⟩
    cases x with
    | trim => exact ⟨0, rest, rfl, rfl⟩
    | extend v =>
      refine ⟨1, _, rfl, ?_⟩
      show Option.bind (readU16 (toLE 2 v.toNat ++ rest)) _ = _
      rw [(readU16_codec (toLE 2 v.toNat ++ rest) v rest).mpr ⟨trivial, rfl⟩]
      rfl

theorem map_iff {α β : Type} {r : Reader α} {f : α → Bytes} {P : α → Prop} (h : Codec r f P)
    (g : α → β) (bs : Bytes) (b : β) (rest : Bytes) :
    r.map g bs = some (b, rest) ↔ ∃ a, P a ∧ bs = f a ++ rest ∧ b = g a := by
  unfold Reader.map
  simp only [Option.bind_eq_bind, Option.bind_eq_some_iff, Prod.exists, h _ _ _]
  constructor
  · rintro ⟨a, q, ⟨h1, h2⟩, h3⟩
    cases h3
    exact ⟨a, h1, h2, rfl⟩
  · rintro ⟨a, h1, h2, rfl⟩
    exact ⟨a, rest, ⟨h1, h2⟩, rfl⟩

theorem u8_eq {t : UInt8} {n : Nat} (h : t.toNat = n) : t = UInt8.ofNat n := by
  rw [← h]; simp

theorem readInstr_codec : Codec readInstr encode InstrOk := by
  intro bs i rest
  unfold readInstr
  simp only [Option.bind_eq_bind, Option.bind_eq_some_iff, Prod.exists, readU8_iff]
  constructor
  · rintro ⟨t, r, rfl, h⟩
    split at h
    case h_19 => cases h
    all_goals
      rename_i ht
      obtain rfl := u8_eq ht
      clear ht
    all_goals
      first
      | (cases h; exact ⟨trivial, rfl⟩)
      | (obtain ⟨a, h1, rfl, rfl⟩ := (map_iff readCreateInput_codec _ _ _ _).mp h; exact ⟨h1, rfl⟩)
      | (obtain ⟨a, h1, rfl, rfl⟩ := (map_iff readDelegateInput_codec _ _ _ _).mp h; exact ⟨h1, rfl⟩)
      | (obtain ⟨a, h1, rfl, rfl⟩ := (map_iff readExtInput_codec _ _ _ _).mp h; exact ⟨h1, rfl⟩)
      | (obtain ⟨a, h1, rfl, rfl⟩ := (map_iff readUpdateInput_codec _ _ _ _).mp h; exact ⟨h1, rfl⟩)
      | (obtain ⟨a, h1, rfl, rfl⟩ := (map_iff readWriteInput_codec _ _ _ _).mp h; exact ⟨h1, rfl⟩)
      | (obtain ⟨a, h1, rfl, rfl⟩ := (map_iff readStrategy_codec _ _ _ _).mp h; exact ⟨h1, rfl⟩)
      | (obtain ⟨a, h1, rfl, rfl⟩ := (map_iff (readTag_codec extType_tag) _ _ _ _).mp h
         exact ⟨h1, rfl⟩)
  · rintro ⟨h, rfl⟩
    cases i
    case create x => exact ⟨2, _, rfl, (map_iff readCreateInput_codec _ _ _ _).mpr ⟨x, h, rfl, rfl⟩⟩
    case approve x =>
      exact ⟨3, _, rfl, (map_iff readDelegateInput_codec _ _ _ _).mpr ⟨x, h, rfl, rfl⟩⟩
    case allocate x => exact ⟨4, _, rfl, (map_iff readExtInput_codec _ _ _ _).mpr ⟨x, h, rfl, rfl⟩⟩
    case revoke x =>
      exact ⟨6, _, rfl, (map_iff readDelegateInput_codec _ _ _ _).mpr ⟨x, h, rfl, rfl⟩⟩
    case update x => exact ⟨10, _, rfl, (map_iff readUpdateInput_codec _ _ _ _).mpr ⟨x, h, rfl, rfl⟩⟩
    case write x => exact ⟨12, _, rfl, (map_iff readWriteInput_codec _ _ _ _).mpr ⟨x, h, rfl, rfl⟩⟩
    case remove t =>
      exact ⟨16, _, rfl, (map_iff (readTag_codec extType_tag) _ _ _ _).mpr ⟨t, trivial, rfl, rfl⟩⟩
    case resize s =>
      exact ⟨17, _, rfl, (map_iff readStrategy_codec _ _ _ _).mpr ⟨s, trivial, rfl, rfl⟩⟩
    all_goals exact ⟨_, rest, rfl, rfl⟩

end Verif

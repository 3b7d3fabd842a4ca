import Verif.Spec.Readable
import Verif.Lemmas.Accept
import Verif.Lemmas.Payload
import Verif.Lemmas.Walk

/-!
# The readers succeed exactly on readable data
-/

namespace Verif

open Verif.Spec

theorem readStr_ok {b s : Bytes} {n : Nat} (h : readStr b = .ok (s, n)) :
    ShortString s ∧ n = s.length + 1 ∧ b = prefixed s ++ b.drop n := by
  unfold readStr at h
  cases b with
  | nil => cases h
  | cons c r =>
    simp only at h
    split at h
    · cases h
    · rename_i hc
      simp only [Except.ok.injEq, Prod.mk.injEq] at h
      obtain ⟨rfl, rfl⟩ := h
      have hl : (r.take c.toNat).length = c.toNat := by rw [List.length_take]; omega
      have := c.toNat_lt
      refine ⟨by unfold ShortString; omega, by omega, ?_⟩
      unfold prefixed
      rw [hl, UInt8.ofNat_toNat, List.drop_succ_cons, List.cons_append, List.take_append_drop]

theorem readStr_prefixed {s : Bytes} (h : ShortString s) (rest : Bytes) :
    readStr (prefixed s ++ rest) = .ok (s, s.length + 1) := readStr_writeStr s rest h

theorem drop_prefixed (s rest : Bytes) : (prefixed s ++ rest).drop (s.length + 1) = rest :=
  List.drop_left' rfl

theorem readPairs_ok {fuel : Nat} {b : Bytes} {l : List (Bytes × Bytes)}
    (h : readPairs fuel b = .ok l) : (∀ x ∈ l, ShortString x.1 ∧ ShortString x.2) ∧ b = pairsData l := by
  induction fuel generalizing b l with
  | zero => cases h
  | succ n ih =>
    rw [readPairs] at h
    split at h
    · rename_i he
      cases h
      have e : b = [] := by simpa using he
      subst e
      exact ⟨by simp, rfl⟩
    · inv at h
      obtain ⟨⟨s, i⟩, h1, ⟨v, j⟩, h2, r, h3, rfl⟩ := h
      obtain ⟨a1, rfl, a3⟩ := readStr_ok h1
      obtain ⟨b1, rfl, b3⟩ := readStr_ok h2
      obtain ⟨c1, c2⟩ := ih h3
      refine ⟨?_, ?_⟩
      · intro x hx
        rcases List.mem_cons.mp hx with rfl | hx
        · exact ⟨a1, b1⟩
        · exact c1 x hx
      · rw [a3, b3, List.drop_drop, c2]
        simp [pairsData]

theorem readPairList_iff {b : Bytes} {l : List (Bytes × Bytes)} :
    readPairList b = .ok l ↔ (∀ x ∈ l, ShortString x.1 ∧ ShortString x.2) ∧ b = pairsData l :=
  ⟨readPairs_ok, fun ⟨h1, h2⟩ => h2 ▸ readPairs_pairsBytes l _ (Nat.le_refl _) h1⟩

theorem readPropValue_ok {b : Bytes} {v : PropValue} {n : Nat} (h : readPropValue b = .ok (v, n)) :
    ValueFits v ∧ n = (valueData v).length ∧ b = valueData v ++ b.drop n := by
  unfold readPropValue at h
  cases b with
  | nil => cases h
  | cons c r =>
    simp only at h
    split at h
    · rename_i hc
      inv at h
      obtain ⟨⟨s, i⟩, h1, h2⟩ := h
      simp only [Prod.mk.injEq] at h2
      obtain ⟨rfl, rfl⟩ := h2
      obtain ⟨a1, rfl, a3⟩ := readStr_ok h1
      refine ⟨a1, by simp [valueData, prefixed], ?_⟩
      subst hc
      rw [List.drop_succ_cons]
      unfold valueData
      rw [List.cons_append, ← a3]
    · split at h
      · rename_i hc
        split at h
        · cases h
        · simp only [Except.ok.injEq, Prod.mk.injEq] at h
          obtain ⟨rfl, rfl⟩ := h
          have hl : (r.take 8).length = 8 := by rw [List.length_take]; omega
          have h1 := leNat_lt (r.take 8)
          have h2 := toLE_leNat (r.take 8)
          rw [hl] at h1 h2
          have e256 : (256 : Nat) ^ 8 = 18446744073709551616 := by decide
          refine ⟨by unfold ValueFits; omega, by simp [valueData, length_toLE], ?_⟩
          subst hc
          show 1 :: r = (1 :: toLE 8 (leNat (r.take 8))) ++ (1 :: r).drop 9
          rw [h2, List.drop_succ_cons, List.cons_append, List.take_append_drop]
      · split at h
        · rename_i hc
          subst hc
          cases r with
          | nil => cases h
          | cons x r =>
            simp only [Except.ok.injEq, Prod.mk.injEq] at h
            obtain ⟨rfl, rfl⟩ := h
            exact ⟨trivial, rfl, rfl⟩
        · cases h

theorem readProps_ok {fuel : Nat} {b : Bytes} {l : List (Bytes × PropValue)}
    (h : readProps fuel b = .ok l) :
    (∀ x ∈ l, ShortString x.1 ∧ ValueFits x.2) ∧ b = propertiesData l := by
  induction fuel generalizing b l with
  | zero => cases h
  | succ n ih =>
    rw [readProps] at h
    split at h
    · rename_i he
      cases h
      have e : b = [] := by simpa using he
      subst e
      exact ⟨by simp, rfl⟩
    · inv at h
      obtain ⟨⟨s, i⟩, h1, ⟨v, j⟩, h2, r, h3, rfl⟩ := h
      obtain ⟨a1, rfl, a3⟩ := readStr_ok h1
      obtain ⟨b1, rfl, b3⟩ := readPropValue_ok h2
      obtain ⟨c1, c2⟩ := ih h3
      refine ⟨?_, ?_⟩
      · intro x hx
        rcases List.mem_cons.mp hx with rfl | hx
        · exact ⟨a1, b1⟩
        · exact c1 x hx
      · rw [a3, b3, List.drop_drop, c2]
        simp [propertiesData]

theorem valueFits_iff (v : PropValue) : v.Fits ↔ ValueFits v := by
  cases v <;> simp [PropValue.Fits, ValueFits, ShortString]

theorem valueData_eq : valueData = writePropValue := by
  funext v; cases v <;> rfl

theorem readPropList_iff {b : Bytes} {l : List (Bytes × PropValue)} :
    readPropList b = .ok l ↔ (∀ x ∈ l, ShortString x.1 ∧ ValueFits x.2) ∧ b = propertiesData l := by
  refine ⟨readProps_ok, fun ⟨h1, h2⟩ => ?_⟩
  have e : propertiesData l = propsBytes l := by
    unfold propertiesData propsBytes; rw [valueData_eq]; rfl
  rw [e] at h2
  subst h2
  exact readProps_propsBytes l _ (Nat.le_refl _) fun p hp =>
    ⟨(h1 p hp).1, (valueFits_iff _).mpr (h1 p hp).2⟩

theorem readBlob_iff {b : Bytes} : (∃ v, readBlob b = .ok v) ↔ Readable .blob b := by
  constructor
  · rintro ⟨v, h⟩
    unfold readBlob at h
    inv at h
    obtain ⟨⟨s, i⟩, h1, rfl⟩ := h
    obtain ⟨a1, rfl, a3⟩ := readStr_ok h1
    exact ⟨s, _, a1, a3⟩
  · rintro ⟨s, r, h1, rfl⟩
    unfold readBlob
    rw [readStr_prefixed h1]
    exact ⟨_, rfl⟩

theorem readMetadata_iff {b : Bytes} : (∃ v, readMetadata b = .ok v) ↔ Readable .metadata b := by
  constructor
  · rintro ⟨v, h⟩
    unfold readMetadata at h
    inv at h
    obtain ⟨⟨s, i⟩, h1, ⟨d, j⟩, h2, ⟨u, k⟩, h3, h4⟩ := h
    obtain ⟨a1, rfl, a3⟩ := readStr_ok h1
    obtain ⟨b1, rfl, b3⟩ := readStr_ok h2
    obtain ⟨c1, rfl, c3⟩ := readStr_ok h3
    simp only [List.drop_drop] at b3 c3
    refine ⟨s, d, u, b.drop (s.length + 1 + (d.length + 1) + (u.length + 1)), a1, b1, c1, ?_, ?_⟩
    · rw [← c3, ← b3, ← a3]
    · simp only at h4
      split at h4
      · rename_i he
        exact Or.inl (by simpa using he)
      · right
        inv at h4
        obtain ⟨⟨m, n⟩, h5, _⟩ := h4
        obtain ⟨d1, rfl, d3⟩ := readStr_ok h5
        exact ⟨m, _, d1, d3⟩
  · rintro ⟨s, d, u, r, h1, h2, h3, rfl, h4⟩
    unfold readMetadata
    rw [readStr_prefixed h1]
    simp only [bind, Except.bind]
    rw [drop_prefixed, readStr_prefixed h2]
    simp only
    rw [← List.drop_drop, drop_prefixed, drop_prefixed, readStr_prefixed h3]
    simp only
    rw [Nat.add_assoc, ← List.drop_drop, drop_prefixed, ← List.drop_drop, drop_prefixed,
      drop_prefixed]
    rcases h4 with rfl | ⟨m, x, h5, rfl⟩
    · exact ⟨_, rfl⟩
    · rw [readStr_prefixed h5]
      have : (prefixed m ++ x).isEmpty = false := by simp [prefixed]
      rw [this]
      exact ⟨_, rfl⟩

theorem readGrouping_total {p : Bytes} (h1 : 16 ≤ p.length) (h2 : p.length ≤ 48) :
    readGrouping p = .ok ⟨membersOf p, limitOf p,
      if p.length = 48 then keyAt p 16 else Key.default⟩ := by
  have e1 : u64At p 0 = membersOf p := by unfold u64At membersOf slice; simp
  have e2 : u64At p 8 = limitOf p := rfl
  unfold readGrouping
  rw [if_neg (by omega), e1, e2]
  by_cases h : p.length = 48
  · rw [if_neg (by omega), if_pos h, if_pos h]
  · rw [if_pos (by omega), if_neg h]

theorem readGrouping_iff {b : Bytes} : (∃ g, readGrouping b = .ok g) ↔ Readable .grouping b :=
  ⟨fun ⟨_, h⟩ => ⟨(readGrouping_ok h).1, (readGrouping_ok h).2.1⟩,
    fun ⟨h1, h2⟩ => ⟨_, readGrouping_total h1 h2⟩⟩

theorem readRoyalties_iff {b : Bytes} : (∃ g, readRoyalties b = .ok g) ↔ Readable .royalties b := by
  unfold readRoyalties Readable
  constructor
  · rintro ⟨g, h⟩
    split at h
    · cases h
    · inv at h
      obtain ⟨c, h, _⟩ := h
      exact ⟨by omega, c, h⟩
  · rintro ⟨h, c, hc⟩
    rw [if_neg (by omega), hc]
    exact ⟨_, rfl⟩

theorem readManager_iff {b : Bytes} : (∃ g, readManager b = .ok g) ↔ Readable .manager b := by
  unfold readManager Readable
  constructor
  · rintro ⟨g, h⟩
    split at h
    · cases h
    · omega
  · intro h
    rw [if_neg (by omega)]
    exact ⟨_, rfl⟩

theorem readProxy_iff {b : Bytes} : (∃ g, readProxy b = .ok g) ↔ Readable .proxy b := by
  unfold readProxy Readable
  constructor
  · rintro ⟨g, h⟩
    split at h
    · cases h
    · omega
  · intro h
    rw [if_neg (by omega)]
    exact ⟨_, rfl⟩

theorem creatorsBytes_list {b : Bytes} (h : b.length % 34 = 0) : creatorsBytes (creatorList b) = b := by
  have hr : readCreators b = .ok (creatorsFrom (b.length / 34) b) := by
    unfold readCreators; rw [if_neg (by omega)]
  have := readCreators_eq.mp hr
  rw [this, creatorList_bytes]

/-- The converse of `creators_accepted`. -/
theorem creators_accepts {au : Option Key} {os : List Creator} {b q : Bytes}
    (h : CreatorsAccepted au os b q) :
    ∃ cs, b = creatorsBytes cs ∧
      q = creatorsBytes (cs.map fun c => { c with verified := flagFor au os c.address }) ∧
      shareTotal cs = 100 ∧
      creatorsKeepVerified os
        (cs.map fun c => { c with verified := flagFor au os c.address }) = .ok () := by
  obtain ⟨h1, h2, h3, h4, h5⟩ := h
  have eb := creatorsBytes_list h1
  have eq := creatorsBytes_list (b := q) (by rw [h2]; exact h1)
  refine ⟨creatorList b, eb.symm, by rw [← h3, eq], ?_, ?_⟩
  · rw [← eq, sumShares_bytes, h3, shareTotal_map] at h4
    exact UInt8.toNat_inj.mp h4
  · rw [keepVerified_ok]
    intro o ho hv
    obtain ⟨c, hc, h6, h7⟩ := h5 o ho hv
    rw [h3] at hc
    obtain ⟨c0, hc0, rfl⟩ := List.mem_map.mp hc
    simp only at h6 h7
    unfold creatorsGet
    cases hf : List.find? (fun c => decide (c.address = o.address))
        ((creatorList b).map fun c => { c with verified := flagFor au os c.address }) with
    | none =>
      rw [List.find?_eq_none] at hf
      have := hf _ hc
      simp [h6] at this
    | some d =>
      refine ⟨d, rfl, ?_⟩
      have hd := List.mem_of_find?_eq_some hf
      have ha := List.find?_some hf
      obtain ⟨d0, hd0, rfl⟩ := List.mem_map.mp hd
      simp only [decide_eq_true_eq] at ha
      simp only
      rw [ha, ← h6]
      exact h7

/-- `on_create` accepts exactly readable and acceptable data. -/
theorem onCreate_iff {t : ExtType} {b v : Bytes} {au : Option Key} (ht : t ≠ .none) :
    onCreate t b au = .ok v ↔ Accepted au t none b v ∧ Readable t b := by
  constructor
  · intro h
    refine ⟨onCreate_accepted ht h, ?_⟩
    cases t with
    | none => exact absurd rfl ht
    | creators => obtain ⟨cs, rfl, _⟩ := onCreate_creators h
                  exact (by rw [Readable, length_creatorsBytes]; omega)
    | grouping =>
      simp only [onCreate, groupingOnCreate] at h
      inv at h
      obtain ⟨g, h, _⟩ := h
      exact readGrouping_iff.mp ⟨_, h⟩
    | royalties =>
      simp only [onCreate, royaltiesCheck] at h
      inv at h
      obtain ⟨g, h, _⟩ := h
      exact readRoyalties_iff.mp ⟨_, h⟩
    | attributes | links =>
      simp only [onCreate] at h
      inv at h
      obtain ⟨l, h, _⟩ := h
      exact ⟨l, readPairList_iff.mp h⟩
    | properties =>
      simp only [onCreate] at h
      inv at h
      obtain ⟨l, h, _⟩ := h
      exact ⟨l, readPropList_iff.mp h⟩
    | blob =>
      simp only [onCreate] at h
      inv at h
      obtain ⟨l, h, _⟩ := h
      exact readBlob_iff.mp ⟨l, h⟩
    | metadata =>
      simp only [onCreate] at h
      inv at h
      obtain ⟨l, h, _⟩ := h
      exact readMetadata_iff.mp ⟨l, h⟩
    | manager =>
      simp only [onCreate] at h
      inv at h
      obtain ⟨l, h, _⟩ := h
      exact readManager_iff.mp ⟨l, h⟩
    | proxy =>
      simp only [onCreate] at h
      inv at h
      obtain ⟨l, h, _⟩ := h
      exact readProxy_iff.mp ⟨l, h⟩
    | bucket => trivial
  · rintro ⟨h1, h2⟩
    cases t with
    | none => exact absurd rfl ht
    | creators =>
      obtain ⟨cs, rfl, rfl, h3, _⟩ := creators_accepts h1.2
      simp only [onCreate]
      inv
      refine ⟨cs, readCreators_bytes cs, _, creatorsOnCreate_ok.mpr ⟨rfl, ?_⟩, ?_⟩
      · rw [shareTotal_map]; exact h3
      · congr 2
        funext c
        rw [initialVerified_eq]
        rfl
    | grouping =>
      obtain ⟨a1, a2, rfl, a4⟩ := h1
      simp only [onCreate, groupingOnCreate]
      inv
      refine ⟨_, readGrouping_total a1 a2, ?_⟩
      rw [if_neg (by simp only; omega)]
      rfl
    | royalties =>
      obtain ⟨rfl, a2, a3⟩ := h1
      obtain ⟨r, hr⟩ := readRoyalties_iff.mpr h2
      simp only [onCreate, royaltiesCheck]
      inv
      refine ⟨r, hr, ?_⟩
      rw [if_neg (by rw [(readRoyalties_ok hr).2]; omega)]
      rfl
    | attributes | links =>
      obtain rfl : v = b := h1
      obtain ⟨l, hl⟩ := h2
      simp only [onCreate, readPairList_iff.mpr hl]
      rfl
    | properties =>
      obtain rfl : v = b := h1
      obtain ⟨l, hl⟩ := h2
      simp only [onCreate, readPropList_iff.mpr hl]
      rfl
    | blob =>
      obtain rfl : v = b := h1
      obtain ⟨l, hl⟩ := readBlob_iff.mpr h2
      simp only [onCreate, hl]
      rfl
    | metadata =>
      obtain rfl : v = b := h1
      obtain ⟨l, hl⟩ := readMetadata_iff.mpr h2
      simp only [onCreate, hl]
      rfl
    | manager =>
      obtain ⟨rfl, _⟩ := h1
      obtain ⟨l, hl⟩ := readManager_iff.mpr h2
      simp only [onCreate, hl]
      rfl
    | proxy =>
      obtain ⟨rfl, _⟩ := h1
      obtain ⟨l, hl⟩ := readProxy_iff.mpr h2
      simp only [onCreate, hl]
      rfl
    | bucket =>
      obtain rfl : v = b := h1
      rfl

theorem take65_fields {a b : Bytes} (h : a.take 65 = b.take 65) :
    keyAt a 0 = keyAt b 0 ∧ slice a 32 32 = slice b 32 32 ∧ byteAt a 64 = byteAt b 64 := by
  have get : ∀ i, i < 65 → a[i]? = b[i]? := by
    intro i hi
    have := congrArg (fun l => l[i]?) h
    simpa only [List.getElem?_take, if_pos hi] using this
  refine ⟨?_, ?_, ?_⟩
  · unfold keyAt
    rw [slice_congr (d := b) (b := 0) fun i hi => get _ (by omega)]
  · exact slice_congr fun i hi => get _ (by omega)
  · unfold byteAt
    rw [List.getD_eq_getElem?_getD, List.getD_eq_getElem?_getD, get 64 (by omega)]

/-- `on_update` accepts exactly readable and acceptable data, when the current data is readable. -/
theorem onUpdate_iff {t : ExtType} {old b v : Bytes} {au : Option Key} (ht : t ≠ .none) :
    onUpdate t old b au = .ok v ↔
      Accepted au t (some old) b v ∧ Readable t b ∧ Readable t old := by
  constructor
  · intro h
    refine ⟨onUpdate_accepted ht h, ?_⟩
    cases t with
    | none => exact absurd rfl ht
    | creators =>
      obtain ⟨os, cs, rfl, rfl, _⟩ := onUpdate_creators h
      exact ⟨by rw [Readable, length_creatorsBytes]; omega,
        by rw [Readable, length_creatorsBytes]; omega⟩
    | grouping =>
      obtain ⟨o, n, h1, h2, _⟩ := onUpdate_grouping h
      exact ⟨readGrouping_iff.mp ⟨_, h2⟩, readGrouping_iff.mp ⟨_, h1⟩⟩
    | royalties =>
      simp only [onUpdate, royaltiesCheck] at h
      inv at h
      obtain ⟨o, h1, n, h2, _⟩ := h
      exact ⟨readRoyalties_iff.mp ⟨_, h2⟩, readRoyalties_iff.mp ⟨_, h1⟩⟩
    | attributes | links =>
      simp only [onUpdate] at h
      inv at h
      obtain ⟨o, h1, n, h2, _⟩ := h
      exact ⟨⟨_, readPairList_iff.mp h2⟩, ⟨_, readPairList_iff.mp h1⟩⟩
    | properties =>
      simp only [onUpdate] at h
      inv at h
      obtain ⟨o, h1, n, h2, _⟩ := h
      exact ⟨⟨_, readPropList_iff.mp h2⟩, ⟨_, readPropList_iff.mp h1⟩⟩
    | blob =>
      simp only [onUpdate] at h
      inv at h
      obtain ⟨o, h1, n, h2, _⟩ := h
      exact ⟨readBlob_iff.mp ⟨_, h2⟩, readBlob_iff.mp ⟨_, h1⟩⟩
    | metadata =>
      simp only [onUpdate] at h
      inv at h
      obtain ⟨o, h1, n, h2, _⟩ := h
      exact ⟨readMetadata_iff.mp ⟨_, h2⟩, readMetadata_iff.mp ⟨_, h1⟩⟩
    | manager =>
      simp only [onUpdate] at h
      inv at h
      obtain ⟨o, h1, n, h2, _⟩ := h
      exact ⟨readManager_iff.mp ⟨_, h2⟩, readManager_iff.mp ⟨_, h1⟩⟩
    | proxy =>
      simp only [onUpdate, proxyOnUpdate] at h
      inv at h
      obtain ⟨o, h1, n, h2, _⟩ := h
      exact ⟨readProxy_iff.mp ⟨_, h2⟩, readProxy_iff.mp ⟨_, h1⟩⟩
    | bucket => exact ⟨trivial, trivial⟩
  · rintro ⟨h1, h2, h3⟩
    cases t with
    | none => exact absurd rfl ht
    | creators =>
      obtain ⟨a1, a2⟩ := h1
      have ho := creatorsBytes_list h3
      simp only [Option.map_some, Option.getD_some] at a2
      obtain ⟨cs, rfl, rfl, h4, h5⟩ := creators_accepts a2
      have hm : (cs.map fun c => { c with verified := match creatorsGet (creatorList old) c.address with
          | some o => o.verified
          | none => initialVerified au c }) =
          cs.map fun c => { c with verified := flagFor au (creatorList old) c.address } :=
        List.map_congr_left fun c _ =>
          congrArg (fun f => ({ c with verified := f } : Creator)) (onUpdate_flag au _ c)
      simp only [onUpdate]
      inv
      refine ⟨creatorList old, readCreators_eq.mpr ho.symm, cs, readCreators_bytes cs, _,
        creatorsOnUpdate_ok.mpr ⟨hm.symm, ?_, h5⟩, rfl⟩
      rw [shareTotal_map]; exact h4
    | grouping =>
      obtain ⟨a1, a2, a3, rfl, a5⟩ := h1
      simp only [onUpdate, groupingOnUpdate]
      inv
      refine ⟨_, readGrouping_total h3.1 h3.2, _, readGrouping_total a1 a2, ?_⟩
      rw [if_neg (by simp only; omega), setGroupSize_eq]
      rfl
    | royalties =>
      obtain ⟨rfl, a2, a3⟩ := h1
      obtain ⟨r, hr⟩ := readRoyalties_iff.mpr h2
      obtain ⟨o, ho⟩ := readRoyalties_iff.mpr h3
      simp only [onUpdate, royaltiesCheck]
      inv
      refine ⟨o, ho, r, hr, ?_⟩
      rw [if_neg (by rw [(readRoyalties_ok hr).2]; omega)]
      rfl
    | attributes | links =>
      obtain rfl : v = b := h1
      obtain ⟨l, hl⟩ := h2
      obtain ⟨o, ho⟩ := h3
      simp only [onUpdate, readPairList_iff.mpr hl, readPairList_iff.mpr ho]
      rfl
    | properties =>
      obtain rfl : v = b := h1
      obtain ⟨l, hl⟩ := h2
      obtain ⟨o, ho⟩ := h3
      simp only [onUpdate, readPropList_iff.mpr hl, readPropList_iff.mpr ho]
      rfl
    | blob =>
      obtain rfl : v = b := h1
      obtain ⟨l, hl⟩ := readBlob_iff.mpr h2
      obtain ⟨o, ho⟩ := readBlob_iff.mpr h3
      simp only [onUpdate, hl, ho]
      rfl
    | metadata =>
      obtain rfl : v = b := h1
      obtain ⟨l, hl⟩ := readMetadata_iff.mpr h2
      obtain ⟨o, ho⟩ := readMetadata_iff.mpr h3
      simp only [onUpdate, hl, ho]
      rfl
    | manager =>
      obtain ⟨rfl, _⟩ := h1
      obtain ⟨l, hl⟩ := readManager_iff.mpr h2
      obtain ⟨o, ho⟩ := readManager_iff.mpr h3
      simp only [onUpdate, hl, ho]
      rfl
    | proxy =>
      obtain ⟨rfl, a2, a3⟩ := h1
      obtain ⟨a4, a5⟩ := a3 old rfl
      obtain ⟨l, hl⟩ := readProxy_iff.mpr h2
      obtain ⟨o, ho⟩ := readProxy_iff.mpr h3
      obtain ⟨_, rfl⟩ := readProxy_ok hl
      obtain ⟨_, rfl⟩ := readProxy_ok ho
      obtain ⟨c1, c2, c3⟩ := take65_fields a5
      simp only [onUpdate, proxyOnUpdate]
      inv
      refine ⟨_, ho, _, hl, ?_⟩
      rw [if_neg (by simp [c1, c2, c3])]
      rfl
    | bucket =>
      obtain rfl : v = b := h1
      rfl

/-- What an Update accepts. -/
theorem updateValidate_iff {t : ExtType} {b v : Bytes} {cur : Option Bytes} {au : Key}
    (ht : t ≠ .none) :
    updateValidate t b cur au = .ok v ↔
      Accepted (some au) t cur b v ∧ Readable t b ∧ (∀ o, cur = some o → Readable t o) ∧
        ((t = .manager ∨ t = .proxy) → cur ≠ none) := by
  unfold updateValidate
  cases cur with
  | some old =>
    rw [mapLife_ok, onUpdate_iff ht]
    simp
  | none =>
    cases t with
    | none => exact absurd rfl ht
    | manager | proxy => simp
    | _ => simp only [mapLife_ok]; rw [onCreate_iff (by decide)]; simp

end Verif

import Verif.Lemmas.JsSearch
import Verif.Props.C51
import Verif.Props.C54
import Verif.Props.C65
import Verif.Props.C43
import Verif.Model.BridgeClient

/-!
# C70 — a search with the JavaScript client shows exactly the assets with the given attributes

The filters are right. But a search is all or nothing: it throws as soon as one of the accounts found
cannot be read, and anybody can provide such an account.
-/

namespace Verif.Props

open Verif Verif.Spec

theorem filters_each {α : Type} {f : α → Except Err (Nat × Bytes)} {l : List α} {xs : List (Nat × Bytes)}
    (h : jsFilters f l = .ok xs) : List.Forall₂ (fun a x => f a = .ok x) l xs := by
  induction l generalizing xs with
  | nil => cases h; exact .nil
  | cons a l ih =>
    rw [jsFilters] at h
    inv at h
    obtain ⟨y, hy, ys, hys, rfl⟩ := h
    exact .cons hy (ih hys)

theorem all_of_forall₂ {α β : Type} {R : α → β → Prop} {P : α → Prop} {q : β → Bool} {l : List α}
    {xs : List β} (h : List.Forall₂ R l xs) (hq : ∀ a x, R a x → (q x = true ↔ P a)) :
    xs.all q = true ↔ ∀ a ∈ l, P a := by
  induction h with
  | nil => simp
  | cons h _ ih =>
    rw [List.all_cons, Bool.and_eq_true, ih, hq _ _ h]
    simp

/-- The client can ask for every combination of fields, with enumerators in range and proper roles. -/
theorem C70_askable {fs : List SearchField} :
    (∃ xs, jsFilters SearchField.filter fs = .ok xs) ↔ ∀ f ∈ fs, Askable f := by
  induction fs with
  | nil => exact ⟨fun _ f h => (by cases h), fun _ => ⟨[], rfl⟩⟩
  | cons f fs ih =>
    rw [List.forall_mem_cons, ← ih, filter_askable]
    constructor
    · rintro ⟨xs, h⟩
      rw [jsFilters] at h
      inv at h
      obtain ⟨y, hy, ys, hys, _⟩ := h
      exact ⟨⟨y, hy⟩, ys, hys⟩
    · rintro ⟨⟨y, hy⟩, ys, hys⟩
      refine ⟨y :: ys, ?_⟩
      rw [jsFilters]
      inv
      exact ⟨y, hy, ys, hys, rfl⟩

section
variable {dec : Bytes → Bytes} {program k : Key} {L : Ledger} {A : Asset} {ks : List Key}
  {fs : List SearchField} {xs : List (Nat × Bytes)}

/-- A stored asset is found exactly when it has all the attributes. -/
theorem C70_exact (hs : Stores program L k A) (hx : jsFilters SearchField.filter fs = .ok xs) :
    k ∈ programAccounts L program ks xs ↔ k ∈ ks ∧ ∀ f ∈ fs, Has A f := by
  obtain ⟨h1, _, h3, _⟩ := hs
  unfold programAccounts
  rw [List.mem_filter, Bool.and_eq_true, decide_eq_true_eq, and_iff_right h1.1, h3]
  refine and_congr_right fun _ => all_of_forall₂ (filters_each hx) fun f x hf => ?_
  exact filter_has hf h1.2.1 h1.2.2

/-- With the discriminator among the fields, nothing else is found, as long as the instructions are
used as intended (see C41). -/
theorem C70_assets_partial (hw : WellFormed program L) (hd : .discriminator 1 ∈ fs)
    (hx : jsFilters SearchField.filter fs = .ok xs) :
    k ∈ programAccounts L program ks xs ↔
      k ∈ ks ∧ ∃ A, Stores program L k A ∧ ∀ f ∈ fs, Has A f := by
  constructor
  · intro h
    have hk : k ∈ ks := (List.mem_filter.mp h).1
    have ho : (L k).owner = program ∧ xs.all (memcmp (L k).data) = true := by
      have := (List.mem_filter.mp h).2
      rw [Bool.and_eq_true, decide_eq_true_eq] at this
      exact this
    have hb : byteAt (L k).data 0 = 1 := by
      obtain ⟨x, hx', hf⟩ : ∃ x ∈ xs, SearchField.filter (.discriminator 1) = .ok x := by
        have := filters_each hx
        clear hx h ho
        induction this with
        | nil => cases hd
        | cons hy _ ih =>
          rcases List.mem_cons.mp hd with rfl | hd
          · exact ⟨_, List.mem_cons_self, hy⟩
          · obtain ⟨x, h1, h2⟩ := ih hd
            exact ⟨x, List.mem_cons_of_mem _ h1, h2⟩
      cases hf
      have := List.all_eq_true.mp ho.2 _ hx'
      exact (memcmp_byte.mp this).2
    refine ⟨hk, ?_⟩
    rcases (hw k ho.1).2 with ⟨A, hA, _⟩ | hb'
    · exact ⟨A, hA, ((C70_exact hA hx).mp h).2⟩
    · exfalso
      have h0 : byteAt (L k).data 0 = 0 := by
        rcases hb' with h | ⟨es, h, _⟩ | ⟨es, t, n, p, h, _⟩
        · exact h 0
        · exact h.1.2 0 (by omega)
        · exact h.1.2 0 (by omega)
      rw [hb] at h0
      exact absurd h0 (by decide)
  · rintro ⟨hk, A, hA, h⟩
    exact (C70_exact hA hx).mpr ⟨hk, h⟩

theorem readAll_ok {α : Type} {read : Bytes → Except Err α} {l : List Key} :
    (∃ vs, jsReadAll read L l = .ok vs) ↔ ∀ k ∈ l, ∃ v, read (L k).data = .ok v := by
  induction l with
  | nil => exact ⟨fun _ k h => (by cases h), fun _ => ⟨[], rfl⟩⟩
  | cons k l ih =>
    rw [List.forall_mem_cons, ← ih]
    constructor
    · rintro ⟨vs, h⟩
      rw [jsReadAll] at h
      inv at h
      obtain ⟨v, hv, vs', hvs, _⟩ := h
      exact ⟨⟨v, hv⟩, vs', hvs⟩
    · rintro ⟨⟨v, hv⟩, vs, hvs⟩
      refine ⟨(k, v) :: vs, ?_⟩
      rw [jsReadAll]
      inv
      exact ⟨v, hv, vs, hvs, rfl⟩

theorem readAll_each {α : Type} {read : Bytes → Except Err α} {l : List Key} {vs : List (Key × α)}
    (h : jsReadAll read L l = .ok vs) :
    vs.map (·.1) = l ∧ ∀ x ∈ vs, read (L x.1).data = .ok x.2 := by
  induction l generalizing vs with
  | nil => cases h; exact ⟨rfl, fun x hx => by cases hx⟩
  | cons k l ih =>
    rw [jsReadAll] at h
    inv at h
    obtain ⟨v, hv, vs', hvs, rfl⟩ := h
    obtain ⟨h1, h2⟩ := ih hvs
    exact ⟨by rw [List.map_cons, h1], List.forall_mem_cons.mpr ⟨hv, h2⟩⟩

/-- A search succeeds exactly when every account found can be read. -/
theorem C70_all_or_nothing (hx : jsFilters SearchField.filter fs = .ok xs) :
    (∃ vs, jsSearch dec L program ks fs = .ok vs) ↔
      ∀ k ∈ programAccounts L program ks xs, ∃ J, jsAsset dec (L k).data = .ok J := by
  unfold jsSearch
  rw [hx]
  exact readAll_ok

/-- If all assets can be read, a search shows exactly those with the attributes, each as the client
shows it (C54). -/
theorem C70_search_partial (hw : WellFormed program L) (hd : .discriminator 1 ∈ fs)
    (hf : ∀ f ∈ fs, Askable f)
    (hr : ∀ k A, Stores program L k A → JsFriendly A ∧ NoStub L k A) :
    ∃ vs, jsSearch dec L program ks fs = .ok vs ∧
      (∀ k, k ∈ vs.map (·.1) ↔ k ∈ ks ∧ ∃ A, Stores program L k A ∧ ∀ f ∈ fs, Has A f) ∧
      ∀ x ∈ vs, ∃ A es, Stores program L x.1 A ∧ x.2 = shownAsset (jsText dec) A es ∧
        A.exts.map (fun y => shown (jsText dec) y.1 y.2) = es.map .ok := by
  obtain ⟨xs, hx⟩ := C70_askable.mpr hf
  obtain ⟨vs, hv⟩ := (C70_all_or_nothing (dec := dec) (ks := ks) (L := L) (program := program) hx).mpr (by
    intro k hk
    obtain ⟨_, A, hA, _⟩ := (C70_assets_partial hw hd hx).mp hk
    obtain ⟨es, h, _⟩ := C54_shows_partial (dec := dec) hA (hr k A hA).1 (hr k A hA).2
    exact ⟨_, h⟩)
  refine ⟨vs, hv, ?_⟩
  unfold jsSearch at hv
  rw [hx] at hv
  obtain ⟨h1, h2⟩ := readAll_each (show jsReadAll _ L _ = .ok vs from hv)
  refine ⟨fun k => by rw [h1]; exact C70_assets_partial hw hd hx, fun x hx' => ?_⟩
  have hm : x.1 ∈ programAccounts L program ks xs := by
    rw [← h1]
    exact List.mem_map_of_mem hx'
  obtain ⟨_, A, hA, _⟩ := (C70_assets_partial hw hd hx).mp hm
  obtain ⟨es, h3, h4⟩ := C54_shows_partial (dec := dec) hA (hr _ A hA).1 (hr _ A hA).2
  have h5 := h2 x hx'
  rw [h3] at h5
  exact ⟨A, es, hA, (Except.ok.inj h5).symm, h4⟩

/-- And a value that was searched for is the one that is shown. -/
theorem C70_shown (hh : HeaderInRange A) {J : JsAsset} {es : List JsExt}
    (hJ : J = shownAsset (jsText dec) A es) :
    (∀ n, Has A (.state n) ↔ J.state = n) ∧ (∀ n, Has A (.standard n) ↔ J.standard = n) ∧
    (∀ b, Has A (.isMutable b) ↔ J.isMutable = b) ∧ (∀ o, Has A (.owner o) ↔ J.owner = o) ∧
    (∀ o, o ≠ some Key.default → (Has A (.group o) ↔ J.group = o)) ∧
    (∀ a, Has A (.authority a) ↔ J.authority = a) ∧
    (∀ o, o ≠ some Key.default → (Has A (.delegate o) ↔ J.delegate.map (·.1) = o)) ∧
    ∀ n, n.length ≤ 35 → (0 : UInt8) ∉ n → dec (storedName n) = storedName n →
      Has A (.name n) → J.name = n := by
  have key : ∀ (x : Key) (o : Option Key), o ≠ some Key.default →
      (x = o.getD Key.default ↔ shownKey x = o) := by
    intro x o ho
    unfold shownKey
    cases o with
    | none => by_cases h : x = Key.default <;> simp [h]
    | some y =>
      by_cases h : x = Key.default
      · subst h
        simp only [if_pos, Option.getD_some, reduceCtorEq, iff_false]
        rintro rfl
        exact ho rfl
      · simp [h]
  subst hJ
  refine ⟨fun n => Iff.rfl, fun n => Iff.rfl, fun b => ?_, fun o => Iff.rfl, fun o ho => key _ o ho,
    fun a => Iff.rfl, fun o ho => ?_, fun n h1 h2 h3 h4 => ?_⟩
  · show A.mutableByte = _ ↔ podTrue A.mutableByte = b
    have h3 := hh.2.2
    have hb : A.mutableByte = 0 ∨ A.mutableByte = 1 := by
      have h0 := UInt8.toNat_inj (a := A.mutableByte) (b := 0)
      have h1 := UInt8.toNat_inj (a := A.mutableByte) (b := 1)
      have e0 : (0 : UInt8).toNat = 0 := rfl
      have e1 : (1 : UInt8).toNat = 1 := rfl
      rw [← h0, ← h1, e0, e1]; omega
    rcases hb with h | h <;> rw [h] <;> cases b <;> decide
  · show A.delegate = _ ↔ ((shownKey A.delegate).map fun k => (k, shownRoles A.roles)).map (·.1) = o
    rw [key _ o ho, Option.map_map]
    have e : ∀ y : Option Key, y.map ((fun x : Key × List Role => x.1) ∘ fun k => (k, shownRoles A.roles)) = y := by
      intro y; cases y <;> rfl
    rw [e]
  · show jsText dec A.name = n
    rw [show A.name = storedName n from h4]
    exact C54_name n h1 h2 h3

theorem filters_mem {x : Nat × Bytes} (h : jsFilters SearchField.filter fs = .ok xs) (hm : x ∈ xs) :
    ∃ f ∈ fs, f.filter = .ok x := by
  have := filters_each h
  clear h
  induction this with
  | nil => cases hm
  | cons hy _ ih =>
    rcases List.mem_cons.mp hm with rfl | hm
    · exact ⟨_, List.mem_cons_self, hy⟩
    · obtain ⟨f, h1, h2⟩ := ih hm
      exact ⟨f, List.mem_cons_of_mem _ h1, h2⟩

theorem blank_matches {d : Bytes} (hb : Blank d) {f : SearchField} {x : Nat × Bytes}
    (hf : f = .state 0 ∨ f = .standard 0 ∨ f = .isMutable false ∨ f = .group none ∨
      f = .delegate none) (hx : f.filter = .ok x) : memcmp d x = true := by
  have hk : ∀ o, o + 32 ≤ 168 → keyAt d o = Key.default := by
    intro o ho
    have e : slice d o 32 = List.replicate 32 0 := by
      refine List.eq_replicate_iff.mpr ⟨?_, ?_⟩
      · unfold slice; rw [List.length_take, List.length_drop]; have := hb.1; omega
      · intro y hy
        obtain ⟨i, hi, rfl⟩ := List.mem_iff_getElem.mp hy
        unfold slice at hi ⊢
        rw [List.length_take, List.length_drop] at hi
        rw [List.getElem_take, List.getElem_drop]
        have h0 := hb.2 (o + i) (by omega)
        unfold byteAt at h0
        rw [List.getD_eq_getElem?_getD, List.getElem?_eq_getElem (by omega)] at h0
        exact h0
    unfold keyAt
    rw [e]
    exact ofBytes_key Key.default
  have hl := hb.1
  rcases hf with rfl | rfl | rfl | rfl | rfl <;> cases hx
  · exact memcmp_byte.mpr ⟨by omega, hb.2 1 (by omega)⟩
  · exact memcmp_byte.mpr ⟨by omega, hb.2 2 (by omega)⟩
  · exact memcmp_byte.mpr ⟨by omega, hb.2 3 (by omega)⟩
  · exact (memcmp_key (by omega)).mpr (hk 36 (by omega))
  · exact (memcmp_key (by omega)).mpr (hk 100 (by omega))

theorem blank_unreadable {d : Bytes} (hb : Blank d) {J : JsAsset} : jsAsset dec d ≠ .ok J := by
  intro h
  obtain ⟨b, d', rfl⟩ : ∃ b d', d = b :: d' := by
    cases d with
    | nil => exact absurd hb.1 (by decide)
    | cons b d' => exact ⟨b, d', rfl⟩
  have h0 : b = 0 := hb.2 0 (by omega)
  subst h0
  unfold jsAsset at h
  inv at h
  obtain ⟨⟨disc, r⟩, h1, h⟩ := h
  have e : disc = 0 := by
    unfold jsEnum jsNum at h1
    simp [leNat, bind, Except.bind, pure, Except.pure] at h1
    exact h1.1.symm
  subst e
  obtain ⟨⟨_, _⟩, _, ⟨_, _⟩, _, ⟨_, _⟩, _, ⟨_, _⟩, _, ⟨_, _⟩, _, ⟨_, _⟩, _, ⟨_, _⟩, _, ⟨_, _⟩, _, h⟩ := h
  simp only at h
  split at h <;> simp [bind, Except.bind] at h

/-- Without the discriminator a search also finds accounts that are not initialised, such as those of
mints under way, and then it throws: such an account has neither owner, group nor delegate. -/
theorem C70_unfinished (hb : Blank (L k).data) (ho : (L k).owner = program) (hk : k ∈ ks)
    (hf : ∀ f ∈ fs, f = .state 0 ∨ f = .standard 0 ∨ f = .isMutable false ∨ f = .group none ∨
      f = .delegate none) :
    ∀ vs, jsSearch dec L program ks fs ≠ .ok vs := by
  intro vs h
  obtain ⟨xs, hx⟩ := (C70_askable (fs := fs)).mpr (by
    intro f h; rcases hf f h with rfl | rfl | rfl | rfl | rfl <;> simp [Askable])
  obtain ⟨J, hJ⟩ := (C70_all_or_nothing hx).mp ⟨vs, h⟩ k (by
    unfold programAccounts
    rw [List.mem_filter, Bool.and_eq_true, decide_eq_true_eq]
    refine ⟨hk, ho, List.all_eq_true.mpr fun x hxm => ?_⟩
    obtain ⟨f, hfm, hfx⟩ := filters_mem hx hxm
    exact blank_matches hb (hf f hfm) hfx)
  exact blank_unreadable hb hJ

end

/-- Anybody can break the search for the assets of any owner `o`: `p` creates an asset for `o`, and
makes it one byte longer. -/
theorem C70_break {E : Env} {L : Ledger} {k p o : Key} (hu : L k = ⟨0, [], Key.system⟩) (hne : p ≠ k)
    (hw : (L p).owner = Key.system ∧ (L p).data = [])
    (hr : E.rent 168 ≤ (L p).lamports ∧ E.rent 169 ≤ (L p).lamports)
    (h64 : (L p).lamports < 18446744073709551616)
    (hprog : E.program ≠ Key.system ∧ p ≠ E.program)
    (hwh : ∀ y ∈ [o, E.program, Key.system], Whole E.program L y) :
    ∃ L', sends E L ((obstacle k p o).map (·.build E.program)) = .ok L' ∧
      ∀ dec ks fs, k ∈ ks → (∀ f ∈ fs, f = .discriminator 1 ∨ f = .owner o) →
        ∀ vs, jsSearch dec L' E.program ks fs ≠ .ok vs := by
  have hpe : packedEnd 168 ((asked ⟨[], .nonFungible, true, none⟩).map asExtn) = 168 := rfl
  obtain ⟨L1, es, a1, a2, a3, a4, a5, a6⟩ := C63_client (E := E) (L := L) (k := k) (p := p)
    (owner := o) (au := p) (signs := false) (x := ⟨[], .nonFungible, true, none⟩)
    ⟨by show (0 : Nat) < 4294967296; omega, by show validUtf8 [] = true; decide⟩
    ⟨List.nodup_nil, fun x hx => by cases hx⟩
    ⟨by simp [asked], by simp [asked], by intro p h; simp [asked, lookup] at h⟩
    hu hne hw hr.1 h64 (by rw [hpe]; omega) hprog
    (by
      intro y hy
      rcases List.mem_cons.mp hy with rfl | hy
      · intro h1; rw [hw.1] at h1; exact absurd h1.symm hprog.1
      · exact hwh y hy)
  cases a4
  have hlen : (L1 k).data.length = 168 := a3
  obtain ⟨p1, p2⟩ := call_frame (y := p) (c := .create k (p, false) o none none (some p)
      (some Key.system) ⟨[], .nonFungible, true, none⟩)
    ⟨⟨by show (0 : Nat) < 4294967296; omega, by show validUtf8 [] = true; decide⟩,
      fun l hl => by cases hl⟩ a1 (by
      simp [instrOf, dataKeys, Instr.dataPositions, Call.build, ClientIx.keys, Call.metas, metaRw, metaOpt, metaRo, hne, hprog.2])
  let E1 := serving E L1 ((Call.resize k p (p, true) (some Key.system) (.extend 1)).build E.program)
  obtain ⟨L2, b1, b2, b3⟩ := (C51_resize (E := E1) (L := L1) (k := k) (s := p) (p := p)
    (y := Key.system) (rest := []) (x := .extend 1) a2
    ⟨by simp [E1, serving, Call.build, Call.metas, metaRw], fun h => by
      exact absurd (show Standard.nonFungible.toU8 = 3 from h) (by decide)⟩ rfl
    (by
      have hp' : Whole E.program L1 p := by
        intro h1; rw [p2, hw.1] at h1; exact absurd h1.symm hprog.1
      intro z hz
      simp only [List.mem_cons, List.not_mem_nil, or_false] at hz
      rcases hz with rfl | rfl | rfl
      · exact hp'
      · exact hp'
      · by_cases h1 : Key.system = k
        · rw [h1]; exact whole_stores (E := E) a2
        · by_cases h2 : Key.system = p
          · rw [h2]; exact hp'
          · have h3 := hwh Key.system (by simp)
            unfold Whole at h3 ⊢
            rw [a6 _ h1 h2]
            exact h3)
    (by
      unfold Room
      show if (L1 k).data.length + 1 < (L1 k).data.length then _ else _
      rw [if_neg (by omega)]
      refine ⟨show (L1 k).data.length + 1 ≤ _ by omega, show (L1 k).data.length + 1 ≤ _ by omega,
        .inr ⟨p, rfl, ?_, hne, ?_, ?_, by rw [p2]; exact hw.1,
        by rw [p1]; exact hw.2, ?_, ?_⟩⟩
      · exact if_neg (Ne.symm hprog.1)
      · simp [E1, serving, Call.build, Call.metas, metaRw, metaRo]
      · simp [E1, serving, Call.build, Call.metas, metaRw, metaRo]
      · rw [hlen, a5]; exact hr.2
      · rw [hlen]; exact Nat.lt_of_le_of_lt hr.2 h64)).mpr
    ⟨by simp [E1, serving, Call.build, Call.metas, metaRw, metaRo], rfl, by
      show (1 : UInt8) ≠ 0; decide⟩
  have b3' : (L2 k).data.length = 169 := by rw [b3, hlen]; rfl
  refine ⟨L2, ?_, ?_⟩
  · have h := sends_then a1 (sends_one (E := E)
      (c := Call.resize k p (p, true) (some Key.system) (.extend 1)) (L' := L2) trivial ?_)
    · exact h
    · exact b1
  · intro dec ks fs hk hf vs h
    obtain ⟨xs, hx⟩ := (C70_askable (fs := fs)).mpr (by
      intro f h; rcases hf f h with rfl | rfl <;> simp [Askable])
    obtain ⟨J, hJ⟩ := (C70_all_or_nothing hx).mp ⟨vs, h⟩ k ((C70_exact b2 hx).mpr ⟨hk, by
      intro f h; rcases hf f h with rfl | rfl <;> rfl⟩)
    rw [C54_stub_throws b2 ⟨⟨show (0 : UInt8).toNat ≤ 1 by decide, show Standard.nonFungible.toU8.toNat ≤ 3 by decide,
      show (1 : UInt8).toNat ≤ 1 by decide⟩, fun x hx => by cases hx⟩ (by
      rintro (h | h)
      · unfold Tight at h; rw [b3'] at h; exact absurd (show (169 : Nat) = 168 from h) (by decide)
      · rw [b3'] at h; exact absurd (show 168 + 16 ≤ 169 from h) (by decide))] at hJ
    cases hJ

/-! ## Vaults -/

/-- A vault is found exactly when it has the attributes: an account of the bridge that the bridge
reads as the vault `v`. -/
theorem C70_vault {L : Ledger} {program k : Key} {ks : List Key} {v : Vault} {fs : List VaultField}
    {xs : List (Nat × Bytes)} (ho : (L k).owner = program) (hv : readVault (L k).data = .ok v)
    (hx : vaultFilters fs = .ok xs) :
    k ∈ programAccounts L program ks xs ↔ k ∈ ks ∧ ∀ f ∈ fs, VaultHas v f := by
  obtain ⟨ys, hy, rfl⟩ : ∃ ys, jsFilters VaultField.filter fs = .ok ys ∧ xs = (0, [1]) :: ys := by
    unfold vaultFilters at hx
    inv at hx
    obtain ⟨ys, h1, h2⟩ := hx
    exact ⟨ys, h1, h2.symm⟩
  obtain ⟨d0, dl, d1, rfl⟩ : byteAt (L k).data 0 = 1 ∧ 36 ≤ (L k).data.length ∧
      (byteAt (L k).data 1 = 0 ∨ byteAt (L k).data 1 = 1) ∧
      v = ⟨byteAt (L k).data 1 = 1, byteAt (L k).data 2, keyAt (L k).data 3, byteAt (L k).data 35⟩ := by
    unfold readVault at hv
    split at hv
    · cases hv
    · rename_i h0
      split at hv
      · cases hv
      · split at hv
        · rename_i h1
          cases hv
          exact ⟨by simpa using (not_or.mp h0).2, by omega, .inl h1, by simp [h1]⟩
        · split at hv
          · rename_i h1
            cases hv
            exact ⟨by simpa using (not_or.mp h0).2, by omega, .inr h1, by simp [h1]⟩
          · cases hv
  unfold programAccounts
  rw [List.mem_filter, Bool.and_eq_true, decide_eq_true_eq, and_iff_right ho, List.all_cons,
    memcmp_byte.mpr ⟨by omega, d0⟩, Bool.true_and]
  refine and_congr_right fun _ => all_of_forall₂ (filters_each hy) fun f x hf => ?_
  have num : ∀ {o n : Nat} {x : Nat × Bytes}, (jsPutNum 1 n).map (fun b => (o, b)) = .ok x →
      o < (L k).data.length → (memcmp (L k).data x = true ↔ (byteAt (L k).data o).toNat = n) := by
    intro o n x h hol
    unfold jsPutNum at h
    split at h
    · rename_i hn
      cases h
      show memcmp _ (o, [UInt8.ofNat n]) = true ↔ _
      rw [memcmp_byte]
      constructor
      · rintro ⟨_, e⟩; rw [e]; simp; omega
      · intro e
        refine ⟨hol, ?_⟩
        rw [← e]; simp
    · cases h
  cases f with
  | state n =>
    simp only [VaultField.filter, jsPutScalar] at hf
    split at hf
    · cases hf
    · rename_i hn
      cases hf
      rw [memcmp_byte]
      show _ ↔ n = if decide (byteAt (L k).data 1 = 1) = true then 1 else 0
      have : n = 0 ∨ n = 1 := by omega
      rcases this with rfl | rfl <;> rcases d1 with h | h <;> rw [h] <;> simp <;> omega
  | bump n => exact num hf (by omega)
  | mint m => cases hf; exact memcmp_key (by omega)
  | assetBump n => exact num hf (by omega)

/-- What is found and long enough reads the same for the client and for the bridge program. -/
theorem C70_vault_read {L : Ledger} {program k : Key} {ks : List Key} {fs : List VaultField}
    {xs : List (Nat × Bytes)} {v : Vault} (hx : vaultFilters fs = .ok xs)
    (hk : k ∈ programAccounts L program ks xs) :
    readVault (L k).data = .ok v ↔ jsReadVault (L k).data = .ok v := by
  have h0 : (L k).data ≠ [] ∧ byteAt (L k).data 0 = 1 := by
    unfold vaultFilters at hx
    inv at hx
    obtain ⟨ys, -, rfl⟩ := hx
    unfold programAccounts at hk
    rw [List.mem_filter, List.all_cons, Bool.and_eq_true, Bool.and_eq_true] at hk
    have := memcmp_byte.mp hk.2.2.1
    exact ⟨by intro e; rw [e] at this; exact absurd this.1 (by decide), this.2⟩
  generalize (L k).data = d at h0
  unfold readVault jsReadVault
  rw [if_neg (by rw [not_or]; exact ⟨h0.1, by simp [h0.2]⟩), h0.2]
  by_cases hl : d.length < 36
  · simp [hl]
  · by_cases h1 : byteAt d 1 = 0
    · simp [hl, h1]
    · by_cases h2 : byteAt d 1 = 1
      · simp [hl, h2]
      · have h3 : 1 < byteAt d 1 := by
          have e0 : (byteAt d 1).toNat ≠ 0 := fun h => h1 (UInt8.toNat_inj.mp h)
          have e1 : (byteAt d 1).toNat ≠ 1 := fun h => h2 (UInt8.toNat_inj.mp h)
          have : (1 : UInt8).toNat < (byteAt d 1).toNat := show 1 < _ by omega
          exact this
        simp [hl, h1, h2, h3]

section Examples
open Verif.Ex

/-- Two assets of `k 2`, one of them in the group `k 9`, one of `k 4`, and an unfinished account. -/
def searched : Ledger :=
  ledger [(k 1, owned (header 0 0 1 (k 2) (k 9) (k 3) Key.default 0 [65])),
    (k 11, owned (header 1 0 1 (k 2) Key.default (k 3) (k 6) 5 [66, 66])),
    (k 12, owned (header 0 0 0 (k 4) (k 9) (k 3) Key.default 0 [67])),
    (k 13, owned (zeros 168)), (k 2, wallet), (k 5, wallet)]

/-- The addresses and names that a search in it shows. -/
def shows (L : Ledger) (fs : List SearchField) : Except Err (List (Key × Bytes)) :=
  (jsSearch id L prog [k 1, k 2, k 5, k 7, k 11, k 12, k 13] fs).map fun l => l.map fun x => (x.1, x.2.name)

example : shows searched [.discriminator 1, .owner (k 2)] = .ok [(k 1, [65]), (k 11, [66, 66])] := by
  decide +kernel
example : shows searched [.group (some (k 9))] = .ok [(k 1, [65]), (k 12, [67])] := by decide +kernel
example : shows searched [.discriminator 1, .group none] = .ok [(k 11, [66, 66])] ∧
    shows searched [.delegate (some (k 6)), .roles [.burn, .transfer]] = .ok [(k 11, [66, 66])] ∧
    shows searched [.name [67], .isMutable false, .state 0, .standard 0] = .ok [(k 12, [67])] ∧
    shows searched [.roles [.none]] = .error .panic := by decide +kernel

/-- An active vault of the mint `k 30` and an idle one of the mint `k 31`. -/
def vaults : Ledger :=
  ledger [(k 40, owned ([1, 1, 250] ++ (k 30).1 ++ [251])), (k 41, owned ([1, 0, 252] ++ (k 31).1 ++ [253])),
    (k 42, owned (zeros 36))]

example : (vaultFilters []).map (programAccounts vaults prog [k 40, k 41, k 42]) = .ok [k 40, k 41] ∧
    (vaultFilters [.mint (k 31)]).map (programAccounts vaults prog [k 40, k 41, k 42]) = .ok [k 41] ∧
    (vaultFilters [.state 1, .bump 250]).map (programAccounts vaults prog [k 40, k 41, k 42]) = .ok [k 40] ∧
    (vaultFilters [.assetBump 256]).map (programAccounts vaults prog [k 40]) = .error .panic := by
  decide +kernel

/-- The full claim is false. Without the discriminator, the unfinished account is found, and the client
throws. And after `k 5` has made an asset of `k 2` with one byte too many, nobody can list the
assets of `k 2` any more. -/
theorem C70_false :
    shows searched [.group none] = .error .panic ∧
    (sends (env searched []) searched ((obstacle (k 7) (k 5) (k 2)).map (·.build prog))).map (fun L =>
      (decide ((assetAt L (k 7)).owner = k 2), shows L [.discriminator 1, .owner (k 2)])) =
      .ok (true, .error .panic) := by decide +kernel

end Examples

end Verif.Props

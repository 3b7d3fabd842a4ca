import Mathlib.Data.List.Forall2
import Verif.Lemmas.Stores
import Verif.Lemmas.Accept
import Verif.Lemmas.Effect

/-!
# What Create leaves in the account
-/

namespace Verif

open Verif.Spec

theorem ofU32_none {n : Nat} (h : ExtType.ofU32 n = some .none) : n = 0 := by
  unfold ExtType.ofU32 at h
  split at h <;> first | rfl | (cases h; done)

theorem Spec.Ends.congr {d d' : Bytes} {e : Nat} (h : Ends d e) (hl : d'.length = d.length)
    (hd : ∀ i, e ≤ i → d'[i]? = d[i]?) : Ends d' e := by
  unfold Ends at *
  rw [hl, slice_congr (d := d) (b := e) fun i _ => hd _ (by omega)]
  exact h

/-- What the `on_create` hook makes of an extension. -/
def Hooked (au : Option Key) (x y : Extn) : Prop := y.1 = x.1 ∧ onCreate x.1 x.2 au = .ok y.2

/-- The validation of Create accepts exactly well-formed extension areas, and runs the hook on
every extension. -/
theorem createValidate_walk {au : Key} {fuel : Nat} {d d' : Bytes} {off : Nat} {ts : List ExtType}
    (h : createValidate au fuel d off = .ok (d', ts)) (hoff : off ≤ d.length) :
    ∃ es0 es e, Walk d off es0 e ∧ Ends d e ∧ Walk d' off es e ∧ Ends d' e ∧
      ts = es.map (·.1) ∧ List.Forall₂ (Hooked (some au)) es0 es ∧ d'.length = d.length ∧
      (∀ i, i < off ∨ e ≤ i → d'[i]? = d[i]?) ∧ (Packed d off es0 e → Packed d' off es e) := by
  induction fuel generalizing d d' off ts with
  | zero => cases h
  | succ fuel ih =>
    have e16 : extLen = 16 := rfl
    rw [createValidate] at h
    have stop : ∀ (_ : Ends d off), (d, ([] : List ExtType)) = (d', ts) →
        ∃ es0 es e, Walk d off es0 e ∧ Ends d e ∧ Walk d' off es e ∧ Ends d' e ∧
        ts = es.map (·.1) ∧ List.Forall₂ (Hooked (some au)) es0 es ∧ d'.length = d.length ∧
        (∀ i, i < off ∨ e ≤ i → d'[i]? = d[i]?) ∧ (Packed d off es0 e → Packed d' off es e) := by
      intro he hx
      cases hx
      exact ⟨[], [], off, Walk.nil hoff, he, Walk.nil hoff, he, rfl, .nil, rfl, fun _ _ => rfl, id⟩
    split at h
    · rename_i hl
      simp only at h
      cases hty : ExtType.ofU32 (hdrAt d off).ty with
      | none => rw [hty] at h; cases h
      | some t =>
        by_cases ht : t = .none
        · subst ht
          rw [hty] at h
          exact stop (Or.inr (ofU32_none hty)) (Except.ok.inj h)
        · have h' : (if (hdrAt d off).bnd < extLen + off then
                Except.error (Err.asset .extensionDataInvalid)
              else if d.length < (hdrAt d off).bnd then .error (.asset .extensionDataInvalid)
              else if (hdrAt d off).bnd < off + extLen + (hdrAt d off).len then .error .panic
              else do
                let p ← mapLife (onCreate t (slice d (off + extLen) (hdrAt d off).len) (some au))
                let (d', ts) ← createValidate au fuel (splice d (off + extLen) p) (hdrAt d off).bnd
                return (d', t :: ts)) = Except.ok (d', ts) := by
            rw [← h, hty]
            cases t <;> first | exact absurd rfl ht | rfl
          clear h
          split at h'
          · cases h'
          split at h'
          · cases h'
          split at h'
          · cases h'
          rename_i hb1 hb2 hb3
          inv at h'
          obtain ⟨p, hp, ⟨d2, ts2⟩, hr, hx⟩ := h'
          cases hx
          rw [mapLife_ok] at hp
          have hpl := onCreate_length hp
          have hsl : (slice d (off + 16) (hdrAt d off).len).length = (hdrAt d off).len :=
            length_slice (by omega)
          rw [e16] at *
          rw [hsl] at hpl
          have hspl : off + 16 + p.length ≤ d.length := by omega
          have hlen1 : (splice d (off + 16) p).length = d.length := length_splice hspl
          obtain ⟨es0, es, e, g1, g2, g3, g4, g5, g6, g7, g8, g9⟩ := ih hr (by omega)
          have hle := g1.le
          have hlt : e ≤ d.length := by omega
          have out : ∀ i, i < off + 16 ∨ off + 16 + p.length ≤ i →
              (splice d (off + 16) p)[i]? = d[i]? := fun i hi => getElem?_splice_outside hspl hi
          have w1 : Walk d (hdrAt d off).bnd es0 e :=
            g1.congr hlt fun i h1 _ => (out i (by omega)).symm
          have s1 : ∀ a n, a + n ≤ off + 16 → slice d2 a n = slice d a n := fun a n ha =>
            slice_congr fun i hi => by rw [g8 _ (by omega), out _ (by omega)]
          have s2 : slice d2 (off + 16) p.length = p := by
            rw [slice_congr (d := splice d (off + 16) p) (b := off + 16)
              fun i hi => g8 _ (by omega)]
            exact slice_splice_same hspl rfl
          have hty' := toU32_ofU32 hty
          refine ⟨(t, slice d (off + 16) (hdrAt d off).len) :: es0, (t, p) :: es, e, ?_, ?_, ?_, g4,
            ?_, ?_, ?_, ?_, ?_⟩
          · refine Walk.cons ht hty' (by rw [hsl]; rfl) rfl ?_ (by rw [hsl]) w1
            show _ ≤ (hdrAt d off).bnd
            rw [hsl]; omega
          · exact g2.congr hlen1.symm fun i hi => (out i (by omega)).symm
          · refine Walk.cons ht ?_ ?_ (bnd := (hdrAt d off).bnd) ?_ (by omega) s2 g3
            · rw [s1 _ _ (by omega)]; exact hty'
            · rw [s1 _ _ (by omega), hpl]; rfl
            · rw [s1 _ _ (by omega)]; rfl
          · simp [g5]
          · exact .cons ⟨rfl, hp⟩ g6
          · show d2.length = d.length
            omega
          · intro i hi
            rcases hi with hi | hi
            · rw [g8 i (by omega), out i (by omega)]
            · rw [g8 i (by omega), out i (by omega)]
          · intro hpk
            generalize hq : slice d (off + 16) (hdrAt d off).len = q at hpk hsl
            cases hpk with
            | cons _ h0 h1 h2 hp' hr' =>
              rw [hsl, ← hpl] at h2 hr'
              have hbq : (hdrAt d off).bnd = roundUp8 (off + 16 + p.length) := h2
              rw [← hbq] at hr'
              have := g9 (hr'.congr (by omega) fun i h1 _ => out i (by omega))
              rw [hbq] at this
              refine Packed.cons ht ?_ ?_ ?_ s2 this
              · rw [s1 _ _ (by omega)]; exact hty'
              · rw [s1 _ _ (by omega), hpl]; rfl
              · rw [s1 _ _ (by omega)]; exact h2
    · exact stop (Or.inl (by omega)) (Except.ok.inj h)

theorem view_extensions (d : Bytes) : (view d).extensions = d.drop 168 := rfl

theorem view_createHeader {d : Bytes} (hd : 168 ≤ d.length) (o au : Key) (x : CreateInput) :
    view (createHeader d o au x) = { view d with
      disc := 1, standard := x.standard.toU8, mutableByte := if x.isMutable then 1 else 0,
      owner := o, authority := au, name := storedName x.name } ∧
    (createHeader d o au x).length = d.length ∧
    (createHeader d o au x).drop 168 = d.drop 168 := by
  have l1 : (setByte d 0 discAsset).length = d.length := length_setByte hd _ _ (by omega)
  have l2 := length_setByte (d := setByte d 0 discAsset) (by omega) 2 x.standard.toU8 (by omega)
  have l3 := length_setMutable (d := setByte (setByte d 0 discAsset) 2 x.standard.toU8)
    (by omega) x.isMutable
  have l4 := length_setOwner (d := setMutable (setByte (setByte d 0 discAsset) 2 x.standard.toU8)
    x.isMutable) (by omega) o
  have l5 := length_setAuthority (d := setOwner (setMutable (setByte (setByte d 0 discAsset) 2
    x.standard.toU8) x.isMutable) o) (by omega) au
  have l6 := length_setName (d := setAuthority (setOwner (setMutable (setByte (setByte d 0
    discAsset) 2 x.standard.toU8) x.isMutable) o) au) (by omega) x.name
  have hv : view (createHeader d o au x) = { view d with
      disc := 1, standard := x.standard.toU8, mutableByte := if x.isMutable then 1 else 0,
      owner := o, authority := au, name := storedName x.name } := by
    unfold createHeader
    rw [view_setName (by omega), view_setAuthority (by omega), view_setOwner (by omega),
      view_setMutable (by omega), view_setStandard (by omega), view_setDisc (by omega),
      storedName_eq]
    rfl
  refine ⟨hv, by unfold createHeader; omega, ?_⟩
  have := congrArg AssetView.extensions hv
  rw [view_extensions] at this
  rw [this]
  rfl

/-- The data of the new asset after the optional grouping. -/
theorem create_final {E : Env} {L2 L' : Ledger} {a au : Key} {group ga : Option Key} {d : Bytes}
    (hl : 168 ≤ d.length)
    (h : (group = none ∧ L' = L2.setData a d) ∨
      ∃ g, group = some g ∧ processGroup E (L2.setData a d) a g (ga.getD au) = .ok L') :
    (L' a).owner = (L2 a).owner ∧ (L' a).data.length = d.length ∧
    view (L' a).data = { view d with group := group.getD (view d).group } ∧
    (∀ g, group = some g → (view d).group = Key.default) ∧
    (L' a).data.drop 168 = d.drop 168 := by
  rcases h with ⟨rfl, rfl⟩ | ⟨g, rfl, h⟩
  · rw [Ledger.setData_same]
    exact ⟨rfl, rfl, rfl, by simp, rfl⟩
  · unfold processGroup at h
    inv at h
    obtain ⟨_, _, _, _, hne, _, hg, _, r, _, h⟩ := h
    cases r with
    | none => cases h
    | some r =>
      inv at h
      obtain ⟨_, _, _, _, rfl⟩ := h
      rw [Ledger.setData_same] at hg
      rw [Ledger.setData_other _ _ (fun h => hne h.symm), Ledger.setData_same,
        Ledger.setData_same]
      exact ⟨rfl, length_setGroup hl _, view_setGroup hl _, fun _ _ => hg,
        congrArg AssetView.extensions (view_setGroup hl g)⟩

theorem Spec.HasExts.congr_drop {d d' : Bytes} {es : List Extn} (h : HasExts d es)
    (hl : 168 ≤ d.length) (hl' : d'.length = d.length)
    (he : d'.drop 168 = d.drop 168) : HasExts d' es := by
  obtain ⟨e, h1, h2⟩ := h
  have hle := h1.le
  have key : ∀ i, 168 ≤ i → d'[i]? = d[i]? := by
    intro i hi
    have := congrArg (fun l => l[i - 168]?) he
    simp only [List.getElem?_drop] at this
    rwa [show 168 + (i - 168) = i by omega] at this
  exact ⟨e, h1.congr (by omega) fun i hi _ => key i hi, h2.congr hl' fun i hi => key i (by omega)⟩

theorem Spec.CleanExts.congr_length {d d' : Bytes} {es : List Extn} (h : CleanExts d es)
    (hl : 168 ≤ d.length) (hl' : d'.length = d.length)
    (he : d'.drop 168 = d.drop 168) : CleanExts d' es := h.congr_drop hl (by omega) he

theorem lookup_eq_none {t : ExtType} {es : List Extn} :
    lookup t es = none ↔ t ∉ es.map (·.1) := by
  induction es with
  | nil => simp [lookup]
  | cons x xs ih =>
    obtain ⟨t', p⟩ := x
    rw [lookup]
    split
    · rename_i h; simp [h]
    · rename_i h
      rw [ih]
      simp only [List.map_cons, List.mem_cons, not_or]
      exact ⟨fun h' => ⟨fun e => h e.symm, h'⟩, fun h' => h'.2⟩

theorem Spec.HasExts.types {d : Bytes} {es : List Extn} (h : HasExts d es) :
    ∀ x ∈ es, x.1 ≠ ExtType.none := by
  obtain ⟨_, h, _⟩ := h
  exact h.types

theorem Hooked.accepted {au : Option Key} {x y : Extn} (ht : x.1 ≠ .none) (h : Hooked au x y) :
    y.1 = x.1 ∧ Accepted au x.1 none x.2 y.2 := ⟨h.1, onCreate_accepted ht h.2⟩

theorem createProxyCheck_ok {E : Env} {a : Key} {d : Bytes} {es : List Extn} {st : Standard}
    (hexh : HasExts d es) (hprox : createProxyCheck E a d st = .ok ()) :
    (st = .proxied ↔ ExtType.proxy ∈ es.map (·.1)) ∧
      (∀ px, lookup .proxy es = some px →
        E.pda (slice px 32 32) (byteAt px 64) (keyAt px 0) = some a) := by
  unfold createProxyCheck at hprox
  rw [assetGet_walk hexh (by simp)] at hprox
  simp only [bind, Except.bind] at hprox
  cases hlk : lookup ExtType.proxy es with
  | none =>
    rw [hlk] at hprox
    have hn := lookup_eq_none.mp hlk
    by_cases hst : st = .proxied
    · simp [hst] at hprox
    · exact ⟨⟨fun h => absurd h hst, fun h => absurd h hn⟩, by simp⟩
  | some px =>
    rw [hlk] at hprox
    have hn : ExtType.proxy ∈ es.map (·.1) := by
      by_contra hc
      rw [lookup_eq_none.mpr hc] at hlk
      cases hlk
    simp only at hprox
    cases hrp : readProxy px with
    | error e => rw [hrp] at hprox; cases hprox
    | ok P =>
      rw [hrp] at hprox
      obtain ⟨_, rfl⟩ := readProxy_ok hrp
      by_cases hst : st = .proxied
      · simp only [hst, if_true] at hprox
        refine ⟨⟨fun _ => hn, fun _ => hst⟩, ?_⟩
        intro px' hx
        cases hx
        cases hpd : E.pda (slice px 32 32) (byteAt px 64) (keyAt px 0) with
        | none => rw [hpd] at hprox; cases hprox
        | some k =>
          rw [hpd] at hprox
          rw [require_ok] at hprox
          rw [hprox]
      · simp [hst] at hprox

/-- Everything about a successful Create but the relation to earlier buffers. -/
theorem create_result {E : Env} {L L' : Ledger} {accts : List Key} {x : CreateInput}
    (h : execute E L accts (.create x) = .ok L') :
    ∃ a au o g ga p s rest L2 es0 es, accts = a :: au :: o :: g :: ga :: p :: s :: rest ∧
      E.signer a = true ∧
      (((L a).data = [] ∧ (L a).owner = Key.system ∧ (L a).lamports = 0) ∨
       ((L a).owner = E.program ∧ 168 ≤ (L a).data.length ∧ hDisc (L a).data = 0)) ∧
      (∃ L1, createPrepare E L a (optAcc E p) (optAcc E s) x = .ok L1 ∧
        allocateAll E a (optAcc E p) (optAcc E s) (createOrder (x.extensions.getD [])) L1 =
          .ok L2) ∧
      (L' a).owner = E.program ∧ (L' a).data.length = (L2 a).data.length ∧
      168 ≤ (L2 a).data.length ∧
      (∃ v : AssetView, v.state = (assetAt L2 a).state ∧ v.group = (assetAt L2 a).group ∧
        v.delegate = (assetAt L2 a).delegate ∧ v.roles = (assetAt L2 a).roles ∧
        v.disc = 1 ∧ v.standard = x.standard.toU8 ∧
        v.mutableByte = (if x.isMutable then 1 else 0) ∧ v.owner = o ∧ v.authority = au ∧
        v.name = storedName x.name ∧
        (∀ g', optAcc E g = some g' → v.group = Key.default) ∧
        assetAt L' a = { v with group := (optAcc E g).getD v.group }) ∧
      HasExts (L2 a).data es0 ∧ HasExts (L' a).data es ∧
      List.Forall₂ (Hooked (some au)) es0 es ∧
      (CleanExts (L2 a).data es0 → CleanExts (L' a).data es) ∧
      (x.standard = .managed ↔ ExtType.manager ∈ es.map (·.1)) ∧
      (x.standard = .proxied ↔ ExtType.proxy ∈ es.map (·.1)) ∧
      (∀ px, lookup .proxy es = some px →
        E.pda (slice px 32 32) (byteAt px 64) (keyAt px 0) = some a) := by
  obtain ⟨a, au, o, g, ga, p, s, rest, rfl, hp⟩ := exec_create h
  obtain ⟨hs, L1, L2, d, types, h1, h2, hl, h3, hman, hprox, h4⟩ := processCreate_inv hp
  obtain ⟨_, o1, hprev⟩ := createPrepare_eff h1
  obtain ⟨_, o2⟩ := allocateAll_eff h2 o1
  obtain ⟨es0, es, e, w0, n0, w1, n1, rfl, hf, hlen, hsame, hpack⟩ := createValidate_walk h3 hl
  obtain ⟨hv, hvl, hdrop⟩ := view_createHeader (d := d) (by omega) o au x
  obtain ⟨q1, q2, q3, q4, q5⟩ := create_final (d := createHeader d o au x) (by omega) h4
  have hdrop' : (L' a).data.drop 168 = d.drop 168 := q5.trans hdrop
  have hex : HasExts d es := ⟨e, w1, n1⟩
  have hexh : HasExts (createHeader d o au x) es := hex.congr_drop (by omega) hvl hdrop
  have hpre := view_prefix (d := (L2 a).data) (d' := d) fun i hi => hsame i (Or.inl hi)
  refine ⟨a, au, o, g, ga, p, s, rest, L2, es0, es, rfl, hs, ?_, ⟨L1, h1, h2⟩, q1.trans o2,
    by omega, hl, ?_, ⟨e, w0, n0⟩, hex.congr_drop (by omega) (by omega) hdrop', hf, ?_, hman, ?_⟩
  · rcases hprev with h | h
    · exact Or.inl h
    · exact Or.inr ⟨h.1, h.2.1, h.2.2.1⟩
  · refine ⟨view (createHeader d o au x), ?_, ?_, ?_, ?_, ?_, ?_, ?_, ?_, ?_, ?_, q4, q3⟩ <;>
      rw [hv, hpre] <;> rfl
  · rintro ⟨e', hp', hz⟩
    obtain ⟨_, rfl⟩ := w0.unique n0 hp'.walk (Or.inr hz)
    have : CleanExts d es := by
      refine ⟨e, hpack hp', ?_⟩
      rw [slice_congr (d := (L2 a).data) (b := e) fun i _ => hsame _ (by omega)]
      exact hz
    exact this.congr_drop (by omega) (by omega) hdrop'
  · exact createProxyCheck_ok hexh hprox

end Verif

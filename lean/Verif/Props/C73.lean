import Verif.Lemmas.JsTyped
import Verif.Props.C57
import Verif.Props.C59
import Verif.Props.C63

/-!
# C73 — creating and updating in one instruction with the JavaScript client
-/

namespace Verif.Props

open Verif Verif.Spec

section
variable {dec : Bytes → Bytes} {E : Env} {ctx : JsContext} {L L' : Ledger} {x : JsMintArgs}
  {exts : Option (List JsExt)} {i : ClientIx}

/-- Extensions of one Create are processed in this order. -/
theorem C73_order (xs : List ExtInput) : createOrder xs = createdOrder xs := createOrder_eq xs

/-- What the client asks for in the Create. -/
def typedCreate (x : JsMintArgs) (exts : Option (List JsExt)) : CreateInput :=
  ⟨x.name, x.standard.getD .nonFungible, x.isMutable.getD true,
    exts.map (·.map fun v => extInputOf (typedInput v))⟩

/-- The call of the Create. -/
def typedCall (ctx : JsContext) (x : JsMintArgs) (exts : Option (List JsExt)) : Call :=
  .create x.asset (x.authority.getD (ctx.identity, true)) (x.owner.getD ctx.identity) x.group
    x.groupAuthority x.payer (systemOf x.payer none) (typedCreate x exts)

/-- The instruction is the Create of the Rust client with the bytes of the builders of the Rust types. -/
theorem C73_built {program : Key} : jsCreateTyped program ctx x exts = .ok i ↔
    Short x.name ∧ (exts.getD []).length < 4294967296 ∧
    (∀ v ∈ exts.getD [], Writable v ∧ (rustWrites v).length < 4294967296) ∧
    (typedCall ctx x exts).build program = i := by
  unfold jsCreateTyped
  simp only [bind_ok, jsTypedOption_ok, C59_built]
  constructor
  · rintro ⟨_, ⟨rfl, rfl⟩ | ⟨vs, ys, rfl, h1, rfl⟩, ⟨h2, h3⟩, h4⟩
    · exact ⟨h2, by simp, by simp, h4⟩
    · obtain ⟨h5, rfl⟩ := jsTypedAll_ok.mp h1
      obtain ⟨h6, h7⟩ := h3 _ rfl
      refine ⟨h2, ?_, fun v hv => ⟨h5 v hv, (h7 _ (List.mem_map_of_mem hv)).1⟩, ?_⟩
      · have h6 : (vs.map typedInput).length < 4294967296 := h6
        rwa [List.length_map] at h6
      · rw [← h4]
        simp only [callOf, typedCall, typedCreate, Option.map_some, List.map_map]
        rfl
  · rintro ⟨h1, h2, h3, h4⟩
    cases exts with
    | none => exact ⟨none, .inl ⟨rfl, rfl⟩, ⟨h1, by rintro _ ⟨⟩⟩, h4⟩
    | some vs =>
      refine ⟨_, .inr ⟨vs, _, rfl, jsTypedAll_ok.mpr ⟨fun v hv => (h3 v hv).1, rfl⟩, rfl⟩, ⟨h1, ?_⟩, ?_⟩
      · rintro _ ⟨⟩
        refine ⟨show (vs.map typedInput).length < 4294967296 by rw [List.length_map]; exact h2, ?_⟩
        intro y hy
        obtain ⟨v, hv, rfl⟩ := List.mem_map.mp hy
        refine ⟨(h3 v hv).2, ?_⟩
        rintro _ ⟨⟩
        exact (h3 v hv).2
      · rw [← h4]
        simp only [callOf, typedCall, typedCreate, Option.map_some, List.map_map]
        rfl

theorem typed_asked (x : JsMintArgs) (exts : Option (List JsExt)) :
    asked (typedCreate x exts) = (exts.getD []).map fun v => extInputOf (typedInput v) := by
  cases exts <;> rfl

theorem typed_extns (vs : List JsExt) :
    (vs.map fun v => extInputOf (typedInput v)).map asExtn = vs.map jsExtn := by
  rw [List.map_map]
  rfl

theorem shown_all {au : Key} {text : Bytes → Bytes} {vs : List JsExt} {es : List Extn}
    (h : List.Forall₂ (Born au) (vs.map jsExtn) es)
    (hw : ∀ v ∈ vs, Writable v ∧ (rustWrites v).length < 4294967296) :
    es.map (fun y => shown text y.1 y.2) = (vs.map (minted au text)).map .ok ∧
      ∀ y ∈ es, Modern y.1 y.2 := by
  induction vs generalizing es with
  | nil => cases h; simp
  | cons v vs ih =>
    cases h with
    | @cons _ y _ ys hvy hr =>
      obtain ⟨i1, i2⟩ := ih hr (fun v hv => hw v (by simp [hv]))
      obtain ⟨s1, s2⟩ := shown_born (text := text) (hw v (by simp)).1 (hw v (by simp)).2 hvy
      refine ⟨?_, ?_⟩
      · simp only [List.map_cons, List.cons.injEq]
        exact ⟨s1, i1⟩
      · intro z hz
        rcases List.mem_cons.mp hz with rfl | hz
        · exact s2
        · exact i2 z hz

/-- What the client shows of a new asset. -/
theorem shown_created {es : List Extn} {program : Key}
    (hs : Stores program L' x.asset (newAsset (typedCreate x exts) (x.owner.getD ctx.identity)
      (JsMintArgs.authorityOr x ctx) x.group es))
    (ht : Tight L' x.asset (newAsset (typedCreate x exts) (x.owner.getD ctx.identity)
      (JsMintArgs.authorityOr x ctx) x.group es))
    (hb : List.Forall₂ (Born (JsMintArgs.authorityOr x ctx))
      ((createdOrder (exts.getD [])).map jsExtn) es)
    (hw : ∀ v ∈ exts.getD [], Writable v ∧ (rustWrites v).length < 4294967296) :
    jsAsset dec (L' x.asset).data = .ok (mintedAsset (jsText dec) ctx (reordered x exts)) := by
  obtain ⟨a1, a2⟩ := shown_all (text := jsText dec) hb
    fun v hv => hw v ((createdOrder_perm _).mem_iff.mp hv)
  obtain ⟨vs, v1, v2, -⟩ := jsAsset_stores (dec := dec) hs (by
    refine ⟨by simp [newAsset], ?_, ?_⟩
    · show (typedCreate x exts).standard.toU8.toNat ≤ 3
      cases (typedCreate x exts).standard <;> decide
    · show (if (typedCreate x exts).isMutable then (1 : UInt8) else 0).toNat ≤ 1
      split <;> decide) (Or.inl ht) a2
  rw [v1]
  congr 1
  have hv : vs = (reordered x exts).extensions.map
      (minted (JsMintArgs.authorityOr (reordered x exts) ctx) (jsText dec)) :=
    List.map_injective_iff.mpr (fun a b h => by injection h) (v2.symm.trans a1)
  exact mintedAsset_shown (x := reordered x exts) (ctx := ctx) (es := es) (jsText dec) hv

/-- When the instruction succeeds the client shows the asset asked for, with the values asked for; they
are in the order above. -/
theorem C73_create_partial (hj : jsCreateTyped E.program ctx x exts = .ok i)
    (h : sends E L [i] = .ok L') (h0 : (L x.asset).data = []) (hn : validUtf8 x.name = true)
    (hg : x.group ≠ some E.program) :
    jsAsset dec (L' x.asset).data = .ok (mintedAsset (jsText dec) ctx (reordered x exts)) := by
  obtain ⟨h1, h2, h3, rfl⟩ := C73_built.mp hj
  have hin : ∀ y ∈ asked (typedCreate x exts), ∀ q, y.data = some q → q.length < 4294967296 := by
    intro y hy q hq
    rw [typed_asked] at hy
    obtain ⟨v, hv, rfl⟩ := List.mem_map.mp hy
    cases hq
    exact (h3 v hv).2
  obtain ⟨L1, u1, u2⟩ := sends_head (c := typedCall ctx x exts) ⟨⟨h1, hn⟩, by
    intro l hl
    obtain ⟨vs, rfl, rfl⟩ := Option.map_eq_some_iff.mp hl
    refine ⟨show (vs.map _).length < 4294967296 by rw [List.length_map]; exact h2, ?_⟩
    intro y hy
    exact hin y hy⟩ h
  obtain rfl : L1 = L' := by injection u2
  generalize hE : serving E L ((typedCall ctx x exts).build E.program) = E1 at u1
  have hpr : E1.program = E.program := by rw [← hE]; rfl
  have hl : ∀ k, E1.origLen k = (L k).data.length := by rw [← hE]; exact fun _ => rfl
  obtain ⟨accts, hacc⟩ : ∃ accts, ((typedCall ctx x exts).build E.program).keys = x.asset ::
      JsMintArgs.authorityOr x ctx :: x.owner.getD ctx.identity :: x.group.getD E.program :: accts := by
    refine ⟨(((typedCall ctx x exts).build E.program).keys).drop 4, ?_⟩
    cases hxg : x.group <;>
    · simp only [typedCall, ClientIx.keys, Call.build, Call.metas, List.map_cons, metaRw, metaRo, hxg]
      rfl
  rw [hacc] at u1
  have u3 : execute E1 L _ (.create (typedCreate x exts)) = .ok L1 := u1
  have hshort := create_short u3 h0
  have hsane : Sane (asked (typedCreate x exts)) := by
    intro y hy
    refine ⟨⟨by have := hshort y hy; omega, hin y hy⟩, ?_⟩
    rw [typed_asked] at hy
    obtain ⟨v, hv, rfl⟩ := List.mem_map.mp hy
    exact jsType_ne_none v
  have ht := create_tight u3 hl h0 hsane
  obtain ⟨a, au, o, g, ga, p, s, rest, es, e1, _, _, e2, e3, -⟩ := create_stores u3 hl (es := [])
    (by rintro a ⟨⟩; exact Or.inl ⟨h0, rfl⟩) (by rintro a ⟨⟩; rw [h0]; simp) hsane
  simp only [List.cons.injEq] at e1
  obtain ⟨rfl, rfl, rfl, hg', _⟩ := e1
  have hgo : optAcc E1 g = x.group := by
    rw [← hg']
    unfold optAcc
    rw [hpr]
    cases hxg : x.group with
    | none => exact if_pos rfl
    | some g => exact if_neg fun hc => hg (by rw [hxg]; exact congrArg some hc)
  rw [hgo] at e2
  rw [List.nil_append, C73_order, typed_asked, createdOrder_map, typed_extns, ← createdOrder_map] at e3
  rw [C73_order, typed_asked, createdOrder_map, typed_extns, ← createdOrder_map] at ht
  refine shown_created e2 ?_ e3 h3
  show _ = packedEnd 168 es
  rw [ht]
  exact (packedEnd_born e3).symm

/-- Whatever the order, the values are those of a mint with the same request. -/
theorem C73_same (text : Bytes → Bytes) :
    mintedAsset text ctx (reordered x exts) = { mintedAsset text ctx (withExts x exts) with
      extensions := (mintedAsset text ctx (reordered x exts)).extensions } ∧
    (mintedAsset text ctx (reordered x exts)).extensions.Perm
      (mintedAsset text ctx (withExts x exts)).extensions :=
  ⟨rfl, (createdOrder_perm _).map _⟩

/-- With at most two extensions the order is the one given. -/
theorem C73_two (h : (exts.getD []).length ≤ 2) : reordered x exts = withExts x exts := by
  unfold reordered withExts
  match hx : exts.getD [] with
  | [] | [_] | [_, _] => rfl
  | _ :: _ :: _ :: _ => rw [hx] at h; simp at h

/-- The instruction goes through with a payer and without a group when the values are acceptable and
fit the standard, the asset has at most 10 KiB, and the payer is a wallet with enough lamports. -/
theorem C73_live {payer : Key} (hp : x.payer = some payer) (hg : x.group = none ∧ x.groupAuthority = none)
    (hj : jsCreateTyped E.program ctx x exts = .ok i) (hn : validUtf8 x.name = true)
    (hd : ((exts.getD []).map JsExt.type).Nodup) (hx : ∀ v ∈ exts.getD [], MintAcceptable v)
    (hst : StandardFits E x.asset (x.standard.getD .nonFungible) ((exts.getD []).map jsExtn))
    (hu : L x.asset = ⟨0, [], Key.system⟩) (hne : payer ≠ x.asset)
    (hw : (L payer).owner = Key.system ∧ (L payer).data = [])
    (hr : E.rent (packedEnd 168 ((exts.getD []).map jsExtn)) ≤ (L payer).lamports)
    (h64 : (L payer).lamports < 18446744073709551616)
    (hmax : packedEnd 168 ((exts.getD []).map jsExtn) ≤ 10240)
    (hprog : E.program ≠ Key.system ∧ payer ≠ E.program)
    (hwh : ∀ y ∈ [JsMintArgs.authorityOr x ctx, x.owner.getD ctx.identity, E.program, Key.system],
      Whole E.program L y) :
    ∃ L', sends E L [i] = .ok L' ∧
      jsAsset dec (L' x.asset).data = .ok (mintedAsset (jsText dec) ctx (reordered x exts)) ∧
      (L' payer).lamports + (L' x.asset).lamports = (L payer).lamports ∧
      ∀ y, y ≠ x.asset → y ≠ payer → L' y = L y := by
  obtain ⟨h1, h2, h3, rfl⟩ := C73_built.mp hj
  have hcall : typedCall ctx x exts = Call.create x.asset ((x.authority.getD (ctx.identity, true)).1,
      (x.authority.getD (ctx.identity, true)).2) (x.owner.getD ctx.identity) none none (some payer)
      (some Key.system) (typedCreate x exts) := by
    unfold typedCall
    rw [hp, hg.1, hg.2]
    rfl
  have he : (asked (typedCreate x exts)).map asExtn = (exts.getD []).map jsExtn := by
    rw [typed_asked, typed_extns]
  have hok : InlineOk (JsMintArgs.authorityOr x ctx) (asked (typedCreate x exts)) := by
    rw [typed_asked]
    refine ⟨?_, ?_⟩
    · rw [List.map_map]; exact hd
    · intro y hy
      obtain ⟨v, hv, rfl⟩ := List.mem_map.mp hy
      obtain ⟨r1, r2⟩ := jsExtn_creatable (au := JsMintArgs.authorityOr x ctx) (h3 v hv).1 (h3 v hv).2
        (hx v hv)
      refine ⟨jsType_ne_none v, ?_, r1, r2⟩
      show (rustWrites v).length = (UInt32.ofNat (rustWrites v).length).toNat
      exact (UInt32.toNat_ofNat_of_lt' (h3 v hv).2).symm
  obtain ⟨L', es, c1, c2, c3, c4, c5, c6⟩ := C63_client (E := E) (L := L) (k := x.asset)
    (au := JsMintArgs.authorityOr x ctx) (signs := (x.authority.getD (ctx.identity, true)).2)
    (owner := x.owner.getD ctx.identity) (p := payer) (x := typedCreate x exts) ⟨h1, hn⟩ hok
    (by rw [he]; exact hst) hu hne hw (by rw [he]; exact hr) h64 (by rw [he]; exact hmax) hprog hwh
  refine ⟨L', by rw [hcall]; exact c1, ?_, c5, c6⟩
  rw [C73_order, typed_asked, createdOrder_map, typed_extns, ← createdOrder_map] at c4
  exact shown_created (by rw [hg.1]; exact c2) (by rw [hg.1]; exact c3) c4 h3

end

section
variable {dec : Bytes → Bytes} {E : Env} {ctx : JsContext} {L L' : Ledger} {x : JsUpdateArgs}
  {i : ClientIx} {A : Asset}

theorem update_typed {program : Key} {v : JsExt} : jsUpdateTyped program ctx x (some v) = .ok i ↔
    IfAny Short x.name ∧ Writable v ∧ (rustWrites v).length < 4294967296 ∧
    (Call.update x.asset (x.authority.getD ctx.identity) x.buffer x.group x.payer
      (systemOf x.payer none) ⟨x.name, x.isMutable, some (extInputOf (typedInput v))⟩).build program
        = i := by
  unfold jsUpdateTyped
  simp only [bind_ok, jsTypedOption_ok, C59_built]
  constructor
  · rintro ⟨_, ⟨h, _⟩ | ⟨v', y, h, h1, rfl⟩, ⟨h2, h3⟩, h4⟩
    · cases h
    · cases h
      obtain ⟨h5, rfl⟩ := jsTyped_ok.mp h1
      exact ⟨h2, h5, (h3 _ rfl).1, h4⟩
  · rintro ⟨h1, h2, h3, h4⟩
    refine ⟨_, .inr ⟨v, _, rfl, jsTyped_ok.mpr ⟨h2, rfl⟩, rfl⟩, ⟨h1, ?_⟩, h4⟩
    rintro _ ⟨⟩
    exact ⟨h3, by rintro _ ⟨⟩; exact h3⟩

/-- An update with a value in the instruction: when it succeeds the asset holds the value asked for, up
to the books the program keeps itself; whatever the buffer. -/
theorem C73_update {v : JsExt} (hj : jsUpdateTyped E.program ctx x (some v) = .ok i)
    (h : sends E L [i] = .ok L') (hn : IfAny (fun s => validUtf8 s = true) x.name)
    (hs : Stores E.program L x.asset A) :
    ∃ q, SameButBooks v.type (rustWrites v) q ∧
      Stores E.program L' x.asset (JsUpdateArgs.result { x with extension := v } A q) := by
  obtain ⟨h1, h2, h3, rfl⟩ := update_typed.mp hj
  obtain ⟨L1, u1, u2⟩ := sends_head (c := .update x.asset _ _ _ _ _ _)
    ⟨fun s hx => ⟨h1 s hx, hn s hx⟩, by
      rintro a ⟨⟩
      rintro q ⟨⟩
      exact h3⟩ h
  obtain rfl : L1 = L' := by injection u2
  obtain ⟨a, rest, e1, e2⟩ := C24_update_inline_partial rfl (jsType_ne_none v) u1
  obtain rfl : x.asset = a := by
    simp only [ClientIx.keys, Call.build, Call.metas, List.map_cons, metaRw, List.cons.injEq] at e1
    exact e1.1
  obtain ⟨q, q1, _, q3⟩ := e2 A hs
  exact ⟨q, q1, q3⟩

/-- An update without a value changes only the name and the mutability asked for. -/
theorem C73_title (hj : jsUpdateTyped E.program ctx x none = .ok i)
    (h : sends E L [i] = .ok L') (hn : IfAny (fun s => validUtf8 s = true) x.name)
    (hb : x.buffer = none) (hs : Stores E.program L x.asset A) :
    Stores E.program L' x.asset (A.retitled (JsUpdateArgs.title x)) := by
  unfold jsUpdateTyped at hj
  simp only [bind_ok, jsTypedOption_ok, C59_built] at hj
  obtain ⟨_, ⟨_, rfl⟩ | ⟨_, _, hc, _⟩, ⟨h2, h3⟩, rfl⟩ := hj
  · obtain ⟨L1, u1, u2⟩ := sends_head (c := callOf ctx (.update x.asset x.authority x.buffer
      x.group x.payer none x.name x.isMutable none)) ⟨fun s hx => ⟨h2 s hx, hn s hx⟩, by rintro a ⟨⟩⟩ h
    obtain rfl : L1 = L' := by injection u2
    obtain ⟨a, au, b, rest, e1, e2⟩ := C24_update_header (x := JsUpdateArgs.title x) rfl u1
    simp only [ClientIx.keys, Call.build, callOf, Call.metas, List.map_cons, metaRw, metaRo, hb,
      metaOpt, List.cons.injEq] at e1
    obtain ⟨rfl, _, rfl, _⟩ := e1
    exact e2 rfl A hs
  · cases hc

/-- `allocate` is the first instruction of `initialize` when the value fits a chunk, and the only
one. -/
theorem C73_allocate {program asset : Key} {payer : Option Key} {v : JsExt}
    (h : (rustWrites v).length ≤ 850) : jsAllocateTyped program ctx asset payer v = .ok i ↔
      ∃ c, jsInitialize ctx asset payer v = .ok [c] ∧ c.build program = i := by
  unfold jsAllocateTyped jsInitialize
  simp only [bind_ok, jsTyped_ok, C59_built, jsWriteExt_ok]
  constructor
  · rintro ⟨_, ⟨h1, rfl⟩, h2, rfl⟩
    refine ⟨_, ⟨_, ⟨h1, rfl⟩, ?_⟩, rfl⟩
    rw [if_neg (by omega)]
    simp only [pure, Except.pure]
    rw [if_neg (show ¬ jsChunkSize < (rustWrites v).length from Nat.not_lt.mpr h)]
    rfl
  · rintro ⟨c, ⟨data, ⟨h1, rfl⟩, h2⟩, rfl⟩
    refine ⟨_, ⟨h1, rfl⟩, ⟨show (rustWrites v).length < 4294967296 by omega, ?_⟩, ?_⟩
    · rintro _ ⟨⟩
      show (rustWrites v).length < 4294967296
      omega
    · rw [if_neg (by omega)] at h2
      simp only [pure, Except.pure] at h2
      rw [if_neg (show ¬ jsChunkSize < (rustWrites v).length from Nat.not_lt.mpr h)] at h2
      cases h2
      rfl

end

section Examples
open Verif.Ex

/-- A request with three extensions. -/
def threeExts : List JsExt :=
  [.attributes [([97], [98])], .creators [⟨k 2, false, 60⟩, ⟨k 3, true, 40⟩], .royalties 250 (.not (.ownedBy 2 [k 7]))]

/-- What the client shows after the creation. -/
def createdTyped (exts : Option (List JsExt)) : Except Err JsAsset := do
  let i ← jsCreateTyped prog jsContext jsRequest exts
  let L ← sends (env empties []) empties [i]
  jsAsset id (L (k 1)).data

/-- The claim is false for the order of three extensions: the third comes before the second. -/
theorem C73_false : ((createdTyped (some threeExts)).map fun J => J.extensions.map JsExt.type) =
    .ok [.attributes, .royalties, .creators] := by decide +kernel

/-- No extensions, and a list without extensions. -/
example : ((createdTyped none).map fun J => (J.name, J.extensions.map JsExt.type)) = .ok ([65, 66], []) ∧
    ((createdTyped (some [])).map fun J => (J.name, J.extensions.map JsExt.type)) =
      .ok ([65, 66], []) := by decide +kernel

/-- An update in one instruction; there is no limit of 850 bytes, and no buffer is used. -/
example : ((do
    let i ← jsUpdateTyped prog jsContext (jsEdit (.bucket [])) (some (.blob [116] (List.replicate 1000 7)))
    let L ← sends (env jsBefore []) jsBefore [i]
    jsAsset id (L (k 1)).data : Except Err JsAsset).map fun J =>
      (J.name, J.extensions.map JsExt.type, match J.get .blob with
        | some (.blob ct data) => decide (ct = [116] ∧ data = List.replicate 1000 7)
        | _ => false)) = .ok ([66], [.royalties, .blob], true) := by decide +kernel

/-- And one without a value. -/
example : ((do
    let i ← jsUpdateTyped prog jsContext (jsEdit (.bucket [])) none
    let L ← sends (env jsBefore []) jsBefore [i]
    jsAsset id (L (k 1)).data : Except Err JsAsset).map fun J =>
      (J.name, J.extensions.map JsExt.type)) = .ok ([66], [.royalties]) := by decide +kernel

end Examples

end Verif.Props

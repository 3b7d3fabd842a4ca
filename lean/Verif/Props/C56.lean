import Verif.Lemmas.JsMint
import Verif.Props.C52
import Verif.Props.C55

/-!
# C56 — minting with the JavaScript client
-/

namespace Verif.Props

open Verif Verif.Spec

theorem modern_readable {t : ExtType} {p : Bytes} (h : Modern t p) : Readable t p := by
  cases t with
  | metadata =>
    obtain ⟨s, d, u, i, m, h1, h2, h3, h4, h5⟩ := h
    exact ⟨s, d, u, _, h1, h2, h3, h5, Or.inr ⟨i, m, h4, rfl⟩⟩
  | grouping =>
    have h : p.length = 48 := h
    exact ⟨by omega, by omega⟩
  | royalties =>
    obtain ⟨r, hr, -⟩ := h
    exact readRoyalties_iff.mp ⟨r, hr⟩
  | creators => exact h.1
  | properties =>
    obtain ⟨l, hl, -⟩ := h
    exact ⟨l, readPropList_iff.mp hl⟩
  | none => exact h
  | attributes | links | blob | manager | proxy | bucket => exact h

theorem shownCreator_flag (au : Key) (c : JsCreator) (h : c.share < 256) :
    shownCreator { storedCreator c with verified := flagFor (some au) [] c.address } =
      ⟨c.address, c.address = au, c.share⟩ := by
  simp only [shownCreator, storedCreator, flagFor, List.find?_nil, JsCreator.mk.injEq, true_and]
  refine ⟨?_, UInt8.toNat_ofNat_of_lt' h⟩
  by_cases hc : c.address = au
  · rw [if_pos (by rw [hc]), decide_eq_true hc]; rfl
  · rw [if_neg (by intro hh; exact hc (Option.some.inj hh).symm), decide_eq_false hc]; rfl

/-- What is shown of a value that has been stored by a mint. -/
theorem shown_born {au : Key} {text : Bytes → Bytes} {v : JsExt} {y : Extn} (hw : Writable v)
    (hl : (rustWrites v).length < 4294967296) (hb : Born au (jsExtn v) y) :
    shown text y.1 y.2 = .ok (minted au text v) ∧ Modern y.1 y.2 := by
  obtain ⟨t, q⟩ := y
  obtain ⟨rfl, ha⟩ := hb
  obtain ⟨h1, h2⟩ := C55_read text v hw hl
  refine ⟨?_, modern_accepted ha h2 (by intro o h; cases h)⟩
  by_cases hc : v.type = .creators
  · cases v with
    | creators cs =>
      obtain ⟨-, a1, a2, a3, -⟩ := ha
      have hq : q = creatorsBytes (creatorList q) := (creatorsBytes_list (by rw [a2]; exact a1)).symm
      have e1 : readCreators q = .ok (creatorList q) := readCreators_eq.mpr hq
      show (readCreators q).map _ = _
      rw [e1, a3]
      simp only [jsExtn, rustWrites, creatorList_bytes, Except.map, List.map_map, minted]
      congr 2
      exact List.map_congr_left fun c hc => shownCreator_flag au c (hw c hc)
    | _ => cases hc
  · have : q = rustWrites v := accepted_other hc ha
    simp only at this ⊢
    rw [this]
    refine Eq.trans h1 ?_
    cases v with
    | creators => exact absurd rfl hc
    | _ => rfl

theorem jsType_ne_none (v : JsExt) : v.type ≠ .none := by cases v <;> simp [JsExt.type]

/-- Values that are acceptable can be created. -/
theorem jsExtn_creatable {au : Key} {v : JsExt} (hw : Writable v)
    (hl : (rustWrites v).length < 4294967296) (ha : MintAcceptable v) :
    Readable v.type (rustWrites v) ∧ ∃ q, Born au (jsExtn v) (v.type, q) := by
  have hr := modern_readable (C55_read id v hw hl).2
  refine ⟨hr, ?_⟩
  cases v with
  | creators cs =>
    refine ⟨creatorsBytes ((cs.map storedCreator).map fun c =>
      { c with verified := flagFor (some au) [] c.address }), rfl, (by intro o h; cases h), hr, ?_, ?_, ?_,
      by simp⟩
    · simp [jsExtn, rustWrites, length_creatorsBytes]
    · simp only [jsExtn, rustWrites, creatorList_bytes]
      rfl
    · unfold sumShares
      rw [creatorList_bytes]
      simp only [List.map_map]
      rw [← (show _ = 100 from ha)]
      congr 2
      exact List.map_congr_left fun c hc => UInt8.toNat_ofNat_of_lt' (hw c hc)
  | grouping s m d =>
    obtain ⟨e, h48⟩ := readGrouping_members (d := d) hw.1 hw.2
    refine ⟨_, rfl, ?_, ?_, rfl, ?_⟩
    · exact hr.1
    · exact hr.2
    · have : s = 0 := ha
      subst this
      show leNat ((toLE 8 0 ++ _).take 8) = 0
      rw [List.take_append_of_le_length (by simp [length_toLE]),
        List.take_of_length_le (by simp [length_toLE])]
      decide
  | royalties bp c =>
    have hbp : bp ≤ 10000 := ha
    refine ⟨_, rfl, rfl, hr.1, ?_⟩
    show leNat ((toLE 8 bp ++ buildC c).take 8) ≤ 10000
    rw [List.take_append_of_le_length (by simp [length_toLE]),
      List.take_of_length_le (by simp [length_toLE]), leNat_toLE]
    exact Nat.le_trans (Nat.mod_le _ _) hbp
  | manager a rs => exact ⟨_, rfl, rfl, hr, by intro o h; cases h⟩
  | proxy => exact ⟨_, rfl, rfl, hr, by intro o h; cases h⟩
  | _ => exact ⟨_, rfl, rfl⟩

/-- An Allocate without a payer for an unused account fails. -/
theorem jsAllocate_unpaid {program a : Key} {L L' : Ledger} {y : ExtInput} {rest : List Call}
    (hy : ∀ q, y.data = some q → Short q) (h0 : (L a).data = []) :
    ¬ Submitted program a L ((jsAllocate a none y :: rest).map (·.build program)) L' := by
  intro h
  rw [List.map_cons] at h
  obtain ⟨L0, E, L1, k1, _, hE, k3, k4, _⟩ := h.head
  have k4 := executeBytes_call (c := jsAllocate a none y) hy k4
  obtain ⟨a', p, s, rest, e1, e2⟩ := exec_allocate k4
  simp only [jsAllocate, ClientIx.keys, Call.build, Call.metas, List.map_cons, List.map_nil,
    metaRw, metaOpt, List.cons.injEq] at e1
  obtain ⟨rfl, rfl, _⟩ := e1
  rw [show (metaRo program false).key = program from rfl,
    show optAcc E program = none by unfold optAcc; rw [if_pos hE.symm]] at e2
  have hd : (L0 a).data = [] := k1.trans h0
  have hsave : ∀ data, saveExtensionData E L0 a none (optAcc E s) y false assetLen data ≠
      .ok L1 := by
    intro data hs
    unfold saveExtensionData allocateSpace createAccount at hs
    cases hs
  unfold processAllocate allocateOffset at e2
  rw [if_pos hd] at e2
  inv at e2
  obtain ⟨_, _, ha, e2⟩ := e2
  cases ha
  revert e2
  cases y.data with
  | some q =>
    intro e2
    inv at e2
    exact hsave q e2.2
  | none => exact fun e2 => hsave [] e2

section
variable {dec : Bytes → Bytes} {program : Key} {ctx : JsContext} {L L' : Ledger} {x : JsMintArgs}
  {payer : Key} {calls : List Call}

/-- The instructions of a mint with a payer. -/
theorem jsMint_ok (hp : x.payer = some payer) : jsMint ctx x = .ok calls ↔
    (∀ v ∈ x.extensions, Writable v ∧ (rustWrites v).length < 4294967296) ∧
    calls = (x.extensions.map jsExtn).flatMap (jsExtCalls x.asset payer) ++ [jsCreate ctx x] := by
  unfold jsMint
  rw [hp]
  simp only [bind_ok, pure_ok, jsInitializeAll_ok]
  constructor
  · rintro ⟨_, ⟨h1, rfl⟩, rfl⟩
    exact ⟨h1, rfl⟩
  · rintro ⟨h1, rfl⟩
    exact ⟨_, ⟨h1, rfl⟩, rfl⟩

theorem mintedAsset_shown {es : List Extn} {vs : List JsExt} (text : Bytes → Bytes)
    (hv : vs = x.extensions.map (minted (JsMintArgs.authorityOr x ctx) text)) :
    shownAsset text (newAsset x.input (x.owner.getD ctx.identity) (JsMintArgs.authorityOr x ctx)
      x.group es) vs = mintedAsset text ctx x := by
  subst hv
  unfold shownAsset mintedAsset newAsset JsMintArgs.input
  simp only [shownKey_getD, JsAsset.mk.injEq, true_and, and_true]
  refine ⟨rfl, ?_, ?_⟩
  · cases x.isMutable.getD true <;> rfl
  · rfl

/-- When all instructions succeed, in order, the account holds the asset asked for, with the
extensions in the order given; and the client shows it: the values asked for, with exactly the
authority among the creators verified. -/
theorem C56_mint (hp : x.payer = some payer) (hj : jsMint ctx x = .ok calls)
    (h : Submitted program x.asset L (calls.map (·.build program)) L')
    (h0 : (L x.asset).data = []) (hn : Text x.name) (hg : x.group ≠ some program)
    (hx : ∀ v ∈ x.extensions, (rustWrites v).length ≤ 10485760) :
    ∃ es, Stores program L' x.asset (newAsset x.input (x.owner.getD ctx.identity)
        (JsMintArgs.authorityOr x ctx) x.group es) ∧
      List.Forall₂ (Born (JsMintArgs.authorityOr x ctx)) (x.extensions.map jsExtn) es ∧
      jsAsset dec (L' x.asset).data = .ok (mintedAsset (jsText dec) ctx x) := by
  obtain ⟨hw, rfl⟩ := (jsMint_ok hp).mp hj
  obtain ⟨es, h1, h2, h3⟩ := pieces_mint (au := x.authority.getD (ctx.identity, true)) (x := x.input)
    (fun e _ => jsExtCalls_split x.asset payer e) rfl hn hg h h0 (by
      intro e he
      obtain ⟨v, hv, rfl⟩ := List.mem_map.mp he
      exact ⟨jsType_ne_none v, hx v hv⟩)
  refine ⟨es, h1, h3, ?_⟩
  have hall : es.map (fun y => shown (jsText dec) y.1 y.2) =
        (x.extensions.map (minted (JsMintArgs.authorityOr x ctx) (jsText dec))).map .ok ∧
      ∀ y ∈ es, Modern y.1 y.2 := by
    clear h1 h2 h hj hx
    generalize x.extensions = vs at h3 hw
    induction vs generalizing es with
    | nil => cases h3; simp
    | cons v vs ih =>
      cases h3 with
      | @cons _ y _ ys hvy hr =>
        obtain ⟨i1, i2⟩ := ih ys hr (fun v hv => hw v (by simp [hv]))
        obtain ⟨s1, s2⟩ := shown_born (text := jsText dec) (hw v (by simp)).1 (hw v (by simp)).2 hvy
        refine ⟨?_, ?_⟩
        · simp only [List.map_cons, List.cons.injEq]
          exact ⟨s1, i1⟩
        · intro z hz
          rcases List.mem_cons.mp hz with rfl | hz
          · exact s2
          · exact i2 z hz
  obtain ⟨vs, v1, v2, -⟩ := jsAsset_stores (dec := dec) h1 (by
    refine ⟨by simp [newAsset], ?_, ?_⟩
    · show x.input.standard.toU8.toNat ≤ 3
      cases x.input.standard <;> decide
    · show (if x.input.isMutable then (1 : UInt8) else 0).toNat ≤ 1
      split <;> decide) (Or.inl h2) hall.2
  rw [v1]
  congr 1
  refine mintedAsset_shown _ ?_
  have := v2.symm.trans hall.1
  exact List.map_injective_iff.mpr (fun a b h => by injection h) this

/-- A mint with a payer and without a group goes through when the values can be stored and are
acceptable and fit the standard, and the payer is a wallet with enough lamports. -/
theorem C56_live {E : Env} (hp : x.payer = some payer) (hg : x.group = none)
    (hj : jsMint ctx x = .ok calls) (hn : Text x.name)
    (hd : (x.extensions.map JsExt.type).Nodup) (hx : ∀ v ∈ x.extensions, MintAcceptable v)
    (hst : StandardFits E x.asset x.input.standard (x.extensions.map jsExtn))
    (hu : L x.asset = ⟨0, [], Key.system⟩) (hne : payer ≠ x.asset)
    (hw : (L payer).owner = Key.system ∧ (L payer).data = [])
    (ha : Affords E (packedEnd 168 (x.extensions.map jsExtn)) (L payer).lamports)
    (hmax : packedEnd 168 (x.extensions.map jsExtn) ≤ 10485760)
    (hprog : E.program ≠ Key.system ∧ payer ≠ E.program)
    (hwh : ∀ y ∈ [JsMintArgs.authorityOr x ctx, x.owner.getD ctx.identity, E.program, Key.system] ++
      x.groupAuthority.toList, Whole E.program L y) :
    ∃ L', sends E L (calls.map (·.build E.program)) = .ok L' ∧
      jsAsset dec (L' x.asset).data = .ok (mintedAsset (jsText dec) ctx x) ∧
      (L' payer).lamports + (L' x.asset).lamports = (L payer).lamports ∧
      ∀ y, y ≠ x.asset → y ≠ payer → L' y = L y := by
  obtain ⟨hwr, hc⟩ := (jsMint_ok hp).mp hj
  have hcreate : jsCreate ctx x = Call.create x.asset (x.authority.getD (ctx.identity, true))
      (x.owner.getD ctx.identity) none x.groupAuthority (some payer) (some Key.system) x.input := by
    unfold jsCreate
    rw [hg, hp]
    rfl
  obtain ⟨L', es, l1, _, _, _, l5, _, l6⟩ := pieces_mint_live (E := E) (L := L) (k := x.asset)
    (payer := payer) (owner := x.owner.getD ctx.identity)
    (au := x.authority.getD (ctx.identity, true)) (ga := x.groupAuthority)
    (xs := x.extensions.map jsExtn) (x := x.input)
    (fun e _ => jsExtCalls_split x.asset payer e) rfl hn ⟨by
      rw [List.map_map]
      exact hd, by
      intro e he
      obtain ⟨v, hv, rfl⟩ := List.mem_map.mp he
      obtain ⟨r1, r2⟩ := jsExtn_creatable (hwr v hv).1 (hwr v hv).2 (hx v hv)
      exact ⟨jsType_ne_none v, r1, r2⟩⟩ hst hu hne hw ha hmax hprog hwh
  rw [← hcreate, ← hc] at l1
  refine ⟨L', l1, ?_, l5, l6⟩
  obtain ⟨_, _, _, h3⟩ := C56_mint (dec := dec) hp hj (sends_submitted x.asset l1) (by rw [hu]) hn (by simp [hg])
    (fun v hv => by
      obtain ⟨pre, post, hs⟩ := List.append_of_mem (List.mem_map_of_mem (f := jsExtn) hv)
      rw [hs, packedEnd_append] at hmax
      have h1 := le_packedEnd (roundUp8 (packedEnd 168 pre + 16 + (rustWrites v).length)) post
      have h2 := le_roundUp8 (packedEnd 168 pre + 16 + (rustWrites v).length)
      simp only [packedEnd, jsExtn] at hmax
      omega)
  exact h3

/-- Without a payer nothing can be minted into an unused account: the client leaves the account out,
although it knows a default payer, and the first instruction fails. -/
theorem C56_no_payer (hp : x.payer = none) (hj : jsMint ctx x = .ok calls) (hn : Text x.name)
    (h0 : (L x.asset).data = []) :
    ¬ Submitted program x.asset L (calls.map (·.build program)) L' := by
  intro h
  have none_acc : ∀ E : Env, E.program = program → optAcc E program = none := by
    intro E hE
    unfold optAcc
    rw [if_pos hE.symm]
  unfold jsMint at hj
  rw [hp] at hj
  simp only [bind_ok, pure_ok] at hj
  obtain ⟨cs, h1, rfl⟩ := hj
  cases hx : x.extensions with
  | nil =>
    rw [hx] at h1
    cases h1
    rw [List.nil_append, List.map_cons, List.map_nil] at h
    obtain ⟨L0, E, L1, k1, _, hE, k3, k4, _⟩ := h.head
    have k4 := executeBytes_call (c := jsCreate ctx x) ⟨hn, by intro a h; cases h⟩ k4
    obtain ⟨a, au, o, g, ga, p, s, rest, e1, e2⟩ := exec_create k4
    simp only [jsCreate, hp, ClientIx.keys, Call.build, Call.metas, List.map_cons, List.map_nil,
      metaRw, metaRo, List.cons.injEq, Option.map_none] at e1
    obtain ⟨rfl, _, _, _, _, hp', _⟩ := e1
    have hp' : program = p := hp'
    subst hp'
    rw [none_acc E hE] at e2
    unfold processCreate createPrepare at e2
    simp only at e2
    rw [if_pos (k1.trans h0)] at e2
    inv at e2
    obtain ⟨_, _, e2, _⟩ := e2
    cases e2
  | cons v vs =>
    rw [hx] at h1
    simp only [jsInitializeAll, bind_ok, pure_ok] at h1
    obtain ⟨c, h2, cs', _, rfl⟩ := h1
    unfold jsInitialize at h2
    simp only [bind_ok] at h2
    obtain ⟨data, _, h2⟩ := h2
    by_cases h32 : 4294967296 ≤ data.length
    · rw [if_pos h32] at h2
      cases h2
    · rw [if_neg h32] at h2
      simp only [pure, Except.pure] at h2
      split at h2
      · cases h2
        exact jsAllocate_unpaid (by intro q hq; cases hq) h0 h
      · cases h2
        refine jsAllocate_unpaid ?_ h0 h
        intro q hq
        cases hq
        show data.length < 4294967296
        omega

end

section Examples
open Verif.Ex

/-- A mint with a long blob (written in three pieces) and two creators, none of them marked as it will
be stored. -/
def jsRequest : JsMintArgs :=
  ⟨k 1, none, some (k 4), none, none, some (k 5), [65, 66], none, none,
    [.blob [116] (List.replicate 2000 7), .creators [⟨k 2, false, 60⟩, ⟨k 3, true, 40⟩],
      .royalties 250 (.not (.ownedBy 2 [k 7]))]⟩

/-- The defaults of the client. -/
def jsContext : JsContext := ⟨k 2, k 5⟩

/-- The instructions of the mint. -/
def jsCalls (x : JsMintArgs) : List Call := (jsMint jsContext x).toOption.getD []

theorem jsRequest_ok : jsMint jsContext jsRequest = .ok (jsCalls jsRequest) := by
  unfold jsCalls
  have : (jsMint jsContext jsRequest).isOk = true := by decide +kernel
  revert this
  cases jsMint jsContext jsRequest with
  | ok => exact fun _ => rfl
  | error => exact fun h => by cases h

example : (jsCalls jsRequest).map (fun c => (c.build prog).data.length) =
    [7, 856, 856, 308, 79, 75, 10] := by decide +kernel

/-- The hypotheses can be met. -/
example : ∃ L', sends (env empties []) empties ((jsCalls jsRequest).map (·.build prog)) = .ok L' ∧
    jsAsset id (L' (k 1)).data = .ok (mintedAsset (jsText id) jsContext jsRequest) ∧
    (L' (k 5)).lamports + (L' (k 1)).lamports = 5000000 := by
  obtain ⟨L', h1, h2, h3, -⟩ := C56_live (E := env empties []) (L := empties) (dec := id)
    (payer := k 5) rfl rfl jsRequest_ok ⟨by show (2 : Nat) < 4294967296; omega, by decide +kernel⟩
    (by decide +kernel) (by
      intro v hv
      simp only [jsRequest, List.mem_cons, List.not_mem_nil, or_false] at hv
      rcases hv with rfl | rfl | rfl
      · trivial
      · show (100 : Nat) % 256 = 100; rfl
      · show (250 : Nat) ≤ 10000; omega) ⟨by decide +kernel, by decide +kernel, by
      intro p hp
      rw [show lookup .proxy (jsRequest.extensions.map jsExtn) = none by decide +kernel] at hp
      cases hp⟩ (by decide +kernel) (by decide +kernel) (by decide +kernel)
    ⟨by decide +kernel, fun n hn => by
      rw [show packedEnd 168 (jsRequest.extensions.map jsExtn) = 2360 by decide +kernel] at hn
      show 128 + n ≤ 5000000
      omega⟩ (by decide +kernel) (by decide +kernel) (by
      intro y hy h1 h2
      have hy' : y = k 2 ∨ y = k 4 ∨ y = prog ∨ y = Key.system := by
        simpa only [jsRequest, JsMintArgs.authorityOr, jsContext, env, List.mem_append, List.mem_cons,
          List.not_mem_nil, or_false, Option.toList_none, Option.getD_none, Option.getD_some] using hy
      rcases hy' with rfl | rfl | rfl | rfl <;> (revert h2; decide +kernel))
  exact ⟨L', h1, h2, h3⟩

/-- Of the creators exactly the authority is verified, whatever the request says. -/
example : (match (mintedAsset (jsText id) jsContext jsRequest).extensions with
    | [.blob ct _, .creators cs, .royalties bp _] =>
      decide (ct = [116] ∧ cs = [⟨k 2, true, 60⟩, ⟨k 3, false, 40⟩] ∧ bp = 250)
    | _ => false) = true := by decide +kernel

/-- The same request without a payer fails, although the context has one. -/
example : (sends (env empties []) empties
    ((jsCalls { jsRequest with payer := none }).map (·.build prog))).isOk = false := by decide +kernel

end Examples

end Verif.Props

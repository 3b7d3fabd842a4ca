import Verif.Lemmas.JsUpdate
import Verif.Props.C24
import Verif.Props.C28
import Verif.Props.C34
import Verif.Props.C54
import Verif.Props.C56

/-!
# C57 — updating an extension with the JavaScript client
-/

namespace Verif.Props

open Verif Verif.Spec

/-- A buffer that holds just one extension. -/
theorem Ready.isBuffer {program b : Key} {L : Ledger} {t : ExtType} {p : Bytes}
    (ho : (L b).owner = program) (h : Ready (L b).data [(t, p)]) : IsBuffer program L b t p := by
  rcases h with ⟨_, h⟩ | ⟨h1, h2⟩
  · cases h
  · have hl := h2.end_eq
    cases h2 with
    | cons ht a0 a1 a2 a3 a4 =>
      simp only [packedEnd] at hl
      have := le_roundUp8 (168 + 16 + p.length)
      exact ⟨ho, h1.2 0 (by omega), a0, a1, by rw [a2]; omega, a3, by omega⟩

section
variable {dec : Bytes → Bytes} {E : Env} {ctx : JsContext} {L L' : Ledger} {x : JsUpdateArgs}
  {fresh payer : Key} {calls : List Call} {A : Asset}

/-- The accounts an update names. -/
def jsUpdateKeys (E : Env) (ctx : JsContext) (fresh payer : Key) (x : JsUpdateArgs) : List Key :=
  [x.asset, x.authority.getD ctx.identity, fresh, x.group.getD E.program, payer, Key.system]

/-- What the first part, the filling of the buffer, leads to. -/
theorem jsFill_sent {L1 : Ledger} {size : Nat} {e : Extn} (h0 : 0 < size) (hs : size ≤ 1200)
    (hc : size < e.2.length) (ht : e.1 ≠ .none) (hlen : e.2.length ≤ 10485760)
    (hf : (L fresh).data = [])
    (h : sends E L ((jsFill fresh payer size e).map (·.build E.program)) = .ok L1) :
    (∃ q, Ready (L1 fresh).data [(e.1, q)] ∧ (q = e.2 ∨ Accepted none e.1 none e.2 q)) ∧
    (∀ y, y ≠ fresh → (L1 y).data = (L y).data ∧ (L1 y).owner = (L y).owner) ∧
    (∀ y, y ∉ [fresh, payer, Key.system] → L1 y = L y) ∧
    ∀ ks : List Key, ks.Nodup → (∀ y ∈ [fresh, payer, Key.system], y ∈ ks) →
      total ks L < two64 → total ks L1 = total ks L := by
  have hsp := jsFill_split (fresh := fresh) (payer := payer) h0 hs hc
  have hok : ∀ c ∈ jsFill fresh payer size e, InstrOk (instrOf c) ∧
      (∀ y ∈ dataKeys (instrOf c) (c.build E.program).keys, y ∈ [fresh]) ∧
      ∀ y ∈ (c.build E.program).keys, y ∈ [fresh, payer, Key.system] := by
    obtain ⟨y, cs, o, hy, _, _, _, hg, hcs, _⟩ := hsp
    rw [hy]
    intro c hc
    rcases List.mem_cons.mp hc with rfl | hc
    · refine ⟨?_, ?_, ?_⟩
      · intro q hq
        have : given y = q := by unfold given; rw [hq]; rfl
        rw [this] at hg
        show q.length < 4294967296
        omega
      · simp [dataKeys, instrOf, Instr.dataPositions, ClientIx.keys, Call.build, Call.metas, metaRw]
      · simp [ClientIx.keys, Call.build, Call.metas, metaRw, metaOpt, metaRo]
    · have : ∃ o c', c' ∈ cs ∧ c = .write fresh payer Key.system ⟨o, c'⟩ := by
        cases cs with
        | nil => cases hc
        | cons d ds =>
          rcases List.mem_cons.mp hc with rfl | hc
          · exact ⟨o, d, by simp, rfl⟩
          · obtain ⟨c', h1, rfl⟩ := List.mem_map.mp hc
            exact ⟨false, c', by simp [h1], rfl⟩
      obtain ⟨o', c', h1, rfl⟩ := this
      refine ⟨?_, ?_, ?_⟩
      · have := (hcs c' h1).2
        show c'.length < 4294967296
        omega
      · simp [dataKeys, instrOf, Instr.dataPositions, ClientIx.keys, Call.build, Call.metas, metaRw]
      · simp [ClientIx.keys, Call.build, Call.metas, metaRw, metaRo]
  obtain ⟨f1, f2, f3⟩ := sends_frame (fun c h => (hok c h).1) (fun c h => (hok c h).2.1)
    (fun c h => (hok c h).2.2) h
  refine ⟨?_, fun y hy => f1 y (by simpa using hy), fun y hy => f2 y (by
    intro h
    exact hy (by simp at h; simp [h])) hy, fun ks hn hk => f3 ks hn (by
    intro y hy
    exact hk y (by simp at hy; simp [hy])) hk⟩
  have hsub := sends_submitted fresh h
  rw [← List.append_nil (List.map _ _)] at hsub
  obtain ⟨L2, q, g1, _, g3, g4⟩ := pieces_write hsp (es := []) (Or.inl ⟨hf, rfl⟩) (by rw [hf]; simp)
    ht hlen hsub
  refine ⟨q, ?_, g3⟩
  rw [(Submitted.last g4).1]
  exact g1

/-- When all instructions of an update through a buffer succeed, the asset holds the value, apart from
creators; the buffer is gone; nobody else's account is touched and no lamports are lost. -/
theorem jsUpdate_sent (hp : x.payer = some payer) (hc : JsUpdateArgs.Chunked x)
    (hsize : x.chunkSize.getD jsChunkSize ≤ 1200)
    (hj : jsUpdateWithBuffer ctx fresh x = .ok calls)
    (hlen : (rustWrites x.extension).length ≤ 10485760) (hn : IfAny Text x.name)
    (hs : Stores E.program L x.asset A)
    (hf : (L fresh).data = []) (hfp : fresh ≠ E.program)
    (h : sends E L (calls.map (·.build E.program)) = .ok L') :
    ∃ L1 L2 p, IsBuffer E.program L1 fresh x.extension.type p ∧
      (p = rustWrites x.extension ∨
        Accepted none x.extension.type none (rustWrites x.extension) p) ∧
      Stores E.program L1 x.asset A ∧
      execute (serving E L1 ((Call.update x.asset (x.authority.getD ctx.identity) (some fresh) x.group
          (some payer) (some Key.system) (JsUpdateArgs.title x)).build E.program)) L1
        (jsUpdateKeys E ctx fresh payer x) (.update (JsUpdateArgs.title x)) = .ok L2 ∧
      (L' x.asset).data = (L2 x.asset).data ∧ (L' x.asset).owner = (L2 x.asset).owner ∧
      Gone L' fresh ∧ (∀ y, y ∉ jsUpdateKeys E ctx fresh payer x → L' y = L y) ∧
      ∀ ks : List Key, ks.Nodup → (∀ y ∈ jsUpdateKeys E ctx fresh payer x, y ∈ ks) →
        total ks L < two64 → total ks L' = total ks L := by
  obtain ⟨hw, h32, h0, rfl⟩ := jsUpdate_chunked hp hc hj
  rw [List.map_append] at h
  obtain ⟨L1, h1, h2⟩ := sends_append h
  obtain ⟨⟨p, p1, p2⟩, f1, f2, f3⟩ := jsFill_sent (e := jsExtn x.extension) h0 hsize hc
    (jsType_ne_none _) hlen hf h1
  rw [List.map_cons, List.map_cons, List.map_nil] at h2
  obtain ⟨L2, u1, u2⟩ := sends_head (c := .update x.asset _ _ _ _ _ _) ⟨hn, by intro a h; cases h⟩ h2
  obtain ⟨L3, c1, c2⟩ := sends_head (c := .close fresh payer) trivial u2
  obtain rfl : L3 = L' := by injection c2
  have hka : x.asset ≠ fresh := by
    rintro rfl
    have := hs.1.2.1
    rw [hf] at this
    simp [assetLen] at this
  have hkeys : ((Call.update x.asset (x.authority.getD ctx.identity) (some fresh) x.group
      (some payer) (some Key.system) (JsUpdateArgs.title x)).build E.program).keys =
      jsUpdateKeys E ctx fresh payer x := by
    cases hg : x.group <;>
      simp [jsUpdateKeys, hg, ClientIx.keys, Call.build, Call.metas, metaRw, metaRo, metaOpt]
  have u1' := u1
  rw [show ((Call.update x.asset (x.authority.getD ctx.identity) (some fresh) x.group
      (some payer) (some Key.system) ⟨x.name, x.isMutable, none⟩).build E.program).keys =
      jsUpdateKeys E ctx fresh payer x from hkeys] at u1'
  obtain ⟨b, r, rest, e1, _, _, _, g1, g2, g3, g4⟩ := C28_close c1
  obtain ⟨rfl, rfl, -⟩ : fresh = b ∧ payer = r ∧ [] = rest := by
    simpa [ClientIx.keys, Call.build, Call.metas, metaRw] using e1
  have hown : (L1 fresh).owner = E.program := by
    obtain ⟨a', au', b', g, q, s, rest', he, hq⟩ := exec_update u1'
    simp only [jsUpdateKeys, List.cons.injEq] at he
    obtain ⟨rfl, rfl, rfl, -⟩ := he
    unfold processUpdate at hq
    inv at hq
    obtain ⟨_, _, _, _, _, hq⟩ := hq
    rw [show optAcc _ fresh = some fresh by unfold optAcc; rw [if_neg]; exact hfp] at hq
    simp only at hq
    unfold updateBuffer at hq
    inv at hq
    have := hq.1
    rw [Ledger.setData_other _ _ (fun h => hka h.symm)] at this
    exact this
  obtain ⟨k, rest, -, ef⟩ := execute_effect u1'
  obtain ⟨k', rest', -, ec⟩ := execute_effect c1
  replace ef : Effect _ k [x.asset, fresh] (jsUpdateKeys E ctx fresh payer x) L1 L2 := ef
  have hcl : ∀ y ∈ ((Call.close fresh payer).build E.program).keys, y ∈ [fresh, payer] := by
    simp [ClientIx.keys, Call.build, Call.metas, metaRw]
  have hcd : ∀ y ∈ dataKeys (instrOf (.close fresh payer))
      ((Call.close fresh payer).build E.program).keys, y ∈ [fresh] := by
    simp [dataKeys, instrOf, Instr.dataPositions, ClientIx.keys, Call.build, Call.metas, metaRw]
  obtain ⟨d1, d2⟩ := ec.data x.asset fun h => hka (by simpa using hcd _ h)
  refine ⟨L1, L2, p, Ready.isBuffer hown p1, p2, hs.congr (f1 _ hka).2 (f1 _ hka).1, u1', d1, d2, g1,
    ?_, ?_⟩
  · intro y hy
    have hsub : ∀ z ∈ [fresh, payer, Key.system], z ∈ jsUpdateKeys E ctx fresh payer x := by
      intro z hz
      simp only [List.mem_cons, List.not_mem_nil, or_false] at hz
      rcases hz with rfl | rfl | rfl <;> simp [jsUpdateKeys]
    rw [ec.other y (fun h => hy (hsub _ (by have := hcd _ h; simp at this; simp [this])))
      (fun h => hy (hsub _ (by
        have := hcl _ h
        simp only [List.mem_cons, List.not_mem_nil, or_false] at this
        rcases this with rfl | rfl <;> simp))),
      ef.other y (fun h => hy (by
        simp only [List.mem_cons, List.not_mem_nil, or_false] at h
        rcases h with rfl | rfl <;> simp [jsUpdateKeys])) hy,
      f2 y fun h => hy (hsub y h)]
  · intro ks hn hk ht
    have hsub : ∀ z ∈ [fresh, payer, Key.system], z ∈ ks := by
      intro z hz
      refine hk z ?_
      simp only [List.mem_cons, List.not_mem_nil, or_false] at hz
      rcases hz with rfl | rfl | rfl <;> simp [jsUpdateKeys]
    have t1 := f3 ks hn hsub ht
    have t2 := ef.conserve ks hn (by
      intro y hy
      simp only [List.mem_cons, List.not_mem_nil, or_false] at hy
      rcases hy with rfl | rfl
      · exact hk _ (by simp [jsUpdateKeys])
      · exact hsub _ (by simp)) hk (by omega)
    have t3 := ec.conserve ks hn (fun y hy => hsub y (by have := hcd _ hy; simp at this; simp [this]))
      (fun y hy => hsub y (by
        have := hcl _ hy
        simp only [List.mem_cons, List.not_mem_nil, or_false] at this
        rcases this with rfl | rfl <;> simp)) (by omega)
    omega

/-- When all instructions of an update through a buffer succeed, in order, the asset holds the value
asked for, with the name and mutability asked for, and is otherwise as before; for all types but
Creators. -/
theorem C57_stored_partial (hp : x.payer = some payer) (hc : JsUpdateArgs.Chunked x)
    (hsize : x.chunkSize.getD jsChunkSize ≤ 1200)
    (hj : jsUpdateWithBuffer ctx fresh x = .ok calls)
    (hlen : (rustWrites x.extension).length ≤ 10485760) (hn : IfAny Text x.name)
    (hs : Stores E.program L x.asset A)
    (hf : (L fresh).data = []) (hfp : fresh ≠ E.program)
    (h : sends E L (calls.map (·.build E.program)) = .ok L') (ht : x.extension.type ≠ .creators) :
    Stores E.program L' x.asset (JsUpdateArgs.result x A (rustWrites x.extension)) := by
  obtain ⟨L1, L2, p, b1, b2, b3, b4, b5, b6, -⟩ := jsUpdate_sent hp hc hsize hj hlen hn hs hf hfp h
  have hpe : p = rustWrites x.extension := by
    rcases b2 with h | h
    · exact h
    · exact accepted_other ht h
  have := C34_stored_partial (E := serving E L1 _) b4 hfp b3 b1 (jsType_ne_none _) ht
  rw [hpe] at this
  exact this.congr b6 b5

/-- Of a list of creators some bytes of the addresses may be different: one in each. -/
theorem C57_creators (hp : x.payer = some payer) (hc : JsUpdateArgs.Chunked x)
    (hsize : x.chunkSize.getD jsChunkSize ≤ 1200)
    (hj : jsUpdateWithBuffer ctx fresh x = .ok calls)
    (hlen : (rustWrites x.extension).length ≤ 10485760) (hn : IfAny Text x.name)
    (hs : Stores E.program L x.asset A)
    (hf : (L fresh).data = []) (hfp : fresh ≠ E.program)
    (h : sends E L (calls.map (·.build E.program)) = .ok L') :
    ∃ p q, (p = rustWrites x.extension ∨
        Accepted none x.extension.type none (rustWrites x.extension) p) ∧
      q.length = p.length ∧
      (∀ i : Nat, q[i]? ≠ p[i]? → x.extension.type = .creators ∧ i % 34 = 16) ∧
      Stores E.program L' x.asset (JsUpdateArgs.result x A q) := by
  obtain ⟨L1, L2, p, b1, b2, b3, b4, b5, b6, -⟩ := jsUpdate_sent hp hc hsize hj hlen hn hs hf hfp h
  obtain ⟨q, q1, q2, q3⟩ := C34_stored (E := serving E L1 _) b4 hfp b3 b1 (jsType_ne_none _)
  exact ⟨p, q, b2, q1, q2, q3.congr b6 b5⟩

/-- The buffer is closed, no account but those named is touched, and no lamports are lost. -/
theorem C57_closed (hp : x.payer = some payer) (hc : JsUpdateArgs.Chunked x)
    (hsize : x.chunkSize.getD jsChunkSize ≤ 1200)
    (hj : jsUpdateWithBuffer ctx fresh x = .ok calls)
    (hlen : (rustWrites x.extension).length ≤ 10485760) (hn : IfAny Text x.name)
    (hs : Stores E.program L x.asset A)
    (hf : (L fresh).data = []) (hfp : fresh ≠ E.program)
    (h : sends E L (calls.map (·.build E.program)) = .ok L') :
    Gone L' fresh ∧ (∀ y, y ∉ jsUpdateKeys E ctx fresh payer x → L' y = L y) ∧
      ∀ ks : List Key, ks.Nodup → (∀ y ∈ jsUpdateKeys E ctx fresh payer x, y ∈ ks) →
        total ks L < two64 → total ks L' = total ks L := by
  obtain ⟨L1, L2, p, _, _, _, _, _, _, b⟩ := jsUpdate_sent hp hc hsize hj hlen hn hs hf hfp h
  exact b

/-- Royalties that are too long for a chunk cannot be updated. -/
theorem C57_royalties (hp : x.payer = some payer) (hc : JsUpdateArgs.Chunked x)
    (hsize : x.chunkSize.getD jsChunkSize ≤ 1200)
    (hj : jsUpdateWithBuffer ctx fresh x = .ok calls)
    (hlen : (rustWrites x.extension).length ≤ 10485760) (hn : IfAny Text x.name)
    (hs : Stores E.program L x.asset A)
    (hf : (L fresh).data = []) (hfp : fresh ≠ E.program) (ht : x.extension.type = .royalties) :
    sends E L (calls.map (·.build E.program)) ≠ .ok L' := by
  intro h
  obtain ⟨L1, L2, p, b1, _, b3, b4, -⟩ := jsUpdate_sent hp hc hsize hj hlen hn hs hf hfp h
  rw [ht] at b1
  exact C34_royalties_rejected (E := serving E L1 _) hfp b3 b1 b4

/-- An update that fits a chunk is a single instruction. When it succeeds the asset holds the value
asked for, up to the books the program keeps itself: verified flags and the size of a group. -/
theorem C57_inline (hc : ¬ JsUpdateArgs.Chunked x)
    (hj : jsUpdateWithBuffer ctx fresh x = .ok calls) (hn : IfAny Text x.name)
    (hs : Stores E.program L x.asset A)
    (h : sends E L (calls.map (·.build E.program)) = .ok L') :
    ∃ q, SameButBooks x.extension.type (rustWrites x.extension) q ∧
      Stores E.program L' x.asset (JsUpdateArgs.result x A q) := by
  obtain ⟨hw, h32, rfl⟩ := jsUpdate_inline hc hj
  rw [List.map_cons, List.map_nil] at h
  obtain ⟨L1, u1, u2⟩ := sends_head (c := .update x.asset _ _ _ _ _ _) ⟨hn, by
    rintro a ⟨⟩
    rintro q ⟨⟩
    exact h32⟩ h
  obtain rfl : L1 = L' := by injection u2
  obtain ⟨a, rest, e1, e2⟩ := C24_update_inline_partial rfl (jsType_ne_none _) u1
  obtain rfl : x.asset = a := by
    simp only [ClientIx.keys, Call.build, Call.metas, List.map_cons, metaRw, List.cons.injEq] at e1
    exact e1.1
  obtain ⟨q, q1, _, q3⟩ := e2 A hs
  exact ⟨q, q1, q3⟩

/-- Either way the client afterwards shows the value, when it could show the asset before. -/
theorem C57_shown_partial (hp : x.payer = some payer)
    (hsize : x.chunkSize.getD jsChunkSize ≤ 1200)
    (hj : jsUpdateWithBuffer ctx fresh x = .ok calls)
    (hlen : (rustWrites x.extension).length ≤ 10485760) (hn : IfAny Text x.name)
    (hs : Stores E.program L x.asset A)
    (hf : (L fresh).data = []) (hfp : fresh ≠ E.program)
    (h : sends E L (calls.map (·.build E.program)) = .ok L')
    (ht : x.extension.type ≠ .creators ∧ x.extension.type ≠ .grouping)
    (hjs : JsFriendly A)
    (hstub : NoStub L' x.asset (JsUpdateArgs.result x A (rustWrites x.extension))) :
    ∃ J, jsAsset dec (L' x.asset).data = .ok J ∧
      J.get x.extension.type = some (reread (jsText dec) x.extension) ∧
      ∀ n, x.name = some n → J.name = jsText dec (storedName n) := by
  have hst : Writable x.extension ∧
      Stores E.program L' x.asset (JsUpdateArgs.result x A (rustWrites x.extension)) := by
    by_cases hc : JsUpdateArgs.Chunked x
    · exact ⟨(jsUpdate_chunked hp hc hj).1,
        C57_stored_partial hp hc hsize hj hlen hn hs hf hfp h ht.1⟩
    · obtain ⟨q, ⟨_, q1⟩, q2⟩ := C57_inline hc hj hn hs h
      have : q = rustWrites x.extension := by
        apply List.ext_getElem?
        intro i
        by_cases hi : q[i]? = (rustWrites x.extension)[i]?
        · exact hi
        · rcases q1 i hi with h | h
          · exact absurd h.1 ht.1
          · exact absurd h.1 ht.2
      rw [this] at q2
      exact ⟨(jsUpdate_inline hc hj).1, q2⟩
  obtain ⟨hw, hst⟩ := hst
  obtain ⟨r1, r2⟩ := C55_read (jsText dec) x.extension hw (by omega)
  have hf' : JsFriendly (JsUpdateArgs.result x A (rustWrites x.extension)) := by
    refine ⟨⟨hjs.1.1, hjs.1.2.1, ?_⟩, ?_⟩
    · show (match x.isMutable with | some m => if m then (1 : UInt8) else 0 | none => A.mutableByte).toNat ≤ 1
      cases x.isMutable with
      | none => exact hjs.1.2.2
      | some m => cases m <;> exact Nat.le_of_ble_eq_true rfl
    · intro y hy
      rcases mem_setExt hy with rfl | hy
      · exact r2
      · exact hjs.2 y hy
  obtain ⟨J, j1, r, j2, j3⟩ := C54_get_partial (dec := dec) hst hf' hstub (jsType_ne_none x.extension)
  obtain ⟨vs, v1, -⟩ := C54_shows_partial (dec := dec) hst hf' hstub
  refine ⟨J, j1, ?_, ?_⟩
  · have := assetGet_walk hst.2.2.2.hasExts (jsType_ne_none x.extension)
    rw [show lookup x.extension.type (JsUpdateArgs.result x A (rustWrites x.extension)).exts =
      some (rustWrites x.extension) from lookup_setExt_same, j2] at this
    cases this
    obtain ⟨v, w1, w2⟩ := j3
    rw [r1] at w1
    cases w1
    exact w2
  · intro n hn'
    rw [v1] at j1
    cases j1
    show jsText dec (match x.name with | some n => storedName n | none => A.name) = _
    rw [hn']

/-- Without a payer an update through a buffer fails, although the client knows a default payer: the
buffer cannot be allocated. -/
theorem C57_no_payer (hp : x.payer = none) (hc : JsUpdateArgs.Chunked x)
    (hj : jsUpdateWithBuffer ctx fresh x = .ok calls) (hf : (L fresh).data = []) :
    sends E L (calls.map (·.build E.program)) ≠ .ok L' := by
  intro h
  unfold jsUpdateWithBuffer at hj
  simp only [bind_ok, jsWriteExt_ok] at hj
  obtain ⟨data, ⟨hw, rfl⟩, hj⟩ := hj
  by_cases h32 : 4294967296 ≤ (rustWrites x.extension).length
  · rw [if_pos h32] at hj
    cases hj
  · rw [if_neg h32] at hj
    simp only [pure, Except.pure] at hj
    rw [if_pos (show _ < _ from hc)] at hj
    split at hj
    · cases hj
    · cases hj
      rw [hp] at h
      exact jsAllocate_unpaid (by intro q hq; cases hq) hf (sends_submitted fresh h)

end

section Examples
open Verif.Ex

/-- A request to store the value, renaming the asset. -/
def jsEdit (v : JsExt) : JsUpdateArgs :=
  ⟨k 1, some (k 3), none, none, some (k 5), some [66], none, v, none⟩

/-- The instructions of the update, with `k 8` as buffer. -/
def jsEditCalls (x : JsUpdateArgs) : List Call := (jsUpdateWithBuffer jsContext (k 8) x).toOption.getD []

/-- An asset with royalties, and wallets. -/
def jsBefore : Ledger :=
  ledger [(k 1, owned (header 0 0 1 (k 2) Key.default (k 3) Key.default 0 [65] ++
    blocks 168 [(.royalties, royalties5)])), (k 3, wallet), (k 5, wallet)]

/-- The ledger afterwards, and what the client shows. -/
def jsEdited (x : JsUpdateArgs) : Except Err (Ledger × JsAsset) := do
  let L ← sends (env jsBefore []) jsBefore ((jsEditCalls x).map (·.build prog))
  let J ← jsAsset id (L (k 1)).data
  return (L, J)

/-- A long blob goes through a buffer: Allocate, three Writes, Update and Close. -/
example : (jsEditCalls (jsEdit (.blob [116] (List.replicate 2000 7)))).map
    (fun c => (c.build prog).data.length) = [7, 856, 856, 308, 9, 1] := by decide +kernel

/-- What is shown afterwards; the buffer is gone and its lamports are back. -/
example : ((jsEdited (jsEdit (.blob [116] (List.replicate 2000 7)))).map fun (L, J) =>
    (decide (J.name = [66] ∧ L (k 8) = ⟨0, [], Key.system⟩ ∧
      (L (k 5)).lamports + (L (k 1)).lamports =
        (jsBefore (k 5)).lamports + (jsBefore (k 1)).lamports),
      match J.extensions with
      | [.royalties bp _, .blob ct d] => decide (bp = 500 ∧ ct = [116] ∧ d = List.replicate 2000 7)
      | _ => false)) = .ok (true, true) := by decide +kernel

/-- Without payer it fails. -/
example : (sends (env jsBefore []) jsBefore
    ((jsEditCalls { jsEdit (.blob [116] (List.replicate 2000 7)) with payer := none }).map
      (·.build prog))).isOk = false := by decide +kernel

/-- A short value is sent in one instruction. -/
example : ((jsEdited (jsEdit (.blob [116] [1, 2]))).map fun (_, J) =>
    match J.extensions with
      | [.royalties bp _, .blob ct d] => decide (bp = 500 ∧ ct = [116] ∧ d = [1, 2])
      | _ => false) = .ok true := by decide +kernel

/-- The address of a creator: the byte at 17 of all 26 together add up to 100. -/
def creatorKey (i : Nat) : Key :=
  Key.ofBytes (List.replicate 17 (UInt8.ofNat (i + 1)) ++ [if i < 25 then 4 else 0] ++
    List.replicate 14 9)

/-- A list of 26 creators, 25 of them with a share of 4%. -/
def manyCreators : JsExt :=
  .creators ((List.range 26).map fun i => ⟨creatorKey i, false, if i < 25 then 4 else 0⟩)

/-- The claim is false for creators: a list of 26 creators, which is too long for one chunk, is
accepted, but of no address what was asked for is stored: the byte at 16 is cleared, since it is
taken for the verified flag. -/
theorem C57_false : ((jsEdited (jsEdit manyCreators)).map fun (_, J) =>
    match J.extensions with
      | [.royalties _ _, .creators cs] => decide (cs.length = 26 ∧ cs.map (·.share) =
          (List.range 26).map (fun i => if i < 25 then 4 else 0) ∧
          cs.map (·.address) =
            (List.range 26).map (fun i => Key.ofBytes ((creatorKey i).1.set 16 0)) ∧
          (∀ i ∈ List.range 26, creatorKey i ∉ cs.map (·.address)))
      | _ => false) = .ok true := by decide +kernel

/-- And royalties with a constraint on 30 addresses cannot be updated at all. -/
theorem C57_false_royalties :
    jsEditCalls (jsEdit (.royalties 500 (.pubkeyMatch 1 ((List.range 30).map creatorKey)))) ≠ [] ∧
    (sends (env jsBefore []) jsBefore ((jsEditCalls (jsEdit
      (.royalties 500 (.pubkeyMatch 1 ((List.range 30).map creatorKey))))).map
        (·.build prog))).isOk = false := by decide +kernel

end Examples

end Verif.Props

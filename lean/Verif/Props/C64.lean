import Verif.Spec.ProxyClient
import Verif.Lemmas.ProxyCreate
import Verif.Props.C36
import Verif.Props.C59
import Verif.Props.C62
import Verif.Props.C63

/-!
# C64 — the proxy program creates assets that it can serve
-/

namespace Verif.Props

open Verif Verif.Spec

section
variable {E : Env} {C : ProxyConsts} {L L' : Ledger} {accts : List Key} {data name : Bytes}
  {asset stub owner authority : Key} {payer sys : Option Key} {bump : UInt8}

/-- The instruction data of Create: the discriminator 0 and the name. It cannot be confused with a
request that is passed on. -/
theorem C64_data : decodeProxyCreate data = some name ↔ Text name ∧ data = 0 :: encBytes name := by
  unfold decodeProxyCreate
  cases data with
  | nil => simp [readU8]
  | cons t r =>
    by_cases ht : t = 0
    · subst ht
      have hc := readString_codec r name []
      simp only [readU8, List.cons.injEq, true_and]
      rw [List.append_nil] at hc
      constructor
      · intro h
        split at h
        · rename_i nm heq
          cases h
          exact hc.mp heq
        · cases h
      · intro h
        rw [hc.mpr h]
    · simp only [readU8, List.cons.injEq, ht, false_and, and_false, iff_false]
      split
      · rename_i heq
        simp only [Option.some.injEq, Prod.mk.injEq] at heq
        exact absurd heq.1 ht
      · exact fun h => by cases h

theorem C64_apart (h : decodeProxyCreate data = some name) : decode data = none := by
  obtain ⟨_, rfl⟩ := C64_data.mp h
  cases hd : decode (0 :: encBytes name) with
  | none => rfl
  | some i =>
    unfold decode at hd
    split at hd
    · rename_i j heq
      cases hd
      have := ((readInstr_codec _ _ _).mp heq).2
      rw [List.append_nil] at this
      have hl : (encBytes name).length ≥ 4 := by simp [encBytes, length_toLE]
      cases i <;> simp only [encode, List.cons_append, List.nil_append, List.cons.injEq, reduceCtorEq,
        List.append_eq_nil_iff] at this
      all_goals first
        | exact absurd this.1 (by decide)
        | (rw [this.2] at hl; simp at hl)
    · cases hd

/-- What a successful Create of the proxy program has checked, and what it has asked for. -/
theorem proxyCreate_ok (hn : Text name) (himg : (firstImage C).length ≤ 10000000)
    (h : proxyCreate E C L asset stub owner authority payer sys name = .ok L') :
    E.signer authority = true ∧ E.signer stub = true ∧ ∃ bump, Canonical E stub.1 asset bump ∧
      ∃ metas, metas = [⟨asset, true, true⟩, ⟨asset, true, false⟩, ⟨owner, false, false⟩,
        ⟨C.assetId, false, false⟩, ⟨C.assetId, false, false⟩, optMeta C payer true true,
        optMeta C sys false false] ∧
      execute (calleeEnv E C.assetId L metas) L (metas.map (·.key))
        (.create (proxiedRequest E C stub authority bump name)) = .ok L' ∧
      ∀ m ∈ metas, (m.signer = true → E.signer m.key = true ∨ m.key ∈ [asset]) ∧
        (m.writable = true → E.writable m.key = true) := by
  unfold proxyCreate at h
  inv at h
  obtain ⟨h1, h2, ⟨k, b⟩, h3, h4, h5⟩ := h
  simp only at h4 h5
  subst h4
  obtain ⟨h6, h7⟩ := invokeAsset_ok (proxiedRequest_ok (E := E) (C := C) (stub := stub)
    (authority := authority) (bump := b) hn himg) h5
  exact ⟨h1, h2, b, canonical_iff.mp h3, _, rfl, h6, h7⟩

/-- Only accounts that the call may write change. -/
theorem callee_writable {id : Key} {metas : List Meta} {i : Instr}
    (h : execute (calleeEnv E id L metas) L (metas.map (·.key)) i = .ok L') {k : Key}
    (hk : L' k ≠ L k) : ∃ m ∈ metas, m.key = k ∧ m.writable = true := by
  by_cases hm : k ∈ metas.map (·.key)
  · have := (execute_ok h).2.2.2 k hm
    unfold changeAllowed at this
    simp only [Bool.or_eq_true, Bool.and_eq_true, decide_eq_true_eq] at this
    rcases this with h' | ⟨⟨h', _⟩, _⟩
    · exact absurd h' hk
    · obtain ⟨m, hm', h2⟩ := List.any_eq_true.mp h'
      simp only [Bool.and_eq_true, decide_eq_true_eq] at h2
      exact ⟨m, hm', h2⟩
  · exact absurd (C29_not_passed h k hm) hk

/-- Create needs the signatures of the authority and of the stub. The asset is at the address derived
from the stub; it belongs to the owner given, and to nobody else: it is its own authority. It has the
four extensions, the counter at zero. Apart from the payer no other account changes. -/
theorem C64_created (hd : decodeProxyCreate data = some name)
    (himg : (firstImage C).length ≤ 10000000) (h : proxyProcess E C L accts data = .ok L') :
    ∃ asset stub owner authority p s a rest bump,
      accts = asset :: stub :: owner :: authority :: p :: s :: a :: rest ∧
      E.signer authority = true ∧ E.signer stub = true ∧ Canonical E stub.1 asset bump ∧
      ((L asset).data = [] → Stores C.assetId L' asset
        (proxiedAsset asset owner name (firstExts E C stub authority bump))) ∧
      (∀ A, ¬ Stores C.assetId L asset A) ∧
      ∀ k, k ≠ asset → k ≠ p → L' k = L k := by
  unfold proxyProcess at h
  rw [hd] at h
  simp only at h
  split at h
  · rename_i asset stub owner authority p s a rest
    have hn := (C64_data.mp hd).1
    obtain ⟨h1, h2, bump, h3, metas, hm, h4, h5⟩ := proxyCreate_ok hn himg h
    refine ⟨asset, stub, owner, authority, p, s, a, rest, bump, rfl, h1, h2, h3, ?_, ?_, ?_⟩
    · intro hemp
      obtain ⟨a', au', o', g', ga', p', s', rest', es, hacc, _, _, hst, hborn, _⟩ :=
        create_stores (es := []) h4 (fun _ => rfl)
          (by intro y hy; rw [hm] at hy; cases hy; exact Or.inl ⟨hemp, rfl⟩)
          (by intro y hy; rw [hm] at hy; cases hy; rw [hemp]; simp)
          (proxiedRequest_sane himg).1
      rw [hm] at hacc
      simp only [List.map_cons, List.map_nil, List.cons.injEq] at hacc
      obtain ⟨rfl, rfl, rfl, rfl, rfl, _⟩ := hacc
      rw [List.nil_append, show asked (proxiedRequest E C stub authority bump name) =
        proxyExtensions E C stub authority bump from rfl, proxyExtensions_order] at hborn
      obtain rfl := Born.firstExts_eq hborn
      rw [show optAcc (calleeEnv E C.assetId L metas) C.assetId = none from if_pos rfl] at hst
      exact hst
    · intro A hA
      obtain ⟨a', au', o', g', ga', p', s', rest', _, _, _, hacc, _, hprev, _⟩ := create_result h4
      rw [hm] at hacc
      simp only [List.map_cons, List.map_nil, List.cons.injEq] at hacc
      obtain ⟨rfl, _⟩ := hacc
      have hlen := hA.1.2.1
      rcases hprev with ⟨h', _⟩ | ⟨_, _, h'⟩
      · rw [h'] at hlen; simp at hlen
      · have := hA.init
        unfold Initialized at this
        rw [h'] at this
        exact absurd this.2 (by decide)
    · intro k hk hp
      by_contra hne
      obtain ⟨m, hmm, rfl, hw⟩ := callee_writable h4 hne
      rw [hm] at hmm
      simp only [List.mem_cons, List.not_mem_nil, or_false] at hmm
      rcases hmm with rfl | rfl | rfl | rfl | rfl | rfl | rfl
      · exact hk rfl
      all_goals try cases hw
      · unfold optAcc at hw hp hne
        split at hw
        · cases hw
        · rename_i hpp
          rw [if_neg hpp] at hp
          exact hp rfl
      · unfold optAcc at hw
        split at hw <;> cases hw
  · cases h

/-- The account as the proxy program finds it afterwards: the counter is zero, the program signs for the
asset with the stub and the bump seed stored, and the authority may update it. -/
theorem C64_served (hb : Canonical E stub.1 asset bump)
    (hs : Stores C.assetId L asset (proxiedAsset asset owner name (firstExts E C stub authority bump))) :
    transferCount (L asset).data = .ok 0 ∧
      fetchProxy (L asset).data = .ok ⟨E.program, stub.1, bump, authority⟩ ∧
      proxySigner E ⟨E.program, stub.1, bump, authority⟩ = .ok asset ∧
      (authority ≠ Key.default → HasProxyAuthority L asset authority) := by
  have hf : fetchProxy (L asset).data = .ok ⟨E.program, stub.1, bump, authority⟩ := by
    unfold fetchProxy
    rw [assetGet_walk hs.2.2.2.hasExts (by decide)]
    show readProxy (E.program.1 ++ stub.1 ++ [bump] ++ authority.1) = _
    exact C23_proxy E.program stub bump (some authority)
  refine ⟨?_, hf, ?_, fun h => ⟨_, fetchProxy_has hf, rfl, h⟩⟩
  · refine count_counterData (by decide) ?_
    rw [assetGet_walk hs.2.2.2.hasExts (by decide)]
    rfl
  · unfold proxySigner
    rw [hb.2.1]

/-- Nothing else is needed to create an asset than what the program checks, and a payer: everybody can
create an asset at the address of a stub that has not been used. -/
theorem C64_accepted {p : Key} {rest : List Key} {a : Key} (hd : decodeProxyCreate data = some name)
    (hb : Canonical E stub.1 asset bump)
    (hs : E.signer authority = true ∧ E.signer stub = true ∧ E.signer p = true)
    (hw : E.writable asset = true ∧ E.writable p = true)
    (hu : L asset = ⟨0, [], Key.system⟩) (hne : p ≠ asset)
    (hpw : (L p).owner = Key.system ∧ (L p).data = [])
    (hr : E.rent (roundUp8 (406 + (firstImage C).length)) ≤ (L p).lamports)
    (h64 : (L p).lamports < 18446744073709551616)
    (hmax : (firstImage C).length ≤ 9834)
    (hid : E.program ≠ Key.system ∧ p ≠ E.program ∧ C.assetId ≠ Key.system ∧ p ≠ C.assetId)
    (hwh : ∀ y ∈ [owner, C.assetId, Key.system], Whole C.assetId L y) :
    ∃ L', proxyProcess E C L (asset :: stub :: owner :: authority :: p :: Key.system :: a :: rest) data =
        .ok L' ∧
      Stores C.assetId L' asset
        (proxiedAsset asset owner name (firstExts E C stub authority bump)) ∧
      Tight L' asset (proxiedAsset asset owner name (firstExts E C stub authority bump)) ∧
      (L' p).lamports + (L' asset).lamports = (L p).lamports ∧
      ∀ k, k ≠ asset → k ≠ p → L' k = L k := by
  have hn := (C64_data.mp hd).1
  have himg : (firstImage C).length ≤ 10000000 := by omega
  generalize hm : ([⟨asset, true, true⟩, ⟨asset, true, false⟩, ⟨owner, false, false⟩,
        ⟨C.assetId, false, false⟩, ⟨C.assetId, false, false⟩, ⟨p, true, true⟩,
        ⟨Key.system, false, false⟩] : List Meta) = metas
  have hperm := (createOrder_perm (proxyExtensions E C stub authority bump)).map asExtn
  rw [proxyExtensions_order] at hperm
  have hask : asked (proxiedRequest E C stub authority bump name) =
    proxyExtensions E C stub authority bump := rfl
  have hborn : ∀ x ∈ firstExts E C stub authority bump, Born asset x x := by
    intro x hx
    obtain ⟨h1, h2, h3, h4, h5, _, h6, _⟩ := firstExts_readable hx
    refine ⟨rfl, ?_⟩
    obtain ⟨t, q⟩ := x
    simp only at h1 h2 h3 h4 h5 h6 ⊢
    cases t <;> simp only [Accepted, ne_eq, not_true_eq_false, reduceCtorEq] at *
    exact ⟨trivial, h6 trivial, fun o ho => by cases ho⟩
  have hin : InlineOk asset (asked (proxiedRequest E C stub authority bump name)) := by
    refine ⟨?_, fun y hy => ?_⟩
    · rw [hask]
      exact show [ExtType.attributes, .blob, .proxy, .properties].Nodup by decide
    · obtain ⟨h1, _⟩ := proxyExt_mem hy
      obtain ⟨h2, _, _, _, _, h3, _⟩ := firstExts_readable h1
      exact ⟨h2, (proxiedRequest_sane himg).2 y hy, h3, _, hborn _ h1⟩
  have hsize : packedEnd 168 ((asked (proxiedRequest E C stub authority bump name)).map asExtn) =
      packedEnd 168 (firstExts E C stub authority bump) := packedEnd_perm hperm.symm
  have hst : StandardFits (calleeEnv E C.assetId L metas) asset .proxied
      ((asked (proxiedRequest E C stub authority bump name)).map asExtn) := by
    refine ⟨?_, ?_, fun px hpx => ?_⟩
    · rw [hask]
      show Standard.proxied = Standard.managed ↔ ExtType.manager ∈ [ExtType.attributes, .blob, .proxy, .properties]
      decide
    · rw [hask]
      show Standard.proxied = Standard.proxied ↔ ExtType.proxy ∈ [ExtType.attributes, .blob, .proxy, .properties]
      decide
    · have : px = E.program.1 ++ stub.1 ++ [bump] ++ authority.1 := (Option.some.inj hpx).symm
      subst this
      have hr := C23_proxy E.program stub bump (some authority)
      unfold readProxy at hr
      split at hr
      · cases hr
      simp only [Except.ok.injEq, Proxy.mk.injEq] at hr
      obtain ⟨r1, r2, r3, _⟩ := hr
      show E.pda (slice (proxyBuilderSet E.program stub bump (some authority)) 32 32)
        (byteAt (proxyBuilderSet E.program stub bump (some authority)) 64)
        (keyAt (proxyBuilderSet E.program stub bump (some authority)) 0) = some asset
      rw [r1, r2, r3]
      exact hb.2.1
  obtain ⟨L', es, h1, h2, h3, h4, h5, h6⟩ := C63_accepted (E := calleeEnv E C.assetId L metas) (L := L)
    (k := asset) (au := asset) (owner := owner) (ga := C.assetId) (p := p)
    (x := proxiedRequest E C stub authority bump name) (rest := []) hin hst
    ⟨⟨by rw [← hm]; simp [calleeEnv], by rw [← hm]; simp [calleeEnv]⟩,
      ⟨by rw [← hm]; simp [calleeEnv], by rw [← hm]; simp [calleeEnv]⟩, hu, hne, hpw,
      by rw [hsize, firstExts_size]; exact hr, by
        rw [hsize, firstExts_size]; unfold roundUp8; omega⟩
    (fun y hy => ((proxiedRequest_sane himg).1 y hy).1) (fun _ => rfl) h64 ⟨hid.2.2.1, hid.2.2.2⟩
    (by
      intro y hy
      by_cases hya : y = asset
      · subst hya
        intro _ h
        rw [hu] at h
        cases h
      · refine hwh y ?_
        simp only [List.cons_append, List.nil_append, List.mem_cons, List.not_mem_nil, or_false, hya,
          false_or] at hy
        rcases hy with rfl | rfl | rfl | rfl <;> simp [calleeEnv])
  rw [hask, proxyExtensions_order] at h4
  obtain rfl := Born.firstExts_eq h4
  refine ⟨L', ?_, h2, h3, h5, h6⟩
  unfold proxyProcess
  rw [hd]
  simp only
  rw [show optAcc E p = some p from if_neg hid.2.1,
    show optAcc E Key.system = some Key.system from if_neg (Ne.symm hid.1)]
  unfold proxyCreate
  inv
  refine ⟨hs.1, hs.2.1, (asset, bump), canonical_iff.mpr hb, rfl, ?_⟩
  show invokeAsset E C.assetId [asset] L ([⟨asset, true, true⟩, ⟨asset, true, false⟩,
        ⟨owner, false, false⟩,
        ⟨C.assetId, false, false⟩, ⟨C.assetId, false, false⟩, ⟨p, true, true⟩,
        ⟨Key.system, false, false⟩] : List Meta)
        (encode (.create (proxiedRequest E C stub authority bump name))) = .ok L'
  unfold invokeAsset executeBytes
  rw [decode_encode (proxiedRequest_ok hn himg), if_pos (by simp [mayRequest, hs, hw])]
  rw [← hm] at h1
  exact h1

/-- Without a payer nobody creates an asset. -/
theorem C64_payer (hn : Text name) (himg : (firstImage C).length ≤ 10000000)
    (h : proxyCreate E C L asset stub owner authority payer sys name = .ok L') (hd : (L asset).data = []) :
    ∃ p, payer = some p ∧ p ≠ C.assetId ∧ E.signer p = true ∧ E.writable p = true := by
  obtain ⟨_, _, bump, _, metas, hm, h4, h5⟩ := proxyCreate_ok hn himg h
  obtain ⟨a', au', o', g', ga', p', s', rest', _, _, _, hacc, _, _, ⟨L1, h1, _⟩, _⟩ := create_result h4
  rw [hm] at hacc
  simp only [List.map_cons, List.map_nil, List.cons.injEq] at hacc
  obtain ⟨rfl, rfl, rfl, rfl, rfl, rfl, _⟩ := hacc
  rw [createPrepare_empty hd (proxiedRequest_sane himg).2] at h1
  cases payer with
  | none =>
    rw [show optAcc (calleeEnv E C.assetId L metas) (optMeta C none true true).key = none from if_pos rfl] at h1
    unfold createAccount at h1
    cases h1
  | some p =>
    have := h5 ⟨p, true, true⟩ (by rw [hm]; simp [optMeta])
    refine ⟨p, rfl, ?_, ?_, this.2 rfl⟩
    · rintro rfl
      rw [show optAcc (calleeEnv E C.assetId L metas) (optMeta C (some C.assetId) true true).key = none
        from if_pos rfl] at h1
      unfold createAccount at h1
      cases h1
    · rcases this.1 rfl with h | h
      · exact h
      · simp only [List.mem_singleton] at h
        subst h
        rw [show optAcc (calleeEnv E C.assetId L metas) (optMeta C (some p) true true).key =
          if p = C.assetId then none else some p from rfl] at h1
        split at h1
        · unfold createAccount at h1
          cases h1
        · unfold createAccount at h1
          inv at h1
          obtain ⟨_, h1⟩ := h1
          split at h1
          · cases h1
          inv at h1
          obtain ⟨_, h1⟩ := h1
          unfold systemCreate at h1
          split at h1
          · rename_i hc
            exact absurd rfl hc.2.2.2.2.1
          · cases h1

end

/-! ## The JavaScript client -/

section
variable {E : Env} {C : ProxyConsts} {L L' : Ledger} {ctx : JsContext} {assetId : Key}

/-- A request is read by the program as what it is. -/
theorem C64_meant {x : ProxyRequest} (hn : Text x.name) (hp : x.payer ≠ some E.program)
    (hs : x.sys ≠ some E.program) :
    proxyProcess E C L (x.build E.program).keys (x.build E.program).data =
      proxyCreate E C L x.asset x.stub x.owner x.authority x.payer x.sys x.name := by
  have ho : ∀ (o : Option Key) (s w : Bool), o ≠ some E.program →
      optAcc E (metaOpt E.program (fun k => ⟨k, s, w⟩) o).key = o := by
    intro o s w hne
    cases o with
    | none => simp [metaOpt, metaRo, optAcc]
    | some k =>
      show (if k = E.program then none else some k) = some k
      rw [if_neg (by rintro rfl; exact hne rfl)]
  unfold proxyProcess
  rw [show decodeProxyCreate (x.build E.program).data = some x.name from C64_data.mpr ⟨hn, rfl⟩]
  show proxyCreate E C L x.asset x.stub x.owner x.authority
    (optAcc E (metaOpt E.program (fun k => ⟨k, true, true⟩) x.payer).key)
    (optAcc E (metaOpt E.program (fun k => ⟨k, false, false⟩) x.sys).key) x.name = _
  rw [ho x.payer _ _ hp, ho x.sys _ _ hs]

theorem findPda_only {ms : List Meta} (seeds : Bytes) :
    ∀ n, findPda (only E ms) seeds n = findPda E seeds n
  | 0 => rfl
  | n + 1 => by
    unfold findPda
    rw [findPda_only seeds n]
    rfl

/-- The documented privileges are all that matters. -/
theorem C64_privileges {x : ProxyRequest} (hg : Grants E (x.metas E.program)) :
    proxyCreate (only E (x.metas E.program)) C L x.asset x.stub x.owner x.authority x.payer x.sys x.name =
      proxyCreate E C L x.asset x.stub x.owner x.authority x.payer x.sys x.name := by
  have hs : ∀ m ∈ x.metas E.program, m.signer = true → SameSigner E (x.metas E.program) m.key :=
    fun m hm h => hg.signer hm h
  have hw : ∀ m ∈ x.metas E.program, m.writable = true →
      SameWritable E (x.metas E.program) m.key := fun m hm h => hg.writable hm h
  have h1 : SameSigner E (x.metas E.program) x.authority :=
    hs ⟨x.authority, true, false⟩ (by simp [ProxyRequest.metas]) rfl
  have h2 : SameSigner E (x.metas E.program) x.stub :=
    hs ⟨x.stub, true, false⟩ (by simp [ProxyRequest.metas]) rfl
  have h3 : SameWritable E (x.metas E.program) x.asset :=
    hw ⟨x.asset, false, true⟩ (by simp [ProxyRequest.metas]) rfl
  have h4 : ∀ p, x.payer = some p → SameSigner E (x.metas E.program) p ∧
      SameWritable E (x.metas E.program) p := by
    intro p hp
    have : (⟨p, true, true⟩ : Meta) ∈ x.metas E.program := by
      simp [ProxyRequest.metas, hp, metaOpt]
    exact ⟨hs _ this rfl, hw _ this rfl⟩
  generalize x.metas E.program = ms at h1 h2 h3 h4
  unfold proxyCreate
  rw [show (only E ms).signer x.authority = E.signer x.authority from h1,
    show (only E ms).signer x.stub = E.signer x.stub from h2,
    show findPda (only E ms) x.stub.1 255 = findPda E x.stub.1 255 from findPda_only _ _]
  refine congrArg _ (funext fun _ => congrArg _ (funext fun _ => ?_))
  cases findPda E x.stub.1 255 with
  | error e => rfl
  | ok r =>
    obtain ⟨k, b⟩ := r
    simp only [bind, Except.bind]
    by_cases hk : k = x.asset
    · subst hk
      simp only [require, if_true]
      refine invokeAsset_only (fun m hm => ?_)
      simp only [List.mem_cons, List.not_mem_nil, or_false] at hm
      rcases hm with rfl | rfl | rfl | rfl | rfl | rfl | rfl
      · exact ⟨fun _ => Or.inr (by simp), fun _ => h3⟩
      · exact ⟨fun _ => Or.inr (by simp), fun h => (by cases h)⟩
      · exact ⟨fun h => (by cases h), fun h => (by cases h)⟩
      · exact ⟨fun h => (by cases h), fun h => (by cases h)⟩
      · exact ⟨fun h => (by cases h), fun h => (by cases h)⟩
      · cases hp : x.payer with
        | none => exact ⟨fun h => (by cases h), fun h => (by cases h)⟩
        | some p => exact ⟨fun _ => Or.inl (h4 p hp).1, fun _ => (h4 p hp).2⟩
      · cases x.sys <;> exact ⟨fun h => (by cases h), fun h => (by cases h)⟩
    · simp only [require, if_neg hk]

/-- The JavaScript client builds the request that its user means; the address of the asset is derived
from the stub. -/
theorem C64_js {x : JsProxyCreate} {i : ClientIx} :
    jsProxyCreate E assetId ctx x = .ok i ↔ Short x.name ∧ ∃ asset,
      (x.asset = some asset ∨ (x.asset = none ∧ ∃ b, Canonical E x.stub.1 asset b)) ∧
      i = (jsProxyRequest assetId ctx asset x).build E.program := by
  have hj : ∀ k, jsProxiedAsset E x.stub = .ok k ↔ ∃ b, Canonical E x.stub.1 k b := by
    intro k
    unfold jsProxiedAsset jsFindPda
    simp only [bind_ok, pure_ok, Prod.exists, ← canonical_iff]
    constructor
    · rintro ⟨k', b, h, rfl⟩; exact ⟨b, h⟩
    · rintro ⟨b, h⟩; exact ⟨k, b, h, rfl⟩
  have h1 : ∀ (o : Option Key) (w : Bool), jsMeta E.program ⟨o.bind jsSigner, w⟩ =
      metaOpt E.program (fun k => ⟨k, true, w⟩) o := by
    intro o w; cases o <;> rfl
  have hsys : x.sys.or (if x.payer.isSome then some Key.system else none) =
      (jsProxyRequest assetId ctx Key.default x).sys := by
    unfold jsProxyRequest
    cases x.sys <;> cases x.payer <;> rfl
  unfold jsProxyCreate
  simp only [bind_ok, pure_ok, orElse_ok, jsPutBytes_ok, hj, hsys]
  constructor
  · rintro ⟨asset, ha, _, ⟨hn, rfl⟩, rfl⟩
    refine ⟨hn, asset, ha, ?_⟩
    simp only [jsMetas, List.map_cons, List.map_nil, jsMeta_opt, h1]
    rfl
  · rintro ⟨hn, asset, ha, rfl⟩
    refine ⟨asset, ha, _, ⟨hn, rfl⟩, ?_⟩
    simp only [jsMetas, List.map_cons, List.map_nil, jsMeta_opt, h1]
    rfl

/-- But the client has no default for the payer: a new asset cannot be created without naming one. -/
theorem C64_js_payer {x : JsProxyCreate} {i : ClientIx} (h : jsProxyCreate E assetId ctx x = .ok i)
    (ht : validUtf8 x.name = true) (himg : (firstImage C).length ≤ 10000000) (hp : x.payer = none)
    (hs : x.sys = none) (hd : ∀ asset, i.keys.head? = some asset → (L asset).data = []) :
    proxyProcess E C L i.keys i.data ≠ .ok L' := by
  intro hx
  obtain ⟨hn, asset, _, rfl⟩ := C64_js.mp h
  rw [C64_meant (x := jsProxyRequest assetId ctx asset x) ⟨hn, ht⟩
    (by rw [show (jsProxyRequest assetId ctx asset x).payer = x.payer from rfl, hp]; exact fun h => by cases h)
    (by
      rw [show (jsProxyRequest assetId ctx asset x).sys = none by
        unfold jsProxyRequest; rw [hp, hs]]
      exact fun h => by cases h)] at hx
  obtain ⟨p, h1, _⟩ := C64_payer ⟨hn, ht⟩ himg hx (hd asset rfl)
  rw [show (jsProxyRequest assetId ctx asset x).payer = x.payer from rfl, hp] at h1
  cases h1

end

section Examples
open Verif.Ex

/-- Wallets, and the unused account `k 1`, the address of the stub `k 21` in `proxyEnv`. -/
def noProxied : Ledger :=
  ledger [(k 1, ⟨0, [], Key.system⟩), (k 2, wallet), (k 5, wallet), (k 6, wallet), (k 22, wallet),
    (prog, wallet), (Key.system, wallet)]

/-- Sending the instruction of the JavaScript client to the proxy program, with the privileges that it
asks for. -/
def submitProxy (L : Ledger) (i : Except Err ClientIx) : Except Err Ledger := do
  let i ← i
  proxyProcess (only (proxyEnv L []) i.metas) proxyConsts L i.keys i.data

/-- `k 22` creates an asset for `k 2`, with the payer given. -/
def newProxied (payer : Option Key) : Except Err Ledger :=
  submitProxy noProxied (jsProxyCreate (proxyEnv noProxied []) prog ⟨k 22, k 6⟩
    { stub := k 21, owner := k 2, payer := payer, name := [65, 66] })

example : ((newProxied (some (k 5))).map fun L =>
      (transferCount (L (k 1)).data, hOwner (L (k 1)).data, hAuthority (L (k 1)).data)) =
    .ok (.ok 0, k 2, k 1) ∧
    ((newProxied (some (k 5))).map fun L => (fetchProxy (L (k 1)).data)) =
      .ok (.ok ⟨k 20, (k 21).1, 254, k 22⟩) ∧
    (newProxied none).isOk = false := by decide +kernel

/-- The owner can transfer the new asset, the authority can rename it; nobody can create it again. -/
example : ((do
      let L1 ← newProxied (some (k 5))
      let L2 ← proxyProcess (proxyEnv L1 [k 2]) proxyConsts L1 [k 1, k 2, k 6, k 20, prog]
        (encode .transfer)
      proxyProcess (proxyEnv L2 [k 22]) proxyConsts L2 [k 1, k 22, k 20, k 20, k 20, k 20, prog]
        (encode (.update ⟨some [67], none, none⟩)) : Except Err Ledger).map fun L =>
        (transferCount (L (k 1)).data, hOwner (L (k 1)).data, (view (L (k 1)).data).name.take 2)) =
    .ok (.ok 1, k 6, [67, 0]) ∧
    ((do
      let L1 ← newProxied (some (k 5))
      submitProxy L1 (jsProxyCreate (proxyEnv L1 []) prog ⟨k 22, k 6⟩
        { stub := k 21, owner := k 6, payer := some (k 5), name := [65, 66] }) :
        Except Err Ledger)).isOk = false := by decide +kernel

/-- The conditions of `C64_accepted` are met here. -/
example : ∃ L', proxyProcess (proxyEnv noProxied [k 22, k 21, k 5]) proxyConsts noProxied
      [k 1, k 21, k 2, k 22, k 5, Key.system, prog] (0 :: encBytes [65, 66]) = .ok L' ∧
    Stores prog L' (k 1) (proxiedAsset (k 1) (k 2) [65, 66]
      (firstExts (proxyEnv noProxied [k 22, k 21, k 5]) proxyConsts (k 21) (k 22) 254)) := by
  obtain ⟨L', h1, h2, _⟩ := C64_accepted (E := proxyEnv noProxied [k 22, k 21, k 5]) (C := proxyConsts)
    (L := noProxied) (data := 0 :: encBytes [65, 66]) (name := [65, 66]) (asset := k 1) (stub := k 21)
    (owner := k 2) (authority := k 22) (bump := 254) (p := k 5) (rest := []) (a := prog)
    (C64_data.mpr ⟨⟨by show (2 : Nat) < 4294967296; omega, by decide +kernel⟩, rfl⟩)
    (canonical_iff.mp (by decide +kernel)) (by decide +kernel) (by decide +kernel) (by decide +kernel)
    (by decide +kernel) (by decide +kernel) (by decide +kernel) (by decide +kernel) (by decide +kernel)
    (by decide +kernel) (by
      intro y hy h1 h2
      have hy' : y = k 2 ∨ y = prog ∨ y = Key.system := by
        simpa only [proxyConsts, List.mem_cons, List.not_mem_nil, or_false] using hy
      rcases hy' with rfl | rfl | rfl <;> (revert h2; decide +kernel))
  exact ⟨L', h1, h2⟩

end Examples
end Verif.Props

import Verif.Spec.ProxyLife
import Verif.Lemmas.ProxyTransfer
import Verif.Props.C36
import Verif.Props.C51
import Verif.Props.C64
import Verif.Props.C65

/-!
# C66 — the owner of a proxied asset can transfer it through the proxy program
-/

namespace Verif.Props

open Verif Verif.Spec

section
variable {E : Env} {C : ProxyConsts} {L L' : Ledger} {asset stub authority : Key} {bump : UInt8}
  {size n : Nat} {A : Asset}

theorem invoke_live {pdas : List Key} {metas : List Meta} {i : Instr} {id : Key} (hi : InstrOk i)
    (hm : metas.all (mayRequest E pdas) = true)
    (h : execute (calleeEnv E id L metas) L (metas.map (·.key)) i = .ok L') :
    invokeAsset E id pdas L metas (encode i) = .ok L' := by
  unfold invokeAsset executeBytes
  rw [if_pos hm, decode_encode hi]
  exact h

/-- One of the three updates, with data of the same length as before. -/
theorem call_live {t : ExtType} {old new : Bytes} (hs : Stores C.assetId L asset A)
    (htight : Tight L asset A) (hown : A.authority = asset) (hmut : A.mutableByte ≠ 0)
    (ht : t = .attributes ∨ t = .blob ∨ t = .properties)
    (ho : lookup t A.exts = some old) (hl : old.length = new.length) (h32 : new.length < 4294967296)
    (hr : Readable t old) (hr' : Readable t new) (hw : E.writable asset = true)
    (hwh : Whole C.assetId L C.assetId) :
    ∃ L1, callUpdate E C asset L asset ⟨none, none, some (inlineExt t new)⟩ = .ok L1 ∧
      Stores C.assetId L1 asset { A with exts := setExt t new A.exts } ∧
      (L1 asset).data.length = (L asset).data.length ∧ ∀ y, y ≠ asset → L1 y = L y := by
  have hne : t ≠ .none := by rcases ht with rfl | rfl | rfl <;> decide
  have hlen : (inlineExt t new).length.toNat = new.length := by
    show (UInt32.ofNat new.length).toNat = _
    rw [UInt32.toNat_ofNat']
    omega
  have hok : InstrOk (.update ⟨none, none, some (inlineExt t new)⟩) := by
    refine ⟨(by intro a ha; cases ha), ?_⟩
    intro a ha
    cases ha
    intro b hb
    cases hb
    exact h32
  generalize hm : ([⟨asset, true, true⟩, ⟨asset, true, false⟩, ⟨C.assetId, false, false⟩,
      ⟨C.assetId, false, false⟩, ⟨C.assetId, false, false⟩, ⟨C.assetId, false, false⟩] : List Meta) = metas
  have hus : Usable (calleeEnv E C.assetId L metas) asset A := by
    subst hm
    refine ⟨?_, fun _ => ?_⟩ <;> simp [calleeEnv]
  have hacc : Accepted (some asset) t (some old) new new := by
    rcases ht with rfl | rfl | rfl <;> rfl
  obtain ⟨L1, h1, h2⟩ := (C51_update (E := calleeEnv E C.assetId L metas) (L := L) (k := asset)
      (A := A) (s := asset) (g := C.assetId) (p := C.assetId) (y := C.assetId) (rest := [])
      (x := ⟨none, none, some (inlineExt t new)⟩) (e := inlineExt t new) (q := new) hs hus rfl
      (by
        intro z hz
        have : z = asset ∨ z = C.assetId := by
          simp only [List.mem_cons, List.not_mem_nil, or_false] at hz
          rcases hz with h | h | h | h | h
          · exact Or.inl h
          all_goals exact Or.inr h
        rcases this with rfl | rfl
        · exact whole_stores hs
        · exact hwh)
      rfl hne
      ⟨by show Accepted _ t (lookup t A.exts) new new; rw [ho]; exact hacc, hlen.symm,
        fun _ => by show lookup t A.exts ≠ none; rw [ho]; simp, hr',
        by
          intro o h
          have : lookup t A.exts = some o := h
          rw [ho] at this
          cases this
          exact hr⟩
      (Or.inl htight)
      (by
        intro h
        exact absurd (by rw [hl]) (h old ho))).mpr
    ⟨by subst hm; simp [calleeEnv], hown, hmut⟩
  refine ⟨L1, ?_, h2, ?_⟩
  · unfold callUpdate
    refine invoke_live hok ?_ ?_
    · simp [mayRequest, hw]
    · rw [hm]
      subst hm
      exact h1
  · exact update_same (E := calleeEnv E C.assetId L metas) hs h1 rfl hne ho
      (by rw [hl]; exact hlen.symm)

theorem counterData_eq (n : Nat) : counterData n =
    prefixed [116, 114, 97, 110, 115, 102, 101, 114, 115] ++ prefixed (countText n) := rfl

theorem counterData_count {n : Nat} (h : n < 1000000000000) : (counterData n).length = 23 := by
  rw [counterData_eq, List.length_append, length_prefixed, length_prefixed]
  have : (countText n).length = 12 := count_length h
  rw [this]
  rfl

theorem counterData_readable {n : Nat} (h : n < 1000000000000) : Readable .attributes (counterData n) := by
  refine ⟨[([116, 114, 97, 110, 115, 102, 101, 114, 115], countText n)], ?_, ?_⟩
  · intro x hx
    rcases List.mem_singleton.mp hx with rfl
    refine ⟨by simp [ShortString], ?_⟩
    show (countText n).length ≤ 255
    have : (countText n).length = 12 := count_length h
    omega
  · rw [counterData_eq]
    simp [pairsData]

theorem stamp_readable {t : Nat} (h : t < 18446744073709551616) : Readable .properties
    (prefixed [108, 97, 115, 116, 95, 116, 114, 97, 110, 115, 102, 101, 114, 114, 101, 100] ++ 1 :: toLE 8 t) := by
  refine ⟨[([108, 97, 115, 116, 95, 116, 114, 97, 110, 115, 102, 101, 114, 114, 101, 100], .number t)], ?_, ?_⟩
  · intro x hx
    rcases List.mem_singleton.mp hx with rfl
    exact ⟨by simp [ShortString], h⟩
  · simp [propertiesData, valueData]

theorem picture_readable (i : Bytes) : Readable .blob
    (prefixed [105, 109, 97, 103, 101, 47, 115, 118, 103, 43, 120, 109, 108] ++ i) :=
  ⟨_, _, by simp [ShortString], rfl⟩

theorem proxiedExts_end {c c' i i' : Bytes} {t t' : Nat} (hc : c.length = c'.length)
    (hi : i.length = i'.length) (program : Key) :
    packedEnd 168 (proxiedExts program stub bump authority c t i) =
      packedEnd 168 (proxiedExts program stub bump authority c' t' i') := by
  simp only [proxiedExts, packedEnd, List.length_append, length_prefixed, List.length_cons, length_toLE, hc, hi]

/-- One transfer. -/
theorem C66_transfer_partial {signer recipient g : Key} {remaining : List Key}
    (hk : Travelled E.program C.assetId L asset stub authority bump size n A)
    (hpda : E.pda stub.1 bump E.program = some asset)
    (himg : ∀ rgb, rgb.length = 11 → (C.image rgb).length = size) (hsize : size ≤ 10000000)
    (hn : n + 1 < 1000000000000) (hlock : A.state ≠ 1) (hgrp : A.group = Key.default)
    (hauth : A.owner = signer ∨ A.Delegated signer .transfer)
    (hsig : E.signer signer = true) (hw : E.writable asset = true) (hid : C.assetId ∈ remaining)
    (hc : ∀ y ∈ [signer, recipient, C.assetId], Calm C.assetId L y) :
    ∃ L' A', proxyProcess E C L (asset :: signer :: recipient :: g :: remaining) (encode .transfer) = .ok L' ∧
      Travelled E.program C.assetId L' asset stub authority bump size (n + 1) A' ∧
      A'.owner = recipient ∧ A'.state = A.state ∧ A'.group = A.group ∧ A'.name = A.name ∧
      ∀ y, y ≠ asset → L' y = L y := by
  obtain ⟨time, image, htime, hisize, hexts⟩ := hk.exts
  have hs := hk.stores
  have htight := hk.tight
  have hfetch : fetchProxyWith C (L asset).data remaining = .ok ⟨E.program, stub.1, bump, authority⟩ := by
    unfold fetchProxyWith fetchProxy
    rw [assetGet_walk hs.2.2.2.hasExts (by decide), hexts]
    show (readProxy (E.program.1 ++ stub.1 ++ [bump] ++ authority.1) >>= _) = _
    rw [show readProxy (E.program.1 ++ stub.1 ++ [bump] ++ authority.1) = _ from
      C23_proxy E.program stub bump (some authority)]
    show (require (C.assetId ∈ remaining) .notEnoughAccountKeys >>= _) = _
    inv
    exact ⟨hid, rfl⟩
  have hcount : transferCount (L asset).data = .ok (n : Int) := by
    refine count_counterData (by omega) ?_
    rw [assetGet_walk hs.2.2.2.hasExts (by decide), hexts]
    rfl
  have hnext : nextI64 (n : Int) = ((n + 1 : Nat) : Int) := by
    unfold nextI64
    rw [if_neg (by omega)]
    omega
  have hsigner : proxySigner E ⟨E.program, stub.1, bump, authority⟩ = .ok asset := by
    unfold proxySigner
    rw [hpda]
  have hnone : ∀ t, t ≠ .attributes → t ≠ .properties → t ≠ .proxy → t ≠ .blob →
      ∀ c ti im, lookup t (proxiedExts E.program stub bump authority c ti im) = none := by
    intro t h1 h2 h3 h4 c ti im
    simp [proxiedExts, lookup, Ne.symm h1, Ne.symm h2, Ne.symm h3, Ne.symm h4]
  have clen : ∀ {m : Nat}, m < 1000000000000 → (countText m).length = 12 := fun h => count_length h
  have hids : Whole C.assetId L C.assetId := (hc _ (by simp)).whole
  -- the counter
  obtain ⟨L1, c1, s1, l1, o1⟩ := call_live (E := E) (C := C) (t := .attributes) (old := counterData n)
    (new := counterData ((n + 1 : Nat) : Int)) hs htight hk.own hk.changeable (Or.inl rfl)
    (by rw [hexts]; rfl) (by rw [counterData_count (by omega), counterData_count hn])
    (by rw [counterData_count hn]; omega) (counterData_readable (by omega)) (counterData_readable hn) hw hids
  have keep : ∀ {M M' : Ledger}, (∀ y, y ≠ asset → M' y = M y) →
      ∀ {B : Asset}, Stores C.assetId M' asset B → B.state ≠ 1 →
      ∀ y, Calm C.assetId M y → Calm C.assetId M' y := by
    intro M M' h B hB hst y hy
    by_cases hya : y = asset
    · subst hya
      exact calm_stores (E := { E with program := C.assetId }) hB hst
    · unfold Calm
      rw [h y hya]
      exact hy
  have e1 : setExt .attributes (counterData ((n + 1 : Nat) : Int)) A.exts =
      proxiedExts E.program stub bump authority (countText (n + 1)) time image := by
    rw [hexts, counterData_eq]
    simp [setExt, proxiedExts]
  rw [e1] at s1
  have t1 : Tight L1 asset { A with exts := proxiedExts E.program stub bump authority (countText (n + 1)) time image } := by
    show (L1 asset).data.length = packedEnd 168 (proxiedExts _ _ _ _ _ _ _)
    rw [l1, htight, hexts]
    exact proxiedExts_end (by rw [clen (by omega), clen hn]) rfl _
  have i1 : Whole C.assetId L1 C.assetId := (keep o1 s1 hlock _ (hc _ (by simp))).whole
  -- the picture
  let pic := C.image (rgbText (C.hash (asset.1 ++ toLE 8 (asU64 C.timestamp) ++ toLE 8 (asU64 n))))
  have hpic : pic.length = size := himg _ (rgbText_length _)
  have epic : imageData C asset n =
    prefixed [105, 109, 97, 103, 101, 47, 115, 118, 103, 43, 120, 109, 108] ++ pic := rfl
  obtain ⟨L2, c2, s2, l2, o2⟩ := call_live (E := E) (C := C) (t := .blob)
    (old := prefixed [105, 109, 97, 103, 101, 47, 115, 118, 103, 43, 120, 109, 108] ++ image)
    (new := imageData C asset n) s1 t1 hk.own hk.changeable (Or.inr (Or.inl rfl))
    rfl (by rw [epic]; simp only [List.length_append]; omega)
    (by rw [epic]; simp only [List.length_append, length_prefixed, List.length_cons, List.length_nil]; omega)
    (picture_readable _) (picture_readable _) hw i1
  have e2 : setExt .blob (imageData C asset n)
      (proxiedExts E.program stub bump authority (countText (n + 1)) time image) =
      proxiedExts E.program stub bump authority (countText (n + 1)) time pic := by
    rw [epic]
    simp [setExt, proxiedExts]
  simp only at s2
  rw [e2] at s2
  have t2 : Tight L2 asset { A with exts := proxiedExts E.program stub bump authority (countText (n + 1)) time pic } := by
    show (L2 asset).data.length = packedEnd 168 (proxiedExts _ _ _ _ _ _ _)
    rw [l2, t1]
    exact proxiedExts_end rfl (by omega) _
  have i2 : Whole C.assetId L2 C.assetId :=
    (keep o2 s2 hlock _ (keep o1 s1 hlock _ (hc _ (by simp)))).whole
  -- the time
  have hstamp : asU64 C.timestamp < 18446744073709551616 := by
    unfold asU64
    omega
  have estamp : stampData C = prefixed [108, 97, 115, 116, 95, 116, 114, 97, 110, 115, 102, 101, 114, 114, 101, 100] ++
      1 :: toLE 8 (asU64 C.timestamp) := rfl
  obtain ⟨L3, c3, s3, l3, o3⟩ := call_live (E := E) (C := C) (t := .properties)
    (old := prefixed [108, 97, 115, 116, 95, 116, 114, 97, 110, 115, 102, 101, 114, 114, 101, 100] ++ 1 :: toLE 8 time)
    (new := stampData C) s2 t2 hk.own hk.changeable (Or.inr (Or.inr rfl))
    rfl (by rw [estamp]; simp only [List.length_append, List.length_cons, length_toLE])
    (by rw [stampData_length]; omega)
    (stamp_readable htime) (by rw [estamp]; exact stamp_readable hstamp) hw i2
  have e3 : setExt .properties (stampData C)
      (proxiedExts E.program stub bump authority (countText (n + 1)) time pic) =
      proxiedExts E.program stub bump authority (countText (n + 1)) (asU64 C.timestamp) pic := by
    rw [estamp]
    simp [setExt, proxiedExts]
  simp only at s3
  rw [e3] at s3
  have t3 : Tight L3 asset { A with exts := proxiedExts E.program stub bump authority (countText (n + 1)) (asU64 C.timestamp) pic } := by
    show (L3 asset).data.length = packedEnd 168 (proxiedExts _ _ _ _ _ _ _)
    rw [l3, t2]
    exact proxiedExts_end rfl rfl _
  -- the transfer
  generalize hB : ({ A with exts := (proxiedExts E.program stub bump authority (countText (n + 1)) (asU64 C.timestamp) pic) } : Asset) = B at s3 t3
  generalize hm : ([⟨asset, true, true⟩, ⟨signer, true, false⟩, ⟨recipient, false, false⟩,
      ⟨C.assetId, false, false⟩] : List Meta) = metas
  obtain ⟨L4, x4, s4⟩ := C48_transfer (E := calleeEnv E C.assetId L3 metas) (L := L3) (k := asset) (A := B)
    (s := signer) (r := recipient) (g := C.assetId) (rest := []) s3
    ⟨by rw [← hm]; simp [calleeEnv], fun _ => by rw [← hm]; simp [calleeEnv]⟩
    (by
      intro p hp
      rw [← hB, hnone _ (by decide) (by decide) (by decide) (by decide)] at hp
      cases hp)
    (fun y hy => keep o3 s3 (by rw [← hB]; exact hlock) _ (keep o2 s2 hlock _ (keep o1 s1 hlock _ (hc _ hy))))
    (by rw [← hm]; simp [calleeEnv])
    (by
      rw [← hB]
      refine hauth.imp id ?_
      have hmA : A.manager = none := by
        unfold Asset.manager
        rw [hexts, hnone _ (by decide) (by decide) (by decide) (by decide)]
        rfl
      rintro ⟨x, hx, hx2⟩
      refine ⟨x, ?_, hx2⟩
      rw [hmA] at hx
      rw [show Asset.manager _ = none from by
        unfold Asset.manager
        rw [hnone _ (by decide) (by decide) (by decide) (by decide)]
        rfl]
      exact hx)
    (by rw [← hB]; exact hlock)
    (by rw [← hB]; show A.standard ≠ 2; rw [hk.standard]; decide)
    (by
      intro p hp
      rw [← hB, hnone _ (by decide) (by decide) (by decide) (by decide)] at hp
      cases hp)
    (by
      intro h
      rw [← hB] at h
      exact absurd hgrp h)
  obtain ⟨l4, o4, q4⟩ := transfer_same x4
  have hown4 : keyAt (L3 asset).data 4 = A.owner := by
    have := congrArg Asset.owner s3.2.2.1
    rw [← hB] at this
    exact this.symm
  have others : ∀ y, y ≠ asset → L4 y = L y := fun y hy => by
    rw [o4 y hy, o3 y hy, o2 y hy, o1 y hy]
  have hrun : proxyProcess E C L (asset :: signer :: recipient :: g :: remaining) (encode .transfer) = .ok L4 := by
    unfold proxyProcess
    rw [show decodeProxyCreate (encode .transfer) = none from rfl, decode_encode (i := .transfer) trivial]
    show proxyTransfer E C L asset signer recipient remaining = _
    unfold proxyTransfer
    rw [hfetch, hcount]
    show (proxySigner E ⟨E.program, stub.1, bump, authority⟩ >>= _) = _
    rw [hsigner]
    show (callUpdate E C asset L asset _ >>= _) = _
    rw [hnext, c1]
    show (callUpdate E C asset L1 asset _ >>= _) = _
    rw [c2]
    show (callUpdate E C asset L2 asset _ >>= _) = _
    rw [c3]
    show invokeAsset E C.assetId [asset] L3 _ _ = _
    rw [hm]
    refine invoke_live (i := .transfer) trivial ?_ ?_
    · rw [← hm]; simp [mayRequest, hw, hsig]
    · rw [← hm] at x4 ⊢
      exact x4
  have hlen4 : (L4 asset).data.length = packedEnd 168 B.exts := by rw [l4]; exact t3
  by_cases hor : A.owner = recipient
  · have e4 := q4 (hown4.trans hor)
    rw [e4] at hrun others
    refine ⟨L3, B, hrun, ⟨s3, t3, ?_, ?_, ?_, ?_⟩, ?_, ?_, ?_, ?_, others⟩
    all_goals rw [← hB]
    · exact hk.standard
    · exact hk.own
    · exact hk.changeable
    · exact ⟨_, _, hstamp, hpic, rfl⟩
    · exact hor
  · refine ⟨L4, _, hrun, ⟨s4 (by rw [← hB]; exact hor), hlen4, ?_, ?_, ?_, ?_⟩, rfl, ?_, ?_, ?_, others⟩
    all_goals rw [← hB]
    · exact hk.standard
    · exact hk.own
    · exact hk.changeable
    · exact ⟨_, _, hstamp, hpic, rfl⟩

/-- The asset starts with no transfers. -/
theorem C66_created {owner : Key} {name : Bytes} (hauth : size = (firstImage C).length)
    (hs : Stores C.assetId L asset (proxiedAsset asset owner name (firstExts E C stub authority bump)))
    (ht : Tight L asset (proxiedAsset asset owner name (firstExts E C stub authority bump))) :
    Travelled E.program C.assetId L asset stub authority bump size 0
      (proxiedAsset asset owner name (firstExts E C stub authority bump)) :=
  ⟨hs, ht, rfl, rfl, by show (1 : UInt8) ≠ 0; decide, asU64 C.timestamp, firstImage C,
    by unfold asU64; omega, hauth.symm, rfl⟩

/-- Any number of transfers: the asset ends with the last of the wallets, and the counter says how often
it has been transferred. -/
theorem C66_chain_partial : ∀ (rs : List Key) (L : Ledger) (n : Nat) (A : Asset) (o : Key),
    Travelled E.program C.assetId L asset stub authority bump size n A →
    E.pda stub.1 bump E.program = some asset →
    (∀ rgb, rgb.length = 11 → (C.image rgb).length = size) → size ≤ 10000000 →
    n + rs.length < 1000000000000 → A.state ≠ 1 → A.group = Key.default → A.owner = o →
    (∀ y ∈ o :: C.assetId :: rs, Calm C.assetId L y) →
    ∃ L' A', handOn E C asset L o rs = .ok L' ∧
      Travelled E.program C.assetId L' asset stub authority bump size (n + rs.length) A' ∧
      A'.owner = rs.getLast?.getD o ∧ transferCount (L' asset).data = .ok (n + rs.length : Nat) ∧
      ∀ y, y ≠ asset → L' y = L y
  | [], L, n, A, o, hk, _, _, _, hn, _, _, ho, _ => by
    obtain ⟨time, image, _, _, hexts⟩ := hk.exts
    refine ⟨L, A, rfl, hk, ho, ?_, fun _ _ => rfl⟩
    refine count_counterData (by simp only [List.length_nil] at hn; constructor <;> simp <;> omega) ?_
    rw [assetGet_walk hk.stores.2.2.2.hasExts (by decide), hexts]
    rfl
  | r :: rs, L, n, A, o, hk, hpda, himg, hsize, hn, hlock, hgrp, ho, hc => by
    simp only [List.length_cons] at hn
    obtain ⟨L1, A1, h1, k1, w1, st1, g1, _, o1⟩ := C66_transfer_partial (E := signedBy E L asset o) (C := C)
      (signer := o) (recipient := r) (g := C.assetId) (remaining := [C.assetId]) hk hpda himg hsize
      (by omega) hlock hgrp (Or.inl ho) (by simp [signedBy]) (by simp [signedBy]) (by simp)
      (by
        intro y hy
        refine hc y ?_
        simp only [List.mem_cons, List.not_mem_nil, or_false] at hy ⊢
        rcases hy with h | h | h
        · exact Or.inl h
        · exact Or.inr (Or.inr (Or.inl h))
        · exact Or.inr (Or.inl h))
    have hl1 : A1.state ≠ 1 := by rw [st1]; exact hlock
    obtain ⟨L2, A2, h2, k2, w2, c2, o2⟩ := C66_chain_partial rs L1 (n + 1) A1 r k1 hpda himg hsize
      (by omega) hl1 (g1.trans hgrp) w1
      (by
        intro y hy
        by_cases hya : y = asset
        · subst hya
          exact calm_stores (E := { E with program := C.assetId }) k1.stores hl1
        · unfold Calm
          rw [o1 y hya]
          refine hc y ?_
          simp only [List.mem_cons] at hy ⊢
          rcases hy with h | h | h
          · exact Or.inr (Or.inr (Or.inl h))
          · exact Or.inr (Or.inl h)
          · exact Or.inr (Or.inr (Or.inr h)))
    have e : n + (r :: rs).length = n + 1 + rs.length := by simp only [List.length_cons]; omega
    refine ⟨L2, A2, ?_, by rw [e]; exact k2, ?_, by rw [e]; exact c2, fun y hy => by rw [o2 y hy, o1 y hy]⟩
    · unfold handOn
      rw [h1]
      exact h2
    · rw [w2]
      cases rs with
      | nil => rfl
      | cons a as =>
        rw [List.getLast?_cons_cons]
        cases h : (a :: as).getLast? with
        | none => simp at h
        | some v => rfl

/-- The proxy program drops the account of the group: an asset that is in a group cannot be transferred
through it, unless it has royalties of its own. -/
theorem C66_grouped {signer recipient : Key} {rest : List Key}
    (himg : ∀ rgb, (C.image rgb).length < 4294960000) (hs : Stores C.assetId L asset A)
    (hg : A.group ≠ Key.default) (hr : lookup .royalties A.exts = none) (hne : A.owner ≠ recipient) :
    ∀ L', proxyProcess E C L (asset :: signer :: recipient :: rest) (encode .transfer) ≠ .ok L' := by
  intro L' h
  unfold proxyProcess at h
  rw [show decodeProxyCreate (encode .transfer) = none from rfl, decode_encode (i := .transfer) trivial] at h
  simp only at h
  cases rest with
  | nil => cases h
  | cons g remaining =>
    simp only at h
    unfold proxyTransfer at h
    inv at h
    obtain ⟨p, hp, n, hn, pda, hpda, L1, h1, L2, h2, L3, h3, h4⟩ := h
    have s1 := callUpdate_inline (t := .attributes) (by decide)
      (by have := counterData_length (nextI64 n); omega) h1 hs
    have s2 := callUpdate_inline (t := .blob) (by decide) (by
      have := himg (rgbText (C.hash (asset.1 ++ toLE 8 (asU64 C.timestamp) ++ toLE 8 (asU64 n))))
      simp only [imageData, blobBuilderSet, writeStr, sContentType, List.length_append,
        List.length_cons, List.length_nil]
      omega) h2 s1
    have s3 := callUpdate_inline (t := .properties) (by decide)
      (by have := stampData_length C; omega) h3 s2
    have hst : Stores C.assetId L3 asset (stamped C asset n A) := s3
    obtain ⟨he, _⟩ := invokeAsset_ok (i := .transfer) trivial h4
    have hlook : lookup .royalties (stamped C asset n A).exts = none := by
      show lookup _ (setExt _ _ (setExt _ _ (setExt _ _ _))) = _
      rw [lookup_setExt_ne (by decide), lookup_setExt_ne (by decide), lookup_setExt_ne (by decide), hr]
    have hgr : keyAt (L3 asset).data 36 = A.group := (congrArg Asset.group hst.2.2.1).symm
    have how : keyAt (L3 asset).data 4 = A.owner := (congrArg Asset.owner hst.2.2.1).symm
    obtain ⟨a', s', r', g', rest', hacc, ht⟩ := exec_transfer he
    simp only [List.map_cons, List.map_nil, List.cons.injEq] at hacc
    obtain ⟨rfl, rfl, rfl, rfl, rfl⟩ := hacc
    unfold processTransfer at ht
    inv at ht
    obtain ⟨_, _, _, b, hb, _, _, _, _, ht⟩ := ht
    have hbf : b = false := by
      unfold processRoyalties at hb
      rw [assetGet_walk hst.2.2.2.hasExts (by decide), hlook] at hb
      inv at hb
      obtain ⟨a, ha, hb⟩ := hb
      cases ha
      cases hb
      rfl
    subst hbf
    rw [if_neg (by rw [show hOwner (L3 asset).data = A.owner from how]; exact hne)] at ht
    inv at ht
    obtain ⟨ht, _⟩ := ht
    unfold transferGroupCheck at ht
    rw [show nullable (hGroup (L3 asset).data) = some A.group from by
      rw [show hGroup (L3 asset).data = A.group from hgr]
      exact if_neg hg] at ht
    simp only [Bool.false_eq_true, if_false] at ht
    rw [show optAcc (calleeEnv E C.assetId L3 _) C.assetId = none from if_pos rfl] at ht
    cases ht

end

section Examples
open Verif.Ex

/-- Three transfers in a row. -/
example : ((do
      let L1 ← newProxied (some (k 5))
      handOn (proxyEnv L1 []) proxyConsts (k 1) L1 (k 2) [k 6, k 5, k 22] : Except Err Ledger).map fun L =>
        (transferCount (L (k 1)).data, hOwner (L (k 1)).data, (L (k 1)).data.length)) = .ok (.ok 3, k 22, 424) ∧
    ((newProxied (some (k 5))).map fun L => (L (k 1)).data.length) = .ok 424 := by decide +kernel

/-- A new asset can be transferred as often as one likes: `C64_accepted`, `C66_created` and `C66_chain_partial`
together, for the asset of `C64`. -/
example (rs : List Key) (hrs : rs.length < 1000000000000) (hc : ∀ r ∈ rs, r = k 2 ∨ r = k 6 ∨ r = k 22) :
    ∃ L L', proxyProcess (proxyEnv noProxied [k 22, k 21, k 5]) proxyConsts noProxied
        [k 1, k 21, k 2, k 22, k 5, Key.system, prog] (0 :: encBytes [65, 66]) = .ok L ∧
      handOn (proxyEnv noProxied []) proxyConsts (k 1) L (k 2) rs = .ok L' ∧
      transferCount (L' (k 1)).data = .ok (rs.length : Nat) := by
  obtain ⟨L, h1, h2, h3, _, h5⟩ := C64_accepted (E := proxyEnv noProxied [k 22, k 21, k 5]) (C := proxyConsts)
    (L := noProxied) (data := 0 :: encBytes [65, 66]) (name := [65, 66]) (asset := k 1) (stub := k 21)
    (owner := k 2) (authority := k 22) (bump := 254) (p := k 5) (rest := []) (a := prog)
    (C64_data.mpr ⟨⟨by show (2 : Nat) < 4294967296; omega, by decide +kernel⟩, rfl⟩)
    (canonical_iff.mp (by decide +kernel)) (by decide +kernel) (by decide +kernel) (by decide +kernel)
    (by decide +kernel) (by decide +kernel) (by decide +kernel) (by decide +kernel) (by decide +kernel)
    (by decide +kernel) (by
      intro y hy h1 h2
      have hy' : y = k 2 ∨ y = prog ∨ y = Key.system := by
        simpa only [proxyConsts, List.mem_cons, List.not_mem_nil, or_false] using hy
      rcases hy' with rfl | rfl | rfl <;> (revert h2; decide +kernel))
  have hk := C66_created (size := 13) rfl h2 h3
  have hcalm : ∀ y, y = k 2 ∨ y = prog ∨ y = k 6 ∨ y = k 22 → Calm proxyConsts.assetId L y := by
    intro y hy ho hb
    have hy2 : y ≠ k 1 ∧ y ≠ k 5 := by rcases hy with rfl | rfl | rfl | rfl <;> decide +kernel
    rw [h5 y hy2.1 hy2.2] at hb
    exfalso
    rcases hy with rfl | rfl | rfl | rfl <;> (revert hb; decide +kernel)
  obtain ⟨L', _, r1, _, _, r2, _⟩ := C66_chain_partial (E := proxyEnv noProxied []) rs L 0 _ (k 2) hk
    (by decide +kernel)
    (by
      intro rgb h
      show ([60] ++ rgb ++ [62]).length = 13
      simp only [List.length_append, List.length_cons, List.length_nil, h])
    (by decide) (by omega) (by show (0 : UInt8) ≠ 1; decide) rfl rfl
    (by
      intro y hy
      simp only [List.mem_cons] at hy
      rcases hy with rfl | rfl | h
      · exact hcalm _ (Or.inl rfl)
      · exact hcalm _ (Or.inr (Or.inl rfl))
      · rcases hc y h with h | h | h
        · exact hcalm _ (Or.inl h)
        · exact hcalm _ (Or.inr (Or.inr (Or.inl h)))
        · exact hcalm _ (Or.inr (Or.inr (Or.inr h))))
  rw [Nat.zero_add] at r2
  exact ⟨L, L', h1, r1, r2⟩

/-- A stranger creates a group whose authority is the proxied asset itself, and has the proxy program put
the asset into it. -/
def strangerGroup : Except Err Ledger := do
  let L1 ← newProxied (some (k 5))
  let L2 ← execute { proxyEnv L1 [k 7, k 5] with program := prog } L1 [k 7, k 1, k 6, prog, prog, k 5, Key.system]
    (.create ⟨[71], .nonFungible, true, some [⟨.grouping, 16, some (zeros 16)⟩]⟩)
  proxyProcess (proxyEnv L2 [k 6]) proxyConsts L2 [k 1, k 7, k 1, prog] (encode .group)

/-- Before, the owner of the new asset can transfer it; afterwards they cannot, neither through the proxy
program nor, as the asset cannot sign, without it. -/
theorem C66_false :
    (do
      let L1 ← newProxied (some (k 5))
      proxyProcess (proxyEnv L1 [k 2]) proxyConsts L1 [k 1, k 2, k 6, k 20, prog] (encode .transfer) :
        Except Err Ledger).isOk = true ∧
    (strangerGroup.map fun L => (hOwner (L (k 1)).data, hGroup (L (k 1)).data)) = .ok (k 2, k 7) ∧
    (do
      let L1 ← strangerGroup
      proxyProcess (proxyEnv L1 [k 2]) proxyConsts L1 [k 1, k 2, k 6, k 7, prog] (encode .transfer) :
        Except Err Ledger).isOk = false ∧
    (do
      let L1 ← strangerGroup
      execute { proxyEnv L1 [k 2] with program := prog } L1 [k 1, k 2, k 6, k 7] .transfer :
        Except Err Ledger).isOk = false := by decide +kernel

end Examples

end Verif.Props

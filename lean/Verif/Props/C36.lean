import Verif.Lemmas.Proxy
import Verif.Props.C24
import Verif.Props.C37

/-!
# C36 — Proxy program enforces its own authority
-/

namespace Verif.Props

open Verif Verif.Spec

section
variable {E : Env} {C : ProxyConsts} {L L' : Ledger} {accts : List Key} {data : Bytes}

/-- The proxy authority stored with the asset, if any. -/
def HasProxyAuthority (L : Ledger) (asset au : Key) : Prop :=
  ∃ x, HasProxy (L asset).data x ∧ x.authority = au ∧ au ≠ Key.default

theorem proxyUpdate_ok {asset au : Key} {remaining : List Key} {x : UpdateInput}
    (h : proxyUpdate E C L asset au remaining x = .ok L') :
    HasProxyAuthority L asset au ∧ E.signer au = true ∧
      ∃ pda, callUpdate E C pda L asset { x with extension := none } = .ok L' := by
  unfold proxyUpdate at h
  inv at h
  obtain ⟨p, hp, hs, ha, pda, _, hc⟩ := h
  unfold fetchProxyWith at hp
  inv at hp
  obtain ⟨p', hf, _, hp⟩ := hp
  cases hp
  refine ⟨?_, hs, pda, hc⟩
  unfold proxyAuthorityIs nullable at ha
  split at ha
  · rename_i a heq
    split at heq
    · cases heq
    · rename_i hne
      cases heq
      simp only [require_ok] at ha
      exact ⟨p, fetchProxy_has hf, ha.symm, by rw [ha]; exact hne⟩
  · cases ha

/-- Update through the proxy program needs the signature of the authority stored in the Proxy
extension, changes name and mutability as requested, and nothing else: no extension, no other
account. -/
theorem C36_update {x : UpdateInput} (hd : data = encode (.update x)) (hx : InstrOk (.update x))
    (h : proxyProcess E C L accts data = .ok L') :
    ∃ asset au rest, accts = asset :: au :: rest ∧ HasProxyAuthority L asset au ∧
      E.signer au = true ∧ (∀ k, k ≠ asset → L' k = L k) ∧
      ∀ A, Stores C.assetId L asset A → A.authority = asset ∧
        Stores C.assetId L' asset (A.retitled { x with extension := none }) := by
  have hc : decodeProxyCreate data = none := by subst hd; rfl
  unfold proxyProcess at h
  rw [hc, hd, decode_encode hx] at h
  simp only at h
  split at h
  · rename_i asset au _ _ _ _ remaining
    obtain ⟨hau, hsig, pda, hcall⟩ := proxyUpdate_ok h
    refine ⟨asset, au, _, rfl, hau, hsig, ?_⟩
    have hok : InstrOk (.update { x with extension := none }) := ⟨hx.1, by intro a ha; cases ha⟩
    obtain ⟨he, _⟩ := invokeAsset_ok hok hcall
    obtain ⟨a, au', b, g, p, s, rest, ha, hp⟩ := exec_update he
    simp only [List.map_cons, List.map_nil, List.cons.injEq] at ha
    obtain ⟨rfl, rfl, rfl, rfl, rfl, rfl, _⟩ := ha
    unfold processUpdate at hp
    inv at hp
    obtain ⟨_, _, _, hauth, _, hp⟩ := hp
    have hopt : ∀ m, optAcc (calleeEnv E C.assetId L m) C.assetId = none := by
      intro m
      unfold optAcc
      exact if_pos rfl
    rw [hopt] at hp
    cases hp
    refine ⟨fun k hk => Ledger.setData_other _ _ hk, fun A hs => ⟨?_, ?_⟩⟩
    · rw [hs.2.2.1]
      exact hauth
    · exact stores_updateHeader hs _
  · cases h

/-- An Update request never reaches the asset program with an extension. -/
theorem C36_no_extension {x : UpdateInput} (hd : data = encode (.update x))
    (hx : InstrOk (.update x)) :
    proxyProcess E C L accts data =
      proxyProcess E C L accts (encode (.update { x with extension := none })) := by
  have h1 : decodeProxyCreate data = none := by subst hd; rfl
  have h2 : decodeProxyCreate (encode (.update { x with extension := none })) = none := rfl
  have hok : InstrOk (.update { x with extension := none }) := ⟨hx.1, by intro a ha; cases ha⟩
  unfold proxyProcess
  rw [h1, h2, hd, decode_encode hx, decode_encode hok]
  simp only
  split <;> rfl

/-- One of the three extension updates of a transfer. -/
theorem callUpdate_inline {asset pda : Key} {t : ExtType} {payload : Bytes}
    (ht : t ≠ .none ∧ t ≠ .creators ∧ t ≠ .grouping) (hl : payload.length < 4294967296)
    (h : callUpdate E C pda L asset ⟨none, none, some (inlineExt t payload)⟩ = .ok L')
    {A : Asset} (hs : Stores C.assetId L asset A) :
    Stores C.assetId L' asset { A with exts := setExt t payload A.exts } := by
  have hok : InstrOk (.update ⟨none, none, some (inlineExt t payload)⟩) := by
    refine ⟨(by intro a ha; cases ha), ?_⟩
    intro a ha
    cases ha
    intro b hb
    cases hb
    exact hl
  obtain ⟨he, _⟩ := invokeAsset_ok hok h
  obtain ⟨a, rest, ha, hst⟩ := C24_update_inline_partial (e := inlineExt t payload) rfl ht.1 he
  simp only [List.map_cons, List.map_nil, List.cons.injEq] at ha
  obtain ⟨rfl, _⟩ := ha
  obtain ⟨d, h1, h2, h3⟩ := hst A hs
  have : d = payload := SameButBooks.eq h1 ht.2.1 ht.2.2
  subst this
  exact h3

/-- The asset after the three updates of a transfer: the extensions written by the proxy program. -/
def stamped (C : ProxyConsts) (asset : Key) (n : Int) (A : Asset) : Asset :=
  { A with exts := setExt .properties (stampData C) (setExt .blob (imageData C asset n)
      (setExt .attributes (counterData (nextI64 n)) A.exts)) }

theorem stampData_length (C : ProxyConsts) : (stampData C).length = 26 := by
  simp [stampData, propsBuilderAdd, writeStr, writePropValue, sLastTransferred, length_toLE]

/-- Where the counter is read from: the first attribute named "transfers", a decimal number with spaces
before it. Without such an attribute the counter is zero; without any attributes the transfer fails. -/
theorem C36_counter {id asset : Key} {A : Asset} (hs : Stores id L asset A) :
    (lookup .attributes A.exts = none → transferCount (L asset).data = .error .panic) ∧
    ∀ l : List (Bytes × Bytes), (∀ x ∈ l, ShortString x.1 ∧ ShortString x.2) →
      lookup .attributes A.exts = some (pairsData l) →
      ((∀ x ∈ l, x.1 ≠ "transfers".toList.map (fun c => UInt8.ofNat c.toNat)) →
        transferCount (L asset).data = .ok 0) ∧
      ∀ l₁ l₂ w (n : Int), l = l₁ ++ ("transfers".toList.map (fun c => UInt8.ofNat c.toNat),
          List.replicate w 32 ++ formatI64 n) :: l₂ →
        (∀ x ∈ l₁, x.1 ≠ "transfers".toList.map (fun c => UInt8.ofNat c.toNat)) →
        -9223372036854775808 ≤ n → n ≤ 9223372036854775807 →
        transferCount (L asset).data = .ok n := by
  have hname : "transfers".toList.map (fun c => UInt8.ofNat c.toNat) = sTransfers := by decide
  rw [hname]
  have hg := assetGet_walk hs.2.2.2.hasExts (show ExtType.attributes ≠ .none by decide)
  refine ⟨fun h => ?_, fun l hl h => ?_⟩
  · unfold transferCount
    rw [hg, h]
    rfl
  · have hr : readPairList (pairsData l) = .ok l := readPairList_iff.mpr ⟨hl, rfl⟩
    refine ⟨fun hn => ?_, ?_⟩
    · unfold transferCount
      rw [hg, h]
      simp only [bind, Except.bind]
      rw [hr]
      have hf : l.find? (fun t => t.1 = sTransfers) = none := by
        rw [List.find?_eq_none]
        intro x hx
        simpa using hn x hx
      simp only [attributesGet, hf, Option.map_none, Option.getD_none]
      decide +kernel
    · rintro l₁ l₂ w n rfl hn n1 n2
      unfold transferCount
      rw [hg, h]
      simp only [bind, Except.bind]
      rw [hr]
      have hf : (l₁ ++ (sTransfers, List.replicate w 32 ++ formatI64 n) :: l₂).find?
          (fun t => t.1 = sTransfers) = some (sTransfers, List.replicate w 32 ++ formatI64 n) := by
        rw [List.find?_append, List.find?_eq_none.mpr (by intro x hx; simpa using hn x hx)]
        simp
      have hw : List.replicate w 32 ++ formatI64 n = padLeft (w + (formatI64 n).length) (formatI64 n) := by
        unfold padLeft
        rw [Nat.add_sub_cancel]
      simp only [attributesGet, hf, Option.map_some, Option.getD_some]
      rw [hw, trim_padLeft formatI64_ne formatI64_plain, parseI64_format ⟨n1, n2⟩]
      rfl

/-- The counter is a 64-bit number with a sign: the next one is that of two's complement, so that after
the greatest number comes the least. -/
theorem C36_next {n : Int} (h1 : -9223372036854775808 ≤ n) (h2 : n ≤ 9223372036854775807) :
    nextI64 n = (BitVec.ofInt 64 n + 1#64).toInt := by
  unfold nextI64
  rw [show (1#64) = BitVec.ofInt 64 1 from rfl, ← BitVec.ofInt_add, BitVec.toInt_ofInt]
  split
  · next h => subst h; decide
  · rw [Int.bmod_def]
    split <;> omega

/-- What a transfer writes, byte by byte: the attribute "transfers" with the new counter, at least
twelve characters wide, the content type "image/svg+xml" before the picture, and the property
"last_transferred", a number, with the time of the clock in two's complement. The colour of the picture
comes from the hash of the address, the time and the old counter. -/
theorem C36_written (C : ProxyConsts) (asset : Key) (n : Int) (A : Asset) :
    let text := fun s : String => prefixed (s.toList.map fun c => UInt8.ofNat c.toNat)
    let bits := fun i : Int => toLE 8 (BitVec.ofInt 64 i).toNat
    let digits := formatI64 (nextI64 n)
    lookup .attributes (stamped C asset n A).exts =
      some (text "transfers" ++ prefixed (List.replicate (12 - digits.length) 32 ++ digits)) ∧
    lookup .blob (stamped C asset n A).exts =
      some (text "image/svg+xml" ++ C.image (rgbText (C.hash (asset.1 ++ bits C.timestamp ++ bits n)))) ∧
    lookup .properties (stamped C asset n A).exts =
      some (text "last_transferred" ++ 1 :: bits C.timestamp) ∧
    ∀ t, t ≠ .attributes → t ≠ .blob → t ≠ .properties →
      lookup t (stamped C asset n A).exts = lookup t A.exts := by
  have hu : ∀ i : Int, (BitVec.ofInt 64 i).toNat = asU64 i := fun i => by
    rw [BitVec.toNat_ofInt]
    rfl
  have ht : "transfers".toList.map (fun c => UInt8.ofNat c.toNat) = sTransfers := by decide
  have hi : "image/svg+xml".toList.map (fun c => UInt8.ofNat c.toNat) = sContentType := by decide
  have hl : "last_transferred".toList.map (fun c => UInt8.ofNat c.toNat) = sLastTransferred := by decide
  simp only [hu, ht, hi, hl]
  refine ⟨?_, ?_, ?_, fun t t1 t2 t3 => ?_⟩
  · show lookup _ (setExt _ _ (setExt _ _ (setExt _ _ _))) = _
    rw [lookup_setExt_ne (by decide), lookup_setExt_ne (by decide), lookup_setExt_same]
    rfl
  · show lookup _ (setExt _ _ (setExt _ _ (setExt _ _ _))) = _
    rw [lookup_setExt_ne (by decide), lookup_setExt_same]
    rfl
  · show lookup _ (setExt _ _ (setExt _ _ (setExt _ _ _))) = _
    rw [lookup_setExt_same]
    rfl
  · show lookup t (setExt _ _ (setExt _ _ (setExt _ _ _))) = _
    rw [lookup_setExt_ne t3, lookup_setExt_ne t2, lookup_setExt_ne t1]

/-- Every transfer through the proxy program counts: it reads a counter `n` and leaves `n + 1`
(wrapping at the end of the 64-bit range), the new owner is the recipient, the image and the time
stamp are rewritten, and the owner or a transfer delegate has signed. -/
theorem C36_transfer_partial (hd : data = encode .transfer)
    (himg : ∀ rgb, (C.image rgb).length < 4294960000)
    (h : proxyProcess E C L accts data = .ok L') :
    ∃ asset signer recipient rest n, accts = asset :: signer :: recipient :: rest ∧
      transferCount (L asset).data = .ok n ∧
      ∀ A, Stores C.assetId L asset A →
        transferCount (L' asset).data = .ok (nextI64 n) ∧
        ∃ A', Stores C.assetId L' asset A' ∧ A'.owner = recipient ∧
          A' = { stamped C asset n A with
            owner := A'.owner, delegate := A'.delegate, roles := A'.roles } ∧
          (A.owner = recipient ∨
            ((A.owner = signer ∨ A.Delegated signer .transfer) ∧ A.state ≠ 1 ∧ A.standard ≠ 2 ∧
              A'.delegate = Key.default)) ∧
          (E.signer signer = true ∨
            ∃ x, HasProxy (L asset).data x ∧ E.pda x.seeds x.bump E.program = some signer) := by
  have hc : decodeProxyCreate data = none := by subst hd; rfl
  unfold proxyProcess at h
  rw [hc, hd, decode_encode (i := .transfer) trivial] at h
  simp only at h
  split at h
  · rename_i asset signer recipient _ remaining
    unfold proxyTransfer at h
    inv at h
    obtain ⟨p, hp, n, hn, pda, hpda, L1, h1, L2, h2, L3, h3, h4⟩ := h
    refine ⟨asset, signer, recipient, _, n, rfl, hn, fun A hs => ?_⟩
    have s1 := callUpdate_inline (t := .attributes) (by decide)
      (by have := counterData_length (nextI64 n); omega) h1 hs
    have s2 := callUpdate_inline (t := .blob) (by decide) (by
      have := himg (rgbText (C.hash (asset.1 ++ toLE 8 (asU64 C.timestamp) ++ toLE 8 (asU64 n))))
      simp only [imageData, blobBuilderSet, writeStr, sContentType, List.length_append,
        List.length_cons, List.length_nil]
      omega) h2 s1
    have s3 := callUpdate_inline (t := .properties) (by decide)
      (by have := stampData_length C; omega) h3 s2
    have hst : Stores C.assetId L3 asset (stamped C asset n A) := s3
    clear s1 s2 s3
    obtain ⟨he, hreq⟩ := invokeAsset_ok (i := .transfer) trivial h4
    have hlook : ∀ t, t ≠ .attributes → t ≠ .blob → t ≠ .properties →
        lookup t (stamped C asset n A).exts = lookup t A.exts := by
      intro t t1 t2 t3
      show lookup t (setExt _ _ (setExt _ _ (setExt _ _ _))) = _
      rw [lookup_setExt_ne t3, lookup_setExt_ne t2, lookup_setExt_ne t1]
    have hcount : ∀ A', Stores C.assetId L' asset A' → A'.exts = (stamped C asset n A).exts →
        transferCount (L' asset).data = .ok (nextI64 n) := by
      intro A' hs' hexts
      apply count_counterData (nextI64_range (transferCount_range hn))
      rw [assetGet_walk hs'.2.2.2.hasExts (by decide), hexts]
      show Except.ok (lookup _ (setExt _ _ (setExt _ _ (setExt _ _ _)))) = _
      rw [lookup_setExt_ne (by decide), lookup_setExt_ne (by decide), lookup_setExt_same]
    have hsig : E.signer signer = true ∨
        ∃ x, HasProxy (L asset).data x ∧ E.pda x.seeds x.bump E.program = some signer := by
      rcases (hreq ⟨signer, true, false⟩ (by simp)).1 rfl with h | h
      · exact Or.inl h
      · rcases List.mem_singleton.mp h with rfl
        refine Or.inr ⟨p, ?_, ?_⟩
        · unfold fetchProxyWith at hp
          inv at hp
          obtain ⟨p', hf, _, hp⟩ := hp
          cases hp
          exact fetchProxy_has hf
        · unfold proxySigner at hpda
          split at hpda
          · cases hpda; assumption
          · cases hpda
    rcases refine (E := calleeEnv E C.assetId L3 _) hst he trivial with ⟨h, _⟩ | ⟨A', hs', hm⟩
    · cases h
    · have hdel : (stamped C asset n A).Delegated signer .transfer → A.Delegated signer .transfer := by
        rintro ⟨x, hx1, hx2⟩
        refine ⟨x, ?_, hx2⟩
        have hman : (stamped C asset n A).manager = A.manager := by
          unfold Asset.manager
          rw [hlook _ (by decide) (by decide) (by decide)]
        rw [hman] at hx1
        exact hx1
      cases hm with
      | stay _ _ hi =>
        have ho : recipient = A.owner := by
          have := hi rfl
          simp only [List.map_cons, List.map_nil] at this
          simpa [stamped] using this
        refine ⟨hcount _ hs' rfl, _, hs', ho.symm, rfl, Or.inl ho.symm, hsig⟩
      | transfer _ s r rest ha hsg hau hlock hsoul =>
        simp only [List.map_cons, List.map_nil, List.cons.injEq, true_and] at ha
        obtain ⟨rfl, rfl, _⟩ := ha
        refine ⟨hcount _ hs' rfl, _, hs', rfl, rfl, Or.inr ⟨?_, hlock, hsoul, rfl⟩, hsig⟩
        rcases hau with h | h
        · exact Or.inl h
        · exact Or.inr (hdel h)
      | memberIn _ _ _ hi => rcases hi with hi | ⟨_, hi⟩ <;> cases hi
      | memberOut _ _ _ hi => rcases hi with hi | hi <;> cases hi
  · cases h

end

section Examples
open Verif.Ex

/-- Constants of the proxy program. -/
def proxyConsts : ProxyConsts where
  assetId := prog
  image := fun rgb => [60] ++ rgb ++ [62]
  hash := fun b => b.take 32
  timestamp := 1700000000

/-- An asset with nothing in it. -/
def bare36 : Asset := ⟨0, 3, 1, k 2, Key.default, k 1, Key.default, 0, zeros 35, []⟩

/-- The asset `viaProxy` without the spare room and the last extension, with larger data to
overwrite. -/
def viaProxy2 : Ledger :=
  ledger [(k 1, ⟨100000000, header 0 3 1 (k 2) Key.default (k 1) Key.default 0 [65] ++
      blocks 168 [(.attributes, counterData 41), (.blob, blobBuilderSet sContentType (zeros 13)),
        (.proxy, (k 20).1 ++ (k 21).1 ++ [254] ++ (k 22).1),
        (.properties, stampData proxyConsts)], prog⟩),
    (k 2, wallet), (k 5, wallet), (k 22, wallet), (prog, wallet), (Key.system, wallet)]

/-- The owner transfers; the counter goes from 41 to 42. -/
example :
    ((proxyProcess (proxyEnv viaProxy2 [k 2]) proxyConsts viaProxy2
      [k 1, k 2, k 5, k 20, prog] (encode .transfer)).map fun L =>
        (transferCount (L (k 1)).data, hOwner (L (k 1)).data, assetGet .blob (L (k 1)).data)) =
    .ok (.ok 42, k 5, .ok (some (imageData proxyConsts (k 1) 41))) ∧
    transferCount (viaProxy2 (k 1)).data = .ok 41 := by decide +kernel

/-- An asset whose attributes have no counter counts from zero. -/
example :
    let L := ledger [(k 1, owned (header 0 3 1 (k 2) Key.default (k 1) Key.default 0 [65] ++
      blocks 168 [(.attributes, pairsBuilderAdd [] [65] [55])]))]
    transferCount (L (k 1)).data = .ok 0 ∧ pairsData [([65], [55])] = pairsBuilderAdd [] [65] [55] := by
  decide +kernel

/-- Only `k 22` may rename the asset. -/
example :
    let x : UpdateInput := ⟨some [66], none, none⟩
    let accts := fun au => [k 1, au, k 20, k 20, k 20, k 20, prog]
    ((proxyProcess (proxyEnv viaProxy2 [k 22]) proxyConsts viaProxy2 (accts (k 22))
      (encode (.update x))).map fun L => (view (L (k 1)).data).name.take 2) = .ok [66, 0] ∧
    ((proxyProcess (proxyEnv viaProxy2 [k 2]) proxyConsts viaProxy2 (accts (k 2))
      (encode (.update x))).map fun L => (view (L (k 1)).data).name.take 2) =
        .error .invalidArgument := by decide +kernel

/-- A time before 1970 is stored in two's complement. -/
example : (lookup .properties (stamped { proxyConsts with timestamp := -2 } (k 1) 41 bare36).exts).map
    (·.drop 16) = some [100, 1, 254, 255, 255, 255, 255, 255, 255, 255] := by decide +kernel

/-- The counter wraps. -/
example : nextI64 9223372036854775807 = -9223372036854775808 ∧
    trim (padLeft 12 (formatI64 (-7))) = [45, 55] ∧ parseI64 [45, 55] = some (-7) := by
  decide +kernel

end Examples

end Verif.Props

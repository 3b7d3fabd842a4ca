import Verif.Spec.BridgeClient
import Verif.Props.C29
import Verif.Props.C46
import Verif.Props.C47

/-!
# C62 — the clients of the bridge program
-/

namespace Verif.Props

open Verif Verif.Spec

section
variable {E : Env} {C : BridgeConsts} {S S' : Chain} {L L' : Ledger} {c : BridgeCall}
  {ms : List Meta}

/-- A built request is read by the program as what it is. -/
theorem C62_meant (hc : bridgeOptional c ≠ some E.program) :
    bridgeProcess E C S (c.build E.program).keys (c.build E.program).data =
      bridgeMeant E C S c := by
  have ho : ∀ o : Option Key, o ≠ some E.program →
      optAcc E (metaOpt E.program (metaRo · false) o).key = o := by
    intro o hne
    cases o with
    | none => simp [metaOpt, metaRo, optAcc]
    | some k =>
      show (if k = E.program then none else some k) = some k
      rw [if_neg (by rintro rfl; exact hne rfl)]
  cases c with
  | bridge x =>
    show processBridge E C S x.asset x.vault x.owner x.mint x.metadata
      (optAcc E (metaOpt E.program (metaRo · false) x.group).key) = _
    rw [ho x.group hc]
    rfl
  | create x s ap col =>
    cases col <;>
    · simp only [BridgeCall.build, BridgeCall.data, ClientIx.keys, BridgeCall.metas, List.map_cons,
        List.map_nil, encBool, bridgeProcess, bridgeMeant, List.cons_append, List.nil_append]
      rw [ho x.collection hc]
      rfl

/-! ## Privileges -/

theorem invokeAsset_only {id : Key} {pdas : List Key} {metas : List Meta} {data : Bytes}
    (h : ∀ m ∈ metas, (m.signer = true → SameSigner E ms m.key ∨ m.key ∈ pdas) ∧
      (m.writable = true → SameWritable E ms m.key)) :
    invokeAsset (only E ms) id pdas L metas data = invokeAsset E id pdas L metas data := by
  have hall : metas.all (mayRequest (only E ms) pdas) = metas.all (mayRequest E pdas) := by
    rw [Bool.eq_iff_iff, List.all_eq_true, List.all_eq_true]
    refine forall_congr' fun m => forall_congr' fun hm => ?_
    obtain ⟨h1, h2⟩ := h m hm
    unfold mayRequest
    cases hs : m.signer <;> cases hw : m.writable
    · simp
    · rw [h2 hw]
      simp
    · rcases h1 hs with h1 | h1
      · rw [h1]
        simp
      · simp [h1]
    · rw [h2 hw]
      rcases h1 hs with h1 | h1
      · rw [h1]
      · simp [h1]
  unfold invokeAsset
  rw [hall]
  rfl

theorem bridgeAllocate_only {x : BridgeCreateAccts} (h1 : SameWritable E ms x.asset)
    (h2 : SameSigner E ms x.payer) (h3 : SameWritable E ms x.payer) :
    ∀ (l : List (ExtType × Bytes)) (L : Ledger),
      bridgeAllocate (only E ms) C x L l = bridgeAllocate E C x L l
  | [], _ => rfl
  | e :: es, L => by
    unfold bridgeAllocate bridgeCall
    rw [invokeAsset_only]
    · simp only [bridgeAllocate_only h1 h2 h3 es]
    · intro m hm
      simp only [Call.build, Call.metas, metaOpt, metaRw, metaRo, List.mem_cons, List.not_mem_nil,
        or_false] at hm
      rcases hm with rfl | rfl | rfl
      · exact ⟨fun _ => Or.inr (by simp), fun _ => h1⟩
      · exact ⟨fun _ => Or.inl h2, fun _ => h3⟩
      · exact ⟨fun h => (by cases h), fun h => (by cases h)⟩

/-- The privileges that a client asks for are all that matters. -/
theorem C62_privileges (hg : Grants E (c.metas E.program)) (hf : BridgeFlags E c) :
    bridgeMeant (only E (c.metas E.program)) C S c = bridgeMeant E C S c := by
  have hs : ∀ m ∈ c.metas E.program, m.signer = true → SameSigner E (c.metas E.program) m.key :=
    fun m hm h => hg.signer hm h
  have hw : ∀ m ∈ c.metas E.program, m.writable = true →
      SameWritable E (c.metas E.program) m.key := fun m hm h => hg.writable hm h
  cases c with
  | bridge x =>
    have ho : SameSigner E ((BridgeCall.bridge x).metas E.program) x.owner :=
      hs (metaRo x.owner true) (by simp [BridgeCall.metas]) rfl
    have ha : SameWritable E ((BridgeCall.bridge x).metas E.program) x.asset :=
      hw (metaRw x.asset false) (by simp [BridgeCall.metas]) rfl
    generalize (BridgeCall.bridge x).metas E.program = ms at ho ha
    unfold bridgeMeant processBridge
    simp only
    rw [show (only E ms).signer x.owner = E.signer x.owner from ho]
    have hswap : ∀ act, bridgeSwap (only E ms) C S act x.asset x.vault x.owner x.mint x.group =
        bridgeSwap E C S act x.asset x.vault x.owner x.mint x.group := by
      intro act
      unfold bridgeSwap
      rw [show (only E ms).signer x.owner = E.signer x.owner from ho]
      cases act
      · simp only [Bool.false_eq_true, if_false]
        rw [invokeAsset_only]
        intro m hm
        simp only [assetTransferMetas, List.mem_cons, List.not_mem_nil, or_false] at hm
        rcases hm with rfl | rfl | rfl | rfl
        · exact ⟨fun h => (by cases h), fun _ => ha⟩
        · exact ⟨fun _ => Or.inr (by simp), fun h => (by cases h)⟩
        · exact ⟨fun h => (by cases h), fun h => (by cases h)⟩
        · exact ⟨fun h => (by cases h), fun h => (by cases h)⟩
      · simp only [if_true]
        rw [invokeAsset_only]
        intro m hm
        simp only [assetTransferMetas, List.mem_cons, List.not_mem_nil, or_false] at hm
        rcases hm with rfl | rfl | rfl | rfl
        · exact ⟨fun h => (by cases h), fun _ => ha⟩
        · exact ⟨fun _ => Or.inl ho, fun h => (by cases h)⟩
        · exact ⟨fun h => (by cases h), fun h => (by cases h)⟩
        · exact ⟨fun h => (by cases h), fun h => (by cases h)⟩
    simp only [hswap]
    rfl
  | create x s ap col =>
    have hp1 : SameSigner E ((BridgeCall.create x s ap col).metas E.program) x.payer :=
      hs (metaRw x.payer true) (by simp [BridgeCall.metas]) rfl
    have hp2 : SameWritable E ((BridgeCall.create x s ap col).metas E.program) x.payer :=
      hw (metaRw x.payer true) (by simp [BridgeCall.metas]) rfl
    have ha : SameWritable E ((BridgeCall.create x s ap col).metas E.program) x.asset :=
      hw (metaRw x.asset false) (by simp [BridgeCall.metas]) rfl
    have hv : SameWritable E ((BridgeCall.create x s ap col).metas E.program) x.vault :=
      hw (metaRw x.vault false) (by simp [BridgeCall.metas]) rfl
    have hu : SameSigner E ((BridgeCall.create x s ap col).metas E.program) x.updateAuthority :=
      hg.same (m := metaRo x.updateAuthority s) (by simp [BridgeCall.metas]) hf
    generalize (BridgeCall.create x s ap col).metas E.program = ms at hp1 hp2 ha hv hu
    have hfind : ∀ sd n, findPda (only E ms) sd n = findPda E sd n := by
      intro sd n
      induction n with
      | zero => rfl
      | succ n ih => unfold findPda; rw [ih]; rfl
    have hcons : ∀ m, bridgeConsent (only E ms) C S.ledger x m = bridgeConsent E C S.ledger x m := by
      intro m
      unfold bridgeConsent
      rw [show (only E ms).signer x.updateAuthority = E.signer x.updateAuthority from hu]
      simp only [hfind]
    have hvault : createVault (only E ms) S.ledger x.payer x.vault =
        createVault E S.ledger x.payer x.vault := by
      unfold createVault systemCreate
      simp only
      rw [show (only E ms).signer x.payer = E.signer x.payer from hp1,
        show (only E ms).writable x.payer = E.writable x.payer from hp2,
        show (only E ms).writable x.vault = E.writable x.vault from hv]
      simp only [decide_true, Bool.or_true, true_and]
      rfl
    have hend : ∀ L m, bridgeCall (only E ms) C x.asset L (bridgeCreateCall x m) =
        bridgeCall E C x.asset L (bridgeCreateCall x m) := by
      intro L m
      unfold bridgeCall
      rw [invokeAsset_only]
      intro m' hm
      simp only [bridgeCreateCall, Call.build, Call.metas, metaOpt, metaRw, metaRo, List.mem_cons,
        List.not_mem_nil, or_false] at hm
      rcases hm with rfl | rfl | rfl | rfl | rfl | rfl | rfl
      · exact ⟨fun _ => Or.inr (by simp), fun _ => ha⟩
      · exact ⟨fun h => (by cases h), fun h => (by cases h)⟩
      · exact ⟨fun h => (by cases h), fun h => (by cases h)⟩
      · exact ⟨fun h => (by cases h), fun h => (by cases h)⟩
      · exact ⟨fun h => (by cases h), fun h => (by cases h)⟩
      · exact ⟨fun _ => Or.inl hp1, fun _ => hp2⟩
      · exact ⟨fun h => (by cases h), fun h => (by cases h)⟩
    unfold bridgeMeant processBridgeCreate
    simp only [hfind, hcons, hvault, bridgeAllocate_only ha hp1 hp2, hend]

theorem invokeAsset_writable {id : Key} {pdas : List Key} {metas : List Meta} {data : Bytes}
    (h : invokeAsset E id pdas L metas data = .ok L') {k : Key} (hk : L' k ≠ L k) :
    E.writable k = true := by
  unfold invokeAsset at h
  split at h
  · rename_i hall
    unfold executeBytes at h
    split at h
    · rename_i i _
      by_cases hm : k ∈ metas.map (·.key)
      · have := (execute_ok h).2.2.2 k hm
        unfold changeAllowed at this
        simp only [Bool.or_eq_true, Bool.and_eq_true, decide_eq_true_eq] at this
        rcases this with h' | ⟨⟨h', _⟩, _⟩
        · exact absurd h' hk
        · obtain ⟨m, hm', h2⟩ := List.any_eq_true.mp h'
          simp only [Bool.and_eq_true, decide_eq_true_eq] at h2
          have := List.all_eq_true.mp hall m hm'
          unfold mayRequest at this
          rw [← h2.1]
          simpa [h2.2] using (Bool.and_eq_true_iff.mp this).2
      · exact absurd (C29_not_passed h k hm) hk
    · cases h
  · cases h

theorem bridgeAllocate_writable {x : BridgeCreateAccts} {k : Key} (hk : E.writable k = false) :
    ∀ (l : List (ExtType × Bytes)) {L L' : Ledger}, bridgeAllocate E C x L l = .ok L' → L' k = L k
  | [], _, _, h => by cases h; rfl
  | e :: es, L, L', h => by
    unfold bridgeAllocate at h
    inv at h
    obtain ⟨L1, h1, h2⟩ := h
    rw [bridgeAllocate_writable hk es h2]
    by_contra hne
    rw [invokeAsset_writable h1 hne] at hk
    cases hk

/-- Every account that a request changes is one that the client asks to write to. -/
theorem C62_writable
    (h : bridgeMeant (only E (c.metas E.program)) C S c = .ok S') {k : Key}
    (hk : S'.ledger k ≠ S.ledger k) : (only E (c.metas E.program)).writable k = true := by
  by_contra hw
  rw [Bool.not_eq_true] at hw
  have hnv : ∀ m ∈ c.metas E.program, m.writable = true → k ≠ m.key := by
    rintro m hm hmw rfl
    have : (only E (c.metas E.program)).writable m.key = true :=
      List.any_eq_true.mpr ⟨m, hm, by simp [hmw]⟩
    rw [this] at hw
    cases hw
  apply hk
  cases c with
  | bridge x =>
    have hv : k ≠ x.vault := hnv (metaRw x.vault false) (by simp [BridgeCall.metas]) rfl
    unfold bridgeMeant processBridge at h
    simp only at h
    inv at h
    obtain ⟨_, _, _, _, v, _, _, _, _, h⟩ := h
    split at h
    · cases h
    inv at h
    obtain ⟨_, _, h⟩ := h
    unfold bridgeSwap at h
    split at h
    · inv at h
      obtain ⟨T, _, L', h', rfl⟩ := h
      by_contra hne
      rw [invokeAsset_writable h' (k := k) (by rw [Ledger.setData_other _ _ hv]; exact hne)] at hw
      cases hw
    · inv at h
      obtain ⟨T, _, L', h', rfl⟩ := h
      by_contra hne
      rw [invokeAsset_writable h' (k := k) (by rw [Ledger.setData_other _ _ hv]; exact hne)] at hw
      cases hw
  | create x s ap col =>
    have hv : k ≠ x.vault := hnv (metaRw x.vault false) (by simp [BridgeCall.metas]) rfl
    have hp : k ≠ x.payer := hnv (metaRw x.payer true) (by simp [BridgeCall.metas]) rfl
    unfold bridgeMeant at h
    simp only at h
    inv at h
    obtain ⟨L', h, rfl⟩ := h
    obtain ⟨m, bump, ab, L1, L2, _, _, _, c4, _, c6, c7⟩ := bridgeCreate_ok h
    have e1 : L1 k = S.ledger k := by
      unfold createVault at c4
      split at c4
      · unfold systemCreate at c4
        split at c4
        · cases c4
          rw [Ledger.set_other _ _ hv, Ledger.setLamports_other _ _ hp]
        · cases c4
      · cases c4
    have e2 := bridgeAllocate_writable hw _ c6
    rw [Ledger.setData_other _ _ hv] at e2
    show L' k = S.ledger k
    rw [← e1, ← e2]
    by_contra hne
    rw [invokeAsset_writable c7 hne] at hw
    cases hw

end

/-! ## The JavaScript client -/

section
variable {E : Env} {C : BridgeConsts} {L L' : Ledger} {T : TokenLibs} {ctx : JsContext}

theorem jsMeta_opt (p : Key) (o : Option Key) (w : Bool) :
    jsMeta p ⟨o.bind jsAddress, w⟩ = metaOpt p (fun k => ⟨k, false, w⟩) o := by
  cases o <;> rfl

theorem orElse_ok {o : Option Key} {f : Except Err Key} {k : Key} :
    orElse o f = .ok k ↔ o = some k ∨ (o = none ∧ f = .ok k) := by
  cases o <;> simp [orElse]

/-- The JavaScript client builds what the Rust client builds, with the defaults filled in: the
addresses of the vault and the asset are derived from the mint. -/
theorem C62_js_bridge {x : JsBridge} {i : ClientIx} :
    jsBridge E T ctx x = .ok i ↔ ∃ asset vault,
      (x.asset = some asset ∨ (x.asset = none ∧ jsBridgeAsset E x.mint = .ok asset)) ∧
      (x.vault = some vault ∨ (x.vault = none ∧ jsVault E x.mint = .ok vault)) ∧
      i = (jsBridgeCall T ctx asset vault x).build E.program := by
  unfold jsBridge
  simp only [bind_ok, pure_ok, orElse_ok]
  refine exists_congr fun asset => ?_
  constructor
  · rintro ⟨ha, vault, hv, rfl⟩
    refine ⟨vault, ha, hv, ?_⟩
    simp only [jsMetas, List.map_cons, List.map_nil, jsMeta_opt]
    rfl
  · rintro ⟨vault, ha, hv, rfl⟩
    refine ⟨ha, vault, hv, ?_⟩
    simp only [jsMetas, List.map_cons, List.map_nil, jsMeta_opt]
    rfl

/-- The same for Create. -/
theorem C62_js_create {x : JsBridgeCreate} {i : ClientIx} :
    jsBridgeCreate E T ctx x = .ok i ↔ ∃ asset vault,
      (x.asset = some asset ∨ (x.asset = none ∧ jsBridgeAsset E x.mint = .ok asset)) ∧
      (x.vault = some vault ∨ (x.vault = none ∧ jsVault E x.mint = .ok vault)) ∧
      i = (jsBridgeCreateCall T ctx asset vault x).build E.program := by
  have hb : ∀ b : Bool, (if b = true then [1] else [0] : Bytes) = encBool b := by
    intro b; cases b <;> rfl
  unfold jsBridgeCreate
  simp only [bind_ok, pure_ok, orElse_ok, hb]
  refine exists_congr fun asset => ?_
  constructor
  · rintro ⟨ha, vault, hv, rfl⟩
    refine ⟨vault, ha, hv, ?_⟩
    simp only [jsMetas, List.map_cons, List.map_nil, jsMeta_opt]
    rfl
  · rintro ⟨vault, ha, hv, rfl⟩
    refine ⟨ha, vault, hv, ?_⟩
    simp only [jsMetas, List.map_cons, List.map_nil, jsMeta_opt]
    rfl

/-- The client finds what Create has created: the addresses it derives from the mint are those of the
vault and of the asset. -/
theorem C62_found {x : BridgeCreateAccts} {col : Bool}
    (h : processBridgeCreate E C L x col = .ok L') :
    jsVault E x.mint = .ok x.vault ∧ jsBridgeAsset E x.mint = .ok x.asset := by
  unfold processBridgeCreate at h
  inv at h
  obtain ⟨m, _, _, ⟨v, b⟩, hv, rfl, L1, _, ⟨a, b'⟩, ha, rfl, _⟩ := h
  constructor
  · unfold jsVault jsFindPda
    rw [hv]; rfl
  · unfold jsBridgeAsset jsFindPda
    rw [ha]; rfl

/-- The seeds of the two addresses. -/
theorem C62_seeds {mint : Key} :
    jsVault E mint =
      (findPda E ("vault".toList.map (fun c => UInt8.ofNat c.toNat) ++ mint.1) 255).map (·.1) ∧
    jsBridgeAsset E mint =
      (findPda E ("asset".toList.map (fun c => UInt8.ofNat c.toNat) ++ mint.1) 255).map (·.1) := by
  have h1 : "vault".toList.map (fun c => UInt8.ofNat c.toNat) = vaultPrefix := by decide
  have h2 : "asset".toList.map (fun c => UInt8.ofNat c.toNat) = bridgedPrefix := by decide
  rw [h1, h2]
  unfold jsVault jsBridgeAsset jsFindPda
  constructor
  · cases findPda E (vaultPrefix ++ mint.1) 255 <;> rfl
  · cases findPda E (bridgedPrefix ++ mint.1) 255 <;> rfl

/-- Both clients read a vault as the program does. -/
theorem C62_vault {program vault asset mint : Key} {S : Chain}
    (h : IsVault E.pda program vault asset mint S) :
    ∃ v, readVault (S.ledger vault).data = .ok v ∧ v.mint = mint ∧
      v.active = vaultActive S vault ∧
      E.pda (bridgedPrefix ++ mint.1) v.assetBump program = some asset ∧
      jsReadVault (S.ledger vault).data = .ok v ∧
      rustReadVault (S.ledger vault).data = some (1, v) := by
  obtain ⟨_, h2, h3, h4, h5, h6⟩ := h
  unfold vaultActive
  generalize (S.ledger vault).data = d at *
  have hd : d ≠ [] := by rintro rfl; simp at h2
  obtain ⟨b0, b1, b2, r, rfl⟩ : ∃ b0 b1 b2 r, d = b0 :: b1 :: b2 :: r := by
    match d, h2 with
    | b0 :: b1 :: b2 :: r, _ => exact ⟨b0, b1, b2, r, rfl⟩
  have e0 : byteAt (b0 :: b1 :: b2 :: r) 0 = b0 := rfl
  have e1 : byteAt (b0 :: b1 :: b2 :: r) 1 = b1 := rfl
  have e2 : byteAt (b0 :: b1 :: b2 :: r) 2 = b2 := rfl
  have e3 : byteAt (b0 :: b1 :: b2 :: r) 35 = byteAt r 32 := rfl
  have e4 : keyAt (b0 :: b1 :: b2 :: r) 3 = keyAt r 0 := rfl
  rw [e0] at h3
  rw [e1] at h4
  subst h3
  have hl : ¬ r.length < 33 := by simp at h2; omega
  refine ⟨⟨b1 = 1, b2, mint, byteAt r 32⟩, ?_, rfl, ?_, ?_, ?_, ?_⟩
  · unfold readVault
    rw [if_neg (by simp [e0]), if_neg (by omega)]
    rw [e1, e2, e3, h5]
    rcases h4 with rfl | rfl <;> rfl
  · rw [e1]
    rcases h4 with rfl | rfl <;> rfl
  · rw [← e3]; exact h6
  · unfold jsReadVault
    rw [e0, e1, e2, e3, h5]
    rw [if_neg]
    · rcases h4 with rfl | rfl <;> rintro (h | h | h) <;> first | omega | exact absurd h (by decide)
  · unfold rustReadVault
    simp only [readU8]
    rw [if_neg (by rcases h4 with rfl | rfl <;> simp [hl])]
    rw [← e4, h5]

end

/-! ## Examples -/

/-- The libraries: every derived address is a constant. -/
def someLibs : TokenLibs :=
  ⟨fun _ => Ex.k 11, fun _ => Ex.k 13, fun _ _ => Ex.k 14, fun _ o => if o = Ex.k 20 then Ex.k 15 else
    Ex.k 12, Ex.prog, Ex.k 81, Ex.k 82, Ex.k 80, Ex.k 83, Ex.k 84⟩

/-- The bridge in the world of `tokenLedger`. -/
def bridgeEnv (L : Ledger) (signers : List Key) : Env :=
  { Ex.env L signers with program := Ex.k 70, pda := bridgePda }

/-- An instruction submitted to the bridge with exactly the privileges it asks for. -/
def submitBridge (S : Chain) (i : Except Err ClientIx) : Except Err Chain := do
  let i ← i
  bridgeProcess (only (bridgeEnv S.ledger []) i.metas) (tokenConsts none) S i.keys i.data

/-- `k 3` creates the asset of the token `k 10`, naming only the mint. -/
def createdByJs : Except Err Chain :=
  submitBridge ⟨tokenLedger 0, fun _ => Ex.k 2⟩
    (jsBridgeCreate (bridgeEnv (tokenLedger 0) []) someLibs ⟨Ex.k 3, Ex.k 5⟩
      { mint := Ex.k 10, isCollection := true })

/-- Then `k 2` bridges it out, and back. -/
def bridgedByJs (n : Nat) : Except Err Chain :=
  match n with
  | 0 => createdByJs
  | n + 1 => do
    let S ← bridgedByJs n
    submitBridge S (jsBridge (bridgeEnv S.ledger []) someLibs ⟨Ex.k 2, Ex.k 2⟩
      { mint := Ex.k 10, owner := Ex.k 2 })

example : createdByJs.map tokenView = (tokenCreate 0 none [Ex.k 3] 1).map tokenView := by
  decide +kernel
example : (bridgedByJs 1).map bridgeView = .ok (Ex.k 20, Ex.k 2, true) ∧
    (bridgedByJs 2).map bridgeView = .ok (Ex.k 2, Ex.k 20, false) := by decide +kernel

/-- What the clients read from the vault. -/
example : (createdByJs.bind fun S => jsReadVault (S.ledger (Ex.k 20)).data) =
    .ok ⟨false, 255, Ex.k 10, 255⟩ ∧
    (createdByJs.map fun S => rustReadVault (S.ledger (Ex.k 20)).data) =
      .ok (some (1, ⟨false, 255, Ex.k 10, 255⟩)) := by decide +kernel
example : ∃ S, createdByJs = .ok S ∧
    IsVault bridgePda (Ex.k 70) (Ex.k 20) (Ex.k 1) (Ex.k 10) S := by
  have h : (createdByJs.map fun S => ((S.ledger (Ex.k 20)).owner, (S.ledger (Ex.k 20)).data)) =
    .ok (Ex.k 70, [1, 0, 255] ++ (Ex.k 10).1 ++ [255]) := by decide +kernel
  cases hS : createdByJs with
  | error e => rw [hS] at h; cases h
  | ok S =>
    rw [hS] at h
    have h := Except.ok.inj h
    have h1 : (S.ledger (Ex.k 20)).owner = Ex.k 70 := congrArg Prod.fst h
    have h2 : (S.ledger (Ex.k 20)).data = _ := congrArg Prod.snd h
    refine ⟨S, rfl, ?_⟩
    unfold IsVault
    rw [h1, h2]
    decide +kernel

/-- The hypotheses on the privileges can be met: the whole signs of the environment are granted. -/
def bridgeCreateBy (signs : Bool) : BridgeCall :=
  .create ⟨Ex.k 1, Ex.k 20, Ex.k 10, Ex.k 11, Ex.k 3, none, Ex.k 5, Key.system⟩ signs Ex.prog true
example : Grants (bridgeEnv (tokenLedger 0) [Ex.k 3, Ex.k 5]) ((bridgeCreateBy true).metas (Ex.k 70)) ∧
    BridgeFlags (bridgeEnv (tokenLedger 0) [Ex.k 3, Ex.k 5]) (bridgeCreateBy true) := by
  refine ⟨?_, fun _ => rfl⟩
  unfold Grants
  decide +kernel

/-- Without the flag the signature of the update authority does not count. -/
example : let E := bridgeEnv (tokenLedger 0) [Ex.k 3, Ex.k 5]
    let S : Chain := ⟨tokenLedger 0, fun _ => Ex.k 2⟩
    (bridgeMeant (only E ((bridgeCreateBy true).metas (Ex.k 70))) (tokenConsts none) S
      (bridgeCreateBy true)).isOk = true ∧
    (bridgeMeant (only E ((bridgeCreateBy false).metas (Ex.k 70))) (tokenConsts none) S
      (bridgeCreateBy false)).isOk = false := by decide +kernel

/-- The descriptions of the accounts name other seeds (programs/bridge/src/instruction.rs:13-14, 36-37 and
41), which lead elsewhere. -/
theorem C62_described_seeds_false : ∃ (E : Env) (mint v a v' a' : Key),
    jsVault E mint = .ok v ∧ jsBridgeAsset E mint = .ok a ∧
    findPda E ("nifty::bridge::vault".toList.map (fun c => UInt8.ofNat c.toNat) ++ mint.1) 255 =
      .ok (v', 255) ∧
    findPda E ("nifty::bridge::asset".toList.map (fun c => UInt8.ofNat c.toNat) ++ mint.1) 255 =
      .ok (a', 255) ∧ v ≠ v' ∧ a ≠ a' :=
  ⟨{ bridgeEnv (tokenLedger 0) [] with
      pda := fun s _ _ => some (if s.length = 37 then Ex.k 1 else Ex.k 2) },
    Ex.k 10, Ex.k 1, Ex.k 1, Ex.k 2, Ex.k 2, by decide +kernel⟩

end Verif.Props

import Verif.Lemmas.Births
import Verif.Lemmas.BridgeCreate
import Verif.Spec.Tokens
import Verif.Props.C23

/-!
# Creating an asset on the bridge goes through
-/

namespace Verif

open Verif.Spec Verif.Props

section
variable {E : Env} {C : BridgeConsts} {L L' : Ledger} {x : BridgeCreateAccts} {m : TokenMetadata}
  {col : Bool} {total : Nat} {es : List Extn}

/-- A call with privileges the caller has is an instruction. -/
theorem bridgeCall_live {c : Call} {pda : Key} (hok : InstrOk (instrOf c))
    (hp : ∀ m ∈ (c.build C.assetId).metas, mayRequest E [pda] m = true)
    (h : execute (calleeEnv E C.assetId L (c.build C.assetId).metas) L (c.build C.assetId).keys
        (instrOf c) = .ok L') : bridgeCall E C pda L c = .ok L' := by
  unfold bridgeCall invokeAsset
  rw [Call.data_eq, if_pos (List.all_eq_true.mpr hp)]
  unfold executeBytes
  rw [decode_encode hok]
  exact h

/-- The state between the calls. -/
structure Between (E : Env) (C : BridgeConsts) (L0 L : Ledger) (x : BridgeCreateAccts) (total : Nat)
    (es : List Extn) : Prop where
  underway : Underway C.assetId L x.asset x.payer total
  ready : Ready (L x.asset).data es
  paid : Paid L0 L x.asset x.payer

/-- What holds throughout. -/
structure Going (E : Env) (C : BridgeConsts) (L0 : Ledger) (x : BridgeCreateAccts) : Prop where
  signer : E.signer x.payer = true
  writable : E.writable x.asset = true ∧ E.writable x.payer = true
  notSystem : C.assetId ≠ Key.system
  notPayer : x.payer ≠ C.assetId
  sys : x.sys = Key.system
  whole : ∀ y ∈ [x.updateAuthority, x.vault, C.assetId, Key.system], Whole C.assetId L0 y

theorem bridgeAllocate_one {L0 : Ledger} {e : Extn} {size : Nat} (hg : Going E C L0 x)
    (ha : Affords E size total) (hmax : size ≤ 10485760) (hst : Between E C L0 L x total es)
    (ht : e.1 ≠ .none) (hn : e.1 ∉ es.map (·.1)) (hsz : packedEnd 168 (es ++ [e]) ≤ size)
    (hsm : e.2.length ≤ 10000) :
    ∃ L2, bridgeCall E C x.asset L
        (.allocate x.asset (some x.payer) (some x.sys) (inlineExt e.1 e.2)) = .ok L2 ∧
      Between E C L0 L2 x total (es ++ [e]) := by
  obtain ⟨hu, hrd, hpd⟩ := hst
  have hend : packedEnd 168 (es ++ [e]) = roundUp8 (packedEnd 168 es + 16 + e.2.length) := by
    rw [packedEnd_append]; rfl
  rw [hend] at hsz
  have hru := le_roundUp8 (packedEnd 168 es + 16 + e.2.length)
  have hge := le_packedEnd 168 es
  have hl0 := hrd.length_le
  have hn32 : (UInt32.ofNat e.2.length).toNat = e.2.length :=
    UInt32.toNat_ofNat_of_lt (by simp [UInt32.size]; omega)
  rw [hg.sys]
  generalize hx : inlineExt e.1 e.2 = i
  have hgx : given i = e.2 := by rw [← hx]; rfl
  have hxl : i.length.toNat = e.2.length := by rw [← hx]; exact hn32
  have hxt : i.ty = e.1 := by rw [← hx]; rfl
  have hfit : Fits i := by
    refine ⟨by omega, ?_⟩
    intro q hq
    rw [← hx] at hq
    obtain rfl := Option.some.inj hq
    omega
  generalize hE : calleeEnv E C.assetId L
    ((Call.allocate x.asset (some x.payer) (some Key.system) i).build C.assetId).metas = E1
  have hprog : E1.program = C.assetId := by rw [← hE]; rfl
  have hs : Serves E1 L x.asset x.payer := by
    rw [← hE]
    refine ⟨⟨?_, ?_⟩, ⟨?_, ?_⟩, rfl⟩ <;> simp [calleeEnv, Call.build, Call.metas, metaRw, metaOpt]
  have hu1 : Underway E1.program L x.asset x.payer total := by rw [hprog]; exact hu
  obtain ⟨L1, a1, a2, a3⟩ := allocate_live hu1 hs hrd hfit (by rw [hxt]; exact ht)
    (by rw [hxt]; exact hn) (by rw [hgx]; omega) (by rw [hgx]; omega)
    ⟨ha.1, fun m hm => by
      rw [hrd.nextAt, hgx] at hm
      have : E1.rent m = E.rent m := by rw [← hE]; rfl
      rw [this]
      exact ha.2 m (by omega)⟩
  obtain ⟨base, b1, b2, b3⟩ := hrd.open
  have hbl : base.length = packedEnd 168 es := b3.end_eq
  have x1 := (allocate_exact a1 b1 (by omega) hfit (by rw [hxt]; exact ht)).1 (by rw [hgx, hxl])
  rw [hxt, hgx] at x1
  have hl1 : (L1 x.asset).data.length = roundUp8 (packedEnd 168 es + 16 + e.2.length) := by
    rw [x1, length_finished, hbl]
  refine ⟨L1, ?_, a2.underway hu (by rw [a3, hprog]) (by
      intro h0; rw [h0] at hl1; simp only [List.length_nil] at hl1; omega), ?_, hpd.trans a2⟩
  · refine bridgeCall_live (fun q hq => hfit.2 q hq) ?_ ?_
    · intro y hy
      simp only [Call.build, Call.metas, metaRw, metaRo, metaOpt, List.mem_cons,
        List.not_mem_nil, or_false] at hy
      rcases hy with rfl | rfl | rfl
      · simp [mayRequest, hg.writable.1]
      · simp [mayRequest, hg.writable.2, hg.signer]
      · simp [mayRequest]
    · rw [hE]
      refine accept_open hu1 hs hrd.blank rfl ?_ (by rw [hprog]; exact hg.notSystem) rfl ?_ a2
        (by omega)
      · intro y hy h1 h2
        rw [hprog]
        simp only [ClientIx.keys, Call.build, Call.metas, metaRw, metaRo, metaOpt, List.map_cons,
          List.map_nil, List.mem_cons, List.not_mem_nil, or_false] at hy
        rcases hy with rfl | rfl | rfl
        · exact absurd rfl h1
        · exact absurd rfl h2
        · exact Whole.paid hpd h1 h2 (hg.whole _ (by simp))
      · show processAllocate E1 L x.asset (optAcc E1 x.payer) (optAcc E1 Key.system) i = _
        unfold optAcc
        rw [hprog, if_neg hg.notPayer, if_neg (Ne.symm hg.notSystem)]
        exact a1
  · rw [x1]
    exact finished_ready b2 b3 ht (by rw [length_finished, hbl]; omega)

theorem bridgeAllocate_live {L0 : Ledger} {xs : List Extn} {size : Nat} (hg : Going E C L0 x)
    (ha : Affords E size total) (hmax : size ≤ 10485760) :
    ∀ {L : Ledger} {es : List Extn}, Between E C L0 L x total es →
      ((es ++ xs).map (·.1)).Nodup → (∀ e ∈ xs, e.1 ≠ .none ∧ e.2.length ≤ 10000) →
      packedEnd 168 (es ++ xs) ≤ size →
      ∃ L2, bridgeAllocate E C x L xs = .ok L2 ∧ Between E C L0 L2 x total (es ++ xs) := by
  induction xs with
  | nil => exact fun h _ _ _ => ⟨_, rfl, by simpa using h⟩
  | cons e xs ih =>
    intro L es hst hnd hx hsz
    obtain ⟨hx1, hx2⟩ := hx e (by simp)
    have hsz1 : packedEnd 168 (es ++ [e]) ≤ size := by
      rw [show es ++ e :: xs = (es ++ [e]) ++ xs by simp, packedEnd_append] at hsz
      have := le_packedEnd (packedEnd 168 (es ++ [e])) xs
      omega
    have hnew : e.1 ∉ es.map (·.1) := by
      rw [List.map_append, List.nodup_append] at hnd
      intro hm
      exact hnd.2.2 _ hm e.1 (by simp) rfl
    obtain ⟨L1, g1, g2⟩ := bridgeAllocate_one hg ha hmax hst hx1 hnew hsz1 hx2
    obtain ⟨L2, k1, k2⟩ := ih g2 (by simpa using hnd) (fun y hy => hx y (by simp [hy]))
      (by simpa using hsz)
    refine ⟨L2, ?_, by simpa using k2⟩
    unfold bridgeAllocate
    rw [g1]
    exact k1

/-- The extensions for a token, by cases. -/
theorem mem_bridgeExts {e : Extn} (he : e ∈ bridgeExts m col) :
    e = (.metadata, metadataBuilderSet (some m.symbol) none (some m.uri) none) ∨
    (∃ l, m.creators = some l ∧ e = (.creators, bridgeCreators l)) ∨ e = (.grouping, zeros 48) ∨
    e = (.royalties, royaltiesBuilderSet m.sellerFee.toNat (buildC .empty)) := by
  unfold bridgeExts at he
  rw [List.mem_append, List.mem_append] at he
  rcases he with (he | he) | he
  · exact Or.inl (List.mem_singleton.mp he)
  · cases hc : m.creators with
    | none => rw [hc] at he; simp at he
    | some l => rw [hc] at he; exact Or.inr (Or.inl ⟨l, rfl, List.mem_singleton.mp he⟩)
  · split at he
    · rcases List.mem_append.mp he with he | he
      · exact Or.inr (Or.inr (Or.inl (List.mem_singleton.mp he)))
      · split at he
        · exact Or.inr (Or.inr (Or.inr (List.mem_singleton.mp he)))
        · simp at he
    · simp at he

/-- The extensions for a token are acceptable. -/
theorem bridgeExts_accepted (hr : RegularToken m) :
    ∀ y ∈ bridgeExts m col, ∃ q, onCreate y.1 y.2 (some m.updateAuthority) = .ok q := by
  obtain ⟨_, _, g3, g4, g5⟩ := hr.good
  intro y hy
  rcases mem_bridgeExts hy with rfl | ⟨l, hl, rfl⟩ | rfl | rfl
  · refine ⟨_, (onCreate_iff (t := .metadata) (by decide)).mpr ⟨rfl, readMetadata_iff.mp ⟨_,
      C23_metadata (some m.symbol) none (some m.uri) none g3 (by simp) g4 (by simp)⟩⟩⟩
  · unfold bridgeCreators
    rw [(creatorsBuilder_foldl l (g5 l hl)).1]
    generalize hcs : (l.map fun c => (⟨c.1, podBool c.2.1, c.2.2⟩ : Creator)) = cs
    have hs : shareTotal cs = 100 := by
      have h := sumShares_bytes cs
      unfold sumShares at h
      rw [creatorList_bytes, ← hcs, List.map_map] at h
      have := hr.shares l hl
      refine UInt8.toNat_inj.mp ?_
      rw [← hcs, ← h]
      show (l.map fun c => c.2.2.toNat).sum % 256 = 100
      rw [this]
    refine ⟨_, show onCreate .creators (creatorsBytes cs) _ =
      .ok (creatorsBytes (cs.map fun c =>
        ⟨c.address, initialVerified (some m.updateAuthority) c, c.share⟩)) from ?_⟩
    simp only [onCreate]
    inv
    refine ⟨cs, readCreators_eq.mpr rfl, _, creatorsOnCreate_ok.mpr ⟨rfl, ?_⟩, rfl⟩
    rw [← hs]
    unfold shareTotal
    rw [List.foldl_map]
  · refine ⟨zeros 48, (onCreate_iff (t := .grouping) (by decide)).mpr ⟨⟨?_, ?_, rfl, ?_⟩, ?_, ?_⟩⟩ <;>
      decide +kernel
  · have hlt : m.sellerFee.toNat < 65536 := m.sellerFee.toNat_lt
    have hfee := hr.fee
    refine ⟨_, (onCreate_iff (t := .royalties) (by decide)).mpr ⟨⟨rfl, ?_, ?_⟩, readRoyalties_iff.mp ⟨_,
      C23_royalties _ _ (by omega) (by simp [SelectorsFit]) (by decide)⟩⟩⟩
    · simp [royaltiesBuilderSet, length_toLE]
    · unfold royaltiesBuilderSet
      rw [List.take_left' (length_toLE 8 _), leNat_toLE_of_lt (by omega)]
      exact hfee

/-- They are small. -/
theorem bridgeExts_small (hg : GoodToken m) :
    (∀ e ∈ bridgeExts m col, e.1 ≠ .none ∧ e.2.length ≤ 10000) ∧
    ((bridgeExts m col).map (·.1)).Nodup ∧ packedEnd 168 (bridgeExts m col) ≤ 10240 ∧
    (∀ e ∈ bridgeExts m col, e.1 ≠ .manager ∧ e.1 ≠ .proxy) := by
  obtain ⟨_, _, g3, g4, g5⟩ := hg
  have l1 : (metadataBuilderSet (some m.symbol) none (some m.uri) none).length ≤ 514 := by
    simp [metadataBuilderSet, writeOptStr, writeStr]
    omega
  have l2 : ∀ l, m.creators = some l → (bridgeCreators l).length ≤ 8704 := by
    intro l hl
    have := g5 l hl
    simp only [bridgeCreators]
    rw [(creatorsBuilder_foldl l this).1, length_creatorsBytes, List.length_map]
    omega
  have l3 : (zeros 48).length = 48 := by simp [zeros]
  have l4 : (royaltiesBuilderSet m.sellerFee.toNat (buildC .empty)).length = 16 := by
    have : (buildC .empty).length = 8 := by decide
    simp [royaltiesBuilderSet, length_toLE, this]
  refine ⟨?_, ?_, ?_, ?_⟩
  · intro e he
    rcases mem_bridgeExts he with rfl | ⟨l, hl, rfl⟩ | rfl | rfl
    · exact ⟨(by intro h; cases h), by simp only; omega⟩
    · have := l2 l hl
      exact ⟨(by intro h; cases h), by simp only; omega⟩
    · exact ⟨(by intro h; cases h), by simp only; omega⟩
    · exact ⟨(by intro h; cases h), by simp only; omega⟩
  · unfold bridgeExts
    cases m.creators <;> cases col <;> cases m.sized <;> cases m.programmable <;> simp
  · unfold bridgeExts
    cases hc : m.creators with
    | none =>
      cases col <;> cases m.sized <;> cases m.programmable <;>
        simp [packedEnd, roundUp8, l3, l4] <;> omega
    | some l =>
      have := l2 l hc
      cases col <;> cases m.sized <;> cases m.programmable <;>
        simp [packedEnd, roundUp8, l3, l4] <;> omega
  · intro e he
    rcases mem_bridgeExts he with rfl | ⟨l, hl, rfl⟩ | rfl | rfl <;>
      exact ⟨(by intro h; cases h), (by intro h; cases h)⟩

theorem createVault_live (h0 : L x.vault = ⟨0, [], Key.system⟩) (hv : x.payer ≠ x.vault)
    (hp : (L x.payer).owner = Key.system ∧ (L x.payer).data = []) (hs : E.signer x.payer = true)
    (hw : E.writable x.payer = true ∧ E.writable x.vault = true)
    (hl : E.rent 36 ≤ (L x.payer).lamports) (h64 : (L x.payer).lamports < 18446744073709551616) :
    createVault E L x.payer x.vault = .ok
      ((L.setLamports x.payer ((L x.payer).lamports - E.rent 36)).set x.vault
        ⟨E.rent 36, zeros 36, E.program⟩) := by
  have e64 : two64 = 18446744073709551616 := rfl
  have em : maxIncrease = 10240 := rfl
  unfold createVault
  rw [if_pos (by rw [h0])]
  unfold systemCreate
  rw [if_pos]
  refine ⟨by simp [hs], hw.1, by simp, hw.2, hv, hp.1, hp.2, hl, ?_, ?_, ?_, by omega, by omega⟩ <;>
    rw [h0]

end

end Verif

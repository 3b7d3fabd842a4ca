import Verif.Lemmas.BridgeLive
import Verif.Props.C47

/-!
# C53 — every regular token can be brought onto the bridge, unless lamports are in the way
-/

namespace Verif.Props

open Verif Verif.Spec

section
variable {E : Env} {C : BridgeConsts} {L L' : Ledger} {x : BridgeCreateAccts} {m : TokenMetadata}
  {col : Bool} {holder : Tokens}

/-- Create of the bridge goes through for every regular token whose vault and asset addresses are
unused, with the consent that is asked for and a payer that has the lamports. It yields an idle
vault that holds the asset, which mirrors the token; the lamports come from the payer, and no
other account changes. -/
theorem C53_create (hn : NewToken E C L x m) (hr : RegularToken m) (hc : Consents E C L x m)
    (hp : Programs E C L x) (h64 : (L x.payer).lamports < 18446744073709551616)
    (ha : ∀ n ≤ packedEnd 168 (bridgeExts m col), E.rent 36 + E.rent n ≤ (L x.payer).lamports) :
    ∃ L', processBridgeCreate E C L x col = .ok L' ∧
      (∃ A, Stores C.assetId L' x.asset A ∧ A.owner = x.vault ∧ A.delegate = Key.default ∧
        Mirrors m col A) ∧
      IsVault E.pda E.program x.vault x.asset x.mint ⟨L', holder⟩ ∧
      vaultActive ⟨L', holder⟩ x.vault = false ∧
      (L' x.payer).lamports + (L' x.vault).lamports + (L' x.asset).lamports =
        (L x.payer).lamports ∧
      ∀ y, y ≠ x.asset → y ≠ x.vault → y ≠ x.payer → L' y = L y := by
  obtain ⟨⟨bump, hv⟩, hv0⟩ := hn.vault
  obtain ⟨⟨abump, hb⟩, hb0⟩ := hn.asset
  obtain ⟨d1, d2, d3⟩ := hn.distinct
  obtain ⟨w1, w2, w3⟩ := hn.writable
  obtain ⟨m1, m2, m3, m4⟩ := hn.metadata
  have hrent := ha 0 (Nat.zero_le _)
  have hcv := createVault_live hv0 d3 hn.payer hn.signer ⟨w3, w2⟩ (by omega) h64
  generalize hL1 : (L.setLamports x.payer ((L x.payer).lamports - E.rent 36)).set x.vault
        ⟨E.rent 36, zeros 36, E.program⟩ = L1 at hcv
  generalize hL2 : L1.setData x.vault (newVault x.mint bump abump) = L2
  have hother : ∀ y, y ≠ x.vault → y ≠ x.payer → L2 y = L y := by
    intro y h1 h2
    rw [← hL2, Ledger.setData_other _ _ h1, ← hL1, Ledger.set_other _ _ h1,
      Ledger.setLamports_other _ _ h2]
  have hpay : L2 x.payer = { L x.payer with lamports := (L x.payer).lamports - E.rent 36 } := by
    rw [← hL2, Ledger.setData_other _ _ d3, ← hL1, Ledger.set_other _ _ d3]
    simp [Ledger.setLamports, Ledger.set]
  have hvl : (L2 x.vault).lamports = E.rent 36 ∧ (L2 x.vault).owner = E.program := by
    rw [← hL2, Ledger.setData_same, ← hL1]
    simp [Ledger.set]
  have hbl : L2 x.asset = ⟨0, [], Key.system⟩ := by
    rw [hother _ d1 (Ne.symm d2), hb0]
  have hgo : Going E C L2 x := by
    refine ⟨hn.signer, ⟨w1, w3⟩, hp.notSystem, hp.notPayer, hn.sys, ?_⟩
    intro y hy
    by_cases h1 : y = x.vault
    · intro h2
      rw [h1, hvl.2] at h2
      exact absurd h2 hp.bridge
    · by_cases h2 : y = x.payer
      · intro h3
        rw [h2, hpay] at h3
        exact absurd (h3.symm.trans hn.payer.1) hp.notSystem
      · unfold Whole
        rw [hother _ h1 h2]
        refine hp.whole y ?_
        simp only [List.mem_cons, List.not_mem_nil, or_false] at hy ⊢
        rcases hy with h | h | h | h
        · exact Or.inl h
        · exact absurd h h1
        · exact Or.inr (Or.inl h)
        · exact Or.inr (Or.inr h)
  obtain ⟨s1, s2, s3, s4⟩ := bridgeExts_small (col := col) hr.good
  generalize ht : (L x.payer).lamports - E.rent 36 = total
  have haf : Affords E (packedEnd 168 (bridgeExts m col)) total :=
    ⟨by omega, fun n h => by have := ha n h; omega⟩
  have h0 : Between E C L2 L2 x total [] := by
    refine ⟨⟨d2, ?_, ?_, fun _ => hbl, fun h => ?_⟩, Or.inl ⟨by rw [hbl], rfl⟩, Paid.refl⟩
    · rw [hpay]; exact hn.payer
    · rw [hpay, hbl, ← ht]; rfl
    · rw [hbl] at h; exact absurd rfl h
  obtain ⟨L3, a1, a2⟩ := bridgeAllocate_live hgo haf (by omega) h0 (by simpa using s2) s1
    (by simp)
  rw [List.nil_append] at a2
  obtain ⟨hu, hrd, hpd⟩ := a2
  generalize hE : calleeEnv E C.assetId L3 ((bridgeCreateCall x m).build C.assetId).metas = E1
  have hprog : E1.program = C.assetId := by rw [← hE]; rfl
  have hs : Serves E1 L3 x.asset x.payer := by
    rw [← hE]
    refine ⟨⟨?_, ?_⟩, ⟨?_, ?_⟩, rfl⟩ <;>
      simp [calleeEnv, bridgeCreateCall, Call.build, Call.metas, metaRw, metaOpt]
  have hu1 : Underway E1.program L3 x.asset x.payer total := by rw [hprog]; exact hu
  have h168 := le_packedEnd 168 (bridgeExts m col)
  obtain ⟨L4, c1, c2, c3, c4⟩ := create_live (au := m.updateAuthority) (owner := x.vault)
    (x := ⟨m.name, .nonFungible, true, none⟩) hu1 hs hrd (bridgeExts_accepted hr)
    (by
      have hno : ∀ t, (t = .manager ∨ t = .proxy) → t ∉ (bridgeExts m col).map (·.1) := by
        rintro t ht hm
        obtain ⟨e, he, rfl⟩ := List.mem_map.mp hm
        rcases ht with h | h
        · exact (s4 e he).1 h
        · exact (s4 e he).2 h
      refine ⟨⟨(by intro h; cases h), fun h => absurd h (hno _ (Or.inl rfl))⟩,
        ⟨(by intro h; cases h), fun h => absurd h (hno _ (Or.inr rfl))⟩, fun p hl => ?_⟩
      exact absurd (List.mem_map.mpr ⟨_, lookup_mem hl, rfl⟩) (hno _ (Or.inr rfl))) rfl
    ⟨by omega, fun n h => by
      have : E1.rent n = E.rent n := by rw [← hE]; rfl
      rw [this]
      exact haf.2 n (by omega)⟩
  have hex : execute E1 L3 ((bridgeCreateCall x m).build C.assetId).keys
      (instrOf (bridgeCreateCall x m)) = .ok L4 := by
    refine accept_open hu1 hs hrd.blank rfl ?_ (by rw [hprog]; exact hp.notSystem) rfl ?_ c2
      (by omega)
    · intro y hy h1 h2
      rw [hprog]
      simp only [bridgeCreateCall, ClientIx.keys, Call.build, Call.metas, metaRw, metaRo, metaOpt,
        List.map_cons, List.map_nil, List.mem_cons, List.not_mem_nil, or_false] at hy
      refine Whole.paid hpd h1 h2 (hgo.whole y ?_)
      rcases hy with rfl | rfl | rfl | rfl | rfl | rfl | rfl
      · exact absurd rfl h1
      · simp
      · simp
      · simp
      · simp
      · exact absurd rfl h2
      · simp [hn.sys]
    · show processCreate E1 L3 x.asset x.updateAuthority x.vault (optAcc E1 C.assetId)
        (optAcc E1 C.assetId) (optAcc E1 x.payer) (optAcc E1 x.sys) _ = _
      unfold optAcc
      rw [hprog, if_neg hp.notPayer, hn.sys, if_neg (Ne.symm hp.notSystem), if_pos rfl, ← m4]
      exact c1
  have hcall : bridgeCall E C x.asset L3 (bridgeCreateCall x m) = .ok L4 := by
    refine bridgeCall_live (bridgeCreate_fits hr.good) ?_ (by rw [hE]; exact hex)
    intro y hy
    simp only [bridgeCreateCall, Call.build, Call.metas, metaRw, metaRo, metaOpt, List.mem_cons,
      List.not_mem_nil, or_false] at hy
    rcases hy with rfl | rfl | rfl | rfl | rfl | rfl | rfl
    · simp [mayRequest, w1]
    · simp [mayRequest]
    · simp [mayRequest]
    · simp [mayRequest]
    · simp [mayRequest]
    · simp [mayRequest, w3, hn.signer]
    · simp [mayRequest]
  have hcons : bridgeConsent E C L x m = .ok () := by
    unfold bridgeConsent
    unfold Consents at hc
    split at hc
    · rename_i key hk
      obtain ⟨c, b, e1, e2, e3, e4⟩ := hc
      rw [hk, e1]
      simp only
      inv
      refine ⟨_, e2, ?_⟩
      inv
      refine ⟨trivial, e3, ?_, e4⟩
      intro h
      rw [h] at e4
      exact absurd e4 (by decide)
    · split
      · rename_i h1 _ _ h2
        exact absurd h2 (h1 _)
      · inv
        rw [← m4]
        exact hc
  have hall : processBridgeCreate E C L x col = .ok L4 := by
    unfold processBridgeCreate bridgeCreateChecks
    inv
    refine ⟨m, ⟨hn.mint, m1, ?_⟩, hcons, _, hv, ?_⟩
    · rw [m2]
      inv
      exact ⟨hr.nonFungible, m3, m4, trivial⟩
    · inv
      refine ⟨trivial, L1, hcv, _, hb, ?_⟩
      inv
      refine ⟨trivial, L3, ?_, hcall⟩
      rw [hL2]
      exact a1
  have hpaid := hpd.trans c2
  obtain ⟨m', A, q1, _, _, q2, q3, _, q4, q5, q6, q7⟩ := C47_created (holder := holder) hp.bridge
    (fun m' h' => by
      obtain rfl := Option.some.inj (m2.symm.trans h')
      exact hr.good) (by rw [hb0]) hall
  obtain rfl := Option.some.inj (m2.symm.trans q1)
  refine ⟨L4, hall, ⟨A, q4, q5, q6, q7⟩, q2, q3, ?_, fun y h1 h2 h3 => ?_⟩
  · have e1 := hpaid.sum
    rw [hpay, hbl] at e1
    simp only at e1
    rw [hpaid.others _ (Ne.symm d1) (Ne.symm d3), hvl.1]
    omega
  · rw [hpaid.others y h1 h3, hother y h2 h3]

/-- Lamports on the address of the vault: Create fails, whoever signs. -/
theorem C53_vault_blocked (h : (L x.vault).lamports ≠ 0) :
    ∃ e, processBridgeCreate E C L x col = .error e := by
  cases hr : processBridgeCreate E C L x col with
  | error e => exact ⟨e, rfl⟩
  | ok L' =>
    obtain ⟨m, bump, assetBump, L1, L2, _, _, _, c4, _⟩ := bridgeCreate_ok hr
    exact absurd (createVault_ok c4).2.2.1 h

/-- Lamports on the address of the asset while it has no data: Create fails, whoever signs. -/
theorem C53_asset_blocked (hne : E.program ≠ C.assetId)
    (hgood : ∀ m, C.metadata (L x.metadata).data = some m → GoodToken m)
    (h0 : (L x.asset).data = []) (hpay : x.asset ≠ x.payer) (h : (L x.asset).lamports ≠ 0) :
    ∃ e, processBridgeCreate E C L x col = .error e := by
  cases hr : processBridgeCreate E C L x col with
  | error e => exact ⟨e, rfl⟩
  | ok L' =>
    exfalso
    obtain ⟨m, bump, assetBump, L1, L2, c1, _, _, c4, _, c6, _⟩ := bridgeCreate_ok hr
    obtain ⟨e, es, he⟩ : ∃ e es, bridgeExts m col = e :: es := ⟨_, _, rfl⟩
    have hl := (bridgeExts_fit (col := col) (hgood m c1.1) e (by rw [he]; simp)).2
    rw [he] at c6
    unfold bridgeAllocate at c6
    inv at c6
    obtain ⟨L3, h3, _⟩ := c6
    obtain ⟨hx, _⟩ := bridgeCall_ok (bridgeAllocate_fits (x := x) hl) h3
    obtain ⟨a, p, s, rest, e1, hp⟩ := exec_allocate hx
    obtain rfl : x.asset = a := by
      simpa [ClientIx.keys, Call.build, Call.metas, metaRw] using congrArg List.head? e1
    have hlam : x.asset ≠ x.vault → (L1 x.asset).lamports = (L x.asset).lamports := by
      intro hav
      unfold createVault at c4
      split at c4
      · unfold systemCreate at c4
        split at c4
        · cases c4
          rw [Ledger.set_other _ _ hav, Ledger.setLamports_other _ _ hpay]
        · cases c4
      · cases c4
    have hprog : (calleeEnv E C.assetId (L1.setData x.vault (newVault x.mint bump assetBump))
        ((Call.allocate x.asset (some x.payer) (some x.sys) (inlineExt e.1 e.2)).build
          C.assetId).metas).program = C.assetId := rfl
    by_cases hav : x.asset = x.vault
    · rcases (processAllocate_eff hp).2.2.2 with ⟨_, _, q⟩ | ⟨q, _⟩
      · rw [hav] at h
        exact h (createVault_ok c4).2.2.1
      · rw [hprog, hav, Ledger.setData_same] at q
        exact hne ((createVault_ok c4).2.1.symm.trans q)
    · rcases (processAllocate_eff hp).2.2.2 with ⟨_, _, q⟩ | ⟨_, q, _⟩
      · rw [Ledger.setData_other _ _ hav, hlam hav] at q
        exact h q
      · rw [Ledger.setData_other _ _ hav, ((createVault_ok c4).2.2.2 _ hav).1, h0] at q
        simp at q

/-- The same holds for the asset program: as long as there are lamports on an account without
data, neither Allocate nor Create succeeds on it. -/
theorem C53_account_blocked {accts : List Key} {i : Instr} {k : Key}
    (hi : (∃ y, i = .create y) ∨ ∃ y, i = .allocate y) (hk : accts.head? = some k)
    (h0 : (L k).data = []) (h : (L k).lamports ≠ 0) : ∃ e, execute E L accts i = .error e := by
  cases hr : execute E L accts i with
  | error e => exact ⟨e, rfl⟩
  | ok L' =>
    exfalso
    have key : ((L k).data = [] ∧ (L k).owner = Key.system ∧ (L k).lamports = 0) ∨
        168 ≤ (L k).data.length := by
      rcases hi with ⟨y, rfl⟩ | ⟨y, rfl⟩
      · obtain ⟨a, au, o, g, ga, p, s, rest, L2, es0, es, rfl, _, q, _⟩ := create_result hr
        obtain rfl : a = k := by simpa using hk
        rcases q with q | q
        · exact Or.inl q
        · exact Or.inr q.2.1
      · obtain ⟨a, p, s, rest, rfl, hp⟩ := exec_allocate hr
        obtain rfl : a = k := by simpa using hk
        rcases (processAllocate_eff hp).2.2.2 with q | q
        · exact Or.inl q
        · exact Or.inr q.2.1
    rcases key with ⟨_, _, q⟩ | q
    · exact h q
    · rw [h0] at q
      simp at q

end

section Examples
open Verif.Ex

/-- The environment of `tokenCreate`. -/
def tokenEnv (signers : List Key) : Env :=
  { env (tokenLedger 0) (k 5 :: signers) with program := k 70, pda := bridgePda }

/-- The token of C47 with the consent of its update authority. -/
def tokenRequest : BridgeCreateAccts := ⟨k 1, k 20, k 10, k 11, k 3, some (k 6), k 5, Key.system⟩

example : ∃ L', processBridgeCreate (tokenEnv [k 3]) (tokenConsts none) (tokenLedger 0) tokenRequest
      true = .ok L' ∧
    (∃ A, Stores prog L' (k 1) A ∧ A.owner = k 20 ∧ A.delegate = Key.default ∧
      Mirrors (someToken none) true A) ∧
    (L' (k 5)).lamports + (L' (k 20)).lamports + (L' (k 1)).lamports = 5000000 := by
  obtain ⟨L', h1, h2, _, _, h3, _⟩ := C53_create (E := tokenEnv [k 3]) (C := tokenConsts none)
    (L := tokenLedger 0) (x := tokenRequest) (m := someToken none) (col := true)
    (holder := fun _ => k 2)
    ⟨by decide +kernel, ⟨by decide +kernel, rfl, rfl, rfl⟩,
      ⟨⟨255, by decide +kernel⟩, by decide +kernel⟩, ⟨⟨255, by decide +kernel⟩, by decide +kernel⟩,
      by decide +kernel, by decide +kernel, by decide +kernel, by decide +kernel, rfl⟩
    ⟨⟨by simp [someToken], show validUtf8 [65] = true by decide, by simp [someToken],
      by simp [someToken], by rintro l ⟨⟩; decide⟩, rfl, by rintro l ⟨⟩; decide, by decide⟩
    (show (tokenEnv [k 3]).signer (k 3) = true by decide +kernel)
    ⟨by decide +kernel, by decide +kernel, by decide +kernel, by
      intro y hy h1 h2
      have : y = k 3 ∨ y = prog ∨ y = Key.system := by
        simpa [tokenRequest, tokenConsts] using hy
      rcases this with rfl | rfl | rfl
      · exact absurd h1 (by decide +kernel)
      · exact absurd h1 (by decide +kernel)
      · exact absurd h1 (by decide +kernel)⟩ (by decide +kernel) (by
      intro n hn
      rw [show packedEnd 168 (bridgeExts (someToken none) true) = 376 by decide +kernel] at hn
      show 128 + 36 + (128 + n) ≤ (tokenLedger 0 (k 5)).lamports
      rw [show (tokenLedger 0 (k 5)).lamports = 5000000 by decide +kernel]
      omega)
  exact ⟨L', h1, h2, h3.trans (by decide +kernel)⟩

/-- The negation of "every regular token can be bridged": one lamport on the address of the vault,
which anybody may send there, and no Create goes through, whoever signs it. -/
theorem C53_false :
    (tokenCreate 0 none [k 3] 1).isOk = true ∧ Foreign prog (tokenLedger 0) (tokenLedger 1) ∧
    ∀ (E : Env) (C : BridgeConsts) (x : BridgeCreateAccts) (col : Bool), x.vault = k 20 →
      ∃ e, processBridgeCreate E C (tokenLedger 1) x col = .error e := by
  refine ⟨by decide +kernel, ?_, fun E C x col hx => C53_vault_blocked ?_⟩
  · intro y
    have : (tokenLedger 1 y).owner = (tokenLedger 0 y).owner ∧
        (tokenLedger 1 y).data = (tokenLedger 0 y).data := by
      have hc : ∀ (a : Key × Account) (l : List (Key × Account)),
          ledger (a :: l) y = if a.1 = y then a.2 else ledger l y := by
        intro a l
        unfold ledger
        rw [List.find?_cons]
        by_cases h : a.1 = y <;> simp [h]
      unfold tokenLedger
      simp only [hc]
      repeat' split
      all_goals exact ⟨rfl, rfl⟩
    rw [this.1, this.2]
    exact ⟨fun h => ⟨h, rfl⟩, fun h h' => absurd h' h⟩
  · rw [hx]
    decide +kernel

end Examples

end Verif.Props

import Verif.Props.C48
import Verif.Props.C20
import Verif.Props.C32
import Verif.Spec.Exact

/-!
# C67 — exactly when a transfer, a burn or a verification is accepted

C48 says that the requests of those entitled are accepted. Here the conditions are shown to be
exact: with any of them missing the request is refused.
-/

namespace Verif.Props

open Verif Verif.Spec

section
variable {E : Env} {L L' : Ledger} {k s : Key} {A : Asset} {rest : List Key}

/-- Accounts that are whole and not locked are calm. -/
theorem calm_of {x : Key} (h1 : Whole E.program L x) (h2 : ¬ LockedAt E.program L x) :
    Calm E.program L x := fun ho hd => ⟨h1 ho hd, fun h => h2 ⟨ho, hd, h⟩⟩

theorem accept_seven {i : Instr} {accts : List Key} (hs : Stores E.program L k A)
    (hu : Usable E k A) (ha : accts.head? = some k)
    (hc : ∀ x ∈ accts.take 7, Calm E.program L x)
    (hd : dispatch E L i (accts.take 7) = .ok L')
    (hw : ∀ x ∈ accts, changeAllowed E x (L x) (L' x) = true) : execute E L accts i = .ok L' := by
  have ha' : (accts.take 7).head? = some k := by
    cases accts with
    | nil => cases ha
    | cons a as => simpa using ha
  unfold execute processInstr
  inv
  refine ⟨L', ⟨proxied_ok hs hu ha', false, lockedScan_calm hc, by simp, hd⟩, ?_⟩
  rw [if_pos (by rw [List.all_eq_true]; exact hw)]
  rfl

theorem no_lock {i : Instr} {accts : List Key} (h : execute E L accts i = .ok L')
    (hb : i.blockedByLock = true) : ∀ x ∈ accts.take 7, ¬ LockedAt E.program L x := by
  rintro x hx ⟨h1, h2, h3⟩
  refine lockedScan_false ((execute_ok h).2.1 hb) x hx h1 ?_ h2 h3
  intro hn
  rw [hn] at h2
  exact absurd h2 (by decide)

/-- The royalties gate, exactly. -/
theorem royalties_iff {a r : Key} (hs : Stores E.program L k A) (hu : Understood L a s r A) :
    (∃ b, processRoyalties E L a s r (L k).data = .ok b) ↔ RoyaltiesAllow E L a s r A := by
  constructor
  · rintro ⟨b, h⟩ p hp
    unfold processRoyalties at h
    rw [hs.get (by decide), hp] at h
    simp only [bind, Except.bind] at h
    cases hr : readRoyalties p with
    | error e => rw [hr] at h; cases h
    | ok y =>
      rw [hr] at h
      unfold readRoyalties at hr
      split at hr
      · cases hr
      · rename_i hl
        refine ⟨by omega, ?_⟩
        cases hc : parseConstraint (p.drop 8) with
        | error e => rw [hc] at hr; cases hr
        | ok c =>
          rw [hc] at hr
          cases hr
          refine ⟨c, rfl, ?_⟩
          by_cases hw : E.inCpi = false ∧ (L s).owner = Key.system ∧ (L r).owner = Key.system
          · exact .inl hw
          · right
            have hsc := hu p c hp hc
            refine ⟨hsc, ?_⟩
            dsimp only at h
            rw [if_pos hw] at h
            obtain ⟨v, hv⟩ := evalC_total _ _ hsc
            rw [show (⟨targetOf L a, targetOf L s, some (targetOf L r)⟩ : CCtx) =
              ⟨targetAt L a, targetAt L s, some (targetAt L r)⟩ from rfl] at h
            rw [hv] at h
            dsimp only at h
            cases v with
            | false => cases h
            | true => exact (evalC_holds _ _ _ hv).mp rfl
  · intro h
    obtain ⟨b, hb, _⟩ := royalties_ok hs h
    exact ⟨b, hb⟩

/-- Transfer, exactly: the owner or a delegate with the role signs, no locked asset is among the
accounts, the asset is not soulbound, its royalties allow it, and so do those of its group unless
the recipient owns the asset already. -/
theorem C67_transfer {r g : Key} (hs : Stores E.program L k A) (hu : Usable E k A)
    (hm : ManagerReadable A)
    (hw : ∀ x ∈ k :: s :: r :: g :: rest, Whole E.program L x) (hroy : Understood L k s r A)
    (hg : AssetOrNone E.program L g fun G => Understood L k s r G) :
    (∃ L', execute E L (k :: s :: r :: g :: rest) .transfer = .ok L') ↔
      E.signer s = true ∧ (A.owner = s ∨ A.Delegated s .transfer) ∧
      (∀ x ∈ (k :: s :: r :: g :: rest).take 7, ¬ LockedAt E.program L x) ∧
      A.standard ≠ 2 ∧ RoyaltiesAllow E L k s r A ∧
      (A.owner = r ∨ GroupAllows E L k s r g A) := by
  constructor
  · rintro ⟨L', h⟩
    have hlock := no_lock h rfl
    obtain ⟨a', s', r', g', rest', he, ht⟩ := exec_transfer h
    cases he
    unfold processTransfer at ht
    inv at ht
    obtain ⟨_, h1, _, b, hb, h2, al, h3, h4, ht⟩ := ht
    subst h4
    refine ⟨h1, ?_, hlock, by rw [← hs.standard_eq]; exact h2,
      (royalties_iff hs hroy).mp ⟨b, hb⟩, ?_⟩
    · rcases ownerOrDelegate_true h3 with h | h
      · exact .inl (by rw [← hs.owner_eq]; exact h)
      · exact .inr (hs.delegated h)
    · split at ht
      · rename_i ho
        exact .inl (by rw [← hs.owner_eq]; exact ho)
      · right
        intro hne hnone
        obtain ⟨b', hb', hbt⟩ := royalties_ok hs ((royalties_iff hs hroy).mp ⟨b, hb⟩)
        rw [hb] at hb'
        cases hb'
        have hbf : b = false := by
          cases b with
          | false => rfl
          | true => exact absurd hnone (hbt.mp rfl)
        subst hbf
        inv at ht
        have hgc := ht.1
        unfold transferGroupCheck at hgc
        rw [hs.group_eq] at hgc
        unfold nullable at hgc
        rw [if_neg hne] at hgc
        simp only [Bool.false_eq_true, if_false] at hgc
        unfold optAcc at hgc
        split at hgc
        · cases hgc
        · rename_i ga hga
          split at hga
          · cases hga
          · rename_i hnp
            cases hga
            inv at hgc
            obtain ⟨e1, e2, e3, _, e5, b2, hb2, _⟩ := hgc
            obtain ⟨G, hG, hGu⟩ := hg e1 e5
            exact ⟨e2.symm, e3, hnp, G, hG, (royalties_iff hG hGu).mp ⟨b2, hb2⟩⟩
  · rintro ⟨h1, h2, h3, h4, h5, h6⟩
    have hc : ∀ x ∈ (k :: s :: r :: g :: rest).take 7, Calm E.program L x := fun x hx =>
      calm_of (hw x (List.mem_of_mem_take hx)) (h3 x hx)
    obtain ⟨b, hb, hbr⟩ := royalties_ok hs h5
    have hallow := ownerOrDelegate_ok hs hm h2
    by_cases ho : A.owner = r
    · refine ⟨L, accept_seven hs hu rfl hc ?_ (fun x _ => changed_nothing x)⟩
      show processTransfer E L k s r (optAcc E g) = _
      unfold processTransfer
      inv
      refine ⟨hs.1.1, h1, hs.init, b, hb, by rw [hs.standard_eq]; exact h4, true, hallow, rfl, ?_⟩
      rw [if_pos (by rw [hs.owner_eq]; exact ho)]
      rfl
    · have h6 := h6.resolve_left ho
      have hst := stores_transfer hs r
      refine ⟨_, accept_seven (L' := L.setData k (setDelegate (setOwner (L k).data r) Key.default 0))
        hs hu rfl hc ?_ (fun x _ => changed_asset hs hu hst x)⟩
      show processTransfer E L k s r (optAcc E g) = _
      unfold processTransfer
      inv
      refine ⟨hs.1.1, h1, hs.init, b, hb, by rw [hs.standard_eq]; exact h4, true, hallow, rfl, ?_⟩
      rw [if_neg (by rw [hs.owner_eq]; exact ho)]
      inv
      refine ⟨?_, trivial⟩
      unfold transferGroupCheck
      rw [hs.group_eq]
      unfold nullable
      by_cases hne : A.group = Key.default
      · rw [if_pos hne]
      · rw [if_neg hne]
        simp only
        split
        · rfl
        · rename_i hbt
          have hnone : lookup .royalties A.exts = none := by
            by_contra hx
            exact hbt (hbr.mpr hx)
          obtain ⟨rfl, e2, e3, G, hG, hrg⟩ := h6 hne hnone
          obtain ⟨b', hb', _⟩ := royalties_ok hG hrg
          unfold optAcc
          rw [if_neg e3]
          inv
          refine ⟨hG.1.1, trivial, e2, ?_, hG.1.2.2, b', hb', trivial⟩
          intro hnil
          have := hG.1.2.1
          rw [hnil] at this
          simp at this

/-- Burn, exactly: the owner or a delegate with the role signs, no locked asset is among the
accounts, the asset is no group with members, and the group of a member is given and counts at
least one member. -/
theorem C67_burn {r g : Key} (hs : Stores E.program L k A) (hu : Usable E k A)
    (hm : ManagerReadable A) (hgr : GroupReadable A)
    (hw : ∀ x ∈ k :: s :: r :: g :: rest, Whole E.program L x)
    (hg : A.group = g → g ≠ E.program → E.writable g = true ∧
      ∃ G, Stores E.program L g G ∧ GroupReadable G)
    (hr : r ≠ E.program) (hrk : r ≠ k) (hrw : E.writable r = true)
    (hrd : (L r).data.length ≤ 10485760) (hsum : (L r).lamports + (L k).lamports < 2 ^ 64) :
    (∃ L', execute E L (k :: s :: r :: g :: rest) .burn = .ok L') ↔
      E.signer s = true ∧ (A.owner = s ∨ A.Delegated s .burn) ∧
      (∀ x ∈ (k :: s :: r :: g :: rest).take 7, ¬ LockedAt E.program L x) ∧
      (∀ p, lookup .grouping A.exts = some p → membersOf p = 0) ∧
      (A.group ≠ Key.default → g = A.group ∧ g ≠ k ∧ g ≠ E.program ∧
        ∃ G p, Stores E.program L g G ∧ lookup .grouping G.exts = some p ∧ membersOf p ≠ 0) := by
  constructor
  · rintro ⟨L', h⟩
    have hlock := no_lock h rfl
    obtain ⟨a', s', r', g', rest', he, ht⟩ := exec_burn h
    cases he
    unfold processBurn at ht
    inv at ht
    obtain ⟨_, h1, _, al, h3, h4, L1, h5, m, h6, ht⟩ := ht
    subst h4
    refine ⟨h1, ?_, hlock, ?_, ?_⟩
    · rcases ownerOrDelegate_true h3 with h | h
      · exact .inl (by rw [← hs.owner_eq]; exact h)
      · exact .inr (hs.delegated h)
    · intro p hp
      rw [hs.get (by decide), hp] at h6
      cases h6
      simp only at ht
      inv at ht
      obtain ⟨gr, hgr', hz, _⟩ := ht
      rw [← members_eq hgr']
      exact hz
    · intro hne
      unfold burnGroup at h5
      rw [hs.group_eq] at h5
      unfold nullable at h5
      rw [if_neg hne] at h5
      simp only at h5
      unfold optAcc at h5
      split at h5
      · cases h5
      · rename_i ga hga
        split at hga
        · cases hga
        · rename_i hnp
          cases hga
          inv at h5
          obtain ⟨e1, e2, m, e3, h5⟩ := h5
          obtain ⟨_, G, hG, _⟩ := hg e1 hnp
          refine ⟨e1.symm, e2, hnp, G, ?_⟩
          rcases m with _ | ⟨off, p⟩
          · cases h5
          · simp only at h5
            inv at h5
            obtain ⟨gr, h7, h8, _⟩ := h5
            have hgp : assetGet .grouping (L g).data = .ok (some p) := by
              unfold assetGetMut at e3
              unfold assetGet
              cases hf : find .grouping (L g).data with
              | error e => rw [hf] at e3; cases e3
              | ok o =>
                rw [hf] at e3
                cases o with
                | none => cases e3
                | some c =>
                  simp only [bind, Except.bind] at e3 ⊢
                  cases hpl : payloadAt (L g).data c with
                  | error e => rw [hpl] at e3; cases e3
                  | ok q => rw [hpl] at e3; cases e3; rfl
            rw [hG.get (by decide)] at hgp
            refine ⟨p, hG, Except.ok.inj hgp, ?_⟩
            rw [← members_eq h7]
            exact h8
  · rintro ⟨h1, h2, h3, h4, h5⟩
    have hc : ∀ x ∈ (k :: s :: r :: g :: rest).take 7, Calm E.program L x := fun x hx =>
      calm_of (hw x (List.mem_of_mem_take hx)) (h3 x hx)
    have hgroup : ∃ L1, burnGroup L k (optAcc E g) (L k).data = .ok L1 ∧ L1 k = L k ∧
        (∀ x, (L1 x).lamports = (L x).lamports) ∧
        (∀ x, L1 x = L x ∨ (E.writable x = true ∧ (L x).owner = E.program ∧
          (L1 x).data.length ≤ 10485760)) := by
      unfold burnGroup
      rw [hs.group_eq]
      unfold nullable
      by_cases hne : A.group = Key.default
      · rw [if_pos hne]
        exact ⟨L, rfl, rfl, fun _ => rfl, fun _ => Or.inl rfl⟩
      · rw [if_neg hne]
        obtain ⟨rfl, e2, e3, G, p, hG, hp, hp3⟩ := h5 hne
        obtain ⟨e4, G', hG', hGr⟩ := hg rfl e3
        obtain rfl := hG.unique hG'
        obtain ⟨hp1, hp2⟩ := hGr p hp
        obtain ⟨off, hoff⟩ := getMut_ok hG (by decide) hp
        have hread := readGrouping_total hp1 hp2
        unfold optAcc
        rw [if_neg e3]
        have hst := (hG.replaceMut (by decide) hoff
          (q := setGroupSize p (membersOf p - 1)) (length_setGroupSize _ hp1)
          (L' := L.setData A.group (splice (L A.group).data off (setGroupSize p (membersOf p - 1))))
          (by rw [Ledger.setData_same]) (by rw [Ledger.setData_same])).2
        refine ⟨L.setData A.group
          (splice (L A.group).data off (setGroupSize p (membersOf p - 1))), ?_, ?_, ?_, ?_⟩
        · inv
          refine ⟨trivial, e2, _, hoff, ?_⟩
          simp only
          inv
          exact ⟨_, hread, hp3, rfl⟩
        · rw [Ledger.setData_other _ _ (Ne.symm e2)]
        · intro x
          by_cases hx : x = A.group
          · rw [hx, Ledger.setData_same]
          · rw [Ledger.setData_other _ _ hx]
        · intro x
          by_cases hx : x = A.group
          · right
            rw [hx]
            exact ⟨e4, hG.1.1, hst.2.1⟩
          · left
            rw [Ledger.setData_other _ _ hx]
    obtain ⟨L1, hL1, hk, hlam, hx⟩ := hgroup
    obtain ⟨L', hclose, _, _, hcom⟩ := burn_commit hs hu hk hlam hx hrk hrw hrd hsum
    refine ⟨L', accept_seven hs hu rfl hc ?_ (fun x _ => hcom x)⟩
    show processBurn E L k s (optAcc E r) (optAcc E g) = _
    have er : (optAcc E r).getD s = r := by unfold optAcc; rw [if_neg hr]; rfl
    unfold processBurn
    inv
    refine ⟨hs.1.1, h1, hs.init, true, ownerOrDelegate_ok hs hm h2, rfl, L1, hL1, _,
      hs.get (by decide), ?_⟩
    cases hp : lookup .grouping A.exts with
    | none => simp only [er]; exact hclose
    | some p =>
      obtain ⟨q1, q2⟩ := hgr p hp
      simp only [er]
      inv
      exact ⟨_, readGrouping_total q1 q2, h4 p hp, hclose⟩

theorem setVerified_needs {v : Bool} (hs : Stores E.program L k A)
    (h : processSetVerified E L k s v = .ok L') :
    E.signer s = true ∧ ∃ p, lookup .creators A.exts = some p ∧
      ∃ c ∈ creatorList p, c.address = s := by
  unfold processSetVerified at h
  inv at h
  obtain ⟨h1, _, _, m, h2, h⟩ := h
  refine ⟨h1, ?_⟩
  rcases m with _ | ⟨off, p⟩
  · cases h
  · have hp : lookup .creators A.exts = some p := by
      cases hp : lookup .creators A.exts with
      | some q =>
        obtain ⟨off', ho⟩ := getMut_ok hs (by decide) hp
        rw [ho] at h2
        cases h2
        rfl
      | none =>
        rcases C32_extension_get_agrees hs.hasExts (t := .creators) (by decide) with
          ⟨_, g2, _⟩ | ⟨q, o, g1, _⟩
        · rw [g2] at h2; cases h2
        · rw [g1] at hp; cases hp
    simp only at h
    inv at h
    obtain ⟨cs, hcs, hany, _⟩ := h
    refine ⟨p, hp, ?_⟩
    have hb := readCreators_eq.mp hcs
    have hlist : creatorList p = cs := by
      conv_lhs => rw [hb]
      exact creatorList_bytes _
    rw [hlist]
    rw [List.any_eq_true] at hany
    obtain ⟨c, hc, he⟩ := hany
    exact ⟨c, hc, by simpa using he⟩

/-- Verify and Unverify, exactly: the signer is in the list of creators. -/
theorem C67_verify (hs : Stores E.program L k A) (hu : Usable E k A)
    (hw : ∀ x ∈ s :: rest, Whole E.program L x)
    (hl : ∀ p, lookup .creators A.exts = some p → p.length % 34 = 0) :
    ((∃ L', execute E L (k :: s :: rest) .verify = .ok L') ↔
      E.signer s = true ∧ ∃ p, lookup .creators A.exts = some p ∧
        ∃ c ∈ creatorList p, c.address = s) ∧
    ((∃ L', execute E L (k :: s :: rest) .unverify = .ok L') ↔
      E.signer s = true ∧ ∃ p, lookup .creators A.exts = some p ∧
        ∃ c ∈ creatorList p, c.address = s) := by
  constructor
  · constructor
    · rintro ⟨L', h⟩
      obtain ⟨a, b, rest', he, hp⟩ := exec_verify h
      cases he
      exact setVerified_needs hs hp
    · rintro ⟨h, p, hp, hin⟩
      obtain ⟨L1, h1, c1⟩ := setVerified_ok (v := true) hs hu hp (hl p hp) h hin
      exact ⟨L1, accept_whole hs hu rfl (whole_all hs hw) rfl h1 fun x _ => c1 x⟩
  · constructor
    · rintro ⟨L', h⟩
      obtain ⟨a, b, rest', he, hp⟩ := exec_unverify h
      cases he
      exact setVerified_needs hs hp
    · rintro ⟨h, p, hp, hin⟩
      obtain ⟨L1, h1, c1⟩ := setVerified_ok (v := false) hs hu hp (hl p hp) h hin
      exact ⟨L1, accept_whole hs hu rfl (whole_all hs hw) rfl h1 fun x _ => c1 x⟩

/-- Close, exactly: an account of the program that is not an asset is closed when it signs, to
anybody but itself. -/
theorem C67_close {r : Key} (hw : ∀ x ∈ k :: r :: rest, Whole E.program L x)
    (hlen : (L k).data = [] ∨ 3 ≤ (L k).data.length) (hkw : E.writable k = true)
    (hrw : E.writable r = true) (hrd : (L r).data.length ≤ 10485760)
    (hsum : (L r).lamports + (L k).lamports < 2 ^ 64) :
    (∃ L', execute E L (k :: r :: rest) .close = .ok L' ∧ L' k = ⟨0, [], Key.system⟩ ∧
      (L' r).lamports = (L r).lamports + (L k).lamports) ↔
      E.signer k = true ∧ (L k).owner = E.program ∧
      ((L k).data = [] ∨ byteAt (L k).data 0 = 0) ∧ r ≠ k := by
  constructor
  · rintro ⟨L', h, _⟩
    obtain ⟨a, b, rest', he, hp⟩ := exec_close h
    cases he
    unfold processClose at hp
    inv at hp
    obtain ⟨h1, h2, h3, h4⟩ := hp
    refine ⟨h1, h2, h3, ?_⟩
    rintro rfl
    unfold closeAccount at h4
    rw [if_pos rfl] at h4
    cases h4
  · rintro ⟨h1, h2, h3, h4⟩
    refine ⟨(L.setLamports r ((L r).lamports + (L k).lamports)).set k ⟨0, [], Key.system⟩, ?_,
      by simp [Ledger.set], by simp [Ledger.set, h4, Ledger.setLamports_same]⟩
    obtain ⟨b, hb⟩ := lockedScan_whole (L := L) (E := E) (ks := (k :: r :: rest).take 7)
      fun x hx => hw x (List.mem_of_mem_take hx)
    unfold execute processInstr
    inv
    refine ⟨(L.setLamports r ((L r).lamports + (L k).lamports)).set k ⟨0, [], Key.system⟩,
      ⟨?_, b, hb, by simp [Instr.blockedByLock], ?_⟩, ?_⟩
    · rw [List.take_succ_cons]
      unfold proxiedCheck
      simp only
      split
      · rename_i hc
        inv
        refine ⟨?_, .inr h1⟩
        have := hlen.resolve_left hc.2
        omega
      · rfl
    · show processClose E L k r = _
      unfold processClose
      inv
      refine ⟨h1, h2, h3, ?_⟩
      unfold closeAccount
      rw [if_neg h4, if_neg (by simp only [show two64 = 2 ^ 64 from rfl]; omega)]
    · rw [if_pos]
      · rfl
      rw [List.all_eq_true]
      intro x _
      by_cases hxk : x = k
      · subst hxk
        exact changed_owned hkw h2 (by simp [Ledger.set])
      · by_cases hxr : x = r
        · subst hxr
          have e : ((L.setLamports x ((L x).lamports + (L k).lamports)).set k
              ⟨0, [], Key.system⟩) x =
              ⟨(L x).lamports + (L k).lamports, (L x).data, (L x).owner⟩ := by
            simp [Ledger.set, h4, Ledger.setLamports]
          rw [e]
          unfold changeAllowed
          simp [hrw, show (L x).data.length ≤ maxDataLen from hrd]
        · have e : ((L.setLamports r ((L r).lamports + (L k).lamports)).set k
              ⟨0, [], Key.system⟩) x = L x := by
            simp [Ledger.set, hxk, Ledger.setLamports, hxr]
          rw [e]; exact changed_nothing x

end

/-! ## Concrete cases -/

section Examples
open Verif.Ex

/-- The asset `k 1` of `k 2` with the delegate `k 4`, a locked asset `k 11`, and a buffer `k 12`. -/
def exactL : Ledger :=
  ledger [(k 1, owned (header 0 0 1 (k 2) Key.default (k 3) (k 4) 7 [65, 66])),
    (k 11, owned (header 1 0 1 (k 7) Key.default (k 3) Key.default 0 [67])),
    (k 12, owned (zeros 168)),
    (k 2, wallet), (k 3, wallet), (k 4, wallet), (k 5, wallet)]

theorem exact_stores : Stores prog exactL (k 1)
    ⟨0, 0, 1, k 2, Key.default, k 3, k 4, 7, podStr35 [65, 66], []⟩ :=
  checkStores_sound (by decide +kernel)

/-- The hypotheses are met. The owner transfers; a locked asset among the first seven accounts
prevents it, as the eighth it does not. -/
example : ∃ L', execute (env exactL [k 2]) exactL [k 1, k 2, k 5, prog] .transfer = .ok L' :=
  (C67_transfer (E := env exactL [k 2]) (rest := []) exact_stores ⟨rfl, by decide⟩
    (by intro p h; cases h) (by decide +kernel) (by intro p c h; cases h)
    (fun h => absurd h (by decide +kernel))).mpr
    ⟨by decide +kernel, .inl rfl, by unfold LockedAt; decide +kernel, by decide,
      (by intro p h; cases h), .inr (by intro h; exact absurd rfl h)⟩

example :
    [run exactL [k 2] [k 1, k 2, k 5, prog, k 11] .transfer,
      run exactL [k 2] [k 1, k 2, k 5, prog, k 6, k 6, k 6, k 11] .transfer,
      run exactL [k 4] [k 1, k 4, k 5, prog] .transfer,
      run exactL [] [k 1, k 2, k 5, prog] .transfer,
      run exactL [k 3] [k 1, k 3, k 5, prog] .transfer].map (·.isOk) =
      [false, true, true, false, false] := by decide +kernel

/-- Burn by the owner, also with the locked asset as the eighth account; a buffer that signs is
closed, an asset is not. -/
example :
    [run exactL [k 2] [k 1, k 2, k 5, prog] .burn,
      run exactL [k 2] [k 1, k 2, k 5, prog, k 11] .burn,
      run exactL [k 2] [k 1, k 2, k 1, prog] .burn,
      run exactL [k 12] [k 12, k 5] .close, run exactL [] [k 12, k 5] .close,
      run exactL [k 12] [k 12, k 12] .close, run exactL [k 1] [k 1, k 5] .close].map (·.isOk) =
      [true, false, false, true, false, false, false] := by decide +kernel

example : ∃ L', execute (env exactL [k 12]) exactL [k 12, k 5] .close = .ok L' ∧
    L' (k 12) = ⟨0, [], Key.system⟩ ∧ (L' (k 5)).lamports = 6000000 :=
  (C67_close (E := env exactL [k 12]) (rest := []) (by decide +kernel) (by decide +kernel) rfl rfl
    (by decide +kernel) (by decide +kernel)).mpr
    ⟨by decide +kernel, by decide +kernel, by decide +kernel, by decide⟩

/-- The member of a group is burned with its group; the creator verifies. -/
example : (∃ L', execute (env club [k 2]) club [k 8, k 2, k 5, k 9] .burn = .ok L') ∧
    ∃ L', execute (env club [k 7]) club [k 8, k 7] .verify = .ok L' :=
  ⟨(C67_burn (E := env club [k 2]) (rest := []) club_member ⟨rfl, by decide⟩
    (by intro p h; cases h) (by intro p h; cases h) (by decide +kernel)
    (fun _ _ => ⟨rfl, clubGroup, club_group, by intro p h; cases h; decide +kernel⟩)
    (by decide +kernel) (by decide +kernel) rfl (by decide +kernel) (by decide +kernel)).mpr
    ⟨by decide +kernel, .inl rfl, by unfold LockedAt; decide +kernel, (by intro p h; cases h),
      fun _ => ⟨rfl, by decide +kernel, by decide +kernel, clubGroup, _, club_group, rfl,
        by decide +kernel⟩⟩,
  (C67_verify (E := env club [k 7]) (rest := []) club_member ⟨rfl, by decide⟩ (by decide +kernel)
    (by intro p h; cases h; decide +kernel)).1.mpr
    ⟨by decide +kernel, _, rfl, ⟨k 7, 0, 100⟩, by decide +kernel, rfl⟩⟩

end Examples

end Verif.Props

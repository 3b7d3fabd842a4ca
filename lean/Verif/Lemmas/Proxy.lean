import Verif.Model.Proxy
import Verif.Spec.Moves
import Verif.Lemmas.Decimal
import Verif.Lemmas.Payload
import Verif.Lemmas.ExtList
import Verif.Lemmas.Wire
import Verif.Lemmas.Moves

/-!
# Calls made by the proxy program
-/

namespace Verif

open Spec

section
variable {E : Env} {C : ProxyConsts} {L L' : Ledger} {asset pda : Key}

theorem decode_encode {i : Instr} (h : InstrOk i) : decode (encode i) = some i := by
  unfold decode
  rw [(readInstr_codec (encode i) i []).mpr ⟨h, by simp⟩]

/-- A successful call is an execution with exactly the requested privileges, and the caller had
them. -/
theorem invokeAsset_ok {pdas : List Key} {metas : List Meta} {i : Instr} {id : Key} (hi : InstrOk i)
    (h : invokeAsset E id pdas L metas (encode i) = .ok L') :
    execute (calleeEnv E id L metas) L (metas.map (·.key)) i = .ok L' ∧
      ∀ m ∈ metas, (m.signer = true → E.signer m.key = true ∨ m.key ∈ pdas) ∧
        (m.writable = true → E.writable m.key = true) := by
  unfold invokeAsset at h
  split at h
  · rename_i hall
    unfold executeBytes at h
    rw [decode_encode hi] at h
    refine ⟨h, fun m hm => ?_⟩
    have := List.all_eq_true.mp hall m hm
    simp only [mayRequest, Bool.and_eq_true, Bool.or_eq_true, Bool.not_eq_true',
      List.contains_eq_mem, decide_eq_true_eq] at this
    refine ⟨fun hs => ?_, fun hw => ?_⟩
    · rcases this.1 with (h | h) | h
      · rw [hs] at h; cases h
      · exact Or.inl h
      · exact Or.inr h
    · rcases this.2 with h | h
      · rw [hw] at h; cases h
      · exact h
  · cases h

/-- Text of the data of an extension that the program does not maintain. -/
theorem SameButBooks.eq {t : ExtType} {p q : Bytes} (h : SameButBooks t p q) (h1 : t ≠ .creators)
    (h2 : t ≠ .grouping) : q = p := by
  apply List.ext_getElem?
  intro i
  by_cases he : q[i]? = p[i]?
  · exact he
  · rcases h.2 i he with ⟨ht, _⟩ | ⟨ht, _⟩
    · exact absurd ht h1
    · exact absurd ht h2

theorem readPairList_counterData (n : Int) :
    readPairList (counterData n) = .ok [(sTransfers, padLeft 12 (formatI64 n))] := by
  have hl : (padLeft 12 (formatI64 n)).length ≤ 255 := by
    rw [padLeft_length]
    have := formatI64_length (n := n)
    omega
  have e : counterData n = pairsBytes [(sTransfers, padLeft 12 (formatI64 n))] := by
    simp [counterData, pairsBuilderAdd, pairsBytes]
  unfold readPairList
  rw [e]
  refine readPairs_pairsBytes _ _ (Nat.le_refl _) ?_
  intro p hp
  rcases List.mem_singleton.mp hp with rfl
  exact ⟨show sTransfers.length ≤ 255 by decide, hl⟩

theorem counterData_length (n : Int) : (counterData n).length ≤ 100 := by
  have h1 := formatI64_length (n := n)
  have h2 := padLeft_length 12 (formatI64 n)
  simp only [counterData, pairsBuilderAdd, writeStr, List.length_append, List.length_cons,
    List.length_nil, sTransfers]
  omega

/-- The counter read from the attributes that the proxy program writes. -/
theorem count_counterData {d : Bytes} {n : Int}
    (h : -9223372036854775808 ≤ n ∧ n ≤ 9223372036854775807)
    (hd : assetGet .attributes d = .ok (some (counterData n))) : transferCount d = .ok n := by
  unfold transferCount
  rw [hd]
  simp only [bind, Except.bind]
  rw [readPairList_counterData]
  simp only [attributesGet, List.find?_cons, decide_true, Option.map_some, Option.getD_some]
  rw [trim_padLeft formatI64_ne formatI64_plain, parseI64_format h]
  rfl

theorem transferCount_range {d : Bytes} {n : Int} (h : transferCount d = .ok n) :
    -9223372036854775808 ≤ n ∧ n ≤ 9223372036854775807 := by
  unfold transferCount at h
  inv at h
  obtain ⟨o, _, h⟩ := h
  cases o with
  | none => cases h
  | some b =>
    simp only at h
    inv at h
    obtain ⟨v, _, h⟩ := h
    split at h
    · rename_i heq
      cases h
      exact parseI64_range heq
    · cases h

end

end Verif

import Verif.Lemmas.Reads
import Verif.Lemmas.Inv
import Verif.Props.C21
import Verif.Props.C22
import Verif.Spec.Machine
import Verif.Examples

/-!
# C20 — royalty constraints gate every transfer that is not wallet to wallet
-/

namespace Verif.Props

open Verif Verif.Spec

section
variable {E : Env} {L L' : Ledger} {accts : List Key}

/-- Top level, between two accounts of the system program. -/
def WalletToWallet (E : Env) (L : Ledger) (s r : Key) : Prop :=
  E.inCpi = false ∧ (L s).owner = Key.system ∧ (L r).owner = Key.system

/-- An account as constraints see it. -/
def seen (L : Ledger) (k : Key) : Target := ⟨k, (L k).owner, (L k).data.isEmpty⟩

/-- The constraint in the royalties `p` holds for a transfer of `a` by `s` to `r`. -/
def Passes (L : Ledger) (a s r : Key) (p : Bytes) : Prop :=
  ∃ c, parseConstraint (p.drop 8) = .ok c ∧ Holds ⟨seen L a, seen L s, some (seen L r)⟩ c

theorem royalties_gate {a s r : Key} {d : Bytes} {b : Bool}
    (h : processRoyalties E L a s r d = .ok b) :
    ∃ x, Reads d .royalties x ∧ (b = true ↔ x ≠ none) ∧
      ∀ p, x = some p → WalletToWallet E L s r ∨ Passes L a s r p := by
  unfold processRoyalties at h
  cases hg : assetGet .royalties d with
  | error e => rw [hg] at h; cases h
  | ok x =>
    refine ⟨x, assetGet_reads hg (by decide), ?_⟩
    rw [hg] at h
    simp only [bind, Except.bind] at h
    cases x with
    | none =>
      cases h
      simp
    | some p =>
      simp only at h
      cases hr : readRoyalties p with
      | error e => rw [hr] at h; cases h
      | ok ry =>
        rw [hr] at h
        simp only at h
        have hc : parseConstraint (p.drop 8) = .ok ry.constraint := by
          unfold readRoyalties at hr
          split at hr
          · cases hr
          · simp only [bind, Except.bind] at hr
            cases hq : parseConstraint (p.drop 8) with
            | error e => rw [hq] at hr; cases hr
            | ok c => rw [hq] at hr; cases hr; rfl
        split at h
        · cases he : evalC ⟨targetOf L a, targetOf L s, some (targetOf L r)⟩ ry.constraint with
          | error e => rw [he] at h; cases h
          | ok v =>
            rw [he] at h
            simp only at h
            cases v with
            | false => cases h
            | true =>
              cases h
              refine ⟨by simp, ?_⟩
              rintro p' ⟨⟩
              exact Or.inr ⟨_, hc, (C21_verdict_is_formula _ _ _ he).mp rfl⟩
        · rename_i hw
          cases h
          refine ⟨by simp, fun _ _ => Or.inl ?_⟩
          exact not_not.mp hw

/-- Royalties of the asset itself: any successful transfer. -/
theorem C20_own {p : Bytes} {a s r : Key} {rest : List Key}
    (h : execute E L (a :: s :: r :: rest) .transfer = .ok L')
    (hp : Reads (L a).data .royalties (some p)) : WalletToWallet E L s r ∨ Passes L a s r p := by
  obtain ⟨a', s', r', g, rest', he, ht⟩ := exec_transfer h
  cases he
  unfold processTransfer at ht
  inv at ht
  obtain ⟨_, _, _, b, hr, _⟩ := ht
  obtain ⟨x, hx, _, hg⟩ := royalties_gate hr
  exact hg p (hx.unique (by decide) hp)

/-- Royalties of the group: for a transfer to another owner of a member without own royalties,
the group must be among the accounts, and its royalties are checked. -/
theorem C20_group {a s r : Key} {rest : List Key}
    (h : execute E L (a :: s :: r :: rest) .transfer = .ok L')
    (hp : Reads (L a).data .royalties none) (hg : (assetAt L a).group ≠ Key.default)
    (hr : (assetAt L a).owner ≠ r) :
    rest.head? = some (assetAt L a).group ∧ (L (assetAt L a).group).owner = E.program ∧
      (assetAt L (assetAt L a).group).disc = 1 ∧
      ∃ x, Reads (L (assetAt L a).group).data .royalties x ∧
        ∀ p, x = some p → WalletToWallet E L s r ∨ Passes L a s r p := by
  obtain ⟨a', s', r', g, rest', he, ht⟩ := exec_transfer h
  cases he
  unfold processTransfer at ht
  inv at ht
  obtain ⟨_, _, _, b, hb, _, _, _, _, ht⟩ := ht
  have hbf : b = false := by
    obtain ⟨x, hx, hb, _⟩ := royalties_gate hb
    obtain rfl := hx.unique (by decide) hp
    cases b
    · rfl
    · exact absurd rfl (hb.mp rfl)
  subst hbf
  have ho : hOwner (L a).data = (assetAt L a).owner := rfl
  rw [if_neg (by rw [ho]; exact hr)] at ht
  inv at ht
  obtain ⟨ht, _⟩ := ht
  unfold transferGroupCheck at ht
  have hn : nullable (hGroup (L a).data) = some (assetAt L a).group := by
    unfold nullable
    exact if_neg hg
  rw [hn] at ht
  simp only [Bool.false_eq_true, if_false] at ht
  cases hgo : optAcc E g with
  | none => rw [hgo] at ht; cases ht
  | some ga =>
    have hga : ga = g := by
      unfold optAcc at hgo
      split at hgo
      · cases hgo
      · cases hgo; rfl
    subst hga
    rw [hgo] at ht
    inv at ht
    obtain ⟨h1, h2, _, _, h3, b, h4⟩ := ht
    rw [h2]
    refine ⟨rfl, h1, h3, ?_⟩
    obtain ⟨x, hx, _, hx'⟩ := royalties_gate h4.1
    exact ⟨x, hx, hx'⟩

/-- The two theorems above cover every transfer: what cannot be read is not transferred. -/
theorem C20_readable {a s r : Key} {rest : List Key}
    (h : execute E L (a :: s :: r :: rest) .transfer = .ok L') :
    ∃ x, Reads (L a).data .royalties x ∧ ∀ y, Reads (L a).data .royalties y → y = x := by
  obtain ⟨a', s', r', g, rest', he, ht⟩ := exec_transfer h
  cases he
  unfold processTransfer at ht
  inv at ht
  obtain ⟨_, _, _, b, hr, _⟩ := ht
  obtain ⟨x, hx, _⟩ := royalties_gate hr
  exact ⟨x, hx, fun y hy => hy.unique (by decide) hx⟩

/-- Every constraint can be stored in royalties, and is then what is checked. -/
theorem C20_stored (L : Ledger) (a s r : Key) (bp : Nat) (c : Cst) (hs : SelectorsFit c)
    (hl : (buildC c).length ≤ 2 ^ 32) :
    Passes L a s r (royaltiesBuilderSet bp (buildC c)) ↔
      Holds ⟨seen L a, seen L s, some (seen L r)⟩ c := by
  have hd : (royaltiesBuilderSet bp (buildC c)).drop 8 = buildC c := by
    unfold royaltiesBuilderSet
    rw [List.drop_append_of_le_length (by simp [length_toLE]), List.drop_of_length_le
      (by simp [length_toLE])]
    rfl
  unfold Passes
  rw [hd, C22_parse_build c hs hl]
  constructor
  · rintro ⟨c', h, h'⟩
    cases h; exact h'
  · exact fun h => ⟨c, rfl, h⟩

end

section Examples
open Verif.Ex

/-- Royalties with the constraint "the recipient is not `k 7`". -/
def gated : Bytes := royaltiesBuilderSet 500 (buildC (.not (.pubkeyMatch 2 [k 7])))

/-- `k 1` has royalties; `k 9` is a member of the group `k 8` that has royalties. `k 6` and `k 7`
are accounts of some other program, `k 4` is a wallet. -/
def market : Ledger :=
  ledger [(k 1, owned (header 0 0 1 (k 2) Key.default (k 3) Key.default 0 [65] ++
      blocks 168 [(.royalties, gated)])),
    (k 9, owned (header 0 0 1 (k 2) (k 8) (k 3) Key.default 0 [65])),
    (k 8, owned (header 0 0 1 (k 2) Key.default (k 3) Key.default 0 [65] ++
      blocks 168 [(.grouping, toLE 8 1 ++ toLE 8 0 ++ zeros 32), (.royalties, gated)])),
    (k 2, wallet), (k 3, wallet), (k 4, wallet), (k 7, ⟨1, [1], k 77⟩), (k 6, ⟨1, [1], k 77⟩)]

/-- What `C20_own` reads in it. -/
example : Reads (market (k 1)).data .royalties (some gated) := by
  refine reads_lookup (es := [(.royalties, gated)]) ?_ (by decide)
  refine ⟨248, Walk.cons (bnd := 248) (by decide) (by decide +kernel) (by decide +kernel)
    (by decide +kernel) (by decide +kernel) (by decide +kernel) (Walk.nil (by decide +kernel)),
    Or.inl (by decide +kernel)⟩

/-- Transfers of the asset and of the member, to the allowed `k 6`, to the forbidden `k 7` and
(wallet to wallet) to `k 4`. -/
example :
    (run market [k 2] [k 1, k 2, k 6, prog] .transfer).isOk = true ∧
    (run market [k 2] [k 1, k 2, k 7, prog] .transfer).isOk = false ∧
    (run market [k 2] [k 1, k 2, k 4, prog] .transfer).isOk = true ∧
    (run market [k 2] [k 9, k 2, k 6, k 8] .transfer).isOk = true ∧
    (run market [k 2] [k 9, k 2, k 7, k 8] .transfer).isOk = false ∧
    (run market [k 2] [k 9, k 2, k 4, k 8] .transfer).isOk = true := by decide +kernel

/-- Leaving out the group, or giving another one, does not help. -/
example :
    (run market [k 2] [k 9, k 2, k 7, prog] .transfer).isOk = false ∧
    (run market [k 2] [k 9, k 2, k 7, k 1] .transfer).isOk = false := by decide +kernel

end Examples
end Verif.Props

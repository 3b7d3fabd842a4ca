import Verif.Props.C20
import Verif.Props.C44

/-!
# C45 — allowlists and denylists restrict the recipients of a transfer
-/

namespace Verif.Props

open Verif Verif.Spec

section
variable {E : Env} {L L' : Ledger} {a s r : Key} {bp : UInt64} {items : List Key} {rest : List Key}

/-- What the royalties of an allowlist allow: the list is compared with the asset itself. -/
theorem C45_allowlist_partial (hi : items.length < 67108864) :
    Passes L a s r (JsonValue.royalties .allowlist bp items).data ↔ a ∈ items := by
  obtain ⟨h1, h2⟩ := jsonConstraint_small .allowlist items hi
  have := C20_stored L a s r bp.toNat _ h1 h2
  simp only [JsonValue.data]
  unfold royaltiesBuilderSet at this
  rw [this]
  simp [jsonConstraint, Holds, account, seen]

/-- What the royalties of a denylist allow: the list is compared with the program of the asset
itself. -/
theorem C45_denylist_partial (hi : items.length < 67108864) (ha : (L a).data ≠ []) :
    Passes L a s r (JsonValue.royalties .denylist bp items).data ↔ (L a).owner ∉ items := by
  obtain ⟨h1, h2⟩ := jsonConstraint_small .denylist items hi
  have := C20_stored L a s r bp.toNat _ h1 h2
  simp only [JsonValue.data]
  unfold royaltiesBuilderSet at this
  rw [this]
  simp [jsonConstraint, Holds, account, seen, ha]

/-- With an allowlist that does not name the asset itself only wallets can trade it, whoever is on
the list; with a denylist that does not name the asset program nobody is refused. -/
theorem C45_transfer_partial (hi : items.length < 67108864)
    (h : execute E L (a :: s :: r :: rest) .transfer = .ok L')
    (hp : Reads (L a).data .royalties (some (JsonValue.royalties .allowlist bp items).data)) :
    WalletToWallet E L s r ∨ a ∈ items := by
  rcases C20_own h hp with h | h
  · exact Or.inl h
  · exact Or.inr ((C45_allowlist_partial hi).mp h)

end

section Examples
open Verif.Ex

/-- `k 1` has an allowlist with `k 6`, `k 9` a denylist with the program `k 77`. `k 6` is an account
of `k 77`. -/
def listed : Ledger :=
  ledger [(k 1, owned (header 0 0 1 (k 2) Key.default (k 3) Key.default 0 [65] ++
      blocks 168 [(.royalties, (JsonValue.royalties .allowlist 500 [k 6]).data)])),
    (k 9, owned (header 0 0 1 (k 2) Key.default (k 3) Key.default 0 [65] ++
      blocks 168 [(.royalties, (JsonValue.royalties .denylist 500 [k 77]).data)])),
    (k 2, wallet), (k 3, wallet), (k 4, wallet), (k 6, ⟨1, [1], k 77⟩)]

/-- The listed recipient is refused, and the denied one accepted. -/
theorem C45_false :
    (run listed [k 2] [k 1, k 2, k 6, prog] .transfer).isOk = false ∧
    (after (run listed [k 2] [k 9, k 2, k 6, prog] .transfer) (k 9)).map (hOwner ·.data) =
      .ok (k 6) := by
  decide +kernel

/-- The lists read in these accounts. -/
example : assetGet .royalties (listed (k 1)).data =
      .ok (some (JsonValue.royalties .allowlist 500 [k 6]).data) ∧
    assetGet .royalties (listed (k 9)).data =
      .ok (some (JsonValue.royalties .denylist 500 [k 77]).data) := by decide +kernel
/-- A list that names the asset lets it go anywhere. -/
example : Passes listed (k 1) (k 2) (k 6) (JsonValue.royalties .allowlist 500 [k 1]).data :=
  (C45_allowlist_partial (by decide)).mpr (by decide)

end Examples
end Verif.Props

import Verif.Props.C36

/-!
# C40 — The asset's own authority is not available to strangers through the proxy program

An asset made by the proxy program is its own update authority; the authority of its maker is
stored in the Proxy extension. The property asks that nobody but that proxy authority can make
use of the asset's authority. It fails: the proxy program passes on everything that is neither
Update nor Transfer, and signs for the asset.
-/

namespace Verif.Props

open Verif Verif.Spec

section
variable {E : Env} {C : ProxyConsts} {L L' : Ledger} {accts : List Key} {data : Bytes}

/-- What an instruction sent to the proxy program can be: a Create, an Update, a Transfer, or
anything else, forwarded with the asset's signature. -/
theorem C40_forwarded (h : proxyProcess E C L accts data = .ok L')
    (hc : decodeProxyCreate data = none) (ht : data ≠ encode .transfer)
    (hu : ∀ x, data ≠ encode (.update x)) :
    ∃ a rest F i, accts = a :: rest ∧ InstrOk i ∧ data = encode i ∧ Forwarded E C.assetId L accts a F ∧
      execute F L accts i = .ok L' := by
  have hi : interfaceProcess E C.assetId L accts data = .ok L' := by
    unfold proxyProcess at h
    rw [hc] at h
    simp only at h
    have key : ∀ i, decode data = some i → data = encode i := by
      intro i hd
      unfold decode at hd
      split at hd
      · rename_i j heq
        cases hd
        have := (readInstr_codec _ _ _).mp heq
        simpa using this.2
      · cases hd
    split at h
    · rename_i hd
      exact absurd (key _ hd) ht
    · rename_i hd
      exact absurd (key _ hd) (hu _)
    · exact h
  obtain ⟨a, rest, x, s, F, rfl, _, _, _, hF, he⟩ := C37_forwards hi
  obtain ⟨i, hok, hd, _⟩ := C37_rejects hi
  refine ⟨a, rest, F, i, rfl, hok, hd, hF, ?_⟩
  unfold executeBytes at he
  rw [hd, decode_encode hok] at he
  exact he

/-- As far as it holds: when the asset is not its own authority, a change of the authority through
the proxy program needs the signature of the authority. -/
theorem C40_handover_partial {a : Key} {A A' : Asset} (hs : Stores C.assetId L a A)
    (hs' : Stores C.assetId L' a A') (hne : A'.authority ≠ A.authority)
    (h : proxyProcess E C L accts (encode .handover) = .ok L') :
    E.signer A.authority = true ∨ A.authority = a := by
  obtain ⟨b, rest, F, i, rfl, hok, hd, hF, he⟩ := C40_forwarded h rfl (by decide)
    (by intro x hx; cases hx)
  have : i = .handover := by
    have h1 := decode_encode hok
    rw [← hd] at h1
    cases h1
    rfl
  subst this
  have hp : C.assetId = F.program := hF.program.symm
  rw [hp] at hs hs'
  rcases refine hs he trivial with ⟨hb, _⟩ | ⟨B, hB, hm⟩
  · cases hb
  · have := hB.unique hs'
    subst this
    cases hm with
    | stay _ _ _ => exact absurd rfl hne
    | handover _ s n rest' ha hsg hn hau hmut =>
      cases ha
      rcases (hF.signer s).mp hsg with ⟨_, h | h⟩
      · exact Or.inl (hau ▸ h)
      · exact Or.inr (hau.trans h)
    | memberIn _ _ _ hi => rcases hi with hi | ⟨_, hi⟩ <;> cases hi
    | memberOut _ _ _ hi => rcases hi with hi | hi <;> cases hi

end

section Examples
open Verif.Ex

/-- A stranger (`k 5`) makes themselves the authority of the proxied asset: neither the owner
(`k 2`), nor the proxy authority (`k 22`), nor the asset signs. -/
theorem C40_false :
    ((proxyProcess (proxyEnv viaProxy2 [k 5]) proxyConsts viaProxy2 [k 1, k 1, k 5]
      (encode .handover)).map fun L => hAuthority (L (k 1)).data) = .ok (k 5) ∧
    hAuthority (viaProxy2 (k 1)).data = k 1 ∧
    (fetchProxy (viaProxy2 (k 1)).data).map (·.authority) = .ok (k 22) := by decide +kernel

/-- A stranger removes an extension and takes the freed lamports. -/
theorem C40_false_remove :
    ((proxyProcess (proxyEnv viaProxy2 []) proxyConsts viaProxy2 [k 1, k 1, k 20, k 5]
      (encode (.remove .properties))).map fun L =>
        (getExtensions (L (k 1)).data, decide (wallet.lamports < (L (k 5)).lamports))) =
    .ok (.ok [.attributes, .blob, .proxy], true) := by decide +kernel

end Examples

end Verif.Props

import Verif.Spec.InterfaceCalls
import Verif.Props.C37
import Verif.Props.C46

/-!
# C61 — the instruction builders of the interface crate

The crate is for programs that own assets by derived addresses: its builders always ask for the
signature of the asset, which the program gives when it calls the asset program.
-/

namespace Verif.Props

open Verif Verif.Spec

section
variable {E : Env} {L L' : Ledger} {c : Call} {program id : Key} {pdas : List Key}

/-- The data is the same as in the client, and is read as the instruction. -/
theorem C61_data (hc : InstrOk (instrOf c)) :
    (c.interface program).data = (c.build program).data ∧
      decode (c.interface program).data = some (instrOf c) :=
  ⟨rfl, C46_decodes (program := program) hc⟩

/-- The accounts are the same as in the client, except that the first one signs. -/
theorem C61_metas : (c.interface program).metas =
    ⟨mainAccount c, true, true⟩ :: (c.build program).metas.tail ∧
      ∃ s, (c.build program).metas.head? = some ⟨mainAccount c, s, true⟩ := by
  cases c <;> exact ⟨rfl, _, rfl⟩

theorem interface_keys : (c.interface program).keys = (c.build program).keys := by
  cases c <;> rfl

theorem build_cons : ∃ s rest, c.metas program = ⟨mainAccount c, s, true⟩ :: rest ∧
    c.interfaceMetas program = ⟨mainAccount c, true, true⟩ :: rest := by
  cases c <;> exact ⟨_, _, rfl, rfl⟩

/-- What may be requested is what can be passed on. -/
theorem requests {metas : List Meta} :
    metas.all (mayRequest E pdas) = true ↔ Grants (passing E id pdas L) metas := by
  rw [List.all_eq_true]
  refine forall_congr' fun m => forall_congr' fun _ => ?_
  unfold mayRequest passing
  cases m.signer <;> cases m.writable <;> simp

theorem callee_only {metas : List Meta} :
    calleeEnv E id L metas = only (passing E id pdas L) metas := rfl

/-- A call that succeeds when everything is passed on succeeds, with the same outcome, as built by
the interface crate; proxied assets included. -/
theorem C61_invoked (h : execute (passing E id pdas L) L (c.build id).keys (instrOf c) = .ok L')
    (hc : InstrOk (instrOf c))
    (hg : (c.interface id).metas.all (mayRequest E pdas) = true)
    (hf : FlagsSet (passing E id pdas L) c) (hw : E.writable id = false)
    (ks : List Key) (hn : ks.Nodup) (hks : ∀ x ∈ (c.build id).keys, x ∈ ks)
    (ht : sumLamports L ks < 2 ^ 64) :
    invokeAsset E id pdas L (c.interface id).metas (c.interface id).data = .ok L' := by
  unfold invokeAsset
  rw [if_pos hg]
  have hk : (c.interface id).metas.map (·.key) = (c.build id).keys := interface_keys
  rw [hk, callee_only (pdas := pdas)]
  have hgr : Grants (passing E id pdas L) (c.interfaceMetas id) := requests.mp hg
  obtain ⟨s, rest, e1, e2⟩ := build_cons (c := c) (program := id)
  have hcov : Covers (passing E id pdas L) c (c.interfaceMetas id) := by
    refine ⟨hgr, fun m hm => ?_⟩
    rw [show (passing E id pdas L).program = id from rfl, e1, List.mem_cons] at hm
    rcases hm with rfl | hm
    · exact ⟨⟨mainAccount c, true, true⟩, by rw [e2]; simp, rfl, fun _ => rfl, fun _ => rfl⟩
    · exact ⟨m, by rw [e2]; simp [hm], rfl, _root_.id, _root_.id⟩
  have hs : (only (passing E id pdas L) (c.interfaceMetas id)).signer (mainAccount c) = true :=
    List.any_eq_true.mpr ⟨⟨mainAccount c, true, true⟩, by rw [e2]; simp, by simp⟩
  exact C30_execute.mpr ⟨instrOf c, hc, Call.data_eq (program := id) _,
    privileges (E := passing E id pdas L) h hcov hf (Or.inr hs) hw ks hn hks ht⟩

/-- Without the signature of the asset, given by itself or by the calling program, nothing built by
the interface crate runs. -/
theorem C61_unsigned_refused (hs : E.signer (mainAccount c) = false)
    (hp : mainAccount c ∉ pdas) (data : Bytes) :
    invokeAsset E id pdas L (c.interface id).metas data = .error .runtime := by
  unfold invokeAsset
  rw [if_neg]
  intro h
  obtain ⟨s, rest, _, e2⟩ := build_cons (c := c) (program := id)
  have := List.all_eq_true.mp h ⟨mainAccount c, true, true⟩ (by
    show _ ∈ c.interfaceMetas id
    rw [e2]; simp)
  unfold mayRequest at this
  simp [hs, hp] at this

/-- An instruction of the client addressed to a program with the interface is passed on as the
interface crate builds it. A Resize is not passed on (C37). -/
theorem C61_forwarded (hr : ∀ a au p s x, c ≠ .resize a au p s x) :
    interfaceProcess (only E (c.metas id)) id L (c.build id).keys (c.build id).data = (do
      let x ← fetchProxy (L (mainAccount c)).data
      let signer ← proxySigner E x
      invokeAsset (only E (c.metas id)) id [signer] L (c.interface id).metas
        (c.interface id).data) := by
  have hname : knownName (c.build id).data = .ok () := by
    cases c <;> first | rfl | exact absurd rfl (hr _ _ _ _ _)
  obtain ⟨s, rest, e1, e2⟩ := build_cons (c := c) (program := id)
  have hkeys : (c.build id).keys = mainAccount c :: rest.map (·.key) := by
    show (c.metas id).map (·.key) = _
    rw [e1]; rfl
  unfold interfaceProcess
  rw [hname, hkeys]
  simp only [bind, Except.bind]
  cases fetchProxy (L (mainAccount c)).data with
  | error => rfl
  | ok x =>
    simp only
    have hps : proxySigner (only E (c.metas id)) x = proxySigner E x := rfl
    rw [hps]
    cases proxySigner E x with
    | error => rfl
    | ok q =>
      simp only
      have hmem : ∀ m ∈ rest, m ∈ c.metas id := by intro m hm; rw [e1]; simp [hm]
      have hwm : (only E (c.metas id)).writable (mainAccount c) = true :=
        List.any_eq_true.mpr ⟨⟨mainAccount c, s, true⟩, by rw [e1]; simp, by simp⟩
      have hall : (forwardMetas (only E (c.metas id)) (mainAccount c :: rest.map (·.key))).all
            (mayRequest (only E (c.metas id)) [q]) =
          (c.interface id).metas.all (mayRequest (only E (c.metas id)) [q]) := by
        have h1 : (rest.map (·.key)).all (fun k => mayRequest (only E (c.metas id)) [q]
            ⟨k, (only E (c.metas id)).signer k, (only E (c.metas id)).writable k⟩) = true := by
          rw [List.all_eq_true]
          intro k _
          unfold mayRequest
          cases (only E (c.metas id)).signer k <;> cases (only E (c.metas id)).writable k <;> simp
        have h2 : rest.all (mayRequest (only E (c.metas id)) [q]) = true := by
          rw [List.all_eq_true]
          intro m hm
          have ha : m.signer = true → (only E (c.metas id)).signer m.key = true := fun h =>
            List.any_eq_true.mpr ⟨m, hmem m hm, by simp [h]⟩
          have hb : m.writable = true → (only E (c.metas id)).writable m.key = true := fun h =>
            List.any_eq_true.mpr ⟨m, hmem m hm, by simp [h]⟩
          unfold mayRequest
          cases hs : m.signer <;> cases hw : m.writable <;> simp [hs, hw] at ha hb ⊢ <;>
            simp [ha, hb]
        show _ = (c.interfaceMetas id).all _
        rw [e2]
        simp only [forwardMetas, List.all_cons, List.all_map] at h1 ⊢
        rw [h2]
        rw [show (rest.all ((mayRequest (only E (c.metas id)) [q] ∘ fun k =>
          ⟨k, (only E (c.metas id)).signer k, (only E (c.metas id)).writable k⟩) ∘
            fun x => x.key)) = true from h1, hwm]
      have henv : calleeEnv (only E (c.metas id)) id L
            (forwardMetas (only E (c.metas id)) (mainAccount c :: rest.map (·.key))) =
          calleeEnv (only E (c.metas id)) id L (c.interface id).metas := by
        have hf := forwarded_metas (only E (c.metas id)) id L (mainAccount c) (rest.map (·.key))
        have hsg : ∀ k, (calleeEnv (only E (c.metas id)) id L (forwardMetas (only E (c.metas id))
              (mainAccount c :: rest.map (·.key)))).signer k =
            (calleeEnv (only E (c.metas id)) id L (c.interface id).metas).signer k := by
          intro k
          rw [Bool.eq_iff_iff, hf.signer k]
          show _ ↔ (c.interfaceMetas id).any _ = true
          rw [e2]
          simp only [only, e1, List.any_cons, List.any_eq_true, Bool.or_eq_true, Bool.and_eq_true,
            decide_eq_true_eq, List.mem_cons, List.mem_map]
          constructor
          · rintro ⟨_, (⟨h, _⟩ | ⟨m, hm, h, h'⟩) | h⟩
            · exact Or.inl ⟨h, trivial⟩
            · exact Or.inr ⟨m, hm, h, h'⟩
            · exact Or.inl ⟨h.symm, trivial⟩
          · rintro (⟨h, _⟩ | ⟨m, hm, h, h'⟩)
            · exact ⟨Or.inl h.symm, Or.inr h.symm⟩
            · exact ⟨Or.inr ⟨m, hm, h⟩, Or.inl (Or.inr ⟨m, hm, h, h'⟩)⟩
        have hwr : ∀ k, (calleeEnv (only E (c.metas id)) id L (forwardMetas (only E (c.metas id))
              (mainAccount c :: rest.map (·.key)))).writable k =
            (calleeEnv (only E (c.metas id)) id L (c.interface id).metas).writable k := by
          intro k
          rw [Bool.eq_iff_iff, hf.writable k]
          show _ ↔ (c.interfaceMetas id).any _ = true
          rw [e2]
          simp only [only, e1, List.any_cons, List.any_eq_true, Bool.or_eq_true, Bool.and_eq_true,
            decide_eq_true_eq, List.mem_cons, List.mem_map]
          constructor
          · rintro ⟨_, (h | h)⟩
            · exact Or.inl h
            · exact Or.inr h
          · rintro (h | ⟨m, hm, h, h'⟩)
            · exact ⟨Or.inl h.1.symm, Or.inl h⟩
            · exact ⟨Or.inr ⟨m, hm, h⟩, Or.inr ⟨m, hm, h, h'⟩⟩
        unfold calleeEnv at hsg hwr ⊢
        congr 1
        · exact funext hsg
        · exact funext hwr
      unfold invokeAsset
      rw [hall, henv, forwardMetas_keys]
      have : (c.interface id).metas.map (·.key) = mainAccount c :: rest.map (·.key) := by
        rw [← hkeys]; exact interface_keys
      rw [this]
      rfl

end

section Examples
open Verif.Ex

/-- The program `k 20`, of which the asset `k 1` is a derived address, is called by the owner. -/
def ownerCalls : Env :=
  { proxyEnv viaProxy [k 2] with writable := fun x => x ≠ prog }

/-- Calls on the proxied asset: a lock, a transfer, an approval, a burn without a recipient. -/
def proxiedCalls : List Call :=
  [.lock (k 1) (k 2), .transfer (k 1) (k 2) (k 5) none, .approve (k 1) (k 2) (k 5) .all,
    .burn (k 1) (k 2) none none]

/-- The hypotheses of `C61_invoked` can be met by a proxied asset. -/
example : ∀ c ∈ proxiedCalls,
    (execute (passing ownerCalls prog [k 1] viaProxy) viaProxy (c.build prog).keys
      (instrOf c)).isOk = true ∧
    decode (c.interface prog).data = some (instrOf c) ∧
    (c.interface prog).metas.all (mayRequest ownerCalls [k 1]) = true ∧
    ownerCalls.writable prog = false := by decide +kernel

/-- With the builders of the interface crate the calls succeed, with those of the client they do
not, and neither does the former without the derived address. -/
example : ∀ c ∈ proxiedCalls,
    (invokeAsset ownerCalls prog [k 1] viaProxy (c.interface prog).metas
      (c.interface prog).data).isOk = true ∧
    (invokeAsset ownerCalls prog [k 1] viaProxy (c.build prog).metas
      (c.build prog).data).isOk = false ∧
    (invokeAsset ownerCalls prog [] viaProxy (c.interface prog).metas
      (c.interface prog).data).isOk = false := by decide +kernel

/-- Passed on by a program with the interface the calls of the client succeed as well; accounts
left out are no problem, unlike in C60. -/
example : ∀ c ∈ proxiedCalls,
    (interfaceProcess (only ownerCalls (c.metas prog)) prog viaProxy (c.build prog).keys
      (c.build prog).data).isOk = true := by decide +kernel

end Examples
end Verif.Props

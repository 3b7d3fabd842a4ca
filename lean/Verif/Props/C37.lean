import Verif.Model.Proxy
import Verif.Spec.Cpi
import Verif.Lemmas.Wire
import Verif.Lemmas.Inv
import Verif.Lemmas.First
import Verif.Examples

/-!
# C37 — Interface forwards instructions unchanged
-/

namespace Verif.Props

open Verif Verif.Spec

section
variable {E : Env} {id : Key} {L L' : Ledger} {accts rest : List Key} {data : Bytes} {a : Key}

theorem forwardMetas_keys : ∀ accts, (forwardMetas E accts).map (·.key) = accts
  | [] => rfl
  | a :: rest => by
    simp only [forwardMetas, List.map_cons, List.map_map]
    congr 1
    induction rest with
    | nil => rfl
    | cons b r ih => simpa using ih

/-- The call of the interface is a forwarding. -/
theorem forwarded_metas (E : Env) (id : Key) (L : Ledger) (a : Key) (rest : List Key) :
    Forwarded E id L (a :: rest) a (calleeEnv E id L (forwardMetas E (a :: rest))) := by
  refine ⟨rfl, rfl, rfl, rfl, fun _ => rfl, fun k => ?_, fun k => ?_⟩
  · simp only [calleeEnv, forwardMetas, List.any_cons, List.any_map, Bool.or_eq_true,
      Bool.and_eq_true, decide_eq_true_eq, List.any_eq_true, Function.comp_apply, List.mem_cons]
    constructor
    · rintro (⟨rfl, _⟩ | ⟨x, hx, rfl, h⟩)
      · exact ⟨Or.inl rfl, Or.inr rfl⟩
      · exact ⟨Or.inr hx, Or.inl h⟩
    · rintro ⟨h1, h2⟩
      by_cases hk : k = a
      · exact Or.inl ⟨hk.symm, trivial⟩
      · rcases h1 with h1 | h1
        · exact absurd h1 hk
        · rcases h2 with h2 | h2
          · exact Or.inr ⟨k, h1, rfl, h2⟩
          · exact absurd h2 hk
  · simp only [calleeEnv, forwardMetas, List.any_cons, List.any_map, Bool.or_eq_true,
      Bool.and_eq_true, decide_eq_true_eq, List.any_eq_true, Function.comp_apply, List.mem_cons]
    constructor
    · rintro (⟨rfl, h⟩ | ⟨x, hx, rfl, h⟩)
      · exact ⟨Or.inl rfl, h⟩
      · exact ⟨Or.inr hx, h⟩
    · rintro ⟨rfl | h1, h2⟩
      · exact Or.inl ⟨rfl, h2⟩
      · exact Or.inr ⟨k, h1, rfl, h2⟩

theorem fetchProxy_has {d : Bytes} {x : Proxy} (h : fetchProxy d = .ok x) : HasProxy d x :=
  readProxy_has h

theorem interface_forwards (h : interfaceProcess E id L accts data = .ok L') :
    ∃ a rest x s F, accts = a :: rest ∧ fetchProxy (L a).data = .ok x ∧
      E.pda x.seeds x.bump E.program = some s ∧ (a = s ∨ E.signer a = true) ∧
      Forwarded E id L accts a F ∧ executeBytes F L accts data = .ok L' := by
  unfold interfaceProcess at h
  inv at h
  obtain ⟨_, h⟩ := h
  cases accts with
  | nil => cases h
  | cons a rest =>
    simp only at h
    inv at h
    obtain ⟨x, hx, s, hs, h⟩ := h
    unfold invokeAsset at h
    split at h
    · rename_i hall
      rw [forwardMetas_keys] at h
      refine ⟨a, rest, x, s, _, rfl, hx, ?_, ?_, forwarded_metas E id L a rest, h⟩
      · unfold proxySigner at hs
        split at hs
        · cases hs; assumption
        · cases hs
      · have := List.all_eq_true.mp hall ⟨a, true, E.writable a⟩ (by simp [forwardMetas])
        simp only [mayRequest, Bool.not_true, Bool.false_or, Bool.and_eq_true, Bool.or_eq_true,
          List.contains_eq_mem, List.mem_singleton, decide_eq_true_eq] at this
        exact this.1.symm
    · cases h

/-- Whatever succeeds through the interface is the asset program run on the same accounts and the
same data, with the signature of the first account added; and that signature is the account's own,
or the embedding program derives its address from the Proxy extension stored in it. -/
theorem C37_forwards (h : interfaceProcess E id L accts data = .ok L') :
    ∃ a rest x s F, accts = a :: rest ∧ HasProxy (L a).data x ∧
      E.pda x.seeds x.bump E.program = some s ∧ (a = s ∨ E.signer a = true) ∧
      Forwarded E id L accts a F ∧ executeBytes F L accts data = .ok L' := by
  obtain ⟨a, rest, x, s, F, h1, h2, h3⟩ := interface_forwards h
  exact ⟨a, rest, x, s, F, h1, fetchProxy_has h2, h3⟩

/-- Data that the asset program does not understand is not forwarded successfully either. -/
theorem C37_rejects (h : interfaceProcess E id L accts data = .ok L') :
    ∃ i, InstrOk i ∧ data = encode i ∧ ∀ s, i ≠ .resize s := by
  obtain ⟨a, rest, x, s, F, _, _, _, _, _, he⟩ := C37_forwards h
  unfold executeBytes at he
  cases hd : decode data with
  | none => rw [hd] at he; cases he
  | some i =>
    unfold decode at hd
    split at hd
    · rename_i j heq
      cases hd
      have hr := (readInstr_codec _ _ _).mp heq
      simp only [List.append_nil] at hr
      refine ⟨_, hr.1, hr.2, ?_⟩
      rintro s rfl
      unfold interfaceProcess at h
      inv at h
      obtain ⟨hk, _⟩ := h
      rw [hr.2] at hk
      cases hk
    · cases hd

/-- The converse, for every instruction except Resize: when the first account holds a Proxy
extension and the embedding program can sign for it, the interface does exactly what the asset
program does. -/
theorem C37_complete_partial {i : Instr} {x : Proxy} {s : Key} (hi : InstrOk i)
    (hr : ∀ s, i ≠ .resize s) (hx : fetchProxy (L a).data = .ok x)
    (hs : E.pda x.seeds x.bump E.program = some s) (ha : a = s ∨ E.signer a = true) :
    ∃ F, Forwarded E id L (a :: rest) a F ∧
      interfaceProcess E id L (a :: rest) (encode i) = execute F L (a :: rest) i := by
  refine ⟨_, forwarded_metas E id L a rest, ?_⟩
  have hk : knownName (encode i) = .ok () := by
    cases i <;> first | rfl | exact absurd rfl (hr _)
  have hp : proxySigner E x = .ok s := by unfold proxySigner; rw [hs]
  have hd : decode (encode i) = some i := by
    unfold decode
    rw [(readInstr_codec (encode i) i []).mpr ⟨hi, by simp⟩]
  unfold interfaceProcess
  rw [hk]
  simp only [bind, Except.bind]
  rw [hx]
  simp only
  rw [hp]
  simp only
  unfold invokeAsset
  rw [if_pos, forwardMetas_keys]
  · unfold executeBytes
    rw [hd]
  · rw [List.all_eq_true]
    intro m hm
    simp only [forwardMetas, List.mem_cons, List.mem_map] at hm
    rcases hm with rfl | ⟨k, _, rfl⟩
    · rcases ha with rfl | ha
      · cases hw : E.writable a <;> simp [mayRequest, hw]
      · cases hw : E.writable a <;> simp [mayRequest, ha, hw]
    · cases hw : E.writable k <;> cases hg : E.signer k <;> simp [mayRequest, hg, hw]

/-- Resize is never forwarded. -/
theorem C37_resize_false (s : Strategy) :
    interfaceProcess E id L accts (encode (.resize s)) = .error .invalidInstructionData := by
  cases s <;> rfl

end

section Examples
open Verif.Ex

/-- A proxied asset in account `k 1`, its own authority, with spare room at the end. -/
def viaProxy : Ledger :=
  ledger [(k 1, owned (header 0 3 1 (k 2) Key.default (k 1) Key.default 0 [65] ++
      blocks 168 [(.attributes, counterData 41), (.blob, [1, 120, 5]),
        (.proxy, (k 20).1 ++ (k 21).1 ++ [254] ++ (k 22).1),
        (.properties, [1, 97, 1, 0, 0, 0, 0, 0, 0, 0, 0]),
        (.bucket, [1, 2, 3, 4, 5, 6, 7, 8, 9])] ++ zeros 8)),
    (k 2, wallet), (k 5, wallet), (k 22, wallet), (Key.system, wallet)]

/-- The environment of the proxy program `k 20`: account `k 1` is derived from the seeds `k 21`. -/
def proxyEnv (L : Ledger) (signers : List Key) : Env where
  program := k 20
  rent := fun n => n * 10
  inCpi := false
  pda := fun s b p => if s = (k 21).1 ∧ b = 254 ∧ p = k 20 then some (k 1) else none
  signer := fun x => x ∈ signers
  writable := fun _ => true
  origLen := fun x => (L x).data.length

/-- The asset itself does not sign the transaction, and a lock by the owner goes through. -/
example :
    ((interfaceProcess (proxyEnv viaProxy [k 2]) prog viaProxy [k 1, k 2] (encode .lock)).map
      fun L => (L (k 1)).data.take 2) = .ok [1, 1] ∧
    (executeBytes { proxyEnv viaProxy [k 2] with program := prog } viaProxy [k 1, k 2]
      (encode .lock)).map (fun _ => ()) = .error .missingRequiredSignature := by decide +kernel

/-- Resize is understood by the asset program and refused by the interface. -/
theorem C37_false :
    let accts := [k 1, k 1, k 5, Key.system]
    (executeBytes { proxyEnv viaProxy [k 1, k 5] with program := prog } viaProxy accts
      (encode (.resize .trim))).map (fun L => (L (k 1)).data.length) = .ok 416 ∧
    (interfaceProcess (proxyEnv viaProxy [k 1, k 5]) prog viaProxy accts
      (encode (.resize .trim))).map (fun L => (L (k 1)).data.length) =
        .error .invalidInstructionData := by decide +kernel

end Examples

end Verif.Props

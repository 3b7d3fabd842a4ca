import Verif.Lemmas.Privileges
import Verif.Props.C27
import Verif.Props.C43

/-!
# C46 — instructions built by the Rust client are what they stand for
-/

namespace Verif.Props

open Verif Verif.Spec

section
variable {E : Env} {L L' : Ledger} {c : Call} {program : Key}

/-- The data of a built instruction is read by the program as the instruction. -/
theorem C46_decodes (hc : InstrOk (instrOf c)) :
    decode (c.build program).data = some (instrOf c) := by
  rw [Call.data_eq]
  exact C30_roundtrip hc

/-- The accounts of a built instruction are taken for what they are meant to be. -/
theorem C46_accounts (hc : ∀ o ∈ optionals c, o ≠ some E.program) :
    dispatch E L (instrOf c) (c.build E.program).keys = meant E L c := by
  have ho : ∀ (f : Key → Meta) (o : Option Key), (∀ k, (f k).key = k) → o ≠ some E.program →
      optAcc E (metaOpt E.program f o).key = o := by
    intro f o hf hne
    cases o with
    | none => simp [metaOpt, metaRo, optAcc]
    | some k =>
      simp only [metaOpt, hf, optAcc]
      rw [if_neg (by rintro rfl; exact hne rfl)]
  cases c <;> simp only [optionals, List.mem_cons, List.not_mem_nil, or_false, forall_eq_or_imp,
      forall_eq] at hc <;>
    simp only [instrOf, ClientIx.keys, Call.build, Call.metas, List.map_cons, List.map_nil,
      dispatch, meant]
  case burn => rw [ho _ _ (fun _ => rfl) hc.1, ho _ _ (fun _ => rfl) hc.2]; rfl
  case create =>
    rw [ho _ _ (fun _ => rfl) hc.1, ho _ _ (fun _ => rfl) hc.2.1,
      ho _ _ (fun _ => rfl) hc.2.2.1, ho _ _ (fun _ => rfl) hc.2.2.2]
    rfl
  case allocate => rw [ho _ _ (fun _ => rfl) hc.1, ho _ _ (fun _ => rfl) hc.2]; rfl
  case transfer => rw [ho _ _ (fun _ => rfl) hc]; rfl
  case update =>
    rw [ho _ _ (fun _ => rfl) hc.1, ho _ _ (fun _ => rfl) hc.2.2.1,
      ho _ _ (fun _ => rfl) hc.2.2.2]
    rfl
  case resize => rw [ho _ _ (fun _ => rfl) hc]; rfl
  all_goals rfl

theorem metaOpt_key {f : Key → Meta} {o : Option Key} {p : Key} (hf : ∀ k, (f k).key = k)
    (h : optAcc E (metaOpt E.program f o).key = some p) :
    metaOpt E.program f o = f p ∧ (f p).key = p := by
  cases o with
  | none => simp [metaOpt, metaRo, optAcc] at h
  | some k =>
    simp only [metaOpt, hf, optAcc] at h
    split at h
    · cases h
    · cases h; exact ⟨rfl, hf _⟩

/-- The privileges of the payer and the account resized are requested. -/
theorem samePayer {ms : List Meta} {k : Key} {s : Bool} {o : Option Key} (h : Covers E c ms)
    (hk : metaRw k s ∈ c.metas E.program)
    (ho : metaOpt E.program (metaRw · true) o ∈ c.metas E.program) :
    SamePayer E ms k (optAcc E (metaOpt E.program (metaRw · true) o).key) where
  signer p hp := by
    obtain ⟨e, _⟩ := metaOpt_key (fun _ => rfl) hp
    rw [e] at ho
    exact h.signer ho rfl
  writable p hp := by
    obtain ⟨e, _⟩ := metaOpt_key (fun _ => rfl) hp
    rw [e] at ho
    exact h.writable ho rfl
  target := h.writable hk rfl

/-- The processor does the same when only the requested privileges are given. -/
theorem dispatch_only {ms : List Meta} (h : Covers E c ms) (hf : FlagsSet E c) :
    dispatch (only E ms) L (instrOf c) (c.build E.program).keys =
      dispatch E L (instrOf c) (c.build E.program).keys := by
  have hks : (c.build E.program).keys = (c.metas E.program).map (·.key) := rfl
  rw [hks]
  have hopt : ∀ k, optAcc (only E ms) k = optAcc E k := fun _ => rfl
  cases c <;> simp only [Call.metas, List.map_cons, List.map_nil, instrOf, dispatch, hopt]
  case close a r =>
    have hs : SameSigner E ms a := h.signer (m := metaRw a true) (by simp [Call.metas]) rfl
    simp only [metaRw]
    unfold processClose
    rw [hs]
    rfl
  case burn a s r g =>
    have hs : SameSigner E ms s := h.signer (m := metaRw s true) (by simp [Call.metas]) rfl
    simp only [metaRw]
    unfold processBurn
    rw [hs]
    rfl
  case create a au o g ga p s x =>
    refine processCreate_only (samePayer (k := a) (s := true) h (by simp [Call.metas])
      (by simp [Call.metas])) (h.signer (m := metaRw a true)
      (by simp [Call.metas]) rfl) fun _ => ?_
    cases hga : optAcc E (metaOpt E.program (metaRo · true) ga).key with
    | none => 
      exact h.same (m := metaRo au.1 au.2) (by simp [Call.metas]) hf
    | some q =>
      obtain ⟨e, _⟩ := metaOpt_key (fun _ => rfl) hga
      exact h.signer (m := metaRo q true) (by rw [← e]; simp [Call.metas]) rfl
  case approve a o d x =>
    have hs : SameSigner E ms o := h.signer (m := metaRo o true) (by simp [Call.metas]) rfl
    simp only [metaRw, metaRo]
    unfold processApprove
    rw [hs]
    rfl
  case allocate a p s x =>
    exact processAllocate_only (samePayer (k := a) (s := true) h (by simp [Call.metas])
      (by simp [Call.metas])) (h.signer (m := metaRw a true)
      (by simp [Call.metas]) rfl)
  case lock a s =>
    have hs : SameSigner E ms s := h.signer (m := metaRo s true) (by simp [Call.metas]) rfl
    simp only [metaRw, metaRo]
    unfold processLock
    rw [hs]
    rfl
  case revoke a s x =>
    have hs : SameSigner E ms s := h.signer (m := metaRo s true) (by simp [Call.metas]) rfl
    simp only [metaRw, metaRo]
    unfold processRevoke
    rw [hs]
    rfl
  case transfer a s r g =>
    have hs : SameSigner E ms s := h.signer (m := metaRo s true) (by simp [Call.metas]) rfl
    simp only [metaRw, metaRo]
    unfold processTransfer
    rw [hs]
    rfl
  case unlock a s =>
    have hs : SameSigner E ms s := h.signer (m := metaRo s true) (by simp [Call.metas]) rfl
    simp only [metaRw, metaRo]
    unfold processUnlock
    rw [hs]
    rfl
  case unverify a s =>
    have hs : SameSigner E ms s := h.signer (m := metaRo s true) (by simp [Call.metas]) rfl
    simp only [metaRw, metaRo]
    unfold processUnverify processSetVerified
    rw [hs]
    rfl
  case verify a s =>
    have hs : SameSigner E ms s := h.signer (m := metaRo s true) (by simp [Call.metas]) rfl
    simp only [metaRw, metaRo]
    unfold processVerify processSetVerified
    rw [hs]
    rfl
  case update a au b g p s x =>
    exact processUpdate_only (samePayer (k := a) (s := false) h (by simp [Call.metas])
      (by simp [Call.metas])) (h.signer (m := metaRo au true)
      (by simp [Call.metas]) rfl)
  case write a p s x =>
    have hp : metaRw p true ∈ (Call.write a p s x).metas E.program := by simp [Call.metas]
    have ha : metaRw a true ∈ (Call.write a p s x).metas E.program := by simp [Call.metas]
    exact processWrite_only ⟨by rintro _ ⟨⟩; exact h.signer hp rfl,
      by rintro _ ⟨⟩; exact h.writable hp rfl, h.writable ha rfl⟩ (h.signer ha rfl)
  case group a g au =>
    exact processGroup_only (h.signer (m := metaRo au true) (by simp [Call.metas]) rfl)
  case ungroup a g au =>
    have hs : SameSigner E ms au :=
      h.signer (m := metaRo au true) (by simp [Call.metas]) rfl
    simp only [metaRw, metaRo]
    unfold processUngroup
    rw [hs]
    rfl
  case handover a au na =>
    have hs : SameSigner E ms au :=
      h.signer (m := metaRo au true) (by simp [Call.metas]) rfl
    have hn : SameSigner E ms na :=
      h.signer (m := metaRo na true) (by simp [Call.metas]) rfl
    simp only [metaRw, metaRo]
    unfold processHandover
    rw [hs, hn]
    rfl
  case remove a au g r t =>
    exact processRemove_only (h.signer (m := metaRo au true) (by simp [Call.metas]) rfl)
  case resize a au p s x =>
    have hp : metaRw p.1 p.2 ∈ (Call.resize a au p s x).metas E.program := by simp [Call.metas]
    have ha : metaRw a false ∈ (Call.resize a au p s x).metas E.program := by simp [Call.metas]
    exact processResize_only ⟨by rintro _ ⟨⟩; exact h.same hp hf,
      by rintro _ ⟨⟩; exact h.writable hp rfl, h.writable ha rfl⟩
      (h.signer (m := metaRo au true) (by simp [Call.metas]) rfl)

theorem keys_take : (c.build program).keys.take 7 = (c.build program).keys := by
  cases c <;> rfl

theorem keys_head : (c.build program).keys.head? = some (mainAccount c) := by
  cases c <;> rfl

theorem positions_requested (n : Nat)
    (hn : n ∈ (instrOf c).dataPositions ++ (instrOf c).payPositions) {m : Meta}
    (hm : (c.metas program)[n]? = some m) : m.writable = true ∨ m.key = program := by
  have hopt : ∀ (s : Bool) (o : Option Key),
      (metaOpt program (metaRw · s) o).writable = true ∨
        (metaOpt program (metaRw · s) o).key = program := by
    intro s o
    cases o
    · exact Or.inr rfl
    · exact Or.inl rfl
  cases c <;> simp only [instrOf, Instr.dataPositions, Instr.payPositions, List.cons_append,
      List.nil_append, List.append_nil, List.mem_cons, List.not_mem_nil, or_false] at hn
  all_goals rcases n with _ | _ | _ | _ | _ | _ | n
  all_goals
    first
    | (exfalso; revert hn; simp; done)
    | (cases hm
       first
       | exact Or.inl rfl
       | exact hopt _ _)

/-- Accounts that may change are requested as writable; the id of the program may stand in for
an account that is absent. -/
theorem written_requested {x : Key} (hx : x ∈ dataKeys (instrOf c) (c.build E.program).keys ∨
      x ∈ payKeys (instrOf c) (c.build E.program).keys) (hp : x ≠ E.program) :
    (only E (c.metas E.program)).writable x = true := by
  obtain ⟨n, hn, hx⟩ : ∃ n ∈ (instrOf c).dataPositions ++ (instrOf c).payPositions,
      (c.build E.program).keys[n]? = some x := by
    rcases hx with hx | hx <;> obtain ⟨n, hn, hx⟩ := List.mem_filterMap.mp hx
    · exact ⟨n, List.mem_append_left _ hn, hx⟩
    · exact ⟨n, List.mem_append_right _ hn, hx⟩
  unfold ClientIx.keys at hx
  rw [List.getElem?_map] at hx
  obtain ⟨m, hm, rfl⟩ := Option.map_eq_some_iff.mp hx
  rcases positions_requested n hn hm with h | h
  · exact List.any_eq_true.mpr ⟨m, List.mem_of_getElem? hm, by simp [h]⟩
  · exact absurd h hp

/-- An instruction that succeeds with any privileges succeeds, with the same outcome, with those
of an account list that asks for no less than the client. -/
theorem privileges {ms : List Meta} (h : execute E L (c.build E.program).keys (instrOf c) = .ok L')
    (hg : Covers E c ms) (hf : FlagsSet E c)
    (hp : NotProxied E L (mainAccount c) ∨
      (only E ms).signer (mainAccount c) = true)
    (hw : E.writable E.program = false)
    (ks : List Key) (hn : ks.Nodup) (hks : ∀ x ∈ (c.build E.program).keys, x ∈ ks)
    (ht : sumLamports L ks < 2 ^ 64) :
    execute (only E ms) L (c.build E.program).keys (instrOf c) = .ok L' := by
  obtain ⟨h1, h2, h3, h4⟩ := execute_ok h
  rw [keys_take] at h1 h2 h3
  have h3' := (dispatch_only (L := L) hg hf).trans h3
  have hhead := keys_head (c := c) (program := E.program)
  have hlock : ∀ ks, lockedScan (only E ms) L ks = lockedScan E L ks := by
    intro ks
    induction ks with
    | nil => rfl
    | cons k ks ih => unfold lockedScan; rw [ih]; rfl
  have hprox : proxiedCheck (only E ms) L (c.build E.program).keys = .ok () := by
    generalize (c.build E.program).keys = ks at h1 hhead
    cases ks with
    | nil => rfl
    | cons k ks =>
      cases hhead
      unfold proxiedCheck at h1 ⊢
      simp only at h1 ⊢
      by_cases hc : (L (mainAccount c)).owner = E.program ∧ (L (mainAccount c)).data ≠ []
      · rw [if_pos hc] at h1
        have hc' : (L (mainAccount c)).owner = (only E ms).program ∧
          (L (mainAccount c)).data ≠ [] := hc
        rw [if_pos hc']
        inv at h1
        rw [require_bind_ok, require_ok]
        refine ⟨h1.1, ?_⟩
        rcases hp with hp | hp
        · exact Or.inl (hp hc.1)
        · exact Or.inr hp
      · have hc' : ¬ ((L (mainAccount c)).owner = (only E ms).program ∧
          (L (mainAccount c)).data ≠ []) := hc
        rw [if_neg hc']
  obtain ⟨k, rest, hk, ef⟩ := dispatch_effect h3'
  have hkm : k = mainAccount c := by
    rw [hk] at hhead
    exact Option.some.inj hhead
  have hall : ∀ x ∈ (c.build E.program).keys,
      changeAllowed (only E ms) x (L x) (L' x) = true := by
    intro x hx
    have hx4 := h4 x hx
    by_cases hsame : L' x = L x
    · rw [hsame]
      unfold changeAllowed
      simp
    have hxp : x ≠ E.program := by
      rintro rfl
      unfold changeAllowed at hx4
      simp [hw, hsame] at hx4
    have hmem : x ∈ dataKeys (instrOf c) (c.build E.program).keys ∨
        x ∈ payKeys (instrOf c) (c.build E.program).keys := by
      by_contra hn
      rw [not_or] at hn
      exact hsame (ef.other x hn.1 hn.2)
    have hwx := hg.more (written_requested hmem hxp)
    unfold changeAllowed at hx4 ⊢
    simp only [Bool.or_eq_true, Bool.and_eq_true, decide_eq_true_eq] at hx4 ⊢
    rcases hx4 with hx4 | ⟨⟨_, hl⟩, hx4⟩
    · exact absurd hx4 hsame
    refine Or.inr ⟨⟨hwx, hl⟩, ?_⟩
    rcases hx4 with (hx4 | hx4) | hx4
    · exact Or.inl (Or.inl hx4)
    · by_cases hprog : (L x).owner = E.program
      · exact Or.inl (Or.inl hprog)
      by_cases hxk : x = mainAccount c
      · have := dispatch_first (x := x) h3' (by rw [keys_head, hxk])
        rcases this with hi | hs
        · exact absurd hi.1 hprog
        · exact Or.inl (Or.inr ⟨⟨hx4.1.1, hs⟩, hx4.2⟩)
      · have hd : (L' x).data = (L x).data := by
          by_contra hd
          by_cases hxd : x ∈ dataKeys (instrOf c) (c.build E.program).keys
          · rcases dispatch_second h3' hxd (by
              rw [keys_head]; intro h; exact hxk (Option.some.inj h).symm) hxp hd with h | h
            · exact hprog h
            · exact h hx4.2
          · exact hd (ef.data x hxd).1
        have ho : (L' x).owner = (L x).owner := ef.newOwner x (by rw [hkm]; exact hxk)
        by_cases hle : (L x).lamports ≤ (L' x).lamports
        · exact Or.inr ⟨hd, ho, hle⟩
        · have hsub : ∀ (ns : List Nat) (y : Key),
              y ∈ ns.filterMap (fun p => (c.build E.program).keys[p]?) →
              y ∈ ks := by
            intro ns y hy
            obtain ⟨n, _, hn⟩ := List.mem_filterMap.mp hy
            exact hks y (List.mem_of_getElem? hn)
          have := ef.loss ks hn (hsub _) (hsub _) (by rw [← sumLamports_eq]; exact ht) x
            (by rw [hkm]; exact hxk) (by omega)
          exact Or.inl (Or.inr ⟨⟨hx4.1.1, this.1⟩, hx4.2⟩)
    · exact Or.inr hx4
  unfold execute processInstr
  rw [keys_take, hprox]
  unfold execute processInstr at h
  rw [keys_take, h1] at h
  simp only [hlock, h3'] 
  simp only [h3] at h
  simp only [bind_ok, ite_ok_error, pure_ok] at h ⊢
  obtain ⟨L1, ⟨u, hu, locked, hl, v, hr, hd⟩, _, rfl⟩ := h
  exact ⟨L1, ⟨u, hu, locked, hl, v, hr, hd⟩, List.all_eq_true.mpr hall, rfl⟩

/-- An instruction that succeeds with any privileges succeeds, with the same outcome, with those
that the client asks for. The exception are proxied assets, which have to sign. -/
theorem C46_privileges (h : execute E L (c.build E.program).keys (instrOf c) = .ok L')
    (hg : Grants E (c.metas E.program)) (hf : FlagsSet E c)
    (hp : NotProxied E L (mainAccount c) ∨
      (only E (c.metas E.program)).signer (mainAccount c) = true)
    (hw : E.writable E.program = false)
    (ks : List Key) (hn : ks.Nodup) (hks : ∀ x ∈ (c.build E.program).keys, x ∈ ks)
    (ht : sumLamports L ks < 2 ^ 64) :
    execute (only E (c.metas E.program)) L (c.build E.program).keys (instrOf c) = .ok L' :=
  privileges h hg.covers hf hp hw ks hn hks ht

/-- The same for the instruction as it is sent. -/
theorem C46_sent (h : execute E L (c.build E.program).keys (instrOf c) = .ok L')
    (hc : InstrOk (instrOf c))
    (hg : Grants E (c.metas E.program)) (hf : FlagsSet E c)
    (hp : NotProxied E L (mainAccount c) ∨
      (only E (c.metas E.program)).signer (mainAccount c) = true)
    (hw : E.writable E.program = false)
    (ks : List Key) (hn : ks.Nodup) (hks : ∀ x ∈ (c.build E.program).keys, x ∈ ks)
    (ht : sumLamports L ks < 2 ^ 64) :
    executeBytes (only E (c.build E.program).metas) L (c.build E.program).keys
      (c.build E.program).data = .ok L' :=
  C30_execute.mpr ⟨instrOf c, hc, Call.data_eq _ _,
    C46_privileges h hg hf hp hw ks hn hks ht⟩

/-- The client never asks for the signature of a proxied asset, so that such an instruction is
refused unless the asset has another place in the account list. -/
theorem C46_proxied_refused (hs : (only E (c.metas E.program)).signer (mainAccount c) = false)
    (ho : (L (mainAccount c)).owner = E.program) (hd : 2 < (L (mainAccount c)).data.length)
    (hp : hStandard (L (mainAccount c)).data = Standard.proxied.toU8) :
    execute (only E (c.metas E.program)) L (c.build E.program).keys (instrOf c) =
      .error .missingRequiredSignature := by
  have hhead := keys_head (c := c) (program := E.program)
  unfold execute processInstr
  rw [keys_take]
  generalize (c.build E.program).keys = ks at hhead
  cases ks with
  | nil => cases hhead
  | cons k ks =>
    cases hhead
    have hne : (L (mainAccount c)).data ≠ [] := by
      intro h; rw [h] at hd; simp at hd
    have hc : (L (mainAccount c)).owner = (only E (c.metas E.program)).program ∧
      (L (mainAccount c)).data ≠ [] := ⟨ho, hne⟩
    have : proxiedCheck (only E (c.metas E.program)) L (mainAccount c :: ks) =
        .error .missingRequiredSignature := by
      unfold proxiedCheck
      simp only
      rw [if_pos hc]
      simp [require, hd, hp, hs, bind, Except.bind]
    rw [this]
    rfl

end

section Examples
open Verif.Ex

/-- All wallets sign, and everything but the program is writable. -/
def generous (L : Ledger) : Env :=
  { env L [k 2, k 3, k 4, k 5, k 6] with writable := fun x => x ≠ prog }

/-- Calls of several kinds: a transfer, a new attribute paid by `k 5`, a removal. -/
def someCalls : List Call :=
  [.transfer (k 1) (k 2) (k 5) none,
    .update (k 1) (k 3) none none (some (k 5)) (some Key.system)
      ⟨none, none, some ⟨.attributes, 4, some [1, 99, 1, 100]⟩⟩,
    .handover (k 1) (k 3) (k 4), .burn (k 1) (k 2) none none]

/-- The hypotheses can be met. -/
example : ∀ c ∈ someCalls,
    (execute (generous managed) managed (c.build prog).keys (instrOf c)).isOk = true ∧
    (∀ m ∈ c.metas prog, (m.signer = true → (generous managed).signer m.key = true) ∧
      (m.writable = true → (generous managed).writable m.key = true)) ∧
    (generous managed).writable prog = false ∧
    (∀ o ∈ optionals c, o ≠ some prog) ∧ decode (c.build prog).data = some (instrOf c) := by
  decide +kernel
/-- And the conclusion is not trivial: without the signature of the owner nothing works. -/
example : (execute (only (generous managed) [metaRw (k 1) false, metaRo (k 2) false,
    metaRo (k 5) false, metaRo prog false]) managed [k 1, k 2, k 5, prog] .transfer).isOk =
      false := by
  decide +kernel
/-- A proxied asset cannot be moved with the client alone. -/
example : (execute (only (generous managed) ((Call.transfer (k 1) (k 2) (k 5) none).metas prog))
      (ledger [(k 1, owned (header 0 3 1 (k 2) Key.default (k 3) (k 4) 7 [65]))])
      ((Call.transfer (k 1) (k 2) (k 5) none).build prog).keys .transfer) =
    .error .missingRequiredSignature :=
  C46_proxied_refused (E := generous managed) (c := .transfer (k 1) (k 2) (k 5) none)
    (by decide +kernel) (by decide +kernel) (by decide +kernel) (by decide +kernel)

end Examples
end Verif.Props

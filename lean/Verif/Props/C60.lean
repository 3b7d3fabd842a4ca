import Verif.Props.C40
import Verif.Props.C59

/-!
# C60 — the option `proxy` of the JavaScript client

With the option the client sends an instruction to the proxy program, which is to do the same to the
asset. It fails for a Burn: an account left out is the id of the program addressed, here that of the
proxy program, which passes the accounts on as they are; the asset program knows only its own id as a
sign of absence, and takes the proxy program for the recipient of the lamports.
-/

namespace Verif.Props

open Verif Verif.Spec

section
variable {E : Env} {C : ProxyConsts} {L L' : Ledger} {x : JsInput} {ctx : JsContext} {i : ClientIx}

theorem jsProxied_ok {proxy id : Key} : jsProxied proxy id ctx x = .ok i ↔
    InputFits x ∧ i = ⟨(callOf ctx x).metas proxy ++ [⟨id, false, false⟩],
      encode (instrOf (callOf ctx x))⟩ := by
  unfold jsProxied
  simp only [bind_ok, pure_ok, C59_built]
  constructor
  · rintro ⟨_, ⟨h, rfl⟩, rfl⟩
    exact ⟨h, by rw [← Call.data_eq proxy]; rfl⟩
  · rintro ⟨h, rfl⟩
    exact ⟨_, ⟨h, rfl⟩, by rw [← Call.data_eq proxy]; rfl⟩

/-- The accounts as the asset program sees them: those left out are the proxy program. -/
theorem C60_seen {F : Env} (h : jsProxied E.program C.assetId ctx x = .ok i) (hx : PassedOn x)
    (hF : F.program = C.assetId) (hne : E.program ≠ C.assetId)
    (ho : ∀ o ∈ optionals (callOf ctx x), o ≠ some C.assetId) :
    dispatch F L (instrOf (callOf ctx x)) (i.keys.take 7) =
      meant F L (filled E.program (callOf ctx x)) := by
  obtain ⟨_, rfl⟩ := jsProxied_ok.mp h
  have hopt : ∀ (o : Option Key) (f : Key → Meta), (∀ k, (f k).key = k) → o ≠ some C.assetId →
      optAcc F (metaOpt E.program f o).key = some (o.getD E.program) := by
    intro o f hf hoo
    unfold optAcc
    cases o with
    | none =>
      show (if E.program = F.program then none else some E.program) = _
      rw [hF, if_neg hne]; rfl
    | some k =>
      simp only [metaOpt, hf, Option.getD_some]
      rw [hF, if_neg (by rintro rfl; exact hoo rfl)]
  cases x <;> first | exact hx.elim | skip
  case burn a s r g =>
    simp only [callOf, optionals, List.mem_cons, List.not_mem_nil, or_false, forall_eq_or_imp,
      forall_eq] at ho
    simp only [callOf, instrOf, ClientIx.keys, Call.metas, List.map_cons, List.map_nil, dispatch,
      meant, filled, List.cons_append, List.nil_append, List.take_succ_cons]
    rw [hopt _ _ (fun _ => rfl) ho.1, hopt _ _ (fun _ => rfl) ho.2]
    rfl
  all_goals rfl

/-- Where the accounts left out are not looked at, nothing is different. -/
theorem C60_same {F : Env} {k : Key} (hx : PassedOn x) (hb : ∀ a s r g, x ≠ .burn a s r g) :
    meant F L (filled k (callOf ctx x)) = meant F L (callOf ctx x) := by
  cases x <;> first | exact hx.elim | rfl | exact absurd rfl (hb _ _ _ _)

/-- What the proxy program does with an instruction of the client that it passes on. -/
theorem C60_passed_on_partial (h : jsProxied E.program C.assetId ctx x = .ok i) (hx : PassedOn x)
    {p : Proxy} (hp : fetchProxy (L (mainAccount (callOf ctx x))).data = .ok p)
    (hs : E.pda p.seeds p.bump E.program = some (mainAccount (callOf ctx x))) :
    ∃ F, Forwarded E C.assetId L i.keys (mainAccount (callOf ctx x)) F ∧
      proxyProcess E C L i.keys i.data = execute F L i.keys (instrOf (callOf ctx x)) := by
  obtain ⟨hfit, rfl⟩ := jsProxied_ok.mp h
  have ht : TextIn x := by cases x <;> first | exact hx.elim | trivial
  have hok : InstrOk (instrOf (callOf ctx x)) := instrOk hfit ht
  have hnr : ∀ s, instrOf (callOf ctx x) ≠ .resize s := by
    intro s; cases x <;> first | exact hx.elim | (intro h; cases h)
  have hhead : ∃ rest, ClientIx.keys ⟨(callOf ctx x).metas E.program ++ [⟨C.assetId, false, false⟩],
      encode (instrOf (callOf ctx x))⟩ = mainAccount (callOf ctx x) :: rest := by
    cases x <;> first | exact hx.elim | exact ⟨_, rfl⟩
  obtain ⟨rest, hrest⟩ := hhead
  obtain ⟨F, hF, he⟩ := C37_complete_partial (E := E) (id := C.assetId) (L := L) (rest := rest) hok hnr hp hs
    (Or.inl rfl)
  refine ⟨F, by rw [hrest]; exact hF, ?_⟩
  have hc : decodeProxyCreate (encode (instrOf (callOf ctx x))) = none := by
    cases x <;> first | exact hx.elim | rfl
  rw [hrest, ← he]
  unfold proxyProcess
  simp only [hc, decode_encode hok]
  cases x <;> first | exact hx.elim | rfl

theorem burnGroup_lamports {a : Key} {g : Option Key} {d : Bytes}
    (h : burnGroup L a g d = .ok L') (k : Key) : (L' k).lamports = (L k).lamports := by
  unfold burnGroup at h
  split at h
  · cases h; rfl
  · split at h
    · cases h
    · inv at h
      obtain ⟨_, _, o, _, h⟩ := h
      split at h
      · cases h
      · inv at h
        obtain ⟨_, _, _, rfl⟩ := h
        unfold Ledger.setData Ledger.set
        dsimp only
        split <;> simp_all

/-- A burned asset gives its lamports to the recipient, if there is one. -/
theorem burn_paid {F : Env} {a s r : Key} {g : Option Key}
    (h : processBurn F L a s (some r) g = .ok L') :
    (L' r).lamports = (L r).lamports + (L a).lamports := by
  unfold processBurn at h
  inv at h
  obtain ⟨_, _, _, _, _, _, L1, h1, o, _, h⟩ := h
  have hc : closeAccount L1 a r = .ok L' := by
    split at h
    · inv at h
      obtain ⟨_, _, _, h⟩ := h
      exact h
    · exact h
  unfold closeAccount at hc
  split at hc
  · cases hc
  · rename_i hne
    split at hc
    · cases hc
    · cases hc
      rw [← burnGroup_lamports h1 r, ← burnGroup_lamports h1 a]
      simp [Ledger.set, Ledger.setLamports, hne]

/-- A Burn without a recipient never succeeds: the proxy program, which is read-only, would get the
lamports. -/
theorem C60_burn_refused {a s : Key} {g : Option Key}
    (h : jsProxied E.program C.assetId ctx (.burn a s none g) = .ok i)
    (hne : E.program ≠ C.assetId) (hg : g ≠ some C.assetId)
    (hw : E.writable E.program = false) (hl : (L a).lamports ≠ 0) :
    ∀ L', proxyProcess E C L i.keys i.data ≠ .ok L' := by
  intro L' hp
  have hd : i.data = encode .burn := by obtain ⟨_, rfl⟩ := jsProxied_ok.mp h; rfl
  obtain ⟨b, rest, F, j, hk, hok, hj, hF, he⟩ := C40_forwarded hp (by rw [hd]; rfl)
    (by rw [hd]; decide) (by intro x; rw [hd]; intro h; cases h)
  have : j = .burn := C30_injective hok trivial (hj.symm.trans hd)
  subst this
  obtain ⟨_, _, h3, h4⟩ := execute_ok he
  have hs := C60_seen (L := L) (F := F) h trivial hF.program hne (by
    intro o ho
    simp only [callOf, optionals, List.mem_cons, List.not_mem_nil, or_false] at ho
    rcases ho with rfl | rfl
    · simp
    · exact hg)
  have hb := hs.symm.trans h3
  have hpaid := burn_paid hb
  rw [Option.getD_none] at hpaid
  have hmem : E.program ∈ i.keys := by
    obtain ⟨_, rfl⟩ := jsProxied_ok.mp h
    simp [ClientIx.keys, callOf, Call.metas, metaOpt, metaRo]
  have hca := h4 _ hmem
  have hnw : F.writable E.program = false := by
    by_contra hc
    rw [Bool.not_eq_false] at hc
    rw [((hF.writable _).mp hc).2] at hw
    cases hw
  unfold changeAllowed at hca
  simp only [hnw, Bool.false_and, Bool.or_false, decide_eq_true_eq] at hca
  rw [hca] at hpaid
  omega

/-- With a recipient it does what it stands for, also when the group is left out. -/
theorem C60_burn {F : Env} {a s r : Key} {g : Option Key} {k : Key}
    (hk : nullable (hGroup (L a).data) ≠ some k) :
    meant F L (filled k (callOf ctx (.burn a s (some r) g))) = .ok L' ↔
      meant F L (callOf ctx (.burn a s (some r) g)) = .ok L' := by
  cases g with
  | some g => rfl
  | none =>
    simp only [callOf, filled, meant, Option.getD_some, Option.getD_none]
    unfold processBurn
    have hg : ∀ L1, burnGroup L a (some k) (L a).data = .ok L1 ↔
        burnGroup L a none (L a).data = .ok L1 := by
      intro L1
      unfold burnGroup
      cases hn : nullable (hGroup (L a).data) with
      | none => rfl
      | some g =>
        have : g ≠ k := by rintro rfl; exact hk hn
        simp [require, this, bind, Except.bind]
    simp only [bind_ok, hg]

/-- The option is also there for Resize, and of no use. -/
theorem C60_resize_refused {a : Key} {au : Option Key} {p : Option (Key × Bool)} {sy : Option Key}
    {st : JsStrategy} (h : jsProxied E.program C.assetId ctx (.resize a au p sy st) = .ok i) :
    proxyProcess E C L i.keys i.data = .error .invalidInstructionData := by
  obtain ⟨_, rfl⟩ := jsProxied_ok.mp h
  simp only [callOf, instrOf]
  unfold proxyProcess
  rw [show decodeProxyCreate (encode (.resize (strategyOf st))) = none from rfl,
    decode_encode (i := .resize (strategyOf st)) trivial]
  exact C37_resize_false _

/-- The extension of an Update through the proxy program is ignored. -/
theorem C60_extension_ignored {a : Key} {au bu g p sy : Option Key} {n : Option Bytes}
    {m : Option Bool} {e : Option JsExtInput} {j : ClientIx}
    (h : jsProxied E.program C.assetId ctx (.update a au bu g p sy n m e) = .ok i)
    (h' : jsProxied E.program C.assetId ctx (.update a au bu g p sy n m none) = .ok j)
    (ht : IfAny (fun s => validUtf8 s = true) n) :
    proxyProcess E C L i.keys i.data = proxyProcess E C L j.keys j.data := by
  obtain ⟨hf, rfl⟩ := jsProxied_ok.mp h
  obtain ⟨_, rfl⟩ := jsProxied_ok.mp h'
  exact C36_no_extension rfl (instrOk (ctx := ctx) (x := .update a au bu g p sy n m e) hf ht)

/-- `updateWithBuffer` with the option binds the whole group of instructions to the proxy program. The
first, an Allocate of the buffer, is refused, since an account without data is no proxied asset. -/
theorem C60_buffer_refused {fresh : Key} {p sy : Option Key} {e : JsExtInput}
    (h : jsInstruction E.program ctx (.allocate fresh p sy e) = .ok i) (hd : (L fresh).data = []) :
    ∀ L', proxyProcess E C L i.keys i.data ≠ .ok L' := by
  obtain ⟨hf, rfl⟩ := C59_built.mp h
  intro L' hp
  have hok : InstrOk (.allocate (extInputOf e)) :=
    instrOk (ctx := ctx) (x := .allocate fresh p sy e) hf trivial
  rw [Call.data_eq] at hp
  simp only [callOf, instrOf] at hp
  unfold proxyProcess at hp
  rw [show decodeProxyCreate (encode (.allocate (extInputOf e))) = none from rfl,
    decode_encode hok] at hp
  obtain ⟨a, rest, y, s, F, hk, hy, _⟩ := interface_forwards hp
  have : a = fresh := by
    simp only [ClientIx.keys, Call.build, Call.metas, List.map_cons, List.cons.injEq] at hk
    exact hk.1.symm
  rw [this, hd] at hy
  cases hy

end

section Examples
open Verif.Ex

/-- The environment of the proxy program for an instruction of the client: the privileges asked for. -/
def proxiedEnv (L : Ledger) (i : ClientIx) : Env := only (proxyEnv L []) i.metas

/-- A request of the client through the proxy program. -/
def sendProxied (L : Ledger) (x : JsInput) : Except Err Ledger := do
  let i ← jsProxied (k 20) prog jsUser x
  proxyProcess (proxiedEnv L i) proxyConsts L i.keys i.data

/-- The owner burns the asset, and gets nothing done without naming a recipient. -/
theorem C60_false :
    (sendProxied viaProxy2 (.burn (k 1) (k 2) none none)).isOk = false ∧
    ((sendProxied viaProxy2 (.burn (k 1) (k 2) (some (k 2)) none)).map fun L =>
      (L (k 1)).data.length) = .ok 0 := by decide +kernel

/-- Without the proxy program in between, leaving out the recipient is fine. -/
example : (execute { proxyEnv viaProxy2 [k 1, k 2] with program := prog } viaProxy2
    ((Call.burn (k 1) (k 2) none none).build prog).keys .burn).isOk = true := by decide +kernel

/-- The hypotheses of `C60_burn_refused` hold here. -/
example : ∃ i, jsProxied (k 20) prog jsUser (.burn (k 1) (k 2) none none) = .ok i ∧
    (proxiedEnv viaProxy2 i).program = k 20 ∧ (proxiedEnv viaProxy2 i).writable (k 20) = false ∧
    (viaProxy2 (k 1)).lamports ≠ 0 ∧
    fetchProxy (viaProxy2 (k 1)).data = .ok ⟨k 20, (k 21).1, 254, k 22⟩ ∧
    (proxiedEnv viaProxy2 i).pda (k 21).1 254 (k 20) = some (k 1) :=
  ⟨_, jsProxied_ok.mpr ⟨trivial, rfl⟩, rfl, by decide +kernel, by decide +kernel, by decide +kernel,
    by decide +kernel⟩

/-- Other requests go through, also with defaults: the owner locks and unlocks, the maker renames; a
new extension is ignored. -/
example :
    (sendProxied viaProxy2 (.lock (k 1) (some (k 2)))).isOk = true ∧
    (sendProxied viaProxy2 (.approve (k 1) (some (k 2)) (k 4) .all)).isOk = true ∧
    (sendProxied viaProxy2 (.transfer (k 1) (some (k 2)) (k 5) none)).isOk = true ∧
    ((sendProxied viaProxy2 (.update (k 1) (some (k 22)) none none none none (some [66]) none
      (some ⟨.links, 4, some [1, 97, 1, 98]⟩))).map fun L =>
        (assetGet .links (L (k 1)).data, (view (L (k 1)).data).name.take 2)) =
      .ok (.ok none, [66, 0]) := by
  decide +kernel

/-- The buffer of a long extension is not even allocated. -/
example : (match jsInstruction (k 20) jsUser (.allocate (k 7) (some (k 5)) none ⟨.blob, 900, none⟩) with
    | .ok i => (proxyProcess (proxiedEnv viaProxy2 i) proxyConsts viaProxy2 i.keys i.data).isOk
    | .error _ => true) = false := by decide +kernel

end Examples
end Verif.Props

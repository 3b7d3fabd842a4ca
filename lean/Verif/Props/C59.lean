import Verif.Spec.JsCalls
import Verif.Props.C46

/-!
# C59 — the JavaScript client builds the same instructions as the Rust client
-/

namespace Verif.Props

open Verif Verif.Spec

section
variable {E : Env} {L L' : Ledger} {x : JsInput} {ctx : JsContext} {program : Key}

theorem jsPutNum_ok {n v : Nat} {b : Bytes} : jsPutNum n v = .ok b ↔ v < 256 ^ n ∧ toLE n v = b := by
  unfold jsPutNum
  split
  · simp_all
  · simp only [reduceCtorEq, false_iff, not_and]
    intro h; contradiction

theorem jsPutBytes_ok {s b : Bytes} : jsPutBytes s = .ok b ↔ Short s ∧ encBytes s = b := by
  unfold jsPutBytes Short encBytes
  simp only [bind_ok, pure_ok, jsPutNum_ok]
  constructor
  · rintro ⟨_, ⟨h, rfl⟩, rfl⟩; exact ⟨h, rfl⟩
  · rintro ⟨h, rfl⟩; exact ⟨_, ⟨h, rfl⟩, rfl⟩

theorem jsPutEnum_role (r : Role) : jsPutEnum (jsRole r) = .ok [r.tag] := by cases r <;> rfl
theorem jsPutEnum_ext (t : ExtType) : jsPutEnum (jsExtType t) = .ok [t.tag] := by cases t <;> rfl
theorem jsPutEnum_standard (s : Standard) : jsPutEnum (jsStandard s) = .ok [s.tag] := by
  cases s <;> rfl

theorem jsPutOption_ok {α β : Type} {f : α → Except Err Bytes} {P : α → Prop} {c : α → β}
    {g : β → Bytes} (hf : ∀ a b, f a = .ok b ↔ P a ∧ g (c a) = b) {o : Option α} {b : Bytes} :
    jsPutOption f o = .ok b ↔ IfAny P o ∧ encOpt g (o.map c) = b := by
  cases o with
  | none => simp [jsPutOption, IfAny, encOpt]
  | some a =>
    simp only [jsPutOption, IfAny, encOpt, Option.map_some, bind_ok, pure_ok, hf, Option.some.injEq,
      forall_eq']
    constructor
    · rintro ⟨_, ⟨h, rfl⟩, rfl⟩; exact ⟨h, rfl⟩
    · rintro ⟨h, rfl⟩; exact ⟨_, ⟨h, rfl⟩, rfl⟩

theorem jsPutAll_ok {α β : Type} {f : α → Except Err Bytes} {P : α → Prop} {c : α → β}
    {g : β → Bytes} (hf : ∀ a b, f a = .ok b ↔ P a ∧ g (c a) = b) :
    ∀ {l : List α} {b : Bytes},
      jsPutAll f l = .ok b ↔ (∀ a ∈ l, P a) ∧ (l.map c).flatMap g = b
  | [], b => by simp [jsPutAll]
  | a :: l, b => by
    simp only [jsPutAll, bind_ok, pure_ok, hf, jsPutAll_ok hf, List.forall_mem_cons, List.map_cons,
      List.flatMap_cons]
    constructor
    · rintro ⟨_, ⟨h, rfl⟩, _, ⟨hl, rfl⟩, rfl⟩; exact ⟨⟨h, hl⟩, rfl⟩
    · rintro ⟨⟨h, hl⟩, rfl⟩; exact ⟨_, ⟨h, rfl⟩, _, ⟨hl, rfl⟩, rfl⟩

theorem jsPutArray_ok {α β : Type} {f : α → Except Err Bytes} {P : α → Prop} {c : α → β}
    {g : β → Bytes} (hf : ∀ a b, f a = .ok b ↔ P a ∧ g (c a) = b) {l : List α} {b : Bytes} :
    jsPutArray f l = .ok b ↔ (Short l ∧ ∀ a ∈ l, P a) ∧ encVec g (l.map c) = b := by
  unfold jsPutArray encVec Short
  simp only [bind_ok, pure_ok, jsPutNum_ok, jsPutAll_ok hf, List.length_map]
  constructor
  · rintro ⟨_, ⟨h, rfl⟩, _, ⟨hl, rfl⟩, rfl⟩; exact ⟨⟨h, hl⟩, rfl⟩
  · rintro ⟨⟨h, hl⟩, rfl⟩; exact ⟨_, ⟨h, rfl⟩, _, ⟨hl, rfl⟩, rfl⟩

theorem jsPutExtInput_ok {x : JsExtInput} {b : Bytes} :
    jsPutExtInput x = .ok b ↔ ExtFits x ∧ encExtInput (extInputOf x) = b := by
  unfold jsPutExtInput encExtInput extInputOf ExtFits
  have ho : ∀ b, jsPutOption jsPutBytes x.data = .ok b ↔
      IfAny Short x.data ∧ encOpt encBytes x.data = b := by
    intro b
    have := jsPutOption_ok (c := id) (fun a b => jsPutBytes_ok (s := a) (b := b)) (o := x.data) (b := b)
    rwa [Option.map_id] at this
  simp only [bind_ok, pure_ok, jsPutEnum_ext, jsPutNum_ok, ho, Except.ok.injEq]
  have e : ∀ h : x.length < 4294967296, (UInt32.ofNat x.length).toNat = x.length := fun h =>
    UInt32.toNat_ofNat_of_lt' h
  constructor
  · rintro ⟨_, rfl, _, ⟨h, rfl⟩, _, ⟨hd, rfl⟩, rfl⟩
    refine ⟨⟨h, hd⟩, ?_⟩
    rw [e h]; rfl
  · rintro ⟨⟨h, hd⟩, rfl⟩
    refine ⟨_, rfl, _, ⟨h, rfl⟩, _, ⟨hd, rfl⟩, ?_⟩
    rw [e h]; rfl

theorem jsPutDelegateInput_ok {x : DelegateInput} {b : Bytes} :
    jsPutDelegateInput x = .ok b ↔ RolesOk x ∧ encDelegateInput x = b := by
  cases x with
  | all =>
    simp only [jsPutDelegateInput, RolesOk, encDelegateInput, true_and]
    rw [show jsPutEnum 0 = .ok [0] from rfl, Except.ok.injEq]
  | some rs =>
    have hr : ∀ b, jsPutArray (fun r => jsPutEnum (jsRole r)) rs = .ok b ↔
        Short rs ∧ encVec (fun r => [Role.tag r]) rs = b := by
      intro b
      have := jsPutArray_ok (f := fun r => jsPutEnum (jsRole r)) (P := fun _ => True) (c := id)
        (g := fun r => [Role.tag r]) (fun a b => by simp [jsPutEnum_role]) (l := rs) (b := b)
      rw [List.map_id] at this
      simpa using this
    simp only [jsPutDelegateInput, RolesOk, encDelegateInput, bind_ok, pure_ok, hr]
    rw [show jsPutEnum 1 = .ok [1] from rfl]
    simp only [Except.ok.injEq]
    constructor
    · rintro ⟨_, rfl, _, ⟨h, rfl⟩, rfl⟩; exact ⟨h, rfl⟩
    · rintro ⟨h, rfl⟩; exact ⟨_, rfl, _, ⟨h, rfl⟩, rfl⟩

/-- The data of a request is the data of the call it stands for; it is refused only if a number or
a list does not fit into its field. -/
theorem C59_data {b : Bytes} :
    x.data = .ok b ↔ InputFits x ∧ ((callOf ctx x).build program).data = b := by
  have d0 : jsPutNum 1 0 = .ok [0] := rfl
  have d1 : jsPutNum 1 1 = .ok [1] := rfl
  have d2 : jsPutNum 1 2 = .ok [2] := rfl
  have d3 : jsPutNum 1 3 = .ok [3] := rfl
  have d4 : jsPutNum 1 4 = .ok [4] := rfl
  have d5 : jsPutNum 1 5 = .ok [5] := rfl
  have d6 : jsPutNum 1 6 = .ok [6] := rfl
  have d7 : jsPutNum 1 7 = .ok [7] := rfl
  have d8 : jsPutNum 1 8 = .ok [8] := rfl
  have d9 : jsPutNum 1 9 = .ok [9] := rfl
  have d10 : jsPutNum 1 10 = .ok [10] := rfl
  have d11 : jsPutNum 1 11 = .ok [11] := rfl
  have d12 : jsPutNum 1 12 = .ok [12] := rfl
  have d13 : jsPutNum 1 13 = .ok [13] := rfl
  have d14 : jsPutNum 1 14 = .ok [14] := rfl
  have d15 : jsPutNum 1 15 = .ok [15] := rfl
  have d16 : jsPutNum 1 16 = .ok [16] := rfl
  have d17 : jsPutNum 1 17 = .ok [17] := rfl
  have hopt : ∀ (o : Option Bytes) b, jsPutOption jsPutBytes o = .ok b ↔
      IfAny Short o ∧ encOpt encBytes o = b := by
    intro o b
    have := jsPutOption_ok (c := id) (fun a b => jsPutBytes_ok (s := a) (b := b)) (o := o) (b := b)
    rwa [Option.map_id] at this
  have hbool : ∀ (o : Option Bool) b, jsPutOption (fun b => .ok (jsPutBool b)) o = .ok b ↔
      encOpt encBool o = b := by
    intro o b
    cases o <;> simp [jsPutOption, encOpt, jsPutBool, encBool, bind, Except.bind, pure, Except.pure]
  cases x <;> simp only [JsInput.data, callOf, Call.build, Call.args, Call.discriminator, InputFits,
    bind_ok, pure_ok, jsPutBytes_ok, d0, d1, d2, d3, d4, d5, d6, d7, d8, d9, d10, d11, d12, d13, d14, d15, d16, d17, jsPutEnum_ext,
    jsPutEnum_standard, jsPutExtInput_ok, jsPutDelegateInput_ok, hopt, hbool, true_and,
    jsPutOption_ok (fun a b => jsPutExtInput_ok (x := a) (b := b)),
    jsPutOption_ok (c := List.map extInputOf) (fun a b => jsPutArray_ok (l := a) (b := b)
      (fun a b => jsPutExtInput_ok (x := a) (b := b)))]
  case create =>
    constructor
    · rintro ⟨_, ⟨⟩, _, ⟨h1, rfl⟩, _, ⟨⟩, _, ⟨h2, rfl⟩, rfl⟩
      exact ⟨⟨h1, h2⟩, by simp only [List.append_assoc]; rfl⟩
    · rintro ⟨⟨h1, h2⟩, rfl⟩
      exact ⟨_, rfl, _, ⟨h1, rfl⟩, _, rfl, _, ⟨h2, rfl⟩, by simp only [List.append_assoc]; rfl⟩
  case update =>
    constructor
    · rintro ⟨_, ⟨⟩, _, ⟨h1, rfl⟩, _, rfl, _, ⟨h2, rfl⟩, rfl⟩
      exact ⟨⟨h1, h2⟩, by simp only [List.append_assoc]⟩
    · rintro ⟨⟨h1, h2⟩, rfl⟩
      exact ⟨_, rfl, _, ⟨h1, rfl⟩, _, rfl, _, ⟨h2, rfl⟩, by simp only [List.append_assoc]⟩
  case resize a au p sy s =>
    cases s with
    | trim =>
      constructor
      · rintro ⟨_, ⟨⟩, _, ⟨⟩, rfl⟩; exact ⟨trivial, rfl⟩
      · rintro ⟨_, rfl⟩; exact ⟨_, rfl, _, rfl, rfl⟩
    | extend v =>
      have e : ∀ h : v < 65536, (UInt16.ofNat v).toNat = v := fun h => UInt16.toNat_ofNat_of_lt' h
      simp only [jsPutStrategy, strategyOf, encStrategy, bind_ok, pure_ok, jsPutNum_ok]
      rw [show jsPutEnum 1 = .ok [1] from rfl]
      constructor
      · rintro ⟨_, ⟨⟩, _, ⟨_, ⟨⟩, _, ⟨h, rfl⟩, rfl⟩, rfl⟩
        exact ⟨h, by rw [e h]; rfl⟩
      · rintro ⟨h, rfl⟩
        exact ⟨_, rfl, _, ⟨_, rfl, _, ⟨h, rfl⟩, rfl⟩, by rw [e h]; rfl⟩
  case remove =>
    constructor
    · rintro ⟨_, ⟨⟩, _, ⟨⟩, rfl⟩; rfl
    · rintro rfl; exact ⟨_, rfl, _, rfl, rfl⟩
  case write =>
    constructor
    · rintro ⟨_, ⟨⟩, _, ⟨h, rfl⟩, rfl⟩; exact ⟨h, rfl⟩
    · rintro ⟨h, rfl⟩; exact ⟨_, rfl, _, ⟨h, rfl⟩, rfl⟩
  case approve | allocate | revoke =>
    constructor
    · rintro ⟨_, ⟨⟩, _, ⟨h, rfl⟩, rfl⟩; exact ⟨h, rfl⟩
    · rintro ⟨h, rfl⟩; exact ⟨_, rfl, _, ⟨h, rfl⟩, rfl⟩
  all_goals
    constructor
    · rintro ⟨⟩; rfl
    · rintro rfl; rfl

/-- The accounts of a request, in the same order and with the same flags as those of the call. -/
theorem C59_accounts : jsMetas program (x.accounts ctx) = (callOf ctx x).metas program := by
  have h1 : ∀ (o : Option Key) (w : Bool), jsMeta program ⟨o.bind jsAddress, w⟩ =
      metaOpt program (fun k => ⟨k, false, w⟩) o := by
    intro o w; cases o <;> rfl
  have h2 : ∀ (o : Option Key) (w : Bool), jsMeta program ⟨o.bind jsSigner, w⟩ =
      metaOpt program (fun k => ⟨k, true, w⟩) o := by
    intro o w; cases o <;> rfl
  have h3 : ∀ (o : Option Key) (k : Key) (w : Bool),
      jsMeta program ⟨(o.bind jsSigner).or (jsSigner k), w⟩ = ⟨o.getD k, true, w⟩ := by
    intro o k w; cases o <;> rfl
  have h4 : ∀ (o : Option Key) (k : Key) (w : Bool),
      jsMeta program ⟨(o.bind jsAddress).or (jsAddress k), w⟩ = ⟨o.getD k, false, w⟩ := by
    intro o k w; cases o <;> rfl
  have h5 : ∀ (o : Option (Key × Bool)) (k : Key) (w : Bool),
      jsMeta program ⟨o.or (jsSigner k), w⟩ = ⟨(o.getD (k, true)).1, (o.getD (k, true)).2, w⟩ := by
    intro o k w; cases o <;> rfl
  have h6 : ∀ p s : Option Key, jsMeta program ⟨jsSystem (p.bind jsSigner) s, false⟩ =
      metaOpt program (fun k => ⟨k, false, false⟩) (systemOf p s) := by
    intro p s; cases p <;> cases s <;> rfl
  have h7 : ∀ (p : Option (Key × Bool)) (k : Key) (s : Option Key),
      jsMeta program ⟨jsSystem (p.or (jsSigner k)) s, false⟩ = ⟨s.getD Key.system, false, false⟩ := by
    intro p k s; cases p <;> cases s <;> rfl
  cases x <;> simp only [JsInput.accounts, callOf, Call.metas, jsMetas, List.map_cons, List.map_nil,
    h1, h2, h3, h4, h5, h6, h7] <;> rfl

/-- What the client builds is what the Rust client builds for the same call. -/
theorem C59_built {i : ClientIx} :
    jsInstruction program ctx x = .ok i ↔ InputFits x ∧ (callOf ctx x).build program = i := by
  unfold jsInstruction
  simp only [bind_ok, pure_ok, C59_data (ctx := ctx) (program := program), C59_accounts]
  constructor
  · rintro ⟨_, ⟨h, rfl⟩, rfl⟩; exact ⟨h, rfl⟩
  · rintro ⟨h, rfl⟩; exact ⟨_, ⟨h, rfl⟩, rfl⟩

theorem instrOk (hf : InputFits x) (ht : TextIn x) : InstrOk (instrOf (callOf ctx x)) := by
  have he : ∀ e, ExtFits e → ExtOk (extInputOf e) := fun e h => h.2
  cases x <;> simp only [callOf, instrOf, InstrOk]
  case create =>
    refine ⟨⟨hf.1, ht⟩, fun l hl => ?_⟩
    obtain ⟨l', h', rfl⟩ := Option.map_eq_some_iff.mp hl
    obtain ⟨h1, h2⟩ := hf.2 l' h'
    refine ⟨by unfold Short at h1 ⊢; rwa [List.length_map], fun e hm => ?_⟩
    obtain ⟨e', hm', rfl⟩ := List.mem_map.mp hm
    exact he _ (h2 e' hm')
  case update =>
    refine ⟨fun a ha => ⟨hf.1 a ha, ht a ha⟩, fun e hm => ?_⟩
    obtain ⟨e', hm', rfl⟩ := Option.map_eq_some_iff.mp hm
    exact he _ (hf.2 e' hm')
  case allocate => exact he _ hf
  all_goals exact hf

/-- A request is read by the program as the instruction it stands for. -/
theorem C59_decodes {i : ClientIx} (h : jsInstruction program ctx x = .ok i) (ht : TextIn x) :
    decode i.data = some (instrOf (callOf ctx x)) := by
  obtain ⟨hf, rfl⟩ := C59_built.mp h
  exact C46_decodes (instrOk hf ht)

/-- And its accounts are taken for what they are meant to be. -/
theorem C59_meant {i : ClientIx} (h : jsInstruction E.program ctx x = .ok i)
    (ho : ∀ o ∈ optionals (callOf ctx x), o ≠ some E.program) :
    dispatch E L (instrOf (callOf ctx x)) i.keys = meant E L (callOf ctx x) := by
  obtain ⟨_, rfl⟩ := C59_built.mp h
  exact C46_accounts ho

/-- The client asks for all privileges that are needed: what succeeds with any privileges succeeds,
with the same outcome, with those asked for. -/
theorem C59_sent {i : ClientIx} (h : jsInstruction E.program ctx x = .ok i) (ht : TextIn x)
    (he : execute E L i.keys (instrOf (callOf ctx x)) = .ok L')
    (hg : Grants E i.metas) (hf : FlagsSet E (callOf ctx x))
    (hp : NotProxied E L (mainAccount (callOf ctx x)) ∨
      (only E i.metas).signer (mainAccount (callOf ctx x)) = true)
    (hw : E.writable E.program = false)
    (ks : List Key) (hn : ks.Nodup) (hks : ∀ k ∈ i.keys, k ∈ ks) (hs : sumLamports L ks < 2 ^ 64) :
    executeBytes (only E i.metas) L i.keys i.data = .ok L' := by
  obtain ⟨hfit, rfl⟩ := C59_built.mp h
  exact C46_sent he (instrOk hfit ht) hg hf hp hw ks hn hks hs

/-- The instructions of `initialize`, `mint` and `updateWithBuffer` (`jsInitialize`, `jsMint`,
`jsUpdateWithBuffer`) are requests of this kind. -/
theorem C59_allocate (asset : Key) (payer : Option Key) (e : JsExtInput) :
    jsAllocate asset payer (extInputOf e) = callOf ctx (.allocate asset payer none e) := rfl

theorem C59_write (asset : Key) (payer : Option Key) (w : WriteInput) :
    Call.write asset (payer.getD ctx.payer) Key.system w =
      callOf ctx (.write asset payer none w.overwrite w.bytes) := rfl

theorem C59_create (r : JsMintArgs) :
    jsCreate ctx r = callOf ctx (.create r.asset r.authority r.owner r.group r.groupAuthority r.payer
      none r.name r.standard r.isMutable none) := rfl

end

section Examples
open Verif.Ex

/-- An identity and another payer. -/
def jsUser : JsContext := ⟨k 3, k 5⟩

/-- One request for every instruction, most accounts left to the defaults. -/
def jsRequests : List JsInput :=
  [.close (k 7) (k 5), .burn (k 1) (k 2) none none,
    .create (k 1) none none none none (some (k 5)) none [65] none none
      (some [⟨.links, 4, some [1, 97, 1, 98]⟩]),
    .approve (k 1) (some (k 2)) (k 4) (.some [.transfer, .burn]), .allocate (k 7) none none ⟨.blob, 300, none⟩,
    .lock (k 1) none, .revoke (k 1) none .all, .transfer (k 1) (some (k 2)) (k 5) none,
    .unlock (k 1) none, .unverify (k 1) (k 6),
    .update (k 1) none none none (some (k 5)) none (some [66]) none
      (some ⟨.attributes, 4, some [1, 99, 1, 100]⟩),
    .verify (k 1) (k 6), .write (k 7) none none true [1, 2, 3], .group (k 1) (k 8) none,
    .ungroup (k 1) (k 8) none, .handover (k 1) none (k 4), .remove (k 1) none none none .links,
    .resize (k 1) none none none (.extend 300)]

/-- They are built, and read back. -/
example : ∀ x ∈ jsRequests, (match jsInstruction prog jsUser x with
    | .ok i => decide (i = (callOf jsUser x).build prog ∧
        decode i.data = some (instrOf (callOf jsUser x)))
    | .error _ => false) = true := by
  decide +kernel

/-- The update by the identity, which is the authority, and the transfer by the owner go through; the
identity is not the owner and cannot lock. -/
example : (jsRequests.map fun x => match jsInstruction prog jsUser x with
    | .ok i => (executeBytes (only (generous managed) i.metas) managed i.keys i.data).isOk
    | .error _ => false) =
    [false, true, false, true, false, false, false, true, false, false, true, false, false, false,
      false, true, false, true] := by
  decide +kernel

/-- A resize by more than 16 bits can express is refused by the client. -/
example : (jsInstruction prog jsUser (.resize (k 1) none none none (.extend 65536))).isOk = false := by
  decide +kernel

end Examples
end Verif.Props

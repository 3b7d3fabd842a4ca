import Verif.Spec.Unasked

/-!
# Every step of the program with more privileges

What is accepted with some privileges is accepted with more, with the same outcome.
-/

namespace Verif

open Verif.Spec

/-- What the first one accepts the second one accepts, with the same outcome. -/
def Below {α : Type} (x y : Except Err α) : Prop := ∀ r, x = .ok r → y = .ok r

variable {α β : Type} {E : Env} {L : Ledger} {S T : List Key} {k p q : Key} {e e' : Err}

theorem below_refl (x : Except Err α) : Below x x := fun _ h => h

theorem below_error (y : Except Err α) : Below (.error e) y := fun _ h => by cases h

theorem below_bind {x y : Except Err α} {f g : α → Except Err β} (h : Below x y)
    (hf : ∀ a, Below (f a) (g a)) : Below (x >>= f) (y >>= g) := by
  intro r hr
  cases hx : x with
  | error e => rw [hx] at hr; cases hr
  | ok a =>
    rw [hx] at hr
    rw [h a hx]
    exact hf a r hr

theorem below_require {c c' : Prop} [Decidable c] [Decidable c'] (h : c → c') :
    Below (require c e) (require c' e') := by
  intro r hr
  unfold require at hr ⊢
  split at hr
  · rw [if_pos (h ‹_›)]
  · cases hr

theorem below_ite {c : Prop} [Decidable c] {x y x' y' : Except Err α} (h : Below x x')
    (h' : Below y y') : Below (if c then x else y) (if c then x' else y') := by
  by_cases hc : c
  · rw [if_pos hc, if_pos hc]; exact h
  · rw [if_neg hc, if_neg hc]; exact h'

/-- A condition that may become true, else an error. -/
theorem below_when {c c' : Prop} [Decidable c] [Decidable c'] {x x' y : Except Err α} (hc : c → c')
    (h : Below x x') : Below (if c then x else .error e) (if c' then x' else y) := by
  by_cases h' : c
  · rw [if_pos h', if_pos (hc h')]; exact h
  · rw [if_neg h']; exact below_error _

/-- The environment with other privileges. -/
def Env.grant (E : Env) (s w : Key → Bool) (n : Key → Nat) : Env :=
  { E with signer := s, writable := w, origLen := n }

/-- The privileges `w` are those of `E` on `S` at least, and the signatures `s` on `T`. -/
class More (E : Env) (s w : Key → Bool) (n : Key → Nat) (S T : List Key) : Prop where
  sub : ∀ x ∈ T, x ∈ S
  signs : ∀ x ∈ T, E.signer x = true → s x = true
  writes : ∀ x ∈ S, E.writable x = true → w x = true
  lens : ∀ x ∈ S, n x = E.origLen x

variable {s w : Key → Bool} {n : Key → Nat}

set_option linter.unusedSectionVars false

section
variable (S T) [hM : More E s w n S T]
include hM

theorem more_signs (hk : k ∈ T) :
    E.signer k = true → (E.grant s w n).signer k = true := hM.signs k hk

theorem more_writes (hk : k ∈ S) :
    E.writable k = true → (E.grant s w n).writable k = true := hM.writes k hk

theorem more_lens (hk : k ∈ S) :
    (E.grant s w n).origLen k = E.origLen k := hM.lens k hk

theorem more_sub (hk : k ∈ T) : k ∈ S := hM.sub k hk

theorem more_systemTransfer (hp : p ∈ T) (hq : q ∈ S) (m : Nat) :
    Below (systemTransfer E L p q m) (systemTransfer (E.grant s w n) L p q m) := by
  unfold systemTransfer
  refine below_when ?_ (below_refl _)
  rintro ⟨h1, h2, h3, h4⟩
  exact ⟨more_signs S T hp h1, more_writes S T (more_sub (E := E) (s := s) (w := w) (n := n) S T hp) h2, more_writes S T hq h3, h4⟩

theorem more_systemCreate (hp : p ∈ T) (hq : q ∈ T) (m z : Nat) (o : Key) :
    Below (systemCreate E L p q m z o) (systemCreate (E.grant s w n) L p q m z o) := by
  unfold systemCreate
  refine below_when ?_ (below_refl _)
  rintro ⟨h1, h2, h3, h4, h5⟩
  exact ⟨more_signs S T hp h1, more_writes S T (more_sub (E := E) (s := s) (w := w) (n := n) S T hp) h2, more_signs S T hq h3,
    more_writes S T (more_sub (E := E) (s := s) (w := w) (n := n) S T hq) h4, h5⟩

theorem more_realloc (hk : k ∈ S) (m : Nat) :
    Below (realloc E L k m) (realloc (E.grant s w n) L k m) := by
  unfold realloc
  rw [more_lens S T hk]
  exact below_refl _

theorem more_resizeFund (hk : k ∈ S) {o y : Option Key} (ho : ∀ x, o = some x → y.isSome → x ∈ T) (m : Nat) :
    Below (resizeFund E L m k o y) (resizeFund (E.grant s w n) L m k o y) := by
  unfold resizeFund
  refine below_bind (below_refl _) fun _ => below_ite ?_ (below_refl _)
  cases o with
  | none => exact below_error _
  | some x =>
    cases y with
    | none => exact below_error _
    | some z =>
      exact below_bind (below_require (more_signs S T (ho x rfl rfl))) fun _ =>
        below_bind (below_refl _) fun _ => more_systemTransfer S T (ho x rfl rfl) hk _

theorem more_resize (hk : k ∈ S) {o y : Option Key} (ho : ∀ x, o = some x → y.isSome → x ∈ T) (m : Nat) :
    Below (resize E L m k o y) (resize (E.grant s w n) L m k o y) := by
  unfold resize resizeLamports
  exact below_bind (below_ite (below_refl _) (more_resizeFund S T hk ho m)) fun _ =>
    more_realloc S T hk m

theorem more_resizeIf (hk : k ∈ S) {o y : Option Key} (ho : ∀ x, o = some x → y.isSome → x ∈ T) (c : Bool)
    (m : Nat) : Below (resizeIf E c L m k o y) (resizeIf (E.grant s w n) c L m k o y) := by
  unfold resizeIf
  exact below_ite (more_resize S T hk ho m) (below_refl _)

theorem more_processTransfer (hp : p ∈ T) {g : Option Key} :
    Below (processTransfer E L k p q g) (processTransfer (E.grant s w n) L k p q g) := by
  unfold processTransfer
  refine below_bind (below_refl _) fun _ => below_bind (below_require (more_signs S T hp)) fun _ => ?_
  exact below_refl _

theorem more_processApprove (hp : p ∈ T) (x : DelegateInput) :
    Below (processApprove E L k p q x) (processApprove (E.grant s w n) L k p q x) := by
  unfold processApprove
  refine below_bind (below_refl _) fun _ => below_bind (below_refl _) fun _ =>
    below_bind (below_refl _) fun _ => below_bind (below_require (more_signs S T hp)) fun _ =>
      below_refl _

theorem more_processRevoke (hp : p ∈ T) (x : DelegateInput) :
    Below (processRevoke E L k p x) (processRevoke (E.grant s w n) L k p x) := by
  unfold processRevoke
  exact below_bind (below_require (more_signs S T hp)) fun _ => below_refl _

theorem more_processLock (hp : p ∈ T) :
    Below (processLock E L k p) (processLock (E.grant s w n) L k p) := by
  unfold processLock
  exact below_bind (below_require (more_signs S T hp)) fun _ => below_refl _

theorem more_processUnlock (hp : p ∈ T) :
    Below (processUnlock E L k p) (processUnlock (E.grant s w n) L k p) := by
  unfold processUnlock
  exact below_bind (below_require (more_signs S T hp)) fun _ => below_refl _

theorem more_processBurn (hp : p ∈ T) (r g : Option Key) :
    Below (processBurn E L k p r g) (processBurn (E.grant s w n) L k p r g) := by
  unfold processBurn
  exact below_bind (below_refl _) fun _ => below_bind (below_require (more_signs S T hp)) fun _ =>
    below_refl _

theorem more_processClose (hk : k ∈ T) :
    Below (processClose E L k p) (processClose (E.grant s w n) L k p) := by
  unfold processClose
  exact below_bind (below_require (more_signs S T hk)) fun _ => below_refl _

theorem more_processGroup (hq : q ∈ T) :
    Below (processGroup E L k p q) (processGroup (E.grant s w n) L k p q) := by
  unfold processGroup
  exact below_bind (below_require (more_signs S T hq)) fun _ => below_refl _

theorem more_processUngroup (hq : q ∈ T) :
    Below (processUngroup E L k p q) (processUngroup (E.grant s w n) L k p q) := by
  unfold processUngroup
  exact below_bind (below_require (more_signs S T hq)) fun _ => below_refl _

theorem more_processHandover (hp : p ∈ T) (hq : q ∈ T) :
    Below (processHandover E L k p q) (processHandover (E.grant s w n) L k p q) := by
  unfold processHandover
  exact below_bind (below_require (more_signs S T hp)) fun _ =>
    below_bind (below_require (more_signs S T hq)) fun _ => below_refl _

theorem more_processSetVerified (hp : p ∈ T) (b : Bool) :
    Below (processSetVerified E L k p b) (processSetVerified (E.grant s w n) L k p b) := by
  unfold processSetVerified
  exact below_bind (below_require (more_signs S T hp)) fun _ => below_refl _

theorem more_createAccount (hk : k ∈ T) {o y : Option Key} (ho : ∀ x, o = some x → y.isSome → x ∈ T) (m : Nat) :
    Below (createAccount E L k o y m) (createAccount (E.grant s w n) L k o y m) := by
  unfold createAccount
  cases o with
  | none => exact below_error _
  | some x =>
    cases y with
    | none =>
      intro r hr
      cases hc : require (E.signer x = true) .missingRequiredSignature with
      | error e => simp only [hc] at hr; cases hr
      | ok u => simp only [hc] at hr; cases hr
    | some z =>
      exact below_bind (below_require (more_signs S T (ho x rfl rfl))) fun _ =>
        below_bind (below_refl _) fun _ => more_systemCreate S T (ho x rfl rfl) hk _ _ _

theorem more_saveExtensionData (hk : k ∈ T) {o y : Option Key} (ho : ∀ x, o = some x → y.isSome → x ∈ T)
    (x : ExtInput) (b : Bool) (m : Nat) (d : Bytes) :
    Below (saveExtensionData E L k o y x b m d) (saveExtensionData (E.grant s w n) L k o y x b m d) := by
  unfold saveExtensionData allocateSpace
  exact below_bind (below_ite (more_createAccount S T hk ho _)
    (below_ite (more_resize S T (more_sub (E := E) (s := s) (w := w) (n := n) S T hk) ho _) (below_refl _))) fun _ => below_refl _

theorem more_processAllocate (hk : k ∈ T) {o y : Option Key} (ho : ∀ x, o = some x → y.isSome → x ∈ T)
    (x : ExtInput) :
    Below (processAllocate E L k o y x) (processAllocate (E.grant s w n) L k o y x) := by
  unfold processAllocate
  refine below_bind (below_require (more_signs S T hk)) fun _ => below_bind (below_refl _) fun z => ?_
  cases x.data with
  | none => exact more_saveExtensionData S T hk ho _ _ _ _
  | some d => exact below_bind (below_refl _) fun _ => more_saveExtensionData S T hk ho _ _ _ _

theorem more_processWrite (hk : k ∈ T) (hp : p ∈ T) (x : WriteInput) :
    Below (processWrite E L k p q x) (processWrite (E.grant s w n) L k p q x) := by
  have ho : ∀ y, some p = some y → (some q).isSome → y ∈ T := by intro y hy _; cases hy; exact hp
  unfold processWrite
  refine below_bind (below_refl _) fun _ => below_bind (below_require (more_signs S T hp)) fun _ =>
    below_bind (below_require (more_signs S T hk)) fun _ => below_bind (below_refl _) fun _ =>
    below_bind (below_refl _) fun _ => below_bind (below_refl _) fun _ =>
    below_bind (below_refl _) fun y => ?_
  cases y with
  | none => exact below_error _
  | some z =>
    exact below_bind (below_refl _) fun _ => below_bind (more_resize S T (more_sub (E := E) (s := s) (w := w) (n := n) S T hk) ho _) fun _ =>
      below_refl _

theorem more_allocateAll (hk : k ∈ T) {o y : Option Key} (ho : ∀ x, o = some x → y.isSome → x ∈ T)
    (xs : List ExtInput) :
    ∀ L, Below (allocateAll E k o y xs L) (allocateAll (E.grant s w n) k o y xs L) := by
  induction xs with
  | nil => intro L; exact below_refl _
  | cons x xs ih =>
    intro L
    unfold allocateAll
    exact below_bind (more_processAllocate S T hk ho x) fun L => ih L

theorem more_createPrepare (hk : k ∈ T) {o y : Option Key} (ho : ∀ x, o = some x → y.isSome → x ∈ T)
    (x : CreateInput) :
    Below (createPrepare E L k o y x) (createPrepare (E.grant s w n) L k o y x) := by
  unfold createPrepare
  exact below_ite (more_createAccount S T hk ho _) (below_refl _)

theorem more_processCreate (hk : k ∈ T) {g ga o y : Option Key} (hg : g.isSome → ga.getD p ∈ T)
    (ho : ∀ x, o = some x → y.isSome → x ∈ T) (x : CreateInput) :
    Below (processCreate E L k p q g ga o y x) (processCreate (E.grant s w n) L k p q g ga o y x) := by
  unfold processCreate
  refine below_bind (below_require (more_signs S T hk)) fun _ =>
    below_bind (more_createPrepare S T hk ho x) fun _ =>
    below_bind (more_allocateAll S T hk ho _ _) fun _ => below_bind (below_refl _) fun _ =>
    below_bind (below_refl _) fun _ => ?_
  refine below_bind (below_refl _) fun _ => below_bind (below_refl _) fun _ => ?_
  cases g with
  | none => exact below_refl _
  | some y => exact more_processGroup S T (hg rfl)

theorem more_updateMove (hk : k ∈ S) {o y : Option Key} (ho : ∀ x, o = some x → y.isSome → x ∈ T)
    (c : Option (Nat × Nat)) (m u : Nat) (t : Int) :
    Below (updateMove E L k o y c m u t) (updateMove (E.grant s w n) L k o y c m u t) := by
  unfold updateMove
  cases c with
  | none => exact more_resize S T hk ho _
  | some c =>
    refine below_ite (below_refl _) (below_bind (below_refl _) fun z => ?_)
    cases z with
    | none => exact below_error _
    | some z =>
      exact below_bind (more_resizeIf S T hk ho _ _) fun _ => below_bind (below_refl _) fun _ =>
        more_resizeIf S T hk ho _ _

theorem more_updateFinish (hk : k ∈ S) {o y : Option Key} (ho : ∀ x, o = some x → y.isSome → x ∈ T)
    (t : ExtType) (m : Nat) (c : Option (Nat × Nat)) (d : Bytes) :
    Below (updateFinish E L k o y t m c d) (updateFinish (E.grant s w n) L k o y t m c d) := by
  unfold updateFinish
  exact below_bind (more_updateMove S T hk ho _ _ _ _) fun _ => below_refl _

theorem more_updateArgs (hk : k ∈ S) {o y : Option Key} (ho : ∀ x, o = some x → y.isSome → x ∈ T)
    (x : ExtInput) :
    Below (updateArgs E L k p o y x) (updateArgs (E.grant s w n) L k p o y x) := by
  unfold updateArgs
  exact below_bind (below_refl _) fun _ => below_bind (below_refl _) fun _ =>
    below_bind (below_refl _) fun _ => below_bind (below_refl _) fun _ =>
    more_updateFinish S T hk ho _ _ _ _

theorem more_updateBuffer (hk : k ∈ S) {o y : Option Key} (ho : ∀ x, o = some x → y.isSome → x ∈ T) :
    Below (updateBuffer E L k p q o y) (updateBuffer (E.grant s w n) L k p q o y) := by
  unfold updateBuffer
  refine below_bind (below_refl _) fun _ => below_bind (below_refl _) fun _ =>
    below_bind (below_refl _) fun _ => below_bind (below_refl _) fun _ => ?_
  cases firstExtension (L q).data with
  | none => exact below_error _
  | some z =>
    obtain ⟨z1, z2⟩ := z
    simp only
    cases ExtType.ofU32 z1.ty with
    | none => exact below_error _
    | some t =>
      exact below_bind (below_refl _) fun _ => below_bind (below_refl _) fun _ =>
        below_bind (below_refl _) fun _ => below_bind (below_refl _) fun _ =>
        below_bind (below_refl _) fun _ => below_bind (below_refl _) fun _ =>
        more_updateFinish S T hk ho _ _ _ _

theorem more_processUpdate (hk : k ∈ S) (hp : p ∈ T) {b o y : Option Key}
    (ho : ∀ x, o = some x → y.isSome → x ∈ T) (x : UpdateInput) :
    Below (processUpdate E L k p b o y x) (processUpdate (E.grant s w n) L k p b o y x) := by
  unfold processUpdate
  refine below_bind (below_require (more_signs S T hp)) fun _ => below_bind (below_refl _) fun _ =>
    below_bind (below_refl _) fun _ => below_bind (below_refl _) fun _ =>
    below_bind (below_refl _) fun _ => ?_
  cases x.extension <;> cases b
  · exact below_refl _
  · exact more_updateBuffer S T hk ho
  · exact more_updateArgs S T hk ho _
  · exact below_error _

theorem more_processRemove (hk : k ∈ S) (hp : p ∈ T) (t : ExtType) :
    Below (processRemove E L k p q t) (processRemove (E.grant s w n) L k p q t) := by
  have ho : ∀ y, some q = some y → (none : Option Key).isSome → y ∈ T := by intro y _ h; cases h
  unfold processRemove
  refine below_bind (below_require (more_signs S T hp)) fun _ => below_bind (below_refl _) fun _ =>
    below_bind (below_refl _) fun _ => below_bind (below_refl _) fun _ =>
    below_bind (below_refl _) fun _ => below_bind (below_refl _) fun z => ?_
  cases z with
  | none => exact below_error _
  | some z =>
    exact below_bind (below_refl _) fun _ => below_bind (below_refl _) fun _ =>
      more_resize S T hk ho _

theorem more_processResize (hk : k ∈ S) (hp : p ∈ T) {y : Option Key} (hq : y.isSome → q ∈ T) (x : Strategy) :
    Below (processResize E L k p q y x) (processResize (E.grant s w n) L k p q y x) := by
  have ho : ∀ x, some q = some x → y.isSome → x ∈ T := by intro x hx h; cases hx; exact hq h
  unfold processResize
  exact below_bind (below_require (more_signs S T hp)) fun _ => below_bind (below_refl _) fun _ =>
    below_bind (below_refl _) fun _ => below_bind (below_refl _) fun _ =>
    below_bind (below_refl _) fun _ => below_bind (below_refl _) fun _ => more_resize S T hk ho _

omit hM in
theorem mem_payers {o y : Option Key} (ho : o = some k) (hy : y.isSome) : k ∈ payers o y := by
  unfold payers
  rw [if_pos hy, ho]
  exact List.mem_singleton_self _

theorem more_dispatch {ks : List Key} (h : ∀ x ∈ ks, x ∈ S) (i : Instr)
    (hT : ∀ x ∈ askedFor E i ks, x ∈ T) :
    Below (dispatch E L i ks) (dispatch (E.grant s w n) L i ks) := by
  unfold askedFor at hT
  unfold dispatch
  split
  case h_19 => exact below_error _
  all_goals simp only [List.mem_cons, List.not_mem_nil, forall_eq_or_imp, or_false, forall_eq,
    List.mem_append] at h hT
  case h_1 => exact more_processClose S T hT
  case h_2 => exact more_processBurn S T hT _ _
  case h_3 =>
    refine more_processCreate S T hT.1 (fun hg => ?_) (fun x hx hy => ?_) _
    · refine hT.2 _ (.inr ?_)
      rw [if_pos (Option.isSome_iff_ne_none.mp hg)]
      exact List.mem_singleton_self _
    · exact hT.2 _ (.inl (mem_payers hx hy))
  case h_4 => exact more_processApprove S T hT _
  case h_5 => exact more_processAllocate S T hT.1 (fun x hx hy => hT.2 _ (mem_payers hx hy)) _
  case h_6 => exact more_processLock S T hT
  case h_7 => exact more_processRevoke S T hT _
  case h_8 => exact more_processTransfer S T hT
  case h_9 => exact more_processUnlock S T hT
  case h_10 => exact more_processSetVerified S T hT _
  case h_11 => exact more_processUpdate S T h.1 hT.1 (fun x hx hy => hT.2 _ (mem_payers hx hy)) _
  case h_12 => exact more_processSetVerified S T hT _
  case h_13 => exact more_processWrite S T hT.1 hT.2 _
  case h_14 => exact more_processGroup S T hT
  case h_15 => exact more_processUngroup S T hT
  case h_16 => exact more_processHandover S T hT.1 hT.2
  case h_17 => exact more_processRemove S T h.1 hT _
  case h_18 => exact more_processResize S T h.1 hT.1 (fun hy => hT.2 _ (mem_payers rfl hy)) _

theorem more_processInstr {ks : List Key} (h : ∀ x ∈ ks, x ∈ S) (i : Instr)
    (hT : ∀ x ∈ askedFor E i ks, x ∈ T)
    (hP : ∀ x, ks.head? = some x → (L x).owner = E.program → 2 < (L x).data.length →
      hStandard (L x).data = Standard.proxied.toU8 → x ∈ T) :
    Below (processInstr E L ks i) (processInstr (E.grant s w n) L ks i) := by
  unfold processInstr
  refine below_bind ?_ fun _ => below_bind ?_ fun _ => below_bind (below_refl _) fun _ =>
    more_dispatch S T h i hT
  · cases ks with
    | nil => exact below_refl _
    | cons x l =>
      unfold proxiedCheck
      simp only
      by_cases hc : (L x).owner = E.program ∧ (L x).data ≠ []
      · rw [if_pos hc, if_pos (show (L x).owner = (E.grant s w n).program ∧ _ from hc)]
        by_cases hl : 2 < (L x).data.length
        · refine below_bind (below_refl _) fun _ => below_require fun hs => ?_
          by_cases hp : hStandard (L x).data = Standard.proxied.toU8
          · exact .inr (more_signs S T (hP x rfl hc.1 hl hp)
              (hs.resolve_left fun hn => hn hp))
          · exact .inl hp
        · intro r hr
          rw [show require (2 < (L x).data.length) Err.panic = .error .panic from if_neg hl] at hr
          cases hr
      · rw [if_neg hc, if_neg (show ¬ ((L x).owner = (E.grant s w n).program ∧ _) from hc)]
        exact below_refl _
  · have e : ∀ l, lockedScan (E.grant s w n) L l = lockedScan E L l := by
      intro l
      induction l with
      | nil => rfl
      | cons x l ih => unfold lockedScan; simp only [ih]; rfl
    rw [e]
    exact below_refl _

end

end Verif

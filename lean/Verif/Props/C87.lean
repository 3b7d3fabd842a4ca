import Verif.Examples
import Verif.Lemmas.Local
import Verif.Props.C29

/-!
# C87 — an instruction depends only on the accounts it names

Solana runs transactions side by side if neither writes an account that the other one names. That
is sound only if an instruction reads and writes nothing else, and then the order does not matter.
-/

namespace Verif.Props

open Verif Verif.Spec

variable {E E' : Env} {L M L1 L2 L12 : Ledger} {a a' : List Key} {i i' : Instr} {j j' : Job}
  {js js' : List Job}

theorem merge_self (L : Ledger) (S : List Key) : merge L S L = L := by
  funext x; unfold merge; split <;> rfl

theorem merge_agree (h : Agree a L M) : merge L a M = M := by
  funext x
  unfold merge
  split
  · exact h x ‹_›
  · rfl

/-- The outcome on a ledger with the same accounts under the addresses named. -/
theorem run_agree (h : Agree j.accts L M) : j.run M = mergeR (j.run L) j.accts M := by
  have hs : SameLen (j.env.on L) (fun k => (M k).data.length) j.accts :=
    ⟨fun x hx => by rw [← h x hx]; rfl⟩
  have := loc_execute (E := j.env.on L) (L := L) (M := M) (f := fun k => (M k).data.length)
    (fun x (hx : x ∈ j.accts) => hx) j.instr
  rw [merge_agree h] at this
  exact this

/-- Accounts not named are neither read nor written: with the same accounts under the addresses
named, an instruction succeeds or fails alike, with the same error; it leaves the same accounts
under these addresses, and it leaves all others alone. -/
theorem C87_local (h : Agree j.accts L M) :
    (∀ e, j.run L = .error e ↔ j.run M = .error e) ∧
    (∀ L', j.run L = .ok L' → ∃ M', j.run M = .ok M' ∧ Agree j.accts L' M' ∧
      ∀ x, x ∉ j.accts → M' x = M x) := by
  have hr := run_agree h
  constructor
  · intro e
    rw [hr]
    cases j.run L <;> simp
  · intro L' hL
    rw [hL] at hr
    refine ⟨_, hr, fun x hx => (merge_get hx).symm, fun x hx => ?_⟩
    simp [merge, hx]

theorem run_other (h : j.run L = .ok L1) {x : Key} (hx : x ∉ j.accts) : L1 x = L x := by
  obtain ⟨M', hM, _, ho⟩ := (C87_local (j := j) (L := L) (M := L) fun _ _ => rfl).2 _ h
  rw [h] at hM
  cases hM
  exact ho x hx

theorem run_readonly (h : j.run L = .ok L1) {x : Key} (hx : j.env.writable x = false) :
    L1 x = L x := by
  by_contra hn
  have := C29_writable h x hn
  exact absurd hx (by rw [show j.env.writable x = true from this]; decide)

theorem apart_agree (hi : j.Apart j') (h : j.run L = .ok L1) : Agree j'.accts L L1 := by
  intro x hx
  by_cases hm : x ∈ j.accts
  · exact (run_readonly h (hi x hm hx).1).symm
  · exact (run_other h hm).symm

theorem Job.Apart.symm (h : j.Apart j') : j'.Apart j := fun x hx hx' => (h x hx' hx).symm

/-- If neither of two instructions changes an account that the other one names, they can follow
each other in both orders, with the same outcome. -/
theorem C87_diamond (h : j.run L = .ok L1) (h' : j'.run L = .ok L2) (ha : Agree j'.accts L L1)
    (ha' : Agree j.accts L L2) : ∃ L12, j'.run L1 = .ok L12 ∧ j.run L2 = .ok L12 := by
  have e1 := run_agree ha
  have e2 := run_agree ha'
  rw [h'] at e1
  rw [h] at e2
  refine ⟨_, e1, ?_⟩
  rw [e2, mergeR_ok]
  congr 1
  funext x
  unfold merge
  by_cases hx : x ∈ j.accts <;> by_cases hx' : x ∈ j'.accts <;> simp only [hx, hx', if_true, if_false]
  · rw [← ha x hx', ← ha' x hx]
  · rw [run_other h hx, run_other h' hx']

/-- Instructions that may run side by side do so with one outcome: what the second one does does
not depend on whether the first one has run, and both orders end alike. -/
theorem C87_order (hi : j.Apart j') (h : j.run L = .ok L1) :
    (∀ e, j'.run L1 = .error e ↔ j'.run L = .error e) ∧
    (∀ L12, j'.run L1 = .ok L12 → ∃ L2, j'.run L = .ok L2 ∧ j.run L2 = .ok L12) := by
  have ha := apart_agree hi h
  have hl := C87_local ha
  refine ⟨fun e => (hl.1 e).symm, fun L12 h12 => ?_⟩
  cases h2 : j'.run L with
  | error e => rw [(hl.1 e).mp h2] at h12; cases h12
  | ok L2 =>
    obtain ⟨K, k1, k2⟩ := C87_diamond h h2 ha (apart_agree (Job.Apart.symm hi) h2)
    rw [k1] at h12
    cases h12
    exact ⟨L2, rfl, k2⟩

/-- Any number of such instructions can be run in any order. -/
theorem C87_schedule (hp : js.Perm js') : ∀ L, js.Pairwise Job.Apart → runJobs js L = .ok L1 →
    runJobs js' L = .ok L1 := by
  induction hp with
  | nil => intro L _ h; exact h
  | cons x _ ih =>
    intro L hw h
    cases hx : x.run L with
    | error e => rw [runJobs, hx] at h; cases h
    | ok K =>
      rw [runJobs, hx] at h ⊢
      exact ih K (List.pairwise_cons.mp hw).2 h
  | swap x y l =>
    intro L hw h
    have hxy : y.Apart x := (List.pairwise_cons.mp hw).1 x (List.mem_cons_self ..)
    cases hy : y.run L with
    | error e => rw [runJobs, hy] at h; cases h
    | ok K =>
      rw [runJobs, hy] at h
      change runJobs (x :: l) K = _ at h
      cases hx : x.run K with
      | error e => rw [runJobs, hx] at h; cases h
      | ok K' =>
        rw [runJobs, hx] at h
        obtain ⟨K2, e1, e2⟩ := (C87_order hxy hy).2 K' hx
        rw [runJobs, e1]
        change runJobs (y :: l) K2 = _
        rw [runJobs, e2]
        exact h
  | trans p _ ih1 ih2 =>
    intro L hw h
    exact ih2 L ((p.pairwise_iff fun h => Job.Apart.symm h).mp hw) (ih1 L hw h)

/-! ## Concrete instructions -/

open Verif.Ex

/-- Two assets, `k 1` of `k 2` and `k 11` of `k 12`. -/
def twoAssets : Ledger :=
  ledger [(k 1, owned (header 0 0 1 (k 2) Key.default (k 3) (k 4) 7 [65, 66])),
    (k 11, owned (header 0 0 1 (k 12) Key.default (k 3) Key.default 0 [65])),
    (k 2, wallet), (k 12, wallet), (k 5, wallet)]

/-- An instruction signed by one account, with one account writable. -/
def single (signer writes : Key) (accts : List Key) (i : Instr) : Job :=
  ⟨{ env twoAssets [signer] with writable := fun x => x = writes }, accts, i⟩

def sell : Job := single (k 2) (k 1) [k 1, k 2, k 5, prog] .transfer
def freeze : Job := single (k 12) (k 11) [k 11, k 12] .lock
def permit : Job := single (k 2) (k 1) [k 1, k 2, k 7] (.approve .all)
def withdraw : Job := single (k 2) (k 1) [k 1, k 2] (.revoke .all)

/-- A transfer of one asset and a lock of another may run side by side. -/
theorem sell_apart : sell.Apart freeze := by
  have h : ∀ x ∈ sell.accts, x ∉ freeze.accts := by decide +kernel
  exact fun x hx hx' => absurd hx' (h x hx)

example : ((runJobs [sell, freeze] twoAssets).map fun L => (hOwner (L (k 1)).data, hState (L (k 11)).data)) =
    .ok (k 5, 1) := by decide +kernel
example : ((runJobs [freeze, sell] twoAssets).map fun L => (hOwner (L (k 1)).data, hState (L (k 11)).data)) =
    .ok (k 5, 1) := by decide +kernel

/-- `C87_schedule` on them: the whole ledger is the same. -/
example (h : runJobs [sell, freeze] twoAssets = .ok L1) : runJobs [freeze, sell] twoAssets = .ok L1 :=
  C87_schedule (.swap _ _ _) _ (by simpa using sell_apart) h

/-- `C87_local`: the transfer does not notice that the other asset is gone. -/
example : Agree sell.accts twoAssets (twoAssets.set (k 11) ⟨0, [], Key.system⟩) := by
  have h : ∀ x ∈ sell.accts, x ≠ k 11 := by decide +kernel
  intro x hx
  simp [Ledger.set, h x hx]

/-- Instructions that write an account in common are not interchangeable: an approval before a
revocation is void, and one after it holds. -/
theorem C87_needed : ∃ L L1 L2, runJobs [permit, withdraw] L = .ok L1 ∧
    runJobs [withdraw, permit] L = .ok L2 ∧ hDelegateValue (L1 (k 1)).data = none ∧
    hDelegateValue (L2 (k 1)).data ≠ none := by
  have h1 : ((runJobs [permit, withdraw] twoAssets).map fun L =>
      (hDelegateValue (L (k 1)).data).isSome) = .ok false := by decide +kernel
  have h2 : ((runJobs [withdraw, permit] twoAssets).map fun L =>
      (hDelegateValue (L (k 1)).data).isSome) = .ok true := by decide +kernel
  cases e1 : runJobs [permit, withdraw] twoAssets with
  | error e => rw [e1] at h1; cases h1
  | ok L1 =>
    cases e2 : runJobs [withdraw, permit] twoAssets with
    | error e => rw [e2] at h2; cases h2
    | ok L2 =>
      rw [e1] at h1
      rw [e2] at h2
      refine ⟨twoAssets, L1, L2, e1, e2, ?_, ?_⟩
      · exact Option.isNone_iff_eq_none.mp (by simpa using Except.ok.inj h1)
      · exact Option.isSome_iff_ne_none.mp (Except.ok.inj h2)

end Verif.Props

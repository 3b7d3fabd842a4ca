import Verif.Lemmas.Rent
import Verif.Props.C15
import Verif.Props.C27

/-!
# C74 — every account keeps the rent for its size

Accounts that do not hold the rent for their size are not allowed on the chain. The program changes
the size of accounts in many places; in every one of them the lamports follow.
-/

namespace Verif.Props

open Verif Verif.Spec

variable {E : Env} {L L' : Ledger} {accts : List Key} {i : Instr}

/-- Whatever the instruction, an account (of any owner) that held the rent for its size before
holds the rent for its new size afterwards. An unused account counts as holding its rent, so this
is also true of accounts that the instruction creates. -/
theorem C74_solvent (h : execute E L accts i = .ok L') (hsys : E.program ≠ Key.system)
    (hr : Rising E.rent) (hu : Supply L) (x : Key) (hx : Solvent E.rent L x) :
    Solvent E.rent L' x :=
  (((execute_parts h hsys).pays hr) hu).2 x hx

/-- No lamports appear. -/
theorem C74_supply (h : execute E L accts i = .ok L') (hsys : E.program ≠ Key.system)
    (hr : Rising E.rent) (hu : Supply L) : Supply L' :=
  (((execute_parts h hsys).pays hr) hu).1

/-- Hence also over any history, as long as other programs respect the rent. -/
theorem C74_history {program : Key} {rent : Nat → Nat} (hs : RentSteps program rent L L')
    (hsys : program ≠ Key.system) (hr : Rising rent) (hu : Supply L)
    (h0 : ∀ x, Solvent rent L x) : ∀ x, Solvent rent L' x := by
  have key : Supply L' ∧ ∀ x, Solvent rent L' x := by
    induction hs with
    | refl => exact ⟨hu, h0⟩
    | instr E accts i _ hp hre h ih =>
      subst hp hre
      obtain ⟨i1, i2⟩ := ih
      exact ⟨C74_supply h hsys hr i1, fun x => C74_solvent h hsys hr i1 x (i2 x)⟩
    | other _ hx hu' ih => exact ⟨hu', fun x => hx x (ih.2 x)⟩
  exact key.2

theorem payKeys_purse (h : execute E L accts i = .ok L') {x : Key} (hx : x ∈ payKeys i accts) :
    x ∈ purse i accts := by
  cases i with
  | close =>
    obtain ⟨_, _, _, rfl, _⟩ := exec_close h
    simpa [payKeys, Instr.payPositions, purse] using hx
  | burn =>
    obtain ⟨_, _, _, _, _, rfl, _⟩ := exec_burn h
    simpa [payKeys, Instr.payPositions, purse] using hx
  | create =>
    obtain ⟨_, _, _, _, _, _, _, _, rfl, _⟩ := exec_create h
    simpa [payKeys, Instr.payPositions, purse] using hx
  | allocate =>
    obtain ⟨_, _, _, _, rfl, _⟩ := exec_allocate h
    simpa [payKeys, Instr.payPositions, purse] using hx
  | update =>
    obtain ⟨_, _, _, _, _, _, _, rfl, _⟩ := exec_update h
    simpa [payKeys, Instr.payPositions, purse, resizing] using hx
  | write =>
    obtain ⟨_, _, _, _, rfl, _⟩ := exec_write h
    simpa [payKeys, Instr.payPositions, purse, resizing] using hx
  | remove =>
    obtain ⟨_, _, _, _, _, rfl, _⟩ := exec_remove h
    simpa [payKeys, Instr.payPositions, purse, resizing] using hx
  | resize =>
    obtain ⟨_, _, _, _, _, rfl, _⟩ := exec_resize h
    simpa [payKeys, Instr.payPositions, purse, resizing] using hx
  | _ => simp [payKeys, Instr.payPositions] at hx

/-- Nothing is taken on top: an account that is not named to pay or receive, and that is unused or
holds exactly its rent, holds exactly the rent for its new size afterwards. So an asset costs
exactly its rent for all its life, unless lamports are sent to it. -/
theorem C74_tight (h : execute E L accts i = .ok L') (hsys : E.program ≠ Key.system)
    (hr : Rising E.rent) (hu : Supply L) {x : Key} (hx : x ∉ purse i accts)
    (ht : Thrifty E.rent L x) : Thrifty E.rent L' x :=
  (execute_parts h hsys).tight hr hu (fun h' => hx (payKeys_purse h h')) ht

/-- To the lamport: an update, removal, resize or write leaves in the account what `afterResize`
says, and the difference is what the payer paid or received. -/
theorem C74_exact (h : execute E L accts i = .ok L') (hsys : E.program ≠ Key.system)
    (hr : Rising E.rent) (hu : Supply L) {a p : Key} (ha : resizing i accts = some (a, p))
    (hne : p ≠ a) (hs : Solvent E.rent L a) :
    (L' a).lamports = afterResize E.rent (L a).data.length (L a).lamports (L' a).data.length ∧
    (p ≠ E.program → (L' p).lamports + (L' a).lamports = (L p).lamports + (L a).lamports) := by
  cases i with
  | update x =>
    obtain ⟨a', au, b, g, p', s, rest, rfl, hp⟩ := exec_update h
    simp only [resizing, Option.some.injEq, Prod.mk.injEq] at ha
    obtain ⟨rfl, rfl⟩ := ha
    have := update_settles hp hr hsys hu (by
      unfold optAcc
      split
      · simp
      · simpa using hne) hs
    exact ⟨this.1, fun hn => this.2 p' (if_neg hn)⟩
  | remove t =>
    obtain ⟨a', au, g, r, rest, rfl, hp⟩ := exec_remove h
    simp only [resizing, Option.some.injEq, Prod.mk.injEq] at ha
    obtain ⟨rfl, rfl⟩ := ha
    obtain ⟨_, _, _, ho, hi, _⟩ := processRemove_eff hp
    obtain ⟨d, size, hd, h1⟩ := remove_split hp
    have al : Alike a' L (L.setData a' d) := Alike.setData fun _ => hd
    have := Settles.before al (Settles.resize h1 (by rw [al.2.2, ho]; exact hsys) hr (al.supply hu)
      (by simpa using hne) (al.solvent hs))
    exact ⟨this.1, fun _ => this.2 r rfl⟩
  | resize st =>
    obtain ⟨a', au, p', y, rest, rfl, hp⟩ := exec_resize h
    simp only [resizing, Option.some.injEq, Prod.mk.injEq] at ha
    obtain ⟨rfl, rfl⟩ := ha
    obtain ⟨_, _, _, ho, _⟩ := processResize_eff hp
    unfold processResize at hp
    inv at hp
    obtain ⟨_, _, _, _, _, size, _, hp⟩ := hp
    have := Settles.resize hp (by rw [ho]; exact hsys) hr hu (by simpa using hne) hs
    exact ⟨this.1, fun _ => this.2 p' rfl⟩
  | write x =>
    obtain ⟨a', p', s, rest, rfl, hp⟩ := exec_write h
    simp only [resizing, Option.some.injEq, Prod.mk.injEq] at ha
    obtain ⟨rfl, rfl⟩ := ha
    obtain ⟨_, _, ho, _⟩ := processWrite_eff hp
    obtain ⟨size, L1, d, h1, hd, rfl⟩ := write_split hp
    have := (Settles.resize h1 (by rw [ho]; exact hsys) hr hu (by simpa using hne) hs).after
      (Alike.setData (x := a') fun _ => hd)
    exact ⟨this.1, fun _ => this.2 p' rfl⟩
  | _ => simp [resizing] at ha

/-! ## Concrete cases -/

section Examples
open Verif.Ex

/-- The ledgers of the examples are ledgers of a chain. -/
theorem supply_ledger (l : List (Key × Account)) (h : (l.map (·.2.lamports)).sum < 2 ^ 64) :
    Supply (ledger l) := by
  intro ks hn
  refine Nat.lt_of_le_of_lt ?_ h
  induction l with
  | nil =>
    induction ks with
    | nil => exact Nat.le_refl _
    | cons x xs ih =>
      rw [List.map_cons, List.sum_cons]
      have := ih (List.nodup_cons.mp hn).2
      simpa [ledger] using this
  | cons q l ih =>
    have ih := ih (by rw [List.map_cons, List.sum_cons] at h; omega)
    have e : ∀ x, x ≠ q.1 → ledger (q :: l) x = ledger l x := by
      intro x hx
      unfold ledger
      rw [List.find?_cons_of_neg (by simpa using fun h => hx h.symm)]
    have e0 : ledger (q :: l) q.1 = q.2 := by
      unfold ledger
      rw [List.find?_cons_of_pos (by simp)]
    rw [List.map_cons, List.sum_cons]
    by_cases hq : q.1 ∈ ks
    · have t := total_setLamports hn hq (ledger l) q.2.lamports
      have : total ks (ledger (q :: l)) = total ks ((ledger l).setLamports q.1 q.2.lamports) := by
        apply total_congr
        intro x _
        by_cases hx : x = q.1
        · subst hx; rw [e0, Ledger.setLamports_same]
        · rw [e x hx, Ledger.setLamports_other _ _ hx]
      unfold total at t this
      omega
    · rw [show (ks.map fun x => (ledger (q :: l) x).lamports) = ks.map fun x => (ledger l x).lamports
        from List.map_congr_left fun x hx => by rw [e x (by rintro rfl; exact hq hx)]]
      omega

theorem rising_env (L : Ledger) (signers : List Key) : Rising (env L signers).rent :=
  fun _ _ h => Nat.add_le_add_left h 128

/-- A new asset with two extensions holds exactly its rent (here 128 more than its size). -/
example : (run empties [k 1, k 5] createAccts (.create ⟨[65], .nonFungible, true,
      some [⟨.attributes, 4, some [1, 97, 1, 98]⟩, ⟨.blob, 3, some [0, 7, 8]⟩]⟩)).map
      (fun L => ((L (k 1)).data.length, (L (k 1)).lamports, (L (k 5)).lamports)) =
    .ok (216, 344, 4999656) := by decide +kernel

/-- `poor` holds exactly its rent; extended by 100 bytes it holds 100 lamports more, trimmed again
these go back. The account that gets them (`k 7`) need not be the one that paid and did not
sign. -/
example : Thrifty (env poor []).rent poor (k 1) ∧
    ((run poor [k 3] [k 1, k 3, k 3, Key.system] (.resize (.extend 100))).bind fun L =>
      (run L [k 3] [k 1, k 3, k 7, Key.system] (.resize .trim)).map fun L' =>
      ((L (k 1)).lamports, (L (k 3)).lamports, (L' (k 1)).lamports, (L' (k 3)).lamports,
        (L' (k 7)).lamports)) = .ok (396, 4999900, 296, 4999900, 100) := by decide +kernel

/-- Why the payer must be another account: an asset that is named to receive what it does not
need keeps it. -/
example : ((run poor [k 3] [k 1, k 3, k 3, Key.system] (.resize (.extend 100))).bind fun L =>
      (run L [k 3] [k 1, k 3, k 1, Key.system] (.resize .trim)).map fun L' =>
      ((L' (k 1)).data.length, (L' (k 1)).lamports)) = .ok (168, 396) := by decide +kernel

/-- The theorems speak about these runs. -/
example (L' : Ledger)
    (h : run poor [k 3] [k 1, k 3, k 3, Key.system] (.resize (.extend 100)) = .ok L') :
    (L' (k 1)).lamports = max 296 (128 + (L' (k 1)).data.length) ∨
      (L' (k 1)).data.length < 168 := by
  have := (C74_exact h (by decide) (rising_env _ _) (supply_ledger _ (by decide +kernel))
    (a := k 1) (p := k 3) rfl (by decide) (by decide +kernel)).1
  unfold afterResize at this
  rw [show (poor (k 1)).data.length = 168 by decide +kernel,
    show (poor (k 1)).lamports = 296 by decide +kernel] at this
  split at this
  · right; assumption
  · left; exact this

end Examples

end Verif.Props

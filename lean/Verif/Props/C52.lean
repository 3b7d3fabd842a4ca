import Verif.Lemmas.Births
import Verif.Props.C43
import Verif.Props.C50

/-!
# C52 — a mint with the Rust client goes through
-/

namespace Verif.Props

open Verif Verif.Spec

section
variable {E : Env} {L : Ledger} {k payer owner : Key} {au : Key × Bool} {ga : Option Key}

/-- The extensions, in pieces, and then the Create without a group: sent to an unused account they
go through. -/
theorem pieces_mint_live {xs : List Extn} {f : Extn → List Call} {x : CreateInput}
    (hf : ∀ e ∈ xs, Split k payer e (f e)) (hxn : x.extensions = none) (hn : Text x.name)
    (hx : Creatable au.1 xs) (hst : StandardFits E k x.standard xs)
    (hu : L k = ⟨0, [], Key.system⟩) (hne : payer ≠ k)
    (hw : (L payer).owner = Key.system ∧ (L payer).data = [])
    (ha : Affords E (packedEnd 168 xs) (L payer).lamports)
    (hmax : packedEnd 168 xs ≤ 10485760)
    (hprog : E.program ≠ Key.system ∧ payer ≠ E.program)
    (hwh : ∀ y ∈ [au.1, owner, E.program, Key.system] ++ ga.toList, Whole E.program L y) :
    ∃ L' es, sends E L ((xs.flatMap f ++ [Call.create k au owner none ga (some payer)
        (some Key.system) x]).map (·.build E.program)) = .ok L' ∧
      Stores E.program L' k (newAsset x owner au.1 none es) ∧
      Tight L' k (newAsset x owner au.1 none es) ∧
      List.Forall₂ (Born au.1) xs es ∧
      (L' payer).lamports + (L' k).lamports = (L payer).lamports ∧
      ((L' payer).owner = Key.system ∧ (L' payer).data = []) ∧
      ∀ y, y ≠ k → y ≠ payer → L' y = L y := by
  have hso : Sound E L k payer au.1 :=
    ⟨fun _ _ => hwh _ (by simp), fun _ _ => hwh _ (by simp), fun _ _ => hwh _ (by simp),
      hprog.1, hprog.2⟩
  have h0 : Stage E L L k payer (L payer).lamports [] :=
    ⟨⟨hne, hw, by rw [hu]; rfl, fun _ => hu, fun h => by rw [hu] at h; exact absurd rfl h⟩,
      Or.inl ⟨by rw [hu], rfl⟩, Paid.refl⟩
  have hcr : ∀ e ∈ xs, e.1 ≠ .none ∧ ∃ r, onCreate e.1 e.2 (some au.1) = .ok r := by
    intro e he
    obtain ⟨h1, h2, q, _, h3⟩ := hx.2 e he
    exact ⟨h1, q, (onCreate_iff h1).mpr ⟨h3, h2⟩⟩
  generalize hC : Call.create k au owner none ga (some payer) (some Key.system) x = C
  obtain ⟨L1, ys, g1, g2, g3⟩ := exts_live hf hso ha hmax h0 hx.1 hcr (Nat.le_refl _)
    (rest := [C.build E.program])
  rw [List.nil_append] at g2
  obtain ⟨k1, k2⟩ := lookup_stored (t := .proxy) (fun a b h => ⟨h.1, fun hp =>
    h.2.2.1 (by rw [hp]; decide)⟩) g3
  generalize hE : serving E L1 (C.build E.program) = E1
  have hpr : E1.program = E.program := by rw [← hE]; rfl
  have hs : Serves E1 L1 k payer := by rw [← hE, ← hC]; exact serves_create
  have hu1 : Underway E1.program L1 k payer (L payer).lamports := by
    rw [hpr]; exact g2.underway
  have h168 := le_packedEnd 168 xs
  obtain ⟨L2, c1, c2, c3, c4⟩ := create_live (au := au.1) (owner := owner) (x := x) hu1 hs g2.ready
    (staged_ok g3)
    (by
      rw [← hE]
      refine ⟨?_, ?_, ?_⟩
      · rw [k2]; exact hst.1
      · rw [k2]; exact hst.2.1
      · rw [k1]; exact hst.2.2) hxn
    (by rw [← hE]; exact ⟨ha.1, fun n hn => ha.2 n (by omega)⟩)
  have c5 : (L2 k).data.length = packedEnd 168 xs := c4.trans (packedEnd_staged g3 168)
  have hex : execute E1 L1 (C.build E.program).keys (instrOf C) = .ok L2 := by
    rw [← hC]
    refine accept_open hu1 hs g2.ready.blank rfl ?_ (by rw [hpr]; exact hprog.1) rfl ?_ c2
      (by omega)
    · intro y hy h1 h2
      rw [hpr]
      simp only [ClientIx.keys, Call.build, Call.metas, metaRw, metaRo, metaOpt, List.map_cons,
        List.map_nil, List.mem_cons, List.not_mem_nil, or_false] at hy
      refine Whole.paid g2.paid h1 h2 (hwh y ?_)
      rcases hy with rfl | rfl | rfl | rfl | rfl | rfl | rfl
      · exact absurd rfl h1
      · simp
      · simp
      · simp
      · cases ga <;> simp
      · exact absurd rfl h2
      · simp
    · have : ∀ z, processCreate E1 L1 k au.1 owner none z (some payer) (some Key.system) x = .ok L2 := by
        intro z
        unfold processCreate at c1 ⊢
        exact c1
      show processCreate E1 L1 k au.1 owner (optAcc E1 E.program) (optAcc E1 _)
        (optAcc E1 payer) (optAcc E1 Key.system) x = _
      unfold optAcc
      rw [hpr, if_neg hprog.2, if_neg (Ne.symm hprog.1), if_pos rfl]
      exact this _
  have hall : sends E L ((xs.flatMap f ++ [C]).map (·.build E.program)) = .ok L2 := by
    simp only [List.map_append, List.map_cons, List.map_nil]
    refine g1.trans ?_
    rw [send_call (c := C) (by
      rw [← hC]
      exact ⟨hn, by intro a h; rw [hxn] at h; cases h⟩)
      (by rw [hE]; exact hex)]
    rfl
  have hpaid := g2.paid.trans c2
  rw [← hC] at hall
  obtain ⟨es, e1, e2, e3⟩ := pieces_mint hf hxn hn (by simp) (sends_submitted k hall) (by rw [hu])
    (fun e he => ⟨(hx.2 e he).1, by
      obtain ⟨pre, post, hs⟩ := List.append_of_mem he
      rw [hs, packedEnd_append] at hmax
      have := le_packedEnd (roundUp8 (packedEnd 168 pre + 16 + e.2.length)) post
      have := le_roundUp8 (packedEnd 168 pre + 16 + e.2.length)
      simp only [packedEnd] at hmax
      omega⟩)
  rw [← hC]
  refine ⟨L2, es, hall, e1, e2, e3, ?_, ⟨hpaid.owner.trans hw.1, hpaid.data.trans hw.2⟩, hpaid.others⟩
  rw [hpaid.sum, hu]
  rfl

end

section
variable {E : Env} {L : Ledger} {x : MintArgs} {payer : Key}

/-- Minting into an unused account goes through when the extensions are acceptable and fit the
standard, the payer is a wallet with enough lamports and the asset has at most 10 MiB. Afterwards
the account holds the asset asked for and has no spare bytes, the lamports of the payer and the asset together are what
they were, and no other account has changed. -/
theorem C52_mint (hp : x.payer.getD x.owner = payer) (hn : Text x.name)
    (hx : Creatable x.owner x.exts) (hst : StandardFits E x.asset x.standard x.exts)
    (hu : L x.asset = ⟨0, [], Key.system⟩) (hne : payer ≠ x.asset)
    (hw : (L payer).owner = Key.system ∧ (L payer).data = [])
    (ha : Affords E (packedEnd 168 x.exts) (L payer).lamports)
    (hmax : packedEnd 168 x.exts ≤ 10485760)
    (hprog : E.program ≠ Key.system ∧ payer ≠ E.program)
    (hwh : ∀ y ∈ [x.owner, E.program, Key.system], Whole E.program L y) :
    ∃ L' es, sends E L (mint E.program x) = .ok L' ∧
      Stores E.program L' x.asset (newAsset (createOf x) x.owner x.owner none es) ∧
      Tight L' x.asset (newAsset (createOf x) x.owner x.owner none es) ∧
      List.Forall₂ (Born x.owner) x.exts es ∧
      (L' payer).lamports + (L' x.asset).lamports = (L payer).lamports ∧
      ((L' payer).owner = Key.system ∧ (L' payer).data = []) ∧
      ∀ y, y ≠ x.asset → y ≠ payer → L' y = L y := by
  obtain ⟨L', es, h1, h2, h2', h3, h4, h4', h5⟩ := pieces_mint_live (au := (x.owner, false)) (ga := none)
    (x := createOf x) (owner := x.owner) (fun e _ => mintExt_split x.asset payer e) rfl hn hx hst hu hne
    hw ha hmax hprog (by
      intro y hy
      refine hwh y ?_
      simp only [List.mem_append, List.mem_cons, List.not_mem_nil, or_false, Option.toList_none] at hy ⊢
      rcases hy with h | h | h | h
      · exact Or.inl h
      · exact Or.inl h
      · exact Or.inr (Or.inl h)
      · exact Or.inr (Or.inr h))
  refine ⟨L', es, ?_, h2, h2', h3, h4, h4', h5⟩
  rw [← h1]
  unfold mint mintCalls
  rw [hp]
  rfl

end

section Examples
open Verif.Ex

/-- The hypotheses hold for the mint of C43: a blob of 2001 bytes and two creators. -/
theorem mintRequest_creatable : Creatable mintRequest.owner mintRequest.exts := by
  refine ⟨by decide +kernel, fun x hx => ?_⟩
  have hx' : x = (.blob, 0 :: List.replicate 2000 7) ∨
      x = (.creators, (k 2).1 ++ [0, 60] ++ (k 3).1 ++ [1, 40]) := by
    simpa only [mintRequest, List.mem_cons, List.not_mem_nil, or_false] using hx
  rcases hx' with rfl | rfl
  · exact ⟨by decide, ⟨[], List.replicate 2000 7, by show (0 : Nat) ≤ 255; omega, rfl⟩,
      0 :: List.replicate 2000 7, rfl, rfl⟩
  · refine ⟨by decide, by show _ % 34 = 0; decide +kernel,
      (k 2).1 ++ [1, 60] ++ (k 3).1 ++ [0, 40], rfl, by simp, ?_⟩
    exact ⟨by decide +kernel, by decide +kernel, by decide +kernel, by decide +kernel, by simp⟩
example : packedEnd 168 mintRequest.exts = 2280 := by decide +kernel
example : ∃ L' es, sends (env empties []) empties (mint prog mintRequest) = .ok L' ∧
    Stores prog L' (k 1) (newAsset (createOf mintRequest) (k 2) (k 2) none es) ∧
    (L' (k 5)).lamports + (L' (k 1)).lamports = 5000000 := by
  obtain ⟨L', es, h1, h2, _, _, h3, _⟩ := C52_mint (E := env empties []) (L := empties)
    (x := mintRequest) (payer := k 5) rfl ⟨by show (2 : Nat) < 4294967296; omega, by decide +kernel⟩
    mintRequest_creatable ⟨by decide +kernel, by decide +kernel, by
      intro p hp
      rw [show lookup .proxy mintRequest.exts = none by decide +kernel] at hp
      cases hp⟩ (by decide +kernel) (by decide +kernel) (by decide +kernel)
    ⟨by decide +kernel, fun n hn => by
      rw [show packedEnd 168 mintRequest.exts = 2280 by decide +kernel] at hn
      show 128 + n ≤ 5000000
      omega⟩ (by decide +kernel) (by decide +kernel) (by
      intro y hy h1 h2
      have hy' : y = k 2 ∨ y = prog ∨ y = Key.system := by
        simpa only [mintRequest, env, List.mem_cons, List.not_mem_nil, or_false] using hy
      rcases hy' with rfl | rfl | rfl <;> (revert h2; decide +kernel))
  exact ⟨L', es, h1, h2, h3⟩
/-- The payer gave the rent of 2280 bytes. -/
example : ((sends (env empties []) empties (mint prog mintRequest)).map fun L =>
    ((L (k 5)).lamports, (L (k 1)).lamports)) = .ok (4997592, 2408) := by decide +kernel
/-- Without enough lamports it is refused, and so it is when the account has lamports already. -/
example : (sends (env empties []) (ledger [(k 5, ⟨2407, [], Key.system⟩)])
    (mint prog mintRequest)).toOption.isSome = false := by decide +kernel
example : (sends (env empties []) (ledger [(k 1, ⟨1, [], Key.system⟩), (k 5, wallet)])
    (mint prog mintRequest)).toOption.isSome = false := by decide +kernel

end Examples
end Verif.Props

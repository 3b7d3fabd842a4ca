import Verif.Spec.Again
import Verif.Lemmas.Again
import Verif.Lemmas.AgainRecord
import Verif.Props.C31
import Verif.Props.C32
import Verif.Examples

/-!
# C89 — An instruction that arrives twice does no harm

A client that gets no answer sends its instruction again. The second time everything may have
changed around it, so the two runs may have different privileges.
-/

namespace Verif.Props

open Verif Verif.Spec

section
variable {E E' : Env} {L L1 L2 : Ledger} {accts : List Key} {k : Key} {A : Asset} {i : Instr}

/-- On any ledger: the second run of a repeatable instruction is refused, or the ledger stays
exactly as the first run left it. -/
theorem C89_twice_partial (hp : E'.program = E.program) (hsys : E.program ≠ Key.system)
    (hdef : (L Key.default).owner ≠ E.program) (hi : Repeatable i)
    (h1 : execute E L accts i = .ok L1) :
    (∃ e, execute E' L1 accts i = .error e) ∨ execute E' L1 accts i = .ok L1 := by
  cases h2 : execute E' L1 accts i with
  | error e => exact Or.inl ⟨e, rfl⟩
  | ok L2 =>
    refine Or.inr (congrArg _ ?_)
    have hsys' : E'.program ≠ Key.system := hp ▸ hsys
    cases i with
    | close =>
      obtain ⟨b, r, rest, rfl, g1⟩ := exec_close h1
      obtain ⟨b', r', rest', e, g2⟩ := exec_close h2
      cases e
      exact (close_again hsys' g1 g2).elim
    | burn =>
      obtain ⟨a, s, r, g, rest, rfl, g1⟩ := exec_burn h1
      obtain ⟨a', s', r', g', rest', e, g2⟩ := exec_burn h2
      cases e
      rw [show optAcc E' r = optAcc E r by unfold optAcc; rw [hp],
        show optAcc E' g = optAcc E g by unfold optAcc; rw [hp]] at g2
      exact (burn_again hsys' g1 g2).elim
    | create x =>
      obtain ⟨a, au, o, rest, es, rfl, _, _, g, _⟩ := C15_create h1
      obtain ⟨e, he⟩ := C15_once (E := E') (accts := a :: au :: o :: rest) (by rw [hp]; exact g) rfl (Or.inl ⟨x, rfl⟩)
      rw [he] at h2
      cases h2
    | approve x =>
      obtain ⟨a, o, d, rest, rfl, g1⟩ := exec_approve h1
      obtain ⟨a', o', d', rest', e, g2⟩ := exec_approve h2
      cases e
      exact approve_again g1 g2
    | lock => exact (lock_again hp h1 h2).elim
    | revoke x =>
      obtain ⟨a, s, rest, rfl, g1⟩ := exec_revoke h1
      obtain ⟨a', s', rest', e, g2⟩ := exec_revoke h2
      cases e
      exact revoke_again g1 g2
    | transfer =>
      obtain ⟨a, s, r, g, rest, rfl, g1⟩ := exec_transfer h1
      obtain ⟨a', s', r', g', rest', e, g2⟩ := exec_transfer h2
      cases e
      rw [show optAcc E' g = optAcc E g by unfold optAcc; rw [hp]] at g2
      exact transfer_again g1 g2
    | unlock =>
      obtain ⟨a, s, rest, rfl, g1⟩ := exec_unlock h1
      obtain ⟨a', s', rest', e, g2⟩ := exec_unlock h2
      cases e
      exact unlock_again g1 g2
    | group =>
      obtain ⟨a, g, s, rest, rfl, g1⟩ := exec_group h1
      obtain ⟨a', g', s', rest', e, g2⟩ := exec_group h2
      cases e
      refine (group_again (fun hd => ?_) g1 g2).elim
      unfold processGroup at g1
      inv at g1
      exact hdef (hd ▸ g1.2.2.1)
    | ungroup =>
      obtain ⟨a, g, s, rest, rfl, g1⟩ := exec_ungroup h1
      obtain ⟨a', g', s', rest', e, g2⟩ := exec_ungroup h2
      cases e
      refine (ungroup_again (fun hd => ?_) g1 g2).elim
      unfold processUngroup at g1
      inv at g1
      exact hdef (hd ▸ g1.2.2.1)
    | handover =>
      obtain ⟨a, s, n, rest, rfl, g1⟩ := exec_handover h1
      obtain ⟨a', s', n', rest', e, g2⟩ := exec_handover h2
      cases e
      exact handover_again g1 g2
    | allocate x => exact hi.elim
    | unverify => exact hi.elim
    | update x => exact hi.elim
    | verify => exact hi.elim
    | write x => exact hi.elim
    | remove t => exact hi.elim
    | resize s => exact hi.elim

/-- Every instruction on an asset: when both runs succeed, the record stored after the second is the
one stored after the first. (Without a buffer, and leaving out what the program gets wrong anyway.) -/
theorem C89_record_partial (hs : Stores E.program L k A) (hk : accts.head? = some k)
    (hp : E'.program = E.program) (hsys : E.program ≠ Key.system)
    (hdef : (L Key.default).owner ≠ E.program) (hsound : Spec.Sound k A accts i)
    (hb : Unbuffered E.program accts i) (h1 : execute E L accts i = .ok L1)
    (h2 : execute E' L1 accts i = .ok L2) :
    ∃ B, Stores E.program L1 k B ∧ Stores E.program L2 k B := by
  by_cases hi : Repeatable i
  · rcases C89_twice_partial hp hsys hdef hi h1 with ⟨e, he⟩ | he
    · rw [he] at h2; cases h2
    · rw [he] at h2
      cases h2
      rcases refine hs h1 hsound with ⟨rfl, _, _⟩ | ⟨B, hB, _⟩
      · exfalso
        obtain ⟨a, s, r, g, rest, rfl, g1⟩ := exec_burn h1
        obtain ⟨a', s', r', g', rest', e, g2⟩ := exec_burn he
        cases e
        rw [show optAcc E' r = optAcc E r by unfold optAcc; rw [hp],
          show optAcc E' g = optAcc E g by unfold optAcc; rw [hp]] at g2
        exact burn_again (hp ▸ hsys) g1 g2
      · exact ⟨B, hB, hB⟩
  · obtain ⟨B, hB, m1⟩ : ∃ B, Stores E.program L1 k B ∧ Move E accts k i A B := by
      rcases refine hs h1 hsound with ⟨rfl, _, _⟩ | h
      · exact absurd trivial hi
      · exact h
    have hB' : Stores E'.program L1 k B := by rw [hp]; exact hB
    have next : Spec.Sound k B accts i → i ≠ .burn →
        (∀ C, Move E' accts k i B C → C = B) → ∃ B, Stores E.program L1 k B ∧ Stores E.program L2 k B := by
      intro hso hnb hsame
      rcases refine hB' h2 hso with ⟨rfl, _, _⟩ | ⟨C, hC, m2⟩
      · exact absurd rfl hnb
      · cases hsame C m2
        exact ⟨B, hB, hp ▸ hC⟩
    cases i with
    | verify => exact next trivial (by simp) fun C m2 => move_verify_again hk m1 m2
    | unverify => exact next trivial (by simp) fun C m2 => move_unverify_again hk m1 m2
    | resize s => exact next trivial (by simp) fun C m2 => move_resize_same hk m2
    | update x =>
      exact next hsound (by simp) fun C m2 => move_update_again hk hp (hb x rfl) m1 m2
    | remove t =>
      exfalso
      obtain ⟨ht, _, hc⟩ := hsound hk
      obtain ⟨a, au, g, r, rest, rfl, g2⟩ := exec_remove h2
      obtain rfl : a = k := by simpa using hk
      obtain ⟨_, _, _, _, pre, p, post, hf, _⟩ := processRemove_cut hB' ht g2
      refine move_remove_gone hk hc m1 ?_
      rw [hf.1]
      simp
    | allocate x =>
      obtain ⟨e, he⟩ := C15_once hs.1 hk (Or.inr (Or.inl ⟨x, rfl⟩))
      rw [he] at h1; cases h1
    | write x =>
      obtain ⟨e, he⟩ := C15_once hs.1 hk (Or.inr (Or.inr ⟨x, rfl⟩))
      rw [he] at h1; cases h1
    | _ => exact absurd trivial hi

/-- An extension is allocated once: the second Allocate is refused. -/
theorem C89_allocate_partial {x : ExtInput} {base : Bytes}
    (hk : accts.head? = some k) (ho : Open (L k).data base) (hm : (L k).data.length ≤ 10485760)
    (hf : Fits x) (ht : x.ty ≠ .none) (h1 : execute E L accts (.allocate x) = .ok L1) :
    ∃ e, execute E' L1 accts (.allocate x) = .error e := by
  cases h2 : execute E' L1 accts (.allocate x) with
  | error e => exact ⟨e, rfl⟩
  | ok L2 =>
    exfalso
    obtain ⟨a, p, s, rest, rfl, g1⟩ := exec_allocate h1
    obtain ⟨a', p', s', rest', e, g2⟩ := exec_allocate h2
    cases e
    obtain rfl : a = k := by simpa using hk
    obtain ⟨es, hal⟩ : ∃ es, Allocated (L1 a).data es x := by
      rcases ho with ⟨h0, _⟩ | ⟨rfl, hb, es, hpk⟩
      · exact ⟨_, allocate_empty g1 h0 hf ht⟩
      · exact ⟨_, allocate_complete g1 ⟨hb, _, hpk, fun i hi => byteAt_of_length_le hi⟩ (by omega) hf ht⟩
    obtain ⟨_, _, hc, hpend⟩ := hal
    have hcon : (L1 a).data ≠ [] ∧ assetContains x.ty (L1 a).data = .ok true := by
      by_cases hl : (given x).length = x.length.toNat
      · have := hc hl
        refine ⟨fun h0 => ?_, ?_⟩
        · have := this.1.1; rw [h0] at this; simp at this
        · rw [C32_contains this.clean.hasExts ht]; simp
      · have := hpend hl
        refine ⟨fun h0 => ?_, ?_⟩
        · have := this.1.1; rw [h0] at this; simp at this
        · rw [assetContains_pending ht this]; simp
    unfold processAllocate at g2
    inv at g2
    obtain ⟨_, y, g3, _⟩ := g2
    unfold allocateOffset at g3
    simp only at g3
    rw [if_neg hcon.1] at g3
    inv at g3
    obtain ⟨_, _, _, c, g4, g5, _⟩ := g3
    rw [hcon.2] at g4
    cases g4
    cases g5

end

section Examples
open Verif.Ex

/-- A group with one member, and a buffer with new data for its Grouping extension. -/
def regrouped : Ledger := ledger [
  (k 1, owned (header 0 0 1 (k 2) Key.default (k 3) Key.default 0 [65] ++
    blocks 168 [(.grouping, toLE 8 1 ++ toLE 8 0)])),
  (k 9, owned (zeros 168 ++ blocks 168 [(.grouping, toLE 8 0 ++ toLE 8 9)])),
  (k 3, wallet), (k 5, wallet)]

/-- Updating the group from the buffer. -/
def regroup (L : Ledger) : Except Err Ledger :=
  run L [k 3, k 5] [k 1, k 3, k 9, prog, k 5, Key.system] (.update ⟨none, none, none⟩)

/-- A chunk that is sent twice is appended twice; the extension is then complete, with wrong
data. -/
theorem C89_write_false :
    (dataOf (inChunks .blob 4 [] [[1, 2]])).map (·.drop 208) = .ok [1, 2] ∧
    (dataOf (inChunks .blob 4 [] [[1, 2], [1, 2]])).map (·.drop 208) = .ok [1, 2, 1, 2, 0, 0, 0, 0] := by
  decide +kernel

/-- An account is extended twice. -/
theorem C89_resize_false :
    let grow := fun L => run L [k 3, k 5] [k 1, k 3, k 5, Key.system] (.resize (.extend 8))
    (after (grow simple) (k 1)).map (·.data.length) = .ok 176 ∧
    (after (grow simple >>= grow) (k 1)).map (·.data.length) = .ok 184 := by decide +kernel

/-- The first Update overwrites the type in the buffer, and the second adds an extension nobody
asked for. -/
theorem C89_buffer_false :
    (after (regroup regrouped) (k 1)).map (fun a => getExtensions a.data) = .ok (.ok [.grouping]) ∧
    (after (regroup regrouped >>= regroup) (k 1)).map (fun a => getExtensions a.data) =
      .ok (.ok [.grouping, .attributes]) := by decide +kernel

/-- Accepted twice: approving roles. -/
example :
    let permit := fun L => run L [k 2] [k 1, k 2, k 4] (.approve (.some [.lock]))
    (after (permit simple) (k 1)).map (·.data) = (after (permit simple >>= permit) (k 1)).map (·.data) ∧
    (permit simple >>= permit).isOk = true := by decide +kernel
/-- Refused the second time: locking. -/
example :
    let freeze := fun L => run L [k 4] [k 1, k 4] .lock
    (freeze simple).isOk = true ∧
    (after (freeze simple >>= freeze) (k 1)).map (·.data) = .error (.asset .lockedAsset) := by
  decide +kernel
/-- The same asset after one and after two updates of its name and its attributes. -/
example :
    let rename := fun L => run L [k 3, k 5] [k 1, k 3, prog, prog, k 5, Key.system]
      (.update ⟨some [90], none, some ⟨.attributes, 4, some [1, 97, 1, 99]⟩⟩)
    (after (rename managed) (k 1)).map (·.data) = (after (rename managed >>= rename) (k 1)).map (·.data) ∧
    (rename managed >>= rename).isOk = true := by decide +kernel
example : Repeatable .lock ∧ (simple Key.default).owner ≠ prog ∧ prog ≠ Key.system :=
  ⟨trivial, by decide +kernel, by decide +kernel⟩
example : Unbuffered prog [k 1, k 3, prog, prog, k 5, Key.system] (.update ⟨some [90], none, none⟩) :=
  fun _ _ => rfl

end Examples

end Verif.Props

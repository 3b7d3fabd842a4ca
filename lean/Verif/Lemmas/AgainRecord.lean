import Verif.Lemmas.Moves
import Verif.Lemmas.Census
import Verif.Lemmas.Readable
import Verif.Lemmas.Cut
import Verif.Props.C68

/-!
# Making a move twice

The moves on the extensions of an asset: made a second time, they store what is already there.
-/

namespace Verif

open Verif.Spec Verif.Props

theorem setExt_again {t : ExtType} {p : Bytes} {es : List Extn} :
    setExt t p (setExt t p es) = setExt t p es := by
  induction es with
  | nil => simp [setExt]
  | cons x xs ih =>
    obtain ⟨t', p'⟩ := x
    rw [setExt]
    split
    · rw [setExt, if_pos rfl]
    · rename_i h; rw [setExt, if_neg h, ih]

theorem removeExt_gone {t : ExtType} {es : List Extn} (h : (es.map (·.1)).count t = 1) :
    t ∉ (removeExt t es).map (·.1) := by
  induction es with
  | nil => simp at h
  | cons x xs ih =>
    obtain ⟨t', p'⟩ := x
    rw [removeExt]
    split
    · rename_i e
      subst e
      simp only [List.map_cons, List.count_cons_self] at h
      exact List.count_eq_zero.mp (by omega)
    · rename_i e
      have e' : ¬ t = t' := fun h => e h.symm
      rw [List.map_cons, List.count_cons_of_ne e] at h
      simp only [List.map_cons, List.mem_cons, not_or]
      exact ⟨e', ih h⟩

theorem setsFlags_again {c : Key} {v : UInt8} {p q r : Bytes} (h1 : SetsFlags c v p q)
    (h2 : SetsFlags c v q r) : r = q := by
  obtain ⟨a1, a2, a3⟩ := h1
  obtain ⟨b1, b2, b3⟩ := h2
  apply List.ext_getElem?
  intro i
  by_cases hi : i < q.length
  · have hj : i / 34 * 34 + 34 ≤ q.length := by omega
    obtain ⟨x1, x2, x3⟩ := a3 (i / 34) (by omega)
    obtain ⟨y1, y2, y3⟩ := b3 (i / 34) hj
    rw [byteAt_eq_getElem hi, byteAt_eq_getElem (by omega)]
    by_cases c1 : i % 34 < 32
    · have := getElem?_of_slice y1 (i := i) (by omega) (by omega)
      rw [byteAt_eq_getElem hi, byteAt_eq_getElem (by omega)] at this
      exact this
    · by_cases c2 : i % 34 = 33
      · rw [show i = i / 34 * 34 + 33 by omega, y2]
      · rw [show i = i / 34 * 34 + 32 by omega, y3]
        split
        · rename_i h
          rw [x1] at h
          rw [x3, if_pos h]
        · rfl
  · rw [List.getElem?_eq_none (by omega), List.getElem?_eq_none (by omega)]

theorem flagFor_again {au : Option Key} {old new : List Creator} {c : Creator} (hc : c ∈ new) :
    flagFor au (new.map fun c => { c with verified := flagFor au old c.address }) c.address =
      flagFor au old c.address := by
  have key : ∀ l : List Creator, c ∈ l → ∃ y,
      (l.map fun c => { c with verified := flagFor au old c.address }).find?
        (fun x => decide (x.address = c.address)) = some y ∧
        y.verified = flagFor au old c.address := by
    intro l hl
    induction l with
    | nil => simp at hl
    | cons z zs ih =>
      by_cases hz : z.address = c.address
      · refine ⟨{ z with verified := flagFor au old z.address }, ?_, by rw [hz]⟩
        rw [List.map_cons, List.find?_cons_of_pos]
        simpa using hz
      · have : c ∈ zs := by
          rcases List.mem_cons.mp hl with rfl | h
          · exact absurd rfl hz
          · exact h
        obtain ⟨y, hy, e⟩ := ih this
        refine ⟨y, ?_, e⟩
        rw [List.map_cons, List.find?_cons_of_neg]
        · exact hy
        · simpa using hz
  obtain ⟨y, hy, e⟩ := key new hc
  have hu : ∀ l : List Creator, l.find? (fun x => decide (x.address = c.address)) = some y →
      flagFor au l c.address = y.verified := by
    intro l hl
    unfold flagFor
    rw [hl]
  rw [hu _ hy, e]

theorem accepted_again {au : Option Key} {t : ExtType} {old : Option Bytes} {new p q : Bytes}
    (h1 : Accepted au t old new p) (h2 : Accepted au t (some p) new q) : q = p := by
  cases t
  case creators =>
    obtain ⟨_, a1, a2, a3, _, _⟩ := h1
    obtain ⟨_, b1, b2, b3, _, _⟩ := h2
    have e : creatorList q = creatorList p := by
      rw [b3, a3]
      apply List.map_congr_left
      intro c hc
      simp only [Option.map_some, Option.getD_some, a3]
      rw [flagFor_again hc]
    rw [← creatorsBytes_list (b := q) (by omega), ← creatorsBytes_list (b := p) (by omega), e]
  case grouping =>
    obtain ⟨hl, _, h1⟩ := h1
    obtain ⟨_, _, _, h2, _⟩ := h2
    cases old with
    | none =>
      obtain ⟨rfl, h0⟩ := h1
      rw [h2, withMembers_self (by omega)]
    | some o =>
      obtain ⟨ho, rfl, _⟩ := h1
      rw [h2, membersOf_with (membersOf_lt ho)]
  case none => exact h1.elim
  case royalties => rw [h1.1, h2.1]
  case manager => rw [h1.1, h2.1]
  case proxy => rw [h1.1, h2.1]
  all_goals exact Eq.trans h2 (Eq.symm h1)

theorem updatesTo_again {s : Key} {e : ExtInput} {old : Option Bytes} {p q : Bytes}
    (h1 : UpdatesTo s e old p) (h2 : UpdatesTo s e (some p) q) : q = p := by
  unfold UpdatesTo at h1 h2
  split at h1
  · rename_i hd
    rw [hd] at h2
    exact accepted_again h1.1 h2.1
  · rename_i hd
    rw [hd] at h2
    rw [h1.1, h2.1]

theorem retitled_again {A : Asset} {x : UpdateInput} {es : List Extn} :
    Asset.retitled { A.retitled x with exts := es } x = { A.retitled x with exts := es } := by
  unfold Asset.retitled
  cases x.name <;> cases x.isMutable <;> rfl

section
variable {E E' : Env} {accts : List Key} {k : Key} {A B C : Asset}

theorem move_verify_again (hk : accts.head? = some k) (h1 : Move E accts k .verify A B)
    (h2 : Move E' accts k .verify B C) : C = B := by
  cases h1 with
  | stay _ _ hi => exact absurd hk hi
  | verify _ c rest p q ha _ hp hq =>
    cases h2 with
    | stay _ _ hi => exact absurd hk hi
    | verify _ c' rest' p' q' ha' _ hp' hq' =>
      rw [ha] at ha'
      cases ha'
      rw [lookup_setExt_same] at hp'
      cases hp'
      cases setsFlags_again hq hq'
      simp only [setExt_again]
    | memberIn _ _ p hi _ hk' _ _ _ => exact absurd hk hk'
    | memberOut _ _ p hi _ hk' _ _ => exact absurd hk hk'
  | memberIn _ _ p hi _ hk' _ _ _ => exact absurd hk hk'
  | memberOut _ _ p hi _ hk' _ _ => exact absurd hk hk'

theorem move_unverify_again (hk : accts.head? = some k) (h1 : Move E accts k .unverify A B)
    (h2 : Move E' accts k .unverify B C) : C = B := by
  cases h1 with
  | stay _ _ hi => exact absurd hk hi
  | unverify _ c rest p q ha _ hp hq =>
    cases h2 with
    | stay _ _ hi => exact absurd hk hi
    | unverify _ c' rest' p' q' ha' _ hp' hq' =>
      rw [ha] at ha'
      cases ha'
      rw [lookup_setExt_same] at hp'
      cases hp'
      cases setsFlags_again hq hq'
      simp only [setExt_again]
    | memberIn _ _ p hi _ hk' _ _ _ => exact absurd hk hk'
    | memberOut _ _ p hi _ hk' _ _ => exact absurd hk hk'
  | memberIn _ _ p hi _ hk' _ _ _ => exact absurd hk hk'
  | memberOut _ _ p hi _ hk' _ _ => exact absurd hk hk'

theorem move_resize_same {s : Strategy} (hk : accts.head? = some k)
    (h1 : Move E accts k (.resize s) A B) : B = A := by
  cases h1 with
  | stay _ _ hi => rfl
  | memberIn _ _ p hi _ hk' _ _ _ => exact absurd hk hk'
  | memberOut _ _ p hi _ hk' _ _ => exact absurd hk hk'

theorem move_update_again {x : UpdateInput} (hk : accts.head? = some k)
    (hp : E'.program = E.program) (hb : accts[2]? = some E.program)
    (h1 : Move E accts k (.update x) A B) (h2 : Move E' accts k (.update x) B C) : C = B := by
  have hbuf : ∀ {k' s b : Key} {rest : List Key}, accts = k' :: s :: b :: rest → b = E.program := by
    intro k' s b rest h
    rw [h] at hb
    simpa using hb
  cases h1 with
  | stay _ _ hi => exact absurd hk hi
  | retitle _ _ s rest ha _ _ _ hx =>
    cases h2 with
    | stay _ _ hi => exact absurd hk hi
    | retitle _ _ s' rest' ha' _ _ _ _ =>
      exact retitled_again (A := A) (x := x) (es := A.exts)
    | update _ _ s' rest' e p ha' _ _ _ hx' _ _ => rw [hx] at hx'; cases hx'
    | updateFrom _ _ s' b rest' t p ha' _ _ _ _ hne _ _ => exact absurd ((hbuf ha').trans hp.symm) hne
    | memberIn _ _ p hi _ hk' _ _ _ => exact absurd hk hk'
    | memberOut _ _ p hi _ hk' _ _ => exact absurd hk hk'
  | update _ _ s rest e p ha _ _ _ hx _ hu =>
    cases h2 with
    | stay _ _ hi => exact absurd hk hi
    | retitle _ _ s' rest' ha' _ _ _ hx' => rw [hx] at hx'; cases hx'
    | update _ _ s' rest' e' p' ha' _ _ _ hx' _ hu' =>
      rw [hx] at hx'
      cases hx'
      rw [ha] at ha'
      cases ha'
      simp only [lookup_setExt_same] at hu'
      cases updatesTo_again hu hu'
      rw [retitled_again, setExt_again]
    | updateFrom _ _ s' b rest' t p ha' _ _ _ hx' hne _ _ => rw [hx] at hx'; cases hx'
    | memberIn _ _ p hi _ hk' _ _ _ => exact absurd hk hk'
    | memberOut _ _ p hi _ hk' _ _ => exact absurd hk hk'
  | updateFrom _ _ s b rest t p ha _ _ _ _ hne _ _ => exact absurd (hbuf ha) hne
  | memberIn _ _ p hi _ hk' _ _ _ => exact absurd hk hk'
  | memberOut _ _ p hi _ hk' _ _ => exact absurd hk hk'

theorem move_remove_gone {t : ExtType} (hk : accts.head? = some k)
    (hc : (A.exts.map (·.1)).count t = 1) (h1 : Move E accts k (.remove t) A B) :
    t ∉ B.exts.map (·.1) := by
  cases h1 with
  | stay _ _ hi => exact absurd hk hi
  | remove _ _ s rest ha _ _ _ _ => exact removeExt_gone hc
  | memberIn _ _ p hi _ hk' _ _ _ => exact absurd hk hk'
  | memberOut _ _ p hi _ hk' _ _ => exact absurd hk hk'

end
end Verif

import Verif.Props.C15
import Verif.Lemmas.Life

/-!
# C19 — royalty basis points never exceed 100%
-/

namespace Verif.Props

open Verif Verif.Spec

section
variable {E : Env} {L L' : Ledger} {accts : List Key} {program k : Key} {A : Asset}

/-- Whatever Create accepts, whatever the account contained. -/
theorem C19_create {x : CreateInput} (h : execute E L accts (.create x) = .ok L') :
    ∃ a es, accts.head? = some a ∧ HasExts (L' a).data es ∧
      ∀ q, (ExtType.royalties, q) ∈ es → 8 ≤ q.length ∧ leNat (q.take 8) ≤ 10000 := by
  obtain ⟨a, au, o, g, ga, p, s, rest, L2, es0, es, rfl, _, _, _, _, _, _, _, _, hx1, hf, _⟩ :=
    create_result h
  refine ⟨a, es, rfl, hx1, fun q hq => ?_⟩
  obtain ⟨y, _, h1, h2⟩ := forall2_mem_right hf hq
  have h1 : ExtType.royalties = y.1 := h1
  rw [← h1] at h2
  obtain ⟨e, a1, a2⟩ := onCreate_accepted (by decide) h2
  have e : q = y.2 := e
  rw [e]
  exact ⟨a1, a2⟩

/-- Royalties of at most 100%, or no data at all. -/
def Fair (q : Bytes) : Prop := q = [] ∨ (8 ≤ q.length ∧ leNat (q.take 8) ≤ 10000)

/-- Data of Royalties is never taken from a buffer: its extension header is not acceptable as
royalties. -/
theorem royalties_buffer {s : Key} {old : Option Bytes} {p : Bytes}
    (h : TakesFrom s .royalties old p) : False := by
  obtain ⟨hd, d, q, h1, h2, h3, ⟨rfl, h4, h5⟩, _⟩ := h
  rw [List.length_take, List.length_append] at h4
  have e1 : ((hd ++ d).take d.length).take 8 = hd.take 4 ++ slice hd 4 4 := by
    rw [List.take_take, Nat.min_eq_left (by omega), List.take_append_of_le_length (by omega)]
    unfold slice
    rw [← List.take_add]
  have e2 : leNat (hd.take 4 ++ slice hd 4 4) = leNat (hd.take 4) + 4294967296 * leNat (slice hd 4 4) := by
    rw [leNat_append, List.length_take, Nat.min_eq_left (by omega)]
  rw [e1, e2, h3] at h5
  omega

/-- Along every history of an asset its royalties stay within 100%. -/
theorem C19_history {P : List Key → Instr → Prop} (hs : Stores program L k A)
    (h0 : ∀ q, (ExtType.royalties, q) ∈ A.exts → Fair q)
    (hl : SoundLife program k P L L') :
    ∃ A', Stores program L' k A' ∧ ∀ q, (ExtType.royalties, q) ∈ A'.exts → Fair q := by
  refine SoundLife.invariant (I := fun B => ∀ q, (ExtType.royalties, q) ∈ B.exts → Fair q)
    ?_ hs h0 hl
  rintro E accts i B B' rfl hP hB hm
  have other : ∀ {t : ExtType} {p : Bytes}, t ≠ .royalties →
      ∀ q, (ExtType.royalties, q) ∈ setExt t p B.exts → Fair q := by
    intro t p ht q hq
    rcases mem_setExt hq with h | h
    · exact absurd (congrArg Prod.fst h).symm ht
    · exact hB q h
  cases hm with
  | update _ x s rest e p ha hs' hauth hmut hx he hp =>
    by_cases ht : e.ty = .royalties
    · intro q hq
      rcases mem_setExt hq with h | h
      · obtain ⟨_, rfl⟩ := Prod.mk.inj h
        unfold UpdatesTo at hp
        cases hdd : e.data with
        | none => rw [hdd] at hp; exact Or.inl hp.1
        | some new =>
          rw [hdd] at hp
          simp only [ht] at hp
          obtain ⟨⟨rfl, a1, a2⟩, _⟩ := hp
          exact Or.inr ⟨a1, a2⟩
      · exact hB q h
    · exact other ht
  | updateFrom _ x s b rest t p ha hs' hauth hmut hx hb ht hp =>
    by_cases h : t = .royalties
    · subst h
      exact (royalties_buffer hp).elim
    · exact other h
  | remove => exact fun q hq => hB q (mem_removeExt hq)
  | verify => exact other (by decide)
  | unverify => exact other (by decide)
  | memberIn => exact other (by decide)
  | memberOut => exact other (by decide)
  | _ => exact hB

end

section Examples
open Verif.Ex

/-- Royalties without constraint. -/
def plainRoyalties (bp : Nat) : Bytes := royaltiesBuilderSet bp (buildC .empty)

/-- 100% is accepted, more is not; neither at creation nor by an update. -/
example :
    let mk := fun bp => run empties [k 1, k 5] createAccts (.create ⟨[65], .nonFungible, true,
      some [⟨.royalties, 16, some (plainRoyalties bp)⟩]⟩)
    ((mk 10000).map fun L => assetGet .royalties (L (k 1)).data) =
      .ok (.ok (some (plainRoyalties 10000))) ∧
    (mk 10001).isOk = false ∧
    ((mk 500).bind fun L => run L [k 3, k 5] [k 1, k 3, prog, prog, k 5, Key.system]
      (.update ⟨none, none, some ⟨.royalties, 16, some (plainRoyalties 10000)⟩⟩)).isOk = true ∧
    ((mk 500).bind fun L => run L [k 3, k 5] [k 1, k 3, prog, prog, k 5, Key.system]
      (.update ⟨none, none, some ⟨.royalties, 16, some (plainRoyalties 10001)⟩⟩)).isOk = false := by
  decide +kernel

example : Fair (plainRoyalties 10000) := Or.inr (by decide +kernel)

end Examples
end Verif.Props

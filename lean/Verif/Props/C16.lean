import Verif.Lemmas.Life
import Verif.Lemmas.ExtList
import Verif.Spec.Creators
import Verif.Props.C15

/-!
# C16 — creator shares total one hundred

The shares are added as `u8`, so what holds is that the total is 100 modulo 256.
-/

namespace Verif.Props

open Verif Verif.Spec

section
variable {E : Env} {L L' : Ledger} {accts : List Key} {program k : Key} {A : Asset}

/-- Modulo 256, and below 356, it is one hundred. -/
theorem C16_exact_partial {q : Bytes} (h : sumShares q % 256 = 100) (hs : sumShares q < 356) :
    sumShares q = 100 := by omega

/-- Whatever Create accepts, whatever the account contained. -/
theorem C16_create_partial {x : CreateInput} (h : execute E L accts (.create x) = .ok L') :
    ∃ a es, accts.head? = some a ∧ HasExts (L' a).data es ∧
      ∀ q, (ExtType.creators, q) ∈ es → q.length % 34 = 0 ∧ sumShares q % 256 = 100 := by
  obtain ⟨a, au, o, g, ga, p, s, rest, L2, es0, es, rfl, _, _, _, _, _, _, _, _, hx1, hf, _⟩ :=
    create_result h
  refine ⟨a, es, rfl, hx1, fun q hq => ?_⟩
  obtain ⟨y, _, h1, h2⟩ := forall2_mem_right hf hq
  have h1 : ExtType.creators = y.1 := h1
  rw [← h1] at h2
  obtain ⟨_, a1, a2, _, a3, _⟩ := onCreate_accepted (by decide) h2
  refine ⟨?_, a3⟩
  rw [a2, a1]

/-- Whatever an inline update accepts. -/
theorem C16_update_partial {x : UpdateInput} {e : ExtInput} (hs : Stores E.program L k A)
    (h : execute E L accts (.update x) = .ok L') (hk : accts.head? = some k)
    (hx : x.extension = some e) (ht : e.ty = .creators) (hd : e.data ≠ none) :
    ∃ A' q, Stores E.program L' k A' ∧ lookup .creators A'.exts = some q ∧
      q.length % 34 = 0 ∧ sumShares q % 256 = 100 := by
  have hsound : Sound k A accts (.update x) := by
    intro _ e' he'
    rw [hx] at he'; cases he'
    rw [ht]; decide
  rcases refine hs h hsound with ⟨h1, _⟩ | ⟨A', h1, h2⟩
  · cases h1
  · cases h2 with
    | stay _ _ hi => exact absurd hk hi
    | retitle _ _ _ _ _ _ _ _ hx' => rw [hx] at hx'; cases hx'
    | updateFrom _ _ _ _ _ _ _ _ _ _ _ hx' => rw [hx] at hx'; cases hx'
    | memberIn _ _ _ hi => rcases hi with hi | ⟨_, hi⟩ <;> cases hi
    | memberOut _ _ _ hi => rcases hi with hi | hi <;> cases hi
    | update _ _ s rest e' p ha hs' hauth hmut hx' he hp =>
      rw [hx] at hx'; cases hx'
      refine ⟨_, p, h1, by simp only [ht]; exact lookup_setExt_same, ?_⟩
      unfold UpdatesTo at hp
      cases hdd : e.data with
      | none => exact absurd hdd hd
      | some new =>
        rw [hdd] at hp
        simp only [ht] at hp
        obtain ⟨⟨_, a1, a2, _, a3, _⟩, _⟩ := hp
        exact ⟨by rw [a2, a1], a3⟩

/-- The total of the shares of the creators `q` is 100 (modulo 256), or there is no data. -/
def Totals (q : Bytes) : Prop := q = [] ∨ (q.length % 34 = 0 ∧ sumShares q % 256 = 100)

theorem setsFlags_shares {c : Key} {v : UInt8} {p q : Bytes} (h : SetsFlags c v p q) :
    sumShares q = sumShares p := by
  obtain ⟨h1, h2, h3⟩ := h
  unfold sumShares creatorList
  rw [h2, List.map_map, List.map_map]
  congr 1
  apply List.map_congr_left
  intro i hi
  rw [List.mem_range] at hi
  obtain ⟨_, g, _⟩ := h3 i (by omega)
  simp only [Function.comp, creatorAt]
  rw [Nat.mul_comm 34 i, g]

/-- Along every history without updates from buffers. -/
theorem C16_history_partial (hs : Stores program L k A)
    (h0 : ∀ q, (ExtType.creators, q) ∈ A.exts → Totals q)
    (hl : SoundLife program k (NoBuffer program) L L') :
    ∃ A', Stores program L' k A' ∧ ∀ q, (ExtType.creators, q) ∈ A'.exts → Totals q := by
  refine SoundLife.invariant (I := fun B => ∀ q, (ExtType.creators, q) ∈ B.exts → Totals q)
    ?_ hs h0 hl
  rintro E accts i B B' rfl hP hB hm
  have other : ∀ {t : ExtType} {p : Bytes}, t ≠ .creators →
      ∀ q, (ExtType.creators, q) ∈ setExt t p B.exts → Totals q := by
    intro t p ht q hq
    rcases mem_setExt hq with h | h
    · cases h; exact absurd rfl ht
    · exact hB q h
  have flags : ∀ {c v p q}, lookup .creators B.exts = some p → SetsFlags c v p q →
      ∀ r, (ExtType.creators, r) ∈ setExt .creators q B.exts → Totals r := by
    intro c v p q hp hq r hr
    rcases mem_setExt hr with h | h
    · cases h
      rcases hB p (lookup_mem hp) with rfl | ⟨g1, g2⟩
      · left
        exact List.eq_nil_of_length_eq_zero hq.2.1
      · right
        exact ⟨by rw [hq.2.1]; exact g1, by rw [setsFlags_shares hq]; exact g2⟩
    · exact hB r h
  cases hm with
  | update _ x s rest e p ha hs' hauth hmut hx he hp =>
    by_cases ht : e.ty = .creators
    · intro q hq
      rcases mem_setExt hq with h | h
      · obtain ⟨_, rfl⟩ := Prod.mk.inj h
        unfold UpdatesTo at hp
        cases hdd : e.data with
        | none => rw [hdd] at hp; exact Or.inl hp.1
        | some new =>
          rw [hdd] at hp
          simp only [ht] at hp
          obtain ⟨⟨_, a1, a2, _, a3, _⟩, _⟩ := hp
          exact Or.inr ⟨by rw [a2, a1], a3⟩
      · exact hB q h
    · exact other ht
  | updateFrom _ x s b rest t p ha hs' hauth hmut hx hb ht hp =>
    subst ha
    rcases hP hx with h | h
    · cases h
    · simp at h; exact absurd h hb
  | remove => exact fun q hq => hB q (mem_removeExt hq)
  | verify _ c rest p q ha hs' hp hq => exact flags hp hq
  | unverify _ c rest p q ha hs' hp hq => exact flags hp hq
  | memberIn => exact other (by decide)
  | memberOut => exact other (by decide)
  | _ => exact hB

end

section Examples
open Verif.Ex

/-- A record of a creator. -/
def rec (c : Key) (v s : UInt8) : Bytes := c.1 ++ [v, s]

/-- An asset with two creators, `k 10` verified. -/
def twoCreators : Ledger :=
  ledger [(k 1, owned (header 0 0 1 (k 2) Key.default (k 3) Key.default 0 [65] ++
      blocks 168 [(.creators, rec (k 10) 1 40 ++ rec (k 11) 0 60)])),
    (k 2, wallet), (k 3, wallet), (k 5, wallet)]

/-- Accounts of an inline update. -/
def updateAccts : List Key := [k 1, k 3, prog, prog, k 5, Key.system]

/-- Shares 30 + 70 are accepted, 30 + 71 are not. -/
example :
    let upd := fun s => run twoCreators [k 3, k 5] updateAccts
      (.update ⟨none, none, some ⟨.creators, 68, some (rec (k 10) 1 30 ++ rec (k 12) 0 s)⟩⟩)
    ((upd 70).map fun L => assetGet .creators (L (k 1)).data) =
      .ok (.ok (some (rec (k 10) 1 30 ++ rec (k 12) 0 70))) ∧ (upd 71).isOk = false := by
  decide +kernel

example : sumShares (rec (k 10) 1 40 ++ rec (k 11) 0 60) = 100 := by decide +kernel

/-- The full claim is false: shares of 200 and 156 percent are accepted. -/
theorem C16_false :
    ((run empties [k 1, k 5] createAccts (.create ⟨[65], .nonFungible, true,
        some [⟨.creators, 68, some (rec (k 10) 0 200 ++ rec (k 11) 0 156)⟩]⟩)).map fun L =>
      assetGet .creators (L (k 1)).data) =
        .ok (.ok (some (rec (k 10) 0 200 ++ rec (k 11) 0 156))) ∧
    sumShares (rec (k 10) 0 200 ++ rec (k 11) 0 156) = 356 := by decide +kernel

/-- And an update without data leaves a Creators extension with no creators at all. -/
theorem C16_blank_false :
    ((run twoCreators [k 3, k 5] updateAccts
      (.update ⟨none, none, some ⟨.creators, 0, none⟩⟩)).map fun L =>
        assetGet .creators (L (k 1)).data) = .ok (.ok (some [])) := by decide +kernel

end Examples
end Verif.Props

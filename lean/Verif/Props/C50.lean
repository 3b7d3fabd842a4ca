import Verif.Props.C15
import Verif.Props.C49
import Verif.Lemmas.Life

/-!
# C50 — extension data is accepted exactly when it is well formed
-/

namespace Verif.Props

open Verif Verif.Spec

/-- What the validation at creation accepts, and what it stores. -/
theorem C50_create_iff {t : ExtType} {new q : Bytes} {au : Option Key} (ht : t ≠ .none) :
    onCreate t new au = .ok q ↔ Accepted au t none new q ∧ Readable t new :=
  onCreate_iff ht

/-- What the validation of an update accepts, and what it stores. -/
theorem C50_update_iff {t : ExtType} {new q : Bytes} {old : Option Bytes} {au : Key}
    (ht : t ≠ .none) :
    updateValidate t new old au = .ok q ↔
      Accepted (some au) t old new q ∧ Readable t new ∧ (∀ o, old = some o → Readable t o) ∧
        ((t = .manager ∨ t = .proxy) → old ≠ none) :=
  updateValidate_iff ht

/-- The validation that an update without data skips would not have let the empty data pass. -/
theorem C50_fix {t : ExtType} {old : Option Bytes} {au : Key} {q : Bytes}
    (ht : t = .grouping ∨ t = .royalties ∨ t = .manager ∨ t = .proxy) :
    updateValidate t [] old au ≠ .ok q := by
  intro h
  have hn : t ≠ .none := by rcases ht with rfl | rfl | rfl | rfl <;> decide
  have hr := ((C50_update_iff hn).mp h).2.1
  rcases ht with rfl | rfl | rfl | rfl <;> simp [Readable] at hr

theorem length_withMembers {p : Bytes} {n : Nat} (h : 8 ≤ p.length) :
    (withMembers p n).length = p.length := by
  unfold withMembers
  rw [List.length_append, length_toLE, List.length_drop]
  omega

/-- What is stored is as readable as what was asked for. -/
theorem readable_stored {t : ExtType} {new q : Bytes} {old : Option Bytes} {au : Option Key}
    (h : Accepted au t old new q) (hr : Readable t new) : Readable t q := by
  cases t with
  | none => exact hr
  | creators =>
    show q.length % 34 = 0
    rw [h.2.2.1]
    exact h.2.1
  | grouping =>
    obtain ⟨h1, h2, h3⟩ := h
    cases old with
    | none =>
      obtain rfl := h3.1
      exact hr
    | some o =>
      obtain rfl := h3.2.1
      show 16 ≤ (withMembers new _).length ∧ (withMembers new _).length ≤ 48
      rw [length_withMembers (by omega)]
      exact ⟨h1, h2⟩
  | royalties | manager | proxy =>
    obtain rfl := h.1
    exact hr
  | _ =>
    obtain rfl : q = new := h
    exact hr

/-- All extensions can be read. -/
def AllReadable (es : List Extn) : Prop := ∀ t p, (t, p) ∈ es → Readable t p

theorem _root_.Verif.Spec.Walk.typed {d : Bytes} {off e : Nat} {es : List Extn} (h : Walk d off es e) :
    ∀ x ∈ es, x.1 ≠ .none := by
  induction h with
  | nil => simp
  | cons ht _ _ _ _ _ _ ih =>
    intro x hx
    rcases List.mem_cons.mp hx with rfl | hx
    · exact ht
    · exact ih x hx

section
variable {E : Env} {L L' : Ledger} {accts : List Key} {program k : Key} {A : Asset}

/-- Whatever Create accepts, whatever the account contained: all extensions can be read. -/
theorem C50_created {x : CreateInput} (h : execute E L accts (.create x) = .ok L') :
    ∃ a es, accts.head? = some a ∧ HasExts (L' a).data es ∧ AllReadable es := by
  obtain ⟨a, au, o, g, ga, p, s, rest, L2, es0, es, rfl, _, _, _, _, _, _, _, _, hx1, hf, _⟩ :=
    create_result h
  refine ⟨a, es, rfl, hx1, fun t q hq => ?_⟩
  obtain ⟨y, _, h1, h2⟩ := forall2_mem_right hf hq
  obtain rfl : t = y.1 := h1
  have ht : y.1 ≠ .none := hx1.choose_spec.1.typed (y.1, q) hq
  obtain ⟨a1, a2⟩ := (onCreate_iff ht).mp h2
  exact readable_stored a1 a2

/-- Updates of account `k` come with the data of an extension, or without an extension. -/
def WithData (program k : Key) (accts : List Key) : Instr → Prop
  | .update x => accts.head? = some k →
      match x.extension with
      | some e => e.data ≠ none
      | none => accts[2]? = some program
  | _ => True

/-- So they stay readable along every history, leaving out updates without data and updates
from a buffer. -/
theorem C50_history_partial {P : List Key → Instr → Prop} (hP : ∀ l i, P l i → WithData program k l i)
    (hs : Stores program L k A) (h0 : AllReadable A.exts) (hl : SoundLife program k P L L') :
    ∃ A', Stores program L' k A' ∧ AllReadable A'.exts := by
  refine SoundLife.invariant (I := fun B => AllReadable B.exts) ?_ hs h0 hl
  rintro E accts i B B' rfl hPi hB hm
  have hw := hP _ _ hPi
  have set : ∀ {t : ExtType} {p : Bytes}, Readable t p → AllReadable (setExt t p B.exts) := by
    intro t p h t' q hq
    rcases mem_setExt hq with h' | h'
    · obtain ⟨rfl, rfl⟩ := Prod.mk.inj h'
      exact h
    · exact hB _ q h'
  cases hm with
  | update _ x s rest e p ha hs' hauth hmut hx he hp =>
    refine set ?_
    unfold UpdatesTo at hp
    cases hdd : e.data with
    | none =>
      subst ha
      simp only [WithData, hx] at hw
      exact absurd hdd (hw rfl)
    | some new =>
      rw [hdd] at hp
      exact readable_stored hp.1 hp.2.2.2.1
  | updateFrom _ x s b rest t p ha hs' hauth hmut hx hb ht hp =>
    subst ha
    simp only [WithData, hx] at hw
    have := hw rfl
    simp at this
    exact absurd this hb
  | remove => exact fun t q hq => hB t q (mem_removeExt hq)
  | verify _ c rest p q ha hs' hp hq =>
    refine set ?_
    show q.length % 34 = 0
    rw [hq.2.1]; exact hq.1
  | unverify _ c rest p q ha hs' hp hq =>
    refine set ?_
    show q.length % 34 = 0
    rw [hq.2.1]; exact hq.1
  | memberIn _ _ p hi ha hk hp hl' =>
    refine set ?_
    have := hB _ _ (lookup_mem hp)
    show 16 ≤ (withMembers p _).length ∧ (withMembers p _).length ≤ 48
    rw [length_withMembers (by omega)]
    exact this
  | memberOut _ _ p hi ha hk hp hl' =>
    refine set ?_
    have := hB _ _ (lookup_mem hp)
    show 16 ≤ (withMembers p _).length ∧ (withMembers p _).length ≤ 48
    rw [length_withMembers (by omega)]
    exact this
  | _ => exact hB

/-- All readers of the program succeed on readable data. -/
theorem C50_readers {p : Bytes} :
    (Readable .attributes p ↔ ∃ v, readPairList p = .ok v) ∧
    (Readable .links p ↔ ∃ v, readPairList p = .ok v) ∧
    (Readable .properties p ↔ ∃ v, readPropList p = .ok v) ∧
    (Readable .blob p ↔ ∃ v, readBlob p = .ok v) ∧
    (Readable .metadata p ↔ ∃ v, readMetadata p = .ok v) ∧
    (Readable .creators p ↔ ∃ v, readCreators p = .ok v) ∧
    (Readable .grouping p ↔ ∃ v, readGrouping p = .ok v) ∧
    (Readable .royalties p ↔ ∃ v, readRoyalties p = .ok v) ∧
    (Readable .manager p ↔ ∃ v, readManager p = .ok v) ∧
    (Readable .proxy p ↔ ∃ v, readProxy p = .ok v) := by
  have pairs : (∃ l : List (Bytes × Bytes), (∀ x ∈ l, ShortString x.1 ∧ ShortString x.2) ∧
      p = pairsData l) ↔ ∃ v, readPairList p = .ok v :=
    exists_congr fun _ => readPairList_iff.symm
  refine ⟨pairs, pairs, exists_congr fun _ => readPropList_iff.symm, readBlob_iff.symm,
    readMetadata_iff.symm, ?_, readGrouping_iff.symm, readRoyalties_iff.symm,
    readManager_iff.symm, readProxy_iff.symm⟩
  constructor
  · intro h
    exact ⟨_, readCreators_eq.mpr (creatorsBytes_list h).symm⟩
  · rintro ⟨v, h⟩
    have := readCreators_eq.mp h
    rw [Readable, this, length_creatorsBytes]
    omega

end

/-- The negation for updates without data: the royalties of `market` are replaced by data that
nobody can read. -/
theorem C50_false :
    execute (Ex.env market [Ex.k 3, Ex.k 5]) market
        [Ex.k 1, Ex.k 3, Ex.prog, Ex.prog, Ex.k 5, Key.system]
        (.update ⟨none, none, some ⟨.royalties, 0, none⟩⟩) = .ok bricked ∧
    ∃ A, Stores Ex.prog bricked (Ex.k 1) A ∧ ∃ p, (.royalties, p) ∈ A.exts ∧
      ¬ Readable .royalties p := by
  refine ⟨C49_false_royalties.1, _, checkStores_sound (A := ⟨0, 0, 1, Ex.k 2, Key.default, Ex.k 3,
    Key.default, 0, podStr35 [65], [(.royalties, [])]⟩) (by decide +kernel), [],
    List.mem_singleton.mpr rfl, ?_⟩
  rintro ⟨h, _⟩
  exact absurd h (by decide)

section Examples
open Verif.Ex

/-- Two pairs of strings; a string that ends too early; two strings with a dangling name. -/
example : Readable .attributes [1, 97, 1, 98, 0, 2, 5, 5] :=
  ⟨[([97], [98]), ([], [5, 5])], by simp [ShortString], rfl⟩
example :
    let mk := fun t p => (run empties [k 1, k 5] createAccts (.create ⟨[65], .nonFungible, true,
      some [⟨t, UInt32.ofNat p.length, some p⟩]⟩)).isOk
    mk .attributes [1, 97, 1, 98, 0, 2, 5, 5] = true ∧
    mk .attributes [1, 97, 1, 98, 0, 3, 5, 5] = false ∧
    mk .attributes [1, 97, 1, 98, 1, 97] = false ∧
    mk .properties [1, 97, 1, 1, 2, 3, 4, 5, 6, 7, 8, 1, 98, 2, 1] = true ∧
    mk .properties [1, 97, 3, 1] = false ∧
    mk .metadata [1, 65, 0, 2, 66, 67] = true ∧
    mk .metadata [1, 65, 0, 2, 66, 67, 1, 68, 9, 9] = true ∧
    mk .metadata [1, 65, 0, 2, 66, 67, 2, 68] = false ∧
    mk .blob [] = false ∧ mk .blob [0] = true ∧ mk .bucket [] = true := by
  decide +kernel

/-- An update of readable data by readable data, and by data that cannot be read. -/
example :
    (run managed [k 3, k 5] [k 1, k 3, prog, prog, k 5, Key.system]
      (.update ⟨none, none, some ⟨.attributes, 3, some [1, 97, 0]⟩⟩)).isOk = true ∧
    (run managed [k 3, k 5] [k 1, k 3, prog, prog, k 5, Key.system]
      (.update ⟨none, none, some ⟨.attributes, 3, some [1, 97, 1]⟩⟩)).isOk = false := by
  decide +kernel

end Examples
end Verif.Props

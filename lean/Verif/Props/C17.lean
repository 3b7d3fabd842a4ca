import Verif.Props.C16

/-!
# C17 — a creator is marked verified only with that creator's consent
-/

namespace Verif.Props

open Verif Verif.Spec

section
variable {E : Env} {L L' : Ledger} {accts : List Key} {program k : Key} {A A' : Asset} {i : Instr}

theorem setsFlags_records {c : Key} {v : UInt8} {p q : Bytes} (h : SetsFlags c v p q) :
    creatorList q = (creatorList p).map
      (fun r => if r.address = c then { r with verified := v } else r) := by
  obtain ⟨h1, h2, h3⟩ := h
  unfold creatorList
  rw [h2, List.map_map]
  apply List.map_congr_left
  intro i hi
  rw [List.mem_range] at hi
  obtain ⟨g1, g2, g3⟩ := h3 i (by omega)
  rw [Nat.mul_comm i 34] at g1 g2 g3
  have hk : keyAt q (34 * i) = keyAt p (34 * i) := by unfold keyAt; rw [g1]
  have hc : keyAt p (34 * i) = c ↔ slice p (34 * i) 32 = c.1 := by
    have hl : (slice p (34 * i) 32).length = 32 := length_slice (by omega)
    constructor
    · intro h
      rw [← h]
      exact (ofBytes_val hl).symm
    · intro h
      apply Key.ext
      rw [← h]
      exact ofBytes_val hl
  have e : creatorAt q i = ⟨keyAt p (34 * i),
      if slice p (34 * i) 32 = c.1 then v else byteAt p (34 * i + 32), byteAt p (34 * i + 33)⟩ := by
    unfold creatorAt
    rw [hk, g2, g3]
  rw [e, Function.comp]
  by_cases hcc : slice p (34 * i) 32 = c.1
  · rw [if_pos hcc, if_pos (show (creatorAt p i).address = c from hc.mpr hcc)]
    rfl
  · rw [if_neg hcc, if_neg (show ¬ (creatorAt p i).address = c from fun h => hcc (hc.mp h))]
    rfl

theorem flagFor_verified {au : Option Key} {old : List Creator} {c : Key}
    (h : flagFor au old c ≠ 0) :
    (∃ r ∈ old, r.address = c ∧ r.verified ≠ 0) ∨ au = some c := by
  unfold flagFor at h
  cases hf : old.find? (fun r => r.address = c) with
  | some r =>
    rw [hf] at h
    refine Or.inl ⟨r, List.mem_of_find?_eq_some hf, ?_, h⟩
    simpa using List.find?_some hf
  | none =>
    rw [hf] at h
    simp only at h
    split at h
    · right; assumption
    · exact absurd rfl h

/-- Who is verified in accepted data was verified before, or is the authority. -/
theorem accepted_verified {au : Option Key} {old : Option Bytes} {new q : Bytes} {c : Creator}
    (h : Accepted au .creators old new q) (hc : c ∈ creatorList q) (hv : c.verified ≠ 0) :
    (∃ p, old = some p ∧ ∃ r ∈ creatorList p, r.address = c.address ∧ r.verified ≠ 0) ∨
      au = some c.address := by
  obtain ⟨_, _, _, h3, _⟩ := h
  rw [h3] at hc
  obtain ⟨d, _, rfl⟩ := List.mem_map.mp hc
  rcases flagFor_verified hv with ⟨r, hr, ha, hv'⟩ | h
  · cases old with
    | none => simp at hr
    | some p => exact Or.inl ⟨p, rfl, r, hr, ha, hv'⟩
  · exact Or.inr h

/-- An address becomes a verified creator of an asset only through an instruction it signed
(an update from a buffer excepted). -/
theorem C17_consent_partial {c : Key} (hs : Stores E.program L k A)
    (h : execute E L accts i = .ok L') (hsound : Sound k A accts i)
    (hb : NoBuffer E.program accts i) (hs' : Stores E.program L' k A')
    (hn : ¬ VerifiedIn A.exts c) (hv : VerifiedIn A'.exts c) : E.signer c = true := by
  rcases refine hs h hsound with ⟨_, _, hg⟩ | ⟨B, h1, h2⟩
  · have := hs'.1.2.1
    rw [hg] at this
    simp at this
  obtain rfl := hs'.unique h1
  obtain ⟨p, hp, r, hr, rfl, hrv⟩ := hv
  have keep : ∀ {es : List Extn}, (∀ q, (ExtType.creators, q) ∈ es → (ExtType.creators, q) ∈ A.exts) →
      (ExtType.creators, p) ∈ es → E.signer r.address = true := by
    intro es hsub hp
    exact absurd ⟨p, hsub p hp, r, hr, rfl, hrv⟩ hn
  have other : ∀ {t : ExtType} {q : Bytes}, t ≠ .creators →
      (ExtType.creators, p) ∈ setExt t q A.exts → E.signer r.address = true := by
    intro t q ht
    refine keep fun q' hq' => ?_
    rcases mem_setExt hq' with h | h
    · exact absurd (congrArg Prod.fst h).symm ht
    · exact h
  have flags : ∀ {s v p' q}, E.signer s = true → lookup .creators A.exts = some p' →
      SetsFlags s v p' q → (ExtType.creators, p) ∈ setExt .creators q A.exts →
      E.signer r.address = true := by
    intro s v p' q hsig hp' hq hp
    rcases mem_setExt hp with h | h
    · obtain ⟨_, rfl⟩ := Prod.mk.inj h
      rw [setsFlags_records hq] at hr
      obtain ⟨o, ho, he⟩ := List.mem_map.mp hr
      split at he
      · rename_i ha
        rw [← he]
        simp only [ha, hsig]
      · subst he
        exact absurd ⟨p', lookup_mem hp', o, ho, rfl, hrv⟩ hn
    · exact absurd ⟨p, h, r, hr, rfl, hrv⟩ hn
  cases h2 with
  | update _ x s rest e p' ha hsig hauth hmut hx he hp' =>
    by_cases ht : e.ty = .creators
    · rcases mem_setExt hp with h | h
      · obtain ⟨_, rfl⟩ := Prod.mk.inj h
        unfold UpdatesTo at hp'
        cases hdd : e.data with
        | none =>
          rw [hdd] at hp'
          obtain ⟨rfl, _⟩ := hp'
          simp [creatorList] at hr
        | some new =>
          rw [hdd] at hp'
          simp only [ht] at hp'
          rcases accepted_verified hp'.1 hr hrv with ⟨o, ho, w, hw, ha, hv⟩ | h
          · exact absurd ⟨o, lookup_mem ho, w, hw, ha, hv⟩ hn
          · cases h; exact hsig
      · exact absurd ⟨p, h, r, hr, rfl, hrv⟩ hn
    · exact other ht hp
  | updateFrom _ x s b rest t p ha hs' hauth hmut hx hb' ht hp =>
    subst ha
    rcases hb hx with h | h
    · cases h
    · simp at h; exact absurd h hb'
  | remove => exact keep (fun q hq => mem_removeExt hq) hp
  | verify _ c rest p q ha hsig hp' hq => exact flags hsig hp' hq hp
  | unverify _ c rest p q ha hsig hp' hq => exact flags hsig hp' hq hp
  | memberIn => exact other (by decide) hp
  | memberOut => exact other (by decide) hp
  | _ => exact keep (fun q hq => hq) hp

/-- Verify and Unverify set the flags of the signing creator in all its records, and change
nothing else. -/
theorem C17_verify {v : UInt8} (hs : Stores E.program L k A)
    (h : execute E L accts i = .ok L') (hk : accts.head? = some k)
    (hi : (i = .verify ∧ v = 1) ∨ (i = .unverify ∧ v = 0)) :
    ∃ c p q, accts[1]? = some c ∧ E.signer c = true ∧ lookup .creators A.exts = some p ∧
      Stores E.program L' k { A with exts := setExt .creators q A.exts } ∧
      creatorList q = (creatorList p).map
        (fun r => if r.address = c then { r with verified := v } else r) := by
  have hsound : Sound k A accts i := by rcases hi with ⟨rfl, _⟩ | ⟨rfl, _⟩ <;> trivial
  rcases refine hs h hsound with ⟨h1, _⟩ | ⟨B, h1, h2⟩
  · subst h1; rcases hi with ⟨h, _⟩ | ⟨h, _⟩ <;> cases h
  rcases hi with ⟨rfl, rfl⟩ | ⟨rfl, rfl⟩
  · cases h2 with
    | stay _ _ hi => exact absurd hk hi
    | memberIn _ _ _ hi => rcases hi with hi | ⟨_, hi⟩ <;> cases hi
    | memberOut _ _ _ hi => rcases hi with hi | hi <;> cases hi
    | verify _ c rest p q ha hsig hp' hq =>
      subst ha
      exact ⟨c, p, q, rfl, hsig, hp', h1, setsFlags_records hq⟩
  · cases h2 with
    | stay _ _ hi => exact absurd hk hi
    | memberIn _ _ _ hi => rcases hi with hi | ⟨_, hi⟩ <;> cases hi
    | memberOut _ _ _ hi => rcases hi with hi | hi <;> cases hi
    | unverify _ c rest p q ha hsig hp' hq =>
      subst ha
      exact ⟨c, p, q, rfl, hsig, hp', h1, setsFlags_records hq⟩

/-- In a new asset nobody is verified but the authority. -/
theorem C17_create_partial {x : CreateInput} (h : execute E L accts (.create x) = .ok L') :
    ∃ a au rest es, accts = a :: au :: rest ∧ HasExts (L' a).data es ∧
      ∀ c, VerifiedIn es c → c = au := by
  obtain ⟨a, au, o, g, ga, p, s, rest, L2, es0, es, rfl, _, _, _, _, _, _, _, _, hx1, hf, _⟩ :=
    create_result h
  refine ⟨a, au, _, es, rfl, hx1, ?_⟩
  rintro c ⟨q, hq, r, hr, rfl, hv⟩
  obtain ⟨y, _, h1, h2⟩ := forall2_mem_right hf hq
  have h1 : ExtType.creators = y.1 := h1
  rw [← h1] at h2
  rcases accepted_verified (onCreate_accepted (by decide) h2) hr hv with ⟨_, h, _⟩ | h
  · cases h
  · cases h; rfl

end

section Examples
open Verif.Ex

/-- `k 11` verifies itself; nobody else can do it. -/
example :
    ((run twoCreators [k 11] [k 1, k 11] .verify).map fun L => assetGet .creators (L (k 1)).data) =
      .ok (.ok (some (rec (k 10) 1 40 ++ rec (k 11) 1 60))) ∧
    (run twoCreators [k 3] [k 1, k 11] .verify).isOk = false := by decide +kernel

example : ¬ VerifiedIn [(.creators, rec (k 10) 1 40 ++ rec (k 11) 0 60)] (k 11) ∧
    VerifiedIn [(.creators, rec (k 10) 1 40 ++ rec (k 11) 0 60)] (k 10) := by
  constructor
  · rintro ⟨p, hp, r, hr, ha, hv⟩
    simp only [List.mem_singleton, Prod.mk.injEq, true_and] at hp
    subst hp
    have : creatorList (rec (k 10) 1 40 ++ rec (k 11) 0 60) = [⟨k 10, 1, 40⟩, ⟨k 11, 0, 60⟩] := by
      decide +kernel
    rw [this] at hr
    simp only [List.mem_cons, List.not_mem_nil, or_false] at hr
    rcases hr with rfl | rfl
    · exact absurd ha (by decide +kernel)
    · exact absurd rfl hv
  · exact ⟨_, List.mem_singleton.mpr rfl, ⟨k 10, 1, 40⟩, by decide +kernel, rfl, by decide⟩

/-- The full claim is false: Create does not ask for the signature of the authority, but marks
the authority as a verified creator. Here `k 3` did not sign anything. -/
theorem C17_create_false :
    ((run empties [k 1, k 5] createAccts (.create ⟨[65], .nonFungible, true,
        some [⟨.creators, 34, some (rec (k 3) 0 100)⟩]⟩)).map fun L =>
      assetGet .creators (L (k 1)).data) = .ok (.ok (some (rec (k 3) 1 100))) := by
  decide +kernel

/-- Another way to forge a verified creator: the data comes from a buffer, where the flags are
set at the wrong place. -/
def victim : Key := Key.ofBytes (List.replicate 16 7 ++ [0, 100] ++ List.replicate 14 7)

@[inherit_doc victim]
theorem C17_buffer_false :
    let L := ledger [(k 1, owned (header 0 0 1 (k 2) Key.default (k 3) Key.default 0 [65])),
      (k 8, owned (zeros 168 ++ blocks 168 [(.creators, rec victim 1 100)])),
      (k 3, wallet), (k 5, wallet)]
    ((run L [k 3, k 5] [k 1, k 3, k 8, prog, k 5, Key.system] (.update ⟨none, none, none⟩)).map
      fun L => assetGet .creators (L (k 1)).data) = .ok (.ok (some (rec victim 1 100))) := by
  decide +kernel

end Examples
end Verif.Props

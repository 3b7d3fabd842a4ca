import Verif.Spec.Strangers
import Verif.Lemmas.Life
import Verif.Lemmas.ExtList

/-!
# Strangers
-/

namespace Verif

open Verif.Spec

theorem setExt_twice {t : ExtType} {a b : Bytes} (es : List Extn) :
    setExt t b (setExt t a es) = setExt t b es := by
  induction es with
  | nil => simp [setExt]
  | cons x xs ih =>
    obtain ⟨t', p'⟩ := x
    by_cases h : t' = t
    · simp [setExt, h]
    · simp [setExt, h, ih]

theorem setExt_self {t : ExtType} {a : Bytes} {es : List Extn} (h : lookup t es = some a) :
    setExt t a es = es := by
  induction es with
  | nil => cases h
  | cons x xs ih =>
    obtain ⟨t', p'⟩ := x
    by_cases ht : t' = t
    · subst ht
      rw [lookup, if_pos rfl] at h
      cases h
      simp [setExt]
    · rw [lookup, if_neg ht] at h
      simp [setExt, ht, ih h]

theorem withMembers_twice {q : Bytes} (a b : Nat) :
    withMembers (withMembers q a) b = withMembers q b := by
  unfold withMembers
  rw [List.drop_left' (length_toLE 8 a)]

section
variable {E : Env} {program k : Key} {L L' : Ledger} {accts : List Key} {A A' : Asset} {i : Instr}

theorem Spec.SameExts.refl (es : List Extn) : SameExts es es := .inl rfl

theorem Spec.SameExts.lookup {es es' : List Extn} (h : SameExts es es') {t : ExtType} (ht : t ≠ .grouping) :
    Spec.lookup t es' = Spec.lookup t es := by
  rcases h with rfl | ⟨p, n, _, _, rfl⟩
  · rfl
  · exact lookup_setExt_ne ht

theorem Spec.SameExts.trans {es es' es'' : List Extn} (h : SameExts es es') (h' : SameExts es' es'') :
    SameExts es es'' := by
  rcases h' with rfl | ⟨q, m, hq, hl, rfl⟩
  · exact h
  · rcases h with rfl | ⟨p, n, hp, hl', rfl⟩
    · exact .inr ⟨q, m, hq, hl, rfl⟩
    · rw [lookup_setExt_same] at hq
      cases hq
      exact .inr ⟨p, m, hp, hl', by rw [setExt_twice, withMembers_twice]⟩

theorem Spec.SameAsset.refl (A : Asset) : SameAsset A A := ⟨A.group, A.exts, rfl, .refl _⟩

theorem Spec.SameAsset.trans {B C : Asset} (h : SameAsset A B) (h' : SameAsset B C) : SameAsset A C := by
  obtain ⟨g, es, rfl, h1⟩ := h
  obtain ⟨g', es', rfl, h2⟩ := h'
  exact ⟨g', es', rfl, h1.trans h2⟩

/-- The same have a say in it. -/
theorem Spec.SameAsset.entitled {B : Asset} (h : SameAsset A B) (x : Key) : B.Entitled x ↔ A.Entitled x := by
  obtain ⟨g, es, rfl, h1⟩ := h
  unfold Asset.Entitled Asset.manager
  simp only
  rw [h1.lookup (by decide), h1.lookup (by decide)]

theorem Spec.SameAsset.outside {B : Asset} (h : SameAsset A B) (ho : Outside E A) : Outside E B :=
  fun x hx => ho x ((h.entitled x).mp hx)

theorem entitled_delegated {s : Key} {r : Role} (h : A.Delegated s r) : A.Entitled s := by
  obtain ⟨x, hx, rfl, _⟩ := h
  cases hm : A.manager with
  | some m =>
    rw [hm] at hx
    obtain rfl : m = x := Option.some.inj hx
    exact .inr (.inr (.inr (.inl ⟨_, hm, rfl⟩)))
  | none =>
    rw [hm] at hx
    change A.holderDelegate = some x at hx
    unfold Asset.holderDelegate at hx
    by_cases hd : A.delegate = Key.default
    · rw [if_pos hd] at hx
      cases hx
    · rw [if_neg hd] at hx
      obtain rfl := Option.some.inj hx
      exact .inr (.inr (.inl ⟨hd, rfl⟩))

/-- Without the signature of the authority nothing is updated or removed. -/
theorem sound_outside (hs : Stores E.program L k A) (ho : E.signer A.authority = false)
    (h : execute E L accts i = .ok L') : Spec.Sound k A accts i := by
  have hk : hAuthority (L k).data = A.authority := by rw [hs.2.2.1]; rfl
  cases i with
  | update x =>
    intro hh
    obtain ⟨a, au, b, g, p, s, rest, rfl, hp⟩ := exec_update h
    obtain rfl : a = k := by simpa using hh
    obtain ⟨_, h1, _, _, h2, _⟩ := processUpdate_eff hp
    rw [← h2, hk, ho] at h1
    cases h1
  | remove t =>
    intro hh
    obtain ⟨a, au, g, r, rest, rfl, hp⟩ := exec_remove h
    obtain rfl : a = k := by simpa using hh
    unfold processRemove at hp
    inv at hp
    have h1 := hp.1
    rw [← hp.2.2.2.1, hk, ho] at h1
    cases h1
  | _ => trivial

/-- Setting the flags of somebody who is no creator changes nothing. -/
theorem setsFlags_stranger {c : Key} {v : UInt8} {p q : Bytes} (h : SetsFlags c v p q)
    (hc : ∀ j, j * 34 + 34 ≤ p.length → slice p (j * 34) 32 ≠ c.1) : q = p := by
  obtain ⟨h1, h2, h3⟩ := h
  refine List.ext_getElem? fun n => ?_
  by_cases hn : n < p.length
  · have hj : n / 34 * 34 + 34 ≤ p.length := by omega
    obtain ⟨e1, e2, e3⟩ := h3 (n / 34) hj
    rw [if_neg (hc _ hj)] at e3
    have hb : byteAt q n = byteAt p n := by
      have : n = n / 34 * 34 + n % 34 := by omega
      by_cases c1 : n % 34 < 32
      · have g1 : (slice q (n / 34 * 34) 32)[n % 34]? = (slice p (n / 34 * 34) 32)[n % 34]? := by rw [e1]
        unfold slice at g1
        rw [List.getElem?_take_of_lt c1, List.getElem?_take_of_lt c1, List.getElem?_drop, List.getElem?_drop,
          ← this] at g1
        unfold byteAt
        simp only [List.getD_eq_getElem?_getD, g1]
      · by_cases c2 : n % 34 = 32
        · rw [show n = n / 34 * 34 + 32 by omega]; exact e3
        · rw [show n = n / 34 * 34 + 33 by omega]; exact e2
    unfold byteAt at hb
    simp only [List.getD_eq_getElem?_getD] at hb
    rw [List.getElem?_eq_getElem hn, List.getElem?_eq_getElem (by omega)] at hb ⊢
    simpa using hb
  · rw [List.getElem?_eq_none (by omega), List.getElem?_eq_none (by omega)]

/-- Moves without the signature of anybody who has a say. -/
theorem move_outside (h : Move E accts k i A A') (ho : Outside E A) :
    SameAsset A A' ∧ (A'.group ≠ A.group →
      (i = .group ∧ A.group = Key.default ∧ ∃ s rest, accts = k :: A'.group :: s :: rest ∧ E.signer s = true) ∨
      (i = .ungroup ∧ A'.group = Key.default ∧
        ∃ s rest, accts = k :: A.group :: s :: rest ∧ E.signer s = true)) := by
  have no : ∀ x, A.Entitled x → E.signer x = true → False := by
    intro x h1 h2
    rw [ho x h1] at h2
    cases h2
  cases h with
  | stay => exact ⟨.refl _, fun h => absurd rfl h⟩
  | transfer _ s r rest ha hs hauth =>
    rcases hauth with rfl | h
    · exact (no _ (.inl rfl) hs).elim
    · exact (no _ (entitled_delegated h) hs).elim
  | approve _ x o d roles rest ha hs ho => exact (no _ (.inl ho.symm) hs).elim
  | revoke _ x s d roles rest ha hs hauth =>
    rcases hauth with rfl | ⟨h1, rfl⟩
    · exact (no _ (.inl rfl) hs).elim
    · exact (no _ (.inr (.inr (.inl ⟨h1, rfl⟩))) hs).elim
  | lock _ s rest ha hs hauth =>
    rcases hauth with h | ⟨_, rfl⟩
    · exact (no _ (entitled_delegated h) hs).elim
    · exact (no _ (.inl rfl) hs).elim
  | unlock _ s rest ha hs hauth =>
    rcases hauth with h | ⟨_, rfl⟩
    · exact (no _ (entitled_delegated h) hs).elim
    · exact (no _ (.inl rfl) hs).elim
  | join _ g s rest ha hs hg =>
    exact ⟨⟨g, A.exts, rfl, .refl _⟩, fun _ => .inl ⟨rfl, hg, s, rest, ha, hs⟩⟩
  | leave _ g s rest ha hs hg =>
    subst hg
    exact ⟨⟨Key.default, A.exts, rfl, .refl _⟩, fun _ => .inr ⟨rfl, rfl, s, rest, ha, hs⟩⟩
  | handover _ s n rest ha hs hn hauth => exact (no _ (.inr (.inl hauth.symm)) hs).elim
  | retitle _ x s rest ha hs hauth => exact (no _ (.inr (.inl hauth.symm)) hs).elim
  | update _ x s rest e p ha hs hauth => exact (no _ (.inr (.inl hauth.symm)) hs).elim
  | updateFrom _ x s b rest t p ha hs hauth => exact (no _ (.inr (.inl hauth.symm)) hs).elim
  | remove _ t s rest ha hs hauth => exact (no _ (.inr (.inl hauth.symm)) hs).elim
  | verify _ c rest p q ha hs hp hq =>
    obtain rfl : q = p := setsFlags_stranger hq fun j hj he =>
      no _ (.inr (.inr (.inr (.inr ⟨p, j, hp, hj, he⟩)))) hs
    exact ⟨⟨A.group, _, rfl, .inl (setExt_self hp)⟩, fun h => absurd rfl h⟩
  | unverify _ c rest p q ha hs hp hq =>
    obtain rfl : q = p := setsFlags_stranger hq fun j hj he =>
      no _ (.inr (.inr (.inr (.inr ⟨p, j, hp, hj, he⟩)))) hs
    exact ⟨⟨A.group, _, rfl, .inl (setExt_self hp)⟩, fun h => absurd rfl h⟩
  | memberIn _ _ p hi ha hk hp hl hm =>
    exact ⟨⟨A.group, _, rfl, .inr ⟨p, _, hp, hl, rfl⟩⟩, fun h => absurd rfl h⟩
  | memberOut _ _ p hi ha hk hp hl =>
    exact ⟨⟨A.group, _, rfl, .inr ⟨p, _, hp, hl, rfl⟩⟩, fun h => absurd rfl h⟩

/-- Nor is it burned. -/
theorem burn_outside (hs : Stores E.program L k A) (ho : Outside E A)
    (h : execute E L accts .burn = .ok L') (hk : accts.head? = some k) : False := by
  obtain ⟨a, s, r, g, rest, rfl, hp⟩ := exec_burn h
  obtain rfl : a = k := by simpa using hk
  unfold processBurn at hp
  inv at hp
  obtain ⟨_, h1, _, al, h2, rfl, _⟩ := hp
  have : A.Entitled s := by
    rcases ownerOrDelegate_true h2 with h | h
    · exact .inl (h.symm.trans (by rw [hs.2.2.1]; rfl))
    · exact entitled_delegated (hs.delegated h)
  rw [ho s this] at h1
  cases h1

end

end Verif

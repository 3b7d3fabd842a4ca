import Verif.Lemmas.Life
import Verif.Lemmas.ExtList
import Verif.Examples

/-!
# C14 — proxied assets only move with their proxy's signature
-/

namespace Verif.Props

open Verif Verif.Spec

section
variable {E : Env} {L L' : Ledger} {accts : List Key} {program k : Key} {A A' : Asset} {i : Instr}

/-- No instruction with a proxied asset as its first account succeeds unless this account
signed, whatever its extensions look like. -/
theorem C14_signature (ha : IsAsset E.program L k) (hs : (assetAt L k).standard = 3)
    (hk : accts.head? = some k) (h : execute E L accts i = .ok L') : E.signer k = true := by
  have hp := (execute_ok h).1
  cases accts with
  | nil => cases hk
  | cons a as =>
    obtain rfl : a = k := by simpa using hk
    rw [List.take_succ_cons] at hp
    refine proxiedCheck_ok hp ha.1 ?_ hs
    intro h0
    have := ha.2.1
    rw [h0] at this
    simp at this

/-- A proxied asset has a Proxy extension when it is created, and its address is derived from
the program, the seeds and the bump in it. No other standard comes with such an extension. -/
theorem C14_created {x : CreateInput} (h : execute E L accts (.create x) = .ok L') :
    ∃ a es, accts.head? = some a ∧ E.signer a = true ∧ IsAsset E.program L' a ∧
      (assetAt L' a).standard = x.standard.toU8 ∧ HasExts (L' a).data es ∧
      (x.standard = .proxied ↔ ∃ px, lookup .proxy es = some px) ∧
      ∀ px, lookup .proxy es = some px →
        px.length = 97 ∧ E.pda (slice px 32 32) (byteAt px 64) (keyAt px 0) = some a := by
  obtain ⟨a, au, o, g, ga, p, s, rest, L2, es0, es, rfl, hs, _, _, ho, hlen, hge,
    ⟨v, v1, v2, v3, v4, v5, v6, v7, v8, v9, v10, v11, v12⟩, hx0, hx1, hf, hcl, hman, hprx, hpda⟩ :=
    create_result h
  refine ⟨a, es, rfl, hs, ⟨ho, by omega, ?_⟩, ?_, hx1, ?_, fun px hpx => ⟨?_, hpda px hpx⟩⟩
  · rw [v12]; exact v5
  · rw [v12]; exact v6
  · rw [hprx]
    have := lookup_eq_none (t := .proxy) (es := es)
    cases hl : lookup .proxy es with
    | none => simp [this.mp hl]
    | some px =>
      refine ⟨fun _ => ⟨px, rfl⟩, fun _ => ?_⟩
      by_contra hc
      rw [this.mpr hc] at hl
      cases hl
  · have hm := lookup_mem hpx
    obtain ⟨y, _, hy⟩ := forall2_mem_right hf hm
    have h1 : ExtType.proxy = y.1 := hy.1
    have h2 := hy.2
    rw [← h1] at h2
    have := onCreate_accepted (by decide) h2
    have e : px = y.2 := this.1
    rw [e]
    exact this.2.1

/-- The standard never changes. -/
theorem standard_move (hm : Move E accts k i A A') : A'.standard = A.standard := by
  cases hm <;> rfl

/-- So the signature is needed for ever. -/
theorem C14_history_partial {P : List Key → Instr → Prop} {L'' : Ledger}
    (hs : Stores E.program L k A) (hprox : A.standard = 3)
    (hl : SoundLife E.program k P L L') (hk : accts.head? = some k)
    (h : execute E L' accts i = .ok L'') : E.signer k = true := by
  obtain ⟨B, hB, hst⟩ := SoundLife.invariant (I := fun B => B.standard = 3)
    (fun E accts i B B' _ _ h hm => (standard_move hm).trans h) hs hprox hl
  refine C14_signature hB.1 ?_ hk h
  rw [hB.2.2.1] at hst
  exact hst

/-- Without its signature, all that can happen to a proxied asset is that it gets or loses a
member, when it is a group. -/
theorem C14_unsigned_partial (hs : Stores E.program L k A) (hprox : A.standard = 3)
    (h : execute E L accts i = .ok L') (hsound : Sound k A accts i) (hn : E.signer k = false) :
    Stores E.program L' k A ∨ ∃ p n, lookup .grouping A.exts = some p ∧
      Stores E.program L' k (A.resized p n) := by
  have hhead : accts.head? ≠ some k := by
    intro hk
    have hst : (assetAt L k).standard = 3 := by
      have := hs.2.2.1
      rw [this] at hprox
      exact hprox
    rw [C14_signature hs.1 hst hk h] at hn
    cases hn
  rcases refine hs h hsound with ⟨_, h2, _⟩ | ⟨A', h1, h2⟩
  · exact absurd h2 hhead
  · cases h2 with
    | stay => exact Or.inl h1
    | memberIn _ _ p _ _ _ hp => exact Or.inr ⟨p, _, hp, h1⟩
    | memberOut _ _ p _ _ _ hp => exact Or.inr ⟨p, _, hp, h1⟩
    | _ => subst ‹accts = _›; exact absurd rfl hhead

/-- The instruction does not update the Proxy extension without giving data. -/
def GivesProxyData (_ : List Key) : Instr → Prop
  | .update x => ∀ e, x.extension = some e → e.ty = .proxy → e.data ≠ none
  | _ => True

/-- The derivation data of a proxied asset (program, seeds, bump) is never changed, provided
that no update blanks the extension, and the address of the proxy program does not look like
an extension header. -/
theorem C14_derivation_partial {p : Bytes} (hs : Stores program L k A)
    (hp : lookup .proxy A.exts = some p) (hlen : p.length = 97) (hhdr : leNat (p.take 4) ≠ 9)
    (hl : SoundLife program k GivesProxyData L L') :
    ∃ A' q, Stores program L' k A' ∧ lookup .proxy A'.exts = some q ∧ q.length = 97 ∧
      q.take 65 = p.take 65 := by
  suffices h : ∃ B, Stores program L' k B ∧
      ∃ q, lookup .proxy B.exts = some q ∧ q.length = 97 ∧ q.take 65 = p.take 65 by
    obtain ⟨B, hB, q, h⟩ := h
    exact ⟨B, q, hB, h⟩
  refine SoundLife.invariant
    (I := fun B => ∃ q, lookup .proxy B.exts = some q ∧ q.length = 97 ∧ q.take 65 = p.take 65)
    ?_ hs ⟨p, hp, hlen, rfl⟩ hl
  rintro E accts i B B' _ hP ⟨q, h1, h2, h3⟩ hm
  cases hm with
  | update _ x s rest e p' ha hs' hauth hmut hx he hp' =>
    by_cases ht : e.ty = .proxy
    · have hd := hP e hx ht
      unfold UpdatesTo at hp'
      cases hdd : e.data with
      | none => exact absurd hdd hd
      | some new =>
        rw [hdd] at hp'
        simp only [ht] at hp'
        obtain ⟨⟨rfl, g1, g2⟩, _⟩ := hp'
        obtain ⟨_, g4⟩ := g2 q h1
        refine ⟨p', ?_, g1, g4.trans h3⟩
        simp only [ht]
        exact lookup_setExt_same
    · exact ⟨q, (lookup_setExt_ne (Ne.symm ht)).trans h1, h2, h3⟩
  | updateFrom _ x s b rest t p' ha hs' hauth hmut hx hb ht hp' =>
    by_cases h : t = .proxy
    · subst h
      obtain ⟨hd, d, r, g1, g2, g3, ⟨rfl, g5, g6⟩, _⟩ := hp'
      obtain ⟨_, g7⟩ := g6 q h1
      have hdl : 97 ≤ d.length := by
        rw [List.length_take] at g5
        omega
      refine absurd ?_ hhdr
      have : p.take 4 = hd.take 4 := by
        have e1 : p.take 4 = (p.take 65).take 4 := by rw [List.take_take]; rfl
        rw [e1, ← h3, ← g7, List.take_take, List.take_take, List.take_append_of_le_length (by omega)]
        congr 1; omega
      rw [this, g2]; rfl
    · exact ⟨q, (lookup_setExt_ne (Ne.symm h)).trans h1, h2, h3⟩
  | remove _ t s rest ha hs' hauth hmut ht =>
    exact ⟨q, (lookup_removeExt_ne (Ne.symm ht.2.2)).trans h1, h2, h3⟩
  | verify _ c rest p' q' ha hs' hp' hq => exact ⟨q, (lookup_setExt_ne (by decide)).trans h1, h2, h3⟩
  | unverify _ c rest p' q' ha hs' hp' hq =>
    exact ⟨q, (lookup_setExt_ne (by decide)).trans h1, h2, h3⟩
  | memberIn _ p' => exact ⟨q, (lookup_setExt_ne (by decide)).trans h1, h2, h3⟩
  | memberOut _ p' => exact ⟨q, (lookup_setExt_ne (by decide)).trans h1, h2, h3⟩
  | _ => exact ⟨q, h1, h2, h3⟩

end

section Examples
open Verif.Ex

/-- Proxy data: program `k 20`, seeds, bump 1, authority `k 21`. -/
def proxyData : Bytes := (k 20).1 ++ (k 30).1 ++ [1] ++ (k 21).1

/-- A proxied asset at the address derived from its Proxy extension (in the examples, the
address for bump `n` is `k n`). -/
def proxied : Ledger :=
  ledger [(k 1, owned (header 0 3 1 (k 2) Key.default (k 3) Key.default 0 [65] ++
      blocks 168 [(.proxy, proxyData)])),
    (k 2, wallet), (k 3, wallet), (k 5, wallet)]

/-- The owner alone cannot transfer; with the signature of the asset it works. -/
example :
    (run proxied [k 2] [k 1, k 2, k 5, prog] .transfer).isOk = false ∧
    (run proxied [k 1, k 2] [k 1, k 2, k 5, prog] .transfer).isOk = true := by decide +kernel

example : Stores prog proxied (k 1)
    ⟨0, 3, 1, k 2, Key.default, k 3, Key.default, 0, podStr35 [65], [(.proxy, proxyData)]⟩ := by
  refine ⟨?_, by decide +kernel, by decide +kernel, 288, ?_, by decide +kernel⟩
  · exact ⟨by decide +kernel, by decide +kernel, by decide +kernel⟩
  · refine Packed.cons (by decide) (by decide +kernel) (by decide +kernel) (by decide +kernel)
      (by decide +kernel) (Packed.nil (by decide +kernel))

/-- Creation of a proxied asset at its address and at another one. -/
def mintProxied (bump : UInt8) : Instr :=
  .create ⟨[65], .proxied, true, some [⟨.proxy, 97, some ((k 20).1 ++ (k 30).1 ++ [bump] ++ (k 21).1)⟩]⟩

example :
    let L := ledger [(k 2, wallet), (k 3, wallet), (k 5, wallet)]
    let run1 := fun b => run L [k 1, k 5] [k 1, k 3, k 2, prog, prog, k 5, Key.system] (mintProxied b)
    (run1 1).isOk = true ∧ (run1 4).isOk = false := by decide +kernel

/-- Without the restriction on updates the derivation data can be lost: an update that says
nothing about the data blanks the extension. -/
theorem C14_derivation_false :
    ((run proxied [k 1, k 3] [k 1, k 3, prog, prog, k 5, Key.system]
      (.update ⟨none, none, some ⟨.proxy, 0, none⟩⟩)).map fun L =>
        assetGet .proxy (L (k 1)).data) = .ok (.ok (some [])) := by decide +kernel

end Examples

end Verif.Props

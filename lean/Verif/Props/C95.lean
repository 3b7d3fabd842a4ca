import Verif.Spec.Locks
import Verif.Props.C04
import Verif.Props.C51
import Verif.Props.C94

/-!
# C95 — what is locked can be unlocked
-/

namespace Verif.Props

open Verif Verif.Spec

section
variable {E : Env} {program k : Key} {L0 L L' : Ledger} {A B : Asset}

theorem openable_congr (h1 : lookup .manager B.exts = lookup .manager A.exts)
    (h2 : B.delegate = A.delegate) (h3 : B.roles = A.roles) (h4 : B.owner = A.owner) :
    B.Openable ↔ A.Openable := by
  unfold Asset.Openable ManagerReadable Asset.MayLock Asset.Delegated Asset.manager
    Asset.holderDelegate
  rw [h1, h2, h3, h4]

theorem managerOf_readable (hs : Stores program L k A) {m : Option Delegate}
    (h : managerOf (L k).data = .ok m) : ManagerReadable A := by
  obtain ⟨_, _, _, e, h6, h7⟩ := id hs
  intro p hp
  unfold managerOf at h
  inv at h
  obtain ⟨r, hr, hm⟩ := h
  rw [show assetLen = 168 from rfl] at hr
  rcases extGet_walk (t := .manager) h6.walk (Or.inr h7) (by decide) with ⟨g1, g2⟩ |
    ⟨pre, pl', post, m, g1, g2, g3, g4, g5, g6⟩
  · rw [g1] at hp; cases hp
  · rw [g6] at hr
    cases hr
    inv at hm
    obtain ⟨x, hx, rfl⟩ := hm
    rw [g3] at hp
    cases hp
    unfold readManager at hx
    split at hx
    · cases hx
    · omega

theorem lockAuthority_openable (hs : Stores program L k A) {s : Key}
    (h : lockAuthority (L k).data s = .ok ()) : A.Openable := by
  refine ⟨?_, s, hs.mayLock h⟩
  unfold lockAuthority at h
  inv at h
  obtain ⟨m, hm, _⟩ := h
  exact managerOf_readable hs hm

theorem wellFormed_whole (hw : WellFormed program L) (x : Key) : Whole program L x := by
  intro ho hb
  rcases (hw x ho).2 with ⟨B, hB, _⟩ | h
  · have := hB.1.2.1
    omega
  · rcases h with h | ⟨es, ⟨h, _⟩, _⟩ | ⟨es, t, n, p, ⟨h, _⟩, _⟩
    · rw [h 0] at hb; cases hb
    · exact absurd hb (by rw [h.2 0 (by omega)]; decide)
    · exact absurd hb (by rw [h.2 0 (by omega)]; decide)

/-- Even if everybody signs, exactly the assets that are `Openable` can be unlocked. -/
theorem C95_open (hs : Stores E.program L k A) (hu : Usable E k A)
    (hw : ∀ x, Whole E.program L x) (hall : ∀ x, E.signer x = true) :
    (∃ s rest L', execute E L (k :: s :: rest) .unlock = .ok L') ↔ A.Openable := by
  constructor
  · rintro ⟨s, rest, L', h⟩
    obtain ⟨a, b, rest', he, hp⟩ := exec_unlock h
    cases he
    unfold processUnlock at hp
    inv at hp
    exact lockAuthority_openable hs hp.2.2.2.1
  · rintro ⟨hm, s, h⟩
    obtain ⟨L', h', _⟩ := (C48_unlock (rest := []) hs hu hm fun x _ => hw x).mpr ⟨hall s, h⟩
    exact ⟨s, [], L', h'⟩

/-- As long as the instructions are used as intended: if an asset is locked and nobody can unlock it,
then its authority has changed the Manager extension while it was locked; before this somebody could
unlock it, and since then nobody can. -/
theorem C95_closed_partial (h0 : Genesis program L0) (hs : ProperSteps program L0 L)
    (hA : Stores program L k A) (hl : A.state = 1) (hc : ¬ A.Openable) :
    ∃ E L1 L2 s rest x B B', E.program = program ∧ ProperSteps program L0 L1 ∧
      execute E L1 (k :: s :: rest) (.update x) = .ok L2 ∧ Stores program L1 k B ∧
      B.state = 1 ∧ B.Openable ∧ B.authority = s ∧ E.signer s = true ∧ B.mutableByte ≠ 0 ∧
      Stores program L2 k B' ∧ lookup .manager B'.exts ≠ lookup .manager B.exts ∧
      Since program k (fun C => C.state = 1 ∧ ¬ C.Openable) L2 L := by
  obtain ⟨E, L1, L2, accts, i, A', rfl, h2, h3, h4, h5, h6, h7⟩ :=
    origin (P := fun C => C.state = 1 ∧ ¬ C.Openable) h0 hs hA ⟨hl, hc⟩
  rcases h7 with ⟨x, au, o, rest, g, es0, es, rfl, rfl, g1, g2, rfl, _⟩ | ⟨B, hB, hd, hn, hm, _⟩
  · exact absurd (show (0 : UInt8) = 1 from h5.1) (by decide)
  have same : A'.state = B.state → lookup .manager A'.exts = lookup .manager B.exts →
      A'.delegate = B.delegate → A'.roles = B.roles → A'.owner = B.owner → False :=
    fun e1 e2 e3 e4 e5 => hn ⟨e1 ▸ h5.1, fun h => h5.2 ((openable_congr e2 e3 e4 e5).mpr h)⟩
  cases hm with
  | lock _ s rest ha hsg hauth hlock =>
    exfalso
    subst ha
    obtain ⟨a, b, rest', he, hp⟩ := exec_lock h3
    cases he
    unfold processLock at hp
    inv at hp
    have ho := lockAuthority_openable hB hp.2.2.2.1
    exact h5.2 ((openable_congr (A := B) (B := { B with state := 1 }) rfl rfl rfl rfl).mpr ho)
  | unlock => exact absurd (show (0 : UInt8) = 1 from h5.1) (by decide)
  | transfer _ _ _ _ _ _ _ h => exact absurd h5.1 h
  | approve _ _ _ _ _ _ _ _ _ h => exact absurd h5.1 h
  | revoke _ _ _ _ _ _ _ _ _ h => exact absurd h5.1 h
  | update _ x s rest e p ha hsg hauth hmut hx he hp =>
    subst ha
    by_cases hl : lookup .manager (setExt e.ty p B.exts) = lookup .manager B.exts
    · exact (same rfl hl rfl rfl rfl).elim
    · have hst : B.state = 1 := h5.1
      exact ⟨E, L1, L2, s, rest, x, B, _, rfl, h2, h3, hB, hst,
        not_not.mp fun h => hn ⟨hst, h⟩, hauth, hsg, hmut, h4, hl, h6⟩
  | updateFrom _ x s b rest t p ha hsg hauth hmut hx hb ht hp =>
    subst ha
    by_cases hl : lookup .manager (setExt t p B.exts) = lookup .manager B.exts
    · exact (same rfl hl rfl rfl rfl).elim
    · have hst : B.state = 1 := h5.1
      exact ⟨E, L1, L2, s, b :: rest, x, B, _, rfl, h2, h3, hB, hst,
        not_not.mp fun h => hn ⟨hst, h⟩, hauth, hsg, hmut, h4, hl, h6⟩
  | remove _ t s rest ha hsg hauth hmut ht =>
    exact (same rfl (lookup_removeExt_ne (Ne.symm ht.2.1)) rfl rfl rfl).elim
  | verify => exact (same rfl (lookup_setExt_ne (by decide)) rfl rfl rfl).elim
  | unverify => exact (same rfl (lookup_setExt_ne (by decide)) rfl rfl rfl).elim
  | memberIn => exact (same rfl (lookup_setExt_ne (by decide)) rfl rfl rfl).elim
  | memberOut => exact (same rfl (lookup_setExt_ne (by decide)) rfl rfl rfl).elim
  | _ => exact (same rfl rfl rfl rfl rfl).elim

/-- A locked asset without a Manager extension can be unlocked by its delegate, or by its owner if it
has none. -/
theorem C95_unlock_partial (h0 : Genesis E.program L0) (hs : ProperSteps E.program L0 L)
    (hA : Stores E.program L k A) (hl : A.state = 1) (hm : lookup .manager A.exts = none)
    (hu : Usable E k A) (hsig : E.signer A.keeper = true) :
    ∃ L', execute E L [k, A.keeper] .unlock = .ok L' ∧
      Stores E.program L' k { A with state := 0 } := by
  have hr : ManagerReadable A := fun p hp => by rw [hm] at hp; cases hp
  have key : ∃ s, A.MayLock s := by
    by_contra hc
    obtain ⟨E', L1, L2, accts, i, A', _, _, h3, h4, ⟨p1, p2, p3⟩, h6, h7⟩ :=
      origin (P := fun C => C.state = 1 ∧ lookup .manager C.exts = none ∧ ¬ ∃ s, C.MayLock s)
        h0 hs hA ⟨hl, hm, hc⟩
    rcases h7 with ⟨x, au, o, rest, g, es0, es, rfl, rfl, g1, g2, rfl, _⟩ | ⟨B, hB, hd, hn, hmv, _⟩
    · exact absurd (show (0 : UInt8) = 1 from p1) (by decide)
    have same : A'.state = B.state → lookup .manager A'.exts = lookup .manager B.exts →
        A'.delegate = B.delegate → A'.roles = B.roles → A'.owner = B.owner → False := by
      intro e1 e2 e3 e4 e5
      refine hn ⟨e1 ▸ p1, e2 ▸ p2, fun h => p3 ?_⟩
      unfold Asset.MayLock Asset.Delegated Asset.manager Asset.holderDelegate at h ⊢
      rw [e2, e3, e4, e5]
      exact h
    cases hmv with
    | lock _ s rest ha hsg hauth hlock => exact p3 ⟨s, hauth⟩
    | unlock => exact absurd (show (0 : UInt8) = 1 from p1) (by decide)
    | transfer _ _ _ _ _ _ _ h => exact h p1
    | approve _ _ _ _ _ _ _ _ _ h => exact h p1
    | revoke _ _ _ _ _ _ _ _ _ h => exact h p1
    | update _ x s rest e p =>
      by_cases ht : e.ty = .manager
      · have p2' : lookup .manager (setExt e.ty p B.exts) = none := p2
        rw [ht, lookup_setExt_same] at p2'
        cases p2'
      · exact same rfl (lookup_setExt_ne (Ne.symm ht)) rfl rfl rfl
    | updateFrom _ x s b rest t p =>
      by_cases ht : t = .manager
      · have p2' : lookup .manager (setExt t p B.exts) = none := p2
        rw [ht, lookup_setExt_same] at p2'
        cases p2'
      · exact same rfl (lookup_setExt_ne (Ne.symm ht)) rfl rfl rfl
    | remove _ t s rest ha hsg hauth hmut ht =>
      exact same rfl (lookup_removeExt_ne (Ne.symm ht.2.1)) rfl rfl rfl
    | verify => exact same rfl (lookup_setExt_ne (by decide)) rfl rfl rfl
    | unverify => exact same rfl (lookup_setExt_ne (by decide)) rfl rfl rfl
    | memberIn => exact same rfl (lookup_setExt_ne (by decide)) rfl rfl rfl
    | memberOut => exact same rfl (lookup_setExt_ne (by decide)) rfl rfl rfl
    | _ => exact same rfl rfl rfl rfl rfl
  have hk : A.MayLock A.keeper := by
    obtain ⟨s, hs⟩ := key
    unfold Asset.keeper
    split
    · exact .inr ⟨‹_›, rfl⟩
    · next hd =>
      rcases hs with ⟨x, h1, h2, h3⟩ | ⟨h, _⟩
      · have h1' := h1
        unfold Asset.manager at h1
        rw [hm] at h1
        unfold Asset.holderDelegate governing at h1
        simp only [Option.map_none, if_neg hd] at h1
        cases h1
        exact .inl ⟨_, h1', rfl, h3⟩
      · exact absurd h hd
  exact (C48_unlock (rest := []) hA hu hr
    fun x _ => wellFormed_whole (wf_steps h0.wellFormed hs) x).mpr ⟨hsig, hk⟩

/-- If nobody can unlock an immutable asset, then it stays locked, with the same owner, whatever
anybody does. -/
theorem C95_forever (hs : Stores program L k A) (hl : A.state = 1) (hc : ¬ A.Openable)
    (hm : A.mutableByte = 0) (h : StepsBy program (fun _ _ => True) L L') :
    ∃ A', Stores program L' k A' ∧ A'.state = 1 ∧ A'.owner = A.owner ∧ ¬ A'.Openable := by
  suffices ∃ A', Stores program L' k A' ∧ A'.state = 1 ∧ A'.mutableByte = 0 ∧ A'.owner = A.owner ∧
      A'.delegate = A.delegate ∧ A'.roles = A.roles ∧
      lookup .manager A'.exts = lookup .manager A.exts by
    obtain ⟨A', h1, h2, _, h3, h4, h5, h6⟩ := this
    exact ⟨A', h1, h2, h3, fun h => hc ((openable_congr h6 h4 h5 h3).mp h)⟩
  induction h with
  | refl => exact ⟨A, hs, hl, hm, rfl, rfl, rfl, rfl⟩
  | foreign _ hf ih =>
    obtain ⟨B, g, r⟩ := ih
    exact ⟨B, g.foreign hf, r⟩
  | instr E accts i _ hp _ _ h ih =>
    obtain ⟨B, hB, b1, b2, b3, b4, b5, b6⟩ := ih
    subst hp
    have hno : ¬ B.Openable := fun h => hc ((openable_congr b6 b4 b5 b3).mp h)
    rcases refine hB h (sound_immutable hB b2 h) with ⟨rfl, c2, _⟩ | ⟨C, hC, hmv⟩
    · obtain ⟨e, he⟩ := C04_not_burned (E := E) (accts := accts) hB.1
        (by have := congrArg Asset.state hB.2.2.1; exact this.symm.trans b1) c2
      rw [h] at he
      cases he
    · refine ⟨C, hC, ?_⟩
      cases hmv with
      | unlock _ s rest ha hsg hauth =>
        exfalso
        subst ha
        obtain ⟨a, b, rest', he, hp⟩ := exec_unlock h
        cases he
        unfold processUnlock at hp
        inv at hp
        exact hno (lockAuthority_openable hB hp.2.2.2.1)
      | transfer _ _ _ _ _ _ _ h => exact absurd b1 h
      | approve _ _ _ _ _ _ _ _ _ h => exact absurd b1 h
      | revoke _ _ _ _ _ _ _ _ _ h => exact absurd b1 h
      | lock _ _ _ _ _ _ h => exact absurd b1 h
      | handover _ _ _ _ _ _ _ _ h => exact absurd b2 h
      | retitle _ _ _ _ _ _ _ h => exact absurd b2 h
      | update _ _ _ _ _ _ _ _ _ h => exact absurd b2 h
      | updateFrom _ _ _ _ _ _ _ _ _ _ h => exact absurd b2 h
      | remove _ _ _ _ _ _ _ h => exact absurd b2 h
      | verify => exact ⟨b1, b2, b3, b4, b5, (lookup_setExt_ne (by decide)).trans b6⟩
      | unverify => exact ⟨b1, b2, b3, b4, b5, (lookup_setExt_ne (by decide)).trans b6⟩
      | memberIn => exact ⟨b1, b2, b3, b4, b5, (lookup_setExt_ne (by decide)).trans b6⟩
      | memberOut => exact ⟨b1, b2, b3, b4, b5, (lookup_setExt_ne (by decide)).trans b6⟩
      | _ => exact ⟨b1, b2, b3, b4, b5, b6⟩

/-- A locked asset whose manager cannot be read stays locked and has the same owner, even if it is
mutable: an Update with data is refused because the data to replace cannot be read, too. (The history
leaves out Update of type None and Remove of an extension that is not the last.) -/
theorem C95_blank_partial {p : Bytes} (hs : Stores program L k A) (hl : A.state = 1)
    (hp : lookup .manager A.exts = some p) (hn : p.length < 33)
    (h : SoundLife program k (fun _ _ => True) L L') :
    ∃ A', Stores program L' k A' ∧ A'.state = 1 ∧ A'.owner = A.owner ∧ ¬ A'.Openable := by
  suffices ∃ A', Stores program L' k A' ∧ A'.state = 1 ∧ A'.owner = A.owner ∧
      ∃ p, lookup .manager A'.exts = some p ∧ p.length < 33 by
    obtain ⟨A', h1, h2, h3, q, h4, h5⟩ := this
    exact ⟨A', h1, h2, h3, fun h => by have := h.1 q h4; omega⟩
  induction h with
  | refl => exact ⟨A, hs, hl, rfl, p, hp, hn⟩
  | foreign _ hf ih =>
    obtain ⟨B, g, r⟩ := ih
    exact ⟨B, g.foreign hf, r⟩
  | instr E accts i _ hpr h hb _ hsound ih =>
    obtain ⟨B, hB, b1, b2, q, b3, b4⟩ := ih
    subst hpr
    rcases refine hB h (hsound B hB) with ⟨rfl, c2, _⟩ | ⟨C, hC, hmv⟩
    · exact absurd ⟨rfl, c2⟩ hb
    · refine ⟨C, hC, ?_⟩
      cases hmv with
      | unlock _ s rest ha hsg hauth =>
        exfalso
        subst ha
        obtain ⟨a, b, rest', he, hp⟩ := exec_unlock h
        cases he
        unfold processUnlock at hp
        inv at hp
        have := (lockAuthority_openable hB hp.2.2.2.1).1 q b3
        omega
      | transfer _ _ _ _ _ _ _ h => exact absurd b1 h
      | approve _ _ _ _ _ _ _ _ _ h => exact absurd b1 h
      | revoke _ _ _ _ _ _ _ _ _ h => exact absurd b1 h
      | lock _ _ _ _ _ _ h => exact absurd b1 h
      | update _ x s rest e p' ha hsg hauth hmut hx he hp =>
        by_cases ht : e.ty = .manager
        · unfold UpdatesTo at hp
          split at hp
          · have := hp.2.2.2.2 q (by rw [ht]; exact b3)
            rw [ht] at this
            have this : 33 ≤ q.length := this
            omega
          · refine ⟨b1, b2, [], ?_, by decide⟩
            show lookup .manager (setExt e.ty p' B.exts) = some []
            rw [ht, lookup_setExt_same, hp.1]
        · exact ⟨b1, b2, q, (lookup_setExt_ne (Ne.symm ht)).trans b3, b4⟩
      | updateFrom _ x s b rest t p' ha hsg hauth hmut hx hbp he hp =>
        by_cases ht : t = .manager
        · subst ht
          obtain ⟨_, _, _, _, _, _, _, _, _, _, h⟩ := hp
          have : 33 ≤ q.length := h q b3
          omega
        · exact ⟨b1, b2, q, (lookup_setExt_ne (Ne.symm ht)).trans b3, b4⟩
      | remove _ t s rest ha hsg hauth hmut ht =>
        exact ⟨b1, b2, q, (lookup_removeExt_ne (Ne.symm ht.2.1)).trans b3, b4⟩
      | verify => exact ⟨b1, b2, q, (lookup_setExt_ne (by decide)).trans b3, b4⟩
      | unverify => exact ⟨b1, b2, q, (lookup_setExt_ne (by decide)).trans b3, b4⟩
      | memberIn => exact ⟨b1, b2, q, (lookup_setExt_ne (by decide)).trans b3, b4⟩
      | memberOut => exact ⟨b1, b2, q, (lookup_setExt_ne (by decide)).trans b3, b4⟩
      | _ => exact ⟨b1, b2, q, b3, b4⟩

/-- The Update that makes an asset immutable and its manager unreadable. -/
def sealing : UpdateInput := ⟨none, some false, some ⟨.manager, 0, none⟩⟩

/-- The authority of any locked asset that is not immutable can make sure, with one instruction, that
nobody ever unlocks, moves or burns it. -/
theorem C95_anyone {g p y : Key} {rest : List Key} (hs : Stores E.program L k A) (hl : A.state = 1)
    (hu : Usable E k A) (hf : Fresh E L k)
    (hw : ∀ z ∈ A.authority :: E.program :: g :: p :: y :: rest, Whole E.program L z)
    (hsig : E.signer A.authority = true) (hmut : A.mutableByte ≠ 0)
    (ho : Unobstructed L k A .manager 0) (hr : RoomFor E L k A .manager [] (optAcc E p) (optAcc E y)) :
    ∃ L1, execute E L (k :: A.authority :: E.program :: g :: p :: y :: rest) (.update sealing) = .ok L1 ∧
      ∀ L2, StepsBy E.program (fun _ _ => True) L1 L2 →
        ∃ A', Stores E.program L2 k A' ∧ A'.state = 1 ∧ A'.owner = A.owner := by
  obtain ⟨L1, h1, h2⟩ := (C51_update (s := A.authority) (g := g) (p := p) (y := y) (rest := rest)
    (x := sealing) (e := ⟨.manager, 0, none⟩) (q := []) hs hu hf hw rfl (by decide)
    (by exact ⟨rfl, rfl⟩) ho hr).mpr ⟨hsig, rfl, hmut⟩
  refine ⟨L1, h1, fun L2 h => ?_⟩
  obtain ⟨A', g1, g2, g3, _⟩ := C95_forever h2 hl
    (fun hop => by
      have := hop.1 [] lookup_setExt_same
      simp at this)
    rfl h
  exact ⟨A', g1, g2, g3⟩

/-- As long as the asset is mutable and its manager can be read, the authority can make anybody the
manager who unlocks it. -/
theorem C95_repair {g p y s : Key} {rest : List Key} {old : Bytes} (hs : Stores E.program L k A)
    (hu : Usable E k A) (hf : Fresh E L k) (hw : ∀ z, Whole E.program L z)
    (hsig : E.signer A.authority = true) (hmut : A.mutableByte ≠ 0)
    (hold : lookup .manager A.exts = some old) (hlen : 33 ≤ old.length)
    (ho : Unobstructed L k A .manager 33)
    (hr : RoomFor E L k A .manager (s.1 ++ [2]) (optAcc E p) (optAcc E y)) :
    ∃ L1, execute E L (k :: A.authority :: E.program :: g :: p :: y :: rest)
        (.update ⟨none, none, some ⟨.manager, 33, some (s.1 ++ [2])⟩⟩) = .ok L1 ∧
      ∀ E', E'.program = E.program → E'.signer s = true → Usable E' k A → Whole E.program L1 s →
        ∃ L2, execute E' L1 [k, s] .unlock = .ok L2 ∧
          Stores E.program L2 k { A with state := 0, exts := setExt .manager (s.1 ++ [2]) A.exts } := by
  have h33 : (s.1 ++ [2]).length = 33 := by simp [s.2]
  obtain ⟨L1, h1, h2⟩ := (C51_update (s := A.authority) (g := g) (p := p) (y := y) (rest := rest)
    (x := ⟨none, none, some ⟨.manager, 33, some (s.1 ++ [2])⟩⟩)
    (e := ⟨.manager, 33, some (s.1 ++ [2])⟩) (q := s.1 ++ [2]) hs hu hf (fun z _ => hw z) rfl (by simp)
    (by
      refine ⟨⟨rfl, by omega, fun o ho => by rw [hold] at ho; cases ho; exact hlen⟩, h33, fun _ => by rw [hold]; simp, ?_, fun o ho => ?_⟩
      · show 33 ≤ _
        omega
      · rw [hold] at ho
        cases ho
        exact hlen) (by rw [h33]; exact ho) hr).mpr ⟨hsig, rfl, hmut⟩
  refine ⟨L1, h1, fun E' hE hs' hu' hw' => ?_⟩
  rw [← hE] at h2 hw' ⊢
  refine (C48_unlock (rest := []) h2 hu' ?_ (by simpa using hw')).mpr ⟨hs', .inl ?_⟩
  · intro q hq
    have hq : lookup .manager (setExt .manager (s.1 ++ [2]) A.exts) = some q := hq
    rw [lookup_setExt_same] at hq
    cases hq
    omega
  · refine ⟨⟨s, 2⟩, ?_, rfl, show (2 : UInt8) &&& 2 ≠ 0 by decide⟩
    have : lookup .manager (setExt .manager (s.1 ++ [2]) A.exts) = some (s.1 ++ [2]) :=
      lookup_setExt_same
    unfold Asset.manager
    show governing ((lookup .manager (setExt .manager (s.1 ++ [2]) A.exts)).map _) _ = _
    rw [this]
    have e1 : keyAt (s.1 ++ [2]) 0 = s := by
      show Key.ofBytes (((s.1 ++ [2]).drop 0).take 32) = s
      rw [List.drop_zero, List.take_left' s.2, ofBytes_key]
    have e2 : byteAt (s.1 ++ [2]) 32 = 2 := by
      rw [byteAt_append_right _ _ _ (by rw [s.2]; exact Nat.le_refl _), s.2]
      rfl
    show some (Delegate.mk _ _) = _
    rw [e1, e2]

end

section Examples
open Verif.Ex

/-- `k 1` is created for `k 2`, who locks it; then its authority `k 3` seals it. -/
def sealedHistory : List (List Key × List Key × Instr) :=
  [([k 1, k 5], createAccts, .create ⟨[65], .nonFungible, true, none⟩),
    ([k 2], [k 1, k 2], .lock),
    ([k 3, k 5], updateAccts, .update sealing)]

/-- What it is before and after the last step. -/
def sealedAsset (closed : Bool) : Asset :=
  ⟨1, 0, if closed then 0 else 1, k 2, Key.default, k 3, Key.default, 0, podStr35 [65],
    if closed then [(.manager, [])] else []⟩

/-- The full claim is false: an asset that its owner has locked, and nobody will ever unlock, move or
burn. -/
theorem C95_false : ∃ L A, ProperSteps prog empties L ∧ Stores prog L (k 1) A ∧ A.state = 1 ∧
    A.owner = k 2 ∧ A.delegate = Key.default ∧
    ∀ L', StepsBy prog (fun _ _ => True) L L' →
      ∃ A', Stores prog L' (k 1) A' ∧ A'.state = 1 ∧ A'.owner = k 2 := by
  have h : ((runAll sealedHistory empties).map fun L => checkStores prog L (k 1) (sealedAsset true)) =
      .ok true := by decide +kernel
  obtain ⟨L, h1, h2⟩ := ok_of_map h
  have hst := checkStores_sound h2
  refine ⟨L, _, runAll_proper ?_ (.refl _) h1, hst, rfl, rfl, rfl, fun L' h => ?_⟩
  · intro x hx L
    simp only [sealedHistory, List.mem_cons, List.not_mem_nil, or_false] at hx
    rcases hx with rfl | rfl | rfl
    · intro y hy; cases hy
    · trivial
    · exact ⟨fun e he => by cases he; decide, fun b hb hne => by cases hb; exact absurd rfl hne⟩
  · obtain ⟨A', g1, g2, g3, _⟩ := C95_forever hst rfl
      (fun hop => absurd (hop.1 [] rfl) (by decide)) rfl h
    exact ⟨A', g1, g2, g3⟩

/-- One step before, the owner could have unlocked it; afterwards neither they nor anybody else can. -/
example :
    ((runAll (sealedHistory.take 2) empties).map fun L => checkStores prog L (k 1) (sealedAsset false)) =
      .ok true ∧
    (runAll (sealedHistory.take 2 ++ [([k 2], [k 1, k 2], .unlock)]) empties).isOk = true ∧
    (runAll (sealedHistory ++ [([k 2], [k 1, k 2], .unlock)]) empties).isOk = false ∧
    (runAll (sealedHistory ++ [([k 3], [k 1, k 3], .unlock)]) empties).isOk = false := by
  decide +kernel

/-- The asset `careerAsset` is kept by its delegate, who can unlock it. -/
example : careerAsset.keeper = k 5 := by decide +kernel

example (E : Env) (hE : E.program = prog) (hu : E.writable (k 1) = true) (hs : E.signer (k 5) = true) :
    ∃ L L', Stores prog L (k 1) careerAsset ∧ execute E L [k 1, k 5] .unlock = .ok L' := by
  obtain ⟨L, h1, h2⟩ := career_run
  have e : careerAsset.keeper = k 5 := by decide +kernel
  obtain ⟨L', g, _⟩ := C95_unlock_partial (E := E) (L0 := empties) (L := L) (k := k 1)
    (A := careerAsset) (by rw [hE]; exact empties_genesis) (by rw [hE]; exact h1)
    (by rw [hE]; exact h2) rfl rfl ⟨hu, fun h => absurd h (by decide)⟩ (by rw [e]; exact hs)
  rw [e] at g
  exact ⟨L, L', h2, g⟩

end Examples

end Verif.Props

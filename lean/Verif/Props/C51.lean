import Verif.Lemmas.Edits
import Verif.Lemmas.Check
import Verif.Props.C48
import Verif.Props.C26

/-!
# C51 — edits of the authority are accepted

The authority of a mutable asset can rename it, write extensions, remove extensions and resize the
account whenever the data is acceptable and the rent is paid for. One thing stands in the way that
should not: bytes after the last extension.
-/

namespace Verif.Props

open Verif Verif.Spec

section
variable {E : Env} {L L' : Ledger} {k s g p y : Key} {A : Asset} {rest : List Key}

theorem optAcc_program : optAcc E E.program = none := by unfold optAcc; simp

/-- Name and mutability. -/
theorem C51_rename {x : UpdateInput} (hs : Stores E.program L k A) (hu : Usable E k A)
    (hc : ∀ z ∈ s :: E.program :: g :: p :: y :: rest, Whole E.program L z)
    (hx : x.extension = none) :
    (∃ L', execute E L (k :: s :: E.program :: g :: p :: y :: rest) (.update x) = .ok L' ∧
      Stores E.program L' k (A.retitled x)) ↔
    E.signer s = true ∧ A.authority = s ∧ A.mutableByte ≠ 0 := by
  constructor
  · rintro ⟨L', h, _⟩
    obtain ⟨a, au, b, g', p', y', rest', he, hp⟩ := exec_update h
    cases he
    unfold processUpdate at hp
    inv at hp
    exact ⟨hp.1, by rw [← hs.authority_eq]; exact hp.2.2.2.1, hs.mutable_eq hp.2.2.2.2.1⟩
  · rintro ⟨h1, h2, h3⟩
    refine ⟨_, accept_whole hs hu rfl (whole_all hs hc) rfl ?_
      (fun z _ => changed_asset hs hu (stores_updateHeader hs x) z), stores_updateHeader hs x⟩
    show processUpdate E L k s (optAcc E E.program) (optAcc E p) (optAcc E y) x = _
    rw [optAcc_program]
    exact processUpdate_plain hs h1 h2 h3 hx

/-- Writing an extension with acceptable data `q`, and changing name and mutability with it. -/
theorem C51_update {x : UpdateInput} {e : ExtInput} {q : Bytes} (hs : Stores E.program L k A)
    (hu : Usable E k A) (hf : Fresh E L k)
    (hc : ∀ z ∈ s :: E.program :: g :: p :: y :: rest, Whole E.program L z)
    (hx : x.extension = some e) (ht : e.ty ≠ .none)
    (hq : UpdatesTo s e (lookup e.ty A.exts) q)
    (ho : Unobstructed L k A e.ty q.length)
    (hr : RoomFor E L k A e.ty q (optAcc E p) (optAcc E y)) :
    (∃ L', execute E L (k :: s :: E.program :: g :: p :: y :: rest) (.update x) = .ok L' ∧
      Stores E.program L' k { A.retitled x with exts := setExt e.ty q A.exts }) ↔
    E.signer s = true ∧ A.authority = s ∧ A.mutableByte ≠ 0 := by
  constructor
  · rintro ⟨L', h, _⟩
    obtain ⟨a, au, b, g', p', y', rest', he, hp⟩ := exec_update h
    cases he
    unfold processUpdate at hp
    inv at hp
    exact ⟨hp.1, by rw [← hs.authority_eq]; exact hp.2.2.2.1, hs.mutable_eq hp.2.2.2.2.1⟩
  · rintro ⟨h1, h2, h3⟩
    obtain ⟨L', g1, g2, g3⟩ := processUpdate_live hs h1 h2 h3 hx ht hq hu.1 hf ho hr
    refine ⟨L', accept_whole hs hu rfl (whole_all hs hc) rfl ?_ (fun z _ => ?_), g2⟩
    · show processUpdate E L k s (optAcc E E.program) (optAcc E p) (optAcc E y) x = _
      rw [optAcc_program]
      exact g1
    · by_cases hz : z = k
      · subst hz; exact changed_owned hu.1 hs.1.1 g2.2.1
      · exact g3 z hz

/-- Data that is not acceptable is refused, whatever else is given. -/
theorem C51_unacceptable {x : UpdateInput} {e : ExtInput} (hs : Stores E.program L k A)
    (hx : x.extension = some e) (ht : e.ty ≠ .none)
    (hq : ∀ q, ¬ UpdatesTo s e (lookup e.ty A.exts) q) :
    execute E L (k :: s :: rest) (.update x) ≠ .ok L' := by
  intro h
  have hmax := execute_maxLen h (k := k) (by simp) hs.2.1
  obtain ⟨a, au, b, g', p', y', rest', he, hp⟩ := exec_update h
  cases he
  unfold processUpdate at hp
  inv at hp
  obtain ⟨_, _, _, _, _, hp⟩ := hp
  rw [hx] at hp
  cases hb : optAcc E b with
  | some z => rw [hb] at hp; cases hp
  | none =>
    rw [hb] at hp
    simp only at hp
    obtain ⟨q, _, h2, h3⟩ := updateArgs_stores (stores_updateHeader hs x) ht hmax hp
    refine hq q ?_
    unfold UpdatesTo
    cases hd : e.data with
    | none =>
      rw [hd] at h3
      simp only at h3
      subst h3
      exact ⟨rfl, by
        have : e.length.toNat = 0 := by simpa using h2.symm
        exact UInt32.toNat_inj.mp this⟩
    | some new =>
      rw [hd] at h3
      simp only at h3
      obtain ⟨j1, j2, j3, j4⟩ := (updateValidate_iff ht).mp h3
      exact ⟨j1, h2, j4, j2, j3⟩

/-- Removing an extension: any but a manager, a proxy or a group with members, provided a byte
follows its header. -/
theorem C51_remove {t : ExtType} {q : Bytes} {r : Key} (hs : Stores E.program L k A)
    (hu : Usable E k A) (hf : Fresh E L k)
    (hc : ∀ z ∈ s :: g :: r :: rest, Whole E.program L z)
    (ht : t ≠ .manager ∧ t ≠ .proxy) (hq : lookup t A.exts = some q)
    (hg : t = .grouping → 16 ≤ q.length ∧ q.length ≤ 48 ∧ membersOf q = 0)
    (hfo : Followed L k A t) (hr : Collects E L k r) :
    (∃ L', execute E L (k :: s :: g :: r :: rest) (.remove t) = .ok L') ↔
    E.signer s = true ∧ A.authority = s ∧ A.mutableByte ≠ 0 := by
  constructor
  · rintro ⟨L', h⟩
    obtain ⟨a, au, g', r', rest', he, hp⟩ := exec_remove h
    cases he
    unfold processRemove at hp
    inv at hp
    exact ⟨hp.1, by rw [← hs.authority_eq]; exact hp.2.2.2.1, hs.mutable_eq hp.2.2.2.2.1⟩
  · rintro ⟨h1, h2, h3⟩
    obtain ⟨L', g1, g2, g3⟩ := processRemove_live hs h1 h2 h3 ht hq hg hfo hu.1 hf hr
    refine ⟨L', accept_whole hs hu rfl (whole_all hs hc) rfl g1 (fun z _ => ?_)⟩
    by_cases hz : z = k
    · subst hz; exact changed_owned hu.1 hs.1.1 g2
    · exact g3 z hz

/-- Removing the last extension: the asset is stored without it. -/
theorem C51_remove_last {t : ExtType} {q : Bytes} {r : Key} (hs : Stores E.program L k A)
    (hu : Usable E k A) (hf : Fresh E L k)
    (hc : ∀ z ∈ s :: g :: r :: rest, Whole E.program L z)
    (ht : t ≠ .none ∧ t ≠ .manager ∧ t ≠ .proxy) (hq : lookup t A.exts = some q)
    (hlast : (A.exts.map (·.1)).getLast? = some t) (hone : (A.exts.map (·.1)).count t = 1)
    (hg : t = .grouping → 16 ≤ q.length ∧ q.length ≤ 48 ∧ membersOf q = 0)
    (hfo : q ≠ [] ∨ ¬ Tight L k A) (hr : Collects E L k r) :
    (∃ L', execute E L (k :: s :: g :: r :: rest) (.remove t) = .ok L' ∧
      Stores E.program L' k { A with exts := removeExt t A.exts }) ↔
    E.signer s = true ∧ A.authority = s ∧ A.mutableByte ≠ 0 := by
  have key := C51_remove (rest := rest) (g := g) (s := s) hs hu hf hc ht.2 hq hg (by
    rcases hfo with hfo | hfo
    · right; right; rw [hq]; simpa using hfo
    · left; exact hfo) hr
  rw [← key]
  constructor
  · rintro ⟨L', h, _⟩; exact ⟨L', h⟩
  · rintro ⟨L', h⟩
    have hmax := execute_maxLen h (k := k) (by simp) hs.2.1
    obtain ⟨a, au, g', r', rest', he, hp⟩ := exec_remove h
    cases he
    exact ⟨L', h, (processRemove_stores hs ht.1 hlast hone hmax hp).2.2.2⟩

/-- Resizing the account. -/
theorem C51_resize {x : Strategy} (hs : Stores E.program L k A) (hu : Usable E k A)
    (hf : Fresh E L k) (hc : ∀ z ∈ s :: p :: y :: rest, Whole E.program L z)
    (hr : Room E L k (resizedTo (L k).data.length A.exts x) (some p) (optAcc E y)) :
    (∃ L', execute E L (k :: s :: p :: y :: rest) (.resize x) = .ok L' ∧
      Stores E.program L' k A ∧ (L' k).data.length = resizedTo (L k).data.length A.exts x) ↔
    E.signer s = true ∧ A.authority = s ∧ A.mutableByte ≠ 0 := by
  constructor
  · rintro ⟨L', h, _⟩
    obtain ⟨a, au, p', y', rest', he, hp⟩ := exec_resize h
    cases he
    unfold processResize at hp
    inv at hp
    exact ⟨hp.1, by rw [← hs.authority_eq]; exact hp.2.2.2.1, hs.mutable_eq hp.2.2.2.2.1⟩
  · rintro ⟨h1, h2, h3⟩
    obtain ⟨L', g1, g2, g3⟩ := processResize_live (sys := optAcc E y) hs h1 h2 h3 hu.1 hf hr
    have hp := processResize_stores hs g2 g1
    refine ⟨L', accept_whole hs hu rfl (whole_all hs hc) rfl g1 (fun z _ => ?_), hp.2.2.2⟩
    by_cases hz : z = k
    · subst hz; exact changed_owned hu.1 hs.1.1 g2
    · exact g3 z hz

end

section Examples
open Verif.Ex

/-- An asset with two extensions, and a wallet `k 5` that pays. -/
def edited : Asset :=
  ⟨0, 0, 1, k 2, Key.default, k 3, Key.default, 0, podStr35 [65],
    [(.attributes, [1, 97, 1, 98]), (.blob, [0, 7, 7])]⟩

def editable (extra : Nat) : Ledger :=
  ledger [(k 1, owned (header 0 0 1 (k 2) Key.default (k 3) Key.default 0 [65] ++
      blocks 168 edited.exts ++ zeros extra)), (k 2, wallet), (k 3, wallet), (k 5, wallet)]

def editAccts : List Key := [k 1, k 3, prog, prog, k 5, Key.system]

/-- The Update that writes `d` as the extension `t`. -/
def writes (t : ExtType) (d : Bytes) : Instr :=
  .update ⟨none, none, some ⟨t, UInt32.ofNat d.length, some d⟩⟩

example : Stores prog (editable 0) (k 1) edited ∧ Tight (editable 0) (k 1) edited :=
  ⟨checkStores_sound (by decide +kernel), by unfold Tight; decide +kernel⟩

/-- A longer, a shorter, and a new extension; the other one is kept. -/
example :
    ((run (editable 0) [k 3, k 5] editAccts (writes .attributes [1, 97, 8, 1, 2, 3, 4, 5, 6, 7, 8])).map
      fun L' => checkStores prog L' (k 1)
        { edited with exts := [(.attributes, [1, 97, 8, 1, 2, 3, 4, 5, 6, 7, 8]), (.blob, [0, 7, 7])] }) =
      .ok true ∧
    ((run (editable 0) [k 3, k 5] editAccts (writes .attributes [])).map
      fun L' => checkStores prog L' (k 1)
        { edited with exts := [(.attributes, []), (.blob, [0, 7, 7])] }) = .ok true ∧
    ((run (editable 0) [k 3, k 5] editAccts (writes .links [1, 97, 1, 98])).map
      fun L' => checkStores prog L' (k 1)
        { edited with exts := edited.exts ++ [(.links, [1, 97, 1, 98])] }) = .ok true := by
  decide +kernel

/-- The room needed for the longer extension is there. -/
example : RoomFor (env (editable 0) [k 3, k 5]) (editable 0) (k 1) edited .attributes
    [1, 97, 8, 1, 2, 3, 4, 5, 6, 7, 8] (some (k 5)) (some Key.system) := by
  intro _
  unfold Room
  rw [if_neg (by decide +kernel)]
  exact ⟨by decide +kernel, by decide +kernel, Or.inl (by decide +kernel)⟩

/-- Removing and resizing. -/
example :
    ((run (editable 0) [k 3] [k 1, k 3, prog, k 5] (.remove .blob)).map
      fun L' => checkStores prog L' (k 1) { edited with exts := [(.attributes, [1, 97, 1, 98])] }) =
      .ok true ∧
    ((run (editable 9) [k 3] [k 1, k 3, k 5, Key.system] (.resize .trim)).map
      fun L' => (checkStores prog L' (k 1) edited, (L' (k 1)).data.length)) = .ok (true, 216) := by
  decide +kernel

/-- Bytes after the last extension stand in the way. With one spare byte an extension that keeps
its size and a new extension fail, although there is room; without the byte both succeed. An
extension of another size can be written, since the account is then cut to what it needs. -/
theorem C51_false :
    Stores prog (editable 1) (k 1) edited ∧ ¬ Tight (editable 1) (k 1) edited ∧
    run (editable 1) [k 3, k 5] editAccts (writes .attributes [1, 97, 1, 99]) = .error .panic ∧
    run (editable 1) [k 3, k 5] editAccts (writes .links [1, 97, 1, 98]) = .error .panic ∧
    (run (editable 0) [k 3, k 5] editAccts (writes .attributes [1, 97, 1, 99])).isOk = true ∧
    (run (editable 0) [k 3, k 5] editAccts (writes .links [1, 97, 1, 98])).isOk = true ∧
    (run (editable 1) [k 3, k 5] editAccts
      (writes .attributes [1, 97, 8, 1, 2, 3, 4, 5, 6, 7, 8])).isOk = true := by
  have h : ∀ {r : Except Err Ledger}, (match r with | .error .panic => true | _ => false) = true →
      r = .error .panic := by
    intro r h
    split at h
    · rfl
    · cases h
  exact ⟨checkStores_sound (by decide +kernel), by unfold Tight; decide +kernel,
    h (by decide +kernel), h (by decide +kernel), by decide +kernel, by decide +kernel,
    by decide +kernel⟩

end Examples
end Verif.Props

import Verif.Spec.Ending
import Verif.Lemmas.Finishing
import Verif.Lemmas.Js
import Verif.Props.C51
import Verif.Props.C69
import Verif.Props.C75

/-!
# C86 — loops over extensions end

The program and its clients go from one extension to the next by the boundary in its header, and
nothing makes boundaries point forward. On the accounts that come about when the program is used as
intended every loop ends.
-/

namespace Verif.Props

open Verif Verif.Spec

variable {E : Env} {L : Ledger} {accts : List Key} {i : Instr} {d : Bytes}

/-- The list of extensions of an account is never finished exactly if its headers do not end. -/
theorem C86_loop : getExtensions d = .error .diverge ↔ ¬ Halts d 168 := by
  constructor
  · intro h hh
    exact fin_getExtensions hh h
  · intro h
    by_contra hn
    exact h (halts_extensionsFrom hn)

/-- If they end, all that is read from the account is read in the end. -/
theorem C86_read (h : Halts d 168) (t : ExtType) :
    assetContains t d ≠ .error .diverge ∧ assetGet t d ≠ .error .diverge ∧
    assetGetMut t d ≠ .error .diverge ∧ lastExtension d ≠ .error .diverge ∧
    managerOf d ≠ .error .diverge :=
  ⟨fin_assetContains h, fin_assetGet h, fin_assetGetMut h, fin_lastExtension h, fin_managerOf h⟩

/-- The data of a single extension is checked in the end, whatever it is. -/
theorem C86_payload (t : ExtType) (b old : Bytes) (au : Option Key) :
    onCreate t b au ≠ .error .diverge ∧ onUpdate t old b au ≠ .error .diverge :=
  ⟨fin_onCreate _ _ _, fin_onUpdate _ _ _ _⟩

theorem allHalt (hw : WellFormed E.program L) : AllHalt E L := by
  intro k hk
  rcases (hw k hk).2 with h | h
  · exact h.halts
  · exact h.halts

theorem fin_processInstr (h : Finishes (dispatch E L i (accts.take 7))) : Finishes (execute E L accts i) := by
  have hs : ∀ ks, Finishes (lockedScan E L ks) := by
    intro ks
    induction ks with
    | nil => exact fin_ok _
    | cons x ks ih => unfold lockedScan; simp only; finishing
  unfold execute
  refine fin_bind ?_ fun _ _ => by finishing
  unfold processInstr
  refine fin_bind ?_ fun _ _ => fin_bind (hs _) fun _ _ =>
    fin_bind (fin_require (by decide)) fun _ _ => h
  unfold proxiedCheck; simp only; finishing

theorem fin_dispatch (hw : WellFormed E.program L) (hm : Modest i)
    (hp : Proper E.program L accts i) (ht : Terminating E.program L accts i)
    (hl : ∀ k, E.origLen k = (L k).data.length) : Finishes (dispatch E L i accts) := by
  have hh := allHalt hw
  have hbuf : ∀ k, (L k).owner = E.program → hDisc (L k).data = 0 → Buffer (L k).data := by
    intro k ho hd
    rcases (hw k ho).2 with ⟨A, hA, _⟩ | hb
    · rw [show hDisc _ = discAsset from hA.1.2.2] at hd
      exact absurd hd (by decide)
    · exact hb
  unfold dispatch
  split
  case h_2 =>
    refine fin_processBurn hh fun x hx => ?_
    by_cases ho : (L x).owner = E.program
    · exact hh x ho
    · unfold optAcc at hx
      split at hx
      · cases hx
      · cases hx
        exact ht _ rfl ho
  case h_3 => exact fin_create hh (hbuf _) (fun ho => (hw _ ho).1) (hl _) hp
  case h_11 x k au b _ p s _ =>
    have hst : ∃ A, Initialized (L k).data → (L k).owner = E.program →
        Stores E.program L k A ∧ Snug L k A := by
      by_cases h : Initialized (L k).data ∧ (L k).owner = E.program
      · rcases (hw k h.2).2 with ⟨A, hA, _⟩ | hb
        · exact ⟨A, fun _ _ => ⟨hA, ht k A rfl hA⟩⟩
        · exact absurd h.1 hb.not_init
      · exact ⟨Asset.of (assetAt L k) [], fun h1 h2 => absurd ⟨h1, h2⟩ h⟩
    obtain ⟨A, hA⟩ := hst
    exact fin_update hA (fun e he => ⟨hp.1 e he, hm e he⟩) fun b _ ho => (hw b ho).1
  case h_13 => exact fin_write hh (hbuf _) (hp _ rfl)
  case h_1 => exact fin_processClose
  case h_4 => exact fin_processApprove
  case h_5 => exact fin_processAllocate hh
  case h_6 => exact fin_processLock hh
  case h_7 => exact fin_processRevoke
  case h_8 => exact fin_processTransfer hh
  case h_9 => exact fin_processUnlock hh
  case h_10 => exact fin_setVerified hh
  case h_12 => exact fin_setVerified hh
  case h_14 => exact fin_processGroup hh
  case h_15 => exact fin_processUngroup hh
  case h_16 => exact fin_processHandover
  case h_17 => exact fin_processRemove hh
  case h_18 => exact fin_processResize hh
  case h_19 => exact fin_error (by decide)

/-- On well-formed accounts every instruction that is used as intended comes to an end.

The full claim is for all accounts that the program can bring about, and all instructions; it is
refuted below. -/
theorem C86_steady_partial (hw : WellFormed E.program L) (hm : Modest i)
    (hp : Proper E.program L (accts.take 7) i) (ht : Terminating E.program L (accts.take 7) i)
    (hl : ∀ k, E.origLen k = (L k).data.length) : execute E L accts i ≠ .error .diverge :=
  fin_processInstr (fin_dispatch hw hm hp ht hl)

/-- Thus no history of instructions used as intended leads to an endless loop. -/
theorem C86_history_partial {L0 : Ledger} (h0 : Genesis E.program L0) (hs : ProperSteps E.program L0 L)
    (hm : Modest i) (hp : Proper E.program L (accts.take 7) i)
    (ht : Terminating E.program L (accts.take 7) i)
    (hl : ∀ k, E.origLen k = (L k).data.length) : execute E L accts i ≠ .error .diverge :=
  C86_steady_partial (wf_steps h0.wellFormed hs) hm hp ht hl

/-! ## Accounts that loop -/

/-- The TypeScript client reads no account whose headers do not end. -/
theorem C86_client {dec : Bytes → Bytes} {A : JsAsset} (h : jsAsset dec d = .ok A) : Halts d 168 := by
  have hx : ∀ f off vs, jsExts dec d f off = .ok vs → Halts d off := by
    intro f
    induction f with
    | zero => intro off vs h; cases h
    | succ f ih =>
      intro off vs h
      rw [jsExts] at h
      split at h
      · exact .stop (.inl (by omega))
      · split at h
        · cases h
        · simp only at h
          split at h
          · rename_i h0
            exact .stop (.inr h0)
          · rename_i h1 h2 h0
            refine .next (fun he => he.elim (fun g => by omega) h0) ?_
            split at h
            · exact ih _ _ h
            · obtain ⟨_, _, h⟩ := bind_ok.mp h
              obtain ⟨_, h, _⟩ := bind_ok.mp h
              exact ih _ _ h
  unfold jsAsset at h
  obtain ⟨⟨_, _⟩, _, h⟩ := bind_ok.mp h
  obtain ⟨⟨_, _⟩, _, h⟩ := bind_ok.mp h
  obtain ⟨⟨_, _⟩, _, h⟩ := bind_ok.mp h
  obtain ⟨⟨_, _⟩, _, h⟩ := bind_ok.mp h
  obtain ⟨⟨_, _⟩, _, h⟩ := bind_ok.mp h
  obtain ⟨⟨_, _⟩, _, h⟩ := bind_ok.mp h
  obtain ⟨⟨_, _⟩, _, h⟩ := bind_ok.mp h
  obtain ⟨⟨_, _⟩, _, h⟩ := bind_ok.mp h
  obtain ⟨⟨_, _⟩, _, h⟩ := bind_ok.mp h
  simp only at h
  split at h
  · cases h
  · split at h
    · cases h
    · obtain ⟨vs, h, _⟩ := bind_ok.mp h
      exact hx _ _ _ h

/-- A header at 168 that says that the next extension is at 168. -/
def loopBytes : Bytes :=
  zeros 152 ++ toLE 4 ExtType.bucket.toU32 ++ toLE 4 0 ++ toLE 4 168 ++ zeros 28

/-- The account that is forged with it. -/
def loopAccount : Bytes := forgedHeader loopBytes.length ++ loopBytes

theorem loop_header : hdrAt loopAccount 168 = ⟨ExtType.bucket.toU32, 0, 168⟩ ∧ loopAccount.length = 208 := by
  decide +kernel

theorem loop_never : ¬ Halts loopAccount 168 := by
  obtain ⟨h1, h2⟩ := loop_header
  intro h
  generalize hd : loopAccount = d at *
  generalize ho : 168 = o at h
  induction h with
  | stop h =>
    subst ho
    rcases h with h | h
    · omega
    · rw [show leNat (slice d 168 4) = ExtType.bucket.toU32 from congrArg Hdr.ty h1] at h
      exact absurd h (by decide)
  | next _ _ ih =>
    subst ho
    exact ih (congrArg Hdr.bnd h1).symm

theorem loop_js (dec : Bytes → Bytes) : jsAsset dec loopAccount = .error .diverge := by
  obtain ⟨h1, h2⟩ := loop_header
  have hx : ∀ f, jsExts dec loopAccount f 168 = .error .diverge := by
    intro f
    induction f with
    | zero => rfl
    | succ f ih =>
      rw [jsExts, if_neg (by omega), if_neg (by omega)]
      simp only
      rw [h1]
      simp only
      rw [if_neg (by decide), show ExtType.ofU32 ExtType.bucket.toU32 = some .bucket from rfl]
      simp only
      rw [ih]
      rfl
  have d0 : jsEnum 1 1 loopAccount = .ok (1, loopAccount.drop 1) := by decide +kernel
  have d1 : jsEnum 1 1 (loopAccount.drop 1) = .ok (0, loopAccount.drop 2) := by decide +kernel
  have d2 : jsEnum 1 3 (loopAccount.drop 2) = .ok (0, loopAccount.drop 3) := by decide +kernel
  have d3 : jsBool (loopAccount.drop 3) = .ok (false, loopAccount.drop 4) := by decide +kernel
  have d4 : jsKey (loopAccount.drop 4) = .ok (keyAt loopAccount 4, loopAccount.drop 36) := jsKey_drop (by omega)
  have d5 : jsKey (loopAccount.drop 36) = .ok (keyAt loopAccount 36, loopAccount.drop 68) := jsKey_drop (by omega)
  have d6 : jsKey (loopAccount.drop 68) = .ok (keyAt loopAccount 68, loopAccount.drop 100) := jsKey_drop (by omega)
  have d7 : jsKey (loopAccount.drop 100) = .ok (keyAt loopAccount 100, loopAccount.drop 132) :=
    jsKey_drop (by omega)
  have d8 : jsNum 1 (loopAccount.drop 132) = .ok (0, loopAccount.drop 133) := by decide +kernel
  unfold jsAsset
  simp only [d0, d1, d2, d3, d4, d5, d6, d7, d8, bind, Except.bind]
  rw [if_neg (by rw [List.length_drop]; omega)]
  simp only [pure, Except.pure, ne_eq, not_true_eq_false, if_false, hx]

/-- Anybody who can pay for 208 bytes can make an asset, in three calls and without Create, that no
client ever finishes to read: the list of its extensions does not end, neither in Rust nor in
TypeScript. -/
theorem C86_hang {k p : Key} (hu : L k = ⟨0, [], Key.system⟩) (hne : p ≠ k)
    (hw : (L p).owner = Key.system ∧ (L p).data = []) (ha : Affords E 208 (L p).lamports)
    (hp : E.program ≠ Key.system ∧ p ≠ E.program) (hsys : Whole E.program L Key.system) :
    ∃ L', sends E L ((forgery k p loopBytes).map (·.build E.program)) = .ok L' ∧
      IsAsset E.program L' k ∧ getExtensions (L' k).data = .error .diverge ∧
      (∀ dec, jsAsset dec (L' k).data = .error .diverge) ∧ ∀ y, y ≠ k → y ≠ p → L' y = L y := by
  have hl : loopBytes.length = 192 := by decide +kernel
  obtain ⟨L', r1, r2, r3, r4⟩ := C69_anything (w := loopBytes) hu hne hw (by rw [hl]; exact ha) (by decide +kernel)
    (by decide +kernel) (by decide +kernel) hp hsys
  refine ⟨L', r1, r3, ?_, ?_, r4⟩
  · rw [r2]; exact C86_loop.mpr loop_never
  · rw [r2]; exact loop_js

/-- An update by the authority never ends if it replaces the data of an extension by data of the same
length, at least 16 zeros follow the extensions (after a Resize), and bytes 4 to 7 of the address of
the owner are zero. -/
theorem C86_spare {k s g p y : Key} {rest : List Key} {A : Asset} {x : UpdateInput} {e : ExtInput}
    {q old : Bytes} (hs : Stores E.program L k A) (hu : Usable E k A)
    (hc : ∀ z ∈ s :: E.program :: g :: p :: y :: rest, Whole E.program L z)
    (hsig : E.signer s = true) (hau : A.authority = s) (hmut : A.mutableByte ≠ 0)
    (hx : x.extension = some e) (ht : e.ty ≠ .none) (hold : lookup e.ty A.exts = some old)
    (hq : UpdatesTo s e (some old) q) (hlen : q.length = old.length)
    (he : packedEnd 168 A.exts + 16 ≤ (L k).data.length)
    (h0 : leNat (slice A.owner.1 4 4) = 0)
    (h1 : leNat (slice (L k).data (packedEnd 168 A.exts + 8) 4) = 0) :
    execute E L (k :: s :: E.program :: g :: p :: y :: rest) (.update x) = .error .diverge := by
  have h0' : leNat (slice (L k).data 8 4) = 0 := by
    have hl := hs.1.2.1
    obtain ⟨_, _, hA, _⟩ := id hs
    rw [hA] at h0
    have h : slice (Key.ofBytes (slice (L k).data 4 32)).1 4 4 = slice (L k).data 8 4 := by
      rw [ofBytes_val (length_slice (by omega))]
      unfold slice
      rw [List.drop_take, List.take_take, List.drop_drop]
      rfl
    rw [← h]
    exact h0
  have hp := processUpdate_stays (payer := optAcc E p) (sys := optAcc E y) hs hsig hau hmut hx ht hold hq
    hlen he h0' h1
  obtain ⟨b, hb⟩ := lockedScan_whole (L := L) (E := E)
    (ks := (k :: s :: E.program :: g :: p :: y :: rest).take 7)
    fun z hz => whole_all hs hc z (List.mem_of_mem_take hz)
  have r : require (¬ (b = true ∧ (Instr.update x).blockedByLock = true)) (.asset .lockedAsset) = .ok () :=
    require_ok.mpr (by simp [Instr.blockedByLock])
  unfold execute processInstr
  apply bind_stop
  rw [bind_left (proxied_ok hs hu rfl), bind_left hb, bind_left r]
  show processUpdate E L k s (optAcc E E.program) (optAcc E p) (optAcc E y) x = _
  rw [optAcc_program]
  exact hp

section Examples
open Verif.Ex

/-- The payer of the account above can be any wallet of the examples. -/
example : empties (k 1) = ⟨0, [], Key.system⟩ ∧ k 5 ≠ k 1 ∧ (empties (k 5)).owner = Key.system ∧
    (empties (k 5)).data = [] ∧ 128 + 208 ≤ (empties (k 5)).lamports := by
  refine ⟨rfl, ?_⟩
  decide +kernel

/-- A history of instructions used as intended, and one more to which the theorem applies. -/
example : Genesis prog empties ∧ twoNew.isOk = true ∧
    Modest (.update ⟨none, none, some ⟨.blob, 3, some [0, 7, 8]⟩⟩) ∧
    ((twoNew.bind fun L => run L [k 3, k 5] [k 1, k 3, prog, prog, k 5, Key.system]
      (.update ⟨none, none, some ⟨.blob, 3, some [0, 7, 8]⟩⟩)).isOk = true) :=
  ⟨empties_genesis, by decide +kernel, by rintro e ⟨⟩; decide, by decide +kernel⟩

/-- Headers that end: those of the asset with two extensions. -/
example : (twoNew.map fun L => (getExtensions (L (k 1)).data).map List.length) = .ok (.ok 2) := by
  decide +kernel

/-- And headers that do not: the second leads back to the first. -/
example : getExtensions (List.replicate 168 1 ++ [7, 0, 0, 0, 0, 0, 0, 0, 184, 0, 0, 0, 0, 0, 0, 0] ++
    [7, 0, 0, 0, 0, 0, 0, 0, 168, 0, 0, 0, 0, 0, 0, 0]) = .error .diverge := by decide +kernel

/-- Somebody allocates an extension of 2³² - 16 bytes. -/
def wrapped : Except Err Ledger :=
  run empties [k 1, k 5] [k 1, k 5, Key.system] (.allocate ⟨.blob, 4294967280, none⟩)

/-- The full claim is false: the boundary of that extension wraps around to its own offset, and every
later Allocate or Write on the account runs forever. -/
theorem C86_false : wrapped.isOk = true ∧
    ((wrapped.bind fun L => run L [k 1, k 5] [k 1, k 5, Key.system] (.allocate ⟨.links, 8, none⟩)).map
      (fun _ => ()) = .error .diverge) ∧
    ((wrapped.bind fun L => run L [k 1, k 5] [k 1, k 5, Key.system] (.write ⟨true, [1]⟩)).map
      (fun _ => ()) = .error .diverge) := by
  decide +kernel

/-- An asset whose owner is an address of zeros, with 24 spare bytes. -/
def spared : Except Err Ledger :=
  (run empties [k 1, k 3, k 5] [k 1, k 3, Key.system, prog, prog, k 5, Key.system]
    (.create ⟨[65], .nonFungible, true,
      some [⟨.attributes, 8, some [1, 97, 1, 98, 1, 99, 1, 100]⟩, ⟨.blob, 3, some [0, 2, 3]⟩]⟩)).bind
  fun L => run L [k 3, k 5] [k 1, k 3, k 5, Key.system] (.resize (.extend 24))

/-- What it stores. -/
def sparedAsset : Asset :=
  ⟨0, 0, 1, Key.system, Key.default, k 3, Key.default, 0, [65] ++ zeros 34,
    [(.attributes, [1, 97, 1, 98, 1, 99, 1, 100]), (.blob, [0, 2, 3])]⟩

/-- And the condition on updates is needed: the loop that corrects the boundaries takes the spare
zeros for an extension, which leads it to offset 0 and, over bytes of the owner, to 0 again. -/
theorem C86_spare_false : ∃ L, spared = .ok L ∧
    run L [k 3, k 5] [k 1, k 3, prog, prog, k 5, Key.system]
      (.update ⟨none, none, some ⟨.blob, 3, some [0, 7, 8]⟩⟩) = .error .diverge := by
  have h : (spared.map fun L => (checkStores prog L (k 1) sparedAsset,
      [k 3, prog, k 5, Key.system].all (fun z => (L z).owner ≠ prog), (L (k 1)).data.length,
      slice (L (k 1)).data (packedEnd 168 sparedAsset.exts + 8) 4)) = .ok (true, true, 240, [0, 0, 0, 0]) := by
    decide +kernel
  obtain ⟨L, h1, h2⟩ := ok_of_map h
  simp only [Prod.mk.injEq] at h2
  refine ⟨L, h1, ?_⟩
  have hw : ∀ z ∈ [k 3, prog, prog, k 5, Key.system], Whole prog L z := by
    intro z hz ho
    have := h2.2.1
    rw [List.all_eq_true] at this
    have := this z (by
      simp only [List.mem_cons, List.not_mem_nil, or_false] at hz ⊢
      exact hz.elim .inl fun h => .inr (h.elim .inl id))
    exact absurd ho (of_decide_eq_true this)
  have hq : UpdatesTo (k 3) ⟨.blob, 3, some [0, 7, 8]⟩ (some [0, 2, 3]) [0, 7, 8] := by
    obtain ⟨g1, g2, g3, g4⟩ := (updateValidate_iff (t := .blob) (b := [0, 7, 8]) (v := [0, 7, 8])
      (cur := some [0, 2, 3]) (au := k 3) (by decide)).mp (by decide +kernel)
    exact ⟨g1, by decide, g4, g2, g3⟩
  have hsig : [k 3, k 5].contains (k 3) = true := by decide +kernel
  exact C86_spare (E := env L [k 3, k 5]) (A := sparedAsset) (q := [0, 7, 8]) (old := [0, 2, 3]) (g := prog)
    (e := ⟨.blob, 3, some [0, 7, 8]⟩)
    (checkStores_sound h2.1) ⟨rfl, fun h => absurd h (by decide)⟩ hw hsig rfl (by decide) rfl (by decide)
    (by decide +kernel) hq rfl
    (by rw [h2.2.2.1]; decide +kernel) (by decide +kernel) (by rw [h2.2.2.2]; rfl)

end Examples

end Verif.Props

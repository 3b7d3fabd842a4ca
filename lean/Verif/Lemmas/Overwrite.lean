import Verif.Spec.Memory
import Verif.Lemmas.Memory
import Verif.Lemmas.Shape
import Verif.Lemmas.Accepts
import Verif.Lemmas.Edits
import Verif.Lemmas.Births

/-!
# Lemmas on the overwriting of another account
-/

namespace Verif

open Verif.Spec

variable {M : Loader} {E : Env} {L : Ledger} {a v : Key} {mid post : List Key} {w : Bytes}

theorem align8_of_mod {n : Nat} (h : n % 8 = 0) : align8 n - n = 0 := by unfold align8; omega

theorem cap_start (k : Key) : (Ram.start L).cap k =
    (L k).data.length + 10240 + (align8 (L k).data.length - (L k).data.length) := by
  have e : maxIncrease = 10240 := rfl
  simp only [Ram.cap, Ram.start, zeros, List.length_replicate, e]; omega

theorem length_between : (between M E L a mid v).length = 96 + (slots M E (.start L) [a] mid).length := by
  simp [between, length_toLE, length_slotHead]; omega

theorem place_head' {R : Ram} (ks : List Key) : place M E R (a :: ks) a = 8 := by
  simp [place, slots]

theorem place_head (ks : List Key) : place M E (.start L) (a :: ks) a = 8 := by
  simp [place, slots]

theorem slots_head : slots M E (.start L) [] (a :: mid) = slot M E (.start L) a ++ slots M E (.start L) [a] mid := by
  simp [slots]

theorem place_victim (hv : v ∉ a :: mid) :
    place M E (.start L) (a :: mid ++ v :: post) v = 8 + (slot M E (.start L) a).length + (slots M E (.start L) [a] mid).length := by
  have : (a :: mid ++ v :: post).takeWhile (fun y => decide (y ≠ v)) = a :: mid := by
    rw [List.takeWhile_append_of_pos (by
      intro x hx
      simp only [decide_eq_true_eq]
      rintro rfl; exact hv hx)]
    simp
  unfold place
  rw [this, slots_head, List.length_append]; omega

/-- The bytes between the room behind `a` and the data of `v`. -/
theorem image_between (hv : v ∉ a :: mid) (hd : (L a).data.length % 8 = 0) {i : Nat}
    (hi : i < (between M E L a mid v).length) :
    (image M E (.start L) (a :: mid ++ v :: post))[10336 + (L a).data.length + i]? =
      (between M E L a mid v)[i]? := by
  have e : maxIncrease = 10240 := rfl
  have himg : image M E (.start L) (a :: mid ++ v :: post) =
      (toLE 8 (a :: mid ++ v :: post).length ++ slotHead M E L a ++ (L a).data ++ zeros 10240) ++
        between M E L a mid v ++
        ((L v).data ++ slotTail M (.start L) v ++ slots M E (.start L) ([] ++ (a :: mid) ++ [v]) post ++ M.trailer) := by
    unfold image
    rw [slots_append, slots_head, slots, if_neg (by simpa using hv), slot, slot, slotTail, show (Ram.start L).behind a = zeros 10240 by
      simp only [Ram.start]; rw [align8_of_mod hd, e], between]
    simp only [List.append_assoc]
    rfl
  have hl : (toLE 8 (a :: mid ++ v :: post).length ++ slotHead M E L a ++ (L a).data ++
      zeros 10240).length = 10336 + (L a).data.length := by
    simp only [List.length_append, length_toLE, length_slotHead, zeros, List.length_replicate]; omega
  rw [himg, List.append_assoc, List.getElem?_append_right (by omega), hl,
    List.getElem?_append_left (by omega)]
  congr 1; omega

theorem length_cargo : (cargo M E L a mid v w).length =
    10080 + roundUp8 ((between M E L a mid v).length + w.length) := by
  have : (between M E L a mid v).length + w.length ≤
      roundUp8 ((between M E L a mid v).length + w.length) := by unfold roundUp8; omega
  simp only [cargo, List.length_append, zeros, List.length_replicate]; omega

theorem app_second {z b r : Bytes} {n i : Nat} (hz : z.length = n) (hi : i < b.length) :
    (z ++ b ++ r)[n + i]? = b[i]? := by
  rw [List.append_assoc, List.getElem?_append_right (by omega), List.getElem?_append_left (by omega)]
  congr 1; omega

theorem cargo_between {i : Nat} (hi : i < (between M E L a mid v).length) :
    (cargo M E L a mid v w)[10080 + i]? = (between M E L a mid v)[i]? := by
  unfold cargo
  rw [List.append_assoc]
  exact app_second List.length_replicate hi

theorem cargo_new {i : Nat} (hi : i < w.length) :
    (cargo M E L a mid v w)[10080 + (between M E L a mid v).length + i]? = w[i]? := by
  unfold cargo
  exact app_second (by rw [List.length_append, zeros, List.length_replicate]) hi

/-- The move overwrites the data of `v`. -/
theorem memmoveRaw_overwrite {e o : Nat} (hv : v ∉ a :: mid)
    (hn : Bounded L (a :: mid ++ v :: post))
    (ho : o % 8 = 0) (he : e = o + 184 + (cargo M E L a mid v w).length) (hd : (L a).data.length = e + 24)
    (hp : slice (L a).data (o + 184) (cargo M E L a mid v w).length = cargo M E L a mid v w)
    (hw : w.length = (L v).data.length) :
    ∃ R1 d', memmoveRaw M E (.start L) (a :: mid ++ v :: post) a e o ((L a).data.length - o) = .ok R1 ∧
      (∀ x, x ≠ a → x ≠ v → R1.led x = L x) ∧ R1.led v = { L v with data := w } ∧
      d'.length = (L a).data.length ∧ R1.led a = { L a with data := d' } := by
  have hva : v ≠ a := fun h => hv (by simp [h])
  have hma : a ∈ a :: mid ++ v :: post := by simp
  have hmv : v ∈ a :: mid ++ v :: post := by simp
  have hpv := place_victim (M := M) (E := E) (L := L) (post := post) hv
  have hpa := place_head (M := M) (E := E) (L := L) (a := a) (mid ++ v :: post)
  rw [← List.cons_append] at hpa
  have hfv := slot_fits (M := M) (E := E) (R := .start L) hmv
  have hla := length_slot (M := M) (E := E) (R := .start L) a
  have hlv := length_slot (M := M) (E := E) (R := .start L) v
  have hlb := length_between (M := M) (E := E) (L := L) (a := a) (v := v) (mid := mid)
  have hlc := length_cargo (M := M) (E := E) (L := L) (a := a) (v := v) (mid := mid) (w := w)
  have hr8 : (between M E L a mid v).length + w.length ≤
      roundUp8 ((between M E L a mid v).length + w.length) ∧
      roundUp8 ((between M E L a mid v).length + w.length) <
        (between M E L a mid v).length + w.length + 8 ∧
      roundUp8 ((between M E L a mid v).length + w.length) % 8 = 0 := by unfold roundUp8; omega
  have hmod : (L a).data.length % 8 = 0 := by omega
  rw [cap_start, align8_of_mod hmod] at hla
  rw [cap_start] at hlv
  have hibt := fun i (hi : i < (between M E L a mid v).length) =>
    image_between (M := M) (E := E) (L := L) (post := post) hv hmod hi
  have hid : ∀ i < (L a).data.length, (image M E (.start L) (a :: mid ++ v :: post))[
      place M E (.start L) (a :: mid ++ v :: post) a + 88 + i]? = (L a).data[i]? :=
    fun i hi => image_data (M := M) (E := E) (R := .start L) hma hi
  have hdis := fun x (hx : x ∈ a :: mid ++ v :: post) (hne : x ≠ a) =>
    place_disjoint (M := M) (E := E) (R := .start L) hne hx hma
  have hdis2 := fun x (hx : x ∈ a :: mid ++ v :: post) (hne : x ≠ v) =>
    place_disjoint (M := M) (E := E) (R := .start L) hne hx hmv
  have hge : ∀ x, 8 ≤ place M E (.start L) (a :: mid ++ v :: post) x := fun x => by unfold place; omega
  have hof := fun x (hx : x ∈ a :: mid ++ v :: post) d' mem =>
    readAccount_data (M := M) (E := E) (R := .start L) (d' := d') (mem := mem) hx (hn x hx)
  have hkept := fun x (hx : x ∈ a :: mid ++ v :: post) mem hh =>
    (head_kept (M := M) (E := E) (R := .start L) (mem := mem) hx (hn x hx) hh).2.1
  have hsame := fun x (hx : x ∈ a :: mid ++ v :: post) mem =>
    readAccount_same (M := M) (E := E) (R := .start L) (mem := mem) hx (hn x hx)
  have hcd : ∀ i < (cargo M E L a mid v w).length,
      (L a).data[o + 184 + i]? = (cargo M E L a mid v w)[i]? := by
    intro i hi
    conv => rhs; rw [← hp]
    rw [getElem?_slice, if_pos hi]
  unfold memmoveRaw writeRaw readBack
  generalize image M E (.start L) (a :: mid ++ v :: post) = img at *
  rw [hpa] at hid
  simp only [hpa]
  rw [if_neg (by omega), if_neg (by omega), length_slice (by omega), if_neg (by omega)]
  rw [show 8 + 88 + e = 96 + e by omega, show 8 + 88 + o = 96 + o by omega]
  have hls : (slice img (96 + o) ((L a).data.length - o)).length = (L a).data.length - o :=
    length_slice (by omega)
  generalize hmem : splice img (96 + e) (slice img (96 + o) ((L a).data.length - o)) = mem
  have hread : ∀ j, mem[j]? = if j < 96 + e then img[j]? else
      if j < 96 + e + ((L a).data.length - o) then (L a).data[o + (j - (96 + e))]? else img[j]? := by
    intro j
    rw [← hmem, getElem?_splice (by omega), hls]
    by_cases c1 : j < 96 + e
    · rw [if_pos c1, if_pos c1]
    · rw [if_neg c1, if_neg c1]
      by_cases c2 : j < 96 + e + ((L a).data.length - o)
      · rw [if_pos c2, if_pos c2, getElem?_slice, if_pos (by omega), ← hid _ (by omega),
          show 96 + o + (j - (96 + e)) = 96 + (o + (j - (96 + e))) by omega]
      · rw [if_neg c2, if_neg c2]
  -- the bytes in between are the same
  have hmid : ∀ j, 10336 + (L a).data.length ≤ j →
      j < 10336 + (L a).data.length + (between M E L a mid v).length → mem[j]? = img[j]? := by
    intro j h1 h2
    have hi := hibt (j - (10336 + (L a).data.length)) (by omega)
    rw [show 10336 + (L a).data.length + (j - (10336 + (L a).data.length)) = j by omega] at hi
    rw [hread, if_neg (by omega), if_pos (by omega), hi,
      show o + (j - (96 + e)) = o + 184 + (10080 + (j - (10336 + (L a).data.length))) by omega, hcd _ (by omega),
      cargo_between (by omega)]
  -- and so are the other accounts
  have hoth : ∀ x ∈ a :: mid ++ v :: post, x ≠ a → x ≠ v → ∀ j,
      place M E (.start L) (a :: mid ++ v :: post) x + 40 ≤ j →
      j < place M E (.start L) (a :: mid ++ v :: post) x + 88 + (Ram.start L).cap x →
      mem[j]? = img[j]? := by
    intro x hx hxa hxv j g1 g2
    have h1 := hdis x hx hxa
    have h2 := hdis2 x hx hxv
    have h3 := hge x
    have hlx := length_slot (M := M) (E := E) (R := .start L) x
    rcases h2 with h2 | h2
    · rw [hread, if_neg (by omega), if_neg (by omega)]
    · exact hmid j (by omega) (by omega)
  have hcap : ∀ x ∈ a :: mid ++ v :: post,
      u64At mem (place M E (.start L) (a :: mid ++ v :: post) x + 80) ≤ (Ram.start L).cap x := by
    intro x hx
    rw [hkept x hx mem fun j g1 g2 => ?_]
    · unfold Ram.cap; omega
    · by_cases c1 : x = a
      · subst c1; rw [hread, if_pos (by omega)]
      · by_cases c2 : x = v
        · subst c2; exact hmid j (by omega) (by omega)
        · exact hoth x hx c1 c2 j g1 (by omega)
  rw [if_pos hcap]
  refine ⟨_, slice mem 96 (L a).data.length, rfl, ?_, ?_, ?_, ?_⟩
  · intro x hxa hxv
    simp only
    split
    · rename_i hx
      exact (hsame x hx mem (hoth x hx hxa hxv)).1
    · rfl
  · simp only
    rw [if_pos hmv]
    refine hof v hmv w mem hw (fun j g1 g2 => hmid j (by omega) (by omega)) fun i hi => ?_
    rw [hread, if_neg (by omega), if_pos (by omega),
      show o + (place M E (.start L) (a :: mid ++ v :: post) v + 88 + i - (96 + e)) =
        o + 184 + (10080 + (between M E L a mid v).length + i) by omega, hcd _ (by omega),
      cargo_new hi]
  · exact length_slice (by rw [← hmem, length_splice (by omega)]; omega)
  · simp only
    rw [if_pos hma]
    have hl3 : (slice mem 96 (L a).data.length).length = (L a).data.length :=
      length_slice (by rw [← hmem, length_splice (by omega)]; omega)
    have := hof a hma (slice mem 96 (L a).data.length) mem hl3
      (fun j g1 g2 => by rw [hread, if_pos (by omega)])
      (fun i hi => by
        rw [getElem?_slice, if_pos (by omega), hpa])
    exact this

theorem packed_types {d : Bytes} {off e : Nat} {es : List Extn} (h : Packed d off es e) :
    ∀ x ∈ es, x.1 ≠ .none := by
  induction h with
  | nil => intro x hx; cases hx
  | cons ht _ _ _ _ _ ih =>
    intro x hx
    rcases List.mem_cons.mp hx with rfl | hx
    · exact ht
    · exact ih x hx

/-- The search for the type None finds the spare bytes. -/
theorem removeFind_none {d : Bytes} {es : List Extn} {e : Nat} (h : Packed d 168 es e)
    (hz : d.drop e = zeros 24) :
    d.length = e + 24 ∧ removeFind .none d (d.length + 1) assetLen = .ok (some (e, 0)) := by
  have hle := h.walk.le
  have hlen : d.length = e + 24 := by
    have := congrArg List.length hz
    rw [List.length_drop, zeros, List.length_replicate] at this
    omega
  refine ⟨hlen, ?_⟩
  have hl := h.walk.length_le
  obtain ⟨f, hf⟩ : ∃ f, d.length + 1 = es.length + (f + 1) := ⟨d.length - es.length, by omega⟩
  rw [hf, show assetLen = 168 from rfl, removeFind_skip h.walk (packed_types h) (by omega), removeFind,
    if_pos (show e + extLen < d.length by have : extLen = 16 := rfl; omega)]
  have h0 : leNat (slice d e 4) = 0 := by unfold slice; rw [hz]; decide
  have h8 : leNat (slice d (e + 8) 4) = 0 := by
    unfold slice; rw [← List.drop_drop, hz]; decide
  have e1 : (hdrAt d e).ty = 0 := h0
  have e2 : (hdrAt d e).bnd = 0 := h8
  simp only [e1, e2]
  rfl

/-- The bytes in between only depend on the accounts there. -/
theorem slots_congr {E E' : Env} {L L' : Ledger} {ks : List Key} (hl : ∀ x ∈ ks, L x = L' x)
    (hs : E.signer = E'.signer) (hw : E.writable = E'.writable) (seen : List Key) :
    slots M E (.start L) seen ks = slots M E' (.start L') seen ks := by
  induction ks generalizing seen with
  | nil => rfl
  | cons k ks ih =>
    rw [slots, slots, ih fun x hx => hl x (by simp [hx])]
    unfold slot slotHead slotTail Ram.start
    simp only
    rw [hl k (by simp), hs, hw]

theorem cargo_congr {E E' : Env} {L L' : Ledger} (hl : ∀ x ∈ mid, L x = L' x) (hv : L v = L' v)
    (hs : E.signer = E'.signer) (hw : E.writable = E'.writable) :
    cargo M E L a mid v w = cargo M E' L' a mid v w := by
  have : between M E L a mid v = between M E' L' a mid v := by
    unfold between slotHead
    rw [slots_congr hl hs hw, hv, hs, hw]
  unfold cargo
  rw [this]

theorem map_led {x : Except Err Ram} {R : Ram} (h : x = .ok R) : x.map Ram.led = .ok R.led := by
  rw [h]; rfl

/-- Nothing happens when an account with enough lamports keeps its size. -/
theorem resizeRaw_none {R : Ram} {r : Key} {d' : Bytes} (h1 : R.led a = { L a with data := d' })
    (h2 : d'.length = (L a).data.length) (hr : E.rent (L a).data.length ≤ (L a).lamports) :
    resizeRaw E R (L a).data.length a (some r) none = .ok R := by
  have hl1 : (R.led a).data.length = (L a).data.length := by rw [h1]; exact h2
  have hlam : (R.led a).lamports = (L a).lamports := by rw [h1]
  unfold resizeRaw resizeLamports resizeFund reallocRaw
  simp [hl1, hlam, require, show E.rent (L a).data.length - (L a).lamports = 0 by omega, bind,
    Except.bind, pure, Except.pure, Ram.set]

/-- After growing, an account has the rent for its size. -/
theorem resize_rent {L' : Ledger} {k p : Key} {size : Nat} (hne : p ≠ k) (hle : (L k).data.length ≤ size)
    (h : resize E L size k (some p) (some Key.system) = .ok L') : E.rent size ≤ (L' k).lamports := by
  unfold resize at h
  inv at h
  obtain ⟨L1, h1, h2⟩ := h
  have e1 : E.rent size ≤ (L1 k).lamports := by
    unfold resizeLamports at h1
    rw [if_neg (by omega)] at h1
    unfold resizeFund at h1
    inv at h1
    obtain ⟨_, h1⟩ := h1
    split at h1
    · inv at h1
      obtain ⟨_, _, h1⟩ := h1
      unfold systemTransfer at h1
      split at h1
      · simp only at h1
        split at h1
        · cases h1
          rw [Ledger.setLamports_same]
          simp only
          rw [Ledger.setLamports_other _ _ hne.symm]
          omega
        · cases h1
      · cases h1
    · cases h1
      omega
  unfold realloc at h2
  split at h2
  · cases h2; exact e1
  · split at h2
    · cases h2
    · cases h2
      rw [Ledger.setData_same]; exact e1

end Verif

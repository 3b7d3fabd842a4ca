import Verif.Lemmas.Shape
import Verif.Lemmas.Readable
import Verif.Examples

/-!
# C34 — updating from a buffer is equivalent to updating inline

False in general: the validation of a buffer looks at the buffer from offset 168 on, which is
the extension's 16 byte header followed by its data, while the data that is copied starts at
184. It holds for Bucket extensions, whose data is not validated. Royalties never pass.
-/

namespace Verif.Props

open Verif Verif.Spec

variable {E : Env} {L L' : Ledger} {accts : List Key}

/-- `b` is a completely written buffer with one extension of type `t` and data `p`. -/
def IsBuffer (program : Key) (L : Ledger) (b : Key) (t : ExtType) (p : Bytes) : Prop :=
  (L b).owner = program ∧ byteAt (L b).data 0 = 0 ∧
  leNat (slice (L b).data 168 4) = t.toU32 ∧ leNat (slice (L b).data 172 4) = p.length ∧
  leNat (slice (L b).data 176 4) ≤ (L b).data.length ∧
  slice (L b).data 184 p.length = p ∧ 184 ≤ (L b).data.length

theorem setData_self (L : Ledger) (k : Key) : L.setData k (L k).data = L := by
  funext x
  by_cases h : x = k
  · subst h; rw [Ledger.setData_same]
  · rw [Ledger.setData_other _ _ h]

theorem buffer_fits {d p : Bytes} (h : slice d 184 p.length = p) (h' : 184 ≤ d.length) :
    184 + p.length ≤ d.length := by
  have := congrArg List.length h
  unfold slice at this
  simp only [List.length_take, List.length_drop] at this
  omega

/-- For Bucket extensions both ways of updating are the same function. -/
theorem C34_bucket_partial {a au b : Key} {payer sys : Option Key} {p : Bytes} {name : Option Bytes}
    {mu : Option Bool} (hb : IsBuffer E.program L b .bucket p) (hne : b ≠ a)
    (hp : p.length < 4294967296) :
    processUpdate E L a au (some b) payer sys ⟨name, mu, none⟩ =
      processUpdate E L a au none payer sys ⟨name, mu, some ⟨.bucket, UInt32.ofNat p.length, some p⟩⟩ := by
  obtain ⟨h1, h2, h3, h4, h5, h6, h7⟩ := hb
  have hfit := buffer_fits h6 h7
  have e1 : extLen = 16 := rfl
  have e2 : assetLen = 168 := rfl
  have hlen : (UInt32.ofNat p.length).toNat = p.length := by
    rw [UInt32.toNat_ofNat']; exact Nat.mod_eq_of_lt hp
  have key : ∀ L1 : Ledger, L1 b = L b → updateBuffer E L1 a au b payer sys =
      updateArgs E L1 a au payer sys ⟨.bucket, UInt32.ofNat p.length, some p⟩ := by
    intro L1 hL
    have hh : hdrAt (L b).data 168 = ⟨(ExtType.bucket).toU32, p.length,
        leNat (slice (L b).data 176 4)⟩ := by
      unfold hdrAt u32At; rw [h3, h4]
    have hfe : firstExtension (L1 b).data = some (hdrAt (L b).data 168, 184) := by
      rw [hL]
      unfold firstExtension
      rw [if_pos (by omega)]
      simp only
      rw [e2, hh]
      rfl
    unfold updateBuffer updateArgs
    simp only
    rw [hL] at hfe ⊢
    have r1 : (L b).owner = E.program := h1
    have r2 : hDisc (L b).data = discUninit := h2
    rw [hfe]
    simp only [require, r1, hne, r2, if_true, bind, Except.bind, ne_eq, not_false_eq_true]
    rw [if_pos (by omega), hh]
    simp only [ofU32_toU32]
    cases hf : updateFind .bucket (L1 a).data ((L1 a).data.length + 1) assetLen with
    | error e => rfl
    | ok q =>
      obtain ⟨off, cur⟩ := q
      simp only
      rw [if_pos h5, if_pos (by omega)]
      unfold argsPayload
      simp only [bind, Except.bind]
      cases hc : currentPayload (L1 a).data off cur with
      | error e => rfl
      | ok old =>
        have hv : ∀ w : Bytes, updateValidate .bucket w old au = .ok w := by
          intro w
          unfold updateValidate
          cases old <;> rfl
        simp only [hv]
        have hsl : splice (L b).data assetLen (slice (L b).data assetLen p.length) = (L b).data :=
          splice_slice_self (by omega)
        rw [hsl]
        have hset : L1.setData b (L b).data = L1 := by rw [← hL]; exact setData_self L1 b
        rw [hset, if_pos (Or.inr (by omega)), hlen, if_pos (by omega), if_pos (by omega)]
        simp only
        rw [show assetLen + extLen = 184 from rfl, h6]
  unfold processUpdate
  simp only
  rw [key _ (Ledger.setData_other _ _ hne)]
  rfl

/-- An update takes its extension from an account only if that is a buffer: another account of the
program, not finished, whose data is long enough for the extension its first header tells of. -/
theorem C34_source {x : UpdateInput} {a au b : Key} {rest : List Key}
    (h : execute E L (a :: au :: b :: rest) (.update x) = .ok L') (hbp : b ≠ E.program) :
    x.extension = none ∧ b ≠ a ∧
      ∃ t p, t ≠ ExtType.none ∧ IsBuffer E.program L b t p := by
  obtain ⟨a', au', b', g, q, s, rest', he, hp⟩ := exec_update h
  cases he
  unfold processUpdate at hp
  inv at hp
  obtain ⟨_, _, _, _, _, hp⟩ := hp
  rw [show optAcc E b = some b by unfold optAcc; rw [if_neg hbp]] at hp
  cases hx : x.extension with
  | some e => rw [hx] at hp; cases hp
  | none =>
    rw [hx] at hp
    simp only at hp
    unfold updateBuffer at hp
    inv at hp
    obtain ⟨h1, h2, h3, h4, hp⟩ := hp
    rw [Ledger.setData_other _ _ h2] at h1 h3 h4 hp
    refine ⟨rfl, h2, ?_⟩
    have e1 : assetLen = 168 := rfl
    have e2 : extLen = 16 := rfl
    cases hf : firstExtension (L b).data with
    | none => rw [hf] at hp; cases hp
    | some y =>
      obtain ⟨hd, o⟩ := y
      rw [hf] at hp
      simp only at hp
      cases ht : ExtType.ofU32 hd.ty with
      | none => rw [ht] at hp; cases hp
      | some t =>
        rw [ht] at hp
        simp only at hp
        inv at hp
        obtain ⟨r, _, h5, h6, old, _, v, h7, h8, _⟩ := hp
        have hv := updateValidate_length h7
        rw [length_slice h6] at hv
        rw [length_splice (by omega)] at h8
        unfold firstExtension at hf
        rw [if_pos h3] at hf
        simp only at hf
        split at hf
        · cases hf
        · rename_i z hz1 hz2
          cases hf
          rw [hz2] at ht
          cases ht
          have hlen : (slice (L b).data 184 (hdrAt (L b).data assetLen).len).length =
              (hdrAt (L b).data assetLen).len := by
            rcases h8 with h8 | h8
            · rw [h8]; simp [slice]
            · exact length_slice (by omega)
          refine ⟨t, slice (L b).data 184 (hdrAt (L b).data assetLen).len, ?_, h1, h4, toU32_ofU32 hz2,
            hlen.symm, h5, by rw [hlen], by omega⟩
          rintro rfl
          exact hz1 rfl
        · cases hf

/-- Whatever the validation looked at: when an update from a buffer is accepted, the asset holds
the data of the buffer, and nothing else about the asset but name and mutability changes. Only of
Creators data some bytes differ: the verified flags are written 16 bytes before their place, into the
addresses. -/
theorem C34_stored {x : UpdateInput} {a au b : Key} {rest : List Key}
    {t : ExtType} {p : Bytes} {A : Asset}
    (h : execute E L (a :: au :: b :: rest) (.update x) = .ok L') (hbp : b ≠ E.program)
    (hs : Stores E.program L a A) (hb : IsBuffer E.program L b t p) (ht : t ≠ .none) :
    ∃ q, q.length = p.length ∧ (∀ i : Nat, q[i]? ≠ p[i]? → t = .creators ∧ i % 34 = 16) ∧
      Stores E.program L' a { A.retitled x with exts := setExt t q A.exts } := by
  obtain ⟨h1, h2, h3, h4, h5, h6, h7⟩ := hb
  have hfit := buffer_fits h6 h7
  have hmax := execute_maxLen h (k := a) (by simp) hs.2.1
  obtain ⟨a', au', b', g, q, s, rest', he, hp⟩ := exec_update h
  cases he
  unfold processUpdate at hp
  inv at hp
  obtain ⟨_, _, _, _, _, hp⟩ := hp
  rw [show optAcc E b = some b by unfold optAcc; rw [if_neg hbp]] at hp
  cases hx : x.extension with
  | some e => rw [hx] at hp; cases hp
  | none =>
    rw [hx] at hp
    simp only at hp
    have hab : b ≠ a := by
      unfold updateBuffer at hp
      inv at hp
      exact hp.2.1
    obtain ⟨hd, off, t', v, k1, k2, _, k3⟩ :=
      updateBuffer_stores (stores_updateHeader hs x) hmax hp
    rw [Ledger.setData_other _ _ hab] at k1 k3
    have hh : hdrAt (L b).data 168 = ⟨t.toU32, p.length, leNat (slice (L b).data 176 4)⟩ := by
      unfold hdrAt u32At; rw [h3, h4]
    have hhd : hd = hdrAt (L b).data 168 := by
      unfold firstExtension at k1
      split at k1
      · simp only at k1
        split at k1
        · cases k1
        · cases k1; rfl
        · cases k1
      · cases k1
    have htt : t' = t := by
      rw [hhd, hh] at k2
      simp only [ofU32_toU32, Option.some.injEq] at k2
      exact k2.symm
    subst htt
    obtain ⟨hv, hst⟩ := k3 ht
    have hlen : hd.len = p.length := by rw [hhd, hh]
    rw [hlen] at hv hst
    obtain ⟨hbl, hbk⟩ := updateValidate_books hv
    have hsl : (slice (L b).data 168 p.length).length = p.length := length_slice (by omega)
    have hvl : v.length = p.length := by omega
    refine ⟨_, ?_, ?_, hst⟩
    · exact length_slice (by rw [length_splice (by omega)]; omega)
    · intro i hi
      rw [getElem?_slice, getElem?_splice (by omega)] at hi
      have hpi : p[i]? = if i < p.length then (L b).data[184 + i]? else none := by
        conv_lhs => rw [← h6]
        exact getElem?_slice _ _ _ _
      rw [hpi] at hi
      split at hi
      · rw [if_neg (by omega), hvl] at hi
        split at hi
        · rename_i hin
          have hne : v[184 + i - 168]? ≠ (slice (L b).data 168 p.length)[184 + i - 168]? := by
            rw [getElem?_slice, if_pos (by omega)]
            rw [show 168 + (184 + i - 168) = 184 + i by omega]
            exact hi
          rcases hbk _ hne with ⟨h, hm⟩ | ⟨_, hm⟩
          · exact ⟨h, by omega⟩
          · omega
        · exact absurd rfl hi
      · exact absurd rfl hi

/-- For every other type the asset holds exactly the data of the buffer. -/
theorem C34_stored_partial {x : UpdateInput} {a au b : Key} {rest : List Key}
    {t : ExtType} {p : Bytes} {A : Asset}
    (h : execute E L (a :: au :: b :: rest) (.update x) = .ok L') (hbp : b ≠ E.program)
    (hs : Stores E.program L a A) (hb : IsBuffer E.program L b t p)
    (ht : t ≠ .none) (hc : t ≠ .creators) :
    Stores E.program L' a { A.retitled x with exts := setExt t p A.exts } := by
  obtain ⟨q, h1, h2, h3⟩ := C34_stored h hbp hs hb ht
  have : q = p := by
    apply List.ext_getElem?
    intro i
    by_cases hi : q[i]? = p[i]?
    · exact hi
    · exact absurd (h2 i hi).1 hc
  rw [← this]
  exact h3

/-- Royalties never pass: their type and length are taken for the basis points. -/
theorem C34_royalties_rejected {x : UpdateInput} {a au b : Key} {rest : List Key} {p : Bytes} {A : Asset}
    (hbp : b ≠ E.program) (hs : Stores E.program L a A) (hb : IsBuffer E.program L b .royalties p) :
    execute E L (a :: au :: b :: rest) (.update x) ≠ .ok L' := by
  intro h
  obtain ⟨h1, h2, h3, h4, h5, h6, h7⟩ := hb
  have hfit := buffer_fits h6 h7
  have hmax := execute_maxLen h (k := a) (by simp) hs.2.1
  obtain ⟨a', au', b', g, q, s, rest', he, hp⟩ := exec_update h
  cases he
  unfold processUpdate at hp
  inv at hp
  obtain ⟨_, _, _, _, _, hp⟩ := hp
  rw [show optAcc E b = some b by unfold optAcc; rw [if_neg hbp]] at hp
  cases hx : x.extension with
  | some e => rw [hx] at hp; cases hp
  | none =>
    rw [hx] at hp
    simp only at hp
    have hab : b ≠ a := by
      unfold updateBuffer at hp
      inv at hp
      exact hp.2.1
    obtain ⟨hd, off, t', v, k1, k2, _, k3⟩ :=
      updateBuffer_stores (stores_updateHeader hs x) hmax hp
    rw [Ledger.setData_other _ _ hab] at k1 k3
    have hh : hdrAt (L b).data 168 =
        ⟨(ExtType.royalties).toU32, p.length, leNat (slice (L b).data 176 4)⟩ := by
      unfold hdrAt u32At; rw [h3, h4]
    have hhd : hd = hdrAt (L b).data 168 := by
      unfold firstExtension at k1
      split at k1
      · simp only at k1
        split at k1
        · cases k1
        · cases k1; rfl
        · cases k1
      · cases k1
    have htt : t' = .royalties := by
      rw [hhd, hh] at k2
      simp only [ofU32_toU32, Option.some.injEq] at k2
      exact k2.symm
    subst htt
    obtain ⟨hv, -⟩ := k3 (by decide)
    rw [show hd.len = p.length by rw [hhd, hh]] at hv
    obtain ⟨⟨_, ha, hbp⟩, -⟩ := (updateValidate_iff (by decide)).mp hv
    rw [length_slice (by omega)] at ha
    have e : (slice (L b).data 168 p.length).take 8 =
        slice (L b).data 168 4 ++ slice (L b).data 172 4 := by
      unfold slice
      rw [List.take_take, Nat.min_eq_left ha, show 8 = 4 + 4 from rfl, List.take_add, List.drop_drop]
    rw [e, leNat_append, h3, h4, length_slice (by omega)] at hbp
    have : 256 ^ 4 * 1 ≤ 256 ^ 4 * p.length := Nat.mul_le_mul_left _ (by omega)
    omega

section Examples
open Verif.Ex

/-- A buffer `k 8` with one extension, and an asset `k 1` with the extensions `es`. -/
def withBuffer (es : List Extn) (t : ExtType) (p : Bytes) : Ledger :=
  ledger [(k 1, owned (header 0 0 1 (k 2) Key.default (k 3) Key.default 0 [65] ++ blocks 168 es)),
    (k 8, owned (zeros 168 ++ blocks 168 [(t, p)])), (k 3, wallet), (k 5, wallet)]

/-- Accounts of an update, with and without the buffer. -/
def buffered : List Key := [k 1, k 3, k 8, prog, k 5, Key.system]
@[inherit_doc buffered]
def inlined : List Key := [k 1, k 3, prog, prog, k 5, Key.system]

/-- The hypotheses of the theorem can be met, and the update works. -/
example : IsBuffer prog (withBuffer [] .bucket [1, 2, 3]) (k 8) .bucket [1, 2, 3] := by
  refine ⟨?_, ?_, ?_, ?_, ?_, ?_, ?_⟩ <;> decide +kernel
example :
    (after (run (withBuffer [] .bucket [1, 2, 3]) [k 3, k 5] buffered (.update ⟨none, none, none⟩))
      (k 1)).map (fun a => assetGet .bucket a.data) = .ok (.ok (some [1, 2, 3])) := by
  decide +kernel

/-- Royalties of 5% with no constraint. -/
def royalties5 : Bytes := toLE 8 500 ++ toLE 4 5 ++ toLE 4 0

/-- The full claim is false: valid royalties are rejected when they come from a buffer (the
basis points are read from the extension header). -/
theorem C34_false_rejects :
    (after (run (withBuffer [] .royalties royalties5) [k 3, k 5] inlined
      (.update ⟨none, none, some ⟨.royalties, 16, some royalties5⟩⟩)) (k 1)).map
        (fun a => assetGet .royalties a.data) = .ok (.ok (some royalties5)) ∧
    (run (withBuffer [] .royalties royalties5) [k 3, k 5] buffered
      (.update ⟨none, none, none⟩)).isOk = false := by decide +kernel

/-- And what is rejected inline is accepted from a buffer: here the authority sets the size of
a group with one member to a thousand. -/
theorem C34_false_accepts :
    let group : Bytes := toLE 8 1 ++ toLE 8 0 ++ (Key.default).1
    let forged : Bytes := toLE 8 1000 ++ toLE 8 0 ++ (Key.default).1
    (after (run (withBuffer [(.grouping, group)] .grouping forged) [k 3, k 5] inlined
      (.update ⟨none, none, some ⟨.grouping, 48, some forged⟩⟩)) (k 1)).map
        (fun a => assetGet .grouping a.data) = .ok (.ok (some group)) ∧
    (after (run (withBuffer [(.grouping, group)] .grouping forged) [k 3, k 5] buffered
      (.update ⟨none, none, none⟩)) (k 1)).map (fun a => assetGet .grouping a.data) =
        .ok (.ok (some forged)) := by decide +kernel

end Examples

end Verif.Props

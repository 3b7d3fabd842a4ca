import Verif.Spec.ProxyAsset
import Verif.Lemmas.Proxy
import Verif.Lemmas.Readable
import Verif.Lemmas.CreateStores
import Verif.Lemmas.Inline

/-!
# Creating a proxied asset
-/

namespace Verif

open Spec

section
variable {E : Env} {C : ProxyConsts} {L L' : Ledger} {stub authority owner asset : Key} {bump : UInt8}

theorem findPda_iff {seeds : Bytes} {k : Key} {b : UInt8} : ∀ n : Nat, n < 256 →
    (findPda E seeds n = .ok (k, b) ↔ 1 ≤ b.toNat ∧ b.toNat ≤ n ∧ E.pda seeds b E.program = some k ∧
      ∀ c : UInt8, b.toNat < c.toNat → c.toNat ≤ n → E.pda seeds c E.program = none)
  | 0, _ => by
    constructor
    · intro h; cases h
    · rintro ⟨h1, h2, _⟩; omega
  | n + 1, hn => by
    have hb : (UInt8.ofNat (n + 1)).toNat = n + 1 := by
      rw [UInt8.toNat_ofNat']; omega
    have heq : ∀ c : UInt8, c.toNat = n + 1 → c = UInt8.ofNat (n + 1) := by
      intro c hc
      rw [← hc, UInt8.ofNat_toNat]
    unfold findPda
    cases hp : E.pda seeds (UInt8.ofNat (n + 1)) E.program with
    | some k' =>
      simp only [Except.ok.injEq, Prod.mk.injEq]
      constructor
      · rintro ⟨rfl, rfl⟩
        exact ⟨by omega, by omega, hp, fun c h1 h2 => by omega⟩
      · rintro ⟨h1, h2, h3, h4⟩
        by_cases h : b.toNat = n + 1
        · rw [heq b h, hp] at h3
          exact ⟨Option.some.inj h3, (heq b h).symm⟩
        · have := h4 (UInt8.ofNat (n + 1)) (by omega) (by omega)
          rw [hp] at this
          cases this
    | none =>
      simp only
      rw [findPda_iff n (by omega)]
      constructor
      · rintro ⟨h1, h2, h3, h4⟩
        refine ⟨h1, by omega, h3, fun c h5 h6 => ?_⟩
        by_cases h : c.toNat = n + 1
        · rw [heq c h]; exact hp
        · exact h4 c h5 (by omega)
      · rintro ⟨h1, h2, h3, h4⟩
        refine ⟨h1, ?_, h3, fun c h5 h6 => h4 c h5 (by omega)⟩
        by_cases h : b.toNat = n + 1
        · rw [heq b h, hp] at h3; cases h3
        · omega

theorem canonical_iff {seeds : Bytes} {k : Key} {b : UInt8} :
    findPda E seeds 255 = .ok (k, b) ↔ Canonical E seeds k b := by
  rw [findPda_iff 255 (by omega)]
  unfold Canonical
  have hlt : ∀ c : UInt8, c.toNat ≤ 255 := fun c => by have := c.toNat_lt; omega
  constructor
  · rintro ⟨h1, _, h3, h4⟩
    exact ⟨h1, h3, fun c hc => h4 c hc (hlt c)⟩
  · rintro ⟨h1, h3, h4⟩
    exact ⟨h1, hlt b, h3, fun c hc _ => h4 c hc⟩

/-- The request to the asset program. -/
def proxiedRequest (E : Env) (C : ProxyConsts) (stub authority : Key) (bump : UInt8) (name : Bytes) :
    CreateInput :=
  ⟨name, .proxied, true, some (proxyExtensions E C stub authority bump)⟩

theorem proxyExtensions_order : (createOrder (proxyExtensions E C stub authority bump)).map asExtn =
    firstExts E C stub authority bump := by
  simp only [proxyExtensions, createOrder]
  have : ∀ a b c d : ExtInput, swapRemoveOrder [a, b, c, d].length [a, b, c, d] = [a, d, c, b] := by
    intros; rfl
  rw [this]
  rfl

theorem proxyExt_mem {x : ExtInput} (h : x ∈ proxyExtensions E C stub authority bump) :
    asExtn x ∈ firstExts E C stub authority bump ∧
      x = inlineExt x.ty (given x) := by
  simp only [proxyExtensions, List.mem_cons, List.not_mem_nil, or_false] at h
  rcases h with rfl | rfl | rfl | rfl <;> refine ⟨?_, rfl⟩
  · exact List.mem_cons_self
  · exact List.mem_cons_of_mem _ (List.mem_cons_of_mem _ (List.mem_cons_of_mem _ List.mem_cons_self))
  · exact List.mem_cons_of_mem _ (List.mem_cons_of_mem _ List.mem_cons_self)
  · exact List.mem_cons_of_mem _ List.mem_cons_self

theorem length_prefixed (s : Bytes) : (prefixed s).length = s.length + 1 := by simp [prefixed]

theorem asU64_lt (n : Int) : asU64 n < 18446744073709551616 := by
  unfold asU64
  have h1 := Int.emod_nonneg n (b := 18446744073709551616) (by decide)
  have h2 := Int.emod_lt_of_pos n (b := 18446744073709551616) (by decide)
  omega

theorem firstExts_readable {x : Extn} (h : x ∈ firstExts E C stub authority bump) :
    x.1 ≠ .none ∧ x.1 ≠ .creators ∧ x.1 ≠ .grouping ∧ x.1 ≠ .royalties ∧ x.1 ≠ .manager ∧ Readable x.1 x.2 ∧
      (x.1 = .proxy → x.2.length = 97) ∧ (x.2.length ≤ 97 ∨ x.2.length = 14 + (firstImage C).length) := by
  simp only [firstExts, proxiedExts, List.mem_cons, List.not_mem_nil, or_false] at h
  have hty : ∀ (t : ExtType) (p : Bytes), t ∈ [ExtType.attributes, .properties, .proxy, .blob] →
      Readable t p → (t = .proxy → p.length = 97) →
      (p.length ≤ 97 ∨ p.length = 14 + (firstImage C).length) →
      (t, p).1 ≠ .none ∧ (t, p).1 ≠ .creators ∧ (t, p).1 ≠ .grouping ∧ (t, p).1 ≠ .royalties ∧
        (t, p).1 ≠ .manager ∧ Readable (t, p).1 (t, p).2 ∧ ((t, p).1 = .proxy → (t, p).2.length = 97) ∧
        ((t, p).2.length ≤ 97 ∨ (t, p).2.length = 14 + (firstImage C).length) := by
    intro t p ht h1 h2 h3
    refine ⟨?_, ?_, ?_, ?_, ?_, h1, h2, h3⟩ <;> (rintro rfl; revert ht; decide)
  rcases h with rfl | rfl | rfl | rfl
  · refine hty _ _ (by decide) ?_ (fun h => by cases h) (Or.inl (by simp [prefixed]))
    exact ⟨[([116, 114, 97, 110, 115, 102, 101, 114, 115],
      [32, 32, 32, 32, 32, 32, 32, 32, 32, 32, 32, 48])], by simp [ShortString], by simp [pairsData]⟩
  · refine hty _ _ (by decide) ?_ (fun h => by cases h) (Or.inl (by simp [prefixed, length_toLE]))
    refine ⟨[([108, 97, 115, 116, 95, 116, 114, 97, 110, 115, 102, 101, 114, 114, 101, 100],
      .number (asU64 C.timestamp))], ?_, ?_⟩
    · intro x hx
      rcases List.mem_singleton.mp hx with rfl
      exact ⟨by simp [ShortString], asU64_lt _⟩
    · simp [propertiesData, valueData]
  · have : (E.program.1 ++ stub.1 ++ [bump] ++ authority.1).length = 97 := by
      simp [Key.length]
    exact hty _ _ (by decide) this (fun _ => this) (Or.inl (Nat.le_of_eq this))
  · refine hty _ _ (by decide) ⟨_, _, ?_, rfl⟩ (fun h => by cases h)
      (Or.inr (by simp only [prefixed, List.length_append, List.length_cons, List.length_nil]))
    simp [ShortString]

theorem Born.firstExts_eq {es : List Extn} {au : Key}
    (h : List.Forall₂ (Born au) (firstExts E C stub authority bump) es) :
    es = firstExts E C stub authority bump := by
  have key : ∀ xs ys : List Extn, (∀ x ∈ xs, x ∈ firstExts E C stub authority bump) →
      List.Forall₂ (Born au) xs ys → ys = xs := by
    intro xs ys hm hf
    induction hf with
    | nil => rfl
    | @cons x y xs ys hr _ ih =>
      rw [ih fun z hz => hm z (by simp [hz])]
      obtain ⟨h1, h2, h3, h4, h5, _⟩ := firstExts_readable (hm x (by simp))
      obtain ⟨t, p⟩ := x
      obtain ⟨t', p'⟩ := y
      obtain ⟨rfl, hr⟩ := hr
      simp only at *
      congr 2
      cases t' <;> simp only [Accepted, ne_eq, not_true_eq_false, reduceCtorEq, not_false_eq_true] at *
        <;> first | exact hr | exact hr.1
  exact key _ _ (fun x hx => hx) h

/-- The size of a new proxied asset. -/
theorem firstExts_size : packedEnd 168 (firstExts E C stub authority bump) =
    roundUp8 (406 + (firstImage C).length) := by
  have h1 := E.program.2
  have h2 := stub.2
  have h3 := authority.2
  simp only [firstExts, proxiedExts, packedEnd, List.length_append, prefixed, List.length_cons,
    List.length_nil, length_toLE, h1, h2, h3]
  rw [show roundUp8 (168 + 16 + (0 + 1 + 1 + 1 + 1 + 1 + 1 + 1 + 1 + 1 + 1 +
    (0 + 1 + 1 + 1 + 1 + 1 + 1 + 1 + 1 + 1 + 1 + 1 + 1 + 1))) = 208 from rfl]
  unfold roundUp8
  omega

theorem length_lt_u32 {b : Bytes} (h : b.length < 4294967296) :
    (UInt32.ofNat b.length).toNat = b.length := by
  rw [UInt32.toNat_ofNat']
  omega

/-- The request can be encoded and its extensions are as they should be. -/
theorem proxiedRequest_sane {name : Bytes} (himg : (firstImage C).length ≤ 10000000) :
    Sane (asked (proxiedRequest E C stub authority bump name)) ∧
      ∀ y ∈ asked (proxiedRequest E C stub authority bump name), (given y).length = y.length.toNat := by
  refine ⟨fun y hy => ?_, fun y hy => ?_⟩
  all_goals
    obtain ⟨h1, h2⟩ := proxyExt_mem hy
    obtain ⟨h3, _, _, _, _, _, _, h4⟩ := firstExts_readable h1
    replace h4 : (given y).length ≤ 97 ∨ (given y).length = 14 + (firstImage C).length := h4
    have h5 : (given y).length ≤ 10485760 := by omega
    have h5' : (given y).length < 4294967296 := by omega
    have h6 : y.length = UInt32.ofNat (given y).length := by
      conv => lhs; rw [h2]
      rfl
  · refine ⟨⟨by rw [h6, length_lt_u32 h5']; exact h5, fun q hq => ?_⟩, h3⟩
    have : given y = q := by unfold given; rw [hq]; rfl
    rw [← this]; exact h5'
  · rw [h6, length_lt_u32 h5']

theorem proxiedRequest_ok {name : Bytes} (hn : Text name) (himg : (firstImage C).length ≤ 10000000) :
    InstrOk (.create (proxiedRequest E C stub authority bump name)) := by
  refine ⟨hn, fun l hl => ?_⟩
  cases hl
  refine ⟨by simp [Short, proxyExtensions], fun y hy => ?_⟩
  have := ((proxiedRequest_sane (E := E) (stub := stub) (authority := authority) (bump := bump)
    (name := name) himg).1 y hy).1.2
  exact this

end

end Verif

import Verif.Model.Client
import Verif.Examples

/-!
# C38 — Client encodings of roles and keys are faithful
-/

namespace Verif.Props

open Verif

/-- A statement about bytes can be checked on all 256 of them. -/
private theorem every_byte {p : UInt8 → Prop} (h : ∀ n : Fin 256, p (UInt8.ofNat n.val)) (b : UInt8) :
    p b := by
  have := h ⟨b.toNat, b.toNat_lt⟩
  simpa using this

/-- The roles a client lists are exactly the active ones; `None` stands for "no role at all". -/
theorem C38_lists_active (address : Key) (b : UInt8) :
    (∀ r, r ≠ Role.none → (r ∈ clientRoles b ↔ (Delegate.mk address b).isActive r = true)) ∧
    (Role.none ∈ clientRoles b ↔ b = 0) ∧ (clientRoles b).Nodup := by
  refine ⟨?_, ?_, ?_⟩
  · intro r hr
    show r ∈ decodeRoles b ↔ decide (b &&& r.mask > 0) = true
    clear address
    cases r
    · exact absurd rfl hr
    all_goals clear hr; revert b; exact every_byte (by decide +kernel)
  · exact every_byte (p := fun b => Role.none ∈ clientRoles b ↔ b = 0) (by decide +kernel) b
  · exact every_byte (p := fun b => (clientRoles b).Nodup) (by decide +kernel) b

/-- Both clients read the same roles. -/
theorem C38_clients_agree (b : UInt8) : jsDecodeRoles b = clientRoles b :=
  every_byte (p := fun b => jsDecodeRoles b = clientRoles b) (by decide +kernel) b

/-- Enabling the listed roles again gives back the three role bits of the byte, so the same roles
are active. -/
theorem C38_reencode (address : Key) (b : UInt8) :
    enableAll (clientRoles b) = b &&& allRolesMask ∧
    ∀ r, (Delegate.mk address (enableAll (clientRoles b))).isActive r =
      (Delegate.mk address b).isActive r := by
  refine ⟨?_, ?_⟩
  · revert b
    exact every_byte (by decide +kernel)
  · intro r
    show decide (enableAll (decodeRoles b) &&& r.mask > 0) = decide (b &&& r.mask > 0)
    clear address
    revert b
    cases r <;> exact every_byte (by decide +kernel)

/-- The JavaScript client writes the listed roles back for every byte with a role bit. -/
theorem C38_js_reencode_partial (b : UInt8) (h : b &&& allRolesMask ≠ 0) :
    jsEncodeRoles (jsDecodeRoles b) = some (b &&& allRolesMask) := by
  revert b
  exact every_byte (by decide +kernel)

/-- It cannot write back what it reads from a delegate without roles: `1 << (0 - 1)` is negative. -/
theorem C38_js_false : jsDecodeRoles 0 = [Role.none] ∧ jsEncodeRoles [Role.none] = none := by
  decide +kernel

/-- Every list of proper roles is written as the program would enable them. -/
theorem C38_js_encode {rs : List Role} (h : Role.none ∉ rs) :
    jsEncodeRoles rs = some (enableAll rs) := by
  have key : ∀ (l : List Role) (a : UInt8), Role.none ∉ l → a ≤ 7 →
      l.foldl (fun acc r => acc ||| jsBit r) a.toUInt32 =
        (l.foldl (fun acc r => acc ||| r.mask) a).toUInt32 ∧
      l.foldl (fun acc r => acc ||| r.mask) a ≤ 7 := by
    intro l
    induction l with
    | nil => intro a _ ha; exact ⟨rfl, ha⟩
    | cons r l ih =>
      intro a hl ha
      have h1 : a.toUInt32 ||| jsBit r = (a ||| r.mask).toUInt32 ∧ a ||| r.mask ≤ 7 := by
        have hr : r ≠ Role.none := fun e => hl (e ▸ List.mem_cons_self)
        clear ih hl
        revert a
        cases r
        · exact absurd rfl hr
        all_goals exact every_byte (by decide +kernel)
      have h2 := ih (a ||| r.mask) (fun hm => hl (List.mem_cons_of_mem _ hm)) h1.2
      simp only [List.foldl_cons]
      rw [h1.1]
      exact h2
  obtain ⟨h1, h2⟩ := key rs 0 h (by decide)
  unfold jsEncodeRoles
  have e : (0 : UInt32) = (0 : UInt8).toUInt32 := rfl
  rw [e, h1]
  unfold enableAll
  generalize rs.foldl (fun acc r => acc ||| r.mask) 0 = m at h2 ⊢
  clear h1 h key
  revert m
  exact every_byte (by decide +kernel)

/-- A key decodes to nothing exactly when it is the default key, and otherwise to itself. -/
theorem C38_key (k : Key) :
    (clientKey k = none ↔ k = Key.default) ∧ (∀ k', clientKey k = some k' → k' = k) ∧
    jsDecodeKey k = clientKey k ∧ jsEncodeKey (jsDecodeKey k) = k := by
  unfold clientKey jsDecodeKey
  split
  · rename_i h
    subst h
    exact ⟨by simp, by simp, rfl, rfl⟩
  · rename_i h
    exact ⟨by simp [h], by simp, rfl, rfl⟩

/-- The only key that cannot be written and read back is the default key itself. -/
theorem C38_key_roundtrip (o : Option Key) :
    jsDecodeKey (jsEncodeKey o) = o ↔ o ≠ some Key.default := by
  cases o with
  | none => simp [jsDecodeKey, jsEncodeKey]
  | some k =>
    simp only [jsDecodeKey, jsEncodeKey]
    by_cases h : k = Key.default
    · subst h; simp
    · simp [h]

example : clientRoles 0b101 = [.transfer, .burn] ∧ clientRoles 0b11111000 = [] ∧
    enableAll (clientRoles 0b101) = 0b101 ∧ jsEncodeRoles [.lock, .burn, .lock] = some 0b110 ∧
    clientKey (Ex.k 7) = some (Ex.k 7) ∧ clientKey Key.default = none := by decide +kernel

end Verif.Props

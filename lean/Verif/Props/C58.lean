import Verif.Model.Macros
import Verif.Model.Builders
import Verif.Props.C52

/-!
# C58 — the macros of the Rust client
-/

namespace Verif.Props

open Verif Verif.Spec

theorem toLE_u32 (v : Nat) : toLE 4 (v % 4294967296) = toLE 4 v := by
  have := toLE_leNat (toLE 4 v)
  rw [length_toLE, leNat_toLE] at this
  exact this

/-- The data made by `allocate_instruction_data!` is that of an Allocate with these arguments. -/
theorem C58_data (t : ExtType) (length : Nat) (data : Bytes) :
    allocateData t length data = encode (.allocate ⟨t, UInt32.ofNat length, some data⟩) := by
  simp [allocateData, encode, encExtInput, encOpt, encBytes, toLE_u32]

/-- It is read back as that. -/
theorem C58_decoded {E : Env} {L L' : Ledger} {accts : List Key} (t : ExtType) (data : Bytes)
    (hd : data.length < 4294967296) :
    executeBytes E L accts (allocateData t data.length data) = .ok L' ↔
      execute E L accts (.allocate ⟨t, UInt32.ofNat data.length, some data⟩) = .ok L' := by
  have hok : InstrOk (.allocate ⟨t, UInt32.ofNat data.length, some data⟩) := by
    rintro q ⟨⟩; exact hd
  rw [C58_data]
  constructor
  · intro h
    obtain ⟨i, h1, h2, h3⟩ := C30_execute.mp h
    rw [C30_injective hok h1 h2]
    exact h3
  · intro h
    exact C30_execute.mpr ⟨_, hok, rfl, h⟩

/-- Whatever length was reserved: when the data is appended and the length updated, the result is the
Allocate of the data. -/
theorem C58_updated (t : ExtType) (reserved : Nat) (data : Bytes) :
    allocateUpdateLength data.length (allocateSpaceData t reserved ++ data) =
      .ok (allocateData t data.length data) := by
  unfold allocateUpdateLength allocateSpaceData allocateData
  simp only
  rw [if_neg (by simp only [List.length_append, List.length_cons, List.length_nil, length_toLE]; omega)]
  have e : ∀ v, toLE 4 v = [UInt8.ofNat v, UInt8.ofNat (v / 256), UInt8.ofNat (v / 256 / 256),
    UInt8.ofNat (v / 256 / 256 / 256)] := fun v => rfl
  simp [e, splice]

/-- With exactly the reserved number of bytes no update is needed. -/
theorem C58_reserved (t : ExtType) (data : Bytes) :
    allocateSpaceData t data.length ++ data = allocateData t data.length data := rfl

/-- `AllocateCpiAccounts::invoke` invokes the same instruction as the generated builder. -/
theorem C58_cpi (program asset : Key) (payer sys : Option Key) (t : ExtType) (length : Nat)
    (data : Bytes) :
    allocateCpi program asset payer sys (allocateData t length data) =
      (Call.allocate asset payer sys ⟨t, UInt32.ofNat length, some data⟩).build program := by
  rw [C58_data]
  cases payer <;> cases sys <;> rfl

/-! ## allocate_and_write -/

/-- The pieces of the data. -/
def macroPieces (data : Bytes) : Nat → Nat → List Bytes
  | 0, _ => []
  | fuel + 1, total =>
    if total < data.length then
      slice data total (min (data.length - total) 1172) ::
        macroPieces data fuel (total + min (data.length - total) 1172)
    else []

theorem macroWrites_pieces (program asset payer : Key) (data : Bytes) : ∀ fuel total,
    (macroWrites data fuel total).map (fun d => (⟨[metaRw asset true, metaRw payer true,
        metaRo Key.system false], d⟩ : ClientIx)) =
      (macroPieces data fuel total).map fun c =>
        (Call.write asset payer Key.system ⟨false, c⟩).build program
  | 0, _ => rfl
  | fuel + 1, total => by
    unfold macroWrites macroPieces
    split
    · have ih := macroWrites_pieces program asset payer data fuel
        (total + min (data.length - total) 1172)
      have hl : (slice data total (min (data.length - total) 1172)).length =
          min (data.length - total) 1172 := length_slice (by omega)
      simp only [List.map_cons]
      rw [show cpiLimit - 2 - accountMetasSize = 1172 from rfl, ih]
      congr 1
      simp [Call.build, Call.metas, Call.discriminator, Call.args, encBool, encBytes, hl]
    · rfl

theorem macroPieces_all (data : Bytes) : ∀ fuel total, data.length ≤ fuel + total →
    (macroPieces data fuel total).flatten = data.drop total ∧
    ∀ c ∈ macroPieces data fuel total, c ≠ [] ∧ c.length ≤ 1172
  | 0, total, h => by
    simp only [macroPieces, List.flatten_nil, List.not_mem_nil, false_implies, implies_true, and_true]
    exact (List.drop_of_length_le (by omega)).symm
  | fuel + 1, total, h => by
    unfold macroPieces
    split
    · rename_i hlt
      obtain ⟨i1, i2⟩ := macroPieces_all data fuel (total + min (data.length - total) 1172) (by omega)
      have hl : (slice data total (min (data.length - total) 1172)).length =
          min (data.length - total) 1172 := length_slice (by omega)
      refine ⟨?_, ?_⟩
      · rw [List.flatten_cons, i1]
        unfold slice
        rw [← List.drop_drop, List.take_append_drop]
      · intro c hc
        rcases List.mem_cons.mp hc with rfl | hc
        · refine ⟨?_, by omega⟩
          intro h0
          rw [h0] at hl
          simp only [List.length_nil] at hl
          omega
        · exact i2 c hc
    · simp only [List.flatten_nil, List.not_mem_nil, false_implies, implies_true, and_true]
      exact (List.drop_of_length_le (by omega)).symm

/-- The calls of the macro. -/
def macroCalls (asset payer : Key) (e : Extn) : List Call :=
  .allocate asset (some payer) (some Key.system)
      ⟨e.1, UInt32.ofNat e.2.length, some (e.2.take (min e.2.length 1163))⟩ ::
    writesOf asset payer false (macroPieces e.2 e.2.length (min e.2.length 1163))

theorem macroCalls_split (asset payer : Key) (e : Extn) :
    Split asset payer e (macroCalls asset payer e) := by
  obtain ⟨h1, h2⟩ := macroPieces_all e.2 e.2.length (min e.2.length 1163) (by omega)
  refine ⟨_, _, false, rfl, rfl, rfl, ?_, ?_, fun c hc => ⟨(h2 c hc).1, by
    have := (h2 c hc).2; omega⟩, by intro h; cases h⟩
  · rw [h1]
    simp only [given, Option.getD_some, List.take_append_drop]
  · simp only [given, Option.getD_some, List.length_take]
    omega

/-- `allocate_and_write!` invokes one Allocate and then Writes, which split the data. -/
theorem C58_calls (program asset payer : Key) (t : ExtType) (data : Bytes) :
    ∃ calls, allocateAndWrite asset payer Key.system t data = calls.map (·.build program) ∧
      Split asset payer (t, data) calls := by
  refine ⟨macroCalls asset payer (t, data), ?_, macroCalls_split _ _ _⟩
  unfold allocateAndWrite macroCalls
  simp only [List.map_cons, writesOf_false, List.map_map]
  rw [show cpiLimit - 11 - accountMetasSize = 1163 from rfl, macroWrites_pieces program]
  have hl : (data.take (min data.length 1163)).length = min data.length 1163 := by
    rw [List.length_take]; omega
  have e : toLE 4 (UInt32.ofNat data.length).toNat = toLE 4 data.length := by
    rw [UInt32.toNat_ofNat']
    exact toLE_u32 _
  refine congrArg₂ _ ?_ rfl
  simp only [Call.build, Call.metas, Call.discriminator, Call.args, encExtInput, encOpt, encBytes, hl, e]
  simp [metaOpt]

/-- What `allocate_and_write!` leaves behind when all its calls succeed: a further extension with the
data given, of which only the verified flags of creators may be cleared. -/
theorem C58_stored {program asset payer : Key} {L L' : Ledger} {es : List Extn} {t : ExtType}
    {data : Bytes} (hr : Ready (L asset).data es) (hm : (L asset).data.length ≤ 10485760)
    (ht : t ≠ .none) (hl : data.length ≤ 10485760)
    (h : Submitted program asset L (allocateAndWrite asset payer Key.system t data) L') :
    ∃ q, Ready (L' asset).data (es ++ [(t, q)]) ∧ (q = data ∨ Accepted none t none data q) := by
  obtain ⟨calls, h1, h2⟩ := C58_calls program asset payer t data
  rw [h1, ← List.append_nil (List.map _ _)] at h
  obtain ⟨L2, q, g1, _, g3, g4⟩ := pieces_write h2 hr hm ht hl h
  refine ⟨q, ?_, g3⟩
  rw [g4.last.1]
  exact g1

/-- Size of an instruction as the macro counts it: 34 bytes per account, a prefix and the data. -/
def cpiSize (x : ClientIx) : Nat := 34 * x.metas.length + 4 + x.data.length

/-- The Allocate stays within the limit, a Write may exceed it by 4 bytes. -/
theorem C58_size (asset payer sys : Key) (t : ExtType) (data : Bytes) :
    (∀ x, (allocateAndWrite asset payer sys t data).head? = some x → cpiSize x ≤ 1280) ∧
    ∀ x ∈ allocateAndWrite asset payer sys t data, cpiSize x ≤ 1284 := by
  have hw : ∀ fuel total, ∀ d ∈ macroWrites data fuel total, d.length ≤ 1178 := by
    intro fuel
    induction fuel with
    | zero => intro total d h; cases h
    | succ fuel ih =>
      intro total d h
      unfold macroWrites at h
      split at h
      · rcases List.mem_cons.mp h with rfl | h
        · have e : cpiLimit - 2 - accountMetasSize = 1172 := rfl
          have : (slice data total (min (data.length - total)
              (cpiLimit - 2 - accountMetasSize))).length ≤ 1172 := by
            unfold slice
            rw [List.length_take]
            omega
          simp only [List.length_append, List.length_cons, List.length_nil, length_toLE]
          omega
        · exact ih _ d h
      · cases h
  have ha : ∀ x, (allocateAndWrite asset payer sys t data).head? = some x → cpiSize x ≤ 1280 := by
    rintro x ⟨⟩
    have e : cpiLimit - 11 - accountMetasSize = 1163 := rfl
    simp only [cpiSize, List.length_append, List.length_cons, List.length_nil, length_toLE,
      List.length_take]
    omega
  refine ⟨ha, ?_⟩
  intro x hx
  unfold allocateAndWrite at hx
  rcases List.mem_cons.mp hx with rfl | hx
  · exact Nat.le_trans (ha _ rfl) (by omega)
  · obtain ⟨d, hd, rfl⟩ := List.mem_map.mp hx
    have := hw _ _ d hd
    simp only [cpiSize, List.length_cons, List.length_nil]
    omega

/-- Size of an instruction as the runtime counts it: 34 bytes per account, and the data. -/
def runtimeSize (x : ClientIx) : Nat := 34 * x.metas.length + x.data.length

/-- As the runtime counts, every call is within the limit. -/
theorem C58_limit (asset payer sys : Key) (t : ExtType) (data : Bytes) :
    ∀ x ∈ allocateAndWrite asset payer sys t data, runtimeSize x ≤ 1280 := by
  intro x hx
  have := (C58_size asset payer sys t data).2 x hx
  unfold cpiSize at this
  unfold runtimeSize
  omega

/-- The accounts handed over with the calls suffice: each call is an invocation of the asset program with
the instruction that was built. -/
theorem C58_accounts {E : Env} {pdas : List Key} {L : Ledger} {program asset payer sys : Key}
    {t : ExtType} {data : Bytes} :
    ∀ x ∈ allocateAndWrite asset payer sys t data,
      invokeInfos E program pdas L (x, allocateAndWriteInfos program asset payer sys) =
        invokeAsset E program pdas L x.metas x.data := by
  intro x hx
  have hm : x.metas = [metaRw asset true, metaRw payer true, metaRo sys false] := by
    unfold allocateAndWrite at hx
    rcases List.mem_cons.mp hx with rfl | hx
    · rfl
    · obtain ⟨d, -, rfl⟩ := List.mem_map.mp hx
      rfl
  refine if_pos ⟨List.mem_cons_self, fun m h => ?_⟩
  rw [show (x, allocateAndWriteInfos program asset payer sys).1.metas = x.metas from rfl, hm] at h
  rcases List.mem_cons.mp h with rfl | h
  · simp [allocateAndWriteInfos, metaRw]
  · rcases List.mem_cons.mp h with rfl | h
    · simp [allocateAndWriteInfos, metaRw]
    · rcases List.mem_cons.mp h with rfl | h
      · simp [allocateAndWriteInfos, metaRo]
      · cases h

/-- The same for `AllocateCpiAccounts::invoke_signed`. -/
theorem C58_cpi_accounts {E : Env} {pdas : List Key} {L : Ledger} {program asset : Key}
    {payer sys : Option Key} {data : Bytes} :
    invokeInfos E program pdas L
        (allocateCpi program asset payer sys data, allocateInfos program asset payer sys) =
      invokeAsset E program pdas L (allocateCpi program asset payer sys data).metas data := by
  refine if_pos ⟨List.mem_cons_self, ?_⟩
  cases payer <;> cases sys <;> simp [allocateCpi, allocateInfos, metaRw, metaRo]

section Examples
open Verif.Ex

/-- Bytes as the runtime counts them, for the largest Allocate and the largest Write. -/
example : (allocateAndWrite (k 1) (k 5) Key.system .bucket (List.replicate 3000 7)).map runtimeSize =
    [1276, 1280, 773] := by decide +kernel

example : allocateData .bucket 3 [7, 8, 9] = [4, 11, 3, 0, 0, 0, 1, 3, 0, 0, 0, 7, 8, 9] := by
  decide +kernel
example : allocateUpdateLength 3 (allocateSpaceData .bucket 100 ++ [7, 8, 9]) =
    .ok [4, 11, 3, 0, 0, 0, 1, 3, 0, 0, 0, 7, 8, 9] := by decide +kernel
/-- Not even the header is there. -/
example : allocateUpdateLength 3 [4, 11, 3] = .error .panic := by decide +kernel

/-- A blob of 3000 bytes is stored by three calls. -/
example : (sends (env empties []) empties
      (allocateAndWrite (k 1) (k 5) Key.system .bucket (List.replicate 3000 7))).map (fun L =>
        decide ((L (k 1)).owner = prog ∧
          slice (L (k 1)).data 184 3000 = List.replicate 3000 7 ∧ (L (k 1)).data.length = 3184)) =
    .ok true := by decide +kernel

/-- As the macro counts (with a prefix for the list of accounts) the limit is exceeded: the length prefix of
the bytes is left out. -/
theorem C58_own_count_false :
    (allocateAndWrite (k 1) (k 5) Key.system .bucket (List.replicate 3000 7)).map cpiSize =
      [1280, 1284, 777] ∧ cpiLimit = 1280 := by decide +kernel

end Examples

end Verif.Props

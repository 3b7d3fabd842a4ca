import Verif.Lemmas.Mint
import Verif.Props.C33
import Verif.Spec.Edits
import Verif.Spec.Packet

/-!
# C43 — minting with the Rust client creates exactly the requested asset
-/

namespace Verif.Props

open Verif Verif.Spec

section
variable {program k payer : Key} {L L' : Ledger} {rest : List ClientIx}

/-- The Writes of a list append their chunks, when the first is told to overwrite nothing. -/
theorem submitted_writes {es : List Extn} {t : ExtType} {n : Nat} {cs : List Bytes} {o : Bool}
    (hc : ∀ c ∈ cs, Short c) (hm : (L k).data.length ≤ 10485760)
    (ho : o = true → Pending (L k).data es t n [] ∧ ∀ c, cs.head? = some c → c.length < n)
    (h : Submitted program k L ((writesOf k payer o cs).map (·.build program) ++ rest) L') :
    ∃ L2, Appends k L cs L2 ∧ (L2 k).data.length ≤ 10485760 ∧ Submitted program k L2 rest L' := by
  cases cs with
  | nil => exact ⟨L, Appends.refl L, hm, h⟩
  | cons c cs =>
    rw [writesOf, List.map_cons, List.cons_append, List.map_map] at h
    obtain ⟨L0, E, L1, h1, _, h2, h3, h4, h5⟩ := h.head
    have h4' := executeBytes_call (c := Call.write k payer Key.system ⟨o, c⟩) (hc c (by simp)) h4
    have hm1 := execute_maxLen (k := k) h4' (by simp [ClientIx.keys, Call.build, Call.metas, metaRw])
      (by rw [h1]; exact hm)
    have h6 : execute E L0 ((Call.write k payer Key.system ⟨o, c⟩).build program).keys
        (.write ⟨false, c⟩) = .ok L1 := by
      cases o with
      | false => exact h4'
      | true =>
        obtain ⟨g1, g2⟩ := ho rfl
        rw [← h1] at g1
        rw [← execute_write_first (k := k) rfl g1 (g2 c rfl) true]
        exact h4'
    obtain ⟨L2, g1, g2, g3⟩ := Submitted.appends (cs := cs) (fun c h => hc c (by simp [h])) hm1 h5
    exact ⟨L2, Appends.other h1 (Appends.write E _ (by rfl) h6 g1), g2, g3⟩

/-- What the instructions for one extension write. -/
theorem pieces_write {es : List Extn} {e : Extn} {calls : List Call} (hcalls : Split k payer e calls)
    (hr : Ready (L k).data es)
    (hm : (L k).data.length ≤ 10485760) (ht : e.1 ≠ .none) (hl : e.2.length ≤ 10485760)
    (h : Submitted program k L (calls.map (·.build program) ++ rest) L') :
    ∃ L2 q, Ready (L2 k).data (es ++ [(e.1, q)]) ∧ (L2 k).data.length ≤ 10485760 ∧
      (q = e.2 ∨ Accepted none e.1 none e.2 q) ∧ Submitted program k L2 rest L' := by
  obtain ⟨x, cs, o, rfl, hxt, hxn, hall, hgs, hcs, ho⟩ := hcalls
  rw [List.map_cons, List.cons_append] at h
  obtain ⟨L0, E, L1, h1, _, h2, h3, h4, h5⟩ := h.head
  have hn : x.length.toNat = e.2.length := by
    rw [hxn]
    exact UInt32.toNat_ofNat_of_lt (by simp [UInt32.size]; omega)
  have hfit : Fits x := by
    refine ⟨by omega, ?_⟩
    intro q hq
    have : given x = q := by unfold given; rw [hq]; rfl
    rw [this] at hgs
    omega
  have h4 := executeBytes_call (c := .allocate k (some payer) (some Key.system) x)
    (fun p hp => hfit.2 p hp) h4
  have hm1 := execute_maxLen (k := k) h4 (by simp [ClientIx.keys, Call.build, Call.metas, metaRw])
    (by rw [h1]; exact hm)
  rw [← h1] at hr hm
  obtain ⟨base, b1, b2, b3⟩ := hr.open
  rw [← hxt] at ht ⊢
  by_cases hlong : (given x).length = e.2.length
  · have hc : cs = [] := by
      cases cs with
      | nil => rfl
      | cons c cs =>
        have := List.length_pos_iff.mpr (hcs c (by simp)).1
        rw [← hall] at hlong
        simp only [List.length_append, List.flatten_cons] at hlong
        omega
    subst hc
    have hgiven : given x = e.2 := by simpa using hall
    have q2 := C31_whole (a := k) h4 rfl b1 hm hfit ht (by rw [hlong, hn])
    rw [hgiven] at q2
    exact ⟨L1, e.2, by rw [q2]; exact finished_ready b2 b3 ht (by rw [← q2]; exact hm1), hm1,
      Or.inl rfl, h5⟩
  · have hne : (given x).length ≠ x.length.toNat := by rw [hn]; exact hlong
    obtain ⟨-, -, hpe⟩ := allocate_open h4 rfl b1 hm hfit ht
    obtain ⟨-, es', hpe⟩ := hpe hne
    obtain ⟨L2, g1, g2, g3⟩ := submitted_writes (es := es') (t := x.ty) (n := x.length.toNat)
      (fun c hc => by
        have := (hcs c hc).2
        unfold Short
        omega) hm1 (fun hot => by
        obtain ⟨o1, o2⟩ := ho hot
        rw [o1] at hpe
        exact ⟨hpe, by rw [hn]; exact o2⟩) h5
    obtain ⟨q, q1, q2⟩ := C31_chunked (a := k) h4 rfl b1 hm hfit ht hne g1
      (fun c hc => (hcs c hc).1) (by rw [hall, hn])
    rw [hall] at q1
    exact ⟨L2, q, by rw [q2]; exact finished_ready b2 b3 ht (by rw [← q2]; exact g2), g2,
      Or.inr q1, g3⟩

/-- What the instructions for all extensions write. -/
theorem exts_write {xs : List Extn} {f : Extn → List Call} (hf : ∀ e ∈ xs, Split k payer e (f e)) :
    ∀ {L : Ledger} {es : List Extn}, Ready (L k).data es → (L k).data.length ≤ 10485760 →
      (∀ e ∈ xs, e.1 ≠ .none ∧ e.2.length ≤ 10485760) →
      Submitted program k L ((xs.flatMap f).map (·.build program) ++ rest) L' →
      ∃ L2 ys, Ready (L2 k).data (es ++ ys) ∧ (L2 k).data.length ≤ 10485760 ∧
        List.Forall₂ (fun x y => y.1 = x.1 ∧ (y.2 = x.2 ∨ Accepted none x.1 none x.2 y.2)) xs ys ∧
        Submitted program k L2 rest L' := by
  induction xs with
  | nil => exact fun hr hm _ h => ⟨_, [], by simpa using hr, hm, .nil, h⟩
  | cons e xs ih =>
    intro L es hr hm hx h
    rw [List.flatMap_cons, List.map_append, List.append_assoc] at h
    obtain ⟨L1, q, g1, g2, g3, g4⟩ := pieces_write (hf e (by simp)) hr hm (hx e (by simp)).1
      (hx e (by simp)).2 h
    obtain ⟨L2, ys, k1, k2, k3, k4⟩ := ih (fun e h => hf e (by simp [h])) g1 g2
      (fun e h => hx e (by simp [h])) g4
    refine ⟨L2, (e.1, q) :: ys, by simpa using k1, k2, ?_, k4⟩
    exact .cons ⟨rfl, g3⟩ k3

/-- A Create without extensions leaves a buffer as long as it is. -/
theorem create_length {E : Env} {a : Key} {accts : List Key} {x : CreateInput}
    (h : execute E L (a :: accts) (.create x) = .ok L') (hx : x.extensions = none) :
    (L' a).data.length = if (L a).data = [] then 168 else (L a).data.length := by
  obtain ⟨a', au, o, g, ga, p, s, rest, L2, es0, es1, e1, _, _, ⟨L1, h1, h2⟩, _, hlen, -⟩ :=
    create_result h
  obtain rfl : a = a' := by injection e1
  rw [hx] at h2
  have h2 : L1 = L2 := by injection h2
  subst h2
  rw [hlen]
  unfold createPrepare at h1
  simp only [hx] at h1
  split at h1
  · rename_i hd
    obtain ⟨_, hz, -⟩ := createAccount_eff h1
    rw [if_pos hd, hz]
    exact List.length_replicate
  · rename_i hd
    inv at h1
    obtain ⟨_, _, _, rfl⟩ := h1
    rw [if_neg hd]

theorem packedEnd_born {au : Key} {xs ys : List Extn} (h : List.Forall₂ (Born au) xs ys) {o : Nat} :
    packedEnd o ys = packedEnd o xs := by
  induction h generalizing o with
  | nil => rfl
  | @cons a b as bs hab _ ih =>
    have hl := (accepted_carries hab.2).1
    obtain ⟨a1, a2⟩ := a
    obtain ⟨b1, b2⟩ := b
    simp only at hl
    rw [packedEnd, packedEnd, hl, ih]

/-- The extensions, in pieces, and then the Create: what the account holds when all instructions
succeed in order. -/
theorem pieces_mint {xs : List Extn} {f : Extn → List Call} (hf : ∀ e ∈ xs, Split k payer e (f e))
    {au : Key × Bool} {owner : Key} {g ga p s : Option Key} {x : CreateInput}
    (hxn : x.extensions = none) (hn : Text x.name) (hg : g ≠ some program)
    (h : Submitted program k L ((xs.flatMap f ++ [Call.create k au owner g ga p s x]).map
      (·.build program)) L')
    (h0 : (L k).data = []) (hx : ∀ e ∈ xs, e.1 ≠ .none ∧ e.2.length ≤ 10485760) :
    ∃ es, Stores program L' k (newAsset x owner au.1 g es) ∧
      Tight L' k (newAsset x owner au.1 g es) ∧ List.Forall₂ (Born au.1) xs es := by
  rw [List.map_append] at h
  obtain ⟨L2, ys, g1, g2, g3, g4⟩ := exts_write hf (es := []) (Or.inl ⟨h0, rfl⟩)
    (by rw [h0]; simp) hx h
  rw [List.nil_append] at g1
  rw [List.map_cons, List.map_nil] at g4
  obtain ⟨L0, E, L1, k1, _, rfl, k3, k4, k5⟩ := g4.head
  have k4 := executeBytes_call (c := .create k au owner g ga p s x)
    ⟨hn, by intro a h; rw [hxn] at h; cases h⟩ k4
  rw [← k1] at g1 g2
  have klen := create_length (a := k) k4 hxn
  obtain ⟨a, au', o, g', ga, p, s, rest, es1, e1, _, _, e2, e3, -⟩ := create_stores k4 k3
    (es := ys) (by rintro a ⟨⟩; exact g1.unborn) (by rintro a ⟨⟩; exact g2)
    (by intro y hy; simp [asked, hxn] at hy)
  simp only [ClientIx.keys, Call.build, Call.metas, List.map_cons, List.map_nil, metaRw, metaRo,
    List.cons.injEq] at e1
  obtain ⟨rfl, rfl, rfl, hg', _⟩ := e1
  have hgo : optAcc E g' = g := by
    rw [← hg']
    unfold optAcc
    cases g with
    | none => exact if_pos rfl
    | some g => exact if_neg fun hc => hg (congrArg some hc)
  rw [hgo] at e2
  obtain ⟨m1, m2⟩ := k5.last
  replace e3 : List.Forall₂ (Born au.1) ys es1 := by
    have : ys ++ (createOrder (asked x)).map asExtn = ys := by
      rw [show asked x = [] by unfold asked; rw [hxn]; rfl, show createOrder [] = [] from rfl]
      simp
    rwa [this] at e3
  refine ⟨es1, e2.congr ((m2 e2.1.1).trans e2.1.1.symm) m1, ?_, ?_⟩
  · unfold Tight
    rw [m1, klen]
    show _ = packedEnd 168 es1
    rw [packedEnd_born e3]
    rcases g1 with ⟨hd, rfl⟩ | ⟨hb, hp⟩
    · rw [if_pos hd]; rfl
    · rw [if_neg (by intro hd; have := hb.1; rw [hd] at this; simp at this)]
      exact hp.end_eq
  · clear g1 e2 m1 m2 klen k4 h hx hf
    induction g3 generalizing es1 with
    | nil => cases e3; exact .nil
    | @cons a b as bs hab hr ih =>
      cases e3 with
      | @cons _ c _ cs hbc hr' =>
        refine .cons ?_ (ih cs hr')
        obtain ⟨hab1, hab2⟩ := hab
        obtain ⟨hbc1, hbc2⟩ := hbc
        rw [hab1] at hbc1 hbc2
        refine ⟨hbc1, ?_⟩
        rcases hab2 with h | h
        · rw [h] at hbc2; exact hbc2
        · exact accepted_trans h hbc2

end

section
variable {program : Key} {L L' : Ledger} {x : MintArgs}

/-- When all instructions of `mint` succeed, in order, the account holds exactly the asset asked
for: unlocked, without delegate and group, with the given owner as owner and authority, and with
the given extensions in the given order. What is stored is the data given, except for the verified
flags of creators, which are set for the owner only. -/
theorem C43_mint (h : Submitted program x.asset L (mint program x) L')
    (h0 : (L x.asset).data = []) (hn : Text x.name)
    (hx : ∀ e ∈ x.exts, e.1 ≠ .none ∧ e.2.length ≤ 10485760) :
    ∃ es, Stores program L' x.asset (newAsset (createOf x) x.owner x.owner none es) ∧
      List.Forall₂ (Born x.owner) x.exts es := by
  obtain ⟨es, h1, _, h3⟩ := pieces_mint (au := (x.owner, false)) (x := createOf x)
    (fun e _ => mintExt_split x.asset (x.payer.getD x.owner) e) rfl hn (by simp) h h0 hx
  exact ⟨es, h1, h3⟩

theorem distinct_cons_le (k : Key) (ks : List Key) : distinct (k :: ks) ≤ 1 + distinct ks := by
  rw [distinct]
  split <;> omega

theorem distinct_mem {k : Key} {ks : List Key} (h : k ∈ ks) : distinct (k :: ks) = distinct ks := by
  rw [distinct, if_pos h, Nat.zero_add]

/-- The size of a transaction, given bounds on its parts. -/
theorem packetSize_le {payer : Key} {y : ClientIx} {s a : Nat}
    (hs : distinct (payer :: signersOf y.metas) ≤ s) (ha : distinct (payer :: program :: y.keys) ≤ a)
    (hm : y.metas.length < 128) (hd : y.data.length < 16384) (hs' : s < 128) (ha' : a < 128) :
    packetSize program payer y ≤
      1 + 64 * s + 3 + 1 + 32 * a + 32 + 1 + (1 + 1 + y.metas.length + 2 + y.data.length) := by
  unfold packetSize
  simp only
  have e1 : lengthBytes (distinct (payer :: signersOf y.metas)) = 1 := by
    unfold lengthBytes; rw [if_pos (by omega)]
  have e2 : lengthBytes (distinct (payer :: program :: y.keys)) = 1 := by
    unfold lengthBytes; rw [if_pos (by omega)]
  have e3 : lengthBytes y.metas.length = 1 := by
    unfold lengthBytes; rw [if_pos hm]
  have e4 : lengthBytes y.data.length ≤ 2 := by
    unfold lengthBytes; split <;> omega
  have e5 : lengthBytes 1 = 1 := rfl
  omega

/-- Every instruction of a mint fits into a transaction of its own (names that end up in an
account have at most 35 bytes). -/
theorem C43_packets {y : ClientIx} (hn : x.name.length ≤ 887) (hy : y ∈ mint program x) :
    packetSize program (x.payer.getD x.owner) y ≤ packetLimit := by
  generalize hp : x.payer.getD x.owner = payer
  obtain ⟨c, hc, rfl⟩ : ∃ c ∈ mintCalls x, c.build program = y := by simpa [mint] using hy
  have em : maxAllocateData = 920 := rfl
  have ew : maxWriteData = 925 := rfl
  have el : packetLimit = 1232 := rfl
  have key3 : ∀ a : Key, distinct (payer :: [a, payer]) ≤ 2 := by
    intro a
    rw [distinct_mem (by simp)]
    have h1 := distinct_cons_le a [payer]
    have h2 := distinct_cons_le payer []
    have h3 : distinct [] = 0 := rfl
    omega
  have key4 : distinct (payer :: program :: [x.asset, payer, Key.system]) ≤ 4 := by
    rw [distinct_mem (by simp)]
    have h1 := distinct_cons_le program [x.asset, payer, Key.system]
    have h2 := distinct_cons_le x.asset [payer, Key.system]
    have h3 := distinct_cons_le payer [Key.system]
    have h4 := distinct_cons_le Key.system []
    have h5 : distinct [] = 0 := rfl
    omega
  unfold mintCalls at hc
  simp only [hp, List.mem_append, List.mem_flatMap, List.mem_singleton] at hc
  rcases hc with ⟨e, _, he⟩ | rfl
  · unfold mintExt at he
    rcases List.mem_cons.mp he with rfl | he
    · have := packetSize_le (program := program) (payer := payer)
        (y := (Call.allocate x.asset (some payer) (some Key.system) ⟨e.1, UInt32.ofNat e.2.length,
          some (e.2.take (min e.2.length maxAllocateData))⟩).build program) (s := 2) (a := 4)
        (key3 x.asset) key4 (by simp [Call.build, Call.metas])
        (by simp [Call.build, Call.args, encExtInput, encOpt, encBytes, length_toLE]; omega)
        (by omega) (by omega)
      simp [Call.build, Call.metas, Call.args, encExtInput, encOpt, encBytes, length_toLE] at this ⊢
      omega
    · obtain ⟨b, hb, rfl⟩ : ∃ b ∈ laterChunks e.2,
          Call.write x.asset payer Key.system ⟨false, b⟩ = c := by simpa using he
      have hbl : b.length ≤ 925 := by
        unfold laterChunks at hb
        split at hb
        · have := chunksOf_length _ _ _ b hb
          omega
        · simp at hb
      have := packetSize_le (program := program) (payer := payer)
        (y := (Call.write x.asset payer Key.system ⟨false, b⟩).build program) (s := 2) (a := 4)
        (key3 x.asset) key4 (by simp [Call.build, Call.metas])
        (by simp [Call.build, Call.args, encBool, encBytes, length_toLE]; omega)
        (by omega) (by omega)
      simp [Call.build, Call.metas, Call.args, encBool, encBytes, length_toLE] at this ⊢
      omega
  · have key5 : distinct (payer :: program ::
        [x.asset, x.owner, x.owner, program, program, payer, Key.system]) ≤ 5 := by
      rw [distinct_mem (by simp), distinct_mem (by simp)]
      have h1 := distinct_cons_le x.asset [x.owner, x.owner, program, program, payer, Key.system]
      rw [distinct_mem (k := x.owner) (by simp)] at h1
      have h2 := distinct_cons_le x.owner [program, program, payer, Key.system]
      rw [distinct_mem (k := program) (by simp)] at h2
      have h3 := distinct_cons_le program [payer, Key.system]
      have h4 := distinct_cons_le payer [Key.system]
      have h5 := distinct_cons_le Key.system []
      have h6 : distinct [] = 0 := rfl
      omega
    have := packetSize_le (program := program) (payer := payer)
      (y := (Call.create x.asset (x.owner, false) x.owner none none (some payer) (some Key.system)
        ⟨x.name, x.standard, x.isMutable, none⟩).build program) (s := 2) (a := 5)
      (key3 x.asset) key5 (by simp [Call.build, Call.metas])
      (by simp [Call.build, Call.args, encBool, encBytes, encOpt, length_toLE]; omega)
      (by omega) (by omega)
    simp [Call.build, Call.metas, Call.args, encBool, encBytes, encOpt, length_toLE] at this ⊢
    omega

end

section Examples
open Verif.Ex

/-- A mint with a long blob (written in three pieces) and a creator. -/
def mintRequest : MintArgs :=
  ⟨k 1, k 2, some (k 5), [65, 66], .nonFungible, true,
    [(.blob, 0 :: List.replicate 2000 7), (.creators, (k 2).1 ++ [0, 60] ++ (k 3).1 ++ [1, 40])]⟩

/-- The environment that the account metas of an instruction ask for. -/
def clientEnv (L : Ledger) (x : ClientIx) : Env :=
  { env L (signersOf x.metas) with
    writable := fun a => x.metas.any fun m => m.key = a && m.writable }

/-- Executing all instructions of a list. -/
def sendAll : Ledger → List ClientIx → Except Err Ledger
  | L, [] => .ok L
  | L, x :: xs => do sendAll (← executeBytes (clientEnv L x) L x.keys x.data) xs

theorem sendAll_submitted (a : Key) :
    ∀ (xs : List ClientIx) (L L' : Ledger), sendAll L xs = .ok L' → Submitted prog a L xs L'
  | [], L, L', h => by cases h; exact .done L
  | x :: xs, L, L', h => by
    unfold sendAll at h
    cases h1 : executeBytes (clientEnv L x) L x.keys x.data with
    | error e => rw [h1] at h; cases h
    | ok L1 =>
      rw [h1] at h
      exact .send (clientEnv L x) rfl (fun _ => rfl) h1 (sendAll_submitted a xs L1 L' h)

/-- The hypotheses can be met, and the mint yields the asset: the creator that is the owner is
verified, the other is not. -/
example : (mint prog mintRequest).map (·.data.length) = [931, 931, 162, 79, 10] := by
  decide +kernel
example : ((sendAll empties (mint prog mintRequest)).map fun L => (L (k 1)).data) =
    .ok (header 0 0 1 (k 2) Key.default (k 2) Key.default 0 [65, 66] ++
      blocks 168 [(.blob, 0 :: List.replicate 2000 7),
        (.creators, (k 2).1 ++ [1, 60] ++ (k 3).1 ++ [0, 40])]) := by
  decide +kernel
example : (empties (k 1)).data = [] ∧ validUtf8 mintRequest.name = true ∧
    ∀ e ∈ mintRequest.exts, e.1 ≠ .none ∧ e.2.length ≤ 10485760 := by
  decide +kernel

end Examples
end Verif.Props

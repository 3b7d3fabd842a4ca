import Verif.Lemmas.Described
import Verif.Props.C59
import Verif.Props.C61
import Verif.Lemmas.JsWrites

/-!
# C82: the description in the binary describes the program
-/

namespace Verif.Props

open Verif Verif.Spec

section
variable {program : Key}

private theorem args_step {put : NodeType → NodeVal → Option Bytes} {vs : List (String × NodeVal)}
    {a : ArgNode} {as : List ArgNode} {v : NodeVal} {b r : Bytes} (hv : a.value vs = some v)
    (hb : put a.type v = some b) (hr : buildArgs put vs as = some r) :
    buildArgs put vs (a :: as) = some (b ++ r) := by
  simp only [buildArgs, hv, hr, Option.bind_eq_bind, Option.bind_some, hb]
  rfl

private theorem instr_build {types : List (String × NodeType)} {given : Named}
    {vs : List (String × NodeVal)} {i : InstrNode} {ms : List Meta} {d d' : Bytes}
    (hm : buildMetas program given i.accounts = some ms)
    (hd : buildArgs (putNode types 16) vs i.args = some d) (he : d = d') :
    i.build types program given vs = some ⟨ms, d'⟩ := by
  simp only [InstrNode.build, hm, hd, he]
  rfl

/-- Whoever names the instruction, the accounts and the arguments of a call gets from the description
what the Rust client builds for it. -/
theorem C82_build (c : Call) (hc : InstrOk (instrOf c)) :
    buildFrom codamaTypes codamaInstructions program (nameOf (instrOf c)) (accountsOf c)
      (argsOf (instrOf c)) = some (c.build program) := by
  cases c
  case close a r => rfl
  case burn a s r g =>
    change codamaBurn.build codamaTypes program _ _ = some ⟨_, _⟩
    refine instr_build ?_ rfl rfl
    cases r <;> cases g <;> rfl
  case create a au o g ga p s x =>
    change codamaCreate.build codamaTypes program _ _ = some ⟨_, _⟩
    refine instr_build ?_ (args_step rfl rfl (args_step rfl (put_text _ hc.1)
      (args_step rfl (put_standard _ x.standard) (args_step rfl (put_bool _ x.isMutable)
        (args_step rfl (put_maybe fun l hl => put_list (hc.2 l hl).1 fun e he =>
          put_ext _ ((hc.2 l hl).2 e he)) rfl))))) ?_
    · cases g <;> cases ga <;> cases p <;> cases s <;> rfl
    · simp [Call.discriminator, Call.args, toLE]
  case approve a o d x =>
    change codamaApprove.build codamaTypes program (accountsOf (.approve a o d x)) (argsOf (.approve x)) =
      some ⟨Call.metas program (.approve a o d x), _⟩
    exact instr_build rfl (args_step rfl rfl
      (args_step rfl (put_delegate _ hc) rfl)) (by simp [Call.discriminator, Call.args, toLE])
  case allocate a p s x =>
    change codamaAllocate.build codamaTypes program _ _ = some ⟨_, _⟩
    refine instr_build ?_ (args_step rfl rfl
      (args_step rfl (put_ext _ hc) rfl)) (by simp [Call.discriminator, Call.args, toLE])
    cases p <;> cases s <;> rfl
  case lock => rfl
  case revoke a o x =>
    change codamaRevoke.build codamaTypes program (accountsOf (.revoke a o x)) (argsOf (.revoke x)) =
      some ⟨Call.metas program (.revoke a o x), _⟩
    exact instr_build rfl (args_step rfl rfl
      (args_step rfl (put_delegate _ hc) rfl)) (by simp [Call.discriminator, Call.args, toLE])
  case transfer a s r g =>
    change codamaTransfer.build codamaTypes program _ _ = some ⟨_, _⟩
    refine instr_build ?_ rfl rfl
    cases g <;> rfl
  case unlock => rfl
  case unverify => rfl
  case update a au b g p s x =>
    change codamaUpdate.build codamaTypes program _ _ = some ⟨_, _⟩
    refine instr_build ?_ (args_step rfl rfl
      (args_step rfl (put_maybe fun l hl => put_text _ (hc.1 l hl))
      (args_step rfl (put_maybe fun l hl => put_bool _ l)
        (args_step rfl (put_maybe fun l hl => put_ext _ (hc.2 l hl)) rfl)))) ?_
    · cases b <;> cases g <;> cases p <;> cases s <;> rfl
    · simp [Call.discriminator, Call.args, toLE]
  case verify => rfl
  case write a p s x =>
    change codamaWrite.build codamaTypes program (accountsOf (.write a p s x)) (argsOf (.write x)) =
      some ⟨Call.metas program (.write a p s x), _⟩
    exact instr_build rfl (args_step rfl rfl (args_step rfl (put_bool _ x.overwrite)
      (args_step rfl (put_bytes _ hc) rfl))) (by simp [Call.discriminator, Call.args, toLE])
  case group => rfl
  case ungroup => rfl
  case handover => rfl
  case remove a au g r t =>
    change codamaRemove.build codamaTypes program _ _ = some ⟨_, _⟩
    refine instr_build ?_ (args_step rfl rfl
      (args_step rfl (put_extType _ t) rfl)) rfl
    cases g <;> rfl
  case resize a au p s x =>
    change codamaResize.build codamaTypes program _ _ = some ⟨_, _⟩
    refine instr_build ?_ (args_step rfl rfl
      (args_step rfl (put_strategy _) rfl)) (by simp [Call.discriminator, Call.args, toLE])
    cases s <;> rfl

/-- And the program reads it as this instruction, with the accounts meant. -/
theorem C82_read {E : Env} {L : Ledger} {c : Call} {i : ClientIx} (hc : InstrOk (instrOf c))
    (ho : ∀ o ∈ optionals c, o ≠ some E.program)
    (h : buildFrom codamaTypes codamaInstructions E.program (nameOf (instrOf c)) (accountsOf c)
      (argsOf (instrOf c)) = some i) :
    decode i.data = some (instrOf c) ∧ dispatch E L (instrOf c) i.keys = meant E L c := by
  rw [C82_build c hc] at h
  cases h
  exact ⟨C46_decodes hc, C46_accounts ho⟩

private theorem mem_of_lookup {α : Type} {l : List (String × α)} {x : String} {a : α}
    (h : l.lookup x = some a) : (x, a) ∈ l := by
  induction l with
  | nil => cases h
  | cons y l ih =>
    obtain ⟨y, b⟩ := y
    rw [List.lookup_cons] at h
    by_cases e : (x == y) = true
    · simp only [e] at h
      cases h
      rw [eq_of_beq e]; simp
    · simp only [Bool.not_eq_true] at e
      simp only [e] at h
      exact List.mem_cons_of_mem _ (ih h)

/-- Nothing else can be built from the description: whatever names and values are given, the result
is an instruction of the Rust client, which the program can read. -/
theorem C82_only {name : String} {given : Named} {vs : List (String × NodeVal)} {i : ClientIx}
    (h : buildFrom codamaTypes codamaInstructions program name given vs = some i) :
    ∃ c, InstrOk (instrOf c) ∧ nameOf (instrOf c) = name ∧ i = c.build program := by
  simp only [buildFrom, bind, Option.bind_eq_some_iff, InstrNode.build] at h
  obtain ⟨n, hn, ms, hm, d, hd, h⟩ := h
  cases h
  have hmem := mem_of_lookup hn
  clear hn
  simp only [codamaInstructions, List.mem_cons, List.not_mem_nil, or_false, Prod.mk.injEq] at hmem
  rcases hmem with ⟨rfl, rfl⟩ | ⟨rfl, rfl⟩ | ⟨rfl, rfl⟩ | ⟨rfl, rfl⟩ | ⟨rfl, rfl⟩ | ⟨rfl, rfl⟩ |
    ⟨rfl, rfl⟩ | ⟨rfl, rfl⟩ | ⟨rfl, rfl⟩ | ⟨rfl, rfl⟩ | ⟨rfl, rfl⟩ | ⟨rfl, rfl⟩ | ⟨rfl, rfl⟩ |
    ⟨rfl, rfl⟩ | ⟨rfl, rfl⟩ | ⟨rfl, rfl⟩ | ⟨rfl, rfl⟩ | ⟨rfl, rfl⟩
  all_goals
    obtain ⟨v0, b0, r0, e0, hb0, hd0, rfl⟩ := buildArgs_cons hd
    clear hd
    cases e0
    cases hb0
  · obtain ⟨m1, t1, h1, hm1, rfl⟩ := buildMetas_cons hm
    clear hm
    obtain ⟨m2, t2, h2, hm2, rfl⟩ := buildMetas_cons hm1
    clear hm1
    cases hm2
    obtain ⟨k1, rfl⟩ := build_yes h1
    obtain ⟨k2, rfl⟩ := build_no h2
    cases hd0
    exact ⟨.close k1 k2, trivial, rfl, rfl⟩
  · obtain ⟨m1, t1, h1, hm1, rfl⟩ := buildMetas_cons hm
    clear hm
    obtain ⟨m2, t2, h2, hm2, rfl⟩ := buildMetas_cons hm1
    clear hm1
    obtain ⟨m3, t3, h3, hm3, rfl⟩ := buildMetas_cons hm2
    clear hm2
    obtain ⟨m4, t4, h4, hm4, rfl⟩ := buildMetas_cons hm3
    clear hm3
    cases hm4
    obtain ⟨k1, rfl⟩ := build_no h1
    obtain ⟨k2, rfl⟩ := build_yes h2
    obtain ⟨k3, rfl⟩ := build_optNo h3
    obtain ⟨k4, rfl⟩ := build_optNo h4
    cases hd0
    exact ⟨.burn k1 k2 k3 k4, trivial, rfl, rfl⟩
  · obtain ⟨m1, t1, h1, hm1, rfl⟩ := buildMetas_cons hm
    clear hm
    obtain ⟨m2, t2, h2, hm2, rfl⟩ := buildMetas_cons hm1
    clear hm1
    obtain ⟨m3, t3, h3, hm3, rfl⟩ := buildMetas_cons hm2
    clear hm2
    obtain ⟨m4, t4, h4, hm4, rfl⟩ := buildMetas_cons hm3
    clear hm3
    obtain ⟨m5, t5, h5, hm5, rfl⟩ := buildMetas_cons hm4
    clear hm4
    obtain ⟨m6, t6, h6, hm6, rfl⟩ := buildMetas_cons hm5
    clear hm5
    obtain ⟨m7, t7, h7, hm7, rfl⟩ := buildMetas_cons hm6
    clear hm6
    cases hm7
    obtain ⟨k1, rfl⟩ := build_yes h1
    obtain ⟨k2, rfl⟩ := build_either h2
    obtain ⟨k3, rfl⟩ := build_no h3
    obtain ⟨k4, rfl⟩ := build_optNo h4
    obtain ⟨k5, rfl⟩ := build_optYes h5
    obtain ⟨k6, rfl⟩ := build_optYes h6
    obtain ⟨k7, rfl⟩ := build_optNo h7
    obtain ⟨v1, b1, r1, _, hb1, hd1, rfl⟩ := buildArgs_cons hd0
    clear hd0
    obtain ⟨v2, b2, r2, _, hb2, hd2, rfl⟩ := buildArgs_cons hd1
    clear hd1
    obtain ⟨v3, b3, r3, _, hb3, hd3, rfl⟩ := buildArgs_cons hd2
    clear hd2
    obtain ⟨v4, b4, r4, _, hb4, hd4, rfl⟩ := buildArgs_cons hd3
    clear hd3
    cases hd4
    obtain ⟨x1, hx1, rfl⟩ := putNode_text hb1
    obtain ⟨x2, rfl⟩ := unput_standard hb2
    obtain ⟨x3, rfl⟩ := putNode_bool hb3
    obtain ⟨x4, hx4, rfl⟩ := putNode_option
      (fun _ _ h => putNode_list (fun _ _ h => unput_ext h) h) hb4
    exact ⟨.create k1 k2 k3 k4 k5 k6 k7 ⟨x1, x2, x3, x4⟩, ⟨hx1, hx4⟩, rfl, by
      simp [Call.build, Call.discriminator, Call.args, Call.metas, metaRw, metaRo, toLE]⟩
  · obtain ⟨m1, t1, h1, hm1, rfl⟩ := buildMetas_cons hm
    clear hm
    obtain ⟨m2, t2, h2, hm2, rfl⟩ := buildMetas_cons hm1
    clear hm1
    obtain ⟨m3, t3, h3, hm3, rfl⟩ := buildMetas_cons hm2
    clear hm2
    cases hm3
    obtain ⟨k1, rfl⟩ := build_no h1
    obtain ⟨k2, rfl⟩ := build_yes h2
    obtain ⟨k3, rfl⟩ := build_no h3
    obtain ⟨v1, b1, r1, _, hb1, hd1, rfl⟩ := buildArgs_cons hd0
    clear hd0
    cases hd1
    obtain ⟨x1, hx1, rfl⟩ := unput_delegate hb1
    exact ⟨.approve k1 k2 k3 x1, hx1, rfl, by
      simp [Call.build, Call.discriminator, Call.args, Call.metas, metaRw, metaRo, toLE]⟩
  · obtain ⟨m1, t1, h1, hm1, rfl⟩ := buildMetas_cons hm
    clear hm
    obtain ⟨m2, t2, h2, hm2, rfl⟩ := buildMetas_cons hm1
    clear hm1
    obtain ⟨m3, t3, h3, hm3, rfl⟩ := buildMetas_cons hm2
    clear hm2
    cases hm3
    obtain ⟨k1, rfl⟩ := build_yes h1
    obtain ⟨k2, rfl⟩ := build_optYes h2
    obtain ⟨k3, rfl⟩ := build_optNo h3
    obtain ⟨v1, b1, r1, _, hb1, hd1, rfl⟩ := buildArgs_cons hd0
    clear hd0
    cases hd1
    obtain ⟨x1, hx1, rfl⟩ := unput_ext hb1
    exact ⟨.allocate k1 k2 k3 x1, hx1, rfl, by
      simp [Call.build, Call.discriminator, Call.args, Call.metas, metaRw, metaRo, toLE]⟩
  · obtain ⟨m1, t1, h1, hm1, rfl⟩ := buildMetas_cons hm
    clear hm
    obtain ⟨m2, t2, h2, hm2, rfl⟩ := buildMetas_cons hm1
    clear hm1
    cases hm2
    obtain ⟨k1, rfl⟩ := build_no h1
    obtain ⟨k2, rfl⟩ := build_yes h2
    cases hd0
    exact ⟨.lock k1 k2, trivial, rfl, rfl⟩
  · obtain ⟨m1, t1, h1, hm1, rfl⟩ := buildMetas_cons hm
    clear hm
    obtain ⟨m2, t2, h2, hm2, rfl⟩ := buildMetas_cons hm1
    clear hm1
    cases hm2
    obtain ⟨k1, rfl⟩ := build_no h1
    obtain ⟨k2, rfl⟩ := build_yes h2
    obtain ⟨v1, b1, r1, _, hb1, hd1, rfl⟩ := buildArgs_cons hd0
    clear hd0
    cases hd1
    obtain ⟨x1, hx1, rfl⟩ := unput_delegate hb1
    exact ⟨.revoke k1 k2 x1, hx1, rfl, by
      simp [Call.build, Call.discriminator, Call.args, Call.metas, metaRw, metaRo, toLE]⟩
  · obtain ⟨m1, t1, h1, hm1, rfl⟩ := buildMetas_cons hm
    clear hm
    obtain ⟨m2, t2, h2, hm2, rfl⟩ := buildMetas_cons hm1
    clear hm1
    obtain ⟨m3, t3, h3, hm3, rfl⟩ := buildMetas_cons hm2
    clear hm2
    obtain ⟨m4, t4, h4, hm4, rfl⟩ := buildMetas_cons hm3
    clear hm3
    cases hm4
    obtain ⟨k1, rfl⟩ := build_no h1
    obtain ⟨k2, rfl⟩ := build_yes h2
    obtain ⟨k3, rfl⟩ := build_no h3
    obtain ⟨k4, rfl⟩ := build_optNo h4
    cases hd0
    exact ⟨.transfer k1 k2 k3 k4, trivial, rfl, rfl⟩
  · obtain ⟨m1, t1, h1, hm1, rfl⟩ := buildMetas_cons hm
    clear hm
    obtain ⟨m2, t2, h2, hm2, rfl⟩ := buildMetas_cons hm1
    clear hm1
    cases hm2
    obtain ⟨k1, rfl⟩ := build_no h1
    obtain ⟨k2, rfl⟩ := build_yes h2
    cases hd0
    exact ⟨.unlock k1 k2, trivial, rfl, rfl⟩
  · obtain ⟨m1, t1, h1, hm1, rfl⟩ := buildMetas_cons hm
    clear hm
    obtain ⟨m2, t2, h2, hm2, rfl⟩ := buildMetas_cons hm1
    clear hm1
    cases hm2
    obtain ⟨k1, rfl⟩ := build_no h1
    obtain ⟨k2, rfl⟩ := build_yes h2
    cases hd0
    exact ⟨.unverify k1 k2, trivial, rfl, rfl⟩
  · obtain ⟨m1, t1, h1, hm1, rfl⟩ := buildMetas_cons hm
    clear hm
    obtain ⟨m2, t2, h2, hm2, rfl⟩ := buildMetas_cons hm1
    clear hm1
    obtain ⟨m3, t3, h3, hm3, rfl⟩ := buildMetas_cons hm2
    clear hm2
    obtain ⟨m4, t4, h4, hm4, rfl⟩ := buildMetas_cons hm3
    clear hm3
    obtain ⟨m5, t5, h5, hm5, rfl⟩ := buildMetas_cons hm4
    clear hm4
    obtain ⟨m6, t6, h6, hm6, rfl⟩ := buildMetas_cons hm5
    clear hm5
    cases hm6
    obtain ⟨k1, rfl⟩ := build_no h1
    obtain ⟨k2, rfl⟩ := build_yes h2
    obtain ⟨k3, rfl⟩ := build_optNo h3
    obtain ⟨k4, rfl⟩ := build_optNo h4
    obtain ⟨k5, rfl⟩ := build_optYes h5
    obtain ⟨k6, rfl⟩ := build_optNo h6
    obtain ⟨v1, b1, r1, _, hb1, hd1, rfl⟩ := buildArgs_cons hd0
    clear hd0
    obtain ⟨v2, b2, r2, _, hb2, hd2, rfl⟩ := buildArgs_cons hd1
    clear hd1
    obtain ⟨v3, b3, r3, _, hb3, hd3, rfl⟩ := buildArgs_cons hd2
    clear hd2
    cases hd3
    obtain ⟨x1, hx1, rfl⟩ := putNode_option (fun _ _ h => putNode_text h) hb1
    obtain ⟨x2, _, rfl⟩ := putNode_option (P := fun _ => True) (g := encBool)
      (fun _ _ h => (putNode_bool h).imp fun _ h => ⟨trivial, h⟩) hb2
    obtain ⟨x3, hx3, rfl⟩ := putNode_option (fun _ _ h => unput_ext h) hb3
    exact ⟨.update k1 k2 k3 k4 k5 k6 ⟨x1, x2, x3⟩, ⟨hx1, hx3⟩, rfl, by
      simp [Call.build, Call.discriminator, Call.args, Call.metas, metaRw, metaRo, toLE]⟩
  · obtain ⟨m1, t1, h1, hm1, rfl⟩ := buildMetas_cons hm
    clear hm
    obtain ⟨m2, t2, h2, hm2, rfl⟩ := buildMetas_cons hm1
    clear hm1
    cases hm2
    obtain ⟨k1, rfl⟩ := build_no h1
    obtain ⟨k2, rfl⟩ := build_yes h2
    cases hd0
    exact ⟨.verify k1 k2, trivial, rfl, rfl⟩
  · obtain ⟨m1, t1, h1, hm1, rfl⟩ := buildMetas_cons hm
    clear hm
    obtain ⟨m2, t2, h2, hm2, rfl⟩ := buildMetas_cons hm1
    clear hm1
    obtain ⟨m3, t3, h3, hm3, rfl⟩ := buildMetas_cons hm2
    clear hm2
    cases hm3
    obtain ⟨k1, rfl⟩ := build_yes h1
    obtain ⟨k2, rfl⟩ := build_yes h2
    obtain ⟨k3, rfl⟩ := build_no h3
    obtain ⟨v1, b1, r1, _, hb1, hd1, rfl⟩ := buildArgs_cons hd0
    clear hd0
    obtain ⟨v2, b2, r2, _, hb2, hd2, rfl⟩ := buildArgs_cons hd1
    clear hd1
    cases hd2
    obtain ⟨x1, rfl⟩ := putNode_bool hb1
    obtain ⟨x2, hx2, rfl⟩ := putNode_bytes hb2
    exact ⟨.write k1 k2 k3 ⟨x1, x2⟩, hx2, rfl, by
      simp [Call.build, Call.discriminator, Call.args, Call.metas, metaRw, metaRo, toLE]⟩
  · obtain ⟨m1, t1, h1, hm1, rfl⟩ := buildMetas_cons hm
    clear hm
    obtain ⟨m2, t2, h2, hm2, rfl⟩ := buildMetas_cons hm1
    clear hm1
    obtain ⟨m3, t3, h3, hm3, rfl⟩ := buildMetas_cons hm2
    clear hm2
    cases hm3
    obtain ⟨k1, rfl⟩ := build_no h1
    obtain ⟨k2, rfl⟩ := build_no h2
    obtain ⟨k3, rfl⟩ := build_yes h3
    cases hd0
    exact ⟨.group k1 k2 k3, trivial, rfl, rfl⟩
  · obtain ⟨m1, t1, h1, hm1, rfl⟩ := buildMetas_cons hm
    clear hm
    obtain ⟨m2, t2, h2, hm2, rfl⟩ := buildMetas_cons hm1
    clear hm1
    obtain ⟨m3, t3, h3, hm3, rfl⟩ := buildMetas_cons hm2
    clear hm2
    cases hm3
    obtain ⟨k1, rfl⟩ := build_no h1
    obtain ⟨k2, rfl⟩ := build_no h2
    obtain ⟨k3, rfl⟩ := build_yes h3
    cases hd0
    exact ⟨.ungroup k1 k2 k3, trivial, rfl, rfl⟩
  · obtain ⟨m1, t1, h1, hm1, rfl⟩ := buildMetas_cons hm
    clear hm
    obtain ⟨m2, t2, h2, hm2, rfl⟩ := buildMetas_cons hm1
    clear hm1
    obtain ⟨m3, t3, h3, hm3, rfl⟩ := buildMetas_cons hm2
    clear hm2
    cases hm3
    obtain ⟨k1, rfl⟩ := build_no h1
    obtain ⟨k2, rfl⟩ := build_yes h2
    obtain ⟨k3, rfl⟩ := build_yes h3
    cases hd0
    exact ⟨.handover k1 k2 k3, trivial, rfl, rfl⟩
  · obtain ⟨m1, t1, h1, hm1, rfl⟩ := buildMetas_cons hm
    clear hm
    obtain ⟨m2, t2, h2, hm2, rfl⟩ := buildMetas_cons hm1
    clear hm1
    obtain ⟨m3, t3, h3, hm3, rfl⟩ := buildMetas_cons hm2
    clear hm2
    obtain ⟨m4, t4, h4, hm4, rfl⟩ := buildMetas_cons hm3
    clear hm3
    cases hm4
    obtain ⟨k1, rfl⟩ := build_no h1
    obtain ⟨k2, rfl⟩ := build_yes h2
    obtain ⟨k3, rfl⟩ := build_optNo h3
    obtain ⟨k4, rfl⟩ := build_no h4
    obtain ⟨v1, b1, r1, _, hb1, hd1, rfl⟩ := buildArgs_cons hd0
    clear hd0
    cases hd1
    obtain ⟨x1, rfl⟩ := unput_extType hb1
    exact ⟨.remove k1 k2 k3 k4 x1, trivial, rfl, by
      simp [Call.build, Call.discriminator, Call.args, Call.metas, metaRw, metaRo, toLE]⟩
  · obtain ⟨m1, t1, h1, hm1, rfl⟩ := buildMetas_cons hm
    clear hm
    obtain ⟨m2, t2, h2, hm2, rfl⟩ := buildMetas_cons hm1
    clear hm1
    obtain ⟨m3, t3, h3, hm3, rfl⟩ := buildMetas_cons hm2
    clear hm2
    obtain ⟨m4, t4, h4, hm4, rfl⟩ := buildMetas_cons hm3
    clear hm3
    cases hm4
    obtain ⟨k1, rfl⟩ := build_no h1
    obtain ⟨k2, rfl⟩ := build_yes h2
    obtain ⟨k3, rfl⟩ := build_either h3
    obtain ⟨k4, rfl⟩ := build_optNo h4
    obtain ⟨v1, b1, r1, _, hb1, hd1, rfl⟩ := buildArgs_cons hd0
    clear hd0
    cases hd1
    obtain ⟨x1, rfl⟩ := unput_strategy hb1
    exact ⟨.resize k1 k2 k3 k4 x1, trivial, rfl, by
      simp [Call.build, Call.discriminator, Call.args, Call.metas, metaRw, metaRo, toLE]⟩

private theorem jsExtValue_eq {x : JsExtInput} (h : ExtFits x) :
    jsExtValue x = extValue (extInputOf x) := by
  simp only [jsExtValue, extValue, extInputOf]
  rw [UInt32.toNat_ofNat_of_lt' h.1]

private theorem jsExtValue_map {l : List JsExtInput} (h : ∀ x ∈ l, ExtFits x) :
    l.map jsExtValue = (l.map extInputOf).map extValue := by
  rw [List.map_map]
  exact List.map_congr_left fun x hx => jsExtValue_eq (h x hx)

private theorem jsStrategyValue_eq {a : Key} {b : Option Key} {c : Option (Key × Bool)} {d : Option Key}
    {s : JsStrategy} (h : InputFits (.resize a b c d s)) :
    jsStrategyValue s = strategyValue (strategyOf s) := by
  cases s with
  | trim => rfl
  | extend v =>
    simp only [jsStrategyValue, strategyValue, strategyOf]
    rw [UInt16.toNat_ofNat_of_lt' h]

private theorem create_metas {ctx : JsContext} {a : Key} {au : Option (Key × Bool)} {o g ga p s : Option Key}
    {nm : Bytes} {st : Option Standard} {mu : Option Bool} {ex : Option (List JsExtInput)} :
    buildMetas program (fillDefaults ctx.identity ctx.payer codamaCreate.accounts
      (requested (.create a au o g ga p s nm st mu ex))) codamaCreate.accounts =
    some (Call.metas program (callOf ctx (.create a au o g ga p s nm st mu ex))) := by
  cases au <;> cases o <;> cases g <;> cases ga <;> cases p <;> cases s <;>
    simp [requested, ifSigner, ifGiven, codamaCreate, fillDefaults, List.lookup, buildMetas,
      AccountNode.build, callOf, Call.metas, metaRw, metaRo, metaOpt, systemOf]

private theorem update_metas {ctx : JsContext} {a : Key} {au b g p s : Option Key}
    {nm : Option Bytes} {mu : Option Bool} {ex : Option JsExtInput} :
    buildMetas program (fillDefaults ctx.identity ctx.payer codamaUpdate.accounts
      (requested (.update a au b g p s nm mu ex))) codamaUpdate.accounts =
    some (Call.metas program (callOf ctx (.update a au b g p s nm mu ex))) := by
  cases au <;> cases b <;> cases g <;> cases p <;> cases s <;>
    simp [requested, ifSigner, ifGiven, codamaUpdate, fillDefaults, List.lookup, buildMetas,
      AccountNode.build, callOf, Call.metas, metaRw, metaRo, metaOpt, systemOf]

set_option maxHeartbeats 1000000 in
/-- The defaults, too: from what a user of the JavaScript client gives, the description makes what the
client makes. -/
theorem C82_defaults {ctx : JsContext} (x : JsInput) (hf : InputFits x) (ht : TextIn x) :
    buildFilled codamaTypes codamaInstructions program ctx.identity ctx.payer
      (nameOf (instrOf (callOf ctx x))) (requested x) (requestedArgs x) =
    some ((callOf ctx x).build program) := by
  have hok := instrOk (ctx := ctx) hf ht
  cases x
  case close a r => rfl
  case burn a s r g => cases r <;> cases g <;> rfl
  case create a au o g ga p s nm st mu ex =>
    change codamaCreate.build codamaTypes program _ _ =
      some ⟨Call.metas program (callOf ctx (.create a au o g ga p s nm st mu ex)), _⟩
    have hx : ∀ l, ex = some l → putNode codamaTypes 16 (.option 1 (.array (.counted 4)
        (.link "extensionInput"))) (.present (.list (l.map jsExtValue))) =
        some (encOpt (encVec encExtInput) (some (l.map extInputOf))) := by
      intro l hl
      rw [jsExtValue_map (hf.2 l hl).2]
      have := hok.2 (l.map extInputOf) (by simp [hl])
      exact put_maybe (o := some (l.map extInputOf)) (f := fun l => .list (l.map extValue))
        (n := 15) (fun l hl => by cases hl; exact put_list (n := 14) this.1 fun e he => put_ext 9 (this.2 e he))
    have h1 := put_text (n := 14) hok.1
    refine instr_build ?_ (args_step rfl rfl (args_step rfl h1
      (args_step (b := [(st.getD .nonFungible).tag]) (v := .variant (standardName (st.getD .nonFungible)) none)
        ?_ (put_standard _ _) (args_step (v := .bool (mu.getD true)) ?_ (put_bool _ _)
        (args_step (v := match ex with
          | none => .absent
          | some l => .present (.list (l.map jsExtValue)))
          (b := encOpt (encVec encExtInput) (ex.map (·.map extInputOf))) ?_ ?_ rfl))))) ?_
    · exact create_metas
    · cases st <;> cases mu <;> cases ex <;> rfl
    · cases st <;> cases mu <;> cases ex <;> rfl
    · cases st <;> cases mu <;> cases ex <;> rfl
    · cases ex with
      | none => rfl
      | some l => exact hx l rfl
    · simp [callOf, Call.discriminator, Call.args, toLE]
  case approve a o d x =>
    change codamaApprove.build codamaTypes program (fillDefaults ctx.identity ctx.payer
      codamaApprove.accounts (requested (.approve a o d x))) (argsOf (.approve x)) =
      some ⟨Call.metas program (callOf ctx (.approve a o d x)), _⟩
    refine instr_build ?_ (args_step rfl rfl (args_step rfl (put_delegate _ hok) rfl))
      (by simp [callOf, Call.discriminator, Call.args, toLE])
    cases o <;> rfl
  case allocate a p s x =>
    change codamaAllocate.build codamaTypes program _ [("extension", jsExtValue x)] = some ⟨_, _⟩
    rw [jsExtValue_eq hf]
    refine instr_build ?_ (args_step rfl rfl (args_step rfl (put_ext _ hok) rfl))
      (by simp [callOf, Call.discriminator, Call.args, toLE])
    cases p <;> cases s <;> rfl
  case lock a s => cases s <;> rfl
  case revoke a o x =>
    change codamaRevoke.build codamaTypes program (fillDefaults ctx.identity ctx.payer
      codamaRevoke.accounts (requested (.revoke a o x))) (argsOf (.revoke x)) =
      some ⟨Call.metas program (callOf ctx (.revoke a o x)), _⟩
    refine instr_build ?_ (args_step rfl rfl (args_step rfl (put_delegate _ hok) rfl))
      (by simp [callOf, Call.discriminator, Call.args, toLE])
    cases o <;> rfl
  case transfer a s r g => cases s <;> cases g <;> rfl
  case unlock a s => cases s <;> rfl
  case unverify => rfl
  case update a au b g p s nm mu ex =>
    change codamaUpdate.build codamaTypes program _ _ =
      some ⟨Call.metas program (callOf ctx (.update a au b g p s nm mu ex)), _⟩
    have hx : ∀ e, ex = some e → putNode codamaTypes 16 (.option 1 (.link "extensionInput"))
        (.present (jsExtValue e)) = some (encOpt encExtInput (some (extInputOf e))) := by
      intro e he
      rw [jsExtValue_eq (hf.2 e he)]
      exact put_maybe (o := some (extInputOf e)) (f := extValue)
        (fun l hl => by cases hl; exact put_ext _ (hf.2 e he).2)
    refine instr_build ?_ (args_step rfl rfl
      (args_step (v := maybe .bytes nm) ?_ (put_maybe fun l hl => put_text _ (hok.1 l hl))
      (args_step (v := maybe .bool mu) ?_ (put_maybe fun l hl => put_bool _ l)
        (args_step (v := match ex with
          | none => .absent
          | some l => .present (jsExtValue l))
          (b := encOpt encExtInput (ex.map extInputOf)) ?_ ?_ rfl)))) ?_
    · exact update_metas
    · cases nm <;> cases mu <;> cases ex <;> rfl
    · cases nm <;> cases mu <;> cases ex <;> rfl
    · cases nm <;> cases mu <;> cases ex <;> rfl
    · cases ex with
      | none => rfl
      | some l => exact hx l rfl
    · simp [callOf, Call.discriminator, Call.args, toLE]
  case verify => rfl
  case write a p s o x =>
    change codamaWrite.build codamaTypes program (fillDefaults ctx.identity ctx.payer
      codamaWrite.accounts (requested (.write a p s o x))) (argsOf (.write ⟨o, x⟩)) =
      some ⟨Call.metas program (callOf ctx (.write a p s o x)), _⟩
    refine instr_build ?_ (args_step rfl rfl (args_step rfl (put_bool _ o)
      (args_step rfl (put_bytes _ hok) rfl))) (by simp [callOf, Call.discriminator, Call.args, toLE])
    cases p <;> cases s <;> rfl
  case group a g au => cases au <;> rfl
  case ungroup a g au => cases au <;> rfl
  case handover a au n => cases au <;> rfl
  case remove a au g r t =>
    change codamaRemove.build codamaTypes program _ _ = some ⟨_, _⟩
    refine instr_build ?_ (args_step rfl rfl (args_step rfl (put_extType _ t) rfl)) rfl
    cases au <;> cases g <;> cases r <;> rfl
  case resize a au p s x =>
    change codamaResize.build codamaTypes program _ [("strategy", jsStrategyValue x)] = some ⟨_, _⟩
    rw [jsStrategyValue_eq hf]
    refine instr_build ?_ (args_step rfl rfl (args_step rfl (put_strategy _) rfl))
      (by simp [callOf, Call.discriminator, Call.args, toLE])
    cases au <;> cases p <;> cases s <;> rfl

/-- The types of six kinds of extension describe what the builders write. -/
theorem C82_contents {v : JsExt} {c : NodeVal} (hc : contents v = some c) (hw : Writable v)
    (ht : TextsIn v) : putNode codamaTypes 16 (.link (extName v.type)) c = some (rustWrites v) := by
  cases v <;> first | (cases hc; done) | (cases hc)
  case attributes l =>
    refine (put_struct (n := 14) rfl).trans ((putFields_step rfl (b := l.flatMap fun x => prefixed x.1 ++ prefixed x.2)
      ?_ rfl).trans ?_)
    · refine putAll_map fun x hx => (put_struct (n := 11) rfl).trans
        ((putFields_step rfl (put_short 9 (ht x hx).1 (hw x hx).1)
          (putFields_step rfl (put_short 9 (ht x hx).2 (hw x hx).2) rfl)).trans ?_)
      simp
    · simp [rustWrites, rustWrites_pairs]
  case links l =>
    refine (put_struct (n := 14) rfl).trans ((putFields_step rfl (b := l.flatMap fun x => prefixed x.1 ++ prefixed x.2)
      ?_ rfl).trans ?_)
    · refine putAll_map fun x hx => (put_struct (n := 11) rfl).trans
        ((putFields_step rfl (put_short 9 (ht x hx).1 (hw x hx).1)
          (putFields_step rfl (put_short 9 (ht x hx).2 (hw x hx).2) rfl)).trans ?_)
      simp
    · simp [rustWrites, rustWrites_pairs]
  case blob ct data =>
    refine (put_struct (n := 14) rfl).trans ((putFields_step rfl (put_short 12 ht hw)
      (putFields_step rfl (put_byteList 12 data) rfl)).trans ?_)
    simp [rustWrites, blobBuilderSet, prefixed, writeStr]
  case creators cs =>
    refine (put_struct (n := 14) rfl).trans ((putFields_step rfl
      (b := cs.flatMap fun c => creatorBytes (storedCreator c)) ?_ rfl).trans ?_)
    · refine putAll_map fun x hx => (put_struct (n := 11) rfl).trans
        ((putFields_step rfl rfl (putFields_step rfl (put_bool 10 x.verified)
          (putFields_step rfl (b := [UInt8.ofNat x.share]) ?_ rfl))).trans ?_)
      · simp only [putNode, putNum]
        rw [if_pos (show x.share < 256 ^ 1 from hw x hx)]
        rfl
      · cases hv : x.verified <;> simp [creatorBytes, storedCreator, podBool, encBool, hv]
    · simp [rustWrites, creatorsBytes, List.flatMap_map]
  case metadata m =>
    refine (put_struct (n := 14) rfl).trans ((putFields_step rfl (put_short 12 ht.1 hw.1)
      (putFields_step rfl (put_short 12 ht.2.1 hw.2.1) (putFields_step rfl (put_short 12 ht.2.2.1 hw.2.2.1)
        (putFields_step rfl (put_short 12 ht.2.2.2 hw.2.2.2) rfl)))).trans ?_)
    simp [rustWrites, metadataBuilderSet, prefixed, writeOptStr, writeStr]
  case bucket data =>
    refine (put_struct (n := 14) rfl).trans ((putFields_step rfl (put_byteList 12 data) rfl).trans ?_)
    simp [rustWrites, bucketBuilderSet]

/-! ## The other descriptions -/

/-- The description that is written from the sources (asset_program.json) lists the same instructions
with the same numbers and the same accounts as the one in the binary. -/
theorem C82_same_tables :
    codamaInstructions.map (·.1) = titles.map (·.1) ∧
    shankAssetInstructions.map (·.1) = titles.map (·.2) ∧
    codamaInstructions.map (InstrNode.number ·.2) = (List.range 18).map some ∧
    shankAssetInstructions.map (InstrNode.number ·.2) = (List.range 18).map some ∧
    (shankAssetInstructions.map fun x => x.2.accounts.map row) =
      codamaInstructions.map fun x => x.2.accounts.map row := by
  decide +kernel

/-- The accounts that the interface crate passes are those of its description. -/
theorem C82_interface (c : Call) (h : NoChoice c) :
    ∃ x, shankInterfaceInstructions[c.discriminator.toNat]? = some x ∧
      InstrNode.number x.2 = some c.discriminator.toNat ∧
      buildMetas program (accountsOf c) x.2.accounts = some (c.interfaceMetas program) := by
  cases c
  case create a au o g ga p s x =>
    obtain ⟨au, b⟩ := au
    obtain rfl : b = false := h
    refine ⟨_, rfl, rfl, ?_⟩
    cases g <;> cases ga <;> cases p <;> cases s <;>
      simp [accountsOf, ifGiven, List.lookup, buildMetas, AccountNode.build, Call.interfaceMetas,
        metaRw, metaRo, metaOpt]
  case update a au b g p s x =>
    refine ⟨_, rfl, rfl, ?_⟩
    cases b <;> cases g <;> cases p <;> cases s <;>
      simp [accountsOf, ifGiven, List.lookup, buildMetas, AccountNode.build, Call.interfaceMetas,
        metaRw, metaRo, metaOpt]
  case resize a au p s x =>
    refine ⟨_, rfl, rfl, ?_⟩
    obtain ⟨p, b⟩ := p
    obtain rfl : b = false := h
    cases s <;> rfl
  case burn a s r g => exact ⟨_, rfl, rfl, by cases r <;> cases g <;> rfl⟩
  case allocate a p s x => exact ⟨_, rfl, rfl, by cases p <;> cases s <;> rfl⟩
  case transfer a s r g => exact ⟨_, rfl, rfl, by cases g <;> rfl⟩
  case remove a au g r t => exact ⟨_, rfl, rfl, by cases g <;> cases r <;> rfl⟩
  all_goals exact ⟨_, rfl, rfl, rfl⟩

/-- What the client for the bridge builds is what the description of the bridge says. -/
theorem C82_bridge (c : BridgeCall) (h : ∀ x s a b, c = .create x s a b → s = false) :
    buildFrom shankBridgeTypes shankBridgeInstructions program (bridgeName c).1 (bridgeNamed c)
      (bridgeName c).2 = some (c.build program) := by
  cases c with
  | bridge x =>
    obtain ⟨x1, x2, x3, x4, x5, x6, x7, r1, x8, r2, x9, x10, x11, x12, x13, x14, x15, r3, r4, r5⟩ := x
    refine instr_build (d := [0]) ?_ rfl rfl
    cases r1 <;> cases r2 <;> cases r3 <;> cases r4 <;> cases r5 <;>
      simp [bridgeNamed, ifGiven, List.lookup, buildMetas, AccountNode.build, BridgeCall.metas,
        metaRw, metaRo, metaOpt]
  | create x s a b =>
    obtain rfl := h x s a b rfl
    obtain ⟨x1, x2, x3, x4, x5, c, x6, x7⟩ := x
    cases b <;> cases c <;> rfl

/-- What the client for the proxy builds is what the description of the proxy says. -/
theorem C82_proxy (x : ProxyRequest) (h : Text x.name) :
    buildFrom shankProxyTypes shankProxyInstructions program "Create" (proxyNamed x)
      [("metadata", .fields [("name", .bytes x.name)])] = some (x.build program) := by
  obtain ⟨x1, x2, x3, x4, p, s, x5, n⟩ := x
  have e : putNode shankProxyTypes 14 (.sized 4 .string) (.bytes n) = some (toLE 4 n.length ++ n) := by
    simp only [putNode, bind, Option.bind, putNum, h.2, if_true]
    rw [if_pos (show n.length < 256 ^ 4 from h.1)]
    rfl
  refine instr_build ?_ (args_step rfl rfl (args_step rfl
    ((put_struct (n := 14) rfl).trans (putFields_step rfl e rfl)) rfl)) (by simp [toLE])
  cases p <;> cases s <;> rfl

/-! ## What the description does not say -/

private theorem put_hooked {n : Nat} {x : String} (v : NodeVal) :
    putNode codamaTypes n (.hooked x) v = none := by
  cases n with
  | zero => rfl
  | succ n => cases v <;> rfl

private theorem putFields_none {put : NodeType → NodeVal → Option Bytes} {vs : List (String × NodeVal)}
    {fs : List (String × NodeType)} {x : String × NodeType} (hx : x ∈ fs) (h : ∀ v, put x.2 v = none) :
    putFields put vs fs = none := by
  induction fs with
  | nil => cases hx
  | cons f fs ih =>
    rw [putFields]
    cases hv : vs.lookup f.1 with
    | none => rfl
    | some v =>
      rcases List.mem_cons.mp hx with rfl | hm
      · simp [h v]
      · simp only [ih hm, Option.bind_eq_bind, Option.bind_some, Option.bind_none]
        cases put f.2 v <;> rfl

private theorem struct_none {types : List (String × NodeType)} {n : Nat} {fs : List (String × NodeType)}
    {x : String × NodeType} (hx : x ∈ fs) (h : ∀ n v, putNode types n x.2 v = none) (v : NodeVal) :
    putNode types n (.struct fs) v = none := by
  cases n with
  | zero => rfl
  | succ n => cases v <;> first | rfl | exact putFields_none hx (h n)

private theorem link_none {types : List (String × NodeType)} {n : Nat} {x : String} {t : NodeType}
    (ht : types.lookup x = some t) (h : ∀ n v, putNode types n t v = none) (v : NodeVal) :
    putNode types n (.link x) v = none := by
  cases n with
  | zero => rfl
  | succ n => simp [putNode, ht, h]

private theorem delegate_none {n : Nat} (v : NodeVal) : putNode codamaTypes n (.link "delegate") v = none :=
  link_none rfl (fun _ v => struct_none (x := ("address", .hooked "nullablePublicKey")) (by simp)
    (fun _ v => put_hooked v) v) v

/-- The description is not complete: neither the contents of an asset account nor those of the
extensions Grouping, Manager and Proxy can be laid out with it, because the types of keys that may be
missing and of roles are only in the sources of the clients; for Royalties and Properties there is no
type at all. -/
theorem C82_incomplete (n : Nat) (v : NodeVal) :
    putNode codamaTypes n codamaAccount v = none ∧
    (∀ t ∈ [ExtType.grouping, .royalties, .manager, .proxy, .properties],
      putNode codamaTypes n (.link (extName t)) v = none) := by
  refine ⟨struct_none (x := ("delegate", .link "delegate")) (by simp) (fun _ v => delegate_none v) v,
    fun t ht => ?_⟩
  simp only [List.mem_cons, List.not_mem_nil, or_false] at ht
  rcases ht with rfl | rfl | rfl | rfl | rfl
  · exact link_none rfl (fun _ v => struct_none (x := ("delegate", .hooked "nullablePublicKey"))
      (by simp) (fun _ v => put_hooked v) v) v
  · cases n <;> rfl
  · exact link_none rfl (fun _ v => struct_none (x := ("delegate", .link "delegate"))
      (by simp) (fun _ v => delegate_none v) v) v
  · exact link_none rfl (fun _ v => struct_none (x := ("authority", .hooked "nullablePublicKey"))
      (by simp) (fun _ v => put_hooked v) v) v
  · cases n <;> rfl

end

/-! ## Examples -/

section Examples
open Ex

/-- `transfer` by its name. -/
example : buildFrom codamaTypes codamaInstructions prog "transfer"
    [("recipient", (k 5, false)), ("asset", (k 1, false)), ("signer", (k 2, false))] [] =
    some ⟨[⟨k 1, false, true⟩, ⟨k 2, true, false⟩, ⟨k 5, false, false⟩, ⟨prog, false, false⟩], [7]⟩ := by
  decide +kernel

/-- A missing account, an unknown extension type and a length that does not fit are refused. -/
example : buildFrom codamaTypes codamaInstructions prog "transfer" [("asset", (k 1, false))] [] = none ∧
    (let input (t : String) (n : Nat) : List (String × NodeVal) :=
      [("extension", .fields [("extensionType", .variant t none), ("length", .num n), ("data", .absent)])]
    let make t n := buildFrom codamaTypes codamaInstructions prog "allocate" [("asset", (k 1, false))]
      (input t n)
    make "blob" 300 = some ⟨[⟨k 1, true, true⟩, ⟨prog, false, false⟩, ⟨prog, false, false⟩],
      [4, 2, 44, 1, 0, 0, 0]⟩ ∧ make "blobs" 300 = none ∧ make "blob" 4294967296 = none) := by
  decide +kernel

/-- Every request of the JavaScript client, with the defaults of the description. -/
example : ∀ x ∈ jsRequests, buildFilled codamaTypes codamaInstructions prog jsUser.identity jsUser.payer
    (nameOf (instrOf (callOf jsUser x))) (requested x) (requestedArgs x) =
      some ((callOf jsUser x).build prog) := by
  decide +kernel

/-- Attributes. -/
example : putNode codamaTypes 16 (.link "attributes")
    (.fields [("values", .list [.fields [("name", .bytes [97]), ("value", .bytes [98, 99])]])]) =
    some [1, 97, 2, 98, 99] := by
  decide +kernel

/-- The bridge: Create of a collection. -/
example : buildFrom shankBridgeTypes shankBridgeInstructions prog "Create"
    (bridgeNamed (.create ⟨k 1, k 2, k 3, k 4, k 5, none, k 6, Key.system⟩ false (k 7) true))
    [("createArgs", .fields [("isCollection", .bool true)])] =
    some ⟨[⟨k 1, false, true⟩, ⟨k 2, false, true⟩, ⟨k 3, false, false⟩, ⟨k 4, false, false⟩,
      ⟨k 5, false, false⟩, ⟨prog, false, false⟩, ⟨k 6, true, true⟩, ⟨Key.system, false, false⟩,
      ⟨k 7, false, false⟩], [1, 1]⟩ := by
  decide +kernel

end Examples
end Verif.Props

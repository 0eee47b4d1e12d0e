import Verif.Props.Lfvm

/-!
# The long-form EVM with super-instructions (C73)
-/

namespace Tosca

open Tosca.Model Tosca.Spec Tosca.Proofs Tosca.Go Tosca.Model.Go Tosca.Spec.Go

variable {ω : Type}

section
variable {keccak : List Byte → U256} {db : Db ω} {call : CallFn ω} {p : Parameters} {f : Model.Lfvm.Found} {fuel : Parameters → Nat}

/-- C73.  `Run` of the long-form EVM with super-instructions gives the result of the reference interpreter and leaves the client's state as
the reference does (as far as the client does not undo it), unless the contract gets to a JUMP behind SWAP2 SWAP1 POP whose target
is not a 31-bit number. -/
theorem C73_run (h : SuperSetting keccak db call p f) (hfuel : 2 * p.gas.toNat + 2 ≤ fuel p) (w : ω) (hsafe : SafeRun keccak db call p w) :
    (Model.Lfvm.lfvmRun true f fuel db call p w).1 = (nativeRun keccak db call p w).1 ∧
    ((Model.Lfvm.lfvmRun true f fuel db call p w).2 = (nativeRun keccak db call p w).2 ∨ (nativeRun keccak db call p w).1 = .ok {}) :=
  Lfvm.lfvmRun_eq true keccak h.call h.access h.lengths h.run h.input h.code h.gas h.revision h.hash h.cached hfuel w fun _ => hsafe

/-- C73.  Code that does not contain these four bytes in a row is always executed as by the reference interpreter. -/
theorem C73_free (h : SuperSetting keccak db call p f) (hfuel : 2 * p.gas.toNat + 2 ≤ fuel p) (w : ω)
    (hfree : ∀ a b, p.code ≠ a ++ [0x91, 0x90, 0x50, 0x56] ++ b) :
    (Model.Lfvm.lfvmRun true f fuel db call p w).1 = (nativeRun keccak db call p w).1 ∧
    ((Model.Lfvm.lfvmRun true f fuel db call p w).2 = (nativeRun keccak db call p w).2 ∨ (nativeRun keccak db call p w).1 = .ok {}) := by
  refine C73_run h hfuel w fun rev _ k d r hj _ => ?_
  exfalso
  obtain ⟨_, h3, b0, b1, b2, b3⟩ := hj
  generalize (stepsEip (nativeFrame keccak db call p rev) k (initial (nativeFrame keccak db call p rev) w)).pc = q at h3 b0 b1 b2 b3
  obtain ⟨q, rfl⟩ : ∃ x, q = x + 3 := ⟨q - 3, by omega⟩
  rw [show q + 3 - 3 = q by omega] at b0
  rw [show q + 3 - 2 = q + 1 by omega] at b1
  rw [show q + 3 - 1 = q + 2 by omega] at b2
  change byteAt p.code _ = _ at b0 b1 b2 b3
  have at_ : ∀ {i : Nat} {b : Byte}, byteAt p.code i = b → b ≠ 0 → p.code[i]? = some b := by
    intro i b hb h0
    unfold byteAt at hb
    rw [List.getD_eq_getElem?_getD] at hb
    cases hx : p.code[i]? with
    | none => rw [hx] at hb; exact absurd hb.symm h0
    | some x => rw [hx] at hb; exact congrArg some hb
  have e : ∀ {i : Nat} {b : Byte}, p.code[i]? = some b → p.code.drop i = b :: p.code.drop (i + 1) := by
    intro i b hb
    obtain ⟨h1, h2⟩ := List.getElem?_eq_some_iff.1 hb
    rw [List.drop_eq_getElem_cons h1, h2]
  refine hfree (p.code.take q) (p.code.drop (q + 4)) ?_
  conv => lhs; rw [← List.take_append_drop q p.code]
  rw [List.append_assoc]
  congr 1
  rw [e (at_ b0 (by decide)), e (at_ b1 (by decide)), e (at_ b2 (by decide)), e (at_ b3 (by decide))]
  rfl

/-- C73.  What the interpreter did before (the pooled stack, the cached code) has no influence. -/
theorem C73_shared {f' : Model.Lfvm.Found} (h : SuperSetting keccak db call p f) (h' : SuperSetting keccak db call p f')
    (hfuel : 2 * p.gas.toNat + 2 ≤ fuel p) (w : ω) (hsafe : SafeRun keccak db call p w) :
    (Model.Lfvm.lfvmRun true f fuel db call p w).1 = (Model.Lfvm.lfvmRun true f' fuel db call p w).1 :=
  (C73_run h hfuel w hsafe).1.trans (C73_run h' hfuel w hsafe).1.symm

/-- C73.  Both versions of the long-form EVM, with and without super-instructions, give the same result. -/
theorem C73_same {f' : Model.Lfvm.Found} (h : SuperSetting keccak db call p f) (h' : LfvmFound keccak p f')
    (hfuel : 2 * p.gas.toNat + 2 ≤ fuel p) (w : ω) (hsafe : SafeRun keccak db call p w) :
    (Model.Lfvm.lfvmRun true f fuel db call p w).1 = (Model.Lfvm.lfvmRun false f' fuel db call p w).1 :=
  (C73_run h hfuel w hsafe).1.trans
    (C65_run (f := f') ⟨h.call, h.access, h.lengths, h.run, h.input, h.code, h.gas, h.revision, h'⟩ hfuel w).1.symm

end

/-! ### Examples -/

def superFresh : Model.Lfvm.Found := lfvmFresh

def superUsed (code : List Byte) : Model.Lfvm.Found := { cached := Model.Lfvm.convert code true, data := fun _ => 3, hash := demoKeccak }

def superRun (code : List Byte) : Parameters :=
  { block := demoBlock 5, tx := { origin := 1 }, gas := 100000, recipient := 9, sender := 1, codeHash := some 17, code := code }

theorem super_setting {code : List Byte} (hcode : code.length ≤ 2 ^ 16) {f : Model.Lfvm.Found} (hh : f.hash = demoKeccak)
    (hc : ∀ C, f.cached = some C → Model.Lfvm.convert code true = some C) :
    SuperSetting demoKeccak smallDb (fun _ _ w => (.ok {}, w)) (superRun code) f where
  call := by
    intro kind p w r w' h0 _ _ h
    cases h
    exact callOk_zero h0
  access := small_access
  lengths := small_lengths
  run := by
    refine ⟨demo_chain 5 { sender := 1 }, ?_, ?_, ?_, ?_⟩
    · show (0 : Int) ≤ 100000 ∧ (100000 : Int) ≤ 2 ^ 54; omega
    · show -2 ^ 31 ≤ (0 : Int) ∧ (0 : Int) < 2 ^ 31; omega
    · show code.length < 2 ^ 32; omega
    · show 0 < 2 ^ 64; omega
  input := by show 0 < 2 ^ 63; omega
  code := hcode
  gas := by show (100000 : Int) ≤ 2 ^ 40; omega
  revision := by show (0 : Int) ≤ 5; omega
  hash := hh
  cached := hc

/-- A loop that counts from 3 to 0 and writes the numbers it meets to the storage: PUSH1 3; PUSH1 0; POP; JUMPDEST; DUP1; DUP1; SSTORE; PUSH1 1;
SWAP1; SUB; DUP1; PUSH2 5; JUMPI; PUSH1 32; PUSH1 0; RETURN. -/
def superCode : List Byte :=
  [0x60, 3, 0x60, 0, 0x50, 0x5b, 0x80, 0x80, 0x55, 0x60, 1, 0x90, 0x03, 0x80, 0x61, 0, 5, 0x57, 0x60, 32, 0x60, 0, 0xf3]

def superLoop : Parameters := superRun superCode

theorem superUsed_ok (code : List Byte) (C : Model.Lfvm.Code) (h : (superUsed code).cached = some C) : Model.Lfvm.convert code true = some C := h

/-- The hypotheses of C73_free are met by it, on a new interpreter and on one that knows the code. -/
example : SuperSetting demoKeccak smallDb (fun _ _ w => (.ok {}, w)) superLoop superFresh ∧
    SuperSetting demoKeccak smallDb (fun _ _ w => (.ok {}, w)) superLoop (superUsed superCode) ∧
    ∀ a b, superLoop.code ≠ a ++ [0x91, 0x90, 0x50, 0x56] ++ b := by
  refine ⟨super_setting (by decide) rfl (fun _ h => by cases h), super_setting (by decide) rfl (superUsed_ok _), fun a b h => ?_⟩
  have : (0x91 : Byte) ∈ superLoop.code := by rw [h]; simp
  revert this
  decide

/-- Its code with super-instructions (PUSH1_PUSH1 twice and PUSH2_JUMPI). -/
example : ((Model.Lfvm.convert superCode true).getD []).map (fun i => (i.opcode, i.arg.toNat)) =
    [(268, 768), (80, 0), (256, 5), (257, 0), (257, 0), (91, 0), (128, 0), (128, 0), (85, 0), (96, 256), (144, 0), (3, 0),
      (128, 0), (267, 5), (268, 8192), (243, 0)] := by
  decide +kernel

/-- What it does: three values stored. -/
example : runSummary (Model.Lfvm.lfvmRun true superFresh (fun _ => 200) smallDb (fun _ _ w => (.ok {}, w)) superLoop {}).1 =
      some (true, List.replicate 32 0, 33587, 0) ∧
    (Model.Lfvm.lfvmRun true superFresh (fun _ => 200) smallDb (fun _ _ w => (.ok {}, w)) superLoop {}).2.storage 9 2 = 2 := by
  decide +kernel

/-- A function return: PUSH1 10; PUSH1 7; PUSH1 0; SWAP2; SWAP1; POP; JUMP; JUMPDEST; STOP. -/
def superReturn : List Byte := [0x60, 10, 0x60, 7, 0x60, 0, 0x91, 0x90, 0x50, 0x56, 0x5b, 0x00]

/-- After `k` steps the frame is at `q`, with this stack and this gas. -/
def IsAt (P : Params ω) (s : State ω) (k q : Nat) (st : List U256) (g : Nat) : Prop :=
  (stepsEip P k s).status = .running ∧ (stepsEip P k s).pc = q ∧ (stepsEip P k s).stack = st ∧ (stepsEip P k s).gas = g

theorem stepsEip_last (P : Params ω) (s : State ω) (k : Nat) : stepsEip P (k + 1) s = stepEip P (stepsEip P k s) := stepsEip_add k 1 s

theorem IsAt.easy {P : Params ω} {s : State ω} {k q : Nat} {st : List U256} {g : Nat} (h : IsAt P s k q st g) (i : Instr)
    (hd : decode (byteAt P.code q).toNat = some i) (hi : Lfvm.stackOnly i = true) (hs : i.since = 0) (hw : i.writes = false)
    (hf : i.pops ≤ st.length ∧ st.length + i.pushes ≤ 1024 + i.pops ∧ i.baseGas ≤ g) {q' : Nat} {st' : List U256} {g' : Nat}
    (hq : q + i.length = q') (hst : Lfvm.eff P.code q i st = st') (hg : g - i.baseGas = g') : IsAt P s (k + 1) q' st' g' := by
  obtain ⟨h1, h2, h3, h4⟩ := h
  unfold IsAt
  rw [stepsEip_last]
  generalize stepsEip P k s = t at h1 h2 h3 h4
  subst h2 h3 h4 hq hst hg
  rw [(Lfvm.stepEip_easy h1 hd hs hw).2 hf, Lfvm.exec_eff _ hi (by exact hf.1)]
  exact ⟨h1, rfl, rfl, rfl⟩

theorem superReturn_target : JumpTarget superReturn 10 := by
  refine ⟨by decide, by decide, ?_⟩
  have b0 : Boundary superReturn 0 := .zero
  have b2 : Boundary superReturn 2 := b0.next (i := .push 1) (by decide) (by decide)
  have b4 : Boundary superReturn 4 := b2.next (i := .push 1) (by decide) (by decide)
  have b6 : Boundary superReturn 6 := b4.next (i := .push 1) (by decide) (by decide)
  have b7 : Boundary superReturn 7 := b6.next (i := .swap 2) (by decide) (by decide)
  have b8 : Boundary superReturn 8 := b7.next (i := .swap 1) (by decide) (by decide)
  have b9 : Boundary superReturn 9 := b8.next (i := .pop) (by decide) (by decide)
  exact b9.next (i := .jump) (by decide) (by decide)

/-- The hypotheses of C73_run are met by it. -/
theorem superReturn_safe (w : DemoWorld) : SafeRun demoKeccak smallDb (fun _ _ w => (.ok {}, w)) (superRun superReturn) w := by
  intro rev hrev k d r hj hs
  have hr : rev = 12 := by
    have : revisionOf (superRun superReturn).block.revision = some 12 := by decide
    rw [this] at hrev
    injection hrev with hrev
    exact hrev.symm
  subst hr
  have hc : (nativeFrame demoKeccak smallDb (fun _ _ w => (.ok {}, w)) (superRun superReturn) 12).code = superReturn := rfl
  have a0 : IsAt (nativeFrame demoKeccak smallDb (fun _ _ w => (.ok {}, w)) (superRun superReturn) 12)
      (initial (nativeFrame demoKeccak smallDb (fun _ _ w => (.ok {}, w)) (superRun superReturn) 12) w) 0 0 [] 100000 := ⟨rfl, rfl, rfl, rfl⟩
  revert hc a0 hj hs
  generalize nativeFrame demoKeccak smallDb (fun _ _ w => (.ok {}, w)) (superRun superReturn) 12 = P
  generalize initial P w = s
  intro hj hs hc a0
  have a1 : IsAt P s 1 2 [10] 99997 := a0.easy (.push 1) (by rw [hc]; rfl) rfl rfl rfl (by decide) rfl (by rw [hc]; rfl) rfl
  have a2 : IsAt P s 2 4 [7, 10] 99994 := a1.easy (.push 1) (by rw [hc]; rfl) rfl rfl rfl (by decide) rfl (by rw [hc]; rfl) rfl
  have a3 : IsAt P s 3 6 [0, 7, 10] 99991 := a2.easy (.push 1) (by rw [hc]; rfl) rfl rfl rfl (by decide) rfl (by rw [hc]; rfl) rfl
  have a4 : IsAt P s 4 7 [10, 7, 0] 99988 := a3.easy (.swap 2) (by rw [hc]; rfl) rfl rfl rfl (by decide) rfl (by rw [hc]; rfl) rfl
  have a5 : IsAt P s 5 8 [7, 10, 0] 99985 := a4.easy (.swap 1) (by rw [hc]; rfl) rfl rfl rfl (by decide) rfl (by rw [hc]; rfl) rfl
  have a6 : IsAt P s 6 9 [10, 0] 99983 := a5.easy .pop (by rw [hc]; rfl) rfl rfl rfl (by decide) rfl (by rw [hc]; rfl) rfl
  have a7 : IsAt P s 7 10 [0] 99975 := by
    obtain ⟨h1, h2, h3, h4⟩ := a6
    unfold IsAt
    rw [stepsEip_last]
    generalize stepsEip P 6 s = t at h1 h2 h3 h4
    rw [(Lfvm.stepEip_easy (P := P) (i := .jump) h1 (by rw [hc, h2]; rfl) rfl rfl).2 (by rw [h3, h4]; decide)]
    have ht : JumpTarget P.code 10 := by rw [hc]; exact superReturn_target
    simp [execEip, exec, State.pop1, jumpTo, h1, h3, h4, Instr.baseGas]
    rw [if_pos ht]
    exact ⟨rfl, rfl, rfl, rfl⟩
  have a8 : (stepsEip P 8 s).pc = 11 := by
    obtain ⟨h1, h2, h3, h4⟩ := a7
    rw [stepsEip_last]
    generalize stepsEip P 7 s = t at h1 h2 h3 h4
    rw [(Lfvm.stepEip_easy (P := P) (i := .jumpdest) h1 (by rw [hc, h2]; rfl) rfl rfl).2 (by rw [h3, h4]; decide)]
    simp [execEip, exec, h2, Instr.length]
  have off : ∀ n, (∃ st g, IsAt P s k n st g) → byteAt superReturn n ≠ 0x56 → False := by
    intro n ⟨st, g, h⟩ hb
    have := hj.2.2.2.2.2
    rw [hc, h.2.1] at this
    exact hb this
  have hk : k ≤ 6 ∨ k = 7 ∨ k = 8 ∨ 9 ≤ k := by omega
  rcases hk with hk | rfl | rfl | hk
  · match k, hk with
    | 0, _ => exact (off 0 ⟨_, _, a0⟩ (by decide)).elim
    | 1, _ => exact (off 2 ⟨_, _, a1⟩ (by decide)).elim
    | 2, _ => exact (off 4 ⟨_, _, a2⟩ (by decide)).elim
    | 3, _ => exact (off 6 ⟨_, _, a3⟩ (by decide)).elim
    | 4, _ => exact (off 7 ⟨_, _, a4⟩ (by decide)).elim
    | 5, _ => exact (off 8 ⟨_, _, a5⟩ (by decide)).elim
    | 6, _ =>
      rw [a6.2.2.1] at hs
      injection hs with hs _
      subst hs
      exact .inl (by decide)
  · exact (off 10 ⟨_, _, a7⟩ (by decide)).elim
  · have := hj.2.2.2.2.2
    rw [hc, a8] at this
    exact absurd this (by decide)
  · exfalso
    have a9 : (stepsEip P 9 s).status ≠ .running := by
      rw [stepsEip_last]
      by_cases hr : (stepsEip P 8 s).status = .running
      · generalize stepsEip P 8 s = t at a8 hr
        have hd : decode (byteAt P.code t.pc).toNat = some .stop := by rw [hc, a8]; rfl
        unfold stepEip
        rw [if_pos hr, hd]
        dsimp only
        unfold execInstrEip
        simp [Instr.since, Instr.writes, Instr.pops, Instr.pushes, stackLimit, Instr.baseGas, State.charge, execEip, exec]
        split <;> simp [State.fail]
      · exact (by rw [show stepEip P (stepsEip P 8 s) = stepsEip P 1 (stepsEip P 8 s) from rfl, stepsEip_halted hr]; exact hr)
    have e := stepsEip_add (P := P) 9 (k - 9) s
    rw [show 9 + (k - 9) = k by omega, stepsEip_halted a9] at e
    rw [e] at hj
    exact a9 hj.1

/-- What it does. -/
example : ((Model.Lfvm.convert superReturn true).getD []).map (fun i => i.opcode) = [268, 96, 259, 256, 257, 257, 257, 257, 257, 257, 91, 0] ∧
    runSummary (Model.Lfvm.lfvmRun true superFresh (fun _ => 200) smallDb (fun _ _ w => (.ok {}, w)) (superRun superReturn) {}).1 =
      some (true, [], 99974, 0) := by
  decide +kernel

/-! ### Targets that do not fit -/

/-- The same with the target 2^32 + 14: PUSH5 0x010000000e; PUSH1 7; PUSH1 0; SWAP2; SWAP1; POP; JUMP; JUMPDEST; STOP. -/
def superWide : List Byte := [0x64, 1, 0, 0, 0, 14, 0x60, 7, 0x60, 0, 0x91, 0x90, 0x50, 0x56, 0x5b, 0x00]

/-- The same with the target 2^31. -/
def superNegative : List Byte := [0x63, 0x80, 0, 0, 0, 0x60, 7, 0x60, 0, 0x91, 0x90, 0x50, 0x56, 0x5b, 0x00]

theorem plain_setting (code : List Byte) (hcode : code.length ≤ 2 ^ 16) :
    LfvmSetting demoKeccak smallDb (fun _ _ w => (.ok {}, w)) (superRun code) lfvmFresh :=
  have s := super_setting hcode (f := lfvmFresh) rfl (fun _ h => by cases h)
  ⟨s.call, s.access, s.lengths, s.run, s.input, s.code, s.gas, s.revision, lfvmFresh_ok _⟩

theorem summary_failed {x : Except Err RunResult} (h : runSummary x = some (false, [], 0, 0)) : x = .ok {} := by
  cases x with
  | error _ => cases h
  | ok r =>
    obtain ⟨a, b, c, d⟩ := r
    simp only [runSummary, Option.some.injEq, Prod.mk.injEq] at h
    obtain ⟨rfl, rfl, rfl, rfl⟩ := h
    rfl

def hasPanicked (x : Except Err RunResult) : Bool := match x with
  | .error .crash => true
  | _ => false

theorem panicked {x : Except Err RunResult} (h : hasPanicked x = true) : x = .error .crash := by
  unfold hasPanicked at h
  split at h
  · rfl
  · cases h

/-- C73 (the condition is needed): the reference fails on a jump to 2^32 + 14; the long-form EVM with super-instructions goes on at offset 14. -/
theorem C73_wide :
    (nativeRun demoKeccak smallDb (fun _ _ w => (.ok {}, w)) (superRun superWide) {}).1 = .ok {} ∧
    runSummary (Model.Lfvm.lfvmRun true superFresh (fun _ => 200100) smallDb (fun _ _ w => (.ok {}, w)) (superRun superWide) {}).1 =
      some (true, [], 99974, 0) := by
  refine ⟨?_, by decide +kernel⟩
  rw [← (C65_run (fuel := fun _ => 200100) (plain_setting superWide (by decide)) (by decide) {}).1]
  exact summary_failed (by decide +kernel)

/-- C73 (the condition is needed): on a jump to 2^31 it panics; the reference fails. -/
theorem C73_negative :
    (nativeRun demoKeccak smallDb (fun _ _ w => (.ok {}, w)) (superRun superNegative) {}).1 = .ok {} ∧
    (Model.Lfvm.lfvmRun true superFresh (fun _ => 200100) smallDb (fun _ _ w => (.ok {}, w)) (superRun superNegative) {}).1 = .error .crash := by
  constructor
  · rw [← (C65_run (fuel := fun _ => 200100) (plain_setting superNegative (by decide)) (by decide) {}).1]
    exact summary_failed (by decide +kernel)
  · exact panicked (by decide +kernel)

end Tosca

import Verif.Spec.Trace
import Verif.Proofs.Step

/-!
# The dispatch of one instruction against the specification's steps
-/

namespace Tosca.Proofs

open Tosca.Model Tosca.Spec

variable {σ ω : Type} {P : Params σ} {c : Ctx σ} {E : Env σ}

theorem runStateOf_inj {a b : Status} (h : runStateOf a = runStateOf b) : a = b := by
  cases a with
  | failed w => cases b with
    | failed w' => cases w <;> cases w' <;> simp [runStateOf] at h <;> rfl
    | _ => cases w <;> simp [runStateOf] at h
  | _ => cases b with
    | failed w' => cases w' <;> simp [runStateOf] at h
    | _ => simp [runStateOf] at h <;> rfl

theorem rel_gas_fail {pc pc' : Option Nat} {g g' top top' : Int} {s : State σ}
    (h : Rel .errorGas pc g top c s) : Rel .errorGas pc' g' top' c s := by
  have hs : s.status = .failed .outOfGas := runStateOf_inj h.state.symm
  refine ⟨h.state, h.refund, h.world, h.failed, h.stopped, ?_, ?_⟩
  · intro hn; exact absurd hs (hn _)
  · intro hn; exact absurd hs (hn _)

theorem rel_fail_pc {pc : Option Nat} {gas top : Int} {s s' : State σ} {why : Failure} {r : RunState}
    (h : Rel r pc gas top c (s.fail why)) (h1 : s.refund = s'.refund) (h2 : s.host = s'.host) :
    Rel r pc gas top c (s'.fail why) :=
  rel_fail h.state (h.refund.trans h1) (h.world.trans h2)

/-- A running state is the abstraction of the context. -/
theorem rel_abs {r : RunState} {pc : Option Nat} {gas top : Int} {s : State σ} (h : Rel r pc gas top c s)
    (hr : s.status = .running) :
    ∃ t : Nat, t ≤ 1024 ∧ top = t ∧ s = absState c t s.gas s.pc ∧ pc = some s.pc ∧ gas = s.gas := by
  obtain ⟨h1, h2, h3, t, h4, h5, h6⟩ := h.alive (by rw [hr]; simp)
  have h7 := h.ret (by rw [hr]; simp) (by rw [hr]; simp)
  refine ⟨t, h5, h4, ?_, h1, h2⟩
  obtain ⟨st, p, g, rf, stk, m, rt, ho⟩ := s
  simp only at *
  subst hr h6 h7 h3
  have := h.refund
  have := h.world
  simp_all [absState]

/-- The rest of `run` after the common checks, for non-jumps. -/
theorem afterInvoke (op : OpCode) (t g pc pc' len : Nat) (s' : State σ) (d : Int) (hg : g ≤ 2 ^ 54)
    (hpc : pc' = pc + len)
    (h : Ok (invoke E op t g pc) c (Post P c pc' g ((t : Int) - d) s')) :
    Ok (do
      let res ← invoke E op t g pc
      if res.dynGas > 0 then
        if res.dynGas > g then return { state := .errorGas }
        else
          let gas ← OpM.lift (chk64 ((g : Int) - res.dynGas))
          return { state := res.state, pc := some (pc + len), gasLeft := gas }
      else return { state := res.state, pc := some (pc + len), gasLeft := g } : OpM σ Result) c
      fun res c' => Frame P c c' ∧ Rel res.state res.pc res.gasLeft ((t : Int) - d) c' s' := by
  subst hpc
  rw [ok_bind]
  refine ok_mono h ?_
  rintro res c' ⟨hf, hr⟩
  by_cases h0 : res.dynGas > 0
  · rw [if_pos h0]
    by_cases h1 : res.dynGas > g
    · rw [if_pos h1, ok_pure]
      rw [outcome_tooMuch _ _ h1] at hr
      exact ⟨hf, rel_gas_fail hr⟩
    · rw [if_neg h1, ok_bind, ok_chk64 _ (by unfold int64Min int64Max; omega), ok_pure]
      rw [outcome_enough _ _ (by omega) (by omega)] at hr
      exact ⟨hf, hr⟩
  · rw [if_neg h0, ok_pure]
    have : outcome res g = (res.state, (g : Int)) := by unfold outcome; rw [if_neg h0]
    rw [this] at hr
    exact ⟨hf, hr⟩

theorem checkJumpDest_ok (hP : ParamsBase P) (hc : Fixed P c) (d : U256) :
    (JumpTarget P.code d.toNat → checkJumpDest d c = .ok (true, c)) ∧
    (¬ JumpTarget P.code d.toNat → checkJumpDest d c = .ok (false, { c with state := .errorJump })) := by
  obtain ⟨hl, ht⟩ := jumpTargets_spec P.code
  have hlt := hP.code
  constructor
  · intro h
    have hd : d.toNat < P.code.length := h.1
    have hlo : lo64 d = d.toNat := by unfold lo64; rw [Nat.mod_eq_of_lt]; unfold u64Mod; omega
    unfold checkJumpDest
    rw [if_neg (by unfold u64Mod; rw [not_not]; exact Nat.div_eq_of_lt (by omega))]
    dsimp only
    rw [hc.jumps, hlo, if_neg (by omega), if_neg ((ht _).2 h)]
  · intro h
    unfold checkJumpDest
    by_cases hbig : d.toNat / u64Mod ≠ 0
    · rw [if_pos hbig]
    · rw [if_neg hbig]
      have hlo : lo64 d = d.toNat := by
        unfold lo64; rw [Nat.mod_eq_of_lt]; unfold u64Mod at *; omega
      dsimp only
      rw [hc.jumps, hlo]
      split
      · rfl
      · rw [if_pos (by
          apply Classical.byContradiction
          intro h'
          exact h ((ht _).1 h'))]

/-- `run` after the common checks and the static charge. -/
def runRest (E : Env σ) (stepping : Bool) (op : OpCode) (pc : Nat) (gas top : Int) : OpM σ Result :=
  if op.info.isJump then do
    let taken ← runJump op top
    if taken then
      let dest ← OpM.rd top
      let ok ← checkJumpDest dest
      if !ok then
        let c ← OpM.get
        return { state := c.state }
      else
        let dest ← OpM.rd top
        let pc := dest.toNat % 4294967296
        if !stepping then
          if gas < OpCode.JUMPDEST.info.staticGas then return { state := .errorGas }
          else
            let gas ← OpM.lift (chk64 (gas - OpCode.JUMPDEST.info.staticGas))
            return { state := .running, pc := some (pc + 1), gasLeft := gas }
        else return { state := .running, pc := some pc, gasLeft := gas }
    else return { state := .running, pc := some (pc + 1), gasLeft := gas }
  else do
    let res ← invoke E op top gas pc
    if res.dynGas > 0 then
      if res.dynGas > gas then return { state := .errorGas }
      else
        let gas ← OpM.lift (chk64 (gas - res.dynGas))
        return { state := res.state, pc := some (pc + op.info.length), gasLeft := gas }
    else return { state := res.state, pc := some (pc + op.info.length), gasLeft := gas }

theorem run_eq (stepping : Bool) (op : OpCode) (pc : Nat) (gas top size : Int) :
    run E stepping op pc gas top size = (do
        let c ← OpM.get
        if op.info.notYetIn c.revision then
          return { state := .errorOpcode }
        else if op.info.disallowedInStaticCall ∧ c.isStatic then return { state := .errorStaticCall }
        else if op.info.pops > 0 ∧ size < op.info.pops then return { state := .errorStackUnderflow }
        else if op.info.delta > 0 ∧ (kStackSize : Int) - size < op.info.delta then
          return { state := .errorStackOverflow }
        else if gas < op.info.staticGas then return { state := .errorGas }
        else
          let gas ← OpM.lift (chk64 (gas - op.info.staticGas))
          runRest E stepping op pc gas top) := rfl

/-- The common checks of an instruction. -/
theorem run_checks (op : OpCode) (stepping : Bool) (t g pc : Nat) (ht : t ≤ 1024)
    (hc : Fixed P c) (hg : g ≤ 2 ^ 54) (Q : Result → Ctx σ → State σ → Prop)
    (hfail : ∀ r why, r = runStateOf (.failed why) → Q { state := r } c ((absState c t g pc).fail why))
    (hgo : t + (toInstr op).pops ≤ 1024 → (toInstr op).pushes ≤ t + (toInstr op).pops →
      (toInstr op).baseGas ≤ g →
      Ok (runRest E stepping op pc ((g - (toInstr op).baseGas : Nat) : Int) t) c fun res c' =>
        Q res c' (exec P pc (toInstr op) (absState c t (g - (toInstr op).baseGas) (pc + (toInstr op).length)))) :
    Ok (run E stepping op pc g t (1024 - (t : Int))) c fun res c' =>
      Q res c' (execInstr P (toInstr op) (absState c t g pc)) := by
  have hi := info_ok op
  rw [run_eq, ok_bind, ok_get]
  unfold execInstr
  rw [hi.since, hc.rev]
  by_cases h1 : P.rev < (toInstr op).since
  · rw [if_pos (decide_eq_true h1), if_pos h1, ok_pure]
    exact hfail _ _ rfl
  rw [if_neg (by rw [decide_eq_true_iff]; exact h1), if_neg h1]
  rw [hi.static, hc.static]
  by_cases h2 : (toInstr op).writes = true ∧ P.msg.isStatic = true
  · rw [if_pos h2, if_pos h2, ok_pure]
    exact hfail _ _ rfl
  rw [if_neg h2, if_neg h2]
  have hlen : (absState c t g pc).stack.length = 1024 - t := absStack_length _ _
  rw [hlen, hi.pops]
  by_cases h3 : 1024 - t < (toInstr op).pops
  · rw [if_pos (by omega), if_pos h3, ok_pure]
    exact hfail _ _ rfl
  rw [if_neg (by omega), if_neg h3]
  have hd : op.info.delta = (((toInstr op).pushes : Nat) : Int) - (((toInstr op).pops : Nat) : Int) := by
    unfold OpInfo.delta; rw [hi.pops, hi.pushes]
  rw [hd]
  unfold kStackSize stackLimit
  by_cases h4 : 1024 - t + (toInstr op).pushes > 1024 + (toInstr op).pops
  · rw [if_pos (by omega), if_pos h4, ok_pure]
    exact hfail _ _ rfl
  rw [if_neg (by omega), if_neg h4, hi.gas]
  by_cases h5 : g < (toInstr op).baseGas
  · rw [if_pos (by omega), charge_poor _ _ _ (show (absState c t g pc).gas < _ from h5), ok_pure]
    exact hfail _ _ rfl
  rw [if_neg (by omega), charge_rich _ _ _ (show ¬ (absState c t g pc).gas < _ from h5), ok_bind,
    ok_chk64 _ (by unfold int64Min int64Max; omega)]
  have := hgo (by omega) (by omega) (by omega)
  rw [show ((g - (toInstr op).baseGas : Nat) : Int) = (g : Int) - ((toInstr op).baseGas : Nat) by omega] at this
  exact this

/-- The states related to a result: after the instruction, or, when `run` is not stepping and a jump
is taken (`j`), also after the JUMPDEST executed together with the jump. -/
def RunPost (P : Params σ) (stepping : Bool) (j : Prop) (c : Ctx σ) (top' : Int) (res : Result) (c' : Ctx σ)
    (s' : State σ) : Prop :=
  Frame P c c' ∧ (¬ (stepping = false ∧ j ∧ s'.status = .running) ∧ Rel res.state res.pc res.gasLeft top' c' s' ∨
    (stepping = false ∧ j ∧ s'.status = .running) ∧ Rel res.state res.pc res.gasLeft top' c' (step P s'))

theorem jumpTarget_byte {code : List Byte} {d : Nat} (h : JumpTarget code d) : byteAt code d = 0x5b := by
  obtain ⟨hd, hb, _⟩ := h
  unfold byteAt
  rw [List.getD_eq_getElem?_getD, List.getElem?_eq_getElem hd]
  apply BitVec.eq_of_toNat_eq
  exact hb

/-- Executing the JUMPDEST at a jump target. -/
theorem step_jumpdest (d : Nat) (hd : JumpTarget P.code d) (t g : Nat) :
    step P (absState c t g d) =
      if g < 1 then (absState c t g d).fail .outOfGas else absState c t (g - 1) (d + 1) := by
  unfold step
  rw [if_pos (show (absState c t g d).status = .running from rfl)]
  rw [show (absState c t g d).pc = d from rfl, jumpTarget_byte hd]
  show execInstr P .jumpdest _ = _
  unfold execInstr
  have hlen : (absState c t g d).stack.length = 1024 - t := absStack_length _ _
  rw [hlen]
  rw [show Instr.since .jumpdest = 0 from rfl, show Instr.writes .jumpdest = false from rfl,
    show Instr.pops .jumpdest = 0 from rfl, show Instr.pushes .jumpdest = 0 from rfl]
  unfold stackLimit
  rw [if_neg (by simp), if_neg (by simp), if_neg (by omega), if_neg (by omega)]
  rfl

theorem runJumpTo_ok (hP : ParamsBase P) (hc : Fixed P c) (stepping : Bool) (t t' g pc' : Nat) {j : Prop} (hjmp : j)
    (ht : t < 1024) (ht' : t' ≤ 1024) (hg : g ≤ 2 ^ 54) :
    Ok (do
      let dest ← OpM.rd (t : Int)
      let ok ← checkJumpDest dest
      if !ok then
        let c ← OpM.get
        return { state := c.state }
      else
        let dest ← OpM.rd (t : Int)
        let pc := dest.toNat % 4294967296
        if !stepping then
          if (g : Int) < OpCode.JUMPDEST.info.staticGas then return { state := .errorGas }
          else
            let gas ← OpM.lift (chk64 ((g : Int) - OpCode.JUMPDEST.info.staticGas))
            return { state := .running, pc := some (pc + 1), gasLeft := gas }
        else return { state := .running, pc := some pc, gasLeft := g } : OpM σ Result) c fun res c' =>
      RunPost P stepping j c (t' : Int) res c' (jumpTo P (c.stack.buf t) (absState c t' g pc')) := by
  rw [ok_bind, ok_rd t _ rfl ht, ok_bind]
  have hck := checkJumpDest_ok hP hc (c.stack.buf t)
  have hlt := hP.code
  unfold jumpTo
  by_cases hj : JumpTarget P.code (c.stack.buf t).toNat
  · rw [ok_of_eq (hck.1 hj), if_pos hj]
    simp only [Bool.not_true, Bool.false_eq_true, if_false]
    rw [ok_bind, ok_rd t _ rfl ht]
    have hd : (c.stack.buf t).toNat < P.code.length := hj.1
    rw [Nat.mod_eq_of_lt (by omega)]
    cases stepping with
    | true =>
      simp only [Bool.not_true, Bool.false_eq_true, if_false, ok_pure]
      refine ⟨hc.frame, .inl ⟨fun h => (by simp at h), ?_⟩⟩
      exact rel_running t' rfl rfl rfl rfl rfl rfl rfl ht' rfl rfl
    | false =>
      simp only [Bool.not_false, if_true]
      rw [show OpCode.JUMPDEST.info.staticGas = 1 from rfl]
      have e := step_jumpdest (c := c) _ hj t' g
      by_cases h0 : g < 1
      · rw [if_pos (show (g : Int) < 1 by omega), ok_pure]
        refine ⟨hc.frame, .inr ⟨⟨rfl, hjmp, rfl⟩, ?_⟩⟩
        rw [if_pos h0] at e
        rw [show ({ absState c t' g pc' with pc := (c.stack.buf t).toNat } : State σ) =
          absState c t' g (c.stack.buf t).toNat from rfl, e]
        exact rel_fail rfl rfl rfl
      · rw [if_neg (show ¬ (g : Int) < 1 by omega), ok_bind,
          ok_chk64 _ (show _ ≤ (g : Int) - 1 ∧ (g : Int) - 1 ≤ _ by unfold int64Min int64Max; omega), ok_pure]
        refine ⟨hc.frame, .inr ⟨⟨rfl, hjmp, rfl⟩, ?_⟩⟩
        rw [if_neg h0] at e
        rw [show ({ absState c t' g pc' with pc := (c.stack.buf t).toNat } : State σ) =
          absState c t' g (c.stack.buf t).toNat from rfl, e]
        refine rel_running t' rfl rfl rfl rfl ?_ rfl rfl ht' rfl rfl
        show (g : Int) - 1 = ((g - 1 : Nat) : Int)
        omega
  · rw [ok_of_eq (hck.2 hj), if_neg hj]
    simp only [Bool.not_false, if_true]
    rw [ok_bind, ok_get, ok_pure]
    refine ⟨⟨⟨hc.1, hc.2, hc.3, hc.4, hc.5, hc.6⟩, rfl, rfl⟩, .inl ⟨fun h => (by simp [State.fail] at h), ?_⟩⟩
    exact rel_fail rfl rfl rfl

theorem run_ok (hP : ParamsBase P) (hE : EnvOk P E) (op : OpCode) (stepping : Bool) (t g pc : Nat)
    (ht : t ≤ 1024) (hC : CtxOk P c g 0)
    (hpc : pc < P.code.length ∨ (toInstr op).length = 1 ∧ pc < P.code.length + 33) :
    Ok (run E stepping op pc g t (1024 - (t : Int))) c fun res c' =>
      RunPost P stepping (takesJump (toInstr op) (absState c t g pc)) c ((t : Int) - op.info.delta) res c' (execInstr P (toInstr op) (absState c t g pc)) := by
  have hc := hC.fixed
  have h54 : g ≤ 2 ^ 54 := by have := hC.mem.gas; omega
  generalize hJ : takesJump (toInstr op) (absState c t g pc) = j
  refine run_checks op stepping t g pc ht hc h54 _ ?_ ?_
  · intro r why hr
    exact ⟨hc.frame, .inl ⟨fun h => (by simp [State.fail] at h), rel_fail hr rfl rfl⟩⟩
  · intro hp hq hb
    have hcases : op = .JUMP ∨ op = .JUMPI ∨ op.info.isJump = false := by
      rw [(info_ok op).jump]
      by_cases h1 : op = .JUMP
      · exact .inl h1
      · by_cases h2 : op = .JUMPI
        · exact .inr (.inl h2)
        · exact .inr (.inr (by simp [h1, h2]))
    rcases hcases with rfl | rfl | hj
    · dsimp only [toInstr, Instr.pops, Instr.pushes, Instr.baseGas, Instr.length] at *
      unfold runRest
      rw [if_pos (show OpCode.JUMP.info.isJump = true from rfl), ok_bind]
      unfold runJump
      dsimp only
      rw [ok_pure, if_pos rfl]
      have := runJumpTo_ok hP hc stepping t (t + 1) (g - 8) (pc + 1) (j := j) (hJ ▸ .inl rfl) (by omega) (by omega) (by omega)
      unfold exec
      simp only [State.pop1, absState, absStack_cons c.stack.buf t (by omega)]
      rw [show ((t : Int) - OpCode.JUMP.info.delta) = ((t + 1 : Nat) : Int) by
        show (t : Int) - (0 - 1) = _
        omega]
      exact this
    · dsimp only [toInstr, Instr.pops, Instr.pushes, Instr.baseGas, Instr.length] at *
      unfold runRest
      rw [if_pos (show OpCode.JUMPI.info.isJump = true from rfl), ok_bind]
      unfold runJump
      dsimp only
      rw [ok_bind, ok_rd1 t (by omega), ok_pure]
      unfold exec
      simp only [State.pop2, State.pop1, absState, absStack_c2 c.stack.buf t (by omega)]
      rw [show ((t : Int) - OpCode.JUMPI.info.delta) = ((t + 2 : Nat) : Int) by
        show (t : Int) - (0 - 2) = _
        omega]
      by_cases hv : c.stack.buf (t + 1) = 0
      · rw [if_neg (by simpa using hv), if_neg (not_not_intro ((toNat_eq_zero _).1 hv)), ok_pure]
        refine ⟨hc.frame, .inl ⟨?_, ?_⟩⟩
        · rintro ⟨_, h, _⟩
          rw [← hJ] at h
          rcases h with h | ⟨_, h⟩
          · cases h
          · apply h
            show (absStack c.stack.buf t).getD 1 0 = 0
            rw [absStack_c2 c.stack.buf t (by omega)]
            exact hv
        exact rel_running (t + 2) rfl rfl rfl rfl rfl rfl rfl (by omega) rfl rfl
      · rw [if_pos (by simpa using hv), if_pos ((toNat_ne_zero _).1 hv)]
        refine runJumpTo_ok hP hc stepping t (t + 2) (g - 10) (pc + 1) (j := j) ?_ (by omega) (by omega) (by omega)
        rw [← hJ]
        refine .inr ⟨rfl, ?_⟩
        show (absStack c.stack.buf t).getD 1 0 ≠ 0
        rw [absStack_c2 c.stack.buf t (by omega)]
        exact hv
    · unfold runRest
      rw [if_neg (by rw [hj]; simp)]
      have hC' : CtxOk P c (g - (toInstr op).baseGas) (toInstr op).baseGas :=
        ⟨hc, by rw [Nat.sub_add_cancel hb]; exact hC.mem, by rw [Nat.sub_add_cancel hb]; exact hC.refund, hC.ret⟩
      have := invoke_ok hP hE op t (g - (toInstr op).baseGas) pc hj hC' hp hq hpc
      have h2 := afterInvoke op t _ pc _ op.info.length _ _ (by omega)
        (by rw [(info_ok op).length]) this
      refine ok_mono h2 fun res c' h => ⟨h.1, .inl ⟨?_, h.2⟩⟩
      rintro ⟨_, h', _⟩
      rw [← hJ] at h'
      rcases h' with h' | ⟨h', _⟩
      · cases op <;> first | (cases h'; done) | (rw [show OpCode.JUMP.info.isJump = true from rfl] at hj; cases hj)
      · cases op <;> first | (cases h'; done) | (rw [show OpCode.JUMPI.info.isJump = true from rfl] at hj; cases hj)

end Tosca.Proofs

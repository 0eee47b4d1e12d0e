import Verif.Proofs.Adv

/-!
# The dispatch loop against the specification's steps
-/

namespace Tosca.Proofs

open Tosca.Model Tosca.Spec

variable {σ ω : Type} {P : Params σ} {c : Ctx σ} {E : Env σ}

/-- The interpreter's local variables and context agree with a specification state. -/
structure Sim (P : Params σ) (l : Loc) (c : Ctx σ) (s : State σ) : Prop where
  fixed : Fixed P c
  rel : Rel l.state l.pc l.gas l.top c s
  size : l.size = 1024 - l.top

theorem rel_ctx {r : RunState} {pc : Option Nat} {gas top : Int} {s : State σ} (g : Int) (t : Int)
    (h : Rel r pc gas top c s) :
    Rel r pc gas top { c with gas := g, stack := { c.stack with top := t } } s :=
  ⟨h.state, h.refund, h.world, h.failed, h.stopped, h.alive, h.ret⟩

theorem fixed_ctx (g : Int) (t : Int) (h : Fixed P c) :
    Fixed P { c with gas := g, stack := { c.stack with top := t } } :=
  ⟨h.1, h.2, h.3, h.4, h.5, h.6⟩

theorem steps_one (s : State σ) : steps P 1 s = step P s := rfl
theorem steps_two (s : State σ) : steps P 2 s = step P (step P s) := rfl

theorem steps_add (a b : Nat) (s : State σ) : steps P (a + b) s = steps P b (steps P a s) := by
  induction a generalizing s with
  | zero => simp [steps]
  | succ a ih =>
    rw [show a + 1 + b = (a + b) + 1 by omega]
    exact ih _

theorem step_halted {s : State σ} (h : s.status ≠ .running) : step P s = s := by
  unfold step; rw [if_neg h]

theorem steps_halted {s : State σ} (h : s.status ≠ .running) (n : Nat) : steps P n s = s := by
  induction n with
  | zero => rfl
  | succ n ih => show steps P n (step P s) = s; rw [step_halted h]; exact ih

/-- The code byte at the program counter. -/
theorem fetch_ok (hc : Fixed P c) (p : Nat) (h : p < P.code.length + 33) :
    fetch c.code (some p) = .ok (byteAt P.code p) := by
  unfold fetch
  have : (padCode P.code).length = P.code.length + 33 := by simp [padCode, stopBytePadding]
  rw [hc.code]
  dsimp only
  rw [this, if_pos h, padCode_getD]

/-- A single dispatch executes one instruction, or two if a jump is fused with its JUMPDEST. -/
theorem execOne_base (hP : ParamsBase P) (hE : EnvOk P E) (obs : Observer σ ω) (stepping : Bool)
    {l : Loc} {s : State σ} (o : ω) (hS : Sim P l c s) (hw : Wf P s) (hfit : Fits P s.refund s.gas s.host) (hr : s.status = .running) :
    ∃ l' c' o', execOne E obs stepping l c o = .ok (l', c', o') ∧ c'.pc = c.pc ∧
      (obs.usesContext = false → c'.stack.top = c.stack.top) ∧
      (obs.usesContext = true → c'.gas = l'.gas ∧ c'.stack.top = l'.top) ∧
      (o' = obs.postInstruction (dispatch (byteAt P.code s.pc)) c'
        (obs.preInstruction (dispatch (byteAt P.code s.pc)) c o)) ∧
      ∃ k, ((k = 1 ∧ ¬ (stepping = false ∧ takesJump (instrAt P s) s ∧ (step P s).status = .running)) ∨
          k = 2 ∧ stepping = false ∧ takesJump (instrAt P s) s ∧ (step P s).status = .running) ∧
        Sim P l' c' (steps P k s) := by
  obtain ⟨t, ht, htop, hs, hpc, hgas⟩ := rel_abs hS.rel hr
  have hpcb := hw.pc hr
  have hC : CtxOk P c s.gas 0 := by
    have hm : s.mem = absMem c.memory := by rw [hs]; rfl
    have hsz : s.mem.size = c.memory.size := by rw [hm]; rfl
    have hrf := hS.rel.refund
    have hrd := hS.rel.ret (by rw [hr]; simp) (by rw [hr]; simp)
    refine ⟨hS.fixed, ⟨?_, ?_⟩, ⟨?_, ?_, ?_⟩, ?_⟩
    · rw [← hsz]; exact hw.memAligned
    · rw [← hsz]; exact hw.gas
    · rw [hrf]; have := hw.refundHi; omega
    · rw [hrf]; have := hw.refundLo; omega
    · rw [hrf, hS.rel.world]; exact hfit
    · rw [hrd]; exact hw.ret
  have hfetch := fetch_ok hS.fixed s.pc (by omega)
  generalize hb : byteAt P.code s.pc = b at hfetch
  have hlen : s.pc < P.code.length ∨ (toInstr (dispatch b)).length = 1 ∧ s.pc < P.code.length + 33 := by
    by_cases hin : s.pc < P.code.length
    · exact .inl hin
    · refine .inr ⟨?_, by omega⟩
      have hb0 : byteAt P.code s.pc = 0 := by
        unfold byteAt
        rw [List.getD_eq_getElem?_getD, List.getElem?_eq_none (by omega)]; rfl
      rw [hb] at hb0
      subst hb0
      rfl
  have hrun := run_ok hP hE (dispatch b) stepping t s.gas s.pc ht hC hlen
  rw [← hs] at hrun
  obtain ⟨res, c1, hok, hfr, hrel⟩ := hrun
  have hexec : execOne E obs stepping l c o = .ok
      ({ state := res.state, pc := res.pc, gas := res.gasLeft, top := l.top - (dispatch b).info.delta
         size := l.size + (dispatch b).info.delta },
       (if obs.usesContext then { c1 with gas := res.gasLeft
                                          stack := { c1.stack with top := l.top - (dispatch b).info.delta } } else c1),
       obs.postInstruction (dispatch b)
        (if obs.usesContext then { c1 with gas := res.gasLeft
                                           stack := { c1.stack with top := l.top - (dispatch b).info.delta } } else c1)
        (obs.preInstruction (dispatch b) c o)) := by
    unfold execOne
    rw [hpc, hfetch]
    simp only [Option.getD_some, hgas, htop, hS.size]
    show (do
      let (res, c) ← run E stepping (dispatch b) s.pc s.gas t (1024 - (t : Int)) c
      _ : M (Loc × Ctx σ × ω)) = _
    rw [hok]
    rfl
  have hinstr : toInstr (dispatch b) = instrAt P s := by
    unfold instrAt instrOf
    rw [hb]
    cases hd : decode b.toNat with
    | some i => exact decode_some hd
    | none => rw [decode_none hd]; rfl
  refine ⟨_, _, _, hexec, ?_, ?_, ?_, ?_, ?_⟩
  · split
    · exact hfr.pc
    · exact hfr.pc
  · intro hu
    rw [if_neg (by rw [hu]; simp)]
    exact hfr.top
  · intro hu
    rw [if_pos hu]
    exact ⟨rfl, rfl⟩
  · rfl
  · -- the specification's step
    have hstep : ∀ X, Rel res.state res.pc res.gasLeft ((t : Int) - (dispatch b).info.delta) c1
        (execInstr P (toInstr (dispatch b)) s) →
        X = step P s → Rel res.state res.pc res.gasLeft ((t : Int) - (dispatch b).info.delta) c1 X := by
      intro X hR hX
      subst hX
      unfold step
      rw [if_pos hr, hb]
      cases hd : decode b.toNat with
      | some i =>
        rw [decode_some hd] at hR
        exact hR
      | none =>
        have hop := decode_none hd
        rw [hop] at hR ⊢
        have e : execInstr P (toInstr .INVALID) s = State.fail { s with pc := s.pc + 1, gas := s.gas - 0 } .invalidInstruction := by
          have h1024 : s.stack.length ≤ 1024 := hw.stack
          unfold execInstr
          rw [show toInstr .INVALID = .invalid from rfl, show Instr.since .invalid = 0 from rfl,
            show Instr.writes .invalid = false from rfl, show Instr.pops .invalid = 0 from rfl,
            show Instr.pushes .invalid = 0 from rfl]
          unfold stackLimit
          rw [if_neg (by simp), if_neg (by simp), if_neg (by omega), if_neg (by omega)]
          rw [charge_rich _ _ _ (by simp [Instr.baseGas])]
          rfl
        rw [e] at hR
        exact rel_fail_pc hR rfl rfl
    have hwrap : ∀ k, Rel res.state res.pc res.gasLeft ((t : Int) - (dispatch b).info.delta) c1 (steps P k s) →
        Sim P { state := res.state, pc := res.pc, gas := res.gasLeft, top := l.top - (dispatch b).info.delta
                size := l.size + (dispatch b).info.delta }
          (if obs.usesContext then { c1 with gas := res.gasLeft
                                             stack := { c1.stack with top := l.top - (dispatch b).info.delta } } else c1)
          (steps P k s) := by
      intro k hR
      rw [htop]
      refine ⟨?_, ?_, ?_⟩
      · split
        · exact fixed_ctx _ _ hfr.fixed
        · exact hfr.fixed
      · split
        · exact rel_ctx _ _ hR
        · exact hR
      · dsimp only; rw [hS.size, htop]; omega
    have hstat : (step P s).status = .running → (execInstr P (toInstr (dispatch b)) s).status = .running := by
      unfold step
      rw [if_pos hr, hb]
      cases hd : decode b.toNat with
      | some i => rw [decode_some hd]; exact id
      | none => intro h; simp [State.fail] at h
    rw [hinstr] at hrel
    rcases hrel with ⟨hn, hR⟩ | ⟨⟨hst, hj, hrun'⟩, hR⟩
    · refine ⟨1, .inl ⟨rfl, ?_⟩, hwrap 1 (hstep _ (by rw [hinstr]; exact hR) (steps_one s))⟩
      rintro ⟨h1, h2, h3⟩
      exact hn ⟨h1, h2, by rw [← hinstr]; exact hstat h3⟩
    · -- a fused jump: the instruction decoded is a jump, hence `step P s` is its execution
      have hne : step P s = execInstr P (toInstr (dispatch b)) s := by
        unfold step
        rw [if_pos hr, hb]
        cases hd : decode b.toNat with
        | some i => rw [decode_some hd]
        | none =>
          have hop := decode_none hd
          rw [← hinstr, hop] at hrun'
          have h1024 : s.stack.length ≤ 1024 := hw.stack
          exfalso
          unfold execInstr at hrun'
          rw [show toInstr .INVALID = .invalid from rfl, show Instr.since .invalid = 0 from rfl,
            show Instr.writes .invalid = false from rfl, show Instr.pops .invalid = 0 from rfl,
            show Instr.pushes .invalid = 0 from rfl] at hrun'
          unfold stackLimit at hrun'
          rw [if_neg (by simp), if_neg (by simp), if_neg (by omega), if_neg (by omega),
            charge_rich _ _ _ (by simp [Instr.baseGas])] at hrun'
          simp [exec, State.fail] at hrun'
      rw [← hinstr] at hrun' hR
      refine ⟨2, .inr ⟨rfl, hst, hj, by rw [hne]; exact hrun'⟩, hwrap 2 ?_⟩
      rw [steps_two, hne]
      exact hR

theorem fits_wf (hP : ParamsOk P) {s : State σ} (hw : Wf P s) : Fits P s.refund s.gas s.host :=
  fits_of_ok hP (by have := hw.gas; omega) hw.refundHi hw.refundLo _

theorem execOne_full (hP : ParamsOk P) (hE : EnvOk P E) (obs : Observer σ ω) (stepping : Bool)
    {l : Loc} {s : State σ} (o : ω) (hS : Sim P l c s) (hw : Wf P s) (hr : s.status = .running) :
    ∃ l' c' o', execOne E obs stepping l c o = .ok (l', c', o') ∧ c'.pc = c.pc ∧
      (obs.usesContext = false → c'.stack.top = c.stack.top) ∧
      (obs.usesContext = true → c'.gas = l'.gas ∧ c'.stack.top = l'.top) ∧
      (o' = obs.postInstruction (dispatch (byteAt P.code s.pc)) c'
        (obs.preInstruction (dispatch (byteAt P.code s.pc)) c o)) ∧
      ∃ k, ((k = 1 ∧ ¬ (stepping = false ∧ takesJump (instrAt P s) s ∧ (step P s).status = .running)) ∨
          k = 2 ∧ stepping = false ∧ takesJump (instrAt P s) s ∧ (step P s).status = .running) ∧
        Sim P l' c' (steps P k s) :=
  execOne_base hP.base hE obs stepping o hS hw (fits_wf hP hw) hr

theorem execOne_ok (hP : ParamsOk P) (hE : EnvOk P E) (obs : Observer σ ω) (stepping : Bool)
    {l : Loc} {s : State σ} (o : ω) (hS : Sim P l c s) (hw : Wf P s) (hr : s.status = .running) :
    ∃ l' c' o', execOne E obs stepping l c o = .ok (l', c', o') ∧ c'.pc = c.pc ∧
      (obs.usesContext = false → c'.stack.top = c.stack.top) ∧
      ∃ k, (k = 1 ∨ k = 2 ∧ stepping = false ∧ (step P s).status = .running) ∧
        Sim P l' c' (steps P k s) := by
  obtain ⟨l', c', o', h1, h2, h3, _, _, k, hk, hS'⟩ := execOne_full hP hE obs stepping o hS hw hr
  refine ⟨l', c', o', h1, h2, h3, k, ?_, hS'⟩
  rcases hk with ⟨h, _⟩ | ⟨h, h', _, h''⟩
  · exact .inl h
  · exact .inr ⟨h, h', h''⟩

/-- Well-formedness along a dispatch. -/
theorem wf_steps (hP : ParamsOk P) {s : State σ} (hw : Wf P s) (hr : s.status = .running) {k : Nat}
    (hk : k = 1 ∨ k = 2 ∧ (step P s).status = .running) (hr' : (steps P k s).status = .running) :
    Wf P (steps P k s) ∧ (steps P k s).gas < s.gas := by
  rcases hk with rfl | ⟨rfl, h1⟩
  · have := step_wf hP hw hr (by rw [steps_one] at hr'; rw [hr']; simp)
    exact ⟨this.1, this.2 hr'⟩
  · have a := step_wf hP hw hr (by rw [h1]; simp)
    have b := step_wf hP a.1 h1 (by rw [steps_two] at hr'; rw [hr']; simp)
    have := a.2 h1
    have := b.2 hr'
    exact ⟨b.1, by rw [steps_two]; omega⟩

/-- The loop of `Execute` runs the specification to its end. -/
theorem loop_run (hP : ParamsOk P) (hE : EnvOk P E) (obs : Observer σ ω) (steps_ : Int) (fuel : Nat) :
    ∀ (e : Int) {l : Loc} {c : Ctx σ} {s : State σ} (o : ω), Sim P l c s →
      (s.status = .running → Wf P s ∧ s.gas + 2 ≤ fuel) → 1 ≤ fuel →
      ∃ l' c' o', loop E obs false steps_ fuel e l c o = .ok (some (l', c', o')) ∧
        ∃ s', Final P s s' ∧ Sim P l' c' s' := by
  induction fuel with
  | zero => intro e l c s o hS hw h1; omega
  | succ fuel ih =>
    intro e l c s o hS hw _
    unfold loop
    by_cases hr : s.status = .running
    · obtain ⟨hwf, hf⟩ := hw hr
      obtain ⟨l1, c1, o1, hex, _, _, k, hk, hS1⟩ := execOne_ok hP hE obs false o hS hwf hr
      have hl : l.state = .running := by rw [hS.rel.state, hr]; rfl
      have hk' : k = 1 ∨ k = 2 ∧ (step P s).status = .running := by
        rcases hk with h | ⟨h, _, h'⟩
        · exact .inl h
        · exact .inr ⟨h, h'⟩
      obtain ⟨l2, c2, o2, hlo, s2, ⟨hn2, n, hs2⟩, hS2⟩ := ih e (l := l1) (c := c1) (s := steps P k s) o1 hS1
        (fun h => by
          have := wf_steps hP hwf hr hk' h
          exact ⟨this.1, by omega⟩) (by omega)
      refine ⟨l2, c2, o2, ?_, s2, ⟨hn2, k + n, by rw [steps_add]; exact hs2⟩, hS2⟩
      simp only [Bool.false_eq_true, if_false, false_and, hl, if_true]
      show (do
        let (l, c, o) ← execOne E obs false l c o
        loop E obs false steps_ fuel e l c o : M _) = _
      rw [hex]
      exact hlo
    · refine ⟨l, c, o, ?_, s, ⟨hr, 0, rfl⟩, hS⟩
      have hl : l.state ≠ .running := by
        rw [hS.rel.state]
        intro h
        exact hr (runStateOf_inj (b := .running) h)
      simp only [Bool.false_eq_true, if_false, false_and, hl]
      rfl

theorem loop_succ_true (obs : Observer σ ω) (limit : Int) (fuel : Nat) (e : Int) (l : Loc) (c : Ctx σ) (o : ω)
    (h : -2147483648 ≤ e + 1 ∧ e + 1 ≤ 2147483647) :
    loop E obs true limit (fuel + 1) e l c o =
      if e ≥ limit then .ok (some (l, c, o))
      else if l.state = .running then (do
        let (l, c, o) ← execOne E obs true l c o
        loop E obs true limit fuel (e + 1) l c o)
      else .ok (some (l, c, o)) := by
  rw [loop]
  simp only [if_true]
  have : chk32 (e + 1) = .ok (e + 1) := by unfold chk32; rw [if_pos h]
  rw [this]
  show (if _ then _ else _ : M _) = _
  by_cases h1 : e ≥ limit
  · rw [if_pos ⟨trivial, h1⟩, if_pos h1]; rfl
  · rw [if_neg (fun h => h1 h.2), if_neg h1]
    rfl

/-- The loop of `StepN` executes `n` steps of the specification. -/
theorem loop_base (hP : ParamsBase P) (hE : EnvOk P E) (obs : Observer σ ω) (hu : obs.usesContext = false) (n : Nat) :
    ∀ (fuel : Nat) (e limit : Int) {l : Loc} {c : Ctx σ} {s : State σ} (o : ω), Sim P l c s →
      (∀ k < n, (steps P k s).status = .running → Wf P (steps P k s) ∧ Fits P (steps P k s).refund (steps P k s).gas (steps P k s).host) → n + 1 ≤ fuel → limit = e + n → 0 ≤ e → limit ≤ 2147483646 →
      ∃ l' c' o', loop E obs true limit fuel e l c o = .ok (some (l', c', o')) ∧
        c'.pc = c.pc ∧ c'.stack.top = c.stack.top ∧ Sim P l' c' (steps P n s) := by
  induction n with
  | zero =>
    intro fuel e limit l c s o hS hw hf hlim h0 hmax
    obtain ⟨fuel, rfl⟩ : ∃ m, fuel = m + 1 := ⟨fuel - 1, by omega⟩
    refine ⟨l, c, o, ?_, rfl, rfl, hS⟩
    rw [loop_succ_true _ _ _ _ _ _ _ (by omega)]
    rw [if_pos (by omega)]
  | succ n ih =>
    intro fuel e limit l c s o hS hw hf hlim h0 hmax
    obtain ⟨fuel, rfl⟩ : ∃ m, fuel = m + 1 := ⟨fuel - 1, by omega⟩
    rw [loop_succ_true _ _ _ _ _ _ _ (by omega)]
    by_cases hr : s.status = .running
    · obtain ⟨hwf, hfit⟩ := hw 0 (by omega) hr
      obtain ⟨l1, c1, o1, hex, hpc, htop, _, _, k, hk, hS1⟩ := execOne_base hP hE obs true o hS hwf hfit hr
      have hl : l.state = .running := by rw [hS.rel.state, hr]; rfl
      have hk1 : k = 1 := by
        rcases hk with ⟨h, _⟩ | ⟨_, h, _⟩
        · exact h
        · simp at h
      subst hk1
      obtain ⟨l2, c2, o2, hlo, hpc2, htop2, hS2⟩ := ih fuel (e + 1) limit (l := l1) (c := c1) (s := step P s) o1 hS1
        (fun k hk h => hw (k + 1) (by omega) h) (by omega) (by omega) (by omega) hmax
      refine ⟨l2, c2, o2, ?_, hpc2.trans hpc, htop2.trans (htop hu), hS2⟩
      rw [if_neg (by omega), if_pos hl, hex]
      exact hlo
    · refine ⟨l, c, o, ?_, rfl, rfl, ?_⟩
      · have hl : l.state ≠ .running := by
          rw [hS.rel.state]
          intro h
          exact hr (runStateOf_inj (b := .running) h)
        rw [if_neg (by omega), if_neg hl]
      · rw [steps_halted hr]; exact hS

theorem wf_along (hP : ParamsOk P) (n : Nat) : ∀ {s : State σ}, (s.status = .running → Wf P s) → (steps P n s).status = .running → Wf P (steps P n s) := by
  induction n with
  | zero => intro s hw h; exact hw h
  | succ n ih =>
    intro s hw h
    by_cases hr : s.status = .running
    · exact ih (s := step P s) (fun h' => (wf_steps hP (hw hr) hr (.inl rfl) h').1) h
    · rw [steps_halted hr] at h
      exact absurd h hr

theorem loop_step (hP : ParamsOk P) (hE : EnvOk P E) (obs : Observer σ ω) (hu : obs.usesContext = false) (n : Nat) :
    ∀ (fuel : Nat) (e limit : Int) {l : Loc} {c : Ctx σ} {s : State σ} (o : ω), Sim P l c s →
      (s.status = .running → Wf P s) → n + 1 ≤ fuel → limit = e + n → 0 ≤ e → limit ≤ 2147483646 →
      ∃ l' c' o', loop E obs true limit fuel e l c o = .ok (some (l', c', o')) ∧
        c'.pc = c.pc ∧ c'.stack.top = c.stack.top ∧ Sim P l' c' (steps P n s) := by
  intro fuel e limit l c s o hS hw hf hlim h0 hmax
  exact loop_base hP.base hE obs hu n fuel e limit o hS
    (fun k _ h => ⟨wf_along hP k hw h, fits_wf hP (wf_along hP k hw h)⟩) hf hlim h0 hmax

end Tosca.Proofs

import Verif.Spec.GoNative
import Verif.Proofs.FloriaStack

/-!
# Facts about the native reference interpreter
-/

namespace Tosca.Proofs

open Tosca.Spec Tosca.Spec.Go Tosca.Go

variable {ω : Type} {P : Params ω}

theorem sstoreGas_refundEip (rev : Revision) (st : StorageStatus) :
    100 ≤ sstoreGas rev st ∧ sstoreRefund rev true st ≤ 199 * (sstoreGas rev st : Int) ∧
      -(199 * (sstoreGas rev st : Int)) ≤ sstoreRefund rev true st := by
  unfold sstoreGas sstoreRefund clearRefund restoreRefund LONDON BERLIN
  by_cases h' : rev ≥ 8 <;> cases st <;> simp [h'] <;> omega

theorem adv_sstoreEip {s : State ω} (hpre : Pre .sstore s) : Fin P .sstore s (sstoreEip P s) := by
  refine fin_pop2 _ _ fun key value r hr => ?_
  dsimp only
  split
  · exact fin_fail _ _
  · have go : ∀ (x : Nat) (w : ω), Fin P .sstore s
        (State.ask { s with stack := r, host := w } (P.host.setStorage P.msg.recipient key value) fun status s =>
          s.charge (sstoreGas P.rev status + x) fun s => { s with refund := s.refund + sstoreRefund P.rev true status }) := by
      intro x w
      have hs := sstoreGas_refundEip P.rev (P.host.setStorage P.msg.recipient key value w).1
      dsimp only [State.ask]
      refine fin_charge _ _ _ fun hg => ?_
      dsimp only at hs hg ⊢
      intro _
      generalize sstoreGas P.rev (P.host.setStorage P.msg.recipient key value w).1 = G at *
      generalize sstoreRefund P.rev true (P.host.setStorage P.msg.recipient key value w).1 = R at *
      have hb : Instr.baseGas .sstore = 0 := rfl
      refine ⟨?_, hpre.aligned, Nat.le_refl _, ?_, ?_, ?_, hpre.ret, fun _ => .inl rfl, fun _ => ?_⟩
      · rw [hr]; simp [Instr.pops, Instr.pushes]
      · dsimp only; omega
      · dsimp only; omega
      · dsimp only; omega
      · dsimp only; omega
    split
    · exact go _ _
    · exact go _ _

theorem ends_sstoreEip {s : State ω} (hr0 : s.status = .running) (hp : 2 ≤ s.stack.length) :
    Ends (fun _ => True) s.refund (sstoreEip P s) := by
  unfold sstoreEip State.pop2 State.pop1
  match hs : s.stack with
  | [] => rw [hs] at hp; simp at hp
  | [_] => rw [hs] at hp; simp at hp
  | a :: b :: r =>
    dsimp only
    have fail : ∀ (x : State ω) f, x.refund = s.refund → Ends (fun _ => True) s.refund (x.fail f) := fun x f hx g hg =>
      ⟨trivial, hx, rfl, rfl⟩
    have go : ∀ (n : Nat) (x : State ω) (k : State ω → State ω), x.refund = s.refund → (∀ y : State ω, y.status = x.status → (k y).status = x.status) →
        x.status = .running → Ends (fun _ => True) s.refund (x.charge n k) := by
      intro n x k hx hk hr
      unfold State.charge
      split
      · exact fail _ _ hx
      · intro f hf
        rw [hk { x with gas := x.gas - n } rfl, hr] at hf
        cases hf
    split
    · exact fail _ _ rfl
    · split
      · unfold State.ask
        exact go _ _ _ rfl (fun y hy => hy) hr0
      · unfold State.ask
        exact go _ _ _ rfl (fun y hy => hy) hr0

theorem execEip_adv (hP : ParamsOk P) (at_ : Nat) (i : Instr) (s : State ω) (hpre : Pre i s) : Fin P i s (execEip P at_ i s) := by
  unfold execEip
  split
  · rename_i h; subst h; exact adv_sstoreEip hpre
  · exact exec_adv hP at_ i s hpre

theorem execEip_failed (at_ : Nat) (i : Instr) {s : State ω} (hr0 : s.status = .running) (hp : i.pops ≤ s.stack.length) {f : Failure}
    (hf : (execEip P at_ i s).status = .failed f) : Used s (execEip P at_ i s) := by
  unfold execEip at hf ⊢
  split
  · rename_i h
    subst h
    rw [if_pos rfl] at hf
    exact failed_gas (ends_sstoreEip hr0 hp) hf rfl
  · rename_i h
    rw [if_neg h] at hf
    exact failed_gas (ends_exec at_ i hr0 hp) hf rfl

/-- What a step does: the body of an instruction on a state that meets its assumptions, or a failure. -/
theorem stepEip_cases (s : State ω) (hr : s.status = .running) (hw : Wf P s) :
    (∃ f, stepEip P s = s.fail f) ∨ ∃ i, decode (byteAt P.code s.pc).toNat = some i ∧ i.baseGas ≤ s.gas ∧
      s.stack.length + i.pushes ≤ stackLimit + i.pops ∧
      Pre i { s with gas := s.gas - i.baseGas, pc := s.pc + i.length } ∧
      stepEip P s = execEip P s.pc i { s with gas := s.gas - i.baseGas, pc := s.pc + i.length } := by
  unfold stepEip
  rw [if_pos hr]
  cases hd : decode (byteAt P.code s.pc).toNat with
  | none => exact .inl ⟨_, rfl⟩
  | some i =>
    dsimp only
    unfold execInstrEip
    by_cases h1 : P.rev < i.since
    · rw [if_pos h1]; exact .inl ⟨_, rfl⟩
    rw [if_neg h1]
    by_cases h2 : i.writes = true ∧ P.msg.isStatic = true
    · rw [if_pos h2]; exact .inl ⟨_, rfl⟩
    rw [if_neg h2]
    by_cases h3 : s.stack.length < i.pops
    · rw [if_pos h3]; exact .inl ⟨_, rfl⟩
    rw [if_neg h3]
    by_cases h4 : s.stack.length + i.pushes > stackLimit + i.pops
    · rw [if_pos h4]; exact .inl ⟨_, rfl⟩
    rw [if_neg h4]
    by_cases hg : s.gas < i.baseGas
    · rw [charge_poor _ _ _ hg]; exact .inl ⟨_, rfl⟩
    rw [charge_rich _ _ _ hg]
    exact .inr ⟨i, rfl, by omega, by omega,
      ⟨hr, by dsimp only; omega, hw.memAligned, by have := hw.gas; dsimp only; omega, hw.ret⟩, rfl⟩

theorem stepEip_wf (hP : ParamsOk P) {s : State ω} (hw : Wf P s) (hr : s.status = .running)
    (hnf : ∀ w, (stepEip P s).status ≠ .failed w) :
    Wf P (stepEip P s) ∧ ((stepEip P s).status = .running → (stepEip P s).gas < s.gas) := by
  rcases stepEip_cases s hr hw with ⟨f, hf⟩ | ⟨i, hd, hg, h4, hpre, he⟩
  · rw [hf] at hnf; exact absurd rfl (hnf f)
  rw [he] at hnf ⊢
  have hpc' := hw.pc hr
  have hlen := decode_length hd
  have A := execEip_adv hP s.pc i _ hpre hnf
  by_cases hin : s.pc < P.code.length
  · have e1 := A.stack
    have e2 := A.pot
    have e3 := A.refundHi
    have e4 := A.refundLo
    have w1 := hw.gas
    have w2 := hw.refundHi
    have w3 := hw.refundLo
    have hcast : ((s.gas - i.baseGas + i.baseGas : Nat) : Int) = s.gas := by omega
    dsimp only at e1 e2 e3 e4
    rw [hcast] at e3 e4
    refine ⟨⟨by omega, A.aligned, by omega, by omega, by omega, A.ret, fun h => ?_⟩, fun h => ?_⟩
    · have := (A.pc h).imp_right fun ⟨h, _⟩ => h
      dsimp only at this
      omega
    · have := A.strict h
      dsimp only at this
      omega
  · have hb : byteAt P.code s.pc = 0 := by
      unfold byteAt
      rw [List.getD_eq_getElem?_getD, List.getElem?_eq_none (by omega)]; rfl
    rw [hb] at hd
    have hi : i = .stop := by
      have : decode (0 : Byte).toNat = some .stop := by decide
      rw [this] at hd; simpa using hd.symm
    subst hi
    have w1 := hw.gas
    refine ⟨⟨?_, hw.memAligned, ?_, ?_, ?_, ?_, ?_⟩, ?_⟩
    · simpa [execEip, exec] using hw.stack
    · simpa [execEip, exec, Instr.baseGas] using hw.gas
    · simpa [execEip, exec, Instr.baseGas] using hw.refundHi
    · simpa [execEip, exec, Instr.baseGas] using hw.refundLo
    · simp [execEip, exec]
    · intro h; simp [execEip, exec] at h
    · intro h; simp [execEip, exec] at h

theorem stepEip_bound (hP : ParamsOk P) {s : State ω} (hw : Wf P s) (hr : s.status = .running) :
    Used s (stepEip P s) ∧ ((∀ f, (stepEip P s).status ≠ .failed f) → Paid s (stepEip P s)) := by
  rcases stepEip_cases s hr hw with ⟨f, hf⟩ | ⟨i, hd, hg, h4, hpre, he⟩
  · rw [hf]; exact ⟨used_fail _ _, fun h => absurd rfl (h f)⟩
  rw [he]
  by_cases hf : ∀ f, (execEip P s.pc i { s with gas := s.gas - i.baseGas, pc := s.pc + i.length }).status ≠ .failed f
  · have A := execEip_adv hP s.pc i _ hpre hf
    have e2 := A.pot
    have e3 := A.refundHi
    have e4 := A.refundLo
    have hcast : ((s.gas - i.baseGas + i.baseGas : Nat) : Int) = s.gas := by omega
    dsimp only at e2 e3 e4
    rw [hcast] at e3 e4
    have e5 := A.memMono
    have hle : (execEip P s.pc i { s with gas := s.gas - i.baseGas, pc := s.pc + i.length }).gas ≤ s.gas := by
      generalize (execEip P s.pc i { s with gas := s.gas - i.baseGas, pc := s.pc + i.length }) = s' at *
      omega
    exact ⟨⟨hle, e3, e4⟩, fun _ => ⟨e5, by omega⟩⟩
  · obtain ⟨f, hf'⟩ := not_forall.1 hf
    have hf' := not_not.1 hf'
    refine ⟨?_, fun hh => absurd hf' (hh f)⟩
    have := execEip_failed s.pc i hpre.status hpre.stack hf'
    exact ⟨by have := this.gas; dsimp only at this; omega, by have := this.hi; dsimp only at this; omega,
      by have := this.lo; dsimp only at this; omega⟩

theorem stepEip_halted {s : State ω} (h : s.status ≠ .running) : stepEip P s = s := by
  unfold stepEip; rw [if_neg h]

theorem stepsEip_halted {s : State ω} (h : s.status ≠ .running) (n : Nat) : stepsEip P n s = s := by
  induction n with
  | zero => rfl
  | succ n ih => show stepsEip P n (stepEip P s) = s; rw [stepEip_halted h]; exact ih

theorem stepsEip_add (a b : Nat) (s : State ω) : stepsEip P (a + b) s = stepsEip P b (stepsEip P a s) := by
  induction a generalizing s with
  | zero => simp [stepsEip]
  | succ a ih =>
    rw [show a + 1 + b = (a + b) + 1 by omega]
    exact ih _

/-- Execution moves from instruction to instruction. -/
theorem stepEip_boundary (hP : ParamsOk P) {s : State ω} (hw : Wf P s) (hr : s.status = .running) (hb : Boundary P.code s.pc)
    (hr' : (stepEip P s).status = .running) : Boundary P.code (stepEip P s).pc := by
  rcases stepEip_cases s hr hw with ⟨f, hf⟩ | ⟨i, hd, hg, h4, hpre, he⟩
  · rw [hf] at hr'; cases hr'
  rw [he] at hr' ⊢
  have A := execEip_adv hP s.pc i _ hpre (fun f h => by rw [h] at hr'; cases hr')
  by_cases hin : s.pc < P.code.length
  · rcases A.pc hr' with h | ⟨_, _, h⟩
    · rw [h]
      refine .next hb hin ?_
      rw [← hd]
      unfold byteAt
      rw [List.getD_eq_getElem?_getD, List.getElem?_eq_getElem hin]
      rfl
    · exact h
  · have hb : byteAt P.code s.pc = 0 := by
      unfold byteAt
      rw [List.getD_eq_getElem?_getD, List.getElem?_eq_none (by omega)]; rfl
    rw [hb] at hd
    have hi : i = .stop := by
      have : decode (0 : Byte).toNat = some .stop := by decide
      rw [this] at hd; simpa using hd.symm
    subst hi
    simp [execEip, exec] at hr'

theorem stepsEip_bound (hP : ParamsOk P) (n : Nat) : ∀ {s : State ω}, Wf P s → s.status = .running →
    Used s (stepsEip P n s) ∧ ((∀ f, (stepsEip P n s).status ≠ .failed f) → Paid s (stepsEip P n s) ∧ Wf P (stepsEip P n s)) := by
  induction n with
  | zero => intro s hw _; exact ⟨Used.refl s, fun _ => ⟨Paid.refl s, hw⟩⟩
  | succ n ih =>
    intro s hw hr
    have h1 := stepEip_bound hP hw hr
    show Used s (stepsEip P n (stepEip P s)) ∧ ((∀ f, (stepsEip P n (stepEip P s)).status ≠ .failed f) →
      Paid s (stepsEip P n (stepEip P s)) ∧ Wf P (stepsEip P n (stepEip P s)))
    by_cases hr' : (stepEip P s).status = .running
    · have hnf : ∀ f, (stepEip P s).status ≠ .failed f := fun f h => by rw [h] at hr'; cases hr'
      have h2 := ih (stepEip_wf hP hw hr hnf).1 hr'
      exact ⟨h1.1.trans h2.1, fun hf => ⟨(h1.2 hnf).trans (h2.2 hf).1, (h2.2 hf).2⟩⟩
    · rw [stepsEip_halted hr' n]
      exact ⟨h1.1, fun hf => ⟨h1.2 hf, (stepEip_wf hP hw hr hf).1⟩⟩

theorem haltsEip_bound (hP : ParamsOk P) (n : Nat) : ∀ {s : State ω}, Wf P s → s.gas ≤ n →
    (stepsEip P (n + 1) s).status ≠ .running := by
  induction n with
  | zero =>
    intro s hw hg
    by_cases hr : s.status = .running
    · intro h
      have h' : (stepEip P s).status = .running := h
      have := (stepEip_wf hP hw hr (by rw [h']; simp)).2 h'
      omega
    · rw [stepsEip_halted hr]; exact hr
  | succ n ih =>
    intro s hw hg
    by_cases hr : s.status = .running
    · by_cases h1 : (stepEip P s).status = .running
      · have h := stepEip_wf hP hw hr (by rw [h1]; simp)
        have := h.2 h1
        exact ih (s := stepEip P s) h.1 (by omega)
      · show (stepsEip P (n + 1) (stepEip P s)).status ≠ .running
        rw [stepsEip_halted h1]; exact h1
    · rw [stepsEip_halted hr]; exact hr

/-! ## The reference interpreter -/

theorem depth0 {p : Parameters} (hp : RunOk p) : RunOk { p with depth := 0 } := ⟨hp.chain, hp.gas, by constructor <;> (show _; dsimp only; omega), hp.code, hp.input⟩

theorem nativeFrame_ok (keccak : List Byte → U256) (db : Db ω) {call : CallFn ω} (hc : CallFnOk call) {p : Parameters} (hp : RunOk p)
    (rev : Revision) : ParamsOk (nativeFrame keccak db call p rev) := goFrame_ok failures keccak db hc (depth0 hp) rev

theorem nativeRun_respects (keccak : List Byte → U256) (db : Db ω) : Respects db (nativeRun keccak) := by
  intro call p w r w' hc hp h
  unfold nativeRun at h
  cases hr : revisionOf p.block.revision with
  | none => rw [hr] at h; cases h
  | some rev =>
    rw [hr] at h
    dsimp only at h
    have hP := nativeFrame_ok keccak db hc hp rev
    have hg2 : (nativeFrame keccak db call p rev).msg.gas ≤ 2 ^ 54 := hp.gas.2
    have hb := stepsEip_bound hP (p.gas.toNat + 1) (wf_initial w hg2) rfl
    have h1 := hb.1.hi
    have h2 := hb.1.lo
    have h3 := hb.1.gas
    have e1 : (((initial (nativeFrame keccak db call p rev) w).gas : Nat) : Int) = p.gas := Int.toNat_of_nonneg hp.gas.1
    have e2 : (initial (nativeFrame keccak db call p rev) w).refund = 0 := rfl
    rw [e1, e2] at h1 h2
    have hret := hb.2
    generalize stepsEip (nativeFrame keccak db call p rev) (p.gas.toNat + 1) (initial (nativeFrame keccak db call p rev) w) = s at *
    have h0 : nativeOutcome s = .ok r := (Prod.mk.inj h).1
    have hg := hp.gas
    unfold nativeOutcome at h0
    cases hs : s.status with
    | running => rw [hs] at h0; cases h0
    | failed f =>
      rw [hs] at h0
      cases h0
      refine ⟨⟨Int.le_refl _, hg.1⟩, ?_, by show 0 < 2 ^ 64; omega⟩
      show (0 : Int) ≤ 199 * (p.gas - 0) ∧ -(199 * (p.gas - 0)) ≤ (0 : Int)
      omega
    | _ =>
      have hw := (hret fun f hf => by rw [hf] at hs; cases hs).2
      rw [hs] at h0
      cases h0
      refine ⟨⟨?_, ?_⟩, ⟨?_, ?_⟩, hw.ret⟩
      · show (0 : Int) ≤ (s.gas : Int); omega
      · show (s.gas : Int) ≤ p.gas; omega
      · first
        | (show s.refund ≤ 199 * (p.gas - (s.gas : Int)); omega)
        | (show (0 : Int) ≤ 199 * (p.gas - (s.gas : Int)); omega)
      · first
        | (show -(199 * (p.gas - (s.gas : Int))) ≤ s.refund; omega)
        | (show -(199 * (p.gas - (s.gas : Int))) ≤ (0 : Int); omega)

end Tosca.Proofs

import Verif.Proofs.Run

/-!
# What a step of the specification does to gas, stack, memory size and refunds
-/

namespace Tosca.Proofs

open Tosca.Model Tosca.Spec

variable {σ : Type} {P : Params σ}

/-- Effect of a non-failing instruction on the resources (`s` is the state after the base
charge). -/
structure Adv (P : Params σ) (i : Instr) (s s' : State σ) : Prop where
  stack : s'.stack.length + i.pops = s.stack.length + i.pushes
  aligned : s'.mem.size % 32 = 0
  memMono : s.mem.size ≤ s'.mem.size
  pot : s'.gas + memGas (words s'.mem.size) ≤ s.gas + memGas (words s.mem.size)
  refundHi : s'.refund + 199 * s'.gas ≤ s.refund + 199 * ((s.gas + i.baseGas : Nat) : Int)
  refundLo : s.refund - 199 * ((s.gas + i.baseGas : Nat) : Int) ≤ s'.refund - 199 * s'.gas
  ret : s'.ret.length < 2 ^ 64
  pc : s'.status = .running → s'.pc = s.pc ∨ JumpTarget P.code s'.pc
  strict : s'.status = .running → s'.gas < s.gas + i.baseGas

/-- What `Adv` assumes about the state before. -/
structure Pre (i : Instr) (s : State σ) : Prop where
  status : s.status = .running
  stack : i.pops ≤ s.stack.length
  aligned : s.mem.size % 32 = 0
  pot : s.gas + memGas (words s.mem.size) ≤ 2 ^ 54
  ret : s.ret.length < 2 ^ 64

/-- Unless it failed, the result advances. -/
def Fin (P : Params σ) (i : Instr) (s s' : State σ) : Prop := (∀ w, s'.status ≠ .failed w) → Adv P i s s'

section
variable {i : Instr} {s : State σ}

theorem fin_fail (x : State σ) (w : Failure) : Fin P i s (x.fail w) := fun h => absurd rfl (h w)

theorem fin_charge (x : State σ) (n : Nat) (k : State σ → State σ)
    (h : n ≤ x.gas → Fin P i s (k { x with gas := x.gas - n })) : Fin P i s (x.charge n k) := by
  unfold State.charge
  split
  · exact fin_fail _ _
  · exact h (by omega)

/-- The stack has the operands. -/
theorem stack_cons {l : List U256} {n : Nat} (h : n + 1 ≤ l.length) : ∃ a r, l = a :: r ∧ n ≤ r.length := by
  cases l with
  | nil => simp at h
  | cons a r => exact ⟨a, r, rfl, by simpa using h⟩

theorem sizeAfter_mono (m : Mem) (o n : Nat) : m.size ≤ m.sizeAfter o n := by
  unfold Mem.sizeAfter; split <;> omega

theorem sizeAfter_aligned (m : Mem) (o n : Nat) (h : m.size % 32 = 0) : m.sizeAfter o n % 32 = 0 := by
  unfold Mem.sizeAfter words; split <;> omega

theorem growGas_pot (m : Mem) (n : Nat) : memGas (words n) ≤ memGas (words m.size) + m.growGas n := by
  unfold Mem.growGas; omega

/-- Affordable ranges are short. -/
theorem affordable (m : Mem) (gas : Nat) (off n : U256) (ha : m.size % 32 = 0)
    (hb : gas + memGas (words m.size) ≤ 2 ^ 54) (h : m.growGas (m.sizeAfter off.toNat n.toNat) ≤ gas) :
    n.toNat ≤ 2 ^ 37 := by
  obtain ⟨mc, _, hok⟩ := memoryExpansionCost_ok m gas off n ha hb
  cases hok with
  | exact _ _ _ _ hb => exact exact_small hb
  | tooMuch _ _ h' _ => omega

/-- Only stack and host change. -/
theorem fin_stack (hpre : Pre i s) (hb : 0 < i.baseGas) (l : List U256) (w : σ)
    (hl : l.length + i.pops = s.stack.length + i.pushes) :
    Fin P i s { s with stack := l, host := w } := by
  intro _
  exact ⟨hl, hpre.aligned, Nat.le_refl _, Nat.le_refl _, by dsimp only; omega, by dsimp only; omega, hpre.ret,
    fun _ => .inl rfl, fun _ => by dsimp only; omega⟩

/-- Gas is charged for touching memory and possibly more. -/
theorem fin_touch (s' : State σ) (n' cost : Nat)
    (hst : s'.stack.length + i.pops = s.stack.length + i.pushes)
    (hm : s'.mem.size = n') (hmono : s.mem.size ≤ n') (hal : n' % 32 = 0)
    (hg : s'.gas + (s.mem.growGas n' + cost) ≤ s.gas) (hrf : s'.refund = s.refund)
    (hret : s'.ret.length < 2 ^ 64) (hpc : s'.status = .running → s'.pc = s.pc)
    (hstrict : s'.status = .running → 0 < cost + i.baseGas) : Fin P i s s' := by
  intro _
  have := growGas_pot s.mem n'
  refine ⟨hst, by omega, by omega, ?_, by rw [hrf]; omega, by rw [hrf]; omega, hret, fun h => .inl (hpc h), ?_⟩
  · rw [hm]; omega
  · intro h; have := hstrict h; omega

theorem fin_pop1 (x : State σ) (k : U256 → State σ → State σ)
    (h : ∀ a r, x.stack = a :: r → Fin P i s (k a { x with stack := r })) : Fin P i s (x.pop1 k) := by
  unfold State.pop1
  split
  · exact h _ _ (by assumption)
  · exact fin_fail _ _

theorem fin_pop2 (x : State σ) (k : U256 → U256 → State σ → State σ)
    (h : ∀ a b r, x.stack = a :: b :: r → Fin P i s (k a b { x with stack := r })) : Fin P i s (x.pop2 k) :=
  fin_pop1 _ _ fun a r hr => fin_pop1 _ _ fun b r' hr' => h a b r' (by rw [hr]; dsimp only at hr'; rw [hr'])

theorem fin_pop3 (x : State σ) (k : U256 → U256 → U256 → State σ → State σ)
    (h : ∀ a b c r, x.stack = a :: b :: c :: r → Fin P i s (k a b c { x with stack := r })) :
    Fin P i s (x.pop3 k) :=
  fin_pop2 _ _ fun a b r hr => fin_pop1 _ _ fun c r' hr' => h a b c r' (by rw [hr]; dsimp only at hr'; rw [hr'])

theorem fin_pop4 (x : State σ) (k : U256 → U256 → U256 → U256 → State σ → State σ)
    (h : ∀ a b c d r, x.stack = a :: b :: c :: d :: r → Fin P i s (k a b c d { x with stack := r })) :
    Fin P i s (x.pop4 k) :=
  fin_pop3 _ _ fun a b c r hr => fin_pop1 _ _ fun d r' hr' => h a b c d r' (by rw [hr]; dsimp only at hr'; rw [hr'])

theorem adv_bin (hpre : Pre i s) (h1 : i.pops = 2) (h2 : i.pushes = 1) (hb : 0 < i.baseGas)
    (f : U256 → U256 → U256) : Fin P i s (s.pop2 fun a b s => s.push (f a b)) :=
  fin_pop2 _ _ fun a b r hr => fin_stack hpre hb _ _ (by rw [hr, h1, h2]; simp)

theorem adv_un (hpre : Pre i s) (h1 : i.pops = 1) (h2 : i.pushes = 1) (hb : 0 < i.baseGas)
    (f : U256 → U256) : Fin P i s (s.pop1 fun a s => s.push (f a)) :=
  fin_pop1 _ _ fun a r hr => fin_stack hpre hb _ _ (by rw [hr, h1, h2]; simp)

theorem adv_push (hpre : Pre i s) (h1 : i.pops = 0) (h2 : i.pushes = 1) (hb : 0 < i.baseGas)
    (v : U256) : Fin P i s (s.push v) :=
  fin_stack hpre hb _ _ (by rw [h1, h2]; simp)

theorem adv_account (hpre : Pre i s) (h1 : i.pops = 1) (h2 : i.pushes = 1)
    (f : Address → σ → U256 × σ) : Fin P i s (accountOp P f s) := by
  refine fin_pop1 _ _ fun a r hr => ?_
  rw [accountAccess_eq]
  have hle := accCost_le P (Word.toAddress a) s.host
  refine fin_charge _ _ _ fun hg => ?_
  refine fin_touch _ s.mem.size (accCost P (Word.toAddress a) s.host).1 ?_ rfl (Nat.le_refl _) hpre.aligned ?_ rfl hpre.ret (fun _ => rfl)
    (fun _ => by omega)
  · rw [hr, h1, h2]; simp [State.ask, State.push]
  · have : s.mem.growGas s.mem.size = 0 := by unfold Mem.growGas; omega
    dsimp only [State.ask, State.push] at hg ⊢
    omega

theorem adv_copy (hpre : Pre i s) (h1 : i.pops = 3) (h2 : i.pushes = 0) (hb : 0 < i.baseGas)
    (src : List Byte) : Fin P i s (copyOp src s) := by
  refine fin_pop3 _ _ fun a b c r hr => ?_
  refine fin_charge _ _ _ fun hg => ?_
  refine fin_touch _ (s.mem.sizeAfter a.toNat c.toNat) (3 * words c.toNat) ?_ rfl (sizeAfter_mono _ _ _)
    (sizeAfter_aligned _ _ _ hpre.aligned) ?_ rfl hpre.ret (fun _ => rfl) (fun _ => Nat.lt_add_left _ hb)
  · rw [hr, h1, h2]; simp
  · dsimp only at hg ⊢
    omega

theorem sstoreGas_refund (rev : Revision) (warm : Bool) (st : StorageStatus) :
    let g : Nat := sstoreGas rev st + (if rev ≥ BERLIN ∧ warm = false then 2100 else 0)
    100 ≤ g ∧ sstoreRefund rev warm st ≤ 199 * (g : Int) ∧ -(199 * (g : Int)) ≤ sstoreRefund rev warm st := by
  unfold sstoreGas sstoreRefund clearRefund restoreRefund LONDON BERLIN
  by_cases h' : rev ≥ 8 <;> cases warm <;> cases st <;> simp [h'] <;> omega

theorem adv_sstore (hpre : Pre .sstore s) : Fin P .sstore s (sstore P s) := by
  refine fin_pop2 _ _ fun key value r hr => ?_
  dsimp only
  split
  · exact fin_fail _ _
  · have go : ∀ (warm : Bool) (w : σ), Fin P .sstore s
        (State.ask { s with stack := r, host := w } (P.host.setStorage P.msg.recipient key value) fun status s =>
          s.charge (sstoreGas P.rev status + (if P.rev ≥ BERLIN ∧ warm = false then 2100 else 0)) fun s =>
            { s with refund := s.refund + sstoreRefund P.rev warm status }) := by
      intro warm w
      have hs := sstoreGas_refund P.rev warm (P.host.setStorage P.msg.recipient key value w).1
      dsimp only [State.ask]
      refine fin_charge _ _ _ fun hg => ?_
      dsimp only at hs hg ⊢
      intro _
      generalize sstoreGas P.rev (P.host.setStorage P.msg.recipient key value w).1 + (if P.rev ≥ BERLIN ∧ warm = false then 2100 else 0) = G at *
      generalize sstoreRefund P.rev warm (P.host.setStorage P.msg.recipient key value w).1 = R at *
      have hb : Instr.baseGas .sstore = 0 := rfl
      refine ⟨?_, hpre.aligned, Nat.le_refl _, ?_, ?_, ?_, hpre.ret, fun _ => .inl rfl, fun _ => ?_⟩
      · rw [hr]; simp [Instr.pops, Instr.pushes]
      · dsimp only; omega
      · dsimp only; omega
      · dsimp only; omega
      · dsimp only; omega
    split
    · exact go _ _
    · exact go _ _

theorem adv_sload (hpre : Pre .sload s) : Fin P .sload s (sload P s) := by
  refine fin_pop1 _ _ fun key r hr => ?_
  have go : ∀ (cost : Nat) (w : σ), 0 < cost → Fin P .sload s
      (State.charge { s with stack := r, host := w } cost fun s =>
        s.ask (P.host.getStorage P.msg.recipient key) fun v s => s.push v) := by
    intro cost w h0
    refine fin_charge _ _ _ fun hg => ?_
    refine fin_touch _ s.mem.size cost ?_ rfl (Nat.le_refl _) hpre.aligned ?_ rfl hpre.ret (fun _ => rfl) (fun _ => by omega)
    · rw [hr]; simp [Instr.pops, Instr.pushes, State.ask, State.push]
    · have : s.mem.growGas s.mem.size = 0 := by unfold Mem.growGas; omega
      dsimp only [State.ask, State.push] at hg ⊢
      omega
  dsimp only
  split
  · dsimp only [State.ask]
    split
    · exact go _ _ (by omega)
    · exact go _ _ (by omega)
  · exact go _ _ (by omega)

theorem adv_extcodecopy (hpre : Pre .extcodecopy s) : Fin P .extcodecopy s (extcodecopy P s) := by
  refine fin_pop4 _ _ fun a dst off n r hr => ?_
  dsimp only
  split
  · exact fin_fail _ _
  · rw [accountAccess_eq]
    have hle := accCost_le P (Word.toAddress a) s.host
    refine fin_charge _ _ _ fun hg => ?_
    dsimp only at hg ⊢
    have fin : ∀ (m : Mem) (w : σ), m.size = s.mem.sizeAfter dst.toNat n.toNat → Fin P .extcodecopy s
        { s with stack := r, gas := s.gas - (s.mem.growGas (s.mem.sizeAfter dst.toNat n.toNat) +
                  (3 * words n.toNat + (accCost P (Word.toAddress a) s.host).1)), mem := m, host := w } := by
      intro m w hm
      refine fin_touch _ _ (3 * words n.toNat + (accCost P (Word.toAddress a) s.host).1) ?_ hm (sizeAfter_mono _ _ _)
        (sizeAfter_aligned _ _ _ hpre.aligned) ?_ rfl hpre.ret (fun _ => rfl) (fun _ => by omega)
      · rw [hr]; simp [Instr.pops, Instr.pushes]
      · dsimp only; omega
    split
    · exact fin _ _ rfl
    · split
      · exact fin _ _ rfl
      · exact fin _ _ rfl

theorem adv_returndatacopy (hpre : Pre .returndatacopy s) : Fin P .returndatacopy s (returndatacopy s) := by
  refine fin_pop3 _ _ fun a b c r hr => ?_
  refine fin_charge _ _ _ fun hg => ?_
  dsimp only
  split
  · exact fin_fail _ _
  · refine fin_touch _ (s.mem.sizeAfter a.toNat c.toNat) (3 * words c.toNat) ?_ rfl (sizeAfter_mono _ a.toNat c.toNat) (sizeAfter_aligned _ _ _ hpre.aligned) ?_ rfl hpre.ret
      (fun _ => rfl) (fun _ => Nat.lt_add_left _ (by decide))
    · rw [hr]; simp [Instr.pops, Instr.pushes]
    · dsimp only at hg ⊢
      omega

theorem adv_blockhash (hpre : Pre .blockhash s) : Fin P .blockhash s (blockhash P s) := by
  refine fin_pop1 _ _ fun a r hr => ?_
  dsimp only
  split
  · exact fin_stack hpre (by decide) _ _ (by rw [hr]; simp [Instr.pops, Instr.pushes])
  · exact fin_stack hpre (by decide) _ _ (by rw [hr]; simp [Instr.pops, Instr.pushes])

theorem adv_log (n : Nat) (hpre : Pre (.log n) s) : Fin P (.log n) s (log P n s) := by
  refine fin_pop2 _ _ fun off len r hr => ?_
  refine fin_charge _ _ _ fun hg => ?_
  have hst := hpre.stack
  rw [hr] at hst
  simp only [Instr.pops, List.length_cons] at hst
  refine fin_touch _ (s.mem.sizeAfter off.toNat len.toNat) (8 * len.toNat) ?_ rfl (sizeAfter_mono _ off.toNat len.toNat) (sizeAfter_aligned _ _ _ hpre.aligned) ?_ rfl hpre.ret
      (fun _ => rfl) (fun _ => Nat.lt_add_left _ (by simp only [Instr.baseGas]; omega))
  · rw [hr]; simp [Instr.pops, Instr.pushes]; omega
  · dsimp only at hg ⊢
    omega

theorem adv_halt (hpre : Pre i s) (h1 : i.pops = 2) (h2 : i.pushes = 0) (st : Status) (hst : st ≠ .running) :
    Fin P i s (halt st s) := by
  refine fin_pop2 _ _ fun off n r hr => ?_
  refine fin_charge _ _ _ fun hg => ?_
  dsimp only at hg
  refine fin_touch _ (s.mem.sizeAfter off.toNat n.toNat) 0 ?_ rfl (sizeAfter_mono _ off.toNat n.toNat) (sizeAfter_aligned _ _ _ hpre.aligned) ?_ rfl ?_
      (fun h => absurd h hst) (fun h => absurd h hst)
  · rw [hr, h1, h2]; simp
  · dsimp only; omega
  · have := affordable s.mem s.gas off n hpre.aligned hpre.pot (by omega)
    dsimp only
    rw [read_length]; omega

theorem adv_selfdestruct (hpre : Pre .selfdestruct s) : Fin P .selfdestruct s (selfdestruct P s) := by
  refine fin_pop1 _ _ fun a r hr => ?_
  have finish : ∀ (cost : Nat) (w : σ), Fin P .selfdestruct s
      (State.charge { s with stack := r, host := w } cost fun s =>
        s.ask (P.host.selfdestruct P.msg.recipient (Word.toAddress a)) fun first s =>
          { s with status := .stopped, ret := []
                   refund := if first ∧ P.rev < LONDON then s.refund + 24000 else s.refund }) := by
    intro cost w
    refine fin_charge _ _ _ fun hg _ => ?_
    dsimp only [State.ask] at hg ⊢
    have hb : Instr.baseGas .selfdestruct = 5000 := rfl
    refine ⟨?_, hpre.aligned, Nat.le_refl _, ?_, ?_, ?_, ?_, ?_, ?_⟩
    · rw [hr]; simp [Instr.pops, Instr.pushes]
    · dsimp only; omega
    · dsimp only; split <;> omega
    · dsimp only; split <;> omega
    · dsimp only; simp
    · intro h; simp at h
    · intro h; simp at h
  have access : ∀ (cost : Nat) (w : σ), Fin P .selfdestruct s
      (if P.rev ≥ BERLIN then
        State.ask { s with stack := r, host := w } (P.host.accessAccount (Word.toAddress a)) fun st s =>
          (s.charge (cost + (if st = .cold then 2600 else 0)) fun s =>
            s.ask (P.host.selfdestruct P.msg.recipient (Word.toAddress a)) fun first s =>
              { s with status := .stopped, ret := []
                       refund := if first ∧ P.rev < LONDON then s.refund + 24000 else s.refund })
      else State.charge { s with stack := r, host := w } cost fun s =>
        s.ask (P.host.selfdestruct P.msg.recipient (Word.toAddress a)) fun first s =>
          { s with status := .stopped, ret := []
                   refund := if first ∧ P.rev < LONDON then s.refund + 24000 else s.refund }) := by
    intro cost w
    split
    · exact finish _ _
    · exact finish _ _
  show Fin P .selfdestruct s (if _ then _ else _)
  split
  · exact access _ _
  · exact access _ _

theorem allBut64th_le (g : Nat) : allBut64th g ≤ g := by unfold allBut64th; omega

theorem adv_create (hP : ParamsOk P) (is2 : Bool) (hpre : Pre i s) (h1 : i.pops = if is2 then 4 else 3)
    (h2 : i.pushes = 1) (hb : 0 < i.baseGas) : Fin P i s (create P is2 s) := by
  unfold create
  split
  · exact fin_fail _ _
  have body : ∀ (salt : Option U256) (value off n : U256) (r : List U256),
      r.length + i.pops = s.stack.length → Fin P i s (createWith P salt value off n { s with stack := r }) := by
    intro salt value off n r hr
    rw [createWith_eq]
    refine fin_charge _ _ _ fun hg => ?_
    dsimp only at hg ⊢
    split
    · exact fin_fail _ _
    refine fin_charge _ _ _ fun hg2 => ?_
    dsimp only at hg2
    generalize ((if P.rev ≥ SHANGHAI then 2 * words n.toNat else 0)
          + (if salt.isSome then 6 * words n.toNat else 0)) = C at *
    have hgp := growGas_pot s.mem (s.mem.sizeAfter off.toNat n.toNat)
    unfold createTail checkBalance
    dsimp only
    have poor : ∀ w : σ, Fin P i s { s with
          stack := 0 :: r
          ret := []
          gas := s.gas - (s.mem.growGas (s.mem.sizeAfter off.toNat n.toNat) + 0) - C
          mem := s.mem.expand off.toNat n.toNat
          host := w } := by
      intro w
      refine fin_touch _ (s.mem.sizeAfter off.toNat n.toNat) 0 ?_ rfl (sizeAfter_mono _ _ _) (sizeAfter_aligned _ _ _ hpre.aligned) ?_ rfl (by simp)
        (fun _ => rfl) (fun _ => by omega)
      · dsimp only; rw [h2]; simp; omega
      · dsimp only; omega
    have rich : ∀ w : σ, Fin P i s (State.ask { s with
          stack := r
          ret := []
          gas := s.gas - (s.mem.growGas (s.mem.sizeAfter off.toNat n.toNat) + 0) - C
          mem := s.mem.expand off.toNat n.toNat
          host := w }
        (P.host.call (createMessage P salt value ((s.mem.expand off.toNat n.toNat).read off.toNat n.toNat)
          (allBut64th (s.gas - (s.mem.growGas (s.mem.sizeAfter off.toNat n.toNat) + 0) - C)))) fun r s =>
              { s with
                gas := s.gas - (allBut64th s.gas) + r.gasLeft.toNat
                refund := s.refund + r.gasRefund
                ret := if r.status = .revert then r.output else []
                stack := (if r.status = .success then Word.ofAddress r.createAddress else 0)
                  :: s.stack }) := by
      intro w
      generalize hgg : s.gas - (s.mem.growGas (s.mem.sizeAfter off.toNat n.toNat) + 0) - C = gg
      generalize hmsg : createMessage P salt value ((s.mem.expand off.toNat n.toNat).read off.toNat n.toNat) (allBut64th gg) = msg
      have hmg : msg.gas = (allBut64th gg : Nat) := by rw [← hmsg]; rfl
      have hle := allBut64th_le gg
      have hpot := hpre.pot
      have hcg := hP.host.callGas msg w (by rw [hmg]; omega) (by rw [hmg]; omega)
      have hcr := hP.host.callRefund msg w (by rw [hmg]; omega) (by rw [hmg]; omega)
      have hco := hP.host.callOutput msg w (by rw [hmg]; omega) (by rw [hmg]; omega)
      rw [hmg] at hcg hcr
      dsimp only [State.ask]
      generalize P.host.call msg w = res at *
      intro _
      refine ⟨?_, sizeAfter_aligned _ _ _ hpre.aligned, sizeAfter_mono _ _ _, ?_, ?_, ?_, ?_, fun _ => .inl rfl, fun _ => ?_⟩
      · dsimp only; rw [h2]; simp; omega
      · show _ + memGas (words (s.mem.sizeAfter off.toNat n.toNat)) ≤ _
        dsimp only; omega
      · dsimp only; omega
      · dsimp only; omega
      · dsimp only; split
        · exact hco
        · simp
      · dsimp only; omega
    split
    · simp only [Bool.true_eq_false, if_false]
      exact rich s.host
    · dsimp only [State.ask]
      split
      · exact poor _
      · exact rich _
  refine fin_pop3 _ _ fun value off n r hr => ?_
  cases is2 with
  | true =>
    simp only [if_true] at h1 ⊢
    refine fin_pop1 _ _ fun salt r' hr' => ?_
    dsimp only at hr'
    exact body _ _ _ _ r' (by rw [hr, hr', h1]; simp)
  | false =>
    simp only [Bool.false_eq_true, if_false] at h1 ⊢
    exact body _ _ _ _ r (by rw [hr, h1]; simp)

theorem fin_callTail (hP : ParamsOk P) (hpre : Pre i s) (h2 : i.pushes = 1) (v : CallVariant) (gasReq : U256)
    (acct : Address) (value inOff inLen outOff outLen : U256) (r : List U256) (g1 : Nat) (n' : Nat) (m : Mem) (w : σ)
    (hr : r.length + i.pops = s.stack.length) (hm : m.size = n') (hmono : s.mem.size ≤ n') (hal : n' % 32 = 0)
    (hg : g1 + (if value.toNat ≠ 0 then 2300 else 0) + (s.mem.growGas n' + 100) ≤ s.gas) :
    Fin P i s (callTail P v gasReq acct value inOff inLen outOff outLen
      { s with stack := r, gas := g1, mem := m, host := w }) := by
  have hgp := growGas_pot s.mem n'
  unfold callTail checkBalance
  dsimp only
  generalize (if value.toNat ≠ 0 then 2300 else 0) = st at *
  have poor : ∀ (w : σ), Fin P i s { s with
      stack := 0 :: r
      ret := []
      gas := g1 + st
      mem := m
      host := w } := by
    intro w
    refine fin_touch _ n' 100 ?_ hm hmono hal ?_ rfl (by simp) (fun _ => rfl) (fun _ => by omega)
    · dsimp only; rw [h2]; simp; omega
    · dsimp only; omega
  have rich : ∀ w : σ, Fin P i s (State.ask { s with
      stack := r
      ret := []
      gas := g1
      mem := m
      host := w }
      (P.host.call (callMessage P v acct value (m.read inOff.toNat inLen.toNat)
        (min gasReq.toNat (allBut64th g1) + st))) fun r s =>
        { s with
          gas := s.gas - min gasReq.toNat (allBut64th g1) + r.gasLeft.toNat
          refund := s.refund + r.gasRefund
          ret := r.output
          mem := s.mem.write outOff.toNat (r.output.take outLen.toNat)
          stack := (if r.status = .success then 1 else 0) :: s.stack }) := by
    intro w
    have hle := allBut64th_le g1
    have hpot := hpre.pot
    generalize hf : min gasReq.toNat (allBut64th g1) = fwd
    have hfl : fwd ≤ g1 := by omega
    generalize hmsg : callMessage P v acct value (m.read inOff.toNat inLen.toNat) (fwd + st) = msg
    have hmg : msg.gas = ((fwd + st : Nat) : Int) := by rw [← hmsg]; rfl
    have hcg := hP.host.callGas msg w (by rw [hmg]; omega) (by rw [hmg]; omega)
    have hcr := hP.host.callRefund msg w (by rw [hmg]; omega) (by rw [hmg]; omega)
    have hco := hP.host.callOutput msg w (by rw [hmg]; omega) (by rw [hmg]; omega)
    rw [hmg] at hcg hcr
    dsimp only [State.ask]
    generalize P.host.call msg w = res at *
    intro _
    refine ⟨?_, ?_, ?_, ?_, ?_, ?_, hco, fun _ => .inl rfl, fun _ => ?_⟩
    · dsimp only; rw [h2]; simp; omega
    · show m.size % 32 = 0
      omega
    · show _ ≤ m.size
      omega
    · show _ + memGas (words m.size) ≤ _
      rw [hm]
      dsimp only; omega
    · dsimp only; omega
    · dsimp only; omega
    · dsimp only; omega
  split
  · simp only [Bool.true_eq_false, if_false]
    exact rich w
  · dsimp only [State.ask]
    split
    · exact poor _
    · exact rich _

theorem adv_callWith (hP : ParamsOk P) (hpre : Pre i s) (h2 : i.pushes = 1) (v : CallVariant) (gasReq : U256)
    (acct : Address) (value inOff inLen outOff outLen : U256) (r : List U256)
    (hr : r.length + i.pops = s.stack.length) :
    Fin P i s (callWith P v gasReq acct value inOff inLen outOff outLen { s with stack := r }) := by
  rw [callWith_eq]
  refine fin_charge _ _ _ fun hg => ?_
  dsimp only at hg ⊢
  split
  · exact fin_fail _ _
  rw [accountAccess_eq, newAccountGas_eq]
  refine fin_charge _ _ _ fun hg2 => ?_
  dsimp only at hg2 ⊢
  have hac := accCost_le P acct s.host
  have hmax : ((s.mem.expand inOff.toNat inLen.toNat).expand outOff.toNat outLen.toNat).size =
      max (s.mem.sizeAfter inOff.toNat inLen.toNat) (s.mem.sizeAfter outOff.toNat outLen.toNat) := by
    show (s.mem.expand inOff.toNat inLen.toNat).sizeAfter outOff.toNat outLen.toNat = _
    unfold Mem.expand Mem.sizeAfter
    dsimp only
    split <;> split <;> omega
  have h1 := sizeAfter_mono s.mem inOff.toNat inLen.toNat
  have h3 := sizeAfter_aligned s.mem inOff.toNat inLen.toNat hpre.aligned
  have h4 := sizeAfter_aligned s.mem outOff.toNat outLen.toNat hpre.aligned
  refine fin_callTail (w := (newAcc P v acct value (accCost P acct s.host).2).2) hP hpre h2 v gasReq acct value inOff inLen outOff outLen r _ _ _ hr hmax (by omega) (by omega) ?_
  generalize (accCost P acct s.host).1 = A at *
  generalize (newAcc P v acct value _).1 = N at *
  split <;> rename_i hv
  · rw [if_pos hv] at hg2
    omega
  · rw [if_neg hv] at hg2
    omega

theorem adv_call (hP : ParamsOk P) (v : CallVariant) (hpre : Pre i s)
    (h1 : i.pops = match v with | .call | .callcode => 7 | _ => 6) (h2 : i.pushes = 1) :
    Fin P i s (call P v s) := by
  unfold call
  split
  · exact fin_fail _ _
  cases v
  · refine fin_pop3 _ _ fun _ _ _ r hr => fin_pop4 _ _ fun _ _ _ _ r' hr' => ?_
    exact adv_callWith hP hpre h2 _ _ _ _ _ _ _ _ r' (by dsimp only at hr'; rw [hr, hr', h1]; simp)
  · refine fin_pop3 _ _ fun _ _ _ r hr => fin_pop4 _ _ fun _ _ _ _ r' hr' => ?_
    exact adv_callWith hP hpre h2 _ _ _ _ _ _ _ _ r' (by dsimp only at hr'; rw [hr, hr', h1]; simp)
  · refine fin_pop2 _ _ fun _ _ r hr => fin_pop4 _ _ fun _ _ _ _ r' hr' => ?_
    exact adv_callWith hP hpre h2 _ _ _ _ _ _ _ _ r' (by dsimp only at hr'; rw [hr, hr', h1]; simp)
  · refine fin_pop2 _ _ fun _ _ r hr => fin_pop4 _ _ fun _ _ _ _ r' hr' => ?_
    exact adv_callWith hP hpre h2 _ _ _ _ _ _ _ _ r' (by dsimp only at hr'; rw [hr, hr', h1]; simp)

/-- A memory-touching instruction with constant base gas. -/
theorem fin_mem (hpre : Pre i s) (hb : 0 < i.baseGas) (off n : U256) (extra : Nat) (r : List U256)
    (k : State σ → State σ)
    (hk : ∀ g w m, m.size = s.mem.sizeAfter off.toNat n.toNat → g + s.mem.growGas (s.mem.sizeAfter off.toNat n.toNat) ≤ s.gas →
      ∃ l m', k { s with stack := r, gas := g, mem := m, host := w } =
        { s with stack := l, gas := g, mem := m', host := w } ∧ m'.size = m.size ∧
        l.length + i.pops = s.stack.length + i.pushes) :
    Fin P i s (State.touch { s with stack := r } off n extra k) := by
  refine fin_charge _ _ _ fun hg => ?_
  dsimp only at hg ⊢
  obtain ⟨l, m', he, hm, hl⟩ := hk (s.gas - (s.mem.growGas (s.mem.sizeAfter off.toNat n.toNat) + extra)) s.host
    (s.mem.expand off.toNat n.toNat) rfl (by omega)
  rw [he]
  refine fin_touch _ (s.mem.sizeAfter off.toNat n.toNat) extra hl (by rw [hm]; rfl) (sizeAfter_mono _ _ _)
    (sizeAfter_aligned _ _ _ hpre.aligned) ?_ rfl hpre.ret (fun _ => rfl) (fun _ => by omega)
  dsimp only; omega

theorem fin_jumpTo (hpre : Pre i s) (h2 : i.pushes = 0) (hb : 0 < i.baseGas) (dest : U256) (r : List U256)
    (hr : r.length + i.pops = s.stack.length) : Fin P i s (jumpTo P dest { s with stack := r }) := by
  unfold jumpTo
  split
  · rename_i h
    intro _
    exact ⟨by dsimp only; omega, hpre.aligned, Nat.le_refl _, Nat.le_refl _, by dsimp only; omega, by dsimp only; omega, hpre.ret,
      fun _ => .inr h, fun _ => by dsimp only; omega⟩
  · exact fin_fail _ _

end

/-- Every instruction advances or fails. -/
theorem exec_adv (hP : ParamsOk P) (at_ : Nat) (i : Instr) (s : State σ) (hpre : Pre i s) :
    Fin P i s (exec P at_ i s) := by
  cases i with
  | stop =>
    intro _
    refine ⟨by simp [exec, Instr.pops, Instr.pushes], hpre.aligned, Nat.le_refl _, Nat.le_refl _, ?_, ?_, ?_, ?_, ?_⟩
    · simp only [exec]; omega
    · simp only [exec]; omega
    · simp [exec]
    · intro h; simp [exec] at h
    · intro h; simp [exec] at h
  | invalid => exact fin_fail _ _
  | add | mul | sub | div | sdiv | mod | smod | signextend | lt | gt | slt | sgt | eq | and | or | xor | byte | shl
  | shr | sar => exact adv_bin hpre rfl rfl (by decide) _
  | iszero | not => exact adv_un hpre rfl rfl (by decide) _
  | calldataload => exact adv_un (P := P) hpre rfl rfl (by decide) (fun off => Word.ofBytes (slice P.msg.input off.toNat 32))
  | blobhash => exact adv_un (P := P) hpre rfl rfl (by decide) (fun i => P.host.txContext.blobHashes.getD i.toNat 0)
  | addmod =>
    exact fin_pop3 _ _ fun a b c r hr => fin_stack hpre (by decide) _ _ (by rw [hr]; simp [Instr.pops, Instr.pushes])
  | mulmod =>
    exact fin_pop3 _ _ fun a b c r hr => fin_stack hpre (by decide) _ _ (by rw [hr]; simp [Instr.pops, Instr.pushes])
  | exp =>
    refine fin_pop2 _ _ fun a b r hr => fin_charge _ _ _ fun hg => ?_
    refine fin_touch _ s.mem.size (50 * Word.byteLen b.toNat) ?_ rfl (Nat.le_refl _) hpre.aligned ?_ rfl hpre.ret (fun _ => rfl)
      (fun _ => Nat.lt_add_left _ (by decide))
    · rw [hr]; simp [Instr.pops, Instr.pushes, State.push]
    · have : s.mem.growGas s.mem.size = 0 := by unfold Mem.growGas; omega
      dsimp only [State.push] at hg ⊢
      omega
  | sha3 =>
    refine fin_pop2 _ _ fun a b r hr => fin_mem hpre (by decide) _ _ _ _ _ fun g w m hm hg => ⟨_, _, rfl, rfl, ?_⟩
    rw [hr]; simp [Instr.pops, Instr.pushes]
  | mload =>
    refine fin_pop1 _ _ fun a r hr => fin_mem hpre (by decide) _ _ _ _ _ fun g w m hm hg => ⟨_, _, rfl, rfl, ?_⟩
    rw [hr]; simp [Instr.pops, Instr.pushes]
  | mstore =>
    refine fin_pop2 _ _ fun a b r hr => fin_mem hpre (by decide) _ _ _ _ _ fun g w m hm hg => ⟨_, _, rfl, rfl, ?_⟩
    rw [hr]; simp [Instr.pops, Instr.pushes]
  | mstore8 =>
    refine fin_pop2 _ _ fun a b r hr => fin_mem hpre (by decide) _ _ _ _ _ fun g w m hm hg => ⟨_, _, rfl, rfl, ?_⟩
    rw [hr]; simp [Instr.pops, Instr.pushes]
  | mcopy =>
    refine fin_pop3 _ _ fun dst src n r hr => fin_charge _ _ _ fun hg => ?_
    dsimp only at hg ⊢
    have hmax : ((s.mem.expand dst.toNat n.toNat).expand src.toNat n.toNat).size =
        max (s.mem.sizeAfter dst.toNat n.toNat) (s.mem.sizeAfter src.toNat n.toNat) := by
      show (s.mem.expand dst.toNat n.toNat).sizeAfter src.toNat n.toNat = _
      unfold Mem.expand Mem.sizeAfter
      dsimp only
      split <;> omega
    have h1 := sizeAfter_mono s.mem dst.toNat n.toNat
    have h3 := sizeAfter_aligned s.mem dst.toNat n.toNat hpre.aligned
    have h4 := sizeAfter_aligned s.mem src.toNat n.toNat hpre.aligned
    refine fin_touch _ (max (s.mem.sizeAfter dst.toNat n.toNat) (s.mem.sizeAfter src.toNat n.toNat)) (3 * words n.toNat) ?_ hmax
      (by omega) (by omega) ?_ rfl hpre.ret (fun _ => rfl) (fun _ => Nat.lt_add_left _ (by decide))
    · rw [hr]; simp [Instr.pops, Instr.pushes]
    · dsimp only; omega
  | address | origin | caller | callvalue | calldatasize | codesize | gasprice | returndatasize | coinbase | timestamp | number
  | prevrandao | gaslimit | chainid | basefee | blobbasefee | pc | msize | gas => exact adv_push hpre rfl rfl (by decide) _
  | push n => exact adv_push hpre rfl rfl (by simp only [Instr.baseGas]; split <;> decide) _
  | balance | extcodesize | extcodehash => exact adv_account hpre rfl rfl _
  | calldatacopy | codecopy => exact adv_copy hpre rfl rfl (by decide) _
  | extcodecopy => exact adv_extcodecopy hpre
  | returndatacopy => exact adv_returndatacopy hpre
  | blockhash => exact adv_blockhash hpre
  | selfbalance => exact fin_stack hpre (by decide) _ _ (by simp [Instr.pops, Instr.pushes])
  | pop => exact fin_pop1 _ _ fun a r hr => fin_stack hpre (by decide) r _ (by rw [hr]; simp [Instr.pops, Instr.pushes])
  | sload => exact adv_sload hpre
  | sstore => exact adv_sstore hpre
  | jump =>
    exact fin_pop1 _ _ fun a r hr => fin_jumpTo hpre rfl (by decide) a r (by rw [hr]; simp [Instr.pops])
  | jumpi =>
    refine fin_pop2 _ _ fun a b r hr => ?_
    split
    · exact fin_jumpTo hpre rfl (by decide) a r (by rw [hr]; simp [Instr.pops])
    · exact fin_stack hpre (by decide) r _ (by rw [hr]; simp [Instr.pops, Instr.pushes])
  | jumpdest => exact fin_stack hpre (by decide) s.stack s.host rfl
  | tload =>
    exact fin_pop1 _ _ fun a r hr => fin_stack hpre (by decide) _ _ (by rw [hr]; simp [Instr.pops, Instr.pushes])
  | tstore =>
    exact fin_pop2 _ _ fun a b r hr => fin_stack hpre (by decide) r _ (by rw [hr]; simp [Instr.pops, Instr.pushes])
  | dup n => exact fin_stack hpre (by simp [Instr.baseGas]) _ _ (by simp [Instr.pops, Instr.pushes]; omega)
  | swap n => exact fin_stack hpre (by simp [Instr.baseGas]) _ s.host (by simp [Instr.pops, Instr.pushes])
  | log n => exact adv_log n hpre
  | create => exact adv_create hP false hpre rfl rfl (by decide)
  | create2 => exact adv_create hP true hpre rfl rfl (by decide)
  | call => exact adv_call hP .call hpre rfl rfl
  | callcode => exact adv_call hP .callcode hpre rfl rfl
  | delegatecall => exact adv_call hP .delegatecall hpre rfl rfl
  | staticcall => exact adv_call hP .staticcall hpre rfl rfl
  | ret => exact adv_halt hpre rfl rfl _ (by decide)
  | revert => exact adv_halt hpre rfl rfl _ (by decide)
  | selfdestruct => exact adv_selfdestruct hpre

theorem decode_length {b : Nat} {i : Instr} (h : decode b = some i) : i.length ≤ 33 := by
  unfold decode at h
  split at h
  · simp only [Option.some.injEq] at h; subst h; simp only [Instr.length]; omega
  split at h
  · simp only [Option.some.injEq] at h; subst h; simp only [Instr.length]; omega
  split at h
  · simp only [Option.some.injEq] at h; subst h; simp only [Instr.length]; omega
  split at h
  · simp only [Option.some.injEq] at h; subst h; simp only [Instr.length]; omega
  split at h <;> first
    | (simp only [Option.some.injEq] at h; subst h; simp only [Instr.length]; omega)
    | (exact absurd h (by simp))

/-- Well-formedness is kept by steps that do not fail, and running on costs gas. -/
theorem step_wf (hP : ParamsOk P) {s : State σ} (hw : Wf P s) (hr : s.status = .running)
    (hnf : ∀ w, (step P s).status ≠ .failed w) :
    Wf P (step P s) ∧ ((step P s).status = .running → (step P s).gas < s.gas) := by
  unfold step at hnf ⊢
  rw [if_pos hr] at hnf ⊢
  cases hd : decode (byteAt P.code s.pc).toNat with
  | none =>
    rw [hd] at hnf
    exact absurd rfl (hnf .invalidInstruction)
  | some i =>
    rw [hd] at hnf
    dsimp only at hnf ⊢
    have hpc' := hw.pc hr
    have hlen := decode_length hd
    unfold execInstr at hnf ⊢
    split at hnf
    · exact absurd rfl (hnf _)
    split at hnf
    · exact absurd rfl (hnf _)
    split at hnf
    · exact absurd rfl (hnf _)
    split at hnf
    · exact absurd rfl (hnf _)
    rename_i h1 h2 h3 h4
    rw [if_neg h1, if_neg h2, if_neg h3, if_neg h4]
    by_cases hg : s.gas < i.baseGas
    · rw [charge_poor _ _ _ hg] at hnf
      exact absurd rfl (hnf _)
    rw [charge_rich _ _ _ hg] at hnf ⊢
    dsimp only at hnf ⊢
    have hpre : Pre i { s with gas := s.gas - i.baseGas, pc := s.pc + i.length } :=
      ⟨hr, by dsimp only; omega, hw.memAligned, by have := hw.gas; dsimp only; omega, hw.ret⟩
    have A := exec_adv hP s.pc i _ hpre hnf
    by_cases hin : s.pc < P.code.length
    · have e1 := A.stack
      have e2 := A.pot
      have e3 := A.refundHi
      have e4 := A.refundLo
      have w1 := hw.gas
      have w2 := hw.refundHi
      have w3 := hw.refundLo
      have hcast : ((s.gas - i.baseGas + i.baseGas : Nat) : Int) = s.gas := by omega
      dsimp only at e1 e2 e3 e4
      rw [hcast] at e3 e4
      refine ⟨⟨by omega, A.aligned, by omega, by omega, by omega, A.ret, fun h => ?_⟩, fun h => ?_⟩
      · have := (A.pc h).imp_right fun ⟨h, _⟩ => h
        dsimp only at this
        omega
      · have := A.strict h
        dsimp only at this
        omega
    · have hb : byteAt P.code s.pc = 0 := by
        unfold byteAt
        rw [List.getD_eq_getElem?_getD, List.getElem?_eq_none (by omega)]; rfl
      rw [hb] at hd
      have hi : i = .stop := by
        have : decode (0 : Byte).toNat = some .stop := by decide
        rw [this] at hd; simpa using hd.symm
      subst hi
      have w1 := hw.gas
      refine ⟨⟨?_, hw.memAligned, ?_, ?_, ?_, ?_, ?_⟩, ?_⟩
      · simpa [exec] using hw.stack
      · simpa [exec, Instr.baseGas] using hw.gas
      · simpa [exec, Instr.baseGas] using hw.refundHi
      · simpa [exec, Instr.baseGas] using hw.refundLo
      · simp [exec]
      · intro h; simp [exec] at h
      · intro h; simp [exec] at h

end Tosca.Proofs

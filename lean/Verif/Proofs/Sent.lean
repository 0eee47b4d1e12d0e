import Verif.Proofs.Nest

/-!
# Hosts that agree on the messages a frame can send

Refines `Verif/Proofs/Nest`: only messages with gas between 0 and 2^54 are sent.
-/

namespace Tosca.Proofs

open Tosca.Spec Tosca.Model

variable {σ : Type}

/-- The answers agree on the messages with an amount of gas that a frame can send. -/
def AgreeGas (c c' : Message → σ → CallResult × σ) : Prop :=
  ∀ m w, 0 ≤ m.gas → m.gas ≤ 2 ^ 54 → c m w = c' m w

variable {P : Params σ} {c : Message → σ → CallResult × σ}

theorem charge_agree {s : State σ} {n : Nat} {k k' : State σ → State σ} (h : ∀ s' : State σ, s'.gas + n = s.gas → k s' = k' s') :
    s.charge n k = s.charge n k' := by
  unfold State.charge
  split
  · rfl
  · exact h _ (by show s.gas - n + n = s.gas; omega)

theorem touch_agree {s : State σ} {a b : U256} {n : Nat} {k k' : State σ → State σ} (h : ∀ s' : State σ, s'.gas ≤ s.gas → k s' = k' s') :
    s.touch a b n k = s.touch a b n k' := by
  unfold State.touch
  exact charge_agree fun s' hs => h _ (by show s'.gas ≤ s.gas; omega)

theorem touch2_agree {s : State σ} {a b a' b' : U256} {n : Nat} {k k' : State σ → State σ}
    (h : ∀ s' : State σ, s'.gas ≤ s.gas → k s' = k' s') : s.touch2 a b a' b' n k = s.touch2 a b a' b' n k' := by
  unfold State.touch2
  exact charge_agree fun s' hs => h _ (by show s'.gas ≤ s.gas; omega)

theorem checkBalance_agree {v : U256} {s : State σ} {k k' : Bool → State σ → State σ}
    (h : ∀ b (s' : State σ), s'.gas = s.gas → k b s' = k' b s') : checkBalance (recall P c) v s k = checkBalance P v s k' := by
  unfold checkBalance
  split
  · exact h _ _ rfl
  · exact h _ _ rfl

theorem accountAccess_agree {a : Address} {s : State σ} {k k' : Nat → State σ → State σ}
    (h : ∀ b (s' : State σ), s'.gas = s.gas → k b s' = k' b s') : accountAccess (recall P c) a s k = accountAccess P a s k' := by
  unfold accountAccess
  show (if P.rev ≥ BERLIN then _ else _) = _
  split
  · exact h _ _ rfl
  · exact h _ _ rfl

theorem newAccountGas_agree {v : CallVariant} {a : Address} {value : U256} {s : State σ} {k k' : Nat → State σ → State σ}
    (h : ∀ b (s' : State σ), s'.gas = s.gas → k b s' = k' b s') :
    newAccountGas (recall P c) v a value s k = newAccountGas P v a value s k' := by
  unfold newAccountGas
  split
  · exact h _ _ rfl
  · exact h _ _ rfl

theorem callWith_agree (h : AgreeGas P.host.call c) (v : CallVariant) (g : U256) (a : Address) (value io il oo ol : U256)
    {s : State σ} (hs : s.gas ≤ 2 ^ 54) : callWith (recall P c) v g a value io il oo ol s = callWith P v g a value io il oo ol s := by
  unfold callWith
  refine touch2_agree fun s1 h1 => ?_
  show (if v = .call ∧ value.toNat ≠ 0 ∧ P.msg.isStatic then s1.fail .staticViolation else _) = _
  split
  · rfl
  refine accountAccess_agree fun access s2 h2 => ?_
  refine newAccountGas_agree fun na s3 h3 => ?_
  refine charge_agree fun s4 h4 => ?_
  dsimp only
  refine checkBalance_agree fun ok s5 h5 => ?_
  split
  · rfl
  · show State.ask s5 (c (callMessage P v a value (s5.mem.read io.toNat il.toNat) _)) _ = _
    have hg : min g.toNat (allBut64th s4.gas) ≤ s4.gas := by
      have : allBut64th s4.gas ≤ s4.gas := by unfold allBut64th; omega
      omega
    rw [show P.host.call (callMessage P v a value (s5.mem.read io.toNat il.toNat)
        (min g.toNat (allBut64th s4.gas) + if value.toNat ≠ 0 then 2300 else 0)) =
      c (callMessage P v a value (s5.mem.read io.toNat il.toNat)
        (min g.toNat (allBut64th s4.gas) + if value.toNat ≠ 0 then 2300 else 0)) from by
        funext w
        refine h _ w ?_ ?_
        · show (0 : Int) ≤ ((_ : Nat) : Int); omega
        · show (((_ : Nat) : Int)) ≤ 2 ^ 54
          by_cases hv : value.toNat ≠ 0
          · rw [if_pos hv] at h4 ⊢; omega
          · rw [if_neg hv] at h4 ⊢; omega]

theorem call_agree (h : AgreeGas P.host.call c) (v : CallVariant) {s : State σ} (hs : s.gas ≤ 2 ^ 54) :
    call (recall P c) v s = call P v s := by
  have hw : ∀ (g a value io il oo ol : U256) (s' : State σ), s'.gas = s.gas →
      callWith (recall P c) v g (Word.toAddress a) value io il oo ol s' = callWith P v g (Word.toAddress a) value io il oo ol s' :=
    fun g a value io il oo ol s' h' => callWith_agree h v g _ value io il oo ol (by omega)
  have p1 : ∀ (s' : State σ) {k k' : U256 → State σ → State σ}, s'.gas = s.gas → (∀ a (t : State σ), t.gas = s.gas → k a t = k' a t) →
      s'.pop1 k = s'.pop1 k' := by
    intro s' k k' hs' hk
    unfold State.pop1
    split
    · exact hk _ _ hs'
    · rfl
  unfold call
  show (if P.msg.depth > 1024 then _ else _) = _
  split
  · rfl
  · cases v <;> dsimp only <;> unfold State.pop4 <;> unfold State.pop3 <;> unfold State.pop2
    · exact p1 s rfl fun g s1 h1 => p1 s1 h1 fun a s2 h2 => p1 s2 h2 fun value s3 h3 => p1 s3 h3 fun io s4 h4 =>
        p1 s4 h4 fun il s5 h5 => p1 s5 h5 fun oo s6 h6 => p1 s6 h6 fun ol s7 h7 => hw _ _ _ _ _ _ _ _ h7
    · exact p1 s rfl fun g s1 h1 => p1 s1 h1 fun a s2 h2 => p1 s2 h2 fun value s3 h3 => p1 s3 h3 fun io s4 h4 =>
        p1 s4 h4 fun il s5 h5 => p1 s5 h5 fun oo s6 h6 => p1 s6 h6 fun ol s7 h7 => hw _ _ _ _ _ _ _ _ h7
    · exact p1 s rfl fun g s1 h1 => p1 s1 h1 fun a s3 h3 => p1 s3 h3 fun io s4 h4 =>
        p1 s4 h4 fun il s5 h5 => p1 s5 h5 fun oo s6 h6 => p1 s6 h6 fun ol s7 h7 => hw _ _ _ _ _ _ _ _ h7
    · exact p1 s rfl fun g s1 h1 => p1 s1 h1 fun a s3 h3 => p1 s3 h3 fun io s4 h4 =>
        p1 s4 h4 fun il s5 h5 => p1 s5 h5 fun oo s6 h6 => p1 s6 h6 fun ol s7 h7 => hw _ _ _ _ _ _ _ _ h7

theorem createWith_agree (h : AgreeGas P.host.call c) (salt : Option U256) (value off n : U256) {s : State σ} (hs : s.gas ≤ 2 ^ 54) :
    createWith (recall P c) salt value off n s = createWith P salt value off n s := by
  unfold createWith
  refine touch_agree fun s1 h1 => ?_
  show (if P.rev ≥ SHANGHAI ∧ n.toNat > 49152 then s1.fail .initCodeTooLarge else _) = _
  split
  · rfl
  refine charge_agree fun s2 h2 => ?_
  dsimp only
  refine checkBalance_agree fun ok s3 h3 => ?_
  split
  · rfl
  · show State.ask s3 (c (createMessage P salt value (s3.mem.read off.toNat n.toNat) (allBut64th s3.gas))) _ = _
    rw [show P.host.call (createMessage P salt value (s3.mem.read off.toNat n.toNat) (allBut64th s3.gas)) =
      c (createMessage P salt value (s3.mem.read off.toNat n.toNat) (allBut64th s3.gas)) from by
        funext w
        refine h _ w ?_ ?_
        · show (0 : Int) ≤ ((_ : Nat) : Int); omega
        · show (((_ : Nat) : Int)) ≤ 2 ^ 54
          unfold allBut64th
          have : s3.gas = s2.gas := h3
          omega]

theorem create_agree (h : AgreeGas P.host.call c) (is2 : Bool) {s : State σ} (hs : s.gas ≤ 2 ^ 54) :
    create (recall P c) is2 s = create P is2 s := by
  have p1 : ∀ (s' : State σ) {k k' : U256 → State σ → State σ}, s'.gas = s.gas → (∀ a (t : State σ), t.gas = s.gas → k a t = k' a t) →
      s'.pop1 k = s'.pop1 k' := by
    intro s' k k' hs' hk
    unfold State.pop1
    split
    · exact hk _ _ hs'
    · rfl
  unfold create
  show (if P.msg.depth > 1024 then _ else _) = _
  split
  · rfl
  · unfold State.pop3 State.pop2
    refine p1 s rfl fun value s1 h1 => p1 s1 h1 fun off s2 h2 => p1 s2 h2 fun n s3 h3 => ?_
    cases is2
    · exact createWith_agree h none value off n (by omega)
    · exact p1 s3 h3 fun salt s4 h4 => createWith_agree h (some salt) value off n (by omega)

theorem step_agree (h : AgreeGas P.host.call c) {s : State σ} (hs : s.gas ≤ 2 ^ 54) : step (recall P c) s = step P s := by
  unfold step
  have e : ∀ i, execInstr (recall P c) i s = execInstr P i s := by
    intro i
    unfold execInstr
    have hx : s.charge i.baseGas (fun s => exec (recall P c) s.pc i { s with pc := s.pc + i.length }) =
        s.charge i.baseGas (fun s => exec P s.pc i { s with pc := s.pc + i.length }) := by
      refine charge_agree fun s' h' => ?_
      have hg : ({ s' with pc := s'.pc + i.length } : State σ).gas ≤ 2 ^ 54 := by show s'.gas ≤ _; omega
      cases i with
      | create => exact create_agree h false hg
      | create2 => exact create_agree h true hg
      | call => exact call_agree h .call hg
      | callcode => exact call_agree h .callcode hg
      | delegatecall => exact call_agree h .delegatecall hg
      | staticcall => exact call_agree h .staticcall hg
      | _ => rfl
    rw [hx]
    rfl
  simp only [e]
  rfl

/-- A run on a host that keeps the contract does not depend on the answers to messages with other amounts of gas. -/
theorem steps_agree (hP : ParamsOk P) (h : AgreeGas P.host.call c) (n : Nat) : ∀ {s : State σ}, Wf P s →
    steps (recall P c) n s = steps P n s := by
  induction n with
  | zero => intro s _; rfl
  | succ n ih =>
    intro s hw
    show steps (recall P c) n (step (recall P c) s) = steps P n (step P s)
    rw [step_agree h (by have := hw.gas; omega)]
    by_cases hr : (step P s).status = .running
    · by_cases hr0 : s.status = .running
      · exact ih (step_wf hP hw hr0 (by rw [hr]; intro f hf; cases hf)).1
      · have : step P s = s := by unfold step; rw [if_neg hr0]
        rw [this]; exact ih hw
    · rw [steps_halted hr, steps_halted hr]

end Tosca.Proofs

import Verif.Proofs.LfvmFrame
import Verif.Proofs.Sent

/-!
# Frames with at most 2^40 gas: the messages they can send
-/

namespace Tosca.Proofs.Lfvm

open Tosca.Spec Tosca.Model Tosca.Spec.Go Tosca.Go

variable {σ : Type}

/-- The answers agree on the messages that such a frame can send. -/
def AgreeSmall (rev : Revision) (c c' : Message → σ → CallResult × σ) : Prop :=
  ∀ m w, 0 ≤ m.gas → m.gas ≤ 2 ^ 40 → (SHANGHAI ≤ rev → m.kind = .create ∨ m.kind = .create2 → m.input.length ≤ 49152) → c m w = c' m w

variable {P : Params σ} {c : Message → σ → CallResult × σ}

theorem callWith_agree (h : AgreeSmall P.rev P.host.call c) (v : CallVariant) (g : U256) (a : Address) (value io il oo ol : U256)
    {s : State σ} (hs : s.gas ≤ 2 ^ 40) : callWith (recall P c) v g a value io il oo ol s = callWith P v g a value io il oo ol s := by
  unfold callWith
  refine touch2_agree fun s1 h1 => ?_
  show (if v = .call ∧ value.toNat ≠ 0 ∧ P.msg.isStatic then s1.fail .staticViolation else _) = _
  split
  · rfl
  refine accountAccess_agree fun access s2 h2 => ?_
  refine newAccountGas_agree fun na s3 h3 => ?_
  refine charge_agree fun s4 h4 => ?_
  dsimp only
  refine checkBalance_agree fun ok s5 h5 => ?_
  split
  · rfl
  · show State.ask s5 (c (callMessage P v a value (s5.mem.read io.toNat il.toNat) _)) _ = _
    have hg : min g.toNat (allBut64th s4.gas) ≤ s4.gas := by
      have : allBut64th s4.gas ≤ s4.gas := by unfold allBut64th; omega
      omega
    rw [show P.host.call (callMessage P v a value (s5.mem.read io.toNat il.toNat)
        (min g.toNat (allBut64th s4.gas) + if value.toNat ≠ 0 then 2300 else 0)) =
      c (callMessage P v a value (s5.mem.read io.toNat il.toNat)
        (min g.toNat (allBut64th s4.gas) + if value.toNat ≠ 0 then 2300 else 0)) from by
        funext w
        refine h _ w ?_ ?_ (fun _ hk => absurd hk (by cases v <;> (rintro (h | h) <;> cases h)))
        · show (0 : Int) ≤ ((_ : Nat) : Int); omega
        · show (((_ : Nat) : Int)) ≤ 2 ^ 40
          by_cases hv : value.toNat ≠ 0
          · rw [if_pos hv] at h4 ⊢; omega
          · rw [if_neg hv] at h4 ⊢; omega]

theorem call_agree (h : AgreeSmall P.rev P.host.call c) (v : CallVariant) {s : State σ} (hs : s.gas ≤ 2 ^ 40) :
    call (recall P c) v s = call P v s := by
  have hw : ∀ (g a value io il oo ol : U256) (s' : State σ), s'.gas = s.gas →
      callWith (recall P c) v g (Word.toAddress a) value io il oo ol s' = callWith P v g (Word.toAddress a) value io il oo ol s' :=
    fun g a value io il oo ol s' h' => callWith_agree h v g _ value io il oo ol (by omega)
  have p1 : ∀ (s' : State σ) {k k' : U256 → State σ → State σ}, s'.gas = s.gas → (∀ a (t : State σ), t.gas = s.gas → k a t = k' a t) →
      s'.pop1 k = s'.pop1 k' := by
    intro s' k k' hs' hk
    unfold State.pop1
    split
    · exact hk _ _ hs'
    · rfl
  unfold call
  show (if P.msg.depth > 1024 then _ else _) = _
  split
  · rfl
  · cases v <;> dsimp only <;> unfold State.pop4 <;> unfold State.pop3 <;> unfold State.pop2
    · exact p1 s rfl fun g s1 h1 => p1 s1 h1 fun a s2 h2 => p1 s2 h2 fun value s3 h3 => p1 s3 h3 fun io s4 h4 =>
        p1 s4 h4 fun il s5 h5 => p1 s5 h5 fun oo s6 h6 => p1 s6 h6 fun ol s7 h7 => hw _ _ _ _ _ _ _ _ h7
    · exact p1 s rfl fun g s1 h1 => p1 s1 h1 fun a s2 h2 => p1 s2 h2 fun value s3 h3 => p1 s3 h3 fun io s4 h4 =>
        p1 s4 h4 fun il s5 h5 => p1 s5 h5 fun oo s6 h6 => p1 s6 h6 fun ol s7 h7 => hw _ _ _ _ _ _ _ _ h7
    · exact p1 s rfl fun g s1 h1 => p1 s1 h1 fun a s3 h3 => p1 s3 h3 fun io s4 h4 =>
        p1 s4 h4 fun il s5 h5 => p1 s5 h5 fun oo s6 h6 => p1 s6 h6 fun ol s7 h7 => hw _ _ _ _ _ _ _ _ h7
    · exact p1 s rfl fun g s1 h1 => p1 s1 h1 fun a s3 h3 => p1 s3 h3 fun io s4 h4 =>
        p1 s4 h4 fun il s5 h5 => p1 s5 h5 fun oo s6 h6 => p1 s6 h6 fun ol s7 h7 => hw _ _ _ _ _ _ _ _ h7

theorem createWith_agree (h : AgreeSmall P.rev P.host.call c) (salt : Option U256) (value off n : U256) {s : State σ} (hs : s.gas ≤ 2 ^ 40) :
    createWith (recall P c) salt value off n s = createWith P salt value off n s := by
  unfold createWith
  refine touch_agree fun s1 h1 => ?_
  show (if P.rev ≥ SHANGHAI ∧ n.toNat > 49152 then s1.fail .initCodeTooLarge else _) = _
  split
  · rfl
  rename_i hn
  show State.charge s1 ((if P.rev ≥ SHANGHAI then _ else _) + _) _ = _
  refine charge_agree fun s2 h2 => ?_
  dsimp only
  refine checkBalance_agree fun ok s3 h3 => ?_
  split
  · rfl
  · show State.ask s3 (c (createMessage P salt value (s3.mem.read off.toNat n.toNat) (allBut64th s3.gas))) _ = _
    rw [show P.host.call (createMessage P salt value (s3.mem.read off.toNat n.toNat) (allBut64th s3.gas)) =
      c (createMessage P salt value (s3.mem.read off.toNat n.toNat) (allBut64th s3.gas)) from by
        funext w
        refine h _ w ?_ ?_ (fun hrev _ => by show (Mem.read s3.mem off.toNat n.toNat).length ≤ 49152; rw [read_length]; exact Nat.not_lt.1 fun hx => hn ⟨hrev, hx⟩)
        · show (0 : Int) ≤ ((_ : Nat) : Int); omega
        · show (((_ : Nat) : Int)) ≤ 2 ^ 40
          unfold allBut64th
          have : s3.gas = s2.gas := h3
          omega]

theorem create_agree (h : AgreeSmall P.rev P.host.call c) (is2 : Bool) {s : State σ} (hs : s.gas ≤ 2 ^ 40) :
    create (recall P c) is2 s = create P is2 s := by
  have p1 : ∀ (s' : State σ) {k k' : U256 → State σ → State σ}, s'.gas = s.gas → (∀ a (t : State σ), t.gas = s.gas → k a t = k' a t) →
      s'.pop1 k = s'.pop1 k' := by
    intro s' k k' hs' hk
    unfold State.pop1
    split
    · exact hk _ _ hs'
    · rfl
  unfold create
  show (if P.msg.depth > 1024 then _ else _) = _
  split
  · rfl
  · unfold State.pop3 State.pop2
    refine p1 s rfl fun value s1 h1 => p1 s1 h1 fun off s2 h2 => p1 s2 h2 fun n s3 h3 => ?_
    cases is2
    · exact createWith_agree h none value off n (by omega)
    · exact p1 s3 h3 fun salt s4 h4 => createWith_agree h (some salt) value off n (by omega)

theorem stepEip_agree (h : AgreeSmall P.rev P.host.call c) {s : State σ} (hs : s.gas ≤ 2 ^ 40) : stepEip (recall P c) s = stepEip P s := by
  unfold stepEip
  have e : ∀ i, execInstrEip (recall P c) i s = execInstrEip P i s := by
    intro i
    unfold execInstrEip
    have hx : s.charge i.baseGas (fun s => execEip (recall P c) s.pc i { s with pc := s.pc + i.length }) =
        s.charge i.baseGas (fun s => execEip P s.pc i { s with pc := s.pc + i.length }) := by
      refine charge_agree fun s' h' => ?_
      have hg : ({ s' with pc := s'.pc + i.length } : State σ).gas ≤ 2 ^ 40 := by show s'.gas ≤ _; omega
      unfold execEip
      by_cases hss : i = .sstore
      · rw [if_pos hss, if_pos hss]; rfl
      rw [if_neg hss, if_neg hss]
      cases i with
      | create => exact create_agree h false hg
      | create2 => exact create_agree h true hg
      | call => exact call_agree h .call hg
      | callcode => exact call_agree h .callcode hg
      | delegatecall => exact call_agree h .delegatecall hg
      | staticcall => exact call_agree h .staticcall hg
      | _ => rfl
    rw [hx]
    rfl
  simp only [e]
  rfl

/-- A run on a host that keeps the contract does not depend on the answers to messages with other amounts of gas. -/
theorem stepsEip_agree (hP : ParamsOk P) (h : AgreeSmall P.rev P.host.call c) (n : Nat) : ∀ {s : State σ}, Wf P s → s.gas ≤ 2 ^ 40 →
    stepsEip (recall P c) n s = stepsEip P n s := by
  induction n with
  | zero => intro s _ _; rfl
  | succ n ih =>
    intro s hw hg
    show stepsEip (recall P c) n (stepEip (recall P c) s) = stepsEip P n (stepEip P s)
    rw [stepEip_agree h hg]
    by_cases hr : (stepEip P s).status = .running
    · by_cases hr0 : s.status = .running
      · have hx := stepEip_wf hP hw hr0 (by rw [hr]; intro f hf; cases hf)
        exact ih hx.1 (by have := hx.2 hr; omega)
      · have : stepEip P s = s := by unfold stepEip; rw [if_neg hr0]
        rw [this]; exact ih hw hg
    · rw [stepsEip_halted hr, stepsEip_halted hr]

end Tosca.Proofs.Lfvm

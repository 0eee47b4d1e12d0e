import Verif.Proofs.Nest
import Verif.Proofs.Vm

/-!
# One step on two hosts that differ in the answers to nested calls
-/

namespace Tosca.Proofs.Ez

open Tosca.Spec Tosca.Model

variable {σ : Type} {P : Params σ} {c : Message → σ → CallResult × σ} {Q : State σ → State σ → Prop}

/-- How the instructions go on after a nested call. -/
inductive Finish : (CallResult → State σ → State σ) → Prop
  | call (fwd : Nat) (oo ol : U256) : Finish fun r s =>
      { s with gas := s.gas - fwd + r.gasLeft.toNat, refund := s.refund + r.gasRefund, ret := r.output
               mem := s.mem.write oo.toNat (r.output.take ol.toNat), stack := (if r.status = .success then 1 else 0) :: s.stack }
  | create (fwd : Nat) : Finish fun r s =>
      { s with gas := s.gas - fwd + r.gasLeft.toNat, refund := s.refund + r.gasRefund
               ret := if r.status = .revert then r.output else []
               stack := (if r.status = .success then Word.ofAddress r.createAddress else 0) :: s.stack }

/-- The answers to the messages a frame can send lead to related states. -/
def Answers (P : Params σ) (c : Message → σ → CallResult × σ) (w : σ) (g : Nat) (refund : Int) (Q : State σ → State σ → Prop) : Prop :=
  ∀ (t : State σ) (m : Message) (k : CallResult → State σ → State σ), Finish k → Asked P.host w t.host → t.refund = refund →
    0 ≤ m.gas → m.gas ≤ (g : Int) → m.input.length ≤ 2 ^ 30 → Q (t.ask (P.host.call m) k) (t.ask (c m) k)

/-- Ranges that can be paid for are short. -/
def Short (m : Mem) (g : Nat) : Prop := ∀ off n : U256, m.growGas (m.sizeAfter off.toNat n.toNat) ≤ g → n.toNat ≤ 2 ^ 30

theorem charge_rel (hr : ∀ t, Q t t) {s : State σ} {n : Nat} {k k' : State σ → State σ}
    (h : n ≤ s.gas → Q (k { s with gas := s.gas - n }) (k' { s with gas := s.gas - n })) : Q (s.charge n k) (s.charge n k') := by
  unfold State.charge
  split
  · exact hr _
  · exact h (by omega)

theorem checkBalance_rel {v : U256} {s : State σ} {k k' : Bool → State σ → State σ}
    (h : ∀ b w, Asked P.host s.host w → Q (k b { s with host := w }) (k' b { s with host := w })) :
    Q (checkBalance P v s k) (checkBalance (recall P c) v s k') := by
  unfold checkBalance
  split
  · exact h _ s.host .here
  · exact h _ _ (.balance _ .here)

theorem pop1_rel (hr : ∀ t, Q t t) {s : State σ} {k k' : U256 → State σ → State σ} (h : ∀ a r, Q (k a { s with stack := r }) (k' a { s with stack := r })) :
    Q (s.pop1 k) (s.pop1 k') := by
  unfold State.pop1
  split
  · exact h _ _
  · exact hr _

theorem callWith_rel (hr : ∀ t, Q t t) {s : State σ} (hQ : Answers P c s.host s.gas s.refund Q) (hm : Short s.mem s.gas) (v : CallVariant) (g : U256)
    (a : Address) (value io il oo ol : U256) :
    Q (callWith P v g a value io il oo ol s) (callWith (recall P c) v g a value io il oo ol s) := by
  unfold callWith State.touch2
  refine charge_rel hr fun hg => ?_
  have hil : il.toNat ≤ 2 ^ 30 := by
    refine hm io il (Nat.le_trans ?_ hg)
    have : ∀ a b : Nat, s.mem.growGas a ≤ s.mem.growGas (max a b) + 0 := by
      intro a b
      rw [growGas_max]
      omega
    exact this _ _
  show Q (if v = .call ∧ value.toNat ≠ 0 ∧ P.msg.isStatic then _ else _) (if v = .call ∧ value.toNat ≠ 0 ∧ P.msg.isStatic then _ else _)
  split
  · exact hr _
  rw [accountAccess_eq, accountAccess_eq, newAccountGas_eq, newAccountGas_eq]
  have hask : Asked P.host s.host (newAcc P v a value (accCost P a s.host).2).2 := asked_new (asked_acc _ _) _ _ _
  refine charge_rel hr fun hg2 => ?_
  dsimp only at hg hg2 ⊢
  refine checkBalance_rel fun b w hw => ?_
  dsimp only at hw ⊢
  split
  · exact hr _
  · refine hQ _ _ _ (Finish.call _ _ _) (hask.trans hw) rfl ?_ ?_ ?_
    · show (0 : Int) ≤ ((_ : Nat) : Int)
      omega
    · show (((_ : Nat) : Int)) ≤ (s.gas : Int)
      have : ∀ x, allBut64th x ≤ x := by intro x; unfold allBut64th; omega
      have h1 := this (s.gas - (s.mem.growGas (max (s.mem.sizeAfter io.toNat il.toNat) (s.mem.sizeAfter oo.toNat ol.toNat)) + 0) -
        ((accCost P a s.host).1 + (if value.toNat ≠ 0 then 9000 else 0) + (newAcc P v a value (accCost P a s.host).2).1))
      by_cases hv : value.toNat ≠ 0
      · simp only [if_pos hv] at h1 hg2 ⊢
        omega
      · simp only [if_neg hv] at h1 hg2 ⊢
        omega
    · show (Mem.read _ _ _).length ≤ _
      rw [read_length]
      exact hil

theorem createWith_rel (hr : ∀ t, Q t t) {s : State σ} (hQ : Answers P c s.host s.gas s.refund Q) (hm : Short s.mem s.gas) (salt : Option U256)
    (value off n : U256) : Q (createWith P salt value off n s) (createWith (recall P c) salt value off n s) := by
  unfold createWith State.touch
  refine charge_rel hr fun hg => ?_
  have hn : n.toNat ≤ 2 ^ 30 := hm off n (by omega)
  show Q (if P.rev ≥ SHANGHAI ∧ n.toNat > 49152 then _ else _) (if P.rev ≥ SHANGHAI ∧ n.toNat > 49152 then _ else _)
  split
  · exact hr _
  refine charge_rel hr fun hg2 => ?_
  dsimp only at hg hg2 ⊢
  refine checkBalance_rel fun b w hw => ?_
  dsimp only at hw ⊢
  split
  · exact hr _
  · refine hQ _ _ _ (Finish.create _) hw rfl ?_ ?_ ?_
    · show (0 : Int) ≤ ((_ : Nat) : Int)
      omega
    · show (((_ : Nat) : Int)) ≤ (s.gas : Int)
      unfold allBut64th
      omega
    · show (Mem.read _ _ _).length ≤ _
      rw [read_length]
      exact hn

theorem call_rel (hr : ∀ t, Q t t) {s : State σ} (hQ : Answers P c s.host s.gas s.refund Q) (hm : Short s.mem s.gas) (v : CallVariant) :
    Q (call P v s) (call (recall P c) v s) := by
  unfold call
  show Q (if P.msg.depth > 1024 then _ else _) (if P.msg.depth > 1024 then _ else _)
  split
  · exact hr _
  cases v <;> dsimp only <;> unfold State.pop4 <;> unfold State.pop3 <;> unfold State.pop2
  · exact pop1_rel hr fun _ _ => pop1_rel hr fun _ _ => pop1_rel hr fun _ _ => pop1_rel hr fun _ _ => pop1_rel hr fun _ _ => pop1_rel hr fun _ _ =>
      pop1_rel hr fun _ r => callWith_rel (s := { s with stack := r }) hr hQ hm _ _ _ _ _ _ _ _
  · exact pop1_rel hr fun _ _ => pop1_rel hr fun _ _ => pop1_rel hr fun _ _ => pop1_rel hr fun _ _ => pop1_rel hr fun _ _ => pop1_rel hr fun _ _ =>
      pop1_rel hr fun _ r => callWith_rel (s := { s with stack := r }) hr hQ hm _ _ _ _ _ _ _ _
  · exact pop1_rel hr fun _ _ => pop1_rel hr fun _ _ => pop1_rel hr fun _ _ => pop1_rel hr fun _ _ => pop1_rel hr fun _ _ =>
      pop1_rel hr fun _ r => callWith_rel (s := { s with stack := r }) hr hQ hm _ _ _ _ _ _ _ _
  · exact pop1_rel hr fun _ _ => pop1_rel hr fun _ _ => pop1_rel hr fun _ _ => pop1_rel hr fun _ _ => pop1_rel hr fun _ _ =>
      pop1_rel hr fun _ r => callWith_rel (s := { s with stack := r }) hr hQ hm _ _ _ _ _ _ _ _

theorem create_rel (hr : ∀ t, Q t t) {s : State σ} (hQ : Answers P c s.host s.gas s.refund Q) (hm : Short s.mem s.gas) (is2 : Bool) :
    Q (create P is2 s) (create (recall P c) is2 s) := by
  unfold create
  show Q (if P.msg.depth > 1024 then _ else _) (if P.msg.depth > 1024 then _ else _)
  split
  · exact hr _
  unfold State.pop3 State.pop2
  refine pop1_rel hr fun value _ => pop1_rel hr fun off _ => pop1_rel hr fun n r => ?_
  cases is2
  · exact createWith_rel (s := { s with stack := r }) hr hQ hm none value off n
  · exact pop1_rel hr fun salt r' => createWith_rel (s := { s with stack := r' }) hr hQ hm (some salt) value off n

/-- One step. -/
theorem step_rel (hr : ∀ t, Q t t) {s : State σ} (hQ : Answers P c s.host s.gas s.refund Q) (hm : Short s.mem s.gas) :
    Q (step P s) (step (recall P c) s) := by
  unfold step
  show Q (if s.status = .running then match decode (byteAt P.code s.pc).toNat with | none => _ | some i => _ else s)
    (if s.status = .running then match decode (byteAt P.code s.pc).toNat with | none => _ | some i => _ else s)
  split
  · split
    · exact hr _
    · rename_i i _
      unfold execInstr
      show Q (if P.rev < i.since then _ else if i.writes ∧ P.msg.isStatic then _ else _) (if P.rev < i.since then _ else if i.writes ∧ P.msg.isStatic then _ else _)
      split
      · exact hr _
      split
      · exact hr _
      split
      · exact hr _
      split
      · exact hr _
      refine charge_rel hr fun hg => ?_
      dsimp only
      have hQ' : Answers P c s.host (s.gas - i.baseGas) s.refund Q := by
        intro t m k hk ha hrf h0 h1 hl
        exact hQ t m k hk ha hrf h0 (by omega) hl
      have hm' : Short s.mem (s.gas - i.baseGas) := by
        intro off n h
        exact hm off n (by omega)
      cases i with
      | create => exact create_rel hr (s := { s with pc := s.pc + 1, gas := s.gas - _ }) hQ' hm' false
      | create2 => exact create_rel hr (s := { s with pc := s.pc + 1, gas := s.gas - _ }) hQ' hm' true
      | call => exact call_rel hr (s := { s with pc := s.pc + 1, gas := s.gas - _ }) hQ' hm' .call
      | callcode => exact call_rel hr (s := { s with pc := s.pc + 1, gas := s.gas - _ }) hQ' hm' .callcode
      | delegatecall => exact call_rel hr (s := { s with pc := s.pc + 1, gas := s.gas - _ }) hQ' hm' .delegatecall
      | staticcall => exact call_rel hr (s := { s with pc := s.pc + 1, gas := s.gas - _ }) hQ' hm' .staticcall
      | _ => exact hr _
  · exact hr _

end Tosca.Proofs.Ez

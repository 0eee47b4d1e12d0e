import Verif.Proofs.Read
import Verif.Spec.MemView

/-!
# Memory accesses through the `StepN` interface
-/

namespace Tosca.Proofs

open Tosca.Model Tosca.Spec

variable {σ : Type} {P : Params σ} {E : Env σ} {codeOf : U256 → List Byte} {vm : Vm} {x : StepIn σ}

/-- The memory of the frame. -/
theorem mem_sizeAfter (off n : U256) : (Mem.ofBytes x.memory).sizeAfter off.toNat n.toNat = x.sizeAfter off n := by
  unfold Mem.sizeAfter StepIn.sizeAfter
  have : n.toNat = 0 ↔ n = 0 := ⟨fun h => BitVec.eq_of_toNat_eq h, fun h => by rw [h]; rfl⟩
  simp only [this]
  rfl

theorem mem_growGas (k : Nat) : (Mem.ofBytes x.memory).growGas k = x.growth k := by
  unfold Mem.growGas StepIn.growth
  rw [show (Mem.ofBytes x.memory).size = 32 * words x.memory.length from rfl, words_pad]
  rfl

theorem read_zero (m : Mem) (n : Nat) : m.read 0 n = bytes n m.get := by
  unfold Mem.read bytes
  simp only [Nat.zero_add]

theorem read_bytes (m : Mem) (o n : Nat) : m.read o n = bytes n fun i => m.get (o + i) := rfl

theorem write_get (m : Mem) (o : Nat) (l : List Byte) : (m.write o l).get = overwrite m.get o l := rfl

/-- The frame after the base charge and a further charge for memory. -/
def touched (P : Params σ) (x : StepIn σ) (i : Instr) (l : List U256) (cost : Nat) (size : Nat) : State σ :=
  { started P x i with stack := l, gas := P.msg.gas.toNat - cost, mem := ⟨size, byteAt x.memory⟩ }

theorem charge_cases (h : Setting P E codeOf vm) (hx : InputOk P x) {i : Instr} (hd : decode (x.opcode P) = some i) (hs : i.since ≤ P.rev)
    (hw : i.writes = true → P.msg.isStatic = false) (hu : i.pops ≤ x.stack.length) (ho : x.stack.length + i.pushes ≤ 1024 + i.pops)
    {s : State σ} {n : Nat} {k : State σ → State σ} (hsg : s.gas = (started P x i).gas) (hsr : s.refund = x.refund) (hsw : s.host = x.world)
    (he : exec P x.pc i (started P x i) = s.charge n k) :
    (((i.baseGas + n : Nat) : Int) ≤ P.msg.gas →
      Ready P x i ∧ exec P x.pc i (started P x i) = k { s with gas := P.msg.gas.toNat - (i.baseGas + n) }) ∧
    (P.msg.gas < ((i.baseGas + n : Nat) : Int) → Fails P E vm x 1 .outOfGas x.refund x.world) := by
  constructor
  · intro hg
    have hr : Ready P x i := ⟨hd, hs, hw, hu, ho, by omega⟩
    have h1 := started_gas hr
    refine ⟨hr, ?_⟩
    rw [he, charge_rich' _ (by omega)]
    congr 2
    omega
  · intro hg
    by_cases hg' : P.msg.gas < i.baseGas
    · exact fails_base h hx hd hs hw hu ho hg'
    · have hr : Ready P x i := ⟨hd, hs, hw, hu, ho, by omega⟩
      have h1 := started_gas hr
      have := fails_dyn h hx hr he (by omega)
      rwa [hsr, hsw] at this

theorem touch_cases (h : Setting P E codeOf vm) (hx : InputOk P x) {i : Instr} (hd : decode (x.opcode P) = some i) (hs : i.since ≤ P.rev)
    (hw : i.writes = true → P.msg.isStatic = false) (hu : i.pops ≤ x.stack.length) (ho : x.stack.length + i.pushes ≤ 1024 + i.pops)
    {l : List U256} {off n : U256} {extra : Nat} {k : State σ → State σ}
    (he : exec P x.pc i (started P x i) = ({ started P x i with stack := l } : State σ).touch off n extra k) {cost : Nat}
    (hc : cost = i.baseGas + (x.growth (x.sizeAfter off n) + extra)) :
    ((cost : Int) ≤ P.msg.gas →
      Ready P x i ∧ exec P x.pc i (started P x i) = k (touched P x i l cost (x.sizeAfter off n))) ∧
    (P.msg.gas < (cost : Int) → Fails P E vm x 1 .outOfGas x.refund x.world) := by
  have he' : exec P x.pc i (started P x i) = ({ started P x i with stack := l } : State σ).charge (x.growth (x.sizeAfter off n) + extra)
      fun s => k { s with mem := s.mem.expand off.toNat n.toNat } := by
    rw [he]
    unfold State.touch
    show State.charge _ ((Mem.ofBytes x.memory).growGas ((Mem.ofBytes x.memory).sizeAfter off.toNat n.toNat) + extra) _ = _
    rw [mem_sizeAfter, mem_growGas]
  have := charge_cases (s := { started P x i with stack := l }) h hx hd hs hw hu ho rfl rfl rfl he'
  rw [hc]
  refine ⟨fun hg => ?_, this.2⟩
  obtain ⟨h1, h2⟩ := this.1 hg
  refine ⟨h1, h2.trans ?_⟩
  show k { started P x i with stack := l, gas := _, mem := ⟨(Mem.ofBytes x.memory).sizeAfter off.toNat n.toNat, byteAt x.memory⟩ } = _
  rw [mem_sizeAfter]
  rfl

theorem expand2_size (off n off' n' : U256) :
    (((Mem.ofBytes x.memory).expand off.toNat n.toNat).expand off'.toNat n'.toNat) =
      ⟨max (x.sizeAfter off n) (x.sizeAfter off' n'), byteAt x.memory⟩ := by
  have h1 : ((Mem.ofBytes x.memory).expand off.toNat n.toNat) = ⟨x.sizeAfter off n, byteAt x.memory⟩ := by
    unfold Mem.expand; rw [mem_sizeAfter]; rfl
  rw [h1]
  unfold Mem.expand Mem.sizeAfter
  congr 1
  have hz : n'.toNat = 0 ↔ n' = 0 := ⟨fun h => BitVec.eq_of_toNat_eq h, fun h => by rw [h]; rfl⟩
  simp only [hz]
  unfold StepIn.sizeAfter
  split <;> split <;> omega

theorem touch2_cases (h : Setting P E codeOf vm) (hx : InputOk P x) {i : Instr} (hd : decode (x.opcode P) = some i) (hs : i.since ≤ P.rev)
    (hw : i.writes = true → P.msg.isStatic = false) (hu : i.pops ≤ x.stack.length) (ho : x.stack.length + i.pushes ≤ 1024 + i.pops)
    {l : List U256} {off n off' n' : U256} {extra : Nat} {k : State σ → State σ}
    (he : exec P x.pc i (started P x i) = ({ started P x i with stack := l } : State σ).touch2 off n off' n' extra k) {cost size : Nat}
    (hz : size = max (x.sizeAfter off n) (x.sizeAfter off' n'))
    (hc : cost = i.baseGas + (x.growth size + extra)) :
    ((cost : Int) ≤ P.msg.gas →
      Ready P x i ∧ exec P x.pc i (started P x i) = k (touched P x i l cost size)) ∧
    (P.msg.gas < (cost : Int) → Fails P E vm x 1 .outOfGas x.refund x.world) := by
  have he' : exec P x.pc i (started P x i) = ({ started P x i with stack := l } : State σ).charge (x.growth size + extra)
      fun s => k { s with mem := (s.mem.expand off.toNat n.toNat).expand off'.toNat n'.toNat } := by
    rw [he]
    unfold State.touch2
    show State.charge _ ((Mem.ofBytes x.memory).growGas (max ((Mem.ofBytes x.memory).sizeAfter off.toNat n.toNat)
      ((Mem.ofBytes x.memory).sizeAfter off'.toNat n'.toNat)) + extra) _ = _
    rw [mem_sizeAfter, mem_sizeAfter, mem_growGas, hz]
  have := charge_cases (s := { started P x i with stack := l }) h hx hd hs hw hu ho rfl rfl rfl he'
  rw [hc]
  refine ⟨fun hg => ?_, this.2⟩
  obtain ⟨h1, h2⟩ := this.1 hg
  refine ⟨h1, h2.trans ?_⟩
  show k { started P x i with stack := l, gas := _, mem := ((Mem.ofBytes x.memory).expand off.toNat n.toNat).expand off'.toNat n'.toNat } = _
  rw [expand2_size, ← hz]
  rfl

theorem touched_gas {i : Instr} {l : List U256} {cost size : Nat} (h : (cost : Int) ≤ P.msg.gas) :
    ((touched P x i l cost size).gas : Int) = P.msg.gas - cost := by
  show ((P.msg.gas.toNat - cost : Nat) : Int) = _
  omega

end Tosca.Proofs

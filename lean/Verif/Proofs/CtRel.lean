import Verif.Proofs.CtCode
import Verif.Proofs.CtMem
import Verif.Proofs.LfvmWord
import Verif.Proofs.LfvmLike

/-!
# Rules and the reference
-/

namespace Tosca.Proofs.Ct

open Tosca.Spec Tosca.Spec.Go Tosca.Go Tosca.Model.Go Tosca.Model.Ct Tosca.Proofs.Lfvm
open Tosca.Model.Lfvm (isUint64 uint64 ofU64 bytes20 bytes32 ofBytes20 setBytes)

/-! ## What a state shows of a frame -/

/-- The result of an effect and a frame. -/
def Agree (c : S) (t : State World) : Prop :=
  match t.status with
  | .failed _ => c.status = .failed
  | .running => c.status = .running ∧ c.returnData = [] ∧ c.memory.length % 32 = 0 ∧ 0 ≤ c.gas ∧ t = { frameState c with refund := t.refund } ∧
      c.refund = i64 t.refund
  | .stopped => c.status = .stopped ∧ c.gas = t.gas ∧ c.refund = i64 t.refund ∧ c.world = t.host ∧ c.returnData = []
  | .returned => c.status = .stopped ∧ c.gas = t.gas ∧ c.refund = i64 t.refund ∧ c.world = t.host ∧ c.returnData = t.ret
  | .reverted => c.status = .reverted ∧ c.gas = t.gas ∧ c.refund = i64 t.refund ∧ c.world = t.host ∧ c.returnData = t.ret

/-- The effect does not panic, and ends like the frame. -/
def Does (e : Option S) (t : State World) : Prop := ∃ c, e = some c ∧ Agree c t

/-- A running state in the middle of an effect. -/
structure Ok (c : S) : Prop where
  status : c.status = .running
  result : c.returnData = []
  memory : c.memory.length % 32 = 0
  gas : 0 ≤ c.gas
  refund : -2 ^ 63 ≤ c.refund ∧ c.refund < 2 ^ 63

/-- What memory has cost and the gas left are in range. -/
def Bounded (c : S) : Prop := c.gas.toNat + memGas (words c.memory.length) ≤ 2 ^ 40

variable {c : S} {t : State World}

theorem agree_fail (h : Failed t) (hc : c.status = .failed) : Agree c t := by
  obtain ⟨f, hf⟩ := h
  unfold Agree
  rw [hf]
  exact hc

theorem does_fail (h : Failed t) {e : Option S} {c' : S} (he : e = some c') (hc : c'.status = .failed) : Does e t := ⟨c', he, agree_fail h hc⟩

theorem does_failed (h : Failed t) : Does (failed c) t := ⟨_, rfl, agree_fail h rfl⟩

theorem does_like {e : Option S} {t' : State World} (h : Like t t') (hd : Does e t') : Does e t := by
  rcases h with rfl | ⟨⟨f, hf⟩, ⟨f', hf'⟩⟩
  · exact hd
  · obtain ⟨c, e1, e2⟩ := hd
    refine ⟨c, e1, agree_fail ⟨f, hf⟩ ?_⟩
    unfold Agree at e2
    rw [hf'] at e2
    exact e2

theorem i64_refund (h : Ok c) : i64 c.refund = c.refund := i64_id (by have := h.refund.1; omega) (by have := h.refund.2; omega)

/-- Going on with the next instruction. -/
theorem does_next (h : Ok c) (ht : t = frameState c) : Does (some c) t := by
  subst ht
  exact ⟨c, rfl, h.status, h.result, h.memory, h.gas, rfl, (i64_refund h).symm⟩

/-- The same with a refund counter that may have wrapped around. -/
theorem does_next' {r : Int} (h : Ok { c with refund := 0 }) (hr : c.refund = i64 r) (ht : t = { frameState c with refund := r }) : Does (some c) t := by
  subst ht
  exact ⟨c, rfl, h.status, h.result, h.memory, h.gas, rfl, hr⟩

theorem i64_i64 (a b : Int) : i64 (i64 a + b) = i64 (a + b) := by
  unfold i64; exact Int.bmod_add_bmod

/-! ## Paying -/

theorem frame_gas (n : Nat) : frameState { c with gas := c.gas - (n : Int) } = { frameState c with gas := (frameState c).gas - n } := by
  have : (c.gas - (n : Int)).toNat = c.gas.toNat - n := by omega
  show ({ frameState c with gas := (c.gas - (n : Int)).toNat } : State World) = _
  rw [this]
  rfl

theorem ok_gas (h : Ok c) {n : Nat} (hn : (n : Int) ≤ c.gas) : Ok { c with gas := c.gas - (n : Int) } :=
  ⟨h.status, h.result, h.memory, by show 0 ≤ c.gas - (n : Int); omega, h.refund⟩

theorem does_pay (h : Ok c) {cost : Int} {n : Nat} (e : cost = n) {k : S → Option S} {k' : State World → State World}
    (H : (n : Int) ≤ c.gas → Ok { c with gas := c.gas - (n : Int) } → Does (k { c with gas := c.gas - (n : Int) }) (k' (frameState { c with gas := c.gas - (n : Int) }))) :
    Does (pay c (some cost) k) ((frameState c).charge n k') := by
  subst e
  have hg := h.gas
  unfold pay State.charge
  dsimp only
  have hfg : (frameState c).gas = c.gas.toNat := rfl
  by_cases hlt : c.gas < (n : Int)
  · rw [if_pos hlt, if_pos (by omega)]
    exact does_failed (failed_fail _ _)
  · rw [if_neg hlt, if_neg (by omega)]
    have := H (by omega) (ok_gas h (by omega))
    rw [frame_gas] at this
    exact this

/-- Paying too much. -/
theorem does_broke {cost : Option Int} (hc : ∀ n, cost = some n → c.gas < n) {k : S → Option S} (h : Failed t) : Does (pay c cost k) t := by
  unfold pay
  cases cost with
  | none => exact does_failed h
  | some n =>
    dsimp only
    rw [if_pos (hc n rfl)]
    exact does_failed h

theorem sum_far {cost e g : Int} (h : g < cost) (h0 : 0 ≤ cost) (hm : cost ≤ maxInt64) : ∀ n, sumGas [cost, e] 0 = some n → g < n := by
  intro n hn
  have hx : maxInt64 = 9223372036854775807 := rfl
  have hi : i64 (0 + cost) = cost := by rw [Int.zero_add]; exact i64_id (by omega) (by omega)
  unfold sumGas at hn
  rw [hi, if_neg (by omega)] at hn
  unfold sumGas at hn
  split at hn
  · cases hn
  · injection hn with hn
    omega

theorem sum_near {a b : Nat} (h : a + b < 2 ^ 63) : sumGas [(a : Int), (b : Int)] 0 = some ((a + b : Nat) : Int) := by
  unfold sumGas
  rw [i64_id (by omega) (by omega), if_neg (by omega)]
  unfold sumGas
  rw [i64_id (by omega) (by omega), if_neg (by omega)]
  unfold sumGas
  congr 1
  omega

/-! ## Memory -/

/-- The two kinds of ranges. -/
theorem exp_cases (h : Ok c) (hb : Bounded c) (off n : U256) :
    (∃ o s : BitVec 64, expansionCosts c.memory off n = (Int.ofNat ((memOf c.memory).growGas ((memOf c.memory).sizeAfter off.toNat n.toNat)), o, s) ∧
      s.toNat = n.toNat ∧ (n.toNat ≠ 0 → o.toNat = off.toNat ∧ off.toNat + n.toNat ≤ 2 ^ 30)) ∨
    ((∃ cost o s, expansionCosts c.memory off n = (cost, o, s) ∧ c.gas < cost ∧ 0 ≤ cost ∧ cost ≤ maxInt64) ∧
      c.gas.toNat < (memOf c.memory).growGas ((memOf c.memory).sizeAfter off.toNat n.toNat)) := by
  by_cases hn : Near off n
  · obtain ⟨o, s, e, h1, h2⟩ := exp_near hb h.memory hn
    refine .inl ⟨o, s, e, h1, fun h0 => ⟨h2 h0, ?_⟩⟩
    unfold Near at hn
    omega
  · obtain ⟨h1, h2⟩ := exp_far hb h.memory hn
    have := h.gas
    generalize expansionCosts c.memory off n = E at *
    obtain ⟨cost, o, s⟩ := E
    exact .inr ⟨⟨_, _, _, rfl, by dsimp only at h1; omega, by dsimp only at h1; omega, h2⟩, far_gas hb h.memory hn⟩

theorem touch_broke {off n : U256} (hg : c.gas.toNat < (memOf c.memory).growGas ((memOf c.memory).sizeAfter off.toNat n.toNat)) (extra : Nat)
    (k : State World → State World) : Failed ((frameState c).touch off n extra k) := by
  unfold State.touch State.charge
  have hm : (frameState c).mem = memOf c.memory := rfl
  have hfg : (frameState c).gas = c.gas.toNat := rfl
  rw [hm, hfg, if_pos (by omega)]
  exact failed_fail _ _

theorem bounded_length (hb : Bounded c) : c.memory.length ≤ 2 ^ 30 := length_le hb

theorem frame_mem {m' : List Byte} {M : Mem} (h : memOf m' = M) : frameState { c with memory := m' } = { frameState c with mem := M } := by
  subst h; rfl

/-- Paying for memory and `extra`, in one sum. -/
theorem does_touch (h : Ok c) {off n : U256} {extra : Nat} {cost : Int}
    (e : cost = ((memOf c.memory).growGas ((memOf c.memory).sizeAfter off.toNat n.toNat) + extra : Nat)) {k : S → Option S} {k' : State World → State World}
    (H : ∀ g : Nat, (g : Int) ≤ c.gas → (memOf c.memory).growGas ((memOf c.memory).sizeAfter off.toNat n.toNat) ≤ g → Ok { c with gas := c.gas - (g : Int) } →
      Does (k { c with gas := c.gas - (g : Int) })
        (k' { frameState { c with gas := c.gas - (g : Int) } with mem := (memOf c.memory).expand off.toNat n.toNat })) :
    Does (pay c (some cost) k) ((frameState c).touch off n extra k') := by
  unfold State.touch
  refine does_pay h e ?_
  intro hg ho
  exact H _ hg (Nat.le_add_right _ _) ho

/-- Gas left and the cost of the memory after growing. -/
theorem bounded_grow (hb : Bounded c) (hm : c.memory.length % 32 = 0) (hg : 0 ≤ c.gas) {off n g : Nat} (hle : (g : Int) ≤ c.gas)
    (hgr : (memOf c.memory).growGas ((memOf c.memory).sizeAfter off n) ≤ g) {m' : List Byte} (hm' : m'.length = (memOf c.memory).sizeAfter off n) :
    Bounded { c with gas := c.gas - (g : Int), memory := m' } := by
  unfold Bounded at *
  show (c.gas - (g : Int)).toNat + memGas (words m'.length) ≤ _
  rw [hm']
  unfold Mem.growGas at hgr
  rw [memOf_size hm] at hgr
  omega

/-! ## Conditions -/

variable {x : Model.Ct.Fixed}

theorem applies_iff {r : Rule} : r.applies x c = true ↔ ∀ k ∈ r.conds, k.check x c = some true := by
  unfold Rule.applies
  rw [List.all_eq_true]
  constructor
  · intro h k hk; exact of_decide_eq_true (h k hk)
  · intro h k hk; exact decide_eq_true (h k hk)

/-- Conditions hold. -/
def Holds (ks : List Cond) (x : Model.Ct.Fixed) (c : S) : Prop := ∀ k ∈ ks, k.check x c = some true

theorem holds_cons {k : Cond} {ks : List Cond} : Holds (k :: ks) x c ↔ k.check x c = some true ∧ Holds ks x c := by
  unfold Holds; simp

theorem holds_nil : Holds [] x c := fun _ h => by cases h

theorem holds_append {a b : List Cond} : Holds (a ++ b) x c ↔ Holds a x c ∧ Holds b x c := by
  unfold Holds
  constructor
  · intro h; exact ⟨fun k hk => h k (List.mem_append_left _ hk), fun k hk => h k (List.mem_append_right _ hk)⟩
  · rintro ⟨h1, h2⟩ k hk
    rcases List.mem_append.1 hk with h | h
    · exact h1 k h
    · exact h2 k h

theorem check_revision {lo hi : Int} : (Cond.revision lo hi).check x c = some true ↔ lo ≤ x.revision ∧ x.revision ≤ hi := by
  unfold Cond.check; simp
theorem check_gasGe {n : Int} : (Cond.gasGe n).check x c = some true ↔ n ≤ c.gas := by unfold Cond.check; simp
theorem check_gasLt {n : Int} : (Cond.gasLt n).check x c = some true ↔ c.gas < n := by unfold Cond.check; simp
theorem check_stackGe {n : Nat} : (Cond.stackGe n).check x c = some true ↔ n ≤ c.stack.length := by unfold Cond.check; simp
theorem check_stackLt {n : Nat} : (Cond.stackLt n).check x c = some true ↔ c.stack.length < n := by unfold Cond.check; simp
theorem check_stackLe {n : Nat} : (Cond.stackLe n).check x c = some true ↔ c.stack.length ≤ n := by unfold Cond.check; simp
theorem check_readOnly {b : Bool} : (Cond.readOnly b).check x c = some true ↔ x.readOnly = b := by unfold Cond.check; simp
theorem check_status {s : CtStatus} : (Cond.status s).check x c = some true ↔ c.status = s := by unfold Cond.check; simp

theorem check_op {o : Nat} : (Cond.op .pc o).check x c = some true ↔ isCode x.code c.pc.toNat = true ∧ (byteAt x.code c.pc.toNat).toNat = o := by
  have h16 := c.pc.isLt
  have e : (ofU64 (c.pc.setWidth 64)).toNat = c.pc.toNat := by
    rw [ofU64_toNat, BitVec.toNat_setWidth]; omega
  have e' : (uint64 (ofU64 (c.pc.setWidth 64))).toNat = c.pc.toNat := by rw [uint64_toNat, e]; omega
  unfold Cond.check evalOp evalPos
  show Option.map _ (if tooFar _ = true then _ else _) = _ ↔ _
  have ht : tooFar (ofU64 (c.pc.setWidth 64)) = false := by
    unfold tooFar
    rw [(isUint64_iff _).2 (by rw [e]; omega), e']
    simp
    omega
  rw [ht, e', getOperation_eq]
  simp only [Bool.false_eq_true, if_false]
  by_cases hc : isCode x.code c.pc.toNat = true
  · rw [if_pos hc]
    simp [hc]
  · rw [if_neg hc]
    simp [hc]

/-! ## One step of the reference -/

variable {keccak : List Byte → U256} {rev : Revision}

theorem rev_eq (h : revisionOf x.revision = some rev) : x.revision = (rev : Int) - 7 ∧ 7 ≤ rev ∧ rev ≤ 12 := by
  unfold revisionOf ISTANBUL at h
  split at h
  · rename_i hr
    injection h with h
    subst h
    constructor
    · show x.revision = ((7 + x.revision.toNat : Nat) : Int) - 7
      omega
    · constructor
      · show (7 : Nat) ≤ 7 + x.revision.toNat
        omega
      · show (7 + x.revision.toNat : Nat) ≤ 12
        omega
  · cases h

theorem frame_static : (testFrame keccak x c rev).msg.isStatic = x.readOnly := by
  have e : (testFrame keccak x c rev).msg.flags = if x.readOnly = true then 1 else 0 := rfl
  unfold Message.isStatic
  rw [e]
  cases x.readOnly <;> rfl

theorem step_decode {I : Instr} {o : Nat} (hop : (byteAt x.code c.pc.toNat).toNat = o) (hd : decode o = some I) :
    stepEip (testFrame keccak x c rev) (frameState c) = execInstrEip (testFrame keccak x c rev) I (frameState c) := by
  unfold stepEip
  rw [if_pos (show (frameState c).status = .running from rfl)]
  show (match decode (byteAt x.code c.pc.toNat).toNat with | none => _ | some i => _) = _
  rw [hop, hd]

/-- The instruction is refused. -/
theorem exec_refused {P : Params World} {I : Instr} {s : State World}
    (h : P.rev < I.since ∨ (I.writes = true ∧ P.msg.isStatic = true) ∨ s.stack.length < I.pops ∨ s.stack.length + I.pushes > stackLimit + I.pops ∨ s.gas < I.baseGas) :
    Failed (execInstrEip P I s) := by
  unfold execInstrEip
  by_cases h1 : P.rev < I.since
  · rw [if_pos h1]; exact failed_fail _ _
  rw [if_neg h1]
  by_cases h2 : I.writes = true ∧ P.msg.isStatic = true
  · rw [if_pos h2]; exact failed_fail _ _
  rw [if_neg h2]
  by_cases h3 : s.stack.length < I.pops
  · rw [if_pos h3]; exact failed_fail _ _
  rw [if_neg h3]
  by_cases h4 : s.stack.length + I.pushes > stackLimit + I.pops
  · rw [if_pos h4]; exact failed_fail _ _
  rw [if_neg h4]
  unfold State.charge
  rw [if_pos (by
    rcases h with h | h | h | h | h
    · exact absurd h h1
    · exact absurd h h2
    · exact absurd h h3
    · exact absurd h h4
    · exact h)]
  exact failed_fail _ _

/-- The instruction is executed. -/
theorem exec_done {P : Params World} {I : Instr} {s : State World} (h1 : ¬ P.rev < I.since) (h2 : ¬ (I.writes = true ∧ P.msg.isStatic = true))
    (h3 : I.pops ≤ s.stack.length) (h4 : s.stack.length + I.pushes ≤ stackLimit + I.pops) (h5 : I.baseGas ≤ s.gas) :
    execInstrEip P I s = execEip P s.pc I { s with gas := s.gas - I.baseGas, pc := s.pc + I.length } := by
  unfold execInstrEip State.charge
  rw [if_neg h1, if_neg h2, if_neg (by omega), if_neg (by omega), if_neg (by omega)]

/-! ## Rules -/

/-- The rule says what the reference does. -/
def Sound (keccak : List Byte → U256) (r : Rule) : Prop := ∀ x c rev, InScope x c → revisionOf x.revision = some rev → r.applies x c = true →
  Does (r.effect x c) (stepEip (testFrame keccak x c rev) (frameState c))

/-- All these rules do. -/
def Sounds (keccak : List Byte → U256) (rs : List Rule) : Prop := ∀ r ∈ rs, Sound keccak r

theorem sounds_nil : Sounds keccak [] := fun _ h => by cases h
theorem sounds_cons {r : Rule} {rs : List Rule} (h : Sound keccak r) (h' : Sounds keccak rs) : Sounds keccak (r :: rs) := by
  intro q hq
  rcases List.mem_cons.1 hq with rfl | hq
  · exact h
  · exact h' q hq
theorem sounds_append {a b : List Rule} (h : Sounds keccak a) (h' : Sounds keccak b) : Sounds keccak (a ++ b) := by
  intro q hq
  rcases List.mem_append.1 hq with hq | hq
  · exact h q hq
  · exact h' q hq
theorem sounds_flatMap {α : Type} {l : List α} {f : α → List Rule} (h : ∀ a ∈ l, Sounds keccak (f a)) : Sounds keccak (l.flatMap f) := by
  intro q hq
  obtain ⟨a, ha, hq⟩ := List.mem_flatMap.1 hq
  exact h a ha q hq
theorem sounds_map {α : Type} {l : List α} {f : α → Rule} (h : ∀ a ∈ l, Sound keccak (f a)) : Sounds keccak (l.map f) := by
  intro q hq
  obtain ⟨a, ha, rfl⟩ := List.mem_map.1 hq
  exact h a ha

/-- A state at an instruction. -/
structure At (x : Model.Ct.Fixed) (c : S) (rev : Revision) (o : Nat) : Prop where
  scope : InScope x c
  rev : revisionOf x.revision = some rev
  code : isCode x.code c.pc.toNat = true
  op : (byteAt x.code c.pc.toNat).toNat = o

theorem at_of {x : Model.Ct.Fixed} {o : Nat} (h : InScope x c) (hr : revisionOf x.revision = some rev) (ho : (Cond.op .pc o).check x c = some true) :
    At x c rev o := ⟨h, hr, (check_op.1 ho).1, (check_op.1 ho).2⟩

/-- A rule for failures at an instruction. -/
theorem sound_refuse {ks : List Cond} {o : Nat} {I : Instr} (hd : decode o = some I) (ho : .op .pc o ∈ ks)
    (H : ∀ x c rev, At x c rev o → Holds ks x c → Failed (execInstrEip (testFrame keccak x c rev) I (frameState c))) : Sound keccak ⟨ks, failEffect⟩ := by
  intro x c rev hs hr ha
  have hk : Holds ks x c := applies_iff.1 ha
  have hat := at_of hs hr (hk _ ho)
  rw [step_decode hat.op hd]
  exact does_fail (H x c rev hat hk) rfl rfl

theorem sounds_rulesFor {i : Instruction} {I : Instr} (hd : decode i.op = some I) (hp : i.pops ≤ I.pops) (hq : i.pushes > i.pops → I.pushes > I.pops)
    (low : ∀ x c rev, At x c rev i.op → Holds i.conditions x c → c.gas < i.staticGas → Failed (execInstrEip (testFrame keccak x c rev) I (frameState c)))
    (reg : ∀ x c rev, At x c rev i.op → Holds i.conditions x c → i.staticGas ≤ c.gas → i.pops ≤ c.stack.length → c.stack.length ≤ 1024 - (i.pushes - i.pops) →
      Does (i.effect x { c with gas := c.gas - i.staticGas, pc := c.pc + 1 }) (execInstrEip (testFrame keccak x c rev) I (frameState c))) :
    Sounds keccak (rulesFor i) := by
  have hst : ∀ c : S, (frameState c).stack = c.stack := fun _ => rfl
  unfold rulesFor
  refine sounds_append (sounds_append (sounds_append ?_ ?_) ?_) (sounds_cons ?_ sounds_nil)
  · split
    · refine sounds_cons (sound_refuse hd (by simp) ?_) sounds_nil
      intro x c rev hat hk
      refine low x c rev hat (holds_append.1 hk).1 ?_
      exact check_gasLt.1 ((holds_append.1 hk).2 _ (by simp))
    · exact sounds_nil
  · split
    · refine sounds_cons (sound_refuse hd (by simp) ?_) sounds_nil
      intro x c rev hat hk
      have := check_stackLt.1 (hk (.stackLt i.pops) (by simp))
      exact exec_refused (.inr (.inr (.inl (by rw [hst]; omega))))
    · exact sounds_nil
  · split
    · refine sounds_cons (sound_refuse hd (by simp) ?_) sounds_nil
      intro x c rev hat hk
      have := check_stackGe.1 ((holds_append.1 hk).2 (.stackGe 1024) (by simp))
      exact exec_refused (.inr (.inr (.inr (.inl (by rw [hst]; show _ > 1024 + _; omega)))))
    · exact sounds_nil
  · intro x c rev hs hr ha
    have hk : Holds (regular i).conds x c := applies_iff.1 ha
    have hk1 := (holds_append.1 (holds_append.1 hk).1).1
    have hk2 := (holds_append.1 (holds_append.1 hk).1).2
    have hat : At x c rev i.op := at_of hs hr (hk2 _ (by simp))
    rw [step_decode hat.op hd]
    exact reg x c rev hat hk1 (check_gasGe.1 (hk2 _ (by simp))) (check_stackGe.1 (hk2 (.stackGe i.pops) (by simp)))
      (check_stackLe.1 (hk2 (.stackLe _) (by simp)))

/-- The state after the checks. -/
def next (c : S) (g : Int) : S := { c with gas := c.gas - g, pc := c.pc + 1 }

theorem at_pc {x : Model.Ct.Fixed} {o : Nat} (h : At x c rev o) (ho : o ≠ 0) : c.pc.toNat < x.code.length := by
  apply Classical.byContradiction
  intro hc
  have := h.op
  unfold byteAt at this
  rw [List.getD_eq_getElem?_getD, List.getElem?_eq_none (by omega)] at this
  exact ho this.symm

theorem pc_next {x : Model.Ct.Fixed} {o : Nat} (h : At x c rev o) (ho : o ≠ 0) : (c.pc + 1).toNat = c.pc.toNat + 1 := by
  have h1 := at_pc h ho
  have h2 := h.scope.code
  rw [BitVec.toNat_add]
  have : (1 : BitVec 16).toNat = 1 := rfl
  rw [this]
  omega

theorem frame_next {x : Model.Ct.Fixed} {o : Nat} (h : At x c rev o) (ho : o ≠ 0) (n : Nat) :
    frameState (next c n) = { frameState c with gas := (frameState c).gas - n, pc := (frameState c).pc + 1 } := by
  have e1 : (c.gas - (n : Int)).toNat = c.gas.toNat - n := by omega
  show ({ frameState c with gas := (c.gas - (n : Int)).toNat, pc := (c.pc + 1).toNat } : State World) = _
  rw [e1, pc_next h ho]
  rfl

theorem next_ok {x : Model.Ct.Fixed} {o : Nat} (h : At x c rev o) {g : Nat} (hg : (g : Int) ≤ c.gas) : Ok (next c g) ∧ Bounded (next c g) := by
  have hs := h.scope
  refine ⟨⟨hs.status, hs.result, hs.memory, by show 0 ≤ c.gas - (g : Int); omega, hs.refund⟩, ?_⟩
  unfold Bounded
  show (c.gas - (g : Int)).toNat + memGas (words c.memory.length) ≤ _
  have := hs.gas
  omega

/-- Rules of an instruction whose static gas is the base gas of the reference. -/
theorem sounds_simple {i : Instruction} {I : Instr} (hd : decode i.op = some I) (hp : i.pops = I.pops) (hq : i.pushes = I.pushes) (hg : i.staticGas = (I.baseGas : Int))
    (hl : I.length = 1) (hw : I.pushes ≤ 1024) (hne : I ≠ .sstore) (ho : i.op ≠ 0)
    (allowed : ∀ x c rev, At x c rev i.op → Holds i.conditions x c → ¬ rev < I.since ∧ ¬ (I.writes = true ∧ x.readOnly = true))
    (H : ∀ x c rev, At x c rev i.op → Holds i.conditions x c → I.pops ≤ c.stack.length → Ok (next c I.baseGas) → Bounded (next c I.baseGas) →
      Does (i.effect x (next c I.baseGas)) (exec (testFrame keccak x c rev) c.pc.toNat I (frameState (next c I.baseGas)))) :
    Sounds keccak (rulesFor i) := by
  refine sounds_rulesFor hd (Nat.le_of_eq hp) (by omega) ?_ ?_
  · intro x c rev hat _ hlt
    have := hat.scope.gas.1
    refine exec_refused (.inr (.inr (.inr (.inr ?_))))
    show c.gas.toNat < _
    omega
  · intro x c rev hat hk hgas hst hst'
    obtain ⟨h1, h2⟩ := allowed x c rev hat hk
    have h3 := hat.scope.stack
    have hg' : (I.baseGas : Int) ≤ c.gas := by omega
    obtain ⟨k1, k2⟩ := next_ok hat hg'
    rw [exec_done h1 (by rw [frame_static]; exact h2) (by show _ ≤ c.stack.length; omega) (by show c.stack.length + _ ≤ 1024 + _; omega)
      (by show _ ≤ c.gas.toNat; omega)]
    have := H x c rev hat hk (by omega) k1 k2
    rw [frame_next hat ho] at this
    unfold execEip
    rw [if_neg hne, hl, hg]
    exact this

end Tosca.Proofs.Ct

import Verif.Props.Accounts
import Verif.Spec.Calls

/-!
# Nested calls (C16, C17, C18, C39) and contract creation (C17, C19)

For every call instruction the theorems give, case by case and for every amount of gas, the message the host gets
and the state after the call.
-/

namespace Tosca

open Tosca.Model Tosca.Spec Tosca.Proofs

variable {σ : Type} {P : Params σ} {E : Env σ} {codeOf : U256 → List Byte} {vm : Vm} {x : StepIn σ}

theorem zero_iff (v : U256) : v = 0 ↔ v.toNat = 0 := ⟨fun h => by rw [h]; rfl, fun h => BitVec.eq_of_toNat_eq h⟩

/-- The instruction of a call opcode. -/
def callInstr : CallVariant → Instr
  | .call => .call
  | .callcode => .callcode
  | .delegatecall => .delegatecall
  | .staticcall => .staticcall

theorem callStack_cases {rest : List U256} {c : CallArgs} {op : Nat} {l : List U256} (h : CallStack rest c op l) :
    ∃ v, decode op = some (callInstr v) ∧ (op = 0xf1 ↔ v = .call) ∧ l.length = rest.length + (callInstr v).pops ∧
      (∀ (input : List Byte) (gas : Nat), callMessage P v (accountOf c.address) c.value input gas = nestedMessage P op c input gas) ∧
      (op = 0xf1 ∧ c.value ≠ 0 ↔ v ≠ .callcode ∧ c.value.toNat ≠ 0) ∧
      (∀ s : State σ, s.stack = l.reverse → ¬ P.msg.depth > 1024 → call P v s =
        callWith P v c.gas (accountOf c.address) c.value c.inOff c.inLen c.outOff c.outLen { s with stack := rest.reverse }) := by
  cases h with
  | call =>
    refine ⟨.call, rfl, by simp, by simp; rfl, fun _ _ => rfl, ?_, ?_⟩
    · rw [Ne, zero_iff]; simp
    · intro s hs hd
      unfold call
      rw [if_neg hd]
      dsimp only
      rw [pop3_cons (by rw [hs]; simp; exact ⟨rfl, rfl, rfl, rfl⟩), pop4_cons rfl]
      rfl
  | callcode =>
    refine ⟨.callcode, rfl, by simp, by simp; rfl, fun _ _ => rfl, by simp, ?_⟩
    intro s hs hd
    unfold call
    rw [if_neg hd]
    dsimp only
    rw [pop3_cons (by rw [hs]; simp; exact ⟨rfl, rfl, rfl, rfl⟩), pop4_cons rfl]
    rfl
  | delegatecall hv =>
    refine ⟨.delegatecall, rfl, by simp, by simp; rfl, fun _ _ => rfl, by rw [hv]; simp, ?_⟩
    intro s hs hd
    unfold call
    rw [if_neg hd]
    dsimp only
    rw [pop2_cons (by rw [hs]; simp; exact ⟨rfl, rfl, rfl⟩), pop4_cons rfl, hv]
    rfl
  | staticcall hv =>
    refine ⟨.staticcall, rfl, by simp, by simp; rfl, ?_, by rw [hv]; simp, ?_⟩
    · intro _ _; rw [hv]; rfl
    intro s hs hd
    unfold call
    rw [if_neg hd]
    dsimp only
    rw [pop2_cons (by rw [hs]; simp; exact ⟨rfl, rfl, rfl⟩), pop4_cons rfl, hv]
    rfl

theorem newAccountGas_eq {op : Nat} {c : CallArgs} {v : CallVariant}
    (hv : op = 0xf1 ∧ c.value ≠ 0 ↔ v ≠ .callcode ∧ c.value.toNat ≠ 0) (s : State σ) (k : Nat → State σ → State σ) :
    newAccountGas P v (accountOf c.address) c.value s k =
      k (callNewAccount P op c s.host).1 { s with host := (callNewAccount P op c s.host).2 } := by
  unfold newAccountGas callNewAccount
  by_cases hc : op = 0xf1 ∧ c.value ≠ 0
  · rw [if_pos (hv.1 hc), if_pos hc]
    unfold State.ask
    rcases P.host.accountExists (accountOf c.address) s.host with ⟨ex, w⟩
    cases ex <;> rfl
  · rw [if_neg (fun hh => hc (hv.2 hh)), if_neg hc]

theorem checkBalance_eq (value : U256) (s : State σ) (k : Bool → State σ → State σ) :
    checkBalance P value s k = k (affordable P value s.host).1 { s with host := (affordable P value s.host).2 } := by
  unfold checkBalance affordable
  by_cases hz : value = 0
  · rw [if_pos ((zero_iff value).1 hz), if_pos hz]
  · rw [if_neg (fun hh => hz ((zero_iff value).2 hh)), if_neg hz]
    unfold State.ask
    rcases P.host.getBalance P.msg.recipient s.host with ⟨b, w⟩
    rfl

/-- C18, C17, C39.  The call instructions, step by step.

* Deeper than 1024 the instruction fails.
* The memory for both ranges is paid first; then CALL with value fails in static mode; then the access to the
  callee, the value transfer (9000) and a new account are paid.
* With `left` gas remaining the callee is offered `min requested (left - left / 64)` plus a stipend of 2300 if value
  is moved, provided that the balance suffices; else nothing is called and 0 is pushed.
* The caller gets back what the callee left, 1 or 0 is pushed, the refunds are added, the return data replaces the
  return-data buffer and its beginning is copied to the output range. -/
theorem C18_call (h : Setting P E codeOf vm) (hx : InputOk P x) {op : Nat} (ho : x.opcode P = op) {c : CallArgs}
    {rest : List U256} (hst : CallStack rest c op x.stack) {size access new : Nat} (hz : size = callSize x c) {w1 w2 : σ}
    (ha : accountCost P (accountOf c.address) x.world = (access, w1)) (hn : callNewAccount P op c w1 = (new, w2)) {cost : Nat}
    (hc : cost = x.growth size + access + (if c.value = 0 then 0 else 9000) + new) :
    (1024 < P.msg.depth → Fails P E vm x 1 .callDepthExceeded x.refund x.world) ∧
    (P.msg.depth ≤ 1024 → P.msg.gas < (x.growth size : Int) → Fails P E vm x 1 .outOfGas x.refund x.world) ∧
    (P.msg.depth ≤ 1024 → (x.growth size : Int) ≤ P.msg.gas → op = 0xf1 → c.value ≠ 0 → P.msg.isStatic = true →
      Fails P E vm x 1 .staticModeViolation x.refund x.world) ∧
    (P.msg.depth ≤ 1024 → ¬ (op = 0xf1 ∧ c.value ≠ 0 ∧ P.msg.isStatic = true) → (x.growth size : Int) ≤ P.msg.gas →
      P.msg.gas < (cost : Int) → Fails P E vm x 1 .outOfGas x.refund w2) ∧
    (P.msg.depth ≤ 1024 → ¬ (op = 0xf1 ∧ c.value ≠ 0 ∧ P.msg.isStatic = true) → (cost : Int) ≤ P.msg.gas →
      ∀ left w3, left = P.msg.gas - cost →
      (affordable P c.value w2 = (false, w3) →
        Runs P E vm x 1 { x.same P with
          pc := x.pc + 1
          gasLeft := left + stipend c.value
          stack := rest ++ [0]
          memory := bytes size x.byte
          output := []
          lastCallReturnData := [] } w3) ∧
      (affordable P c.value w2 = (true, w3) → ∀ fwd msg r w4, fwd = forwarded c left →
        msg = nestedMessage P op c (bytes c.inLen.toNat fun i => x.byte (c.inOff.toNat + i)) (fwd + stipend c.value) →
        P.host.call msg w3 = (r, w4) →
        Runs P E vm x 1 { x.same P with
          pc := x.pc + 1
          gasLeft := left - fwd + r.gasLeft
          gasRefund := x.refund + r.gasRefund
          stack := rest ++ [if r.status = .success then 1 else 0]
          memory := bytes size fun i =>
            if c.outOff.toNat ≤ i ∧ i < c.outOff.toNat + min c.outLen.toNat r.output.length
            then byteAt r.output (i - c.outOff.toNat) else x.byte i
          output := r.output
          lastCallReturnData := r.output } w4)) := by
  obtain ⟨v, hd, hop, hl, hm, hnew, hcall⟩ := callStack_cases (P := P) hst
  have hlen := hx.stack
  have hg0 := h.gas
  have hbase : (callInstr v).baseGas = 0 := by cases v <;> rfl
  have hr : Ready P x (callInstr v) := ⟨by rw [ho]; exact hd, by cases v <;> exact Nat.zero_le _, by cases v <;> exact nofun, by omega,
    by have : (callInstr v).pushes = 1 := by cases v <;> rfl
       have : 1 ≤ (callInstr v).pops := by cases v <;> decide
       omega, by rw [hbase]; exact hg0⟩
  have hexec : exec P x.pc (callInstr v) (started P x (callInstr v)) = call P v (started P x (callInstr v)) := by cases v <;> rfl
  have hgas : (started P x (callInstr v)).gas = P.msg.gas.toNat := by
    show P.msg.gas.toNat - (callInstr v).baseGas = _
    rw [hbase]; rfl
  have hpc : (started P x (callInstr v)).pc = x.pc + 1 := by cases v <;> rfl
  refine ⟨?_, ?_⟩
  · intro hdep
    refine fails_ready (f := .callDepthExceeded) (s' := (started P x (callInstr v)).fail .callDepthExceeded) h hx hr ?_ rfl
    rw [hexec]
    unfold call
    rw [if_pos hdep]
  by_cases hdep : P.msg.depth > 1024
  · refine ⟨?_, ?_, ?_, ?_⟩ <;> intro hh <;> omega
  have hcw := hexec.trans (hcall _ (started_stack _) hdep)
  unfold callWith at hcw
  have hpops : (callInstr v).pops ≤ x.stack.length := by omega
  have hov : x.stack.length + (callInstr v).pushes ≤ 1024 + (callInstr v).pops := hr.over
  have hcase := touch2_cases h hx hr.op hr.since hr.static hpops hov hcw (cost := x.growth size) hz (by rw [hbase]; omega)
  have hsv : (v = .call ∧ c.value.toNat ≠ 0 ∧ P.msg.isStatic = true) ↔ (op = 0xf1 ∧ c.value ≠ 0 ∧ P.msg.isStatic = true) := by
    rw [← hop, Ne, Ne, zero_iff]
  refine ⟨fun _ => hcase.2, ?_, ?_, ?_⟩
  · intro _ hg h1 h2 h3
    obtain ⟨_, he⟩ := hcase.1 hg
    dsimp only at he
    rw [if_pos (hsv.2 ⟨h1, h2, h3⟩)] at he
    exact fails_ready (f := .staticViolation) h hx hr he rfl
  · intro _ hs hg1 hg2
    obtain ⟨_, he⟩ := hcase.1 hg1
    dsimp only at he
    rw [if_neg (fun hh => hs (hsv.1 hh)), accountAccess_eq, newAccountGas_eq hnew] at he
    rw [show (touched P x (callInstr v) rest.reverse (x.growth size) size).host = x.world from rfl] at he
    dsimp only at he
    rw [ha] at he
    dsimp only at he
    rw [hn] at he
    dsimp only at he
    refine fails_dyn (s := { touched P x (callInstr v) rest.reverse (x.growth size) size with host := w2 }) h hx hr he ?_
    show P.msg.gas.toNat - x.growth size < access + (if c.value.toNat ≠ 0 then 9000 else 0) + new
    have : (if c.value.toNat ≠ 0 then 9000 else 0) = (if c.value = 0 then 0 else 9000) := by
      by_cases hv0 : c.value = 0
      · rw [if_pos hv0, if_neg (not_not.mpr ((zero_iff _).1 hv0))]
      · rw [if_neg hv0, if_pos (fun hh => hv0 ((zero_iff _).2 hh))]
    rw [this]
    omega
  · intro _ hs hg left w3 hleft
    obtain ⟨_, he⟩ := hcase.1 (by omega)
    dsimp only at he
    have hval : (if c.value.toNat ≠ 0 then 9000 else 0) = (if c.value = 0 then 0 else 9000) := by
      by_cases hv0 : c.value = 0
      · rw [if_pos hv0, if_neg (not_not.mpr ((zero_iff _).1 hv0))]
      · rw [if_neg hv0, if_pos (fun hh => hv0 ((zero_iff _).2 hh))]
    have hstip : ((if c.value.toNat ≠ 0 then 2300 else 0 : Nat) : Int) = stipend c.value := by
      unfold stipend
      by_cases hv0 : c.value = 0
      · rw [if_pos hv0, if_neg (not_not.mpr ((zero_iff _).1 hv0))]; rfl
      · rw [if_neg hv0, if_pos (fun hh => hv0 ((zero_iff _).2 hh))]; rfl
    rw [if_neg (fun hh => hs (hsv.1 hh)), accountAccess_eq, newAccountGas_eq hnew] at he
    rw [show (touched P x (callInstr v) rest.reverse (x.growth size) size).host = x.world from rfl] at he
    dsimp only at he
    rw [ha] at he
    dsimp only at he
    rw [hn] at he
    dsimp only at he
    rw [hval, charge_rich' _ (by
      show access + (if c.value = 0 then 0 else 9000) + new ≤ P.msg.gas.toNat - x.growth size
      omega)] at he
    rw [checkBalance_eq] at he
    have hleftN : (touched P x (callInstr v) rest.reverse (x.growth size) size).gas - (access + (if c.value = 0 then 0 else 9000) + new)
        = left.toNat := by
      show P.msg.gas.toNat - x.growth size - (access + (if c.value = 0 then 0 else 9000) + new) = _
      omega
    dsimp only at he
    rw [hleftN] at he
    have hl0 : 0 ≤ left := by omega
    constructor
    · intro hb
      rw [hb] at he
      dsimp only at he
      rw [if_pos rfl] at he
      refine runs_to h hx hr he rfl rfl rfl rfl hpc ?_ rfl rfl ?_ ?_ rfl rfl
      · show ((left.toNat + (if c.value.toNat ≠ 0 then 2300 else 0) : Nat) : Int) = left + stipend c.value
        rw [← hstip]
        omega
      · show ((0 : U256) :: rest.reverse).reverse = _
        simp
      · exact read_zero _ _
    · intro hb fwd msg r w4 hf hmsg hrr
      rw [hb] at he
      dsimp only at he
      rw [if_neg nofun] at he
      have hfN : min c.gas.toNat (allBut64th left.toNat) = fwd.toNat ∧ 0 ≤ fwd ∧ fwd ≤ left := by
        rw [hf]
        unfold allBut64th forwarded passable
        omega
      rw [hfN.1] at he
      unfold State.ask at he
      dsimp only at he
      rw [hm] at he
      have hmsg' : nestedMessage P op c ((touched P x (callInstr v) rest.reverse (x.growth size) size).mem.read c.inOff.toNat c.inLen.toNat)
          ((fwd.toNat + (if c.value.toNat ≠ 0 then 2300 else 0) : Nat) : Int) = msg := by
        rw [hmsg, ← hstip]
        congr 1
        omega
      rw [hmsg', hrr] at he
      dsimp only at he
      have hcg := h.params.host.callGas msg w3 (by
        rw [hmsg]
        have : (nestedMessage P op c (bytes c.inLen.toNat fun i => x.byte (c.inOff.toNat + i)) (fwd + stipend c.value)).gas = fwd + stipend c.value := by
          unfold nestedMessage
          split <;> rfl
        rw [this]
        unfold stipend
        split <;> omega) (by
        have hgx := hx.gas
        rw [hmsg]
        have : (nestedMessage P op c (bytes c.inLen.toNat fun i => x.byte (c.inOff.toNat + i)) (fwd + stipend c.value)).gas = fwd + stipend c.value := by
          unfold nestedMessage
          split <;> rfl
        rw [this]
        unfold stipend
        by_cases hv0 : c.value = 0
        · rw [if_pos hv0]
          rw [if_pos hv0] at hc
          omega
        · rw [if_neg hv0]
          rw [if_neg hv0] at hc
          omega)
      rw [hrr] at hcg
      dsimp only at hcg
      refine runs_to h hx hr he rfl rfl rfl rfl hpc ?_ rfl rfl ?_ ?_ rfl rfl
      · show ((left.toNat - fwd.toNat + r.gasLeft.toNat : Nat) : Int) = left - fwd + r.gasLeft
        omega
      · show ((if r.status = .success then (1 : U256) else 0) :: rest.reverse).reverse = _
        simp
      · refine (read_zero _ _).trans ?_
        show bytes size (overwrite x.byte c.outOff.toNat (r.output.take c.outLen.toNat)) = _
        unfold bytes
        apply List.map_congr_left
        intro i _
        unfold overwrite
        rw [List.length_take]
        split
        · rename_i hi
          unfold byteAt
          rw [List.getD_eq_getElem?_getD, List.getElem?_take, if_pos (by omega), List.getD_eq_getElem?_getD]
        · rfl

/-- C17.  What is charged to the caller for the callee is exactly the request if that is at most all but one 64th of
the remaining gas, else exactly all but one 64th. -/
theorem C17_forwarded (c : CallArgs) {left : Int} (hl : 0 ≤ left) :
    0 ≤ forwarded c left ∧ forwarded c left ≤ left ∧
    ((c.gas.toNat : Int) ≤ left - left / 64 → forwarded c left = c.gas.toNat) ∧
    (left - left / 64 ≤ (c.gas.toNat : Int) → forwarded c left = left - left / 64) := by
  unfold forwarded passable
  refine ⟨by omega, by omega, fun h => by omega, fun h => by omega⟩

/-! ### C19 -/

theorem createStack_cases {rest : List U256} {c : CreateArgs} {op : Nat} {l : List U256} (h : CreateStack rest c op l) :
    ∃ is2 : Bool, decode op = some (if is2 then .create2 else .create) ∧
      l.length = rest.length + (if is2 then Instr.create2 else Instr.create).pops ∧
      (∀ s : State σ, s.stack = l.reverse → ¬ P.msg.depth > 1024 → create P is2 s =
        createWith P c.salt c.value c.off c.len { s with stack := rest.reverse }) := by
  cases h with
  | create hs =>
    refine ⟨false, rfl, by simp; rfl, ?_⟩
    intro s hst hd
    unfold create
    rw [if_neg hd, pop3_cons (by rw [hst]; simp; exact ⟨rfl, rfl, rfl, rfl⟩), hs]
    rfl
  | create2 v hs =>
    refine ⟨true, rfl, by simp; rfl, ?_⟩
    intro s hst hd
    unfold create
    rw [if_neg hd, pop3_cons (by rw [hst]; simp; exact ⟨rfl, rfl, rfl, rfl⟩), hs]
    rfl

/-- C19, C17, C39.  CREATE and CREATE2, step by step.

* 32000 gas are charged first; deeper than 1024 the instruction fails.
* The memory of the init code is paid; from Shanghai on init code of more than 49152 bytes fails; then the init code
  is paid per word.
* If the balance does not cover the endowment, 0 is pushed and nothing is created.
* Otherwise the host gets all but one 64th of the remaining gas and the init code.  The address is pushed on success,
  else 0; return data is kept only if the creation was reverted. -/
theorem C19_create (h : Setting P E codeOf vm) (hx : InputOk P x) {op : Nat} (ho : x.opcode P = op) (hstat : P.msg.isStatic = false)
    {c : CreateArgs} {rest : List U256} (hst : CreateStack rest c op x.stack) {size memCost cost : Nat} (hz : size = x.sizeAfter c.off c.len)
    (hmc : memCost = 32000 + x.growth size) (hc : cost = memCost + initCodeWordGas P.rev c * words c.len.toNat) :
    (P.msg.gas < 32000 → Fails P E vm x 1 .outOfGas x.refund x.world) ∧
    (32000 ≤ P.msg.gas → 1024 < P.msg.depth → Fails P E vm x 1 .failure x.refund x.world) ∧
    (P.msg.depth ≤ 1024 → P.msg.gas < (memCost : Int) → Fails P E vm x 1 .outOfGas x.refund x.world) ∧
    (P.msg.depth ≤ 1024 → (memCost : Int) ≤ P.msg.gas → SHANGHAI ≤ P.rev → 49152 < c.len.toNat →
      Fails P E vm x 1 .failure x.refund x.world) ∧
    (P.msg.depth ≤ 1024 → ¬ (SHANGHAI ≤ P.rev ∧ 49152 < c.len.toNat) →
      P.msg.gas < (cost : Int) → Fails P E vm x 1 .outOfGas x.refund x.world) ∧
    (P.msg.depth ≤ 1024 → ¬ (SHANGHAI ≤ P.rev ∧ 49152 < c.len.toNat) → (cost : Int) ≤ P.msg.gas →
      ∀ left w1, left = P.msg.gas - cost →
      (affordable P c.value x.world = (false, w1) →
        Runs P E vm x 1 { x.same P with
          pc := x.pc + 1
          gasLeft := left
          stack := rest ++ [0]
          memory := bytes size x.byte
          output := []
          lastCallReturnData := [] } w1) ∧
      (affordable P c.value x.world = (true, w1) → ∀ msg r w2,
        msg = newContract P c (bytes c.len.toNat fun i => x.byte (c.off.toNat + i)) (passable left) →
        P.host.call msg w1 = (r, w2) →
        Runs P E vm x 1 { x.same P with
          pc := x.pc + 1
          gasLeft := left / 64 + r.gasLeft
          gasRefund := x.refund + r.gasRefund
          stack := rest ++ [if r.status = .success then BitVec.ofNat 256 r.createAddress.toNat else 0]
          memory := bytes size x.byte
          output := if r.status = .revert then r.output else []
          lastCallReturnData := if r.status = .revert then r.output else [] } w2)) := by
  obtain ⟨is2, hd, hl, hcr⟩ := createStack_cases (P := P) hst
  have hlen := hx.stack
  have hg0 := h.gas
  generalize hi : (if is2 = true then Instr.create2 else Instr.create) = i at hd hl
  have hbase : i.baseGas = 32000 := by rw [← hi]; cases is2 <;> rfl
  have hpush : i.pushes = 1 := by rw [← hi]; cases is2 <;> rfl
  have hpop : 1 ≤ i.pops := by rw [← hi]; cases is2 <;> decide
  have hdx : decode (x.opcode P) = some i := by rw [ho]; exact hd
  have hsince : i.since ≤ P.rev := by rw [← hi]; cases is2 <;> exact Nat.zero_le _
  have hready : 32000 ≤ P.msg.gas → Ready P x i := fun hg => ⟨hdx, hsince, fun _ => hstat, by omega, by omega, by rw [hbase]; exact hg⟩
  have hexec : exec P x.pc i (started P x i) = create P is2 (started P x i) := by rw [← hi]; cases is2 <;> rfl
  have hpc : (started P x i).pc = x.pc + 1 := by rw [← hi]; cases is2 <;> rfl
  refine ⟨?_, ?_, ?_⟩
  · intro hg
    exact fails_base h hx hdx hsince (fun _ => hstat) (by omega) (by omega) (by rw [hbase]; exact hg)
  · intro hg hdep
    refine fails_ready (f := .createDepthExceeded) (s' := (started P x i).fail .createDepthExceeded) h hx (hready hg) ?_ rfl
    rw [hexec]
    unfold create
    rw [if_pos hdep]
  by_cases hdep : P.msg.depth > 1024
  · refine ⟨?_, ?_, ?_, ?_⟩ <;> intro hh <;> omega
  have hcw := hexec.trans (hcr _ (started_stack _) hdep)
  unfold createWith at hcw
  have hcase := touch_cases h hx hdx hsince (fun _ => hstat) (by omega) (by omega) hcw (cost := memCost)
    (by rw [hmc, hbase, hz]; omega)
  have hword : (if P.rev ≥ SHANGHAI then 2 * words c.len.toNat else 0) + (if c.salt.isSome then 6 * words c.len.toNat else 0)
      = initCodeWordGas P.rev c * words c.len.toNat := by
    unfold initCodeWordGas
    have e : ∀ o : Option U256, (if o.isSome = true then 6 * words c.len.toNat else 0) = (if o = none then 0 else 6) * words c.len.toNat := by
      intro o
      cases o with
      | none => simp
      | some v => simp
    rw [e, Nat.add_mul]
    congr 1
    by_cases hs : SHANGHAI ≤ P.rev
    · rw [if_pos hs, if_pos hs]
    · rw [if_neg hs, if_neg hs, Nat.zero_mul]
  refine ⟨fun _ => hcase.2, ?_, ?_, ?_⟩
  · intro _ hg h1 h2
    obtain ⟨hr, he⟩ := hcase.1 hg
    dsimp only at he
    rw [if_pos ⟨h1, h2⟩] at he
    exact fails_ready (f := .initCodeTooLarge) h hx hr he rfl
  · intro _ hs hg
    by_cases hg1 : P.msg.gas < (memCost : Int)
    · exact hcase.2 hg1
    obtain ⟨hr, he⟩ := hcase.1 (by omega)
    dsimp only at he
    rw [if_neg hs, hword] at he
    refine fails_dyn (s := touched P x i rest.reverse memCost (x.sizeAfter c.off c.len)) h hx hr he ?_
    show P.msg.gas.toNat - memCost < _
    omega
  · intro _ hs hg left w1 hleft
    obtain ⟨hr, he⟩ := hcase.1 (by omega)
    dsimp only at he
    rw [if_neg hs, hword, charge_rich' _ (by show _ ≤ P.msg.gas.toNat - memCost; omega), checkBalance_eq] at he
    have hleftN : (touched P x i rest.reverse memCost (x.sizeAfter c.off c.len)).gas - initCodeWordGas P.rev c * words c.len.toNat
        = left.toNat := by
      show P.msg.gas.toNat - memCost - _ = _
      omega
    dsimp only at he
    rw [hleftN] at he
    rw [show (touched P x i rest.reverse memCost (x.sizeAfter c.off c.len)).host = x.world from rfl] at he
    have hl0 : 0 ≤ left := by omega
    constructor
    · intro hb
      rw [hb] at he
      dsimp only at he
      rw [if_pos rfl] at he
      refine runs_to h hx hr he rfl rfl rfl rfl hpc ?_ rfl rfl ?_ ?_ rfl rfl
      · show (left.toNat : Int) = left
        omega
      · show ((0 : U256) :: rest.reverse).reverse = _
        simp
      · rw [hz]; exact read_zero _ _
    · intro hb msg r w2 hmsg hrr
      rw [hb] at he
      dsimp only at he
      rw [if_neg nofun] at he
      unfold State.ask at he
      dsimp only at he
      have hmsg' : createMessage P c.salt c.value
          ((touched P x i rest.reverse memCost (x.sizeAfter c.off c.len)).mem.read c.off.toNat c.len.toNat)
          (allBut64th left.toNat) = msg := by
        rw [hmsg]
        have e : ((allBut64th left.toNat : Nat) : Int) = passable left := by unfold allBut64th passable; omega
        unfold createMessage newContract
        rw [e]
        cases c.salt <;> rfl
      rw [hmsg', hrr] at he
      dsimp only at he
      have hcg := h.params.host.callGas msg w1 (by
        rw [hmsg]
        show 0 ≤ passable left
        unfold passable
        omega) (by
        have hgx := hx.gas
        rw [hmsg]
        show passable left ≤ 2 ^ 54
        unfold passable
        omega)
      rw [hrr] at hcg
      dsimp only at hcg
      refine runs_to h hx hr he rfl rfl rfl rfl hpc ?_ rfl rfl ?_ ?_ rfl rfl
      · show ((left.toNat - allBut64th left.toNat + r.gasLeft.toNat : Nat) : Int) = left / 64 + r.gasLeft
        unfold allBut64th
        omega
      · show ((if r.status = .success then Word.ofAddress r.createAddress else 0) :: rest.reverse).reverse = _
        rw [List.reverse_cons, List.reverse_reverse]
        rfl
      · rw [hz]; exact read_zero _ _

/-! ### Concrete cases -/

-- CALL with value 3 asking for all gas: account 5 exists and is warm
example : ∃ vm res, Runs (demo [0xf1]) (envOf (demo [0xf1])) vm
      (demoIn [2, 40, 4, 1, 3, 5, BitVec.ofNat 256 (2 ^ 256 - 1)]) 1 res 1 ∧
    res.gasLeft = 47308 ∧ res.stack = [1] ∧ res.memory.length = 64 ∧ (res.memory.drop 39).take 4 = [0, 7, 8, 0] ∧
    res.lastCallReturnData = [7, 8, 9] := by
  obtain ⟨vm, h⟩ := demo_setting [0xf1] (by decide) CANCUN 0
  have := ((C18_call h (demoIn_ok [0xf1] CANCUN 0 [2, 40, 4, 1, 3, 5, BitVec.ofNat 256 (2 ^ 256 - 1)] 0 (by decide) (by decide)) (op := 0xf1) rfl
    (c := ⟨BitVec.ofNat 256 (2 ^ 256 - 1), 5, 3, 1, 4, 40, 2⟩) (rest := []) .call (size := 64) (access := 100) (new := 0)
    (by decide) (w1 := 0) (w2 := 0) rfl (by decide) (cost := 9103) (by decide)).2.2.2.2 (by decide) (by decide) (by decide)
    90897 0 (by decide)).2 (by decide) 89477 _ _ 1 (by decide) rfl rfl
  exact ⟨vm, _, this, by decide +kernel, rfl, by decide +kernel, by decide +kernel, rfl⟩
-- the same in static mode
example : ∃ vm, Fails (demo [0xf1] CANCUN 1) (envOf (demo [0xf1] CANCUN 1)) vm
      (demoIn [2, 40, 4, 1, 3, 5, 1000]) 1 .staticModeViolation 0 0 := by
  obtain ⟨vm, h⟩ := demo_setting [0xf1] (by decide) CANCUN 1
  exact ⟨vm, (C18_call h (demoIn_ok [0xf1] CANCUN 1 [2, 40, 4, 1, 3, 5, 1000] 0 (by decide) (by decide)) (op := 0xf1) rfl
    (c := ⟨1000, 5, 3, 1, 4, 40, 2⟩) (rest := []) .call (size := 64) (access := 100) (new := 0)
    (by decide) (w1 := 0) (w2 := 0) rfl (by decide) rfl).2.2.1 (by decide) (by decide) rfl (by decide) rfl⟩
-- CREATE2 with 40 bytes of init code on Cancun: 32000 + 3 for the memory + 2 * (2 + 6)
example : ∃ vm res, Runs (demo [0xf5]) (envOf (demo [0xf5])) vm (demoIn [99, 40, 0, 3]) 1 res 1 ∧
    res.gasLeft = 34521 ∧ res.stack = [42] ∧ res.memory.length = 64 ∧ res.lastCallReturnData = [] := by
  obtain ⟨vm, h⟩ := demo_setting [0xf5] (by decide) CANCUN 0
  have := ((C19_create h (demoIn_ok [0xf5] CANCUN 0 [99, 40, 0, 3] 0 (by decide) (by decide)) (op := 0xf5) rfl rfl
    (c := ⟨3, 0, 40, some 99⟩) (rest := []) (.create2 99 rfl) (size := 64) (memCost := 32003) (cost := 32019)
    (by decide) (by decide) (by decide)).2.2.2.2.2 (by decide) (by decide) (by decide) 67981 0 (by decide)).2 (by decide) _ _ 1 rfl rfl
  exact ⟨vm, _, this, by decide +kernel, rfl, by decide +kernel, rfl⟩
example : ∃ vm, Fails (demo [0xf0]) (envOf (demo [0xf0])) vm (demoIn [49153, 0, 0]) 1 .failure 0 0 := by
  obtain ⟨vm, h⟩ := demo_setting [0xf0] (by decide) CANCUN 0
  exact ⟨vm, (C19_create h (demoIn_ok [0xf0] CANCUN 0 [49153, 0, 0] 0 (by decide) (by decide)) (op := 0xf0) rfl rfl
    (c := ⟨0, 0, 49153, none⟩) (rest := []) (.create rfl) rfl rfl rfl).2.2.2.1 (by decide) (by decide +kernel) (by decide) (by decide)⟩

end Tosca

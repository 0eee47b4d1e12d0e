import Verif.Props.Checks
import Verif.Spec.EnvTable
import Verif.Proofs.Jump

/-!
# Control flow (C03, C04) and stack, environment instructions (C44)
-/

namespace Tosca

open Tosca.Model Tosca.Spec Tosca.Proofs

variable {σ : Type} {P : Params σ} {E : Env σ} {codeOf : U256 → List Byte} {vm : Vm} {x : StepIn σ}

/-! ### C03 -/

/-- C03.  The jump-target table of a code has one entry per byte, and an entry is set exactly if its offset is
below the code size, holds JUMPDEST, and is reached when decoding the code sequentially from offset 0. -/
theorem C03_jump_targets (code : List Byte) :
    (calculateValidJumpTargets code).length = code.length ∧
    ∀ d, (calculateValidJumpTargets code).getD d 0 ≠ 0 ↔ ∃ h : d < code.length, code[d].toNat = 0x5b ∧ Boundary code d :=
  jumpTargets_spec code

/-- C03.  No offset inside the immediate of a PUSH instruction is a jump target. -/
theorem C03_push_data (code : List Byte) (p n d : Nat) (hb : Boundary code p) (hp : p < code.length)
    (hn : 1 ≤ n ∧ n ≤ 32) (ho : code[p].toNat = 0x5f + n) (hd : p < d ∧ d ≤ p + n) :
    (calculateValidJumpTargets code).getD d 0 = 0 := by
  by_contra hc
  obtain ⟨_, _, hbd⟩ := ((jumpTargets_spec code).2 d).1 hc
  have := boundary_gap code p d hb hbd hd.1
  have hl : nxt code p = p + (n + 1) := by
    unfold nxt byteLen
    rw [getD_eq code p hp, ho]
    have hde : decode (0x5f + n) = some (.push n) := by
      unfold decode
      rw [if_pos ⟨by omega, by omega⟩]
      congr 2
      omega
    rw [hde]
    rfl
  omega

-- PUSH1 0x5b; JUMPDEST: only the second 0x5b counts
example : (calculateValidJumpTargets [0x60, 0x5b, 0x5b]).map (fun b => decide (b ≠ 0)) = [false, false, true] := by decide
example : JumpTarget [0x60, 0x5b, 0x5b] 2 :=
  ⟨by decide, rfl, .next (i := .push 1) .zero (by decide) rfl⟩

/-! ### C04 -/

theorem ready_pops {i : Instr} {k : Nat} (hx : InputOk P x) (hd : decode (x.opcode P) = some i) (h0 : i.since ≤ P.rev)
    (hw : i.writes = true → P.msg.isStatic = false)
    (hl : x.stack.length = k + i.pops) (hp : i.pushes ≤ i.pops) (hg : (i.baseGas : Int) ≤ P.msg.gas) : Ready P x i :=
  ⟨hd, h0, hw, by omega, by have := hx.stack; omega, hg⟩

open Classical in
/-- C04.  JUMP continues at the destination, taken as a full 256-bit number, if that is a jump target
and fails otherwise. -/
theorem C04_jump (h : Setting P E codeOf vm) (hx : InputOk P x) (ho : x.opcode P = 0x56) {d : U256} {rest : List U256}
    (hst : x.stack = rest ++ [d]) (hg : 8 ≤ P.msg.gas) :
    (JumpTarget P.code d.toNat →
      Runs P E vm x 1 { x.same P with pc := d.toNat, gasLeft := P.msg.gas - 8, stack := rest } x.world) ∧
    (¬ JumpTarget P.code d.toNat → Fails P E vm x 1 .badJumpDestination x.refund x.world) := by
  have hr : Ready P x .jump := ready_pops (k := rest.length) hx (by rw [ho]; rfl) (Nat.zero_le _) nofun (by rw [hst]; simp; rfl) (by decide) hg
  have he : exec P x.pc .jump (started P x .jump) = jumpTo P d { started P x .jump with stack := rest.reverse } :=
    pop1_cons ((started_stack _).trans (rev1 hst)) _
  unfold jumpTo at he
  constructor
  · intro hj
    rw [if_pos hj] at he
    refine runs_to h hx hr he rfl rfl rfl rfl rfl (started_gas hr) rfl rfl ?_ (pad32_eq _).symm rfl rfl
    show rest.reverse.reverse = rest
    simp
  · intro hj
    rw [if_neg hj] at he
    exact fails_ready (f := .badJumpDestination) h hx hr he rfl

open Classical in
/-- C04.  JUMPI jumps like JUMP if the condition is not zero; otherwise it falls through, whatever the
destination. -/
theorem C04_jumpi (h : Setting P E codeOf vm) (hx : InputOk P x) (ho : x.opcode P = 0x57) {d c : U256} {rest : List U256}
    (hst : x.stack = rest ++ [c, d]) (hg : 10 ≤ P.msg.gas) :
    (c ≠ 0 → JumpTarget P.code d.toNat →
      Runs P E vm x 1 { x.same P with pc := d.toNat, gasLeft := P.msg.gas - 10, stack := rest } x.world) ∧
    (c ≠ 0 → ¬ JumpTarget P.code d.toNat → Fails P E vm x 1 .badJumpDestination x.refund x.world) ∧
    (c = 0 → Runs P E vm x 1 { x.same P with pc := x.pc + 1, gasLeft := P.msg.gas - 10, stack := rest } x.world) := by
  have hr : Ready P x .jumpi := ready_pops (k := rest.length) hx (by rw [ho]; rfl) (Nat.zero_le _) nofun (by rw [hst]; simp; rfl) (by decide) hg
  have he : exec P x.pc .jumpi (started P x .jumpi) =
      if c.toNat ≠ 0 then jumpTo P d { started P x .jumpi with stack := rest.reverse } else { started P x .jumpi with stack := rest.reverse } :=
    pop2_cons ((started_stack _).trans (rev2 hst)) _
  have hc : c ≠ 0 → c.toNat ≠ 0 := fun h1 h2 => h1 (BitVec.eq_of_toNat_eq h2)
  have hrr : rest.reverse.reverse = rest := by simp
  refine ⟨fun h0 hj => ?_, fun h0 hj => ?_, fun h0 => ?_⟩
  · rw [if_pos (hc h0)] at he
    unfold jumpTo at he
    rw [if_pos hj] at he
    exact runs_to h hx hr he rfl rfl rfl rfl rfl (started_gas hr) rfl rfl hrr (pad32_eq _).symm rfl rfl
  · rw [if_pos (hc h0)] at he
    unfold jumpTo at he
    rw [if_neg hj] at he
    exact fails_ready (f := .badJumpDestination) h hx hr he rfl
  · rw [if_neg (by rw [h0]; decide)] at he
    exact runs_to h hx hr he rfl rfl rfl rfl rfl (started_gas hr) rfl rfl hrr (pad32_eq _).symm rfl rfl

/-- C04.  BAD_JUMP_DESTINATION is reported only by jumps. -/
theorem C04_only_jumps (h : Setting P E codeOf vm) (hx : InputOk P x) {r : Int} {w : σ}
    (hf : Fails P E vm x 1 .badJumpDestination r w) : x.opcode P = 0x56 ∨ x.opcode P = 0x57 := by
  obtain ⟨f, h1, h2⟩ := fails_code h hx hf
  rcases failed_why h.gas h1 with hr | ⟨i, hr, hb⟩
  · rw [h2] at hr
    cases hr
  · cases f <;> cases h2
    have hd := hr.op
    have : i = .jump ∨ i = .jumpi := by cases i <;> first | exact .inl rfl | exact .inr rfl | exact hb.elim
    set_option maxRecDepth 100000 in
    rcases this with rfl | rfl
    · exact .inl ((by decide : ∀ b : Fin 256, decode b.val = some .jump → b.val = 0x56) ⟨_, decode_lt hd⟩ hd)
    · exact .inr ((by decide : ∀ b : Fin 256, decode b.val = some .jumpi → b.val = 0x57) ⟨_, decode_lt hd⟩ hd)

-- JUMP to the JUMPDEST behind a PUSH1, and into its immediate
example : ∃ vm, Runs (demo [0x56, 0x60, 0x5b, 0x5b]) (envOf (demo [0x56, 0x60, 0x5b, 0x5b])) vm (demoIn [7, 3]) 1
    { (demoIn [7, 3]).same (demo [0x56, 0x60, 0x5b, 0x5b]) with pc := 3, gasLeft := 99992, stack := [7] } 0 := by
  obtain ⟨vm, h⟩ := demo_setting [0x56, 0x60, 0x5b, 0x5b] (by decide) CANCUN 0
  exact ⟨vm, (C04_jump h (demoIn_ok _ _ _ _ _ (by decide) (by decide)) rfl (rest := [7]) rfl (by decide)).1
    ⟨by decide, rfl, .next (i := .push 1) (p := 1) (.next (i := .jump) .zero (by decide) rfl) (by decide) rfl⟩⟩
example : ∃ vm, Fails (demo [0x56, 0x60, 0x5b, 0x5b]) (envOf (demo [0x56, 0x60, 0x5b, 0x5b])) vm (demoIn [7, 2]) 1
    .badJumpDestination 0 0 := by
  obtain ⟨vm, h⟩ := demo_setting [0x56, 0x60, 0x5b, 0x5b] (by decide) CANCUN 0
  refine ⟨vm, (C04_jump h (demoIn_ok _ _ _ _ _ (by decide) (by decide)) rfl (rest := [7]) rfl (by decide)).2 ?_⟩
  intro hj
  exact ((jumpTargets_spec [0x56, 0x60, 0x5b, 0x5b]).2 2).2 hj (by decide)

/-! ### C44 -/

/-- C44.  The instructions of the table push the given value. -/
theorem C44_environment (h : Setting P E codeOf vm) (hx : InputOk P x) {op : Nat} {rev : Revision} {v : U256}
    (hv : Pushes P x op rev v) (ho : x.opcode P = op) (hrev : rev ≤ P.rev) (hst : x.stack.length < 1024) (hg : 2 ≤ P.msg.gas) :
    Runs P E vm x 1 { x.same P with pc := x.pc + 1, gasLeft := P.msg.gas - 2, stack := x.stack ++ [v] } x.world := by
  have key : ∀ (i : Instr), decode op = some i → i.since = rev → i.writes = false → i.pops = 0 → i.pushes = 1 → i.length = 1 →
      i.baseGas = 2 → exec P x.pc i (started P x i) = (started P x i).push v →
      Runs P E vm x 1 { x.same P with pc := x.pc + 1, gasLeft := P.msg.gas - 2, stack := x.stack ++ [v] } x.world := by
    intro i h1 h2 h3 h4 h5 h6 h7 h8
    have := runs_push h hx (by rw [ho]; exact h1) h8 (by rw [h2]; exact hrev) h3 h4 h5 hst (by rw [h7]; exact hg)
    rwa [h6, h7] at this
  cases hv with
  | address => exact key .address rfl rfl rfl rfl rfl rfl rfl rfl
  | origin => exact key .origin rfl rfl rfl rfl rfl rfl rfl rfl
  | caller => exact key .caller rfl rfl rfl rfl rfl rfl rfl rfl
  | callvalue => exact key .callvalue rfl rfl rfl rfl rfl rfl rfl rfl
  | calldatasize => exact key .calldatasize rfl rfl rfl rfl rfl rfl rfl rfl
  | codesize => exact key .codesize rfl rfl rfl rfl rfl rfl rfl rfl
  | gasprice => exact key .gasprice rfl rfl rfl rfl rfl rfl rfl rfl
  | returndatasize => exact key .returndatasize rfl rfl rfl rfl rfl rfl rfl rfl
  | coinbase => exact key .coinbase rfl rfl rfl rfl rfl rfl rfl rfl
  | timestamp => exact key .timestamp rfl rfl rfl rfl rfl rfl rfl rfl
  | number => exact key .number rfl rfl rfl rfl rfl rfl rfl rfl
  | prevrandao => exact key .prevrandao rfl rfl rfl rfl rfl rfl rfl rfl
  | gaslimit => exact key .gaslimit rfl rfl rfl rfl rfl rfl rfl rfl
  | chainid => exact key .chainid rfl rfl rfl rfl rfl rfl rfl rfl
  | basefee => exact key .basefee rfl rfl rfl rfl rfl rfl rfl rfl
  | blobbasefee => exact key .blobbasefee rfl rfl rfl rfl rfl rfl rfl rfl
  | pc => exact key .pc rfl rfl rfl rfl rfl rfl rfl rfl
  | msize =>
    refine key .msize rfl rfl rfl rfl rfl rfl rfl ?_
    have : (pad32 x.memory).length = 32 * words x.memory.length := by
      unfold pad32 slice
      rw [List.length_map, List.length_range]
    rw [this]
    rfl
  | gas =>
    refine key .gas rfl rfl rfl rfl rfl rfl rfl ?_
    have : BitVec.ofInt 256 (P.msg.gas - 2) = Word.ofN (started P x .gas).gas := by
      have e : P.msg.gas - 2 = (((started P x .gas).gas : Nat) : Int) := by
        show _ = ((P.msg.gas.toNat - 2 : Nat) : Int)
        omega
      rw [e]
      unfold Word.ofN
      rw [BitVec.ofInt_natCast]
    rw [this]
    rfl
  | push0 => exact key (.push 0) rfl rfl rfl rfl rfl rfl rfl rfl

/-- C44.  POP removes the top of the stack. -/
theorem C44_pop (h : Setting P E codeOf vm) (hx : InputOk P x) (ho : x.opcode P = 0x50) {a : U256} {rest : List U256}
    (hst : x.stack = rest ++ [a]) (hg : 2 ≤ P.msg.gas) :
    Runs P E vm x 1 { x.same P with pc := x.pc + 1, gasLeft := P.msg.gas - 2, stack := rest } x.world := by
  have hr : Ready P x .pop := ready_pops (k := rest.length) hx (by rw [ho]; rfl) (Nat.zero_le _) nofun (by rw [hst]; simp; rfl) (by decide) hg
  refine runs_to h hx hr (i := .pop) (s' := { started P x .pop with stack := rest.reverse })
    (pop1_cons (s := started P x .pop) ((started_stack _).trans (rev1 hst)) (fun _ s => s)) rfl rfl rfl rfl rfl (started_gas hr) rfl rfl ?_ (pad32_eq _).symm rfl rfl
  show rest.reverse.reverse = rest
  simp

/-- C44.  JUMPDEST does nothing but cost one gas. -/
theorem C44_jumpdest (h : Setting P E codeOf vm) (hx : InputOk P x) (ho : x.opcode P = 0x5b) (hg : 1 ≤ P.msg.gas) :
    Runs P E vm x 1 { x.same P with pc := x.pc + 1, gasLeft := P.msg.gas - 1 } x.world := by
  have hr : Ready P x .jumpdest := ready_pops (k := x.stack.length) hx (by rw [ho]; rfl) (Nat.zero_le _) nofun rfl (by decide) hg
  refine runs_to h hx hr rfl rfl rfl rfl rfl rfl (started_gas hr) rfl rfl ?_ (pad32_eq _).symm rfl rfl
  show x.stack.reverse.reverse = x.stack
  simp

/-- C44.  STOP halts with success and no output, also beyond the end of the code. -/
theorem C44_stop (h : Setting P E codeOf vm) (hx : InputOk P x) (ho : x.opcode P = 0) :
    Runs P E vm x 1 { x.same P with pc := x.pc + 1, stepStatus := .stopped, status := .success, output := [], lastCallReturnData := [] } x.world := by
  have hr : Ready P x .stop := ready_pops (k := x.stack.length) hx (by rw [ho]; rfl) (Nat.zero_le _) nofun rfl (by decide) h.gas
  have := runs_ready h hx hr (s' := { started P x .stop with status := .stopped, ret := [] }) rfl (fun f hf => by cases hf)
  have e : resultOf P.rev { started P x .stop with status := .stopped, ret := [] } =
      { x.same P with pc := x.pc + 1, stepStatus := .stopped, status := .success, output := [], lastCallReturnData := [] } := by
    refine result_eq rfl rfl rfl rfl ?_ rfl rfl ?_ (pad32_eq _).symm rfl
    · have := started_gas hr
      show ((started P x .stop).gas : Int) = P.msg.gas
      rw [this]
      show P.msg.gas - ((0 : Nat) : Int) = _
      omega
    · show x.stack.reverse.reverse = x.stack
      simp
  rwa [e] at this

/-- C44.  DUPn pushes the n-th word from the top. -/
theorem C44_dup (h : Setting P E codeOf vm) (hx : InputOk P x) (n : Nat) (hn : 1 ≤ n ∧ n ≤ 16) (ho : x.opcode P = 0x7f + n)
    {a : U256} {low high : List U256} (hst : x.stack = low ++ [a] ++ high) (hh : high.length + 1 = n)
    (hfull : x.stack.length < 1024) (hg : 3 ≤ P.msg.gas) :
    Runs P E vm x 1 { x.same P with pc := x.pc + 1, gasLeft := P.msg.gas - 3, stack := x.stack ++ [a] } x.world := by
  have hd : decode (x.opcode P) = some (.dup n) := by
    rw [ho]
    unfold decode
    rw [if_neg (by omega), if_pos ⟨by omega, by omega⟩]
    exact congrArg (fun k => some (Instr.dup k)) (by omega)
  have hll : x.stack.length = low.length + 1 + high.length := by rw [hst]; simp; omega
  have hr : Ready P x (.dup n) := by
    refine ⟨hd, Nat.zero_le _, nofun, ?_, ?_, hg⟩
    · show n ≤ _; omega
    · show _ + (n + 1) ≤ 1024 + n; omega
  have hget : (started P x (.dup n)).stack.getD (n - 1) 0 = a := by
    rw [started_stack, hst]
    simp only [List.reverse_append, List.reverse_cons, List.reverse_nil, List.nil_append, List.getD_eq_getElem?_getD]
    rw [List.getElem?_append_right (by simp; omega)]
    simp [show n - 1 - high.length = 0 by omega]
  refine runs_to h hx hr (s' := (started P x (.dup n)).push a) (by show (started P x (.dup n)).push _ = _; rw [hget]) rfl rfl rfl rfl rfl (started_gas hr) rfl rfl ?_ (pad32_eq _).symm rfl rfl
  show (a :: x.stack.reverse).reverse = x.stack ++ [a]
  simp

/-- C44.  SWAPn exchanges the top of the stack with the (n+1)-th word. -/
theorem C44_swap (h : Setting P E codeOf vm) (hx : InputOk P x) (n : Nat) (hn : 1 ≤ n ∧ n ≤ 16) (ho : x.opcode P = 0x8f + n)
    {a b : U256} {low mid : List U256} (hst : x.stack = low ++ [b] ++ mid ++ [a]) (hh : mid.length + 1 = n) (hg : 3 ≤ P.msg.gas) :
    Runs P E vm x 1 { x.same P with pc := x.pc + 1, gasLeft := P.msg.gas - 3, stack := low ++ [a] ++ mid ++ [b] } x.world := by
  have hd : decode (x.opcode P) = some (.swap n) := by
    rw [ho]
    unfold decode
    rw [if_neg (by omega), if_neg (by omega), if_pos ⟨by omega, by omega⟩]
    exact congrArg (fun k => some (Instr.swap k)) (by omega)
  have hll : x.stack.length = low.length + 1 + mid.length + 1 := by rw [hst]; simp; omega
  have hr : Ready P x (.swap n) := by
    refine ⟨hd, Nat.zero_le _, nofun, ?_, ?_, hg⟩
    · show n + 1 ≤ _; omega
    · show _ + (n + 1) ≤ 1024 + (n + 1); have := hx.stack; omega
  have hrev : (started P x (.swap n)).stack = a :: (mid.reverse ++ b :: low.reverse) := by
    rw [started_stack, hst]; simp
  have hget : (started P x (.swap n)).stack.getD n 0 = b := by
    rw [hrev, List.getD_eq_getElem?_getD]
    obtain ⟨k, rfl⟩ : ∃ k, n = k + 1 := ⟨n - 1, by omega⟩
    rw [List.getElem?_cons_succ, List.getElem?_append_right (by simp; omega)]
    simp [show k - mid.length = 0 by omega]
  have hset : ((started P x (.swap n)).stack.set 0 b).set n a = b :: (mid.reverse ++ a :: low.reverse) := by
    rw [hrev]
    obtain ⟨k, rfl⟩ : ∃ k, n = k + 1 := ⟨n - 1, by omega⟩
    rw [List.set_cons_zero, List.set_cons_succ, List.set_append_right _ _ (by simp; omega)]
    simp [show k - mid.length = 0 by omega]
  refine runs_to h hx hr (s' := { started P x (.swap n) with stack := b :: (mid.reverse ++ a :: low.reverse) }) ?_ rfl rfl rfl rfl rfl (started_gas hr) rfl rfl ?_ (pad32_eq _).symm rfl rfl
  · show { started P x (.swap n) with stack := ((started P x (.swap n)).stack.set 0 ((started P x (.swap n)).stack.getD n 0)).set n ((started P x (.swap n)).stack.getD 0 0) } = _
    rw [hget]
    have h0 : (started P x (.swap n)).stack.getD 0 0 = a := by rw [hrev]; rfl
    rw [h0, hset]
  · show (b :: (mid.reverse ++ a :: low.reverse)).reverse = _
    simp

-- SWAP2 and DUP3 on four words; CALLER
example : ∃ vm, Runs (demo [0x91]) (envOf (demo [0x91])) vm (demoIn [1, 2, 3, 4]) 1
    { (demoIn [1, 2, 3, 4]).same (demo [0x91]) with pc := 1, gasLeft := 99997, stack := [1, 4, 3, 2] } 0 := by
  obtain ⟨vm, h⟩ := demo_setting [0x91] (by decide) CANCUN 0
  exact ⟨vm, C44_swap h (demoIn_ok _ _ _ _ _ (by decide) (by decide)) 2 (by decide) rfl (low := [1]) (mid := [3]) rfl rfl (by decide)⟩
example : ∃ vm, Runs (demo [0x82]) (envOf (demo [0x82])) vm (demoIn [1, 2, 3, 4]) 1
    { (demoIn [1, 2, 3, 4]).same (demo [0x82]) with pc := 1, gasLeft := 99997, stack := [1, 2, 3, 4, 2] } 0 := by
  obtain ⟨vm, h⟩ := demo_setting [0x82] (by decide) CANCUN 0
  exact ⟨vm, C44_dup h (demoIn_ok _ _ _ _ _ (by decide) (by decide)) 3 (by decide) rfl (low := [1]) (high := [3, 4]) rfl rfl (by decide) (by decide)⟩
example : ∃ vm, Runs (demo [0x33]) (envOf (demo [0x33])) vm (demoIn [1]) 1
    { (demoIn [1]).same (demo [0x33]) with pc := 1, gasLeft := 99998, stack := [1, 20] } 0 := by
  obtain ⟨vm, h⟩ := demo_setting [0x33] (by decide) CANCUN 0
  exact ⟨vm, C44_environment h (demoIn_ok _ _ _ _ _ (by decide) (by decide)) .caller rfl (by decide) (by decide) (by decide)⟩

end Tosca

import Verif.Props.Demo
import Verif.Proofs.Read
import Verif.Spec.Tables

/-!
# Computing on words (C01), pushing constants (C02)
-/

namespace Tosca

open Tosca.Model Tosca.Spec Tosca.Proofs

variable {σ : Type} {P : Params σ} {E : Env σ} {codeOf : U256 → List Byte} {vm : Vm} {x : StepIn σ}

theorem eq_zero_iff (b : U256) : b = 0 ↔ b.toNat = 0 := by
  constructor
  · rintro rfl; rfl
  · intro h; exact BitVec.eq_of_toNat_eq h

theorem ite_zero {α : Type} (b : U256) (p q : α) : (if b = 0 then p else q) = if b.toNat = 0 then p else q := by
  by_cases h : b = 0
  · rw [if_pos h, if_pos ((eq_zero_iff b).1 h)]
  · rw [if_neg h, if_neg (fun h' => h ((eq_zero_iff b).2 h'))]

/-- C01.  Every instruction with two operands replaces them by the value of the function in the
table, charges the gas in the table and changes nothing else, for all operands and states. -/
theorem C01_binary (h : Setting P E codeOf vm) (hx : InputOk P x) {op : Nat} {gas : Int} {f : U256 → U256 → U256}
    (hf : Binary op gas f) (ho : x.opcode P = op) {a b : U256} {rest : List U256} (hst : x.stack = rest ++ [b, a])
    (hg : gas ≤ P.msg.gas) :
    Runs P E vm x 1 { x.same P with pc := x.pc + 1, gasLeft := P.msg.gas - gas, stack := rest ++ [f a b] } x.world := by
  have key : ∀ (i : Instr) (g : U256 → U256 → U256), decode op = some i → (∀ s : State σ, exec P x.pc i s = s.pop2 fun a b s => s.push (g a b)) →
      i.since = 0 → i.writes = false → i.pops = 2 → i.pushes = 1 → i.length = 1 → (i.baseGas : Int) = gas → g a b = f a b →
      Runs P E vm x 1 { x.same P with pc := x.pc + 1, gasLeft := P.msg.gas - gas, stack := rest ++ [f a b] } x.world := by
    intro i g h1 h2 h3 h4 h5 h6 h7 h8 h9
    have := runs_bin h hx (by rw [ho]; exact h1) h2 h3 h4 h5 h6 h7 hst (by omega)
    rwa [h8, h9] at this
  cases hf with
  | add => exact key .add _ rfl (fun _ => rfl) rfl rfl rfl rfl rfl rfl rfl
  | mul => exact key .mul _ rfl (fun _ => rfl) rfl rfl rfl rfl rfl rfl rfl
  | sub => exact key .sub _ rfl (fun _ => rfl) rfl rfl rfl rfl rfl rfl rfl
  | div => exact key .div _ rfl (fun _ => rfl) rfl rfl rfl rfl rfl rfl (ite_zero b _ _).symm
  | sdiv => exact key .sdiv _ rfl (fun _ => rfl) rfl rfl rfl rfl rfl rfl (ite_zero b _ _).symm
  | mod => exact key .mod _ rfl (fun _ => rfl) rfl rfl rfl rfl rfl rfl (ite_zero b _ _).symm
  | smod => exact key .smod _ rfl (fun _ => rfl) rfl rfl rfl rfl rfl rfl (ite_zero b _ _).symm
  | signextend => exact key .signextend _ rfl (fun _ => rfl) rfl rfl rfl rfl rfl rfl rfl
  | lt => exact key .lt _ rfl (fun _ => rfl) rfl rfl rfl rfl rfl rfl rfl
  | gt => exact key .gt _ rfl (fun _ => rfl) rfl rfl rfl rfl rfl rfl rfl
  | slt => exact key .slt _ rfl (fun _ => rfl) rfl rfl rfl rfl rfl rfl rfl
  | sgt => exact key .sgt _ rfl (fun _ => rfl) rfl rfl rfl rfl rfl rfl rfl
  | eq =>
    refine key .eq _ rfl (fun _ => rfl) rfl rfl rfl rfl rfl rfl ?_
    show (if a.toNat = b.toNat then (1 : U256) else 0) = if a = b then 1 else 0
    simp only [BitVec.toNat_eq]
  | and =>
    refine key .and _ rfl (fun _ => rfl) rfl rfl rfl rfl rfl rfl ?_
    show BitVec.ofNat 256 (a.toNat &&& b.toNat) = _
    rw [← BitVec.toNat_and, BitVec.ofNat_toNat, BitVec.setWidth_eq]
  | or =>
    refine key .or _ rfl (fun _ => rfl) rfl rfl rfl rfl rfl rfl ?_
    show BitVec.ofNat 256 (a.toNat ||| b.toNat) = _
    rw [← BitVec.toNat_or, BitVec.ofNat_toNat, BitVec.setWidth_eq]
  | xor =>
    refine key .xor _ rfl (fun _ => rfl) rfl rfl rfl rfl rfl rfl ?_
    show BitVec.ofNat 256 (a.toNat ^^^ b.toNat) = _
    rw [← BitVec.toNat_xor, BitVec.ofNat_toNat, BitVec.setWidth_eq]
  | byte => exact key .byte _ rfl (fun _ => rfl) rfl rfl rfl rfl rfl rfl rfl
  | shl => exact key .shl _ rfl (fun _ => rfl) rfl rfl rfl rfl rfl rfl rfl
  | shr => exact key .shr _ rfl (fun _ => rfl) rfl rfl rfl rfl rfl rfl rfl
  | sar => exact key .sar _ rfl (fun _ => rfl) rfl rfl rfl rfl rfl rfl rfl

/-- C01.  Instructions with one operand. -/
theorem C01_unary (h : Setting P E codeOf vm) (hx : InputOk P x) {op : Nat} {gas : Int} {f : U256 → U256}
    (hf : Unary op gas f) (ho : x.opcode P = op) {a : U256} {rest : List U256} (hst : x.stack = rest ++ [a])
    (hg : gas ≤ P.msg.gas) :
    Runs P E vm x 1 { x.same P with pc := x.pc + 1, gasLeft := P.msg.gas - gas, stack := rest ++ [f a] } x.world := by
  cases hf with
  | iszero =>
    have := runs_un (i := .iszero) (f := Word.iszero) h hx (by rw [ho]; rfl) (fun _ => rfl) (Nat.zero_le _) rfl rfl rfl rfl hst hg
    rwa [show Word.iszero a = (if a = 0 then 1 else 0) from (ite_zero a _ _).symm] at this
  | not =>
    have := runs_un (i := .not) (f := Word.not) h hx (by rw [ho]; rfl) (fun _ => rfl) (Nat.zero_le _) rfl rfl rfl rfl hst hg
    rwa [show Word.not a = ~~~a by
      unfold Word.not Word.ofN
      apply BitVec.eq_of_toNat_eq
      rw [BitVec.toNat_not, BitVec.toNat_ofNat]
      have := a.isLt
      omega] at this

/-- C01.  Instructions with three operands. -/
theorem C01_ternary (h : Setting P E codeOf vm) (hx : InputOk P x) {op : Nat} {gas : Int} {f : U256 → U256 → U256 → U256}
    (hf : Ternary op gas f) (ho : x.opcode P = op) {a b m : U256} {rest : List U256} (hst : x.stack = rest ++ [m, b, a])
    (hg : gas ≤ P.msg.gas) :
    Runs P E vm x 1 { x.same P with pc := x.pc + 1, gasLeft := P.msg.gas - gas, stack := rest ++ [f a b m] } x.world := by
  cases hf with
  | addmod =>
    have := runs_tern (i := .addmod) (f := Word.addmod) h hx (by rw [ho]; rfl) (fun _ => rfl) rfl rfl rfl rfl rfl hst hg
    rwa [show Word.addmod a b m = _ from (ite_zero m _ _).symm] at this
  | mulmod =>
    have := runs_tern (i := .mulmod) (f := Word.mulmod) h hx (by rw [ho]; rfl) (fun _ => rfl) rfl rfl rfl rfl rfl hst hg
    rwa [show Word.mulmod a b m = _ from (ite_zero m _ _).symm] at this

theorem byteLen_eq {v n : Nat} (hn : v < 256 ^ n) (hmin : ∀ m, v < 256 ^ m → n ≤ m) : Word.byteLen v = n := by
  unfold Word.byteLen
  have e : ∀ k, (256 : Nat) ^ k = 2 ^ (8 * k) := fun k => by rw [show (256 : Nat) = 2 ^ 8 from rfl, ← Nat.pow_mul]
  split
  · rename_i h
    have := hmin 0 (by rw [h]; exact Nat.one_pos)
    omega
  · rename_i h
    have h1 : v.log2 < 8 * n := (Nat.log2_lt h).2 (by rw [← e]; exact hn)
    have h2 : n ≤ v.log2 / 8 + 1 := hmin _ (by
      rw [e]
      exact (Nat.log2_lt h).1 (by omega))
    omega

/-- C01.  EXP computes the power modulo 2^256 and costs 10 gas plus 50 per byte of the exponent `b`:
`n` is the least number of bytes that can hold it. -/
theorem C01_exp (h : Setting P E codeOf vm) (hx : InputOk P x) (ho : x.opcode P = 0x0a) {a b : U256} {rest : List U256}
    (hst : x.stack = rest ++ [b, a]) (n : Nat) (hn : b.toNat < 256 ^ n) (hmin : ∀ m, b.toNat < 256 ^ m → n ≤ m) :
    ((10 + 50 * n : Int) ≤ P.msg.gas →
      Runs P E vm x 1 { x.same P with pc := x.pc + 1, gasLeft := P.msg.gas - (10 + 50 * n)
                                      stack := rest ++ [BitVec.ofNat 256 (a.toNat ^ b.toNat)] } x.world) ∧
    (P.msg.gas < (10 + 50 * n : Int) → Fails P E vm x 1 .outOfGas x.refund x.world) := by
  have hlen := hx.stack
  have hll : x.stack.length = rest.length + 2 := by rw [hst]; simp
  have hd : decode (x.opcode P) = some .exp := by rw [ho]; rfl
  have hu : Instr.exp.pops ≤ x.stack.length := by rw [hll]; exact Nat.le_add_left _ _
  have hov : x.stack.length + Instr.exp.pushes ≤ 1024 + Instr.exp.pops := by
    rw [show Instr.exp.pushes = 1 from rfl, show Instr.exp.pops = 2 from rfl]; omega
  have hb : (Instr.exp.baseGas : Int) = 10 := rfl
  have he : exec P x.pc .exp (started P x .exp) =
      { started P x .exp with stack := rest.reverse }.charge (50 * n) fun s => s.push (Word.exp a b) := by
    show (started P x .exp).pop2 _ = _
    rw [pop2_cons ((started_stack _).trans (rev2 hst)), byteLen_eq hn hmin]
  constructor
  · intro hg
    have hr : Ready P x .exp := ⟨hd, Nat.zero_le _, nofun, hu, hov, by omega⟩
    have hsg := started_gas hr
    rw [hb] at hsg
    refine runs_to h hx hr (he.trans (charge_rich' _ (by show 50 * n ≤ (started P x .exp).gas; omega))) rfl rfl rfl rfl rfl ?_ rfl rfl ?_ ?_ rfl rfl
    · show (((started P x .exp).gas - 50 * n : Nat) : Int) = P.msg.gas - (10 + 50 * n)
      omega
    · show (Word.exp a b :: rest.reverse).reverse = rest ++ [Word.exp a b]
      simp
    · exact (pad32_eq _).symm
  · intro hg
    by_cases hg' : P.msg.gas < Instr.exp.baseGas
    · exact fails_base h hx hd (Nat.zero_le _) nofun hu hov hg'
    · have hr : Ready P x .exp := ⟨hd, Nat.zero_le _, nofun, hu, hov, by omega⟩
      have hsg := started_gas hr
      rw [hb] at hsg
      exact fails_dyn h hx hr he (by show (started P x .exp).gas < 50 * n; omega)

/-- C02.  PUSH1 to PUSH32 push the big-endian number in the following `n` bytes of the code, where
bytes beyond the end of the code count as zero, and skip these bytes. -/
theorem C02_push (h : Setting P E codeOf vm) (hx : InputOk P x) (n : Nat) (hn : 1 ≤ n ∧ n ≤ 32) (ho : x.opcode P = 0x5f + n)
    (hst : x.stack.length < 1024) (hg : 3 ≤ P.msg.gas) :
    Runs P E vm x 1 { x.same P with
      pc := x.pc + n + 1
      gasLeft := P.msg.gas - 3
      stack := x.stack ++ [BitVec.ofNat 256 (((List.range n).map fun i => byteAt P.code (x.pc + 1 + i)).foldl (fun v b => v * 256 + b.toNat) 0)] } x.world := by
  have hd : decode (x.opcode P) = some (.push n) := by
    rw [ho]
    unfold decode
    rw [if_pos ⟨by omega, by omega⟩]
    congr 2
    omega
  have hb : (Instr.push n).baseGas = 3 := by
    show (if n = 0 then 2 else 3) = 3
    rw [if_neg (by omega)]
  have hs : (Instr.push n).since ≤ P.rev := by
    show (if n = 0 then _ else 0) ≤ P.rev
    rw [if_neg (by omega)]
    exact Nat.zero_le _
  have := runs_push (i := .push n) (v := Word.ofBytes (slice P.code (x.pc + 1) n)) h hx hd rfl hs rfl rfl rfl hst (by rw [hb]; exact hg)
  rw [hb] at this
  exact this

-- ADD of two large numbers; SDIV of -7 by 2; EXP with a two-byte exponent; PUSH2 with one byte missing
example : ∃ vm, Runs (demo [0x01]) (envOf (demo [0x01])) vm (demoIn [9, BitVec.allOnes 256, 5]) 1
    { (demoIn [9, BitVec.allOnes 256, 5]).same (demo [0x01]) with pc := 1, gasLeft := 99997, stack := [9, 4] } 0 := by
  obtain ⟨vm, h⟩ := demo_setting [0x01] (by decide) CANCUN 0
  exact ⟨vm, C01_binary h (demoIn_ok _ _ _ _ _ (by decide) (by decide)) .add rfl (rest := [9]) rfl (by decide)⟩
example : ∃ vm, Runs (demo [0x05]) (envOf (demo [0x05])) vm (demoIn [2, BitVec.ofInt 256 (-7)]) 1
    { (demoIn [2, BitVec.ofInt 256 (-7)]).same (demo [0x05]) with pc := 1, gasLeft := 99995, stack := [BitVec.ofInt 256 (-3)] } 0 := by
  obtain ⟨vm, h⟩ := demo_setting [0x05] (by decide) CANCUN 0
  exact ⟨vm, C01_binary h (demoIn_ok _ _ _ _ _ (by decide) (by decide)) .sdiv rfl (rest := []) rfl (by decide)⟩
example : ∃ vm, Runs (demo [0x09]) (envOf (demo [0x09])) vm (demoIn [7, BitVec.allOnes 256, BitVec.allOnes 256]) 1
    { (demoIn [7, BitVec.allOnes 256, BitVec.allOnes 256]).same (demo [0x09]) with pc := 1, gasLeft := 99992, stack := [1] } 0 := by
  obtain ⟨vm, h⟩ := demo_setting [0x09] (by decide) CANCUN 0
  exact ⟨vm, C01_ternary h (demoIn_ok _ _ _ _ _ (by decide) (by decide)) .mulmod rfl (rest := []) rfl (by decide)⟩
example : (300 : U256).toNat < 256 ^ 2 ∧ ∀ m, (300 : U256).toNat < 256 ^ m → 2 ≤ m := by
  refine ⟨by decide, fun m hm => ?_⟩
  match m with
  | 0 | 1 => exact absurd hm (by decide)
  | m + 2 => omega
example : ∃ vm, Runs (demo [0x61, 0xab]) (envOf (demo [0x61, 0xab])) vm (demoIn []) 1
    { (demoIn []).same (demo [0x61, 0xab]) with pc := 3, gasLeft := 99997, stack := [0xab00] } 0 := by
  obtain ⟨vm, h⟩ := demo_setting [0x61, 0xab] (by decide) CANCUN 0
  exact ⟨vm, C02_push h (demoIn_ok _ _ _ _ _ (by decide) (by decide)) 2 (by decide) rfl (by decide) (by decide)⟩

end Tosca

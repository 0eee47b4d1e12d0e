import Verif.Proofs.Ops5

/-!
# One instruction of the model against one step of the specification
-/

namespace Tosca.Proofs

open Tosca.Model Tosca.Spec

variable {σ ω : Type} {P : Params σ} {c : Ctx σ} {E : Env σ}

/-- The instruction an opcode denotes. -/
def toInstr : OpCode → Instr
  | .STOP => .stop
  | .ADD => .add
  | .MUL => .mul
  | .SUB => .sub
  | .DIV => .div
  | .SDIV => .sdiv
  | .MOD => .mod
  | .SMOD => .smod
  | .ADDMOD => .addmod
  | .MULMOD => .mulmod
  | .EXP => .exp
  | .SIGNEXTEND => .signextend
  | .LT => .lt
  | .GT => .gt
  | .SLT => .slt
  | .SGT => .sgt
  | .EQ => .eq
  | .ISZERO => .iszero
  | .AND => .and
  | .OR => .or
  | .XOR => .xor
  | .NOT => .not
  | .BYTE => .byte
  | .SHL => .shl
  | .SHR => .shr
  | .SAR => .sar
  | .SHA3 => .sha3
  | .ADDRESS => .address
  | .BALANCE => .balance
  | .ORIGIN => .origin
  | .CALLER => .caller
  | .CALLVALUE => .callvalue
  | .CALLDATALOAD => .calldataload
  | .CALLDATASIZE => .calldatasize
  | .CALLDATACOPY => .calldatacopy
  | .CODESIZE => .codesize
  | .CODECOPY => .codecopy
  | .GASPRICE => .gasprice
  | .EXTCODESIZE => .extcodesize
  | .EXTCODECOPY => .extcodecopy
  | .RETURNDATASIZE => .returndatasize
  | .RETURNDATACOPY => .returndatacopy
  | .EXTCODEHASH => .extcodehash
  | .BLOCKHASH => .blockhash
  | .COINBASE => .coinbase
  | .TIMESTAMP => .timestamp
  | .NUMBER => .number
  | .PREVRANDAO => .prevrandao
  | .GASLIMIT => .gaslimit
  | .CHAINID => .chainid
  | .SELFBALANCE => .selfbalance
  | .BASEFEE => .basefee
  | .BLOBHASH => .blobhash
  | .BLOBBASEFEE => .blobbasefee
  | .POP => .pop
  | .MLOAD => .mload
  | .MSTORE => .mstore
  | .MSTORE8 => .mstore8
  | .SLOAD => .sload
  | .SSTORE => .sstore
  | .JUMP => .jump
  | .JUMPI => .jumpi
  | .PC => .pc
  | .MSIZE => .msize
  | .GAS => .gas
  | .JUMPDEST => .jumpdest
  | .TLOAD => .tload
  | .TSTORE => .tstore
  | .MCOPY => .mcopy
  | .CREATE => .create
  | .CALL => .call
  | .CALLCODE => .callcode
  | .RETURN => .ret
  | .DELEGATECALL => .delegatecall
  | .CREATE2 => .create2
  | .STATICCALL => .staticcall
  | .REVERT => .revert
  | .INVALID => .invalid
  | .SELFDESTRUCT => .selfdestruct
  | .PUSH0 => .push 0
  | .PUSH i => .push (i.val + 1)
  | .DUP i => .dup (i.val + 1)
  | .SWAP i => .swap (i.val + 1)
  | .LOG i => .log i.val

theorem decode_dispatch' : ∀ b : Fin 256,
    decode b.val = some (toInstr (dispatch (BitVec.ofNat 8 b.val))) ∨
    decode b.val = none ∧ dispatch (BitVec.ofNat 8 b.val) = .INVALID := by
  decide +kernel

theorem decode_some {b : Byte} {i : Instr} (h : decode b.toNat = some i) : toInstr (dispatch b) = i := by
  have := decode_dispatch' ⟨b.toNat, b.isLt⟩
  simp only [h, BitVec.ofNat_toNat, BitVec.setWidth_eq] at this
  simpa [eq_comm] using this

theorem decode_none {b : Byte} (h : decode b.toNat = none) : dispatch b = .INVALID := by
  have := decode_dispatch' ⟨b.toNat, b.isLt⟩
  simp only [h, BitVec.ofNat_toNat, BitVec.setWidth_eq] at this
  simpa [eq_comm] using this

/-- The implementation's instruction table agrees with the specification. -/
structure InfoOk (op : OpCode) : Prop where
  pops : op.info.pops = ((toInstr op).pops : Nat)
  pushes : op.info.pushes = ((toInstr op).pushes : Nat)
  gas : op.info.staticGas = ((toInstr op).baseGas : Nat)
  length : op.info.length = (toInstr op).length
  static : op.info.disallowedInStaticCall = (toInstr op).writes
  since : ∀ rev, op.info.notYetIn rev = decide (rev < (toInstr op).since)
  jump : op.info.isJump = decide (op = .JUMP ∨ op = .JUMPI)

theorem info_ok (op : OpCode) : InfoOk op := by
  cases op with
  | PUSH i =>
    constructor <;> simp [OpCode.info, toInstr, Instr.pops, Instr.pushes, Instr.baseGas, Instr.length,
      Instr.writes, Instr.since, OpInfo.notYetIn] <;> omega
  | DUP i => constructor <;> simp [OpCode.info, toInstr, Instr.pops, Instr.pushes, Instr.baseGas, Instr.length,
      Instr.writes, Instr.since, OpInfo.notYetIn]
  | SWAP i => constructor <;> simp [OpCode.info, toInstr, Instr.pops, Instr.pushes, Instr.baseGas, Instr.length,
      Instr.writes, Instr.since, OpInfo.notYetIn]
  | LOG i => constructor <;> simp [OpCode.info, toInstr, Instr.pops, Instr.pushes, Instr.baseGas, Instr.length,
      Instr.writes, Instr.since, OpInfo.notYetIn]
  | _ => constructor <;> simp [OpCode.info, toInstr, Instr.pops, Instr.pushes, Instr.baseGas, Instr.length,
      Instr.writes, Instr.since, OpInfo.notYetIn, nullaryOp, unaryOp, binaryOp] <;> try (intro rev; rfl)

theorem ok_top {m : OpM σ OpResult} {pc' g : Nat} {a b : Int} {s : State σ}
    (h : Ok m c (Post P c pc' g a s)) (hab : a = b) : Ok m c (Post P c pc' g b s) := hab ▸ h

/-- What the bodies need to know about the context. -/
structure CtxOk (P : Params σ) (c : Ctx σ) (g b : Nat) : Prop where
  fixed : Fixed P c
  mem : MemOk c (g + b)
  refund : RefundOk P c (g + b)
  ret : c.returnData.length < 2 ^ 64

theorem invoke_ok (hP : ParamsBase P) (hE : EnvOk P E) (op : OpCode) (t g pc : Nat)
    (hj : op.info.isJump = false)
    (hC : CtxOk P c g (toInstr op).baseGas)
    (ht : t + (toInstr op).pops ≤ 1024) (ht' : (toInstr op).pushes ≤ t + (toInstr op).pops)
    (hpc : pc < P.code.length ∨ (toInstr op).length = 1 ∧ pc < P.code.length + 33) :
    Ok (invoke E op t g pc) c (Post P c (pc + (toInstr op).length) g ((t : Int) - op.info.delta)
      (exec P pc (toInstr op) (absState c t g (pc + (toInstr op).length)))) := by
  have hc := hC.fixed
  have hm : MemOk c g := ⟨hC.mem.1, by have := hC.mem.2; omega⟩
  have hrf : RefundOk P c g := ⟨by have := hC.refund.1; omega, by have := hC.refund.2; omega, hC.refund.3.le (by omega)⟩
  have h54 : g ≤ 2 ^ 54 := by have := hm.gas; omega
  have hd : op.info.delta = (((toInstr op).pushes : Nat) : Int) - (((toInstr op).pops : Nat) : Int) := by
    unfold OpInfo.delta; rw [(info_ok op).pops, (info_ok op).pushes]
  rw [hd]
  cases op
  case JUMP => simp [OpCode.info] at hj
  case JUMPI => simp [OpCode.info] at hj
  all_goals
    dsimp only [toInstr, Instr.pops, Instr.pushes, Instr.length, Instr.baseGas] at *
  case STOP => exact ok_top (stop_ok hc t g _ (by omega)) (by omega)
  case ADD => exact ok_top (bin_ok _ _ w_add hc t g _ (by omega)) (by omega)
  case MUL => exact ok_top (bin_ok _ _ w_mul hc t g _ (by omega)) (by omega)
  case SUB => exact ok_top (bin_ok _ _ w_sub hc t g _ (by omega)) (by omega)
  case DIV => exact ok_top (bin_ok _ _ w_div hc t g _ (by omega)) (by omega)
  case SDIV => exact ok_top (bin_ok _ _ w_sdiv hc t g _ (by omega)) (by omega)
  case MOD => exact ok_top (bin_ok _ _ w_mod hc t g _ (by omega)) (by omega)
  case SMOD => exact ok_top (bin_ok _ _ w_smod hc t g _ (by omega)) (by omega)
  case ADDMOD => exact ok_top (addmod_ok hc t g _ (by omega)) (by omega)
  case MULMOD => exact ok_top (mulmod_ok hc t g _ (by omega)) (by omega)
  case EXP => exact ok_top (exp_ok hc t g _ (by omega)) (by omega)
  case SIGNEXTEND => exact ok_top (signextend_ok hc t g _ (by omega)) (by omega)
  case LT => exact ok_top (bin_ok _ _ w_lt hc t g _ (by omega)) (by omega)
  case GT => exact ok_top (bin_ok _ _ w_gt hc t g _ (by omega)) (by omega)
  case SLT => exact ok_top (bin_ok _ _ w_slt hc t g _ (by omega)) (by omega)
  case SGT => exact ok_top (bin_ok _ _ w_sgt hc t g _ (by omega)) (by omega)
  case EQ => exact ok_top (bin_ok _ _ w_eq hc t g _ (by omega)) (by omega)
  case ISZERO => exact ok_top (un_ok _ _ w_iszero hc t g _ (by omega)) (by omega)
  case AND => exact ok_top (bin_ok _ _ w_and hc t g _ (by omega)) (by omega)
  case OR => exact ok_top (bin_ok _ _ w_or hc t g _ (by omega)) (by omega)
  case XOR => exact ok_top (bin_ok _ _ w_xor hc t g _ (by omega)) (by omega)
  case NOT => exact ok_top (un_ok _ _ w_not hc t g _ (by omega)) (by omega)
  case BYTE => exact ok_top (byte_ok hc t g _ (by omega)) (by omega)
  case SHL => exact ok_top (bin_ok _ _ w_shl hc t g _ (by omega)) (by omega)
  case SHR => exact ok_top (bin_ok _ _ w_shr hc t g _ (by omega)) (by omega)
  case SAR => exact ok_top (sar_ok hc t g _ (by omega)) (by omega)
  case SHA3 => exact ok_top (sha3_ok hE hc t g _ (by omega) hm) (by omega)
  case ADDRESS => exact ok_top (address_ok hc t g _ (by omega) (by omega)) (by omega)
  case BALANCE => exact ok_top (balance_ok hE hc t g _ (by omega)) (by omega)
  case ORIGIN => exact ok_top (push_ok' _ _ (by rw [hE.host, w_ofAddress]) hc t g _ (by omega) (by omega)) (by omega)
  case CALLER => exact ok_top (caller_ok hc t g _ (by omega) (by omega)) (by omega)
  case CALLVALUE => exact ok_top (callvalue_ok hc t g _ (by omega) (by omega)) (by omega)
  case CALLDATALOAD => exact ok_top (calldataload_ok hP hc t g _ (by omega)) (by omega)
  case CALLDATASIZE => exact ok_top (calldatasize_ok hc t g _ (by omega) (by omega)) (by omega)
  case CALLDATACOPY => exact ok_top (calldatacopy_ok hP hc t g _ (by omega) hm) (by omega)
  case CODESIZE => exact ok_top (codesize_ok hP hc t g _ (by omega) (by omega)) (by omega)
  case CODECOPY => exact ok_top (codecopy_ok hP hc t g _ (by omega) hm) (by omega)
  case GASPRICE => exact ok_top (push_ok' _ _ (by rw [hE.host]) hc t g _ (by omega) (by omega)) (by omega)
  case EXTCODESIZE => exact ok_top (extcodesize_ok hE hc t g _ (by omega)) (by omega)
  case EXTCODECOPY => exact ok_top (extcodecopy_ok hP hE hc t g _ (by omega) hm) (by omega)
  case RETURNDATASIZE => exact ok_top (returndatasize_ok hc t g _ (by omega) (by omega)) (by omega)
  case RETURNDATACOPY => exact ok_top (returndatacopy_ok hc t g _ (by omega) hm hC.ret) (by omega)
  case EXTCODEHASH => exact ok_top (extcodehash_ok hE hc t g _ (by omega)) (by omega)
  case BLOCKHASH => exact ok_top (blockhash_ok hP hE hc t g _ (by omega)) (by omega)
  case COINBASE => exact ok_top (push_ok' _ _ (by rw [hE.host, w_ofAddress]) hc t g _ (by omega) (by omega)) (by omega)
  case TIMESTAMP =>
    have := i64_ok _ hP.host.timestamp hc t g (pc + 1) (by omega) (by omega)
    exact ok_top (by unfold invoke Ops.timestamp; rw [hE.host]; exact this) (by omega)
  case NUMBER =>
    have := i64_ok _ hP.host.blockNumber hc t g (pc + 1) (by omega) (by omega)
    exact ok_top (by unfold invoke Ops.number; rw [hE.host]; exact this) (by omega)
  case PREVRANDAO => exact ok_top (push_ok' _ _ (by rw [hE.host]) hc t g _ (by omega) (by omega)) (by omega)
  case GASLIMIT =>
    have := i64_ok _ hP.host.gasLimit hc t g (pc + 1) (by omega) (by omega)
    exact ok_top (by unfold invoke Ops.gaslimit; rw [hE.host]; exact this) (by omega)
  case CHAINID => exact ok_top (push_ok' _ _ (by rw [hE.host]) hc t g _ (by omega) (by omega)) (by omega)
  case SELFBALANCE => exact ok_top (selfbalance_ok hE hc t g _ (by omega) (by omega)) (by omega)
  case BASEFEE => exact ok_top (push_ok' _ _ (by rw [hE.host]) hc t g _ (by omega) (by omega)) (by omega)
  case BLOBHASH => exact ok_top (blobhash_ok hP hE hc t g _ (by omega)) (by omega)
  case BLOBBASEFEE => exact ok_top (push_ok' _ _ (by rw [hE.host]) hc t g _ (by omega) (by omega)) (by omega)
  case POP => exact ok_top (pop_ok hc t g _ (by omega)) (by omega)
  case MLOAD => exact ok_top (mload_ok hc t g _ (by omega) hm) (by omega)
  case MSTORE => exact ok_top (mstore_ok hc t g _ (by omega) hm) (by omega)
  case MSTORE8 => exact ok_top (mstore8_ok hc t g _ (by omega) hm) (by omega)
  case SLOAD => exact ok_top (sload_ok hE hc t g _ (by omega)) (by omega)
  case SSTORE => exact ok_top (sstore_ok hE hc t g _ (by omega) hrf) (by omega)
  case PC => exact ok_top (push_ok' _ _ rfl hc t g _ (by omega) (by omega)) (by omega)
  case MSIZE => exact ok_top (msize_ok hc t g _ (by omega) (by omega)) (by omega)
  case GAS => exact ok_top (gas_ok hc t g _ (by omega) (by omega) h54) (by omega)
  case JUMPDEST => exact ok_top (jumpdest_ok hc t g _ (by omega)) (by omega)
  case TLOAD => exact ok_top (tload_ok hE hc t g _ (by omega)) (by omega)
  case TSTORE => exact ok_top (tstore_ok hE hc t g _ (by omega)) (by omega)
  case MCOPY => exact ok_top (mcopy_ok hc t g _ (by omega) hm) (by omega)
  case PUSH0 => exact ok_top (push_ok' _ _ rfl hc t g _ (by omega) (by omega)) (by omega)
  case PUSH i => exact ok_top (pushN_ok (i.val + 1) (by omega) hc t g pc _ (by omega) (by omega) (by omega)) (by omega)
  case DUP i => exact ok_top (dup_ok (i.val + 1) (by omega) hc t g _ (by omega) (by omega)) (by omega)
  case SWAP i => exact ok_top (swap_ok (i.val + 1) (by omega) hc t g _ (by omega)) (by omega)
  case LOG i => exact ok_top (log_ok hE i.val hc t g _ (by omega) hm) (by omega)
  case CREATE => exact ok_top (create_ok hP hE hc false t g _ (by simpa using ht) hm hrf) (by simp)
  case CALL => exact ok_top (call_ok hP hE hc .call t g _ (by simpa [callResult] using ht) hm hrf) (by simp [callResult])
  case CALLCODE => exact ok_top (call_ok hP hE hc .callcode t g _ (by simpa [callResult] using ht) hm hrf) (by simp [callResult])
  case RETURN => exact ok_top (ret_ok .ret .returned rfl (by simp) (by simp) hc t g _ (by omega) hm) (by omega)
  case DELEGATECALL => exact ok_top (call_ok hP hE hc .delegatecall t g _ (by simpa [callResult] using ht) hm hrf) (by simp [callResult])
  case CREATE2 => exact ok_top (create_ok hP hE hc true t g _ (by simpa using ht) hm hrf) (by simp)
  case STATICCALL => exact ok_top (call_ok hP hE hc .staticcall t g _ (by simpa [callResult] using ht) hm hrf) (by simp [callResult])
  case REVERT => exact ok_top (ret_ok .revert .reverted rfl (by simp) (by simp) hc t g _ (by omega) hm) (by omega)
  case INVALID => exact ok_top (invalid_ok hc t g _) (by omega)
  case SELFDESTRUCT =>
    exact ok_top (selfdestruct_ok hE hc t g _ (by omega)
      ⟨by have := hC.refund.2; omega, by have := hC.refund.1; omega⟩) (by omega)

end Tosca.Proofs

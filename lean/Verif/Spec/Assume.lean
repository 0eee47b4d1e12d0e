import Verif.Spec.Evm

/-!
# Assumptions about the caller and the host

What the EVMC contract promises an EVM implementation, as far as it matters here.
-/

namespace Tosca.Spec

/-- A host that keeps the EVMC contract, as far as one instruction depends on it. -/
structure HostBase {σ : Type} (H : Host σ) : Prop where
  /-- A nested call given non-negative gas (at most 2^54) returns no more than it was given. -/
  callGas : ∀ m w, 0 ≤ m.gas → m.gas ≤ 2 ^ 54 → 0 ≤ (H.call m w).1.gasLeft ∧ (H.call m w).1.gasLeft ≤ m.gas
  /-- `copy_code` writes at most as many bytes as the buffer holds. -/
  copyCode : ∀ a off n w, (H.copyCode a off n w).1.length ≤ n
  /-- Block number, timestamp and gas limit are non-negative 64-bit numbers. -/
  blockNumber : 0 ≤ H.txContext.blockNumber ∧ H.txContext.blockNumber < 2 ^ 63
  timestamp : 0 ≤ H.txContext.timestamp ∧ H.txContext.timestamp < 2 ^ 63
  gasLimit : 0 ≤ H.txContext.gasLimit ∧ H.txContext.gasLimit < 2 ^ 63
  /-- The list of blob hashes fits the address space. -/
  blobHashes : H.txContext.blobHashes.length ≤ 2 ^ 63

/-- A host that keeps the EVMC contract. -/
structure HostOk {σ : Type} (H : Host σ) : Prop extends HostBase H where
  /-- The refund of a nested call is bounded by the gas it used (the largest refund per gas is
  SSTORE clearing a just-added slot: 19900 for 100 gas). -/
  callRefund : ∀ m w, 0 ≤ m.gas → m.gas ≤ 2 ^ 54 →
    (H.call m w).1.gasRefund ≤ 199 * (m.gas - (H.call m w).1.gasLeft) ∧
    -(199 * (m.gas - (H.call m w).1.gasLeft)) ≤ (H.call m w).1.gasRefund
  /-- Outputs fit the address space. -/
  callOutput : ∀ m w, 0 ≤ m.gas → m.gas ≤ 2 ^ 54 → (H.call m w).1.output.length < 2 ^ 64

/-- Sizes that fit the machine: code below 4 GiB, input below 2^64 bytes, a 32-bit depth. -/
structure ParamsOk {σ : Type} (P : Params σ) : Prop where
  host : HostOk P.host
  code : P.code.length < 2 ^ 32
  input : P.msg.input.length < 2 ^ 64
  depth : -2 ^ 31 ≤ P.msg.depth ∧ P.msg.depth < 2 ^ 31

/-- The same for a host of which nothing is known about the refunds of nested calls. -/
structure ParamsBase {σ : Type} (P : Params σ) : Prop where
  host : HostBase P.host
  code : P.code.length < 2 ^ 32
  input : P.msg.input.length < 2 ^ 64
  depth : -2 ^ 31 ≤ P.msg.depth ∧ P.msg.depth < 2 ^ 31

theorem ParamsOk.base {σ : Type} {P : Params σ} (h : ParamsOk P) : ParamsBase P := ⟨h.host.toHostBase, h.code, h.input, h.depth⟩

/-- States the implementation handles exactly: stack limit, word-aligned memory, gas and paid-for
memory below 2^54, a refund counter that cannot overflow with the remaining gas, a program
counter inside the code or its padding. -/
structure Wf {σ : Type} (P : Params σ) (s : State σ) : Prop where
  stack : s.stack.length ≤ stackLimit
  memAligned : s.mem.size % 32 = 0
  gas : s.gas + memGas (words s.mem.size) ≤ 2 ^ 54
  refundHi : s.refund + 199 * s.gas ≤ 2 ^ 63 - 1
  refundLo : -(2 ^ 63 - 1) ≤ s.refund - 199 * s.gas
  ret : s.ret.length < 2 ^ 64
  pc : s.status = .running → s.pc ≤ P.code.length + 32

end Tosca.Spec

import Verif.Spec.Api

/-!
# Nested executions: the closed recursive system

A host answers a nested call by running the callee's code on an EVM again.  `Nest` is what such a host
adds to an EVM: everything that does not run code (`base`), what happens before a callee runs
(finding the code, moving the value, answering precompiled contracts or refusing), and what happens
after it (undoing the effects of a failed callee, storing created code).
-/

namespace Tosca.Spec

variable {σ : Type}

/-- A host that runs nested calls on an EVM. -/
structure Nest (σ : Type) where
  /-- All methods but `call`. -/
  base : Host σ
  keccak : List Byte → U256
  rev : Revision
  /-- A nested call is answered at once, or some code is to be run with some message. -/
  enter : Message → σ → (CallResult × σ) ⊕ (List Byte × Message × σ)
  /-- The answer to the caller: given the call, the state before it, the outcome of the run and the
  state after the run. -/
  leave : Message → σ → CallResult → σ → CallResult × σ

/-- The frame that runs `code` with message `m` on host `H`. -/
def Nest.frame (N : Nest σ) (H : Host σ) (code : List Byte) (m : Message) : Params σ :=
  { code := code, msg := m, rev := N.rev, host := H, keccak := N.keccak }

/-- Running a frame to its end, according to the specification (`gas + 1` steps suffice: every
instruction that does not halt costs gas). -/
noncomputable def Nest.run (N : Nest σ) (H : Host σ) (code : List Byte) (m : Message) (w : σ) : CallResult × σ :=
  let s := steps (N.frame H code m) (m.gas.toNat + 1) (initial (N.frame H code m) w)
  ({ status := statusCode s.status, gasLeft := s.gas, gasRefund := s.refund, output := s.ret }, s.host)

/-- Answering a nested call where the callee runs on host `H`. -/
noncomputable def Nest.answer (N : Nest σ) (H : Host σ) (m : Message) (w : σ) : CallResult × σ :=
  match N.enter m w with
  | .inl r => r
  | .inr (code, m', w') => N.leave m w (N.run H code m' w').1 (N.run H code m' w').2

/-- The host that answers calls by the given function. -/
def Nest.with (N : Nest σ) (call : Message → σ → CallResult × σ) : Host σ := { N.base with call := call }

/-- The host on which calls may nest `d` levels deep; deeper calls fail. -/
noncomputable def Nest.host (N : Nest σ) : Nat → Host σ
  | 0 => N.with fun _ w => ({ status := .failure }, w)
  | d + 1 => N.with (N.answer (N.host d))

/-- The closed system: a callee runs on this host again, without a bound on the nesting.  (Theorem
`C47_closed` shows that this definition, which picks a level by the depth of the message, solves the recursive
equation, and `C47_closed_unique` that it is the only solution.) -/
noncomputable def Nest.closed (N : Nest σ) : Host σ :=
  N.with fun m w => (N.host ((1025 - m.depth).toNat + 1)).call m w

/-- Outcomes that respect the EVMC contract for message `m`. -/
structure ResultOk (m : Message) (r : CallResult) : Prop where
  gas : 0 ≤ r.gasLeft ∧ r.gasLeft ≤ m.gas
  refund : r.gasRefund ≤ 199 * (m.gas - r.gasLeft) ∧ -(199 * (m.gas - r.gasLeft)) ≤ r.gasRefund
  output : r.output.length < 2 ^ 64

/-- What is assumed about the rest of the host: it keeps the EVMC contract as far as it does not run code. -/
structure NestOk (N : Nest σ) : Prop where
  copyCode : ∀ a off n w, (N.base.copyCode a off n w).1.length ≤ n
  blockNumber : 0 ≤ N.base.txContext.blockNumber ∧ N.base.txContext.blockNumber < 2 ^ 63
  timestamp : 0 ≤ N.base.txContext.timestamp ∧ N.base.txContext.timestamp < 2 ^ 63
  gasLimit : 0 ≤ N.base.txContext.gasLimit ∧ N.base.txContext.gasLimit < 2 ^ 63
  blobHashes : N.base.txContext.blobHashes.length ≤ 2 ^ 63
  /-- A call that is answered at once uses at most the gas it is given. -/
  answered : ∀ m w r w', 0 ≤ m.gas → m.gas ≤ 2 ^ 54 → N.enter m w = .inl (r, w') → ResultOk m r
  /-- Code is run with the gas and depth of the call; code and input fit the machine.  Only messages with a
  32-bit depth and a gas limit of at most 2^54 exist. -/
  entered : ∀ m w code m' w', N.enter m w = .inr (code, m', w') →
    m'.gas = m.gas ∧ 0 ≤ m.gas ∧ m.gas ≤ 2 ^ 54 ∧ m'.depth = m.depth ∧ -2 ^ 31 ≤ m.depth ∧ m.depth < 2 ^ 31 ∧
    code.length < 2 ^ 32 ∧ m'.input.length < 2 ^ 64
  /-- What is done after a run uses only gas the callee left. -/
  left : ∀ m w r w', ResultOk m r → ResultOk m (N.leave m w r w').1

end Tosca.Spec

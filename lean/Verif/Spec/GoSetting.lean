import Verif.Spec.Transaction
import Verif.Spec.Setting
import Verif.Spec.Ledger
import Verif.Spec.GoNative
import Verif.Model.Floria
import Verif.Model.LfvmRun

/-!
# Settings of the claims about the Go side
-/

namespace Tosca.Proofs

open Tosca.Spec Tosca.Model Tosca.Go Tosca.Model.Go

variable {ω : Type}

/-- How the binding reports errors. -/
def reports (B : Binding) : Spec.Go.Reports := ⟨B.status, B.tooLong⟩

/-- The VM a run finds: its analysis cache, as far as it concerns the code to run, and its SHA3 cache are right. -/
structure FoundFor (keccak : List Byte → U256) (p : Parameters) (f : Found ω) : Prop where
  vm : ∃ codeOf, VmOk codeOf keccak f.vm ∧ HashOk codeOf (messageOf p) p.code
  reenter : ∀ m w s, Sha3Ok keccak s → Sha3Ok keccak (f.reenter m w s)

/-- evmzero as interpreter of a processor (evmzero.go:121-126): what a run finds (VM state, stack buffer) depends on the run. -/
def evmzero (B : Binding) (keccak : List Byte → U256) (find : Parameters → ω → Found ω) : Interpreter ω := fun db call p w =>
  evmzeroRun B keccak (find p w) db call p w

/-- What a run on the long-form EVM finds: the cache for converted code, as far as it concerns the code to run, and the cache for hashes are right.
Nothing is said about the pooled stack. -/
structure LfvmFound (keccak : List Byte → U256) (p : Parameters) (f : Model.Lfvm.Found) : Prop where
  hash : f.hash = keccak
  cached : ∀ C, f.cached = some C → Model.Lfvm.convert p.code false = some C

/-- The long-form EVM without super instructions as interpreter of a processor (lfvm.go, interpreter.go): what a run finds depends on the run.
The interpreter loop is cut off after `fuel` iterations. -/
def lfvm (fuel : Parameters → Nat) (find : Parameters → ω → Model.Lfvm.Found) : Interpreter ω := fun db call p w =>
  Model.Lfvm.lfvmRun false (find p w) fuel db call p w

/-- A run on the long-form EVM within the sizes it is made for: code of at most 64 KiB, at most 2^40 gas, a client whose `Call` and whose account
queries behave. -/
structure LfvmSetting (keccak : List Byte → U256) (db : Db ω) (call : CallFn ω) (p : Parameters) (f : Model.Lfvm.Found) : Prop where
  call : Spec.Go.CallFnOk call
  access : Spec.Go.AccessOk db
  lengths : Spec.Go.Lengths db
  run : Spec.Go.RunOk p
  input : p.input.length < 2 ^ 63
  code : p.code.length ≤ 2 ^ 16
  gas : p.gas ≤ 2 ^ 40
  revision : 0 ≤ p.block.revision
  found : LfvmFound keccak p f

/-- The same for the long-form EVM with super-instructions: the cached code is code with super-instructions. -/
structure SuperSetting (keccak : List Byte → U256) (db : Db ω) (call : CallFn ω) (p : Parameters) (f : Model.Lfvm.Found) : Prop where
  call : Spec.Go.CallFnOk call
  access : Spec.Go.AccessOk db
  lengths : Spec.Go.Lengths db
  run : Spec.Go.RunOk p
  input : p.input.length < 2 ^ 63
  code : p.code.length ≤ 2 ^ 16
  gas : p.gas ≤ 2 ^ 40
  revision : 0 ≤ p.block.revision
  hash : f.hash = keccak
  cached : ∀ C, f.cached = some C → Model.Lfvm.convert p.code true = some C

/-- Sizes of a client's state and of precompiled contracts that fit the machine. -/
structure FloriaOk (F : Floria ω) : Prop where
  chain : Spec.Go.ChainOk F.block F.tx
  code : ∀ a w, (F.db.code a w).length < 2 ^ 32
  precompile : ∀ rev a c, F.precompiles rev a = some c → ∀ input, (c.requiredGas input).toNat < 2 ^ 63 ∧ (c.run input).1.length < 2 ^ 64

/-- Account addresses of new contracts never collide with the driver's. -/
def NoDriver (F : Floria ω) : Prop :=
  (∀ a n, F.createAddress1 a n ≠ driverAddress) ∧ ∀ a s h, F.createAddress2 a s h ≠ driverAddress

/-- A transaction processed by floria on evmzero, for a client with the world state `db`. -/
structure TxSetting (P : Processor ω) (db : Db ω) (block : BlockParameters) (t : Transaction) (B : Binding)
    (find : Parameters → ω → Found ω) : Prop where
  interpreter : P.interpreter = evmzero B P.keccak find
  found : ∀ p w, FoundFor P.keccak p (find p w)
  floria : FloriaOk (P.context db block t)
  tx : Spec.Go.TxOk t

/-- A transaction processed by floria on the long-form EVM, for a client with the world state `db`, from Shanghai on (older revisions do not
limit the size of init code). -/
structure LfvmTxSetting (P : Processor ω) (db : Db ω) (block : BlockParameters) (t : Transaction) (fuel : Parameters → Nat)
    (find : Parameters → ω → Model.Lfvm.Found) : Prop where
  interpreter : P.interpreter = lfvm fuel find
  fuel : ∀ p, 2 * p.gas.toNat + 2 ≤ fuel p
  found : ∀ p w, LfvmFound P.keccak p (find p w)
  access : Spec.Go.AccessOk db
  lengths : Spec.Go.Lengths db
  code : ∀ a w, (db.code a w).length ≤ 2 ^ 16
  floria : FloriaOk (P.context db block t)
  tx : Spec.Go.TxOk t
  gas : t.gasLimit ≤ 2 ^ 40
  revision : 4 ≤ block.revision

/-- A transaction processed by floria on evmzero or on the long-form EVM. -/
inductive Supported (P : Processor ω) (db : Db ω) (block : BlockParameters) (t : Transaction) : Prop
  | evmzero {B : Binding} {find : Parameters → ω → Found ω} (h : TxSetting P db block t B find)
  | lfvm {fuel : Parameters → Nat} {find : Parameters → ω → Model.Lfvm.Found} (h : LfvmTxSetting P db block t fuel find)

/-- A call of floria on the long-form EVM within the sizes that is made for. -/
structure LfvmCallSetting (F : Floria ω) (kind : Kind) (p : CallParameters) (fuel : Parameters → Nat)
    (find : Parameters → ω → Model.Lfvm.Found) : Prop where
  interpreter : F.interpreter = lfvm fuel find
  fuel : ∀ p, 2 * p.gas.toNat + 2 ≤ fuel p
  found : ∀ p w, LfvmFound F.keccak p (find p w)
  access : Spec.Go.AccessOk F.db
  lengths : Spec.Go.Lengths F.db
  code : ∀ a w, (F.db.code a w).length ≤ 2 ^ 16
  floria : FloriaOk F
  gas : 0 ≤ p.gas ∧ p.gas ≤ 2 ^ 40
  input : p.input.length ≤ 2 ^ 30
  initCode : kind = .create ∨ kind = .create2 → p.input.length ≤ 49152
  revision : 4 ≤ F.block.revision

/-- A call of floria on evmzero or on the long-form EVM. -/
inductive CallSupported (F : Floria ω) (kind : Kind) (p : CallParameters) : Prop
  | evmzero {B : Binding} {find : Parameters → ω → Found ω} (interpreter : F.interpreter = evmzero B F.keccak find)
      (found : ∀ p w, FoundFor F.keccak p (find p w))
  | lfvm {fuel : Parameters → Nat} {find : Parameters → ω → Model.Lfvm.Found} (h : LfvmCallSetting F kind p fuel find)

end Tosca.Proofs

import Verif.Model.Memory
import Verif.Model.Sha3Cache
import Verif.Model.Opcodes

/-!
# Interpreter context (cpp/vm/evmzero/interpreter.h) and the monad of instruction bodies
-/

namespace Tosca.Model

/-- `enum class RunState` (interpreter.h:27-43). -/
inductive RunState
  | running | done | ret | revert | invalid | errorOpcode | errorGas
  | errorStackUnderflow | errorStackOverflow | errorJump | errorReturnDataCopyOutOfBounds
  | errorCall | errorCreate | errorStaticCall | errorInitCodeSizeExceeded
  deriving DecidableEq, Repr

/-- `IsSuccess` (interpreter.cc:64-68). -/
def RunState.isSuccess : RunState → Bool
  | .done | .ret | .revert => true
  | _ => false

/-- `kStackSize` (stack.h:29). -/
def kStackSize : Nat := 1024

/-- `class Stack` (stack.h:27-97): the storage block of 1024 words (`data_`, arbitrary recycled
contents) and the pointer `top_`, as an index into the block; `end_` is index 1024.  The
stack grows downwards.  The index is an integer because `RUN_OPCODE` moves the pointer even
when an instruction was rejected (interpreter.cc:2069). -/
structure Stack where
  buf : Nat → U256
  top : Int := 1024

/-- `GetSize` (stack.h:40): `uint64_t(end_ - top_)`. -/
def Stack.size (s : Stack) : Nat := (((kStackSize : Int) - s.top) % 18446744073709551616).toNat

/-- `struct Context` (interpreter.h:94-130).  `world` is the state behind `host`. -/
structure Ctx (σ : Type) where
  state : RunState := .running
  isStatic : Bool := false
  pc : Nat := 0
  gas : Int := int64Max
  gasRefunds : Int := 0
  code : List Byte := []            -- padded_code
  returnData : List Byte := []
  jumpTargets : List Byte := []     -- valid_jump_targets
  memory : Memory := {}
  stack : Stack
  message : Message := {}
  revision : Revision := ISTANBUL
  sha3 : Option Sha3Cache := none   -- sha3_cache, null or a cache shared with other executions
  world : σ

/-- What an execution depends on besides its context: the host, keccak256, and the effect a
nested `call` has on the shared SHA3 cache (the host may re-enter the same VM). -/
structure Env (σ : Type) where
  host : Host σ
  keccak : List Byte → U256
  reenter : Message → σ → Sha3Cache → Sha3Cache

/-- Instruction bodies: read and write the context, may hit UB. -/
def OpM (σ α : Type) := Ctx σ → M (α × Ctx σ)

namespace OpM
variable {σ α β : Type}

def pure (a : α) : OpM σ α := fun c => .ok (a, c)
def bind (m : OpM σ α) (f : α → OpM σ β) : OpM σ β := fun c =>
  match m c with
  | .ok (a, c') => f a c'
  | .error e => .error e

instance : Monad (OpM σ) where
  pure := OpM.pure
  bind := OpM.bind

/-- A computation that does not touch the context. -/
def lift (m : M α) : OpM σ α := fun c =>
  match m with
  | .ok a => .ok (a, c)
  | .error e => .error e

def get : OpM σ (Ctx σ) := fun c => .ok (c, c)
def modify (f : Ctx σ → Ctx σ) : OpM σ Unit := fun c => .ok ((), f c)

/-- Reading `*p` for a pointer `p` into the stack block. -/
def rd (p : Int) : OpM σ U256 := fun c =>
  if 0 ≤ p ∧ p < 1024 then .ok (c.stack.buf p.toNat, c) else .error .stackOutOfBounds

/-- Writing `*p = v` for a pointer `p` into the stack block. -/
def wr (p : Int) (v : U256) : OpM σ Unit := fun c =>
  if 0 ≤ p ∧ p < 1024 then
    .ok ((), { c with stack := { c.stack with
      buf := fun i => if i = p.toNat then v else c.stack.buf i } })
  else .error .stackOutOfBounds

/-- A host method applied to the current host state. -/
def host (f : σ → α × σ) : OpM σ α := fun c =>
  .ok ((f c.world).1, { c with world := (f c.world).2 })

/-- A memory operation that may hit UB. -/
def mem (f : Memory → M Memory) : OpM σ Unit := fun c =>
  match f c.memory with
  | .ok m => .ok ((), { c with memory := m })
  | .error e => .error e

/-- A memory operation that returns bytes and may hit UB. -/
def memRead (f : Memory → M (List Byte × Memory)) : OpM σ (List Byte) := fun c =>
  match f c.memory with
  | .ok (l, m) => .ok (l, { c with memory := m })
  | .error e => .error e

/-- `ctx.memory.GetSpan(offset, size)` (memory.h:38-41). -/
def getSpan (off len : Nat) : OpM σ Span := fun c =>
  .ok ((c.memory.getSpan off len).1, { c with memory := (c.memory.getSpan off len).2 })

/-- Reading the bytes of a span now. -/
def readSpan (s : Span) : OpM σ (List Byte) := fun c =>
  match c.memory.readSpan s with
  | .ok l => .ok (l, c)
  | .error e => .error e

end OpM

/-- `calc_memory_cost` (interpreter.cc:1900-1910). -/
def calcMemoryCost (size : Nat) : M Int :=
  match fitsU64 (size + 31) with
  | none => .ok int64Max
  | some size =>
    let w := toInt64 (size / 32)
    match fits64 (w * w) with
    | none => .ok int64Max
    | some sq => do
      let linear ← chk64 (3 * w)
      chk64 (sq.tdiv 512 + linear)

/-- `MemoryExpansionCostResult` (interpreter.h:119-127). -/
structure MemCost where
  cost : Int := 0
  offset : Nat := 0
  size : Nat := 0

/-- `Context::MemoryExpansionCost` (interpreter.cc:1878-1917) for a memory of `memSize` bytes. -/
def memoryExpansionCost (memSize : Nat) (offset size : U256) : M MemCost :=
  if size.toNat > u64Mod - 1 ∨ (offset.toNat > u64Mod - 1 ∧ size ≠ 0) then
    .ok { cost := int64Max }
  else
    let off := lo64 offset
    let sz := lo64 size
    if sz = 0 then .ok { cost := 0, offset := off, size := sz }
    else match fitsU64 (off + sz) with
      | none => .ok { cost := int64Max, offset := off, size := sz }
      | some newSize =>
        if newSize ≤ memSize then .ok { cost := 0, offset := off, size := sz }
        else do
          let a ← calcMemoryCost newSize
          let b ← calcMemoryCost memSize
          let d ← chk64 (a - b)
          pure { cost := d, offset := off, size := sz }

/-- `ctx.MemoryExpansionCost(...)` as called by instruction bodies. -/
def memCost {σ : Type} (offset size : U256) : OpM σ MemCost := fun c =>
  match memoryExpansionCost c.memory.size offset size with
  | .ok r => .ok (r, c)
  | .error e => .error e

/-- `static_cast<int64_t>((size + 31) / 32)` with `uint64_t` addition (e.g. interpreter.cc:507). -/
def minWords (size : Nat) : Int := toInt64 (((size + 31) % u64Mod) / 32)

/-- `Context::CheckJumpDest` (interpreter.cc:1857-1876); also sets `ctx.state` on failure. -/
def checkJumpDest {σ : Type} (index : U256) : OpM σ Bool := fun c =>
  if index.toNat / u64Mod ≠ 0 then .ok (false, { c with state := .errorJump })
  else
    let i := lo64 index
    if i ≥ c.jumpTargets.length then .ok (false, { c with state := .errorJump })
    else if c.jumpTargets.getD i 0 = 0 then .ok (false, { c with state := .errorJump })
    else .ok (true, c)

end Tosca.Model

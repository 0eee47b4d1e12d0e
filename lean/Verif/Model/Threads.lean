import Verif.Model.Vm

/-!
# Several threads calling `Execute` on one VM

The calls share the analysis cache, the SHA3 cache and the free list of stack blocks.  `Get` and
`InsertOrAssign` of the caches (lru_cache.h:37-65) and `Data::Get` and `Data::Release` of the free
list (stack.cc:68-82) hold a mutex for their whole body; everything else an `Execute` call touches
belongs to it alone.  An atomic action is one such critical section together with the thread-local
work next to it, so every interleaving of critical sections is a schedule.  A host method is one
action of its thread; executions that the host starts for it are further threads.  The options do
not change meanwhile (`SetOption` is not synchronised), and the calls run without observer.

Simplification: a stack block is its contents; that a block never has two owners is C34.
-/

namespace Tosca.Model.Threads

open OpM

variable {σ : Type}

/-- The arguments of one `Execute` call (evmzero.cc:124-127). -/
structure Job (σ : Type) where
  env : Env σ
  code : List Byte
  message : Message
  revision : Revision
  world : σ

/-- What the threads share: the VM and the free stack blocks (stack.cc:65). -/
structure Shared where
  vm : Vm
  free : List (Nat → U256)

/-- Where a thread is. -/
inductive Phase (σ : Type)
  | idle
  | analysing (job : Job σ) (hash : U256) (info : ContractInfo)  -- `Get` found nothing (lru_cache.h:72-75)
  | starting (job : Job σ) (info : ContractInfo)                  -- about to build the context
  | running (job : Job σ) (l : Loc) (c : Ctx σ)
  | hashing (job : Job σ) (l : Loc) (c : Ctx σ) (key : List Byte) -- inside SHA3, `Get` found nothing

/-- A thread: the next call it makes, given the results so far (latest first), where it is, and the
results so far. -/
structure Thread (σ : Type) where
  prog : List (EvmcResult × σ) → Option (Job σ)
  phase : Phase σ := .idle
  done : List (EvmcResult × σ) := []

/-- `op::sha3` up to the call of `Hash` (interpreter.cc:499-517): its argument, if it gets there. -/
def sha3Key (top gas : Int) : OpM σ (Option (List Byte)) := do
  let offset ← rd (top + 0)
  let size ← rd (top + 1)
  let mc ← memCost offset size
  match Ops.checkedCost 6 (minWords mc.size) mc.cost with
  | none => return none
  | some dynamicGas =>
    if gas < dynamicGas then return none
    else
      let span ← getSpan mc.offset mc.size
      let bytes ← readSpan span
      return some bytes

/-- The argument of the `Hash` call of the next instruction, if it makes one: it is a SHA3 that
passes the checks of `Run` (interpreter.cc:1938-1963). -/
def nextHash (l : Loc) (c : Ctx σ) : Option (List Byte) :=
  match fetch c.code l.pc with
  | .error _ => none
  | .ok b =>
    if dispatch b = .SHA3 ∧ ¬ l.size < 2 ∧ ¬ l.gas < OpCode.SHA3.info.staticGas then
      match sha3Key l.top (l.gas - OpCode.SHA3.info.staticGas) c with
      | .ok (r, _) => r
      | .error _ => none
    else none

/-- `Get` on the member of the SHA3 cache for the length of the key (sha3_cache.h:32-45). -/
def sha3Get (s : Sha3Cache) (key : List Byte) : M (Option U256 × Sha3Cache) :=
  if key.length = 32 then do
    let (r, c) ← Lru.get s.cache32 key
    return (r, { s with cache32 := c })
  else do
    let (r, c) ← Lru.get s.cache64 key
    return (r, { s with cache64 := c })

/-- `InsertOrAssign` on the member of the SHA3 cache for the length of the key
(sha3_cache.h:32-45). -/
def sha3Insert (s : Sha3Cache) (key : List Byte) (v : U256) : M (U256 × Sha3Cache) :=
  if key.length = 32 then do
    let (r, c) ← Lru.insertOrAssign s.cache32 key v
    return (r, { s with cache32 := c })
  else do
    let (r, c) ← Lru.insertOrAssign s.cache64 key v
    return (r, { s with cache64 := c })

/-- The pass through the loop body (`execOne`) of a SHA3 instruction whose `Hash` call returned
`v`: without a cache, the instruction writes what the hash function returns.  Between the actions
of a thread the cache pointer of its context is left out (null). -/
def finishHash (job : Job σ) (l : Loc) (c : Ctx σ) (v : U256) : M (Loc × Ctx σ) := do
  let (l, c, _) ← execOne { job.env with keccak := fun _ => v } noObserver false l { c with sha3 := none } ()
  return (l, { c with sha3 := none })

/-- A pass through the loop body (`execOne`) in one action. -/
def wholeStep (job : Job σ) (l : Loc) (c : Ctx σ) (vm : Vm) : M (Loc × Ctx σ × Vm) := do
  let (l, c, _) ← execOne job.env noObserver false l
    { c with sha3 := if vm.options.sha3Cache then some vm.sha3Cache else none } ()
  return (l, { c with sha3 := none }, vm.putSha3 c.sha3)

/-- The `evmc_result` made of the final context (interpreter.cc:2087-2120, evmzero.cc:158-173). -/
def result (l : Loc) (c : Ctx σ) : EvmcResult × σ :=
  let c := epilogue false l c
  ({ status := toEvmcStatusCode c.state, gasLeft := c.gas, gasRefund := c.gasRefunds, output := c.returnData }, c.world)

/-- The locals at the start of `RunInterpreter` (interpreter.cc:2011-2021). -/
def startLocals (c : Ctx σ) : Loc :=
  { state := c.state, pc := some 0, gas := c.gas, top := c.stack.top, size := c.stack.size }

/-- The next action of a thread.  `fresh` is the indeterminate content of a new stack block, if one
is allocated (stack.h:70, 85-88). -/
def Thread.act (fresh : Nat → U256) (t : Thread σ) (sh : Shared) : M (Thread σ × Shared) :=
  match t.phase with
  | .idle =>
    match t.prog t.done with
    | none => .ok (t, sh)
    | some job =>
      -- evmzero.cc:129-135
      match job.message.codeHash with
      | some h =>
        if sh.vm.options.analysisCache ∧ h ≠ 0 then do
          let (r, cc) ← Lru.get sh.vm.contractInfoCache h
          let sh := { sh with vm := { sh.vm with contractInfoCache := cc } }
          match r with
          | some info => return ({ t with phase := .starting job info }, sh)
          | none => return ({ t with phase := .analysing job h (computeContractInfo job.code) }, sh)
        else return ({ t with phase := .starting job (computeContractInfo job.code) }, sh)
      | none => return ({ t with phase := .starting job (computeContractInfo job.code) }, sh)
  | .analysing job h info => do
    let (r, cc) ← Lru.insertOrAssign sh.vm.contractInfoCache h info
    return ({ t with phase := .starting job r }, { sh with vm := { sh.vm with contractInfoCache := cc } })
  | .starting job info =>
    -- the `Stack` of the context takes a free block or allocates one (stack.cc:68-76)
    let (buf, free) := match sh.free with
      | [] => (fresh, [])
      | b :: rest => (b, rest)
    let c := initialCtx { sh.vm.args info job.message job.revision with sha3 := none } buf job.world
    .ok ({ t with phase := .running job (startLocals c) c }, { sh with free := free })
  | .running job l c =>
    if l.state = .running then
      let key := if sh.vm.options.sha3Cache then nextHash l c else none
      match key with
      | some key =>
        if key.length = 32 ∨ key.length = 64 then do
          let (r, s) ← sha3Get sh.vm.sha3Cache key
          let sh := { sh with vm := { sh.vm with sha3Cache := s } }
          match r with
          | some v => do
            let (l, c) ← finishHash job l c v
            return ({ t with phase := .running job l c }, sh)
          | none => return ({ t with phase := .hashing job l c key }, sh)
        else do
          let (l, c, vm) ← wholeStep job l c sh.vm
          return ({ t with phase := .running job l c }, { sh with vm := vm })
      | none => do
        let (l, c, vm) ← wholeStep job l c sh.vm
        return ({ t with phase := .running job l c }, { sh with vm := vm })
    else
      -- the result is built and the stack block released (stack.cc:32-36, 78-82)
      .ok ({ t with phase := .idle, done := result l c :: t.done }, { sh with free := c.stack.buf :: sh.free })
  | .hashing job l c key => do
    let (v, s) ← sha3Insert sh.vm.sha3Cache key (job.env.keccak key)
    let (l, c) ← finishHash job l c v
    return ({ t with phase := .running job l c }, { sh with vm := { sh.vm with sha3Cache := s } })

/-- Running threads under a schedule: each element names the thread that acts next and the contents
a newly allocated stack block would have. -/
def runAll (ts : Nat → Thread σ) (sh : Shared) : List (Nat × (Nat → U256)) → M ((Nat → Thread σ) × Shared)
  | [] => .ok (ts, sh)
  | (i, fresh) :: sched => do
    let (t, sh) ← (ts i).act fresh sh
    runAll (fun j => if j = i then t else ts j) sh sched

end Tosca.Model.Threads

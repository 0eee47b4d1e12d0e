import Verif.Model.LfvmCode
import Verif.Model.GoValue
import Verif.Model.GoBridge

/-!
# The long-form EVM (go/interpreter/lfvm): context, stack, memory, instructions

A Go panic (an index out of range) is `panic`; every error value is `err` (`execute`, interpreter.go:170-176, maps all
of them to a failed run).  A Go pointer to a stack slot that is only read before the next push is represented by its
value.  Machine integers: gas is `int64` (`i64` wraps), sizes are `uint64` (`BitVec 64`), words are `uint256.Int`
(the third-party package github.com/holiman/uint256, taken to compute on 256-bit words as documented).
-/

namespace Tosca.Model.Lfvm

open Tosca.Go Tosca.Model.Go

variable {ω : Type}

/-- What stays fixed in a `context` (interpreter.go:37-56): the parameters, the run context (database and `Call`), the
converted code, and the hash function of `opSha3`. -/
structure Env (ω : Type) where
  db : Db ω
  call : CallFn ω
  params : Parameters
  code : Code
  hash : List Byte → U256

/-- The changing part of a `context` (interpreter.go:37-56), its stack (stack.go:41-44) and memory (memory.go:18-21).
`data` is the array of 1024 words; indices out of range are caught where it is used. -/
structure St (ω : Type) where
  pc : Int := 0
  gas : Int
  refund : Int := 0
  data : Nat → U256
  sp : Int := 0
  store : List Byte := []
  memCost : Int := 0
  returnData : List Byte := []
  world : ω

/-- Outcome of a piece of code: a value, an error value, or a panic. -/
inductive Res (ω : Type) (α : Type)
  | ok (a : α) (s : St ω)
  | err (s : St ω)
  | panic

/-- Code working on a context. -/
def M (ω : Type) (α : Type) := St ω → Res ω α

instance : Monad (M ω) where
  pure a := fun s => .ok a s
  bind m f := fun s => match m s with
    | .ok a s => f a s
    | .err s => .err s
    | .panic => .panic

def getSt : M ω (St ω) := fun s => .ok s s
def setSt (s : St ω) : M ω Unit := fun _ => .ok () s
def error {α : Type} : M ω α := fun s => .err s
def crash {α : Type} : M ω α := fun _ => .panic

/-- Reading the client's state. -/
def readDb {α : Type} (f : ω → α) : M ω α := fun s => .ok (f s.world) s
/-- An operation of the client. -/
def askDb {α : Type} (f : ω → α × ω) : M ω α := fun s => .ok (f s.world).1 { s with world := (f s.world).2 }

/-- `useGas` (interpreter.go:61-67). -/
def useGas (amount : Int) : M ω Unit := fun s =>
  if s.gas < 0 ∨ amount < 0 ∨ s.gas < amount then .err s else .ok () { s with gas := i64 (s.gas - amount) }

/-- `isAtLeast` (interpreter.go:71-73). -/
def Env.isAtLeast (E : Env ω) (r : Int) : Bool := decide (E.params.block.revision ≥ r)

/-- Revisions (go/tosca/interpreter.go). -/
def R09_Berlin : Int := 1
def R10_London : Int := 2
def R12_Shanghai : Int := 4
def R13_Cancun : Int := 5

/-! ## Stack (stack.go) -/

/-- `maxStackSize` (stack.go:21). -/
def maxStackSize : Int := 1024

/-- `s.data[i]`. -/
def slot (i : Int) : M ω U256 := fun s =>
  if 0 ≤ i ∧ i < maxStackSize then .ok (s.data i.toNat) s else .panic

/-- `s.data[i] = v`. -/
def setSlot (i : Int) (v : U256) : M ω Unit := fun s =>
  if 0 ≤ i ∧ i < maxStackSize then .ok () { s with data := fun j => if j = i.toNat then v else s.data j } else .panic

/-- `s.stackPointer += d`. -/
def moveSp (d : Int) : M ω Unit := fun s => .ok () { s with sp := s.sp + d }

/-- `pop` (stack.go:63-66). -/
def pop : M ω U256 := do
  moveSp (-1)
  slot (← getSt).sp

/-- `peekN` (stack.go:77-79). -/
def peekN (n : Int) : M ω U256 := do slot ((← getSt).sp - n - 1)

/-- `peek` (stack.go:70-72). -/
def peek : M ω U256 := do slot ((← getSt).sp - 1)

/-- Writing through the pointer returned by `peekN`. -/
def setN (n : Int) (v : U256) : M ω Unit := do setSlot ((← getSt).sp - n - 1) v

/-- Writing through the pointer returned by `peek`. -/
def setTop (v : U256) : M ω Unit := do setSlot ((← getSt).sp - 1) v

/-- `pushUndefined` (stack.go:55-58) and writing through the returned pointer; also `push` (stack.go:47-50). -/
def pushV (v : U256) : M ω Unit := do
  moveSp 1
  setSlot ((← getSt).sp - 1) v

/-- `swap` (stack.go:88-90). -/
def swap (n : Int) : M ω Unit := do
  let len := (← getSt).sp
  let a ← slot (len - 1)
  let b ← slot (len - n - 1)
  setSlot (len - n - 1) a
  setSlot (len - 1) b

/-- `dup` (stack.go:94-97). -/
def dup (n : Int) : M ω Unit := do
  let sp := (← getSt).sp
  let v ← slot (sp - n - 1)
  setSlot sp v
  moveSp 1

/-! ## 256-bit words (github.com/holiman/uint256) -/

/-- `IsUint64`. -/
def isUint64 (v : U256) : Bool := decide (v.toNat < 2 ^ 64)
/-- `Uint64`. -/
def uint64 (v : U256) : BitVec 64 := v.setWidth 64
/-- `SetUint64`. -/
def ofU64 (x : BitVec 64) : U256 := x.setWidth 256
/-- `Bytes32`. -/
def bytes32 (v : U256) : List Byte := (List.range 32).map fun i => (v >>> (8 * (31 - i))).setWidth 8
/-- `SetBytes`. -/
def setBytes (l : List Byte) : U256 := l.foldl (fun acc b => (acc <<< 8) ||| b.setWidth 256) 0
/-- `ByteLen`. -/
def byteLen (v : U256) : Nat := if v = 0 then 0 else v.toNat.log2 / 8 + 1
/-- `Exp`, by squaring. -/
def expW : Nat → U256 → U256 → U256 → U256
  | 0, _, _, acc => acc
  | fuel + 1, base, e, acc =>
    if e = 0 then acc else expW fuel (base * base) (e >>> 1) (if e.getLsbD 0 then acc * base else acc)

/-! ## Memory (memory.go) -/

/-- `maxMemoryExpansionSize` (memory.go:30). -/
def maxMemoryExpansionSize : BitVec 64 := 0x1FFFFFFFE0

/-- `Memory.length` (memory.go:95-97). -/
def memLength (s : St ω) : BitVec 64 := BitVec.ofNat 64 s.store.length

/-- `getExpansionCostsAndSize` (memory.go:37-63). -/
def getExpansionCostsAndSize (size : BitVec 64) : M ω (Int × BitVec 64) := fun s =>
  if memLength s ≥ size then .ok (0, memLength s) s
  else
    let words := sizeInWords size
    let validSize := words * 32
    if validSize < size then .err s
    else if validSize > maxMemoryExpansionSize then .err s
    else
      let newCosts := s64 ((words * words).udiv 512 + 3 * words)
      .ok (i64 (newCosts - s.memCost), validSize) s

/-- `expandMemory` (memory.go:69-93). -/
def expandMemory (offset size : BitVec 64) : M ω Unit := do
  if size = 0 then pure ()
  else
    let needed := offset + size
    if needed < offset then error
    else if memLength (← getSt) < needed then do
      let (fee, expandedSize) ← getExpansionCostsAndSize needed
      useGas fee
      let s ← getSt
      setSt { s with
        memCost := i64 (s.memCost + fee)
        store := s.store ++ List.replicate (expandedSize - memLength s).toNat 0 }
    else pure ()

/-- A Go slice of the memory's bytes.  The backing array may be replaced when the memory grows, but the bytes of the
slice stay the same until they are written, and no slice is written after a later growth. -/
structure View where
  off : Nat
  len : Nat

/-- `getSlice` (memory.go:103-118); nil is the empty view. -/
def getSlice (offset size : U256) : M ω View := do
  if size = 0 then pure ⟨0, 0⟩
  else if isUint64 offset = false ∨ isUint64 size = false then error
  else
    let offset64 := uint64 offset
    let size64 := uint64 size
    expandMemory offset64 size64
    if (offset64 + size64).toNat ≤ (← getSt).store.length ∧ offset64 ≤ offset64 + size64 then
      pure ⟨offset64.toNat, size64.toNat⟩
    else crash

/-- The bytes of a view. -/
def readView (v : View) : M ω (List Byte) := fun s => .ok ((s.store.drop v.off).take v.len) s

/-- Go's `copy(view, bytes)`. -/
def copyTo (v : View) (bytes : List Byte) : M ω Unit := fun s =>
  let n := min v.len bytes.length
  .ok () { s with store := s.store.take v.off ++ bytes.take n ++ s.store.drop (v.off + n) }

/-- `set` (memory.go:137-144). -/
def memSet (offset : U256) (value : List Byte) : M ω Unit := do
  let view ← getSlice offset (ofU64 (BitVec.ofNat 64 value.length))
  copyTo view value

/-- `readWord` (memory.go:125-132); the word read. -/
def readWord (offset : U256) : M ω U256 := do
  let view ← getSlice offset 32
  return setBytes (← readView view)

/-! ## Instructions (instructions.go) -/

/-- `status` (interpreter.go:22-31). -/
inductive Status
  | running | stopped | reverted | returned | selfDestructed | failed
  deriving DecidableEq, Repr

/-- `opEndWithResult` (instructions.go:25-31). -/
def opEndWithResult : M ω Unit := do
  let offset ← pop
  let size ← pop
  let view ← getSlice offset size
  let out ← readView view
  setSt { (← getSt) with returnData := out }

/-- `c.code[c.pc + k]`. -/
def instrAt (E : Env ω) (k : Int) : M ω Instruction := do
  let pc := (← getSt).pc + k
  if 0 ≤ pc then
    match E.code[pc.toNat]? with
    | some i => pure i
    | none => crash
  else crash

/-- `c.code[c.pc + k].arg`. -/
def argAt (E : Env ω) (k : Int) : M ω (BitVec 16) := do return (← instrAt E k).arg

/-- `opPc` (instructions.go:33-35). -/
def opPc (E : Env ω) : M ω Unit := do
  let arg ← argAt E 0
  pushV (ofU64 (arg.setWidth 64))

/-- `checkJumpDest` (instructions.go:37-42).  `c.pc+1` is an `int32` and wraps around. -/
def checkJumpDest (E : Env ω) : M ω Unit := do
  let next := ((← getSt).pc + 1).bmod (2 ^ 32)
  if next ≥ E.code.length then error
  else if 0 ≤ next then
    if (E.code.getD next.toNat {}).opcode = Op.JUMPDEST then pure () else error
  else crash

/-- Setting the program counter (an `int32`) to a 16-bit or 31-bit number minus one: it does not wrap around. -/
def setPc (pc : Int) : M ω Unit := do setSt { (← getSt) with pc := pc }

/-- Both conditions of the overflow check in `opJump` and `opJumpi` (instructions.go:47, 60). -/
def farJump (destination : U256) : Bool := !isUint64 destination || decide ((uint64 destination).toNat > 2147483647)

/-- `opJump` (instructions.go:44-53). -/
def opJump (E : Env ω) : M ω Unit := do
  let destination ← pop
  if farJump destination = true then error
  else
    setPc ((uint64 destination).toNat - 1)
    checkJumpDest E

/-- `opJumpi` (instructions.go:55-68). -/
def opJumpi (E : Env ω) : M ω Unit := do
  let destination ← pop
  let condition ← pop
  if condition ≠ 0 then
    if farJump destination = true then error
    else
      setPc ((uint64 destination).toNat - 1)
      checkJumpDest E
  else pure ()

/-- `opJumpTo` (instructions.go:70-73). -/
def opJumpTo (E : Env ω) : M ω Unit := do
  let arg ← argAt E 0
  setPc (arg.toNat - 1)

/-- `c.code[c.pc : c.pc+n]`. -/
def codeSlice (E : Env ω) (n : Nat) : M ω (List Instruction) := do
  let pc := (← getSt).pc
  if 0 ≤ pc ∧ pc + n ≤ E.code.length then pure ((E.code.drop pc.toNat).take n) else crash

/-- Byte `i` of the data packed in the arguments (instructions.go:86-91). -/
def packedByte (data : List Instruction) (i : Nat) : Byte :=
  if i % 2 = 0 then ((data.getD (i / 2) {}).arg >>> 8).setWidth 8 else (data.getD (i / 2) {}).arg.setWidth 8

/-- `opPush` (instructions.go:79-95). -/
def opPush (E : Env ω) (n : Nat) : M ω Unit := do
  let num := n / 2 + n % 2
  let data ← codeSlice E num
  pushV (setBytes ((List.range n).map (packedByte data)))
  setPc ((← getSt).pc + (num - 1))

/-- `opPush0` (instructions.go:97-104). -/
def opPush0 (E : Env ω) : M ω Unit := do
  if E.isAtLeast R12_Shanghai = false then error else pushV 0

/-- `opPush1` (instructions.go:106-110). -/
def opPush1 (E : Env ω) : M ω Unit := do
  let arg ← argAt E 0
  pushV (ofU64 ((arg >>> 8).setWidth 64))

/-- `opPush2` (instructions.go:112-116). -/
def opPush2 (E : Env ω) : M ω Unit := do
  let arg ← argAt E 0
  pushV (ofU64 (arg.setWidth 64))

/-- The argument of instruction `i` of a slice as a `uint64`. -/
def arg64 (data : List Instruction) (i : Nat) : BitVec 64 := (data.getD i {}).arg.setWidth 64

/-- `opPush3` (instructions.go:118-125). -/
def opPush3 (E : Env ω) : M ω Unit := do
  let data ← codeSlice E 2
  pushV (ofU64 ((arg64 data 0 <<< 8) ||| (((data.getD 1 {}).arg >>> 8).setWidth 64)))
  setPc ((← getSt).pc + 1)

/-- `opPush4` (instructions.go:127-135). -/
def opPush4 (E : Env ω) : M ω Unit := do
  let data ← codeSlice E 2
  pushV (ofU64 ((arg64 data 0 <<< 16) ||| arg64 data 1))
  setPc ((← getSt).pc + 1)

/-- Four arguments as one of the four 64-bit parts of a word (instructions.go:142-145). -/
def quad (data : List Instruction) (i : Nat) : BitVec 64 :=
  (arg64 data i <<< 48) ||| (arg64 data (i + 1) <<< 32) ||| (arg64 data (i + 2) <<< 16) ||| arg64 data (i + 3)

/-- `opPush32` (instructions.go:137-147). -/
def opPush32 (E : Env ω) : M ω Unit := do
  let data ← codeSlice E 16
  pushV (quad data 0 ++ quad data 4 ++ quad data 8 ++ quad data 12)
  setPc ((← getSt).pc + 15)

/-- `opMstore` (instructions.go:157-162). -/
def opMstore : M ω Unit := do
  let addr ← pop
  let value ← pop
  memSet addr (bytes32 value)

/-- `opMstore8` (instructions.go:164-168). -/
def opMstore8 : M ω Unit := do
  let addr ← pop
  let value ← pop
  memSet addr [(uint64 value).setWidth 8]

/-- `opMcopy` (instructions.go:170-196). -/
def opMcopy (E : Env ω) : M ω Unit := do
  if E.isAtLeast R13_Cancun = false then error
  else
    let destAddr ← pop
    let srcAddr ← pop
    let size ← pop
    let view ← getSlice srcAddr size
    let price := s64 (3 * sizeInWords (uint64 size))
    useGas price
    let data ← readView view
    memSet destAddr data

/-- `opMload` (instructions.go:198-201). -/
def opMload : M ω Unit := do
  let addr ← peek
  let v ← readWord addr
  setTop v

/-- `opMsize` (instructions.go:203-205). -/
def opMsize : M ω Unit := do
  let len := memLength (← getSt)
  pushV (ofU64 len)

/-- `getDynamicCostsForSstore` (gas.go:238-258). -/
def getDynamicCostsForSstore (revision : Int) : StorageStatus → Int
  | .added => 20000
  | .modified | .deleted => if revision ≥ R09_Berlin then 2900 else 5000
  | _ => if revision ≥ R09_Berlin then 100 else 800

/-- `getRefundForSstore` (gas.go:260-296). -/
def getRefundForSstore (revision : Int) : StorageStatus → Int
  | .deleted | .modifiedDeleted => if revision ≥ R10_London then 4800 else 15000
  | .deletedAdded => if revision ≥ R10_London then -4800 else -15000
  | .deletedRestored =>
    if revision ≥ R10_London then -4800 + 5000 - 2100 - 100
    else if revision ≥ R09_Berlin then -15000 + 5000 - 2100 - 100
    else -15000 + 4200
  | .addedDeleted => if revision ≥ R09_Berlin then 19900 else 19200
  | .modifiedRestored => if revision ≥ R09_Berlin then 5000 - 2100 - 100 else 4200
  | _ => 0

/-- `c.refund += x`. -/
def addRefund (x : Int) : M ω Unit := do
  let s ← getSt
  setSt { s with refund := i64 (s.refund + x) }

/-- `c.gas += x`. -/
def addGas (x : Int) : M ω Unit := do
  let s ← getSt
  setSt { s with gas := i64 (s.gas + x) }

def setReturnData (l : List Byte) : M ω Unit := do
  let s ← getSt
  setSt { s with returnData := l }

/-- The surcharge for a cold slot in `opSstore` (instructions.go:222-226). -/
def slotSurcharge (E : Env ω) (key : U256) : M ω Int :=
  if E.isAtLeast R09_Berlin = true then do
    let st ← askDb (E.db.accessStorage E.params.recipient key)
    pure (if st = .cold then 2100 else 0)
  else pure 0

/-- `opSstore` (instructions.go:207-237). -/
def opSstore (E : Env ω) : M ω Unit := do
  if E.params.static = true then error
  else if (← getSt).gas ≤ 2300 then error
  else
    let key ← pop
    let value ← pop
    let surcharge ← slotSurcharge E key
    let storageStatus ← askDb (E.db.setStorage E.params.recipient key value)
    useGas (surcharge + getDynamicCostsForSstore E.params.block.revision storageStatus)
    addRefund (getRefundForSstore E.params.block.revision storageStatus)

/-- The charge of `opSload` for the access to the slot (instructions.go:244-253). -/
def chargeSlot (E : Env ω) (slot : U256) : M ω Unit :=
  if E.isAtLeast R09_Berlin = true then do
    let st ← askDb (E.db.accessStorage E.params.recipient slot)
    useGas (if st = .cold then 2100 else 100)
  else pure ()

/-- `opSload` (instructions.go:239-257). -/
def opSload (E : Env ω) : M ω Unit := do
  let slot ← peek
  chargeSlot E slot
  let value ← readDb (E.db.storage E.params.recipient slot)
  setTop value

/-- `opTstore` (instructions.go:259-276). -/
def opTstore (E : Env ω) : M ω Unit := do
  if E.isAtLeast R13_Cancun = false then error
  else if E.params.static = true then error
  else
    let key ← pop
    let value ← pop
    askDb fun w => ((), E.db.setTransient E.params.recipient key value w)

/-- `opTload` (instructions.go:278-288). -/
def opTload (E : Env ω) : M ω Unit := do
  if E.isAtLeast R13_Cancun = false then error
  else
    let key ← peek
    let value ← readDb (E.db.transient E.params.recipient key)
    setTop value

/-- `getData` (instructions.go:873-897). -/
def getData (data : List Byte) (offset : U256) (size : BitVec 64) : List Byte :=
  if size = 0 then []
  else if isUint64 offset = false ∨ (uint64 offset).toNat ≥ data.length then List.replicate size.toNat 0
  else
    let start := (uint64 offset).toNat
    let stop := min ((uint64 offset + size).toNat) data.length
    let part := (data.drop start).take (stop - start)
    part.take size.toNat ++ List.replicate (size.toNat - part.length) 0

/-- `opCallDataload` (instructions.go:303-307). -/
def opCallDataload (E : Env ω) : M ω Unit := do
  let off ← peek
  setTop (setBytes (getData E.params.input off 32))

/-- `genericDataCopy` (instructions.go:309-331). -/
def genericDataCopy (source : List Byte) : M ω Unit := do
  let memOffset ← pop
  let dataOffset ← pop
  let length ← pop
  let words := sizeInWords (uint64 length)
  useGas (s64 (3 * words))
  let view ← getSlice memOffset length
  copyTo view (getData source dataOffset (uint64 length))

/-- The binary operators `a := pop(); b := peek(); b.Op(a, b)` (instructions.go:333-520). -/
def binary (f : U256 → U256 → U256) : M ω Unit := do
  let a ← pop
  let b ← peek
  setTop (f a b)

/-- `SetOne` or `Clear`. -/
def flag (b : Bool) : U256 := if b then 1 else 0

def wAnd (a b : U256) : U256 := a &&& b
def wOr (a b : U256) : U256 := a ||| b
def wXor (a b : U256) : U256 := a ^^^ b
/-- `opEq` (instructions.go:364-376): `Cmp` is 0. -/
def wEq (a b : U256) : U256 := flag (a == b)
def wLt (a b : U256) : U256 := flag (a.ult b)
def wGt (a b : U256) : U256 := flag (b.ult a)
def wSlt (a b : U256) : U256 := flag (a.slt b)
def wSgt (a b : U256) : U256 := flag (b.slt a)
/-- `opShr` (instructions.go:418-426). -/
def wShr (a b : U256) : U256 := if a.toNat < 256 then b >>> (uint64 a).toNat else 0
/-- `opShl` (instructions.go:428-436). -/
def wShl (a b : U256) : U256 := if a.toNat < 256 then b <<< (uint64 a).toNat else 0
/-- `opSar` (instructions.go:438-450). -/
def wSar (a b : U256) : U256 :=
  if a.toNat > 256 then (if b.msb then BitVec.allOnes 256 else 0) else b.sshiftRight (uint64 a).toNat
/-- `ExtendSign` (used in instructions.go:452-455). -/
def wSignExtend (back num : U256) : U256 :=
  if back.toNat > 30 then num else (num.setWidth (8 * (back.toNat + 1))).signExtend 256
/-- `Byte` (used in instructions.go:457-460). -/
def wByte (th val : U256) : U256 :=
  if th.toNat < 32 then ((val >>> (8 * (31 - th.toNat))).setWidth 8 : Byte).setWidth 256 else 0
def wAdd (a b : U256) : U256 := a + b
def wSub (a b : U256) : U256 := a - b
def wMul (a b : U256) : U256 := a * b
/-- `Div` is 0 for divisor 0. -/
def wDiv (a b : U256) : U256 := a.udiv b
def wSDiv (a b : U256) : U256 := if b = 0 then 0 else a.sdiv b
/-- `Mod` is 0 for divisor 0. -/
def wMod (a b : U256) : U256 := if b = 0 then 0 else a.umod b
def wSMod (a b : U256) : U256 := if b = 0 then 0 else a.srem b
/-- `AddMod`: the sum is not truncated. -/
def wAddMod (a b n : U256) : U256 :=
  if n = 0 then 0 else (((a.setWidth 512 + b.setWidth 512).umod (n.setWidth 512)).setWidth 256)
/-- `MulMod`: the product is not truncated. -/
def wMulMod (a b n : U256) : U256 :=
  if n = 0 then 0 else (((a.setWidth 512 * b.setWidth 512).umod (n.setWidth 512)).setWidth 256)

/-- `opMulMod`, `opAddMod` (instructions.go:480-485, 505-510). -/
def ternary (f : U256 → U256 → U256 → U256) : M ω Unit := do
  let a ← pop
  let b ← pop
  let n ← peek
  setTop (f a b n)

/-- `opNot`, `opIszero` (instructions.go:345-348, 355-362). -/
def unary (f : U256 → U256) : M ω Unit := do
  let a ← peek
  setTop (f a)

/-- `opExp` (instructions.go:518-525). -/
def opExp : M ω Unit := do
  let base ← pop
  let exponent ← peek
  useGas (50 * byteLen exponent)
  setTop (expW 256 base exponent 1)

/-- `opSha3` (instructions.go:530-554); the hash cache is modelled in `Verif/Model/HashCache`. -/
def opSha3 (E : Env ω) : M ω Unit := do
  let offset ← pop
  let size ← peek
  let view ← getSlice offset size
  let words := sizeInWords (uint64 size)
  useGas (s64 (6 * words))
  let data ← readView view
  setTop (E.hash data)

/-- `getAccessCost` (instructions.go:912-919). -/
def getAccessCost (st : AccessStatus) : Int := if st = .cold then 2600 else 100

/-- Charging for the access to an account from Berlin on (e.g. instructions.go:594-598). -/
def chargeAccess (E : Env ω) (a : Address) : M ω Unit :=
  if E.isAtLeast R09_Berlin = true then do
    let st ← askDb (E.db.accessAccount a)
    useGas (getAccessCost st)
  else pure ()

/-- `Bytes20`. -/
def bytes20 (v : U256) : Address := v.setWidth 160
/-- `SetBytes20`. -/
def ofBytes20 (a : Address) : U256 := a.setWidth 256

/-- `opBalance` (instructions.go:591-602). -/
def opBalance (E : Env ω) : M ω Unit := do
  let slot ← peek
  chargeAccess E (bytes20 slot)
  setTop (← readDb (E.db.balance (bytes20 slot)))

/-- `opSelfbalance` (instructions.go:604-607). -/
def opSelfbalance (E : Env ω) : M ω Unit := do
  pushV (← readDb (E.db.balance E.params.recipient))

/-- `opBaseFee` (instructions.go:609-616). -/
def opBaseFee (E : Env ω) : M ω Unit := do
  if E.isAtLeast R10_London = false then error else pushV E.params.block.baseFee

/-- `opBlobHash` (instructions.go:618-631). -/
def opBlobHash (E : Env ω) : M ω Unit := do
  if E.isAtLeast R13_Cancun = false then error
  else
    let index ← pop
    let length : BitVec 64 := BitVec.ofNat 64 E.params.tx.blobHashes.length
    if isUint64 index = true ∧ uint64 index < length then pushV (E.params.tx.blobHashes.getD (uint64 index).toNat 0)
    else pushV 0

/-- `opBlobBaseFee` (instructions.go:633-640). -/
def opBlobBaseFee (E : Env ω) : M ω Unit := do
  if E.isAtLeast R13_Cancun = false then error else pushV E.params.block.blobBaseFee

/-- `selfDestructNewAccountCost` (instructions.go:674-682). -/
def selfDestructNewAccountCost (beneficiaryEmpty : Bool) (balance : U256) : Int :=
  if beneficiaryEmpty = true ∧ balance ≠ 0 then 25000 else 0

/-- `selfDestructRefund` (instructions.go:684-690). -/
def selfDestructRefund (destructed : Bool) (revision : Int) : Int :=
  if destructed = true ∧ revision < R10_London then 24000 else 0

/-- The access cost in `opSelfdestruct` (instructions.go:650-658). -/
def beneficiaryCost (E : Env ω) (beneficiary : Address) : M ω Int :=
  if E.isAtLeast R09_Berlin = true then do
    let st ← askDb (E.db.accessAccount beneficiary)
    pure (if st ≠ .warm then getAccessCost st else 0)
  else pure 0

/-- `opSelfdestruct` (instructions.go:642-672). -/
def opSelfdestruct (E : Env ω) : M ω Unit := do
  if E.params.static = true then error
  else
    let beneficiary := bytes20 (← pop)
    let cost ← beneficiaryCost E beneficiary
    let empty ← readDb (isEmpty E.db beneficiary)
    let balance ← readDb (E.db.balance E.params.recipient)
    useGas (cost + selfDestructNewAccountCost empty balance)
    let destructed ← askDb (E.db.selfDestruct E.params.recipient beneficiary)
    addRefund (selfDestructRefund destructed E.params.block.revision)

/-- `opBlockhash` (instructions.go:697-719). -/
def opBlockhash (E : Env ω) : M ω Unit := do
  let top ← peek
  let requested := uint64 top
  let current := u64 E.params.block.blockNumber
  if isUint64 top = false ∨ requested ≥ current then setTop 0
  else
    let oldest := current - (if current < 256 then current else 256)
    if requested < oldest then setTop 0
    else setTop (← readDb (E.db.blockHash (s64 requested)))

/-- `opExtcodesize` (instructions.go:735-745). -/
def opExtcodesize (E : Env ω) : M ω Unit := do
  let top ← peek
  chargeAccess E (bytes20 top)
  let size ← readDb (E.db.codeSize (bytes20 top))
  setTop (ofU64 (BitVec.ofNat 64 size))

/-- `opExtcodehash` (instructions.go:747-763). -/
def opExtcodehash (E : Env ω) : M ω Unit := do
  let slot ← peek
  chargeAccess E (bytes20 slot)
  let empty ← readDb (isEmpty E.db (bytes20 slot))
  if empty = true then setTop 0
  else setTop (← readDb (E.db.codeHash (bytes20 slot)))

/-- `computeCodeSizeCost` (instructions.go:851-863). -/
def computeCodeSizeCost (size : BitVec 64) : M ω Int := do
  if size.toNat > 49152 then error else pure (s64 (2 * sizeInWords size))

/-- `RunContext.Call` of the client; an error comes with the zero result. -/
def callOut (E : Env ω) (kind : Kind) (p : CallParameters) : M ω (Except Err CallRes) := askDb (E.call kind p)

/-- The result value that comes with an error is the zero value. -/
def resultOr : Except Err CallRes → CallRes
  | .ok r => r
  | .error _ => {}

/-- `err == nil`. -/
def noError : Except Err CallRes → Bool
  | .ok _ => true
  | .error _ => false

/-- `x / 64` of an `int64`: truncated towards zero. -/
def div64 (x : Int) : Int := x.tdiv 64

/-- A `pop` that happens under a condition; zero otherwise. -/
def popIf (c : Bool) : M ω U256 := if c = true then pop else pure 0

/-- A `useGas` that happens under a condition. -/
def useGasIf (c : Bool) (amount : Int) : M ω Unit := if c = true then useGas amount else pure ()

/-- The charge for the size of the init code (instructions.go:788-796). -/
def chargeInitCode (E : Env ω) (size : BitVec 64) : M ω Unit :=
  if E.isAtLeast R12_Shanghai = true then do
    let initCodeCost ← computeCodeSizeCost size
    useGas initCodeCost
  else pure ()

/-- The balance checks (instructions.go:806-815, 985-994): whether a nonzero value exceeds the balance. -/
def tooPoor (E : Env ω) (check : Bool) (value : U256) : M ω Bool :=
  if check = true ∧ value ≠ 0 then do
    let balance ← readDb (E.db.balance E.params.recipient)
    pure (decide (balance.toNat < value.toNat))
  else pure false

/-- The charge for a call creating an account (instructions.go:962-968). -/
def chargeNewAccount (E : Env ω) (kind : Kind) (toAddr : Address) (value : U256) : M ω Unit :=
  if kind = .call ∧ value ≠ 0 then do
    let empty ← readDb (isEmpty E.db toAddr)
    useGasIf empty 25000
  else pure ()

/-- `genericCreate` (instructions.go:765-846). -/
def genericCreate (E : Env ω) (kind : Kind) : M ω Unit := do
  if E.params.static = true then error
  else
    let value ← pop
    let offset ← pop
    let size ← pop
    let salt ← popIf (kind = .create2)
    let view ← getSlice offset size
    chargeInitCode E (uint64 size)
    useGasIf (kind = .create2) (s64 (6 * sizeInWords (uint64 size)))
    let poor ← tooPoor E true value
    if poor = true then
      pushV 0
      setReturnData []
    else
      let gas := (← getSt).gas
      let nested := i64 (gas - div64 gas)
      let input ← readView view
      let r ← callOut E kind
        { sender := E.params.recipient, value := value, input := input, gas := nested, salt := salt }
      let res := resultOr r
      pushV (if res.success = false ∨ noError r = false then 0 else ofBytes20 res.createdAddress)
      setReturnData (if res.success = false ∧ noError r = true then res.output else [])
      addGas (-nested)
      addGas res.gasLeft
      addRefund res.gasRefund

/-- `opExtCodeCopy` (instructions.go:899-910). -/
def opExtCodeCopy (E : Env ω) : M ω Unit := do
  let a ← pop
  chargeAccess E (bytes20 a)
  let code ← readDb (E.db.code (bytes20 a))
  genericDataCopy code

/-- The parameters of a nested call (instructions.go:1006-1029). -/
def nestedParams (E : Env ω) (kind : Kind) (toAddr : Address) (value : U256) (args : List Byte) (gas : Int) : CallParameters :=
  let base : CallParameters := { input := args, gas := gas, value := value, codeAddress := toAddr }
  match kind with
  | .call | .staticCall => { base with sender := E.params.recipient, recipient := toAddr }
  | .callCode => { base with sender := E.params.recipient, recipient := E.params.recipient }
  | .delegateCall =>
    { base with sender := E.params.sender, recipient := E.params.recipient, value := E.params.value }
  | _ => base

/-- The gas a call may use (instructions.go:974-977). -/
def nestedGas (gas : Int) (providedGas : U256) : Int :=
  let nested := i64 (gas - div64 gas)
  if isUint64 providedGas = true ∧ (uint64 providedGas).toNat ≤ 2 ^ 63 - 1 ∧ nested ≥ s64 (uint64 providedGas) then
    s64 (uint64 providedGas)
  else nested

/-- `genericCall` (instructions.go:921-1047). -/
def genericCall (E : Env ω) (kind : Kind) : M ω Unit := do
  let providedGas ← pop
  let addr ← pop
  let value ← popIf (kind = .call ∨ kind = .callCode)
  let inOffset ← pop
  let inSize ← pop
  let retOffset ← pop
  let retSize ← pop
  let toAddr := bytes20 addr
  let argsView ← getSlice inOffset inSize
  let args ← readView argsView
  let output ← getSlice retOffset retSize
  chargeAccess E toAddr
  useGasIf (value ≠ 0) 9000
  chargeNewAccount E kind toAddr value
  let given := nestedGas (← getSt).gas providedGas
  addGas (-given)
  let nested := if value ≠ 0 then i64 (given + 2300) else given
  let poor ← tooPoor E (kind = .call ∨ kind = .callCode) value
  if poor = true then
    pushV 0
    setReturnData []
    addGas nested
  else
    let kind' : Kind := if E.params.static = true ∧ kind = .call then .staticCall else kind
    let r ← callOut E kind' (nestedParams E kind' toAddr value args nested)
    let ret := resultOr r
    copyTo output (if noError r = true then ret.output else [])
    pushV (if noError r = false ∨ ret.success = false then 0 else 1)
    addGas ret.gasLeft
    addRefund ret.gasRefund
    setReturnData ret.output

/-- `opCall` (instructions.go:1049-1056). -/
def opCall (E : Env ω) : M ω Unit := do
  let value ← peekN 2
  if E.params.static = true ∧ value ≠ 0 then error else genericCall E .call

/-- `opReturnDataCopy` (instructions.go:1074-1099). -/
def opReturnDataCopy : M ω Unit := do
  let memOffset ← pop
  let dataOffset ← pop
  let length ← pop
  if isUint64 dataOffset = false ∨ isUint64 length = false then error
  else
    useGas (s64 (3 * sizeInWords (uint64 length)))
    let start := uint64 dataOffset
    let stop := start + uint64 length
    let ret := (← getSt).returnData
    if stop < start then error
    else if stop > BitVec.ofNat 64 ret.length then error
    else memSet memOffset ((ret.drop start.toNat).take (stop - start).toNat)

/-- The topics loop of `opLog` (instructions.go:1113-1117). -/
def popTopics : Nat → M ω (List U256)
  | 0 => pure []
  | n + 1 => do
    let t ← pop
    let rest ← popTopics n
    return t :: rest

/-- `opLog` (instructions.go:1101-1136). -/
def opLog (E : Env ω) (n : Nat) : M ω Unit := do
  if E.params.static = true then error
  else
    let offset ← pop
    let size ← pop
    let topics ← popTopics n
    let view ← getSlice offset size
    useGas (s64 (8 * uint64 size))
    let data ← readView view
    askDb fun w => ((), E.db.emitLog ⟨E.params.recipient, topics, data⟩ w)

end Tosca.Model.Lfvm

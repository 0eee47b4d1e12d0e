import Verif.Model.Context

/-!
# Instruction bodies (cpp/vm/evmzero/interpreter.cc:186-1807)

One definition per `Impl<OP>::Run`.  `top` is the stack pointer before the
instruction (`top[i]` is `rd (top + i)`), `gas` the gas after the static cost was
charged, `pc` the code offset of the instruction.  intx operators are modelled by
the `BitVec` operation of the same meaning.
-/

namespace Tosca.Model

open OpM

/-- `struct OpResult` (interpreter.cc:172-175). -/
structure OpResult where
  state : RunState := .running
  dynGas : Int := 0

namespace Ops

variable {σ : Type}

/-- A body of the form `top[1] = f(top[0], top[1])`. -/
def bin (f : U256 → U256 → U256) (top : Int) : OpM σ OpResult := do
  let a ← rd (top + 0)
  let b ← rd (top + 1)
  wr (top + 1) (f a b)
  return {}

/-- A body of the form `top[0] = f(top[0])`. -/
def un (f : U256 → U256) (top : Int) : OpM σ OpResult := do
  let a ← rd (top + 0)
  wr (top + 0) (f a)
  return {}

/-- A body of the form `top[-1] = v`. -/
def push (v : U256) (top : Int) : OpM σ OpResult := do
  wr (top + -1) v
  return {}

/-- interpreter.cc:189. -/
def stop : OpM σ OpResult := return { state := .done }
/-- interpreter.cc:196-199: `top[1] += top[0]`. -/
def add : Int → OpM σ OpResult := bin fun a b => b + a
/-- interpreter.cc:206-209: `top[1] *= top[0]`. -/
def mul : Int → OpM σ OpResult := bin fun a b => b * a
/-- interpreter.cc:216-219: `top[1] = top[0] - top[1]`. -/
def sub : Int → OpM σ OpResult := bin fun a b => a - b
/-- interpreter.cc:226-231: unsigned division if the divisor is non-zero, else unchanged (0). -/
def div : Int → OpM σ OpResult := bin fun a b => if b ≠ 0 then a.udiv b else b
/-- interpreter.cc:238-243: `intx::sdivrem(..).quot`, truncated signed division. -/
def sdiv : Int → OpM σ OpResult := bin fun a b => if b ≠ 0 then a.sdiv b else b
/-- interpreter.cc:250-255. -/
def mod : Int → OpM σ OpResult := bin fun a b => if b ≠ 0 then a.umod b else b
/-- interpreter.cc:262-267: `intx::sdivrem(..).rem`, sign of the dividend. -/
def smod : Int → OpM σ OpResult := bin fun a b => if b ≠ 0 then a.srem b else b

/-- interpreter.cc:278-283; `intx::addmod` adds without wrap-around. -/
def addmod (top : Int) : OpM σ OpResult := do
  let a ← rd (top + 0)
  let b ← rd (top + 1)
  let m ← rd (top + 2)
  if m ≠ 0 then
    wr (top + 2) (BitVec.ofNat 256 ((a.toNat + b.toNat) % m.toNat))
    return {}
  else return {}

/-- interpreter.cc:294-299; `intx::mulmod` multiplies without wrap-around. -/
def mulmod (top : Int) : OpM σ OpResult := do
  let a ← rd (top + 0)
  let b ← rd (top + 1)
  let m ← rd (top + 2)
  if m ≠ 0 then
    wr (top + 2) (BitVec.ofNat 256 ((a.toNat * b.toNat) % m.toNat))
    return {}
  else return {}

/-- `intx::count_significant_bytes`: number of bytes without leading zero bytes. -/
def countSignificantBytes (x : U256) : Nat :=
  ((List.range 32).filter fun i => x.toNat / 256 ^ i ≠ 0).length

/-- `intx::exp`: exponentiation modulo 2^256 by squaring, on `fuel` exponent bits. -/
def intxExp : Nat → U256 → Nat → U256 → U256
  | 0, _, _, acc => acc
  | fuel + 1, base, e, acc =>
    if e = 0 then acc
    else intxExp fuel (base * base) (e / 2) (if e % 2 = 1 then acc * base else acc)

/-- interpreter.cc:306-315. -/
def exp (top gas : Int) : OpM σ OpResult := do
  let a ← rd (top + 0)
  let exponent ← rd (top + 1)
  let dynamicGas : Int := 50 * (countSignificantBytes exponent : Int)
  if gas < dynamicGas then return { dynGas := dynamicGas }
  else
    wr (top + 1) (intxExp 256 a exponent.toNat 1)
    return { dynGas := dynamicGas }

/-- interpreter.cc:322-340. -/
def signextend (top : Int) : OpM σ OpResult := do
  let a ← rd (top + 0)
  let idx : Nat := if a.toNat > 31 then 31 else a.toNat % 256
  let value ← rd (top + 1)
  let b ← lift (byteLe value idx)
  if b &&& 0x80 ≠ 0 then
    wr (top + 1) ((BitVec.allOnes 256 <<< (8 * (idx + 1))) ||| value)
    return {}
  else
    wr (top + 1) ((BitVec.allOnes 256 >>> (8 * (31 - idx))) &&& value)
    return {}

/-- interpreter.cc:347-350. -/
def lt : Int → OpM σ OpResult := bin fun a b => ofBool (a.ult b)
/-- interpreter.cc:357-360: `top[0] > top[1]`. -/
def gt : Int → OpM σ OpResult := bin fun a b => ofBool (b.ult a)
/-- interpreter.cc:367-370. -/
def slt : Int → OpM σ OpResult := bin fun a b => ofBool (a.slt b)
/-- interpreter.cc:377-380. -/
def sgt : Int → OpM σ OpResult := bin fun a b => ofBool (b.slt a)
/-- interpreter.cc:387-390. -/
def eq : Int → OpM σ OpResult := bin fun a b => ofBool (a == b)
/-- interpreter.cc:397-400. -/
def iszero : Int → OpM σ OpResult := un fun a => ofBool (a == 0)
/-- interpreter.cc:407-410. -/
def and : Int → OpM σ OpResult := bin fun a b => a &&& b
/-- interpreter.cc:417-420. -/
def or : Int → OpM σ OpResult := bin fun a b => a ||| b
/-- interpreter.cc:427-430. -/
def xor : Int → OpM σ OpResult := bin fun a b => a ^^^ b
/-- interpreter.cc:437-440. -/
def not : Int → OpM σ OpResult := un fun a => ~~~a

/-- interpreter.cc:447-455. -/
def byte (top : Int) : OpM σ OpResult := do
  let a ← rd (top + 0)
  if a.toNat < 32 then
    let v ← rd (top + 1)
    let b ← lift (byteLe v (31 - a.toNat % 256))
    wr (top + 1) (b.setWidth 256)
    return {}
  else
    wr (top + 1) 0
    return {}

/-- interpreter.cc:462-465; a shift by 256 or more gives 0 (intx). -/
def shl : Int → OpM σ OpResult := bin fun a b => b <<< a.toNat
/-- interpreter.cc:472-475. -/
def shr : Int → OpM σ OpResult := bin fun a b => b >>> a.toNat

/-- interpreter.cc:482-495; `255 - top[0]` is a `uint256_t` subtraction. -/
def sar (top : Int) : OpM σ OpResult := do
  let v ← rd (top + 1)
  let b ← lift (byteLe v 31)
  let isNegative : Bool := b &&& 0x80 ≠ 0
  let a ← rd (top + 0)
  if a.toNat ≤ 255 then
    wr (top + 1) (v >>> a.toNat)
    if isNegative then
      let v ← rd (top + 1)
      let a ← rd (top + 0)
      wr (top + 1) (v ||| (BitVec.allOnes 256 <<< ((255 : U256) - a).toNat))
      return {}
    else return {}
  else
    wr (top + 1) (if isNegative then BitVec.allOnes 256 else 0)
    return {}

/-- The overflow-checked sum `f * words + mem_cost` used by SHA3, CALLDATACOPY and CODECOPY
(interpreter.cc:511-512, 642-643, 695-696). -/
def checkedCost (f words memCost : Int) : Option Int :=
  match fits64 (f * words) with
  | none => none
  | some d => fits64 (d + memCost)

/-- interpreter.cc:502-525. -/
def sha3 (E : Env σ) (top gas : Int) : OpM σ OpResult := do
  let offset ← rd (top + 0)
  let size ← rd (top + 1)
  let mc ← memCost offset size
  match checkedCost 6 (minWords mc.size) mc.cost with
  | none => return { state := .errorGas }
  | some dynamicGas =>
    if gas < dynamicGas then return { state := .errorGas }
    else
      let span ← getSpan mc.offset mc.size
      let bytes ← readSpan span
      let c ← get
      match c.sha3 with
      | some cache =>
        let (h, cache') ← lift (cache.hash E.keccak bytes)
        modify fun c => { c with sha3 := some cache' }
        wr (top + 1) h
        return { dynGas := dynamicGas }
      | none =>
        wr (top + 1) (E.keccak bytes)
        return { dynGas := dynamicGas }

/-- interpreter.cc:532-535. -/
def address (top : Int) : OpM σ OpResult := do
  let c ← get
  push (ofAddress c.message.recipient) top

/-- The repeated account-access cost snippet (interpreter.cc:545-552, 729-736, 765-772,
846-853, 1720-1727). -/
def accountAccessCost (E : Env σ) (a : Address) : OpM σ Int := do
  let c ← get
  if c.revision ≥ BERLIN then
    let s ← host (E.host.accessAccount a)
    if s = .warm then return 100 else return 2600
  else return 700

/-- interpreter.cc:542-559. -/
def balance (E : Env σ) (top gas : Int) : OpM σ OpResult := do
  let a ← rd (top + 0)
  let dynamicGas ← accountAccessCost E (toAddress a)
  if gas < dynamicGas then return { dynGas := dynamicGas }
  else
    let b ← host (E.host.getBalance (toAddress a))
    wr (top + 0) b
    return { dynGas := dynamicGas }

/-- interpreter.cc:566-569. -/
def origin (E : Env σ) (top : Int) : OpM σ OpResult := push (ofAddress E.host.txContext.origin) top
/-- interpreter.cc:576-579. -/
def caller (top : Int) : OpM σ OpResult := do
  let c ← get
  push (ofAddress c.message.sender) top
/-- interpreter.cc:586-589. -/
def callvalue (top : Int) : OpM σ OpResult := do
  let c ← get
  push c.message.value top

/-- `std::span(data).subspan(offset)` if `offset_u256 < data.size()`, else an empty span
(interpreter.cc:599-603, 655-659). -/
def tailView (data : List Byte) (offset : U256) : List Byte :=
  if offset.toNat < data.length then data.drop (lo64 offset) else []

/-- A big-endian `evmc::bytes32` from at most 32 bytes, the rest zero (interpreter.cc:605-608):
`value.bytes[i]` is byte `31 - i` of the number. -/
def bytes32 (l : List Byte) : U256 :=
  ofLeBytes ((l.take 32 ++ List.replicate (32 - min l.length 32) 0).reverse)

/-- interpreter.cc:596-611. -/
def calldataload (top : Int) : OpM σ OpResult := do
  let offset ← rd (top + 0)
  let c ← get
  wr (top + 0) (bytes32 (tailView c.message.input offset))
  return {}

/-- interpreter.cc:618-621. -/
def calldatasize (top : Int) : OpM σ OpResult := do
  let c ← get
  push (BitVec.ofNat 256 c.message.input.length) top

/-- interpreter.cc:632-664. -/
def calldatacopy (top gas : Int) : OpM σ OpResult := do
  let memOffset ← rd (top + 0)
  let dataOffset ← rd (top + 1)
  let size ← rd (top + 2)
  let mc ← memCost memOffset size
  match checkedCost 3 (minWords mc.size) mc.cost with
  | none =>
    let g ← lift (chk64 (gas + 1))
    return { dynGas := g }
  | some dynamicGas =>
    if gas < dynamicGas then
      let g ← lift (chk64 (gas + 1))
      return { dynGas := g }
    else
      let c ← get
      mem fun m => m.readFromWithSize (tailView c.message.input dataOffset) mc.offset mc.size
      return { dynGas := dynamicGas }

/-- interpreter.cc:671-674. -/
def codesize (top : Int) : OpM σ OpResult := do
  let c ← get
  push (BitVec.ofNat 256 ((c.code.length - stopBytePadding : Nat) % u64Mod)) top

/-- interpreter.cc:685-709. -/
def codecopy (top gas : Int) : OpM σ OpResult := do
  let memOffset ← rd (top + 0)
  let codeOffset ← rd (top + 1)
  let size ← rd (top + 2)
  let mc ← memCost memOffset size
  match checkedCost 3 (minWords mc.size) mc.cost with
  | none => return { state := .errorGas }
  | some dynamicGas =>
    if gas < dynamicGas then return { state := .errorGas }
    else
      let c ← get
      let view := if codeOffset.toNat < c.code.length - stopBytePadding
        then c.code.drop (lo64 codeOffset) else []
      mem fun m => m.readFromWithSize view mc.offset mc.size
      return { dynGas := dynamicGas }

/-- interpreter.cc:716-719. -/
def gasprice (E : Env σ) (top : Int) : OpM σ OpResult := push E.host.txContext.gasPrice top

/-- interpreter.cc:726-743. -/
def extcodesize (E : Env σ) (top gas : Int) : OpM σ OpResult := do
  let a ← rd (top + 0)
  let dynamicGas ← accountAccessCost E (toAddress a)
  if gas < dynamicGas then return { dynGas := dynamicGas }
  else
    let n ← host (E.host.getCodeSize (toAddress a))
    wr (top + 0) (BitVec.ofNat 256 n)
    return { dynGas := dynamicGas }

/-- interpreter.cc:753-788. -/
def extcodecopy (E : Env σ) (top gas : Int) : OpM σ OpResult := do
  let a ← rd (top + 0)
  let memOffset ← rd (top + 1)
  let codeOffset ← rd (top + 2)
  let size ← rd (top + 3)
  let mc ← memCost memOffset size
  if gas < mc.cost then return { dynGas := mc.cost }
  else
    let access ← accountAccessCost E (toAddress a)
    let w3 ← lift (chk64 (3 * minWords mc.size))
    let extra ← lift (chk64 (w3 + access))
    let dynamicGas ← lift (chk64 (mc.cost + extra))
    if gas < dynamicGas then return { dynGas := dynamicGas }
    else if mc.size > 0 then
      let span ← getSpan mc.offset mc.size
      if codeOffset.toNat ≤ u64Mod - 1 then
        let bytes ← host (E.host.copyCode (toAddress a) (lo64 codeOffset) mc.size)
        mem fun m => m.writeSpan span bytes
        -- subspan(bytes_written), then fill with zero
        if bytes.length ≤ mc.size then
          mem fun m => m.writeSpan
            { span with off := span.off + bytes.length, len := span.len - bytes.length }
            (List.replicate (mc.size - bytes.length) 0)
          return { dynGas := dynamicGas }
        else
          let _ ← lift (α := Unit) (.error .hostBufferOverflow)
          return {}
      else
        mem fun m => m.writeSpan span (List.replicate mc.size 0)
        return { dynGas := dynamicGas }
    else return { dynGas := dynamicGas }

/-- interpreter.cc:795-798. -/
def returndatasize (top : Int) : OpM σ OpResult := do
  let c ← get
  push (BitVec.ofNat 256 c.returnData.length) top

/-- interpreter.cc:809-836; `intx::addc` reports the carry of the 256-bit addition. -/
def returndatacopy (top gas : Int) : OpM σ OpResult := do
  let memOffset ← rd (top + 0)
  let dataOffset ← rd (top + 1)
  let size ← rd (top + 2)
  let mc ← memCost memOffset size
  if gas < mc.cost then return { dynGas := mc.cost }
  else
    let w3 ← lift (chk64 (3 * minWords mc.size))
    let dynamicGas ← lift (chk64 (mc.cost + w3))
    if gas < dynamicGas then return { dynGas := dynamicGas }
    else
      let c ← get
      let carry : Bool := dataOffset.toNat + size.toNat ≥ 2 ^ 256
      if carry ∨ (dataOffset + size).toNat > c.returnData.length then
        return { state := .errorReturnDataCopyOutOfBounds }
      else if lo64 dataOffset ≤ c.returnData.length then
        mem fun m => m.readFromWithSize (c.returnData.drop (lo64 dataOffset)) mc.offset mc.size
        return { dynGas := dynamicGas }
      else
        let _ ← lift (α := Unit) (.error .arrayOutOfBounds)
        return {}

/-- interpreter.cc:843-860. -/
def extcodehash (E : Env σ) (top gas : Int) : OpM σ OpResult := do
  let a ← rd (top + 0)
  let dynamicGas ← accountAccessCost E (toAddress a)
  if gas < dynamicGas then return { dynGas := dynamicGas }
  else
    let h ← host (E.host.getCodeHash (toAddress a))
    wr (top + 0) h
    return { dynGas := dynamicGas }

/-- interpreter.cc:867-890. -/
def blockhash (E : Env σ) (top : Int) : OpM σ OpResult := do
  let a ← rd (top + 0)
  if (a.toNat : Int) > int64Max then
    wr (top + 0) 0
    return {}
  else
    let number : Int := toInt64 (lo64 a)
    let upper := E.host.txContext.blockNumber
    let lower ← if upper < 257 then lift (.ok 0) else lift (chk64 (upper - 256))
    if number ≥ lower ∧ number < upper then
      let h ← host (E.host.getBlockHash number)
      wr (top + 0) h
      return {}
    else
      wr (top + 0) 0
      return {}

/-- interpreter.cc:897-900. -/
def coinbase (E : Env σ) (top : Int) : OpM σ OpResult := push (ofAddress E.host.txContext.coinbase) top
/-- interpreter.cc:907-910. -/
def timestamp (E : Env σ) (top : Int) : OpM σ OpResult := push (ofInt64 E.host.txContext.timestamp) top
/-- interpreter.cc:917-920. -/
def number (E : Env σ) (top : Int) : OpM σ OpResult := push (ofInt64 E.host.txContext.blockNumber) top
/-- interpreter.cc:927-930. -/
def prevrandao (E : Env σ) (top : Int) : OpM σ OpResult := push E.host.txContext.prevRandao top
/-- interpreter.cc:937-940. -/
def gaslimit (E : Env σ) (top : Int) : OpM σ OpResult := push (ofInt64 E.host.txContext.gasLimit) top
/-- interpreter.cc:947-950. -/
def chainid (E : Env σ) (top : Int) : OpM σ OpResult := push E.host.txContext.chainId top

/-- interpreter.cc:957-960. -/
def selfbalance (E : Env σ) (top : Int) : OpM σ OpResult := do
  let c ← get
  let b ← host (E.host.getBalance c.message.recipient)
  push b top

/-- interpreter.cc:972-975. -/
def basefee (E : Env σ) (top : Int) : OpM σ OpResult := push E.host.txContext.baseFee top

/-- interpreter.cc:987-995. -/
def blobhash (E : Env σ) (top : Int) : OpM σ OpResult := do
  let a ← rd (top + 0)
  if a.toNat < E.host.txContext.blobHashes.length then
    wr (top + 0) (E.host.txContext.blobHashes.getD (toInt64 (lo64 a)).toNat 0)
    return {}
  else
    wr (top + 0) 0
    return {}

/-- interpreter.cc:1007-1010. -/
def blobbasefee (E : Env σ) (top : Int) : OpM σ OpResult := push E.host.txContext.blobBaseFee top

/-- POP and JUMPDEST (interpreter.cc:1021, 1326). -/
def nop : OpM σ OpResult := return {}

/-- interpreter.cc:1033-1050. -/
def mcopy (top gas : Int) : OpM σ OpResult := do
  let dest ← rd (top + 0)
  let src ← rd (top + 1)
  let size ← rd (top + 2)
  let mcDest ← memCost dest size
  let mcSrc ← memCost src size
  let words ← lift (chk64 (3 * minWords mcDest.size))
  match fits64 (words + max mcDest.cost mcSrc.cost) with
  | none => return { state := .errorGas }
  | some dynamicGas =>
    if gas < dynamicGas then return { dynGas := dynamicGas }
    else
      mem fun m => m.memCopy mcDest.offset mcSrc.offset mcDest.size
      return { dynGas := dynamicGas }

/-- interpreter.cc:1062-1065. -/
def push0 (top : Int) : OpM σ OpResult := push 0 top

/-- interpreter.cc:1072-1090 (little-endian machine). -/
def mload (top gas : Int) : OpM σ OpResult := do
  let offset ← rd (top + 0)
  let mc ← memCost offset 32
  if gas < mc.cost then return { dynGas := mc.cost }
  else
    let bytes ← memRead fun m => m.writeTo 32 mc.offset
    wr (top + 0) (bswap (ofLeBytes bytes))
    return { dynGas := mc.cost }

/-- interpreter.cc:1101-1117 (little-endian machine). -/
def mstore (top gas : Int) : OpM σ OpResult := do
  let offset ← rd (top + 0)
  let value ← rd (top + 1)
  let mc ← memCost offset 32
  if gas < mc.cost then return { dynGas := mc.cost }
  else
    mem fun m => m.readFrom (leBytes (bswap value)) mc.offset
    return { dynGas := mc.cost }

/-- interpreter.cc:1128-1140. -/
def mstore8 (top gas : Int) : OpM σ OpResult := do
  let offset ← rd (top + 0)
  let value ← rd (top + 1)
  let mc ← memCost offset 1
  if gas < mc.cost then return { dynGas := mc.cost }
  else
    mem fun m => m.readFrom [value.setWidth 8] mc.offset
    return { dynGas := mc.cost }

/-- interpreter.cc:1147-1164. -/
def sload (E : Env σ) (top gas : Int) : OpM σ OpResult := do
  let key ← rd (top + 0)
  let c ← get
  let dynamicGas ← (if c.revision ≥ BERLIN then do
      let s ← host (E.host.accessStorage c.message.recipient key)
      if s = .warm then return 100 else return 2100
    else return 800 : OpM σ Int)
  if gas < dynamicGas then return { dynGas := dynamicGas }
  else
    let v ← host (E.host.getStorage c.message.recipient key)
    wr (top + 0) v
    return { dynGas := dynamicGas }

/-- The dynamic cost of SSTORE before the cold surcharge (interpreter.cc:1189-1207). -/
def sstoreCost (rev : Revision) (status : StorageStatus) : Int :=
  if status = .added then 20000
  else if status = .modified ∨ status = .deleted then (if rev ≥ BERLIN then 2900 else 5000)
  else if rev ≥ BERLIN then 100 else 800

/-- `warm_cold_restored` (interpreter.cc:1218-1228). -/
def warmColdRestored (rev : Revision) (keyIsWarm : Bool) : Int :=
  if rev ≥ BERLIN then (if keyIsWarm then 5000 - 2100 - 100 else 4900) else 4200

/-- The refund switch (interpreter.cc:1230-1254), as the sequence of additions it performs. -/
def sstoreRefunds (rev : Revision) (keyIsWarm : Bool) : StorageStatus → List Int
  | .deleted => [if rev ≥ LONDON then 4800 else 15000]
  | .deletedAdded => [-(if rev ≥ LONDON then 4800 else 15000)]
  | .modifiedDeleted => [if rev ≥ LONDON then 4800 else 15000]
  | .deletedRestored => [-(if rev ≥ LONDON then 4800 else 15000), warmColdRestored rev keyIsWarm]
  | .addedDeleted => [if rev ≥ BERLIN then 19900 else 19200]
  | .modifiedRestored => [warmColdRestored rev keyIsWarm]
  | .assigned | .added | .modified => []

/-- `ctx.gas_refunds += x` (signed 64-bit). -/
def addRefund (x : Int) : OpM σ Unit := do
  let c ← get
  let r ← lift (chk64 (c.gasRefunds + x))
  modify fun c => { c with gasRefunds := r }

/-- A sequence of `ctx.gas_refunds += x`. -/
def addRefunds : List Int → OpM σ Unit
  | [] => return ()
  | x :: xs => do
    addRefund x
    addRefunds xs

/-- interpreter.cc:1175-1258. -/
def sstore (E : Env σ) (top gas : Int) : OpM σ OpResult := do
  if gas ≤ 2300 then return { state := .errorGas }
  else
    let key ← rd (top + 0)
    let value ← rd (top + 1)
    let c ← get
    let keyIsWarm ← (if c.revision ≥ BERLIN then do
        let s ← host (E.host.accessStorage c.message.recipient key)
        return s = .warm
      else return false : OpM σ Bool)
    let status ← host (E.host.setStorage c.message.recipient key value)
    let cost := sstoreCost c.revision status
    let dynamicGas ← lift (if c.revision ≥ BERLIN ∧ !keyIsWarm then chk64 (cost + 2100) else .ok cost)
    if gas < dynamicGas then return { dynGas := dynamicGas }
    else
      addRefunds (sstoreRefunds c.revision keyIsWarm status)
      return { dynGas := dynamicGas }

/-- interpreter.cc:1292-1295. -/
def pc (top : Int) (pc : Nat) : OpM σ OpResult := push (BitVec.ofNat 256 pc) top

/-- interpreter.cc:1302-1305. -/
def msize (top : Int) : OpM σ OpResult := do
  let c ← get
  push (BitVec.ofNat 256 c.memory.size) top

/-- interpreter.cc:1312-1315. -/
def gas (top gas : Int) : OpM σ OpResult := push (ofInt64 gas) top

/-- interpreter.cc:1338-1343. -/
def tload (E : Env σ) (top : Int) : OpM σ OpResult := do
  let key ← rd (top + 0)
  let c ← get
  let v ← host (E.host.getTransient c.message.recipient key)
  wr (top + 0) v
  return {}

/-- interpreter.cc:1356-1361. -/
def tstore (E : Env σ) (top : Int) : OpM σ OpResult := do
  let key ← rd (top + 0)
  let value ← rd (top + 1)
  let c ← get
  host fun w => ((), E.host.setTransient c.message.recipient key value w)
  return {}

/-- `data[i]` for the code pointer `data` at offset `p`. -/
def codeByte (p : Nat) : OpM σ Byte := fun c =>
  if p < c.code.length then .ok (c.code.getD p 0, c) else .error .codeOutOfBounds

/-- The partial-word loop (interpreter.cc:1384-1386): `word = word << 8 | data[i]` in `uint64_t`. -/
def partialWord : Nat → Nat → BitVec 64 → OpM σ (BitVec 64)
  | 0, _, word => return word
  | n + 1, p, word => do
    let b ← codeByte p
    partialWord n (p + 1) ((word <<< 8) ||| b.setWidth 64)

/-- An unaligned 8-byte load followed by `intx::bswap` (interpreter.cc:1392-1393): the bytes are
combined big-endian. -/
def loadWordBe (p : Nat) : OpM σ (BitVec 64) := do
  let b0 ← codeByte p
  let b1 ← codeByte (p + 1)
  let b2 ← codeByte (p + 2)
  let b3 ← codeByte (p + 3)
  let b4 ← codeByte (p + 4)
  let b5 ← codeByte (p + 5)
  let b6 ← codeByte (p + 6)
  let b7 ← codeByte (p + 7)
  return b0 ++ b1 ++ b2 ++ b3 ++ b4 ++ b5 ++ b6 ++ b7

/-- `value[k] = word`: assignment of the `k`-th 64-bit word (little-endian word order). -/
def setWord (v : U256) (k : Nat) (word : BitVec 64) : U256 :=
  (v &&& ~~~((BitVec.allOnes 64).setWidth 256 <<< (64 * k))) ||| (word.setWidth 256 <<< (64 * k))

/-- The full-word loop (interpreter.cc:1391-1398): `remaining` words, the next one goes to word
index `remaining - 1`. -/
def fullWords : Nat → Nat → U256 → OpM σ U256
  | 0, _, value => return value
  | n + 1, p, value => do
    let w ← loadWordBe p
    fullWords n (p + 8) (setWord value n w)

/-- `PushImpl<N>::Run` (interpreter.cc:1373-1401). -/
def pushN (n : Nat) (top : Int) (pc : Nat) : OpM σ OpResult := do
  let numFullWords := n / 8
  let numPartialBytes := n % 8
  let data := pc + 1
  let value ← (if numPartialBytes ≠ 0 then do
      let word ← partialWord numPartialBytes data 0
      return setWord 0 numFullWords word
    else return 0 : OpM σ U256)
  let value ← fullWords numFullWords (data + numPartialBytes) value
  wr (top - 1) value
  return {}

/-- `DupImpl<N>::Run` (interpreter.cc:1417-1420). -/
def dup (n : Nat) (top : Int) : OpM σ OpResult := do
  let v ← rd (top + ((n : Int) - 1))
  wr (top - 1) v
  return {}

/-- `SwapImpl<N>::Run` (interpreter.cc:1436-1439). -/
def swap (n : Nat) (top : Int) : OpM σ OpResult := do
  let a ← rd (top + 0)
  let b ← rd (top + n)
  wr (top + 0) b
  wr (top + n) a
  return {}

/-- The topic loop (interpreter.cc:1466-1468). -/
def readTopics : Nat → Int → OpM σ (List U256)
  | 0, _ => return []
  | n + 1, p => do
    let t ← rd p
    let ts ← readTopics n (p + 1)
    return t :: ts

/-- `LogImpl<N>::Run` (interpreter.cc:1456-1479); `8 * size` is a `uint64_t` product. -/
def log (E : Env σ) (n : Nat) (top gas : Int) : OpM σ OpResult := do
  let offset ← rd (top + 0)
  let size ← rd (top + 1)
  let mc ← memCost offset size
  if gas < mc.cost then return { dynGas := mc.cost }
  else
    let topics ← readTopics n (top + 2)
    let dynamicGas ← lift (chk64 (mc.cost + toInt64 ((8 * mc.size) % u64Mod)))
    if gas < dynamicGas then return { dynGas := dynamicGas }
    else
      let span ← getSpan mc.offset mc.size
      let data ← readSpan span
      let c ← get
      host fun w => ((), E.host.emitLog c.message.recipient data topics w)
      return { dynGas := dynamicGas }

/-- `ReturnImpl<state>::Run` (interpreter.cc:1494-1510). -/
def ret (resultState : RunState) (top gas : Int) : OpM σ OpResult := do
  let offset ← rd (top + 0)
  let size ← rd (top + 1)
  let mc ← memCost offset size
  if gas < mc.cost then return { dynGas := mc.cost }
  else
    let bytes ← memRead fun m => m.writeTo mc.size mc.offset
    modify fun c => { c with returnData := bytes }
    return { state := resultState, dynGas := mc.cost }

/-- interpreter.cc:1522. -/
def invalid : OpM σ OpResult := return { state := .invalid }

/-- interpreter.cc:1534-1559. -/
def selfdestruct (E : Env σ) (top gas : Int) : OpM σ OpResult := do
  let a ← rd (top + 0)
  let account := toAddress a
  let c ← get
  let bal ← host (E.host.getBalance c.message.recipient)
  let g0 ← (if bal ≠ 0 then do
      let ex ← host (E.host.accountExists account)
      if !ex then return 25000 else return 0
    else return 0 : OpM σ Int)
  let dynamicGas ← (if c.revision ≥ BERLIN then do
      let s ← host (E.host.accessAccount account)
      if s = .cold then return g0 + 2600 else return g0
    else return g0 : OpM σ Int)
  if gas < dynamicGas then return { dynGas := dynamicGas }
  else
    let first ← host (E.host.selfdestruct c.message.recipient account)
    if first then
      if c.revision < LONDON then
        addRefund 24000
        return { state := .done, dynGas := dynamicGas }
      else return { state := .done, dynGas := dynamicGas }
    else return { state := .done, dynGas := dynamicGas }

/-- `ctx.host->call(msg)`: runs the host; a re-entered VM may change the SHA3 cache. -/
def hostCall (E : Env σ) (msg : Message) : OpM σ CallResult := fun c =>
  .ok ((E.host.call msg c.world).1,
    { c with world := (E.host.call msg c.world).2
             sha3 := c.sha3.map (E.reenter msg c.world) })

/-- The last part of `CreateImpl<Op>::Run` (interpreter.cc:1614-1648), after all costs but the
forwarded gas have been deducted: `gas` is what is left, `top` the result slot. -/
def createCall (E : Env σ) (isCreate2 : Bool) (top initialGas gas : Int) (endowment salt : U256)
    (mc : MemCost) : OpM σ OpResult := do
  modify fun c => { c with returnData := [] }
  let initCode ← getSpan mc.offset mc.size
  let c ← get
  let insufficient ← (if endowment ≠ 0 then do
      let b ← host (E.host.getBalance c.message.recipient)
      return b.ult endowment
    else return false : OpM σ Bool)
  if insufficient then
    wr (top + 0) 0
    let d ← lift (chk64 (initialGas - gas))
    return { dynGas := d }
  else
    let depth ← lift (chk32 (c.message.depth + 1))
    let msgGas ← lift (chk64 (gas - gas.tdiv 64))
    let input ← readSpan initCode
    let msg : Message := {
      kind := if isCreate2 then .create2 else .create
      depth := depth
      gas := msgGas
      sender := c.message.recipient
      input := input
      value := endowment
      create2Salt := salt }
    let result ← hostCall E msg
    (if result.status = .revert then modify fun c => { c with returnData := result.output }
      else return () : OpM σ Unit)
    let used ← lift (chk64 (msgGas - result.gasLeft))
    let gas ← lift (chk64 (gas - used))
    addRefund result.gasRefund
    wr (top + 0) (if result.status = .success then ofAddress result.createAddress else 0)
    let d ← lift (chk64 (initialGas - gas))
    return { dynGas := d }

/-- `CreateImpl<Op>::Run` (interpreter.cc:1571-1649). -/
def create (E : Env σ) (isCreate2 : Bool) (top gas : Int) : OpM σ OpResult := do
  let c ← get
  if c.message.depth > 1024 then return { state := .errorCreate }
  else
    let initialGas := gas
    let endowment ← rd (top + 0)
    let offset ← rd (top + 1)
    let size ← rd (top + 2)
    let salt ← (if isCreate2 then rd (top + 3) else return 0 : OpM σ U256)
    let top := top + (if isCreate2 then 3 else 2)
    let mc ← memCost offset size
    let gas ← lift (chk64 (gas - mc.cost))
    if gas < 0 then
      let d ← lift (chk64 (initialGas - gas))
      return { dynGas := d }
    else if c.revision ≥ SHANGHAI ∧ mc.size > 49152 then
      let d ← lift (chk64 (initialGas - gas))
      return { state := .errorInitCodeSizeExceeded, dynGas := d }
    else
      let gas ← (if c.revision ≥ SHANGHAI then lift (chk64 (gas - 2 * minWords mc.size))
        else return gas : OpM σ Int)
      if c.revision ≥ SHANGHAI ∧ gas < 0 then
        let d ← lift (chk64 (initialGas - gas))
        return { dynGas := d }
      else
        let gas ← (if isCreate2 then do
            let w ← lift (chk64 (6 * minWords mc.size))
            lift (chk64 (gas - w))
          else return gas : OpM σ Int)
        if isCreate2 ∧ gas < 0 then
          let d ← lift (chk64 (initialGas - gas))
          return { dynGas := d }
        else createCall E isCreate2 top initialGas gas endowment salt mc

/-- The instances of `CallImpl`. -/
inductive CallOp | call | callcode | delegatecall | staticcall
  deriving DecidableEq, Repr

/-- The last part of `CallImpl<Op>::Run` (interpreter.cc:1741-1796), after memory and access
costs have been deducted: `gas` is what is left, `top` the result slot. -/
def callCall (E : Env σ) (op : CallOp) (top initialGas gas : Int) (callGas : U256)
    (account : Address) (value : U256) (mcIn mcOut : MemCost) : OpM σ OpResult := do
  let hasValue : Bool := value ≠ 0
  modify fun c => { c with returnData := [] }
  mem fun m => .ok (m.grow mcOut.offset mcOut.size)
  let inputSpan ← getSpan mcIn.offset mcIn.size
  let callGas : Int := if (callGas.toNat : Int) < int64Max then toInt64 (lo64 callGas) else int64Max
  let c ← get
  let depth ← lift (chk32 (c.message.depth + 1))
  let avail ← lift (chk64 (gas - gas.tdiv 64))
  let msgGas0 := min callGas avail
  let msgGas ← (if hasValue then lift (chk64 (msgGas0 + 2300)) else return msgGas0 : OpM σ Int)
  let gas ← (if hasValue then lift (chk64 (gas + 2300)) else return gas : OpM σ Int)
  let insufficient ← (if hasValue then do
      let b ← host (E.host.getBalance c.message.recipient)
      return b.ult value
    else return false : OpM σ Bool)
  if insufficient then
    wr (top + 0) 0
    let d ← lift (chk64 (initialGas - gas))
    return { dynGas := d }
  else
    let input ← readSpan inputSpan
    let msg : Message := {
      kind := match op with
        | .delegatecall => .delegatecall
        | .callcode => .callcode
        | _ => .call
      flags := if op = .staticcall then 1 else c.message.flags
      depth := depth
      gas := msgGas
      recipient := if op = .call ∨ op = .staticcall then account else c.message.recipient
      sender := if op = .delegatecall then c.message.sender else c.message.recipient
      input := input
      value := if op = .delegatecall then c.message.value else value
      codeAddress := account }
    let result ← hostCall E msg
    modify fun c => { c with returnData := result.output }
    (if result.output.length > 0 then
        mem fun m => m.readFromWithSize result.output mcOut.offset
          (min mcOut.size result.output.length)
      else return () : OpM σ Unit)
    let used ← lift (chk64 (msgGas - result.gasLeft))
    let gas ← lift (chk64 (gas - used))
    if gas < 0 then
      let d ← lift (chk64 (initialGas - gas))
      return { dynGas := d }
    else
      addRefund result.gasRefund
      wr (top + 0) (ofBool (result.status = .success))
      let d ← lift (chk64 (initialGas - gas))
      return { dynGas := d }

/-- The operands of a call instruction (interpreter.cc:1678-1701). -/
structure CallArgs where
  gas : U256
  account : Address
  value : U256
  inOff : U256
  inSize : U256
  outOff : U256
  outSize : U256
  resultTop : Int

/-- Operand decoding (interpreter.cc:1678-1701). -/
def callArgs (op : CallOp) (top : Int) : OpM σ CallArgs := do
  if op = .staticcall ∨ op = .delegatecall then
    let g ← rd (top + 0)
    let a ← rd (top + 1)
    let io ← rd (top + 2)
    let is ← rd (top + 3)
    let oo ← rd (top + 4)
    let os ← rd (top + 5)
    return ⟨g, toAddress a, 0, io, is, oo, os, top + 5⟩
  else
    let g ← rd (top + 0)
    let a ← rd (top + 1)
    let v ← rd (top + 2)
    let io ← rd (top + 3)
    let is ← rd (top + 4)
    let oo ← rd (top + 5)
    let os ← rd (top + 6)
    return ⟨g, toAddress a, v, io, is, oo, os, top + 6⟩

/-- `CallImpl<Op>::Run` (interpreter.cc:1664-1797). -/
def call (E : Env σ) (op : CallOp) (top gas : Int) : OpM σ OpResult := do
  let c ← get
  if c.message.depth > 1024 then return { state := .errorCall }
  else
    let initialGas := gas
    let args ← callArgs op top
    let hasValue : Bool := args.value ≠ 0
    let mcIn ← memCost args.inOff args.inSize
    let mcOut ← memCost args.outOff args.outSize
    let gas ← lift (chk64 (gas - max mcIn.cost mcOut.cost))
    if gas < 0 then
      let d ← lift (chk64 (initialGas - gas))
      return { dynGas := d }
    else if op = .call ∧ hasValue ∧ c.isStatic then return { state := .errorStaticCall }
    else
      let access ← accountAccessCost E args.account
      let newAccount ← (if op ≠ .callcode ∧ hasValue then do
          let ex ← host (E.host.accountExists args.account)
          if !ex then return 25000 else return 0
        else return 0 : OpM σ Int)
      let gas ← lift (chk64 (gas - (access + (if hasValue then 9000 else 0) + newAccount)))
      if gas < 0 then
        let d ← lift (chk64 (initialGas - gas))
        return { dynGas := d }
      else callCall E op args.resultTop initialGas gas args.gas args.account args.value mcIn mcOut

end Ops

end Tosca.Model

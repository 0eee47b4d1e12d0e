import Verif.Model.Compare

/-!
# Writing test states to files and reading them back

go/ct/st/serialization.go with the texts it uses.  A `Document` is what encoding/json (Go standard library) writes: objects for structures with a member
for each exported field, numbers, booleans, arrays and strings.  Members that stand for maps are lists of pairs.  The syntax of JSON is left out.
-/

namespace Tosca.Model.Persist

open Tosca.Go Tosca.Model.Go Tosca.Model.Ct Tosca.Model.Compare

/-- A string. -/
abbrev Text := List Byte

/-! ## Texts -/

/-- The last `k` digits of `x` to a base, most significant first (`%016x` for numbers below 16^16, `binary.BigEndian`). -/
def digits (base : Nat) : Nat → Nat → List Nat
  | 0, _ => []
  | k + 1, x => digits base k (x / base) ++ [x % base]

/-- The number with these digits (`strconv.ParseUint`, `binary.BigEndian`). -/
def fromDigits (base : Nat) (l : List Nat) : Nat := l.foldl (fun a d => base * a + d) 0

/-- `fmt.Sprintf("%016x", x)` of a `uint64`. -/
def limbText (x : Nat) : Text := (digits 16 16 x).map hexDigit

/-- `U256.MarshalText` (go/ct/common/u256.go:248-256). -/
def u256Text (v : U256) : Text :=
  limbText (v.toNat / 2 ^ 192 % 2 ^ 64) ++ [32] ++ limbText (v.toNat / 2 ^ 128 % 2 ^ 64) ++ [32] ++ limbText (v.toNat / 2 ^ 64 % 2 ^ 64) ++ [32] ++
    limbText (v.toNat % 2 ^ 64)

/-- A submatch `[[:xdigit:]]{16}` and `strconv.ParseUint(…, 16, 64)`; `none` if it does not match. -/
def parseLimb (t : Text) : Option Nat :=
  if t.length = 16 then (t.mapM digitValue).map (fromDigits 16) else none

/-- `U256.UnmarshalText` (u256.go:258-275); `none` is an error. -/
def parseU256 (t : Text) : Option U256 := do
  if t.length ≠ 67 ∨ t[16]? ≠ some 32 ∨ t[33]? ≠ some 32 ∨ t[50]? ≠ some 32 then none
  else
    let l3 ← parseLimb (t.take 16)
    let l2 ← parseLimb ((t.drop 17).take 16)
    let l1 ← parseLimb ((t.drop 34).take 16)
    let l0 ← parseLimb ((t.drop 51).take 16)
    some (BitVec.ofNat 256 (l3 * 2 ^ 192 + l2 * 2 ^ 128 + l1 * 2 ^ 64 + l0))

/-- `fmt.Sprintf("%x", data)` in `Bytes.MarshalJSON` (go/ct/common/bytes.go:56-58). -/
def bytesText (data : List Byte) : Text := (bytesToText data).drop 2

/-- `Bytes.UnmarshalJSON` (bytes.go:60-71). -/
def parseBytes (t : Text) : Option (List Byte) := hexDecode t

/-- Reading into a field of type `Bytes`: a Go string, whose length is an `int`. -/
def parseShort (t : Text) : Option Ct.Bytes :=
  match hexDecode t with
  | none => none
  | some l => if h : l.length < 2 ^ 63 then some ⟨l, h⟩ else none

/-- The bytes of an array of `k` bytes, seen as a number. -/
def arrayBytes (k x : Nat) : List Byte := (digits 256 k x).map (BitVec.ofNat 8)

/-- The number of an array of bytes. -/
def arrayNumber (l : List Byte) : Nat := fromDigits 256 (l.map (·.toNat))

/-- `Address.MarshalText` (go/tosca/types.go:30-32). -/
def addressText (a : Address) : Text := bytesToText (arrayBytes 20 a.toNat)

/-- `Address.UnmarshalText` (types.go:34-36). -/
def parseAddress (t : Text) : Option Address := (textToBytes 20 t).map fun l => BitVec.ofNat 160 (arrayNumber l)

/-- `Value.MarshalText` (types.go:124-126). -/
def valueText (v : U256) : Text := bytesToText (arrayBytes 32 v.toNat)

/-- `Value.UnmarshalText` (types.go:128-130). -/
def parseValue (t : Text) : Option U256 := (textToBytes 32 t).map fun l => BitVec.ofNat 256 (arrayNumber l)

/-- `StatusCode.MarshalJSON` (go/ct/st/state.go:94-101), for the codes there are. -/
def statusText : CtStatus → String
  | .running => "running"
  | .stopped => "stopped"
  | .reverted => "reverted"
  | .failed => "failed"

/-- `StatusCode.UnmarshalJSON` (state.go:103-126). -/
def parseStatus (t : String) : Option CtStatus :=
  if t = "running" then some .running
  else if t = "stopped" then some .stopped
  else if t = "reverted" then some .reverted
  else if t = "failed" then some .failed
  else none

/-- `CallKind.String` (types.go:152-169), `CallKind.MarshalJSON` (types.go:171-180), for the kinds there are. -/
def kindText : Kind → List Char
  | .call => "call".toList
  | .staticCall => "static_call".toList
  | .delegateCall => "delegate_call".toList
  | .callCode => "call_code".toList
  | .create => "create".toList
  | .create2 => "create2".toList

/-- `CallKind.UnmarshalJSON` (types.go:182-204). -/
def parseKind (t : List Char) : Option Kind :=
  let t := t.map Char.toLower
  if t = "call".toList then some .call
  else if t = "static_call".toList then some .staticCall
  else if t = "delegate_call".toList then some .delegateCall
  else if t = "call_code".toList then some .callCode
  else if t = "create".toList then some .create
  else if t = "create2".toList then some .create2
  else none

/-- `fmt.Sprintf("%d", n)` of a number that is not negative. -/
def decimal (n : Nat) : List Char :=
  if h : n < 10 then [Char.ofNat (48 + n)] else decimal (n / 10) ++ [Char.ofNat (48 + n % 10)]
termination_by n
decreasing_by omega

/-- `Revision.String` (go/tosca/revisions.go:20-37), `Revision.MarshalJSON` (revisions.go:47-50). -/
def revisionText (r : Int) : List Char :=
  if r = 0 then "Istanbul".toList
  else if r = 1 then "Berlin".toList
  else if r = 2 then "London".toList
  else if r = 3 then "Paris".toList
  else if r = 4 then "Shanghai".toList
  else if r = 5 then "Cancun".toList
  else "Revision(".toList ++ (if r < 0 then '-' :: decimal r.natAbs else decimal r.natAbs) ++ [')']

/-- The digit of `[0-9]`. -/
def isDigit (c : Char) : Bool := 48 ≤ c.toNat && c.toNat ≤ 57

/-- A match of `Revision\(([0-9]+)\)` at the start of a text, with the digits it finds. -/
def matchRevision (t : List Char) : Option (List Char) :=
  if t.take 9 ≠ "Revision(".toList then none
  else
    let ds := (t.drop 9).takeWhile isDigit
    if ds.length = 0 ∨ ((t.drop 9).dropWhile isDigit).head? ≠ some ')' then none else some ds

/-- `reg.FindAllStringSubmatch(s, 1)`: the first match anywhere. -/
def findRevision : List Char → Option (List Char)
  | [] => none
  | c :: t => match matchRevision (c :: t) with
    | some ds => some ds
    | none => findRevision t

/-- `Revision.UnmarshalJSON` (revisions.go:52-92).  `strconv.Atoi` fails for numbers that are no `int`. -/
def parseRevision (t : List Char) : Option Int :=
  if t = "Istanbul".toList then some 0
  else if t = "Berlin".toList then some 1
  else if t = "London".toList then some 2
  else if t = "Paris".toList then some 3
  else if t = "Shanghai".toList then some 4
  else if t = "Cancun".toList then some 5
  else match findRevision t with
    | none => none
    | some ds =>
      let n := fromDigits 10 (ds.map fun c => c.toNat - 48)
      if n < 2 ^ 63 then some n else none

/-! ## Documents -/

/-- `PastCall` (go/ct/st/call_journal.go:121-129). -/
structure PastDocument where
  kind : List Char
  recipient : Text
  sender : Text
  input : Text
  value : Text
  gas : Int
  codeAddress : Text

/-- `FutureCall` (call_journal.go:161-167). -/
structure FutureDocument where
  success : Bool
  output : Text
  gasCosts : Nat
  gasRefund : Int
  createdAccount : Text

/-- `BlockContext` (block_context.go:21-31). -/
structure BlockDocument where
  blockNumber : BitVec 64
  chainId : Text
  coinBase : Text
  gasLimit : BitVec 64
  gasPrice : Text
  prevRandao : Text
  baseFee : Text
  blobBaseFee : Text
  timeStamp : BitVec 64

/-- `stateSerializable` (serialization.go:58-82) with its parts (serialization.go:84-131) as encoding/json writes them.  `tosca.Hash` has no text of its
own: hashes are arrays of 32 numbers, kept as they are here. -/
structure Document where
  status : String
  revision : List Char
  readOnly : Bool
  pc : BitVec 16
  gas : Int
  refund : Int
  code : Text
  stack : List Text
  memory : Text
  current : List (Text × Text)
  original : List (Text × Text)
  warm : List (Text × Bool)
  transient : List (Text × Text)
  balances : List (Text × Text)
  codes : List (Text × Text)
  warmAccounts : List (Text × Bool)
  logs : List (List Text × Text)
  account : Text
  caller : Text
  value : Text
  block : BlockDocument
  callData : Text
  lastCallReturnData : Text
  returnData : Text
  past : List PastDocument
  future : List FutureDocument
  hasSelfDestructed : Bool
  selfDestructed : List (Text × Text)
  hashes : Option (List U256)
  origin : Text
  blobHashes : List U256

/-! ## Writing -/

/-- The journal of past calls. -/
def pastDocument (c : PastCall) : PastDocument :=
  { kind := kindText c.kind, recipient := addressText c.recipient, sender := addressText c.sender, input := bytesText c.input
    value := valueText c.value, gas := c.gas, codeAddress := addressText c.codeAddress }

/-- The results of calls to come. -/
def futureDocument (c : FutureCall) : FutureDocument :=
  { success := c.success, output := bytesText c.output.data, gasCosts := c.gasCosts, gasRefund := c.gasRefund
    createdAccount := addressText c.createdAccount }

/-- The block context. -/
def blockDocument (b : BlockContext) : BlockDocument :=
  { blockNumber := b.blockNumber, chainId := u256Text b.chainId, coinBase := addressText b.coinBase, gasLimit := b.gasLimit
    gasPrice := u256Text b.gasPrice, prevRandao := u256Text b.prevRandao, baseFee := u256Text b.baseFee, blobBaseFee := u256Text b.blobBaseFee
    timeStamp := b.timeStamp }

/-- `newStateSerializableFromState` (serialization.go:143-169) with what it calls (113-139, 266-300) and `serialize` (181-183).  The stack is a list with
the top first. -/
def save (s : TestState) : Document :=
  { status := statusText s.status
    revision := revisionText s.revision
    readOnly := s.readOnly
    pc := s.pc
    gas := s.gas
    refund := s.refund
    code := bytesText s.code
    stack := s.stack.map u256Text
    memory := bytesText s.memory
    current := s.storage.current.map fun e => (u256Text e.1, u256Text e.2)
    original := s.storage.original.map fun e => (u256Text e.1, u256Text e.2)
    warm := s.storage.warm.map fun e => (u256Text e.1, true)
    transient := s.transient.map fun e => (u256Text e.1, u256Text e.2)
    balances := s.accounts.accounts.map fun e => (addressText e.1, u256Text e.2.balance)
    codes := s.accounts.accounts.map fun e => (addressText e.1, bytesText e.2.code.data)
    warmAccounts := s.accounts.warm.map fun e => (addressText e.1, true)
    logs := s.logs.map fun l => (l.1.map u256Text, bytesText l.2)
    account := addressText s.callContext.account
    caller := addressText s.callContext.caller
    value := u256Text s.callContext.value
    block := blockDocument s.block
    callData := bytesText s.callData
    lastCallReturnData := bytesText s.lastCallReturnData
    returnData := bytesText s.returnData
    past := s.past.map pastDocument
    future := s.future.map futureDocument
    hasSelfDestructed := s.hasSelfDestructed
    selfDestructed := s.selfDestructed.map fun e => (addressText e.1, addressText e.2)
    hashes := s.hashes
    origin := addressText s.origin
    blobHashes := s.blobHashes }

/-! ## Reading -/

/-- `m[key] = f(m[key])` (Go). -/
def alter {K V : Type} [DecidableEq K] (m : GoMap K V) (key : K) (zero : V) (f : V → V) : GoMap K V :=
  match m with
  | [] => [(key, f zero)]
  | e :: m => if e.1 = key then (key, f e.2) :: m else e :: alter m key zero f

/-- Reading an object into a map and copying it entry by entry. -/
def readMap {K V : Type} [DecidableEq K] (zero : V) (key : Text → Option K) (value : Text → Option V) (l : List (Text × Text)) : Option (GoMap K V) := do
  let entries ← l.mapM fun e => do some (← key e.1, ← value e.2)
  some (entries.foldl (fun m e => alter m e.1 zero fun _ => e.2) [])

/-- Reading an object of booleans into a set: `StorageBuilder.SetWarm` (storage.go:59-67) skips keys that are not true. -/
def readWarm {K : Type} [DecidableEq K] (onlyTrue : Bool) (key : Text → Option K) (l : List (Text × Bool)) : Option (GoMap K Unit) := do
  let entries ← l.mapM fun e => do some (← key e.1, e.2)
  some (entries.foldl (fun m e => if e.2 || !onlyTrue then alter m e.1 () fun _ => () else m) [])

/-- The loops over balances and codes (serialization.go:225-235) with `AccountsBuilder.SetBalance` and `SetCode` (accounts.go:208-229). -/
def readAccounts (balances codes : List (Text × Text)) : Option (GoMap Address Account) := do
  let balances ← balances.mapM fun e => do some (← parseAddress e.1, ← parseU256 e.2)
  let codes ← codes.mapM fun e => do some (← parseAddress e.1, ← parseShort e.2)
  let m : GoMap Address Account := balances.foldl (fun m e => alter m e.1 {} fun a => { a with balance := e.2 }) []
  some (codes.foldl (fun m e => alter m e.1 {} fun a => { a with code := e.2 }) m)

/-- Reading a past call. -/
def readPast (d : PastDocument) : Option PastCall := do
  some { kind := ← parseKind d.kind, recipient := ← parseAddress d.recipient, sender := ← parseAddress d.sender, input := ← parseBytes d.input
         value := ← parseValue d.value, gas := d.gas, codeAddress := ← parseAddress d.codeAddress }

/-- Reading a future call. -/
def readFuture (d : FutureDocument) : Option FutureCall := do
  some { success := d.success, output := ← parseShort d.output, gasCosts := d.gasCosts, gasRefund := d.gasRefund
         createdAccount := ← parseAddress d.createdAccount }

/-- Reading a block context. -/
def readBlock (d : BlockDocument) : Option BlockContext := do
  some { blockNumber := d.blockNumber, chainId := ← parseU256 d.chainId, coinBase := ← parseAddress d.coinBase, gasLimit := d.gasLimit
         gasPrice := ← parseU256 d.gasPrice, prevRandao := ← parseU256 d.prevRandao, baseFee := ← parseU256 d.baseFee
         blobBaseFee := ← parseU256 d.blobBaseFee, timeStamp := d.timeStamp }

/-- `ImmutableHashArray.UnmarshalJSON` (immutable_hash_array.go:63-78): an array is cut or filled up to 256 elements. -/
def readHashes (d : Option (List U256)) : Option (List U256) := d.map fun l => (l ++ List.replicate 256 0).take 256

/-- `newStateSerializableFromSerialized` (serialization.go:172-178) and `deserialize` (187-263); `none` is an error, or the panic of `NewStack`
(stack.go:46-53) for more than 1024 elements. -/
def load (d : Document) : Option TestState := do
  let stack ← d.stack.mapM parseU256
  let stack ← if stack.length > 1024 then none else some stack
  some
    { status := ← parseStatus d.status
      revision := ← parseRevision d.revision
      readOnly := d.readOnly
      pc := d.pc
      gas := d.gas
      refund := d.refund
      code := ← parseBytes d.code
      stack := stack
      memory := ← parseBytes d.memory
      storage :=
        { current := ← readMap 0 parseU256 parseU256 d.current
          original := ← readMap 0 parseU256 parseU256 d.original
          warm := ← readWarm true parseU256 d.warm }
      transient := ← readMap 0 parseU256 parseU256 d.transient
      accounts :=
        { accounts := ← readAccounts d.balances d.codes
          warm := ← readWarm false parseAddress d.warmAccounts }
      logs := ← d.logs.mapM fun l => do some (← l.1.mapM parseU256, ← parseBytes l.2)
      callContext := { account := ← parseAddress d.account, caller := ← parseAddress d.caller, value := ← parseU256 d.value }
      past := ← d.past.mapM readPast
      future := ← d.future.mapM readFuture
      block := ← readBlock d.block
      callData := ← parseBytes d.callData
      lastCallReturnData := ← parseBytes d.lastCallReturnData
      returnData := ← parseBytes d.returnData
      hasSelfDestructed := d.hasSelfDestructed
      selfDestructed := ← d.selfDestructed.mapM fun e => do some (← parseAddress e.1, ← parseAddress e.2)
      hashes := readHashes d.hashes
      origin := ← parseAddress d.origin
      blobHashes := d.blobHashes }

end Tosca.Model.Persist

import Verif.Spec.AccountView

/-!
# Nested calls and contract creation
-/

namespace Tosca

open Tosca.Spec

variable {σ : Type}

/-- The operands of a call instruction; `value` is zero for DELEGATECALL and STATICCALL, which have no such operand. -/
structure CallArgs where
  gas : U256
  address : U256
  value : U256
  inOff : U256
  inLen : U256
  outOff : U256
  outLen : U256

/-- `rest` and the operands of the call instruction with the given opcode make up the stack (bottom first). -/
inductive CallStack (rest : List U256) (c : CallArgs) : (opcode : Nat) → List U256 → Prop
  | call : CallStack rest c 0xf1 (rest ++ [c.outLen, c.outOff, c.inLen, c.inOff, c.value, c.address, c.gas])
  | callcode : CallStack rest c 0xf2 (rest ++ [c.outLen, c.outOff, c.inLen, c.inOff, c.value, c.address, c.gas])
  | delegatecall : c.value = 0 → CallStack rest c 0xf4 (rest ++ [c.outLen, c.outOff, c.inLen, c.inOff, c.address, c.gas])
  | staticcall : c.value = 0 → CallStack rest c 0xfa (rest ++ [c.outLen, c.outOff, c.inLen, c.inOff, c.address, c.gas])

/-- The size of the memory after touching the input and the output range. -/
def callSize (x : StepIn σ) (c : CallArgs) : Nat := max (x.sizeAfter c.inOff c.inLen) (x.sizeAfter c.outOff c.outLen)

/-- 25000 if CALL moves value to an account that does not exist; nobody asks the host in other cases. -/
def callNewAccount (P : Params σ) (opcode : Nat) (c : CallArgs) (w : σ) : Nat × σ :=
  if opcode = 0xf1 ∧ c.value ≠ 0 then
    match P.host.accountExists (accountOf c.address) w with
    | (true, w') => (0, w')
    | (false, w') => (25000, w')
  else (0, w)

/-- Is the balance sufficient?  Not asked if no value is to be moved. -/
def affordable (P : Params σ) (value : U256) (w : σ) : Bool × σ :=
  if value = 0 then (true, w)
  else match P.host.getBalance P.msg.recipient w with
    | (b, w') => (decide (value.toNat ≤ b.toNat), w')

/-- What a frame with `gas` left may pass on at most (EIP-150): all but one 64th, rounded down. -/
def passable (gas : Int) : Int := gas - gas / 64

/-- The gas charged to the caller for the callee: the requested amount, capped. -/
def forwarded (c : CallArgs) (gas : Int) : Int := min (c.gas.toNat : Int) (passable gas)

/-- The stipend a value-bearing call gets on top. -/
def stipend (value : U256) : Int := if value = 0 then 0 else 2300

/-- The message for the host. -/
def nestedMessage (P : Params σ) (opcode : Nat) (c : CallArgs) (input : List Byte) (gas : Int) : Message :=
  match opcode with
  | 0xf1 => -- CALL: from this account to the callee
    { kind := .call, flags := P.msg.flags, depth := P.msg.depth + 1, gas := gas
      recipient := accountOf c.address, sender := P.msg.recipient, codeAddress := accountOf c.address
      value := c.value, input := input }
  | 0xf2 => -- CALLCODE: the callee's code on this account
    { kind := .callcode, flags := P.msg.flags, depth := P.msg.depth + 1, gas := gas
      recipient := P.msg.recipient, sender := P.msg.recipient, codeAddress := accountOf c.address
      value := c.value, input := input }
  | 0xf4 => -- DELEGATECALL: the callee's code on this account, with this frame's caller and value
    { kind := .delegatecall, flags := P.msg.flags, depth := P.msg.depth + 1, gas := gas
      recipient := P.msg.recipient, sender := P.msg.sender, codeAddress := accountOf c.address
      value := P.msg.value, input := input }
  | _ => -- STATICCALL: a call without value and in static mode
    { kind := .call, flags := 1, depth := P.msg.depth + 1, gas := gas
      recipient := accountOf c.address, sender := P.msg.recipient, codeAddress := accountOf c.address
      value := 0, input := input }

/-! ### Contract creation -/

/-- The operands of CREATE (no salt) and CREATE2. -/
structure CreateArgs where
  value : U256
  off : U256
  len : U256
  salt : Option U256

inductive CreateStack (rest : List U256) (c : CreateArgs) : (opcode : Nat) → List U256 → Prop
  | create : c.salt = none → CreateStack rest c 0xf0 (rest ++ [c.len, c.off, c.value])
  | create2 (s : U256) : c.salt = some s → CreateStack rest c 0xf5 (rest ++ [s, c.len, c.off, c.value])

/-- Gas per word of init code: 2 from Shanghai on (EIP-3860), 6 for hashing with CREATE2. -/
def initCodeWordGas (rev : Revision) (c : CreateArgs) : Nat :=
  (if SHANGHAI ≤ rev then 2 else 0) + (if c.salt = none then 0 else 6)

/-- The creation message: the init code is the input. -/
def newContract (P : Params σ) (c : CreateArgs) (input : List Byte) (gas : Int) : Message :=
  { kind := match c.salt with | none => .create | some _ => .create2
    depth := P.msg.depth + 1, gas := gas, sender := P.msg.recipient, value := c.value, input := input
    create2Salt := match c.salt with | none => 0 | some s => s }

end Tosca

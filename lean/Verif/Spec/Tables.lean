import Verif.Spec.Word

/-!
# Instruction tables: opcode byte, gas, function

The instructions of the EVM that compute on words only.
-/

namespace Tosca.Spec

/-- Instructions with two operands `a` (top of the stack) and `b`. -/
inductive Binary : (opcode : Nat) → (gas : Int) → (U256 → U256 → U256) → Prop
  | add : Binary 0x01 3 fun a b => BitVec.ofNat 256 (a.toNat + b.toNat)
  | mul : Binary 0x02 5 fun a b => BitVec.ofNat 256 (a.toNat * b.toNat)
  | sub : Binary 0x03 3 fun a b => BitVec.ofInt 256 (a.toNat - b.toNat)
  | div : Binary 0x04 5 fun a b => if b = 0 then 0 else BitVec.ofNat 256 (a.toNat / b.toNat)
  | sdiv : Binary 0x05 5 fun a b => if b = 0 then 0 else BitVec.ofInt 256 (a.toInt.tdiv b.toInt)
  | mod : Binary 0x06 5 fun a b => if b = 0 then 0 else BitVec.ofNat 256 (a.toNat % b.toNat)
  | smod : Binary 0x07 5 fun a b => if b = 0 then 0 else BitVec.ofInt 256 (a.toInt.tmod b.toInt)
  | signextend : Binary 0x0b 5 Word.signextend
  | lt : Binary 0x10 3 fun a b => if a.toNat < b.toNat then 1 else 0
  | gt : Binary 0x11 3 fun a b => if a.toNat > b.toNat then 1 else 0
  | slt : Binary 0x12 3 fun a b => if a.toInt < b.toInt then 1 else 0
  | sgt : Binary 0x13 3 fun a b => if a.toInt > b.toInt then 1 else 0
  | eq : Binary 0x14 3 fun a b => if a = b then 1 else 0
  | and : Binary 0x16 3 fun a b => a &&& b
  | or : Binary 0x17 3 fun a b => a ||| b
  | xor : Binary 0x18 3 fun a b => a ^^^ b
  | byte : Binary 0x1a 3 fun a b => if a.toNat < 32 then BitVec.ofNat 256 (b.toNat / 256 ^ (31 - a.toNat) % 256) else 0
  | shl : Binary 0x1b 3 fun a b => if a.toNat < 256 then BitVec.ofNat 256 (b.toNat * 2 ^ a.toNat) else 0
  | shr : Binary 0x1c 3 fun a b => if a.toNat < 256 then BitVec.ofNat 256 (b.toNat / 2 ^ a.toNat) else 0
  | sar : Binary 0x1d 3 fun a b =>
      if a.toNat < 256 then BitVec.ofInt 256 (b.toInt / (2 ^ a.toNat : Nat))
      else if b.toInt < 0 then BitVec.ofInt 256 (-1) else 0

/-- Instructions with one operand. -/
inductive Unary : (opcode : Nat) → (gas : Int) → (U256 → U256) → Prop
  | iszero : Unary 0x15 3 fun a => if a = 0 then 1 else 0
  | not : Unary 0x19 3 fun a => ~~~a

/-- Instructions with three operands `a` (top), `b` and the modulus `m`; the intermediate result is not
reduced modulo 2^256. -/
inductive Ternary : (opcode : Nat) → (gas : Int) → (U256 → U256 → U256 → U256) → Prop
  | addmod : Ternary 0x08 8 fun a b m => if m = 0 then 0 else BitVec.ofNat 256 ((a.toNat + b.toNat) % m.toNat)
  | mulmod : Ternary 0x09 8 fun a b m => if m = 0 then 0 else BitVec.ofNat 256 ((a.toNat * b.toNat) % m.toNat)

end Tosca.Spec

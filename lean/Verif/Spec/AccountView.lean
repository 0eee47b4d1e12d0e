import Verif.Spec.MemView

/-!
# Reading accounts and storage: EIP-2929 pricing
-/

namespace Tosca

open Tosca.Spec

variable {σ : Type}

/-- The price of looking at an account and the state of the host after asking for its warmth: 700 up to Istanbul
(EIP-1884), from Berlin on 100 for a warm and 2600 for a cold account (EIP-2929). -/
def accountCost (P : Params σ) (a : Address) (w : σ) : Nat × σ :=
  if P.rev < BERLIN then (700, w)
  else match P.host.accessAccount a w with
    | (.warm, w') => (100, w')
    | (.cold, w') => (2600, w')

/-- The price of reading a storage slot: 800 up to Istanbul, from Berlin on 100 or 2100. -/
def slotCost (P : Params σ) (key : U256) (w : σ) : Nat × σ :=
  if P.rev < BERLIN then (800, w)
  else match P.host.accessStorage P.msg.recipient key w with
    | (.warm, w') => (100, w')
    | (.cold, w') => (2100, w')

/-- The account an operand denotes: its low 160 bits. -/
def accountOf (v : U256) : Address := BitVec.ofNat 160 v.toNat

/-- Instructions that replace an address by a property of that account. -/
inductive AccountProperty (P : Params σ) : (opcode : Nat) → (Address → σ → U256 × σ) → Prop
  | balance : AccountProperty P 0x31 P.host.getBalance
  | extcodesize : AccountProperty P 0x3b fun a w => (BitVec.ofNat 256 (P.host.getCodeSize a w).1, (P.host.getCodeSize a w).2)
  | extcodehash : AccountProperty P 0x3f P.host.getCodeHash

end Tosca

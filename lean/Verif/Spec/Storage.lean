import Verif.Spec.AccountView

/-!
# Storage writes (EIP-2200, EIP-2929, EIP-3529), logs, self-destruction
-/

namespace Tosca

open Tosca.Spec

variable {σ : Type}

/-! ### SSTORE in terms of original, current and new value -/

/-- The status the EVMC interface defines for writing `new` to a slot with the given original and current value. -/
def storageStatus (orig cur new : U256) : StorageStatus :=
  if cur = new then .assigned
  else if orig = cur then
    if orig = 0 then .added
    else if new = 0 then .deleted
    else .modified
  else if orig = 0 then
    if new = 0 then .addedDeleted else .assigned
  else if cur = 0 then
    if new = orig then .deletedRestored else .deletedAdded
  else if new = 0 then .modifiedDeleted
  else if new = orig then .modifiedRestored
  else .assigned

/-- SLOAD_GAS of EIP-2200; the warm read cost of EIP-2929. -/
def sloadGas (rev : Revision) : Nat := if rev < BERLIN then 800 else 100
/-- SSTORE_RESET_GAS: 5000, from Berlin on less the cold slot cost 2100. -/
def sstoreResetGas (rev : Revision) : Nat := if rev < BERLIN then 5000 else 2900
/-- SSTORE_CLEARS_SCHEDULE; reduced by EIP-3529. -/
def sstoreClears (rev : Revision) : Int := if rev < LONDON then 15000 else 4800

/-- The cost of SSTORE by EIP-2200, plus 2100 for a slot that is cold (EIP-2929). -/
def eipGas (rev : Revision) (warm : Bool) (orig cur new : U256) : Nat :=
  (if cur = new then sloadGas rev
   else if orig = cur then (if orig = 0 then 20000 else sstoreResetGas rev)
   else sloadGas rev) +
  (if BERLIN ≤ rev ∧ warm = false then 2100 else 0)

/-- The change of the refund counter by EIP-2200. -/
def eipRefund (rev : Revision) (orig cur new : U256) : Int :=
  if cur = new then 0
  else if orig = cur then (if orig ≠ 0 ∧ new = 0 then sstoreClears rev else 0)
  else
    (if orig ≠ 0 then (if cur = 0 then - sstoreClears rev else if new = 0 then sstoreClears rev else 0) else 0) +
    (if orig = new then (if orig = 0 then (20000 : Int) - sloadGas rev else (sstoreResetGas rev : Int) - sloadGas rev) else 0)

/-- The host tells the truth about a slot of an account: its warmth, and the status of a write in terms of the values
the slot has; looking at a slot does not change it. -/
structure TruthAt (H : Host σ) (a : Address) (key : U256) (w : σ) (warm : Bool) (orig cur : U256) : Prop where
  access : (H.accessStorage a key w).1 = if warm then .warm else .cold
  write : ∀ new, (H.setStorage a key new w).1 = storageStatus orig cur new
  writeAfter : ∀ new, (H.setStorage a key new (H.accessStorage a key w).2).1 = storageStatus orig cur new

/-- The host state in which SSTORE writes: from Berlin on the slot has been accessed. -/
def sstoreHost (P : Params σ) (key : U256) (w : σ) : σ :=
  if P.rev < BERLIN then w else (P.host.accessStorage P.msg.recipient key w).2

/-! ### SELFDESTRUCT -/

/-- 25000 if there is something to move and the beneficiary does not exist. -/
def newBeneficiary (P : Params σ) (b : Address) (w : σ) : Nat × σ :=
  match P.host.getBalance P.msg.recipient w with
  | (bal, w1) =>
    if bal = 0 then (0, w1)
    else match P.host.accountExists b w1 with
      | (true, w2) => (0, w2)
      | (false, w2) => (25000, w2)

/-- 2600 for a cold beneficiary, from Berlin on. -/
def coldBeneficiary (P : Params σ) (b : Address) (w : σ) : Nat × σ :=
  if P.rev < BERLIN then (0, w)
  else match P.host.accessAccount b w with
    | (.warm, w1) => (0, w1)
    | (.cold, w1) => (2600, w1)

end Tosca

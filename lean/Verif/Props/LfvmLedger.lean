import Verif.Props.GoCallsDemo
import Verif.Props.Lfvm

/-!
# Transactions and calls on the long-form EVM (C57 to C62): concrete cases
-/

namespace Tosca

open Tosca.Model Tosca.Spec Tosca.Proofs Tosca.Go Tosca.Model.Go Tosca.Spec.Go

theorem smallDb_ok : DbOk smallDb where
  setBalance a b v w := rfl
  balance op a w h := by cases op <;> first | rfl | exact absurd h (fun h => h)
  setNonce a b n w := rfl
  nonce op a w h := by cases op <;> first | rfl | exact absurd rfl (h _ _)
  setCode a c w h := by
    show (if a = a then c else w.code a).take 24576 = c
    rw [if_pos rfl]
    exact List.take_of_length_le h
  setCode_other a b c w h := by
    show (if b = a then c else w.code b).take 24576 = _
    rw [if_neg h]
    rfl
  code op a w h := by cases op <;> first | rfl | exact absurd rfl (h _ _)

theorem lfvm_noDriver (revision : Int) (t : Transaction) : NoDriver (lfvmProcessor.context smallDb (demoBlock revision) t) := by
  have key : ∀ (n k : Nat), k < 2 ^ 33 → n < 2 ^ 20 → BitVec.ofNat 160 k + BitVec.ofNat 160 n ≠ driverAddress := by
    intro n k hk hn h
    have := congrArg BitVec.toNat h
    rw [BitVec.toNat_add, BitVec.toNat_ofNat, BitVec.toNat_ofNat] at this
    rw [show driverAddress.toNat = 0xd100a01e00000000000000000000000000000000 from rfl] at this
    omega
  refine ⟨fun a n => ?_, fun a s h => ?_⟩
  · exact key (a.toNat % 256 * 1000 + n.toNat % 1000) (2 ^ 30) (by omega) (by omega)
  · exact key (a.toNat % 256 * 1000 + s.toNat % 1000) (2 ^ 31) (by omega) (by omega)

theorem lfvmTx_supported : Supported lfvmProcessor smallDb (demoBlock 5) lfvmTx :=
  .lfvm (lfvm_txSetting ⟨by decide, by decide, by decide, by decide⟩ (by decide))

/-- The hypotheses of C57, C58 and C59 are met by the transaction that calls contract 9, which calls contract 8. -/
example : Supported lfvmProcessor smallDb (demoBlock 5) lfvmTx ∧ DbOk smallDb ∧ NoDriver (lfvmProcessor.context smallDb (demoBlock 5) lfvmTx) ∧
    lfvmTx.sender ≠ driverAddress ∧ smallDb.code driverAddress lfvmWorld = [] ∧ smallDb.code lfvmTx.sender lfvmWorld = [] ∧
    Admitted smallDb demoKeccak lfvmTx lfvmWorld ∧ Runnable (demoBlock 5) lfvmTx ∧
    ∀ a b w, supply smallDb (smallDb.selfDestruct a b w).2 = supply smallDb w :=
  ⟨lfvmTx_supported, smallDb_ok, lfvm_noDriver 5 lfvmTx, by decide +kernel, by decide +kernel, by decide +kernel,
    ⟨by decide +kernel, by decide +kernel, by decide +kernel, by decide +kernel⟩, ⟨by decide +kernel, fun _ h => by cases h⟩, fun _ _ _ => rfl⟩

/-- C58: so it counts once. -/
example {receipt : Receipt} {err : Option Err} {w' : DemoWorld}
    (hr : lfvmProcessor.run smallDb (demoBlock 5) lfvmTx lfvmWorld = (receipt, err, w')) : smallDb.nonce 1 w' = 0 + 1 :=
  (C58_call (w := lfvmWorld) lfvmTx_supported smallDb_ok (lfvm_noDriver 5 lfvmTx) (by decide +kernel) (by decide +kernel)
    (fun _ => by decide +kernel) (by intro h; cases h) hr).1
    ⟨⟨by decide +kernel, by decide +kernel, by decide +kernel, by decide +kernel⟩, ⟨by decide +kernel, fun _ h => by cases h⟩⟩

theorem lfvm_callSetting {t : Transaction} {kind : Kind} {p : CallParameters} (hg : 0 ≤ p.gas ∧ p.gas ≤ 2 ^ 40) (hi : p.input.length ≤ 49152) :
    CallSupported (lfvmProcessor.context smallDb (demoBlock 5) t) kind p :=
  .lfvm (fuel := fun p => 2 * p.gas.toNat + 2) (find := fun _ _ => lfvmFresh)
    { interpreter := rfl
      fuel := fun _ => Nat.le_refl _
      found := fun p _ => lfvmFresh_ok p
      access := small_access
      lengths := small_lengths
      code := fun a w => by have := small_code a w; show (smallDb.code a w).length ≤ _; omega
      floria := lfvm_floria 5 t
      gas := hg
      input := by omega
      initCode := fun _ => hi
      revision := by show (4 : Int) ≤ 5; decide }

/-- C61: a static call of contract 8, which writes its storage, leaves it as it is. -/
example : (((lfvmProcessor.context smallDb (demoBlock 5) lfvmTx).call 0 false .staticCall
    { sender := 1, recipient := 8, gas := 50000 } lfvmWorld).2.storage 8 5) = 0 :=
  C61_static (F := lfvmProcessor.context smallDb (demoBlock 5) lfvmTx) (w := lfvmWorld) (lfvm_callSetting (by decide) (by decide))
    (lfvm_noDriver 5 lfvmTx) smallDb_ok (fun w => w.storage 8 5) (fun _ _ => rfl) (fun _ _ _ => rfl) (by decide +kernel)
    (by show smallDb.code driverAddress lfvmWorld = []; decide +kernel) (Or.inl rfl)

/-- C59: a call of contract 9 leaves all balances together as they are. -/
example : supply smallDb ((lfvmProcessor.context smallDb (demoBlock 5) lfvmTx).call 0 false .call
    { sender := 1, recipient := 9, value := 3, gas := 50000 } lfvmWorld).2 = supply smallDb lfvmWorld :=
  C59_call (F := lfvmProcessor.context smallDb (demoBlock 5) lfvmTx) (w := lfvmWorld) (lfvm_callSetting (by decide) (by decide))
    smallDb_ok (lfvm_noDriver 5 lfvmTx) (fun _ _ _ => rfl) 0 false (by decide +kernel) (fun h => by rcases h with h | h <;> cases h)
    (by show smallDb.code driverAddress lfvmWorld = []; decide +kernel)

/-- C62: a payment to an account without code. -/
example : (lfvmProcessor.context smallDb (demoBlock 5) lfvmTx).call 3 false .call { sender := 1, recipient := 7, value := 5, gas := 100 } lfvmWorld =
    afterTransfer (transferred smallDb 5 1 7 lfvmWorld) lfvmWorld fun w => (.ok { success := true, gasLeft := 100 }, w) :=
  C62_payment (F := lfvmProcessor.context smallDb (demoBlock 5) lfvmTx) (p := { sender := 1, recipient := 7, value := 5, gas := 100 })
    (w := lfvmWorld) (lfvm_floria 5 lfvmTx) (lfvm_callSetting (by decide) (by decide)) (by decide) (by omega)
    (by show smallDb.code 7 lfvmWorld = []; decide +kernel) (by decide +kernel)
    (show (if (7 : Address) = 4 then some demoEcho else none) = none from rfl) (by decide) (by decide) (by decide)

end Tosca

import Verif.Props.GoTx

/-!
# A transaction that is billed for more gas than its limit (C57)

Refunds are counted even if the call they stem from was reverted (only the storage changes are undone).  A contract can
therefore collect the negative refund of undoing a cleared storage slot as often as it likes.
-/

namespace Tosca

open Tosca.Model Tosca.Spec Tosca.Proofs Tosca.Go Tosca.Model.Go Tosca.Spec.Go

/-- DELEGATECALL of contract 5, with all gas. -/
def overStep : List Byte := [0x60, 0, 0x60, 0, 0x60, 0, 0x60, 0, 0x60, 5, 0x5a, 0xf4, 0x50]

/-- Contract 9 clears its slot 0 (which is 1) and delegates six times to contract 5, which sets it to 1 again and
reverts. -/
def overWorld : DemoWorld :=
  { balance := fun a => if a = 1 then 1000000 else 0
    code := fun a =>
      if a = 9 then [0x60, 0, 0x60, 0, 0x55] ++ overStep ++ overStep ++ overStep ++ overStep ++ overStep ++ overStep ++ [0]
      else if a = 5 then [0x60, 1, 0x60, 0, 0x55, 0x60, 0, 0x60, 0, 0xfd] else []
    original := fun a k => if a = 9 ∧ k = 0 then 1 else 0
    storage := fun a k => if a = 9 ∧ k = 0 then 1 else 0 }

def overTx : Transaction := { sender := 1, recipient := some 9, gasLimit := 33500, gasPrice := 1 }

theorem overTx_ok : TxOk overTx := by
  refine ⟨?_, ?_, ?_, ?_⟩
  · show (0 : Int) ≤ 33500 ∧ (33500 : Int) ≤ 2 ^ 54; omega
  · show 0 ≤ 2 ^ 30; omega
  · show 0 < 2 ^ 40; omega
  · show 0 < 2 ^ 40; omega

theorem over_runnable (rev : Int) : Runnable (demoBlock rev) overTx := by
  refine ⟨by decide +kernel, fun _ h => by cases h⟩

theorem over_admitted : Admitted demoDb demoKeccak overTx overWorld := by
  refine ⟨by decide +kernel, by decide +kernel, by decide +kernel, by decide +kernel⟩

/-- The state in which the call of the transaction starts. -/
def overStart : DemoWorld := callStart demoDb (demoBlock 2) [4] overTx
  (demoDb.setBalance 1 (demoDb.balance 1 overWorld - overTx.gasPrice * BitVec.ofInt 256 overTx.gasLimit) overWorld)

noncomputable def overCall : Except Err CallRes × DemoWorld := (demoEval 2 overTx).call 0 false (txCall overTx).1 (txCall overTx).2 overStart

def callSummary (x : Except Err CallRes) : Option (Bool × Int × Int) :=
  match x with
  | .ok r => some (r.success, r.gasLeft, r.gasRefund)
  | .error _ => none

theorem over_call : callSummary overCall.1 = some (true, 3608, -7200) ∧ overCall.2.balance 1 = 966500 := by
  decide +kernel

/-- C57 (finding).  The gas used by a successful transaction may exceed its gas limit.  The sender is credited a
wrapped-around number of gas units times the gas price then: this sender pays the price of all gas (33500) before the call,
and is credited 2^64 - 3952 after it. -/
theorem C57_exceeds {vm : Vm} (hvm : Vm.new = .ok vm) :
    ∃ receipt w', (demoProcessor vm).run demoDb (demoBlock 2) overTx overWorld = (receipt, none, w') ∧ receipt.success = true ∧
      receipt.gasUsed = 37452 ∧ overTx.gasLimit = 33500 ∧ (demoDb.balance 1 overWorld).toNat = 1000000 ∧
      (demoDb.balance 1 w').toNat = 1000000 - 33500 + (2 ^ 64 - 3952) := by
  obtain ⟨receipt, err, w', hr⟩ : ∃ receipt err w', (demoProcessor vm).run demoDb (demoBlock 2) overTx overWorld = (receipt, err, w') := ⟨_, _, _, rfl⟩
  have hS := demo_txSetting hvm 2 overTx_ok
  have hc := over_call
  rcases C57_receipt (.evmzero hS) hr with ⟨h, _⟩ | ⟨_, w1, hw1, ⟨h, _⟩ | ⟨_, h, _⟩ | ⟨_, w2, w3, res, hcall, hw2, hcase⟩⟩
  · exact absurd over_admitted h
  · exact absurd (over_runnable 2).gas (by omega)
  · exact absurd (over_runnable 2) h
  · rw [demo_call hvm 2 overTx (by decide +kernel) (by decide +kernel) (by decide +kernel)] at hcall
    have e : overCall = (res, w3) := by
      rw [← hcall, hw2, hw1]
      rfl
    rw [e] at hc
    rcases hcase with ⟨e, rfl, _⟩ | ⟨r, rfl, _, rfl, hcase⟩
    · cases hc.1
    · have h1 : (r.success, r.gasLeft, r.gasRefund) = (true, 3608, -7200) := Option.some.inj hc.1
      simp only [Prod.mk.injEq] at h1
      rcases hcase with ⟨h2, _⟩ | ⟨_, h2, _, _, h3, _, h4⟩
      · rw [h1.1] at h2; cases h2
      · have hg : receipt.gasUsed = 37452 := by
          rw [h3, h1.1, h1.2.1, h1.2.2]
          decide +kernel
        refine ⟨receipt, w', hr, h2.trans h1.1, hg, rfl, rfl, ?_⟩
        rw [h4, hg, demoDb_ok.setBalance, if_pos (show (1 : Address) = overTx.sender from rfl)]
        rw [show demoDb.balance overTx.sender w3 = 966500 from hc.2]
        decide +kernel

end Tosca

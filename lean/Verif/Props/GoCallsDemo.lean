import Verif.Props.GoSystem

/-!
# Calls (C60 to C64): concrete cases
-/

namespace Tosca

open Tosca.Model Tosca.Spec Tosca.Proofs Tosca.Go Tosca.Model.Go Tosca.Spec.Go

/-- Whether the call succeeded, as a value. -/
def didSucceed (x : Except Err CallRes) : Option Bool :=
  match x with
  | .ok r => some r.success
  | .error _ => none

theorem not_succeeded {x : Except Err CallRes} (h : didSucceed x ≠ some true) : ¬ Succeeded x := by
  rintro ⟨r, rfl, hs⟩
  exact h (congrArg some hs)

/-- C60: contract 5 sets a slot of its storage and reverts. -/
example : ∃ res w', (demoEval 2 overTx).call 0 false .call { sender := 1, recipient := 5, gas := 50000 } overWorld = (res, w') ∧
    ¬ Succeeded res ∧ (5 : Address) ≠ stateContractAddress ∧ (demoEval 2 overTx).precompiles 2 5 = none :=
  ⟨_, _, rfl, not_succeeded (by decide +kernel), by decide +kernel, by decide +kernel⟩

/-- Init code: sets slot 0 to 1 and returns the single byte 0xEF. -/
def efInit : List Byte := [0x60, 1, 0x60, 0, 0x55, 0x60, 0xef, 0x60, 0, 0x53, 0x60, 1, 0x60, 0, 0xf3]
def efCall : CallParameters := { sender := 1, recipient := 0, value := 7, gas := 60000, input := efInit }
noncomputable def efNew : Address := (demoEval 2 overTx).createAddress1 1 0

/-- C60 (finding).  A creation that fails because the new code starts with 0xEF is not undone: the storage of the new account and
its balance keep what the init code and the transfer did, although the account has no code. -/
theorem C60_stays : let x := (demoEval 2 overTx).call 0 false .create efCall overWorld
    didSucceed x.1 = some false ∧ demoDb.storage efNew 0 x.2 = 1 ∧ demoDb.balance efNew x.2 = 7 ∧
      demoDb.code efNew x.2 = [] ∧ demoDb.storage efNew 0 overWorld = 0 ∧ demoDb.balance efNew overWorld = 0 := by
  decide +kernel

/-- C60: the same creation with init code that reverts. -/
example : let p : CallParameters := { efCall with input := [0x60, 1, 0x60, 0, 0x55, 0x60, 0, 0x60, 0, 0xfd] }
    didSucceed ((demoEval 2 overTx).call 0 false .create p overWorld).1 = some false ∧ p.recipient = 0 ∧
      (demoEval 2 overTx).precompiles 2 efNew = none ∧
      efNew = (demoEval 2 overTx).createAddress1 p.sender (demoDb.nonce p.sender overWorld) ∧
      demoDb.storage efNew 0 ((demoEval 2 overTx).call 0 false .create p overWorld).2 = 0 ∧
      demoDb.nonce 1 ((demoEval 2 overTx).call 0 false .create p overWorld).2 = 1 := by
  decide +kernel

/-- C60: a precompiled contract that fails keeps the value (C64). -/
example : let x := (demoEval 2 overTx).call 0 false .call { sender := 1, recipient := 4, value := 3, gas := 1, input := [1, 2] } overWorld
    didSucceed x.1 = some false ∧ demoDb.balance 4 x.2 = 3 := by
  decide +kernel

/-- C61: a static call of contract 9, which writes its storage, fails. -/
example {vm : Vm} (hvm : Vm.new = .ok vm) (view : DemoWorld → U256) (h : view = fun w => w.storage 9 0) :
    view (((demoProcessor vm).context demoDb (demoBlock 2) overTx).call 0 false .staticCall { sender := 1, recipient := 9, gas := 50000 } overWorld).2 = 1 := by
  refine (C61_static (.evmzero (demo_txSetting hvm 2 overTx_ok).interpreter (demo_txSetting hvm 2 overTx_ok).found) (demo_noDriver vm 2 overTx) demoDb_ok view ?_ ?_ ?_ ?_ (Or.inl rfl)).trans ?_
  · subst h; exact fun _ _ => rfl
  · subst h; exact fun _ _ _ => rfl
  · decide +kernel
  · show demoDb.code driverAddress overWorld = []
    decide +kernel
  · subst h; decide +kernel

/-- C62: a payment to an account without code. -/
example {vm : Vm} (hvm : Vm.new = .ok vm) :
    ((demoProcessor vm).context demoDb (demoBlock 2) overTx).call 3 false .call { sender := 1, recipient := 7, value := 5, gas := 100 } overWorld =
      (.ok { success := true, gasLeft := 100 }, demoDb.setBalance 7 5 (demoDb.setBalance 1 999995 overWorld)) := by
  rw [C62_payment (p := { sender := 1, recipient := 7, value := 5, gas := 100 }) (w := overWorld) (demo_floria vm 2 overTx) (.evmzero (B := demoBinding) rfl (demoGo_found hvm)) (show (0 : Int) ≤ 2 ∧ (2 : Int) ≤ 5 by decide) (by omega)
    (show demoDb.code 7 overWorld = [] by decide +kernel) (by decide +kernel) (show (if (7 : Address) = 4 then some demoEcho else none) = none from rfl)
    (by decide) (by decide) (by decide)]
  show afterTransfer (transferred demoDb 5 1 7 overWorld) overWorld _ = _
  have e : transferred demoDb 5 1 7 overWorld = some (demoDb.setBalance 7 5 (demoDb.setBalance 1 999995 overWorld)) := by
    unfold transferred
    rw [if_neg (by decide +kernel), if_neg (by decide +kernel), if_neg (by decide +kernel), if_neg (by decide +kernel),
      show demoDb.balance 7 overWorld + 5 = 5 by decide +kernel, show demoDb.balance 1 overWorld - 5 = 999995 by decide +kernel]
  rw [e]
  rfl

/-- A hash whose first bytes depend on the length and the first byte of the data. -/
def headHash (l : List Byte) : U256 := BitVec.ofNat 256 ((l.length + 7 * (l.headD 0).toNat) * 2 ^ 224)

theorem headHash_selectors : Selectors headHash := by
  intro a b
  cases a <;> cases b <;> first | exact fun _ => rfl | (intro h; exact absurd h (by decide +kernel))

/-- The demo processor with this hash. -/
def stateProcessor (vm : Vm) : Processor DemoWorld := { demoProcessor vm with keccak := headHash }

/-- `setBalance(7, 10)`. -/
def setBalanceInput : List Byte := methodId headHash "setBalance(address,uint256)" ++ List.replicate 31 0 ++ [7] ++ List.replicate 31 0 ++ [10]

/-- C63: the driver sets a balance, in a static call. -/
example {vm : Vm} : ((stateProcessor vm).context demoDb (demoBlock 2) overTx).call 3 true .staticCall
      { sender := driverAddress, recipient := stateContractAddress, gas := 9100, input := setBalanceInput } overWorld =
      (.ok { success := true, gasLeft := 100 }, demoDb.setBalance 7 10 overWorld) := by
  have h := demo_floria vm 2 overTx
  have h4 : setBalanceInput.take 4 = methodId headHash "setBalance(address,uint256)" := by decide +kernel
  have hsel : Selectors ((stateProcessor vm).context demoDb (demoBlock 2) overTx).keccak := headHash_selectors
  have hl : setBalanceInput.length = 68 := by decide +kernel
  have e1 : StateMethod.account setBalanceInput 0 = 7 := by decide +kernel
  have e2 : StateMethod.argument setBalanceInput 1 = 10 := by decide +kernel
  generalize setBalanceInput = input at h4 hl e1 e2
  have hF : FloriaOk ((stateProcessor vm).context demoDb (demoBlock 2) overTx) := ⟨demo_chain 2 overTx, fun a w => h.code a w, fun a b c d e => h.precompile a b c d e⟩
  refine (C63_driver (kind := .staticCall) (static := true) (depth := 3) (w := overWorld)
    (p := { sender := driverAddress, recipient := stateContractAddress, gas := 9100, input := input }) .setBalance hsel hF ⟨by decide, by decide⟩ (by omega) rfl rfl h4
    (show (0 : Int) ≤ 9100 by omega) (show (9100 : Int) ≤ 2 ^ 54 by omega)).trans ?_
  unfold payment afterTransfer
  rw [if_pos (Or.inl rfl)]
  dsimp only
  rw [if_pos ⟨hl, show ((9000 : Nat) : Int) ≤ 9100 by decide, show StateMethod.account input 0 ≠ driverAddress by rw [e1]; decide +kernel⟩]
  unfold StateMethod.effect
  dsimp only
  rw [e1, e2]
  rfl

/-- C63: nobody else can. -/
example {vm : Vm} : ((stateProcessor vm).context demoDb (demoBlock 2) overTx).call 3 true .call
      { sender := 1, recipient := stateContractAddress, gas := 9100, input := setBalanceInput } overWorld = (.ok {}, overWorld) := by
  rw [C63_others ⟨by decide, by decide⟩ (by omega) rfl (Or.inl (by decide +kernel))]
  rfl

/-- C64: a precompiled contract. -/
example {vm : Vm} : ((demoProcessor vm).context demoDb (demoBlock 2) overTx).call 3 true .staticCall
      { sender := 1, recipient := 4, gas := 10, input := [1, 2, 3] } overWorld =
      (.ok { success := true, output := [1, 2, 3], gasLeft := 7 }, overWorld) := by
  rw [C64_precompiled (c := demoEcho) ⟨by decide, by decide⟩ (by omega) (by decide +kernel) rfl (by decide +kernel) (by decide) (by decide)]
  rfl

/-- A contract that asks for the largest price, as geth's modexp does for large operands. -/
def dearContract : Precompile := ⟨fun _ => BitVec.allOnes 64, fun _ => ([1], true)⟩

/-- C64 (finding): it is free. -/
example {vm : Vm} : ({ demoProcessor vm with precompiles := fun _ _ => some dearContract }.context demoDb (demoBlock 2) overTx).call 3 true .staticCall
      { sender := 1, recipient := 4, gas := 10, input := [1, 2, 3] } overWorld =
      (.ok { success := true, output := [1], gasLeft := 11 }, overWorld) := by
  rw [C64_wraps (c := dearContract) (k := 1) ⟨by decide, by decide⟩ (by omega) (by decide +kernel) rfl (by decide +kernel) (by decide) (by decide) (by decide) (by decide)]
  rfl

end Tosca

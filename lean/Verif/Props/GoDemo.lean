import Verif.Proofs.Transaction
import Verif.Props.Demo

/-!
# A concrete world state and processor, used to show that the hypotheses of the theorems can be met
-/

namespace Tosca

open Tosca.Model Tosca.Spec Tosca.Proofs Tosca.Go Tosca.Model.Go Tosca.Spec.Go

/-- A world state, function by function.  `original` are the storage values at the begin of the transaction. -/
structure DemoWorld where
  balance : Address → U256 := fun _ => 0
  nonce : Address → BitVec 64 := fun _ => 0
  code : Address → List Byte := fun _ => []
  original : Address → U256 → U256 := fun _ _ => 0
  storage : Address → U256 → U256 := fun _ _ => 0
  transient : Address → U256 → U256 := fun _ _ => 0
  warm : Address → Bool := fun _ => false
  warmKey : Address → U256 → Bool := fun _ _ => false
  logs : List Tosca.Go.Log := []

/-- The world state as database. -/
def demoDb : Db DemoWorld where
  accountExists a w := w.nonce a != 0 || w.balance a != 0 || (w.code a).length != 0
  balance a w := w.balance a
  setBalance a v w := { w with balance := fun b => if b = a then v else w.balance b }
  nonce a w := w.nonce a
  setNonce a n w := { w with nonce := fun b => if b = a then n else w.nonce b }
  code a w := (w.code a).take (2 ^ 32 - 1)
  codeHash a w := if w.nonce a = 0 ∧ w.balance a = 0 ∧ w.code a = [] then 0 else demoKeccak ((w.code a).take (2 ^ 32 - 1))
  codeSize a w := ((w.code a).take (2 ^ 32 - 1)).length
  setCode a c w := { w with code := fun b => if b = a then c else w.code b }
  storage a k w := w.storage a k
  setStorage a k v w :=
    (getStorageStatus (w.original a k) (w.storage a k) v,
      { w with storage := fun b j => if b = a ∧ j = k then v else w.storage b j })
  transient a k w := w.transient a k
  setTransient a k v w := { w with transient := fun b j => if b = a ∧ j = k then v else w.transient b j }
  accessAccount a w := (if w.warm a then .warm else .cold, { w with warm := fun b => if b = a then true else w.warm b })
  accessStorage a k w :=
    (if w.warmKey a k then .warm else .cold, { w with warmKey := fun b j => if b = a ∧ j = k then true else w.warmKey b j })
  selfDestruct _ _ w := (false, w)
  emitLog l w := { w with logs := w.logs ++ [l] }
  logs w := w.logs
  blockHash n _ := BitVec.ofInt 256 n

theorem demoDb_ok : DbOk demoDb where
  setBalance a b v w := rfl
  balance op a w h := by cases op <;> first | rfl | exact absurd h (fun h => h)
  setNonce a b n w := rfl
  nonce op a w h := by cases op <;> first | rfl | exact absurd rfl (h _ _)
  setCode a c w h := by
    show (if a = a then c else w.code a).take (2 ^ 32 - 1) = c
    rw [if_pos rfl]
    exact List.take_of_length_le (by omega)
  setCode_other a b c w h := by
    show (if b = a then c else w.code b).take (2 ^ 32 - 1) = _
    rw [if_neg h]
    rfl
  code op a w h := by cases op <;> first | rfl | exact absurd rfl (h _ _)

/-- A precompiled contract that costs one gas per byte of input and returns its input. -/
def demoEcho : Precompile where
  requiredGas input := BitVec.ofNat 64 (input.length % 2 ^ 32)
  run input := (input.take (2 ^ 32), true)

/-- A fixed way of reporting errors. -/
def demoBinding : Binding := ⟨fun _ => .failure, .failure⟩

/-- A new VM, for every run. -/
def demoFound (vm : Vm) : Parameters → DemoWorld → Found DemoWorld := fun _ _ =>
  { vm := vm, reenter := fun _ _ s => s, buf := fun _ => 0, fuel := 0 }

/-- A processor on evmzero. -/
def demoProcessor (vm : Vm) : Processor DemoWorld where
  interpreter := evmzero demoBinding demoKeccak (demoFound vm)
  keccak := demoKeccak
  createAddress1 a n := 2 ^ 30 + BitVec.ofNat 160 (a.toNat % 256 * 1000 + n.toNat % 1000)
  createAddress2 a s _ := 2 ^ 31 + BitVec.ofNat 160 (a.toNat % 256 * 1000 + s.toNat % 1000)
  precompiles _ a := if a = 4 then some demoEcho else none
  precompileList _ := [4]

/-- A block. -/
def demoBlock (revision : Int := 2) : BlockParameters :=
  { chainId := 250, blockNumber := 1000, timestamp := 1700000000, gasLimit := 30000000, revision := revision }

theorem demo_chain (revision : Int) (t : Transaction) : ChainOk (demoBlock revision) { origin := t.sender, gasPrice := t.gasPrice, blobHashes := [] } :=
  ⟨by show (0 : Int) ≤ 1000 ∧ (1000 : Int) < 2 ^ 63; omega, by show (0 : Int) ≤ 1700000000 ∧ (1700000000 : Int) < 2 ^ 63; omega,
    by show (0 : Int) ≤ 30000000 ∧ (30000000 : Int) < 2 ^ 63; omega, by show 0 ≤ 2 ^ 63; omega⟩

theorem demo_floria (vm : Vm) (revision : Int) (t : Transaction) : FloriaOk ((demoProcessor vm).context demoDb (demoBlock revision) t) where
  chain := demo_chain revision t
  code a w := by
    show ((w.code a).take (2 ^ 32 - 1)).length < 2 ^ 32
    have := List.length_take_le (2 ^ 32 - 1) (w.code a)
    omega
  precompile rev a c h input := by
    change (if a = 4 then some demoEcho else none) = some c at h
    split at h
    · injection h with h
      subst h
      refine ⟨?_, ?_⟩
      · show (BitVec.ofNat 64 (input.length % 2 ^ 32)).toNat < 2 ^ 63
        rw [BitVec.toNat_ofNat]
        omega
      · show (input.take (2 ^ 32)).length < 2 ^ 64
        have := List.length_take_le (2 ^ 32) input
        omega
    · cases h

theorem demoGo_found {vm : Vm} (hvm : Vm.new = .ok vm) (p : Parameters) (w : DemoWorld) : FoundFor demoKeccak p (demoFound vm p w) := by
  obtain ⟨vm', h1, h2, _⟩ := vm_new (fun _ => p.code) demoKeccak
  rw [hvm] at h1
  cases h1
  exact ⟨⟨_, h2, fun _ _ _ => rfl⟩, fun _ _ _ h => h⟩

/-- The demo processor runs every transaction of reasonable size. -/
theorem demo_txSetting {vm : Vm} (hvm : Vm.new = .ok vm) (revision : Int) {t : Transaction} (ht : TxOk t) :
    TxSetting (demoProcessor vm) demoDb (demoBlock revision) t demoBinding (demoFound vm) :=
  ⟨rfl, demoGo_found hvm, demo_floria vm revision t, ht⟩

theorem demo_noDriver (vm : Vm) (revision : Int) (t : Transaction) : NoDriver ((demoProcessor vm).context demoDb (demoBlock revision) t) := by
  have key : ∀ (n k : Nat), k < 2 ^ 33 → n < 2 ^ 20 → BitVec.ofNat 160 k + BitVec.ofNat 160 n ≠ driverAddress := by
    intro n k hk hn h
    have := congrArg BitVec.toNat h
    rw [BitVec.toNat_add, BitVec.toNat_ofNat, BitVec.toNat_ofNat] at this
    rw [show driverAddress.toNat = 0xd100a01e00000000000000000000000000000000 from rfl] at this
    omega
  refine ⟨fun a n => ?_, fun a s h => ?_⟩
  · exact key (a.toNat % 256 * 1000 + n.toNat % 1000) (2 ^ 30) (by omega) (by omega)
  · exact key (a.toNat % 256 * 1000 + s.toNat % 1000) (2 ^ 31) (by omega) (by omega)

end Tosca

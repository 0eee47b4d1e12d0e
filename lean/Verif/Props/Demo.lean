import Verif.Proofs.Fuel
import Verif.Proofs.One

/-!
# A concrete host, used to show that the hypotheses of the theorems can be met

`demoHost` answers storage reads with fixed values, has a rich account, and runs nested calls that
use up half of their gas and return three bytes.  Its state counts the calls of mutating methods.
-/

namespace Tosca

open Tosca.Model Tosca.Spec

/-- A simple host over a counter. -/
def demoHost : Host Nat where
  accountExists a w := (a.toNat < 100, w)
  getStorage _ k w := (k, w)
  setStorage _ _ _ w := (.modified, w + 1)
  getTransient _ k w := (k, w)
  setTransient _ _ _ w := w + 1
  getBalance _ w := (1000000, w)
  getCodeSize _ w := (5, w)
  getCodeHash _ w := (77, w)
  copyCode _ off n w := (([1, 2, 3, 4, 5].drop off).take n, w)
  selfdestruct _ _ w := (true, w + 1)
  call m w := ({ status := .success, gasLeft := m.gas / 2, gasRefund := 0, output := [7, 8, 9], createAddress := 42 }, w + 1)
  txContext := { blockNumber := 1000, timestamp := 1700000000, gasLimit := 30000000, chainId := 250, blobHashes := [11, 12] }
  getBlockHash n w := (BitVec.ofInt 256 n, w)
  emitLog _ _ _ w := w + 1
  accessAccount _ w := (.warm, w)
  accessStorage _ _ w := (.cold, w)

theorem demoHost_ok : HostOk demoHost where
  callGas m w h _ := by
    show 0 ≤ m.gas / 2 ∧ m.gas / 2 ≤ m.gas
    omega
  callRefund m w h _ := by
    show (0 : Int) ≤ 199 * (m.gas - m.gas / 2) ∧ -(199 * (m.gas - m.gas / 2)) ≤ 0
    omega
  callOutput m w _ _ := by show 3 < 2 ^ 64; omega
  copyCode a off n w := by
    show (([1, 2, 3, 4, 5].drop off).take n).length ≤ n
    exact List.length_take_le _ _
  blockNumber := by show (0 : Int) ≤ 1000 ∧ (1000 : Int) < 2 ^ 63; omega
  timestamp := by show (0 : Int) ≤ 1700000000 ∧ (1700000000 : Int) < 2 ^ 63; omega
  gasLimit := by show (0 : Int) ≤ 30000000 ∧ (30000000 : Int) < 2 ^ 63; omega
  blobHashes := by show 2 ≤ 2 ^ 63; omega

/-- A stand-in for the hash function. -/
def demoKeccak (l : List Byte) : U256 := BitVec.ofNat 256 (l.length * 7919 + 1)

/-- A frame running `code` with 100000 gas at the given revision. -/
def demo (code : List Byte) (rev : Revision := CANCUN) (flags : BitVec 32 := 0) : Params Nat where
  code := code
  msg := { gas := 100000, recipient := 10, sender := 20, value := 5, input := [1, 2, 3], flags := flags, depth := 3 }
  rev := rev
  host := demoHost
  keccak := demoKeccak

/-- The environment of a frame; nested executions leave the SHA3 cache alone. -/
def envOf {σ : Type} (P : Params σ) : Env σ := { host := P.host, keccak := P.keccak, reenter := fun _ _ s => s }

theorem envOf_ok {σ : Type} (P : Params σ) : EnvOk P (envOf P) := ⟨rfl, rfl, fun _ _ _ h => h⟩

theorem demo_ok (code : List Byte) (hc : code.length < 2 ^ 32) (rev : Revision) (flags : BitVec 32) :
    ParamsOk (demo code rev flags) :=
  ⟨demoHost_ok, hc, by show 3 < 2 ^ 64; omega, by show -2 ^ 31 ≤ (3 : Int) ∧ (3 : Int) < 2 ^ 31; omega⟩

/-- A new VM can run every demo frame. -/
theorem demo_setting (code : List Byte) (hc : code.length < 2 ^ 32) (rev : Revision) (flags : BitVec 32) :
    ∃ vm, Setting (demo code rev flags) (envOf (demo code rev flags)) (fun _ => []) vm := by
  obtain ⟨vm, _, h, _⟩ := Proofs.vm_new (fun _ => []) demoKeccak
  refine ⟨vm, demo_ok code hc rev flags, envOf_ok _, h, ?_, ?_⟩
  · intro h hh; cases hh
  · show (0 : Int) ≤ 100000
    omega

/-- An input at offset `pc` with the given stack and a memory of one word. -/
def demoIn (stack : List U256) (pc : Nat := 0) : StepIn Nat :=
  { pc := pc, stack := stack, memory := (List.range 32).map (BitVec.ofNat 8), ret := [1, 2, 3], world := 0 }

theorem demoIn_ok (code : List Byte) (rev : Revision) (flags : BitVec 32) (stack : List U256) (pc : Nat)
    (hs : stack.length ≤ 1024) (hp : pc ≤ code.length + 32) : InputOk (demo code rev flags) (demoIn stack pc) where
  stack := hs
  gas := by
    show (100000 : Int) + (memGas (words ((List.range 32).map (BitVec.ofNat 8)).length) : Nat) ≤ 2 ^ 54
    rw [List.length_map, List.length_range]
    decide
  refundHi := by show (0 : Int) + 199 * 100000 ≤ 2 ^ 63 - 1; omega
  refundLo := by show -(2 ^ 63 - 1 : Int) ≤ 0 - 199 * 100000; omega
  ret := by show 3 < 2 ^ 64; omega
  pc := hp

end Tosca

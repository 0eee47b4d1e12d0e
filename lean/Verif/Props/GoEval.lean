import Verif.Props.GoDemo

/-!
# Evaluating the specification of an interpreter

`Spec.Go.run` makes `gas + 1` steps; most of them leave a halted frame as it is.  The definitions here stop at the end
and evaluate the numbers of a state after each step, which makes it possible to evaluate concrete runs in the kernel.
-/

namespace Tosca

open Tosca.Model Tosca.Spec Tosca.Proofs Tosca.Go Tosca.Model.Go Tosca.Spec.Go

/-- `f n`; the number is evaluated first. -/
def forceNat {α : Type} (n : Nat) (f : Nat → α) : α := Nat.rec (f 0) (fun m _ => f (m + 1)) n

theorem forceNat_eq {α : Type} (n : Nat) (f : Nat → α) : forceNat n f = f n := by cases n <;> rfl

def forceInt {α : Type} (n : Int) (f : Int → α) : α :=
  match n with
  | .ofNat n => forceNat n fun n => f (.ofNat n)
  | .negSucc n => forceNat n fun n => f (.negSucc n)

theorem forceInt_eq {α : Type} (n : Int) (f : Int → α) : forceInt n f = f n := by
  cases n <;> (unfold forceInt; dsimp only; rw [forceNat_eq])

def forceWords {α : Type} (l : List U256) (f : List U256 → α) : α :=
  match l with
  | [] => f []
  | a :: l => forceNat a.toNat fun n => forceWords l fun l => f (BitVec.ofNat 256 n :: l)

theorem forceWords_eq {α : Type} (l : List U256) : ∀ (f : List U256 → α), forceWords l f = f l := by
  induction l with
  | nil => intro f; rfl
  | cons a l ih =>
    intro f
    unfold forceWords
    rw [forceNat_eq, ih, BitVec.ofNat_toNat, BitVec.setWidth_eq]

def force {σ α : Type} (s : State σ) (f : State σ → α) : α :=
  forceNat s.pc fun pc => forceNat s.gas fun gas => forceInt s.refund fun refund => forceWords s.stack fun stack =>
    f { s with pc := pc, gas := gas, refund := refund, stack := stack }

theorem force_eq {σ α : Type} (s : State σ) (f : State σ → α) : force s f = f s := by
  unfold force
  rw [forceNat_eq, forceNat_eq, forceInt_eq, forceWords_eq]

/-- At most `n` steps, until the frame halts. -/
noncomputable def upto {σ : Type} (P : Params σ) : Nat → State σ → State σ
  | 0, s => s
  | n + 1, s => if s.status = .running then force (step P s) (upto P n) else s

theorem upto_eq {σ : Type} (P : Params σ) : ∀ n s, upto P n s = steps P n s := by
  intro n
  induction n with
  | zero => intro s; rfl
  | succ n ih =>
    intro s
    unfold upto
    by_cases h : s.status = .running
    · rw [if_pos h, force_eq, ih]; rfl
    · rw [if_neg h, steps_halted h]

/-- `Spec.Go.run`. -/
noncomputable def evalRun {ω : Type} (R : Reports) (keccak : List Byte → U256) : Interpreter ω := fun db call p w =>
  match revisionOf p.block.revision with
  | none => (.error .unsupportedRevision, w)
  | some rev =>
    let s := upto (frame R keccak db call p rev) (p.gas.toNat + 1) (initial (frame R keccak db call p rev) w)
    (outcome s, s.host)

theorem evalRun_eq {ω : Type} (R : Reports) (keccak : List Byte → U256) : @evalRun ω R keccak = Spec.Go.run R keccak := by
  funext db call p w
  unfold evalRun Spec.Go.run
  cases revisionOf p.block.revision with
  | none => rfl
  | some rev => simp only [upto_eq]

/-- The run context of a demo transaction, on the specification. -/
noncomputable def demoEval (revision : Int) (t : Transaction) : Floria DemoWorld where
  db := demoDb
  interpreter := evalRun (reports demoBinding) demoKeccak
  block := demoBlock revision
  tx := { origin := t.sender, gasPrice := t.gasPrice, blobHashes := [] }
  keccak := demoKeccak
  createAddress1 a n := 2 ^ 30 + BitVec.ofNat 160 (a.toNat % 256 * 1000 + n.toNat % 1000)
  createAddress2 a s _ := 2 ^ 31 + BitVec.ofNat 160 (a.toNat % 256 * 1000 + s.toNat % 1000)
  precompiles _ a := if a = 4 then some demoEcho else none
  precompileList := [4]

/-- Calls of the demo processor are evaluated by the specification. -/
theorem demo_call {vm : Vm} (hvm : Vm.new = .ok vm) (revision : Int) (t : Transaction) {kind : Kind} {p : CallParameters}
    (h0 : 0 ≤ p.gas) (h1 : p.gas ≤ 2 ^ 54) (hi : p.input.length ≤ 2 ^ 30) (depth : Nat) (st : Bool) (w : DemoWorld) :
    ((demoProcessor vm).context demoDb (demoBlock revision) t).call depth st kind p w = (demoEval revision t).call depth st kind p w := by
  have h := evmzero_call (demo_floria vm revision t) demoBinding (demoGo_found hvm) depth st kind p w h0 h1 hi
  rw [← evalRun_eq] at h
  exact h

end Tosca

import Verif.Model.LfvmObserve

/-!
# Specification: observing LFVM (C85)
-/

namespace Tosca.Spec.Observe

open Tosca Tosca.Go Tosca.Model.Lfvm Tosca.Model.Lfvm.Observe Tosca.Model.Compare

variable {ω σ : Type}

/-- The plain execution of the program from a state: the states before its instructions, in order, and the status and state
it ends with (`none` if it panics). -/
inductive Path (E : Env ω) : Model.Lfvm.St ω → List (Model.Lfvm.St ω) → Option (Model.Lfvm.Status × Model.Lfvm.St ω) → Prop
  | off {s} : (E.code.length : Int) ≤ s.pc → Path E s [] (some (.stopped, s))
  | panic {s} : s.pc < (E.code.length : Int) → stepOnce E s = .panic → Path E s [s] none
  | failed {s s'} : s.pc < (E.code.length : Int) → stepOnce E s = .err s' → Path E s [s] (some (.failed, s'))
  | ended {s s' st} : s.pc < (E.code.length : Int) → stepOnce E s = .ok st s' → st ≠ .running → Path E s [s] (some (st, s'))
  | next {s s' l r} : s.pc < (E.code.length : Int) → stepOnce E s = .ok .running s' → Path E s' l r → Path E s (s :: l) r

/-- The same end, for a runner. -/
def asEnded : Option (Model.Lfvm.Status × Model.Lfvm.St ω) → Ended ω
  | some (st, s) => .done st s
  | none => .panic

/-- The values on the stack, the top last. -/
def stackOf (s : Model.Lfvm.St ω) : List U256 := (List.range s.sp.toNat).map s.data

/-- The instruction about to be executed. -/
def opcodeOf (E : Env ω) (s : Model.Lfvm.St ω) : BitVec 16 := BitVec.ofNat 16 (E.code.getD s.pc.toNat {}).opcode

/-- What the log says of a state: the instruction, the gas left, and the top of the stack. -/
def shown (name : BitVec 16 → String) (E : Env ω) (s : Model.Lfvm.St ω) : String :=
  String.join [name (opcodeOf E s), ", ", toString s.gas, ", ",
    match (stackOf s).getLast? with
    | some v => toString v.toNat
    | none => "-empty-", "\n"]

/-- What a writer does with a list of lines: the number of the line it refuses, if any, and its state then. -/
def deliver (w : Writer σ) : List String → σ → Option Nat × σ
  | [], o => (none, o)
  | t :: ts, o =>
    match w t o with
    | (true, o') => ((deliver w ts o').1.map (· + 1), (deliver w ts o').2)
    | (false, o') => (some 0, o')

/-- The writer that keeps everything. -/
def keep : Writer (List String) := fun t o => (true, o ++ [t])

/-- The sequences of `n` consecutive instructions, one for each place. -/
def windows (n : Nat) (ops : List (BitVec 16)) : List (List (BitVec 16)) :=
  (List.range (ops.length + 1 - n)).map fun i => (ops.drop i).take n

/-- The key of a sequence: its opcodes as the digits of a number, 16 bits each. -/
def word (w : List (BitVec 16)) : BitVec 64 := BitVec.ofNat 64 (w.foldl (fun n op => n * 65536 + op.toNat) 0)

/-- `m` counts the sequences of length `n` in the given runs, each run for itself, and has entries for those only. -/
structure CountsOf (m : Counts) (n : Nat) (runs : List (List (BitVec 16))) : Prop where
  counts : ∀ w : List (BitVec 16), w.length = n → count m (word w) = BitVec.ofNat 64 ((runs.flatMap (windows n)).count w)
  occur : ∀ k, (entry m k).isSome = true → ∃ w ∈ runs.flatMap (windows n), k = word w
  once : (m.map (·.1)).Nodup

/-- `s` are the statistics of the given runs. -/
structure StatisticsOf (s : Statistics) (runs : List (List (BitVec 16))) : Prop where
  steps : s.count = BitVec.ofNat 64 (runs.map List.length).sum
  single : CountsOf s.single 1 runs
  pair : CountsOf s.pair 2 runs
  triple : CountsOf s.triple 3 runs
  quad : CountsOf s.quad 4 runs

/-- What can happen to a runner's statistics, in the order of its lock: runs that end, of whatever programs, runs that panic,
resets.  The shared statistics then, and the instructions of each run since the last reset. -/
inductive History (ω : Type) : Option Statistics → List (List (BitVec 16)) → Prop
  | start : History ω none []
  | run {E : Env ω} {fuel s l r e shared shared' runs} : History ω shared runs → Path E s l (some r) → l.length < 2 ^ 64 →
      statRun E fuel s shared = some (e, shared') → History ω shared' (runs ++ [l.map (opcodeOf E)])
  | panicked {E : Env ω} {fuel s l e shared shared' runs} : History ω shared runs → Path E s l none →
      statRun E fuel s shared = some (e, shared') → History ω shared' runs
  | reset {shared runs} : History ω shared runs → History ω (reset shared) []

end Tosca.Spec.Observe

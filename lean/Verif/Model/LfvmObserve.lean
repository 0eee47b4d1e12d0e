import Verif.Model.LfvmRun
import Verif.Model.Compare

/-!
# The runners of LFVM that observe: logging and statistics

Models /repo/go/interpreter/lfvm/instruction_logger.go and /repo/go/interpreter/lfvm/instruction_statistics.go (without the
text of the summary).  Maps of counters are lists of entries in an unspecified order.
-/

namespace Tosca.Model.Lfvm.Observe

open Tosca Tosca.Go Tosca.Model.Go Tosca.Model.Lfvm Tosca.Model.Compare

variable {ω : Type}

/-- `execute(c, true)` (interpreter.go:171-177, 183-563): one instruction; an error is the status `failed`. -/
def execute (E : Env ω) (s : St ω) : Res ω Status :=
  match stepOnce E s with
  | .ok status s' => .ok status s'
  | .err s' => .ok .failed s'
  | .panic => .panic

/-- `c.pc < int32(len(c.code))` (instruction_statistics.go:31) and `int(c.pc) < len(c.code)` (instruction_logger.go:37); codes
have less than 2^31 instructions. -/
def inCode (E : Env ω) (s : St ω) : Bool := s.pc < E.code.length

/-- `c.code[c.pc].opcode`, an `OpCode` (`uint16`), for a `pc` inside the code. -/
def opAt (E : Env ω) (s : St ω) : BitVec 16 := BitVec.ofNat 16 (E.code.getD s.pc.toNat {}).opcode

/-! ## Logging -/

/-- The three values of a line (instruction_logger.go:45): opcode, gas, and the top of the stack (`none` is `-empty-`). -/
structure Line where
  opcode : BitVec 16
  gas : Int
  top : Option U256
  deriving DecidableEq

/-- `fmt.Sprintf("%v, %d, %v\n", opcode, gas, top)` (instruction_logger.go:38-45); `name` is `OpCode.String`. -/
def Line.text (name : BitVec 16 → String) (l : Line) : String :=
  name l.opcode ++ ", " ++ toString l.gas ++ ", " ++ (match l.top with | some v => toString v.toNat | none => "-empty-") ++ "\n"

/-- The line written before the instruction at `s` (instruction_logger.go:38-41). -/
def lineOf (E : Env ω) (s : St ω) : Line :=
  { opcode := opAt E s, gas := s.gas, top := if s.sp > 0 then some (s.data (s.sp - 1).toNat) else none }

/-- An `io.Writer` with the state `σ`: whether it accepted the text. -/
abbrev Writer (σ : Type) := String → σ → Bool × σ

/-- How a runner ends: with a status, with the error of the writer, or with a panic. -/
inductive Ended (ω : Type)
  | done (status : Status) (s : St ω)
  | writeError (s : St ω)
  | panic

/-- `loggingRunner.run` (instruction_logger.go:29-53), at most `fuel` iterations; `write` is `none` for a nil writer. -/
def logRun {σ : Type} (E : Env ω) (name : BitVec 16 → String) (write : Option (Writer σ)) : Nat → St ω → σ → Option (Ended ω × σ)
  | 0, _, _ => none
  | fuel + 1, s, o =>
    let written : Bool × σ :=
      if inCode E s then
        match write with
        | some w => w ((lineOf E s).text name) o
        | none => (true, o)
      else (true, o)
    if written.1 = false then some (.writeError s, written.2)
    else
      match execute E s with
      | .ok .running s' => logRun E name write fuel s' written.2
      | .ok status s' => some (.done status s', written.2)
      | .err s' => some (.done .failed s', written.2)
      | .panic => some (.panic, written.2)

/-! ## Statistics -/

/-- A `map[uint64]uint64`. -/
abbrev Counts := GoMap (BitVec 64) (BitVec 64)

/-- `m[k]` of a Go map: zero if there is no entry. -/
def count (m : Counts) (k : BitVec 64) : BitVec 64 := (entry m k).getD 0

/-- `m[k] += d`. -/
def bump (m : Counts) (k d : BitVec 64) : Counts :=
  if (entry m k).isSome then m.map fun e => if e.1 = k then (e.1, e.2 + d) else e else m ++ [(k, d)]

/-- `statistics` (instruction_statistics.go:66-72). -/
structure Statistics where
  count : BitVec 64 := 0
  single : Counts := []
  pair : Counts := []
  triple : Counts := []
  quad : Counts := []

/-- `statsCollector` (instruction_statistics.go:156-162). -/
structure Collector where
  stats : Statistics := {}
  last : BitVec 64 := 0
  secondLast : BitVec 64 := 0
  thirdLast : BitVec 64 := 0

/-- The move of the history (instruction_statistics.go:169, 174, 179, 183). -/
def Collector.shift (c : Collector) (cur : BitVec 64) : Collector :=
  { c with last := cur, secondLast := c.last, thirdLast := c.secondLast }

/-- `statsCollector.nextOp` (instruction_statistics.go:164-184). -/
def Collector.nextOp (c : Collector) (op : BitVec 16) : Collector :=
  let cur := op.setWidth 64
  let c := { c with stats := { c.stats with count := c.stats.count + 1, single := bump c.stats.single cur 1 } }
  if c.stats.count = 1 then c.shift cur
  else
    let c := { c with stats := { c.stats with pair := bump c.stats.pair (c.last <<< 16 ||| cur) 1 } }
    if c.stats.count = 2 then c.shift cur
    else
      let c := { c with stats := { c.stats with triple := bump c.stats.triple (c.secondLast <<< 32 ||| c.last <<< 16 ||| cur) 1 } }
      if c.stats.count = 3 then c.shift cur
      else
        let c := { c with stats := { c.stats with quad := bump c.stats.quad (c.thirdLast <<< 48 ||| c.secondLast <<< 32 ||| c.last <<< 16 ||| cur) 1 } }
        c.shift cur

/-- The loop of `statisticRunner.run` (instruction_statistics.go:27-35), at most `fuel` iterations. -/
def statLoop (E : Env ω) : Nat → St ω → Collector → Option (Ended ω × Collector)
  | 0, _, _ => none
  | fuel + 1, s, c =>
    let c := if inCode E s then c.nextOp (opAt E s) else c
    match execute E s with
    | .ok .running s' => statLoop E fuel s' c
    | .ok status s' => some (.done status s', c)
    | .err s' => some (.done .failed s', c)
    | .panic => some (.panic, c)

/-- The loops of `insert` (instruction_statistics.go:86-97): the entries of `src` in whatever order. -/
def addAll (m src : Counts) : Counts := src.foldl (fun m e => bump m e.1 e.2) m

/-- `statistics.insert` (instruction_statistics.go:84-98). -/
def Statistics.insert (s src : Statistics) : Statistics :=
  { count := s.count + src.count, single := addAll s.single src.single, pair := addAll s.pair src.pair,
    triple := addAll s.triple src.triple, quad := addAll s.quad src.quad }

/-- `s.stats`, new if nil (instruction_statistics.go:38-40, 50-52). -/
def orNew (shared : Option Statistics) : Statistics := shared.getD {}

/-- `statisticRunner.run` (instruction_statistics.go:27-43): how it ends, and the shared statistics after it.  A panic leaves
the shared statistics alone. -/
def statRun (E : Env ω) (fuel : Nat) (s : St ω) (shared : Option Statistics) : Option (Ended ω × Option Statistics) :=
  match statLoop E fuel s {} with
  | none => none
  | some (.done status s', c) => some (.done status s', some ((orNew shared).insert c.stats))
  | some (e, _) => some (e, shared)

/-- `statisticRunner.reset` (instruction_statistics.go:57-61). -/
def reset (_ : Option Statistics) : Option Statistics := some {}

/-- The less function of `getTopN` (instruction_statistics.go:112-117): `a` goes first. -/
def first (a b : BitVec 64 × BitVec 64) : Bool :=
  if a.2 ≠ b.2 then b.2 < a.2 else a.1 < b.1

/-- `getTopN` (instruction_statistics.go:107-122). -/
def getTopN (data : Counts) (n : Nat) : Counts :=
  let list := data.mergeSort fun a b => !first b a
  if list.length < n then list else list.take n

/-! ## Whole runs -/

/-- The rest of `run` after a runner (interpreter.go:115-120); an error of the writer is passed on, here as `none`, and the
effects of the instructions before stay.  A panic, or a loop that does not end within its iterations, is `crash`. -/
def finish (w : ω) : Option (Ended ω) → Option (Except Err RunResult) × ω
  | some (.done status s) => (some (.ok (generateResult status s)), s.world)
  | some (.writeError s) => (none, s.world)
  | _ => (some (.error .crash), w)

/-- `run` (interpreter.go:86-121) with the logging runner. -/
def runLogging {σ : Type} (E : Env ω) (name : BitVec 16 → String) (write : Option (Writer σ)) (data : Nat → U256) (fuel : Nat) (w : ω) (o : σ) :
    (Option (Except Err RunResult) × ω) × σ :=
  if E.code.length = 0 then ((some (.ok { success := true, gasLeft := E.params.gas }), w), o)
  else
    let r := logRun E name write fuel { gas := E.params.gas, data := data, world := w } o
    (finish w (r.map (·.1)), (r.map (·.2)).getD o)

/-- `run` (interpreter.go:86-121) with the statistics runner. -/
def runCounting (E : Env ω) (data : Nat → U256) (fuel : Nat) (w : ω) (shared : Option Statistics) :
    (Option (Except Err RunResult) × ω) × Option Statistics :=
  if E.code.length = 0 then ((some (.ok { success := true, gasLeft := E.params.gas }), w), shared)
  else
    let r := statRun E fuel { gas := E.params.gas, data := data, world := w } shared
    (finish w (r.map (·.1)), (r.map (·.2)).getD shared)

end Tosca.Model.Lfvm.Observe

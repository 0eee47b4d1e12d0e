import Verif.Shared.Types

/-!
# Nested runs

What happens on one VM while a call is executed: frames that dispatch instructions, some of which
start further frames.  Every measured event carries the reading of the clock at its time.
-/

namespace Tosca

/-- What a profiler measures: every instruction, or only those that involve the host. -/
inductive ProfilerMode
  | full | external
  deriving DecidableEq, Repr

mutual
  /-- A run of the interpreter: its start and end time and its instructions. -/
  inductive RunLog
    | mk (start stop : Nat) (items : Items)
  /-- A sequence of dispatched instructions, each with its opcode, start and end time. -/
  inductive Items
    | nil
    /-- An instruction that starts no frame. -/
    | leaf (op : BitVec 8) (start stop : Nat) (rest : Items)
    /-- A call instruction during which the given frame runs. -/
    | nest (op : BitVec 8) (start stop : Nat) (inner : RunLog) (rest : Items)
end

end Tosca

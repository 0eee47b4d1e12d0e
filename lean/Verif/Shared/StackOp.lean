import Verif.Shared.Types

/-!
# Calls on stack objects (the public interface of cpp/vm/evmzero/stack.h)

Stack objects are named by numbers.
-/

namespace Tosca.Stacks

/-- One call (stack.h:31-64). -/
inductive Op
  | construct (s : Nat)                        -- `Stack s;`
  | constructFrom (s : Nat) (l : List U256)    -- `Stack s{...};`
  | copyConstruct (s src : Nat)                -- `Stack s(src);`
  | assign (s src : Nat)                       -- `s = src;`
  | push (s : Nat) (v : U256)
  | pop (s : Nat)
  | get (s i : Nat)                            -- `s[i]` as a value
  | set (s i : Nat) (v : U256)                 -- `s[i] = v`
  | size (s : Nat)
  | equal (s t : Nat)                          -- `s == t`
  | destroy (s : Nat)
  deriving Repr

/-- What a call returns. -/
inductive Out
  | nothing
  | word (v : U256)
  | number (n : Nat)
  | flag (b : Bool)
  deriving DecidableEq, Repr

end Tosca.Stacks

import Verif.Model.StackPool

/-!
# Vocabulary for statements about the storage of stack objects

Readings of a pool state and of a history of atomic actions; nothing here is used by the model.
-/

namespace Tosca.Spec.PoolView

open Tosca.Model (Stack)
open Tosca.Model.Pool (Pool Block Action)

/-- The list reached from `head` by following the links of the blocks, ending in a null link (hence
finite and acyclic). -/
inductive Linked (blocks : List Block) : Option Nat → List Nat → Prop
  | done : Linked blocks none []
  | link {d : Nat} {b : Block} {rest : List Nat} :
      blocks[d]? = some b → Linked blocks b.next rest → Linked blocks (some d) (d :: rest)

/-- The block owned by a stack object. -/
def owns (p : Pool) (s d : Nat) : Prop := ∃ h, p.live s = some h ∧ h.block = d

/-- The value of a stack object: its words and its top index. -/
def value (p : Pool) (s : Nat) : Option Stack :=
  match p.live s with
  | none => none
  | some h =>
    match p.blocks[h.block]? with
    | none => none
    | some b => some { buf := b.data, top := h.top }

/-- The stack object an action modifies. -/
def target : Action → Nat
  | .construct s _ | .copyWord s _ _ | .copyNext s _ | .copyTop s _ | .setTop s _ | .write s _ _ | .destroy s => s

/-- The objects existing after an action. -/
def aliveAfter (l : List Nat) : Action → List Nat
  | .construct s _ => s :: l
  | .destroy s => l.erase s
  | _ => l

/-- The objects existing after a history. -/
def alive (l : List Nat) : List Action → List Nat
  | [] => l
  | a :: as => alive (aliveAfter l a) as

/-- The largest number of objects existing at the same time during a history. -/
def peak (l : List Nat) : List Action → Nat
  | [] => l.length
  | a :: as => max l.length (peak (aliveAfter l a) as)

/-- The actions a program may perform when the objects `l` exist: no name is used twice, only
existing objects are accessed, and writes stay inside the 1024 words. -/
def allowed (l : List Nat) : Action → Prop
  | .construct s _ => s ∉ l
  | .copyWord s src _ | .copyNext s src | .copyTop s src => s ∈ l ∧ src ∈ l
  | .setTop s _ => s ∈ l
  | .write s q _ => s ∈ l ∧ 0 ≤ q ∧ q < 1024
  | .destroy s => s ∈ l

/-- All actions of a history are allowed. -/
def allAllowed (l : List Nat) : List Action → Prop
  | [] => True
  | a :: as => allowed l a ∧ allAllowed (aliveAfter l a) as

/-- The words a stack value holds, top first. -/
def words (s : Stack) : List U256 :=
  (List.range (1024 - s.top).toNat).map fun i => s.buf (s.top.toNat + i)

end Tosca.Spec.PoolView

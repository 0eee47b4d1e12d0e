import Verif.Shared.StackOp

/-!
# Abstract stack objects: independent lists of words, top first, of at most 1024 words
-/

namespace Tosca.Spec.Stacks

open Tosca.Stacks (Op Out)

/-- The objects that exist, with their contents. -/
abbrev Objects := Nat → Option (List U256)

/-- Replaces one object. -/
def Objects.put (o : Objects) (s : Nat) (l : Option (List U256)) : Objects := fun t => if t = s then l else o t

/-- The effect of a call; `none` when the call is not allowed (object missing or already there, stack full or empty, index out
of range). -/
def apply (o : Objects) : Op → Option (Out × Objects)
  | .construct s => if o s = none then some (.nothing, o.put s (some [])) else none
  | .constructFrom s l =>
    if o s = none ∧ l.length ≤ 1024 then some (.nothing, o.put s (some l.reverse)) else none
  | .copyConstruct s src =>
    match o s, o src with
    | none, some l => some (.nothing, o.put s (some l))
    | _, _ => none
  | .assign s src =>
    match o s, o src with
    | some _, some l => some (.nothing, o.put s (some l))
    | _, _ => none
  | .push s v =>
    match o s with
    | some l => if l.length < 1024 then some (.nothing, o.put s (some (v :: l))) else none
    | none => none
  | .pop s =>
    match o s with
    | some (v :: l) => some (.word v, o.put s (some l))
    | _ => none
  | .get s i =>
    match o s with
    | some l => if h : i < l.length then some (.word l[i], o) else none
    | none => none
  | .set s i v =>
    match o s with
    | some l => if i < l.length then some (.nothing, o.put s (some (l.set i v))) else none
    | none => none
  | .size s =>
    match o s with
    | some l => some (.number l.length, o)
    | none => none
  | .equal s t =>
    match o s, o t with
    | some l, some m => some (.flag (decide (l = m)), o)
    | _, _ => none
  | .destroy s => if o s = none then none else some (.nothing, o.put s none)

/-- A sequence of calls. -/
def run (o : Objects) : List Op → Option (List Out × Objects)
  | [] => some ([], o)
  | op :: ops =>
    match apply o op with
    | none => none
    | some (r, o) =>
      match run o ops with
      | none => none
      | some (rs, o) => some (r :: rs, o)

end Tosca.Spec.Stacks

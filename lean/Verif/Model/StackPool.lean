import Verif.Model.Context
import Verif.Shared.StackOp

/-!
# Stack objects and their recycled storage (cpp/vm/evmzero/stack.h, stack.cc)

Storage blocks (`Stack::Data`) live on a heap and are never deleted; a block is addressed by its
index.  Everything is broken down into atomic actions: `Get` and `Release` hold the mutex
(stack.cc:69, 79), all other accesses are single reads and writes, so that any interleaving of
threads is a sequence of actions.
-/

namespace Tosca.Model.Pool

/-- `class Stack::Data` (stack.h:68-92): 1024 words and the link of the free list. -/
structure Block where
  data : Nat → U256
  next : Option Nat := none

/-- The members of a stack object (stack.h:94-96): `data_`, and `top_` as an index into the
block; `end_` is index 1024 of the block. -/
structure Handle where
  block : Nat
  top : Int := 1024

/-- The heap, `free_list` (stack.cc:65), and the stack objects. -/
structure Pool where
  blocks : List Block := []
  free : Option Nat := none
  live : Nat → Option Handle := fun _ => none

/-- Atomic actions. -/
inductive Action
  | construct (s : Nat) (fresh : Nat → U256)
  | copyWord (s src i : Nat)
  | copyNext (s src : Nat)
  | copyTop (s src : Nat)
  | setTop (s : Nat) (top : Int)
  | write (s : Nat) (p : Int) (v : U256)
  | destroy (s : Nat)

/-- Access to a stack object that exists. -/
def Pool.handle (p : Pool) (s : Nat) : M Handle :=
  match p.live s with
  | some h => .ok h
  | none => .error .badPointer

/-- Dereferencing a `Data*`. -/
def Pool.block (p : Pool) (d : Nat) : M Block :=
  match p.blocks[d]? with
  | some b => .ok b
  | none => .error .badPointer

/-- `Data::Get` (stack.cc:68-76). `fresh` is the indeterminate content of a new block (stack.h:70,
85-88). -/
def Pool.getData (p : Pool) (fresh : Nat → U256) : M (Nat × Pool) :=
  match p.free with
  | none => .ok (p.blocks.length, { p with blocks := p.blocks ++ [{ data := fresh }] })
  | some d => do
    let b ← p.block d
    return (d, { p with free := b.next })

/-- `Data::Release` (stack.cc:78-82). -/
def Pool.release (p : Pool) (d : Nat) : M Pool := do
  let b ← p.block d
  return { p with blocks := p.blocks.set d { b with next := p.free }, free := some d }

/-- Changing one stack object. -/
def Pool.setLive (p : Pool) (s : Nat) (h : Option Handle) : Pool :=
  { p with live := fun t => if t = s then h else p.live t }

/-- `uint64_t(end_ - top_)` (stack.h:40). -/
def Handle.size (h : Handle) : Nat := ((1024 - h.top) % 18446744073709551616).toNat

/-- The effect of an atomic action. -/
def Pool.exec (p : Pool) : Action → M Pool
  -- stack.cc:18: data_(Data::Get()), top_(data_->end()), end_(top_)
  | .construct s fresh =>
    match p.live s with
    | some _ => .error .badPointer
    | none => do
      let (d, p) ← p.getData fresh
      return p.setLive s (some { block := d })
  -- one word of `*data_ = *other.data_` (stack.cc:28, 42)
  | .copyWord s src i => do
    let h ← p.handle s
    let k ← p.handle src
    let b ← p.block h.block
    let c ← p.block k.block
    return { p with blocks := p.blocks.set h.block { b with data := fun j => if j = i then c.data i else b.data j } }
  -- `next_` in `*data_ = *other.data_` (stack.cc:28, 42)
  | .copyNext s src => do
    let h ← p.handle s
    let k ← p.handle src
    let b ← p.block h.block
    let c ← p.block k.block
    return { p with blocks := p.blocks.set h.block { b with next := c.next } }
  -- top_ = data_->end() - other.GetSize() (stack.cc:29, 43)
  | .copyTop s src => do
    let h ← p.handle s
    let k ← p.handle src
    return p.setLive s (some { h with top := 1024 - (k.size : Int) })
  -- SetTop (stack.h:38), ++top_, --top_
  | .setTop s top => do
    let h ← p.handle s
    return p.setLive s (some { h with top := top })
  -- *ptr = v for a pointer into the block
  | .write s q v => do
    let h ← p.handle s
    let b ← p.block h.block
    if 0 ≤ q ∧ q < 1024 then
      return { p with blocks := p.blocks.set h.block { b with data := fun j => if j = q.toNat then v else b.data j } }
    else .error .stackOutOfBounds
  -- stack.cc:32-36
  | .destroy s => do
    let h ← p.handle s
    let p ← p.release h.block
    return p.setLive s none

/-- A sequence of atomic actions. -/
def Pool.execs (p : Pool) : List Action → M Pool
  | [] => .ok p
  | a :: as => do
    let p ← p.exec a
    p.execs as

/-- `*ptr` for a pointer into the block of `s`. -/
def Pool.read (p : Pool) (s : Nat) (q : Int) : M U256 := do
  let h ← p.handle s
  let b ← p.block h.block
  if 0 ≤ q ∧ q < 1024 then return b.data q.toNat else .error .stackOutOfBounds

/-- `*data_ = *other.data_; top_ = data_->end() - other.GetSize()` (stack.cc:28-29, 42-43). -/
def copyActions (s src : Nat) : List Action :=
  (List.range 1024).map (.copyWord s src) ++ [.copyNext s src, .copyTop s src]

/-- `Push` (stack.h:43-46). -/
def Pool.push (p : Pool) (s : Nat) (v : U256) : M Pool := do
  let h ← p.handle s
  let p ← p.exec (.setTop s (h.top - 1))
  p.exec (.write s (h.top - 1) v)

/-- The loop of the initializer-list constructor (stack.cc:22-24). -/
def Pool.pushAll (p : Pool) (s : Nat) : List U256 → M Pool
  | [] => .ok p
  | v :: vs => do
    let p ← p.push s v
    p.pushAll s vs

/-- `std::equal` over two ranges of equal length (stack.cc:47). -/
def Pool.equalFrom (p : Pool) (s t : Nat) : Nat → Int → Int → M Bool
  | 0, _, _ => .ok true
  | n + 1, a, b => do
    let x ← p.read s a
    let y ← p.read t b
    if x = y then p.equalFrom s t n (a + 1) (b + 1) else return false

open Tosca.Stacks (Op Out)

/-- The public interface (stack.h:31-64, stack.cc:18-47).  `fresh` is the content of a block that
has to be allocated. -/
def Pool.call (p : Pool) (fresh : Nat → U256) : Op → M (Out × Pool)
  | .construct s => do
    let p ← p.exec (.construct s fresh)
    return (.nothing, p)
  | .constructFrom s l => do
    let p ← p.exec (.construct s fresh)
    let p ← p.pushAll s l
    return (.nothing, p)
  | .copyConstruct s src => do
    -- the reference `other` is bound to an existing object
    let _ ← p.handle src
    let p ← p.exec (.construct s fresh)
    let p ← p.execs (copyActions s src)
    return (.nothing, p)
  | .assign s src => do
    -- stack.cc:39-41: self-assignment does nothing
    let _ ← p.handle s
    if s = src then return (.nothing, p)
    else
      let p ← p.execs (copyActions s src)
      return (.nothing, p)
  | .push s v => do
    let p ← p.push s v
    return (.nothing, p)
  | .pop s => do
    let h ← p.handle s
    let v ← p.read s h.top
    let p ← p.exec (.setTop s (h.top + 1))
    return (.word v, p)
  | .get s i => do
    let h ← p.handle s
    let v ← p.read s (h.top + i)
    return (.word v, p)
  | .set s i v => do
    let h ← p.handle s
    let p ← p.exec (.write s (h.top + i) v)
    return (.nothing, p)
  | .size s => do
    let h ← p.handle s
    return (.number h.size, p)
  | .equal s t => do
    let h ← p.handle s
    let k ← p.handle t
    -- random access iterators: std::equal first compares the distances
    if h.size = k.size then
      let b ← p.equalFrom s t h.size h.top k.top
      return (.flag b, p)
    else return (.flag false, p)
  | .destroy s => do
    let p ← p.exec (.destroy s)
    return (.nothing, p)

/-- A sequence of calls, with the contents of the blocks that have to be allocated. -/
def Pool.calls (p : Pool) (fresh : Nat → Nat → U256) : Nat → List Op → M (List Out × Pool)
  | _, [] => .ok ([], p)
  | n, op :: ops => do
    let (r, p) ← p.call (fresh n) op
    let (rs, p) ← p.calls fresh (n + 1) ops
    return (r :: rs, p)

end Tosca.Model.Pool

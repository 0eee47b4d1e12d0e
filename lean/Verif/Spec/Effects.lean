import Verif.Shared.Types

/-!
# What a frame may do to the outside world

The calls a frame can make to its host, and which of them are permitted.
-/

namespace Tosca.Spec

variable {σ : Type}

/-- A call of a host method. -/
inductive HostAct
  | accountExists (a : Address)
  | getStorage (a : Address) (key : U256)
  | setStorage (a : Address) (key value : U256)
  | getTransient (a : Address) (key : U256)
  | setTransient (a : Address) (key value : U256)
  | getBalance (a : Address)
  | getCodeSize (a : Address)
  | getCodeHash (a : Address)
  | copyCode (a : Address) (off n : Nat)
  | selfdestruct (a beneficiary : Address)
  | call (m : Message)
  | getBlockHash (n : Int)
  | emitLog (a : Address) (data : List Byte) (topics : List U256)
  | accessAccount (a : Address)
  | accessStorage (a : Address) (key : U256)

/-- The effect of a call on the host's state. -/
def HostAct.apply (H : Host σ) (w : σ) : HostAct → σ
  | .accountExists a => (H.accountExists a w).2
  | .getStorage a k => (H.getStorage a k w).2
  | .setStorage a k v => (H.setStorage a k v w).2
  | .getTransient a k => (H.getTransient a k w).2
  | .setTransient a k v => H.setTransient a k v w
  | .getBalance a => (H.getBalance a w).2
  | .getCodeSize a => (H.getCodeSize a w).2
  | .getCodeHash a => (H.getCodeHash a w).2
  | .copyCode a off n => (H.copyCode a off n w).2
  | .selfdestruct a b => (H.selfdestruct a b w).2
  | .call m => (H.call m w).2
  | .getBlockHash n => (H.getBlockHash n w).2
  | .emitLog a d t => H.emitLog a d t w
  | .accessAccount a => (H.accessAccount a w).2
  | .accessStorage a k => (H.accessStorage a k w).2

/-- The host's state after a sequence of calls. -/
def replay (H : Host σ) (acts : List HostAct) (w : σ) : σ := acts.foldl (fun w a => a.apply H w) w

/-- Calls that do not modify the state: in particular nested calls are not creations, transfer no
value and are static themselves. -/
def HostAct.ReadOnly : HostAct → Prop
  | .setStorage .. | .setTransient .. | .emitLog .. | .selfdestruct .. => False
  | .call m => m.isStatic = true ∧ m.kind ≠ .create ∧ m.kind ≠ .create2 ∧ (m.kind = .call → m.value = 0)
  | _ => True

/-- Calls that touch only the state owned by `self`: its own storage, its own transient storage, logs and
self-destruction in its own name. -/
def HostAct.OwnedBy (self : Address) : HostAct → Prop
  | .getStorage a _ | .setStorage a _ _ | .getTransient a _ | .setTransient a _ _ | .selfdestruct a _ | .emitLog a _ _
  | .accessStorage a _ => a = self
  | _ => True

/-- A nested message sent by a frame with message `p`: only within the depth limit and one level
deeper; in the name of the frame itself, except that DELEGATECALL keeps sender and value; running at
the frame's own account for CALLCODE and DELEGATECALL; at least as static as the frame. -/
structure Nested (p m : Message) : Prop where
  limit : p.depth ≤ 1024
  depth : m.depth = p.depth + 1
  sender : m.kind ≠ .delegatecall → m.sender = p.recipient
  delegate : m.kind = .delegatecall → m.sender = p.sender ∧ m.value = p.value
  account : m.kind = .callcode ∨ m.kind = .delegatecall → m.recipient = p.recipient
  call : m.kind = .call → m.recipient = m.codeAddress
  static : p.isStatic = true → m.isStatic = true ∧ m.kind ≠ .create ∧ m.kind ≠ .create2 ∧ (m.kind = .call → m.value = 0)

/-- The calls a frame with message `p` may make. -/
structure Permitted (H : Host σ) (p : Message) (rev : Revision) (a : HostAct) : Prop where
  owned : a.OwnedBy p.recipient
  static : p.isStatic = true → a.ReadOnly
  nested : ∀ m, a = .call m → Nested p m
  /-- Accesses are recorded from Berlin on. -/
  access : (∃ b, a = .accessAccount b) ∨ (∃ b k, a = .accessStorage b k) → BERLIN ≤ rev
  /-- Only the 256 most recent blocks are asked for. -/
  blocks : ∀ n, a = .getBlockHash n →
    0 ≤ n ∧ n < H.txContext.blockNumber ∧ H.txContext.blockNumber - 256 ≤ n

/-- The host `H` with a record of all calls made to it, in order. -/
def recording (H : Host σ) : Host (σ × List HostAct) where
  accountExists a w := let r := H.accountExists a w.1; (r.1, r.2, w.2 ++ [.accountExists a])
  getStorage a k w := let r := H.getStorage a k w.1; (r.1, r.2, w.2 ++ [.getStorage a k])
  setStorage a k v w := let r := H.setStorage a k v w.1; (r.1, r.2, w.2 ++ [.setStorage a k v])
  getTransient a k w := let r := H.getTransient a k w.1; (r.1, r.2, w.2 ++ [.getTransient a k])
  setTransient a k v w := (H.setTransient a k v w.1, w.2 ++ [.setTransient a k v])
  getBalance a w := let r := H.getBalance a w.1; (r.1, r.2, w.2 ++ [.getBalance a])
  getCodeSize a w := let r := H.getCodeSize a w.1; (r.1, r.2, w.2 ++ [.getCodeSize a])
  getCodeHash a w := let r := H.getCodeHash a w.1; (r.1, r.2, w.2 ++ [.getCodeHash a])
  copyCode a off n w := let r := H.copyCode a off n w.1; (r.1, r.2, w.2 ++ [.copyCode a off n])
  selfdestruct a b w := let r := H.selfdestruct a b w.1; (r.1, r.2, w.2 ++ [.selfdestruct a b])
  call m w := let r := H.call m w.1; (r.1, r.2, w.2 ++ [.call m])
  txContext := H.txContext
  getBlockHash n w := let r := H.getBlockHash n w.1; (r.1, r.2, w.2 ++ [.getBlockHash n])
  emitLog a d t w := (H.emitLog a d t w.1, w.2 ++ [.emitLog a d t])
  accessAccount a w := let r := H.accessAccount a w.1; (r.1, r.2, w.2 ++ [.accessAccount a])
  accessStorage a k w := let r := H.accessStorage a k w.1; (r.1, r.2, w.2 ++ [.accessStorage a k])

end Tosca.Spec

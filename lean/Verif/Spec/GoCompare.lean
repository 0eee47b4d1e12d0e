import Verif.Model.Compare

/-!
# Specification: which test states are the same (C83)
-/

namespace Tosca.Spec.Compare

open Tosca.Go Tosca.Model.Ct Tosca.Model.Compare

/-- No key occurs twice, as in any Go map. -/
def Map {K V : Type} (m : GoMap K V) : Prop := (m.map Prod.fst).Nodup

/-- The maps are maps, arrays have their length, the code is shorter than 2^16 bytes. -/
structure Proper (s : TestState) : Prop where
  current : Map s.storage.current
  original : Map s.storage.original
  warm : Map s.storage.warm
  transient : Map s.transient
  accounts : Map s.accounts.accounts
  warmAccounts : Map s.accounts.warm
  hashes : ∀ l, s.hashes = some l → l.length = 256
  code : s.code.length < 2 ^ 16

/-- The same entries, in whatever order. -/
def SameEntries {K V : Type} (a b : GoMap K V) : Prop := ∀ e, e ∈ a ↔ e ∈ b

/-- The same values for all keys: an absent key has the value zero. -/
def SameValues {K : Type} (a b : GoMap K U256) : Prop := ∀ k v, v ≠ 0 → ((k, v) ∈ a ↔ (k, v) ∈ b)

/-- The hashes of the recent blocks; without an array they are zero. -/
def hashesOf (s : TestState) : List U256 := s.hashes.getD (List.replicate 256 0)

/-- The states agree in everything but the original values of storage, the internal state of the interpreter and the result. -/
structure SameOutside (s o : TestState) : Prop where
  code : s.code = o.code
  revision : s.revision = o.revision
  readOnly : s.readOnly = o.readOnly
  gas : s.gas = o.gas
  refund : s.refund = o.refund
  callContext : s.callContext = o.callContext
  past : s.past = o.past
  future : s.future = o.future
  block : s.block = o.block
  callData : s.callData = o.callData
  current : SameValues s.storage.current o.storage.current
  warm : SameEntries s.storage.warm o.storage.warm
  transient : SameValues s.transient o.transient
  accounts : SameEntries s.accounts.accounts o.accounts.accounts
  warmAccounts : SameEntries s.accounts.warm o.accounts.warm
  logs : s.logs = o.logs
  hasSelfDestructed : s.hasSelfDestructed = o.hasSelfDestructed
  selfDestructed : s.selfDestructed = o.selfDestructed
  hashes : hashesOf s = hashesOf o
  origin : s.origin = o.origin
  blobHashes : s.blobHashes = o.blobHashes

/-- Both program counters are the same, or both behind the end of the code. -/
def SamePc (s o : TestState) : Prop := s.pc = o.pc ∨ (s.code.length ≤ s.pc.toNat ∧ s.code.length ≤ o.pc.toNat)

/-- The states are the same to a test: same status, and if not failed the same outside; while running the same inside, at the end the same result. -/
def Alike (s o : TestState) : Prop :=
  s.status = o.status ∧ (s.status = .failed ∨
    (SameOutside s o ∧ SameEntries s.storage.original o.storage.original ∧
      if s.status = .running then SamePc s o ∧ s.stack = o.stack ∧ s.memory = o.memory ∧ s.lastCallReturnData = o.lastCallReturnData
      else s.returnData = o.returnData))

/-- There is nothing to report on two states: they agree in all components, in the original values up to zeros, in the result if there is one. -/
def Nothing (s o : TestState) : Prop :=
  s.status = o.status ∧ SameOutside s o ∧ SameValues s.storage.original o.storage.original ∧ s.pc = o.pc ∧ s.stack = o.stack ∧
    s.memory = o.memory ∧ s.lastCallReturnData = o.lastCallReturnData ∧
    ((s.status = .stopped ∨ s.status = .reverted) → s.returnData = o.returnData)

/-- What may differ between equal states: while running the place behind the end of the code, at the end what was inside. -/
def MayDiffer (status : CtStatus) (what : String) : Prop :=
  what = "pc" ∨ (status ≠ .running ∧ (what = "stack" ∨ what = "memory" ∨ what = "last call return data"))

/-- The test state `t` is the state `c` with the unchanging parts `x` of `Verif/Model/CtState`. -/
structure Represents (t : TestState) (x : Fixed) (c : S) : Prop where
  status : t.status = c.status
  pc : t.pc = c.pc
  gas : t.gas = c.gas
  refund : t.refund = c.refund
  stack : t.stack = c.stack
  memory : t.memory = c.memory
  last : t.lastCallReturnData = c.lastCallReturnData
  result : t.returnData = c.returnData
  current : ∀ k v, (k, v) ∈ t.storage.current ↔ c.world.current k = some v
  original : ∀ k v, (k, v) ∈ t.storage.original ↔ c.world.original k = some v
  warm : ∀ k, (k, ()) ∈ t.storage.warm ↔ c.world.warmKeys k = true
  transient : ∀ k v, (k, v) ∈ t.transient ↔ c.world.transient k = some v
  accounts : ∀ k v, (k, v) ∈ t.accounts.accounts ↔ c.world.accounts k = some v
  warmAccounts : ∀ k, (k, ()) ∈ t.accounts.warm ↔ c.world.warmAccounts k = true
  logs : t.logs = c.world.logs
  past : t.past = c.world.past
  future : t.future = c.world.future
  hasSelfDestructed : t.hasSelfDestructed = c.world.hasSelfDestructed
  selfDestructed : t.selfDestructed = c.world.selfDestructed
  revision : t.revision = x.revision
  readOnly : t.readOnly = x.readOnly
  code : t.code = x.code
  callContext : t.callContext = { account := x.account, caller := x.caller, value := x.value }
  block : t.block = x.block
  callData : t.callData = x.callData
  hashes : ∀ i, i < 256 → (hashesOf t)[i]? = some (x.hashes i)
  origin : t.origin = x.origin
  blobHashes : t.blobHashes = x.blobHashes

end Tosca.Spec.Compare

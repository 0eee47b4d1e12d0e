import Verif.Model.Persist
import Verif.Spec.GoCompare

/-!
# Specification: test states survive being written and read (C84)
-/

namespace Tosca.Spec.Persist

open Tosca.Go Tosca.Model.Ct Tosca.Model.Compare Tosca.Model.Persist Tosca.Spec.Compare

/-- The states that can be saved: a revision that is not negative, a stack within its limit, data shorter than a Go string may be (by their types). -/
structure Savable (s : TestState) : Prop where
  revision : 0 ≤ s.revision ∧ s.revision < 2 ^ 63
  stack : s.stack.length ≤ 1024

/-- `d` is what is written for `s`.  The entries of maps are in whatever order. -/
structure Written (s : TestState) (d : Document) : Prop where
  plain : d = { save s with
    current := d.current, original := d.original, warm := d.warm, transient := d.transient, balances := d.balances, codes := d.codes,
    warmAccounts := d.warmAccounts }
  current : d.current.Perm (save s).current
  original : d.original.Perm (save s).original
  warm : d.warm.Perm (save s).warm
  transient : d.transient.Perm (save s).transient
  balances : d.balances.Perm (save s).balances
  codes : d.codes.Perm (save s).codes
  warmAccounts : d.warmAccounts.Perm (save s).warmAccounts

/-- `t` is `s`, up to the order of the entries of maps. -/
structure Restored (s t : TestState) : Prop where
  plain : { t with storage := s.storage, transient := s.transient, accounts := s.accounts } = s
  current : SameEntries t.storage.current s.storage.current
  original : SameEntries t.storage.original s.storage.original
  warm : SameEntries t.storage.warm s.storage.warm
  transient : SameEntries t.transient s.transient
  accounts : SameEntries t.accounts.accounts s.accounts.accounts
  warmAccounts : SameEntries t.accounts.warm s.accounts.warm

end Tosca.Spec.Persist

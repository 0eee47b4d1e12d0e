import Verif.Model.Registry

/-!
# Specification: registries (C86)
-/

namespace Tosca.Spec.Registry

open Tosca.Model.Registry Tosca.Model.Compare

variable {F : Type}

/-- The calls that change a registry: registrations of a factory, which may be nil, under a name. -/
abbrev Calls (F : Type) := List (String × Option F)

/-- What a name stands for after some calls: the factory of the first call that has one, with this name in whatever case. -/
def registered (lower : String → String) (calls : Calls F) (name : String) : Option F :=
  (calls.filterMap fun c => if lower c.1 = lower name then c.2 else none).head?

/-- The registry after some calls. -/
def after (lower : String → String) (calls : Calls F) : Registry F :=
  calls.foldl (fun reg c => (register lower reg c.1 c.2).2) []

/-- The answer of a call. -/
def answer (lower : String → String) (calls : Calls F) (call : String × Option F) : Bool :=
  (register lower (after lower calls) call.1 call.2).1

end Tosca.Spec.Registry

import Verif.Model.Compare

/-!
# The registries of interpreters and processors

Models /repo/go/tosca/interpreter_registry.go, /repo/go/tosca/processor_registry.go and the registration of the experimental
configurations of LFVM (/repo/go/interpreter/lfvm/lfvm.go:45-96).  `lower` is `strings.ToLower`, here any function.  Every access is
made under a lock, so an execution of several threads is a sequence of these functions.
-/

namespace Tosca.Model.Registry

open Tosca.Model.Compare

/-- `interpreterRegistry`, `processorRegistry` (interpreter_registry.go:131, processor_registry.go:80). -/
abbrev Registry (F : Type) := GoMap String F

variable {F I C : Type}

/-- `GetInterpreterFactory`, `GetProcessorFactory` (interpreter_registry.go:69-73, processor_registry.go:46-50); `none` is nil. -/
def getFactory (lower : String → String) (reg : Registry F) (name : String) : Option F := entry reg (lower name)

/-- `GetAllRegisteredInterpreters`, `GetAllRegisteredProcessorFactories` (interpreter_registry.go:76-80, processor_registry.go:53-57):
a copy, which is a value here. -/
def getAll (reg : Registry F) : Registry F := reg

/-- `RegisterInterpreterFactory` (interpreter_registry.go:104-116) and, with a panic for `false`, `RegisterProcessorFactory`
(processor_registry.go:64-75): whether it succeeds, and the registry after it.  A factory may be nil. -/
def register (lower : String → String) (reg : Registry F) (name : String) (factory : Option F) : Bool × Registry F :=
  let key := lower name
  match factory with
  | none => (false, reg)
  | some f => if (entry reg key).isSome then (false, reg) else (true, reg ++ [(key, f)])

/-- The errors of `NewInterpreter`; `factory` is an error of the factory. -/
inductive Failure
  | tooManyArguments
  | notFound
  | factory
  deriving DecidableEq

/-- `NewInterpreter` (interpreter_registry.go:49-62).  A factory gets a configuration, `none` for nil, and gives an interpreter, or
`none` for an error. -/
def newInterpreter (lower : String → String) (reg : Registry (Option C → Option I)) (name : String) (config : List (Option C)) : Except Failure I :=
  if config.length > 1 then .error .tooManyArguments
  else
    match getFactory lower reg name with
    | none => .error .notFound
    | some factory =>
      match factory (config.head?.getD none) with
      | some i => .ok i
      | none => .error .factory

/-- `GetInterpreter` (interpreter_registry.go:34-40); `none` is nil. -/
def getInterpreter (lower : String → String) (reg : Registry (Option C → Option I)) (name : String) : Option I :=
  match newInterpreter lower reg name [none] with
  | .ok i => some i
  | .error _ => none

/-- The factory of `RegisterInterpreter` (interpreter_registry.go:90-93). -/
def always (impl : I) : Option C → Option I := fun _ => some impl

/-- The runners of a configuration (lfvm.go:61-69). -/
inductive Mode
  | plain
  | stats
  | logging
  deriving DecidableEq

/-- `config` (lfvm.go:98-102) with the fields of `ConversionConfig` that are set here. -/
structure Config where
  withSuperInstructions : Bool := false
  cacheSize : Int := 0
  withShaCache : Bool := false
  mode : Mode := .plain
  deriving DecidableEq

/-- The configurations and their names (lfvm.go:48-83), in the order they are made. -/
def experimental : List (String × Config) :=
  (["", "-si"].flatMap fun si => ["", "-no-sha-cache"].flatMap fun shaCache => ["", "-stats", "-logging"].filterMap fun mode =>
    let config : Config := { withSuperInstructions := si == "-si", withShaCache := shaCache != "-no-sha-cache" }
    let config := if mode == "-stats" then { config with mode := .stats }
      else if mode == "-logging" then { config with mode := .logging } else config
    let name := "lfvm" ++ si ++ shaCache ++ mode
    if name == "lfvm" then none else some (name, config)) ++
  [("lfvm-no-code-cache", { cacheSize := -1 })]

/-- The loop of `RegisterExperimentalInterpreterConfigurations` (lfvm.go:85-95) over the configurations in the order of an iteration:
whether all went well, and the registry after it.  `vm` is the factory of a configuration. -/
def registerConfigs (lower : String → String) (vm : Config → F) : Registry F → List (String × Config) → Bool × Registry F
  | reg, [] => (true, reg)
  | reg, (name, config) :: rest =>
    match register lower reg name (some (vm config)) with
    | (true, reg') => registerConfigs lower vm reg' rest
    | (false, reg') => (false, reg')

end Tosca.Model.Registry

import Mathlib.Logic.Relation
import Mathlib.Data.List.Chain

/-! Specification: dependency cycles and dependency orders. -/

namespace Ccpy.Spec

/-- A walk along `E` of at least one step that returns to its first vertex. -/
def ClosedWalk {V : Type*} (E : V → V → Prop) (c : List V) : Prop :=
  ∃ v mid, c = v :: mid ++ [v] ∧ c.IsChain E

/-- No vertex reaches itself in one or more steps. -/
def Acyclic {V : Type*} (E : V → V → Prop) : Prop := ∀ v, ¬ Relation.TransGen E v v

/-- A source line: the module it defines and the module it uses, if any (lower case). -/
structure SourceLine (M : Type*) where
  defines : Option M := none
  uses : Option M := none

/-- File `f` uses a module that is defined in the input file `g`. -/
def UsesFile {V M : Type*} (contents : V → List (SourceLine M)) (files : List V) (f g : V) : Prop :=
  f ∈ files ∧ g ∈ files ∧ ∃ m, (∃ l ∈ contents f, l.uses = some m) ∧ ∃ l ∈ contents g, l.defines = some m

/-- The modules defined by the input files, in order. -/
def definedModules {V M : Type*} (contents : V → List (SourceLine M)) (files : List V) : List M :=
  files.flatMap fun f => (contents f).filterMap (·.defines)

/-- A build order: the same files, each one after the files it depends on. -/
structure BuildOrder {V : Type*} (E : V → V → Prop) (files out : List V) : Prop where
  perm : out.Perm files
  after : ∀ f g, E f g → ∀ i j : ℕ, out[i]? = some f → out[j]? = some g → j < i

end Ccpy.Spec

import Verif.Sem.Client
/-!
# Specification: values are not duplicated
-/
namespace PinProject.Spec

/-- Where a value can be while a program runs. -/
inductive Place
  /-- in memory -/
  | mem (L : GLoc)
  /-- in, or part of, one of the values that pending operations hold: those on their way to a variable, to the
  place they are assigned to, or to their destructor -/
  | held (n : Nat) (path : List String)

/-- The value at a place. -/
def find (c : Config) : Place → Option V
  | .mem L => c.w.at L
  | .held n p => ((c.todo.flatMap Instr.vals)[n]?).bind (V.get p)

/-- The value `id` is at this place. -/
def IsAt (c : Config) (id : Id) (P : Place) : Prop := ∃ ty variant fs, find c P = some (.node id ty variant fs)

end PinProject.Spec

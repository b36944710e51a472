import Verif.Model.Emit
/-!
# Specification: hygiene of local variables

Rust resolves local variables (and `self`) hygienically: a use refers to a binding with the same name that has the
same syntax context, which is the context of the span. All other names of the expansion, of items, fields, methods
and `Self`, are not affected.
-/
namespace PinProject.Spec

/-- The local variables of generated functions. -/
def LocalVariable (x : String) : Prop :=
  x ∈ ["self", "this", "__self_ptr", "__guard", "__result", "__replacement", "__pinned_self"] ∨
  ∃ n : Nat, x = "_" ++ toString n

/-- `ctx` gives the syntax context of a span. Every local variable has one context in all of the function `ts`, so
that its uses refer to its binding. -/
def Hygienic (ctx : Span → Nat) (ts : List ETok) : Prop :=
  ∀ x s s', LocalVariable x → .word x s ∈ ts → .word x s' ∈ ts → ctx s = ctx s'

end PinProject.Spec

import Verif.Spec.Privacy
/-!
# Specification: documentation

What `rustdoc` shows of generated code in the documentation of a crate: types, if they are public and not inside the body of a
constant; functions of an impl, if they are public; impls of traits wherever they are written, unless they have
`#[doc(hidden)]` or the trait is private.
-/
namespace PinProject.Spec

/-- An entry of the documentation. -/
inductive DocEntry
  | type (name : String)
  | method (name : String)
  | impl (tr : GTrait) (name : String)
  deriving DecidableEq, Repr

/-- The entries for an item, except types. -/
def docEntries : GItem → List DocEntry
  | .inherent _ _ _ _ fns => (fns.filter (fun f => decide (f.vis = .pub))).map (fun f => .method f.name)
  | .traitImpl docHidden _ _ tr n _ _ _ => if docHidden = false ∧ traitVis tr = .pub then [.impl tr n] else []
  | _ => []

/-- The documentation of the expansion. -/
def docs (E : Expansion) : List DocEntry :=
  ((typeDefs E.exposed).filter (fun d => decide (d.vis = .pub))).map (fun d => .type d.name) ++
    (allItems E).flatMap docEntries

end PinProject.Spec

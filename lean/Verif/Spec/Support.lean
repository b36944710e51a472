import Verif.Model.Gen
import Verif.Spec.Shape
import Verif.Spec.Pin
/-!
# Specification: what a definition says about traits
-/
namespace PinProject.Spec

/-- Everything in a definition but its fields and variants, and whether it is a struct or an enum. -/
structure Header where
  attrs : List Attribute
  vis : Vis
  name : String
  generics : Generics

def itemHeader : Item → Option Header
  | .struct_ s => some ⟨s.attrs, s.vis, s.ident, s.generics⟩
  | .enum_ e => some ⟨e.attrs, e.vis, e.ident, e.generics⟩
  | .other _ => none

/-- The types of the fields with `#[pin]`, in the order of the definition. -/
def pinnedTypes (item : Item) : List Node := ((itemFields item).filter Pinned).map (·.ty)

/-- The generated traits and impls of traits, and the helper struct `__Name` that the bounds of `Unpin`
mention. -/
def isSupport (name : String) : GItem → Bool
  | .traitImpl .. => true
  | .traitDef _ => true
  | .blanketDrop _ => true
  | .struct_ _ _ n _ _ _ => n == "__" ++ noRaw name
  | _ => false

end PinProject.Spec

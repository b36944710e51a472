import Verif.Spec.Shape
/-!
# Specification: what makes the derive macro panic
-/
namespace PinProject.Spec

/-- The attributes contain no `#[pin_project]` and exactly one attribute called `pin`, which is
`#[pin()]` or `#[pin(word)]` (the delimiters do not matter). -/
structure StrayPin (attrs : List Attribute) : Prop where
  noPinProject : ∀ a ∈ attrs, ¬ a.path.isIdent "pin_project"
  onePin : ∃ p d toks, attrs.filter isPinAttr = [⟨.list p d toks⟩] ∧
    (toks = [] ∨ ∃ w, Identifier w ∧ toks = [.ident w])

end PinProject.Spec

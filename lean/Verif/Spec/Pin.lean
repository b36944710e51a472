import Verif.Model.Syntax
/-!
# Specification: which fields are pinned, which attribute usages are legal
-/
namespace PinProject.Spec

/-- Is this attribute named exactly `pin`? -/
def isPinAttr (a : Attribute) : Bool := a.path == { leading := false, segs := ["pin"] }

/-- A field is pinned when it carries a `#[pin]` attribute. -/
def Pinned (f : Field) : Bool := f.attrs.any isPinAttr

/-- Legal use of `#[pin]` on a field: at most once, and as a plain `#[pin]` without arguments. -/
def PinOk (attrs : List Attribute) : Prop :=
  attrs.filter isPinAttr = [] ∨
  attrs.filter isPinAttr = [⟨.path { leading := false, segs := ["pin"] }⟩]

instance (attrs : List Attribute) : Decidable (attrs.filter isPinAttr = []) :=
  decidable_of_iff ((attrs.filter isPinAttr).isEmpty = true) (by simp [List.isEmpty_iff])

end PinProject.Spec

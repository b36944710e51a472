import Verif.Spec.Shape
/-!
# Specification: the attributes the macro looks at
-/
namespace PinProject.Spec

/-- The attribute is `#[name ..]`, for a name without `::`. -/
def isAttr (name : String) (a : Attribute) : Bool := !a.path.leading && a.path.segs == [name]

/-- Of the attributes of a field, only `#[pin]` is kept. -/
def bareField (f : Field) : Field := { f with attrs := f.attrs.filter (isAttr "pin") }

def bareFields : Fields → Fields
  | .named fs => .named (fs.map bareField)
  | .unnamed fs => .unnamed (fs.map bareField)
  | .unit => .unit

/-- Of the attributes of a variant and its fields, only `#[pin]` is kept. -/
def bareVariant (v : Variant) : Variant :=
  { v with attrs := v.attrs.filter (isAttr "pin"), fields := bareFields v.fields }

/-- Of the attributes of an item itself, `#[pin]`, `#[pin_project]` and `#[repr]` are kept. -/
def bareAttrs (l : List Attribute) : List Attribute :=
  l.filter (fun a => isAttr "pin" a || isAttr "pin_project" a || isAttr "repr" a)

/-- The item without the attributes that should not matter: `#[pin]` is kept everywhere,
`#[pin_project]` and `#[repr]` are kept on the item itself, all others are removed. -/
def bare : Item → Item
  | .struct_ s => .struct_ { s with attrs := bareAttrs s.attrs, fields := bareFields s.fields }
  | .enum_ e => .enum_ { e with attrs := bareAttrs e.attrs, variants := e.variants.map bareVariant }
  | .other attrs => .other (bareAttrs attrs)

/-- The item without its `#[repr(..)]`. -/
def withoutRepr : Item → Item
  | .struct_ s => .struct_ { s with attrs := s.attrs.filter (fun a => !isAttr "repr" a) }
  | .enum_ e => .enum_ { e with attrs := e.attrs.filter (fun a => !isAttr "repr" a) }
  | .other attrs => .other (attrs.filter (fun a => !isAttr "repr" a))

end PinProject.Spec

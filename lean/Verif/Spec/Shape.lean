import Verif.Spec.Pin
import Verif.Spec.Repr
import Verif.Spec.Args
import Verif.Model.Args
/-!
# Specification: which items `#[pin_project]` may be applied to
-/
namespace PinProject.Spec

def itemAttrs : Item → List Attribute
  | .struct_ s => s.attrs
  | .enum_ e => e.attrs
  | .other a => a

/-- The name of the annotated type. -/
def itemName : Item → Option String
  | .struct_ s => some s.ident
  | .enum_ e => some e.ident
  | .other _ => none

/-- All fields of all variants. -/
def itemFields : Item → List Field
  | .struct_ s => s.fields.list
  | .enum_ e => e.variants.flatMap (fun v => v.fields.list)
  | .other _ => []

/-- A struct with a field; or an enum with a variant and a field, without discriminants and
without `#[pin]` on a variant. -/
def ShapeOk : Item → Prop
  | .struct_ s => s.fields.list ≠ []
  | .enum_ e =>
      e.variants ≠ [] ∧ (∃ v ∈ e.variants, v.fields.list ≠ []) ∧
      (∀ v ∈ e.variants, v.discriminant = none) ∧
      (∀ v ∈ e.variants, ∀ a ∈ v.attrs, isPinAttr a = false)
  | .other _ => False

/-- The identifier itself, without the `r#` that makes it raw. -/
def noRaw (s : String) : String :=
  match s.toList with
  | 'r' :: '#' :: rest => String.ofList rest
  | _ => s

def isStruct : Item → Bool
  | .struct_ _ => true
  | _ => false

/-- The names chosen by the user in the arguments. -/
def userNames (A : Args) : List String :=
  A.project.toList ++ A.projectRef.toList ++ A.projectReplace.ident.toList

/-- An enum must name the type for `project_replace`. -/
def ReplaceNamedOnEnum (A : Args) : Item → Prop
  | .enum_ _ => A.projectReplace ≠ .unnamed
  | _ => True

/-- Is this attribute named `pin` or `pin_project`? -/
def isOurs (a : Attribute) : Bool :=
  a.path == { leading := false, segs := ["pin"] } || a.path == { leading := false, segs := ["pin_project"] }

/-- `#[pin(__private(ARGS))]`: how the arguments of `#[pin_project(ARGS)]` reach the derive macro. -/
def carriedArgs (args : List TT) : Attribute :=
  ⟨.list { segs := ["pin"] } .paren [.ident "__private", .group .paren args]⟩

/-- `#[derive(::pin_project::__private::__PinProjectInternalDerive)]` -/
def deriveHelper : Attribute :=
  ⟨.list { segs := ["derive"] } .paren
    [.punct ':' true, .punct ':' false, .ident "pin_project", .punct ':' true, .punct ':' false,
     .ident "__private", .punct ':' true, .punct ':' false, .ident "__PinProjectInternalDerive"]⟩

/-- The derive macro sees an item on which `#[pin_project(ARGS)]` was written, and nobody has tampered with
the attributes called `pin` or `pin_project`. -/
def Written (args : List TT) (item : Item) : Prop := (itemAttrs item).filter isOurs = [carriedArgs args]

/-- An enum must name the type for `project_replace`. -/
def ReplaceNamedIn (as : List Arg) : Item → Prop
  | .enum_ _ => .projectReplace ∉ as
  | _ => True

/-! ## The tokens of an item -/

/-- A word that can be a segment of a module path. -/
def PathWord (s : String) : Prop := Identifier s ∨ s ∈ ["super", "self", "Self", "crate", "try"]

/-- `:: a :: b ..` -/
inductive PathTail : List TT → Prop
  | nil : PathTail []
  | cons {s j ts} : PathWord s → PathTail ts → PathTail (.punct ':' true :: .punct ':' j :: .ident s :: ts)

/-- `a :: b ..` or `:: a :: b ..` -/
inductive ModPath : List TT → Prop
  | rel {s ts} : PathWord s → PathTail ts → ModPath (.ident s :: ts)
  | abs {s j ts} : PathWord s → PathTail ts → ModPath (.punct ':' true :: .punct ':' j :: .ident s :: ts)

/-- A written visibility: nothing, `pub`, `pub(crate)`, `pub(self)`, `pub(super)` or `pub(in path)`. -/
inductive VisToks : List TT → Prop
  | inherited : VisToks []
  | pub : VisToks [.ident "pub"]
  | word {k} : k ∈ ["crate", "self", "super"] → VisToks [.ident "pub", .group .paren [.ident k]]
  | inPath {ts} : ModPath ts → VisToks [.ident "pub", .group .paren (.ident "in" :: ts)]

/-- The tokens start, after a visibility, with `struct` or `enum`. -/
def StructOrEnum (body : List TT) : Prop :=
  ∃ vis w more, VisToks vis ∧ (w = "struct" ∨ w = "enum") ∧ body = vis ++ .ident w :: more

end PinProject.Spec

import Verif.Spec.Projection
import Verif.Model.Derive
/-!
# Specification: projections of projections

A field of an annotated type may have an annotated type itself. `inner ⟨p, some l⟩` is the place of the value in the field `l` of
the value at place `p`. A chain calls the projection method of the first type, takes a field from the result, calls the projection
method of the type of this field on it, and so on.
-/
namespace PinProject.Spec

/-- One step: an annotated type, its expansion and projection method, the fields of the variant the value has, and the field that
is taken. -/
structure Link where
  item : Item
  code : Expansion
  fn : GFn
  fields : Fields
  label : String

/-- `project` or `project_ref`. -/
def projectName (isMut : Bool) : String := if isMut then "project" else "project_ref"

/-- The place that is reached from `p`. -/
def innerPlace (inner : Loc → Nat) : Nat → List String → Nat
  | p, [] => p
  | p, l :: ls => innerPlace inner (inner ⟨p, some l⟩) ls

/-- Every step is about an annotated type with this method, and a value of this type is in the place reached so far. -/
def LinksHold (inner : Loc → Nat) (isMut : Bool) (m : M) : Nat → List Link → Prop
  | _, [] => True
  | p, s :: rest =>
    parseDerive s.item = .ok s.code ∧ ItemWF s.item ∧ method s.code (projectName isMut) = some s.fn ∧
    (∃ o, m.mem p = some o ∧ IsValue s.item o s.fields) ∧ LinksHold inner isMut m (inner ⟨p, some s.label⟩) rest

/-- The field that is taken is a field with `#[pin]`. -/
def Link.Pins (s : Link) : Prop := ∃ (i : Nat) (f : Field), s.fields.list[i]? = some f ∧ fieldLabel i f = s.label ∧ Pinned f

/-- Running a chain: from the reference `v` and the memory `m` to the reference `w` and the memory `m'`. A step needs a pinned
reference in the field that is taken. -/
inductive LinkChain (orc : Oracle) (inner : Loc → Nat) : List Link → FVal → M → FVal → M → Prop
  | nil {v m} : LinkChain orc inner [] v m v m
  | step {s : Link} {rest tl v m name variant refs m1 isMut loc w m2} :
      callFn orc tl s.fn (.fv v) [] m = (some (.adt name variant refs), m1) →
      (s.label, .pinRef isMut loc) ∈ refs →
      LinkChain orc inner rest (.pinRef isMut ⟨inner loc, none⟩) m1 w m2 →
      LinkChain orc inner (s :: rest) v m w m2

/-- Different fields are in different places, and none of them is the place `root`. -/
structure Separate (inner : Loc → Nat) (root : Nat) : Prop where
  inj : ∀ a b, inner a = inner b → a = b
  root : ∀ a, inner a ≠ root

end PinProject.Spec

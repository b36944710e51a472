import Verif.Spec.WellFormed
/-!
# Specification: what happens when a value goes out of scope

A variable whose type has something to do when it is dropped is used once more at the end of its scope: what it borrows
must still be borrowed there, and what the destructor may access must still be alive. A variable whose type has nothing
to do is not, so that its borrows end with its last use. A value of a type with a `Drop` impl cannot be taken apart
(error E0509).
-/
namespace PinProject.Spec

/-- What the compiler knows about the types written by the user. -/
structure DropFacts where
  /-- dropping a value of the type runs code -/
  glue : Node → Prop
  /-- the destructors of a value of the type may access values of the type parameter `x`, or references with the
  lifetime parameter `x` -/
  access : Node → String → Prop

/-- Dropping a value of the type runs code. References, raw pointers and `PhantomData` have no destructors; `Pin<P>` has
the one of its field, of type `P`. The last forms do not occur in fields of projections; they count as having one. -/
def Glue (D : DropFacts) : GTy → Prop
  | .user n => D.glue n
  | .paren t | .pin _ t => Glue D t
  | .ref _ _ _ | .ptrMut _ | .phantomData _ _ | .phantomPinned | .unit => False
  | .adt _ _ | .param _ | .selfTy | .pinnedFieldsOf _ | .wrapper _ _ | .alwaysUnpin _ _ => True

/-- The destructors of a value of the type may access `x`. `PhantomData<T>` counts as a `T` here. -/
def Access (D : DropFacts) : GTy → String → Prop
  | .user n, x => D.access n x
  | .paren t, x | .pin _ t, x | .phantomData _ t, x => Access D t x
  | .ref _ _ _, _ | .ptrMut _, _ | .phantomPinned, _ | .unit, _ => False
  | .adt _ _, _ | .param _, _ | .selfTy, _ | .pinnedFieldsOf _, _ | .wrapper _ _, _ | .alwaysUnpin _ _, _ => True

/-- The type of this name has a `Drop` impl: one of the user (`own`), or one among the generated items. -/
def HasDrop (own : String → Prop) (items : List GItem) (name : String) : Prop :=
  own name ∨ ∃ hidden uns ps as ws fns, GItem.traitImpl hidden uns ps .drop name as ws fns ∈ items

/-- Dropping a value of the defined type runs code: its `Drop` impl, or destructors of fields. -/
def NeedsDrop (D : DropFacts) (own : String → Prop) (items : List GItem) (d : TypeDef) : Prop :=
  HasDrop own items d.name ∨ ∃ v ∈ d.variants, ∃ f ∈ v.2.fields, Glue D f.ty

/-- The argument for the parameter `x` must be alive when a value of the defined type is dropped: the value is dropped,
and either its `Drop` impl, which may access everything, or the destructors of fields may access it. -/
def AliveAtDrop (D : DropFacts) (own : String → Prop) (items : List GItem) (d : TypeDef) (x : String) : Prop :=
  NeedsDrop D own items d ∧
    ((HasDrop own items d.name ∧ x ∈ d.params.map GParam.name) ∨
      ∃ v ∈ d.variants, ∃ f ∈ v.2.fields, Access D f.ty x)

end PinProject.Spec

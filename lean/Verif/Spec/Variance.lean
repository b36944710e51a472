import Verif.Spec.WellFormed
/-!
# Specification: variance

A type is covariant in a parameter if replacing an argument by a subtype gives a subtype, contravariant if it gives a
supertype. Only lifetimes make types subtypes of one another, so this decides which lifetimes may be shortened.
-/
namespace PinProject.Spec

/-- In which positions a parameter occurs in a type written by the user: `V n x true` says that `x` occurs in a
covariant position of the type `n`, `V n x false` in a contravariant one. A type in which `x` occurs in both is invariant
in `x`. The compiler decides this from the definitions of the user's types, so it is arbitrary here. -/
abbrev Variances := Node → String → Bool → Prop

/-- The positions of a parameter in a type, by the rules of the language: `&'a T` is covariant in `'a` and in `T`;
`&'a mut T` is covariant in `'a` and invariant in `T`; `Pin<P>` and `PhantomData<T>` are covariant; `*mut T` is invariant.
The other forms do not occur in the fields of projections; they count as invariant. -/
def Occurs (V : Variances) : GTy → String → Bool → Prop
  | .user n, x, s => V n x s
  | .paren t, x, s | .pin _ t, x, s | .phantomData _ t, x, s => Occurs V t x s
  | .ref lt m t, x, s => (lt = some x ∧ s = true) ∨ Occurs V t x s ∨ (m = true ∧ Occurs V t x (!s))
  | .ptrMut t, x, s => Occurs V t x s ∨ Occurs V t x (!s)
  | .pinnedFieldsOf t, x, s => Occurs V t x s ∨ Occurs V t x (!s)
  | .adt _ as, x, _ => .lifetime x ∈ as ∨ .ident x ∈ as
  | .param n, x, _ => n = x
  | .wrapper lt t, x, s => lt = x ∨ Occurs V t x s ∨ Occurs V t x (!s)
  | .alwaysUnpin lt ps, x, _ => lt = x ∨ x ∈ ps
  | .phantomPinned, _, _ | .selfTy, _, _ | .unit, _, _ => False

/-- The positions of a parameter in a definition: those in its fields. -/
def OccursIn (V : Variances) (d : TypeDef) (x : String) (s : Bool) : Prop :=
  ∃ v ∈ d.variants, ∃ f ∈ v.2.fields, Occurs V f.ty x s

/-- An argument for `x` may be replaced by a subtype. -/
def Covariant (V : Variances) (d : TypeDef) (x : String) : Prop := ¬ OccursIn V d x false

/-- An argument for `x` may be replaced by a supertype. -/
def Contravariant (V : Variances) (d : TypeDef) (x : String) : Prop := ¬ OccursIn V d x true

end PinProject.Spec

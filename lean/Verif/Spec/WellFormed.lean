import Verif.Spec.Types
import Verif.Sem.Traits
/-!
# Specification: well-formed type definitions and impls

What rustc checks about the declarations of a type or an `impl`, before it looks at function bodies:
names are declared, declared once, and used (errors E0261, E0403, E0392, E0207, E0124, E0428).
-/
namespace PinProject.Spec

/-- Which generic parameters a type, bound or predicate written by the user uses. This is decided by
the compiler (for a type it depends on the definitions of other types), so it is arbitrary here. -/
abbrev Uses := Node → String → Prop

/-- The generic parameters a type uses. References, `Pin`, `PhantomData`, `Wrapper` and `AlwaysUnpin`
use all their arguments (for the last two see `C53_runtime`). -/
def TyUses (U : Uses) : GTy → String → Prop
  | .user n, x => U n x
  | .paren t, x | .pin _ t, x | .phantomData _ t, x | .ptrMut t, x | .pinnedFieldsOf t, x => TyUses U t x
  | .ref lt _ t, x => lt = some x ∨ TyUses U t x
  | .adt _ as, x => .lifetime x ∈ as ∨ .ident x ∈ as
  | .param n, x => n = x
  | .wrapper lt t, x => lt = x ∨ TyUses U t x
  | .alwaysUnpin lt ps, x => lt = x ∨ x ∈ ps
  | .phantomPinned, _ | .selfTy, _ | .unit, _ => False

/-- The generic parameters a where-predicate mentions. -/
def PredUses (U : Uses) : WPred → String → Prop
  | .user n, x => U n x
  | .outlives t lt, x => lt = x ∨ TyUses U t x
  | .bound t _, x => TyUses U t x

/-- The generic parameters mentioned in the bounds, the default or the type of a parameter. -/
def ParamUses (U : Uses) : GParam → String → Prop
  | .lifetime _ bs, x => x ∈ bs ∧ x ≠ "'static"
  | .type _ bs d, x => (∃ n ∈ bs, U n x) ∨ ∃ n ∈ d, U n x
  | .const _ t d, x => U t x ∨ ∃ n ∈ d, U n x

/-- A list of parameters: lifetimes first, lifetimes are the names that start with a quote, names are
distinct, and the names in bounds are declared. -/
structure ParamsWF (U : Uses) (ps : List GParam) : Prop where
  order : LifetimesFirst ps
  quotes : ∀ p ∈ ps, isLifetimeParam p = startsWith p.name "'"
  distinct : (ps.map GParam.name).Nodup
  declared : ∀ p ∈ ps, ∀ x, ParamUses U p x → x ∈ ps.map GParam.name

/-- A type definition. Constant parameters need not be used. Names are compared without `r#`. -/
structure DefWF (U : Uses) (d : TypeDef) : Prop where
  params : ParamsWF U d.params
  /-- names in where-clauses are declared -/
  preds : ∀ w ∈ d.preds, ∀ x, PredUses U w x → x ∈ d.params.map GParam.name
  /-- names in field types are declared -/
  fields : ∀ v ∈ d.variants, ∀ f ∈ v.2.fields, ∀ x, TyUses U f.ty x → x ∈ d.params.map GParam.name
  /-- lifetime and type parameters are used in a field -/
  used : ∀ p ∈ d.params, (∀ n t e, p ≠ .const n t e) → ∃ v ∈ d.variants, ∃ f ∈ v.2.fields, TyUses U f.ty p.name
  /-- variants have different names -/
  variants : (d.variants.map (fun v => v.1.map noRaw)).Nodup
  /-- fields have different names -/
  labels : ∀ v ∈ d.variants, (v.2.fields.zipIdx.map (fun x => noRaw (gLabel x.2 x.1))).Nodup

/-- An `impl<ps> .. Name<as> where ws`. -/
structure ImplWF (U : Uses) (ps : List GParam) (as : List GArg) (ws : List WPred) : Prop where
  params : ParamsWF U ps
  preds : ∀ w ∈ ws, ∀ x, PredUses U w x → x ∈ ps.map GParam.name
  /-- the arguments are parameters, each in its kind -/
  args : ∀ a ∈ as, ∃ p ∈ ps, ownArg p = a
  /-- type and constant parameters occur in the arguments -/
  constrained : ∀ p ∈ ps, isLifetimeParam p = false → ownArg p ∈ as

/-- The generics of an impl: parameters, arguments of the type, where-clause. The check of the fields of a
packed struct, a function with a parameter of type `Name<as>`, is treated as an impl. -/
def implHeader : GItem → Option (List GParam × List GArg × List WPred)
  | .inherent ps _ as ws _ | .traitImpl _ _ ps _ _ as ws _ | .assertNotPacked ps _ as ws _ => some (ps, as, ws)
  | _ => none

/-- The annotated type, as a definition in which `Self` has been resolved. -/
def sourceDef (item : Item) : TypeDef :=
  { vis := itemVis item
    name := (itemName item).getD ""
    params := itemParams item
    preds := itemPreds item
    variants := (itemVariants item).map (fun v => (v.1,
      ⟨fieldsDelim v.2, v.2.list.map (fun f => ⟨f.vis, f.ident, .user (resolved item f.ty)⟩)⟩)) }

end PinProject.Spec

import Verif.Spec.WellFormed
import Verif.Spec.Typing
/-!
# Specification: predicates that need a parameter, and references that live long enough

Two more checks of rustc for declarations: a where-predicate without any generic parameter is an error
if it does not hold (E0277), and in `&'a T` everything in `T` must be known to outlive `'a` (E0309, E0491).
-/
namespace PinProject.Spec

/-- No generic parameter is mentioned. rustc decides such a predicate on the spot and reports an error if it
does not hold, instead of just not using the impl. -/
def Global (U : Uses) (w : WPred) : Prop := ∀ x, ¬ PredUses U w x

/-- The parameter `x` is known to outlive `'lt`. From `T: 'lt` it follows that everything in `T` does. -/
inductive Outlives (U : Uses) (ps : List GParam) (known : WPred → Prop) : String → String → Prop
  | refl {x} : Outlives U ps known x x
  | pred {t lt x} : known (.outlives t lt) → TyUses U t x → Outlives U ps known x lt
  | bound {l bs b} : .lifetime l bs ∈ ps → b ∈ bs → Outlives U ps known l b
  | trans {x y z} : Outlives U ps known x y → Outlives U ps known y z → Outlives U ps known x z

/-- A type in generated code is well-formed: what references refer to outlives them, and for a type of `defs` (in
generated code always applied to parameters of the same names) the where-clause is known. The types of the user are not
looked into: they have been checked in the definition of the annotated type. -/
inductive TyWF (U : Uses) (defs : List TypeDef) (ps : List GParam) (known : WPred → Prop) : GTy → Prop
  | user {n} : TyWF U defs ps known (.user n)
  | paren {t} : TyWF U defs ps known t → TyWF U defs ps known (.paren t)
  | pin {r t} : TyWF U defs ps known t → TyWF U defs ps known (.pin r t)
  | phantomData {r t} : TyWF U defs ps known t → TyWF U defs ps known (.phantomData r t)
  | ptrMut {t} : TyWF U defs ps known t → TyWF U defs ps known (.ptrMut t)
  | pinnedFieldsOf {t} : TyWF U defs ps known t → TyWF U defs ps known (.pinnedFieldsOf t)
  | wrapper {lt t} : TyWF U defs ps known t → TyWF U defs ps known (.wrapper lt t)
  | phantomPinned : TyWF U defs ps known .phantomPinned
  | selfTy : TyWF U defs ps known .selfTy
  | unit : TyWF U defs ps known .unit
  | alwaysUnpin {lt l} : TyWF U defs ps known (.alwaysUnpin lt l)
  /-- an elided lifetime is as short as needed -/
  | elided {b t} : TyWF U defs ps known t → TyWF U defs ps known (.ref none b t)
  | ref {lt b t} : t ≠ .selfTy → (∀ x, TyUses U t x → Outlives U ps known x lt) → TyWF U defs ps known t →
      TyWF U defs ps known (.ref (some lt) b t)
  | adt {n as d} : d ∈ defs → d.name = n → as = d.params.map ownArg → (∀ w ∈ d.preds, known w) →
      TyWF U defs ps known (.adt n as)

/-- The types in a predicate are well-formed. -/
def PredWF (U : Uses) (defs : List TypeDef) (ps : List GParam) (known : WPred → Prop) : WPred → Prop
  | .user _ => True
  | .outlives t _ | .bound t _ => TyWF U defs ps known t

/-- The type an impl is for. -/
def implFor : GItem → Option GTy
  | .inherent _ n as _ _ | .traitImpl _ _ _ _ n as _ _ | .assertNotPacked _ n as _ _ => some (.adt n as)
  | _ => none

/-- The functions in an impl. -/
def implFunctions : GItem → List GFn
  | .inherent _ _ _ _ fns | .traitImpl _ _ _ _ _ _ _ fns => fns
  | _ => []

end PinProject.Spec

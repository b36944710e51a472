import Verif.Spec.Instances
/-!
# Specification: auto traits

`Send`, `Sync`, `Unpin`, `UnwindSafe` and the like: traits that a type without an impl of its own implements
exactly when all its fields do. They differ in when a reference implements them.
-/
namespace PinProject.Spec

/-- An auto trait: the ground types that implement it. -/
structure AutoTrait where
  holds : Ty → Prop
  /-- which references `&T` (`false`) and `&mut T` (`true`) implement it -/
  onRef : Bool → Ty → Prop

/-- The answers of an auto trait are consistent with the definitions in the program. `explicit` are the names
of the types with an impl (positive or negative) of the trait. `Pin<P>` and `PhantomData<T>` behave as if
they had a field of type `P` or `T`. -/
structure AutoTrait.Solves (T : AutoTrait) (P : Program) (N : Names) (explicit : String → Prop) : Prop where
  ref : ∀ b t, T.holds (.ref b t) ↔ T.onRef b t
  pin : ∀ t, T.holds (.pin t) ↔ T.holds t
  phantom : ∀ t, T.holds (.phantomData t) ↔ T.holds t
  adt : ∀ n args d, ¬ explicit n → P.defOf n = some d →
    (T.holds (.adt n args) ↔ ∀ v ∈ d.variants, ∀ f ∈ v.2.fields,
      T.holds (N.denote (substOf d.params args) (.adt n args) f.ty))

/-- What it takes of a field of type `F`, for the projection of the given mode to implement the trait. -/
def AutoTrait.needs (T : AutoTrait) : Mode → Ty → Prop
  | .proj, F => T.onRef true F
  | .projRef, F => T.onRef false F
  | .replace, F => T.holds F

/-- The arguments of the projected type of an instance: `project` and `project_ref` add the lifetime `r`. -/
def projArgs (mode : Mode) (r : TArg) (args : List TArg) : List TArg :=
  match mode with
  | .replace => args
  | _ => r :: args

/-- The name `n` means the generated type of that name. -/
def Denotes (P : Program) (E : Expansion) (n : String) : Prop :=
  ∀ d ∈ typeDefs (allItems E), d.name = n → P.defOf n = some d

/-- `Send`, given `Sync`: `&T` is `Send` if `T` is `Sync`, and `&mut T` is `Send` if `T` is. -/
def sendTrait (send sync : Ty → Prop) : AutoTrait := ⟨send, fun b t => if b then send t else sync t⟩

/-- `Sync`: a reference is `Sync` if its referent is. -/
def syncTrait (sync : Ty → Prop) : AutoTrait := ⟨sync, fun _ t => sync t⟩

/-- `Unpin`: references always are. -/
def unpinTrait (unpin : Ty → Prop) : AutoTrait := ⟨unpin, fun _ _ => True⟩

/-- `UnwindSafe`, given `RefUnwindSafe`: `&T` is if `T` is `RefUnwindSafe`, and `&mut T` never is. -/
def unwindTrait (unwind refUnwind : Ty → Prop) : AutoTrait := ⟨unwind, fun b t => if b then False else refUnwind t⟩

end PinProject.Spec

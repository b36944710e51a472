import Verif.Sem.Traits
import Verif.Spec.Instances
import Verif.Model.Derive
/-!
# Specification: trait resolution of recursive types

To find out whether a recursive type is `Unpin`, the compiler has to know whether it is `Unpin`. For an auto trait such as
`Unpin` it may assume so (the cycle is coinductive); not so for an ordinary trait such as `UnsafeUnpin`, where a goal must not
depend on itself.
-/
namespace PinProject.Spec

/-- The types that are `Unpin` if `UnsafeUnpin` holds for the types `Y`: cycles of `Unpin` goals are accepted. `S` are the
answers for types about which nothing is known. -/
def UnpinGiven (P : Program) (N : Names) (S : Facts) (Y : Ty → Prop) (t : Ty) : Prop :=
  ∃ X : Ty → Prop, (∀ t, X t → (P.step N S ⟨X, Y⟩).unpin t) ∧ X t

/-- The types that are `UnsafeUnpin`: those that are in every set which is closed under the rules for `UnsafeUnpin`. So no
goal depends on itself by way of `UnsafeUnpin`. -/
def UnsafeUnpinLeast (P : Program) (N : Names) (S : Facts) (t : Ty) : Prop :=
  ∀ Y : Ty → Prop, (∀ t, (P.step N S ⟨UnpinGiven P N S Y, Y⟩).unsafeUnpin t → Y t) → Y t

/-- What the compiler answers. -/
def answers (P : Program) (N : Names) (S : Facts) : Facts where
  unpin := UnpinGiven P N S (UnsafeUnpinLeast P N S)
  unsafeUnpin := UnsafeUnpinLeast P N S

/-- `t: Unpin` follows, by the rules of trait resolution, if the types `X` are assumed to be `Unpin`. -/
inductive UnpinFrom (P : Program) (N : Names) (S : Facts) (X : Ty → Prop) : Ty → Prop
  | assumed {t : Ty} (h : X t) : UnpinFrom P N S X t
  | known {t : Ty} (h : (answers P N S).unpin t) : UnpinFrom P N S X t
  | rule {t : Ty} (Z : Ty → Prop) (hZ : ∀ t, Z t → UnpinFrom P N S X t)
      (h : (P.step N S ⟨Z, (answers P N S).unsafeUnpin⟩).unpin t) : UnpinFrom P N S X t

/-- The program contains the expansion of an accepted definition without `!Unpin` and `UnsafeUnpin`. -/
structure HostsDefault (P : Program) (item : Item) (ident : String) : Prop where
  inScope : WellScoped item
  name : itemName item = some ident
  plain : ∃ E A, parseDerive item = .ok E ∧ parseArgs (itemAttrs item) = .ok A ∧ A.unpinImpl = .default ∧
    NamesOk ident A ∧ Hosts ident E P

end PinProject.Spec

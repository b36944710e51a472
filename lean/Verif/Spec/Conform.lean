import Verif.Spec.Typing
import Verif.Spec.PinnedDrop
/-!
# Specification: the traits that generated code implements

An impl has to match the declaration of its trait: it is `unsafe` if the trait is, and defines the functions
of the trait with the same signatures.
-/
namespace PinProject.Spec

/-- The signature of a function in a trait. A lifetime without a name is elided. -/
structure TraitFn where
  isUnsafe : Bool
  name : String
  generic : Bool
  recv : LTy
  params : List LTy
  ret : LTy

/-- `unsafe trait UnsafeUnpin {}` (src/lib.rs:181) is unsafe; `Unpin`, `Drop`, `PinnedDrop` (src/lib.rs:222) and
traits generated as `trait Name {}` are not. -/
def traitIsUnsafe : GTrait → Bool
  | .unsafeUnpin => true
  | _ => false

/-- The functions that a trait requires. -/
def traitFns : GTrait → List TraitFn
  /- `fn drop(&mut self);` -/
  | .drop => [⟨false, "drop", false, .ref none true .self_, [], .unit⟩]
  /- `unsafe fn drop(self: Pin<&mut Self>);`, src/lib.rs:224 -/
  | .pinnedDrop => [⟨true, "drop", false, .pin (.ref none true .self_), [], .unit⟩]
  | .unpin | .unsafeUnpin | .mustNotImplDrop _ => []

/-- `f` is written without a visibility (E0449 otherwise) and has this signature. -/
def Implements (f : GFn) (s : TraitFn) : Prop :=
  f.vis = .inherited ∧ f.isUnsafe = s.isUnsafe ∧ f.name = s.name ∧ f.ltParam.isSome = s.generic ∧
  tyOf f.recv = some s.recv ∧ f.params.map (fun p => tyOf p.2) = s.params.map some ∧ tyOf f.ret = some s.ret

/-- Functions match signatures, one by one. -/
inductive ImplementsAll : List GFn → List TraitFn → Prop
  | nil : ImplementsAll [] []
  | cons {f s fs ss} : Implements f s → ImplementsAll fs ss → ImplementsAll (f :: fs) (s :: ss)

/-- The expansion of `#[pinned_drop]` matches the declaration of `PinnedDrop`: it is not a negative impl, not `default` and not
`unsafe`, and has one item, `unsafe fn drop(self: Pin<&mut Self>)`, without visibility (E0449), `const`, `async`,
`extern`, generic parameters, predicates or `...`. -/
structure MatchesPinnedDrop (out : PinnedDropImpl) : Prop where
  positive : out.bang = false
  safe : out.isUnsafe = traitIsUnsafe .pinnedDrop
  notDefault : out.isDefault = false
  method : ∃ attrs sig innerAttrs block isMut short ty, out.items = [.drop attrs .inherited sig innerAttrs block] ∧ sig.quals = [] ∧
    sig.isUnsafe = true ∧ sig.ident = "drop" ∧ sig.generics.params = [] ∧ sig.generics.whereClause.getD [] = [] ∧
    sig.variadic = false ∧
    sig.inputs = [.receiver isMut short ty] ∧ IsPinMutSelf ty ∧
    (sig.output = none ∨ sig.output = some (.other "tuple" []))

end PinProject.Spec

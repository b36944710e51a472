import Verif.Spec.Bounds
/-!
# Specification: private types in public interfaces

rustc (E0445, E0446; since 1.74 lints) checks that an interface does not mention a type or trait that is less visible than
the interface itself: in the bounds and the fields of a type, in the bounds of an impl and in the signatures of functions.
-/
namespace PinProject.Spec

/-- The places where everything that a type, bound or predicate of the user mentions is visible. Arbitrary. -/
abbrev Shown := Node → ModAt → Prop

/-- `t` may be used in an interface that can be seen from the places `R`. The types of the standard library and of pin-project
can be used everywhere, and so can parameters. `Self` is the type an impl is for, which is visible wherever the impl matters.
`m` is the module of the definitions `defs`. -/
def TyShown (V : Shown) (m : ModAt) (defs : List TypeDef) (R : ModAt → Prop) : GTy → Prop
  | .user n => ∀ a, R a → V n a
  | .adt n _ => ∃ d ∈ defs, d.name = n ∧ ∀ a, R a → Visible d.vis m a
  | .paren t | .pin _ t | .phantomData _ t | .ptrMut t | .pinnedFieldsOf t | .ref _ _ t | .wrapper _ t => TyShown V m defs R t
  | .param _ | .alwaysUnpin _ _ | .phantomPinned | .selfTy | .unit => True

/-- The generated helper trait is private. -/
def traitVis : GTrait → Vis
  | .mustNotImplDrop _ => .inherited
  | _ => .pub

def PredShown (V : Shown) (m : ModAt) (defs : List TypeDef) (R : ModAt → Prop) : WPred → Prop
  | .user n => ∀ a, R a → V n a
  | .outlives t _ => TyShown V m defs R t
  | .bound t tr => TyShown V m defs R t ∧ ∀ a, R a → Visible (traitVis tr) m a

def ParamShown (V : Shown) (R : ModAt → Prop) : GParam → Prop
  | .lifetime _ _ => True
  | .type _ bs d => (∀ n ∈ bs, ∀ a, R a → V n a) ∧ ∀ n ∈ d, ∀ a, R a → V n a
  | .const _ t d => (∀ a, R a → V t a) ∧ ∀ n ∈ d, ∀ a, R a → V n a

/-- The check of a type definition. A field of a struct can be seen where the type and the field are visible; the fields of an
enum are as visible as the enum. -/
structure DefShown (V : Shown) (m : ModAt) (defs : List TypeDef) (d : TypeDef) : Prop where
  params : ∀ p ∈ d.params, ParamShown V (Visible d.vis m) p
  preds : ∀ w ∈ d.preds, PredShown V m defs (Visible d.vis m) w
  fields : ∀ v ∈ d.variants, ∀ f ∈ v.2.fields,
    TyShown V m defs (fun a => Visible d.vis m a ∧ (v.1 = none → Visible f.vis m a)) f.ty

/-- The places from which an impl can be seen: those where the type and the trait are visible. The check of the fields of a
packed struct is a private function. -/
def ImplSeen (m : ModAt) (defs : List TypeDef) : GItem → ModAt → Prop
  | .inherent _ n _ _ _, a => ∃ d ∈ defs, d.name = n ∧ Visible d.vis m a
  | .traitImpl _ _ _ tr n _ _ _, a => (∃ d ∈ defs, d.name = n ∧ Visible d.vis m a) ∧ Visible (traitVis tr) m a
  | _, a => Visible .inherited m a

/-- .. and one of its functions. Functions of trait impls have no visibility of their own. -/
def FnSeen (m : ModAt) (defs : List TypeDef) (i : GItem) (fn : GFn) (a : ModAt) : Prop :=
  ImplSeen m defs i a ∧ ∀ ps n as ws fns, i = .inherent ps n as ws fns → Visible fn.vis m a

/-- The check of an impl. -/
structure ImplShown (V : Shown) (m : ModAt) (defs : List TypeDef) (i : GItem) : Prop where
  params : ∀ ps as ws, implHeader i = some (ps, as, ws) → ∀ p ∈ ps, ParamShown V (ImplSeen m defs i) p
  preds : ∀ ps as ws, implHeader i = some (ps, as, ws) → ∀ w ∈ ws, PredShown V m defs (ImplSeen m defs i) w
  target : ∀ t, implFor i = some t → TyShown V m defs (ImplSeen m defs i) t
  fns : ∀ fn ∈ implFunctions i, TyShown V m defs (FnSeen m defs i fn) fn.recv ∧
    (∀ p ∈ fn.params, TyShown V m defs (FnSeen m defs i fn) p.2) ∧ TyShown V m defs (FnSeen m defs i fn) fn.ret

/-- A visibility names a module around the definition (E0742 otherwise), and not as `self` (see C43). -/
def VisPlaced (v : Vis) (m : ModAt) : Prop :=
  isPubSelf v = false ∧ ∀ a, Visible .inherited m a → Visible v m a

end PinProject.Spec

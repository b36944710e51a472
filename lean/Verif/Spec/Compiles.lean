import Verif.Spec.Conform
import Verif.Spec.Hygiene
import Verif.Spec.Projection
import Verif.Spec.Shadow
import Verif.Spec.Sized
import Verif.Spec.Typing
import Verif.Spec.Bounds
/-!
# Specification: does the generated code compile?

The checks that rustc does on items, put together from the specifications of the single checks: names, visibilities,
lifetimes, well-formed types and impls, sizes, types of expressions, and the signatures of traits. Not among them are
what depends on other code of the user: overlapping impls (C54, C65), and constants, methods and parameters that have the name of
something generated (C63, C81, C82).
-/
namespace PinProject.Spec

/-- A visibility that rustc takes (Rust reference, Visibility and Privacy): `pub(crate)`, `pub(self)`, `pub(super)`, or
`pub(in path)`, where the path starts with one of these words (since the 2018 edition). -/
def VisValid : Vis → Prop
  | .restricted false p => p.leading = false ∧ ∃ w ∈ ["crate", "self", "super"], p.segs = [w]
  | .restricted true p => p.leading = false ∧ ∃ w ∈ ["crate", "self", "super"], p.segs.head? = some w
  | .pub | .inherited => True

/-- The definition with the attribute removed compiles. `U` and `S` are what rustc knows about the types the user writes:
which parameters they use, and whether they are `Sized`. -/
structure SourceCompiles (U : Uses) (S : Sizes) (item : Item) (ident : String) : Prop where
  name : itemName item = some ident
  /-- after an initial `r#`, an identifier contains no `#` -/
  lex : '#' ∉ (noRaw ident).toList
  wf : ItemWF item
  type_ : DefWF U (sourceDef item)
  sizes : DefSizes S item [] (sourceDef item)
  lifetimes : ¬ Redeclares (itemGenerics item).params (itemNodes item)
  preds : ∀ w ∈ (itemGenerics item).whereClause.getD [], ∃ n, w = .user n
  vis : VisValid (itemVis item)
  fields : ∀ f ∈ itemFields item, VisValid f.vis

/-- `impl<ps> [Trait for] n<as> where ws { fns }` is in the expansion. -/
def HasImpl (E : Expansion) (ps : List GParam) (n : String) (as : List GArg) (ws : List WPred) (fns : List GFn) : Prop :=
  GItem.inherent ps n as ws fns ∈ allItems E ∨
  ∃ hidden isUnsafe tr, GItem.traitImpl hidden isUnsafe ps tr n as ws fns ∈ allItems E

/-- The expansion compiles. -/
structure Compiles (U : Uses) (S : Sizes) (item : Item) (ident : String) (E : Expansion) : Prop where
  /-- no name is defined twice -/
  names : ((ident :: generatedNames E).map noRaw).Nodup
  /-- visibilities of types, fields and functions -/
  vis : ∀ d ∈ typeDefs (allItems E), VisValid d.vis ∧ ∀ v ∈ d.variants, ∀ f ∈ v.2.fields, VisValid f.vis
  fnVis : ∀ i ∈ allItems E, ∀ fn ∈ implFunctions i, VisValid fn.vis
  /-- no lifetime is declared again where it is in scope -/
  lifetimes : ∀ d ∈ typeDefs (allItems E), ¬ Redeclares d.params d.nodes
  /-- types and impls are well-formed: all names are declared, no parameter is unused or not determined -/
  types : ∀ d ∈ typeDefs (allItems E), DefWF U d
  impls : ∀ i ∈ allItems E, ∀ ps as ws, implHeader i = some (ps, as, ws) → ImplWF U ps as ws
  /-- references do not outlive what they refer to -/
  refs : ∀ d ∈ typeDefs (allItems E), ∀ v ∈ d.variants, ∀ f ∈ v.2.fields,
    TyWF U (sourceDef item :: typeDefs (allItems E)) d.params (· ∈ d.preds) f.ty
  /-- fields, and what functions take, return and move, have a known size where this is needed -/
  sizes : ∀ d ∈ typeDefs (allItems E), DefSizes S item (typeDefs (allItems E)) d
  fnSizes : ∀ ps n as ws fns, HasImpl E ps n as ws fns → ∀ fn ∈ fns, FnSizes S item (typeDefs (allItems E)) ps ws fn
  /-- the bodies of all functions type check -/
  bodies : ∀ ps n as ws fns, HasImpl E ps n as ws fns → ∀ fn ∈ fns, WellTyped (fnSite item E ps n as ws fn) fn
  /-- impls match the declarations of their traits -/
  conform : ∀ hidden isUnsafe ps tr n as ws fns, GItem.traitImpl hidden isUnsafe ps tr n as ws fns ∈ allItems E →
    isUnsafe = traitIsUnsafe tr ∧ ImplementsAll fns (traitFns tr)

/-- Is there a projection of this mode? On an enum only if the user names its type. -/
def Offers (A : Args) (item : Item) : Mode → Prop
  | .proj => isStruct item ∨ A.project ≠ none
  | .projRef => isStruct item ∨ A.projectRef ≠ none
  | .replace => A.projectReplace ≠ .none

/-- The lifetime of projections is `'pin`, with as few underscores behind it as are needed so that no lifetime declared in
the generics starts with it. -/
def IsPinLifetime (item : Item) (lt : String) : Prop :=
  ∃ k, lt.toList = "'pin".toList ++ List.replicate k '_' ∧
    (∀ l, GenericsDeclare (itemGenerics item) l → ¬ lt.toList <+: l.toList) ∧
    ∀ j, j < k → ∃ l, GenericsDeclare (itemGenerics item) l ∧ "'pin".toList ++ List.replicate j '_' <+: l.toList

/-- What a user has to avoid. -/
structure Unexceptional (S : Sizes) (A : Args) (item : Item) (ident lt : String) : Prop where
  /-- the names given for projection types are different, and not among those that pin-project makes up (C44) -/
  names : ((ident :: userNames A).map noRaw).Nodup ∧ ∀ n ∈ userNames A, noRaw n ∉ madeUp A item (noRaw ident)
  /-- no `pub(self)` (C43) -/
  vis : (A.unpinImpl = .default ∨ ∃ mode, Offers A item mode) → isPubSelf (itemVis item) = false
  fields : (∃ mode, Offers A item mode) → ∀ f ∈ itemFields item, isPubSelf f.vis = false
  /-- no `for<'pin>` in the types of the fields (C46) -/
  lifetimes : ∀ f ∈ itemFields item,
    Offers A item .proj ∨ Offers A item .projRef ∨ (A.unpinImpl = .default ∧ Pinned f) → ¬ Declares f.ty lt
  /-- a type with a lifetime parameter and a pinned, unsized last field implements `Unpin` in another way (C55) -/
  tail : ¬ (A.unpinImpl = .default ∧ (∃ p ∈ (itemGenerics item).params, isLifetimeParam p = true) ∧ PinnedUnsizedTail S item)
  /-- `project_replace` needs a type that is `Sized` (C55) -/
  replaceSized : Offers A item .replace → SelfSized S item (itemParams item) (itemPreds item)
  /-- .. and no `#[pin]` fields called `__result`, or `__guard` (C42) -/
  replaceNames : Offers A item .replace → ∀ v ∈ itemVariants item, NamesFree v.2

end PinProject.Spec

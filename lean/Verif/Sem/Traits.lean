import Verif.Spec.Types
import Verif.Spec.Tree
/-!
# Trait resolution

What it means for a type to be `Unpin` or `UnsafeUnpin`, given the impls and the type definitions in a
program: the generated ones, those of the runtime crate, and impls written by the user.

Ground types are instantiations: generic parameters have been replaced by concrete arguments. How the
syntax of a user-written type is resolved, and which user-written bounds hold, is a parameter (`Names`),
so every theorem holds for every meaning of the user's types and bounds. Lifetimes are arguments like
any other; relations between lifetimes are not modelled (trait selection in rustc erases regions too).

Comments cite the code in /repo that a definition runs or is about. Definitions without a citation are rules of Rust and
have no counterpart in /repo.
-/
namespace PinProject

mutual
/-- A generic argument. -/
inductive TArg
  | lt (n : Nat)
  | ty (t : Ty)
  | cst (n : Nat)
/-- A ground type. -/
inductive Ty
  /-- any type about which nothing is known: foreign types, primitive types -/
  | ext (n : Nat) (args : List TArg)
  /-- a type defined in the program or in the runtime crate, applied to arguments -/
  | adt (name : String) (args : List TArg)
  | ref (isMut : Bool) (t : Ty)
  | ptr (t : Ty)
  | pin (t : Ty)
  | phantomData (t : Ty)
  | phantomPinned
  | tuple (ts : List Ty)
end

instance : Inhabited TArg := ⟨.lt 0⟩
instance : Inhabited Ty := ⟨.phantomPinned⟩

/-- The type in an argument. -/
def TArg.asTy : TArg → Ty
  | .ty t => t
  | _ => default

/-- An assignment of arguments to generic parameters; `none` for names that are no parameters. -/
abbrev Subst := String → Option TArg

/-- The name of a parameter, derive.rs:790-801. -/
def GParam.name : GParam → String
  | .lifetime n _ => n
  | .type n _ _ => n
  | .const n _ _ => n

/-- The name in an argument, derive.rs:216. -/
def GArg.name : GArg → String
  | .lifetime n => n
  | .ident n => n

/-- The assignment of arguments to parameters. -/
def substOf : List GParam → List TArg → Subst
  | p :: ps, a :: as => fun x => if x = p.name then some a else substOf ps as x
  | _, _ => fun _ => none

/-- What the user's names mean. -/
structure Names where
  /-- the type a piece of type syntax denotes -/
  den : Subst → Node → Ty
  /-- does this where-predicate hold? -/
  pred : Subst → Node → Prop
  /-- does parameter `p` satisfy this bound? -/
  bound : Subst → String → Node → Prop
  /-- is the size of values of this type known at compile time (`T: Sized`)? -/
  sized : Ty → Prop := fun _ => True

/-- Identifiers in a token list, at any depth. -/
def tokIdents : List TT → List String
  | [] => []
  | .ident s :: rest => s :: tokIdents rest
  | .group _ ts :: rest => tokIdents ts ++ tokIdents rest
  | .punct _ _ :: rest => tokIdents rest
  | .lit _ :: rest => tokIdents rest

/-- The lifetime `l` is mentioned in `n` (used, declared by `for<..>`, or possibly in a macro call). -/
def MentionsLt (n : Node) (l : String) : Prop :=
  Spec.Within (.lifetime l) n ∨ Spec.Declares n l ∨
  ∃ p toks, (Spec.Within (.mac p toks) n ∨ Spec.Within (.itemMac p toks) n) ∧
    String.ofList l.toList.tail ∈ tokIdents toks

/-- Extend an assignment. -/
def Subst.set (σ : Subst) (l : String) (v : TArg) : Subst := fun x => if x = l then some v else σ x

/-- The only thing required of the meaning of user syntax: a lifetime parameter that is not mentioned
does not matter. -/
structure Names.Lawful (N : Names) : Prop where
  den : ∀ σ l v n, startsWith l "'" → ¬ MentionsLt n l → N.den (Subst.set σ l v) n = N.den σ n
  pred : ∀ σ l v n, startsWith l "'" → ¬ MentionsLt n l → (N.pred (Subst.set σ l v) n ↔ N.pred σ n)
  bound : ∀ σ l v p n, startsWith l "'" → ¬ MentionsLt n l →
    (N.bound (Subst.set σ l v) p n ↔ N.bound σ p n)

/-- The name of `Wrapper` of the runtime crate; it cannot clash with an identifier. (src/lib.rs:281) -/
def wrapperName : String := "pin_project::Wrapper"
/-- The name of `AlwaysUnpin`, src/lib.rs:306. -/
def alwaysUnpinName : String := "pin_project::AlwaysUnpin"

/-- The argument for a parameter of derive.rs:790-801. -/
def Subst.get (σ : Subst) (x : String) : TArg := (σ x).getD default

/-- The ground type denoted by a type in generated code. `PinnedFieldsOf<T>` is the associated type
`Actual` of `PinnedFieldsOfHelperStruct<T>`, which lib.rs:298-300 defines as `T`. -/
def Names.denote (N : Names) (σ : Subst) (self : Ty) : GTy → Ty
  | .user n => N.den σ n
  | .paren t => N.denote σ self t
  | .ref _ b t => .ref b (N.denote σ self t)
  | .pin _ t => .pin (N.denote σ self t)
  | .phantomData _ t => .phantomData (N.denote σ self t)
  | .phantomPinned => .phantomPinned
  | .adt n as => .adt n (as.map (fun a => σ.get a.name))
  | .param n => (σ.get n).asTy
  | .selfTy => self
  | .ptrMut t => .ptr (N.denote σ self t)
  | .pinnedFieldsOf t => N.denote σ self t
  | .wrapper lt t => .adt wrapperName [σ.get lt, .ty (N.denote σ self t)]
  | .alwaysUnpin lt ps =>
    .adt alwaysUnpinName [σ.get lt, .ty (.tuple (ps.map (fun p => .phantomData (σ.get p).asTy)))]
  | .unit => .tuple []

/-- The parts of the runtime crate that take part in trait resolution, as code:
lib.rs:281 `pub struct Wrapper<'a, T: ?Sized>(PhantomData<&'a ()>, T);`
lib.rs:283 `unsafe impl<T: ?Sized + UnsafeUnpin> UnsafeUnpin for Wrapper<'_, T> {}`
lib.rs:306 `pub struct AlwaysUnpin<'a, T>(PhantomData<&'a ()>, PhantomData<T>);`
lib.rs:307 `impl<T> Unpin for AlwaysUnpin<'_, T> {}`.
(The bound `?Sized` is not part of these headers: C55 and `Negative.unsized` are about sizes.) -/
def runtimeItems : List GItem :=
  [ .struct_ [] .pub wrapperName [.lifetime "'a" [], .type "T" [] none] []
      ⟨some .paren, [⟨.inherited, none, .phantomData .abs (.ref (some "'a") false .unit)⟩,
        ⟨.inherited, none, .param "T"⟩]⟩,
    .traitImpl false true [.lifetime "'a" [], .type "T" [] none] .unsafeUnpin wrapperName
      [.lifetime "'a", .ident "T"] [.bound (.param "T") .unsafeUnpin] [],
    .struct_ [] .pub alwaysUnpinName [.lifetime "'a" [], .type "T" [] none] []
      ⟨some .paren, [⟨.inherited, none, .phantomData .abs (.ref (some "'a") false .unit)⟩,
        ⟨.inherited, none, .phantomData .abs (.param "T")⟩]⟩,
    .traitImpl false false [.lifetime "'a" [], .type "T" [] none] .unpin alwaysUnpinName
      [.lifetime "'a", .ident "T"] [] [] ]

/-- An impl written by the user, for the type `name`: the instantiations it covers, and those that the
compiler's overlap check must assume it covers. (what derive.rs:746-757, 837-847, 887-900 guard against) -/
structure UImpl where
  tr : GTrait
  name : String
  covers : List TArg → Prop
  mayCover : List TArg → Prop := covers
  sound : ∀ args, covers args → mayCover args := by exact fun _ h => h

/-- The expansions (derive.rs:66-108), the definitions and the impls of the user. -/
structure Program where
  items : List GItem
  user : List UImpl

/-- Which types implement the traits: a candidate answer. -/
structure Facts where
  unpin : Ty → Prop
  unsafeUnpin : Ty → Prop

/-- Does the type implement the trait, according to `F`? (The other traits never occur in bounds.) -/
def Facts.holds (F : Facts) (t : Ty) : GTrait → Prop
  | .unpin => F.unpin t
  | .unsafeUnpin => F.unsafeUnpin t
  | _ => False

/-- Does a predicate hold? (derive.rs:704-708, 727-731, 806-809; utils.rs:62-67). -/
def WPred.holds (N : Names) (F : Facts) (σ : Subst) (self : Ty) : WPred → Prop
  | .user n => N.pred σ n
  | .outlives _ _ => True
  | .bound t tr => F.holds (N.denote σ self t) tr

/-- The bounds written on a parameter. -/
def GParam.boundsOf : GParam → List (String × Node)
  | .type n bounds _ => bounds.map (fun b => (n, b))
  | _ => []

/-- The bounds written on the parameters hold. -/
def ParamsOk (N : Names) (σ : Subst) (ps : List GParam) : Prop :=
  ∀ p ∈ ps, ∀ b ∈ p.boundsOf, N.bound σ b.1 b.2

/-- A trait impl in the program: its parameters, the arguments of its self type, its where-clause.
(derive.rs:714, 741, 753, 832, 844) -/
structure ImplHeader where
  params : List GParam
  args : List GArg
  preds : List WPred

/-- The header of an impl of a trait for a type, derive.rs:714, 741, 753, 832, 844. -/
def GItem.implOf (tr : GTrait) (name : String) : GItem → Option ImplHeader
  | .traitImpl _ _ ps tr' n as ws _ => if tr' = tr ∧ n = name then some ⟨ps, as, ws⟩ else none
  | _ => none

/-- The impls of `tr` for the type called `name`. (derive.rs:714, 741, 753, 832, 844) -/
def implsOf (items : List GItem) (tr : GTrait) (name : String) : List ImplHeader :=
  items.filterMap (GItem.implOf tr name)

/-- The impl applies to `name<args>`: for some assignment to its parameters, its self type is
`name<args>` and its bounds hold. -/
def ImplHeader.Applies (N : Names) (F : Facts) (h : ImplHeader) (name : String) (args : List TArg) : Prop :=
  ∃ vals : List TArg, vals.length = h.params.length ∧
    let σ := substOf h.params vals
    h.args.map (fun a => σ a.name) = args.map some ∧ ParamsOk N σ h.params ∧
    ∀ w ∈ h.preds, w.holds N F σ (.adt name args)

/-- Some impl of `tr` applies to `name<args>`. -/
def Program.Implements (P : Program) (N : Names) (F : Facts) (tr : GTrait) (name : String) (args : List TArg) : Prop :=
  (∃ h ∈ implsOf P.items tr name, h.Applies N F name args) ∨
  ∃ u ∈ P.user, u.tr = tr ∧ u.name = name ∧ u.covers args

/-- Is there an explicit impl of `tr` for the type called `name`? -/
def Program.HasImpl (P : Program) (tr : GTrait) (name : String) : Prop :=
  implsOf P.items tr name ≠ [] ∨ ∃ u ∈ P.user, u.tr = tr ∧ u.name = name

/-- The definition of the type called `name`. -/
def Program.defOf (P : Program) (name : String) : Option Spec.TypeDef :=
  (Spec.typeDefs P.items).find? (fun d => d.name == name)

/-- One step of resolving `t: Unpin`. `Unpin` is an auto trait: a type with an explicit impl implements
it exactly when the impl applies; a type without one implements it when all its fields do. References,
raw pointers and `Pin<P>` (when `P: Unpin`) are `Unpin`; `PhantomPinned` is not. For types about which
nothing is known, the given answer `F` is kept. (with src/lib.rs:281, 306-307) -/
def Program.unpinStep (P : Program) (N : Names) (F : Facts) : Ty → Prop
  | .ext n as => F.unpin (.ext n as)
  | .ref _ _ => True
  | .ptr _ => True
  | .pin t => F.unpin t
  | .phantomData t => F.unpin t
  | .phantomPinned => False
  | .tuple ts => ∀ t ∈ ts, F.unpin t
  | .adt n as =>
    (P.HasImpl .unpin n ∧ P.Implements N F .unpin n as) ∨
    (¬ P.HasImpl .unpin n ∧ match P.defOf n with
      | some d => ∀ v ∈ d.variants, ∀ f ∈ v.2.fields,
          F.unpin (N.denote (substOf d.params as) (.adt n as) f.ty)
      | none => F.unpin (.adt n as))

/-- One step of resolving `t: UnsafeUnpin`, an ordinary trait. (with src/lib.rs:283) -/
def Program.unsafeUnpinStep (P : Program) (N : Names) (F : Facts) : Ty → Prop
  | .ext n as => F.unsafeUnpin (.ext n as)
  | .adt n as => P.Implements N F .unsafeUnpin n as
  | _ => False

/-- `F` is a solution of trait resolution: the answers are consistent with all impls and definitions.
(rustc computes the greatest solution for `Unpin` and the least one for `UnsafeUnpin`; the theorems
hold for every solution.) -/
structure Program.Solves (P : Program) (N : Names) (F : Facts) : Prop where
  unpin : ∀ t, F.unpin t ↔ P.unpinStep N F t
  unsafeUnpin : ∀ t, F.unsafeUnpin t ↔ P.unsafeUnpinStep N F t

/-- One step, with the answers `S` for types about which nothing is known. -/
def Program.step (P : Program) (N : Names) (S F : Facts) : Facts where
  unpin t := match t with
    | .ext n as => S.unpin (.ext n as)
    | .adt n as => (P.HasImpl .unpin n ∨ (P.defOf n).isSome) ∧ P.unpinStep N F (.adt n as) ∨
        ¬ P.HasImpl .unpin n ∧ P.defOf n = none ∧ S.unpin (.adt n as)
    | t => P.unpinStep N F t
  unsafeUnpin t := match t with
    | .ext n as => S.unsafeUnpin (.ext n as)
    | t => P.unsafeUnpinStep N F t

/-! ## Coherence -/

/-- The compiler's negative reasoning during the overlap check: predicates and bounds it takes to be
false. (see src/lib.rs:227-279) -/
structure Negative where
  pred : Subst → Ty → WPred → Prop
  bound : Subst → String → Node → Prop
  /-- types taken not to be `Sized` -/
  unsized : Ty → Prop := fun _ => False

/-- What the overlap check may use: a user-written predicate is only taken to be false if it is; and
nothing is known about the associated type `PinnedFieldsOf<..>` of a foreign type, because a later
version of that crate could change it (lib.rs:227-300). Relations between lifetimes are ignored. A type is
only taken not to be `Sized` if it is not. -/
structure Negative.Sound (K : Negative) (N : Names) : Prop where
  user : ∀ σ t n, K.pred σ t (.user n) → ¬ N.pred σ n
  bound : ∀ σ p n, K.bound σ p n → ¬ N.bound σ p n
  outlives : ∀ σ t s l, ¬ K.pred σ t (.outlives s l)
  foreign : ∀ σ t s tr, ¬ K.pred σ t (.bound (.pinnedFieldsOf s) tr)
  unsized : ∀ t, K.unsized t → ¬ N.sized t

/-- The overlap check must assume that the impl could apply to `name<args>`. (see src/lib.rs:264-272) -/
def ImplHeader.MayApply (K : Negative) (h : ImplHeader) (name : String) (args : List TArg) : Prop :=
  ∃ vals : List TArg, vals.length = h.params.length ∧
    let σ := substOf h.params vals
    h.args.map (fun a => σ a.name) = args.map some ∧
    (∀ p ∈ h.params, ∀ b ∈ p.boundsOf, ¬ K.bound σ b.1 b.2) ∧
    ∀ w ∈ h.preds, ¬ K.pred σ (.adt name args) w

/-- An impl as the coherence check sees it: its trait, and the self types it might apply to. -/
structure Reach where
  tr : GTrait
  reach : Ty → Prop

/-- Types that might implement `Drop`: foreign types, and local types with an impl that might apply.
(derive.rs:904-914) -/
def MayDrop (items : List GItem) (user : List UImpl) (K : Negative) : Ty → Prop
  | .adt n as =>
    (∃ h ∈ implsOf items .drop n, h.MayApply K n as) ∨
    ∃ u ∈ user, u.tr = .drop ∧ u.name = n ∧ u.mayCover as
  | _ => True

/-- The impls of the traits among generated items. The blanket impl is `impl<T: Drop> Name for T` (derive.rs:913),
where `T` has to be `Sized` because there is no `?Sized`. -/
def reachOf (items : List GItem) (user : List UImpl) (K : Negative) : GItem → Option Reach
  | .traitImpl _ _ ps tr n as ws _ =>
    some ⟨tr, fun t => ∃ args, t = .adt n args ∧ ImplHeader.MayApply K ⟨ps, as, ws⟩ n args⟩
  | .blanketDrop n => some ⟨.mustNotImplDrop n, fun t => MayDrop items user K t ∧ ¬ K.unsized t⟩
  | _ => none

/-- An impl of the user as the coherence check sees it (derive.rs:904-910). -/
def UImpl.reach (u : UImpl) : Reach := ⟨u.tr, fun t => ∃ args, t = .adt u.name args ∧ u.mayCover args⟩

/-- Two impls conflict. (derive.rs:908-910, 922-925) -/
def Reach.Overlap (a b : Reach) : Prop := a.tr = b.tr ∧ ∃ t, a.reach t ∧ b.reach t

/-- No two impls in the program conflict. (derive.rs:908-910, 922-925) -/
def Program.Coherent (P : Program) (K : Negative) : Prop :=
  (P.items.filterMap (reachOf P.items P.user K) ++ P.user.map UImpl.reach).Pairwise (fun a b => ¬ a.Overlap b)

end PinProject

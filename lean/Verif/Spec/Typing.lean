import Verif.Spec.Types
/-!
# Specification: typing of generated functions

The rules of Rust for the expressions and statements that occur in generated functions (`Model/Gen.lean`):
types of local variables, moves, match ergonomics, generic parameters in scope, predicates that have to be
known, and `unsafe`. These rules know nothing about pin-project, except for the signatures of the items of
its `__private` module.

A value of a type that is not `Copy` can be used only once. (Rust would sometimes reborrow a `&mut`
reference instead of moving it, so these rules accept less than rustc.) A name in a pattern is a new variable,
unless it is the name of a constant. Names in `let x = ..` and parameters are taken to be new variables.
Not covered: sizes (`Spec/Sized.lean`) and
the check of lifetimes of local borrows.
-/
namespace PinProject.Spec

/-- Types of local variables and of expressions. -/
inductive LTy
  /-- the annotated type -/
  | self_
  /-- the type of a field, with `Self` resolved -/
  | field (F : Node)
  /-- `&'lt [mut] T`; without a name, the lifetime is elided -/
  | ref (lt : Option String) (isMut : Bool) (t : LTy)
  | pin (t : LTy)
  /-- `*mut T` -/
  | ptr (t : LTy)
  /-- `PhantomData<T>` -/
  | phantom (t : LTy)
  /-- a generated type -/
  | adt (name : String) (args : List GArg)
  /-- `UnsafeOverwriteGuard<T>` -/
  | overwriteGuard (t : LTy)
  /-- `UnsafeDropInPlaceGuard<T>` -/
  | dropGuard (t : LTy)
  | unit

/-- What a type in generated code stands for. Parentheses mean nothing. -/
def tyOf : GTy → Option LTy
  | .user F => some (.field F)
  | .paren t => tyOf t
  | .ref lt b t => (tyOf t).map (.ref lt b)
  | .pin _ t => (tyOf t).map .pin
  | .phantomData _ t => (tyOf t).map .phantom
  | .adt n as => some (.adt n as)
  | .selfTy => some .self_
  | .ptrMut t => (tyOf t).map .ptr
  | .unit => some .unit
  | _ => none

def LTy.isCopy : LTy → Bool
  | .ptr _ | .phantom _ | .unit | .ref _ false _ | .pin (.ref _ false _) => true
  | _ => false

/-- What names stand for values where a piece of code is, other than local variables. -/
structure Values where
  /-- constants and unit structs, with their types -/
  consts : List (String × LTy)
  /-- names no variable may have: those of const parameters, statics, and tuple structs -/
  reserved : List String
  /-- are these two types the same? -/
  same : LTy → LTy → Prop
  /-- does the type have only one value, so that a pattern that is this value always matches? -/
  single : LTy → Prop

/-- No names. -/
def Values.none : Values := ⟨[], [], Eq, fun _ => False⟩

/-- As a pattern, the name is a new variable. -/
def Values.Free (V : Values) (x : String) : Prop := (∀ c ∈ V.consts, c.1 ≠ x) ∧ x ∉ V.reserved

/-- Where a piece of code is. -/
structure Site where
  /-- the definition of `Self` -/
  item : Item
  /-- the type definitions -/
  defs : List TypeDef
  /-- the generic parameters in scope -/
  params : List GArg
  /-- the predicates that are known to hold -/
  known : WPred → Prop
  /-- may unsafe functions be called? -/
  isUnsafe : Bool
  /-- constants and the like -/
  vals : Values

/-- The same place, where these constants are known. -/
def Site.within (K : Site) (V : Values) : Site := { K with vals := V }

/-- Local variables, newest first; `none` for one that has been moved. -/
abbrev Locals := List (String × Option LTy)

/-- Using the variable `x` in `Γ` gives a `t`, and leaves `Γ'`. The newest variable of that name counts;
if there is none, it is the name of a constant. -/
inductive Use (V : Values) : Locals → String → LTy → Locals → Prop
  | move {x t Γ} : Use V ((x, some t) :: Γ) x t ((x, none) :: Γ)
  | copy {x t Γ} : t.isCopy = true → Use V ((x, some t) :: Γ) x t ((x, some t) :: Γ)
  | older {x y s t Γ Γ'} : x ≠ y → Use V Γ x t Γ' → Use V ((y, s) :: Γ) x t ((y, s) :: Γ')
  | const {x C t} : (x, C) ∈ V.consts → V.same C t → Use V [] x t []

/-- `e` has type `t`. -/
inductive FExprTy (K : Site) : Locals → FExpr → LTy → Locals → Prop
  | bind {Γ Γ' x t} : Use K.vals Γ x t Γ' → FExprTy K Γ (.bind x) t Γ'
  /-- `unsafe fn Pin::new_unchecked(P) -> Pin<P>` -/
  | pinNew {Γ Γ' x lt b t} : K.isUnsafe = true → Use K.vals Γ x (.ref lt b t) Γ' →
      FExprTy K Γ (.pinNew x) (.pin (.ref lt b t)) Γ'
  /-- `unsafe fn ptr::read(*const T) -> T` -/
  | read {Γ Γ' x lt b t} : K.isUnsafe = true → Use K.vals Γ x (.ref lt b t) Γ' → FExprTy K Γ (.read x) t Γ'
  | readPtr {Γ Γ' x t} : K.isUnsafe = true → Use K.vals Γ x (.ptr t) Γ' → FExprTy K Γ (.read x) t Γ'
  | phantom {Γ t} : FExprTy K Γ .phantom (.phantom t) Γ

/-- The `i`-th entry of a constructor sets the field `l` to `e`. -/
inductive Entry : Option Delim → Nat → GInit → String → FExpr → Prop
  /-- `l: e` -/
  | named {i l e} : Entry (some .brace) i (.labelled (some l) e) l e
  /-- `x`, short for `x: x` -/
  | short {i x} : Entry (some .brace) i (.bare x) x (.bind x)
  /-- `e` in parentheses -/
  | tuple {i e} : Entry (some .paren) i (.labelled none e) (toString i) e
  | tupleVar {i x} : Entry (some .paren) i (.bare x) (toString i) (.bind x)

/-- The entries of a constructor, evaluated from left to right, set these fields to values of these types. -/
inductive EntriesTy (K : Site) (d : Option Delim) : Nat → Locals → List GInit → List (String × LTy) → Locals → Prop
  | nil {i Γ} : EntriesTy K d i Γ [] [] Γ
  | cons {i Γ Γ' Γ'' x xs l e t ts} : Entry d i x l e → FExprTy K Γ e t Γ' →
      EntriesTy K d (i + 1) Γ' xs ts Γ'' → EntriesTy K d i Γ (x :: xs) ((l, t) :: ts) Γ''

inductive ExprTy (K : Site) : Locals → RHS → LTy → Locals → Prop
  | var {Γ Γ' x t} : Use K.vals Γ x t Γ' → ExprTy K Γ (.var x) t Γ'
  /-- `unsafe fn get_unchecked_mut(self: Pin<&'a mut T>) -> &'a mut T` -/
  | getUncheckedMut {Γ Γ' x lt t} : K.isUnsafe = true → Use K.vals Γ x (.pin (.ref lt true t)) Γ' →
      ExprTy K Γ (.getUncheckedMut x) (.ref lt true t) Γ'
  /-- `fn get_ref(self: Pin<&'a T>) -> &'a T` -/
  | getRef {Γ Γ' x lt t} : Use K.vals Γ x (.pin (.ref lt false t)) Γ' → ExprTy K Γ (.getRef x) (.ref lt false t) Γ'
  /-- `&mut *p` for a raw pointer -/
  | reborrow {Γ Γ' x lt t} : K.isUnsafe = true → Use K.vals Γ x (.ptr t) Γ' → ExprTy K Γ (.reborrow x) (.ref lt true t) Γ'
  | pinNew {Γ Γ' x lt b t} : K.isUnsafe = true → Use K.vals Γ x (.ref lt b t) Γ' →
      ExprTy K Γ (.pinNew x) (.pin (.ref lt b t)) Γ'
  /-- All fields of the variant are set, in order, to values of their types; the parameters of the type are
  in scope, and what its where-clause requires is known. -/
  | ctor {Γ Γ' c d gfs ts} : d ∈ K.defs → c.ty = d.name → (c.variant, gfs) ∈ d.variants → c.delim = gfs.delim →
      EntriesTy K c.delim 0 Γ c.inits ts Γ' →
      ts.map Prod.fst = gfs.fields.zipIdx.map (fun x => gLabel x.2 x.1) →
      ts.map (fun x => some x.2) = gfs.fields.map (fun f => tyOf f.ty) →
      (∀ p ∈ d.params, ownArg p ∈ K.params) → (∀ w ∈ d.preds, K.known w) →
      ExprTy K Γ (.ctor c) (.adt d.name (d.params.map ownArg)) Γ'
  /-- `unsafe fn UnsafeOverwriteGuard::new(*mut T, T)`, src/lib.rs:337 -/
  | overwriteGuard {Γ Γ' Γ'' p v t} : K.isUnsafe = true → Use K.vals Γ p (.ptr t) Γ' → Use K.vals Γ' v t Γ'' →
      ExprTy K Γ (.overwriteGuard p v) (.overwriteGuard t) Γ''
  /-- `unsafe fn UnsafeDropInPlaceGuard::new(*mut T)`, src/lib.rs:314 -/
  | dropGuard {Γ Γ' x lt t} : K.isUnsafe = true → Use K.vals Γ x (.ref lt true t) Γ' → ExprTy K Γ (.dropGuard x) (.dropGuard t) Γ'
  | dropGuardPtr {Γ Γ' x t} : K.isUnsafe = true → Use K.vals Γ x (.ptr t) Γ' → ExprTy K Γ (.dropGuard x) (.dropGuard t) Γ'
  /-- `unsafe fn PinnedDrop::drop(Pin<&mut Self>)`, src/lib.rs:224 -/
  | pinnedDropCall {Γ Γ' x lt} : K.isUnsafe = true → Use K.vals Γ x (.pin (.ref lt true .self_)) Γ' →
      ExprTy K Γ (.pinnedDropCall x) .unit Γ'
  | unit {Γ} : ExprTy K Γ .unit .unit Γ

/-- A name in a pattern, in the place of a field of type `F` of a `&'lt [mut] Self`. A new variable is a reference to
the field. A constant has to have the type of the field, and is compared to it. As no other arm has this variant,
the comparison may not fail. -/
inductive NameBinds (V : Values) (lt : Option String) (b : Bool) : String → LTy → List (String × LTy) → Prop
  | var {x F} : V.Free x → NameBinds V lt b x F [(x, .ref lt b F)]
  | const {x F C} : (x, C) ∈ V.consts → V.same C F → V.single C → NameBinds V lt b x F []

inductive NamesBind (V : Values) (lt : Option String) (b : Bool) : List (String × LTy) → List (String × LTy) → Prop
  | nil : NamesBind V lt b [] []
  | cons {x F xs bs bs'} : NameBinds V lt b x F bs → NamesBind V lt b xs bs' → NamesBind V lt b ((x, F) :: xs) (bs ++ bs')

/-- Matching a `&'lt [mut] Self` with a pattern for one of its variants: a `{..}`
pattern names every field, a `(..)` pattern has a name for every field. -/
def PatBinds (V : Values) (item : Item) (p : GPat) (lt : Option String) (b : Bool) (bs : List (String × LTy)) : Prop :=
  ∃ fs xs, (p.variant, fs) ∈ itemVariants item ∧ p.delim = fieldsDelim fs ∧ p.binders.Nodup ∧
    xs.map Prod.fst = p.binders ∧ NamesBind V lt b xs bs ∧
    match fs with
    | .named l => (∀ f ∈ l, ∃ x ∈ p.binders, f.ident = some x) ∧
        ∀ x ∈ xs, ∃ f ∈ l, f.ident = some x.1 ∧ x.2 = .field (resolved item f.ty)
    | .unnamed l => xs.map Prod.snd = l.map (fun f => .field (resolved item f.ty))
    | .unit => p.binders = []

def asLocals (bs : List (String × LTy)) : Locals := (bs.map (fun x => (x.1, some x.2))).reverse

/-- `let x1 = e1; let x2 = e2; ..` -/
inductive LetsTy (K : Site) : Locals → List (String × RHS) → Locals → Prop
  | nil {Γ} : LetsTy K Γ [] Γ
  | cons {Γ Γ' Γ'' x e t ss} : ExprTy K Γ e t Γ' → LetsTy K ((x, some t) :: Γ') ss Γ'' → LetsTy K Γ ((x, e) :: ss) Γ''

inductive StmtTy (K : Site) : Locals → GStmt → Locals → Prop
  /-- A pattern in a `let` may not fail to match. -/
  | letPat {Γ Γ' p e lt b bs} : ExprTy K Γ e (.ref lt b .self_) Γ' → isStruct K.item = true →
      PatBinds K.vals K.item p lt b bs → StmtTy K Γ (.letPat p e) (asLocals bs ++ Γ')
  | letVar {Γ Γ' x e t} : ExprTy K Γ e t Γ' → StmtTy K Γ (.letVar x none e) ((x, some t) :: Γ')
  /-- `let x: *mut Self = e;` where `e` is a mutable reference -/
  | letPtr {Γ Γ' x e lt} : ExprTy K Γ e (.ref lt true .self_) Γ' →
      StmtTy K Γ (.letVar x (some "*mut Self") e) ((x, some (.ptr .self_)) :: Γ')
  /-- The variables of a block are gone after the block. -/
  | scope {Γ Γ' inner ss} : LetsTy K Γ ss (inner ++ Γ') → inner.length = ss.length → StmtTy K Γ (.scope ss) Γ'
  | expr {Γ Γ' e t} : ExprTy K Γ e t Γ' → StmtTy K Γ (.expr e) Γ'

inductive StmtsTy (K : Site) : Locals → List GStmt → Locals → Prop
  | nil {Γ} : StmtsTy K Γ [] Γ
  | cons {Γ Γ' Γ'' s ss} : StmtTy K Γ s Γ' → StmtsTy K Γ' ss Γ'' → StmtsTy K Γ (s :: ss) Γ''

/-- A block whose value has type `t`. -/
inductive BlockTy (K : Site) (Γ : Locals) (t : LTy) : List GStmt → GTail → Prop
  | expr {ss e Γ' Γ''} : StmtsTy K Γ ss Γ' → ExprTy K Γ' e t Γ'' → BlockTy K Γ t ss (.expr e)
  /-- A match needs an arm for every variant, and every arm has the same type. -/
  | match_ {ss e lt b Γ' Γ''} {arms : List GArm} : StmtsTy K Γ ss Γ' → ExprTy K Γ' e (.ref lt b .self_) Γ'' →
      (∀ v ∈ itemVariants K.item, ∃ a ∈ arms, a.pat.variant = v.1) →
      (∀ a ∈ arms, ∃ bs Γ3 Γ4, PatBinds K.vals K.item a.pat lt b bs ∧ StmtsTy K (asLocals bs ++ Γ'') a.stmts Γ3 ∧
        ExprTy K Γ3 a.tail t Γ4) →
      BlockTy K Γ t ss (.match_ e arms)

/-- The variables at the start of a function: `self` and the parameters. -/
def startLocals (recv : LTy) (ps : List (String × LTy)) : Locals := asLocals (("self", recv) :: ps)

/-- The function type checks at the given site. -/
def WellTyped (K : Site) (fn : GFn) : Prop :=
  (∀ r lt b t, fn.recv = .pin r (.ref (some lt) b t) → .lifetime lt ∈ K.params) ∧
  ∃ recv ps ret, tyOf fn.recv = some recv ∧ ps.map Prod.fst = fn.params.map Prod.fst ∧
    ps.map (fun p => some p.2) = fn.params.map (fun p => tyOf p.2) ∧ tyOf fn.ret = some ret ∧
    BlockTy K (startLocals recv ps) ret fn.body.stmts fn.body.tail

/-- What is known in a function of an impl: the where-clause of the impl; and if `self` is a reference with
lifetime `'lt`, then what it refers to lives at least that long (an implied bound). -/
inductive Known (preds : List WPred) (self_ : GTy) (fn : GFn) : WPred → Prop
  | written {w} : w ∈ preds → Known preds self_ fn w
  | implied {r lt b} : fn.recv = .pin r (.ref (some lt) b .selfTy) → Known preds self_ fn (.outlives self_ lt)

/-- The site of a function in `impl<ps> .. for name<args> where preds`. -/
def fnSite (item : Item) (E : Expansion) (ps : List GParam) (name : String) (args : List GArg) (preds : List WPred)
    (fn : GFn) : Site where
  item := item
  defs := typeDefs (allItems E)
  params := ps.map ownArg ++ fn.ltParam.toList.map .lifetime
  known := Known preds (.adt name args) fn
  isUnsafe := fn.isUnsafe || fn.unsafeBlock
  vals := .none

end PinProject.Spec

import Verif.Model.Syntax
/-!
# Generated code

An abstract syntax for exactly the shapes of code that the `quote!` templates of derive.rs and
pinned_drop.rs produce. Fn bodies are a small statement language, so that they can be executed by
`Sem/Eval.lean`. `Verif/Test` prints these terms and compares them with the snapshots in
/repo/tests/expand.
-/
namespace PinProject

/-- `Self <pat>` / `Self::V <pat>`: derive.rs:411, 551. `delim = none` is a unit pattern. -/
structure GPat where
  variant : Option String
  delim : Option Delim
  binders : List String
  deriving DecidableEq, Repr, Inhabited

/-- Initialiser expressions of a constructor. (derive.rs:604, 607, 623, 626) -/
inductive FExpr
  /-- `x` -/
  | bind (x : String)
  /-- `_pin_project::__private::Pin::new_unchecked(x)` -/
  | pinNew (x : String)
  /-- `_pin_project::__private::ptr::read(x)` -/
  | read (x : String)
  /-- `_pin_project::__private::PhantomData` -/
  | phantom
  deriving DecidableEq, Repr, Inhabited

/-- One entry of a constructor: `ident: e` (in a tuple constructor just `e`), or the bare
`binding` of derive.rs:622-624, which is the field shorthand in braces. -/
inductive GInit
  | labelled (ident : Option String) (e : FExpr)
  | bare (x : String)
  deriving DecidableEq, Repr, Inhabited

/-- `Ty { .. }`, `Ty(..)`, `Ty::V { .. }`, ... (derive.rs:412, 551, 672) -/
structure GCtor where
  ty : String
  variant : Option String
  delim : Option Delim
  inits : List GInit
  deriving DecidableEq, Repr, Inhabited

/-- Right-hand sides. (derive.rs:411-420, 681, 877-881, 999-1006) -/
inductive RHS
  | var (x : String)
  /-- `x.get_unchecked_mut()` -/
  | getUncheckedMut (x : String)
  /-- `x.get_ref()` -/
  | getRef (x : String)
  /-- `&mut *x` -/
  | reborrow (x : String)
  /-- `Pin::new_unchecked(x)` -/
  | pinNew (x : String)
  | ctor (c : GCtor)
  /-- `_pin_project::__private::UnsafeOverwriteGuard::new(p, v)` -/
  | overwriteGuard (p v : String)
  /-- `_pin_project::__private::UnsafeDropInPlaceGuard::new(x)` -/
  | dropGuard (x : String)
  /-- `_pin_project::__private::PinnedDrop::drop(x)` -/
  | pinnedDropCall (x : String)
  /-- `()` -/
  | unit
  deriving DecidableEq, Repr, Inhabited

/-- Statements, derive.rs:411, 672-686, 877-881, 999-1006. -/
inductive GStmt
  /-- `let Self pat = e;` -/
  | letPat (p : GPat) (e : RHS)
  /-- `let x = e;` (with an optional type ascription, kept for printing) -/
  | letVar (x : String) (ty : Option String) (e : RHS)
  /-- `{ let x1 = e1; ..; }` -/
  | scope (ss : List (String × RHS))
  /-- `e;` -/
  | expr (e : RHS)
  deriving DecidableEq, Repr, Inhabited

/-- A match arm `Self::V pat => { stmts tail }` (printed without braces if there are no
statements). (derive.rs:550-558) -/
structure GArm where
  pat : GPat
  stmts : List GStmt
  tail : RHS
  deriving DecidableEq, Repr, Inhabited

/-- The last expression of a block, derive.rs:412, 494-508. -/
inductive GTail
  | expr (e : RHS)
  | match_ (scrut : RHS) (arms : List GArm)
  deriving DecidableEq, Repr, Inhabited

/-- A block. (derive.rs:410-421, 494-508) -/
structure GBody where
  stmts : List GStmt
  tail : GTail
  deriving DecidableEq, Repr, Inhabited

/-- A function, derive.rs:873-883, 930, 964-1012. -/
structure GFn where
  attrs : List String
  vis : Vis
  isUnsafe : Bool
  name : String
  ltParam : Option String
  /-- the declared type of `self` -/
  recv : GTy
  params : List (String × GTy)
  ret : GTy
  /-- is the body wrapped in `unsafe { .. }`? -/
  unsafeBlock : Bool
  body : GBody
  deriving Inhabited

/-- A field of a generated type, derive.rs:594-602, 613-621, 824-829. -/
structure GField where
  vis : Vis
  ident : Option String
  ty : GTy
  deriving Inhabited

/-- Fields of a generated type; `delim = none` is a unit variant. (derive.rs:304-307, 533-536) -/
structure GFields where
  delim : Option Delim := none
  fields : List GField := []
  deriving Inhabited

/-- An item, derive.rs:395-408, 470-491, 713-757, 822-847, 868-884, 911-931, 1027, 1138-1141. -/
inductive GItem
  | struct_ (attrs : List String) (vis : Vis) (name : String) (params : List GParam)
      (preds : List WPred) (fields : GFields)
  | enum_ (attrs : List String) (vis : Vis) (name : String) (params : List GParam)
      (preds : List WPred) (variants : List (String × GFields))
  /-- `impl<..> Name<..> where .. { fns }` -/
  | inherent (params : List GParam) (name : String) (args : List GArg) (preds : List WPred)
      (fns : List GFn)
  /-- `[unsafe] impl<..> Trait for Name<..> where .. { fns }` -/
  | traitImpl (docHidden : Bool) (isUnsafe : Bool) (params : List GParam) (tr : GTrait)
      (name : String) (args : List GArg) (preds : List WPred) (fns : List GFn)
  /-- `trait Name {}` -/
  | traitDef (name : String)
  /-- `impl<T: _pin_project::__private::Drop> Name for T {}` -/
  | blanketDrop (name : String)
  /-- `#[forbid(unaligned_references, safe_packed_borrows)] fn __assert_not_repr_packed..` with
  the list of field names/indices borrowed from `this` -/
  | assertNotPacked (params : List GParam) (name : String) (args : List GArg)
      (preds : List WPred) (refs : List String)
  deriving Inhabited

/-- The result of the derive macro: items next to the user's type, and items inside
`const _: () = { extern crate pin_project as _pin_project; .. };` (derive.rs:74-106). -/
structure Expansion where
  exposed : List GItem
  inScope : List GItem
  deriving Inhabited

end PinProject

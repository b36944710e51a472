import Verif.Spec.Types
/-!
# Specification: names in generated code
-/
namespace PinProject.Spec

/-- The name an item defines in the type namespace. -/
def generatedName : GItem → Option String
  | .struct_ _ _ n _ _ _ => some n
  | .enum_ _ _ n _ _ _ => some n
  | .traitDef n => some n
  | _ => none

/-- All names defined in the type namespace by the expansion. -/
def generatedNames (E : Expansion) : List String := (allItems E).filterMap generatedName

/-- The names pin-project itself makes up for the type `X`: a name for each projection type that is
generated and was not named by the user (on a struct `project` and `project_ref` always exist; on an enum
only with a name), a helper struct unless `Unpin` is implemented otherwise, and a helper trait unless
there is a `PinnedDrop`. -/
def madeUp (A : Args) (item : Item) (X : String) : List String :=
  (if isStruct item ∧ A.project = none then ["__" ++ X ++ "Projection"] else []) ++
  (if isStruct item ∧ A.projectRef = none then ["__" ++ X ++ "ProjectionRef"] else []) ++
  (if A.projectReplace = .unnamed then ["__" ++ X ++ "ProjectionOwned"] else []) ++
  (if A.unpinImpl = .default then ["__" ++ X] else []) ++
  (if A.pinnedDrop then [] else [X ++ "MustNotImplDrop"])

def stmtLocals : GStmt → List String
  | .letPat _ _ => []
  | .letVar x _ _ => [x]
  | .scope ss => ss.map Prod.fst
  | .expr _ => []

def stmtPats : GStmt → List GPat
  | .letPat p _ => [p]
  | _ => []

def tailLocals : GTail → List String
  | .expr _ => []
  | .match_ _ arms => arms.flatMap (fun a => a.stmts.flatMap stmtLocals)

def tailPats : GTail → List GPat
  | .expr _ => []
  | .match_ _ arms => arms.flatMap (fun a => a.pat :: a.stmts.flatMap stmtPats)

/-- The helper variables of a method: everything it binds, except the fields of the patterns. -/
def fnLocals (fn : GFn) : List String :=
  "self" :: fn.params.map Prod.fst ++ fn.body.stmts.flatMap stmtLocals ++ tailLocals fn.body.tail

/-- The patterns in a method. -/
def fnPats (fn : GFn) : List GPat := fn.body.stmts.flatMap stmtPats ++ tailPats fn.body.tail

/-- How a generated type refers to the `pin_project` crate. -/
def tyRoots : GTy → List Root
  | .paren t | .ref _ _ t | .ptrMut t | .pinnedFieldsOf t | .wrapper _ t => tyRoots t
  | .pin r t | .phantomData r t => r :: tyRoots t
  | .phantomPinned => [.local_]
  | .alwaysUnpin _ _ => [.local_]
  | .user _ | .adt _ _ | .param _ | .selfTy | .unit => []

end PinProject.Spec

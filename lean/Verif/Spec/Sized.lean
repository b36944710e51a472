import Verif.Spec.WellFormed
/-!
# Specification: where Rust wants types to be `Sized`

All fields of a struct but the last one, all fields in an enum, and everything a function takes or returns
by value or moves must have a type whose size is known. Whether the user's types are `Sized` is up to the
compiler.
-/
namespace PinProject.Spec

/-- What the compiler knows: given these generic parameters and this where-clause, is this type `Sized`? It does not
depend on the defaults of the parameters; more declarations do not hurt; and a further lifetime does not help. -/
structure Sizes where
  user : List GParam → List WPred → Node → Prop
  mono : ∀ ps qs ws vs n, (∀ p ∈ ps, withoutDefault p ∈ qs.map withoutDefault) → ws ⊆ vs → user ps ws n → user qs vs n
  lifetime : ∀ l ps ws n, user (.lifetime l [] :: ps) ws n → user ps ws n

/-- The annotated type is `Sized`: the last field of the struct is. (All fields of an enum are.) -/
def SelfSized (S : Sizes) (item : Item) (ps : List GParam) (ws : List WPred) : Prop :=
  ∀ v ∈ itemVariants item, ∀ f ∈ v.2.list.getLast?, S.user ps ws (resolved item f.ty)

/-- A type in generated code is `Sized`, where the parameters `ps` are declared and `ws` is known. -/
inductive TySized (S : Sizes) (item : Item) (defs : List TypeDef) : List GParam → List WPred → GTy → Prop
  | user {ps ws n} : S.user ps ws n → TySized S item defs ps ws (.user n)
  | paren {ps ws t} : TySized S item defs ps ws t → TySized S item defs ps ws (.paren t)
  | pin {ps ws r t} : TySized S item defs ps ws t → TySized S item defs ps ws (.pin r t)
  | ref {ps ws lt b t} : TySized S item defs ps ws (.ref lt b t)
  | ptrMut {ps ws t} : TySized S item defs ps ws (.ptrMut t)
  | phantomData {ps ws r t} : TySized S item defs ps ws (.phantomData r t)
  | phantomPinned {ps ws} : TySized S item defs ps ws .phantomPinned
  | alwaysUnpin {ps ws lt l} : TySized S item defs ps ws (.alwaysUnpin lt l)
  | unit {ps ws} : TySized S item defs ps ws .unit
  | selfTy {ps ws} : SelfSized S item ps ws → TySized S item defs ps ws .selfTy
  /-- a generated type: its last fields are -/
  | adt {ps ws n as d} : d ∈ defs → d.name = n →
      (∀ v ∈ d.variants, ∀ f ∈ v.2.fields.getLast?, TySized S item defs d.params d.preds f.ty) →
      TySized S item defs ps ws (.adt n as)

/-- The sizes in a type definition are in order. -/
structure DefSizes (S : Sizes) (item : Item) (defs : List TypeDef) (d : TypeDef) : Prop where
  /-- only the last field of a struct may be unsized -/
  struct_ : ∀ fs, (none, fs) ∈ d.variants → ∀ f ∈ fs.fields.dropLast, TySized S item defs d.params d.preds f.ty
  /-- no field in an enum may be unsized -/
  enum_ : ∀ n fs, (some n, fs) ∈ d.variants → ∀ f ∈ fs.fields, TySized S item defs d.params d.preds f.ty

/-- Does the expression move a field out (`ptr::read`), or a whole value (`UnsafeOverwriteGuard::new`)? -/
def movesRHS : RHS → Bool
  | .ctor c => c.inits.any (fun i => match i with | .labelled _ (.read _) => true | _ => false)
  | .overwriteGuard _ _ => true
  | _ => false

def movesStmt : GStmt → Bool
  | .letPat _ e | .letVar _ _ e | .expr e => movesRHS e
  | .scope ss => ss.any (fun s => movesRHS s.2)

def movesTail : GTail → Bool
  | .expr e => movesRHS e
  | .match_ e arms => movesRHS e || arms.any (fun a => a.stmts.any movesStmt || movesRHS a.tail)

/-- Does the function move values of the annotated type or of its fields? -/
def movesFn (fn : GFn) : Bool := fn.body.stmts.any movesStmt || movesTail fn.body.tail

/-- The sizes in a function of an impl with parameters `ps` and where-clause `ws` are in order: `self`, parameters and
result are `Sized`, and so are all fields if the function moves some. -/
structure FnSizes (S : Sizes) (item : Item) (defs : List TypeDef) (ps : List GParam) (ws : List WPred) (fn : GFn) : Prop where
  recv : TySized S item defs ps ws fn.recv
  params : ∀ p ∈ fn.params, TySized S item defs ps ws p.2
  ret : TySized S item defs ps ws fn.ret
  moves : movesFn fn = true → ∀ f ∈ itemFields item, S.user ps ws (resolved item f.ty)

/-- The last field of a struct is pinned, and not known to be `Sized`. -/
def PinnedUnsizedTail (S : Sizes) (item : Item) : Prop :=
  ∃ fs, (none, fs) ∈ itemVariants item ∧ ∃ f, fs.list.getLast? = some f ∧ Pinned f ∧
    ¬ S.user (itemParams item) (itemPreds item) (resolved item f.ty)

end PinProject.Spec

import Verif.Spec.Projection
import Verif.Model.Receiver
/-!
# Specification: the generated type definitions
-/
namespace PinProject.Spec

def itemVis : Item → Vis
  | .struct_ s => s.vis
  | .enum_ e => e.vis
  | .other _ => .inherited

def itemGenerics : Item → Generics
  | .struct_ s => s.generics
  | .enum_ e => e.generics
  | .other _ => {}

/-- The variants with their fields (one nameless variant for a struct). -/
def itemVariants : Item → List (Option String × Fields)
  | .struct_ s => [(none, s.fields)]
  | .enum_ e => e.variants.map (fun v => (some v.ident, v.fields))
  | .other _ => []

/-- A parameter as an argument: its name. -/
def ownArg : GParam → GArg
  | .lifetime n _ => .lifetime n
  | .type n _ _ => .ident n
  | .const n _ _ => .ident n

/-- A parameter without its default. -/
def withoutDefault : GParam → GParam
  | .lifetime n bs => .lifetime n bs
  | .type n bs _ => .type n bs none
  | .const n ty _ => .const n ty none

def isLifetimeParam : GParam → Bool
  | .lifetime _ _ => true
  | _ => false

/-- The parameters of the item as arguments, lifetimes first. -/
def ownArgs (item : Item) : List GArg :=
  ((itemGenerics item).params.filter isLifetimeParam).map ownArg ++
  ((itemGenerics item).params.filter (fun p => !isLifetimeParam p)).map ownArg

def argNode : GArg → Node
  | .lifetime l => .lifetime l
  | .ident n => .tyPath .none (.mk false [.mk n .none])

def argToks : GArg → List TT
  | .lifetime l => [.punct '\'' true, .ident (String.ofList l.toList.tail)]
  | .ident n => [.ident n]

/-- The annotated type applied to its own parameters, as a path and as tokens: `Name` or `Name<'a, T, ..>`. -/
def itemSelfTy (item : Item) : SelfTy where
  q := .none
  p := .mk false [.mk ((itemName item).getD "")
    (if (ownArgs item).isEmpty then .none else .angle false ((ownArgs item).map argNode))]
  toks := if (ownArgs item).isEmpty then [.ident ((itemName item).getD "")]
    else [.ident ((itemName item).getD ""), .punct '<' false] ++
      [.punct ',' false].intercalate ((ownArgs item).map argToks) ++ [.punct '>' false]

/-- A type written in the definition, with `Self` replaced by the annotated type (that `Node.visit`
does this is `C38_resolved`; types that do not mention `Self` are not changed: `C38_untouched`). -/
def resolved (item : Item) (ty : Node) : Node := ty.visit (itemSelfTy item)

def resolvedParam (item : Item) : GParam → GParam
  | .lifetime n bs => .lifetime n bs
  | .type n bs d => .type n (bs.map (resolved item)) (d.map (resolved item))
  | .const n ty d => .const n (resolved item ty) (d.map (resolved item))

def resolvedPred (item : Item) : WPred → WPred
  | .user n => .user (resolved item n)
  | w => w

/-- The parameters of the item, with `Self` resolved in bounds and defaults. -/
def itemParams (item : Item) : List GParam := (itemGenerics item).params.map (resolvedParam item)

/-- The where-clause of the item, with `Self` resolved. -/
def itemPreds (item : Item) : List WPred :=
  ((itemGenerics item).whereClause.getD []).map (resolvedPred item)

/-- A type definition in generated code. -/
structure TypeDef where
  vis : Vis
  name : String
  params : List GParam
  preds : List WPred
  /-- `none` for the fields of a struct -/
  variants : List (Option String × GFields)

def asTypeDef : GItem → Option TypeDef
  | .struct_ _ vis n ps ws fs => some ⟨vis, n, ps, ws, [(none, fs)]⟩
  | .enum_ _ vis n ps ws vs => some ⟨vis, n, ps, ws, vs.map (fun v => (some v.1, v.2))⟩
  | _ => none

def typeDefs (l : List GItem) : List TypeDef := l.filterMap asTypeDef

/-- Everything generated. -/
def allItems (E : Expansion) : List GItem := E.exposed ++ E.inScope

/-- The three projections. -/
inductive Mode
  | proj | projRef | replace
  deriving DecidableEq, Repr

def Mode.fn : Mode → String
  | .proj => "project"
  | .projRef => "project_ref"
  | .replace => "project_replace"

/-- The name the user gave for a mode. -/
def modeName (A : Args) : Mode → Option String
  | .proj => A.project
  | .projRef => A.projectRef
  | .replace => A.projectReplace.ident

/-- What a projection offers for a field of type `F`; `lt` is the lifetime of the projection. -/
inductive FieldTy
  /-- `Pin<&'lt [mut] F>` -/
  | pinRef (lt : String) (isMut : Bool) (F : Node)
  /-- `&'lt [mut] F` -/
  | ref (lt : String) (isMut : Bool) (F : Node)
  /-- `PhantomData<F>` -/
  | phantom (F : Node)
  /-- `F` -/
  | owned (F : Node)

def fieldTy (mode : Mode) (lt : String) (pinned : Bool) (F : Node) : FieldTy :=
  match mode, pinned with
  | .proj, true => .pinRef lt true F
  | .proj, false => .ref lt true F
  | .projRef, true => .pinRef lt false F
  | .projRef, false => .ref lt false F
  | .replace, true => .phantom F
  | .replace, false => .owned F

/-- The meaning of a type in generated code. Parentheses mean nothing. -/
def meaning : GTy → Option FieldTy
  | .user F => some (.owned F)
  | .ref (some lt) b (.paren (.user F)) => some (.ref lt b F)
  | .pin _ (.ref (some lt) b (.paren (.user F))) => some (.pinRef lt b F)
  | .phantomData _ (.user F) => some (.phantom F)
  | _ => none

/-- How the fields are delimited. -/
def fieldsDelim : Fields → Option Delim
  | .named _ => some .brace
  | .unnamed _ => some .paren
  | .unit => none

/-- `d` mirrors the variants `vs` of the definition: same variants, same kind of fields, same field
names in the same order, same field visibility, and the field types of the given mode. -/
def Mirrors (item : Item) (mode : Mode) (lt : String) (vs : List (Option String × Fields)) (d : TypeDef) : Prop :=
  d.variants.map Prod.fst = vs.map Prod.fst ∧
  d.variants.map (fun v => v.2.delim) = vs.map (fun v => fieldsDelim v.2) ∧
  d.variants.map (fun v => v.2.fields.map (fun f => (f.vis, f.ident, meaning f.ty))) =
    vs.map (fun v => v.2.list.map (fun f =>
      (f.vis, f.ident, some (fieldTy mode lt (Pinned f) (resolved item f.ty)))))

/-- A visibility that names the current module as `self`: `pub(self)`, `pub(in self)`. -/
def isPubSelf : Vis → Bool
  | .restricted _ p => p.segs == ["self"]
  | _ => false

/-! ## Visibility -/

/-- A place in a program: a crate and a module path in it. -/
structure ModAt where
  crate : Nat
  path : List String
  deriving DecidableEq

/-- The module named by a path relative to the module `m`; leading `super`s go up. -/
def resolveRel (m : List String) : List String → List String
  | "super" :: p => resolveRel m.dropLast p
  | p => m ++ p

/-- The module named by the path of `pub(in path)`, seen from module `m`. (Other paths are relative
to the crate root; since 2018 rustc only accepts `crate`, `self` and `super` paths.) -/
def resolveMod (m : List String) : List String → List String
  | "crate" :: p => p
  | "self" :: p => resolveRel m p
  | "super" :: p => resolveRel m.dropLast p
  | p => p

/-- Is an item with visibility `v`, defined at `m`, visible from `at_`? -/
def Visible (v : Vis) (m at_ : ModAt) : Prop :=
  match v with
  | .pub => True
  | .inherited => at_.crate = m.crate ∧ m.path <+: at_.path
  | .restricted _ p => at_.crate = m.crate ∧ resolveMod m.path p.segs <+: at_.path

/-! ## A value fits a type definition -/

/-- The type of the field called `l` among `fs`. -/
def FieldHasTy (item : Item) (fs : Fields) (l : String) (F : Node) : Prop :=
  ∃ x ∈ fs.list.zipIdx, fieldLabel x.2 x.1 = l ∧ F = resolved item x.1.ty

/-- A value in a projection of the object `o` (with fields `fs`) at place `p` has the given type. -/
def Fits (item : Item) (p : Nat) (o : Obj) (fs : Fields) : FVal → FieldTy → Prop
  | .pinRef b l, .pinRef _ b' F => b = b' ∧ ∃ x, l = ⟨p, some x⟩ ∧ FieldHasTy item fs x F
  | .ref b l, .ref _ b' F => b = b' ∧ ∃ x, l = ⟨p, some x⟩ ∧ FieldHasTy item fs x F
  | .phantom, .phantom _ => True
  | .own id, .owned F => ∃ x, (x, id) ∈ o.fields ∧ FieldHasTy item fs x F
  | _, _ => False

/-- The label of the `i`-th field of a generated type. -/
def gLabel (i : Nat) (f : GField) : String := f.ident.getD (toString i)

/-- The value `v` is a well-typed value of the definition `d`: one of its variants, exactly its
fields in order, and each field value of the declared type. -/
def ValueFits (item : Item) (p : Nat) (o : Obj) (fs : Fields) (v : Val) (d : TypeDef) : Prop :=
  ∃ variant args gfs, v = .adt d.name variant args ∧ (variant, gfs) ∈ d.variants ∧
    args.map Prod.fst = gfs.fields.zipIdx.map (fun x => gLabel x.2 x.1) ∧
    ∀ x ∈ args.zip gfs.fields, ∃ T, meaning x.2.ty = some T ∧ Fits item p o fs x.1.2 T

/-- Lifetime parameters come first, as rustc requires. -/
def LifetimesFirst (ps : List GParam) : Prop :=
  ∃ ls ts, ps = ls ++ ts ∧ (∀ p ∈ ls, ∃ n b, p = .lifetime n b) ∧ ∀ p ∈ ts, ∀ n b, p ≠ .lifetime n b

end PinProject.Spec

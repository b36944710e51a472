import Verif.Model.Token
/-!
# Syntax of the macro input

Model of the part of the `syn` data model that pin-project inspects.

Types, expressions, patterns, bounds and where-predicates are one rose-tree type `Node`:
the syntax node kinds for which pin-project's visitors have a rule are separate
constructors, every other `syn` node kind is `other label children` and is only ever
traversed by the default visitor.
-/
namespace PinProject

/-- A path without generic arguments: attribute paths and the paths in `pub(..)`. (utils.rs:81-87, 124) -/
structure SPath where
  leading : Bool := false
  segs : List String
  deriving DecidableEq, Repr, Inhabited

/-- `syn::Path::is_ident`. (args.rs:35; derive.rs:1044; utils.rs:124, 136) -/
def SPath.isIdent (p : SPath) (s : String) : Bool := !p.leading && p.segs == [s]

/-- `syn::Meta`. (derive.rs:1043-1045) -/
inductive Meta
  | path (p : SPath)
  | list (p : SPath) (d : Delim) (toks : List TT)
  | nameValue (p : SPath) (val : List TT)
  deriving Repr, BEq, Inhabited

/-- `syn::Meta::path`. (derive.rs:1046) -/
def Meta.getPath : Meta → SPath
  | .path p => p
  | .list p _ _ => p
  | .nameValue p _ => p

/-- `syn::Attribute` (whether it is `#[..]` or `#![..]` is said by where it is stored, see `Method` and `ItemImpl`).
(args.rs:14; utils.rs:116) -/
structure Attribute where
  m : Meta
  deriving Repr, BEq, Inhabited

/-- `Attribute::path`. (utils.rs:124, 136) -/
def Attribute.path (a : Attribute) : SPath := a.m.getPath

/-- `Meta::require_list`. (args.rs:38, 50) -/
def Meta.requireList : Meta → Res (List TT)
  | .list _ _ toks => .ok toks
  | _ => .error (.bail "expected attribute arguments in parentheses")

/-- `Meta::require_path_only`. (utils.rs:128) -/
def Meta.requirePathOnly : Meta → Res Unit
  | .path _ => .ok ()
  | _ => .error (.bail "unexpected token in attribute")

/-- `Meta::require_name_value(..).is_ok()`. (derive.rs:1052) -/
def Meta.isNameValue : Meta → Bool
  | .nameValue _ _ => true
  | _ => false

mutual
/-- A `syn` syntax node: type, expression, pattern, bound, predicate, statement, item...
(what utils.rs:278-354 visits) -/
inductive Node
  /-- `Type::Path`. -/
  | tyPath (q : QS) (p : Path)
  /-- `Expr::Path` and `Pat::Path`. -/
  | exprPath (q : QS) (p : Path)
  /-- `Expr::Struct`; `children` are the field values and attributes. -/
  | exprStruct (q : QS) (p : Path) (children : List Node)
  /-- `Pat::Struct`. -/
  | patStruct (q : QS) (p : Path) (children : List Node)
  /-- `Pat::TupleStruct`. -/
  | patTupleStruct (q : QS) (p : Path) (children : List Node)
  /-- a bare `syn::Path` in any other position (e.g. a trait bound). -/
  | path (p : Path)
  /-- `syn::Macro` in type, expression, pattern or statement position. -/
  | mac (p : Path) (toks : List TT)
  /-- `Item::Macro` nested in a body. -/
  | itemMac (p : Path) (toks : List TT)
  /-- any other nested item (`fn`, `struct`, `impl`, ...). -/
  | item (label : String) (children : List Node)
  /-- lifetime parameters declared at this point, e.g. `for<'a>`. -/
  | binder (lts : List String)
  /-- a use of a lifetime. -/
  | lifetime (name : String)
  /-- any other node kind, traversed by the default visitor. -/
  | other (label : String) (children : List Node)
/-- `Option<QSelf>`: the `<T as ..>` prefix of a path, with its position. (utils.rs:175, 191-197) -/
inductive QS
  | none
  | some (ty : Node) (pos : Nat)
/-- `syn::Path`. (utils.rs:175-228) -/
inductive Path
  | mk (leading : Bool) (segs : List Seg)
/-- `syn::PathSegment`. (utils.rs:180-181, 217) -/
inductive Seg
  | mk (ident : String) (args : PArgs)
/-- `syn::PathArguments`; `colon2` is the turbofish token of `AngleBracketed`. (utils.rs:181, 218-220) -/
inductive PArgs
  | none
  | angle (colon2 : Bool) (args : List Node)
  | paren (inputs : List Node)
end

instance : Inhabited Node := ⟨.other "" []⟩
instance : Inhabited Path := ⟨.mk false []⟩
instance : Inhabited QS := ⟨.none⟩

/-- utils.rs:176 `path.leading_colon.is_some()`. -/
def Path.leading : Path → Bool
  | .mk l _ => l
/-- utils.rs:180 `path.segments`. -/
def Path.segs : Path → List Seg
  | .mk _ s => s
/-- utils.rs:181 `segment.ident`. -/
def Seg.ident : Seg → String
  | .mk i _ => i
/-- utils.rs:181 `segment.arguments`. -/
def Seg.args : Seg → PArgs
  | .mk _ a => a

/-- `PathArguments::is_empty`. (utils.rs:181, 211) -/
def PArgs.isEmpty : PArgs → Bool
  | .none => true
  | .angle _ args => args.isEmpty
  | .paren _ => false

/-- `syn::Path::is_ident`. (utils.rs:282; pinned_drop.rs:64, 143) -/
def Path.isIdent : Path → String → Bool
  | .mk false [.mk i .none], s => i == s
  | _, _ => false

/-- utils.rs:282, 294, 302 `qself.is_none()`. -/
def QS.isNone : QS → Bool
  | .none => true
  | _ => false

/-- A path made of one plain identifier. (e.g. `#ident` in derive.rs:30) -/
def Path.ofIdent (s : String) : Path := .mk false [.mk s .none]
/-- The type `s`. (e.g. `#ident` in derive.rs:30) -/
def Node.tyIdent (s : String) : Node := .tyPath .none (.ofIdent s)

/-- `syn::Visibility`. `restricted` is `pub(path)`, `inTok` tells `pub(in path)`. (utils.rs:81-87) -/
inductive Vis
  | inherited
  | pub
  | restricted (inTok : Bool) (path : SPath)
  deriving DecidableEq, Repr, Inhabited

/-- `pub(crate)`. (utils.rs:83) -/
def Vis.pubCrate : Vis := .restricted false { segs := ["crate"] }

/-- A generic argument as printed by `TypeGenerics` (names only). (derive.rs:29, 216, 955) -/
inductive GArg
  | lifetime (s : String)
  | ident (s : String)
  deriving DecidableEq, Repr, Inhabited

/-- How generated code names the `pin_project` crate: `::pin_project` (usable anywhere) or
`_pin_project` (an `extern crate` alias that exists only inside the generated const scope).
(derive.rs:101, 595, 604) -/
inductive Root
  | abs | local_
  deriving DecidableEq, Repr, Inhabited

/-- Types in generated code. (derive.rs:595-620, 705-707, 728-729, 807, 824-825, 968-999) -/
inductive GTy
  /-- a type copied from the user's definition -/
  | user (n : Node)
  /-- `(T)` -/
  | paren (t : GTy)
  /-- `&'lt [mut] T` -/
  | ref (lt : Option String) (isMut : Bool) (t : GTy)
  /-- `Pin<T>` -/
  | pin (r : Root) (t : GTy)
  /-- `PhantomData<T>` -/
  | phantomData (r : Root) (t : GTy)
  /-- `PhantomPinned` -/
  | phantomPinned
  /-- `Name<args>` -/
  | adt (name : String) (args : List GArg)
  /-- a type parameter (only in the runtime crate, `Sem/Traits.lean`) -/
  | param (name : String)
  /-- `Self` -/
  | selfTy
  /-- `*mut T` -/
  | ptrMut (t : GTy)
  /-- `__private::PinnedFieldsOf<T>` -/
  | pinnedFieldsOf (t : GTy)
  /-- `__private::Wrapper<'lt, T>` -/
  | wrapper (lt : String) (t : GTy)
  /-- `__private::AlwaysUnpin<'lt, (PhantomData<P1>, ..)>` for type parameters `P1..` -/
  | alwaysUnpin (lt : String) (params : List String)
  /-- `()` -/
  | unit
  deriving Inhabited

/-- Traits implemented or required by generated code. (derive.rs:707, 714, 753, 869, 911-914, 927) -/
inductive GTrait
  | unpin | unsafeUnpin | drop | pinnedDrop
  | mustNotImplDrop (name : String)
  deriving DecidableEq, Repr, Inhabited

/-- A where-predicate: written by the user, or generated. (utils.rs:62-67; derive.rs:704-708, 727-731, 806-809) -/
inductive WPred
  | user (n : Node)
  /-- `T: 'lt` -/
  | outlives (t : GTy) (lt : String)
  /-- `T: Trait` -/
  | bound (t : GTy) (tr : GTrait)
  deriving Inhabited

/-- `syn::GenericParam`. Lifetime names include the quote, e.g. `"'a"`. (utils.rs:74; derive.rs:790-801) -/
inductive GParam
  | lifetime (name : String) (bounds : List String)
  | type (name : String) (bounds : List Node) (dflt : Option Node)
  | const (name : String) (ty : Node) (dflt : Option Node)
  deriving Inhabited

/-- `syn::Generics`. (utils.rs:71-75; derive.rs:225) -/
structure Generics where
  params : List GParam := []
  whereClause : Option (List WPred) := none
  deriving Inhabited

/-- `syn::Field`. (derive.rs:589) -/
structure Field where
  attrs : List Attribute := []
  vis : Vis := .inherited
  ident : Option String
  ty : Node
  deriving Inhabited

/-- `syn::Fields`. (derive.rs:363-367) -/
inductive Fields
  | named (fs : List Field)
  | unnamed (fs : List Field)
  | unit
  deriving Inhabited

/-- `Fields::iter`. (derive.rs:589) -/
def Fields.list : Fields → List Field
  | .named fs => fs
  | .unnamed fs => fs
  | .unit => []

/-- What the Rust grammar guarantees: named fields have a name, tuple fields do not, and
(checked by rustc) names within one struct or variant are distinct. (a condition on the input of derive.rs:571-648) -/
def Fields.WF : Fields → Prop
  | .named fs => (∀ f ∈ fs, f.ident.isSome) ∧ (fs.map (·.ident)).Nodup
  | .unnamed fs => ∀ f ∈ fs, f.ident = none
  | .unit => True

/-- `syn::Variant`. (derive.rs:522) -/
structure Variant where
  attrs : List Attribute := []
  ident : String
  fields : Fields
  discriminant : Option Node := none
  deriving Inhabited

/-- `syn::ItemStruct`. (derive.rs:27-35) -/
structure ItemStruct where
  attrs : List Attribute
  vis : Vis
  ident : String
  generics : Generics
  fields : Fields
  deriving Inhabited

/-- `syn::ItemEnum`. (derive.rs:36-44) -/
structure ItemEnum where
  attrs : List Attribute
  vis : Vis
  ident : String
  generics : Generics
  variants : List Variant
  deriving Inhabited

/-- `syn::Item`; everything that is not a struct or an enum is `other`. (derive.rs:26-46) -/
inductive Item
  | struct_ (s : ItemStruct)
  | enum_ (e : ItemEnum)
  | other (attrs : List Attribute)
  deriving Inhabited

end PinProject

import Verif.Model.Emit
import Verif.Spec.Types
/-!
# Specification: the grammar of items

A part of the grammar of Rust (Rust reference, chapters "Items", "Statements and expressions", "Patterns", "Types"), as
much as generated code needs. Of the pieces that the user has written, only their kind is known.
-/
namespace PinProject.Spec
namespace Grammar

/-- What the parser sees of a token: an attribute is more than one token. -/
def text : ETok → List String
  | .user t | .word t _ | .life t _ | .lit t _ | .punct t _ => [t]
  | .attr n [] _ => ["#", "[", n, "]"]
  | .attr n args _ => ["#", "[", n, "("] ++ args.flatMap (fun a => [a, ","]) ++ [")", "]"]

def texts (ts : List ETok) : List String := ts.flatMap text

/-- A list with commas; the last one may be missing. -/
inductive CommaList (P : List String → Prop) : List String → Prop
  | nil : CommaList P []
  | one {x} : P x → CommaList P x
  | cons {x xs} : P x → CommaList P xs → CommaList P (x ++ [","] ++ xs)

/-- Zero or more. -/
inductive Many (P : List String → Prop) : List String → Prop
  | nil : Many P []
  | cons {x xs} : P x → Many P xs → Many P (x ++ xs)

/-- At most one. -/
inductive Opt (P : List String → Prop) : List String → Prop
  | none : Opt P []
  | some {x} : P x → Opt P x

/-- Letters, digits and `_`. -/
def wordChar (c : Char) : Bool := c.isAlphanum || c == '_' || 128 ≤ c.toNat

def isWord : List Char → Bool
  | [] => false
  | c :: cs => wordChar c && !c.isDigit && cs.all wordChar

/-- A word, perhaps raw: `r#x`. -/
def rawOrWord : List Char → Bool
  | 'r' :: '#' :: cs => isWord cs
  | cs => isWord cs

/-- A word that is no keyword. -/
def Ident (s : String) : Prop := Identifier s ∧ rawOrWord s.toList = true

instance (s : String) : Decidable (Ident s) := inferInstanceAs (Decidable (_ ∧ _))

/-- `'a` or `'static` -/
def Lifetime (l : String) : Prop := ∃ w, l = "'" ++ w ∧ (Ident w ∨ w = "static")

/-- `a::b::c` and `::a::b::c`; only the first segment may be `Self` or (a local variable) `self`. -/
inductive Path : List String → Prop
  | one {w} : Ident w → Path [w]
  | self_ {w} : w ∈ ["self", "Self"] → Path [w]
  | root {w} : Ident w → Path ["::", w]
  | snoc {p w} : Path p → Ident w → Path (p ++ ["::", w])

/-- The syntax of the user: which pieces of the definition are types, bounds, predicates, defaults, attributes and
statements. -/
structure User where
  type : List String → Prop
  bound : List String → Prop
  pred : List String → Prop
  dflt : List String → Prop
  attr : List String → Prop
  stmt : List String → Prop

/-- What of the grammar of types is being read. -/
inductive TyCat
  /-- a type without bounds, which can be written after `&` and `*` -/
  | noBounds
  | type
  /-- an argument of a generic type -/
  | arg

inductive Ty (u : User) : TyCat → List String → Prop
  /-- a type of the user, which may be `A + B` -/
  | user {x} : u.type x → Ty u .type x
  | noBounds {x} : Ty u .noBounds x → Ty u .type x
  | type {x} : Ty u .type x → Ty u .arg x
  | lifetime {l} : Lifetime l → Ty u .arg [l]
  | paren {x} : Ty u .type x → Ty u .noBounds (["("] ++ x ++ [")"])
  | path {p} : Path p → Ty u .noBounds p
  | generic {p x} : Path p → CommaList (Ty u .arg) x → Ty u .noBounds (p ++ ["<"] ++ x ++ [">"])
  | ref {x l} : Opt (fun a => ∃ l, Lifetime l ∧ a = [l]) l → Ty u .noBounds x → Ty u .noBounds (["&"] ++ l ++ x)
  | refMut {x l} : Opt (fun a => ∃ l, Lifetime l ∧ a = [l]) l → Ty u .noBounds x →
      Ty u .noBounds (["&"] ++ l ++ ["mut"] ++ x)
  | ptr {x} : Ty u .noBounds x → Ty u .noBounds (["*", "mut"] ++ x)
  | tuple {x} : CommaList (Ty u .type) x → Ty u .noBounds (["("] ++ x ++ [")"])

/-- `a`, `a { x, y }`, `a(x, y)`. -/
inductive Pat : List String → Prop
  | path {p} : Path p → Pat p
  | wild : Pat ["_"]
  | struct_ {p x} : Path p → CommaList (fun a => ∃ w, Ident w ∧ a = [w]) x → Pat (p ++ ["{"] ++ x ++ ["}"])
  | tuple {p x} : Path p → CommaList (fun a => ∃ w, Ident w ∧ a = [w]) x → Pat (p ++ ["("] ++ x ++ [")"])

/-- What of the grammar of expressions is being read. -/
inductive Cat
  /-- an expression that can be followed by `.` and `(` -/
  | postfix
  /-- an expression that can be written between `match` and `{`: not `P { .. }` -/
  | noStruct
  | expr
  /-- one entry of `P { .. }` -/
  | entry
  | stmt
  /-- one arm of a `match` -/
  | arm
  /-- statements and perhaps a last expression -/
  | block

inductive Code (u : User) : Cat → List String → Prop
  | path {p} : Path p → Code u .postfix p
  | call {f x} : Code u .postfix f → CommaList (Code u .expr) x → Code u .postfix (f ++ ["("] ++ x ++ [")"])
  | method {e m x} : Code u .postfix e → Ident m → CommaList (Code u .expr) x →
      Code u .postfix (e ++ [".", m, "("] ++ x ++ [")"])
  | field {e l} : Code u .postfix e → Ident l → Code u .postfix (e ++ [".", l])
  | index {e} {n : Nat} : Code u .postfix e → Code u .postfix (e ++ [".", toString n])
  | noStruct {e} : Code u .postfix e → Code u .noStruct e
  | ref {e} : Code u .noStruct e → Code u .noStruct (["&"] ++ e)
  | refMut {e} : Code u .noStruct e → Code u .noStruct (["&", "mut"] ++ e)
  | deref {e} : Code u .noStruct e → Code u .noStruct (["*"] ++ e)
  | expr {e} : Code u .noStruct e → Code u .expr e
  | struct_ {p x} : Path p → CommaList (Code u .entry) x → Code u .expr (p ++ ["{"] ++ x ++ ["}"])
  | short {w} : Ident w → Code u .entry [w]
  | long {w e} : Ident w → Code u .expr e → Code u .entry ([w, ":"] ++ e)
  | match_ {e x} : Code u .noStruct e → Many (Code u .arm) x → Code u .expr (["match"] ++ e ++ ["{"] ++ x ++ ["}"])
  | armExpr {p e} : Pat p → Code u .expr e → Code u .arm (p ++ ["=>"] ++ e ++ [","])
  | armBlock {p x} : Pat p → Code u .block x → Code u .arm (p ++ ["=>", "{"] ++ x ++ ["}"])
  | unsafe_ {x} : Code u .block x → Code u .expr (["unsafe", "{"] ++ x ++ ["}"])
  | let_ {p e} : Pat p → Code u .expr e → Code u .stmt (["let"] ++ p ++ ["="] ++ e ++ [";"])
  | letTy {p t e} : Pat p → Ty u .type t → Code u .expr e → Code u .stmt (["let"] ++ p ++ [":"] ++ t ++ ["="] ++ e ++ [";"])
  | semi {e} : Code u .expr e → Code u .stmt (e ++ [";"])
  | scope {x} : Code u .block x → Code u .stmt (["{"] ++ x ++ ["}"])
  | block {x} : Many (Code u .stmt) x → Code u .block x
  | blockExpr {x e} : Many (Code u .stmt) x → Code u .expr e → Code u .block (x ++ e)

/-- `#[name]` and `#[name(a, b)]`. -/
inductive Attr : List String → Prop
  | word {n} : Attr ["#", "[", n, "]"]
  | list {n x} : CommaList (fun a => ∃ w, a = [w]) x → x ≠ [] → Attr (["#", "[", n, "("] ++ x ++ [")", "]"])

/-- The tokens of `a::b::c`. -/
def modPath : List String → List String
  | [] => []
  | [w] => [w]
  | w :: ws => w :: "::" :: modPath ws

inductive Visibility : List String → Prop
  | inherited : Visibility []
  | pub : Visibility ["pub"]
  | restricted {w} : w ∈ ["crate", "self", "super"] → Visibility ["pub", "(", w, ")"]
  | in_ {l p} : l ∈ [[], ["::"]] → p ≠ [] → (∀ w ∈ p, Ident w ∨ w ∈ ["crate", "self", "super"]) →
      Visibility (["pub", "(", "in"] ++ l ++ modPath p ++ [")"])

/-- `a + b + c` -/
inductive Plus (P : List String → Prop) : List String → Prop
  | one {x} : P x → Plus P x
  | cons {x xs} : P x → Plus P xs → Plus P (x ++ ["+"] ++ xs)

/-- A bound: of the user, or a trait. -/
inductive Bound (u : User) : List String → Prop
  | user {x} : u.bound x → Bound u x
  | path {p} : Path p → Bound u p

def Bounds (u : User) (x : List String) : Prop := Opt (fun x => ∃ y, Plus (Bound u) y ∧ x = [":"] ++ y) x

/-- A default of the user, if defaults are allowed. -/
def Default (u : User) (dflt : Bool) (x : List String) : Prop :=
  Opt (fun x => dflt = true ∧ ∃ y, u.dflt y ∧ x = ["="] ++ y) x

/-- A generic parameter. -/
inductive Param (u : User) (dflt : Bool) : List String → Prop
  | lifetime {l} : Lifetime l → Param u dflt [l]
  | lifetimeBounds {l x} : Lifetime l → Plus (fun b => ∃ l, Lifetime l ∧ b = [l]) x → Param u dflt ([l, ":"] ++ x)
  | type {w b d} : Ident w → Bounds u b → Default u dflt d → Param u dflt ([w] ++ b ++ d)
  | const {w t d} : Ident w → u.type t → Default u dflt d → Param u dflt (["const", w, ":"] ++ t ++ d)

/-- Parameters of a type, with defaults (`dflt = true`), or of a function or impl, without. -/
def Generics (u : User) (dflt : Bool) (x : List String) : Prop :=
  Opt (fun x => ∃ y, CommaList (Param u dflt) y ∧ x = ["<"] ++ y ++ [">"]) x

/-- A predicate of a where-clause. -/
inductive Pred (u : User) : List String → Prop
  | user {x} : u.pred x → Pred u x
  | outlives {t l} : Ty u .type t → Lifetime l → Pred u (t ++ [":", l])
  | bound {t p} : Ty u .type t → Path p → Pred u (t ++ [":"] ++ p)

def Where (u : User) (x : List String) : Prop := Opt (fun x => ∃ y, CommaList (Pred u) y ∧ x = ["where"] ++ y) x

inductive NamedField (u : User) : List String → Prop
  | mk {v w t} : Visibility v → Ident w → Ty u .type t → NamedField u (v ++ [w, ":"] ++ t)

inductive TupleField (u : User) : List String → Prop
  | mk {v t} : Visibility v → Ty u .type t → TupleField u (v ++ t)

inductive Variant (u : User) : List String → Prop
  | unit {w} : Ident w → Variant u [w]
  | tuple {w x} : Ident w → CommaList (TupleField u) x → Variant u ([w, "("] ++ x ++ [")"])
  | struct_ {w x} : Ident w → CommaList (NamedField u) x → Variant u ([w, "{"] ++ x ++ ["}"])

/-- A parameter of a function: `x: T`, `self: T`, `&mut self`. -/
inductive FnParam (u : User) : List String → Prop
  | typed {w t} : Ident w ∨ w = "self" → Ty u .type t → FnParam u ([w, ":"] ++ t)
  | refMutSelf : FnParam u ["&", "mut", "self"]

inductive Fn (u : User) : List String → Prop
  | mk {as v m w g ps r wh b} : Many Attr as → Visibility v → Opt (fun x => x = ["unsafe"]) m → Ident w →
      Generics u false g → CommaList (FnParam u) ps → Opt (fun x => ∃ t, Ty u .type t ∧ x = ["->"] ++ t) r → Where u wh →
      Code u .block b →
      Fn u (as ++ v ++ m ++ ["fn", w] ++ g ++ ["("] ++ ps ++ [")"] ++ r ++ wh ++ ["{"] ++ b ++ ["}"])

inductive IsItem (u : User) : List String → Prop
  | struct_ {as v w g wh x} : Many Attr as → Visibility v → Ident w → Generics u true g → Where u wh →
      CommaList (NamedField u) x → IsItem u (as ++ v ++ ["struct", w] ++ g ++ wh ++ ["{"] ++ x ++ ["}"])
  | tuple {as v w g wh x} : Many Attr as → Visibility v → Ident w → Generics u true g → Where u wh →
      CommaList (TupleField u) x → IsItem u (as ++ v ++ ["struct", w] ++ g ++ ["("] ++ x ++ [")"] ++ wh ++ [";"])
  | enum_ {as v w g wh x} : Many Attr as → Visibility v → Ident w → Generics u true g → Where u wh →
      CommaList (Variant u) x → IsItem u (as ++ v ++ ["enum", w] ++ g ++ wh ++ ["{"] ++ x ++ ["}"])
  | impl {as g t wh x} : Many Attr as → Generics u false g → Ty u .type t → Where u wh → Many (Fn u) x →
      IsItem u (as ++ ["impl"] ++ g ++ t ++ wh ++ ["{"] ++ x ++ ["}"])
  | implTrait {as m g p t wh x} : Many Attr as → Opt (fun x => x = ["unsafe"]) m → Generics u false g → Path p → Ty u .type t →
      Where u wh → Many (Fn u) x → IsItem u (as ++ m ++ ["impl"] ++ g ++ p ++ ["for"] ++ t ++ wh ++ ["{"] ++ x ++ ["}"])
  | trait {w} : Ident w → IsItem u ["trait", w, "{", "}"]
  | fn {x} : Fn u x → IsItem u x
  | externCrate {as w a} : Many Attr as → Ident w → Ident a →
      IsItem u (as ++ ["extern", "crate", w, "as", a, ";"])
  /-- `const _: T = { items };` -/
  | const {as t x} : Many Attr as → Ty u .type t → Many (IsItem u) x →
      IsItem u (as ++ ["const", "_", ":"] ++ t ++ ["=", "{"] ++ x ++ ["}", ";"])

/-! ### `#[pinned_drop]` -/

inductive AnyAttr (u : User) : List String → Prop
  | user {x} : u.attr x → AnyAttr u x
  | attr {x} : Attr x → AnyAttr u x

/-- `#![..]` -/
inductive InnerAttr (u : User) : List String → Prop
  | mk {x} : u.attr (["#"] ++ x) → InnerAttr u (["#", "!"] ++ x)

/-- At most one of each, in this order: `const async unsafe extern "C"`. -/
inductive FnQualifiers : List String → Prop
  | mk {c a m e} : Opt (fun x => x = ["const"]) c → Opt (fun x => x = ["async"]) a → Opt (fun x => x = ["unsafe"]) m →
      Opt (fun x => x = ["extern"] ∨ ∃ abi, x = ["extern", "\"" ++ abi ++ "\""]) e → FnQualifiers (c ++ a ++ m ++ e)

/-- A parameter of a function: `x: T`, `mut x: T`, `self: T`. -/
inductive DropParam (u : User) : List String → Prop
  | typed {w t} : Ident w → u.type t → DropParam u ([w, ":"] ++ t)
  | mut_ {w t} : Ident w → u.type t → DropParam u (["mut", w, ":"] ++ t)
  | self_ {t} : u.type t → DropParam u (["self", ":"] ++ t)
  | attrs {as p} : Many (AnyAttr u) as → DropParam u p → DropParam u (as ++ p)

/-- The parameters of a function. (Rust has `...` only in `extern` functions, but not because of its grammar.) -/
inductive DropParams (u : User) : List String → Prop
  | list {ps} : CommaList (DropParam u) ps → DropParams u ps
  | variadic {p} : DropParam u p → DropParams u (p ++ [",", "..."])

mutual
/-- A function of which a part is the user's. -/
inductive DropFn (u : User) : List String → Prop
  | mk {as v k w g ps r wh is b} : Many (AnyAttr u) as → Visibility v → FnQualifiers k → Ident w → Generics u false g →
      DropParams u ps → Opt (fun x => ∃ t, u.type t ∧ x = ["->"] ++ t) r → Where u wh → Many (InnerAttr u) is → Many (DropStmt u) b →
      DropFn u (as ++ v ++ k ++ ["fn", w] ++ g ++ ["("] ++ ps ++ [")"] ++ r ++ wh ++ ["{"] ++ is ++ b ++ ["}"])
inductive DropStmt (u : User) : List String → Prop
  | user {x} : u.stmt x → DropStmt u x
  | code {x} : Code u .stmt x → DropStmt u x
  | fn {x} : DropFn u x → DropStmt u x
end

/-- An impl of a trait in which a part is the user's. -/
inductive DropImpl (u : User) : List String → Prop
  | mk {as d m g n p t wh is x} : Many (AnyAttr u) as → Opt (fun x => x = ["default"]) d → Opt (fun x => x = ["unsafe"]) m → Generics u false g →
      Opt (fun x => x = ["!"]) n → Path p → u.type t → Where u wh → Many (InnerAttr u) is → Many (DropFn u) x →
      DropImpl u (as ++ d ++ m ++ ["impl"] ++ g ++ n ++ p ++ ["for"] ++ t ++ wh ++ ["{"] ++ is ++ x ++ ["}"])

end Grammar

/-! ## Names in the definition -/

/-- A visibility as it can be written. -/
def VisWritten : Vis → Prop
  | .inherited | .pub => True
  | .restricted false p => p.leading = false ∧ p.segs ∈ [["crate"], ["self"], ["super"]]
  | .restricted true p => p.segs ≠ [] ∧ ∀ w ∈ p.segs, Grammar.Ident w ∨ w ∈ ["crate", "self", "super"]

/-- A generic parameter as it can be written. -/
def ParamWritten : GParam → Prop
  | .lifetime n bs => Grammar.Lifetime n ∧ ∀ b ∈ bs, Grammar.Lifetime b
  | .type n _ _ | .const n _ _ => Grammar.Ident n

/-- An identifier in the arguments of `#[pin_project(..)]`, which the derive macro gets in `#[pin(__private(..))]`. -/
def InArgs (item : Item) (s : String) : Prop :=
  ∃ a ∈ itemAttrs item, ∃ p d ts, a.m = .list p d [.ident "__private", .group .paren ts] ∧ .ident s ∈ ts

/-- What the grammar of Rust says about the names in a definition. -/
structure ProperNames (item : Item) : Prop where
  name : ∀ n, itemName item = some n → Grammar.Ident n
  vis : VisWritten (itemVis item)
  params : ∀ p ∈ (itemGenerics item).params, ParamWritten p
  preds : ∀ w ∈ (itemGenerics item).preds, ∃ n, w = .user n
  variants : ∀ v ∈ itemVariants item, ∀ n, v.1 = some n → Grammar.Ident n
  fields : ∀ f ∈ itemFields item, VisWritten f.vis ∧ ∀ n, f.ident = some n → Grammar.Ident n
  args : ∀ s, InArgs item s → Grammar.rawOrWord s.toList = true

/-- The pieces of a generic parameter. -/
def paramPieces (u : Grammar.User) : GParam → Prop
  | .lifetime _ _ => True
  | .type _ bs d => (∀ b ∈ bs, u.bound (Emit.node b)) ∧ ∀ x, d = some x → u.dflt (Emit.node x)
  | .const _ t d => u.type (Emit.node t) ∧ ∀ x, d = some x → u.dflt (Emit.node x)

/-- The pieces of the definition (with `Self` resolved) are what they should be. -/
structure ProperPieces (u : Grammar.User) (item : Item) : Prop where
  fields : ∀ f ∈ itemFields item, u.type (Emit.node (resolved item f.ty))
  params : ∀ p ∈ itemParams item, paramPieces u p
  preds : ∀ n, .user n ∈ itemPreds item → u.pred (Emit.node n)

/-! ## `#[pinned_drop]` -/

/-- The type for which the impl is. -/
def implSelfTy (item : ItemImpl) : SelfTy :=
  match item.selfTy with
  | .tyPath q p => ⟨q, p, item.selfToks⟩
  | _ => default

/-- Generics of an impl or function, written and (with `s`) after `Self` is resolved. -/
structure ProperGenerics (u : Grammar.User) (g : Generics) : Prop where
  params : ∀ p ∈ g.params, ParamWritten p ∧ paramPieces u p ∧ withoutDefault p = p
  preds : ∀ w ∈ g.preds, ∃ n, w = .user n ∧ u.pred (Emit.node n)

/-- What the grammar of Rust says about a method and its pieces. -/
structure ProperMethod (u : Grammar.User) (s : SelfTy) (m : Method) : Prop where
  attrs : ∀ a ∈ m.attrs ++ m.innerAttrs, u.attr (Grammar.texts (Emit.userAttr a))
  vis : VisWritten m.vis
  quals : ∃ c a e, m.sig.quals = c ++ a ++ e ∧ c ∈ [[], ["const"]] ∧ a ∈ [[], ["async"]] ∧
    (e ∈ [[], ["extern"]] ∨ ∃ abi, e = ["extern", "\"" ++ abi ++ "\""])
  generics : ProperGenerics u m.sig.generics
  receiver : ∀ b sh t, .receiver b sh t ∈ m.sig.inputs → u.type (Emit.node t) ∧ u.type (Emit.node (t.visit s))
  recvAttrs : ∀ a ∈ m.sig.recvAttrs, u.attr (Grammar.texts (Emit.userAttr a))
  output : ∀ t, m.sig.output = some t → u.type (Emit.node t) ∧ u.type (Emit.node (t.visit s))
  block : ∀ n ∈ m.block, u.stmt (Emit.node (n.visit s))

/-- What the grammar of Rust says about an impl and its pieces. -/
structure ProperImpl (u : Grammar.User) (item : ItemImpl) : Prop where
  attrs : ∀ a ∈ item.attrs ++ item.innerAttrs, u.attr (Grammar.texts (Emit.userAttr a))
  generics : ProperGenerics u item.generics ∧ ProperGenerics u (item.generics.visit (implSelfTy item))
  selfTy : u.type (Emit.node item.selfTy)
  methods : ∀ m, .fn m ∈ item.items → ProperMethod u (implSelfTy item) m

end PinProject.Spec

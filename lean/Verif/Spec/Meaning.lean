import Verif.Spec.Reader
/-!
# Specification: what the text of generated code says

For each term of generated code, the syntax tree (`Spec/Reader.lean`) that says the same.
-/
namespace PinProject.Spec
namespace Meaning
open Reader

/-- Element by element. -/
inductive Each {α β : Type} (R : α → β → Prop) : List α → List β → Prop
  | nil : Each R [] []
  | cons {x y xs ys} : R x y → Each R xs ys → Each R (x :: xs) (y :: ys)

/-- A local variable. -/
def loc (x : String) : Ex := .path ⟨false, [x]⟩

/-- `_pin_project::__private::..` -/
def hidden (ns : List String) : Ex := .path ⟨false, "_pin_project" :: "__private" :: ns⟩

/-- `T`, `T::V` -/
def named (t : String) (v : Option String) : Reader.Path := ⟨false, t :: v.toList⟩

/-! ## Bodies -/

inductive FExprIs : Ex → FExpr → Prop
  | pinNew {x} : FExprIs (.call (hidden ["Pin", "new_unchecked"]) [loc x]) (.pinNew x)
  | read {x} : FExprIs (.call (hidden ["ptr", "read"]) [loc x]) (.read x)
  | phantom : FExprIs (hidden ["PhantomData"]) .phantom

/-- An argument of `T(..)`. -/
inductive ArgIs : Ex → GInit → Prop
  | bare {x} : ArgIs (loc x) (.bare x)
  | expr {e f} : FExprIs e f → ArgIs e (.labelled none f)

/-- An entry of `T { .. }`. -/
inductive EntryIs : String × Option Ex → GInit → Prop
  | bare {x} : EntryIs (x, none) (.bare x)
  | expr {x e f} : FExprIs e f → EntryIs (x, some e) (.labelled (some x) f)

inductive RhsIs : Ex → RHS → Prop
  | var {x} : RhsIs (loc x) (.var x)
  | getUncheckedMut {x} : RhsIs (.method (loc x) "get_unchecked_mut" []) (.getUncheckedMut x)
  | getRef {x} : RhsIs (.method (loc x) "get_ref" []) (.getRef x)
  | reborrow {x} : RhsIs (.ref true (.deref (loc x))) (.reborrow x)
  | pinNew {x} : RhsIs (.call (hidden ["Pin", "new_unchecked"]) [loc x]) (.pinNew x)
  | overwriteGuard {p v} :
      RhsIs (.call (hidden ["UnsafeOverwriteGuard", "new"]) [loc p, loc v]) (.overwriteGuard p v)
  | dropGuard {x} : RhsIs (.call (hidden ["UnsafeDropInPlaceGuard", "new"]) [loc x]) (.dropGuard x)
  | pinnedDropCall {x} : RhsIs (.call (hidden ["PinnedDrop", "drop"]) [loc x]) (.pinnedDropCall x)
  | unit {t v} : RhsIs (.path (named t (some v))) (.ctor ⟨t, some v, none, []⟩)
  | tuple {t v es is} : Each ArgIs es is → RhsIs (.call (.path (named t v)) es) (.ctor ⟨t, v, some .paren, is⟩)
  | struct_ {t v es is} : Each EntryIs es is → RhsIs (.struct_ (named t v) es) (.ctor ⟨t, v, some .brace, is⟩)

inductive PatIs : Reader.Pat → GPat → Prop
  | unit {v} : PatIs (.path (named "Self" (some v))) ⟨some v, none, []⟩
  | tuple {v xs} : PatIs (.tuple (named "Self" v) xs) ⟨v, some .paren, xs⟩
  | struct_ {v xs} : PatIs (.struct_ (named "Self" v) xs) ⟨v, some .brace, xs⟩

/-- `let x = e;` -/
inductive LetIs : St → String × RHS → Prop
  | mk {x e r} : RhsIs e r → LetIs (.let_ (.path ⟨false, [x]⟩) none e) (x, r)

inductive StmtIs : St → GStmt → Prop
  | letPat {p g e r} : PatIs p g → RhsIs e r → StmtIs (.let_ p none e) (.letPat g r)
  | letVar {x e r} : RhsIs e r → StmtIs (.let_ (.path ⟨false, [x]⟩) none e) (.letVar x none r)
  | letTy {x e r} : RhsIs e r →
      StmtIs (.let_ (.path ⟨false, [x]⟩) (some ["*", "mut", "Self"]) e) (.letVar x (some "*mut Self") r)
  | scope {ss gs} : Each LetIs ss gs → StmtIs (.block (.mk ss none)) (.scope gs)
  | expr {e r} : RhsIs e r → StmtIs (.semi e) (.expr r)

inductive ArmIs : Reader.Pat × Ex → GArm → Prop
  | expr {p g e r} : PatIs p g → RhsIs e r → ArmIs (p, e) ⟨g, [], r⟩
  | block {p g ss gs e r} : PatIs p g → Each StmtIs ss gs → gs ≠ [] → RhsIs e r →
      ArmIs (p, .block (.mk ss (some e))) ⟨g, gs, r⟩

inductive TailIs : Option Ex → GTail → Prop
  | unit : TailIs none (.expr .unit)
  | expr {e r} : RhsIs e r → TailIs (some e) (.expr r)
  | match_ {e r as gs} : RhsIs e r → Each ArmIs as gs → TailIs (some (.match_ e as)) (.match_ r gs)

inductive BodyIs : Bl → GBody → Prop
  | mk {ss gs e t} : Each StmtIs ss gs → TailIs e t → BodyIs (.mk ss e) ⟨gs, t⟩

/-- The body of a function: `{ unsafe { .. } }` or `{ .. }`. -/
inductive FnBodyIs : Bl → Bool → GBody → Prop
  | safe {b g} : BodyIs b g → FnBodyIs b false g
  | unsafe_ {b g} : BodyIs b g → FnBodyIs (.mk [] (some (.unsafe_ b))) true g

/-! ## Types -/

/-- `a, b, c`, perhaps with a comma at the end. -/
inductive Sep : List (List String) → List String → Prop
  | nil : Sep [] []
  | one {x} : Sep [x] x
  | cons {x xs y} : Sep xs y → Sep (x :: xs) (x ++ [","] ++ y)

/-- `_pin_project::..` or, next to the type of the user, `::pin_project::..` -/
def crate (r : Root) : List String := match r with | .abs => ["::", "pin_project"] | .local_ => ["_pin_project"]

def hiddenText (r : Root) (n : String) : List String := crate r ++ ["::", "__private", "::", n]

/-- `T<..>` -/
inductive AppIs (t : List String) : List (List String) → List String → Prop
  | none : AppIs t [] t
  | some {as x} : as ≠ [] → Sep as x → AppIs t as (t ++ ["<"] ++ x ++ [">"])

def argText : GArg → List String
  | .lifetime l => [l]
  | .ident x => [x]

inductive TyIs : List String → GTy → Prop
  | user {n} : TyIs (Emit.node n) (.user n)
  | paren {x t} : TyIs x t → TyIs (["("] ++ x ++ [")"]) (.paren t)
  | ref {l x t} : TyIs x t → TyIs (["&"] ++ l.toList ++ x) (.ref l false t)
  | refMut {l x t} : TyIs x t → TyIs (["&"] ++ l.toList ++ ["mut"] ++ x) (.ref l true t)
  | ptr {x t} : TyIs x t → TyIs (["*", "mut"] ++ x) (.ptrMut t)
  | pin {r x y t} : TyIs x t → AppIs (hiddenText r "Pin") [x] y → TyIs y (.pin r t)
  | phantomData {r x y t} : TyIs x t → AppIs (hiddenText r "PhantomData") [x] y → TyIs y (.phantomData r t)
  | phantomPinned : TyIs (hiddenText .local_ "PhantomPinned") .phantomPinned
  | adt {n as y} : AppIs [n] (as.map argText) y → TyIs y (.adt n as)
  | param {n} : TyIs [n] (.param n)
  | self : TyIs ["Self"] .selfTy
  | pinnedFieldsOf {x y t} : TyIs x t → AppIs (hiddenText .local_ "PinnedFieldsOf") [x] y → TyIs y (.pinnedFieldsOf t)
  | wrapper {l x y t} : TyIs x t → AppIs (hiddenText .local_ "Wrapper") [[l], x] y → TyIs y (.wrapper l t)
  | alwaysUnpin {l ps x y} : Sep (ps.map (fun p => hiddenText .local_ "PhantomData" ++ ["<", p, ">"])) x →
      AppIs (hiddenText .local_ "AlwaysUnpin") [[l], ["("] ++ x ++ [")"]] y → TyIs y (.alwaysUnpin l ps)
  | unit : TyIs ["(", ")"] .unit

/-- `a + b + c` -/
def sum : List (List String) → List String
  | [] => []
  | [b] => b
  | b :: bs => b ++ ["+"] ++ sum bs

/-- `: a + b`, or nothing -/
def boundsText (bs : List (List String)) : List String := if bs = [] then [] else ":" :: sum bs

def defaultText (d : Option Node) : List String := match d with | some d => "=" :: Emit.node d | none => []

inductive ParamIs : List String → GParam → Prop
  | lifetime {l bs} : ParamIs (l :: boundsText (bs.map (fun b => [b]))) (.lifetime l bs)
  | type {n bs d} : ParamIs (n :: (boundsText (bs.map Emit.node) ++ defaultText d)) (.type n bs d)
  | const {n t d} : ParamIs (["const", n, ":"] ++ Emit.node t ++ defaultText d) (.const n t d)

def traitText : GTrait → List String
  | .unpin => hiddenText .local_ "Unpin"
  | .unsafeUnpin => ["_pin_project", "::", "UnsafeUnpin"]
  | .drop => hiddenText .local_ "Drop"
  | .pinnedDrop => hiddenText .local_ "PinnedDrop"
  | .mustNotImplDrop n => [n]

inductive PredIs : List String → WPred → Prop
  | user {n} : PredIs (Emit.node n) (.user n)
  | outlives {x t l} : TyIs x t → PredIs (x ++ [":", l]) (.outlives t l)
  | bound {x t tr} : TyIs x t → PredIs (x ++ [":"] ++ traitText tr) (.bound t tr)

/-! ## Items -/

inductive FieldIs : Reader.Field → GField → Prop
  | mk {v i x t} : TyIs x t → FieldIs ⟨v, i, x⟩ ⟨v, i, t⟩

inductive FieldsIs : Reader.Fields → GFields → Prop
  | mk {d fs gs} : Each FieldIs fs gs → FieldsIs ⟨d, fs⟩ ⟨d, gs⟩

/-- `a`, `a(b, c)` -/
def attrText : String × List String → String
  | (a, []) => a
  | (a, b :: bs) => a ++ "(" ++ bs.foldl (fun x y => x ++ ", " ++ y) b ++ ")"

inductive ReceiverIs : Input → GTy → Prop
  | refMut : ReceiverIs .refMutSelf (.ref none true .selfTy)
  | typed {x t} : TyIs x t → ReceiverIs (.typed "self" x) t

inductive InputIs : Input → String × GTy → Prop
  | mk {n x t} : TyIs x t → InputIs (.typed n x) (n, t)

inductive RetIs : Option (List String) → GTy → Prop
  | unit : RetIs none .unit
  | ty {x t} : TyIs x t → RetIs (some x) t

inductive FnIs : Reader.Fn → GFn → Prop
  | mk {as attrs v u n l i recv is ps r ret b ub body} : as.map attrText = attrs → ReceiverIs i recv → Each InputIs is ps →
      RetIs r ret → FnBodyIs b ub body →
      FnIs ⟨as, v, u, n, l.toList.map (fun l => [l]), i :: is, r, [], b⟩ ⟨attrs, v, u, n, l, recv, ps, ret, ub, body⟩

/-- `let _ = &this.x;` -/
def borrow (x : String) : St := .let_ .wild none (.ref false (.field (loc "this") x))

inductive VariantIs : String × Reader.Fields → String × GFields → Prop
  | mk {n f g} : FieldsIs f g → VariantIs (n, f) (n, g)

inductive ItemIs : Reader.Item → GItem → Prop
  | struct_ {attrs v n ps gs ws hs f g} : Each ParamIs ps gs → Each PredIs ws hs → FieldsIs f g →
      ItemIs (.struct_ [("allow", attrs)] v n ps ws f) (.struct_ attrs v n gs hs g)
  | enum_ {attrs v n ps gs ws hs fs vs} : Each ParamIs ps gs → Each PredIs ws hs → Each VariantIs fs vs →
      ItemIs (.enum_ [("allow", attrs)] v n ps ws fs) (.enum_ attrs v n gs hs vs)
  | inherent {ps gs x n as ws hs fs fns} : Each ParamIs ps gs → TyIs x (.adt n as) → Each PredIs ws hs → Each FnIs fs fns →
      ItemIs (.impl [] false ps none x ws fs) (.inherent gs n as hs fns)
  | traitImpl {h u ps gs tr x n as ws hs fs fns} : Each ParamIs ps gs → TyIs x (.adt n as) → Each PredIs ws hs →
      Each FnIs fs fns →
      ItemIs (.impl (if h then [("doc", ["hidden"])] else []) u ps (some (traitText tr)) x ws fs)
        (.traitImpl h u gs tr n as hs fns)
  | traitDef {n} : ItemIs (.trait n) (.traitDef n)
  | blanketDrop {n} : ItemIs (.impl [("allow", ["clippy::drop_bounds", "drop_bounds"])] false
      [["T", ":"] ++ hiddenText .local_ "Drop"] (some [n]) ["T"] [] []) (.blanketDrop n)
  | assertNotPacked {ps gs x n as ws hs refs} : Each ParamIs ps gs → TyIs x (.adt n as) → Each PredIs ws hs →
      ItemIs (.fn ⟨[("forbid", ["unaligned_references", "safe_packed_borrows"])], .inherited, false,
        "__assert_not_repr_packed", ps, [.typed "this" ("&" :: x)], none, ws, .mk (refs.map borrow) none⟩)
        (.assertNotPacked gs n as hs refs)

/-- The items of the expansion next to the type, and then
`const _: () = { extern crate pin_project as _pin_project; .. };` with the others. -/
inductive ExpansionIs : List Reader.Item → Expansion → Prop
  | mk {as bs x y lints} : Each ItemIs as x → Each ItemIs bs y →
      ExpansionIs (as ++ [.const [("allow", lints)] ["(", ")"]
        (.externCrate [("allow", ["unused_extern_crates"])] "pin_project" "_pin_project" :: bs)]) ⟨x, y⟩

end Meaning
end PinProject.Spec

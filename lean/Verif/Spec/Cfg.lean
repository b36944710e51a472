import Verif.Spec.Shape
import Verif.Model.Entry
/-!
# Specification: conditional compilation

How rustc treats an item annotated with `#[pin_project]`: the attribute macro is expanded first, with `#[cfg]` and `#[cfg_attr]`
on fields and variants still in place; then these are evaluated; and then the derive macro that the attribute macro added is
expanded. (The order is explained in pin-project-internal/src/pin_project/attribute.rs:13-25.)

Simplification: attributes on generic parameters are not modelled.
-/
namespace PinProject.Spec

/-- The compiler's view of conditional compilation: which predicates hold, and which attributes a `#[cfg_attr(..)]` stands for. -/
structure Cfg where
  holds : List TT → Bool
  resolve : Attribute → List Attribute
  /-- only `cfg_attr` is replaced, -/
  other : ∀ a, a.path.isIdent "cfg_attr" = false → resolve a = [a]
  /-- and completely so -/
  done : ∀ a, ∀ b ∈ resolve a, b.path.isIdent "cfg_attr" = false

/-- Does this attribute disable what it is on? -/
def Cfg.disables (C : Cfg) (a : Attribute) : Bool :=
  match a.m with
  | .list p _ toks => p.isIdent "cfg" && !C.holds toks
  | _ => false

/-- Is something with these attributes compiled? -/
def Cfg.active (C : Cfg) (attrs : List Attribute) : Bool := (attrs.flatMap C.resolve).all (fun a => !C.disables a)

/-- The attributes that remain: those a `cfg_attr` stands for are inserted, `cfg` is removed. -/
def Cfg.attrs (C : Cfg) (attrs : List Attribute) : List Attribute :=
  (attrs.flatMap C.resolve).filter (fun a => !a.path.isIdent "cfg")

def Cfg.fieldList (C : Cfg) (fs : List Field) : List Field :=
  (fs.filter (fun f => C.active f.attrs)).map (fun f => { f with attrs := C.attrs f.attrs })

def Cfg.fields (C : Cfg) : Fields → Fields
  | .named fs => .named (C.fieldList fs)
  | .unnamed fs => .unnamed (C.fieldList fs)
  | .unit => .unit

def Cfg.variants (C : Cfg) (vs : List Variant) : List Variant :=
  (vs.filter (fun v => C.active v.attrs)).map (fun v => { v with attrs := C.attrs v.attrs, fields := C.fields v.fields })

/-- The item with the parts that are not compiled left out. -/
def Cfg.item (C : Cfg) : Item → Item
  | .struct_ s => .struct_ { s with attrs := C.attrs s.attrs, fields := C.fields s.fields }
  | .enum_ e => .enum_ { e with attrs := C.attrs e.attrs, variants := C.variants e.variants }
  | .other attrs => .other (C.attrs attrs)

def withAttrs (attrs : List Attribute) : Item → Item
  | .struct_ s => .struct_ { s with attrs := attrs }
  | .enum_ e => .enum_ { e with attrs := attrs }
  | .other _ => .other attrs

/-- The compiler's parser, for an item without its outer attributes. What is parsed as a struct or an enum starts with an
optional visibility and one of these words. -/
structure Parser where
  parse : List TT → Option Item
  starts : ∀ body item, parse body = some item → (∀ attrs, item ≠ .other attrs) → StructOrEnum body

/-- The item that is compiled when `attrs` and `body` are written, without any macro. -/
def configured (C : Cfg) (R : Parser) (i : RawInput) : Option Item :=
  match R.parse i.body with
  | some item => if C.active i.attrs then some (C.item (withAttrs i.attrs item)) else none
  | none => none

/-- What `#[pin_project(args)]` on `attrs body` leads to: the item given to the derive macro and the generated code; `none` if the
item is not compiled or an error is reported. -/
def annotated (C : Cfg) (R : Parser) (args : List TT) (i : RawInput) : Option (Item × Expansion) :=
  match pinProjectAttribute args i with
  | .code out =>
    match configured C R out with
    | some item =>
      match pinProjectDerive item with
      | .code E => some (item, E)
      | _ => none
    | none => none
  | _ => none

end PinProject.Spec

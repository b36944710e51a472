import Verif.Model.Gen
import Verif.Model.Receiver
/-!
# Specification: changing the types of fields

`τ` replaces a type that the user wrote by another one. The first half applies it to the fields of
the user's definition, the second half to every place of the generated code where a type of the user
is copied.
-/
namespace PinProject

/-- `τ` treats a type and the type in which `Self` has been spelled out in the same way: for example
`τ t = Vec<t>`, or `τ t = u8` for every `t`. -/
def RespectsSelf (τ : Node → Node) : Prop := ∀ (s : SelfTy) (t : Node), (τ t).visit s = τ (t.visit s)

/-! ## The user's definition -/

def Field.retype (τ : Node → Node) (f : Field) : Field := { f with ty := τ f.ty }

def Fields.retype (τ : Node → Node) : Fields → Fields
  | .named fs => .named (fs.map (Field.retype τ))
  | .unnamed fs => .unnamed (fs.map (Field.retype τ))
  | .unit => .unit

def Variant.retype (τ : Node → Node) (v : Variant) : Variant := { v with fields := v.fields.retype τ }

def Item.retype (τ : Node → Node) : Item → Item
  | .struct_ s => .struct_ { s with fields := s.fields.retype τ }
  | .enum_ e => .enum_ { e with variants := e.variants.map (Variant.retype τ) }
  | .other a => .other a

/-! ## The generated code -/

def GTy.retype (τ : Node → Node) : GTy → GTy
  | .user n => .user (τ n)
  | .paren t => .paren (t.retype τ)
  | .ref l m t => .ref l m (t.retype τ)
  | .pin r t => .pin r (t.retype τ)
  | .phantomData r t => .phantomData r (t.retype τ)
  | .phantomPinned => .phantomPinned
  | .adt n as => .adt n as
  | .param n => .param n
  | .selfTy => .selfTy
  | .ptrMut t => .ptrMut (t.retype τ)
  | .pinnedFieldsOf t => .pinnedFieldsOf (t.retype τ)
  | .wrapper l t => .wrapper l (t.retype τ)
  | .alwaysUnpin l ps => .alwaysUnpin l ps
  | .unit => .unit

def GFn.retype (τ : Node → Node) (f : GFn) : GFn :=
  { f with recv := f.recv.retype τ, params := f.params.map (fun p => (p.1, p.2.retype τ)), ret := f.ret.retype τ }

def GFields.retype (τ : Node → Node) (f : GFields) : GFields :=
  { f with fields := f.fields.map (fun g => { g with ty := g.ty.retype τ }) }

/-- The generics and the where-clauses stay: they are not the types of fields. -/
def GItem.retype (τ : Node → Node) : GItem → GItem
  | .struct_ a v n ps pr fs => .struct_ a v n ps pr (fs.retype τ)
  | .enum_ a v n ps pr vs => .enum_ a v n ps pr (vs.map (fun q => (q.1, q.2.retype τ)))
  | .inherent ps n as pr fns => .inherent ps n as pr (fns.map (GFn.retype τ))
  | .traitImpl d u ps t n as pr fns => .traitImpl d u ps t n as pr (fns.map (GFn.retype τ))
  | .traitDef n => .traitDef n
  | .blanketDrop n => .blanketDrop n
  | .assertNotPacked ps n as pr refs => .assertNotPacked ps n as pr refs

def Expansion.retype (τ : Node → Node) (E : Expansion) : Expansion :=
  ⟨E.exposed.map (GItem.retype τ), E.inScope.map (GItem.retype τ)⟩

end PinProject

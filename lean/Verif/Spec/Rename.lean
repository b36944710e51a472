import Verif.Model.Gen
/-!
# Specification: renaming fields and variants

`ρ` renames fields (and the variables that are bound to them), `σ` renames variants. Nothing here
mentions how the macro works: the first half renames the user's definition, the second half renames
the names in the generated code, wherever a variable, a field or a variant is named.
-/
namespace PinProject

/-- The names that a renaming of fields must leave alone: `self`, the names that begin with two
underscores (those of the templates), the names that begin with an underscore and a digit (`_0`,
`_1`, .. for tuple fields), and the indices of tuple fields. -/
inductive ReservedName (x : String) : Prop
  | self_ (h : x = "self")
  | empty (h : x.toList = [])
  | index {c cs} (h : x.toList = c :: cs) (hc : c.isDigit = true)
  | underscore (h : x.toList = ['_'])
  | template {c cs} (h : x.toList = '_' :: c :: cs) (hc : c = '_' ∨ c.isDigit = true)

/-- A renaming of fields. -/
def KeepsReserved (ρ : String → String) : Prop := ∀ x, ReservedName x → ρ x = x

/-! ## The user's definition -/

def Field.rename (ρ : String → String) (f : Field) : Field := { f with ident := f.ident.map ρ }

def Fields.rename (ρ : String → String) : Fields → Fields
  | .named fs => .named (fs.map (Field.rename ρ))
  | .unnamed fs => .unnamed (fs.map (Field.rename ρ))
  | .unit => .unit

def Variant.rename (ρ σ : String → String) (v : Variant) : Variant :=
  { v with ident := σ v.ident, fields := v.fields.rename ρ }

def Item.rename (ρ σ : String → String) : Item → Item
  | .struct_ s => .struct_ { s with fields := s.fields.rename ρ }
  | .enum_ e => .enum_ { e with variants := e.variants.map (Variant.rename ρ σ) }
  | .other a => .other a

/-! ## The generated code -/

def GPat.rename (ρ σ : String → String) (p : GPat) : GPat :=
  { p with variant := p.variant.map σ, binders := p.binders.map ρ }

def FExpr.rename (ρ : String → String) : FExpr → FExpr
  | .bind x => .bind (ρ x)
  | .pinNew x => .pinNew (ρ x)
  | .read x => .read (ρ x)
  | .phantom => .phantom

def GInit.rename (ρ : String → String) : GInit → GInit
  | .labelled i e => .labelled (i.map ρ) (e.rename ρ)
  | .bare x => .bare (ρ x)

def GCtor.rename (ρ σ : String → String) (c : GCtor) : GCtor :=
  { c with variant := c.variant.map σ, inits := c.inits.map (GInit.rename ρ) }

def RHS.rename (ρ σ : String → String) : RHS → RHS
  | .var x => .var (ρ x)
  | .getUncheckedMut x => .getUncheckedMut (ρ x)
  | .getRef x => .getRef (ρ x)
  | .reborrow x => .reborrow (ρ x)
  | .pinNew x => .pinNew (ρ x)
  | .ctor c => .ctor (c.rename ρ σ)
  | .overwriteGuard p v => .overwriteGuard (ρ p) (ρ v)
  | .dropGuard x => .dropGuard (ρ x)
  | .pinnedDropCall x => .pinnedDropCall (ρ x)
  | .unit => .unit

def GStmt.rename (ρ σ : String → String) : GStmt → GStmt
  | .letPat p e => .letPat (p.rename ρ σ) (e.rename ρ σ)
  | .letVar x ty e => .letVar (ρ x) ty (e.rename ρ σ)
  | .scope ss => .scope (ss.map (fun q => (ρ q.1, q.2.rename ρ σ)))
  | .expr e => .expr (e.rename ρ σ)

def GArm.rename (ρ σ : String → String) (a : GArm) : GArm :=
  ⟨a.pat.rename ρ σ, a.stmts.map (GStmt.rename ρ σ), a.tail.rename ρ σ⟩

def GTail.rename (ρ σ : String → String) : GTail → GTail
  | .expr e => .expr (e.rename ρ σ)
  | .match_ s arms => .match_ (s.rename ρ σ) (arms.map (GArm.rename ρ σ))

def GBody.rename (ρ σ : String → String) (b : GBody) : GBody :=
  ⟨b.stmts.map (GStmt.rename ρ σ), b.tail.rename ρ σ⟩

def GFn.rename (ρ σ : String → String) (f : GFn) : GFn :=
  { f with params := f.params.map (fun p => (ρ p.1, p.2)), body := f.body.rename ρ σ }

def GField.rename (ρ : String → String) (f : GField) : GField := { f with ident := f.ident.map ρ }

def GFields.rename (ρ : String → String) (f : GFields) : GFields :=
  { f with fields := f.fields.map (GField.rename ρ) }

def GItem.rename (ρ σ : String → String) : GItem → GItem
  | .struct_ a v n ps pr fs => .struct_ a v n ps pr (fs.rename ρ)
  | .enum_ a v n ps pr vs => .enum_ a v n ps pr (vs.map (fun q => (σ q.1, q.2.rename ρ)))
  | .inherent ps n as pr fns => .inherent ps n as pr (fns.map (GFn.rename ρ σ))
  | .traitImpl d u ps t n as pr fns => .traitImpl d u ps t n as pr (fns.map (GFn.rename ρ σ))
  | .traitDef n => .traitDef n
  | .blanketDrop n => .blanketDrop n
  | .assertNotPacked ps n as pr refs => .assertNotPacked ps n as pr (refs.map ρ)

def Expansion.rename (ρ σ : String → String) (E : Expansion) : Expansion :=
  ⟨E.exposed.map (GItem.rename ρ σ), E.inScope.map (GItem.rename ρ σ)⟩

end PinProject

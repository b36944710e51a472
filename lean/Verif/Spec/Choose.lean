import Verif.Spec.Independence
import Verif.Spec.Shape
/-!
# Specification: other names for the projections

`ν` renames types. The first half renames in the arguments of `#[pin_project(..)]`, the second half in the generated code, at
every place where a type is defined or built, and in the type that a method returns.
-/
namespace PinProject

/-- Names that begin with two underscores are the macro's own. -/
def KeepsOwn (ν : String → String) : Prop := ∀ s, ν ("__" ++ s) = "__" ++ s

/-! ## The arguments -/

def Spec.Arg.choose (ν : String → String) : Spec.Arg → Spec.Arg
  | .project n => .project (ν n)
  | .projectRef n => .projectRef (ν n)
  | .projectReplaceNamed n => .projectReplaceNamed (ν n)
  | a => a

/-- The same attributes, but for those called `pin` or `pin_project`. -/
def Spec.SameOtherAttrs (item item' : Item) : Prop :=
  ∀ a, isOurs a = false → (a ∈ itemAttrs item ↔ a ∈ itemAttrs item')

/-! ## The generated code -/

def RHS.choose (ν : String → String) : RHS → RHS
  | .ctor c => .ctor { c with ty := ν c.ty }
  | e => e

def GStmt.choose (ν : String → String) : GStmt → GStmt
  | .letPat p e => .letPat p (e.choose ν)
  | .letVar x ty e => .letVar x ty (e.choose ν)
  | .scope ss => .scope (ss.map (fun q => (q.1, q.2.choose ν)))
  | .expr e => .expr (e.choose ν)

def GArm.choose (ν : String → String) (a : GArm) : GArm := ⟨a.pat, a.stmts.map (GStmt.choose ν), a.tail.choose ν⟩

def GTail.choose (ν : String → String) : GTail → GTail
  | .expr e => .expr (e.choose ν)
  | .match_ s arms => .match_ (s.choose ν) (arms.map (GArm.choose ν))

def GBody.choose (ν : String → String) (b : GBody) : GBody := ⟨b.stmts.map (GStmt.choose ν), b.tail.choose ν⟩

def GTy.choose (ν : String → String) : GTy → GTy
  | .adt n as => .adt (ν n) as
  | t => t

def GFn.choose (ν : String → String) (f : GFn) : GFn := { f with ret := f.ret.choose ν, body := f.body.choose ν }

def GItem.choose (ν : String → String) : GItem → GItem
  | .struct_ a v n ps pr fs => .struct_ a v (ν n) ps pr fs
  | .enum_ a v n ps pr vs => .enum_ a v (ν n) ps pr vs
  | .inherent ps n as pr fns => .inherent ps n as pr (fns.map (GFn.choose ν))
  | .traitImpl d u ps t n as pr fns => .traitImpl d u ps t n as pr (fns.map (GFn.choose ν))
  | i => i

def Expansion.choose (ν : String → String) (E : Expansion) : Expansion :=
  ⟨E.exposed.map (GItem.choose ν), E.inScope.map (GItem.choose ν)⟩

end PinProject

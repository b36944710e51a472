import Verif.Spec.Choose
import Verif.Spec.PinnedDrop
import Verif.Spec.Receiver
/-!
# Specification: another name for the annotated type

`μ` renames types and traits in the generated code. What the user wrote (types, bounds, predicates) is left as it is.
-/
namespace PinProject

/-- The same definition under the name `n`. -/
def Item.withName (n : String) : Item → Item
  | .struct_ s => .struct_ { s with ident := n }
  | .enum_ e => .enum_ { e with ident := n }
  | i => i

/-- Nothing in the definition mentions `Self` or `self`, and all where-predicates are the user's. -/
structure Spec.NoSelf (item : Item) : Prop where
  nodes : ∀ n ∈ definitionNodes item, ∀ w, ¬ Mentions w n
  preds : ∀ w ∈ (itemGenerics item).preds, ∃ n, w = .user n
  vis : isPubSelf (itemVis item) = false
  fields : ∀ f ∈ itemFields item, isPubSelf f.vis = false

/-- `μ` takes the name `n` of the type, and the names the macro makes from it, to `n'` and the names made from `n'`; names
chosen by the user it keeps. -/
structure Spec.Retitles (n n' : String) (chosen : List String) (μ : String → String) : Prop where
  own : μ n = n'
  made : ∀ s ∈ ["", "Projection", "ProjectionRef", "ProjectionOwned"], μ ("__" ++ noRaw n ++ s) = "__" ++ noRaw n' ++ s
  drop : μ (noRaw n ++ "MustNotImplDrop") = noRaw n' ++ "MustNotImplDrop"
  chosen : ∀ c ∈ chosen, μ c = c

/-! ## The generated code -/

def GTy.retitle (μ : String → String) : GTy → GTy
  | .adt n as => .adt (μ n) as
  | .paren t => .paren (t.retitle μ)
  | .ref l m t => .ref l m (t.retitle μ)
  | .pin r t => .pin r (t.retitle μ)
  | .phantomData r t => .phantomData r (t.retitle μ)
  | .ptrMut t => .ptrMut (t.retitle μ)
  | .pinnedFieldsOf t => .pinnedFieldsOf (t.retitle μ)
  | .wrapper l t => .wrapper l (t.retitle μ)
  | t => t

def GTrait.retitle (μ : String → String) : GTrait → GTrait
  | .mustNotImplDrop n => .mustNotImplDrop (μ n)
  | t => t

def WPred.retitle (μ : String → String) : WPred → WPred
  | .user n => .user n
  | .outlives t l => .outlives (t.retitle μ) l
  | .bound t tr => .bound (t.retitle μ) (tr.retitle μ)

def GFields.retitle (μ : String → String) (fs : GFields) : GFields :=
  ⟨fs.delim, fs.fields.map (fun f => ⟨f.vis, f.ident, f.ty.retitle μ⟩)⟩

def GFn.retitle (μ : String → String) (f : GFn) : GFn :=
  { f with
    recv := f.recv.retitle μ
    params := f.params.map (fun p => (p.1, p.2.retitle μ))
    ret := f.ret.retitle μ
    body := f.body.choose μ }

def GItem.retitle (μ : String → String) : GItem → GItem
  | .struct_ a v n ps pr fs => .struct_ a v (μ n) ps (pr.map (WPred.retitle μ)) (fs.retitle μ)
  | .enum_ a v n ps pr vs => .enum_ a v (μ n) ps (pr.map (WPred.retitle μ)) (vs.map (fun q => (q.1, q.2.retitle μ)))
  | .inherent ps n as pr fns => .inherent ps (μ n) as (pr.map (WPred.retitle μ)) (fns.map (GFn.retitle μ))
  | .traitImpl d u ps t n as pr fns =>
    .traitImpl d u ps (t.retitle μ) (μ n) as (pr.map (WPred.retitle μ)) (fns.map (GFn.retitle μ))
  | .traitDef n => .traitDef (μ n)
  | .blanketDrop n => .blanketDrop (μ n)
  | .assertNotPacked ps n as pr refs => .assertNotPacked ps (μ n) as (pr.map (WPred.retitle μ)) refs

def Expansion.retitle (μ : String → String) (E : Expansion) : Expansion :=
  ⟨E.exposed.map (GItem.retitle μ), E.inScope.map (GItem.retitle μ)⟩

end PinProject

import Verif.Spec.Types
import Verif.Spec.Tree
/-!
# Specification: lifetimes declared twice

Rust does not allow a lifetime parameter to be declared again, by `for<'a>`, inside the definition that
has the parameter (E0496).
-/
namespace PinProject.Spec

/-- The syntax copied from the user that occurs in a generated type. -/
def userNodes : GTy → List Node
  | .user n => [n]
  | .paren t | .ref _ _ t | .pin _ t | .phantomData _ t | .ptrMut t | .pinnedFieldsOf t | .wrapper _ t => userNodes t
  | .phantomPinned | .adt _ _ | .param _ | .selfTy | .alwaysUnpin _ _ | .unit => []

/-- The syntax in a parameter: bounds, default, the type of a const parameter. -/
def userNodesOfParam : GParam → List Node
  | .lifetime _ _ => []
  | .type _ bounds dflt => bounds ++ dflt.toList
  | .const _ ty dflt => ty :: dflt.toList

def userNodesOfPred : WPred → List Node
  | .user n => [n]
  | .outlives t _ => userNodes t
  | .bound t _ => userNodes t

/-- All syntax copied from the user in a generated type definition. -/
def TypeDef.nodes (d : TypeDef) : List Node :=
  d.params.flatMap userNodesOfParam ++ d.preds.flatMap userNodesOfPred ++
    d.variants.flatMap (fun v => v.2.fields.flatMap (fun f => userNodes f.ty))

/-- The same for the definition written by the user. -/
def itemNodes (item : Item) : List Node :=
  (itemGenerics item).params.flatMap userNodesOfParam ++ ((itemGenerics item).whereClause.getD []).flatMap userNodesOfPred ++
    (itemFields item).map (·.ty)

/-- Some lifetime parameter is declared again by a `for<..>` in the given syntax. -/
def Redeclares (ps : List GParam) (ns : List Node) : Prop :=
  ∃ l bs, GParam.lifetime l bs ∈ ps ∧ ∃ n ∈ ns, Declares n l

end PinProject.Spec

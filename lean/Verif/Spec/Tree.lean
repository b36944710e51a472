import Verif.Model.Syntax
/-!
# Specification: syntax trees as trees

The direct children of a syntax node, and what it means that a node occurs somewhere below another.
-/
namespace PinProject

def PArgs.children : PArgs → List Node
  | .none => []
  | .angle _ args => args
  | .paren args => args

def Path.children : Path → List Node
  | .mk _ segs => segs.flatMap (fun s => s.args.children)

def QS.children : QS → List Node
  | .none => []
  | .some t _ => [t]

/-- The direct children of a node. The tokens of a macro call are not syntax nodes. -/
def Node.children : Node → List Node
  | .tyPath q p | .exprPath q p => q.children ++ p.children
  | .exprStruct q p cs | .patStruct q p cs | .patTupleStruct q p cs => q.children ++ p.children ++ cs
  | .path p => p.children
  | .mac p _ | .itemMac p _ => p.children
  | .item _ cs | .other _ cs => cs
  | .binder _ | .lifetime _ => []

namespace Spec

/-- `Within m n`: the node `m` occurs in `n`, at any depth. -/
inductive Within : Node → Node → Prop
  | here (n : Node) : Within n n
  | inside {m c n : Node} : c ∈ n.children → Within m c → Within m n

/-- The lifetime `l` is declared by a `for<..>` somewhere in `n`. -/
def Declares (n : Node) (l : String) : Prop := ∃ lts, Within (.binder lts) n ∧ l ∈ lts

/-- The lifetimes declared in the generics of an item: its lifetime parameters, and `for<..>` binders
anywhere in bounds, defaults, const parameter types and where-clauses. -/
def GenericsDeclare (g : Generics) (l : String) : Prop :=
  (∃ p ∈ g.params, match p with
    | .lifetime n _ => n = l
    | .type _ bounds dflt => (∃ n ∈ bounds, Declares n l) ∨ ∃ n ∈ dflt, Declares n l
    | .const _ ty dflt => Declares ty l ∨ ∃ n ∈ dflt, Declares n l) ∨
  ∃ ps ∈ g.whereClause, ∃ n, WPred.user n ∈ ps ∧ Declares n l

end Spec
end PinProject

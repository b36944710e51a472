import Verif.Spec.Projection
import Verif.Spec.Types
/-!
# Specification: a variant as a struct

The struct that has the fields of a variant, and the match arm that does for a variant what the method of this struct does.
-/
namespace PinProject

/-- The struct with the fields of the variant `v`, and otherwise like the enum. -/
def ItemEnum.asStruct (e : ItemEnum) (v : Variant) : ItemStruct :=
  { attrs := e.attrs, vis := e.vis, ident := e.ident, generics := e.generics, fields := v.fields }

namespace Spec

/-- Build the variant `w` instead of a struct. -/
def rhsAt (w : String) : RHS → RHS
  | .ctor c => .ctor { c with variant := some w }
  | e => e

def stmtAt (w : String) : GStmt → GStmt
  | .letPat p e => .letPat p (rhsAt w e)
  | .letVar x ty e => .letVar x ty (rhsAt w e)
  | .scope ss => .scope (ss.map (fun q => (q.1, rhsAt w q.2)))
  | .expr e => .expr (rhsAt w e)

/-- `f'` does for the variant `w`, in its `k`-th arm, what `f` does: `f` is `before; let Self pat = e; after; last`, and `f'` is
`before; match e { .., Self::w pat => { after; last } , .. }` with `n` arms, where `after` and `last` build the variant `w`. -/
def MatchesInstead (w : String) (k n : Nat) (f f' : GFn) : Prop :=
  ∃ before pat e after last arms,
    f.body = ⟨before ++ .letPat pat e :: after, .expr last⟩ ∧ pat.variant = none ∧
    f' = { f with body := ⟨before, .match_ e arms⟩ } ∧ arms.length = n ∧
    arms[k]? = some ⟨{ pat with variant := some w }, after.map (stmtAt w), rhsAt w last⟩

/-- `i'` is the enum with `n` variants that is like the struct `i`, with the fields of `i` in its `k`-th variant, which is called
`w`. Only the attributes may differ. -/
def TypeInstead (w : String) (k n : Nat) (i i' : GItem) : Prop :=
  ∃ attrs attrs' vis name params preds fields variants,
    i = .struct_ attrs vis name params preds fields ∧ i' = .enum_ attrs' vis name params preds variants ∧
    variants.length = n ∧ variants[k]? = some (w, fields)

end Spec
end PinProject

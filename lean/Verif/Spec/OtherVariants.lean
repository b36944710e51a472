import Verif.Spec.Projection
import Verif.Spec.Types
/-!
# Specification: the other variants of an enum

Two lists that may have lost, gained or reordered entries agree on the entries both have.
-/
namespace PinProject.Spec

/-- Where `vs` at `k` and `vs'` at `k'` have the same variant, `l` at `k` and `l'` at `k'` have the same entry; each list is as
long as its list of variants. -/
def VariantsAgree {α : Type} (vs vs' : List Variant) (l l' : List α) : Prop :=
  l.length = vs.length ∧ l'.length = vs'.length ∧
  ∀ (k k' : Nat) v, vs[k]? = some v → vs'[k']? = some v → ∃ x, l[k]? = some x ∧ l'[k']? = some x

/-- The same function, up to the arms of the `match` at its end. -/
def SameArms (vs vs' : List Variant) (f f' : GFn) : Prop :=
  ∃ before e arms arms', f.body = ⟨before, .match_ e arms⟩ ∧ f' = { f with body := ⟨before, .match_ e arms'⟩ } ∧
    VariantsAgree vs vs' arms arms'

/-- The same enum, up to its variants. -/
def SameVariants (vs vs' : List Variant) (i i' : GItem) : Prop :=
  ∃ attrs vis name params preds ws ws',
    i = .enum_ attrs vis name params preds ws ∧ i' = .enum_ attrs vis name params preds ws' ∧ VariantsAgree vs vs' ws ws'

end PinProject.Spec

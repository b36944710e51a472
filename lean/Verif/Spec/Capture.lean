import Verif.Spec.Instances
import Verif.Spec.Receiver
/-!
# Specification: names seen from inside the anonymous scope

Most generated items are inside `const _: () = { extern crate pin_project as _pin_project; .. };`. Types,
bounds and where-clauses copied there are resolved in that scope, where names defined by pin-project hide
names of the user's module.
-/
namespace PinProject.Spec

/-- The names defined in the anonymous scope (derive.rs:100 is the `extern crate`). -/
def scopeNames (E : Expansion) : List String := "_pin_project" :: E.inScope.filterMap generatedName

/-- `n` refers, somewhere inside, to something by a path that starts with `x` (and not with `::`), or has a
macro call among whose tokens there is `x`. -/
def StartsAt (n : Node) (x : String) : Prop :=
  ∃ m, Within m n ∧
    ((∃ p i a rest, (nodePath m = some p ∨ ∃ toks, m = .mac p toks ∨ m = .itemMac p toks) ∧
        p = .mk false (.mk i a :: rest) ∧ noRaw i = noRaw x) ∨
      ∃ p toks, (m = .mac p toks ∨ m = .itemMac p toks) ∧ ∃ i ∈ tokIdents toks, noRaw i = noRaw x)

/-- The scope rules of Rust, for a scope that defines `names`: syntax which refers to none of these means
the same inside the scope (`inner`) and outside (`outer`). -/
structure SameScope (names : List String) (outer inner : Names) : Prop where
  den : ∀ σ n, (∀ x ∈ names, ¬ StartsAt n x) → inner.den σ n = outer.den σ n
  pred : ∀ σ n, (∀ x ∈ names, ¬ StartsAt n x) → (inner.pred σ n ↔ outer.pred σ n)
  bound : ∀ σ p n, (∀ x ∈ names, ¬ StartsAt n x) → (inner.bound σ p n ↔ outer.bound σ p n)

end PinProject.Spec

import Verif.Spec.Recursion
/-!
# Specification: values reached through `#[pin]` fields, and `Unpin`

These are the types of the values to which a chain of `project` calls can lead from a pinned value of type `t`.
-/
namespace PinProject.Spec

/-- `u` is the type of a `#[pin]` field of `t`, and `t` is an instance of an annotated type without `!Unpin` and
`UnsafeUnpin`. -/
def PinFieldOf (P : Program) (N : Names) (u t : Ty) : Prop :=
  ∃ item ident args, HostsDefault P item ident ∧ IsInstance item N args ∧ t = .adt ident args ∧
    ∃ f ∈ itemFields item, Pinned f ∧ u = N.den (instSubst item args) (resolved item f.ty)

/-- A value of type `u` is reached from a value of type `t` by following `#[pin]` fields, any number of times. -/
inductive PinReaches (P : Program) (N : Names) : Ty → Ty → Prop
  | here {t : Ty} : PinReaches P N t t
  | field {t u v : Ty} (h : PinFieldOf P N u t) (hr : PinReaches P N u v) : PinReaches P N t v

/-- Following the `#[pin]` fields of `t` we may stop anywhere; `L` are the types where we stopped. -/
inductive PinEnds (P : Program) (N : Names) : Ty → (Ty → Prop) → Prop
  | stop (t : Ty) : PinEnds P N t (· = t)
  | fields {item : Item} {ident : String} {args : List TArg} (hd : HostsDefault P item ident) (hi : IsInstance item N args)
      (L : Field → Ty → Prop)
      (h : ∀ f ∈ itemFields item, Pinned f → PinEnds P N (N.den (instSubst item args) (resolved item f.ty)) (L f)) :
      PinEnds P N (.adt ident args) (fun u => ∃ f ∈ itemFields item, Pinned f ∧ L f u)

end PinProject.Spec

import Verif.Sem.Client
/-!
# Specification: the guarantees of pinning

In the words of `std::pin`: once a value has been pinned, it stays where it is, and its memory is not
invalidated or reused, until its destructor has been called.
-/
namespace PinProject.Spec

/-- A pinned reference to the value `id`, of type `ty`, at `L`, has been handed out. -/
def Exposed (w : World) (id : Id) (ty : Ty) (L : GLoc) : Prop := .expose id ty L ∈ w.trace

/-- The value `id` is stored at `L`. -/
def Resides (w : World) (id : Id) (ty : Ty) (L : GLoc) : Prop :=
  ∃ variant fs, w.at L = some (.node id ty variant fs)

/-- The life of the value `id` at `L` has ended: its destructor has been called there. For a type with
`project_replace`, which then has no destructor of its own, that function may have taken it apart there
instead. The last case: the type's own destructor, running for `L`, put this value into `L`; its
parts are then destroyed in place, but its destructor is not called again. -/
def Ended (w : World) (id : Id) (L : GLoc) : Prop :=
  .dtor id L ∈ w.trace ∨ .taken id L ∈ w.trace ∨ .late id L ∈ w.trace

end PinProject.Spec

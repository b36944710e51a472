import Verif.Sem.Client
/-!
# Specification: ownership

In safe Rust the destructor of a value is called at most once, nothing uses the value afterwards, and a value does
not disappear without its destructor being called, unless the program says so (`mem::forget`). There is one
exception that has nothing to do with unsafe code: a destructor has a `&mut self`, and can `mem::swap` the value
it is destroying with another one. The value that was moved out begins a new life.
-/
namespace PinProject.Spec

/-- With this event the life of the value `id` ends: its destructor is called; or it is taken apart by
`project_replace`; or it is put into a location by the destructor that is running for that location, in which case
its parts will be destroyed next. -/
def Ends (id : Id) : PEvent → Prop
  | .dtor i _ => i = id
  | .taken i _ => i = id
  | .late i _ => i = id
  | _ => False

/-- With this event the value `id` begins a new life: its own destructor moves it elsewhere. -/
def Revives (id : Id) : PEvent → Prop
  | .escape i _ => i = id
  | _ => False

/-- The life of the value `id` is over. -/
def Spent (w : World) (id : Id) : Prop :=
  ∃ before e after, w.trace = before ++ e :: after ∧ Ends id e ∧ ∀ e' ∈ after, ¬ Revives id e'

/-- The destructor of the value at `L` is running: user code was given a reference to `L`, and the parts
have still to be destroyed. -/
def InDestructor (c : Config) (L : GLoc) : Prop := (∃ k, .code [(L, k)] ∈ c.todo) ∧ .fields L ∈ c.todo

end PinProject.Spec

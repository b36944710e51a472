import Verif.Spec.Borrow
/-!
# Specification: several threads

Threads that are not synchronised with one another use a value at the same time. Two accesses to a byte by different threads,
at least one of them a write, are then a data race, which is undefined behaviour. What counts is which accesses there are and
in which order they may happen; so the machine of `Sem/Borrow.lean` is run with memory that only records them.
-/
namespace PinProject.Spec

/-- Memory that records the accesses to a byte, the last one first; `true` is a write. Making a mutable reference counts as
a write and making a shared one as a read. -/
abbrev recorded : AliasModel where
  St := List Bool
  access _ write _ log := some (write :: log)
  retagAccess p _ := some (p != .shared)
  push _ _ _ log := log
  release _ _ log := some log
  valid _ _ := True

/-- What a thread does: call a function on the value (with any behaviour of the user's destructors), or use the `k`-th of the
references it has. -/
inductive ThreadAct
  | call (panics : BOracle) (tailLeak : Bool)
  | use (k : Nat) (write : Bool)

/-- A thread: the references to fields that it has, and its memory. -/
structure Thread where
  refs : List BFVal
  σ : B recorded

/-- One action of a thread that calls `fn` with its reference `t0` to a value of the shape `o`. References returned by the
function are added to those it has. The compiler does not accept writes through a shared reference. -/
def Thread.act (b : Byte) (fn : GFn) (o : Shape) (t0 : Nat) (s : Thread) : ThreadAct → Thread
  | .call panics tl =>
    match bCallFn b panics tl fn o t0 s.σ with
    | (some (.adt fields), σ) => ⟨s.refs ++ fields.map Prod.snd, σ⟩
    | (_, σ) => ⟨s.refs, σ⟩
  | .use k w =>
    match s.refs[k]?.bind pointer with
    | some (m, l, t) => if w && !m then s else ⟨s.refs, s.σ.access b w l t⟩
    | none => s

/-- Any number of actions. -/
def Thread.acts (b : Byte) (fn : GFn) (o : Shape) (t0 : Nat) (as : List ThreadAct) (s : Thread) : Thread :=
  as.foldl (Thread.act b fn o t0) s

/-- A thread at the start: it has no references to fields. -/
def Thread.fresh (t0 : Nat) : Thread := ⟨[], { mem := [], next := t0 + 1 }⟩

/-- How often the thread calls the function. -/
def calls : List ThreadAct → Nat
  | [] => 0
  | .call .. :: as => calls as + 1
  | .use .. :: as => calls as

/-- The accesses of a thread, the first one first. -/
def Thread.log (s : Thread) : List Bool := s.σ.mem.reverse

/-- An order in which the accesses of the threads (`T i` for the thread `i`) may happen, up to any moment: each thread's in
their own order, otherwise any. -/
inductive Schedule : (Nat → List Bool) → List (Nat × Bool) → Prop
  | stop (T) : Schedule T []
  | step {T i a rest log} : T i = a :: rest → Schedule (fun j => if j = i then rest else T j) log →
      Schedule T ((i, a) :: log)

/-- Two threads access the byte, and one of them writes. -/
def Race (log : List (Nat × Bool)) : Prop := ∃ i j w, i ≠ j ∧ (i, true) ∈ log ∧ (j, w) ∈ log

/-- A thread that has been given some references and uses them, each access a pair of the number of the reference and whether
it is a write. -/
def given (b : Byte) (refs : List BFVal) (uses : List (Nat × Bool)) : List Bool :=
  uses.flatMap (fun u => match refs[u.1]?.bind pointer with
    | some (m, l, _) => if b.within l && !(u.2 && !m) then [u.2] else []
    | none => [])

end PinProject.Spec

import Verif.Spec.Projection
/-!
# Destroying a value of the annotated type

Drop glue: the type's `Drop::drop`, if there is one, then the fields in declaration order; a panic
does not stop the rest. (The Rust reference, "Destructors".)

Comments cite the code in /repo that a definition runs or is about. Definitions without a citation are rules of Rust and
have no counterpart in /repo.
-/
namespace PinProject

/-- The function of a `Drop` impl. (derive.rs:873) -/
def GItem.dropFn? : GItem → Option GFn
  | .traitImpl _ _ _ .drop _ _ _ fns => fns.head?
  | _ => none

/-- The function of the `Drop` impl in an expansion, if there is one. (derive.rs:868-884) -/
def dropFn (E : Expansion) : Option GFn := (E.exposed ++ E.inScope).findSome? GItem.dropFn?

/-- Calling a function from a destructor: if we are already unwinding, a panic that escapes it
aborts. (derive.rs:881) -/
def M.nest (f : M → M) (m : M) : M :=
  match m.status with
  | .run => f m
  | .unwind =>
    let m' := f { m with status := .run }
    { m' with status := match m'.status with
      | .run => .unwind
      | .unwind => .abort
      | s => s }
  | _ => m

/-- Destroy the value at place `p`. (derive.rs:869-884, then Rust's drop glue) -/
def destroy (orc : Oracle) (tailLeak : Bool) (E : Expansion) (p : Nat) (m : M) : M :=
  match m.mem p with
  | none => m.getStuck
  | some o =>
    let m := match dropFn E with
      | none => m
      | some f => m.nest (fun m => (callFn orc tailLeak f (.fv (.ref true ⟨p, none⟩)) [] m).2)
    Spec.dropInPlace orc p o.fields m

/-- `Pin::set`, i.e. the assignment `*place = new`: destroy the old value, then write the new one,
also when a destructor panicked. (calls derive.rs:869-884) -/
def assign (orc : Oracle) (tailLeak : Bool) (E : Expansion) (p : Nat) (new : Obj) (m : M) : M :=
  (destroy orc tailLeak E p m).write p new

end PinProject

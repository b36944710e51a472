import Verif.Sem.Destroy
import Verif.Model.Derive
import Verif.Spec.Projection
/-!
# Histories of operations on values of annotated types

A program owns places (each of one annotated type) and values handed back to it by
`project_replace`. It allocates, projects, replaces, assigns, moves, destructures and drops, in any
order and any number of times; destructors may panic at will, and the program may catch the panics.

Comments cite the code in /repo that a definition runs or is about. Definitions without a citation are rules of Rust and
have no counterpart in /repo.
-/
namespace PinProject
open Spec

/-- An annotated type that compiles. (derive.rs:20-49) -/
structure Def where
  item : Item
  E : Expansion
  ok : parseDerive item = .ok E
  wf : ItemWF item
  /-- C42: if `project_replace` exists, no field has one of the two excluded names -/
  free : ∀ variant fs, HasVariant item variant fs → (method E "project_replace").isSome → NamesFree fs

/-- The program's state. -/
structure HState where
  m : M
  /-- the places that hold a value -/
  live : List Nat
  /-- values handed back to the program -/
  held : List Val
  /-- ghost: all field values ever created -/
  given : List Id

/-- The field values inside a value. -/
def Obj.ids (o : Obj) : List Id := o.fields.map Prod.snd

/-- The field values in a part of a projection. -/
def FVal.ids : FVal → List Id
  | .own id => [id]
  | _ => []

/-- The field values in a value. -/
def Val.ids : Val → List Id
  | .fv v => v.ids
  | .obj o => o.ids
  | .adt _ _ fs => fs.flatMap (fun f => f.2.ids)
  | .owGuard _ o => o.ids
  | _ => []

/-- A panic that left the operation is caught. -/
def M.settle (m : M) : M := { m with status := .run }

/-- A new value of the type of place `p`, made of values not seen before. -/
def Fresh (s : HState) (d : Def) (o : Obj) : Prop :=
  (∃ fs, IsValue d.item o fs) ∧ o.ids.Nodup ∧ ∀ id ∈ o.ids, id ∉ s.given

/-- One operation of the program. `D p` is the type of place `p`.
(the operations of derive.rs:868-884, 964-1012 and of safe Rust) -/
inductive Step (D : Nat → Def) : HState → HState → Prop
  /-- create a value in an unused place -/
  | alloc {s : HState} (p : Nat) (o : Obj) : p ∉ s.live → Fresh s (D p) o →
      Step D s { m := { s.m with mem := update s.m.mem p o }, live := p :: s.live, held := s.held,
                 given := o.ids ++ s.given }
  /-- call `project` or `project_ref` -/
  | project {s : HState} (p : Nat) (orc : Oracle) (tl : Bool) (b : Bool) (fn : GFn) : p ∈ s.live →
      method (D p).E (if b then "project" else "project_ref") = some fn →
      Step D s { s with m := (callFn orc tl fn (.fv (.pinRef b ⟨p, none⟩)) [] s.m).2.settle }
  /-- call `project_replace` -/
  | replace {s : HState} (p : Nat) (orc : Oracle) (tl : Bool) (fn : GFn) (new : Obj)
      (r : Option Val × M) : p ∈ s.live →
      method (D p).E "project_replace" = some fn → Fresh s (D p) new →
      callFn orc tl fn (.fv (.pinRef true ⟨p, none⟩)) [.obj new] s.m = r → r.2.status ≠ .abort →
      Step D s { m := r.2.settle, live := s.live, held := r.1.toList ++ s.held,
                 given := new.ids ++ s.given }
  /-- `Pin::set` or assignment -/
  | set {s : HState} (p : Nat) (orc : Oracle) (tl : Bool) (new : Obj) : p ∈ s.live →
      Fresh s (D p) new →
      (assign orc tl (D p).E p new s.m).status ≠ .abort →
      Step D s { m := (assign orc tl (D p).E p new s.m).settle, live := s.live, held := s.held,
                 given := new.ids ++ s.given }
  /-- drop the value in a place -/
  | drop {s : HState} (p : Nat) (orc : Oracle) (tl : Bool) : p ∈ s.live →
      (destroy orc tl (D p).E p s.m).status ≠ .abort →
      Step D s { s with m := (destroy orc tl (D p).E p s.m).settle, live := s.live.erase p }
  /-- drop a value handed back by `project_replace` or destructuring -/
  | dropHeld {s : HState} (l r : List Val) (v : Val) (orc : Oracle) : s.held = l ++ v :: r →
      (dropVal orc v s.m).status ≠ .abort →
      Step D s { s with m := (dropVal orc v s.m).settle, held := l ++ r }
  /-- move a value to another place of the same type -/
  | move {s : HState} (p q : Nat) (o : Obj) : p ∈ s.live → q ∉ s.live → D p = D q → s.m.mem p = some o →
      Step D s { s with m := { s.m with mem := update s.m.mem q o }, live := q :: s.live.erase p }
  /-- move the fields out of a value (only possible for types without `Drop` impl) -/
  | destructure {s : HState} (p : Nat) (o : Obj) : p ∈ s.live → s.m.mem p = some o →
      dropFn (D p).E = none →
      Step D s { s with live := s.live.erase p, held := o.ids.map (fun i => .fv (.own i)) ++ s.held }

/-- Any number of operations. -/
inductive Steps (D : Nat → Def) : HState → HState → Prop
  | refl (s : HState) : Steps D s s
  | tail {s t u : HState} : Steps D s t → Step D t u → Steps D s u

/-- Nothing allocated, nothing happened. -/
def HState.init : HState := ⟨{ mem := fun _ => none }, [], [], []⟩

/-- The field values at a place. -/
def idsAt (mem : Nat → Option Obj) (p : Nat) : List Id :=
  match mem p with
  | some o => o.ids
  | none => []

/-- The values stored in the places in use. -/
def HState.stored (s : HState) : List Id := s.live.flatMap (idsAt s.m.mem)

/-- The values the program holds. -/
def HState.heldIds (s : HState) : List Id := s.held.flatMap Val.ids

end PinProject

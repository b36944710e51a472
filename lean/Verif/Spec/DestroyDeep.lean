import Verif.Sem.DestroyDeep
import Verif.Spec.Args
import Verif.Model.Derive
/-!
# Specification: destroying values inside values
-/
namespace PinProject.Spec

mutual

/-- The memory has values of these types at these places, and the expansions are those of the types. -/
def NestOk (inner : Loc → Nat) (mem : Nat → Option Obj) : Nest → Loc → Prop
  | .leaf, _ => True
  | .node item code pd kids, l =>
    parseDerive item = .ok code ∧ ItemWF item ∧
    (∃ toks as, Written toks item ∧ ArgsToks as toks ∧ (pd = true ↔ .pinnedDrop ∈ as)) ∧
    ∃ o fs, mem (inner l) = some o ∧ IsValue item o fs ∧ KidsOk inner mem kids (inner l) o.fields

/-- One entry for every field. -/
def KidsOk (inner : Loc → Nat) (mem : Nat → Option Obj) : List Nest → Nat → List (String × Id) → Prop
  | k :: ks, p, x :: xs => NestOk inner mem k ⟨p, some x.1⟩ ∧ KidsOk inner mem ks p xs
  | [], _, [] => True
  | _, _, _ => False

end

mutual

/-- What is called when the value at a location is destroyed: the user's drop code of its type, if the type has the argument
`PinnedDrop`; then the same for its fields, in declaration order. -/
def nestEvents (inner : Loc → Nat) (mem : Nat → Option Obj) : Nest → Loc → Id → List Event
  | .leaf, l, id => [.drop id (some l)]
  | .node _ _ pd kids, l, _ =>
    (if pd then [.pinnedDrop (inner l)] else []) ++
      kidsEvents inner mem kids (inner l) (match mem (inner l) with | some o => o.fields | none => [])

def kidsEvents (inner : Loc → Nat) (mem : Nat → Option Obj) : List Nest → Nat → List (String × Id) → List Event
  | k :: ks, p, x :: xs => nestEvents inner mem k ⟨p, some x.1⟩ x.2 ++ kidsEvents inner mem ks p xs
  | _, _, _ => []

end

mutual

/-- At `l` or inside of it, the location `a` has a value of a type with the argument `PinnedDrop`. -/
def WithDropAt (inner : Loc → Nat) (mem : Nat → Option Obj) (a : Loc) : Nest → Loc → Prop
  | .leaf, _ => False
  | .node _ _ pd kids, l =>
    (pd = true ∧ a = l) ∨
    SomeWithDropAt inner mem a kids (inner l) (match mem (inner l) with | some o => o.fields | none => [])

def SomeWithDropAt (inner : Loc → Nat) (mem : Nat → Option Obj) (a : Loc) : List Nest → Nat → List (String × Id) → Prop
  | k :: ks, p, x :: xs => WithDropAt inner mem a k ⟨p, some x.1⟩ ∨ SomeWithDropAt inner mem a ks p xs
  | _, _, _ => False

end

mutual

/-- At `l` or inside of it, the location `a` has the value `i` of a type of which nothing is known. -/
def LeafAt (inner : Loc → Nat) (mem : Nat → Option Obj) (a : Loc) (i : Id) : Nest → Loc → Id → Prop
  | .leaf, l, id => a = l ∧ i = id
  | .node _ _ _ kids, l, _ =>
    SomeLeafAt inner mem a i kids (inner l) (match mem (inner l) with | some o => o.fields | none => [])

def SomeLeafAt (inner : Loc → Nat) (mem : Nat → Option Obj) (a : Loc) (i : Id) : List Nest → Nat → List (String × Id) → Prop
  | k :: ks, p, x :: xs => LeafAt inner mem a i k ⟨p, some x.1⟩ x.2 ∨ SomeLeafAt inner mem a i ks p xs
  | _, _, _ => False

end

end PinProject.Spec

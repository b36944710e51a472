import Verif.Model.Entry
import Verif.Sem.Destroy
import Verif.Spec.Projection
/-!
# Comparison with the run-pass tests

The programs of /repo/tests/drop_order.rs, and parts of pin_project.rs and pinned_drop.rs, run on the model: the macro is
applied to the definition, and the generated methods are executed by the interpreter.

This file tests the model; it proves nothing about it.
-/
namespace PinProject.Run
open Spec

def pinAttr : Attribute := ⟨.path { segs := ["pin"] }⟩

def carried (args : List TT) : Attribute :=
  ⟨.list { segs := ["pin"] } .paren [.ident "__private", .group .paren args]⟩

def named (xs : List (String × Bool)) : Fields :=
  .named (xs.map (fun x => { attrs := if x.2 then [pinAttr] else [], ident := some x.1, ty := .tyIdent "D" }))

def tuple (xs : List Bool) : Fields :=
  .unnamed (xs.map (fun x => { attrs := if x then [pinAttr] else [], ident := none, ty := .tyIdent "D" }))

def structOf (args : List TT) (fs : Fields) : Item :=
  .struct_ { attrs := [carried args], vis := .inherited, ident := "S", generics := {}, fields := fs }

def enumOf (args : List TT) (vs : List (String × Fields)) : Item :=
  .enum_ { attrs := [carried args], vis := .inherited, ident := "E", generics := {},
           variants := vs.map (fun v => { attrs := [], ident := v.1, fields := v.2, discriminant := none }) }

def memory (o : Obj) : M := { mem := fun q => if q = 0 then some o else none }

/-- No destructor panics. -/
def calm : Oracle := fun _ _ => false

/-- The values that were dropped, and whether everything went well. -/
def dropped (m : M) : List Nat × Bool :=
  (m.trace.filterMap (fun | .drop i _ => some i | _ => none), m.status == .run)

/-- `{ let _x = o; }` -/
def scope (item : Item) (o : Obj) : Option (List Nat × Bool) :=
  match parseDerive item with
  | .ok E => some (dropped (destroy calm false E 0 (memory o)))
  | .error _ => none

/-- `{ let mut x = o; let _z = Pin::new(&mut x).project_replace(new); }`: at the end, first `_z` is dropped, then `x`. -/
def replaced (tl : Bool) (item : Item) (o new : Obj) : Option (List Nat × Bool) :=
  match parseDerive item with
  | .error _ => none
  | .ok E =>
    match method E "project_replace" with
    | none => none
    | some fn =>
      match callFn calm tl fn (.fv (.pinRef true ⟨0, none⟩)) [.obj new] (memory o) with
      | (some z, m) => some (dropped (destroy calm tl E 0 (dropVal calm z m)))
      | (none, _) => none

def replaceArg : List TT := [.ident "project_replace"]
def replaceEnum : List TT := [.ident "project_replace", .punct '=' false, .ident "EnumProj"]

def obj (v : Option String) (fs : List (String × Nat)) : Obj := ⟨v, fs⟩

/-! ## drop_order.rs -/

def fs (a b : Nat) : List (String × Nat) := [("f1", a), ("f2", b)]
def ts (a b : Nat) : List (String × Nat) := [("0", a), ("1", b)]

-- struct_pinned, struct_unpinned, tuple_pinned, tuple_unpinned
#guard scope (structOf replaceArg (named [("f1", true), ("f2", true)])) (obj none (fs 1 2)) == some ([1, 2], true)
#guard scope (structOf replaceArg (named [("f1", false), ("f2", false)])) (obj none (fs 1 2)) == some ([1, 2], true)
#guard scope (structOf replaceArg (tuple [true, true])) (obj none (ts 1 2)) == some ([1, 2], true)
#guard scope (structOf replaceArg (tuple [false, false])) (obj none (ts 1 2)) == some ([1, 2], true)
#guard [false, true].all (fun tl =>
  replaced tl (structOf replaceArg (named [("f1", true), ("f2", true)])) (obj none (fs 1 2)) (obj none (fs 3 4)) ==
    some ([1, 2, 3, 4], true))
#guard [false, true].all (fun tl =>
  replaced tl (structOf replaceArg (named [("f1", false), ("f2", false)])) (obj none (fs 1 2)) (obj none (fs 3 4)) ==
    some ([1, 2, 3, 4], true))
#guard [false, true].all (fun tl =>
  replaced tl (structOf replaceArg (tuple [true, true])) (obj none (ts 1 2)) (obj none (ts 3 4)) == some ([1, 2, 3, 4], true))
#guard [false, true].all (fun tl =>
  replaced tl (structOf replaceArg (tuple [false, false])) (obj none (ts 1 2)) (obj none (ts 3 4)) == some ([1, 2, 3, 4], true))

def theEnum : Item := enumOf replaceEnum [
  ("StructPinned", named [("f1", true), ("f2", true)]), ("StructUnpinned", named [("f1", false), ("f2", false)]),
  ("TuplePinned", tuple [true, true]), ("TupleUnpinned", tuple [false, false])]

-- enum_struct, enum_tuple
#guard ["StructPinned", "StructUnpinned"].all (fun v =>
  scope theEnum (obj (some v) (fs 1 2)) == some ([1, 2], true) &&
  [false, true].all (fun tl =>
    replaced tl theEnum (obj (some v) (fs 1 2)) (obj (some v) (fs 3 4)) == some ([1, 2, 3, 4], true)))
#guard ["TuplePinned", "TupleUnpinned"].all (fun v =>
  scope theEnum (obj (some v) (ts 1 2)) == some ([1, 2], true) &&
  [false, true].all (fun tl =>
    replaced tl theEnum (obj (some v) (ts 1 2)) (obj (some v) (ts 3 4)) == some ([1, 2, 3, 4], true)))

/-! ## pin_project.rs: `projection`, `enum_project_set` -/

def allNames : List TT :=
  [.ident "project", .punct '=' false, .ident "SProj", .punct ',' false,
   .ident "project_ref", .punct '=' false, .ident "SProjRef", .punct ',' false,
   .ident "project_replace", .punct '=' false, .ident "SProjOwn", .punct ',' false]

/-- Call a method on the value; the result, the value left in memory and the values dropped. -/
def call (item : Item) (name : String) (isMut : Bool) (args : List Val) (o : Obj) :
    Option (Option Val × Option Obj × List Nat × Bool) :=
  match parseDerive item with
  | .error _ => none
  | .ok E => (method E name).map (fun fn =>
      let r := callFn calm false fn (.fv (.pinRef isMut ⟨0, none⟩)) args (memory o)
      (r.1, r.2.mem 0, dropped r.2))

def mixed : Item := structOf allNames (named [("f1", true), ("f2", false)])

#guard call mixed "project" true [] (obj none (fs 1 2)) ==
  some (some (.adt "SProj" none [("f1", .pinRef true ⟨0, some "f1"⟩), ("f2", .ref true ⟨0, some "f2"⟩)]),
    some (obj none (fs 1 2)), [], true)
#guard call mixed "project_ref" false [] (obj none (fs 1 2)) ==
  some (some (.adt "SProjRef" none [("f1", .pinRef false ⟨0, some "f1"⟩), ("f2", .ref false ⟨0, some "f2"⟩)]),
    some (obj none (fs 1 2)), [], true)
#guard call mixed "project_replace" true [.obj (obj none (fs 3 4))] (obj none (fs 1 2)) ==
  some (some (.adt "SProjOwn" none [("f1", .phantom), ("f2", .own 2)]), some (obj none (fs 3 4)), [1], true)
#guard call (structOf replaceArg (tuple [true, false])) "project" true [] (obj none (ts 1 2)) ==
  some (some (.adt "__SProjection" none [("0", .pinRef true ⟨0, some "0"⟩), ("1", .ref true ⟨0, some "1"⟩)]),
    some (obj none (ts 1 2)), [], true)

def mixedEnum : Item := enumOf allNames [("Tuple", tuple [true, false]), ("Struct", named [("f1", true), ("f2", false)]),
  ("Unit", .unit)]

#guard call mixedEnum "project" true [] (obj (some "Tuple") (ts 1 2)) ==
  some (some (.adt "SProj" (some "Tuple") [("0", .pinRef true ⟨0, some "0"⟩), ("1", .ref true ⟨0, some "1"⟩)]),
    some (obj (some "Tuple") (ts 1 2)), [], true)
#guard call mixedEnum "project" true [] (obj (some "Struct") (fs 3 4)) ==
  some (some (.adt "SProj" (some "Struct") [("f1", .pinRef true ⟨0, some "f1"⟩), ("f2", .ref true ⟨0, some "f2"⟩)]),
    some (obj (some "Struct") (fs 3 4)), [], true)
#guard call mixedEnum "project" true [] (obj (some "Unit") []) ==
  some (some (.adt "SProj" (some "Unit") []), some (obj (some "Unit") []), [], true)
#guard call mixedEnum "project_replace" true [.obj (obj (some "Unit") [])] (obj (some "Struct") (fs 3 4)) ==
  some (some (.adt "SProjOwn" (some "Struct") [("f1", .phantom), ("f2", .own 4)]), some (obj (some "Unit") []), [3], true)

/-! ## pinned_drop.rs: `safe_project` -/

-- the user's code runs once, before the fields are dropped
#guard (match parseDerive (structOf [.ident "PinnedDrop"] (named [("was_dropped", false), ("field", true)])) with
  | .ok E => some (destroy calm false E 0 (memory (obj none [("was_dropped", 1), ("field", 2)]))).trace
  | .error _ => none) ==
  some [.pinnedDrop 0, .drop 1 (some ⟨0, some "was_dropped"⟩), .drop 2 (some ⟨0, some "field"⟩)]

end PinProject.Run

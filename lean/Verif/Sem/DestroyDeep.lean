import Verif.Sem.Destroy
/-!
# Destroying values inside values

Drop glue as in `Sem/Destroy`, for annotated types whose fields have annotated types again, to any depth. As everywhere in `Sem`,
definitions without a citation are rules of Rust.
-/
namespace PinProject

/-- What is in a field: a value of a type of which nothing is known, or a value of an annotated type, with what is in its own
fields. `pinnedDrop` tells whether the type was annotated with the argument `PinnedDrop`. (the types of the fields of derive.rs:26-46) -/
inductive Nest
  | leaf
  | node (item : Item) (code : Expansion) (pinnedDrop : Bool) (kids : List Nest)

mutual

/-- Drop what is at a location. `inner` gives the place of the value of an annotated type at a location. First the `Drop` impl that
was generated, if there is one (derive.rs:868-884), then the fields. -/
def dropNest (orc : Oracle) (tailLeak : Bool) (inner : Loc → Nat) : Nest → Loc → Id → M → M
  | .leaf, l, id, m => m.runDtor orc (.drop id (some l))
  | .node _ code _ kids, l, _, m =>
    match m.mem (inner l) with
    | none => m.getStuck
    | some o =>
      dropKids orc tailLeak inner kids (inner l) o.fields <|
        match dropFn code with
        | none => m
        | some f => m.nest (fun m => (callFn orc tailLeak f (.fv (.ref true ⟨inner l, none⟩)) [] m).2)

/-- Drop the fields of the value at a place, in declaration order. -/
def dropKids (orc : Oracle) (tailLeak : Bool) (inner : Loc → Nat) : List Nest → Nat → List (String × Id) → M → M
  | k :: ks, p, x :: xs, m => dropKids orc tailLeak inner ks p xs (dropNest orc tailLeak inner k ⟨p, some x.1⟩ x.2 m)
  | [], _, [], m => m
  | _, _, _, m => m.getStuck

end

end PinProject

import Verif.Spec.Typing
/-!
# Specification: constants with the name of a field

In Rust, a pattern that is just a name is not always a new variable: if a constant or a unit struct of that name
is in scope then the value is compared to it, and if a const parameter, a static or a tuple struct of that
name is in scope then it is an error. The rules are in `Spec/Typing.lean`; this file has what is said about
them in C81.
-/
namespace PinProject.Spec

/-- The name in the place of the `i`-th field in a generated pattern: that of the field, or `_i`. -/
def patternName (i : Nat) (f : Field) : String :=
  match f.ident with
  | some n => n
  | none => "_" ++ toString i

/-- No constant, const parameter, static or the like has the name of a field (or `_0`, `_1`, .. if the fields have
no names). -/
def FieldsFree (V : Values) (item : Item) : Prop :=
  ∀ v ∈ itemVariants item, ∀ x ∈ v.2.list.zipIdx, V.Free (patternName x.2 x.1)

/-- What is assumed of the names in scope and of types. -/
structure Values.Lawful (V : Values) : Prop where
  /-- a name stands for one constant -/
  nodup : (V.consts.map Prod.fst).Nodup
  symm : ∀ {s t}, V.same s t → V.same t s
  trans : ∀ {s t u}, V.same s t → V.same t u → V.same s u
  /-- no type is a reference to itself -/
  acyclic : ∀ t lt b, ¬ V.same t (.ref lt b t)
  single : ∀ {s t}, V.same s t → V.single s → V.single t
  /-- raw pointers have many values -/
  ptr : ∀ t, ¬ V.single (.ptr t)
  /-- the names of parameters and variables of generated functions are not used for constants -/
  own : ∀ x ∈ ["self", "__self_ptr", "__guard", "__result", "__replacement"], V.Free x

/-- A mutable reference to a type with only one value, such as `&'static mut [u8; 0]`. -/
def TrivialRef (V : Values) (t : LTy) : Prop := V.single t ∧ ∃ lt u, V.same t (.ref lt true u)

end PinProject.Spec

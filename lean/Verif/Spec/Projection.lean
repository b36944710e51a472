import Verif.Spec.Shape
import Verif.Sem.Eval
/-!
# Specification: values of the annotated type, and what projecting them means
-/
namespace PinProject.Spec

/-- `fs` are the fields of the variant `variant` of the item (`none` for a struct). -/
def HasVariant : Item → Option String → Fields → Prop
  | .struct_ s, variant, fs => variant = none ∧ fs = s.fields
  | .enum_ e, variant, fs => ∃ v ∈ e.variants, variant = some v.ident ∧ fs = v.fields
  | .other _, _, _ => False

/-- The name of the `i`-th field: its identifier, or `"0"`, `"1"`, .. in a tuple. -/
def fieldLabel (i : Nat) (f : Field) : String := f.ident.getD (toString i)

def labels (fs : List Field) : List String := fs.zipIdx.map (fun x => fieldLabel x.2 x.1)

/-- `o` is a value of the annotated type: it has one of its variants, with exactly its fields. -/
structure IsValue (item : Item) (o : Obj) (fs : Fields) : Prop where
  variant : HasVariant item o.variant fs
  fields : o.fields.map Prod.fst = labels fs.list

/-- What the compiler guarantees about a definition: variant names are distinct; named fields have
distinct names. -/
structure ItemWF (item : Item) : Prop where
  fields : ∀ variant fs, HasVariant item variant fs → fs.WF
  variants : ∀ e, item = .enum_ e → (e.variants.map (·.ident)).Nodup

/-- The functions of an inherent impl. -/
def inherentFns : GItem → List GFn
  | .inherent _ _ _ _ fns => fns
  | _ => []

/-- The method `name` among all generated inherent impls. -/
def method (E : Expansion) (name : String) : Option GFn :=
  ((E.exposed ++ E.inScope).flatMap inherentFns).find? (fun f => f.name == name)

/-- What a projection gives for the field labelled `l`: a pinned reference to its storage if it
is `#[pin]`, a plain reference to its storage otherwise. -/
def fieldRef (isMut : Bool) (p : Nat) (l : String) (f : Field) : FVal :=
  if Pinned f then .pinRef isMut ⟨p, some l⟩ else .ref isMut ⟨p, some l⟩

/-- What `project` (`isMut`) and `project_ref` give for a value at place `p`: for each field, under
the field's own name, the appropriate reference to that field. -/
def fieldRefs (isMut : Bool) (p : Nat) (fs : Fields) : List (String × FVal) :=
  fs.list.zipIdx.map (fun x => (fieldLabel x.2 x.1, fieldRef isMut p (fieldLabel x.2 x.1) x.1))

/-- The `#[pin]` fields of a value, in declaration order: name and value. -/
def pinnedParts (fs : Fields) (o : Obj) : List (String × Id) :=
  ((fs.list.zip o.fields).filter (fun x => Pinned x.1)).map (·.2)

/-- The other fields. -/
def unpinnedParts (fs : Fields) (o : Obj) : List (String × Id) :=
  ((fs.list.zip o.fields).filter (fun x => !Pinned x.1)).map (·.2)

/-- What `project_replace` gives back: under the field's own name, the old value of each unpinned
field, and `PhantomData` for each pinned one. -/
def ownedParts (fs : Fields) (o : Obj) : List (String × FVal) :=
  (fs.list.zip o.fields).map (fun x => (x.2.1, if Pinned x.1 then .phantom else .own x.2.2))

/-- Run the destructors of some fields of the value at `p`, in place, in order. A panic does not stop
the others. -/
def dropInPlace (orc : Oracle) (p : Nat) (parts : List (String × Id)) (m : M) : M :=
  parts.foldl (fun m x => m.runDtor orc (.drop x.2 (some ⟨p, some x.1⟩))) m

/-- Run the destructors of some owned values, in order. -/
def dropOwned (orc : Oracle) (parts : List (String × Id)) (m : M) : M :=
  parts.foldl (fun m x => m.runDtor orc (.drop x.2 none)) m

/-- The destructor calls of the `#[pin]` fields of the value at `p`: in place, in declaration order. -/
def pinnedDrops (p : Nat) (fs : Fields) (o : Obj) : List Event :=
  (pinnedParts fs o).map (fun x => .drop x.2 (some ⟨p, some x.1⟩))

/-- The destructor calls of the other fields, after they have been moved out. -/
def ownedDrops (fs : Fields) (o : Obj) : List Event :=
  (unpinnedParts fs o).map (fun x => .drop x.2 none)

/-- How many of these destructor calls, made one after the other, panic? -/
def panics (orc : Oracle) : List Event → List Event → Nat
  | _, [] => 0
  | tr, e :: es => (if orc tr e then 1 else 0) + panics orc (tr ++ [e]) es

/-- Memory with a new value in place `p`. -/
def update (mem : Nat → Option Obj) (p : Nat) (o : Obj) : Nat → Option Obj :=
  fun q => if q = p then some o else mem q

/-- No `#[pin]` field is called `__result`, and none is called `__guard` unless it is the last
`#[pin]` field. See C42: with such names the generated `project_replace` does not compile. -/
def NamesFree (fs : Fields) : Prop :=
  (∀ f ∈ fs.list.filter Pinned, f.ident ≠ some "__result") ∧
  ∀ f ∈ (fs.list.filter Pinned).dropLast, f.ident ≠ some "__guard"

end PinProject.Spec

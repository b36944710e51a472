import Verif.Spec.Borrow
import Verif.Sem.Destroy
import Verif.Model.Derive
/-!
# Specification: programs that use projections

A program has a reference to a value of an annotated type and does anything the borrow checker allows with it: it calls
generated methods, uses the references they return, makes further references from them, calls generated methods of the
types of the fields with these, and so on, to any depth. It also calls functions of its own with references as parameters, which are
protected until the function returns: it is undefined behaviour if meanwhile they stop to be usable.

As in `Sem/Borrow.lean` one byte is followed. Only references to something that contains the byte matter for it.
-/
namespace PinProject.Spec

variable {A : AliasModel}

/-- A reference to something that contains the byte. -/
structure LiveRef where
  isMut : Bool
  tag : Nat
  deriving DecidableEq, Repr, Inhabited

/-- The references the program may still use. While one made from a mutable reference is in use, the mutable one is not
used, except to read if the other one is shared. -/
structure Held where
  /-- each was made from the next, directly or through a generated method; the last one was there at the beginning -/
  nested : List LiveRef
  /-- tags of shared references made from the first of `nested` or from one another -/
  shared : List Nat
  /-- tags of mutable references that are parameters of functions in progress, the one called last first -/
  calls : List Nat := []
  /-- likewise of shared references; the functions were called after those of `calls` -/
  reading : List Nat := []
  deriving DecidableEq, Repr, Inhabited

/-- At the beginning there is one reference. -/
def Held.only (isMut : Bool) (t : Nat) : Held := { nested := [⟨isMut, t⟩], shared := [] }

/-- The call of a generated function: which fields of the value contain the byte, the function, the shape of the value, which
destructors panic, and the edition's rule for temporaries. -/
structure MCall where
  byte : Byte
  fn : GFn
  shape : Shape
  panics : BOracle
  tailLeak : Bool

/-- What the program does next. `none` stands for the first of `Held.nested`, `some i` for the shared reference number `i`. -/
inductive Act
  /-- the first of `Held.nested`, and what was made from it, is no longer used -/
  | done
  | write
  | read (r : Option Nat)
  /-- `&mut *r`, `r.as_mut()` -/
  | borrowMut
  /-- `&*r`, `r.as_ref()` -/
  | borrow (r : Option Nat)
  /-- `project` -/
  | project (c : MCall)
  /-- `project_ref` -/
  | projectRef (r : Option Nat) (c : MCall)
  /-- `project_replace`, or the destructor; a panic is caught. They do not return references. -/
  | change (c : MCall)
  /-- a function is called with `&mut *r` as a parameter -/
  | enter
  /-- a function is called with `&*r` as a parameter -/
  | enterRef (r : Option Nat)
  /-- the function called last returns or unwinds; what was made from its parameter may be used further -/
  | leave

/-- The tag of a reference. -/
def Held.tag (v : Held) : Option Nat → Option Nat
  | none => v.nested.head?.map LiveRef.tag
  | some i => v.shared[i]?

/-- The first of `Held.nested` is mutable, and it is not behind a shared reference which a function in progress has got. -/
def Held.CanWrite (v : Held) : Prop := v.reading = [] ∧ ∃ r rs, v.nested = r :: rs ∧ r.isMut = true

/-- The reference to the field that contains the byte, if there is one. -/
def innerRef (b : Byte) : Option BVal → Option LiveRef
  | some (.adt fields) => fields.findSome? (fun v =>
      match pointer v.2 with
      | some (m, l, t) => if b.within l then some ⟨m, t⟩ else none
      | none => none)
  | _ => none

/-- For accesses to the whole of what a reference points to, it does not matter which fields contain the byte. -/
def wholeByte : Byte := ⟨fun _ => false, false⟩

def MCall.run (c : MCall) (t : Nat) (σ : B A) : Option BVal × B A :=
  bCallFn c.byte c.panics c.tailLeak c.fn c.shape t σ

/-- `catch_unwind` -/
def caught (σ : B A) : B A := if σ.status = .unwind then { σ with status := .run } else σ

/-- The effect. -/
def act (a : Act) (s : Held × B A) : Held × B A :=
  match a with
  | .done => ({ s.1 with nested := s.1.nested.tail, shared := [] }, s.2)
  | .write =>
    match s.1.tag none with
    | some t => ({ s.1 with shared := [] }, s.2.access wholeByte true none t)
    | none => s
  | .read r =>
    match s.1.tag r with
    | some t => (s.1, s.2.access wholeByte false none t)
    | none => s
  | .borrowMut =>
    match s.1.tag none with
    | some t =>
      ({ s.1 with nested := ⟨true, (s.2.retag wholeByte .unique none t).1⟩ :: s.1.nested, shared := [] },
        (s.2.retag wholeByte .unique none t).2)
    | none => s
  | .borrow r =>
    match s.1.tag r with
    | some t =>
      ({ s.1 with shared := s.1.shared ++ [(s.2.retag wholeByte .shared none t).1] }, (s.2.retag wholeByte .shared none t).2)
    | none => s
  | .project c =>
    match s.1.tag none with
    | some t =>
      ({ s.1 with nested := (innerRef c.byte (c.run t s.2).1).toList ++ s.1.nested, shared := [] }, (c.run t s.2).2)
    | none => s
  | .projectRef r c =>
    match s.1.tag r with
    | some t =>
      ({ s.1 with shared := s.1.shared ++ ((innerRef c.byte (c.run t s.2).1).map LiveRef.tag).toList }, (c.run t s.2).2)
    | none => s
  | .change c =>
    match s.1.tag none with
    | some t => ({ s.1 with shared := [] }, caught (c.run t s.2).2)
    | none => s
  | .enter =>
    match s.1.tag none with
    | some t =>
      let q := s.2.retag wholeByte .unique none t
      ({ s.1 with nested := ⟨true, q.1⟩ :: s.1.nested, shared := [], calls := q.1 :: s.1.calls },
        { q.2 with prot := q.1 :: q.2.prot })
    | none => s
  | .enterRef r =>
    match s.1.tag r with
    | some t =>
      let q := s.2.retag wholeByte .shared none t
      ({ s.1 with shared := s.1.shared ++ [q.1], reading := q.1 :: s.1.reading }, { q.2 with prot := q.1 :: q.2.prot })
    | none => s
  | .leave =>
    match s.1.reading, s.1.calls with
    | t :: ts, _ => ({ s.1 with reading := ts }, { s.2.release t with prot := s.2.prot.tail })
    | [], t :: ts => ({ s.1 with calls := ts }, { s.2.release t with prot := s.2.prot.tail })
    | [], [] => s

/-- It is a call of the generated method of that name. -/
def Generated (name : String) (c : MCall) : Prop :=
  ∃ item E variant fs, parseDerive item = .ok E ∧ ItemWF item ∧ method E name = some c.fn ∧ HasVariant item variant fs ∧
    OneField c.byte fs ∧ c.shape = ⟨variant, labels fs.list⟩ ∧ (name = "project_replace" → NamesFree fs)

/-- It is a call of the generated destructor. -/
def GeneratedDrop (c : MCall) : Prop := ∃ item E, parseDerive item = .ok E ∧ dropFn E = some c.fn

/-- What the borrow checker allows. A function cannot use what its caller has while it may use its parameter. -/
def Act.Allowed (v : Held) : Act → Prop
  | .done => v.reading = [] ∧ 2 ≤ v.nested.length ∧ ∀ r ∈ v.nested.head?, r.tag ∉ v.calls
  | .write => v.CanWrite
  | .read r => (v.tag r).isSome
  | .borrowMut => v.CanWrite
  | .borrow r => (v.tag r).isSome
  | .project c => v.CanWrite ∧ Generated "project" c
  | .projectRef r c => (v.tag r).isSome ∧ Generated "project_ref" c
  | .change c => v.CanWrite ∧ (Generated "project_replace" c ∨ GeneratedDrop c)
  | .enter => v.CanWrite
  | .enterRef r => (v.tag r).isSome
  | .leave => v.reading ≠ [] ∨ v.calls ≠ []

/-- One step after the other, unless the program has ended. -/
def history (as : List Act) (s : Held × B A) : Held × B A :=
  as.foldl (fun s a => if s.2.status = .run then act a s else s) s

/-- Every step is allowed. -/
def Permitted : List Act → Held × B A → Prop
  | [], _ => True
  | a :: as, s => s.2.status = .run → a.Allowed s.1 ∧ Permitted as (act a s)

/-- The references of the function in progress, without those of its callers. -/
def inProgress (calls : List Nat) : List LiveRef → List LiveRef
  | [] => []
  | r :: rs => if r.tag ∈ calls then [r] else r :: inProgress calls rs

/-- All references the program has can be used: mutable ones to write, shared ones to read. While a function has got a shared
reference all can be used to read. -/
def AllUsable (s : Held × B A) : Prop :=
  (s.1.reading = [] → ∀ r ∈ inProgress s.1.calls s.1.nested, (s.2.access wholeByte r.isMut none r.tag).status = .run) ∧
  ∀ r t, s.1.tag r = some t → (s.2.access wholeByte false none t).status = .run

end PinProject.Spec

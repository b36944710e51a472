import Verif.Spec.Projection
import Verif.Sem.Borrow
import Verif.Sem.StackedMiri
import Verif.Sem.TreeBorrows
/-!
# Specification: using the pointers a generated function returns
-/
namespace PinProject.Spec

/-- The aliasing rules that have been proposed for Rust: Stacked Borrows, in a simple strict version and as Miri implements it,
and Tree Borrows. Rules for references to types that are not `Unpin` or have interior mutability may apply to any reference. -/
inductive AliasRules : AliasModel → Prop
  | stacked : AliasRules PinProject.stacked
  | miri (exempt : BPerm → Nat → Bool) : AliasRules (PinProject.miri exempt)
  | tree (how : BPerm → Nat → TreeHow) : AliasRules (PinProject.tree how)

variable {A : AliasModel}

/-- A reference in a returned value: is it mutable, what does it point to, and its tag. -/
def pointer : BFVal → Option (Bool × Option String × Nat)
  | .ref m l t => some (m, l, t)
  | .pinRef m l t => some (m, l, t)
  | _ => none

/-- The same value without tags, for a `self` at place `p`. -/
def untagged (p : Nat) : BFVal → Option FVal
  | .ref m l _ => some (.ref m ⟨p, l⟩)
  | .pinRef m l _ => some (.pinRef m ⟨p, l⟩)
  | .own => none
  | .phantom => some .phantom

/-- One use of a returned reference: read, or write, what it points to. -/
structure PtrUse where
  ref : BFVal
  write : Bool

/-- The reference is one of those in `fields`; writing needs a mutable one. -/
def UseAllowed (fields : List (String × BFVal)) (u : PtrUse) : Prop :=
  u.ref ∈ fields.map Prod.snd ∧ ∀ m l t, pointer u.ref = some (m, l, t) → u.write = true → m = true

def usePtr (b : Byte) (σ : B A) (u : PtrUse) : B A :=
  match pointer u.ref with
  | some (_, l, t) => σ.access b u.write l t
  | none => σ

/-- Any number of uses, in the given order. -/
def useAll (b : Byte) (us : List PtrUse) (σ : B A) : B A := us.foldl (usePtr b) σ

/-- A byte is in at most one field: fields do not overlap. -/
def OneField (b : Byte) (fs : Fields) : Prop :=
  ∀ x ∈ labels fs.list, ∀ y ∈ labels fs.list, b.inField x = true → b.inField y = true → x = y

/-- Before the call: the program is running, tags are used in order, and the caller may use the reference `t0` to the whole
value. -/
structure Callable (b : Byte) (isMut : Bool) (t0 : Nat) (σ : B A) : Prop where
  run : σ.status = .run
  valid : A.valid σ.next σ.mem
  prot : ∀ t ∈ σ.prot, t < σ.next
  usable : (σ.access b isMut none t0).status = .run

end PinProject.Spec

import Verif.Spec.BorrowHistory
import Verif.Sem.StackedMiri
import Verif.Sem.TreeBorrows
/-!
# Specification: interior mutability behind projections

The byte is inside an `UnsafeCell` (of a `Cell`, a `RefCell`, an atomic or a `Mutex`, say) that is, or is in, a field of an
annotated type. It may then also be written through shared references. Otherwise the programs are those of
`Spec/BorrowHistory.lean`.
-/
namespace PinProject.Spec

/-- The aliasing rules for such a byte: shared references to it are treated as those with interior mutability. Mutable
references may be treated in any way. -/
inductive CellRules : AliasModel → Prop
  | miri (exempt : BPerm → Nat → Bool) (h : ∀ t, exempt .shared t = true) : CellRules (PinProject.miri exempt)
  | tree (how : BPerm → Nat → TreeHow) (h : ∀ t, how .shared t ≠ .plain) : CellRules (PinProject.tree how)

variable {A : AliasModel}

/-- What the program does next. -/
inductive CellAct
  /-- anything programs do in `Spec/BorrowHistory.lean` -/
  | plain (a : Act)
  /-- it writes the byte through the shared reference number `i`: `Cell::set`, `AtomicU8::store`, through a `RefMut` or a
  `MutexGuard`, ... -/
  | set (i : Nat)

/-- What the borrow checker allows: having the reference is enough. -/
def CellAct.Allowed (v : Held) : CellAct → Prop
  | .plain a => a.Allowed v
  | .set i => i < v.shared.length

/-- The effect. The references the program has do not change with a write through a shared reference. -/
def cellAct (a : CellAct) (s : Held × B A) : Held × B A :=
  match a with
  | .plain a => act a s
  | .set i =>
    match s.1.shared[i]? with
    | some t => (s.1, s.2.access wholeByte true none t)
    | none => s

/-- One step after the other, unless the program has ended. -/
def cellHistory (as : List CellAct) (s : Held × B A) : Held × B A :=
  as.foldl (fun s a => if s.2.status = .run then cellAct a s else s) s

/-- Every step is allowed. -/
def CellPermitted : List CellAct → Held × B A → Prop
  | [], _ => True
  | a :: as, s => s.2.status = .run → a.Allowed s.1 ∧ CellPermitted as (cellAct a s)

/-- All shared references can be used to write. -/
def AllSettable (s : Held × B A) : Prop := ∀ t ∈ s.1.shared, (s.2.access wholeByte true none t).status = .run

end PinProject.Spec

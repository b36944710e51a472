import Verif.Sem.Borrow
/-!
# Stacked Borrows as Miri implements it

`stacked` (`Sem/Borrow.lean`) leaves out some rules of Stacked Borrows. Here they are, as in Miri's
`borrow_tracker/stacked_borrows`: raw pointers share a byte with each other (`SharedReadWrite` groups), making a raw pointer is
not an access, and a mutable reference above the one that is read with is disabled, not removed.

A mutable reference to a type that is not `Unpin`, and a shared reference to a byte with interior mutability, are treated
like a raw pointer, and are not protected. Which references these are is a parameter (`exempt`); it depends on the kind of
reference and its number.

Comments cite the code in /repo that a definition runs or is about. Definitions without a citation are rules of Rust and
have no counterpart in /repo.
-/
namespace PinProject

/-- Permissions. -/
inductive MPerm
  | unique
  | sharedRW
  | sharedRO
  | disabled
  deriving DecidableEq, Repr, Inhabited

/-- `Permission::grants`. -/
def MPerm.grants (write : Bool) : MPerm → Bool
  | .unique => true
  | .sharedRW => true
  | .sharedRO => !write
  | .disabled => false

/-- An entry of the stack: a pointer and its permission. -/
structure MItem where
  perm : MPerm
  tag : Nat
  deriving DecidableEq, Repr, Inhabited

/-- The stack of a byte, top first. -/
abbrev MStack := List MItem

/-- `find_granting` and `find_first_write_incompatible`: the items a write with `t` removes, and those it keeps. If `t` is
`SharedReadWrite`, those just above it which are so too are kept. -/
def MStack.split (t : Nat) : MStack → Option (MStack × MStack)
  | [] => none
  | i :: s =>
    if i.tag = t ∧ i.perm.grants true = true then some ([], i :: s)
    else
      match MStack.split t s with
      | none => none
      | some ([], k) =>
        if i.perm = .sharedRW ∧ k.head?.map MItem.perm = some .sharedRW then some ([], i :: k) else some ([i], k)
      | some (a, k) => some (i :: a, k)

/-- Is the item protected? `SharedReadWrite` never is. -/
def MItem.guarded (prot : List Nat) (i : MItem) : Bool := prot.contains i.tag && i.perm != .sharedRW

/-- `Stack::access`, for a write: what is removed must not be protected. -/
def MStack.write (prot : MItem → Bool) (t : Nat) (s : MStack) : Option MStack :=
  match s.split t with
  | some (a, k) => if a.any prot then none else some k
  | none => none

/-- `Stack::access`, for a read: mutable references above `t` are disabled. -/
def MStack.read (prot : MItem → Bool) (t : Nat) : MStack → Option MStack
  | [] => none
  | i :: s =>
    if i.tag = t ∧ i.perm.grants false = true then some (i :: s)
    else
      match MStack.read prot t s with
      | none => none
      | some s =>
        if i.perm = .unique then (if prot i then none else some (⟨.disabled, i.tag⟩ :: s)) else some (i :: s)

/-- `Stack::grant`, without an access: above the items that a write with the parent keeps. If the parent may not write, it is
undefined behaviour to make a `*mut` or a `&mut`; here the new pointer cannot be used. For a shared reference to a byte with
interior mutability this cannot happen if all references to the byte agree that it has interior mutability. -/
def MStack.insert (p : BPerm) (parent new : Nat) (s : MStack) : MStack :=
  match s.split parent with
  | some (a, k) => a ++ ⟨.sharedRW, new⟩ :: k
  | none => if p = .shared then ⟨.sharedRO, new⟩ :: s else s

/-- Stacked Borrows, as in Miri. -/
abbrev miri (exempt : BPerm → Nat → Bool) : AliasModel where
  St := MStack
  access prot write t s := if write then s.write (MItem.guarded prot) t else s.read (MItem.guarded prot) t
  retagAccess p new := if p = .raw ∨ exempt p new = true then none else some (p != .shared)
  push p parent new s :=
    if p = .raw ∨ exempt p new = true then s.insert p parent new
    else ⟨if p = .shared then .sharedRO else .unique, new⟩ :: s
  release _ _ s := some s
  valid next s := (∀ i ∈ s, i.tag < next) ∧ (s.map MItem.tag).Nodup

end PinProject

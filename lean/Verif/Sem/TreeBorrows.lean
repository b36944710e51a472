import Verif.Sem.Borrow
/-!
# Tree Borrows

The aliasing rules of Villani, Hostert, Dreyer and Jung, *Tree Borrows* (PLDI 2025), which Miri checks with
`-Zmiri-tree-borrows`. Every byte has a tree of permissions. A reference gets a node of its own, below that of the pointer it
is made from; a raw pointer shares the node of the pointer it is made from. Every access changes the permissions of all
nodes: it is *local* for the node of the pointer that is used and the nodes above it, and *foreign* for all others.

References to types that are not `Unpin`, or with interior mutability, are treated specially, and this has changed over time.
So how a new reference is treated is a parameter (`TreeHow`), which may be different for each kind and each reference.

Simplifications, all of which make the rules stricter: making a reference always reads the byte, although Miri does not do
so for interior mutability; and protectors count from the beginning, not from the first access.

Comments cite the code in /repo that a definition runs or is about. Definitions without a citation are rules of Rust and
have no counterpart in /repo.
-/
namespace PinProject

/-- What the pointers of a node may do. -/
inductive TPerm
  /-- a mutable reference not yet written with; `im`: to a type with interior mutability; `conflicted`: the byte was read
  with other pointers while this one was protected -/
  | reserved (im conflicted : Bool)
  /-- a mutable reference that was written with -/
  | active
  /-- may only be read -/
  | frozen
  /-- may not be used -/
  | disabled
  /-- `&Cell<T>`: reads and writes with other pointers do not matter -/
  | cell
  deriving DecidableEq, Repr, Inhabited

/-- The effect of an access on a permission. -/
def TPerm.step (write isLocal prot : Bool) (p : TPerm) : Option TPerm :=
  match isLocal, write, p with
  | true, false, .disabled => none
  | true, false, p => some p
  | true, true, .reserved _ c => if c && prot then none else some .active
  | true, true, .active => some .active
  | true, true, .cell => some .cell
  | true, true, .frozen => none
  | true, true, .disabled => none
  | false, false, .reserved im c => some (.reserved im (c || prot))
  | false, false, .active => if prot then none else some .frozen
  | false, false, p => some p
  | false, true, .disabled => some .disabled
  | false, true, .cell => some .cell
  | false, true, .reserved true c => if prot then none else some (.reserved true c)
  | false, true, _ => if prot then none else some .disabled

/-- A node of the tree. -/
structure TNode where
  /-- the pointer it was made for -/
  id : Nat
  /-- all pointers that share it -/
  names : List Nat
  /-- itself and the nodes above it -/
  above : List Nat
  perm : TPerm
  deriving DecidableEq, Repr, Inhabited

/-- The nodes, in any order. -/
abbrev TTree := List TNode

/-- Do `f` to all nodes. -/
def TTree.visit (f : TNode → Option TPerm) : TTree → Option TTree
  | [] => some []
  | n :: s =>
    match f n, TTree.visit f s with
    | some p, some s => some ({ n with perm := p } :: s)
    | _, _ => none

/-- The node of a pointer. -/
def TTree.node (s : TTree) (t : Nat) : Option TNode := s.find? (fun n => n.names.contains t)

/-- An access with a pointer of the node `a`. -/
def TNode.effect (prot : List Nat) (write : Bool) (a n : TNode) : Option TPerm :=
  n.perm.step write (a.above.contains n.id) (prot.contains n.id)

/-- An access with the pointer `t`; it needs a node. -/
def TTree.access (prot : List Nat) (write : Bool) (t : Nat) (s : TTree) : Option TTree :=
  match s.node t with
  | some a => s.visit (a.effect prot write)
  | none => none

/-- How a new reference is treated: as usual; as one to a type with interior mutability; like a raw pointer; or as one for
which no other access matters. -/
inductive TreeHow
  | plain
  | interior
  | asRaw
  | asCell
  deriving DecidableEq, Repr, Inhabited

/-- The permission of a new node, if the pointer gets one. -/
def TreeHow.perm : TreeHow → BPerm → Option TPerm
  | _, .raw => none
  | .asRaw, _ => none
  | .asCell, _ => some .cell
  | .plain, .unique => some (.reserved false false)
  | .interior, .unique => some (.reserved true false)
  | .plain, .shared => some .frozen
  | .interior, .shared => some .cell

/-- The pointer `new` is made from `parent`. -/
def TTree.push (how : TreeHow) (p : BPerm) (parent new : Nat) (s : TTree) : TTree :=
  match how.perm p with
  | none => s.map (fun n => if n.names.contains parent then { n with names := new :: n.names } else n)
  | some q =>
    match s.node parent with
    | some a => ⟨new, [new], new :: a.above, q⟩ :: s
    | none => s

/-- The end of the protection of `t` counts as an access with `t`, which does not affect the nodes below its own. -/
def TNode.endEffect (prot : List Nat) (write : Bool) (a n : TNode) : Option TPerm :=
  if n.above.contains a.id && n.id != a.id then some n.perm else a.effect prot write n

/-- The end of the protection of `t`. -/
def TTree.release (prot : List Nat) (t : Nat) (s : TTree) : Option TTree :=
  match s.find? (fun n => n.id == t) with
  | none => some s
  | some a =>
    match a.perm with
    | .active => s.visit (a.endEffect prot true)
    | .reserved _ _ => s.visit (a.endEffect prot false)
    | .frozen => s.visit (a.endEffect prot false)
    | .cell => some s
    | .disabled => some s

/-- Each pointer has at most one node; pointers are numbered in the order they are made. -/
structure TTree.Valid (next : Nat) (s : TTree) : Prop where
  id : ∀ n ∈ s, n.id ∈ n.names
  names : ∀ n ∈ s, ∀ t ∈ n.names, t < next
  above : ∀ n ∈ s, ∀ t ∈ n.above, t < next
  unique : ∀ n ∈ s, ∀ m ∈ s, ∀ t, t ∈ n.names → t ∈ m.names → n = m

/-- Tree Borrows. -/
abbrev tree (how : BPerm → Nat → TreeHow) : AliasModel where
  St := TTree
  access prot write t s := s.access prot write t
  retagAccess p new := if ((how p new).perm p).isSome then some false else none
  push p parent new s := s.push (how p new) p parent new
  release prot t s := s.release prot t
  valid next s := s.Valid next

end PinProject

import Verif.Sem.Eval
/-!
# Executing generated functions under the aliasing rules

The interpreter of `Sem/Eval.lean` knows nothing about which pointers may still be used. This one runs the
same code under aliasing rules: every use of a pointer is checked. Rust has not settled on its rules. The machine has a
parameter for them (`AliasModel`). There are two candidates, and Miri implements both: *Stacked Borrows* (Jung et al., POPL
2020), in this file (`stacked`) and `Sem/StackedMiri.lean`, and *Tree Borrows* (Villani et al., PLDI 2025), in `Sem/TreeBorrows.lean`.

The rules look at each byte of memory separately, so the machine follows one byte of the value `self` refers to;
the theorems are for every byte. Which fields contain the byte is part of the input (`Byte`).

Stacked Borrows: every byte has a stack of the pointers that may access it, an access removes what is above the pointer
that is used, and using a pointer that is no longer in the stack is undefined behaviour.
Simplifications in this file, all of which make the rules stricter (`Sem/StackedMiri.lean` has the rules without them, and the
theorems hold for both): a `*mut` pointer made from a reference removes what is above the reference, and there are no
`SharedReadWrite` groups; references to types that are not `Unpin` are treated like all others, although Miri is less strict
about them.

In all files: there are no two-phase borrows, generated code does not need them; every call of a function with a reference
makes a new reference once, Miri does it twice. Protectors are modelled for the parameter `self` of the generated function, the only
one that lives as long as the function.

Comments cite the code in /repo that a definition runs or is about. Definitions without a citation are rules of Rust and
have no counterpart in /repo.
-/
namespace PinProject

/-- What a pointer may do: `&mut T`, `*mut T`, `&T` (or `*const T`). -/
inductive BPerm
  | unique
  | raw
  | shared
  deriving DecidableEq, Repr, Inhabited

/-- Aliasing rules, for one byte. `none` is undefined behaviour. -/
structure AliasModel where
  /-- which pointers may do what -/
  St : Type
  /-- a write or read with the pointer `t` -/
  access : (prot : List Nat) → (write : Bool) → (t : Nat) → St → Option St
  /-- making the pointer `new` counts as an access with the pointer it is made from: a write, a read, or none -/
  retagAccess : BPerm → (new : Nat) → Option Bool
  /-- the pointer `new` has been made from `parent` -/
  push : BPerm → (parent new : Nat) → St → St
  /-- the function returns whose parameter was the protected pointer `t` -/
  release : (prot : List Nat) → (t : Nat) → St → Option St
  /-- possible states when the pointers `0 .. next - 1` have been made -/
  valid : (next : Nat) → St → Prop

/-- An entry of the stack: a pointer, and what it may do (the pointers of derive.rs:411-420, 999). -/
structure BItem where
  perm : BPerm
  tag : Nat
  deriving DecidableEq, Repr, Inhabited

/-- The stack of a byte, top first. -/
abbrev BStack := List BItem

/-- A write access with the pointer `t`: everything above it is removed, which must not hit a protected pointer. -/
def BStack.write (prot : List Nat) (t : Nat) : BStack → Option BStack
  | [] => none
  | i :: s =>
    if i.tag = t then (if i.perm = .shared then none else some (i :: s))
    else if i.tag ∈ prot then none
    else BStack.write prot t s

/-- A read access: mutable references above `t` are removed. -/
def BStack.read (prot : List Nat) (t : Nat) : BStack → Option BStack
  | [] => none
  | i :: s =>
    if i.tag = t then some (i :: s)
    else if i.perm = .unique then (if i.tag ∈ prot then none else BStack.read prot t s)
    else (BStack.read prot t s).map (i :: ·)

/-- Stacked Borrows. -/
abbrev stacked : AliasModel where
  St := BStack
  access prot write t s := if write then s.write prot t else s.read prot t
  retagAccess p _ := some (p != .shared)
  push p _ new s := ⟨p, new⟩ :: s
  release _ _ s := some s
  valid next s := ∀ i ∈ s, i.tag < next

/-- The byte the machine follows: which fields contain it (those of the current variant), and whether it is one of those that
tell the variants apart. It may be both, because of niches. -/
structure Byte where
  inField : String → Bool
  inTag : Bool

/-- Is the byte in the whole value (`none`) or in a field of it? -/
def Byte.within (b : Byte) : Option String → Bool
  | none => true
  | some f => b.inField f

/-- How far execution of a function of derive.rs:860-1033 has come. -/
inductive BStatus
  | run
  | unwind
  | abort
  /-- the program would not compile -/
  | stuck
  /-- undefined behaviour -/
  | ub
  deriving DecidableEq, Repr, Inhabited

/-- The state of the machine. (execution of the functions of derive.rs:860-1033) -/
structure B (A : AliasModel) where
  mem : A.St
  /-- the next tag -/
  next : Nat
  /-- protected tags -/
  prot : List Nat := []
  /-- how many destructors have run -/
  dtors : Nat := 0
  status : BStatus := .run

variable {A : AliasModel}

/-- The program does not compile, unless undefined behaviour was found before. -/
def B.getStuck (σ : B A) : B A := if σ.status = .ub then σ else { σ with status := .stuck }

/-- Is the program still running? -/
def B.live (σ : B A) : Bool := σ.status == .run || σ.status == .unwind

/-- Replace the state of the byte by the result of an access; `none` is undefined behaviour. -/
def B.set (σ : B A) : Option A.St → B A
  | some s => { σ with mem := s }
  | none => { σ with status := .ub }

/-- Access the value (`l = none`) or a field with the pointer `t`. -/
def B.access (b : Byte) (write : Bool) (l : Option String) (t : Nat) (σ : B A) : B A :=
  if σ.live && b.within l then
    σ.set (A.access σ.prot write t σ.mem)
  else σ

/-- Make a new pointer to `l` from the pointer `t`. -/
def B.retag (b : Byte) (p : BPerm) (l : Option String) (t : Nat) (σ : B A) : Nat × B A :=
  let σ' := match A.retagAccess p σ.next with
    | some w => σ.access b w l t
    | none => σ
  (σ.next, { σ' with next := σ.next + 1
                     mem := if b.within l then A.push p t σ.next σ'.mem else σ'.mem })

/-- The function returns, or unwinds, whose parameter is `t`. -/
def B.release (t : Nat) (σ : B A) : B A := if σ.live then σ.set (A.release σ.prot t σ.mem) else σ

/-- Does the destructor number `n` panic? -/
abbrev BOracle := Nat → Bool

/-- A destructor is called; see `M.runDtor`. (src/lib.rs:323; derive.rs:881) -/
def B.runDtor (panics : BOracle) (σ : B A) : B A :=
  match σ.status with
  | .run => { σ with dtors := σ.dtors + 1, status := if panics σ.dtors then .unwind else .run }
  | .unwind => { σ with dtors := σ.dtors + 1, status := if panics σ.dtors then .abort else .unwind }
  | _ => σ

/-- Values that can be stored in a projection; see `FVal`. Pointers have a tag. (derive.rs:604-607, 623-626) -/
inductive BFVal
  | ref (isMut : Bool) (l : Option String) (t : Nat)
  | pinRef (isMut : Bool) (l : Option String) (t : Nat)
  | own
  | phantom
  deriving DecidableEq, Repr, Inhabited

/-- Values of local variables; see `Val`. (derive.rs:411-420, 672-686, 877-881, 999-1006) -/
inductive BVal
  | unit
  | fv (v : BFVal)
  | ptr (l : Option String) (t : Nat)
  /-- an owned value of the annotated type, with so many fields -/
  | obj (fields : Nat)
  | adt (fields : List (String × BFVal))
  | owGuard (target : Option String) (t : Nat)
  | diGuard (ptr : Option String) (t : Nat)
  deriving DecidableEq, Repr, Inhabited

/-- src/lib.rs:318-326 `ptr::drop_in_place(self.0)`: a mutable reference is made from the pointer, and the destructor may
read and write through it. -/
def bDropInPlace (b : Byte) (panics : BOracle) (l : Option String) (t : Nat) (σ : B A) : B A :=
  let r := σ.retag b .unique l t
  (r.2.access b true l r.1).runDtor panics

/-- Several destructors, one after the other. (the fields dropped by src/lib.rs:323) -/
def bRunDtors (panics : BOracle) : Nat → B A → B A
  | 0, σ => σ
  | n + 1, σ => bRunDtors panics n (σ.runDtor panics)

/-- Drop a value stored in a projection, see `dropFVal` (the result of derive.rs:672). -/
def bDropFVal (panics : BOracle) : BFVal → B A → B A
  | .own, σ => σ.runDtor panics
  | _, σ => σ

/-- Drop a value; see `dropVal`. src/lib.rs:341-349: the overwrite guard writes through its pointer. -/
def bDropVal (b : Byte) (panics : BOracle) : BVal → B A → B A
  | .fv v, σ => bDropFVal panics v σ
  | .obj n, σ => bRunDtors panics n σ
  | .adt fs, σ => fs.foldl (fun σ f => bDropFVal panics f.2 σ) σ
  | .owGuard l t, σ => σ.access b true l t
  | .diGuard l t, σ => bDropInPlace b panics l t σ
  | .unit, σ => σ
  | .ptr _ _, σ => σ

/-- Local variables, see `Env` (derive.rs:411-420, 672-686, 999-1006). -/
abbrev BEnv := List (String × Option BVal)

/-- See `Val.isOwning` (the variables of derive.rs:672-686, 999-1006). -/
def BVal.isOwning : BVal → Bool
  | .unit | .ptr _ _ | .fv (.ref _ _ _) | .fv (.pinRef _ _ _) | .fv .phantom => false
  | _ => true

/-- Use a variable, see `Env.use` (derive.rs:604, 623, 681, 686). -/
def BEnv.use (x : String) : BEnv → Option (BVal × BEnv)
  | [] => none
  | (y, v) :: env =>
    if y = x then v.map (fun v => (v, (y, if v.isOwning then none else some v) :: env))
    else (BEnv.use x env).map (fun r => (r.1, (y, v) :: r.2))

/-- See `Env.getRef` (derive.rs:604, 626, 681). -/
def BEnv.getRef (x : String) (env : BEnv) : Option (Bool × Option String × Nat) :=
  match env.lookup x with
  | some (some (.fv (.ref m l t))) => some (m, l, t)
  | _ => none

/-- A reference keeps its mutability when a new one is made from it. -/
def permOf (isMut : Bool) : BPerm := if isMut then .unique else .shared

/-- Initialiser expressions; see `evalF`. `Pin::new_unchecked(x)` makes a new reference. `ptr::read(x)` makes a `*const`
pointer and reads through it. (derive.rs:604, 607, 623, 626) -/
def bEvalF (b : Byte) (σ : B A) (env : BEnv) : FExpr → Option (BFVal × B A)
  | .bind x => (env.getRef x).map (fun r => (.ref r.1 r.2.1 r.2.2, σ))
  | .pinNew x => (env.getRef x).map (fun r =>
      let q := σ.retag b (permOf r.1) r.2.1 r.2.2
      (.pinRef r.1 r.2.1 q.1, q.2))
  | .read x => (env.getRef x).map (fun r =>
      let q := σ.retag b .shared r.2.1 r.2.2
      (.own, q.2.access b false r.2.1 q.1))
  | .phantom => some (.phantom, σ)

/-- The entries of a constructor, see `evalInits` (derive.rs:412, 551, 672). -/
def bEvalInits (b : Byte) (env : BEnv) (d : Option Delim) : Nat → List GInit → B A → Option (List (String × BFVal) × B A)
  | _, [], σ => some ([], σ)
  | i, x :: xs, σ => do
    let (v, σ) ← bEvalF b σ env (x.expr)
    let (vs, σ) ← bEvalInits b env d (i + 1) xs σ
    some ((x.label d i, v) :: vs, σ)

/-- Expressions; see `evalRHS`. `get_unchecked_mut`, `get_ref`, `&mut *x` and `Pin::new_unchecked` make a new reference;
`UnsafeDropInPlaceGuard::new(x)` a `*mut` pointer; the user's `PinnedDrop::drop` may write through its argument.
(derive.rs:411-420, 681, 877-881, 999-1006; src/lib.rs:314, 337) -/
def bEvalRHS (b : Byte) (panics : BOracle) (env : BEnv) (σ : B A) : RHS → Option (BVal × BEnv × B A)
  | .var x => do
    let (v, env) ← env.use x
    some (v, env, σ)
  | .getUncheckedMut x => do
    match ← env.use x with
    | (.fv (.pinRef true l t), env) =>
      let q := σ.retag b .unique l t
      some (.fv (.ref true l q.1), env, q.2)
    | _ => none
  | .getRef x => do
    match ← env.use x with
    | (.fv (.pinRef false l t), env) =>
      let q := σ.retag b .shared l t
      some (.fv (.ref false l q.1), env, q.2)
    | _ => none
  | .reborrow x => do
    match ← env.use x with
    | (.ptr l t, env) =>
      let q := σ.retag b .unique l t
      some (.fv (.ref true l q.1), env, q.2)
    | _ => none
  | .pinNew x => do
    match ← env.use x with
    | (.fv (.ref m l t), env) =>
      let q := σ.retag b (permOf m) l t
      some (.fv (.pinRef m l q.1), env, q.2)
    | _ => none
  | .ctor c => do
    let (fs, σ) ← bEvalInits b env c.delim 0 c.inits σ
    some (.adt fs, env, σ)
  | .overwriteGuard p v => do
    match ← env.use p with
    | (.ptr l t, env) =>
      match ← env.use v with
      | (.obj _, env) => some (.owGuard l t, env, σ)
      | _ => none
    | _ => none
  | .dropGuard x => do
    match ← env.use x with
    | (.fv (.ref true l t), env) =>
      let q := σ.retag b .raw l t
      some (.diGuard l q.1, env, q.2)
    | _ => none
  | .pinnedDropCall x => do
    match ← env.use x with
    | (.fv (.pinRef true none t), env) => some (.unit, env, bDropInPlace b panics none t σ)
    | _ => none
  | .unit => some (.unit, env, σ)

/-- The value `self` refers to: its variant, and the names of its fields. -/
structure Shape where
  variant : Option String
  labels : List String
  deriving DecidableEq, Repr, Inhabited

/-- Which binder of a pattern refers to which field; see `bindPat`. (derive.rs:411, 551) -/
def bPairs (pat : GPat) (o : Shape) : Option (List (String × String)) :=
  if pat.variant = o.variant ∧ pat.binders.Nodup then
    match pat.delim with
    | some .brace =>
      if (∀ x ∈ pat.binders, x ∈ o.labels) ∧ (∀ x ∈ o.labels, x ∈ pat.binders) then
        some (pat.binders.map (fun x => (x, x)))
      else none
    | some .paren =>
      if pat.binders.length = o.labels.length then some (pat.binders.zip o.labels) else none
    | some _ => none
    | none => if o.labels.isEmpty ∧ pat.binders.isEmpty then some [] else none
  else none

/-- Matching with a reference: a new reference to each field. (derive.rs:411, 551) -/
def bBind (b : Byte) (isMut : Bool) (t : Nat) : List (String × String) → B A → BEnv × B A
  | [], σ => ([], σ)
  | (x, f) :: ps, σ =>
    let q := σ.retag b (permOf isMut) (some f) t
    let r := bBind b isMut t ps q.2
    ((x, some (.fv (.ref isMut (some f) q.1))) :: r.1, r.2)

/-- The coercion of a type ascription: `*mut Self` from `&mut Self`. (derive.rs:999) -/
def bCoerce (b : Byte) : Option String → BVal → B A → Option (BVal × B A)
  | none, v, σ => some (v, σ)
  | some _, .fv (.ref true l t), σ =>
    let q := σ.retag b .raw l t
    some (.ptr l q.1, q.2)
  | some _, _, _ => none

/-- Drop local variables, see `dropSlots` (derive.rs:672-686, 999-1006). -/
def bDropSlots (b : Byte) (panics : BOracle) : BEnv → B A → B A
  | [], σ => σ
  | (_, none) :: env, σ => bDropSlots b panics env σ
  | (_, some v) :: env, σ => bDropSlots b panics env (bDropVal b panics v σ)

/-- The statements of an inner scope, see `evalLets` (derive.rs:679-683). -/
def bEvalLets (b : Byte) (panics : BOracle) : List (String × RHS) → BEnv → B A → BEnv × B A
  | [], env, σ => (env, σ)
  | (x, e) :: ss, env, σ =>
    match bEvalRHS b panics env σ e with
    | none => (env, σ.getStuck)
    | some (v, env, σ) =>
      if σ.status = .run then bEvalLets b panics ss ((x, some v) :: env) σ else (env, σ)

/-- Statements; see `evalStmt`. (derive.rs:411, 672-683, 877-881, 999-1006) -/
def bEvalStmt (b : Byte) (panics : BOracle) (o : Shape) (env : BEnv) (σ : B A) : GStmt → BEnv × B A
  | .letPat pat e =>
    match bEvalRHS b panics env σ e with
    | some (.fv (.ref m none t), env, σ) =>
      match bPairs pat o with
      | some ps => ((bBind b m t ps σ).1.reverse ++ env, (bBind b m t ps σ).2)
      | none => (env, σ.getStuck)
    | _ => (env, σ.getStuck)
  | .letVar x ty e =>
    match bEvalRHS b panics env σ e with
    | some (v, env, σ) =>
      if σ.status = .run then
        match bCoerce b ty v σ with
        | some (v, σ) => ((x, some v) :: env, σ)
        | none => (env, σ.getStuck)
      else (env, σ)
    | none => (env, σ.getStuck)
  | .scope ss =>
    let r := bEvalLets b panics ss env σ
    let n := r.1.length - env.length
    (r.1.drop n, bDropSlots b panics (r.1.take n) r.2)
  | .expr e =>
    match bEvalRHS b panics env σ e with
    | some (v, env, σ) => (env, bDropVal b panics v σ)
    | none => (env, σ.getStuck)

/-- Statements in order, see `evalStmts` (derive.rs:411, 672-683, 877-881, 999-1006). -/
def bEvalStmts (b : Byte) (panics : BOracle) (o : Shape) : List GStmt → BEnv → B A → BEnv × B A
  | [], env, σ => (env, σ)
  | s :: ss, env, σ =>
    let r := bEvalStmt b panics o env σ s
    if r.2.status = .run then bEvalStmts b panics o ss r.1 r.2 else r

/-- The result of a block, see `Out` (derive.rs:410-421, 550-558). -/
structure BOut (A : AliasModel) where
  val : Option BVal
  env : BEnv
  σ : B A

/-- Leaving a block with a value; see `leave`. (the blocks of derive.rs:556-558, 998-1009) -/
def bLeave (b : Byte) (panics : BOracle) (tailLeak : Bool) (n : Nat) (v : BVal) (env : BEnv) (σ : B A) : BOut A :=
  let k := env.length - n
  let σ' := bDropSlots b panics (env.take k) σ
  match σ'.status with
  | .run => ⟨some v, env.drop k, σ'⟩
  | .unwind => ⟨none, env.drop k, if tailLeak then σ' else bDropVal b panics v σ'⟩
  | _ => ⟨none, env.drop k, σ'⟩

/-- Leaving a block because of a panic, see `leavePanic` (derive.rs:556-558, 998-1009). -/
def bLeavePanic (b : Byte) (panics : BOracle) (n : Nat) (env : BEnv) (σ : B A) : BOut A :=
  let k := env.length - n
  ⟨none, env.drop k, bDropSlots b panics (env.take k) σ⟩

/-- A block, see `evalBlock` (derive.rs:550-558). -/
def bEvalBlock (b : Byte) (panics : BOracle) (tailLeak : Bool) (o : Shape) (n : Nat) (stmts : List GStmt) (e : RHS)
    (env : BEnv) (σ : B A) : BOut A :=
  let r := bEvalStmts b panics o stmts env σ
  if r.2.status = .run then
    match bEvalRHS b panics r.1 r.2 e with
    | some (v, env, σ) =>
      if σ.status = .run then bLeave b panics tailLeak n v env σ else bLeavePanic b panics n env σ
    | none => ⟨none, r.1, r.2.getStuck⟩
  else bLeavePanic b panics n r.1 r.2

/-- A function body; see `evalBody`. A `match` reads what tells the variants apart.
(derive.rs:410-421, 494-508, 874-882, 998-1009) -/
def bEvalBody (b : Byte) (panics : BOracle) (tailLeak : Bool) (o : Shape) (body : GBody) (env : BEnv) (σ : B A) :
    Option BVal × B A :=
  match body.tail with
  | .expr e =>
    let r := bEvalBlock b panics tailLeak o 0 body.stmts e env σ
    (r.val, r.σ)
  | .match_ scrut arms =>
    let r := bEvalStmts b panics o body.stmts env σ
    if r.2.status = .run then
      match bEvalRHS b panics r.1 r.2 scrut with
      | some (.fv (.ref isMut none t), env, σ) =>
        let σ := if b.inTag then σ.access b false none t else σ
        match arms.find? (fun a => a.pat.variant == o.variant) with
        | none => (none, σ.getStuck)
        | some arm =>
          match bPairs arm.pat o with
          | none => (none, σ.getStuck)
          | some ps =>
            let bs := bBind b isMut t ps σ
            let r := bEvalBlock b panics tailLeak o env.length arm.stmts arm.tail (bs.1.reverse ++ env) bs.2
            match r.val with
            | some v =>
              let out := bLeave b panics tailLeak 0 v r.env r.σ
              (out.val, out.σ)
            | none =>
              let out := bLeavePanic b panics 0 r.env r.σ
              (out.val, out.σ)
      | _ => (none, r.2.getStuck)
    else
      let out := bLeavePanic b panics 0 r.1 r.2
      (out.val, out.σ)

/-- The receiver, as a value, for a reference with the tag `t`. (derive.rs:873, 930, 968, 979, 990) -/
def bSelf : GTy → Nat → Option (BPerm × BVal)
  | .pin _ (.ref _ m .selfTy), t => some (permOf m, .fv (.pinRef m none t))
  | .ref _ m .selfTy, t => some (permOf m, .fv (.ref m none t))
  | _, _ => none

/-- Call a generated function with a reference whose tag is `t0`, on a value of the given shape. The parameter `self` gets a
new tag, protected until the function returns. All other parameters are owned values of the annotated type; how many fields
they have would only matter if the function dropped them. (derive.rs:873, 930, 964-1012) -/
def bCallFn (b : Byte) (panics : BOracle) (tailLeak : Bool) (f : GFn) (o : Shape) (t0 : Nat) (σ : B A) : Option BVal × B A :=
  match bSelf f.recv σ.next with
  | none => (none, σ.getStuck)
  | some (p, self) =>
    let q := σ.retag b p none t0
    let env : BEnv := (f.params.map (fun p => (p.1, some (.obj o.labels.length)))).reverse ++ [("self", some self)]
    let r := bEvalBody b panics tailLeak o f.body env { q.2 with prot := q.1 :: σ.prot }
    (r.1, { r.2.release q.1 with prot := σ.prot })

end PinProject

import Verif.Model.Gen
/-!
# Executing generated functions

An interpreter for the bodies of generated functions (`Model/Gen.lean`), with the Rust rules that
matter for pin-project: match ergonomics, raw pointer reads that copy without clearing memory,
moves out of locals, destruction of locals in reverse order of declaration, shadowing by name,
unwinding, and abort when a destructor panics during unwinding.

Values of field types are opaque: a value is an identity `Id`, and running its destructor is an
event. Whether a destructor panics is decided by an arbitrary *oracle* that sees the whole history.

A program that `rustc` would refuse (unknown name, wrong kind of value, use after move, pattern
that does not match the definition) is `stuck`.

Comments cite the code in /repo that a definition runs or is about. Definitions without a citation are rules of Rust and
have no counterpart in /repo.
-/
namespace PinProject

/-- The identity of a value of a field type. (a field of the types of derive.rs:589) -/
abbrev Id := Nat

/-- A storage location: a place (where a value of the annotated type lives), or a field of it.
(`self` and the bindings of derive.rs:411, 551) -/
structure Loc where
  place : Nat
  field : Option String
  deriving DecidableEq, Repr, Inhabited

/-- A value of the annotated type: its variant and the values of its fields, by field name
(`"0"`, `"1"`, .. for tuple fields). (the annotated item of derive.rs:26-46) -/
structure Obj where
  variant : Option String
  fields : List (String × Id)
  deriving DecidableEq, Repr, Inhabited

/-- Observable events. (what src/lib.rs:318-349 and derive.rs:881 make observable) -/
inductive Event
  /-- the destructor of a field value ran; `loc` tells where the value was if it was dropped in
  place, and is `none` if it was dropped as an owned value -/
  | drop (id : Id) (loc : Option Loc)
  /-- the storage of a place was overwritten (no destructor involved) -/
  | write (place : Nat) (o : Obj)
  /-- the user's `PinnedDrop::drop` was called on the value at a place -/
  | pinnedDrop (place : Nat)
  deriving DecidableEq, Repr, Inhabited

/-- How far execution of a function of derive.rs:860-1033 has come. -/
inductive Status
  /-- normal execution -/
  | run
  /-- a panic is being propagated -/
  | unwind
  /-- the process aborted (panic while unwinding) -/
  | abort
  /-- the program would not compile -/
  | stuck
  deriving DecidableEq, Repr, Inhabited

/-- The state of the machine. (execution of the functions of derive.rs:860-1033) -/
structure M where
  mem : Nat → Option Obj
  trace : List Event := []
  status : Status := .run

/-- Does this destructor call panic, given everything that happened before?
(the destructors called by src/lib.rs:323) -/
abbrev Oracle := List Event → Event → Bool

/-- Run a destructor (or the user's pinned drop): record it; it may panic; a panic while unwinding
aborts; nothing runs after an abort. (src/lib.rs:323; derive.rs:881) -/
def M.runDtor (orc : Oracle) (e : Event) (m : M) : M :=
  match m.status with
  | .run => { m with trace := m.trace ++ [e], status := if orc m.trace e then .unwind else .run }
  | .unwind => { m with trace := m.trace ++ [e], status := if orc m.trace e then .abort else .unwind }
  | _ => m

/-- Rustc refuses the function of derive.rs:860-1033. -/
def M.getStuck (m : M) : M := { m with status := .stuck }

/-- The field value stored at a location. (derive.rs:626 `ptr::read`) -/
def M.idAt (m : M) (l : Loc) : Option Id :=
  match m.mem l.place, l.field with
  | some o, some f => o.fields.lookup f
  | _, _ => none

/-- Overwrite a place. (src/lib.rs:346) -/
def M.write (p : Nat) (o : Obj) (m : M) : M :=
  match m.status with
  | .run | .unwind =>
    { m with mem := fun q => if q = p then some o else m.mem q, trace := m.trace ++ [.write p o] }
  | _ => m

/-- Values that can be stored in a projection. (derive.rs:604-607, 623-626) -/
inductive FVal
  | ref (isMut : Bool) (l : Loc)
  /-- `Pin<&T>` / `Pin<&mut T>` -/
  | pinRef (isMut : Bool) (l : Loc)
  /-- an owned field value -/
  | own (id : Id)
  /-- `PhantomData` -/
  | phantom
  deriving DecidableEq, Repr, Inhabited

/-- Values of local variables. (derive.rs:411-420, 672-686, 877-881, 999-1006) -/
inductive Val
  | unit
  | fv (v : FVal)
  /-- `*mut T` -/
  | ptr (l : Loc)
  /-- an owned value of the annotated type -/
  | obj (o : Obj)
  /-- a value of a projection type -/
  | adt (name : String) (variant : Option String) (fields : List (String × FVal))
  /-- `UnsafeOverwriteGuard { target, value }`, src/lib.rs:331-334 -/
  | owGuard (target : Loc) (value : Obj)
  /-- `UnsafeDropInPlaceGuard(ptr)`, src/lib.rs:311 -/
  | diGuard (ptr : Loc)
  deriving DecidableEq, Repr, Inhabited

/-- src/lib.rs:318-326 `<UnsafeDropInPlaceGuard as Drop>::drop`: `ptr::drop_in_place(self.0)`. -/
def dropInPlaceGuardDrop (orc : Oracle) (l : Loc) (m : M) : M :=
  match m.idAt l with
  | some id => m.runDtor orc (.drop id (some l))
  | none => m.getStuck

/-- src/lib.rs:341-349 `<UnsafeOverwriteGuard as Drop>::drop`:
`ptr::write(self.target, ptr::read(&*self.value))`. The value is `ManuallyDrop`, so nothing is
dropped. -/
def overwriteGuardDrop (l : Loc) (o : Obj) (m : M) : M :=
  match l.field with
  | none => m.write l.place o
  | some _ => m.getStuck

/-- Drop a value stored in a projection. (the result of derive.rs:672, when a destructor panics) -/
def dropFVal (orc : Oracle) : FVal → M → M
  | .own id, m => m.runDtor orc (.drop id none)
  | _, m => m

/-- Drop a value: fields in declaration order, also when one of them panics. (For a value of the
annotated type this is the glue of a type without `Drop` impl; the interpreter only meets such
values in `project_replace`, which excludes `PinnedDrop`.) (the variables of derive.rs:672-686, 999-1006) -/
def dropVal (orc : Oracle) : Val → M → M
  | .fv v, m => dropFVal orc v m
  | .obj o, m => o.fields.foldl (fun m f => m.runDtor orc (.drop f.2 none)) m
  | .adt _ _ fs, m => fs.foldl (fun m f => dropFVal orc f.2 m) m
  | .owGuard l o, m => overwriteGuardDrop l o m
  | .diGuard l, m => dropInPlaceGuardDrop orc l m
  | .unit, m => m
  | .ptr _, m => m

/-- Local variables, newest first; `none` marks a moved-out variable.
(the variables of derive.rs:411-420, 672-686, 999-1006) -/
abbrev Env := List (String × Option Val)

/-- Values that are moved out of a variable by using it. (`&mut` references are not marked as
moved; that a reference is used after a move is not detected.) (the variables of derive.rs:672-686, 999-1006) -/
def Val.isOwning : Val → Bool
  | .unit | .ptr _ | .fv (.ref _ _) | .fv (.pinRef _ _) | .fv .phantom => false
  | _ => true

/-- Use a variable: the newest one of that name. (derive.rs:604, 623, 681, 686, 1003-1006) -/
def Env.use (x : String) : Env → Option (Val × Env)
  | [] => none
  | (y, v) :: env =>
    if y = x then v.map (fun v => (v, (y, if v.isOwning then none else some v) :: env))
    else (Env.use x env).map (fun r => (r.1, (y, v) :: r.2))

/-- Look at a variable that holds a reference. (derive.rs:604, 626, 681) -/
def Env.getRef (x : String) (env : Env) : Option (Bool × Loc) :=
  match env.lookup x with
  | some (some (.fv (.ref b l))) => some (b, l)
  | _ => none

/-- The label of the `i`-th entry of a constructor. (derive.rs:603-608, 622-627) -/
def GInit.label (d : Option Delim) (i : Nat) : GInit → String
  | .labelled ident _ => ident.getD (toString i)
  | .bare x => match d with
    | some .brace => x
    | _ => toString i

/-- Initialiser expressions. `ptr::read` copies the value out and leaves the memory as it is.
(derive.rs:604, 607, 623, 626) -/
def evalF (m : M) (env : Env) : FExpr → Option FVal
  | .bind x => (env.getRef x).map (fun r => .ref r.1 r.2)
  | .pinNew x => (env.getRef x).map (fun r => .pinRef r.1 r.2)
  | .read x => (env.getRef x).bind (fun r => (m.idAt r.2).map .own)
  | .phantom => some .phantom

/-- The expression of an entry, derive.rs:603-608, 622-627. -/
def GInit.expr : GInit → FExpr
  | .labelled _ e => e
  | .bare x => .bind x

/-- The entries of a constructor, left to right. (derive.rs:412, 551, 672) -/
def evalInits (m : M) (env : Env) (d : Option Delim) : Nat → List GInit → Option (List (String × FVal))
  | _, [] => some []
  | i, x :: xs => do
    let v ← evalF m env x.expr
    let vs ← evalInits m env d (i + 1) xs
    some ((x.label d i, v) :: vs)

/-- Expressions. (derive.rs:411-420, 681, 877-881, 999-1006; src/lib.rs:314, 337) -/
def evalRHS (orc : Oracle) (env : Env) (m : M) : RHS → Option (Val × Env × M)
  | .var x => do
    let (v, env) ← env.use x
    some (v, env, m)
  | .getUncheckedMut x => do
    match ← env.use x with
    | (.fv (.pinRef true l), env) => some (.fv (.ref true l), env, m)
    | _ => none
  | .getRef x => do
    match ← env.use x with
    | (.fv (.pinRef false l), env) => some (.fv (.ref false l), env, m)
    | _ => none
  | .reborrow x => do
    match ← env.use x with
    | (.ptr l, env) => some (.fv (.ref true l), env, m)
    | _ => none
  | .pinNew x => do
    match ← env.use x with
    | (.fv (.ref b l), env) => some (.fv (.pinRef b l), env, m)
    | _ => none
  | .ctor c => do
    let fs ← evalInits m env c.delim 0 c.inits
    some (.adt c.ty c.variant fs, env, m)
  | .overwriteGuard p v => do
    match ← env.use p with
    | (.ptr l, env) =>
      match ← env.use v with
      | (.obj o, env) => some (.owGuard l o, env, m)
      | _ => none
    | _ => none
  | .dropGuard x => do
    match ← env.use x with
    | (.fv (.ref true l), env) => some (.diGuard l, env, m)
    | _ => none
  | .pinnedDropCall x => do
    match ← env.use x with
    | (.fv (.pinRef true ⟨p, none⟩), env) => some (.unit, env, m.runDtor orc (.pinnedDrop p))
    | _ => none
  | .unit => some (.unit, env, m)

/-- Matching a reference to the object at place `p` against a pattern: the variant has to match, a
`{..}` pattern names exactly the fields, a `(..)` pattern has one binder per field; each binder
becomes a reference to the field's storage, of the same mutability. (derive.rs:411, 551) -/
def bindPat (pat : GPat) (isMut : Bool) (p : Nat) (o : Obj) : Option Env :=
  if pat.variant = o.variant ∧ pat.binders.Nodup then
    match pat.delim with
    | some .brace =>
      if (∀ x ∈ pat.binders, x ∈ o.fields.map Prod.fst) ∧ (∀ x ∈ o.fields.map Prod.fst, x ∈ pat.binders) then
        some (pat.binders.map (fun x => (x, some (.fv (.ref isMut ⟨p, some x⟩)))))
      else none
    | some .paren =>
      if pat.binders.length = o.fields.length then
        some (pat.binders.zipWith (fun x f => (x, some (.fv (.ref isMut ⟨p, some f.1⟩)))) o.fields)
      else none
    | some _ => none
    | none => if o.fields.isEmpty ∧ pat.binders.isEmpty then some [] else none
  else none

/-- The coercion of a type ascription: `*mut Self` from `&mut Self`. (derive.rs:999) -/
def coerce : Option String → Val → Option Val
  | none, v => some v
  | some _, .fv (.ref true l) => some (.ptr l)
  | some _, _ => none

/-- Drop local variables, in the given order; moved-out ones are skipped.
(the variables of derive.rs:672-686, 999-1006) -/
def dropSlots (orc : Oracle) : Env → M → M
  | [], m => m
  | (_, none) :: env, m => dropSlots orc env m
  | (_, some v) :: env, m => dropSlots orc env (dropVal orc v m)

/-- The statements `let x1 = e1; ..` of an inner scope. (derive.rs:679-683) -/
def evalLets (orc : Oracle) : List (String × RHS) → Env → M → Env × M
  | [], env, m => (env, m)
  | (x, e) :: ss, env, m =>
    match evalRHS orc env m e with
    | none => (env, m.getStuck)
    | some (v, env, m) =>
      if m.status = .run then evalLets orc ss ((x, some v) :: env) m else (env, m)

/-- Statements. (derive.rs:411, 672-683, 877-881, 999-1006) -/
def evalStmt (orc : Oracle) (env : Env) (m : M) : GStmt → Env × M
  | .letPat pat e =>
    match evalRHS orc env m e with
    | some (.fv (.ref b ⟨p, none⟩), env, m) =>
      match m.mem p with
      | some o =>
        match bindPat pat b p o with
        | some bs => (bs.reverse ++ env, m)
        | none => (env, m.getStuck)
      | none => (env, m.getStuck)
    | _ => (env, m.getStuck)
  | .letVar x ty e =>
    match evalRHS orc env m e with
    | some (v, env, m) =>
      if m.status = .run then
        match coerce ty v with
        | some v => ((x, some v) :: env, m)
        | none => (env, m.getStuck)
      else (env, m)
    | none => (env, m.getStuck)
  | .scope ss =>
    let r := evalLets orc ss env m
    let n := r.1.length - env.length
    (r.1.drop n, dropSlots orc (r.1.take n) r.2)
  | .expr e =>
    match evalRHS orc env m e with
    | some (v, env, m) => (env, dropVal orc v m)
    | none => (env, m.getStuck)

/-- Statements in order, derive.rs:411, 672-683, 877-881, 999-1006. -/
def evalStmts (orc : Oracle) : List GStmt → Env → M → Env × M
  | [], env, m => (env, m)
  | s :: ss, env, m =>
    let r := evalStmt orc env m s
    if r.2.status = .run then evalStmts orc ss r.1 r.2 else r

/-- The result of a block: its value, unless it panicked, aborted or got stuck.
(the blocks of derive.rs:410-421, 550-558) -/
structure Out where
  val : Option Val
  env : Env
  m : M

/-- Leaving a block whose tail expression has been evaluated to `v`: the locals of the block (the
part of `env` beyond the last `n` variables) are dropped. If one of them panics, the value is
dropped too, except with the compiler bug rust-lang/rust#47949 (`tailLeak`), where it is leaked.
(the blocks of derive.rs:556-558, 998-1009) -/
def leave (orc : Oracle) (tailLeak : Bool) (n : Nat) (v : Val) (env : Env) (m : M) : Out :=
  let k := env.length - n
  let m' := dropSlots orc (env.take k) m
  match m'.status with
  | .run => ⟨some v, env.drop k, m'⟩
  | .unwind => ⟨none, env.drop k, if tailLeak then m' else dropVal orc v m'⟩
  | _ => ⟨none, env.drop k, m'⟩

/-- Leaving a block because of a panic (or abort). (the blocks of derive.rs:556-558, 998-1009) -/
def leavePanic (orc : Oracle) (n : Nat) (env : Env) (m : M) : Out :=
  let k := env.length - n
  ⟨none, env.drop k, dropSlots orc (env.take k) m⟩

/-- A block `{ stmts; e }`. (the blocks of derive.rs:550-558) -/
def evalBlock (orc : Oracle) (tailLeak : Bool) (n : Nat) (stmts : List GStmt) (e : RHS) (env : Env)
    (m : M) : Out :=
  let r := evalStmts orc stmts env m
  if r.2.status = .run then
    match evalRHS orc r.1 r.2 e with
    | some (v, env, m) =>
      if m.status = .run then leave orc tailLeak n v env m else leavePanic orc n env m
    | none => ⟨none, r.1, r.2.getStuck⟩
  else leavePanic orc n r.1 r.2

/-- A function body: statements, then an expression or a `match`. All variables, including the
parameters, are dropped at the end. (derive.rs:410-421, 494-508, 874-882, 998-1009) -/
def evalBody (orc : Oracle) (tailLeak : Bool) (b : GBody) (env : Env) (m : M) : Option Val × M :=
  match b.tail with
  | .expr e =>
    let r := evalBlock orc tailLeak 0 b.stmts e env m
    (r.val, r.m)
  | .match_ scrut arms =>
    let r := evalStmts orc b.stmts env m
    if r.2.status = .run then
      match evalRHS orc r.1 r.2 scrut with
      | some (.fv (.ref isMut ⟨p, none⟩), env, m) =>
        match m.mem p with
        | none => (none, m.getStuck)
        | some o =>
          match arms.find? (fun a => a.pat.variant == o.variant) with
          | none => (none, m.getStuck)
          | some arm =>
            match bindPat arm.pat isMut p o with
            | none => (none, m.getStuck)
            | some bs =>
              let r := evalBlock orc tailLeak env.length arm.stmts arm.tail (bs.reverse ++ env) m
              match r.val with
              | some v =>
                let o := leave orc tailLeak 0 v r.env r.m
                (o.val, o.m)
              | none =>
                let o := leavePanic orc 0 r.env r.m
                (o.val, o.m)
      | _ => (none, r.2.getStuck)
    else
      let o := leavePanic orc 0 r.1 r.2
      (o.val, o.m)

/-- Does a value fit a type in a generated signature? (derive.rs:873, 930, 967-969, 978-980, 989-992) -/
def Val.fitsSig : Val → GTy → Bool
  | .fv (.pinRef b _), .pin _ (.ref _ b' .selfTy) => b == b'
  | .fv (.ref b _), .ref _ b' .selfTy => b == b'
  | .obj _, .selfTy => true
  | .adt n _ _, .adt n' _ => n == n'
  | .unit, .unit => true
  | _, _ => false

/-- Call a generated function: arguments must fit the declared types, and so must the result.
(derive.rs:873, 930, 964-1012) -/
def callFn (orc : Oracle) (tailLeak : Bool) (f : GFn) (self : Val) (args : List Val) (m : M) :
    Option Val × M :=
  if self.fitsSig f.recv ∧ args.length = f.params.length ∧
      (∀ a ∈ args.zip f.params, a.1.fitsSig a.2.2) then
    let env : Env := (f.params.zipWith (fun p v => (p.1, some v)) args).reverse ++ [("self", some self)]
    let r := evalBody orc tailLeak f.body env m
    match r.1 with
    | some v => if v.fitsSig f.ret then r else (none, r.2.getStuck)
    | none => r
  else (none, m.getStuck)

end PinProject

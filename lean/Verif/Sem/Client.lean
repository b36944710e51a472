import Verif.Sem.History
import Verif.Spec.Instances
import Verif.Spec.Repr
/-!
# Safe programs that use annotated types

A machine that runs an arbitrary safe program around the generated code. Values are trees: a value of an
annotated type, or of any other type, has an identity and named parts. A *root* is a variable or a heap
allocation; it is owned, or pinned (`Pin<Box<T>>`, `pin!`). The program can do what Rust lets safe code
do: build values, move them, pin them, make references and go from one reference to another
(`Deriv` below: fields, `project`, `project_ref`, `Pin::get_mut`, `Pin::new`, ..), swap, assign, `Pin::set`,
`project_replace`, take values apart, drop and forget them. Destructors run step by step, and the
user's code in them can again do all this.

What `project`, `project_ref`, `project_replace` and the generated `Drop` do is not written down here: it
is what the interpreter (`Sem/Eval.lean`) computes for the code in the expansion. Which types are `Unpin` is
what trait resolution (`Sem/Traits.lean`) gives for the impls in the expansions; and whether the user can
implement `Drop` for an annotated type is decided by the overlap check.

Borrowing. A reference is not stored; it is derived from a root, or from the reference given to a
destructor, again when it is used. This is enough: while a reference is alive, rustc permits no
conflicting use, so deriving it again gives the same location. A location that is being dropped or assigned
to by a pending operation cannot be used by the code that runs meanwhile (in a destructor), except through
the reference given to that destructor. Otherwise the machine permits all references at any time; this is
more than rustc permits.

Types that are not annotated are of two kinds. *Structural* ones are those whose safe API gives pinned
references to their parts (`Option::as_pin_mut`, for instance); they are assumed to fulfil the contract of
`std::pin`: if such a type is `Unpin` so are its parts, and its destructor does not treat it as unpinned.
All other types may do whatever safe code can do, including interior mutability (`Deriv.cell`).

Threads. The pending operations of all threads are in one list, and what user code can do, it can do at
any time, in any thread: `op` does not ask that the operations begun before are finished, only that the
memory it uses is not in use by them. For the same reason an operation can go on before one that is
in front of it in the list, if they have no memory in common (`sched`). Operations of one thread are in order
where they concern the same memory; where they do not, the machine permits any order, which is more than
happens. Shared ownership (`Rc`, `Arc`) needs nothing new: a root with several handles permits less than one that
is owned.

Not modelled: panics other than those in destructors called by generated code, except that user
code may stop at any point (`ret`).

Comments cite the code in /repo that a definition runs or is about. Definitions without a citation are rules of Rust and
have no counterpart in /repo.
-/
namespace PinProject
open Spec

/-- A value: identity, type, enum variant, parts. -/
inductive V
  /-- moved out -/
  | hole (ty : Ty)
  | node (id : Id) (ty : Ty) (variant : Option String) (fields : List (String × V))

instance : Inhabited V := ⟨.hole default⟩

mutual
/-- The identities in a value. -/
def V.ids : V → List Id
  | .hole _ => []
  | .node id _ _ fs => id :: V.idsIn fs
/-- The identities in the parts. -/
def V.idsIn : List (String × V) → List Id
  | [] => []
  | (_, v) :: fs => v.ids ++ V.idsIn fs
end

/-- The type of a value. -/
def V.ty : V → Ty
  | .hole t => t
  | .node _ t _ _ => t

/-- The identity of a value. -/
def V.id? : V → Option Id
  | .hole _ => none
  | .node id _ _ _ => some id

/-- A location: a root, or a part of a part of .. of a root. -/
structure GLoc where
  root : Nat
  path : List String
  deriving DecidableEq

/-- A part of the value at a location. -/
def GLoc.sub (L : GLoc) (p : List String) : GLoc := ⟨L.root, L.path ++ p⟩

/-- `M` is `L` or a part of it. -/
def GLoc.Contains (L M : GLoc) : Prop := ∃ p, M = L.sub p

/-- No overlap. -/
def GLoc.Disjoint (L M : GLoc) : Prop := ¬ L.Contains M ∧ ¬ M.Contains L

/-- The value at a path. -/
def V.get : List String → V → Option V
  | [], v => some v
  | f :: p, .node _ _ _ fs => (fs.lookup f).bind (V.get p)
  | _ :: _, .hole _ => none

/-- Change one part. -/
def setField (f : String) (g : V → V) : List (String × V) → List (String × V)
  | [] => []
  | x :: xs => if f = x.1 then (x.1, g x.2) :: xs else x :: setField f g xs

/-- Put a value at a path. -/
def V.set : List String → V → V → V
  | [], _, new => new
  | f :: p, .node id ty variant fs, new => .node id ty variant (setField f (fun c => V.set p c new) fs)
  | _ :: _, .hole ty, _ => .hole ty

/-- A root: a value, and whether it is pinned. -/
structure Slot where
  pinned : Bool
  val : V

/-- What happened, as far as pinning is concerned. -/
inductive PEvent
  /-- a `Pin<&T>` or `Pin<&mut T>` to the value `id` of type `ty` at `L` was made -/
  | expose (id : Id) (ty : Ty) (L : GLoc)
  /-- the destructor of the value `id` was called, at `L` -/
  | dtor (id : Id) (L : GLoc)
  /-- the value `id` was taken apart at `L` by `project_replace` -/
  | taken (id : Id) (L : GLoc)
  /-- the value `id` was put into `L` by the destructor that is running for `L` -/
  | late (id : Id) (L : GLoc)
  /-- the value `id` was moved out of `L` by the destructor that is running for `L` -/
  | escape (id : Id) (L : GLoc)
  /-- the program forgot the value `id` (`mem::forget`), or took it apart (`let S { x, y } = s`) -/
  | forgot (id : Id)

/-- The memory of the program, and what has happened. -/
structure World where
  roots : Nat → Option Slot
  /-- all identities used so far -/
  used : List Id
  trace : List PEvent

/-- The value at a location. -/
def World.at (w : World) (L : GLoc) : Option V := (w.roots L.root).bind (fun r => r.val.get L.path)

/-- Replace a root. -/
def World.setRoot (w : World) (r : Nat) (x : Option Slot) : World :=
  { w with roots := fun q => if q = r then x else w.roots q }

/-- Put a value at a location. -/
def World.put (w : World) (L : GLoc) (v : V) : World :=
  match w.roots L.root with
  | none => w
  | some r => w.setRoot L.root (some { r with val := r.val.set L.path v })

/-- Record events. -/
def World.log (w : World) (es : List PEvent) : World := { w with trace := w.trace ++ es }

/-- A compiled program: its types, and the meaning of its syntax. (its expansions are those of derive.rs:20-49) -/
structure Universe where
  P : Program
  N : Names
  F : Facts
  K : Negative
  /-- the annotated types -/
  D : String → Option Def
  /-- types that are not annotated, with structural pinning -/
  structural : Ty → Prop
  lawful : N.Lawful
  /-- trait resolution -/
  solves : P.Solves N F
  /-- the overlap check -/
  negative : K.Sound N
  coherent : P.Coherent K
  name : ∀ n d, D n = some d → itemName d.item = some n
  wellScoped : ∀ n d, D n = some d → WellScoped d.item
  names : ∀ n d A, D n = some d → parseArgs (itemAttrs d.item) = .ok A → NamesOk n A
  hosts : ∀ n d, D n = some d → Hosts n d.E P
  foreign : ∀ n args, structural (.adt n args) → D n = none
  /-- the contract of the unsafe trait `UnsafeUnpin`, if the user implements it -/
  contract : ∀ u ∈ P.user, u.tr = .unsafeUnpin → ∀ d, D u.name = some d → ∀ args, u.covers args →
    ∀ f ∈ itemFields d.item, Pinned f → F.unpin (N.den (instSubst d.item args) (resolved d.item f.ty))

/-- The definition of an annotated type, and its arguments. -/
def Universe.def? (U : Universe) : Ty → Option (Def × List TArg)
  | .adt n args => (U.D n).map (fun d => (d, args))
  | _ => none

/-- The fields of a value as the interpreter of generated code sees them: numbered from `base`.
(for the functions of derive.rs:964-1012) -/
def flatObj (base : Nat) (variant : Option String) (fs : List (String × V)) : Obj :=
  ⟨variant, fs.mapIdx (fun i f => (f.1, base + i))⟩

/-- Memory with one value, at place 0. -/
def solo (o : Obj) : M := { mem := fun q => if q = 0 then some o else none }

/-- Does the user implement `Drop` for this type? -/
def Universe.UserDrop (U : Universe) (ty : Ty) : Prop :=
  ∃ u ∈ U.P.user, u.tr = .drop ∧ ∃ args, ty = .adt u.name args ∧ u.covers args

/-- Neither annotated nor structural. -/
def Universe.Plain (U : Universe) (ty : Ty) : Prop := U.def? ty = none ∧ ¬ U.structural ty

/-- The value fits its type: a value of an annotated type has the fields of one of its variants, each of
the declared type, and the type is a well-formed instance that is `Sized`. (Safe code can only make values of
`Sized` types. A coercion to an unsized type like `S<dyn Tr>` changes what is known about the value, but not the
value.) The parts of a structural type are `Unpin` if it is. The names of the parts are distinct. -/
def NodeOk (U : Universe) : V → Prop
  | .hole _ => True
  | .node _ ty variant fs =>
    (∀ d args, U.def? ty = some (d, args) →
      (IsInstance d.item U.N args ∧ U.N.sized ty) ∧
      ∃ Fs, IsValue d.item (flatObj 0 variant fs) Fs ∧
        fs.map (fun x => x.2.ty) = Fs.list.map (fun f => U.N.den (instSubst d.item args) (resolved d.item f.ty))) ∧
    (U.structural ty → U.F.unpin ty → ∀ x ∈ fs, U.F.unpin x.2.ty) ∧
    (fs.map Prod.fst).Nodup

/-- Kinds of references. -/
inductive Mode
  /-- `&mut T` -/
  | excl
  /-- `Pin<&mut T>` -/
  | pinExcl
  /-- `&T` -/
  | shr
  /-- `Pin<&T>` -/
  | pinShr
  deriving DecidableEq

/-- A reference found in a projection of the value at place 0: the part it refers to, and its kind. -/
def FVal.target : FVal → Option (List String × Mode)
  | .ref b ⟨0, f⟩ => some (f.toList, if b then .excl else .shr)
  | .pinRef b ⟨0, f⟩ => some (f.toList, if b then .pinExcl else .pinShr)
  | _ => none

/-- The references in a value. -/
def Val.refs : Val → List (List String × Mode)
  | .fv v => v.target.toList
  | .adt _ _ fs => fs.filterMap (fun x => x.2.target)
  | _ => []

/-- What a projection method gives, according to the generated code. (derive.rs:964-985) -/
def Projects (d : Def) (name : String) (isMut : Bool) (variant : Option String) (fs : List (String × V))
    (t : List String × Mode) : Prop :=
  ∃ fn orc tl v, method d.E name = some fn ∧
    (callFn orc tl fn (.fv (.pinRef isMut ⟨0, none⟩)) [] (solo (flatObj 0 variant fs))).1 = some v ∧
    t ∈ v.refs

/-- The references safe code can derive from a reference of kind `k₀` to `G`. -/
inductive Deriv (U : Universe) (w : World) (G : GLoc) (k₀ : Mode) : GLoc → Mode → Prop
  | refl : Deriv U w G k₀ G k₀
  /-- `&mut x.f`, `&x.f` -/
  | field {L : GLoc} {k : Mode} {id : Id} {ty : Ty} {variant : Option String} {fs : List (String × V)} {f : String} :
      Deriv U w G k₀ L k → k = .excl ∨ k = .shr → w.at L = some (.node id ty variant fs) →
      f ∈ fs.map Prod.fst → Deriv U w G k₀ (L.sub [f]) k
  /-- `x.project()` -/
  | project {L : GLoc} {id : Id} {ty : Ty} {variant : Option String} {fs : List (String × V)} {d : Def}
      {args : List TArg} {t : List String × Mode} :
      Deriv U w G k₀ L .pinExcl → w.at L = some (.node id ty variant fs) → U.def? ty = some (d, args) →
      Projects d "project" true variant fs t → Deriv U w G k₀ (L.sub t.1) t.2
  /-- `x.project_ref()` -/
  | projectRef {L : GLoc} {id : Id} {ty : Ty} {variant : Option String} {fs : List (String × V)} {d : Def}
      {args : List TArg} {t : List String × Mode} :
      Deriv U w G k₀ L .pinShr → w.at L = some (.node id ty variant fs) → U.def? ty = some (d, args) →
      Projects d "project_ref" false variant fs t → Deriv U w G k₀ (L.sub t.1) t.2
  /-- `Option::as_pin_mut`, `Option::as_pin_ref` and the like -/
  | part {L : GLoc} {k : Mode} {id : Id} {ty : Ty} {variant : Option String} {fs : List (String × V)} {f : String} :
      Deriv U w G k₀ L k → k = .pinExcl ∨ k = .pinShr → w.at L = some (.node id ty variant fs) →
      U.structural ty → f ∈ fs.map Prod.fst → Deriv U w G k₀ (L.sub [f]) k
  /-- interior mutability -/
  | cell {L : GLoc} {id : Id} {ty : Ty} {variant : Option String} {fs : List (String × V)} {f : String} :
      Deriv U w G k₀ L .shr → w.at L = some (.node id ty variant fs) → U.Plain ty →
      f ∈ fs.map Prod.fst → Deriv U w G k₀ (L.sub [f]) .excl
  /-- `Pin::get_mut` -/
  | getMut {L : GLoc} {v : V} : Deriv U w G k₀ L .pinExcl → w.at L = some v → U.F.unpin v.ty → Deriv U w G k₀ L .excl
  /-- `Pin::new(&mut x)` -/
  | pinNew {L : GLoc} {v : V} : Deriv U w G k₀ L .excl → w.at L = some v → U.F.unpin v.ty → Deriv U w G k₀ L .pinExcl
  /-- `Pin::new(&x)` -/
  | pinNewRef {L : GLoc} {v : V} : Deriv U w G k₀ L .shr → w.at L = some v → U.F.unpin v.ty → Deriv U w G k₀ L .pinShr
  /-- `Pin::as_ref` -/
  | asRef {L : GLoc} : Deriv U w G k₀ L .pinExcl → Deriv U w G k₀ L .pinShr
  /-- `Pin::get_ref` -/
  | getRef {L : GLoc} : Deriv U w G k₀ L .pinShr → Deriv U w G k₀ L .shr
  /-- `&*x` -/
  | share {L : GLoc} : Deriv U w G k₀ L .excl → Deriv U w G k₀ L .shr

/-- What remains to be done. -/
inductive Instr
  /-- run user code that was given these references -/
  | code (gs : List (GLoc × Mode))
  /-- run the destructor of the value at `L` -/
  | destroy (L : GLoc)
  /-- run the destructors of the parts of the value at `L` -/
  | fields (L : GLoc)
  /-- overwrite `L` -/
  | store (L : GLoc) (v : V)
  /-- free the root -/
  | free (r : Nat)
  /-- put the value into a new variable -/
  | place (v : V)
  /-- drop the value -/
  | discard (v : V)

/-- The locations a pending operation uses. -/
def Instr.locs : Instr → List GLoc
  | .code gs => gs.map Prod.fst
  | .destroy L => [L]
  | .fields L => [L]
  | .store L _ => [L]
  | .free r => [⟨r, []⟩]
  | .place _ => []
  | .discard _ => []

/-- The values a pending operation holds. -/
def Instr.vals : Instr → List V
  | .store _ v => [v]
  | .place v => [v]
  | .discard v => [v]
  | _ => []

/-- The roots used by pending operations. -/
def busyRoots (todo : List Instr) : List Nat := todo.flatMap (fun i => i.locs.map GLoc.root)

/-- The memory, and what remains to be done. -/
structure Config where
  w : World
  todo : List Instr

/-- The kind of reference one can make to a root. -/
def Slot.mode (x : Slot) : Mode := if x.pinned then .pinExcl else .excl

/-- These operations do not concern `L`. -/
def Clear (is : List Instr) (L : GLoc) : Prop := ∀ i ∈ is, ∀ N ∈ i.locs, N.Disjoint L

/-- The running code can have a reference of kind `k` to `L`: derived from a root, or from a reference
given to a destructor that has not ended; and not in conflict with operations begun later. -/
inductive Usable (U : Universe) (w : World) (todo : List Instr) (L : GLoc) (k : Mode) : Prop
  | root {r : Nat} {x : Slot} : w.roots r = some x → Deriv U w ⟨r, []⟩ x.mode L k → Clear todo L → Usable U w todo L k
  | given {pre post : List Instr} {gs : List (GLoc × Mode)} {g : GLoc × Mode} : todo = pre ++ .code gs :: post →
      g ∈ gs → Deriv U w g.1 g.2 L k → Clear pre L → Usable U w todo L k

/-- Is a destructor of `L` running? -/
def dropping (L : GLoc) (todo : List Instr) : Prop := .fields L ∈ todo

open Classical in
/-- The values put into `L` by its own destructor. -/
noncomputable def lateEvents (L : GLoc) (v : V) (todo : List Instr) : List PEvent :=
  if dropping L todo then v.id?.toList.map (fun id => .late id L) else []

open Classical in
/-- The values moved out of `L` by its own destructor. -/
noncomputable def escapeEvents (L : GLoc) (v : V) (todo : List Instr) : List PEvent :=
  if dropping L todo then v.id?.toList.map (fun id => .escape id L) else []

/-- A value read from memory or handed over, by its number in generated code. -/
def tableGet (tab : List V) (i : Id) : V := tab.getD i default

/-- What an event of generated code, running on the value at `L`, means in the machine. `newId` and `newTy`
belong to the value that is written. (what src/lib.rs:318-349 and derive.rs:881 do) -/
def instrsOf (L : GLoc) (tab : List V) (newId : Id) (newTy : Ty) : Event → List Instr
  | .drop _ (some ⟨0, f⟩) => [.destroy (L.sub f.toList)]
  | .drop i none => [.discard (tableGet tab i)]
  | .write 0 o => [.store L (.node newId newTy o.variant (o.fields.map (fun x => (x.1, tableGet tab x.2))))]
  | .pinnedDrop 0 => [.code [(L, .pinExcl)]]
  | _ => []

/-- The number of a value that is dropped elsewhere. -/
def Event.elsewhere : Event → Option Id
  | .drop i none => some i
  | _ => none

/-- The numbers of the values that left place 0: handed back or dropped elsewhere. (derive.rs:626, 672) -/
def movedOut (r : Option Val × M) : List Id :=
  r.1.toList.flatMap Val.ids ++ r.2.trace.filterMap Event.elsewhere

/-- The parts of a value after some were moved out. -/
def punch (moved : List Id) (fs : List (String × V)) : List (String × V) :=
  fs.mapIdx (fun i f => (f.1, if i ∈ moved then .hole f.2.ty else f.2))

/-- The events of the `Drop` impl, if the expansion has one, for the value at place 0. (derive.rs:868-884) -/
def dropEvents (d : Def) (orc : Oracle) (tl : Bool) (variant : Option String) (fs : List (String × V)) : List Event :=
  match dropFn d.E with
  | none => []
  | some f => (callFn orc tl f (.fv (.ref true ⟨0, none⟩)) [] (solo (flatObj 0 variant fs))).2.trace

/-- Move the values of some owned roots into a new value. -/
def World.take (w : World) (rs : List Nat) : World :=
  { w with roots := fun q => if q ∈ rs then none else w.roots q }

/-- One step of user code. -/
inductive Op (U : Universe) (todo : List Instr) : World → World → List Instr → Prop
  /-- make a value out of owned ones (or out of nothing), in a new variable -/
  | build {w : World} (r : Nat) (id : Id) (ty : Ty) (variant : Option String) (parts : List (String × Nat × V)) :
      w.roots r = none → id ∉ w.used → (parts.map (·.2.1)).Nodup →
      (∀ x ∈ parts, w.roots x.2.1 = some ⟨false, x.2.2⟩ ∧ x.2.1 ∉ busyRoots todo) →
      NodeOk U (.node id ty variant (parts.map (fun x => (x.1, x.2.2)))) →
      Op U todo w
        { (w.take (parts.map (·.2.1))).setRoot r
            (some ⟨false, .node id ty variant (parts.map (fun x => (x.1, x.2.2)))⟩) with used := id :: w.used } []
  /-- move -/
  | move {w : World} (r q : Nat) (v : V) : w.roots r = some ⟨false, v⟩ → r ∉ busyRoots todo →
      w.roots q = none → Op U todo w ((w.setRoot r none).setRoot q (some ⟨false, v⟩)) []
  /-- `pin!(x)`, `Box::into_pin` -/
  | pin {w : World} (r : Nat) (v : V) : w.roots r = some ⟨false, v⟩ → r ∉ busyRoots todo →
      Op U todo w (w.setRoot r (some ⟨true, v⟩)) []
  /-- `Pin::into_inner` -/
  | unpin {w : World} (r : Nat) (v : V) : w.roots r = some ⟨true, v⟩ → r ∉ busyRoots todo →
      U.F.unpin v.ty → Op U todo w (w.setRoot r (some ⟨false, v⟩)) []
  /-- hand a pinned reference to any code -/
  | expose {w : World} (L : GLoc) (k : Mode) (id : Id) (ty : Ty) (variant : Option String) (fs : List (String × V)) :
      Usable U w todo L k → k = .pinExcl ∨ k = .pinShr →
      w.at L = some (.node id ty variant fs) → Op U todo w (w.log [.expose id ty L]) []
  /-- `mem::swap` (and `mem::replace`, with a local variable) -/
  | swap {w : World} (X Y : GLoc) (u v : V) :
      Usable U w todo X .excl → Usable U w todo Y .excl →
      X.Disjoint Y → w.at X = some u → w.at Y = some v → u.ty = v.ty →
      Op U todo w (((w.put X v).put Y u).log
        (escapeEvents X u todo ++ escapeEvents Y v todo ++ (lateEvents X v todo ++ lateEvents Y u todo))) []
  /-- `*x = new`, `Pin::set` -/
  | set {w : World} (X : GLoc) (k : Mode) (u : V) (r : Nat) (new : V) :
      Usable U w todo X k → k = .excl ∨ k = .pinExcl → w.at X = some u →
      w.roots r = some ⟨false, new⟩ → r ∉ busyRoots todo → r ≠ X.root → new.ty = u.ty →
      Op U todo w (w.setRoot r none) [.destroy X, .store X new]
  /-- `x.project_replace(new)`. A call that ends in an abort is, up to that point, also the beginning of
  a call that does not. -/
  | replace {w : World} (L : GLoc) (id : Id) (ty : Ty) (variant : Option String) (fs : List (String × V))
      (d : Def) (args : List TArg) (fn : GFn) (r : Nat) (id' : Id) (variant' : Option String)
      (fs' : List (String × V)) (orc : Oracle) (tl : Bool) (res : Option Val × M) :
      Usable U w todo L .pinExcl → w.at L = some (.node id ty variant fs) →
      U.def? ty = some (d, args) → method d.E "project_replace" = some fn →
      w.roots r = some ⟨false, .node id' ty variant' fs'⟩ → r ∉ busyRoots todo → r ≠ L.root →
      callFn orc tl fn (.fv (.pinRef true ⟨0, none⟩)) [.obj (flatObj fs.length variant' fs')]
        (solo (flatObj 0 variant fs)) = res →
      res.2.status ≠ .abort →
      Op U todo w
        (((w.setRoot r none).put L (.node id ty variant (punch (movedOut res) fs))).log [.taken id L])
        (res.2.trace.flatMap (instrsOf L ((fs ++ fs').map Prod.snd) id' ty) ++
          (res.1.toList.flatMap Val.ids).map (fun i => .place (tableGet ((fs ++ fs').map Prod.snd) i)))
  /-- drop -/
  | drop {w : World} (r : Nat) (x : Slot) : w.roots r = some x → r ∉ busyRoots todo →
      Op U todo w w [.destroy ⟨r, []⟩, .free r]
  /-- `mem::forget` of a value that is not pinned -/
  | forget {w : World} (r : Nat) (v : V) : w.roots r = some ⟨false, v⟩ → r ∉ busyRoots todo →
      Op U todo w ((w.setRoot r none).log (v.ids.map .forgot)) []
  /-- move all parts out (an annotated type must not have a `Drop` impl) -/
  | destructure {w : World} (r : Nat) (id : Id) (ty : Ty) (variant : Option String) (fs : List (String × V)) :
      w.roots r = some ⟨false, .node id ty variant fs⟩ → r ∉ busyRoots todo →
      (∀ d args, U.def? ty = some (d, args) → dropFn d.E = none) →
      Op U todo w ((w.setRoot r none).log [.forgot id]) (fs.map (fun f => .place f.2))

/-- One step of the machine. -/
inductive CStep (U : Universe) : Config → Config → Prop
  /-- user code, in any thread, as long as there is any -/
  | op {w w' : World} {gs : List (GLoc × Mode)} {todo is : List Instr} : .code gs ∈ todo → Op U todo w w' is →
      CStep U ⟨w, todo⟩ ⟨w', is ++ todo⟩
  /-- it is the turn of another thread: an operation goes on that has no memory in common with those before it -/
  | sched {w : World} {pre post : List Instr} {i : Instr} : (∀ M ∈ i.locs, Clear pre M) →
      CStep U ⟨w, pre ++ i :: post⟩ ⟨w, i :: (pre ++ post)⟩
  /-- user code ends, or is left because of a panic -/
  | ret {w : World} {gs : List (GLoc × Mode)} {rest : List Instr} : CStep U ⟨w, .code gs :: rest⟩ ⟨w, rest⟩
  /-- a type with a `Drop::drop(&mut self)` written by the user: that, then the fields. Types that are not
  annotated may have one, whether we know of it or not. -/
  | destroyPlain {w : World} {L : GLoc} {id : Id} {ty : Ty} {variant : Option String} {fs : List (String × V)}
      {rest : List Instr} : w.at L = some (.node id ty variant fs) → U.Plain ty ∨ U.UserDrop ty → ¬ U.structural ty →
      CStep U ⟨w, .destroy L :: rest⟩ ⟨w.log [.dtor id L], .code [(L, .excl)] :: .fields L :: rest⟩
  /-- an annotated type: the generated `Drop::drop`, if there is one, then the fields -/
  | destroyAnnotated {w : World} {L : GLoc} {id : Id} {ty : Ty} {variant : Option String} {fs : List (String × V)}
      {d : Def} {args : List TArg} {orc : Oracle} {tl : Bool} {rest : List Instr} :
      w.at L = some (.node id ty variant fs) → U.def? ty = some (d, args) →
      CStep U ⟨w, .destroy L :: rest⟩
        ⟨w.log [.dtor id L],
          (dropEvents d orc tl variant fs).flatMap (instrsOf L (fs.map Prod.snd) id ty) ++ .fields L :: rest⟩
  /-- a structural type: its destructor treats the value as pinned -/
  | destroyStructural {w : World} {L : GLoc} {id : Id} {ty : Ty} {variant : Option String} {fs : List (String × V)}
      {rest : List Instr} : w.at L = some (.node id ty variant fs) → U.structural ty →
      CStep U ⟨w, .destroy L :: rest⟩ ⟨w.log [.dtor id L], .code [(L, .pinExcl)] :: .fields L :: rest⟩
  /-- the fields of a packed type are moved to an aligned location before they are dropped -/
  | fieldsPacked {w : World} {L : GLoc} {id : Id} {ty : Ty} {variant : Option String} {fs : List (String × V)}
      {d : Def} {args : List TArg} {rest : List Instr} : w.at L = some (.node id ty variant fs) →
      U.def? ty = some (d, args) → AsksForPacked (itemAttrs d.item) →
      CStep U ⟨w, .fields L :: rest⟩
        ⟨w.put L (.node id ty variant (fs.map (fun f => (f.1, .hole f.2.ty)))), fs.map (fun f => .discard f.2) ++ rest⟩
  | fields {w : World} {L : GLoc} {id : Id} {ty : Ty} {variant : Option String} {fs : List (String × V)}
      {rest : List Instr} : w.at L = some (.node id ty variant fs) →
      CStep U ⟨w, .fields L :: rest⟩ ⟨w, fs.map (fun f => .destroy (L.sub [f.1])) ++ rest⟩
  /-- nothing is dropped where the value was moved out -/
  | destroyHole {w : World} {L : GLoc} {ty : Ty} {rest : List Instr} : w.at L = some (.hole ty) →
      CStep U ⟨w, .destroy L :: rest⟩ ⟨w, rest⟩
  | fieldsHole {w : World} {L : GLoc} {ty : Ty} {rest : List Instr} : w.at L = some (.hole ty) →
      CStep U ⟨w, .fields L :: rest⟩ ⟨w, rest⟩
  | store {w : World} {L : GLoc} {u v : V} {rest : List Instr} : w.at L = some u → u.ty = v.ty →
      CStep U ⟨w, .store L v :: rest⟩ ⟨(w.put L v).log (lateEvents L v rest), rest⟩
  | free {w : World} {r : Nat} {rest : List Instr} : CStep U ⟨w, .free r :: rest⟩ ⟨w.setRoot r none, rest⟩
  | place {w : World} {v : V} {r : Nat} {rest : List Instr} : w.roots r = none →
      CStep U ⟨w, .place v :: rest⟩ ⟨w.setRoot r (some ⟨false, v⟩), rest⟩
  | discard {w : World} {v : V} {r : Nat} {rest : List Instr} : w.roots r = none →
      CStep U ⟨w, .discard v :: rest⟩ ⟨w.setRoot r (some ⟨false, v⟩), .destroy ⟨r, []⟩ :: .free r :: rest⟩

/-- The program starts. -/
def Config.init : Config := ⟨⟨fun _ => none, [], []⟩, [.code []]⟩

/-- The states a program can reach. -/
inductive Reachable (U : Universe) : Config → Prop
  | init : Reachable U .init
  | step {c c' : Config} : Reachable U c → CStep U c c' → Reachable U c'

end PinProject

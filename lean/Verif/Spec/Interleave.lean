import Verif.Spec.Borrow
/-!
# Specification: calls at the same time, and the aliasing rules

The aliasing rules also apply to threads: what they do to a byte happens in some order, and each access, each new reference
and each end of a protected one must be allowed at that moment. A call and the uses of its result are one *strand*. What a
strand does to a byte is recorded by running the machine of `Sem/Borrow.lean` with memory that only makes a list. The
strands then take turns, one step at a time.
-/
namespace PinProject.Spec

/-- A step that concerns the byte. -/
inductive MemEv
  | access (write : Bool) (t : Nat)
  /-- the pointer `new` is made from `t` -/
  | make (p : BPerm) (t new : Nat)
  /-- the function returns whose parameter was `t` -/
  | release (t : Nat)
  deriving DecidableEq, Repr

/-- Memory that records the steps, the last one first. -/
abbrev traced : AliasModel where
  St := List MemEv
  access _ write t es := some (.access write t :: es)
  retagAccess _ _ := none
  push p t new es := .make p t new :: es
  release _ t es := some (.release t :: es)
  valid _ _ := True

/-- A use of the `u.1`-th reference in `fields`, if there is one and the compiler accepts the use. -/
def chosen (fields : List (String × BFVal)) (u : Nat × Bool) : Option PtrUse :=
  match fields[u.1]? with
  | some (_, v) =>
    match pointer v with
    | some (m, _, _) => if u.2 && !m then none else some ⟨v, u.2⟩
    | none => none
  | none => none

/-- What the user's destructors do, and the uses of the references that are returned. -/
structure Strand where
  panics : BOracle
  tailLeak : Bool
  uses : List (Nat × Bool)

/-- The steps of a strand. Its own name for the reference it calls the function with is `0`; the others are made by itself. -/
def Strand.steps (b : Byte) (fn : GFn) (o : Shape) (s : Strand) : List MemEv :=
  match bCallFn (A := traced) b s.panics s.tailLeak fn o 0 { mem := [], next := 1 } with
  | (some (.adt fields), σ) => (useAll b (s.uses.filterMap (chosen fields)) σ).mem.reverse
  | (_, σ) => σ.mem.reverse

variable (A : AliasModel)

/-- Strands that run at the same time: the byte, the next pointer, the pointers the strands have made, what each strand will
still do, and the pointer each strand means by one of its own names. -/
structure Pool where
  mem : A.St
  next : Nat
  made : List Nat := []
  todo : Nat → List MemEv
  names : Nat → Nat → Nat

variable {A}

/-- The access that making the pointer `new` from `t` counts as. -/
def makeAccess (A : AliasModel) (prot : List Nat) (p : BPerm) (t new : Nat) (m : A.St) : Option A.St :=
  match A.retagAccess p new with
  | some w => A.access prot w t m
  | none => some m

/-- The next step of the strand `i`, while the pointers in `prot` are protected. `none` is undefined behaviour. -/
def Pool.step (prot : List Nat) (i : Nat) (s : Pool A) : Option (Pool A) :=
  match s.todo i with
  | [] => some s
  | e :: rest =>
    let s' := { s with todo := fun j => if j = i then rest else s.todo j }
    match e with
    | .access w t => (A.access prot w (s.names i t) s.mem).map (fun m => { s' with mem := m })
    | .release t => (A.release prot (s.names i t) s.mem).map (fun m => { s' with mem := m })
    | .make p t new =>
      (makeAccess A prot p (s.names i t) s.next s.mem).map (fun m =>
        { s' with
          mem := A.push p (s.names i t) s.next m
          next := s.next + 1
          made := s.next :: s.made
          names := fun j k => if j = i ∧ k = new then s.next else s.names j k })

/-- The protected pointers at a moment: those that are protected all the time, and any of those the strands have made. -/
structure Protected (P0 : List Nat) (s : Pool A) (prot : List Nat) : Prop where
  all : ∀ k ∈ P0, k ∈ prot
  only : ∀ k ∈ prot, k ∈ P0 ∨ k ∈ s.made

/-- The states that can be reached, with any schedule. -/
inductive Reached (P0 : List Nat) (s0 : Pool A) : Pool A → Prop
  | start : Reached P0 s0 s0
  | step {s s' : Pool A} {prot : List Nat} {i : Nat} : Reached P0 s0 s → Protected P0 s prot → s.step prot i = some s' →
      Reached P0 s0 s'

/-- At the start all strands have the same reference `t0`. -/
def Pool.start (σ : B A) (t0 : Nat) (steps : Nat → List MemEv) : Pool A where
  mem := σ.mem
  next := σ.next
  todo := steps
  names := fun _ _ => t0

end PinProject.Spec

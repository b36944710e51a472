import Verif.Spec.Bounds
import Verif.Spec.Projection
/-!
# Specification: which function a method call reaches

The rules of Rust for `x.name(..)`: the types that `x` can be dereferenced to are tried in order, each by value, then
by `&`, then by `&mut`. For each of them methods from `impl T { .. }` go before those of traits. The methods from
`impl T { .. }` are those of all types `x` can be dereferenced to, for example for an `x` of type
`Pin<&mut S>` those of `Pin` and of `S`. If more than one of them takes the type at hand, the call is an error.

These rules know nothing about pin-project. Methods that are not visible at the call are left out.
-/
namespace PinProject.Spec

/-- Types of the receivers of methods. -/
inductive RTy
  /-- the annotated type -/
  | self_
  | ref (isMut : Bool) (t : RTy)
  /-- `Pin<&[mut] T>` -/
  | pin (isMut : Bool) (t : RTy)
  /-- any other type -/
  | other (n : Nat)
  deriving DecidableEq

/-- Who has defined a method. -/
inductive DefinedBy
  /-- `impl Pin { .. }` in `core` -/
  | pin
  /-- the macro -/
  | generated
  /-- anyone else -/
  | user
  deriving DecidableEq

structure Method where
  name : String
  /-- defined in `impl T { .. }`, not in a trait -/
  inherent : Bool
  /-- the types that its parameter `self` can have -/
  takes : RTy → Bool
  origin : DefinedBy

/-- What becomes of a method call. -/
inductive Call
  | calls (m : Method)
  /-- "multiple applicable items in scope" -/
  | ambiguous
  | notFound

/-- Look at methods that could be meant; if there are none, go on with `next`. -/
def choose (ms : List Method) (next : Call) : Call :=
  match ms with
  | [] => next
  | [m] => .calls m
  | _ => .ambiguous

/-- Try the types in order. -/
def probe (ms : List Method) (name : String) : List RTy → Call
  | [] => .notFound
  | t :: ts =>
    choose (ms.filter (fun m => m.name == name && m.inherent && m.takes t))
      (choose (ms.filter (fun m => m.name == name && !m.inherent && m.takes t)) (probe ms name ts))

/-- `x.name()` for an `x` that can be dereferenced to these types, the first of which is its own. -/
def methodCall (ms : List Method) (name : String) (types : List RTy) : Call :=
  probe ms name (types.flatMap (fun t => [t, .ref false t, .ref true t]))

def RTy.isPin (b : Bool) : RTy → Bool
  | .pin b' _ => b == b'
  | _ => false

/-- The methods of `Pin` whose parameter is `self`, and some with `&self` or `&mut self`, core::pin. -/
def pinMethods : List Method :=
  [⟨"get_ref", true, RTy.isPin false, .pin⟩,
   ⟨"get_mut", true, RTy.isPin true, .pin⟩,
   ⟨"get_unchecked_mut", true, RTy.isPin true, .pin⟩,
   ⟨"into_ref", true, RTy.isPin true, .pin⟩,
   ⟨"map_unchecked", true, RTy.isPin false, .pin⟩,
   ⟨"map_unchecked_mut", true, RTy.isPin true, .pin⟩,
   ⟨"as_ref", true, fun t => match t with | .ref false (.pin _ _) => true | _ => false, .pin⟩,
   ⟨"as_mut", true, fun t => match t with | .ref true (.pin _ _) => true | _ => false, .pin⟩,
   ⟨"set", true, fun t => match t with | .ref true (.pin true _) => true | _ => false, .pin⟩]

/-! ## Calls in generated functions -/

/-- The calls of the form `x.name()` in an expression: `x` and `name`. -/
def rhsCalls : RHS → List (String × String)
  | .getUncheckedMut x => [(x, "get_unchecked_mut")]
  | .getRef x => [(x, "get_ref")]
  | _ => []

def stmtCalls : GStmt → List (String × String)
  | .letPat _ e => rhsCalls e
  | .letVar _ _ e => rhsCalls e
  | .scope ss => ss.flatMap (fun s => rhsCalls s.2)
  | .expr e => rhsCalls e

def tailCalls : GTail → List (String × String)
  | .expr e => rhsCalls e
  | .match_ e arms => rhsCalls e ++ arms.flatMap (fun a => a.stmts.flatMap stmtCalls ++ rhsCalls a.tail)

def fnCalls (fn : GFn) : List (String × String) := fn.body.stmts.flatMap stmtCalls ++ tailCalls fn.body.tail

/-- The type of `self` in a function. -/
def selfParam (fn : GFn) : Option RTy :=
  match fn.recv with
  | .pin _ (.ref _ b .selfTy) => some (.pin b .self_)
  | .ref _ b .selfTy => some (.ref b .self_)
  | _ => none

/-- The methods of the annotated type that are generated. -/
def generatedMethods (E : Expansion) : List Method :=
  ((allItems E).flatMap inherentFns).map (fun fn => ⟨fn.name, true, fun t => selfParam fn == some t, .generated⟩)

/-- The type of `self` in a projection: `Pin<&Self>` for `project_ref`, `Pin<&mut Self>` for the others. -/
def receiverOf (mode : Mode) : RTy := .pin (decide (mode ≠ .projRef)) .self_

end PinProject.Spec

import Verif.Sem.Borrow
/-!
# When do the two machines do the same?

`Sem/Eval.lean` and `Sem/Borrow.lean` run the same language; here is what it means that they agree.
-/
namespace PinProject
namespace Spec

/-- How many destructors were called (including the user's `PinnedDrop::drop`)? -/
def dtorCount : List Event → Nat
  | [] => 0
  | .write _ _ :: es => dtorCount es
  | _ :: es => dtorCount es + 1

/-- The way a call ends, in the second machine. -/
def tagged : Status → BStatus
  | .run => .run
  | .unwind => .unwind
  | .abort => .abort
  | .stuck => .stuck

/-- The value has the shape: the variant, and the names of the fields. -/
structure HasShape (o : Shape) (x : Obj) : Prop where
  variant : x.variant = o.variant
  labels : x.fields.map Prod.fst = o.labels

/-- Values of fields that are the same but for the tags: references to the same place. -/
def SameField (p : Nat) : FVal → BFVal → Prop
  | .ref m l, .ref m' f _ => m = m' ∧ l = ⟨p, f⟩
  | .pinRef m l, .pinRef m' f _ => m = m' ∧ l = ⟨p, f⟩
  | .own _, .own => True
  | .phantom, .phantom => True
  | _, _ => False

/-- The same fields in the same order. -/
def SameFields (p : Nat) : List (String × FVal) → List (String × BFVal) → Prop
  | [], [] => True
  | (x, v) :: fs, (y, w) :: gs => x = y ∧ SameField p v w ∧ SameFields p fs gs
  | _, _ => False

/-- The same values, but for the tags. The second machine does not know which owned values it handles. -/
def SameVal (p : Nat) (o : Shape) : Val → BVal → Prop
  | .unit, .unit => True
  | .fv v, .fv w => SameField p v w
  | .ptr l, .ptr f _ => l = ⟨p, f⟩
  | .obj x, .obj n => x.fields.length = n ∧ HasShape o x
  | .adt _ _ fs, .adt gs => SameFields p fs gs
  | .owGuard l x, .owGuard f _ => l = ⟨p, f⟩ ∧ HasShape o x
  | .diGuard l, .diGuard f _ => l = ⟨p, f⟩
  | _, _ => False

/-- A value was returned by both machines, or by none. -/
def SameResult (p : Nat) (o : Shape) : Option Val → Option BVal → Prop
  | none, none => True
  | some v, some w => SameVal p o v w
  | _, _ => False

/-- Destructors panic in the same cases: it depends on how many have been called, `k` of them before the first machine
started to count. -/
def SameOracle (orc : Oracle) (panics : BOracle) (k : Nat) : Prop := ∀ tr e, orc tr e = panics (k + dtorCount tr)

/-- The machines agree about a call: how it ended, how many destructors were called, and what it returned. -/
structure SameCall {A : AliasModel} (p : Nat) (o : Shape) (k : Nat) (r : Option Val × M) (s : Option BVal × B A) : Prop where
  status : s.2.status = tagged r.2.status
  dtors : s.2.dtors = k + dtorCount r.2.trace
  value : SameResult p o r.1 s.1

/-- References to the value at `p`. -/
def IsRefTo (p : Nat) : Val → Prop
  | .fv (.ref _ l) => l = ⟨p, none⟩
  | .fv (.pinRef _ l) => l = ⟨p, none⟩
  | _ => False

end Spec
end PinProject

import Verif.Spec.Args
import Verif.Spec.Types
/-!
# Specification: what an argument is about

Every argument of `#[pin_project(..)]` is about one thing: one of the three projections, `Unpin`, or `Drop`.
-/
namespace PinProject.Spec

inductive Topic
  | projection (mode : Mode)
  | unpin
  | drop
  deriving DecidableEq

def Arg.topic : Arg → Topic
  | .pinnedDrop => .drop
  | .unsafeUnpin | .notUnpin => .unpin
  | .project _ => .projection .proj
  | .projectRef _ => .projection .projRef
  | .projectReplace | .projectReplaceNamed _ => .projection .replace

/-- Two lists of arguments say the same about a topic. -/
def AgreeOn (t : Topic) (as as' : List Arg) : Prop := ∀ a : Arg, a.topic = t → (a ∈ as ↔ a ∈ as')

/-- The same struct or enum, but for the attributes in front of it. -/
def SameDefinition : Item → Item → Prop
  | .struct_ s, .struct_ s' => s.vis = s'.vis ∧ s.ident = s'.ident ∧ s.generics = s'.generics ∧ s.fields = s'.fields
  | .enum_ e, .enum_ e' => e.vis = e'.vis ∧ e.ident = e'.ident ∧ e.generics = e'.generics ∧ e.variants = e'.variants
  | _, _ => False

/-- An impl of `Unpin` or `UnsafeUnpin`. -/
def unpinItem : GItem → Bool
  | .traitImpl _ _ _ tr _ _ _ _ => tr == .unpin || tr == .unsafeUnpin
  | _ => false

/-- An impl of `Drop` or `PinnedDrop`, or one of the items by which a user's impl of `Drop` becomes an error. -/
def dropItem : GItem → Bool
  | .traitImpl _ _ _ tr _ _ _ _ => !(tr == .unpin || tr == .unsafeUnpin)
  | .traitDef _ | .blanketDrop _ => true
  | _ => false

/-- The function by which references to fields of packed structs become errors. -/
def packedItem : GItem → Bool
  | .assertNotPacked .. => true
  | _ => false

/-- The impl of the projection methods, without the methods. -/
def inherentHeader : GItem → Option (List GParam × String × List GArg × List WPred)
  | .inherent ps n as ws _ => some (ps, n, as, ws)
  | _ => none

/-- The helper type that the last bound of an impl mentions (the bounds before it are the user's). -/
def helper? : GItem → Option String
  | .traitImpl _ _ _ _ _ _ ws _ =>
    match ws.getLast? with
    | some (.bound (.pinnedFieldsOf (.adt n _)) _) => some n
    | _ => none
  | _ => none

/-- The item defines the type `n`. -/
def DefinesType (n : String) (i : GItem) : Prop := ∃ d, asTypeDef i = some d ∧ d.name = n

end PinProject.Spec

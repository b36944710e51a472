import Verif.Spec.Grammar
import Verif.Spec.Tree
/-!
# Specification: where the tokens of the expansion come from

The words of the definition and of the arguments of the attribute, and the names that are made from the name of the
type.
-/
namespace PinProject.Spec

/-- The words of a visibility: its path. -/
def visWords : Vis → List String
  | .restricted _ p => p.segs
  | _ => []

/-- The words of a generic parameter. In the arguments of a macro call, a lifetime is two tokens. -/
def paramWords : GParam → List String
  | .lifetime n bs => n :: String.ofList n.toList.tail :: bs
  | .type n bs d => n :: (bs ++ d.toList).flatMap Emit.node
  | .const n t d => n :: (t :: d.toList).flatMap Emit.node

def predWords : WPred → List String
  | .user n => Emit.node n
  | _ => []

def fieldWords (f : Field) : List String := visWords f.vis ++ f.ident.toList ++ Emit.node f.ty

/-- All words of the definition, apart from its attributes. -/
def definitionWords (item : Item) : List String :=
  (itemName item).toList ++ visWords (itemVis item) ++ (itemGenerics item).params.flatMap paramWords ++
    (itemGenerics item).preds.flatMap predWords ++
    (itemVariants item).flatMap (fun v => v.1.toList ++ v.2.list.flatMap fieldWords)

/-- What stands between the words: punctuation, and keywords of visibilities and parameters (`pub(crate)` is made from
`pub`). -/
def marks : List String :=
  ["::", ":", ",", "+", "=", "<", ">", "(", ")", "'", "const", "pub", "in", "crate"]

/-- The names that are made from the name of the type, without `r#`. -/
def madeFrom (name : String) : List String :=
  ["__" ++ unraw name, "__" ++ unraw name ++ "Projection", "__" ++ unraw name ++ "ProjectionRef",
   "__" ++ unraw name ++ "ProjectionOwned", unraw name ++ "MustNotImplDrop"]

/-- What a token that is attributed to the user may be. -/
inductive FromUser (item : Item) : String → Prop
  | mark {t} : t ∈ marks → FromUser item t
  | word {t} : t ∈ definitionWords item → FromUser item t
  /-- a name in the arguments of `#[pin_project(..)]` -/
  | arg {t} : InArgs item t → Identifier t → FromUser item t
  | made {n t} : itemName item = some n → t ∈ madeFrom n → FromUser item t
  /-- `self`, in places where it does not compile (C43) -/
  | self_ : "self" ∈ definitionWords item → FromUser item "__self"

/-- The attribute has an argument with this span; all macros have a call site. -/
def SpanGiven (args : List Arg) : Span → Prop
  | .site => True
  | .pinnedDrop => .pinnedDrop ∈ args
  | .unpin => .unsafeUnpin ∈ args ∨ .notUnpin ∈ args
  | .replace => Kind.projectReplace ∈ args.map Arg.kind

/-- The arguments of `#[pin_project(..)]`, which the derive macro gets in `#[pin(__private(..))]`. -/
def ArgsOf (item : Item) (args : List Arg) : Prop :=
  ∃ a ∈ itemAttrs item, ∃ p d ts, a.m = .list p d [.ident "__private", .group .paren ts] ∧ ArgsToks args ts

/-- Where a token comes from. A lifetime that the macro adds is not one of the definition. -/
def Origin (item : Item) (args : List Arg) : ETok → Prop
  | .user t => FromUser item t
  | .word _ s | .punct _ s | .lit _ s | .attr _ _ s => SpanGiven args s
  | .life l s => ¬ GenericsDeclare (itemGenerics item) l ∧ SpanGiven args s

end PinProject.Spec

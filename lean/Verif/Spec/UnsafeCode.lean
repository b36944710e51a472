import Verif.Spec.Provenance
/-!
# Specification: code in an `unsafe` context

A reader that follows the keywords and braces of the macro's templates. The tokens of the user do not matter to it: what they
write is a list of complete types, names or statements.
-/
namespace PinProject.Spec

/-- Where the reader is: the blocks around, with whether unsafe operations are allowed in them, and whether they will be allowed
in the next block, if this is known. -/
structure Spot where
  blocks : List Bool
  next : Option Bool := none
deriving DecidableEq

/-- Outside of everything. -/
def Spot.start : Spot := { blocks := [] }

/-- `unsafe {` and `unsafe fn .. {` allow unsafe operations, the body of another function and of an `impl` does not, and other
braces change nothing. -/
def Spot.step (p : Spot) : ETok → Spot
  | .word w _ =>
    if w = "unsafe" then { p with next := some true }
    else if w = "fn" then { p with next := some (p.next == some true) }
    else if w = "impl" then { p with next := some false }
    else p
  | .punct c _ =>
    if c = "{" then { blocks := p.next.getD (p.blocks.head? == some true) :: p.blocks }
    else if c = "}" then { blocks := p.blocks.tail }
    else p
  | _ => p

def Spot.after (p : Spot) (ts : List ETok) : Spot := ts.foldl Spot.step p

/-- In a block with unsafe operations, and not in the signature of a function or of an `impl`. -/
def Spot.isUnsafe (p : Spot) : Bool := p.next == none && p.blocks.head? == some true

/-- The user's tokens that the reader finds in such places. -/
def unsafeCode (p : Spot) : List ETok → List String
  | [] => []
  | .user x :: ts => (if p.isUnsafe then [x] else []) ++ unsafeCode p ts
  | t :: ts => unsafeCode (p.step t) ts

/-- Names: of the type, of its fields and variants, of the types made from it. -/
inductive IsName (item : Item) : String → Prop
  | field {v f n} : v ∈ itemVariants item → f ∈ v.2.list → f.ident = some n → IsName item n
  | variant {v n} : v ∈ itemVariants item → v.1 = some n → IsName item n
  | arg {n} : InArgs item n → Identifier n → IsName item n
  | made {n m} : itemName item = some n → m ∈ madeFrom n → IsName item m

/-- What precedes the `fn` of a method, as tokens of the user: the attributes, those in the body first, the visibility, and
qualifiers like `extern "C"`. -/
def beforeFn (m : Method) : List ETok :=
  m.innerAttrs.flatMap Emit.innerAttr ++ m.attrs.flatMap Emit.userAttr ++ Emit.vis m.vis ++ Emit.qualifiers m.sig.quals []

end PinProject.Spec

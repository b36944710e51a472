import Verif.Model.Attribute
/-!
# Specification: how attribute arguments such as `repr(C, align(8), packed = 1)` are written
-/
namespace PinProject.Spec

/-- `a::b::c` -/
inductive SegsToks : List String → List TT → Prop
  | one {s : String} : isModWord s = true → SegsToks [s] [.ident s]
  | cons {s : String} {ss : List String} {ts : List TT} (j : Bool) : isModWord s = true →
      SegsToks ss ts → SegsToks (s :: ss) (.ident s :: .punct ':' true :: .punct ':' j :: ts)

/-- A path, possibly with leading `::`. -/
inductive PathToks : SPath → List TT → Prop
  | rel {ss : List String} {ts : List TT} : SegsToks ss ts → PathToks ⟨false, ss⟩ ts
  | abs {ss : List String} {ts : List TT} (j : Bool) : SegsToks ss ts →
      PathToks ⟨true, ss⟩ (.punct ':' true :: .punct ':' j :: ts)

def isComma : TT → Bool
  | .punct c _ => c == ','
  | _ => false

/-- `path`, `path(..)` or `path = value`. -/
inductive MetaToks : Meta → List TT → Prop
  | path {p : SPath} {ts : List TT} : PathToks p ts → MetaToks (.path p) ts
  | list {p : SPath} {ts : List TT} (d : Delim) (inner : List TT) : PathToks p ts →
      MetaToks (.list p d inner) (ts ++ [.group d inner])
  | nameValue {p : SPath} {ts : List TT} (j : Bool) (v : List TT) : PathToks p ts → v ≠ [] →
      (∀ t ∈ v, isComma t = false) → MetaToks (.nameValue p v) (ts ++ .punct '=' j :: v)

/-- A comma separated list, with an optional trailing comma. -/
inductive MetasToks : List Meta → List TT → Prop
  | nil : MetasToks [] []
  | last {m : Meta} {ts : List TT} : MetaToks m ts → MetasToks [m] ts
  | cons {m : Meta} {ms : List Meta} {ts us : List TT} (j : Bool) : MetaToks m ts →
      MetasToks ms us → MetasToks (m :: ms) (ts ++ .punct ',' j :: us)

/-- Does this argument name `packed`: `packed`, `packed(2)`, `packed = ".."`? -/
def isPacked (m : Meta) : Bool := m.getPath == { leading := false, segs := ["packed"] }

/-- Is this attribute `#[repr(ts)]` (with any delimiter)? -/
def reprArgs (a : Attribute) : Option (List TT) :=
  match a.m with
  | .list p _ ts => if p == { leading := false, segs := ["repr"] } then some ts else none
  | _ => none

/-- Some `#[repr(..)]` attribute asks for packing. -/
def AsksForPacked (attrs : List Attribute) : Prop :=
  ∃ a ∈ attrs, ∃ ts ms, reprArgs a = some ts ∧ MetasToks ms ts ∧ ∃ m ∈ ms, isPacked m = true

/-- All `#[repr(..)]` attributes are well-formed lists. -/
def ReprsWellFormed (attrs : List Attribute) : Prop :=
  ∀ a ∈ attrs, ∀ ts, reprArgs a = some ts → ∃ ms, MetasToks ms ts

end PinProject.Spec

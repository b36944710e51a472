import Verif.Model.Emit
import Verif.Spec.Args
/-!
# Specification: what the words of the expansion refer to

Which words a template may contain, and where: a reading of the tokens from left to right, which keeps track of the
path that is being read.
-/
namespace PinProject.Spec

/-- The paths below the crate `pin_project` that generated code may use: what src/lib.rs exports (`UnsafeUnpin`,
lib.rs:181; the module `__private`, lib.rs:186-350), and functions of these types, traits and modules. -/
def exported : List (List String) :=
  [["UnsafeUnpin"],
   ["__private", "Pin"], ["__private", "PhantomData"], ["__private", "PhantomPinned"], ["__private", "Unpin"],
   ["__private", "Drop"], ["__private", "PinnedDrop"], ["__private", "PinnedFieldsOf"], ["__private", "Wrapper"],
   ["__private", "AlwaysUnpin"],
   ["__private", "Pin", "new_unchecked"], ["__private", "ptr", "read"], ["__private", "PinnedDrop", "drop"],
   ["__private", "UnsafeOverwriteGuard", "new"], ["__private", "UnsafeDropInPlaceGuard", "new"]]

/-- The names that generated code introduces for itself, apart from those of functions. -/
def OwnName (w : String) : Prop :=
  w ∈ ["T", "this", "__self_ptr", "__guard", "__result", "__replacement", "__pinned_self",
    "__pin_project_use_generics", "__drop_inner"] ∨
  ∃ n : Nat, w ∈ ["_" ++ toString n, "__field" ++ toString n, "__lifetime" ++ toString n]

/-- What has been read just before. -/
inductive At
  /-- nothing that could be the beginning of a path -/
  | idle
  /-- a token of the user -/
  | user
  /-- a name that generated code introduces, `self` or `Self` -/
  | name
  /-- the crate `pin_project` and the segments `segs` -/
  | inCrate (segs : List String)
  /-- `::` after `idle`, `user`, `name` and `inCrate segs` -/
  | root | sepUser | sepName | sepCrate (segs : List String)
  /-- `.` -/
  | dot
  /-- `fn`, `crate`, `as` -/
  | fn | krate | alias
  deriving DecidableEq

/-- A path may end here. -/
inductive Left : At → Prop
  | idle : Left .idle
  | user : Left .user
  | name : Left .name
  | crate {segs : List String} : segs ∈ exported → Left (.inCrate segs)

/-- Reading one token. There is no rule for `!`: templates call no macros. -/
inductive Step : At → ETok → At → Prop
  /-- Tokens of the user may stand anywhere, also as segments of a path that starts with a name of the user or
  with `Self`, and as field names. -/
  | user {a t} : Left a → Step a (.user t) .user
  | userSegment {t} : Step .sepUser (.user t) .user
  | selfSegment {t} : Step .sepName (.user t) .user
  | userField {t} : Step .dot (.user t) .user
  | index {n s} : Step .dot (.lit n s) .name
  | life {a l s} : Left a → Step a (.life l s) .idle
  /-- Attributes are built into the language. -/
  | attr {a n args s} : Left a → n ∈ ["allow", "doc", "forbid", "inline"] → Step a (.attr n args s) .idle
  | punct {a p s} : Left a → p ∉ ["::", ".", "!"] → Step a (.punct p s) .idle
  /-- Words of the language. -/
  | keyword {a w s} : Left a → w ∈ strictKeywords → w ∉ ["self", "Self", "super", "crate", "fn", "as"] →
      Step a (.word w s) .idle
  | underscore {a s} : Left a → Step a (.word "_" s) .idle
  | self_ {a w s} : Left a → w ∈ ["self", "Self"] → Step a (.word w s) .name
  /-- Names of generated code. -/
  | own {a w s} : Left a → OwnName w → Step a (.word w s) .name
  | fn {a s} : Left a → Step a (.word "fn" s) .fn
  | fnName {w s} : Step .fn (.word w s) .name
  /-- `extern crate pin_project as _pin_project` -/
  | krate {a s} : Left a → Step a (.word "crate" s) .krate
  | crateName {s} : Step .krate (.word "pin_project" s) .name
  | as_ {a s} : Left a → Step a (.word "as" s) .alias
  | aliasName {s} : Step .alias (.word "_pin_project" s) .name
  /-- Paths: `::pin_project::..`, `_pin_project::..`, `Name::..`, `Self::..`. -/
  | alias_ {a s} : Left a → Step a (.word "_pin_project" s) (.inCrate [])
  | rootColons {s} : Step .idle (.punct "::" s) .root
  | userColons {s} : Step .user (.punct "::" s) .sepUser
  | nameColons {s} : Step .name (.punct "::" s) .sepName
  | crateColons {segs s} : Step (.inCrate segs) (.punct "::" s) (.sepCrate segs)
  | rootCrate {s} : Step .root (.word "pin_project" s) (.inCrate [])
  /-- (after a visibility) -/
  | visCrate {s} : Step .sepUser (.word "pin_project" s) (.inCrate [])
  | segment {segs w s} : Step (.sepCrate segs) (.word w s) (.inCrate (segs ++ [w]))
  /-- Methods of `Pin`; they are inherent, no trait has to be in scope. -/
  | dot {s} : Step .name (.punct "." s) .dot
  | method {w s} : w ∈ ["get_unchecked_mut", "get_ref"] → Step .dot (.word w s) .name

inductive Reads : At → List ETok → At → Prop
  | nil {a} : Reads a [] a
  | cons {a b c t ts} : Step a t b → Reads b ts c → Reads a (t :: ts) c

/-- The tokens can be read to the end. -/
def Resolved (ts : List ETok) : Prop := ∃ a, Reads .idle ts a ∧ Left a

end PinProject.Spec

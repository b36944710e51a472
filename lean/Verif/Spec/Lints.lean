import Verif.Model.Emit
/-!
# Specification: lints in generated code

Own lists of the lints that the expansion may silence, by the reason for it.
-/
namespace PinProject.Spec

/-- Lints about the form of code, which the author of generated code decides, and about deprecation, which the user
sees at their own definition: silenced in all generated code. -/
def formLints : List String :=
  ["deprecated", "explicit_outlives_requirements", "single_use_lifetimes", "unreachable_pub",
   "unused_tuple_struct_fields", "clippy::unknown_clippy_lints", "clippy::absolute_paths", "clippy::min_ident_chars",
   "clippy::pattern_type_mismatch", "clippy::pub_with_shorthand", "clippy::redundant_pub_crate",
   "clippy::single_char_lifetime_names", "clippy::type_repetition_in_bounds"]

/-- For projected types, which may be unused and have no documentation. -/
def typeLints : List String := ["dead_code", "clippy::missing_docs_in_private_items"]

/-- For the projected type that a method returns, since its fields are references to the user's fields, and its
variants are as large as the user's. -/
def methodTypeLints (enum : Bool) : String → List String
  | "project" => ["clippy::mut_mut"]
  | "project_ref" => ["clippy::ref_option_ref"]
  | "project_replace" => if enum then ["variant_size_differences", "clippy::large_enum_variant"] else []
  | _ => []

/-- For code in the unnamed constant, and for single items there. -/
def constLints : List String :=
  ["unused_qualifications", "clippy::elidable_lifetime_names", "clippy::missing_const_for_fn",
   "clippy::needless_lifetimes", "clippy::semicolon_if_nothing_returned", "clippy::use_self",
   "clippy::used_underscore_binding", "unused_extern_crates", "missing_debug_implementations", "unnameable_types",
   "clippy::drop_bounds", "drop_bounds", "clippy::missing_inline_in_public_items"]

/-- For the function with the user's code that `#[pinned_drop]` makes. -/
def dropLints : List String := ["clippy::missing_const_for_fn", "clippy::needless_pass_by_value", "clippy::single_call_fn"]

/-- All lints that are silenced anywhere in generated code. -/
def silenced : List String :=
  formLints ++ typeLints ++ methodTypeLints true "project" ++ methodTypeLints true "project_ref" ++
    methodTypeLints true "project_replace" ++ constLints

/-- The attributes of generated code. -/
def GeneratedAttr (name : String) (args : List String) : Prop :=
  (name = "allow" ∧ ∀ l ∈ args, l ∈ silenced) ∨
  (name = "forbid" ∧ args = ["unaligned_references", "safe_packed_borrows"]) ∨
  (name = "inline" ∧ args = []) ∨
  (name = "doc" ∧ args = ["hidden"])

/-- The item defines the type `name` under `#[allow(lints)]`. -/
inductive TypeUnder : GItem → String → List String → Prop
  | struct_ {lints v name ps ws fs} : TypeUnder (.struct_ lints v name ps ws fs) name lints
  | enum_ {lints v name ps ws vs} : TypeUnder (.enum_ lints v name ps ws vs) name lints

/-- The tokens are those of some items `outside` and of a constant with other items, and each of `outside` and the
constant allows the lints about the form of code. -/
def Covered (toks : List ETok) : Prop :=
  ∃ (outside : List (List ETok)) (allowed : List String) (s : Span) (rest : List ETok),
    toks = outside.flatten ++ [.attr "allow" allowed s, .word "const" s, .word "_" s, .punct ":" s, .punct "(" s,
      .punct ")" s, .punct "=" s, .punct "{" s] ++ rest ++ [.punct "}" s, .punct ";" s] ∧
    (∀ l ∈ formLints, l ∈ allowed) ∧
    ∀ i ∈ outside, ∃ (allowed : List String) (s : Span) (tail : List ETok), i = .attr "allow" allowed s :: tail ∧
      ∀ l ∈ formLints ++ typeLints, l ∈ allowed

end PinProject.Spec

import Verif.Spec.Types
/-!
# Specification: struct layout and the compiler's rule for references to packed fields

What a `repr(packed(N))` that the macro could not see (for example one added by another macro) does to
a struct: every field is placed as if its alignment were at most `N`.
-/
namespace PinProject.Spec

def PowerOfTwo (n : Nat) : Prop := ∃ k, n = 2 ^ k

/-- How the compiler lays out a struct. -/
structure Layout where
  /-- `repr(packed(n))` -/
  pack : Option Nat
  /-- the alignment of the type of a field -/
  align : String → Nat
  /-- where the field is placed -/
  offset : String → Nat

/-- The alignment that the placement of a field respects. -/
def Layout.effective (L : Layout) (l : String) : Nat :=
  match L.pack with
  | none => L.align l
  | some n => min (L.align l) n

/-- The layout respects the alignments, and so does the address `base` at which the struct is placed. -/
structure Layout.Legal (L : Layout) (fields : List String) (base : Nat) : Prop where
  pow : ∀ l ∈ fields, PowerOfTwo (L.align l)
  packPow : ∀ n, L.pack = some n → PowerOfTwo n
  offset : ∀ l ∈ fields, L.effective l ∣ L.offset l
  base : ∀ l ∈ fields, L.effective l ∣ base

/-- The rule of the lint `unaligned_references` (now the hard error E0793): borrowing a field of a
packed struct is allowed only if the type of the field needs no more alignment than `N`. -/
def Layout.BorrowOk (L : Layout) (l : String) : Prop :=
  match L.pack with
  | none => True
  | some n => L.align l ≤ n

/-- The compiler accepts the generated item: all the fields it borrows may be borrowed. -/
def Layout.Accepts (L : Layout) : GItem → Prop
  | .assertNotPacked _ _ _ _ refs => ∀ l ∈ refs, L.BorrowOk l
  | _ => True

end PinProject.Spec

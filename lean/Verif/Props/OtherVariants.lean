import Verif.Props.VariantStruct
import Verif.Spec.OtherVariants
/-!
# C96: variants are projected independently of one another
-/
namespace PinProject
open Spec

namespace OtherVariants

theorem both {e e' : ItemEnum} {E E' : Expansion} (hs : e' = { e with variants := e'.variants })
    (h : parseDerive (.enum_ e) = .ok E) (h' : parseDerive (.enum_ e') = .ok E') :
    ∃ A a vi i g s, E = enumExpansion (mkCtx A a vi i g .enum_) (e.variants.map (Variant.visit s)) ∧
      E' = enumExpansion (mkCtx A a vi i g .enum_) (e'.variants.map (Variant.visit s)) := by
  obtain ⟨A, h1, -, -, -, -, -, -, rfl⟩ := (deriveEnum_iff e E).1 h
  obtain ⟨A', h1', -, -, -, -, -, -, rfl⟩ := (deriveEnum_iff e' E').1 h'
  generalize e'.variants = vs at hs
  subst hs
  obtain rfl : A = A' := Except.ok.inj (h1.symm.trans h1')
  exact ⟨A, _, _, _, _, _, rfl, rfl⟩

theorem agree {α : Type} (vs vs' : List Variant) (f : Variant → α) : VariantsAgree vs vs' (vs.map f) (vs'.map f) := by
  refine ⟨by simp, by simp, fun k k' v h h' => ⟨f v, ?_, ?_⟩⟩
  · rw [List.getElem?_map, h]
    rfl
  · rw [List.getElem?_map, h']
    rfl

theorem agree' {α : Type} (s : SelfTy) (vs vs' : List Variant) (f : Variant → α) :
    VariantsAgree vs vs' ((vs.map (Variant.visit s)).map f) ((vs'.map (Variant.visit s)).map f) := by
  rw [List.map_map, List.map_map]
  exact agree vs vs' _

end OtherVariants

open OtherVariants

/-- **C96** If two enums differ in their variants only, they have the same methods, up to the arms of the `match`; and for a
variant that both have, the arms are the same. -/
theorem C96_methods {e e' : ItemEnum} {E E' : Expansion} (hs : e' = { e with variants := e'.variants })
    (h : parseDerive (.enum_ e) = .ok E) (h' : parseDerive (.enum_ e') = .ok E') (mode : Mode) :
    (method E mode.fn = none ∧ method E' mode.fn = none) ∨
    ∃ f f', method E mode.fn = some f ∧ method E' mode.fn = some f' ∧ SameArms e.variants e'.variants f f' := by
  obtain ⟨A, a, vi, i, g, s, rfl, rfl⟩ := both hs h h'
  rw [method_enum, method_enum]
  cases mode with
  | proj =>
    simp only [Mode.fn]
    rw [implFns_project, implFns_project]
    split
    · exact .inl ⟨rfl, rfl⟩
    · exact .inr ⟨_, _, rfl, rfl, _, _, _, _, rfl, rfl, agree' s _ _ _⟩
  | projRef =>
    simp only [Mode.fn]
    rw [implFns_projectRef, implFns_projectRef]
    split
    · exact .inl ⟨rfl, rfl⟩
    · exact .inr ⟨_, _, rfl, rfl, _, _, _, _, rfl, rfl, agree' s _ _ _⟩
  | replace =>
    simp only [Mode.fn]
    rw [implFns_projectReplace, implFns_projectReplace]
    split
    · exact .inl ⟨rfl, rfl⟩
    · exact .inr ⟨_, _, rfl, rfl, _, _, _, _, rfl, rfl, agree' s _ _ _⟩

/-- **C96** And they have the same projected types, up to the variants; a variant that both have is projected in the same way. -/
theorem C96_types {e e' : ItemEnum} {E E' : Expansion} (hs : e' = { e with variants := e'.variants })
    (h : parseDerive (.enum_ e) = .ok E) (h' : parseDerive (.enum_ e') = .ok E') :
    E.exposed.length = E'.exposed.length ∧
    ∀ (j : Nat) i', E'.exposed[j]? = some i' → ∃ i, E.exposed[j]? = some i ∧ SameVariants e.variants e'.variants i i' := by
  obtain ⟨A, a, vi, i, g, s, rfl, rfl⟩ := both hs h h'
  unfold enumExpansion
  apply VariantP.three
  · exact ⟨_, _, _, _, _, _, _, rfl, rfl, agree' s _ _ _⟩
  · exact ⟨_, _, _, _, _, _, _, rfl, rfl, agree' s _ _ _⟩
  · exact ⟨_, _, _, _, _, _, _, rfl, rfl, agree' s _ _ _⟩

/-- **C96** Variants may be put in another order, and from an enum that is accepted variants may be taken away, as long as one
with a field remains: the result is accepted. -/
theorem C96_accepted {e e' : ItemEnum} {E : Expansion} (hs : e' = { e with variants := e'.variants })
    (h : parseDerive (.enum_ e) = .ok E) (hsub : ∀ v ∈ e'.variants, v ∈ e.variants)
    (hf : ∃ v ∈ e'.variants, v.fields.list ≠ []) : ∃ E', parseDerive (.enum_ e') = .ok E' := by
  obtain ⟨A, h1, h2, h3, h4, h5, ⟨-, -, h6, h7⟩, h8⟩ := (C07_accepted_iff _).1 ⟨E, h⟩
  refine (C07_accepted_iff _).2 ⟨A, ?_, ?_, ?_, ?_, ?_, ⟨?_, hf, ?_, ?_⟩, h8⟩
  · rw [hs]; exact h1
  · rw [hs]; exact h2
  · rw [hs]; exact h3
  · rw [hs]; exact h4
  · intro f hf
    obtain ⟨v, hv, hf⟩ := List.mem_flatMap.1 hf
    exact h5 f (List.mem_flatMap.2 ⟨v, hsub v hv, hf⟩)
  · obtain ⟨v, hv, -⟩ := hf
    intro e0
    rw [e0] at hv
    cases hv
  · exact fun v hv => h6 v (hsub v hv)
  · exact fun v hv => h7 v (hsub v hv)

/-! ## A concrete case -/

/-- The variants of `demoEnum3` in another order, and one less. -/
def demoReordered : ItemEnum := { demoEnum3 with variants := (demoEnum3.variants.take 2).reverse }

/-- All hypotheses are met: the first variant of one is the second of the other, and the arm for it is the same. -/
example : ∃ E E' v a, demoReordered = { demoEnum3 with variants := demoReordered.variants } ∧
    parseDerive (.enum_ demoEnum3) = .ok E ∧ parseDerive (.enum_ demoReordered) = .ok E' ∧
    (∀ v ∈ demoReordered.variants, v ∈ demoEnum3.variants) ∧ v.fields.list ≠ [] ∧
    demoEnum3.variants[0]? = some v ∧ demoReordered.variants[1]? = some v ∧
    ((method E "project").map (·.body)).bind (fun b => match b.tail with | .match_ _ arms => arms[0]? | _ => none) = some a ∧
    ((method E' "project").map (·.body)).bind (fun b => match b.tail with | .match_ _ arms => arms[1]? | _ => none) = some a ∧
    a.pat.variant = some "V" ∧ a.pat.binders = ["_0", "_1"] ∧ E.exposed.length = 2 :=
  ⟨_, _, _, _, rfl, rfl, rfl, fun v hv => List.mem_of_mem_take (List.mem_reverse.1 hv), by simp [Fields.list], rfl, rfl, rfl, rfl,
    rfl, rfl, rfl⟩

/-- Without a field the enum is rejected. -/
example : (parseDerive (.enum_ { demoEnum3 with variants := demoEnum3.variants.drop 2 })).isOk = false := rfl

end PinProject

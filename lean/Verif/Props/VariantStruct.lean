import Verif.Props.Accept
import Verif.Props.Methods
import Verif.Spec.VariantStruct
/-!
# C94: a variant of an enum is projected like a struct with the same fields
-/
namespace PinProject
open Spec

namespace VariantP

theorem both {e : ItemEnum} {v : Variant} {E E' : Expansion} (h : parseDerive (.struct_ (e.asStruct v)) = .ok E)
    (h' : parseDerive (.enum_ e) = .ok E') :
    ∃ A a vi i g, A.projectReplace ≠ .unnamed ∧
      E = structExpansion (mkCtx A a vi i g .struct_) (v.visit (mkSelfTy e.ident e.generics.tyGenerics)).fields ∧
      E' = enumExpansion (mkCtx A a vi i g .enum_)
        (e.variants.map (Variant.visit (mkSelfTy e.ident e.generics.tyGenerics))) := by
  obtain ⟨A, h1, -, -, -, -, -, rfl⟩ := (deriveStruct_iff _ E).1 h
  obtain ⟨A', h1', -, hr, -, -, -, -, rfl⟩ := (deriveEnum_iff e E').1 h'
  obtain rfl : A = A' := Except.ok.inj (h1.symm.trans h1')
  exact ⟨A, _, _, _, _, hr, rfl, rfl⟩

theorem three {R : GItem → GItem → Prop} {a a' b b' c c' : GItem} (p q r : Bool) (ha : R a a') (hb : R b b') (hc : R c c') :
    ((if p then [a] else []) ++ (if q then [b] else []) ++ (if r then [c] else [])).length =
      ((if p then [a'] else []) ++ (if q then [b'] else []) ++ (if r then [c'] else [])).length ∧
    ∀ (j : Nat) i', ((if p then [a'] else []) ++ (if q then [b'] else []) ++ (if r then [c'] else []))[j]? = some i' →
      ∃ i, ((if p then [a] else []) ++ (if q then [b] else []) ++ (if r then [c] else []))[j]? = some i ∧ R i i' := by
  cases p <;> cases q <;> cases r <;> refine ⟨rfl, ?_⟩ <;> intro j i' h <;>
    rcases j with _ | _ | _ | j <;> simp at h <;> subst h <;> first
      | exact ⟨_, rfl, ha⟩
      | exact ⟨_, rfl, hb⟩
      | exact ⟨_, rfl, hc⟩

end VariantP

open VariantP

/-- **C94** The methods of an enum do for each of its variants what the methods of a struct with the fields of this variant do. -/
theorem C94_methods {e : ItemEnum} {E E' : Expansion} {k : Nat} {v : Variant} (hv : e.variants[k]? = some v)
    (h : parseDerive (.struct_ (e.asStruct v)) = .ok E) (h' : parseDerive (.enum_ e) = .ok E') (mode : Mode) {f' : GFn}
    (hf' : method E' mode.fn = some f') :
    ∃ f, method E mode.fn = some f ∧ MatchesInstead v.ident k e.variants.length f f' := by
  obtain ⟨A, a, vi, i, g, hr, rfl, rfl⟩ := both h h'
  rw [method_enum] at hf'
  rw [method_struct]
  cases mode with
  | proj =>
    simp only [Mode.fn] at hf' ⊢
    rw [implFns_project] at hf' ⊢
    split at hf'
    · cases hf'
    cases hf'
    refine ⟨_, rfl, [], _, _, [], _, _, rfl, rfl, rfl, by simp, ?_⟩
    simp [hv]
    rfl
  | projRef =>
    simp only [Mode.fn] at hf' ⊢
    rw [implFns_projectRef] at hf' ⊢
    split at hf'
    · cases hf'
    cases hf'
    refine ⟨_, rfl, [], _, _, [], _, _, rfl, rfl, rfl, by simp, ?_⟩
    simp [hv]
    rfl
  | replace =>
    simp only [Mode.fn] at hf' ⊢
    rw [implFns_projectReplace] at hf' ⊢
    split at hf'
    · cases hf'
    rename_i hc
    cases hf'
    have hsome : A.projectReplace.isSome = true := by
      cases hp : A.projectReplace.isSome
      · exact absurd (by simp [mkCtx, hp]) hc
      · rfl
    rw [if_neg (by simp [mkCtx, hsome])]
    refine ⟨_, rfl, [_, _], _, _, _, _, _, rfl, rfl, rfl, by simp, ?_⟩
    simp [hv, armOwn, projectedOf, projOwnBody, stmtAt, rhsAt, Function.comp_def]
    exact ⟨rfl, rfl, rfl⟩

/-- **C94** The projected types that the user has named are the same, but that the fields are in the variant of the same name. -/
theorem C94_types {e : ItemEnum} {E E' : Expansion} {k : Nat} {v : Variant} (hv : e.variants[k]? = some v)
    (h : parseDerive (.struct_ (e.asStruct v)) = .ok E) (h' : parseDerive (.enum_ e) = .ok E') :
    E.exposed.length = E'.exposed.length ∧
    ∀ (j : Nat) i', E'.exposed[j]? = some i' → ∃ i, E.exposed[j]? = some i ∧ TypeInstead v.ident k e.variants.length i i' := by
  obtain ⟨A, a, vi, i, g, hr, rfl, rfl⟩ := both h h'
  have e1 : ((mkCtx A a vi i g .struct_).projectReplace.ident.isSome && (mkCtx A a vi i g .struct_).projectReplace.isSome) =
      (mkCtx A a vi i g .enum_).projectReplace.ident.isSome := by
    show (A.projectReplace.ident.isSome && A.projectReplace.isSome) = A.projectReplace.ident.isSome
    cases A.projectReplace <;> rfl
  have e2 : ∀ (p q : Bool) (l : List GItem), (if p then if q then l else [] else []) = if p && q then l else [] := by
    intro p q l
    cases p <;> cases q <;> rfl
  unfold structExpansion enumExpansion
  simp only [e2]
  rw [e1]
  apply three
  · exact ⟨_, _, _, _, _, _, _, _, rfl, rfl, by simp, by simp [hv]; exact ⟨rfl, rfl⟩⟩
  · exact ⟨_, _, _, _, _, _, _, _, rfl, rfl, by simp, by simp [hv]; exact ⟨rfl, rfl⟩⟩
  · exact ⟨_, _, _, _, _, _, _, _, rfl, rfl, by simp, by simp [hv]; exact ⟨rfl, rfl⟩⟩

/-- **C94** If the enum is accepted, so is the struct with the fields of one of its variants, unless there are none. -/
theorem C94_accepted {e : ItemEnum} {E' : Expansion} {v : Variant} (hv : v ∈ e.variants) (hne : v.fields.list ≠ [])
    (h' : parseDerive (.enum_ e) = .ok E') : ∃ E, parseDerive (.struct_ (e.asStruct v)) = .ok E := by
  obtain ⟨A, h1, h2, h3, h4, h5, -, -⟩ := (C07_accepted_iff _).1 ⟨E', h'⟩
  refine (C07_accepted_iff _).2 ⟨A, h1, h2, h3, h4, ?_, hne, trivial⟩
  intro f hf
  exact h5 f (List.mem_flatMap.2 ⟨v, hv, hf⟩)

/-! ## A concrete case -/

/-- An enum with all three projections. -/
def demoEnum3 : ItemEnum :=
  { demoEnum with attrs := [pinPrivateAttr [.ident "project", .punct '=' false, .ident "P", .punct ',' false,
      .ident "project_replace", .punct '=' false, .ident "O"]] }

/-- Both the enum and the struct with the fields of its first variant are accepted; here are their `project` methods. -/
example : ∃ v E E', demoEnum3.variants[0]? = some v ∧ v.fields.list ≠ [] ∧
    parseDerive (.struct_ (demoEnum3.asStruct v)) = .ok E ∧ parseDerive (.enum_ demoEnum3) = .ok E' ∧
    (method E "project").map (·.body) = some
      ⟨[.letPat ⟨none, some .paren, ["_0", "_1"]⟩ (.getUncheckedMut "self")],
        .expr (.ctor ⟨"P", none, some .paren, [.labelled none (.pinNew "_0"), .bare "_1"]⟩)⟩ ∧
    ((method E' "project").map (·.body)).bind (fun b => match b.tail with | .match_ _ arms => arms[0]? | _ => none) = some
      ⟨⟨some "V", some .paren, ["_0", "_1"]⟩, [],
        .ctor ⟨"P", some "V", some .paren, [.labelled none (.pinNew "_0"), .bare "_1"]⟩⟩ ∧
    (method E "project_replace").isSome ∧ (method E' "project_replace").isSome ∧ E'.exposed.length = 2 :=
  ⟨_, _, _, rfl, by simp [Fields.list], rfl, rfl, rfl, rfl, rfl, rfl, rfl⟩

/-- A variant without fields is no struct that could be projected. -/
example : ∃ v ∈ demoEnum3.variants, v.fields.list = [] ∧ (parseDerive (.struct_ (demoEnum3.asStruct v))).isOk = false :=
  ⟨{ ident := "N", fields := .unit }, by simp [demoEnum3, demoEnum], rfl, rfl⟩

end PinProject

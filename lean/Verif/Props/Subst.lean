import Verif.Spec.Instances
import Verif.Props.Hygiene
/-!
# Matching an impl header against an instance
-/
namespace PinProject
open Spec

theorem substOf_cons (p : GParam) (ps : List GParam) (a : TArg) (as : List TArg) :
    substOf (p :: ps) (a :: as) = (substOf ps as).set p.name a := rfl

theorem arg_name (p : GParam) : p.arg.name = p.name := by cases p <;> rfl

theorem noDefault_name (p : GParam) : p.noDefault.name = p.name := by cases p <;> rfl

theorem noDefault_boundsOf (p : GParam) : p.noDefault.boundsOf = p.boundsOf := by cases p <;> rfl

theorem visit_name (st : SelfTy) (p : GParam) : (p.visit st).name = p.name := by cases p <;> rfl

theorem substOf_noDefault (ps : List GParam) (as : List TArg) :
    substOf (ps.map GParam.noDefault) as = substOf ps as := by
  induction ps generalizing as with
  | nil => rfl
  | cons p ps ih =>
    cases as with
    | nil => rfl
    | cons a as => rw [List.map_cons, substOf_cons, substOf_cons, ih, noDefault_name]

theorem substOf_notin {ps : List GParam} {as : List TArg} {x : String} (h : x ∉ ps.map GParam.name) :
    substOf ps as x = none := by
  induction ps generalizing as with
  | nil => rfl
  | cons p ps ih =>
    simp only [List.map_cons, List.mem_cons, not_or] at h
    cases as with
    | nil => rfl
    | cons a as => rw [substOf_cons, Subst.set, if_neg h.1, ih h.2]

theorem substOf_map {ps : List GParam} {as : List TArg} (hn : (ps.map GParam.name).Nodup)
    (hl : as.length = ps.length) : ps.map (fun p => substOf ps as p.name) = as.map some := by
  induction ps generalizing as with
  | nil => cases as <;> simp_all
  | cons p ps ih =>
    cases as with
    | nil => simp at hl
    | cons a as =>
      simp only [List.map_cons, List.nodup_cons] at hn
      simp only [List.length_cons, Nat.add_right_cancel_iff] at hl
      simp only [List.map_cons]
      rw [← ih hn.2 hl]
      congr 1
      · simp [substOf_cons, Subst.set]
      · apply List.map_congr_left
        intro q hq
        rw [substOf_cons, Subst.set, if_neg]
        intro h
        exact hn.1 (h ▸ List.mem_map_of_mem hq)

theorem map_some_inj {as bs : List TArg} : as.map some = bs.map some ↔ as = bs := by
  constructor
  · intro h
    exact List.map_inj_right (fun _ _ e => Option.some.inj e) |>.1 h
  · rintro rfl; rfl

/-- Matching `impl<ps> .. for Name<ps>` against `Name<args>`. -/
theorem match_plain {ps : List GParam} (hn : (ps.map GParam.name).Nodup) (args : List TArg) (Q : Subst → Prop) :
    (∃ vals : List TArg, vals.length = (ps.map GParam.noDefault).length ∧
      (ps.map GParam.arg).map (fun a => substOf (ps.map GParam.noDefault) vals a.name) = args.map some ∧
      Q (substOf (ps.map GParam.noDefault) vals)) ↔
    args.length = ps.length ∧ Q (substOf ps args) := by
  simp only [substOf_noDefault, List.map_map, Function.comp_def, arg_name, List.length_map]
  constructor
  · rintro ⟨vals, hl, hm, hq⟩
    rw [substOf_map hn hl, map_some_inj] at hm
    subst hm
    exact ⟨hl, hq⟩
  · rintro ⟨hl, hq⟩
    exact ⟨args, hl, substOf_map hn hl, hq⟩

/-- Matching `impl<'lt, ps> .. for Name<ps>` against `Name<args>`. -/
theorem match_lt {ps : List GParam} (hn : (ps.map GParam.name).Nodup) {lt : String}
    (hlt : lt ∉ ps.map GParam.name) (args : List TArg) (Q : Subst → Prop) :
    (∃ vals : List TArg, vals.length = (.lifetime lt [] :: ps.map GParam.noDefault : List GParam).length ∧
      (ps.map GParam.arg).map (fun a => substOf (.lifetime lt [] :: ps.map GParam.noDefault) vals a.name) =
        args.map some ∧
      Q (substOf (.lifetime lt [] :: ps.map GParam.noDefault) vals)) ↔
    args.length = ps.length ∧ ∃ v, Q ((substOf ps args).set lt v) := by
  have key : ∀ v vals, vals.length = ps.length →
      ((ps.map GParam.arg).map (fun a => substOf (.lifetime lt [] :: ps.map GParam.noDefault) (v :: vals) a.name) =
        vals.map some) := by
    intro v vals hl
    rw [← substOf_map hn hl]
    simp only [List.map_map, Function.comp_def, arg_name]
    apply List.map_congr_left
    intro p hp
    rw [substOf_cons, substOf_noDefault, Subst.set, if_neg]
    intro h
    exact hlt (List.mem_map.2 ⟨p, hp, h⟩)
  constructor
  · rintro ⟨vals, hl, hm, hq⟩
    cases vals with
    | nil => simp at hl
    | cons v vals =>
      have hl' : vals.length = ps.length := by simpa using hl
      rw [key v vals hl', map_some_inj] at hm
      subst hm
      refine ⟨hl', v, ?_⟩
      rw [substOf_cons, substOf_noDefault] at hq
      exact hq
  · rintro ⟨hl, v, hq⟩
    refine ⟨v :: args, by simpa using hl, key v args hl, ?_⟩
    rw [substOf_cons, substOf_noDefault]
    exact hq

theorem paramsOk_noDefault (N : Names) (σ : Subst) (ps : List GParam) :
    ParamsOk N σ (ps.map GParam.noDefault) ↔ ParamsOk N σ ps := by
  simp [ParamsOk, noDefault_boundsOf]

theorem paramsOk_lt (N : Names) (σ : Subst) (lt : String) (ps : List GParam) :
    ParamsOk N σ (.lifetime lt [] :: ps) ↔ ParamsOk N σ ps := by
  simp [ParamsOk, GParam.boundsOf]

end PinProject

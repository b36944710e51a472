import Verif.Props.ArgsLemmas
/-!
# Properties of the `#[pin_project(...)]` argument list (C01, C02, C03)
-/
namespace PinProject
open Spec

/-! ## The accumulator after the loop -/

def projectOf : Arg → Option String | .project n => some n | _ => none
def projectRefOf : Arg → Option String | .projectRef n => some n | _ => none
def replaceOf : Arg → Option String | .projectReplaceNamed n => some n | _ => none

theorem findSome_none_of_kind {f : Arg → Option String} {k : Kind} {as : List Arg}
    (hf : ∀ x, (f x).isSome → x.kind = k) (h : k ∉ as.map Arg.kind) :
    as.findSome? f = none := by
  rw [List.findSome?_eq_none_iff]
  intro x hx
  cases hfx : f x with
  | none => rfl
  | some v => exact absurd (List.mem_map.2 ⟨x, hx, hf x (by simp [hfx])⟩) h

theorem fold_pinnedDrop (as : List Arg) (a : ArgAcc) :
    (as.foldl ArgAcc.set a).pinnedDrop = (a.pinnedDrop || decide (.pinnedDrop ∈ as)) := by
  induction as generalizing a with
  | nil => simp
  | cons x as ih => rw [List.foldl_cons, ih]; cases x <;> simp [ArgAcc.set]

theorem fold_unsafeUnpin (as : List Arg) (a : ArgAcc) :
    (as.foldl ArgAcc.set a).unsafeUnpin = (a.unsafeUnpin || decide (.unsafeUnpin ∈ as)) := by
  induction as generalizing a with
  | nil => simp
  | cons x as ih => rw [List.foldl_cons, ih]; cases x <;> simp [ArgAcc.set]

theorem fold_notUnpin (as : List Arg) (a : ArgAcc) :
    (as.foldl ArgAcc.set a).notUnpin = (a.notUnpin || decide (.notUnpin ∈ as)) := by
  induction as generalizing a with
  | nil => simp
  | cons x as ih => rw [List.foldl_cons, ih]; cases x <;> simp [ArgAcc.set]

theorem fold_prSpan (as : List Arg) (a : ArgAcc) :
    (as.foldl ArgAcc.set a).prSpan =
      (a.prSpan || decide (Kind.projectReplace ∈ as.map Arg.kind)) := by
  induction as generalizing a with
  | nil => simp
  | cons x as ih => rw [List.foldl_cons, ih]; cases x <;> simp [ArgAcc.set, Arg.kind]

theorem fold_project (as : List Arg) (a : ArgAcc) (h : (as.map Arg.kind).Nodup) :
    (as.foldl ArgAcc.set a).project = (as.findSome? projectOf).or a.project := by
  induction as generalizing a with
  | nil => simp
  | cons x as ih =>
    rw [List.map_cons, List.nodup_cons] at h
    rw [List.foldl_cons, ih _ h.2]
    by_cases hk : x.kind = .project
    · have hn : as.findSome? projectOf = none :=
        findSome_none_of_kind (k := .project)
          (by intro x hx; cases x <;> simp [projectOf, Arg.kind] at hx ⊢) (hk ▸ h.1)
      cases x <;> simp [Arg.kind] at hk <;> simp [ArgAcc.set, List.findSome?_cons, projectOf, hn]
    · cases x <;> simp [Arg.kind] at hk <;> simp [ArgAcc.set, List.findSome?_cons, projectOf]

theorem fold_projectRef (as : List Arg) (a : ArgAcc) (h : (as.map Arg.kind).Nodup) :
    (as.foldl ArgAcc.set a).projectRef = (as.findSome? projectRefOf).or a.projectRef := by
  induction as generalizing a with
  | nil => simp
  | cons x as ih =>
    rw [List.map_cons, List.nodup_cons] at h
    rw [List.foldl_cons, ih _ h.2]
    by_cases hk : x.kind = .projectRef
    · have hn : as.findSome? projectRefOf = none :=
        findSome_none_of_kind (k := .projectRef)
          (by intro x hx; cases x <;> simp [projectRefOf, Arg.kind] at hx ⊢) (hk ▸ h.1)
      cases x <;> simp [Arg.kind] at hk <;> simp [ArgAcc.set, List.findSome?_cons, projectRefOf, hn]
    · cases x <;> simp [Arg.kind] at hk <;> simp [ArgAcc.set, List.findSome?_cons, projectRefOf]

theorem fold_prValue (as : List Arg) (a : ArgAcc) (h : (as.map Arg.kind).Nodup) :
    (as.foldl ArgAcc.set a).prValue = (as.findSome? replaceOf).or a.prValue := by
  induction as generalizing a with
  | nil => simp
  | cons x as ih =>
    rw [List.map_cons, List.nodup_cons] at h
    rw [List.foldl_cons, ih _ h.2]
    by_cases hk : x.kind = .projectReplace
    · have hn : as.findSome? replaceOf = none :=
        findSome_none_of_kind (k := .projectReplace)
          (by intro x hx; cases x <;> simp [replaceOf, Arg.kind] at hx ⊢) (hk ▸ h.1)
      cases x <;> simp [Arg.kind] at hk <;> simp [ArgAcc.set, List.findSome?_cons, replaceOf, hn]
    · cases x <;> simp [Arg.kind] at hk <;> simp [ArgAcc.set, List.findSome?_cons, replaceOf]

theorem replaceOf_some_mem {as : List Arg} {n : String} (h : as.findSome? replaceOf = some n) :
    Kind.projectReplace ∈ as.map Arg.kind := by
  obtain ⟨l, x, r, rfl, hx, _⟩ := List.findSome?_eq_some_iff.1 h
  cases x <;> simp [replaceOf] at hx
  simp [Arg.kind]

theorem config_replace (as : List Arg) (h : (as.map Arg.kind).Nodup) :
    (config as).projectReplace =
      (as.foldl ArgAcc.set {}).projectReplace := by
  rw [ArgAcc.projectReplace, fold_prSpan, fold_prValue _ _ h]
  simp only [Bool.false_or, Option.or_none]
  induction as with
  | nil => simp [config]
  | cons x as ih =>
    rw [List.map_cons, List.nodup_cons] at h
    have ih := ih h.2
    by_cases hk : x.kind = .projectReplace
    · have hn : as.findSome? replaceOf = none :=
        findSome_none_of_kind (k := .projectReplace)
          (by intro x hx; cases x <;> simp [replaceOf, Arg.kind] at hx ⊢) (hk ▸ h.1)
      cases x <;> simp [Arg.kind] at hk <;>
        simp [config, Arg.kind, List.findSome?_cons, replaceOf, hn]
    · simp only [config] at ih
      cases x <;> simp [Arg.kind] at hk <;>
        simp [config, ih, Arg.kind, List.findSome?_cons, replaceOf]

theorem names_perm (as : List Arg) (h : (as.map Arg.kind).Nodup) :
    (as.filterMap Arg.name?).Perm
      ((as.findSome? projectOf).toList ++ ((as.findSome? projectRefOf).toList ++
        (as.findSome? replaceOf).toList)) := by
  induction as with
  | nil => simp
  | cons x as ih =>
    rw [List.map_cons, List.nodup_cons] at h
    have ih := ih h.2
    cases x with
    | project n =>
      have hn : as.findSome? projectOf = none :=
        findSome_none_of_kind (k := .project)
          (by intro x hx; cases x <;> simp [projectOf, Arg.kind] at hx ⊢) h.1
      rw [hn] at ih
      simpa [List.filterMap_cons, List.findSome?_cons, Arg.name?, projectOf, projectRefOf, replaceOf] using ih
    | projectRef n =>
      have hn : as.findSome? projectRefOf = none :=
        findSome_none_of_kind (k := .projectRef)
          (by intro x hx; cases x <;> simp [projectRefOf, Arg.kind] at hx ⊢) h.1
      rw [hn] at ih
      simp only [Arg.name?, projectOf, projectRefOf, replaceOf, List.filterMap_cons,
        List.findSome?_cons, Option.toList_some]
      refine (List.Perm.cons n ih).trans ?_
      simpa using List.perm_middle.symm
    | projectReplaceNamed n =>
      have hn : as.findSome? replaceOf = none :=
        findSome_none_of_kind (k := .projectReplace)
          (by intro x hx; cases x <;> simp [replaceOf, Arg.kind] at hx ⊢) h.1
      rw [hn] at ih
      simp only [Arg.name?, projectOf, projectRefOf, replaceOf, List.filterMap_cons,
        List.findSome?_cons, Option.toList_some]
      refine (List.Perm.cons n ih).trans ?_
      simpa [List.append_assoc] using (List.perm_middle (a := n)
        (l₁ := (as.findSome? projectOf).toList ++ (as.findSome? projectRefOf).toList)
        (l₂ := [])).symm
    | pinnedDrop => simpa [List.filterMap_cons, List.findSome?_cons, Arg.name?, projectOf, projectRefOf, replaceOf] using ih
    | unsafeUnpin => simpa [List.filterMap_cons, List.findSome?_cons, Arg.name?, projectOf, projectRefOf, replaceOf] using ih
    | notUnpin => simpa [List.filterMap_cons, List.findSome?_cons, Arg.name?, projectOf, projectRefOf, replaceOf] using ih
    | projectReplace => simpa [List.filterMap_cons, List.findSome?_cons, Arg.name?, projectOf, projectRefOf, replaceOf] using ih

theorem checkNames_ok {a : ArgAcc} :
    a.checkNames = .ok () ↔
      (a.project.toList ++ (a.projectRef.toList ++ a.prValue.toList)).Nodup := by
  obtain ⟨pd, uu, nu, p, r, v, s⟩ := a
  cases p <;> cases r <;> cases v <;> simp [ArgAcc.checkNames]
  all_goals (try split)
  all_goals (try simp_all)
  all_goals (try split)
  all_goals (try simp_all)

theorem unpinImpl_ok {a : ArgAcc} {u : UnpinImpl} :
    a.unpinImpl = .ok u ↔ ¬ (a.unsafeUnpin = true ∧ a.notUnpin = true) ∧
      u = if a.unsafeUnpin then .unsafe_ else if a.notUnpin then .negative else .default := by
  obtain ⟨pd, uu, nu, p, r, v, s⟩ := a
  cases uu <;> cases nu <;> simp [ArgAcc.unpinImpl, eq_comm]

theorem finish_ok {a : ArgAcc} {A : Args} :
    a.finish = .ok A ↔
      (a.project.toList ++ (a.projectRef.toList ++ a.prValue.toList)).Nodup ∧
      ¬ (a.pinnedDrop = true ∧ a.prSpan = true) ∧ ¬ (a.unsafeUnpin = true ∧ a.notUnpin = true) ∧
      A = { pinnedDrop := a.pinnedDrop
            unpinImpl := if a.unsafeUnpin then .unsafe_ else if a.notUnpin then .negative else .default
            project := a.project
            projectRef := a.projectRef
            projectReplace := a.projectReplace } := by
  unfold ArgAcc.finish
  rw [bind_ok]
  constructor
  · rintro ⟨_, h1, h2⟩
    rw [checkNames_ok] at h1
    split at h2
    · simp at h2
    · rename_i h3
      rw [bind_ok] at h2
      obtain ⟨u, h4, h5⟩ := h2
      rw [unpinImpl_ok] at h4
      simp only [Except.ok.injEq] at h5
      exact ⟨h1, by simpa using h3, h4.1, by rw [← h5, h4.2]⟩
  · rintro ⟨h1, h2, h3, rfl⟩
    refine ⟨(), checkNames_ok.2 h1, ?_⟩
    rw [if_neg (by simpa using h2), bind_ok]
    exact ⟨_, unpinImpl_ok.2 ⟨h3, rfl⟩, rfl⟩

theorem config_project (as : List Arg) : (config as).project = as.findSome? projectOf := rfl

theorem parse_ok_iff {ts : List TT} {A : Args} :
    Args.parse ts = .ok A ↔ ∃ as, ArgsToks as ts ∧ Acceptable as ∧ A = config as := by
  unfold Args.parse
  rw [bind_ok]
  constructor
  · rintro ⟨a, h1, h2⟩
    obtain ⟨as, hts, hnd, rfl⟩ := parseLoop_ok.1 h1
    rw [finish_ok] at h2
    obtain ⟨hn, hd, hu, rfl⟩ := h2
    simp only [fold_project _ _ hnd, fold_projectRef _ _ hnd, fold_prValue _ _ hnd, fold_pinnedDrop,
      fold_prSpan, fold_unsafeUnpin, fold_notUnpin, Option.or_none, Bool.false_or,
      decide_eq_true_eq] at hn hd hu ⊢
    refine ⟨as, hts, ⟨hnd, hd, hu, (names_perm as hnd).nodup_iff.2 hn⟩, ?_⟩
    rw [← config_replace as hnd]
    rfl
  · rintro ⟨as, hts, ⟨hnd, hd, hu, hn⟩, rfl⟩
    refine ⟨_, parseLoop_ok.2 ⟨as, hts, hnd, rfl⟩, ?_⟩
    rw [finish_ok]
    simp only [fold_project _ _ hnd, fold_projectRef _ _ hnd, fold_prValue _ _ hnd, fold_pinnedDrop,
      fold_prSpan, fold_unsafeUnpin, fold_notUnpin, Option.or_none, Bool.false_or,
      decide_eq_true_eq]
    refine ⟨(names_perm as hnd).nodup_iff.1 hn, hd, hu, ?_⟩
    rw [← config_replace as hnd]
    rfl

end PinProject

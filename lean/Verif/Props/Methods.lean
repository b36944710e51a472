import Verif.Props.EvalLemmas
/-!
# The generated methods, and C16
-/
namespace PinProject
open Spec

def projectFn (cx : Ctx) (b : GBody) : GFn :=
  { attrs := ["allow(dead_code)", "inline"], vis := cx.projVis, isUnsafe := false, name := "project"
    ltParam := some cx.lifetime
    recv := .pin .local_ (.ref (some cx.lifetime) true .selfTy), params := []
    ret := .adt cx.mutIdent cx.projGenerics.tyGenerics, unsafeBlock := true, body := b }
def projectRefFn (cx : Ctx) (b : GBody) : GFn :=
  { attrs := ["allow(dead_code)", "inline"], vis := cx.projVis, isUnsafe := false, name := "project_ref"
    ltParam := some cx.lifetime
    recv := .pin .local_ (.ref (some cx.lifetime) false .selfTy), params := []
    ret := .adt cx.refIdent cx.projGenerics.tyGenerics, unsafeBlock := true, body := b }
def projectReplaceFn (cx : Ctx) (b : GBody) : GFn :=
  { attrs := ["allow(dead_code)", "inline"], vis := cx.projVis, isUnsafe := false
    name := "project_replace", ltParam := none
    recv := pinMutSelf none, params := [("__replacement", .selfTy)]
    ret := .adt cx.ownIdent cx.generics.tyGenerics, unsafeBlock := true
    body := { stmts := [ .letVar "__self_ptr" (some "*mut Self") (.getUncheckedMut "self"),
                         .letVar "__guard" none (.overwriteGuard "__self_ptr" "__replacement") ]
                       ++ b.stmts
              tail := b.tail } }

/-- The functions of the generated inherent impl. -/
def implFns (cx : Ctx) (b1 b2 b3 : GBody) : List GFn :=
  (if cx.kind == .enum_ && !cx.project then [] else [projectFn cx b1]) ++
  (if cx.kind == .enum_ && !cx.projectRef then [] else [projectRefFn cx b2]) ++
  (if !cx.projectReplace.isSome || (cx.kind == .enum_ && cx.projectReplace.ident.isNone) then []
   else [projectReplaceFn cx b3])

theorem makeProjImpl_eq (cx : Ctx) (b1 b2 b3 : GBody) :
    makeProjImpl cx b1 b2 b3 = .inherent cx.generics.implGenerics cx.ident cx.generics.tyGenerics
      cx.generics.preds (implFns cx b1 b2 b3) := rfl

/-- Is this the inherent impl? -/
def GItem.isInherent : GItem → Bool
  | .inherent .. => true
  | _ => false

theorem unpin_not_inherent (cx : Ctx) (tys : List Node) :
    ∀ x ∈ makeUnpinImpl cx tys, x.isInherent = false := by
  intro x hx
  unfold makeUnpinImpl at hx
  split at hx <;> simp at hx <;> (try rcases hx with rfl | rfl | rfl) <;> (try rcases hx with rfl | rfl) <;>
    (try subst hx) <;> rfl

theorem drop_not_inherent (cx : Ctx) : ∀ x ∈ makeDropImpl cx, x.isInherent = false := by
  intro x hx
  unfold makeDropImpl at hx
  split at hx <;> simp at hx
  · subst hx; rfl
  · rcases hx with rfl | rfl | rfl | rfl <;> rfl

/-- The search of `method` skips everything but the inherent impl. -/
theorem fns_eq (E : Expansion) (l r : List GItem) (ps : List GParam) (n : String) (as : List GArg)
    (ws : List WPred) (fns : List GFn)
    (hE : E.exposed ++ E.inScope = l ++ .inherent ps n as ws fns :: r)
    (hl : ∀ x ∈ l, x.isInherent = false) (hr : ∀ x ∈ r, x.isInherent = false) :
    (E.exposed ++ E.inScope).flatMap inherentFns = fns := by
  have skip : ∀ l : List GItem, (∀ x ∈ l, x.isInherent = false) → l.flatMap inherentFns = [] := by
    intro l hl
    rw [List.flatMap_eq_nil_iff]
    intro x hx
    have := hl x hx
    cases x <;> first | rfl | simp [GItem.isInherent] at this
  rw [hE, List.flatMap_append, List.flatMap_cons, skip l hl, skip r hr]
  simp [inherentFns]

theorem fns_struct (cx : Ctx) (fs : Fields) :
    ((structExpansion cx fs).exposed ++ (structExpansion cx fs).inScope).flatMap inherentFns =
      implFns cx (projMutBodyS cx fs) (projRefBodyS cx fs) (projOwnBodyS cx fs) := by
  have hE : (structExpansion cx fs).exposed ++ (structExpansion cx fs).inScope =
      ((structExpansion cx fs).exposed ++
        ((if cx.project then [] else [projItemS cx fs]) ++
         (if cx.projectRef then [] else [refItemS cx fs]) ++
         (if cx.projectReplace.ident.isSome then [] else
           if cx.projectReplace.isSome then [ownItemS cx fs] else []))) ++
      implItemS cx fs :: ([assertItem cx fs] ++
        makeUnpinImpl cx (pinnedTys fs.list) ++ makeDropImpl cx) := by
    simp [structExpansion, List.append_assoc]
  refine fns_eq _ _ _ _ _ _ _ _ hE ?_ ?_
  · intro x hx
    simp only [structExpansion, List.mem_append] at hx
    rcases hx with ((hx | hx) | hx) | (hx | hx) | hx
    · split at hx <;> simp at hx; subst hx; rfl
    · split at hx <;> simp at hx; subst hx; rfl
    · split at hx <;> simp at hx; obtain ⟨_, rfl⟩ := hx; rfl
    · split at hx <;> simp at hx; subst hx; rfl
    · split at hx <;> simp at hx; subst hx; rfl
    · split at hx <;> simp at hx; obtain ⟨_, rfl⟩ := hx; rfl
  · intro x hx
    simp only [List.mem_append, List.mem_singleton] at hx
    rcases hx with (rfl | hx) | hx
    · rfl
    · exact unpin_not_inherent _ _ x hx
    · exact drop_not_inherent _ x hx

theorem method_struct (cx : Ctx) (fs : Fields) (name : String) :
    method (structExpansion cx fs) name =
      (implFns cx (projMutBodyS cx fs) (projRefBodyS cx fs) (projOwnBodyS cx fs)).find?
        (fun f => f.name == name) := by
  rw [method, fns_struct]

theorem fns_enum (cx : Ctx) (vs : List Variant) :
    ((enumExpansion cx vs).exposed ++ (enumExpansion cx vs).inScope).flatMap inherentFns =
      implFns cx (projMutBodyE cx vs) (projRefBodyE cx vs) (projOwnBodyE cx vs) := by
  have hE : (enumExpansion cx vs).exposed ++ (enumExpansion cx vs).inScope =
      (enumExpansion cx vs).exposed ++
      implItemE cx vs :: (makeUnpinImpl cx (vs.flatMap (fun v => pinnedTys v.fields.list)) ++
        makeDropImpl cx) := by
    simp [enumExpansion]
  refine fns_eq _ _ _ _ _ _ _ _ hE ?_ ?_
  · intro x hx
    simp only [enumExpansion, List.mem_append] at hx
    rcases hx with (hx | hx) | hx
    · split at hx <;> simp at hx; subst hx; rfl
    · split at hx <;> simp at hx; subst hx; rfl
    · split at hx <;> simp at hx; subst hx; rfl
  · intro x hx
    simp only [List.mem_append] at hx
    rcases hx with hx | hx
    · exact unpin_not_inherent _ _ x hx
    · exact drop_not_inherent _ x hx

theorem method_enum (cx : Ctx) (vs : List Variant) (name : String) :
    method (enumExpansion cx vs) name =
      (implFns cx (projMutBodyE cx vs) (projRefBodyE cx vs) (projOwnBodyE cx vs)).find?
        (fun f => f.name == name) := by
  rw [method, fns_enum]

theorem implFns_project (cx : Ctx) (b1 b2 b3 : GBody) :
    (implFns cx b1 b2 b3).find? (fun f => f.name == "project") =
      if cx.kind == .enum_ && !cx.project then none else some (projectFn cx b1) := by
  unfold implFns
  cases hr : (!cx.projectReplace.isSome || (cx.kind == .enum_ && cx.projectReplace.ident.isNone)) <;>
    cases hk : (cx.kind == TypeKind.enum_) <;> cases cx.project <;> cases cx.projectRef <;>
    simp [projectFn, projectRefFn, projectReplaceFn]

theorem implFns_projectRef (cx : Ctx) (b1 b2 b3 : GBody) :
    (implFns cx b1 b2 b3).find? (fun f => f.name == "project_ref") =
      if cx.kind == .enum_ && !cx.projectRef then none else some (projectRefFn cx b2) := by
  unfold implFns
  cases hr : (!cx.projectReplace.isSome || (cx.kind == .enum_ && cx.projectReplace.ident.isNone)) <;>
    cases hk : (cx.kind == TypeKind.enum_) <;> cases cx.project <;> cases cx.projectRef <;>
    simp [projectFn, projectRefFn, projectReplaceFn]

theorem implFns_projectReplace (cx : Ctx) (b1 b2 b3 : GBody) :
    (implFns cx b1 b2 b3).find? (fun f => f.name == "project_replace") =
      if !cx.projectReplace.isSome || (cx.kind == .enum_ && cx.projectReplace.ident.isNone) then none
      else some (projectReplaceFn cx b3) := by
  unfold implFns
  cases hr : (!cx.projectReplace.isSome || (cx.kind == .enum_ && cx.projectReplace.ident.isNone)) <;>
    cases hk : (cx.kind == TypeKind.enum_) <;> cases cx.project <;> cases cx.projectRef <;>
    simp [projectFn, projectRefFn, projectReplaceFn]

theorem implFns_names (cx : Ctx) (b1 b2 b3 : GBody) :
    ((implFns cx b1 b2 b3).map (·.name)).Sublist ["project", "project_ref", "project_replace"] := by
  unfold implFns
  simp only [List.map_append]
  have : ["project", "project_ref", "project_replace"] = ["project"] ++ ["project_ref"] ++ ["project_replace"] := rfl
  rw [this]
  refine List.Sublist.append (List.Sublist.append ?_ ?_) ?_ <;> split <;>
    simp [projectFn, projectRefFn, projectReplaceFn]

/-! ## C16 -/

/-- **C16** On a struct, `project` and `project_ref` always exist, and `project_replace` exists iff the
argument was given. -/
theorem C16_struct_methods (s : ItemStruct) (E : Expansion) (h : parseDerive (.struct_ s) = .ok E) :
    (method E "project").isSome ∧ (method E "project_ref").isSome ∧
    ∃ A, parseArgs s.attrs = .ok A ∧
      ((method E "project_replace").isSome ↔ A.projectReplace ≠ .none) := by
  obtain ⟨A, h1, -, -, -, -, -, rfl⟩ := (deriveStruct_iff s E).1 h
  simp only [method_struct, implFns_project, implFns_projectRef, implFns_projectReplace]
  have hk : (s.ctx A).kind = .struct_ := rfl
  simp only [hk]
  refine ⟨rfl, rfl, A, h1, ?_⟩
  have : (s.ctx A).projectReplace = A.projectReplace := rfl
  rw [this]
  cases A.projectReplace <;> simp [ProjReplace.isSome]

/-- On an enum each method exists iff the type it returns was named. -/
theorem C16_enum_methods (e : ItemEnum) (E : Expansion) (h : parseDerive (.enum_ e) = .ok E) :
    ∃ A, parseArgs e.attrs = .ok A ∧
      ((method E "project").isSome ↔ ∃ n, A.project = some n) ∧
      ((method E "project_ref").isSome ↔ ∃ n, A.projectRef = some n) ∧
      ((method E "project_replace").isSome ↔ ∃ n, A.projectReplace = .named n) := by
  obtain ⟨A, h1, -, -, -, -, -, -, rfl⟩ := (deriveEnum_iff e E).1 h
  simp only [method_enum, implFns_project, implFns_projectRef, implFns_projectReplace]
  have hk : (e.ctx A).kind = .enum_ := rfl
  have h2 : (e.ctx A).projectReplace = A.projectReplace := rfl
  have h3 : (e.ctx A).project = A.project.isSome := rfl
  have h4 : (e.ctx A).projectRef = A.projectRef.isSome := rfl
  simp only [hk, h2, h3, h4]
  refine ⟨A, h1, ?_, ?_, ?_⟩
  · cases A.project <;> simp
  · cases A.projectRef <;> simp
  · cases A.projectReplace <;> simp [ProjReplace.isSome, ProjReplace.ident]

/-- **C16** In terms of the arguments the user wrote. -/
theorem C16_written (item : Item) (E : Expansion) (h : parseDerive item = .ok E) (args : List TT)
    (hw : Written args item) :
    ∃ as, ArgsToks as args ∧
      ((method E "project").isSome ↔ isStruct item ∨ ∃ n, .project n ∈ as) ∧
      ((method E "project_ref").isSome ↔ isStruct item ∨ ∃ n, .projectRef n ∈ as) ∧
      ((method E "project_replace").isSome ↔ .projectReplace ∈ as ∨ ∃ n, .projectReplaceNamed n ∈ as) := by
  cases item with
  | other a => simp [parseDerive] at h
  | struct_ s =>
    obtain ⟨h1, h2, A, hA, h3⟩ := C16_struct_methods s E h
    obtain ⟨as, ha, hacc, rfl⟩ := (C05_config args (.struct_ s) hw A).1 hA
    refine ⟨as, ha, by simp [h1, isStruct], by simp [h2, isStruct], ?_⟩
    rw [h3, ← config_unnamed as hacc]
    simp only [← config_named as _ hacc]
    cases (config as).projectReplace <;> simp
  | enum_ e =>
    obtain ⟨A, hA, h1, h2, h3⟩ := C16_enum_methods e E h
    obtain ⟨as, ha, hacc, rfl⟩ := (C05_config args (.enum_ e) hw A).1 hA
    refine ⟨as, ha, ?_, ?_, ?_⟩
    · rw [h1]; simp [isStruct, config_project_iff as _ hacc]
    · rw [h2]; simp [isStruct, config_projectRef_iff as _ hacc]
    · rw [h3, ← config_unnamed as hacc]
      simp only [← config_named as _ hacc]
      have := (C16_enum_unnamed_replace_rejected e _ hA)
      constructor
      · intro h; exact .inr h
      · rintro (hu | h)
        · exact absurd h (fun _ => this hu E ‹_›)
        · exact h

/-- No other method is generated, and none twice. -/
theorem C16_no_other_method (item : Item) (E : Expansion) (h : parseDerive item = .ok E) :
    ∀ ps n as ws fns, GItem.inherent ps n as ws fns ∈ E.exposed ++ E.inScope →
      itemName item = some n ∧ (fns.map (·.name)).Sublist ["project", "project_ref", "project_replace"] := by
  intro ps n as ws fns hm
  cases item with
  | other a => simp [parseDerive] at h
  | struct_ s =>
    obtain ⟨A, h1, -, -, -, -, -, rfl⟩ := (deriveStruct_iff s E).1 h
    simp only [structExpansion, List.mem_append, List.mem_singleton] at hm
    rcases hm with ((hm | hm) | hm) | ((((((hm | hm) | hm) | hm) | hm) | hm) | hm)
    case inr.inl.inl.inl.inr =>
      rw [implItemS, makeProjImpl_eq] at hm
      injection hm with _ hn _ _ hf
      subst hn hf
      exact ⟨rfl, implFns_names _ _ _ _⟩
    case inr.inl.inl.inr => cases hm
    case inr.inl.inr => have := unpin_not_inherent _ _ _ hm; cases this
    case inr.inr => have := drop_not_inherent _ _ hm; cases this
    all_goals (split at hm <;> simp [projItemS, refItemS, ownItemS] at hm)
  | enum_ e =>
    obtain ⟨A, h1, -, -, -, -, -, -, rfl⟩ := (deriveEnum_iff e E).1 h
    simp only [enumExpansion, List.mem_append, List.mem_singleton] at hm
    rcases hm with ((hm | hm) | hm) | ((hm | hm) | hm)
    case inr.inl.inl =>
      rw [implItemE, makeProjImpl_eq] at hm
      injection hm with _ hn _ _ hf
      subst hn hf
      exact ⟨rfl, implFns_names _ _ _ _⟩
    case inr.inl.inr => have := unpin_not_inherent _ _ _ hm; cases this
    case inr.inr => have := drop_not_inherent _ _ hm; cases this
    all_goals (split at hm <;> simp [projItemE, refItemE, ownItemE] at hm)

/-- **C16** No method is generated twice. -/
theorem C16_once (item : Item) (E : Expansion) (h : parseDerive item = .ok E) :
    (((E.exposed ++ E.inScope).flatMap inherentFns).map (·.name)).Sublist ["project", "project_ref", "project_replace"] := by
  cases item with
  | other a => simp [parseDerive] at h
  | struct_ s =>
    obtain ⟨A, h1, -, -, -, -, -, rfl⟩ := (deriveStruct_iff s E).1 h
    rw [fns_struct]
    exact implFns_names _ _ _ _
  | enum_ e =>
    obtain ⟨A, h1, -, -, -, -, -, -, rfl⟩ := (deriveEnum_iff e E).1 h
    rw [fns_enum]
    exact implFns_names _ _ _ _

example : ∃ E, parseDerive (.enum_ demoEnum) = .ok E ∧ (method E "project").isSome ∧
    ¬ (method E "project_ref").isSome := by
  refine ⟨_, rfl, ?_, ?_⟩ <;> decide
example : ∃ E, parseDerive (.struct_ demoStruct) = .ok E ∧ (method E "project_ref").isSome ∧
    ¬ (method E "project_replace").isSome := by
  refine ⟨_, rfl, ?_, ?_⟩ <;> decide

end PinProject

import Verif.Props.Unpin
import Verif.Spec.Independence
/-!
# C87: arguments are independent of one another

An argument changes what it is about, and nothing else.
-/
namespace PinProject
open Spec

namespace Independence

/-- Both expansions, side by side. -/
theorem both {item item' : Item} {E E' : Expansion} (hs : SameDefinition item item') (h : parseDerive item = .ok E)
    (h' : parseDerive item' = .ok E') :
    ∃ A A' a a' v i g, parseArgs (itemAttrs item) = .ok A ∧ parseArgs (itemAttrs item') = .ok A' ∧
      ((∃ fs, E = structExpansion (mkCtx A a v i g .struct_) fs ∧ E' = structExpansion (mkCtx A' a' v i g .struct_) fs) ∨
       (∃ vs, E = enumExpansion (mkCtx A a v i g .enum_) vs ∧ E' = enumExpansion (mkCtx A' a' v i g .enum_) vs)) := by
  cases item with
  | other a => cases h
  | struct_ s =>
    cases item' with
    | other a => cases h'
    | enum_ e => exact hs.elim
    | struct_ s' =>
      obtain ⟨A, h1, -, -, -, -, -, rfl⟩ := (deriveStruct_iff s E).1 h
      obtain ⟨A', h1', -, -, -, -, -, rfl⟩ := (deriveStruct_iff s' E').1 h'
      obtain ⟨e1, e2, e3, e4⟩ := hs
      cases s
      cases s'
      simp only at e1 e2 e3 e4
      subst e1 e2 e3 e4
      exact ⟨A, A', _, _, _, _, _, h1, h1', .inl ⟨_, rfl, rfl⟩⟩
  | enum_ s =>
    cases item' with
    | other a => cases h'
    | struct_ e => exact hs.elim
    | enum_ s' =>
      obtain ⟨A, h1, -, -, -, -, -, -, rfl⟩ := (deriveEnum_iff s E).1 h
      obtain ⟨A', h1', -, -, -, -, -, -, rfl⟩ := (deriveEnum_iff s' E').1 h'
      obtain ⟨e1, e2, e3, e4⟩ := hs
      cases s
      cases s'
      simp only at e1 e2 e3 e4
      subst e1 e2 e3 e4
      exact ⟨A, A', _, _, _, _, _, h1, h1', .inr ⟨_, rfl, rfl⟩⟩

/-- What the configuration says about a topic. -/
def Same (A A' : Args) : Topic → Prop
  | .projection .proj => A.project = A'.project
  | .projection .projRef => A.projectRef = A'.projectRef
  | .projection .replace => A.projectReplace = A'.projectReplace
  | .unpin => A.unpinImpl = A'.unpinImpl
  | .drop => A.pinnedDrop = A'.pinnedDrop

theorem same {as as' : List Arg} (h : Acceptable as) (h' : Acceptable as') {t : Topic} (ha : AgreeOn t as as') :
    Same (config as) (config as') t := by
  match t with
  | .projection .proj =>
    show (config as).project = (config as').project
    apply Option.ext
    intro n
    rw [config_project_iff as n h, config_project_iff as' n h', ha _ rfl]
  | .projection .projRef =>
    show (config as).projectRef = (config as').projectRef
    apply Option.ext
    intro n
    rw [config_projectRef_iff as n h, config_projectRef_iff as' n h', ha _ rfl]
  | .projection .replace =>
    show (config as).projectReplace = (config as').projectReplace
    have h1 := ha .projectReplace rfl
    rw [← config_unnamed as h, ← config_unnamed as' h'] at h1
    have h2 : ∀ n, _ := fun n => ha (.projectReplaceNamed n) rfl
    simp only [← config_named as _ h, ← config_named as' _ h'] at h2
    cases hc : (config as).projectReplace with
    | unnamed => exact (h1.1 hc).symm
    | named n => exact ((h2 n).1 hc).symm
    | none =>
      cases hc' : (config as').projectReplace with
      | unnamed => rw [h1.2 hc'] at hc; cases hc
      | named n => rw [(h2 n).2 hc'] at hc; cases hc
      | none => rfl
  | .unpin =>
    show (config as).unpinImpl = (config as').unpinImpl
    simp only [config, ha .unsafeUnpin rfl, ha .notUnpin rfl]
  | .drop =>
    show (config as).pinnedDrop = (config as').pinnedDrop
    simp only [config, ha .pinnedDrop rfl]

/-- The configurations of two accepted items. -/
theorem sameOf {item item' : Item} {toks toks' : List TT} (hw : Written toks item) (hw' : Written toks' item')
    {as as' : List Arg} (ha : ArgsToks as toks) (ha' : ArgsToks as' toks') {t : Topic} (hag : AgreeOn t as as')
    {A A' : Args} (h : parseArgs (itemAttrs item) = .ok A) (h' : parseArgs (itemAttrs item') = .ok A') : Same A A' t := by
  obtain ⟨bs, h1, h2, rfl⟩ := (C05_config toks item hw A).1 h
  obtain ⟨bs', h1', h2', rfl⟩ := (C05_config toks' item' hw' A').1 h'
  rw [argsToks_unique h1 ha] at h2 ⊢
  rw [argsToks_unique h1' ha'] at h2' ⊢
  exact same h2 h2' hag

/-! ## Filters -/

theorem filter_nil {p : GItem → Bool} {l : List GItem} (h : ∀ i ∈ l, p i = false) : l.filter p = [] :=
  List.filter_eq_nil_iff.2 (fun i hi => by rw [h i hi]; simp)

/-- Trait impls and the like are only in the last two parts. -/
theorem filter_struct {p : GItem → Bool} (cx : Ctx) (fs : Fields)
    (h : ∀ i : GItem, i.noImpl = true → (∀ n, i ≠ .traitDef n) → packedItem i = false → p i = false) :
    (allItems (structExpansion cx fs)).filter p =
      [assertItem cx fs].filter p ++ ((makeUnpinImpl cx (pinnedTys fs.list)).filter p ++ (makeDropImpl cx).filter p) := by
  have e1 : p (projItemS cx fs) = false := h _ rfl (fun _ h => by cases h) rfl
  have e2 : p (refItemS cx fs) = false := h _ rfl (fun _ h => by cases h) rfl
  have e3 : p (ownItemS cx fs) = false := h _ rfl (fun _ h => by cases h) rfl
  have e4 : p (implItemS cx fs) = false := h _ rfl (fun _ h => by cases h) rfl
  unfold allItems structExpansion
  cases hq : p (assertItem cx fs) <;> cases cx.project <;> cases cx.projectRef <;> cases cx.projectReplace.ident.isSome <;>
    cases cx.projectReplace.isSome <;> simp [e1, e2, e3, e4, hq]

theorem filter_enum {p : GItem → Bool} (cx : Ctx) (vs : List Variant)
    (h : ∀ i : GItem, i.noImpl = true → (∀ n, i ≠ .traitDef n) → packedItem i = false → p i = false) :
    (allItems (enumExpansion cx vs)).filter p =
      (makeUnpinImpl cx (vs.flatMap (fun v => pinnedTys v.fields.list))).filter p ++ (makeDropImpl cx).filter p := by
  have e1 : p (projItemE cx vs) = false := h _ rfl (fun _ h => by cases h) rfl
  have e2 : p (refItemE cx vs) = false := h _ rfl (fun _ h => by cases h) rfl
  have e3 : p (ownItemE cx vs) = false := h _ rfl (fun _ h => by cases h) rfl
  have e4 : p (implItemE cx vs) = false := h _ rfl (fun _ h => by cases h) rfl
  unfold allItems enumExpansion
  cases cx.project <;> cases cx.projectRef <;> cases cx.projectReplace.ident.isSome <;>
    simp [e1, e2, e3, e4]

theorem drop_unpin (cx : Ctx) : (makeDropImpl cx).filter unpinItem = [] := by
  unfold makeDropImpl
  cases cx.pinnedDrop <;> rfl

theorem unpin_drop (cx : Ctx) (tys : List Node) : (makeUnpinImpl cx tys).filter dropItem = [] := by
  unfold makeUnpinImpl
  cases cx.unpinImpl <;> rfl

theorem drop_packed (cx : Ctx) : (makeDropImpl cx).filter packedItem = [] := by
  unfold makeDropImpl
  cases cx.pinnedDrop <;> rfl

theorem unpin_packed (cx : Ctx) (tys : List Node) : (makeUnpinImpl cx tys).filter packedItem = [] := by
  unfold makeUnpinImpl
  cases cx.unpinImpl <;> rfl

theorem unpin_header (cx : Ctx) (tys : List Node) : (makeUnpinImpl cx tys).filterMap inherentHeader = [] := by
  unfold makeUnpinImpl
  cases cx.unpinImpl <;> rfl

theorem drop_header (cx : Ctx) : (makeDropImpl cx).filterMap inherentHeader = [] := by
  unfold makeDropImpl
  cases cx.pinnedDrop <;> rfl

theorem header_struct (cx : Ctx) (fs : Fields) : (allItems (structExpansion cx fs)).filterMap inherentHeader =
    [(cx.generics.implGenerics, cx.ident, cx.generics.tyGenerics, cx.generics.preds)] := by
  unfold allItems structExpansion
  cases cx.project <;> cases cx.projectRef <;> cases cx.projectReplace.ident.isSome <;> cases cx.projectReplace.isSome <;>
    simp [List.filterMap_append, List.filterMap_cons, unpin_header, drop_header, projItemS, refItemS, ownItemS, assertItem,
      implItemS, makeProjImpl_eq, inherentHeader]

theorem header_enum (cx : Ctx) (vs : List Variant) : (allItems (enumExpansion cx vs)).filterMap inherentHeader =
    [(cx.generics.implGenerics, cx.ident, cx.generics.tyGenerics, cx.generics.preds)] := by
  unfold allItems enumExpansion
  cases cx.project <;> cases cx.projectRef <;> cases cx.projectReplace.ident.isSome <;>
    simp [List.filterMap_append, List.filterMap_cons, unpin_header, drop_header, projItemE, refItemE, ownItemE,
      implItemE, makeProjImpl_eq, inherentHeader]

theorem noImpl_unpin {i : GItem} (h : i.noImpl = true) : unpinItem i = false := by
  cases i <;> first | rfl | cases h

theorem noImpl_drop {i : GItem} (h : i.noImpl = true) (h' : ∀ n, i ≠ .traitDef n) : dropItem i = false := by
  cases i <;> first | rfl | exact absurd rfl (h' _) | cases h

theorem unpin_eq {A A' : Args} (hA : A.unpinImpl = A'.unpinImpl) (a a' : List Attribute) (v : Vis) (i : String) (g : Generics)
    (k : TypeKind) (tys : List Node) : makeUnpinImpl (mkCtx A a v i g k) tys = makeUnpinImpl (mkCtx A' a' v i g k) tys := by
  simp only [makeUnpinImpl, mkCtx, hA]

theorem drop_eq {A A' : Args} (hA : A.pinnedDrop = A'.pinnedDrop) (a a' : List Attribute) (v : Vis) (i : String) (g : Generics)
    (k : TypeKind) : makeDropImpl (mkCtx A a v i g k) = makeDropImpl (mkCtx A' a' v i g k) := by
  unfold makeDropImpl mkCtx
  simp only
  rw [hA]

/-- The helper struct is defined beside the impls. -/
theorem helper_def (cx : Ctx) (tys : List Node) (i : GItem) (hi : i ∈ makeUnpinImpl cx tys) (n : String) (hn : helper? i = some n) :
    ∃ d ∈ makeUnpinImpl cx tys, DefinesType n d := by
  unfold makeUnpinImpl at hi ⊢
  cases hu : cx.unpinImpl with
  | unsafe_ =>
    rw [hu] at hi
    simp only [List.mem_singleton] at hi
    subst hi
    simp [helper?] at hn
  | negative =>
    rw [hu] at hi
    simp only [List.mem_cons, List.not_mem_nil, or_false] at hi
    rcases hi with rfl | rfl <;> simp [helper?] at hn
  | default =>
    rw [hu] at hi
    refine ⟨_, List.mem_cons_self, _, rfl, ?_⟩
    simp only [List.mem_cons, List.not_mem_nil, or_false] at hi
    rcases hi with rfl | rfl | rfl
    · simp [helper?] at hn
    · simpa [helper?] using hn
    · simpa [helper?] using hn

/-! ## Projections -/

section

variable {A A' : Args} {a a' : List Attribute} {v : Vis} {i : String} {g : Generics}

theorem struct_mode {fs : Fields} (mode : Mode) (hs : Same A A' (.projection mode)) :
    let cx := mkCtx A a v i g .struct_
    let cx' := mkCtx A' a' v i g .struct_
    let E := structExpansion cx fs
    let E' := structExpansion cx' fs
    let F := (implFns cx (projMutBodyS cx fs) (projRefBodyS cx fs) (projOwnBodyS cx fs)).find? (fun f => f.name == mode.fn)
    let F' := (implFns cx' (projMutBodyS cx' fs) (projRefBodyS cx' fs) (projOwnBodyS cx' fs)).find? (fun f => f.name == mode.fn)
    F = F' ∧ ∀ fn, F = some fn → ∃ n args d, fn.ret = .adt n args ∧ DefinesType n d ∧
      (d ∈ E.exposed ∧ d ∈ E'.exposed ∨ d ∈ E.inScope ∧ d ∈ E'.inScope) := by
  intro cx cx' E E' F F'
  cases mode with
  | proj =>
    have hs : A.project = A'.project := hs
    have e : projectFn cx (projMutBodyS cx fs) = projectFn cx' (projMutBodyS cx' fs) := by
      simp only [cx, cx', projectFn, projMutBodyS, mkCtx, hs]
      rfl
    have hF : F = some (projectFn cx (projMutBodyS cx fs)) := implFns_project _ _ _ _
    have hF' : F' = some (projectFn cx' (projMutBodyS cx' fs)) := implFns_project _ _ _ _
    refine ⟨by rw [hF, hF', e], fun fn hfn => ?_⟩
    rw [hF] at hfn
    cases hfn
    have hd : projItemS cx fs = projItemS cx' fs := by
      simp only [cx, cx', projItemS, projAllowedLints, mkCtx, hs]
      rfl
    refine ⟨_, _, projItemS cx fs, rfl, ⟨_, rfl, rfl⟩, ?_⟩
    have hp : cx.project = cx'.project := by simp only [cx, cx', mkCtx, hs]
    cases hc : cx.project
    · right
      constructor
      · simp [E, structExpansion, hc]
      · rw [hd]
        simp [E', structExpansion, ← hp, hc]
    · left
      constructor
      · simp [E, structExpansion, hc]
      · rw [hd]
        simp [E', structExpansion, ← hp, hc]
  | projRef =>
    have hs : A.projectRef = A'.projectRef := hs
    have e : projectRefFn cx (projRefBodyS cx fs) = projectRefFn cx' (projRefBodyS cx' fs) := by
      simp only [cx, cx', projectRefFn, projRefBodyS, mkCtx, hs]
      rfl
    have hF : F = some (projectRefFn cx (projRefBodyS cx fs)) := implFns_projectRef _ _ _ _
    have hF' : F' = some (projectRefFn cx' (projRefBodyS cx' fs)) := implFns_projectRef _ _ _ _
    refine ⟨by rw [hF, hF', e], fun fn hfn => ?_⟩
    rw [hF] at hfn
    cases hfn
    have hd : refItemS cx fs = refItemS cx' fs := by
      simp only [cx, cx', refItemS, projAllowedLints, mkCtx, hs]
      rfl
    refine ⟨_, _, refItemS cx fs, rfl, ⟨_, rfl, rfl⟩, ?_⟩
    have hp : cx.projectRef = cx'.projectRef := by simp only [cx, cx', mkCtx, hs]
    cases hc : cx.projectRef
    · right
      constructor
      · simp [E, structExpansion, hc]
      · rw [hd]
        simp [E', structExpansion, ← hp, hc]
    · left
      constructor
      · simp [E, structExpansion, hc]
      · rw [hd]
        simp [E', structExpansion, ← hp, hc]
  | replace =>
    have hs : A.projectReplace = A'.projectReplace := hs
    have e : projectReplaceFn cx (projOwnBodyS cx fs) = projectReplaceFn cx' (projOwnBodyS cx' fs) := by
      simp only [cx, cx', projectReplaceFn, projOwnBodyS, projectedOf, projOwnBody, mkCtx, hs]
    have hp : cx.projectReplace = cx'.projectReplace := hs
    have hF : F = _ := implFns_projectReplace cx _ _ _
    have hF' : F' = _ := implFns_projectReplace cx' _ _ _
    refine ⟨by rw [hF, hF', e, hp]; rfl, fun fn hfn => ?_⟩
    rw [hF] at hfn
    split at hfn
    · cases hfn
    rename_i hc
    cases hfn
    have hd : ownItemS cx fs = ownItemS cx' fs := by
      simp only [cx, cx', ownItemS, projAllowedLints, mkCtx, hs]
      rfl
    refine ⟨_, _, ownItemS cx fs, rfl, ⟨_, rfl, rfl⟩, ?_⟩
    have hsome : cx.projectReplace.isSome = true := by
      cases h : cx.projectReplace.isSome
      · simp [h] at hc
      · rfl
    cases hc : cx.projectReplace.ident.isSome
    · right
      constructor
      · simp [E, structExpansion, hc, hsome]
      · rw [hd]
        simp [E', structExpansion, ← hp, hc, hsome]
    · left
      constructor
      · simp [E, structExpansion, hc, hsome]
      · rw [hd]
        simp [E', structExpansion, ← hp, hc, hsome]

theorem enum_mode {vs : List Variant} (mode : Mode) (hs : Same A A' (.projection mode)) :
    let cx := mkCtx A a v i g .enum_
    let cx' := mkCtx A' a' v i g .enum_
    let E := enumExpansion cx vs
    let E' := enumExpansion cx' vs
    let F := (implFns cx (projMutBodyE cx vs) (projRefBodyE cx vs) (projOwnBodyE cx vs)).find? (fun f => f.name == mode.fn)
    let F' := (implFns cx' (projMutBodyE cx' vs) (projRefBodyE cx' vs) (projOwnBodyE cx' vs)).find? (fun f => f.name == mode.fn)
    F = F' ∧ ∀ fn, F = some fn → ∃ n args d, fn.ret = .adt n args ∧ DefinesType n d ∧
      (d ∈ E.exposed ∧ d ∈ E'.exposed ∨ d ∈ E.inScope ∧ d ∈ E'.inScope) := by
  intro cx cx' E E' F F'
  cases mode with
  | proj =>
    have hs : A.project = A'.project := hs
    have e : projectFn cx (projMutBodyE cx vs) = projectFn cx' (projMutBodyE cx' vs) := by
      have : armMut cx = armMut cx' := by
        funext v
        simp only [cx, cx', armMut, mkCtx, hs]
        rfl
      simp only [projectFn, projMutBodyE, this]
      simp only [cx, cx', mkCtx, hs]
    have hp : cx.project = cx'.project := by simp only [cx, cx', mkCtx, hs]
    have hF : F = _ := implFns_project cx _ _ _
    have hF' : F' = _ := implFns_project cx' _ _ _
    refine ⟨by rw [hF, hF', e, hp]; rfl, fun fn hfn => ?_⟩
    rw [hF] at hfn
    split at hfn
    · cases hfn
    rename_i hc
    cases hfn
    have hd : projItemE cx vs = projItemE cx' vs := by
      simp only [cx, cx', projItemE, projAllowedLints, mkCtx, hs]
      rfl
    have hsome : cx.project = true := by
      cases h : cx.project
      · exact absurd (by rw [h]; rfl) hc
      · rfl
    refine ⟨_, _, projItemE cx vs, rfl, ⟨_, rfl, rfl⟩, .inl ⟨?_, ?_⟩⟩
    · simp [E, enumExpansion, hsome]
    · rw [hd]
      simp [E', enumExpansion, ← hp, hsome]
  | projRef =>
    have hs : A.projectRef = A'.projectRef := hs
    have e : projectRefFn cx (projRefBodyE cx vs) = projectRefFn cx' (projRefBodyE cx' vs) := by
      have : armRef cx = armRef cx' := by
        funext v
        simp only [cx, cx', armRef, mkCtx, hs]
        rfl
      simp only [projectRefFn, projRefBodyE, this]
      simp only [cx, cx', mkCtx, hs]
    have hp : cx.projectRef = cx'.projectRef := by simp only [cx, cx', mkCtx, hs]
    have hF : F = _ := implFns_projectRef cx _ _ _
    have hF' : F' = _ := implFns_projectRef cx' _ _ _
    refine ⟨by rw [hF, hF', e, hp]; rfl, fun fn hfn => ?_⟩
    rw [hF] at hfn
    split at hfn
    · cases hfn
    rename_i hc
    cases hfn
    have hd : refItemE cx vs = refItemE cx' vs := by
      simp only [cx, cx', refItemE, projAllowedLints, mkCtx, hs]
      rfl
    have hsome : cx.projectRef = true := by
      cases h : cx.projectRef
      · exact absurd (by rw [h]; rfl) hc
      · rfl
    refine ⟨_, _, refItemE cx vs, rfl, ⟨_, rfl, rfl⟩, .inl ⟨?_, ?_⟩⟩
    · simp [E, enumExpansion, hsome]
    · rw [hd]
      simp [E', enumExpansion, ← hp, hsome]
  | replace =>
    have hs : A.projectReplace = A'.projectReplace := hs
    have e : projectReplaceFn cx (projOwnBodyE cx vs) = projectReplaceFn cx' (projOwnBodyE cx' vs) := by
      have : armOwn cx = armOwn cx' := by
        funext v
        simp only [cx, cx', armOwn, projectedOf, projOwnBody, mkCtx, hs]
      simp only [projectReplaceFn, projOwnBodyE, this]
      simp only [cx, cx', mkCtx, hs]
    have hp : cx.projectReplace = cx'.projectReplace := hs
    have hF : F = _ := implFns_projectReplace cx _ _ _
    have hF' : F' = _ := implFns_projectReplace cx' _ _ _
    refine ⟨by rw [hF, hF', e, hp]; rfl, fun fn hfn => ?_⟩
    rw [hF] at hfn
    split at hfn
    · cases hfn
    rename_i hc
    cases hfn
    have hd : ownItemE cx vs = ownItemE cx' vs := by
      simp only [cx, cx', ownItemE, projAllowedLints, mkCtx, hs]
      rfl
    have hsome : cx.projectReplace.ident.isSome = true := by
      cases h : cx.projectReplace.ident
      · exact absurd (by rw [h, show cx.kind = .enum_ from rfl]; simp) hc
      · rfl
    refine ⟨_, _, ownItemE cx vs, rfl, ⟨_, rfl, rfl⟩, .inl ⟨?_, ?_⟩⟩
    · simp [E, enumExpansion, hsome]
    · rw [hd]
      simp [E', enumExpansion, ← hp, hsome]

end

end Independence

section

variable {item item' : Item} {E E' : Expansion} (h : parseDerive item = .ok E) (h' : parseDerive item' = .ok E')
  (hs : SameDefinition item item') {toks toks' : List TT} (hw : Written toks item) (hw' : Written toks' item')
  {as as' : List Arg} (ha : ArgsToks as toks) (ha' : ArgsToks as' toks')
include h h' hs hw hw' ha ha'

/-- **C87** A projection method, and the type it returns, depend on the definition and on the argument for this method; not on
the other arguments. -/
theorem C87_projection (mode : Mode) (hag : AgreeOn (.projection mode) as as') :
    method E mode.fn = method E' mode.fn ∧
    ∀ fn, method E mode.fn = some fn → ∃ n args d, fn.ret = .adt n args ∧ DefinesType n d ∧
      (d ∈ E.exposed ∧ d ∈ E'.exposed ∨ d ∈ E.inScope ∧ d ∈ E'.inScope) := by
  obtain ⟨A, A', a, a', v, i, g, hA, hA', hE⟩ := Independence.both hs h h'
  have hsame := Independence.sameOf hw hw' ha ha' hag hA hA'
  rcases hE with ⟨fs, rfl, rfl⟩ | ⟨vs, rfl, rfl⟩
  · rw [method_struct, method_struct]
    exact Independence.struct_mode mode hsame
  · rw [method_enum, method_enum]
    exact Independence.enum_mode mode hsame

/-- **C87** The impls of `Unpin` and `UnsafeUnpin`, and the helper type in them, depend on the definition and on the argument
`UnsafeUnpin` or `!Unpin`. -/
theorem C87_unpin (hag : AgreeOn .unpin as as') :
    (allItems E).filter unpinItem = (allItems E').filter unpinItem ∧
    ∀ i ∈ (allItems E).filter unpinItem, ∀ n, helper? i = some n → ∃ d ∈ E.inScope, d ∈ E'.inScope ∧ DefinesType n d := by
  obtain ⟨A, A', a, a', v, i, g, hA, hA', hE⟩ := Independence.both hs h h'
  have hsame := Independence.sameOf hw hw' ha ha' hag hA hA'
  have hu := Independence.unpin_eq hsame a a' v i g
  rcases hE with ⟨fs, rfl, rfl⟩ | ⟨vs, rfl, rfl⟩
  · rw [Independence.filter_struct _ _ (fun i h _ _ => Independence.noImpl_unpin h),
      Independence.filter_struct _ _ (fun i h _ _ => Independence.noImpl_unpin h), Independence.drop_unpin,
      Independence.drop_unpin, ← hu]
    refine ⟨rfl, ?_⟩
    intro j hj n hn
    simp only [List.append_nil, List.mem_append] at hj
    rcases hj with hj | hj
    · cases hj
    obtain ⟨d, hd, hd'⟩ := Independence.helper_def _ _ j (List.mem_filter.1 hj).1 n hn
    refine ⟨d, ?_, ?_, hd'⟩
    · exact List.mem_append_left _ (List.mem_append_right _ hd)
    · rw [hu] at hd
      exact List.mem_append_left _ (List.mem_append_right _ hd)
  · rw [Independence.filter_enum _ _ (fun i h _ _ => Independence.noImpl_unpin h),
      Independence.filter_enum _ _ (fun i h _ _ => Independence.noImpl_unpin h), Independence.drop_unpin,
      Independence.drop_unpin, ← hu]
    refine ⟨rfl, ?_⟩
    intro j hj n hn
    simp only [List.append_nil] at hj
    obtain ⟨d, hd, hd'⟩ := Independence.helper_def _ _ j (List.mem_filter.1 hj).1 n hn
    refine ⟨d, ?_, ?_, hd'⟩
    · exact List.mem_append_left _ (List.mem_append_right _ hd)
    · rw [hu] at hd
      exact List.mem_append_left _ (List.mem_append_right _ hd)

/-- **C87** What concerns `Drop` depends on the definition and on the argument `PinnedDrop`. -/
theorem C87_drop (hag : AgreeOn .drop as as') : (allItems E).filter dropItem = (allItems E').filter dropItem := by
  obtain ⟨A, A', a, a', v, i, g, hA, hA', hE⟩ := Independence.both hs h h'
  have hsame := Independence.sameOf hw hw' ha ha' hag hA hA'
  have hd := Independence.drop_eq hsame a a' v i g
  rcases hE with ⟨fs, rfl, rfl⟩ | ⟨vs, rfl, rfl⟩
  · rw [Independence.filter_struct _ _ (fun i h h' _ => Independence.noImpl_drop h h'),
      Independence.filter_struct _ _ (fun i h h' _ => Independence.noImpl_drop h h'), Independence.unpin_drop,
      Independence.unpin_drop, hd]
    rfl
  · rw [Independence.filter_enum _ _ (fun i h h' _ => Independence.noImpl_drop h h'),
      Independence.filter_enum _ _ (fun i h h' _ => Independence.noImpl_drop h h'), Independence.unpin_drop,
      Independence.unpin_drop, hd]

omit hw hw' ha ha' in
/-- **C87** The check for packed structs and the header of the impl with the methods depend on the definition only. -/
theorem C87_rest : (allItems E).filter packedItem = (allItems E').filter packedItem ∧
    (allItems E).filterMap inherentHeader = (allItems E').filterMap inherentHeader := by
  obtain ⟨A, A', a, a', v, i, g, hA, hA', hE⟩ := Independence.both hs h h'
  rcases hE with ⟨fs, rfl, rfl⟩ | ⟨vs, rfl, rfl⟩
  · rw [Independence.filter_struct _ _ (fun i _ _ h => h), Independence.filter_struct _ _ (fun i _ _ h => h),
      Independence.unpin_packed, Independence.unpin_packed, Independence.drop_packed, Independence.drop_packed]
    exact ⟨rfl, by rw [Independence.header_struct, Independence.header_struct]; rfl⟩
  · rw [Independence.filter_enum _ _ (fun i _ _ h => h), Independence.filter_enum _ _ (fun i _ _ h => h),
      Independence.unpin_packed, Independence.unpin_packed, Independence.drop_packed, Independence.drop_packed]
    exact ⟨rfl, by rw [Independence.header_enum, Independence.header_enum]; rfl⟩

end

/-- `#[pin_project(project = P)]` and `#[pin_project(project = P, !Unpin, PinnedDrop)]`. -/
def demoArgs : List TT := [.ident "project", .punct '=' false, .ident "P"]
def demoArgs' : List TT :=
  [.ident "project", .punct '=' false, .ident "P", .punct ',' false, .punct '!' false, .ident "Unpin", .punct ',' false,
    .ident "PinnedDrop"]

theorem demoArgs_toks : ArgsToks [.project "P"] demoArgs ∧ ArgsToks [.project "P", .notUnpin, .pinnedDrop] demoArgs' :=
  ⟨.last (.project _ _ (by decide)),
    .cons (ts := [.ident "project", .punct '=' false, .ident "P"]) _ (.project _ _ (by decide))
      (.cons (ts := [.punct '!' false, .ident "Unpin"]) _ (.notUnpin _) (.last .pinnedDrop))⟩

def demoWith (toks : List TT) : Item := .struct_ { demoReplace with attrs := [pinPrivateAttr toks] }

/-- The hypotheses of the theorems are met; the projections agree, .. -/
example : ∃ E E', parseDerive (demoWith demoArgs) = .ok E ∧ parseDerive (demoWith demoArgs') = .ok E' ∧
    SameDefinition (demoWith demoArgs) (demoWith demoArgs') ∧ Written demoArgs (demoWith demoArgs) ∧
    Written demoArgs' (demoWith demoArgs') ∧ (∃ fn, method E "project" = some fn ∧ method E' "project" = some fn) ∧
    (∃ fn, method E "project_ref" = some fn ∧ method E' "project_ref" = some fn) :=
  ⟨_, _, rfl, rfl, ⟨rfl, rfl, rfl, rfl⟩, rfl, rfl, ⟨_, rfl, rfl⟩, _, rfl, rfl⟩

example : ∀ mode, AgreeOn (.projection mode) [.project "P"] [.project "P", .notUnpin, .pinnedDrop] := by
  intro mode a ha
  cases a <;> simp [Arg.topic] at ha ⊢

/-- .. and what concerns `Drop` and `Unpin` does not: about these, the arguments disagree. -/
example : ∃ E E', parseDerive (demoWith demoArgs) = .ok E ∧ parseDerive (demoWith demoArgs') = .ok E' ∧
    ((allItems E).filter dropItem).length = 4 ∧ ((allItems E').filter dropItem).length = 1 ∧
    ((allItems E).filter unpinItem).map helper? = [some "__R", some "__R"] ∧
    ((allItems E').filter unpinItem).map helper? = [none, none] :=
  ⟨_, _, rfl, rfl, rfl, rfl, rfl, rfl⟩

/-- An enum, with another projection and another kind of `Unpin`. -/
example : ∃ E E', parseDerive (.enum_ demoEnum) = .ok E ∧
    parseDerive (.enum_ { demoEnum with attrs := [pinPrivateAttr (demoArgs ++ [.punct ',' false, .ident "UnsafeUnpin",
      .punct ',' false, .ident "project_replace", .punct '=' false, .ident "O"])] }) = .ok E' ∧
    (∃ fn, method E "project" = some fn ∧ method E' "project" = some fn) ∧
    (allItems E).filterMap inherentHeader = (allItems E').filterMap inherentHeader ∧
    (method E "project_replace").isSome = false ∧ (method E' "project_replace").isSome = true :=
  ⟨_, _, rfl, rfl, ⟨_, rfl, rfl⟩, rfl, rfl, rfl⟩

end PinProject

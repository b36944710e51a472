import Verif.Props.Choose
import Verif.Props.SelfTypes
import Verif.Spec.OwnName
/-!
# C95: the name of the annotated type does not matter
-/
namespace PinProject
open Spec

namespace OwnName

variable {μ : String → String}

/-! ## A definition without `Self` is not changed -/

theorem map_id' {α : Type} {f : α → α} {l : List α} (h : ∀ x ∈ l, f x = x) : l.map f = l := by
  conv => rhs; rw [← List.map_id l]
  exact List.map_congr_left h

theorem opt_id {α : Type} {f : α → α} {o : Option α} (h : ∀ x ∈ o.toList, f x = x) : o.map f = o := by
  cases o with
  | none => rfl
  | some x => exact congrArg some (h x (by simp))

theorem vis_free {v : Vis} (h : isPubSelf v = false) : v.visit = v := by
  cases v with
  | restricted i p =>
    obtain ⟨l, segs⟩ := p
    simp only [isPubSelf] at h
    simp only [Vis.visit, SPath.visit]
    split
    · rename_i x
      have : x ≠ "self" := by
        rintro rfl
        simp at h
      simp [prependUnderscore, this]
    · rfl
  | _ => rfl

theorem node_free (s : SelfTy) {n : Node} (h : ∀ w, ¬ Mentions w n) : n.visit s = n :=
  Node.visit_free _ n (fun w h' => h w h'.mentions)

theorem generics_free (s : SelfTy) {g : Generics} (h : ∀ n ∈ genericsNodes g, ∀ w, ¬ Mentions w n)
    (hp : ∀ w ∈ g.preds, ∃ n, w = .user n) : g.visit s = g := by
  obtain ⟨ps, wc⟩ := g
  simp only [Generics.visit]
  have e1 : ps.map (GParam.visit s) = ps := by
    refine map_id' (fun p hpm => ?_)
    have hn : ∀ n ∈ paramNodes p, ∀ w, ¬ Mentions w n := fun n hn =>
      h n (List.mem_append_left _ (List.mem_flatMap.2 ⟨p, hpm, hn⟩))
    cases p with
    | lifetime n b => rfl
    | type n b d =>
      simp only [GParam.visit, map_id' (fun x hx => node_free s (hn x (List.mem_append_left _ hx))),
        opt_id (fun x hx => node_free s (hn x (List.mem_append_right _ hx)))]
    | const n t d =>
      simp only [GParam.visit, node_free s (hn t List.mem_cons_self),
        opt_id (fun x hx => node_free s (hn x (List.mem_cons_of_mem _ hx)))]
  have e2 : wc.map (fun ps => ps.map (WPred.visit s)) = wc := by
    cases wc with
    | none => rfl
    | some ws =>
      refine congrArg some (map_id' (fun w hw => ?_))
      obtain ⟨n, rfl⟩ := hp w hw
      simp only [WPred.visit, node_free s (h n (List.mem_append_right _ (List.mem_flatMap.2 ⟨_, hw, List.mem_singleton.2 rfl⟩)))]
  rw [e1, e2]

theorem fields_free (s : SelfTy) {fs : Fields} (h : ∀ f ∈ fs.list, (∀ w, ¬ Mentions w f.ty) ∧ isPubSelf f.vis = false) :
    fs.visit s = fs := by
  have e : ∀ f ∈ fs.list, f.visit s = f := by
    intro f hf
    obtain ⟨h1, h2⟩ := h f hf
    simp only [Field.visit, node_free s h1, vis_free h2]
  cases fs with
  | named l => exact congrArg Fields.named (map_id' e)
  | unnamed l => exact congrArg Fields.unnamed (map_id' e)
  | unit => rfl

theorem struct_free {s : ItemStruct} (h : NoSelf (.struct_ s)) : s.pre = s := by
  obtain ⟨h1, h2, h3, h4⟩ := h
  have e1 := generics_free (mkSelfTy s.ident s.generics.tyGenerics) (fun n hn => h1 n (List.mem_append_left _ hn)) h2
  have e2 : s.fields.visit (mkSelfTy s.ident s.generics.tyGenerics) = s.fields := by
    refine fields_free _ (fun f hf => ⟨h1 _ (List.mem_append_right _ (List.mem_flatMap.2 ⟨_, List.mem_singleton.2 rfl, ?_⟩)), h4 f hf⟩)
    exact List.mem_map.2 ⟨f, hf, rfl⟩
  have e3 := vis_free h3
  simp only [itemGenerics, itemVis] at e1 e3
  simp only [ItemStruct.pre, ItemStruct.visit, e1, e2, e3]

theorem enum_free {e : ItemEnum} (h : NoSelf (.enum_ e)) (hd : ∀ v ∈ e.variants, v.discriminant = none) : e.pre = e := by
  obtain ⟨h1, h2, h3, h4⟩ := h
  have e1 := generics_free (mkSelfTy e.ident e.generics.tyGenerics) (fun n hn => h1 n (List.mem_append_left _ hn)) h2
  have e2 : e.variants.map (Variant.visit (mkSelfTy e.ident e.generics.tyGenerics)) = e.variants := by
    refine map_id' (fun v hv => ?_)
    have : v.fields.visit (mkSelfTy e.ident e.generics.tyGenerics) = v.fields := by
      refine fields_free _ (fun f hf => ⟨h1 _ (List.mem_append_right _ (List.mem_flatMap.2
        ⟨(some v.ident, v.fields), List.mem_map.2 ⟨v, hv, rfl⟩, List.mem_map.2 ⟨f, hf, rfl⟩⟩)), h4 f ?_⟩)
      exact List.mem_flatMap.2 ⟨v, hv, hf⟩
    have hd := hd v hv
    obtain ⟨a, i, fs, d⟩ := v
    simp only at hd this
    subst hd
    simp only [Variant.visit, this, Option.map_none]
  have e3 := vis_free h3
  simp only [itemGenerics, itemVis] at e1 e3
  simp only [ItemEnum.pre, ItemEnum.visit, e1, e2, e3]

/-! ## The context -/

/-- What changes in the context. -/
structure Rel (μ : String → String) (cx cx' : Ctx) : Prop where
  vis : cx'.vis = cx.vis
  ident : cx'.ident = μ cx.ident
  generics : cx'.generics = cx.generics
  kind : cx'.kind = cx.kind
  pinnedDrop : cx'.pinnedDrop = cx.pinnedDrop
  unpinImpl : cx'.unpinImpl = cx.unpinImpl
  project : cx'.project = cx.project
  projectRef : cx'.projectRef = cx.projectRef
  replace : cx'.projectReplace = cx.projectReplace
  projVis : cx'.projVis = cx.projVis
  mutIdent : cx'.mutIdent = μ cx.mutIdent
  refIdent : cx'.refIdent = μ cx.refIdent
  ownIdent : cx'.ownIdent = μ cx.ownIdent
  lifetime : cx'.lifetime = cx.lifetime
  projGenerics : cx'.projGenerics = cx.projGenerics
  projWhere : cx'.projWhere = cx.projWhere.map (WPred.retitle μ)
  preds : cx.generics.preds.map (WPred.retitle μ) = cx.generics.preds
  projPreds : cx.projGenerics.preds.map (WPred.retitle μ) = cx.projGenerics.preds
  fieldsType : "__" ++ unraw cx'.ident = μ ("__" ++ unraw cx.ident)
  drop : unraw cx'.ident ++ "MustNotImplDrop" = μ (unraw cx.ident ++ "MustNotImplDrop")

theorem rel {i i' : String} {A : Args} (hμ : Retitles i i' (userNames A) μ) (a : List Attribute) (v : Vis) {g : Generics}
    (hg : ∀ w ∈ g.preds, ∃ n, w = .user n) (k : TypeKind) : Rel μ (mkCtx A a v i g k) (mkCtx A a v i' g k) := by
  obtain ⟨h1, h2, h3, h4⟩ := hμ
  have hp : g.preds.map (WPred.retitle μ) = g.preds := map_id' (fun w hw => by obtain ⟨n, rfl⟩ := hg w hw; rfl)
  have m : ∀ s ∈ ["", "Projection", "ProjectionRef", "ProjectionOwned"],
      "__" ++ unraw i' ++ s = μ ("__" ++ unraw i ++ s) := fun s hs => (h2 s hs).symm
  refine ⟨rfl, h1.symm, rfl, rfl, rfl, rfl, rfl, rfl, rfl, rfl, ?_, ?_, ?_, rfl, rfl, ?_, hp, hp, ?_, h3.symm⟩
  · simp only [mkCtx]
    cases h : A.project with
    | none => exact m "Projection" (by simp)
    | some n => exact (h4 n (by simp [userNames, h])).symm
  · simp only [mkCtx]
    cases h : A.projectRef with
    | none => exact m "ProjectionRef" (by simp)
    | some n => exact (h4 n (by simp [userNames, h])).symm
  · simp only [mkCtx]
    cases h : A.projectReplace.ident with
    | none => exact m "ProjectionOwned" (by simp)
    | some n => exact (h4 n (by simp [userNames, h])).symm
  · simp only [mkCtx, List.map_append, hp, List.map_cons, List.map_nil, WPred.retitle, GTy.retitle, h1]
  · have := m "" (by simp)
    rwa [String.append_empty, String.append_empty] at this

theorem mutFields (lt : String) (fs : List Field) (d : Option Delim) :
    GFields.retitle μ ⟨d, fs.map (projField lt)⟩ = ⟨d, fs.map (projField lt)⟩ := by
  simp only [GFields.retitle, List.map_map]
  congr 1
  refine List.map_congr_left (fun f _ => ?_)
  simp only [Function.comp, projField]
  split <;> rfl

theorem refFields (lt : String) (fs : List Field) (d : Option Delim) :
    GFields.retitle μ ⟨d, fs.map (projRefField lt)⟩ = ⟨d, fs.map (projRefField lt)⟩ := by
  simp only [GFields.retitle, List.map_map]
  congr 1
  refine List.map_congr_left (fun f _ => ?_)
  simp only [Function.comp, projRefField]
  split <;> rfl

theorem ownFields (fs : List Field) (d : Option Delim) :
    GFields.retitle μ ⟨d, fs.map projOwnField⟩ = ⟨d, fs.map projOwnField⟩ := by
  simp only [GFields.retitle, List.map_map]
  congr 1
  refine List.map_congr_left (fun f _ => ?_)
  simp only [Function.comp, projOwnField]
  split <;> rfl

section

variable {cx cx' : Ctx} (r : Rel μ cx cx')
include r

theorem lints : projAllowedLints cx' = projAllowedLints cx := by
  simp only [projAllowedLints, r.project, r.projectRef, r.replace, r.kind]

theorem ownBody (v : Option String) (m : Option Delim × List GInit) (ps : List String) :
    projOwnBody cx' v m ps =
      ((projOwnBody cx v m ps).1.map (GStmt.choose μ), (projOwnBody cx v m ps).2.choose μ) := by
  simp [projOwnBody, GStmt.choose, RHS.choose, r.ownIdent, Function.comp_def]

theorem impl (a b c : GBody) :
    makeProjImpl cx' (a.choose μ) (b.choose μ) (c.choose μ) = (makeProjImpl cx a b c).retitle μ := by
  unfold makeProjImpl
  simp only [GItem.retitle, List.map_append, apply_ite (List.map (GFn.retitle μ)), List.map_cons, List.map_nil, GFn.retitle,
    GBody.choose, GStmt.choose, RHS.choose, GTy.retitle, pinMutSelf, r.ident, r.generics, r.kind, r.project, r.projectRef,
    r.replace, r.projVis, r.mutIdent, r.refIdent, r.ownIdent, r.lifetime, r.projGenerics, r.preds]

theorem unpin (ts : List Node) : makeUnpinImpl cx' ts = (makeUnpinImpl cx ts).map (GItem.retitle μ) := by
  unfold makeUnpinImpl
  rw [r.unpinImpl]
  cases cx.unpinImpl with
  | unsafe_ =>
    simp [r.generics, r.projGenerics, r.lifetime, r.ident, GItem.retitle, r.projPreds, WPred.retitle, GTy.retitle, GTrait.retitle]
  | negative =>
    simp [r.generics, r.projGenerics, r.lifetime, r.ident, GItem.retitle, r.projPreds, WPred.retitle, GTy.retitle, GTrait.retitle]
  | default =>
    simp [r.generics, r.projGenerics, r.lifetime, ← r.ident, r.vis, GItem.retitle, r.preds, r.fieldsType, WPred.retitle,
      GTy.retitle, GTrait.retitle, GFields.retitle, List.mapIdx_eq_zipIdx_map, Function.comp_def]

theorem drop_ : makeDropImpl cx' = (makeDropImpl cx).map (GItem.retitle μ) := by
  unfold makeDropImpl
  rw [r.pinnedDrop, r.generics]
  split <;> simp [GItem.retitle, GFn.retitle, GBody.choose, GStmt.choose, RHS.choose, GTail.choose, GTy.retitle, GTrait.retitle,
    pinMutSelf, ← r.ident, r.preds, r.drop]

theorem struct_ (fs : Fields) : structExpansion cx' fs = (structExpansion cx fs).retitle μ := by
  have e1 : projItemS cx' fs = (projItemS cx fs).retitle μ := by
    simp [projItemS, lints r, r.projVis, r.mutIdent, r.projGenerics, r.projWhere, projectedOf, r.lifetime, GItem.retitle, mutFields]
  have e2 : refItemS cx' fs = (refItemS cx fs).retitle μ := by
    simp [refItemS, lints r, r.projVis, r.refIdent, r.projGenerics, r.projWhere, projectedOf, r.lifetime, GItem.retitle, refFields]
  have e3 : ownItemS cx' fs = (ownItemS cx fs).retitle μ := by
    simp [ownItemS, lints r, r.projVis, r.ownIdent, r.generics, projectedOf, GItem.retitle, ownFields, r.preds]
  have e4 : implItemS cx' fs = (implItemS cx fs).retitle μ := by
    unfold implItemS
    rw [← impl r]
    congr 1
    · simp [projMutBodyS, GBody.choose, GStmt.choose, GTail.choose, RHS.choose, projectedOf, r.mutIdent]
    · simp [projRefBodyS, GBody.choose, GStmt.choose, GTail.choose, RHS.choose, projectedOf, r.refIdent]
    · simp [projOwnBodyS, GBody.choose, GStmt.choose, GTail.choose, projectedOf, ownBody r, RHS.choose]
  have e5 : assertItem cx' fs = (assertItem cx fs).retitle μ := by
    simp [assertItem, r.generics, r.ident, GItem.retitle, r.preds]
  unfold structExpansion Expansion.retitle
  simp only [e1, e2, e3, e4, e5, unpin r, drop_ r, r.project, r.projectRef, r.replace, List.map_append,
    apply_ite (List.map (GItem.retitle μ)), List.map_cons, List.map_nil]

theorem enum_ (vs : List Variant) : enumExpansion cx' vs = (enumExpansion cx vs).retitle μ := by
  have e1 : projItemE cx' vs = (projItemE cx vs).retitle μ := by
    simp [projItemE, lints r, r.projVis, r.mutIdent, r.projGenerics, r.projWhere, projectedOf, r.lifetime, GItem.retitle, mutFields]
  have e2 : refItemE cx' vs = (refItemE cx vs).retitle μ := by
    simp [refItemE, lints r, r.projVis, r.refIdent, r.projGenerics, r.projWhere, projectedOf, r.lifetime, GItem.retitle, refFields]
  have e3 : ownItemE cx' vs = (ownItemE cx vs).retitle μ := by
    simp [ownItemE, lints r, r.projVis, r.ownIdent, r.generics, projectedOf, GItem.retitle, ownFields, r.preds]
  have e4 : implItemE cx' vs = (implItemE cx vs).retitle μ := by
    unfold implItemE
    rw [← impl r]
    congr 1
    · simp [projMutBodyE, GBody.choose, GTail.choose, RHS.choose, GArm.choose, armMut, projectedOf, r.mutIdent]
    · simp [projRefBodyE, GBody.choose, GTail.choose, RHS.choose, GArm.choose, armRef, projectedOf, r.refIdent]
    · simp [projOwnBodyE, GBody.choose, GTail.choose, RHS.choose, GArm.choose, armOwn, projectedOf, ownBody r]
  unfold enumExpansion Expansion.retitle
  simp only [e1, e2, e3, e4, unpin r, drop_ r, r.project, r.projectRef, r.replace, List.map_append,
    apply_ite (List.map (GItem.retitle μ)), List.map_cons, List.map_nil]

end

theorem noSelf_name {item : Item} (h : NoSelf item) (n : String) : NoSelf (item.withName n) := by
  obtain ⟨h1, h2, h3, h4⟩ := h
  cases item <;> exact ⟨h1, h2, h3, h4⟩

theorem accepted {item : Item} {n n' : String} {A : Args} (hA : parseArgs (itemAttrs item) = .ok A) (hn : itemName item = some n)
    (h : n ∉ userNames A) (h' : n' ∉ userNames A) :
    (∃ E, parseDerive item = .ok E) ↔ ∃ E, parseDerive (item.withName n') = .ok E := by
  rw [C07_accepted_iff, C07_accepted_iff]
  cases item with
  | other a => cases hn
  | struct_ s =>
    cases hn
    simp only [Item.withName, itemAttrs, itemName, itemFields, ShapeOk, ReplaceNamedOnEnum] at hA ⊢
    constructor
    · rintro ⟨B, h1, -, h2⟩
      obtain rfl := Except.ok.inj (h1.symm.trans hA)
      exact ⟨_, h1, fun m hm => by cases hm; exact h', h2⟩
    · rintro ⟨B, h1, -, h2⟩
      obtain rfl := Except.ok.inj (h1.symm.trans hA)
      exact ⟨_, h1, fun m hm => by cases hm; exact h, h2⟩
  | enum_ s =>
    cases hn
    simp only [Item.withName, itemAttrs, itemName, itemFields, ShapeOk, ReplaceNamedOnEnum] at hA ⊢
    constructor
    · rintro ⟨B, h1, -, h2⟩
      obtain rfl := Except.ok.inj (h1.symm.trans hA)
      exact ⟨_, h1, fun m hm => by cases hm; exact h', h2⟩
    · rintro ⟨B, h1, -, h2⟩
      obtain rfl := Except.ok.inj (h1.symm.trans hA)
      exact ⟨_, h1, fun m hm => by cases hm; exact h, h2⟩

end OwnName

open OwnName

/-- **C95** Give the annotated type another name: if nothing in the definition mentions `Self`, the generated code is the same,
with the new name, and the names made from it, in the place of the old ones. -/
theorem C95_rename {item : Item} {E : Expansion} (h : parseDerive item = .ok E) (hns : NoSelf item)
    {n n' : String} (hn : itemName item = some n) {toks : List TT} (hw : Written toks item) {as : List Arg} (ha : ArgsToks as toks)
    (hn' : n' ∉ as.filterMap Arg.name?) {μ : String → String} (hμ : Retitles n n' (as.filterMap Arg.name?) μ) :
    parseDerive (item.withName n') = .ok (E.retitle μ) := by
  obtain ⟨A, hA, hnA, -, -, -, hshape, -⟩ := (C07_accepted_iff item).1 ⟨E, h⟩
  obtain ⟨bs, b1, b2, hc⟩ := (C05_config toks item hw A).1 hA
  obtain rfl := argsToks_unique b1 ha
  have hsub : ∀ m ∈ userNames A, m ∈ bs.filterMap Arg.name? := fun m hm => (config_names _ b2 _).1 (by rwa [hc] at hm)
  have hμ' : Retitles n n' (userNames A) μ := ⟨hμ.own, hμ.made, hμ.drop, fun c hc => hμ.chosen c (hsub c hc)⟩
  obtain ⟨E', h'⟩ := (accepted hA hn (hnA n hn) (fun h => hn' (hsub _ h))).1 ⟨E, h⟩
  rw [h']
  congr 1
  cases item with
  | other a => cases h
  | struct_ s =>
    cases hn
    obtain ⟨B, k1, -, -, -, -, -, rfl⟩ := (deriveStruct_iff s E).1 h
    obtain ⟨B', k1', -, -, -, -, -, rfl⟩ := (deriveStruct_iff { s with ident := n' } E').1 h'
    rw [ItemStruct.ctx, ItemStruct.ctx, struct_free hns, struct_free (noSelf_name hns n')]
    rw [struct_free hns] at k1
    rw [struct_free (noSelf_name hns n')] at k1'
    obtain rfl := Except.ok.inj (k1.symm.trans hA)
    obtain rfl := Except.ok.inj (k1'.symm.trans hA)
    exact OwnName.struct_ (rel hμ' _ _ hns.preds _) _
  | enum_ s =>
    cases hn
    obtain ⟨-, -, hd, -⟩ := hshape
    obtain ⟨B, k1, -, -, -, -, -, -, rfl⟩ := (deriveEnum_iff s E).1 h
    obtain ⟨B', k1', -, -, -, -, -, -, rfl⟩ := (deriveEnum_iff { s with ident := n' } E').1 h'
    rw [ItemEnum.ctx, ItemEnum.ctx, enum_free hns hd, enum_free (noSelf_name hns n') hd]
    rw [enum_free hns hd] at k1
    rw [enum_free (noSelf_name hns n') hd] at k1'
    obtain rfl := Except.ok.inj (k1.symm.trans hA)
    obtain rfl := Except.ok.inj (k1'.symm.trans hA)
    exact OwnName.enum_ (rel hμ' _ _ hns.preds _) _

/-- **C95** Whether a definition is accepted does not depend on the name of the type, with or without `Self` in it, unless the
name is also chosen for a projection. -/
theorem C95_accepted {item : Item} {n n' : String} (hn : itemName item = some n) {toks : List TT} (hw : Written toks item)
    {as : List Arg} (ha : ArgsToks as toks) (h1 : n ∉ as.filterMap Arg.name?) (h2 : n' ∉ as.filterMap Arg.name?) :
    (∃ E, parseDerive item = .ok E) ↔ ∃ E, parseDerive (item.withName n') = .ok E := by
  have e : itemAttrs (item.withName n') = itemAttrs item := by cases item <;> rfl
  cases hA : parseArgs (itemAttrs item) with
  | error x =>
    rw [C07_accepted_iff, C07_accepted_iff, e, hA]
    exact iff_of_false (fun ⟨A, h, _⟩ => nomatch h) (fun ⟨A, h, _⟩ => nomatch h)
  | ok A =>
    obtain ⟨bs, b1, b2, hc⟩ := (C05_config toks item hw A).1 hA
    obtain rfl := argsToks_unique b1 ha
    exact accepted hA hn (fun h => h1 ((config_names _ b2 _).1 (by rwa [hc] at h))) (fun h => h2 ((config_names _ b2 _).1 (by rwa [hc] at h)))

/-! ## A concrete case -/

/-- From `R` to `r#S`. -/
def toS (s : String) : String :=
  if s = "R" then "r#S" else if s = "__R" then "__S" else if s = "__RProjection" then "__SProjection" else
  if s = "__RProjectionRef" then "__SProjectionRef" else if s = "__RProjectionOwned" then "__SProjectionOwned" else
  if s = "RMustNotImplDrop" then "SMustNotImplDrop" else s

theorem noSelf_ident {x : String} (h : x ≠ "self" ∧ x ≠ "Self") (w : Word) : ¬ Mentions w (.tyIdent x) := by
  revert w
  refine (bare_iff _).2 ⟨?_, nofun, fun c hc => ?_⟩
  · rintro p e w
    obtain rfl := Option.some.inj e
    cases w <;> simp [Word.At, Path.segs, Path.ofIdent, h]
  · have : c ∈ ([] : List Node) := hc
    cases this

/-- `struct R<T, U>` with `#[pin_project(project = P)]`, renamed to `r#S`: all hypotheses are met, and the code differs. -/
example : ∃ E, parseDerive (demoWith demoArgs) = .ok E ∧ NoSelf (demoWith demoArgs) ∧
    itemName (demoWith demoArgs) = some "R" ∧ Written demoArgs (demoWith demoArgs) ∧ ArgsToks [.project "P"] demoArgs ∧
    "r#S" ∉ [Arg.project "P"].filterMap Arg.name? ∧ Retitles "R" "r#S" ([Arg.project "P"].filterMap Arg.name?) toS ∧
    parseDerive ((demoWith demoArgs).withName "r#S") = .ok (E.retitle toS) ∧
    (typeDefs (allItems E)).map (·.name) = ["P", "__RProjectionRef", "__R"] ∧
    (typeDefs (allItems (E.retitle toS))).map (·.name) = ["P", "__SProjectionRef", "__S"] := by
  have h : ∃ E, parseDerive (demoWith demoArgs) = .ok E ∧
      (typeDefs (allItems E)).map (·.name) = ["P", "__RProjectionRef", "__R"] ∧
      (typeDefs (allItems (E.retitle toS))).map (·.name) = ["P", "__SProjectionRef", "__S"] := ⟨_, rfl, rfl, by decide⟩
  obtain ⟨E, h, h1, h2⟩ := h
  have hns : NoSelf (demoWith demoArgs) := by
    refine ⟨?_, nofun, rfl, ?_⟩
    · intro n hn
      have : n = .tyIdent "T" ∨ n = .tyIdent "U" := by
        have hn : n ∈ [Node.tyIdent "T", .tyIdent "U", .tyIdent "T"] := hn
        simp at hn
        rcases hn with h | h | h
        · exact .inl h
        · exact .inr h
        · exact .inl h
      rcases this with rfl | rfl <;> exact noSelf_ident (by decide)
    · intro f hf
      have hf : f ∈ demoReplace.fields.list := hf
      simp [demoReplace, Fields.list] at hf
      rcases hf with rfl | rfl | rfl <;> rfl
  have hμ : Retitles "R" "r#S" ([Arg.project "P"].filterMap Arg.name?) toS :=
    ⟨by decide, by decide, by decide, by decide⟩
  exact ⟨E, h, hns, rfl, rfl, demoArgs_toks.1, by decide, hμ, C95_rename h hns rfl rfl demoArgs_toks.1 (by decide) hμ, h1, h2⟩

/-- With the name chosen for a projection the definition is rejected. -/
example : (parseDerive ((demoWith demoArgs).withName "P")).isOk = false := rfl

end PinProject

import Verif.Spec.WellFormed
import Verif.Props.Typing
import Verif.Props.Headers
/-!
# The generated definitions and impls are well-formed: C53
-/
namespace PinProject
open Spec

/-- All type definitions in an expansion: those of the three modes, and the helper struct. -/
theorem typeDefs_cases (item : Item) (E : Expansion) (h : parseDerive item = .ok E)
    (hlf : LifetimesFirst (itemGenerics item).params) (d : TypeDef) (hd : d ∈ typeDefs (allItems E)) :
    ∃ A ident, parseArgs (itemAttrs item) = .ok A ∧ itemName item = some ident ∧
      ((∃ mode, d = modeDef A mode (itemVis item).visit ident (preGenerics item) (preVariants item)) ∨
        (d = helperDef item ident (preGenerics item) ∧ A.unpinImpl = .default)) := by
  have hu : ∀ (A : Args) (attrs : List Attribute) (ident : String) (kind : TypeKind),
      d ∈ typeDefs (makeUnpinImpl (mkCtx A attrs (itemVis item).visit ident (preGenerics item) kind) (pinnedFieldTys item)) →
      d = helperDef item ident (preGenerics item) ∧ A.unpinImpl = .default := by
    intro A attrs ident kind hd
    obtain ⟨-, g2, -, -, -, -, g6⟩ := item_generics hlf A attrs (itemVis item).visit ident kind
    generalize hcx : mkCtx A attrs (itemVis item).visit ident (preGenerics item) kind = cx at *
    have c1 : cx.unpinImpl = A.unpinImpl := by rw [← hcx]; rfl
    have c2 : cx.ident = ident := by rw [← hcx]; rfl
    have c3 : cx.lifetime = freshLt item := by rw [← hcx]; rfl
    have c4 : cx.vis = (itemVis item).visit := by rw [← hcx]; rfl
    have c5 : cx.generics.typeParams = (preGenerics item).typeParams := by rw [← hcx]; rfl
    have c6 : cx.generics.lifetimes = (preGenerics item).lifetimes := by rw [← hcx]; rfl
    unfold makeUnpinImpl at hd
    cases hA : cx.unpinImpl with
    | default =>
      simp only [hA, c2, c3, c4, c5, c6, g2, g6, typeDefs, asTypeDef, List.filterMap_cons, List.filterMap_nil,
        List.mem_singleton] at hd
      exact ⟨hd, c1 ▸ hA⟩
    | unsafe_ => simp [hA, typeDefs, asTypeDef, List.filterMap_cons] at hd
    | negative => simp [hA, typeDefs, asTypeDef, List.filterMap_cons] at hd
  have hdr : ∀ cx, d ∉ typeDefs (makeDropImpl cx) := by
    intro cx
    unfold makeDropImpl
    cases cx.pinnedDrop <;> simp [typeDefs, asTypeDef, List.filterMap_cons]
  cases item with
  | other a => simp [parseDerive] at h
  | struct_ s =>
    obtain ⟨A, h1, -, -, -, -, -, rfl⟩ := (deriveStruct_iff s E).1 h
    have ht : pinnedTys s.pre.fields.list = pinnedFieldTys (.struct_ s) := by
      simp only [ItemStruct.pre, ItemStruct.visit, list_visit, pinnedTys_visit, pinnedFieldTys]
      rfl
    refine ⟨A, s.ident, h1, rfl, ?_⟩
    obtain ⟨i, hi, he⟩ := List.mem_filterMap.1 hd
    simp only [allItems, structExpansion, ht, List.mem_append, List.mem_singleton, List.mem_ite_nil_left,
      List.mem_ite_nil_right] at hi
    have hp : asTypeDef (projItemS (s.ctx A) s.pre.fields) = some d →
      d = modeDef A .proj (itemVis (.struct_ s)).visit s.ident (preGenerics (.struct_ s)) (preVariants (.struct_ s)) :=
      fun h => (Option.some.inj h).symm
    have hr : asTypeDef (refItemS (s.ctx A) s.pre.fields) = some d →
      d = modeDef A .projRef (itemVis (.struct_ s)).visit s.ident (preGenerics (.struct_ s)) (preVariants (.struct_ s)) :=
      fun h => (Option.some.inj h).symm
    have ho : asTypeDef (ownItemS (s.ctx A) s.pre.fields) = some d →
      d = modeDef A .replace (itemVis (.struct_ s)).visit s.ident (preGenerics (.struct_ s)) (preVariants (.struct_ s)) :=
      fun h => (Option.some.inj h).symm
    rcases hi with ((⟨_, rfl⟩ | ⟨_, rfl⟩) | ⟨_, _, rfl⟩) | ((((((⟨_, rfl⟩ | ⟨_, rfl⟩) | ⟨_, _, rfl⟩) | rfl) | rfl) | hi) | hi)
    · exact .inl ⟨_, hp he⟩
    · exact .inl ⟨_, hr he⟩
    · exact .inl ⟨_, ho he⟩
    · exact .inl ⟨_, hp he⟩
    · exact .inl ⟨_, hr he⟩
    · exact .inl ⟨_, ho he⟩
    · cases he
    · cases he
    · exact .inr (hu A s.pre.attrs s.ident .struct_ (List.mem_filterMap.2 ⟨i, hi, he⟩))
    · exact absurd (List.mem_filterMap.2 ⟨i, hi, he⟩) (hdr _)
  | enum_ s =>
    obtain ⟨A, h1, -, -, -, -, -, -, rfl⟩ := (deriveEnum_iff s E).1 h
    have ht : s.pre.variants.flatMap (fun v => pinnedTys v.fields.list) = pinnedFieldTys (.enum_ s) := by
      simp only [ItemEnum.pre, ItemEnum.visit, pinnedFieldTys, itemFields, List.flatMap_map, List.filter_flatMap, List.map_flatMap]
      congr 1
      funext v
      simp only [Variant.visit, list_visit, pinnedTys_visit]
      rfl
    refine ⟨A, s.ident, h1, rfl, ?_⟩
    obtain ⟨i, hi, he⟩ := List.mem_filterMap.1 hd
    simp only [allItems, enumExpansion, ht, List.mem_append, List.mem_singleton, List.mem_ite_nil_left,
      List.mem_ite_nil_right] at hi
    have hp : asTypeDef (projItemE (s.ctx A) s.pre.variants) = some d →
      d = modeDef A .proj (itemVis (.enum_ s)).visit s.ident (preGenerics (.enum_ s)) (preVariants (.enum_ s)) := by
      intro h
      rw [← Option.some.inj h]
      simp only [projItemE, modeDef, preVariants, itemVariants, List.map_map]
      simp only [ItemEnum.pre, ItemEnum.visit, List.map_map]
      rfl
    have hr : asTypeDef (refItemE (s.ctx A) s.pre.variants) = some d →
      d = modeDef A .projRef (itemVis (.enum_ s)).visit s.ident (preGenerics (.enum_ s)) (preVariants (.enum_ s)) := by
      intro h
      rw [← Option.some.inj h]
      simp only [refItemE, modeDef, preVariants, itemVariants, List.map_map]
      simp only [ItemEnum.pre, ItemEnum.visit, List.map_map]
      rfl
    have ho : asTypeDef (ownItemE (s.ctx A) s.pre.variants) = some d →
      d = modeDef A .replace (itemVis (.enum_ s)).visit s.ident (preGenerics (.enum_ s)) (preVariants (.enum_ s)) := by
      intro h
      rw [← Option.some.inj h]
      simp only [ownItemE, modeDef, preVariants, itemVariants, List.map_map]
      simp only [ItemEnum.pre, ItemEnum.visit, List.map_map]
      rfl
    rcases hi with ((⟨_, rfl⟩ | ⟨_, rfl⟩) | ⟨_, rfl⟩) | ((rfl | hi) | hi)
    · exact .inl ⟨_, hp he⟩
    · exact .inl ⟨_, hr he⟩
    · exact .inl ⟨_, ho he⟩
    · cases he
    · exact .inr (hu A s.pre.attrs s.ident .enum_ (List.mem_filterMap.2 ⟨i, hi, he⟩))
    · exact absurd (List.mem_filterMap.2 ⟨i, hi, he⟩) (hdr _)

/-! ## Parameters -/

theorem resolvedParam_lt (item : Item) (p : GParam) :
    (resolvedParam item p).name = p.name ∧ isLifetimeParam (resolvedParam item p) = isLifetimeParam p := by
  cases p <;> exact ⟨rfl, rfl⟩

theorem order_source {item : Item} (h : LifetimesFirst (itemParams item)) :
    LifetimesFirst (itemGenerics item).params := by
  obtain ⟨ls, ts, he, hl, ht⟩ := h
  obtain ⟨l1, l2, h1, h2, h3⟩ := List.map_eq_append_iff.1 he
  refine ⟨l1, l2, h1, ?_, ?_⟩
  · intro p hp
    obtain ⟨n, b, hn⟩ := hl _ (by rw [← h2]; exact List.mem_map_of_mem hp)
    cases p with
    | lifetime n b => exact ⟨n, b, rfl⟩
    | type => cases hn
    | const => cases hn
  · rintro p hp n b rfl
    exact ht _ (by rw [← h3]; exact List.mem_map_of_mem hp) n b rfl

theorem fresh_name {item : Item} {U : Uses} (h : ParamsWF U (itemParams item)) :
    freshLt item ∉ (itemParams item).map GParam.name := by
  intro hm
  obtain ⟨p, hp, he⟩ := List.mem_map.1 hm
  have hq := h.quotes p hp
  rw [he, (freshLt_spec item).2.1] at hq
  rw [itemParams, List.mem_map] at hp
  obtain ⟨q, hq', rfl⟩ := hp
  apply (freshLt_spec item).2.2
  refine .inl ⟨q, hq', ?_⟩
  rw [(resolvedParam_lt item q).1] at he
  rw [(resolvedParam_lt item q).2] at hq
  cases q with
  | lifetime n b => exact he
  | _ => cases hq

theorem params_fresh {item : Item} {U : Uses} (h : ParamsWF U (itemParams item)) :
    ParamsWF U (.lifetime (freshLt item) [] :: itemParams item) where
  order := by
    obtain ⟨ls, ts, he, hl, ht⟩ := h.order
    refine ⟨.lifetime (freshLt item) [] :: ls, ts, by rw [he]; rfl, ?_, ht⟩
    intro p hp
    rcases List.mem_cons.1 hp with rfl | hp
    · exact ⟨_, _, rfl⟩
    · exact hl p hp
  quotes := by
    intro p hp
    rcases List.mem_cons.1 hp with rfl | hp
    · exact (freshLt_spec item).2.1.symm
    · exact h.quotes p hp
  distinct := by
    rw [List.map_cons, List.nodup_cons]
    exact ⟨fresh_name h, h.distinct⟩
  declared := by
    intro p hp x hx
    rcases List.mem_cons.1 hp with rfl | hp
    · cases hx.1
    · exact List.mem_cons_of_mem _ (h.declared p hp x hx)

theorem withoutDefault_name (p : GParam) : (withoutDefault p).name = p.name := by cases p <;> rfl
theorem withoutDefault_lt (p : GParam) : isLifetimeParam (withoutDefault p) = isLifetimeParam p := by cases p <;> rfl
theorem withoutDefault_arg (p : GParam) : ownArg (withoutDefault p) = ownArg p := by cases p <;> rfl

theorem withoutDefault_names (ps : List GParam) :
    (ps.map withoutDefault).map GParam.name = ps.map GParam.name := by
  rw [List.map_map]
  exact List.map_congr_left (fun p _ => withoutDefault_name p)

theorem params_noDefault {ps : List GParam} {U : Uses} (h : ParamsWF U ps) : ParamsWF U (ps.map withoutDefault) where
  order := by
    obtain ⟨ls, ts, he, hl, ht⟩ := h.order
    refine ⟨ls.map withoutDefault, ts.map withoutDefault, by rw [he, List.map_append], ?_, ?_⟩
    · intro p hp
      obtain ⟨q, hq, rfl⟩ := List.mem_map.1 hp
      obtain ⟨n, b, rfl⟩ := hl q hq
      exact ⟨n, b, rfl⟩
    · intro p hp n b he
      obtain ⟨q, hq, rfl⟩ := List.mem_map.1 hp
      cases q with
      | lifetime n b => exact ht _ hq n b rfl
      | _ => cases he
  quotes := by
    intro p hp
    obtain ⟨q, hq, rfl⟩ := List.mem_map.1 hp
    rw [withoutDefault_name, withoutDefault_lt]
    exact h.quotes q hq
  distinct := by rw [withoutDefault_names]; exact h.distinct
  declared := by
    intro p hp x hx
    obtain ⟨q, hq, rfl⟩ := List.mem_map.1 hp
    rw [withoutDefault_names]
    apply h.declared q hq
    cases q with
    | lifetime n b => exact hx
    | type n b d =>
      rcases hx with hx | ⟨n, hn, -⟩
      · exact .inl hx
      · cases hn
    | const n t d =>
      rcases hx with hx | ⟨n, hn, -⟩
      · exact .inl hx
      · cases hn

/-- The arguments `Name<'a, T, ..>` of the annotated type mention its own parameters. -/
theorem args_declared {ps : List GParam} {n x : String} {U : Uses} (h : TyUses U (.adt n (ps.map GParam.arg)) x) :
    x ∈ ps.map GParam.name := by
  simp only [TyUses, List.mem_map] at h ⊢
  rcases h with ⟨p, hp, he⟩ | ⟨p, hp, he⟩ <;> exact ⟨p, hp, by cases p <;> cases he <;> rfl⟩

/-! ## Fields -/

theorem field_labels {gs hs : List GField} (h : gs.map GField.ident = hs.map GField.ident) :
    gs.zipIdx.map (fun x => noRaw (gLabel x.2 x.1)) = hs.zipIdx.map (fun x => noRaw (gLabel x.2 x.1)) := by
  have key : ∀ l : List GField, l.zipIdx.map (fun x => noRaw (gLabel x.2 x.1)) =
      (l.map GField.ident).zipIdx.map (fun x => noRaw (x.1.getD (toString x.2))) := by
    intro l
    rw [List.zipIdx_map, List.map_map]
    rfl
  rw [key, key, h]

/-- A field of a projection type uses what the field uses, and the fresh lifetime. -/
theorem modeField_uses {U : Uses} {mode : Mode} {lt : String} {fs : Fields} {g : GField}
    (hg : g ∈ (modeFields mode lt fs).fields) :
    ∃ f ∈ fs.list, ∀ x, TyUses U g.ty x ↔ (mode ≠ .replace ∧ lt = x) ∨ U f.ty x := by
  cases mode <;> obtain ⟨f, hf, rfl⟩ := List.mem_map.1 hg <;> refine ⟨f, hf, fun x => ?_⟩ <;>
    simp only [projField, projRefField, projOwnField] <;> cases Pinned f <;>
    simp [TyUses]

theorem modeField_of {U : Uses} (mode : Mode) (lt : String) {fs : Fields} {f : Field} (hf : f ∈ fs.list) :
    ∃ g ∈ (modeFields mode lt fs).fields, ∀ x, TyUses U g.ty x ↔ (mode ≠ .replace ∧ lt = x) ∨ U f.ty x := by
  cases mode
  · refine ⟨_, List.mem_map_of_mem hf, fun x => ?_⟩
    simp only [projField]; cases Pinned f <;> simp [TyUses]
  · refine ⟨_, List.mem_map_of_mem hf, fun x => ?_⟩
    simp only [projRefField]; cases Pinned f <;> simp [TyUses]
  · refine ⟨_, List.mem_map_of_mem hf, fun x => ?_⟩
    simp only [projOwnField]; cases Pinned f <;> simp [TyUses]

theorem modeFields_idents (mode : Mode) (lt : String) (item : Item) (fs : Fields) :
    (modeFields mode lt (fs.visit (itemSelfTy item))).fields.map GField.ident = fs.list.map Field.ident := by
  cases mode <;> simp only [modeFields, list_visit, List.map_map] <;> rfl

/-- An accepted item has a field. -/
theorem has_field {item : Item} {E : Expansion} (h : parseDerive item = .ok E) :
    ∃ v ∈ itemVariants item, ∃ f, f ∈ v.2.list := by
  cases item with
  | other a => simp [parseDerive] at h
  | struct_ s =>
    obtain ⟨A, -, -, -, -, h5, -, -⟩ := (deriveStruct_iff s E).1 h
    refine ⟨_, .head _, ?_⟩
    have : s.pre.fields.list = s.fields.list.map (Field.visit (mkSelfTy s.ident s.generics.tyGenerics)) := list_visit _ _
    rw [this] at h5
    exact List.exists_mem_of_ne_nil _ (fun he => h5 (by rw [he]; rfl))
  | enum_ s =>
    obtain ⟨A, -, -, -, -, -, ⟨-, -, -, v, hv, hf⟩, -⟩ := (deriveEnum_iff s E).1 h
    obtain ⟨w, hw, rfl⟩ : ∃ w ∈ s.variants, w.visit (mkSelfTy s.ident s.generics.tyGenerics) = v := List.mem_map.1 hv
    refine ⟨(some w.ident, w.fields), List.mem_map_of_mem hw, ?_⟩
    have : (w.visit (mkSelfTy s.ident s.generics.tyGenerics)).fields.list =
      w.fields.list.map (Field.visit (mkSelfTy s.ident s.generics.tyGenerics)) := list_visit _ _
    rw [this] at hf
    exact List.exists_mem_of_ne_nil _ (fun he => hf (by rw [he]; rfl))

theorem modeDefParams (item : Item) (hlf : LifetimesFirst (itemGenerics item).params) (mode : Mode) :
    (modeGenerics mode (freshLt item) (preGenerics item)).defParams =
      (if mode = .replace then [] else [.lifetime (freshLt item) []]) ++ itemParams item := by
  cases mode
  · exact (defParams_insert _ _).trans (by rw [preGenerics_params item hlf]; rfl)
  · exact (defParams_insert _ _).trans (by rw [preGenerics_params item hlf]; rfl)
  · exact preGenerics_params item hlf

theorem modeDef_wf {item : Item} {E : Expansion} (h : parseDerive item = .ok E) {U : Uses} (hs : DefWF U (sourceDef item))
    (A : Args) (mode : Mode) (vis : Vis) (ident : String) :
    DefWF U (modeDef A mode vis ident (preGenerics item) (preVariants item)) := by
  have hlf := order_source hs.params.order
  have hpar : (modeDef A mode vis ident (preGenerics item) (preVariants item)).params =
    (if mode = .replace then [] else [.lifetime (freshLt item) []]) ++ itemParams item := modeDefParams item hlf mode
  have hin : ∀ x, x ∈ (itemParams item).map GParam.name →
      x ∈ (modeDef A mode vis ident (preGenerics item) (preVariants item)).params.map GParam.name := by
    intro x hx
    rw [hpar, List.map_append]
    exact List.mem_append_right _ hx
  have hlt : mode ≠ .replace → freshLt item ∈
      (modeDef A mode vis ident (preGenerics item) (preVariants item)).params.map GParam.name := by
    intro hm
    rw [hpar, if_neg hm]
    exact .head _
  have hsf : ∀ v ∈ itemVariants item, ∀ f ∈ v.2.list, ∀ x, U (resolved item f.ty) x →
      x ∈ (itemParams item).map GParam.name := by
    intro v hv f hf x hx
    exact hs.fields _ (List.mem_map_of_mem hv) _ (List.mem_map_of_mem hf) x hx
  refine ⟨?_, ?_, ?_, ?_, ?_, ?_⟩
  · rw [hpar]
    split
    · exact hs.params
    · exact params_fresh hs.params
  · intro w hw x hx
    have hw' : w ∈ itemPreds item ∨ (mode ≠ .replace ∧ w = .outlives (.adt ident (preGenerics item).tyGenerics) (freshLt item)) := by
      rw [← preGenerics_preds]
      cases mode
      · rcases List.mem_append.1 hw with hw | hw
        · exact .inl hw
        · exact .inr ⟨by simp, List.mem_singleton.1 hw⟩
      · rcases List.mem_append.1 hw with hw | hw
        · exact .inl hw
        · exact .inr ⟨by simp, List.mem_singleton.1 hw⟩
      · exact .inl hw
    rcases hw' with hw | ⟨hm, rfl⟩
    · exact hin x (hs.preds w hw x hx)
    · rcases hx with rfl | hx
      · exact hlt hm
      · rw [← defParams_args, preGenerics_params item hlf] at hx
        exact hin x (args_declared hx)
  · intro v hv g hg x hx
    simp only [modeDef, preVariants, List.map_map, List.mem_map] at hv
    obtain ⟨w, hw, rfl⟩ := hv
    obtain ⟨f', hf', hu⟩ := modeField_uses (U := U) hg
    rw [list_visit] at hf'
    obtain ⟨f, hf, rfl⟩ := List.mem_map.1 hf'
    rcases (hu x).1 hx with ⟨hm, rfl⟩ | hx
    · exact hlt hm
    · exact hin x (hsf w hw f hf x hx)
  · intro p hp hc
    rw [hpar, List.mem_append] at hp
    have key : ∀ w ∈ itemVariants item, ∀ f ∈ w.2.list, ((mode ≠ .replace ∧ freshLt item = p.name) ∨ U (resolved item f.ty) p.name) →
        ∃ v ∈ (modeDef A mode vis ident (preGenerics item) (preVariants item)).variants, ∃ f ∈ v.2.fields, TyUses U f.ty p.name := by
      intro w hw f hf hu
      obtain ⟨g, hg, hgu⟩ := modeField_of (U := U) mode (freshLt item) (fs := w.2.visit (itemSelfTy item))
        (f := f.visit (itemSelfTy item)) (by rw [list_visit]; exact List.mem_map_of_mem hf)
      refine ⟨(w.1, modeFields mode (freshLt item) (w.2.visit (itemSelfTy item))), ?_, g, hg, (hgu _).2 hu⟩
      simp only [modeDef, preVariants, List.map_map, List.mem_map]
      exact ⟨w, hw, rfl⟩
    rcases hp with hp | hp
    · split at hp
      · cases hp
      · rename_i hm
        obtain rfl := List.mem_singleton.1 hp
        obtain ⟨w, hw, f, hf⟩ := has_field h
        exact key w hw f hf (.inl ⟨hm, rfl⟩)
    · obtain ⟨v, hv, f, hf, hu⟩ := hs.used p hp hc
      obtain ⟨w, hw, rfl⟩ := List.mem_map.1 hv
      obtain ⟨f', hf', rfl⟩ := List.mem_map.1 hf
      exact key w hw f' hf' (.inr hu)
  · have := hs.variants
    simp only [sourceDef, modeDef, preVariants, List.map_map] at this ⊢
    exact this
  · intro v hv
    simp only [modeDef, preVariants, List.map_map, List.mem_map] at hv
    obtain ⟨w, hw, rfl⟩ := hv
    have := hs.labels _ (List.mem_map_of_mem hw)
    have he := field_labels (gs := (modeFields mode (freshLt item) (w.2.visit (itemSelfTy item))).fields)
      (hs := w.2.list.map (fun f => ⟨f.vis, f.ident, .user (resolved item f.ty)⟩))
      ((modeFields_idents mode _ item w.2).trans (by rw [List.map_map]; rfl))
    exact he ▸ this

/-! ## The helper struct -/

theorem noRaw_us {s : String} : noRaw ("__" ++ s) = "__" ++ s := by
  have : ("__" ++ s).toList = '_' :: '_' :: s.toList := by rw [String.toList_append]; rfl
  unfold noRaw
  split
  · rename_i rest he
    rw [this] at he
    cases he
  · rfl

theorem fieldName_us (i : Nat) : "__field" ++ toString i = "__" ++ ("field" ++ toString i) := by
  rw [← String.append_assoc]; rfl

theorem ltName_us (i : Nat) : "__lifetime" ++ toString i = "__" ++ ("lifetime" ++ toString i) := by
  rw [← String.append_assoc]; rfl

theorem append_toString_inj {p : String} {i j : Nat} (h : p ++ toString i = p ++ toString j) : i = j := by
  apply toString_nat_inj
  have := congrArg String.toList h
  simp only [String.toList_append, List.append_cancel_left_eq] at this
  exact String.ext this

theorem mapIdx_names {α : Type} (l : List α) (p : String) (t : α → GTy) :
    (l.mapIdx (fun i a => GField.mk .inherited (some (p ++ toString i)) (t a))).map (fun g => noRaw (g.ident.getD "")) =
      (List.range l.length).map (fun i => noRaw (p ++ toString i)) := by
  apply List.ext_getElem
  · simp
  · intro i h1 h2
    simp

theorem range_names_nodup (p : String) (n : Nat) :
    ((List.range n).map (fun i => noRaw ("__" ++ p ++ toString i))).Nodup := by
  rw [List.Nodup, List.pairwise_map]
  apply List.Pairwise.imp _ List.nodup_range
  intro i j hij he
  rw [String.append_assoc, String.append_assoc, noRaw_us, noRaw_us, ← String.append_assoc, ← String.append_assoc] at he
  exact hij (append_toString_inj he)

theorem zipIdx_some_labels (l : List GField) (h : ∀ g ∈ l, g.ident.isSome) (k : Nat) :
    (l.zipIdx k).map (fun x => noRaw (gLabel x.2 x.1)) = l.map (fun g => noRaw (g.ident.getD "")) := by
  induction l generalizing k with
  | nil => rfl
  | cons g l ih =>
    rw [List.zipIdx_cons, List.map_cons, List.map_cons, ih (fun g hg => h g (.tail _ hg))]
    congr 1
    have := h g (.head _)
    cases hg : g.ident with
    | none => rw [hg] at this; cases this
    | some n => simp [gLabel, hg]

theorem second_char {p q : String} {i j : Nat} {c d : Char} {ps qs : List Char} (hp : p.toList = c :: ps)
    (hq : q.toList = d :: qs) (hne : c ≠ d) : noRaw ("__" ++ p ++ toString i) ≠ noRaw ("__" ++ q ++ toString j) := by
  rw [String.append_assoc, String.append_assoc, noRaw_us, noRaw_us]
  intro he
  have := congrArg String.toList he
  simp only [String.toList_append, List.append_cancel_left_eq, hp, hq, List.cons_append, List.cons.injEq] at this
  exact hne this.1

theorem helper_labels (tys : List Node) (lts : List String) (ty : GTy) :
    let fs : List GField := ⟨.inherited, some "__pin_project_use_generics", ty⟩ ::
        tys.mapIdx (fun i ty => GField.mk .inherited (some ("__field" ++ toString i)) (.user ty)) ++
        lts.mapIdx (fun i lt => GField.mk .inherited (some ("__lifetime" ++ toString i)) (.ref (some lt) false .unit))
    (fs.zipIdx.map (fun x => noRaw (gLabel x.2 x.1))).Nodup := by
  intro fs
  rw [zipIdx_some_labels fs]
  · simp only [fs, List.map_cons, List.map_append, List.cons_append, mapIdx_names, List.nodup_cons, List.nodup_append,
      List.mem_append, List.mem_map, List.mem_range, not_or, not_exists, not_and]
    have h0 : ∀ (p : String) (c : Char) (ps : List Char) (i : Nat), p.toList = c :: ps → c ≠ 'p' →
        ¬ noRaw ("__" ++ p ++ toString i) = noRaw "__pin_project_use_generics" := by
      intro p c ps i hp hc he
      have e : "__pin_project_use_generics" = "__" ++ "pin_project_use_generics" := rfl
      rw [String.append_assoc, noRaw_us, e, noRaw_us] at he
      have := congrArg String.toList he
      rw [String.toList_append, String.toList_append, String.toList_append, List.append_cancel_left_eq, hp] at this
      have e2 : "pin_project_use_generics".toList = 'p' :: "in_project_use_generics".toList := by decide
      rw [e2, List.cons_append, List.cons.injEq] at this
      exact hc this.1
    refine ⟨⟨fun i _ => h0 "field" 'f' "ield".toList i (by decide) (by decide),
      fun i _ => h0 "lifetime" 'l' "ifetime".toList i (by decide) (by decide)⟩,
      range_names_nodup "field" _, range_names_nodup "lifetime" _, ?_⟩
    rintro a ⟨i, -, rfl⟩ b ⟨j, -, rfl⟩
    exact second_char (p := "field") (q := "lifetime") (c := 'f') (d := 'l') (ps := "ield".toList) (qs := "ifetime".toList)
      (by decide) (by decide) (by decide)
  · intro g hg
    simp only [fs, List.cons_append, List.mem_cons, List.mem_append, List.mem_mapIdx] at hg
    rcases hg with rfl | ⟨i, h, rfl⟩ | ⟨i, h, rfl⟩ <;> rfl

theorem mem_lifetimes {item : Item} {x : String} :
    x ∈ (preGenerics item).lifetimes ↔ ∃ bs, .lifetime x bs ∈ itemParams item := by
  simp only [Generics.lifetimes, List.mem_filterMap, itemParams, resolvedParam_eq, preGenerics, Generics.visit]
  constructor
  · rintro ⟨p, hp, he⟩
    cases p with
    | lifetime n bs => cases he; exact ⟨bs, hp⟩
    | _ => cases he
  · rintro ⟨bs, h⟩
    exact ⟨_, h, rfl⟩

theorem mem_typeParams {item : Item} {x : String} :
    x ∈ (preGenerics item).typeParams ↔ ∃ bs d, .type x bs d ∈ itemParams item := by
  simp only [Generics.typeParams, List.mem_filterMap, itemParams, resolvedParam_eq, preGenerics, Generics.visit]
  constructor
  · rintro ⟨p, hp, he⟩
    cases p with
    | type n bs d => cases he; exact ⟨bs, d, hp⟩
    | _ => cases he
  · rintro ⟨bs, d, h⟩
    exact ⟨_, h, rfl⟩

theorem mem_variant_field {item : Item} {f : Field} (h : f ∈ itemFields item) :
    ∃ v ∈ itemVariants item, f ∈ v.2.list := by
  cases item with
  | struct_ s => exact ⟨_, .head _, h⟩
  | enum_ e =>
    obtain ⟨v, hv, hf⟩ := List.mem_flatMap.1 h
    exact ⟨(some v.ident, v.fields), List.mem_map_of_mem hv, hf⟩
  | other a => cases h

/-- The helper struct uses all parameters, whatever the fields use. -/
theorem helperDef_wf {item : Item} {U : Uses} (hp : ParamsWF U (itemParams item))
    (hw : ∀ w ∈ itemPreds item, ∀ x, PredUses U w x → x ∈ (itemParams item).map GParam.name)
    (hf : ∀ f ∈ itemFields item, ∀ x, U (resolved item f.ty) x → x ∈ (itemParams item).map GParam.name) (ident : String) :
    DefWF U (helperDef item ident (preGenerics item)) where
  params := params_fresh hp
  preds := fun w h x hx => List.mem_cons_of_mem _ (hw w h x hx)
  fields := by
    intro v hv g hg x hx
    obtain rfl := List.mem_singleton.1 hv
    simp only [List.cons_append, List.mem_cons, List.mem_append, List.mem_mapIdx] at hg
    rcases hg with rfl | ⟨i, hi, rfl⟩ | ⟨i, hi, rfl⟩
    · rcases hx with rfl | hx
      · exact .head _
      · obtain ⟨bs, d, hm⟩ := mem_typeParams.1 hx
        exact List.mem_cons_of_mem _ (List.mem_map.2 ⟨_, hm, rfl⟩)
    · have hm : (pinnedFieldTys item)[i] ∈ pinnedFieldTys item := List.getElem_mem hi
      obtain ⟨f, hf', he⟩ := List.mem_map.1 hm
      rw [← he] at hx
      exact List.mem_cons_of_mem _ (hf f (List.mem_filter.1 hf').1 x hx)
    · simp only [TyUses, or_false, Option.some.injEq] at hx
      obtain ⟨bs, hm⟩ := mem_lifetimes.1 (hx ▸ List.getElem_mem hi)
      exact List.mem_cons_of_mem _ (List.mem_map.2 ⟨_, hm, rfl⟩)
  used := by
    intro p hm hc
    refine ⟨_, .head _, ?_⟩
    rcases List.mem_cons.1 hm with rfl | hm
    · exact ⟨_, .head _, .inl rfl⟩
    · cases p with
      | lifetime n bs =>
        obtain ⟨i, hi, he⟩ := List.getElem_of_mem (mem_lifetimes.2 ⟨bs, hm⟩)
        refine ⟨_, List.mem_append_right _ (List.mem_mapIdx.2 ⟨i, hi, rfl⟩), ?_⟩
        rw [he]
        exact .inl rfl
      | type n bs d => exact ⟨_, .head _, .inr (mem_typeParams.2 ⟨bs, d, hm⟩)⟩
      | const n t d => exact absurd rfl (hc n t d)
  variants := by simp [helperDef]
  labels := by
    intro v hv
    obtain rfl := List.mem_singleton.1 hv
    exact helper_labels _ _ _

/-- **C53** If the annotated type is well-formed, every type of the expansion is: its parameters have
distinct names, lifetimes first; all names in its bounds, where-clauses and fields are declared; every
lifetime and type parameter is used in a field; variants and fields have distinct names. This holds for
every notion of which parameters the user's types use. -/
theorem C53_types (item : Item) (E : Expansion) (h : parseDerive item = .ok E) (U : Uses)
    (hs : DefWF U (sourceDef item)) (d : TypeDef) (hd : d ∈ typeDefs (allItems E)) : DefWF U d := by
  obtain ⟨A, ident, -, -, ⟨mode, rfl⟩ | ⟨rfl, -⟩⟩ := typeDefs_cases item E h (order_source hs.params.order) d hd
  · exact modeDef_wf h hs A mode _ ident
  · refine helperDef_wf hs.params hs.preds ?_ ident
    intro f hf x hx
    obtain ⟨v, hv, hf⟩ := mem_variant_field hf
    exact hs.fields _ (List.mem_map_of_mem hv) _ (List.mem_map_of_mem hf) x hx

/-- **C53** So are the two types of the runtime crate that generated code uses. -/
theorem C53_runtime (U : Uses) (d : TypeDef) (hd : d ∈ typeDefs runtimeItems) : DefWF U d := by
  simp only [typeDefs, runtimeItems, asTypeDef, List.filterMap_cons, List.filterMap_nil, List.mem_cons, List.not_mem_nil,
    or_false] at hd
  rcases hd with rfl | rfl
  all_goals
    refine ⟨⟨⟨[_], [_], rfl, ?_, ?_⟩, ?_, by decide, ?_⟩, ?_, ?_, ?_, by decide, ?_⟩
    · intro p hp; obtain rfl := List.mem_singleton.1 hp; exact ⟨_, _, rfl⟩
    · intro p hp n b he; obtain rfl := List.mem_singleton.1 hp; cases he
    · intro p hp
      simp only [List.mem_cons, List.not_mem_nil, or_false] at hp
      rcases hp with rfl | rfl <;> decide
    · intro p hp x hx
      simp only [List.mem_cons, List.not_mem_nil, or_false] at hp
      rcases hp with rfl | rfl <;> simp [ParamUses] at hx
    · intro w hw; cases hw
    · intro v hv g hg x hx
      obtain rfl := List.mem_singleton.1 hv
      simp only [List.mem_cons, List.not_mem_nil, or_false] at hg
      rcases hg with rfl | rfl <;> simp [TyUses] at hx <;> subst hx <;> simp [GParam.name]
    · intro p hp _
      refine ⟨_, .head _, ?_⟩
      simp only [List.mem_cons, List.not_mem_nil, or_false] at hp
      rcases hp with rfl | rfl
      · exact ⟨_, .head _, .inl rfl⟩
      · exact ⟨_, .tail _ (.head _), rfl⟩
    · intro v hv
      obtain rfl := List.mem_singleton.1 hv
      decide

theorem impl_wf {ps : List GParam} {U : Uses} (hp : ParamsWF U ps) {ws : List WPred}
    (hw : ∀ w ∈ ws, ∀ x, PredUses U w x → x ∈ ps.map GParam.name) :
    ImplWF U (ps.map withoutDefault) (ps.map ownArg) ws where
  params := params_noDefault hp
  preds := by rw [withoutDefault_names]; exact hw
  args := by
    intro a ha
    obtain ⟨p, hp, rfl⟩ := List.mem_map.1 ha
    exact ⟨_, List.mem_map_of_mem hp, withoutDefault_arg p⟩
  constrained := by
    intro p hp _
    obtain ⟨q, hq, rfl⟩ := List.mem_map.1 hp
    rw [withoutDefault_arg]
    exact List.mem_map_of_mem hq

theorem impl_wf_fresh {item : Item} {U : Uses} (hp : ParamsWF U (itemParams item)) {ws : List WPred}
    (hw : ∀ w ∈ ws, ∀ x, PredUses U w x → x = freshLt item ∨ x ∈ (itemParams item).map GParam.name) :
    ImplWF U (.lifetime (freshLt item) [] :: (itemParams item).map withoutDefault) ((itemParams item).map ownArg) ws where
  params := params_noDefault (params_fresh hp)
  preds := by
    intro w h x hx
    rw [List.map_cons, withoutDefault_names]
    rcases hw w h x hx with rfl | hx
    · exact .head _
    · exact .tail _ hx
  args := by
    intro a ha
    obtain ⟨p, hp, he⟩ := (impl_wf hp (ws := []) (fun _ h => by cases h)).args a ha
    exact ⟨p, .tail _ hp, he⟩
  constrained := by
    intro p hm hl
    rcases List.mem_cons.1 hm with rfl | hm
    · cases hl
    · exact (impl_wf hp (ws := []) (fun _ h => by cases h)).constrained p hm hl

theorem trait_impl_wf (item : Item) (E : Expansion) (h : parseDerive item = .ok E) (U : Uses)
    (hs : DefWF U (sourceDef item)) (hidden isUnsafe : Bool) (ps : List GParam) (tr : GTrait) (n : String) (as : List GArg)
    (ws : List WPred) (fns : List GFn) (hm : GItem.traitImpl hidden isUnsafe ps tr n as ws fns ∈ allItems E) :
    ImplWF U ps as ws := by
  have hlf := order_source hs.params.order
  obtain ⟨A, ident, attrs, kind, front, h1, h2, h3, h4, -⟩ := expansion_shape item E h
  obtain ⟨g1, g2, g3, g4, g5, g6, g7⟩ := item_generics hlf A attrs (itemVis item).visit ident kind
  rw [h3] at hm
  generalize hcx : mkCtx A attrs (itemVis item).visit ident (preGenerics item) kind = cx at *
  have c3 : cx.lifetime = freshLt item := by rw [← hcx]; rfl
  rw [← withoutDefault_eq] at g1 g6
  rw [← ownArg_eq] at g3 g5
  have hd : ImplWF U ((itemParams item).map withoutDefault) ((itemParams item).map ownArg) (itemPreds item) :=
    impl_wf hs.params hs.preds
  have hu : ∀ t tr', (∀ x, TyUses U t x → x = freshLt item ∨ x ∈ (itemParams item).map GParam.name) →
      ImplWF U (.lifetime (freshLt item) [] :: (itemParams item).map withoutDefault) ((itemParams item).map ownArg)
        (itemPreds item ++ [.bound (.pinnedFieldsOf t) tr']) := by
    intro t tr' ht
    apply impl_wf_fresh hs.params
    intro w hw x hx
    rcases List.mem_append.1 hw with hw | hw
    · exact .inr (hs.preds w hw x hx)
    · obtain rfl := List.mem_singleton.1 hw
      exact ht x hx
  have hwr : ∀ t x, (∀ y, ¬ TyUses U t y) → TyUses U (.wrapper (freshLt item) t) x →
      x = freshLt item ∨ x ∈ (itemParams item).map GParam.name := by
    rintro t x ht (rfl | hx)
    · exact .inl rfl
    · exact absurd hx (ht x)
  have had : ∀ n x, TyUses U (.adt n (.lifetime (freshLt item) :: (itemParams item).map ownArg)) x →
      x = freshLt item ∨ x ∈ (itemParams item).map GParam.name := by
    intro n x hx
    simp only [TyUses, List.mem_cons, GArg.lifetime.injEq, reduceCtorEq, false_or] at hx
    rcases hx with (rfl | hx) | hx
    · exact .inl rfl
    · rw [ownArg_eq] at hx; exact .inr (args_declared (n := n) (U := U) (.inl hx))
    · rw [ownArg_eq] at hx; exact .inr (args_declared (n := n) (U := U) (.inr hx))
  rcases List.mem_append.1 hm with hm | hm
  · rcases List.mem_append.1 hm with hm | hm
    · cases h4 _ hm
    · unfold makeUnpinImpl at hm
      simp only [g1, g2, g3, g4, g5, g7, c3] at hm
      split at hm
      all_goals
        simp only [List.mem_cons, List.not_mem_nil, or_false, reduceCtorEq, false_or, GItem.traitImpl.injEq] at hm
      · obtain ⟨rfl, rfl, rfl, rfl, rfl, rfl, rfl, rfl⟩ := hm
        exact hu _ _ (fun x => hwr _ x (fun _ h => h))
      · rcases hm with ⟨rfl, rfl, rfl, rfl, rfl, rfl, rfl, rfl⟩ | ⟨rfl, rfl, rfl, rfl, rfl, rfl, rfl, rfl⟩
        · exact hu _ _ (fun x => hwr _ x (fun _ h => h))
        · exact hu _ _ (fun x => hwr _ x (fun _ h => h))
      · rcases hm with ⟨rfl, rfl, rfl, rfl, rfl, rfl, rfl, rfl⟩ | ⟨rfl, rfl, rfl, rfl, rfl, rfl, rfl, rfl⟩
        · exact hu _ _ (had _)
        · exact hu _ _ (had _)
  · unfold makeDropImpl at hm
    simp only [g5, g6, g7] at hm
    split at hm
    all_goals
      simp only [List.mem_cons, List.not_mem_nil, or_false, reduceCtorEq, false_or, GItem.traitImpl.injEq] at hm
    · obtain ⟨rfl, rfl, rfl, rfl, rfl, rfl, rfl, rfl⟩ := hm
      exact hd
    · rcases hm with ⟨rfl, rfl, rfl, rfl, rfl, rfl, rfl, rfl⟩ | ⟨rfl, rfl, rfl, rfl, rfl, rfl, rfl, rfl⟩
      · exact hd
      · exact hd

theorem implHeader_front {item : Item} {E : Expansion} (h : parseDerive item = .ok E) {i : GItem} (hi : i ∈ allItems E)
    {g : List GParam × List GArg × List WPred} (hg : implHeader i = some g) :
    (∃ hidden isUnsafe tr n fns, i = .traitImpl hidden isUnsafe g.1 tr n g.2.1 g.2.2 fns) ∨
    g = ((preGenerics item).implGenerics, (preGenerics item).tyGenerics, (preGenerics item).preds) := by
  have hu : ∀ cx tys, i ∈ makeUnpinImpl cx tys → ∃ hidden isUnsafe tr n fns, i = .traitImpl hidden isUnsafe g.1 tr n g.2.1 g.2.2 fns := by
    intro cx tys hi
    unfold makeUnpinImpl at hi
    split at hi <;> simp only [List.mem_cons, List.not_mem_nil, or_false] at hi
    · subst hi; cases hg; exact ⟨_, _, _, _, _, rfl⟩
    · rcases hi with rfl | rfl <;> cases hg <;> exact ⟨_, _, _, _, _, rfl⟩
    · rcases hi with rfl | rfl | rfl <;> cases hg <;> exact ⟨_, _, _, _, _, rfl⟩
  have hd : ∀ cx, i ∈ makeDropImpl cx → ∃ hidden isUnsafe tr n fns, i = .traitImpl hidden isUnsafe g.1 tr n g.2.1 g.2.2 fns := by
    intro cx hi
    unfold makeDropImpl at hi
    split at hi <;> simp only [List.mem_cons, List.not_mem_nil, or_false] at hi
    · subst hi; cases hg; exact ⟨_, _, _, _, _, rfl⟩
    · rcases hi with rfl | rfl | rfl | rfl <;> cases hg <;> exact ⟨_, _, _, _, _, rfl⟩
  cases item with
  | other a => simp [parseDerive] at h
  | struct_ s =>
    obtain ⟨A, h1, -, -, -, -, -, rfl⟩ := (deriveStruct_iff s E).1 h
    simp only [allItems, structExpansion, List.mem_append, List.mem_singleton, List.mem_ite_nil_left,
      List.mem_ite_nil_right] at hi
    rcases hi with ((⟨_, rfl⟩ | ⟨_, rfl⟩) | ⟨_, _, rfl⟩) | ((((((⟨_, rfl⟩ | ⟨_, rfl⟩) | ⟨_, _, rfl⟩) | rfl) | rfl) | hi) | hi)
    case inr.inl.inl.inl.inr => cases hg; exact .inr rfl
    case inr.inl.inl.inr => cases hg; exact .inr rfl
    case inr.inl.inr => exact .inl (hu _ _ hi)
    case inr.inr => exact .inl (hd _ hi)
    all_goals cases hg
  | enum_ s =>
    obtain ⟨A, h1, -, -, -, -, -, -, rfl⟩ := (deriveEnum_iff s E).1 h
    simp only [allItems, enumExpansion, List.mem_append, List.mem_singleton, List.mem_ite_nil_left,
      List.mem_ite_nil_right] at hi
    rcases hi with ((⟨_, rfl⟩ | ⟨_, rfl⟩) | ⟨_, rfl⟩) | ((rfl | hi) | hi)
    case inr.inl.inl => cases hg; exact .inr rfl
    case inr.inl.inr => exact .inl (hu _ _ hi)
    case inr.inr => exact .inl (hd _ hi)
    all_goals cases hg

/-- **C53** Every impl is well-formed: distinct parameters, names in where-clauses are declared, the
arguments of the type are parameters of the impl, and every type or constant parameter of the impl is
determined by the type. -/
theorem C53_impls (item : Item) (E : Expansion) (h : parseDerive item = .ok E) (U : Uses)
    (hs : DefWF U (sourceDef item)) (i : GItem) (hi : i ∈ allItems E) (ps : List GParam) (as : List GArg)
    (ws : List WPred) (hg : implHeader i = some (ps, as, ws)) : ImplWF U ps as ws := by
  have hlf := order_source hs.params.order
  rcases implHeader_front h hi hg with ⟨hidden, isUnsafe, tr, n, fns, rfl⟩ | he
  · exact trait_impl_wf item E h U hs hidden isUnsafe ps tr n as ws fns hi
  · cases he
    have e1 : (preGenerics item).tyGenerics = (itemParams item).map ownArg := by
      rw [← defParams_args, preGenerics_params item hlf, ownArg_eq]
    have e2 : (preGenerics item).implGenerics = (itemParams item).map withoutDefault := by
      rw [withoutDefault_eq]
      exact implGenerics_eq (lifetimesFirst_visit hlf)
    rw [e1, e2, preGenerics_preds]
    exact impl_wf hs.params hs.preds

/-! ## Example -/

/-- `struct W<'a: 'static, T: Tr = u8, const N: usize> where T: Copy { #[pin] x: T, y: &'a u8, r#type: [u8; N] }` -/
def demoWF : ItemStruct where
  attrs := [pinPrivateAttr []]
  vis := .pub
  ident := "W"
  generics :=
    { params := [.lifetime "'a" ["'static"], .type "T" [.path (.mk false [.mk "Tr" .none])] (some (.tyIdent "u8")),
        .const "N" (.tyIdent "usize") none]
      whereClause := some [.user (.other "T: Copy" [])] }
  fields := .named [
    { attrs := [⟨.path { segs := ["pin"] }⟩], ident := some "x", ty := Node.tyIdent "T" },
    { ident := some "y", ty := .other "&'a u8" [] },
    { ident := some "r#type", ty := .other "[u8; N]" [] }]

/-- What its types and predicates use. -/
def demoUses : Uses := fun n x =>
  (n = .tyIdent "T" ∧ x = "T") ∨ (n = .other "&'a u8" [] ∧ x = "'a") ∨ (n = .other "[u8; N]" [] ∧ x = "N") ∨
  (n = .other "T: Copy" [] ∧ x = "T")

theorem demoWF_wf : DefWF demoUses (sourceDef (.struct_ demoWF)) := by
  refine ⟨⟨⟨[_], [_, _], rfl, ?_, ?_⟩, ?_, by decide, ?_⟩, ?_, ?_, ?_, by decide, ?_⟩
  · intro p hp; obtain rfl := List.mem_singleton.1 hp; exact ⟨_, _, rfl⟩
  · intro p hp n b he
    simp only [List.mem_cons, List.not_mem_nil, or_false] at hp
    rcases hp with rfl | rfl <;> cases he
  · intro p hp
    rcases hp with _ | ⟨_, _ | ⟨_, _ | ⟨_, hp⟩⟩⟩
    · decide
    · decide
    · decide
    · cases hp
  · intro p hp x hx
    have : x = "T" ∨ x = "'a" ∨ x = "N" := by
      rcases hp with _ | ⟨_, _ | ⟨_, _ | ⟨_, hp⟩⟩⟩
      · obtain ⟨h1, h2⟩ := hx
        exact absurd (List.mem_singleton.1 h1) h2
      · rcases hx with ⟨n, -, h⟩ | ⟨n, -, h⟩ <;> rcases h with h | h | h | h <;> simp [h.2]
      · rcases hx with h | ⟨n, -, h⟩ <;> rcases h with h | h | h | h <;> simp [h.2]
      · cases hp
    rcases this with rfl | rfl | rfl <;> decide
  · intro w hw x hx
    have : x = "T" ∨ x = "'a" ∨ x = "N" := by
      rcases hw with _ | ⟨_, hw⟩
      · rcases hx with h | h | h | h <;> simp [h.2]
      · cases hw
    rcases this with rfl | rfl | rfl <;> decide
  · intro v hv f hf x hx
    have : x = "T" ∨ x = "'a" ∨ x = "N" := by
      rcases hv with _ | ⟨_, hv⟩
      · rcases hf with _ | ⟨_, _ | ⟨_, _ | ⟨_, hf⟩⟩⟩
        · rcases hx with h | h | h | h <;> simp [h.2]
        · rcases hx with h | h | h | h <;> simp [h.2]
        · rcases hx with h | h | h | h <;> simp [h.2]
        · cases hf
      · cases hv
    rcases this with rfl | rfl | rfl <;> decide
  · intro p hp hc
    refine ⟨_, .head _, ?_⟩
    rcases hp with _ | ⟨_, _ | ⟨_, _ | ⟨_, hp⟩⟩⟩
    · exact ⟨_, .tail _ (.head _), .inr (.inl ⟨rfl, rfl⟩)⟩
    · exact ⟨_, .head _, .inl ⟨rfl, rfl⟩⟩
    · exact absurd rfl (hc _ _ _)
    · cases hp
  · intro v hv
    rcases hv with _ | ⟨_, hv⟩
    · decide
    · cases hv

/-- The helper struct `__W<'pin, 'a: 'static, T: Tr = u8, const N: usize>` is one of the types. -/
example : ∃ E, parseDerive (.struct_ demoWF) = .ok E ∧
    (typeDefs (allItems E)).map (fun d => (d.name, d.params.length)) =
      [("__WProjection", 4), ("__WProjectionRef", 4), ("__W", 4)] ∧
    ((typeDefs (allItems E)).map (fun d => d.variants.map (fun v => v.2.fields.map (·.ident)))).getLast? =
      some [[some "__pin_project_use_generics", some "__field0", some "__lifetime0"]] ∧
    ((allItems E).filterMap implHeader).length = 6 := ⟨_, rfl, rfl, rfl, rfl⟩

end PinProject

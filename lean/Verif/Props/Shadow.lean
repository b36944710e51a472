import Verif.Spec.Shadow
import Verif.Props.Unpin
/-!
# C46: when a generated type definition declares a lifetime twice
-/
namespace PinProject
open Spec

theorem declares_resolved (item : Item) (n : Node) (l : String) :
    Declares (n.visit (itemSelfTy item)) l ↔ Declares n l := by
  rw [← Node.mem_binders, ← Node.mem_binders, itemSelfTy_eq, Node.visit_binders (mkSelfTy_noBinder _ _)]

theorem declares_map (item : Item) (ns : List Node) (l : String) :
    (∃ n ∈ ns.map (Node.visit (itemSelfTy item)), Declares n l) ↔ ∃ n ∈ ns, Declares n l := by
  simp only [List.mem_map]
  constructor
  · rintro ⟨_, ⟨n, hn, rfl⟩, h⟩; exact ⟨n, hn, (declares_resolved _ _ _).1 h⟩
  · rintro ⟨n, hn, h⟩; exact ⟨_, ⟨n, hn, rfl⟩, (declares_resolved _ _ _).2 h⟩

theorem userNodesOfParam_visit (st : SelfTy) (p : GParam) : userNodesOfParam (p.visit st) = (userNodesOfParam p).map (Node.visit st) := by
  cases p with
  | lifetime n b => rfl
  | type n bs d => cases d <;> simp [userNodesOfParam, GParam.visit]
  | const n t d => cases d <;> simp [userNodesOfParam, GParam.visit]

theorem userNodesOfPred_visit (item : Item) (w : WPred) (l : String) :
    (∃ n ∈ userNodesOfPred (w.visit (itemSelfTy item)), Declares n l) ↔ ∃ n ∈ userNodesOfPred w, Declares n l := by
  cases w with
  | user n => simp [userNodesOfPred, WPred.visit, declares_resolved]
  | _ => exact Iff.rfl

theorem userNodes_mode (mode : Mode) (lt : String) (fs : Fields) :
    (modeFields mode lt fs).fields.flatMap (fun f => userNodes f.ty) = fs.list.map (·.ty) := by
  have : ∀ (g : Field → GField), (∀ f, userNodes (g f).ty = [f.ty]) →
      (fs.list.map g).flatMap (fun f => userNodes f.ty) = fs.list.map (·.ty) := by
    intro g hg
    induction fs.list with
    | nil => rfl
    | cons f l ih => simp [hg, ih]
  cases mode
  · exact this _ (fun f => by unfold projField; split <;> rfl)
  · exact this _ (fun f => by unfold projRefField; split <;> rfl)
  · exact this _ (fun f => by unfold projOwnField; split <;> rfl)

/-- A node of the list built by `flatMap`. -/
theorem declares_flatMap {α : Type} (xs : List α) (f : α → List Node) (l : String) :
    (∃ n ∈ xs.flatMap f, Declares n l) ↔ ∃ x ∈ xs, ∃ n ∈ f x, Declares n l := by
  simp only [List.mem_flatMap]
  constructor
  · rintro ⟨n, ⟨x, hx, hn⟩, h⟩; exact ⟨x, hx, n, hn, h⟩
  · rintro ⟨x, hx, n, hn, h⟩; exact ⟨n, ⟨x, hx, hn⟩, h⟩

theorem declares_append (xs ys : List Node) (l : String) :
    (∃ n ∈ xs ++ ys, Declares n l) ↔ (∃ n ∈ xs, Declares n l) ∨ ∃ n ∈ ys, Declares n l := by
  simp only [List.mem_append, or_and_right, exists_or]

theorem mem_defParams_iff (g : Generics) (p : GParam) : p ∈ g.defParams ↔ p ∈ g.params := by
  unfold Generics.defParams
  simp only [List.mem_append, List.mem_filter]
  cases p.isLifetime <;> simp

theorem declares_params (item : Item) (l : String) :
    (∃ n ∈ (preGenerics item).params.flatMap userNodesOfParam, Declares n l) ↔
      ∃ n ∈ (itemGenerics item).params.flatMap userNodesOfParam, Declares n l := by
  rw [declares_flatMap, declares_flatMap]
  simp only [preGenerics, Generics.visit, List.mem_map]
  constructor
  · rintro ⟨_, ⟨p, hp, rfl⟩, h⟩
    rw [userNodesOfParam_visit] at h
    exact ⟨p, hp, (declares_map item _ _).1 h⟩
  · rintro ⟨p, hp, h⟩
    refine ⟨_, ⟨p, hp, rfl⟩, ?_⟩
    rw [userNodesOfParam_visit]
    exact (declares_map item _ _).2 h

theorem declares_preds (item : Item) (l : String) :
    (∃ n ∈ (preGenerics item).preds.flatMap userNodesOfPred, Declares n l) ↔
      ∃ n ∈ ((itemGenerics item).whereClause.getD []).flatMap userNodesOfPred, Declares n l := by
  rw [declares_flatMap, declares_flatMap]
  have : (preGenerics item).preds = ((itemGenerics item).whereClause.getD []).map (WPred.visit (itemSelfTy item)) := by
    simp only [preGenerics, Generics.preds, Generics.visit]
    cases (itemGenerics item).whereClause <;> rfl
  rw [this]
  simp only [List.mem_map]
  constructor
  · rintro ⟨_, ⟨p, hp, rfl⟩, h⟩
    exact ⟨p, hp, (userNodesOfPred_visit item _ _).1 h⟩
  · rintro ⟨p, hp, h⟩
    exact ⟨_, ⟨p, hp, rfl⟩, (userNodesOfPred_visit item _ _).2 h⟩

theorem itemFields_variants (item : Item) : itemFields item = (itemVariants item).flatMap (fun v => v.2.list) := by
  cases item with
  | struct_ s => simp [itemFields, itemVariants]
  | enum_ e => simp [itemFields, itemVariants, List.flatMap_map]
  | other a => rfl

theorem declares_fields (item : Item) (mode : Mode) (lt l : String) :
    (∃ n ∈ ((preVariants item).map (fun v => (v.1, modeFields mode lt v.2))).flatMap
        (fun v => v.2.fields.flatMap (fun f => userNodes f.ty)), Declares n l) ↔
      ∃ f ∈ itemFields item, Declares f.ty l := by
  rw [declares_flatMap, itemFields_variants]
  simp only [preVariants]
  constructor
  · rintro ⟨x, hx, h⟩
    obtain ⟨y, hy, rfl⟩ := List.mem_map.1 hx
    obtain ⟨v, hv, rfl⟩ := List.mem_map.1 hy
    rw [userNodes_mode] at h
    dsimp only at h
    rw [list_visit, List.map_map] at h
    obtain ⟨_, hn, h⟩ := h
    obtain ⟨f, hf, rfl⟩ := List.mem_map.1 hn
    exact ⟨f, List.mem_flatMap.2 ⟨v, hv, hf⟩, (declares_resolved item _ _).1 h⟩
  · rintro ⟨f, hf, h⟩
    obtain ⟨v, hv, hf⟩ := List.mem_flatMap.1 hf
    refine ⟨_, List.mem_map_of_mem (List.mem_map_of_mem hv), ?_⟩
    rw [userNodes_mode]
    dsimp only
    rw [list_visit, List.map_map]
    exact ⟨_, List.mem_map.2 ⟨f, hf, rfl⟩, (declares_resolved item _ _).2 h⟩

/-- The declarations in the type of a mode are those in the annotated type. -/
theorem modeDef_declares (A : Args) (mode : Mode) (vis : Vis) (ident : String) (item : Item) (l : String) :
    (∃ n ∈ (modeDef A mode vis ident (preGenerics item) (preVariants item)).nodes, Declares n l) ↔
      ∃ n ∈ itemNodes item, Declares n l := by
  have hp : (∃ n ∈ (modeDef A mode vis ident (preGenerics item) (preVariants item)).params.flatMap userNodesOfParam,
      Declares n l) ↔ ∃ n ∈ (itemGenerics item).params.flatMap userNodesOfParam, Declares n l := by
    rw [← declares_params, declares_flatMap, declares_flatMap]
    simp only [modeDef, mem_defParams_iff]
    cases mode with
    | replace => exact Iff.rfl
    | _ => simp [modeGenerics, Generics.insertLifetime, userNodesOfParam]
  have hw : (∃ n ∈ (modeDef A mode vis ident (preGenerics item) (preVariants item)).preds.flatMap userNodesOfPred,
      Declares n l) ↔ ∃ n ∈ ((itemGenerics item).whereClause.getD []).flatMap userNodesOfPred, Declares n l := by
    rw [← declares_preds]
    cases mode with
    | replace => exact Iff.rfl
    | _ => simp [modeDef, modePreds, userNodesOfPred, userNodes]
  rw [TypeDef.nodes, itemNodes, declares_append, declares_append, declares_append, declares_append, hp, hw]
  refine or_congr Iff.rfl ?_
  have hf : (∃ n ∈ (itemFields item).map (·.ty), Declares n l) ↔ ∃ f ∈ itemFields item, Declares f.ty l := by
    constructor
    · rintro ⟨n, hn, h⟩
      obtain ⟨f, hf, rfl⟩ := List.mem_map.1 hn
      exact ⟨f, hf, h⟩
    · rintro ⟨f, hf, h⟩; exact ⟨_, List.mem_map_of_mem hf, h⟩
  rw [hf]
  exact declares_fields item mode _ l

theorem modeDef_lifetimes (A : Args) (mode : Mode) (vis : Vis) (ident : String) (item : Item) (l : String)
    (bs : List String) :
    GParam.lifetime l bs ∈ (modeDef A mode vis ident (preGenerics item) (preVariants item)).params ↔
      (mode ≠ .replace ∧ l = determineLifetimeName "'pin" (preGenerics item) ∧ bs = []) ∨
      GParam.lifetime l bs ∈ (itemGenerics item).params := by
  have hv : GParam.lifetime l bs ∈ (preGenerics item).params ↔ GParam.lifetime l bs ∈ (itemGenerics item).params := by
    simp only [preGenerics, Generics.visit, List.mem_map]
    constructor
    · rintro ⟨p, hp, he⟩
      cases p with
      | lifetime n b => cases he; exact hp
      | _ => cases he
    · intro h; exact ⟨_, h, rfl⟩
  rw [← hv]
  simp only [modeDef, mem_defParams_iff]
  cases mode <;> simp [modeGenerics, Generics.insertLifetime]

/-- Declarations in the generics, seen as syntax. -/
theorem genericsDeclare_nodes (item : Item) (hsrc : ∀ w ∈ (itemGenerics item).whereClause.getD [], ∃ n, w = .user n)
    (l : String) (h : ∃ n ∈ (itemGenerics item).params.flatMap userNodesOfParam ++
      ((itemGenerics item).whereClause.getD []).flatMap userNodesOfPred, Declares n l) :
    GenericsDeclare (itemGenerics item) l := by
  rw [declares_append, declares_flatMap, declares_flatMap] at h
  rcases h with ⟨p, hp, n, hn, h⟩ | ⟨w, hw, n, hn, h⟩
  · refine .inl ⟨p, hp, ?_⟩
    cases p with
    | lifetime _ _ => simp [userNodesOfParam] at hn
    | type _ bs d =>
      simp only [userNodesOfParam, List.mem_append, Option.mem_toList] at hn
      exact hn.imp (fun hn => ⟨n, hn, h⟩) (fun hn => ⟨n, hn, h⟩)
    | const _ t d =>
      simp only [userNodesOfParam, List.mem_cons, Option.mem_toList] at hn
      exact hn.imp (fun (hn : n = t) => hn ▸ h) (fun hn => ⟨n, hn, h⟩)
  · obtain ⟨m, rfl⟩ := hsrc w hw
    simp only [userNodesOfPred, List.mem_singleton] at hn
    subst hn
    refine .inr ?_
    cases hwc : (itemGenerics item).whereClause with
    | none => rw [hwc] at hw; simp at hw
    | some ps => rw [hwc] at hw; exact ⟨ps, rfl, n, hw, h⟩

/-- **C46** The type returned by a projection method declares a lifetime twice exactly when the
definition written by the user already does, or the lifetime of the projection is declared by a `for<..>`
in the type of a field. (`hsrc`: where-clauses are written by the user.) -/
theorem C46_redeclares_iff (item : Item) (E : Expansion) (h : parseDerive item = .ok E) (mode : Mode) (fn : GFn)
    (hfn : method E mode.fn = some fn)
    (hsrc : ∀ w ∈ (itemGenerics item).whereClause.getD [], ∃ n, w = .user n) :
    ∃ d ∈ typeDefs (allItems E), (∃ args, fn.ret = .adt d.name args) ∧
      (Redeclares d.params d.nodes ↔
        Redeclares (itemGenerics item).params (itemNodes item) ∨
        ∃ lt, fn.ltParam = some lt ∧ ∃ f ∈ itemFields item, Declares f.ty lt) := by
  obtain ⟨A, ident, h1, h2, h3, h4, h5, h6⟩ := method_def item E h mode fn hfn
  refine ⟨_, typeDefs_all h3, ⟨_, h4⟩, ?_⟩
  simp only [Redeclares, modeDef_lifetimes, modeDef_declares]
  constructor
  · rintro ⟨l, bs, ⟨hm, rfl, rfl⟩ | hl, hn⟩
    · rw [if_neg hm] at h6
      right
      refine ⟨_, h6, ?_⟩
      rw [itemNodes, declares_append] at hn
      rcases hn with hn | ⟨_, hf, hn⟩
      · exact absurd (genericsDeclare_nodes item hsrc _ hn) (C18_lifetime_ne item E h mode fn hfn _ h6)
      · obtain ⟨f, hf', rfl⟩ := List.mem_map.1 hf
        exact ⟨f, hf', hn⟩
    · exact .inl ⟨l, bs, hl, hn⟩
  · rintro (⟨l, bs, hl, hn⟩ | ⟨lt, hlt, f, hf, hn⟩)
    · exact ⟨l, bs, .inr hl, hn⟩
    · rw [h6] at hlt
      split at hlt
      · cases hlt
      · rename_i hm
        obtain rfl := Option.some.inj hlt
        refine ⟨_, [], .inl ⟨hm, rfl, rfl⟩, f.ty, ?_, hn⟩
        rw [itemNodes, List.mem_append]
        exact .inr (List.mem_map.2 ⟨f, hf, rfl⟩)

/-- Every type definition in an expansion is a projection type or the helper struct. -/
theorem all_typeDefs (item : Item) (E : Expansion) (h : parseDerive item = .ok E) :
    ∃ A ident, parseArgs (itemAttrs item) = .ok A ∧ itemName item = some ident ∧
      ∀ d ∈ typeDefs (allItems E),
        (∃ mode, d = modeDef A mode (itemVis item).visit ident (preGenerics item) (preVariants item)) ∨
        ∃ cx : Ctx, cx.generics = (preGenerics item).makeWhere ∧
          cx.projGenerics = (preGenerics item).insertLifetime (determineLifetimeName "'pin" (preGenerics item)) ∧
          d ∈ typeDefs (makeUnpinImpl cx (pinnedFieldTys item)) := by
  have hdrop : ∀ cx : Ctx, typeDefs (makeDropImpl cx) = [] := by
    intro cx; unfold makeDropImpl; split <;> rfl
  cases item with
  | other a => simp [parseDerive] at h
  | struct_ s =>
    obtain ⟨A, h1, -, -, -, -, -, rfl⟩ := (deriveStruct_iff s E).1 h
    refine ⟨A, s.ident, h1, rfl, fun d hd => ?_⟩
    have ht : pinnedTys s.pre.fields.list = pinnedFieldTys (.struct_ s) := by
      simp only [ItemStruct.pre, ItemStruct.visit, list_visit, pinnedTys_visit, pinnedFieldTys]
      rfl
    simp only [allItems, structExpansion, typeDefs_append, hdrop, List.append_nil, ht] at hd
    simp only [List.mem_append] at hd
    have hsplit : (∃ i ∈ [projItemS (s.ctx A) s.pre.fields, refItemS (s.ctx A) s.pre.fields,
        ownItemS (s.ctx A) s.pre.fields, implItemS (s.ctx A) s.pre.fields, assertItem (s.ctx A) s.pre.fields],
        asTypeDef i = some d) ∨ d ∈ typeDefs (makeUnpinImpl (s.ctx A) (pinnedFieldTys (.struct_ s))) := by
      have hite : ∀ (c : Bool) (x : GItem), (d ∈ typeDefs (if c then [x] else []) ∨
          d ∈ typeDefs (if c then [] else [x])) → asTypeDef x = some d := by
        intro c x hx
        cases c <;> simpa [typeDefs, List.mem_filterMap] using hx
      have hite2 : ∀ (b c : Bool) (x : GItem), (d ∈ typeDefs (if b then (if c then [x] else []) else []) ∨
          d ∈ typeDefs (if b then [] else (if c then [x] else []))) → asTypeDef x = some d := by
        intro b c x hx
        cases b <;> cases c <;> simp [typeDefs, List.mem_filterMap] at hx <;> exact hx
      have hone : ∀ x : GItem, d ∈ typeDefs [x] → asTypeDef x = some d := by
        intro x hx; simpa [typeDefs, List.mem_filterMap] using hx
      rcases hd with ((hd | hd) | hd) | (((((hd | hd) | hd) | hd) | hd) | hd)
      · exact .inl ⟨_, .head _, hite _ _ (.inl hd)⟩
      · exact .inl ⟨_, .tail _ (.head _), hite _ _ (.inl hd)⟩
      · exact .inl ⟨_, .tail _ (.tail _ (.head _)), hite2 _ _ _ (.inl hd)⟩
      · exact .inl ⟨_, .head _, hite _ _ (.inr hd)⟩
      · exact .inl ⟨_, .tail _ (.head _), hite _ _ (.inr hd)⟩
      · exact .inl ⟨_, .tail _ (.tail _ (.head _)), hite2 _ _ _ (.inr hd)⟩
      · exact .inl ⟨_, .tail _ (.tail _ (.tail _ (.head _))), hone _ hd⟩
      · exact .inl ⟨_, .tail _ (.tail _ (.tail _ (.tail _ (.head _)))), hone _ hd⟩
      · exact .inr hd
    rcases hsplit with ⟨i, hi, hd⟩ | hd
    · left
      simp only [List.mem_cons, List.not_mem_nil, or_false] at hi
      rcases hi with rfl | rfl | rfl | rfl | rfl
      · exact ⟨.proj, (Option.some.inj hd).symm⟩
      · exact ⟨.projRef, (Option.some.inj hd).symm⟩
      · exact ⟨.replace, (Option.some.inj hd).symm⟩
      · cases hd
      · cases hd
    · exact .inr ⟨s.ctx A, rfl, rfl, hd⟩
  | enum_ s =>
    obtain ⟨A, h1, -, -, -, -, -, -, rfl⟩ := (deriveEnum_iff s E).1 h
    refine ⟨A, s.ident, h1, rfl, fun d hd => ?_⟩
    have ht : s.pre.variants.flatMap (fun v => pinnedTys v.fields.list) = pinnedFieldTys (.enum_ s) := by
      simp only [ItemEnum.pre, ItemEnum.visit, pinnedFieldTys, itemFields, List.flatMap_map, List.filter_flatMap, List.map_flatMap]
      congr 1
      funext v
      simp only [Variant.visit, list_visit, pinnedTys_visit]
      rfl
    simp only [allItems, enumExpansion, typeDefs_append, hdrop, List.append_nil, ht] at hd
    simp only [List.mem_append] at hd
    have hsplit : (∃ i ∈ [projItemE (s.ctx A) s.pre.variants, refItemE (s.ctx A) s.pre.variants,
        ownItemE (s.ctx A) s.pre.variants, implItemE (s.ctx A) s.pre.variants],
        asTypeDef i = some d) ∨ d ∈ typeDefs (makeUnpinImpl (s.ctx A) (pinnedFieldTys (.enum_ s))) := by
      have hite : ∀ (c : Bool) (x : GItem), d ∈ typeDefs (if c then [x] else []) → asTypeDef x = some d := by
        intro c x hx
        cases c <;> simp [typeDefs, List.mem_filterMap] at hx
        exact hx
      have hone : ∀ x : GItem, d ∈ typeDefs [x] → asTypeDef x = some d := by
        intro x hx; simpa [typeDefs, List.mem_filterMap] using hx
      rcases hd with ((hd | hd) | hd) | (hd | hd)
      · exact .inl ⟨_, .head _, hite _ _ hd⟩
      · exact .inl ⟨_, .tail _ (.head _), hite _ _ hd⟩
      · exact .inl ⟨_, .tail _ (.tail _ (.head _)), hite _ _ hd⟩
      · exact .inl ⟨_, .tail _ (.tail _ (.tail _ (.head _))), hone _ hd⟩
      · exact .inr hd
    have hvs : preVariants (.enum_ s) = s.pre.variants.map (fun v => (some v.ident, v.fields)) := by
      simp only [preVariants, itemVariants, ItemEnum.pre, ItemEnum.visit, List.map_map]
      rfl
    rcases hsplit with ⟨i, hi, hd⟩ | hd
    · left
      rw [hvs]
      simp only [List.mem_cons, List.not_mem_nil, or_false] at hi
      rcases hi with rfl | rfl | rfl | rfl
      · refine ⟨.proj, (Option.some.inj hd).symm.trans ?_⟩
        simp only [modeDef, List.map_map]; rfl
      · refine ⟨.projRef, (Option.some.inj hd).symm.trans ?_⟩
        simp only [modeDef, List.map_map]; rfl
      · refine ⟨.replace, (Option.some.inj hd).symm.trans ?_⟩
        simp only [modeDef, List.map_map]; rfl
      · cases hd
    · exact .inr ⟨s.ctx A, rfl, rfl, hd⟩

/-- **C46** So no type definition in the expansion, helper struct included, declares a lifetime twice,
unless the definition written by the user does or a field type contains `for<'pin..>`. -/
theorem C46_only_pin (item : Item) (E : Expansion) (h : parseDerive item = .ok E)
    (hsrc : ∀ w ∈ (itemGenerics item).whereClause.getD [], ∃ n, w = .user n)
    (hitem : ¬ Redeclares (itemGenerics item).params (itemNodes item))
    (hpin : ∀ f ∈ itemFields item, ∀ l, Declares f.ty l → ¬ "'pin".toList <+: l.toList) :
    ∀ d ∈ typeDefs (allItems E), ¬ Redeclares d.params d.nodes := by
  obtain ⟨A, ident, h1, h2, h3⟩ := all_typeDefs item E h
  obtain ⟨k, hk1, hk2, -⟩ := lifetimeLoop_spec (preGenerics item).declaredLifetimes "'pin"
  have hfresh : ¬ GenericsDeclare (itemGenerics item) (determineLifetimeName "'pin" (preGenerics item)) := by
    intro hg
    refine hk2 _ ?_ (List.prefix_refl _)
    have : ∀ l, l ∈ (preGenerics item).declaredLifetimes ↔ GenericsDeclare (itemGenerics item) l := by
      intro l
      rw [preGenerics, itemSelfTy_eq, declaredLifetimes_visit (mkSelfTy_noBinder _ _), mem_declaredLifetimes]
    exact (this _).2 hg
  have hnot : ¬ ∃ n ∈ itemNodes item, Declares n (determineLifetimeName "'pin" (preGenerics item)) := by
    intro hn
    rw [itemNodes, declares_append] at hn
    rcases hn with hn | ⟨_, hf, hn⟩
    · exact hfresh (genericsDeclare_nodes item hsrc _ hn)
    · obtain ⟨f, hf', rfl⟩ := List.mem_map.1 hf
      exact hpin f hf' _ hn ⟨_, hk1.symm⟩
  intro d hd
  rcases h3 d hd with ⟨mode, rfl⟩ | ⟨cx, hg, hp, hd⟩
  · rintro ⟨l, bs, hl, hn⟩
    rw [modeDef_declares] at hn
    rcases (modeDef_lifetimes _ _ _ _ _ _ _).1 hl with ⟨-, rfl, -⟩ | hl
    · exact hnot hn
    · exact hitem ⟨l, bs, hl, hn⟩
  · unfold makeUnpinImpl at hd
    cases hu : cx.unpinImpl <;> rw [hu] at hd
    case default =>
      obtain rfl := List.mem_singleton.1 (show d ∈ [_] from hd)
      rintro ⟨l, bs, hl, hn⟩
      have hn' : ∃ n ∈ itemNodes item, Declares n l := by
        simp only [TypeDef.nodes, declares_append] at hn
        rw [itemNodes, declares_append, declares_append]
        rcases hn with (hn | hn) | hn
        · refine .inl (.inl ?_)
          rw [declares_flatMap] at hn
          obtain ⟨p, hp', n, hn, hd'⟩ := hn
          rw [hp, mem_defParams_iff] at hp'
          rcases List.mem_cons.1 hp' with rfl | hp'
          · simp [userNodesOfParam] at hn
          · rw [← declares_params, declares_flatMap]
            exact ⟨p, hp', n, hn, hd'⟩
        · refine .inl (.inr ?_)
          rw [hg, makeWhere_preds] at hn
          exact (declares_preds item l).1 hn
        · refine .inr ?_
          obtain ⟨n, hn, hd'⟩ := hn
          simp only [List.flatMap_cons, List.flatMap_nil, List.append_nil, List.mem_append, List.flatMap_append] at hn
          rcases hn with (hn | hn) | hn
          · simp [userNodes] at hn
          · obtain ⟨g, hg', hn⟩ := List.mem_flatMap.1 hn
            obtain ⟨i, hi, rfl⟩ := List.mem_mapIdx.1 hg'
            simp only [userNodes, List.mem_singleton] at hn
            subst hn
            have := List.getElem_mem hi
            obtain ⟨f, hf, he⟩ := List.mem_map.1 this
            rw [← he] at hd'
            exact ⟨_, List.mem_map_of_mem (List.mem_filter.1 hf).1, (declares_resolved item _ _).1 hd'⟩
          · obtain ⟨g, hg', hn⟩ := List.mem_flatMap.1 hn
            obtain ⟨i, hi, rfl⟩ := List.mem_mapIdx.1 hg'
            simp [userNodes] at hn
      rw [hp, mem_defParams_iff] at hl
      rcases List.mem_cons.1 hl with he | hl
      · obtain ⟨rfl, rfl⟩ := GParam.lifetime.inj he
        exact hnot hn'
      · refine hitem ⟨l, bs, ?_, hn'⟩
        simp only [preGenerics, Generics.visit, List.mem_map] at hl
        obtain ⟨p, hp', he⟩ := hl
        cases p with
        | lifetime n b => cases he; exact hp'
        | _ => cases he
    all_goals simp [typeDefs, asTypeDef] at hd

/-- `struct S(#[pin] for<'pin> fn(&'pin u8))` -/
def demoHigher : ItemStruct where
  attrs := [pinPrivateAttr []]
  vis := .inherited
  ident := "S"
  generics := {}
  fields := .unnamed [
    { attrs := [⟨.path { segs := ["pin"] }⟩], ident := none, ty := .other "fn" [.binder ["'pin"], .other "&" [.lifetime "'pin", Node.tyIdent "u8"]] }]

/-- The case of **C46** that pin-project does not avoid: this definition is accepted, declares no
lifetime twice, and all its projection types declare `'pin` twice. -/
theorem C46_counterexample : ∃ E fn, parseDerive (.struct_ demoHigher) = .ok E ∧
    ¬ Redeclares (itemGenerics (.struct_ demoHigher)).params (itemNodes (.struct_ demoHigher)) ∧
    method E "project" = some fn ∧
    ∃ d ∈ typeDefs (allItems E), (∃ args, fn.ret = .adt d.name args) ∧ Redeclares d.params d.nodes := by
  obtain ⟨E, hE⟩ : ∃ E, parseDerive (.struct_ demoHigher) = .ok E := ⟨_, rfl⟩
  obtain ⟨fn, hfn⟩ : ∃ fn, method E "project" = some fn := by
    obtain rfl := Except.ok.inj (hE.symm.trans (rfl : parseDerive (.struct_ demoHigher) = .ok _))
    exact ⟨_, rfl⟩
  refine ⟨E, fn, hE, ?_, hfn, ?_⟩
  · rintro ⟨l, bs, h, -⟩
    simp [itemGenerics, demoHigher] at h
  · obtain ⟨d, hd, hr, hi⟩ := C46_redeclares_iff _ E hE .proj fn hfn (by simp [itemGenerics, demoHigher])
    refine ⟨d, hd, hr, hi.2 (.inr ?_)⟩
    have hlt : fn.ltParam = some "'pin" := by
      obtain ⟨_, _, -, -, -, -, -, h6⟩ := method_def _ E hE .proj fn hfn
      rw [h6, if_neg (by decide), determineLifetimeName,
        show (preGenerics (.struct_ demoHigher)).declaredLifetimes = [] from rfl]
      unfold lifetimeLoop
      simp
    refine ⟨_, hlt, _, List.mem_cons_self, ["'pin"], .inside (c := .binder ["'pin"]) ?_ (.here _), by simp⟩
    simp [Node.children]

end PinProject

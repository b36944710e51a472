import Verif.Spec.Bounds
import Verif.Props.WellFormed
import Verif.Props.Sized
/-!
# Generated predicates and references: C56, C57
-/
namespace PinProject
open Spec

/-- The where-clauses of the generated trait impls: the user's predicates, and one more in the impls of `Unpin` and
`UnsafeUnpin`. -/
theorem trait_impl_preds (item : Item) (E : Expansion) (h : parseDerive item = .ok E)
    (hlf : LifetimesFirst (itemGenerics item).params) (hidden isUnsafe : Bool) (ps : List GParam) (tr : GTrait) (n : String)
    (as : List GArg) (ws : List WPred) (fns : List GFn)
    (hm : GItem.traitImpl hidden isUnsafe ps tr n as ws fns ∈ allItems E) :
    itemName item = some n ∧ as = (itemParams item).map ownArg ∧
    ((ps = (itemParams item).map withoutDefault ∧ ws = itemPreds item ∧
        ∀ fn ∈ fns, fn.ret = .unit) ∨
      (ps = .lifetime (freshLt item) [] :: (itemParams item).map withoutDefault ∧ fns = [] ∧
        ∃ t tr', ws = itemPreds item ++ [.bound (.pinnedFieldsOf t) tr'] ∧
          (t = .wrapper (freshLt item) .selfTy ∨ t = .wrapper (freshLt item) .phantomPinned ∨
            (t = .adt ("__" ++ unraw n) (.lifetime (freshLt item) :: (itemParams item).map ownArg) ∧
              helperDef item n (preGenerics item) ∈ typeDefs (allItems E))))) := by
  obtain ⟨A, ident, attrs, kind, front, h1, h2, h3, h4, -⟩ := expansion_shape item E h
  obtain ⟨g1, g2, g3, g4, g5, g6, g7⟩ := item_generics hlf A attrs (itemVis item).visit ident kind
  have hh : A.unpinImpl = .default → helperDef item ident (preGenerics item) ∈ typeDefs (allItems E) := by
    intro hA
    rw [h3, typeDefs_append, typeDefs_append]
    refine List.mem_append_left _ (List.mem_append_right _ ?_)
    generalize hcx : mkCtx A attrs (itemVis item).visit ident (preGenerics item) kind = cx at *
    have c1 : cx.unpinImpl = .default := by rw [← hcx]; exact hA
    have c2 : cx.ident = ident := by rw [← hcx]; rfl
    have c3 : cx.lifetime = freshLt item := by rw [← hcx]; rfl
    have c4 : cx.vis = (itemVis item).visit := by rw [← hcx]; rfl
    have c5 : cx.generics.typeParams = (preGenerics item).typeParams := by rw [← hcx]; rfl
    have c6 : cx.generics.lifetimes = (preGenerics item).lifetimes := by rw [← hcx]; rfl
    unfold makeUnpinImpl
    simp only [c1, c2, c3, c4, c5, c6, g2, g7, typeDefs, asTypeDef, List.filterMap_cons, List.filterMap_nil]
    exact .head _
  rw [h3] at hm
  generalize hcx : mkCtx A attrs (itemVis item).visit ident (preGenerics item) kind = cx at *
  have c0 : cx.unpinImpl = A.unpinImpl := by rw [← hcx]; rfl
  have c2 : cx.ident = ident := by rw [← hcx]; rfl
  have c3 : cx.lifetime = freshLt item := by rw [← hcx]; rfl
  rw [← withoutDefault_eq] at g1 g6
  rw [← ownArg_eq] at g3 g5
  rcases List.mem_append.1 hm with hm | hm
  · rcases List.mem_append.1 hm with hm | hm
    · cases h4 _ hm
    · unfold makeUnpinImpl at hm
      simp only [g1, g2, g3, g4, g5, g7, c2, c3] at hm
      split at hm
      all_goals
        simp only [List.mem_cons, List.not_mem_nil, or_false, reduceCtorEq, false_or, GItem.traitImpl.injEq] at hm
      · obtain ⟨rfl, rfl, rfl, rfl, rfl, rfl, rfl, rfl⟩ := hm
        exact ⟨h2, rfl, .inr ⟨rfl, rfl, _, _, rfl, .inl rfl⟩⟩
      · rcases hm with ⟨rfl, rfl, rfl, rfl, rfl, rfl, rfl, rfl⟩ | ⟨rfl, rfl, rfl, rfl, rfl, rfl, rfl, rfl⟩
        · exact ⟨h2, rfl, .inr ⟨rfl, rfl, _, _, rfl, .inr (.inl rfl)⟩⟩
        · exact ⟨h2, rfl, .inr ⟨rfl, rfl, _, _, rfl, .inr (.inl rfl)⟩⟩
      · rename_i hu
        rcases hm with ⟨rfl, rfl, rfl, rfl, rfl, rfl, rfl, rfl⟩ | ⟨rfl, rfl, rfl, rfl, rfl, rfl, rfl, rfl⟩
        · exact ⟨h2, rfl, .inr ⟨rfl, rfl, _, _, rfl, .inr (.inr ⟨rfl, hh (c0 ▸ hu)⟩)⟩⟩
        · exact ⟨h2, rfl, .inr ⟨rfl, rfl, _, _, rfl, .inr (.inr ⟨rfl, hh (c0 ▸ hu)⟩)⟩⟩
  · unfold makeDropImpl at hm
    simp only [g5, g6, g7, c2] at hm
    split at hm
    all_goals
      simp only [List.mem_cons, List.not_mem_nil, or_false, reduceCtorEq, false_or, GItem.traitImpl.injEq] at hm
    · obtain ⟨rfl, rfl, rfl, rfl, rfl, rfl, rfl, rfl⟩ := hm
      exact ⟨h2, rfl, .inl ⟨rfl, rfl, fun fn hf => by rw [List.mem_singleton.1 hf]⟩⟩
    · rcases hm with ⟨rfl, rfl, rfl, rfl, rfl, rfl, rfl, rfl⟩ | ⟨rfl, rfl, rfl, rfl, rfl, rfl, rfl, rfl⟩
      · exact ⟨h2, rfl, .inl ⟨rfl, rfl, fun fn hf => by cases hf⟩⟩
      · exact ⟨h2, rfl, .inl ⟨rfl, rfl, fun fn hf => by rw [List.mem_singleton.1 hf]⟩⟩

/-- The generics of all other impls are those of the annotated type. -/
theorem other_header {item : Item} {E : Expansion} (h : parseDerive item = .ok E)
    (hlf : LifetimesFirst (itemGenerics item).params) {i : GItem} (hi : i ∈ allItems E)
    {ps : List GParam} {as : List GArg} {ws : List WPred} (hg : implHeader i = some (ps, as, ws)) :
    (∃ hidden isUnsafe tr n fns, i = .traitImpl hidden isUnsafe ps tr n as ws fns) ∨
    (ps = (itemParams item).map withoutDefault ∧ as = (itemParams item).map ownArg ∧ ws = itemPreds item) := by
  rcases implHeader_front h hi hg with h1 | he
  · exact .inl h1
  · cases he
    refine .inr ⟨?_, ?_, preGenerics_preds item⟩
    · rw [withoutDefault_eq]; exact implGenerics_eq (lifetimesFirst_visit hlf)
    · rw [← defParams_args, preGenerics_params item hlf, ownArg_eq]

/-- **C56** In the generated impls, a where-predicate that is not the user's is never one without parameters, so it may
fail to hold without a compile error: the impl is then just not there. This is what makes types without generics work
that are not `Unpin`. -/
theorem C56_impls (item : Item) (E : Expansion) (h : parseDerive item = .ok E) (U : Uses)
    (hlf : LifetimesFirst (itemGenerics item).params) (i : GItem) (hi : i ∈ allItems E) (ps : List GParam) (as : List GArg)
    (ws : List WPred) (hg : implHeader i = some (ps, as, ws)) (w : WPred) (hw : w ∈ ws) (hnot : w ∉ itemPreds item) :
    ¬ Global U w ∧ ∃ x ∈ ps.map GParam.name, PredUses U w x := by
  have key : ∃ x ∈ ps.map GParam.name, PredUses U w x := by
    rcases other_header h hlf hi hg with ⟨hidden, isUnsafe, tr, n, fns, rfl⟩ | ⟨-, -, rfl⟩
    · obtain ⟨-, -, ⟨-, rfl, -⟩ | ⟨rfl, -, t, tr', rfl, ht⟩⟩ := trait_impl_preds item E h hlf _ _ _ _ _ _ _ _ hi
      · exact absurd hw hnot
      · refine ⟨freshLt item, .head _, ?_⟩
        rcases List.mem_append.1 hw with hw | hw
        · exact absurd hw hnot
        · obtain rfl := List.mem_singleton.1 hw
          rcases ht with rfl | rfl | ⟨rfl, -⟩
          · exact .inl rfl
          · exact .inl rfl
          · exact .inl (.head _)
    · exact absurd hw hnot
  exact ⟨fun hgl => key.elim fun x hx => hgl x hx.2, key⟩

/-- **C56** The same for the generated types. -/
theorem C56_types (item : Item) (E : Expansion) (h : parseDerive item = .ok E) (U : Uses)
    (hlf : LifetimesFirst (itemGenerics item).params) (d : TypeDef) (hd : d ∈ typeDefs (allItems E)) (w : WPred)
    (hw : w ∈ d.preds) (hnot : w ∉ itemPreds item) :
    ¬ Global U w ∧ ∃ x ∈ d.params.map GParam.name, PredUses U w x := by
  have key : ∃ x ∈ d.params.map GParam.name, PredUses U w x := by
    obtain ⟨A, ident, -, -, ⟨mode, rfl⟩ | ⟨rfl, -⟩⟩ := typeDefs_cases item E h hlf d hd
    · have hpar : (modeDef A mode (itemVis item).visit ident (preGenerics item) (preVariants item)).params =
        (if mode = .replace then [] else [.lifetime (freshLt item) []]) ++ itemParams item := modeDefParams item hlf mode
      rw [hpar]
      cases mode with
      | replace => exact absurd (by rw [← preGenerics_preds]; exact hw) hnot
      | _ =>
        refine ⟨freshLt item, .head _, ?_⟩
        rcases List.mem_append.1 hw with hw | hw
        · exact absurd (by rw [← preGenerics_preds]; exact hw) hnot
        · obtain rfl := List.mem_singleton.1 hw
          exact .inl rfl
    · exact absurd hw hnot
  exact ⟨fun hgl => key.elim fun x hx => hgl x hx.2, key⟩

/-- The parameters of the annotated type, as arguments, contain all names its fields use. -/
theorem declared_used {U : Uses} {item : Item} {n x : String} (h : x ∈ (itemParams item).map GParam.name) :
    TyUses U (.adt n ((itemParams item).map ownArg)) x := by
  obtain ⟨p, hp, rfl⟩ := List.mem_map.1 h
  cases p with
  | lifetime l bs => exact .inl (List.mem_map.2 ⟨_, hp, rfl⟩)
  | _ => exact .inr (List.mem_map.2 ⟨_, hp, rfl⟩)

theorem source_name {item : Item} {n : String} (h : itemName item = some n) : (sourceDef item).name = n := by
  simp [sourceDef, h]

/-- **C57** Every reference in a generated type is well-formed: what it refers to is known to outlive it. The same holds for
the types in where-clauses that are not the user's. -/
theorem C57_types (item : Item) (E : Expansion) (h : parseDerive item = .ok E) (U : Uses)
    (hs : DefWF U (sourceDef item)) (d : TypeDef) (hd : d ∈ typeDefs (allItems E)) :
    (∀ v ∈ d.variants, ∀ f ∈ v.2.fields, TyWF U (sourceDef item :: typeDefs (allItems E)) d.params (· ∈ d.preds) f.ty) ∧
    ∀ w ∈ d.preds, w ∉ itemPreds item → PredWF U (sourceDef item :: typeDefs (allItems E)) d.params (· ∈ d.preds) w := by
  have hlf := order_source hs.params.order
  obtain ⟨A, ident, -, hid, ⟨mode, rfl⟩ | ⟨rfl, -⟩⟩ := typeDefs_cases item E h hlf d hd
  · have e1 : (preGenerics item).tyGenerics = (itemParams item).map ownArg := by
      rw [← defParams_args, preGenerics_params item hlf, ownArg_eq]
    generalize hdd : modeDef A mode (itemVis item).visit ident (preGenerics item) (preVariants item) = d at hd ⊢
    have hpre : mode ≠ .replace → d.preds = itemPreds item ++ [.outlives (.adt ident ((itemParams item).map ownArg)) (freshLt item)] := by
      intro hm
      rw [← hdd, ← e1, ← preGenerics_preds]
      cases mode <;> first | rfl | exact absurd rfl hm
    constructor
    · intro v hv f hf
      rw [← hdd] at hv
      simp only [modeDef, preVariants, List.map_map, List.mem_map] at hv
      obtain ⟨⟨va, gs⟩, hw, rfl⟩ := hv
      dsimp only [Function.comp] at hf
      rw [modeFields_fields] at hf
      obtain ⟨g, hg, rfl⟩ := List.mem_map.1 hf
      have hout : mode ≠ .replace → ∀ x, TyUses U (.paren (.user (g.visit (itemSelfTy item)).ty)) x →
          Outlives U d.params (· ∈ d.preds) x (freshLt item) := by
        intro hm x hx
        refine .pred (t := .adt ident ((itemParams item).map ownArg)) ?_ (declared_used ?_)
        · show _ ∈ d.preds
          rw [hpre hm]
          exact List.mem_append_right _ (.head _)
        · exact hs.fields _ (List.mem_map_of_mem hw) _ (List.mem_map_of_mem hg) x hx
      cases mode with
      | proj =>
        have := fun b => TyWF.ref (defs := sourceDef item :: typeDefs (allItems E)) (b := b) (fun he => by cases he) (hout (by simp)) (.paren .user)
        simp only [projField]
        split
        · exact .pin (this _)
        · exact this _
      | projRef =>
        have := fun b => TyWF.ref (defs := sourceDef item :: typeDefs (allItems E)) (b := b) (fun he => by cases he) (hout (by simp)) (.paren .user)
        simp only [projRefField]
        split
        · exact .pin (this _)
        · exact this _
      | replace =>
        simp only [projOwnField]
        split
        · exact .phantomData .user
        · exact .user
    · intro w hw hnot
      by_cases hm : mode = .replace
      · subst hm
        rw [← hdd] at hw
        exact absurd (by rw [← preGenerics_preds]; exact hw) hnot
      · have hw' := hw
        rw [hpre hm] at hw'
        rcases List.mem_append.1 hw' with h1 | h1
        · exact absurd h1 hnot
        · obtain rfl := List.mem_singleton.1 h1
          refine .adt (d := sourceDef item) (.head _) (source_name hid) rfl (fun w hw => ?_)
          show w ∈ d.preds
          rw [hpre hm]
          exact List.mem_append_left _ hw
  · constructor
    · intro v hv f hf
      obtain rfl := List.mem_singleton.1 hv
      simp only [List.cons_append, List.mem_cons, List.mem_append, List.mem_mapIdx] at hf
      rcases hf with rfl | ⟨i, hi, rfl⟩ | ⟨i, hi, rfl⟩
      · exact .alwaysUnpin
      · exact .user
      · exact .ref (fun he => by cases he) (fun x hx => hx.elim) .unit
    · intro w hw hnot
      exact absurd hw hnot

/-- Every impl is for the annotated type. -/
theorem implFor_name {item : Item} {E : Expansion} (h : parseDerive item = .ok E) {i : GItem} (hi : i ∈ allItems E)
    {ps : List GParam} {as : List GArg} {ws : List WPred} (hg : implHeader i = some (ps, as, ws)) {t : GTy}
    (ht : implFor i = some t) : ∃ n, itemName item = some n ∧ t = .adt n as := by
  have hu : ∀ cx tys, i ∈ makeUnpinImpl cx tys → t = .adt cx.ident as := by
    intro cx tys hi
    unfold makeUnpinImpl at hi
    split at hi <;> simp only [List.mem_cons, List.not_mem_nil, or_false] at hi
    · subst hi; cases hg; cases ht; rfl
    · rcases hi with rfl | rfl <;> cases hg <;> cases ht <;> rfl
    · rcases hi with rfl | rfl | rfl <;> cases hg <;> cases ht <;> rfl
  have hd : ∀ cx, i ∈ makeDropImpl cx → t = .adt cx.ident as := by
    intro cx hi
    unfold makeDropImpl at hi
    split at hi <;> simp only [List.mem_cons, List.not_mem_nil, or_false] at hi
    · subst hi; cases hg; cases ht; rfl
    · rcases hi with rfl | rfl | rfl | rfl <;> cases hg <;> cases ht <;> rfl
  cases item with
  | other a => simp [parseDerive] at h
  | struct_ s =>
    obtain ⟨A, h1, -, -, -, -, -, rfl⟩ := (deriveStruct_iff s E).1 h
    refine ⟨s.ident, rfl, ?_⟩
    simp only [allItems, structExpansion, List.mem_append, List.mem_singleton, List.mem_ite_nil_left,
      List.mem_ite_nil_right] at hi
    rcases hi with ((⟨_, rfl⟩ | ⟨_, rfl⟩) | ⟨_, _, rfl⟩) | ((((((⟨_, rfl⟩ | ⟨_, rfl⟩) | ⟨_, _, rfl⟩) | rfl) | rfl) | hi) | hi)
    case inr.inl.inl.inl.inr => cases hg; cases ht; rfl
    case inr.inl.inl.inr => cases hg; cases ht; rfl
    case inr.inl.inr => exact hu _ _ hi
    case inr.inr => exact hd _ hi
    all_goals cases hg
  | enum_ s =>
    obtain ⟨A, h1, -, -, -, -, -, -, rfl⟩ := (deriveEnum_iff s E).1 h
    refine ⟨s.ident, rfl, ?_⟩
    simp only [allItems, enumExpansion, List.mem_append, List.mem_singleton, List.mem_ite_nil_left,
      List.mem_ite_nil_right] at hi
    rcases hi with ((⟨_, rfl⟩ | ⟨_, rfl⟩) | ⟨_, rfl⟩) | ((rfl | hi) | hi)
    case inr.inl.inl => cases hg; cases ht; rfl
    case inr.inl.inr => exact hu _ _ hi
    case inr.inr => exact hd _ hi
    all_goals cases hg

/-- **C57** The where-clauses of the generated impls, the types they are for, and the results of their functions are
well-formed: what is needed is written down, or is implied by the receiver. -/
theorem C57_impls (item : Item) (E : Expansion) (h : parseDerive item = .ok E) (U : Uses)
    (hs : DefWF U (sourceDef item)) (i : GItem) (hi : i ∈ allItems E) (ps : List GParam) (as : List GArg)
    (ws : List WPred) (hg : implHeader i = some (ps, as, ws)) (t : GTy) (ht : implFor i = some t) :
    (∀ w ∈ ws, w ∉ itemPreds item → PredWF U (sourceDef item :: typeDefs (allItems E)) ps (· ∈ ws) w) ∧
    TyWF U (sourceDef item :: typeDefs (allItems E)) ps (· ∈ ws) t ∧
    ∀ fn ∈ implFunctions i, TyWF U (sourceDef item :: typeDefs (allItems E)) (fn.ltParam.toList.map (GParam.lifetime · []) ++ ps)
      (Known ws t fn) fn.ret := by
  have hlf := order_source hs.params.order
  rcases other_header h hlf hi hg with ⟨hidden, isUnsafe, tr, n, fns, rfl⟩ | ⟨rfl, rfl, rfl⟩
  · cases ht
    obtain ⟨hid, rfl, ⟨rfl, rfl, hret⟩ | ⟨rfl, rfl, t, tr', rfl, ht⟩⟩ := trait_impl_preds item E h hlf _ _ _ _ _ _ _ _ hi
    · refine ⟨fun w hw hn => absurd hw hn, .adt (.head _) (source_name hid) rfl (fun w hw => hw), ?_⟩
      intro fn hf
      rw [hret fn hf]
      exact .unit
    · refine ⟨fun w hw hn => ?_, .adt (.head _) (source_name hid) rfl (fun w hw => List.mem_append_left _ hw), fun fn hf => by cases hf⟩
      rcases List.mem_append.1 hw with hw | hw
      · exact absurd hw hn
      · obtain rfl := List.mem_singleton.1 hw
        rcases ht with rfl | rfl | ⟨rfl, hd⟩
        · exact .pinnedFieldsOf (.wrapper .selfTy)
        · exact .pinnedFieldsOf (.wrapper .phantomPinned)
        · exact .pinnedFieldsOf (.adt (.tail _ hd) rfl rfl (fun w hw => List.mem_append_left _ hw))
  · refine ⟨fun w hw hn => absurd hw hn, ?_, ?_⟩
    · obtain ⟨n, hid, rfl⟩ := implFor_name h hi hg ht
      exact .adt (.head _) (source_name hid) rfl (fun w hw => hw)
    · intro fn hf
      obtain ⟨n, hid, rfl⟩ := implFor_name h hi hg ht
      cases i with
      | inherent ps' n' as' ws' fns =>
        obtain ⟨-, -, -, -, mode, hmeth, -⟩ := inherent_fns item E h _ _ _ _ _ hi fn hf
        obtain ⟨A, ident, -, hid', hd, hret, -, hlt⟩ := method_def item E h mode fn hmeth
        obtain rfl := Option.some.inj (hid.symm.trans hid')
        have hd' : modeDef A mode (itemVis item).visit n (preGenerics item) (preVariants item) ∈ typeDefs (allItems E) := by
          rw [allItems, typeDefs_append]
          split at hd
          · exact List.mem_append_left _ hd
          · exact List.mem_append_right _ hd
        have e1 : (preGenerics item).tyGenerics = (itemParams item).map ownArg := by
          rw [← defParams_args, preGenerics_params item hlf, ownArg_eq]
        rw [hret, ← ownArg_eq]
        refine .adt (.tail _ hd') rfl rfl (fun w hw => ?_)
        have hrecv := (method_sig item E h mode fn hmeth).2
        cases mode with
        | replace => exact .written (by rw [← preGenerics_preds]; exact hw)
        | _ =>
          simp only [modeDef, modePreds, preGenerics_preds, e1] at hw
          rcases List.mem_append.1 hw with hw | hw
          · exact .written hw
          · obtain rfl := List.mem_singleton.1 hw
            have hlt' : fn.ltParam = some (freshLt item) := hlt
            rw [hlt'] at hrecv
            exact .implied hrecv.1
      | traitImpl _ _ _ _ _ _ _ fns =>
        cases hg
        obtain ⟨-, -, ⟨-, -, hret⟩ | ⟨-, rfl, -⟩⟩ := trait_impl_preds item E h hlf _ _ _ _ _ _ _ _ hi
        · rw [hret fn hf]; exact .unit
        · cases hf
      | _ => cases hf

/-! ## Examples -/

/-- `struct P { #[pin] f: PhantomPinned }`: no generics at all. -/
def demoPlain : ItemStruct where
  attrs := [pinPrivateAttr []]
  vis := .pub
  ident := "P"
  generics := {}
  fields := .named [{ attrs := [⟨.path { segs := ["pin"] }⟩], ident := some "f", ty := Node.tyIdent "PhantomPinned" }]

/-- There is a generated predicate, and it is not global .. -/
example (U : Uses) : ∃ E ps w, parseDerive (.struct_ demoPlain) = .ok E ∧
    GItem.traitImpl false false ps .unpin "P" [] [w] [] ∈ allItems E ∧ ps.length = 1 ∧ ¬ Global U w := by
  obtain ⟨E, hE, ps, w, hm, hl⟩ : ∃ E, parseDerive (.struct_ demoPlain) = .ok E ∧ ∃ ps w,
      GItem.traitImpl false false ps .unpin "P" [] [w] [] ∈ allItems E ∧ ps.length = 1 :=
    ⟨_, rfl, _, _, List.mem_of_getElem? (i := 5) rfl, rfl⟩
  have hlf : LifetimesFirst (itemGenerics (.struct_ demoPlain)).params :=
    ⟨[], [], rfl, fun _ hp => absurd hp (by simp), fun _ hp => absurd hp (by simp)⟩
  exact ⟨E, ps, w, hE, hm, hl, (C56_impls _ E hE U hlf _ hm ps _ _ rfl w (.head _) (fun h => by cases h)).1⟩

/-- .. but `PinnedFieldsOf<__P>: Unpin` without the lifetime would be. -/
example (U : Uses) : Global U (.bound (.pinnedFieldsOf (.adt "__P" [])) .unpin) := by
  rintro x (h | h) <;> cases h

/-- Without `W<'a, T, N>: 'pin`, the references in the projection of `demoWF` are not well-formed. -/
example : ¬ TyWF demoUses [] (.lifetime "'pin" [] :: (sourceDef (.struct_ demoWF)).params)
    (fun w => ∃ n, w = .user n) (.ref (some "'pin") true (.user (.tyIdent "T"))) := by
  have key : ∀ x y, Outlives demoUses (.lifetime "'pin" [] :: (sourceDef (.struct_ demoWF)).params)
      (fun w => ∃ n, w = .user n) x y → x = "T" → y = "T" := by
    intro x y h
    induction h with
    | refl => exact id
    | pred h1 => obtain ⟨n, hn⟩ := h1; cases hn
    | @bound l bs b h1 h2 =>
      rintro rfl
      have : ("T", true) ∈ (GParam.lifetime "'pin" [] :: (sourceDef (.struct_ demoWF)).params).map (fun p => (p.name, isLifetimeParam p)) :=
        List.mem_map.2 ⟨_, h1, rfl⟩
      exact absurd this (by decide)
    | trans _ _ h1 h2 => exact fun h => h2 (h1 h)
  intro h
  cases h with
  | ref _ h _ =>
    have := key _ _ (h "T" (.inl ⟨rfl, rfl⟩)) rfl
    exact absurd this (by decide)

/-- The projection has references to all three fields. -/
example : ∃ E, parseDerive (.struct_ demoWF) = .ok E ∧ ∃ d ∈ typeDefs (allItems E), d.name = "__WProjection" ∧
    (d.variants.map (fun v => v.2.fields.length)) = [3] ∧
    ∀ v ∈ d.variants, ∀ f ∈ v.2.fields,
      TyWF demoUses (sourceDef (.struct_ demoWF) :: typeDefs (allItems E)) d.params (· ∈ d.preds) f.ty := by
  obtain ⟨E, hE, d, hd, h1, h2⟩ : ∃ E, parseDerive (.struct_ demoWF) = .ok E ∧ ∃ d ∈ typeDefs (allItems E),
      d.name = "__WProjection" ∧ (d.variants.map (fun v => v.2.fields.length)) = [3] :=
    ⟨_, rfl, _, .head _, rfl, rfl⟩
  exact ⟨E, hE, d, hd, h1, h2, (C57_types _ E hE demoUses demoWF_wf d hd).1⟩

end PinProject

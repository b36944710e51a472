import Verif.Props.PinnedDrop
import Verif.Props.Unpin
/-!
# C38: `Self` in the code copied from the definition
-/
namespace PinProject
open Spec

/-- The nodes of a header made from the generics `g`. -/
def HeaderFrom (S : Node → Prop) (ps : List GParam) (ws : List WPred) : Prop := ∀ n ∈ headerNodes ps ws, S n

theorem paramNodes_noDefault (p : GParam) : ∀ n ∈ paramNodes p.noDefault, n ∈ paramNodes p := by
  cases p with
  | lifetime => simp [GParam.noDefault, paramNodes]
  | type n bs d => simp only [GParam.noDefault, paramNodes]; intro x hx; simp at hx ⊢; exact .inl hx
  | const n t d => simp only [GParam.noDefault, paramNodes]; intro x hx; simp at hx ⊢; exact .inl hx

/-- All nodes of the generics satisfy `S`. -/
structure CtxFrom (S : Node → Prop) (cx : Ctx) : Prop where
  params : ∀ p ∈ cx.generics.params, ∀ n ∈ paramNodes p, S n
  preds : ∀ w ∈ cx.generics.preds, ∀ n ∈ predNodes w, S n
  projParams : ∀ p ∈ cx.projGenerics.params, ∀ n ∈ paramNodes p, S n
  projPreds : ∀ w ∈ cx.projGenerics.preds, ∀ n ∈ predNodes w, S n
  projWhere : ∀ w ∈ cx.projWhere, ∀ n ∈ predNodes w, S n

theorem mem_header {S : Node → Prop} {ps : List GParam} {ws : List WPred}
    (h1 : ∀ p ∈ ps, ∀ n ∈ paramNodes p, S n) (h2 : ∀ w ∈ ws, ∀ n ∈ predNodes w, S n) :
    ∀ n ∈ headerNodes ps ws, S n := by
  intro n hn
  rcases List.mem_append.1 hn with hn | hn
  · obtain ⟨p, hp, hn⟩ := List.mem_flatMap.1 hn
    exact h1 p hp n hn
  · obtain ⟨p, hp, hn⟩ := List.mem_flatMap.1 hn
    exact h2 p hp n hn

theorem mem_defParams {g : Generics} {p : GParam} (h : p ∈ g.defParams) : p ∈ g.params := by
  simp only [Generics.defParams, List.mem_append, List.mem_filter] at h
  rcases h with h | h <;> exact h.1

theorem mem_implGenerics {S : Node → Prop} {g : Generics} (h : ∀ p ∈ g.params, ∀ n ∈ paramNodes p, S n) :
    ∀ p ∈ g.implGenerics, ∀ n ∈ paramNodes p, S n := by
  intro p hp n hn
  obtain ⟨p', hp', rfl⟩ := List.mem_map.1 hp
  exact h p' (mem_defParams hp') n (paramNodes_noDefault p' n hn)

theorem makeUnpinImpl_nodes {S : Node → Prop} {cx : Ctx} (h : CtxFrom S cx) {tys : List Node}
    (ht : ∀ n ∈ tys, S n) : ∀ n ∈ (makeUnpinImpl cx tys).flatMap itemUserNodes, S n := by
  unfold makeUnpinImpl
  split
  · simp only [List.flatMap_cons, List.flatMap_nil, List.append_nil, itemUserNodes]
    apply mem_header (mem_implGenerics h.projParams)
    intro w hw n hn
    rcases List.mem_append.1 hw with hw | hw
    · exact h.projPreds w hw n hn
    · rw [List.mem_singleton.1 hw] at hn
      simp [predNodes, tyNodes] at hn
  · simp only [List.flatMap_cons, List.flatMap_nil, List.append_nil, itemUserNodes]
    have : ∀ n ∈ headerNodes cx.projGenerics.implGenerics (cx.projGenerics.preds ++
        [.bound (.pinnedFieldsOf (.wrapper cx.lifetime .phantomPinned)) .unpin]), S n := by
      apply mem_header (mem_implGenerics h.projParams)
      intro w hw n hn
      rcases List.mem_append.1 hw with hw | hw
      · exact h.projPreds w hw n hn
      · rw [List.mem_singleton.1 hw] at hn
        simp [predNodes, tyNodes] at hn
    intro n hn
    rcases List.mem_append.1 hn with hn | hn <;> exact this n hn
  · simp only [List.flatMap_cons, List.flatMap_nil, List.append_nil, itemUserNodes]
    have himpl : ∀ n ∈ headerNodes cx.projGenerics.implGenerics (cx.generics.preds ++
        [.bound (.pinnedFieldsOf (.adt ("__" ++ unraw cx.ident) cx.projGenerics.tyGenerics)) .unpin]), S n := by
      apply mem_header (mem_implGenerics h.projParams)
      intro w hw n hn
      rcases List.mem_append.1 hw with hw | hw
      · exact h.preds w hw n hn
      · rw [List.mem_singleton.1 hw] at hn
        simp [predNodes, tyNodes] at hn
    intro n hn
    simp only [List.mem_append] at hn
    rcases hn with (hn | hn) | hn | hn
    · exact mem_header (fun p hp => h.projParams p (mem_defParams hp)) h.preds n hn
    · obtain ⟨f, hf, hn⟩ := List.mem_flatMap.1 hn
      simp only [List.cons_append, List.mem_cons, List.mem_append, List.mem_mapIdx] at hf
      rcases hf with rfl | ⟨i, hi, rfl⟩ | ⟨i, hi, rfl⟩
      · simp [tyNodes] at hn
      · rw [List.mem_singleton.1 hn]
        exact ht _ (List.getElem_mem hi)
      · simp [tyNodes] at hn
    · exact himpl n hn
    · exact himpl n hn

theorem makeDropImpl_nodes {S : Node → Prop} {cx : Ctx} (h : CtxFrom S cx) :
    ∀ n ∈ (makeDropImpl cx).flatMap itemUserNodes, S n := by
  have hh := mem_header (mem_implGenerics h.params) h.preds
  unfold makeDropImpl
  split
  · simpa [itemUserNodes, fnNodes, tyNodes] using hh
  · simp only [List.flatMap_cons, List.flatMap_nil, List.append_nil, itemUserNodes, List.nil_append, fnNodes,
      pinMutSelf, tyNodes]
    intro n hn
    rcases List.mem_append.1 hn with hn | hn <;> exact hh n hn

theorem makeProjImpl_nodes {S : Node → Prop} {cx : Ctx} (h : CtxFrom S cx) (a b c : GBody) :
    ∀ n ∈ itemUserNodes (makeProjImpl cx a b c), S n := by
  intro n hn
  simp only [makeProjImpl, itemUserNodes, List.mem_append] at hn
  rcases hn with hn | hn
  · exact mem_header (mem_implGenerics h.params) h.preds n hn
  · obtain ⟨f, hf, hn⟩ := List.mem_flatMap.1 hn
    simp only [List.mem_append, List.mem_ite_nil_left, List.mem_singleton] at hf
    rcases hf with (⟨-, rfl⟩ | ⟨-, rfl⟩) | ⟨-, rfl⟩ <;> simp [fnNodes, tyNodes, pinMutSelf] at hn

theorem fieldsNodes_of {S : Node → Prop} {fs : List Field} (hs : ∀ f ∈ fs, S f.ty) (d : Option Delim)
    (k : Field → GField) (hk : ∀ f, tyNodes (k f).ty = [f.ty]) : ∀ n ∈ fieldsNodes ⟨d, fs.map k⟩, S n := by
  intro n hn
  simp only [fieldsNodes, List.flatMap_map] at hn
  obtain ⟨f, hf, hn⟩ := List.mem_flatMap.1 hn
  rw [hk, List.mem_singleton] at hn
  rw [hn]
  exact hs f hf

theorem tyNodes_proj (lt : String) (f : Field) : tyNodes (projField lt f).ty = [f.ty] := by
  unfold projField; split <;> simp [tyNodes]
theorem tyNodes_projRef (lt : String) (f : Field) : tyNodes (projRefField lt f).ty = [f.ty] := by
  unfold projRefField; split <;> simp [tyNodes]
theorem tyNodes_projOwn (f : Field) : tyNodes (projOwnField f).ty = [f.ty] := by
  unfold projOwnField; split <;> simp [tyNodes]

theorem typeDef_nodes {S : Node → Prop} {cx : Ctx} (h : CtxFrom S cx) (fs : Fields)
    (hs : ∀ f ∈ fs.list, S f.ty) :
    (∀ n ∈ itemUserNodes (projItemS cx fs), S n) ∧ (∀ n ∈ itemUserNodes (refItemS cx fs), S n) ∧
    (∀ n ∈ itemUserNodes (ownItemS cx fs), S n) := by
  refine ⟨?_, ?_, ?_⟩ <;> intro n hn <;> rcases List.mem_append.1 hn with hn | hn
  · exact mem_header (fun p hp => h.projParams p (mem_defParams hp)) h.projWhere n hn
  · exact fieldsNodes_of hs _ _ (tyNodes_proj _) n hn
  · exact mem_header (fun p hp => h.projParams p (mem_defParams hp)) h.projWhere n hn
  · exact fieldsNodes_of hs _ _ (tyNodes_projRef _) n hn
  · exact mem_header (fun p hp => h.params p (mem_defParams hp)) h.preds n hn
  · exact fieldsNodes_of hs _ _ tyNodes_projOwn n hn

theorem enumDef_nodes {S : Node → Prop} {cx : Ctx} (h : CtxFrom S cx) (vs : List Variant)
    (hs : ∀ v ∈ vs, ∀ f ∈ v.fields.list, S f.ty) :
    (∀ n ∈ itemUserNodes (projItemE cx vs), S n) ∧ (∀ n ∈ itemUserNodes (refItemE cx vs), S n) ∧
    (∀ n ∈ itemUserNodes (ownItemE cx vs), S n) := by
  refine ⟨?_, ?_, ?_⟩ <;> intro n hn <;> rcases List.mem_append.1 hn with hn | hn
  · exact mem_header (fun p hp => h.projParams p (mem_defParams hp)) h.projWhere n hn
  · simp only [List.flatMap_map] at hn
    obtain ⟨v, hv, hn⟩ := List.mem_flatMap.1 hn
    exact fieldsNodes_of (hs v hv) _ _ (tyNodes_proj _) n hn
  · exact mem_header (fun p hp => h.projParams p (mem_defParams hp)) h.projWhere n hn
  · simp only [List.flatMap_map] at hn
    obtain ⟨v, hv, hn⟩ := List.mem_flatMap.1 hn
    exact fieldsNodes_of (hs v hv) _ _ (tyNodes_projRef _) n hn
  · exact mem_header (fun p hp => h.params p (mem_defParams hp)) h.preds n hn
  · simp only [List.flatMap_map] at hn
    obtain ⟨v, hv, hn⟩ := List.mem_flatMap.1 hn
    exact fieldsNodes_of (hs v hv) _ _ tyNodes_projOwn n hn

theorem ctxFrom_mk {S : Node → Prop} (A : Args) (attrs : List Attribute) (vis : Vis) (ident : String)
    (g : Generics) (kind : TypeKind) (hg : ∀ n ∈ genericsNodes g, S n) : CtxFrom S (mkCtx A attrs vis ident g kind) := by
  have hp : ∀ p ∈ g.params, ∀ n ∈ paramNodes p, S n := fun p hp n hn =>
    hg n (List.mem_append_left _ (List.mem_flatMap.2 ⟨p, hp, hn⟩))
  have hw : ∀ w ∈ g.preds, ∀ n ∈ predNodes w, S n := fun w hw n hn =>
    hg n (List.mem_append_right _ (List.mem_flatMap.2 ⟨w, hw, hn⟩))
  constructor
  · exact hp
  · exact hw
  · intro p hp' n hn
    rcases List.mem_cons.1 hp' with rfl | hp'
    · simp [paramNodes] at hn
    · exact hp p hp' n hn
  · exact hw
  · intro w hw' n hn
    rcases List.mem_append.1 hw' with hw' | hw'
    · exact hw w hw' n hn
    · rw [List.mem_singleton.1 hw'] at hn
      simp [predNodes, tyNodes] at hn

theorem flatMap_append_nodes (S : Node → Prop) (a b : List GItem)
    (ha : ∀ n ∈ a.flatMap itemUserNodes, S n) (hb : ∀ n ∈ b.flatMap itemUserNodes, S n) :
    ∀ n ∈ (a ++ b).flatMap itemUserNodes, S n := by
  intro n hn
  rw [List.flatMap_append] at hn
  rcases List.mem_append.1 hn with hn | hn
  · exact ha n hn
  · exact hb n hn

theorem flatMap_single_nodes (S : Node → Prop) (a : GItem) (ha : ∀ n ∈ itemUserNodes a, S n) :
    ∀ n ∈ [a].flatMap itemUserNodes, S n := by
  simpa using ha

theorem flatMap_nil_nodes (S : Node → Prop) : ∀ n ∈ ([] : List GItem).flatMap itemUserNodes, S n := by
  simp

theorem mem_pinnedTys {fs : List Field} {n : Node} (h : n ∈ pinnedTys fs) : ∃ f ∈ fs, n = f.ty := by
  unfold pinnedTys at h
  obtain ⟨f, hf, rfl⟩ := List.mem_map.1 h
  exact ⟨f, (List.mem_filter.1 hf).1, rfl⟩

theorem structExpansion_nodes {S : Node → Prop} {cx : Ctx} (h : CtxFrom S cx) (fs : Fields)
    (hs : ∀ f ∈ fs.list, S f.ty) : ∀ n ∈ expansionNodes (structExpansion cx fs), S n := by
  obtain ⟨h1, h2, h3⟩ := typeDef_nodes h fs hs
  have hu := makeUnpinImpl_nodes h (tys := pinnedTys fs.list) (by
    intro n hn; obtain ⟨f, hf, rfl⟩ := mem_pinnedTys hn; exact hs f hf)
  unfold expansionNodes allItems structExpansion
  repeat' first
    | exact makeDropImpl_nodes h
    | exact hu
    | apply flatMap_append_nodes
    | apply flatMap_single_nodes
    | exact h1 | exact h2 | exact h3
    | exact makeProjImpl_nodes h _ _ _
    | exact mem_header (mem_implGenerics h.params) h.preds
    | exact flatMap_nil_nodes S
    | split

theorem enumExpansion_nodes {S : Node → Prop} {cx : Ctx} (h : CtxFrom S cx) (vs : List Variant)
    (hs : ∀ v ∈ vs, ∀ f ∈ v.fields.list, S f.ty) : ∀ n ∈ expansionNodes (enumExpansion cx vs), S n := by
  obtain ⟨h1, h2, h3⟩ := enumDef_nodes h vs hs
  have hu := makeUnpinImpl_nodes h (tys := vs.flatMap (fun v => pinnedTys v.fields.list)) (by
    intro n hn
    obtain ⟨v, hv, hn⟩ := List.mem_flatMap.1 hn
    obtain ⟨f, hf, rfl⟩ := mem_pinnedTys hn
    exact hs v hv f hf)
  unfold expansionNodes allItems enumExpansion
  repeat' first
    | exact makeDropImpl_nodes h
    | exact hu
    | apply flatMap_append_nodes
    | apply flatMap_single_nodes
    | exact h1 | exact h2 | exact h3
    | exact makeProjImpl_nodes h _ _ _
    | exact flatMap_nil_nodes S
    | split

theorem Fields.visit_list (s : SelfTy) (fs : Fields) : (fs.visit s).list = fs.list.map (Field.visit s) := by
  cases fs <;> rfl

/-- Everything copied from the definition into the expansion went through the visitor. -/
theorem expansionNodes_visit (item : Item) (E : Expansion) (h : parseDerive item = .ok E)
    (hu : UserPreds (itemGenerics item)) :
    ∀ n ∈ expansionNodes E, ∃ m ∈ definitionNodes item, n = m.visit (itemSelfTy item) := by
  have hg : ∀ n ∈ genericsNodes ((itemGenerics item).visit (itemSelfTy item)),
      ∃ m ∈ definitionNodes item, n = m.visit (itemSelfTy item) := by
    intro n hn
    rw [genericsNodes_visit _ _ hu] at hn
    obtain ⟨m, hm, rfl⟩ := List.mem_map.1 hn
    exact ⟨m, List.mem_append_left _ hm, rfl⟩
  have hf : ∀ v ∈ itemVariants item, ∀ f ∈ (v.2.visit (itemSelfTy item)).list,
      ∃ m ∈ definitionNodes item, f.ty = m.visit (itemSelfTy item) := by
    intro v hv f hf
    rw [Fields.visit_list] at hf
    obtain ⟨f', hf', rfl⟩ := List.mem_map.1 hf
    exact ⟨f'.ty, List.mem_append_right _ (List.mem_flatMap.2 ⟨v, hv, List.mem_map.2 ⟨f', hf', rfl⟩⟩), rfl⟩
  cases item with
  | other a => simp [parseDerive] at h
  | struct_ s =>
    obtain ⟨A, -, -, -, -, -, -, rfl⟩ := (deriveStruct_iff s E).1 h
    exact structExpansion_nodes (ctxFrom_mk A _ _ _ _ _ hg) s.pre.fields
      (fun f hf' => hf (none, s.fields) (by simp [itemVariants]) f hf')
  | enum_ s =>
    obtain ⟨A, -, -, -, -, -, -, -, rfl⟩ := (deriveEnum_iff s E).1 h
    refine enumExpansion_nodes (ctxFrom_mk A _ _ _ _ _ hg) s.pre.variants ?_
    intro v hv f hf'
    obtain ⟨v', hv', rfl⟩ := List.mem_map.1 hv
    exact hf (some v'.ident, v'.fields) (List.mem_map.2 ⟨v', hv', rfl⟩) f hf'

theorem tyIdent_bare {i : String} (h : ∀ w : Word, i ≠ w.text) : Bare (Node.tyIdent i) := by
  rw [bare_iff]
  refine ⟨?_, ?_, ?_⟩
  · rintro p ⟨⟩ w
    have hw := h w
    cases w
    · rw [Path.ofIdent, at_value_idents]; simpa [Seg.ident, Word.text] using hw
    · rw [Path.ofIdent, at_type_idents]; simpa [Seg.ident, Word.text] using hw
  · rintro ts ⟨⟩
  · intro c hc
    simp [scopeChildren, Node.tyIdent, Node.children, QS.children, Path.ofIdent, Path.children, Seg.args,
      PArgs.children] at hc

theorem lifetime_bare (l : String) : Bare (.lifetime l) := by
  rw [bare_iff]
  exact ⟨(by rintro p ⟨⟩), (by rintro p ⟨⟩), (by intro c hc; simp [scopeChildren, Node.children] at hc)⟩

theorem tokOccurs_of_append {w : String} {a b : List TT} (h : TokOccurs w (a ++ b)) :
    TokOccurs w a ∨ TokOccurs w b := (tokOccurs_append w a b).1 h

theorem mem_tyGenerics {g : Generics} {a : GArg} (h : a ∈ g.tyGenerics) : ∃ p ∈ g.params, a = p.arg := by
  simp only [Generics.tyGenerics, List.mem_append, List.mem_map, List.mem_filter] at h
  rcases h with ⟨p, hp, rfl⟩ | ⟨p, hp, rfl⟩ <;> exact ⟨p, hp.1, rfl⟩

theorem itemSelfTy_closed (item : Item) {name : String} (hn : itemName item = some name) (h : LegalNames item) :
    Closed (itemSelfTy item) := by
  have hname : ∀ w : Word, name ≠ w.text := fun w he => (h w).1 (by rw [hn, he])
  have harg : ∀ a ∈ (itemGenerics item).tyGenerics, Bare a.node ∧ ∀ w : Word, ¬ TokOccurs w.text a.toks := by
    intro a ha
    obtain ⟨p, hp, rfl⟩ := mem_tyGenerics ha
    have := fun w : Word => (h w).2 p hp
    cases p with
    | lifetime n b =>
      refine ⟨lifetime_bare _, fun w => ?_⟩
      simpa [GParam.arg, GArg.toks, tokOccurs_ident, tokOccurs_punct, tokOccurs_nil, plainName, eq_comm] using this w
    | type n b d =>
      refine ⟨tyIdent_bare this, fun w => ?_⟩
      simpa [GParam.arg, GArg.toks, tokOccurs_ident, tokOccurs_nil, plainName, eq_comm] using this w
    | const n b d =>
      refine ⟨tyIdent_bare this, fun w => ?_⟩
      simpa [GParam.arg, GArg.toks, tokOccurs_ident, tokOccurs_nil, plainName, eq_comm] using this w
  rw [itemSelfTy_eq]
  unfold mkSelfTy
  rw [hn, Option.getD_some]
  refine ⟨?_, ?_, by simp [Path.segs]⟩
  · refine (bare_iff _).2 ⟨?_, ?_, ?_⟩
    · rintro p ⟨⟩ w
      have hw := hname w
      cases w
      · rw [at_value_idents]; simpa [Seg.ident, Word.text] using hw
      · rw [at_type_idents]; simpa [Seg.ident, Word.text] using hw
    · rintro ts ⟨⟩
    · intro c hc
      split at hc
      · simp [scopeChildren, Node.children, QS.children, Path.children, Seg.args, PArgs.children] at hc
      · simp only [scopeChildren, Node.children, QS.children, Path.children, Seg.args, PArgs.children,
          List.flatMap_cons, List.flatMap_nil, List.append_nil, List.nil_append] at hc
        obtain ⟨a, ha, rfl⟩ := List.mem_map.1 hc
        exact (harg a ha).1
  · intro w
    have hw := hname w
    dsimp only
    split
    · simpa [tokOccurs_ident, tokOccurs_nil, eq_comm] using hw
    · rw [List.cons_append, tokOccurs_ident, List.cons_append, tokOccurs_punct]
      rintro (hc | hc)
      · exact hw hc
      · rcases tokOccurs_of_append hc with hc | hc
        · generalize (itemGenerics item).tyGenerics = l at harg hc
          induction l with
          | nil => simp [tokOccurs_nil, List.intercalate] at hc
          | cons a l ih =>
            cases l with
            | nil =>
              simp only [List.intercalate, List.map_cons, List.map_nil, List.intersperse, List.flatten_cons,
                List.flatten_nil, List.append_nil] at hc
              exact (harg a (List.mem_cons_self ..)).2 w hc
            | cons b l =>
              simp only [List.intercalate, List.map_cons, List.intersperse, List.flatten_cons] at hc ih
              rcases tokOccurs_of_append hc with hc | hc
              · exact (harg a (List.mem_cons_self ..)).2 w hc
              · rcases tokOccurs_of_append hc with hc | hc
                · simp [tokOccurs_punct, tokOccurs_nil] at hc
                · exact ih (fun b hb => harg b (List.mem_cons_of_mem _ hb)) hc
        · simp [tokOccurs_punct, tokOccurs_nil] at hc

/-- Each type, bound, default and predicate in the generated code is one of the definition with `Self`
replaced by the annotated type applied to its own parameters, and nothing else changed.
(`Self` inside macro calls whose tokens contain `fn` stays: see `C38_kept`.) -/
theorem C38_rewritten (item : Item) (E : Expansion) (h : parseDerive item = .ok E)
    (hu : UserPreds (itemGenerics item)) (hw : ∀ n ∈ definitionNodes item, WellUsed n) :
    ∀ n ∈ expansionNodes E, ∃ m ∈ definitionNodes item, Rewrites (itemSelfTy item) m n := by
  intro n hn
  obtain ⟨m, hm, rfl⟩ := expansionNodes_visit item E h hu n hn
  exact ⟨m, hm, (rewrites_iff (hw m hm)).2 (.inl rfl)⟩

/-- A generated copy contains `Self` exactly if it was made from a type, bound, default or predicate with
a macro call whose tokens contain both `Self` and `fn`. -/
theorem C38_left_iff (item : Item) (E : Expansion) (h : parseDerive item = .ok E)
    (hu : UserPreds (itemGenerics item)) (hl : LegalNames item)
    (hw : ∀ n ∈ definitionNodes item, WellUsed n) :
    ∀ n ∈ expansionNodes E, ∃ m ∈ definitionNodes item, Rewrites (itemSelfTy item) m n ∧
      (Mentions .type n ↔ InFnMacro .type m) := by
  have hn : ∃ name, itemName item = some name := by
    cases item with
    | other a => simp [parseDerive] at h
    | struct_ s => exact ⟨_, rfl⟩
    | enum_ s => exact ⟨_, rfl⟩
  obtain ⟨name, hname⟩ := hn
  intro n hn
  obtain ⟨m, hm, rfl⟩ := expansionNodes_visit item E h hu n hn
  exact ⟨m, hm, (rewrites_iff (hw m hm)).2 (.inl rfl), visit_mentions (itemSelfTy_closed item hname hl) (hw m hm)⟩

/-- `resolved` (Spec/Types), by which the other properties refer to types copied from the definition,
means: the type with each `Self` replaced by the annotated type applied to its parameters. -/
theorem C38_resolved (item : Item) (ty : Node) (hw : WellUsed ty) :
    Rewrites (itemSelfTy item) ty (resolved item ty) :=
  (rewrites_iff hw).2 (.inl rfl)

/-- A type that mentions neither `Self` nor `self` is copied as it is. -/
theorem C38_untouched (item : Item) (ty : Node) (hf : ∀ w, ¬ Mentions w ty) : resolved item ty = ty :=
  Node.visit_free _ ty (fun w h => hf w h.mentions)

/-! ## Examples -/

/-- `Box<T>` is copied as it is. -/
example (item : Item) :
    resolved item (.tyPath .none (.mk false [.mk "Box" (.angle false [.tyIdent "T"])])) =
      .tyPath .none (.mk false [.mk "Box" (.angle false [.tyIdent "T"])]) := by
  apply C38_untouched
  refine (bare_iff _).2 ⟨?_, nofun, fun c hc => ?_⟩
  · rintro p h w
    obtain rfl := Option.some.inj h
    cases w <;> simp [Word.At, Path.segs]
  · obtain rfl : c = .tyIdent "T" := by
      simpa [scopeChildren, Node.children, QS.children, Path.children, Seg.args, PArgs.children] using hc
    refine (bare_iff _).2 ⟨?_, nofun, fun c hc => ?_⟩
    · rintro p h w
      obtain rfl := Option.some.inj h
      cases w <;> simp [Word.At, Path.ofIdent, Path.segs]
    · simp [scopeChildren, Node.tyIdent, Node.children, QS.children, Path.ofIdent, Path.children, Seg.args,
        PArgs.children] at hc

/-- `#[pin(__private())] struct S<T> where Self: Sized { #[pin] a: Box<Self>, b: Self::Item,
c: m!(Self) }` -/
def demoSelf : ItemStruct where
  attrs := [pinPrivateAttr []]
  vis := .inherited
  ident := "S"
  generics := { params := [.type "T" [] none], whereClause := some [.user (.other ": Sized" [.tyIdent "Self"])] }
  fields := .named [
    { attrs := [⟨.path { segs := ["pin"] }⟩], ident := some "a",
      ty := .tyPath .none (.mk false [.mk "Box" (.angle false [.tyIdent "Self"])]) },
    { ident := some "b", ty := .tyPath .none (.mk false [.mk "Self" .none, .mk "Item" .none]) },
    { ident := some "c", ty := .mac (.mk false [.mk "m" .none]) [.ident "Self"] }]

/-- `S<T>` -/
def demoSelfTy : Node := .tyPath .none (.mk false [.mk "S" (.angle false [.tyIdent "T"])])

example : UserPreds (itemGenerics (.struct_ demoSelf)) := by simp [UserPreds, demoSelf, itemGenerics]

example : LegalNames (.struct_ demoSelf) := by
  intro w
  cases w <;> simp [demoSelf, itemName, itemGenerics, plainName, Word.text]

theorem demoSelf_used : ∀ n ∈ definitionNodes (.struct_ demoSelf), WellUsed n := by
  have leaf : WellUsed (Node.tyIdent "Self") := by
    rw [wellUsed_iff]
    refine ⟨fun _ => ⟨rfl, ?_⟩, ?_⟩
    · simp [Path.ofIdent, Path.segs, Seg.args, PArgs.isEmpty]
    · simp [scopeChildren, Node.tyIdent, Node.children, QS.children, Path.ofIdent, Path.children, Seg.args,
        PArgs.children]
  intro n hn
  simp [definitionNodes, genericsNodes, itemGenerics, itemVariants, demoSelf, paramNodes, predNodes,
    Fields.list] at hn
  rcases hn with rfl | rfl | rfl | rfl <;> rw [wellUsed_iff]
  · refine ⟨trivial, ?_⟩
    intro c hc
    rw [show c = Node.tyIdent "Self" by simpa [scopeChildren, Node.children] using hc]
    exact leaf
  · refine ⟨fun h => ?_, ?_⟩
    · rw [at_type_idents] at h
      simp [Seg.ident] at h
    · intro c hc
      rw [show c = Node.tyIdent "Self" by
        simpa [scopeChildren, Node.children, QS.children, Path.children, Seg.args, PArgs.children] using hc]
      exact leaf
  · refine ⟨fun _ => ⟨rfl, ?_⟩, ?_⟩
    · simp [Path.segs, Seg.args, PArgs.isEmpty]
    · simp [scopeChildren, Node.children, QS.children, Path.children, Seg.args, PArgs.children]
  · exact ⟨trivial, by simp [scopeChildren]⟩

/-- In the expansion the three types are `Box<S<T>>`, `<S<T>>::Item` and `m!(S<T,>)`. -/
example : ∃ E, parseDerive (.struct_ demoSelf) = .ok E ∧
    Node.tyPath .none (.mk false [.mk "Box" (.angle false [demoSelfTy])]) ∈ expansionNodes E ∧
    Node.tyPath (.some demoSelfTy 0) (.mk true [.mk "Item" .none]) ∈ expansionNodes E ∧
    Node.mac (.mk false [.mk "m" .none])
      [.ident "S", .punct '<' false, .ident "T", .punct '>' false] ∈ expansionNodes E := by
  refine ⟨_, rfl, List.mem_of_getElem? (i := 1) rfl, List.mem_of_getElem? (i := 2) rfl, ?_⟩
  have : Node.mac (.mk false [.mk "m" .none]) [.ident "S", .punct '<' false, .ident "T",
      .punct '>' false] = Node.visit (itemSelfTy (.struct_ demoSelf)) (.mac (.mk false [.mk "m" .none]) [.ident "Self"]) := by
    simp [Node.visit, visitMacToks, containsFn, visitToks, itemSelfTy_eq, mkSelfTy, itemName, demoSelf, itemGenerics,
      Generics.tyGenerics, GParam.isLifetime, GParam.arg, GArg.toks, headPunct, prependUnderscore]
  rw [this]
  exact List.mem_of_getElem? (i := 3) rfl

/-- `struct S { #[pin] a: m!(fn(Self)) }` -/
def demoSelfFn : ItemStruct where
  attrs := [pinPrivateAttr []]
  vis := .inherited
  ident := "S"
  generics := {}
  fields := .named [
    { attrs := [⟨.path { segs := ["pin"] }⟩], ident := some "a",
      ty := .mac (.mk false [.mk "m" .none]) [.ident "fn", .group .paren [.ident "Self"]] }]

/-- A macro call in a field type whose tokens contain `fn` is copied
with its `Self`, which then names another type (the projected type, for instance). -/
theorem C38_kept : ∃ E, parseDerive (.struct_ demoSelfFn) = .ok E ∧
    ∃ p toks, Node.mac p toks ∈ expansionNodes E ∧ TokOccurs "Self" toks := by
  have hv : Node.visit (itemSelfTy (.struct_ demoSelfFn))
      (.mac (.mk false [.mk "m" .none]) [.ident "fn", .group .paren [.ident "Self"]]) =
      Node.mac (.mk false [.mk "m" .none]) [.ident "fn", .group .paren [.ident "Self"]] := by
    simp [Node.visit, visitMacToks, containsFn]
  have : ∃ E, parseDerive (.struct_ demoSelfFn) = .ok E ∧ (expansionNodes E)[0]? =
      some (Node.visit (itemSelfTy (.struct_ demoSelfFn))
        (.mac (.mk false [.mk "m" .none]) [.ident "fn", .group .paren [.ident "Self"]])) := ⟨_, rfl, rfl⟩
  obtain ⟨E, hE, h0⟩ := this
  rw [hv] at h0
  exact ⟨E, hE, _, _, List.mem_of_getElem? h0, by simp [tokOccurs_ident, tokOccurs_group, tokOccurs_nil]⟩

end PinProject

import Verif.Spec.Privacy
import Verif.Props.Bounds
/-!
# No private type in a public interface: C68
-/
namespace PinProject
open Spec

theorem TyShown.mono {V : Shown} {m : ModAt} {defs : List TypeDef} {R R' : ModAt → Prop} (hR : ∀ a, R' a → R a) {t : GTy}
    (h : TyShown V m defs R t) : TyShown V m defs R' t := by
  induction t with
  | user n => exact fun a ha => h a (hR a ha)
  | adt n as =>
    obtain ⟨d, hd, hn, hv⟩ := h
    exact ⟨d, hd, hn, fun a ha => hv a (hR a ha)⟩
  | paren t ih => exact ih h
  | pin r t ih => exact ih h
  | phantomData r t ih => exact ih h
  | ptrMut t ih => exact ih h
  | pinnedFieldsOf t ih => exact ih h
  | ref lt b t ih => exact ih h
  | wrapper lt t ih => exact ih h
  | param n => trivial
  | alwaysUnpin lt ps => trivial
  | phantomPinned => trivial
  | selfTy => trivial
  | unit => trivial

theorem PredShown.mono {V : Shown} {m : ModAt} {defs : List TypeDef} {R R' : ModAt → Prop} (hR : ∀ a, R' a → R a) {w : WPred}
    (h : PredShown V m defs R w) : PredShown V m defs R' w := by
  cases w with
  | user n => exact fun a ha => h a (hR a ha)
  | outlives t lt => exact TyShown.mono hR h
  | bound t tr => exact ⟨TyShown.mono hR h.1, fun a ha => h.2 a (hR a ha)⟩

theorem ParamShown.mono {V : Shown} {R R' : ModAt → Prop} (hR : ∀ a, R' a → R a) {p : GParam}
    (h : ParamShown V R p) : ParamShown V R' p := by
  cases p with
  | lifetime n bs => trivial
  | type n bs d => exact ⟨fun n hn a ha => h.1 n hn a (hR a ha), fun n hn a ha => h.2 n hn a (hR a ha)⟩
  | const n t d => exact ⟨fun a ha => h.1 a (hR a ha), fun n hn a ha => h.2 n hn a (hR a ha)⟩

theorem paramShown_noDefault {V : Shown} {R : ModAt → Prop} {p : GParam} (h : ParamShown V R p) :
    ParamShown V R (withoutDefault p) := by
  cases p with
  | lifetime n bs => trivial
  | type n bs d => exact ⟨h.1, fun n hn => by cases hn⟩
  | const n t d => exact ⟨h.1, fun n hn => by cases hn⟩

/-- Nothing generated is more visible than the annotated type. -/
theorem generated_vis {item : Item} {E : Expansion} (h : parseDerive item = .ok E)
    (hlf : LifetimesFirst (itemGenerics item).params) (hself : isPubSelf (itemVis item) = false) {d : TypeDef}
    (hd : d ∈ sourceDef item :: typeDefs (allItems E)) {m a : ModAt} (hv : Visible d.vis m a) : Visible (itemVis item) m a := by
  rcases List.mem_cons.1 hd with rfl | hd
  · exact hv
  · obtain ⟨A, ident, -, -, ⟨mode, rfl⟩ | ⟨rfl, -⟩⟩ := typeDefs_cases item E h hlf d hd
    · simp only [modeDef] at hv
      rw [visit_vis hself, determineVisibility_visible] at hv
      exact hv.1
    · simp only [helperDef, visit_vis hself] at hv
      exact hv

section
variable {item : Item} {E : Expansion} {V : Shown} {m : ModAt}

/-- The field of the definition from which a pinned field's type comes. -/
theorem pinnedFieldTys_field {item : Item} {ty : Node} (h : ty ∈ pinnedFieldTys item) :
    ∃ v ∈ itemVariants item, ∃ f ∈ v.2.list, ty = resolved item f.ty := by
  simp only [pinnedFieldTys, List.mem_map, List.mem_filter] at h
  obtain ⟨f, ⟨hf, -⟩, rfl⟩ := h
  cases item with
  | struct_ s => exact ⟨(none, s.fields), List.mem_singleton.2 rfl, f, hf, rfl⟩
  | enum_ e =>
    simp only [itemFields, List.mem_flatMap] at hf
    obtain ⟨v, hv, hf⟩ := hf
    exact ⟨(some v.ident, v.fields), List.mem_map_of_mem hv, f, hf, rfl⟩
  | other a => simp [itemFields] at hf

/-- **C68** If the annotated type does not show a type to places where this type is not visible, then no generated type
does. -/
theorem C68_types (item : Item) (E : Expansion) (h : parseDerive item = .ok E)
    (hlf : LifetimesFirst (itemGenerics item).params) (V : Shown) (m : ModAt) (hplace : VisPlaced (itemVis item) m)
    (hfields : ∀ v ∈ itemVariants item, ∀ f ∈ v.2.list, VisPlaced f.vis m)
    (hs : DefShown V m (sourceDef item :: typeDefs (allItems E)) (sourceDef item))
    (d : TypeDef) (hd : d ∈ typeDefs (allItems E)) : DefShown V m (sourceDef item :: typeDefs (allItems E)) d := by
  have hvis : ∀ a, Visible d.vis m a → Visible (itemVis item) m a :=
    fun a => generated_vis h hlf hplace.1 (List.mem_cons_of_mem _ hd)
  have hfield : ∀ v ∈ itemVariants item, ∀ f ∈ v.2.list, ∀ a, Visible (itemVis item) m a →
      (v.1 = none → Visible f.vis m a) → V (resolved item f.ty) a := by
    intro v hv f hf a h1 h2
    exact hs.fields _ (List.mem_map_of_mem hv) _ (List.mem_map_of_mem hf) a ⟨h1, h2⟩
  obtain ⟨A, ident, -, hid, ⟨mode, rfl⟩ | ⟨rfl, -⟩⟩ := typeDefs_cases item E h hlf d hd
  · generalize hdd : modeDef A mode (itemVis item).visit ident (preGenerics item) (preVariants item) = d at *
    refine ⟨?_, ?_, ?_⟩
    · intro p hp
      have hpar : d.params = (if mode = .replace then [] else [.lifetime (freshLt item) []]) ++ itemParams item := by
        rw [← hdd]; exact modeDefParams item hlf mode
      rw [hpar] at hp
      rcases List.mem_append.1 hp with hp | hp
      · split at hp
        · cases hp
        · obtain rfl := List.mem_singleton.1 hp
          trivial
      · exact ParamShown.mono hvis (hs.params p hp)
    · intro w hw
      have hw' : w ∈ itemPreds item ∨ ∃ as lt, w = .outlives (.adt ident as) lt := by
        rw [← hdd] at hw
        cases mode with
        | replace => exact .inl (by rw [← preGenerics_preds]; exact hw)
        | _ =>
          rcases List.mem_append.1 hw with hw | hw
          · exact .inl (by rw [← preGenerics_preds]; exact hw)
          · exact .inr ⟨_, _, List.mem_singleton.1 hw⟩
      rcases hw' with hw' | ⟨as, lt, rfl⟩
      · exact PredShown.mono hvis (hs.preds w hw')
      · exact ⟨sourceDef item, .head _, source_name hid, hvis⟩
    · intro v hv f hf
      rw [← hdd] at hv
      simp only [modeDef, preVariants, List.map_map, List.mem_map] at hv
      obtain ⟨⟨va, gs⟩, hw, rfl⟩ := hv
      dsimp only [Function.comp] at hf ⊢
      rw [modeFields_fields] at hf
      obtain ⟨g, hg, rfl⟩ := List.mem_map.1 hf
      have hV : ∀ vis : Vis, vis = g.vis.visit → ∀ a, (Visible d.vis m a ∧ (va = none → Visible vis m a)) →
          V (g.visit (itemSelfTy item)).ty a := by
        rintro vis rfl a ⟨h1, h2⟩
        rw [visit_vis (hfields _ hw g hg).1] at h2
        exact hfield _ hw g hg a (hvis a h1) h2
      cases mode with
      | proj =>
        simp only [projField]
        split <;> exact hV _ rfl
      | projRef =>
        simp only [projRefField]
        split <;> exact hV _ rfl
      | replace =>
        simp only [projOwnField]
        split <;> exact hV _ rfl
  · refine ⟨?_, ?_, ?_⟩
    · intro p hp
      rcases List.mem_cons.1 hp with rfl | hp
      · trivial
      · exact ParamShown.mono hvis (hs.params p hp)
    · exact fun w hw => PredShown.mono hvis (hs.preds w hw)
    · intro v hv f hf
      obtain rfl := List.mem_singleton.1 hv
      simp only [List.cons_append, List.mem_cons, List.mem_append, List.mem_mapIdx] at hf
      rcases hf with rfl | ⟨i, hi, rfl⟩ | ⟨i, hi, rfl⟩
      · trivial
      · rintro a ⟨h1, h2⟩
        obtain ⟨v, hv, f, hf, he⟩ := pinnedFieldTys_field (List.getElem_mem hi)
        rw [he]
        exact hfield v hv f hf a (hvis a h1) (fun _ => (hfields v hv f hf).2 a (h2 rfl))
      · trivial

/-- The functions and the additional predicate of a generated trait impl. -/
theorem trait_impl_sig (item : Item) (E : Expansion) (h : parseDerive item = .ok E) (hidden isUnsafe : Bool)
    (ps : List GParam) (tr : GTrait) (n : String) (as : List GArg) (ws : List WPred) (fns : List GFn)
    (hm : GItem.traitImpl hidden isUnsafe ps tr n as ws fns ∈ allItems E) :
    (∀ fn ∈ fns, ∀ V m defs R, TyShown V m defs R fn.recv ∧ (∀ p ∈ fn.params, TyShown V m defs R p.2) ∧
      TyShown V m defs R fn.ret) ∧
    ∀ t tr', ws = itemPreds item ++ [.bound (.pinnedFieldsOf t) tr'] → traitVis tr' = .pub := by
  obtain ⟨A, ident, attrs, kind, front, h1, h2, h3, h4, -⟩ := expansion_shape item E h
  rw [h3] at hm
  generalize hcx : mkCtx A attrs (itemVis item).visit ident (preGenerics item) kind = cx at *
  have c1 : cx.generics.preds = itemPreds item := by rw [← hcx]; exact preGenerics_preds item
  have hlast : ∀ {us vs : List WPred} {t t' : GTy} {tr tr' : GTrait}, us ++ [.bound t tr] = vs ++ [.bound t' tr'] → tr = tr' := by
    intro us vs t t' tr tr' he
    have := (List.append_inj' he rfl).2
    simp only [List.cons.injEq, WPred.bound.injEq, and_true] at this
    exact this.2
  have hlen : ∀ {us : List WPred} {w : WPred}, us = us ++ [w] → False := by
    intro us w he
    have := congrArg List.length he
    simp at this
  rcases List.mem_append.1 hm with hm | hm
  · rcases List.mem_append.1 hm with hm | hm
    · cases h4 _ hm
    · unfold makeUnpinImpl at hm
      split at hm
      all_goals
        simp only [List.mem_cons, List.not_mem_nil, or_false, reduceCtorEq, false_or, GItem.traitImpl.injEq] at hm
      · obtain ⟨rfl, rfl, rfl, rfl, rfl, rfl, rfl, rfl⟩ := hm
        exact ⟨fun fn hf => (by cases hf), fun t tr' he => by rw [← hlast he]; rfl⟩
      · rcases hm with ⟨rfl, rfl, rfl, rfl, rfl, rfl, rfl, rfl⟩ | ⟨rfl, rfl, rfl, rfl, rfl, rfl, rfl, rfl⟩ <;>
          exact ⟨fun fn hf => (by cases hf), fun t tr' he => by rw [← hlast he]; rfl⟩
      · rcases hm with ⟨rfl, rfl, rfl, rfl, rfl, rfl, rfl, rfl⟩ | ⟨rfl, rfl, rfl, rfl, rfl, rfl, rfl, rfl⟩ <;>
          exact ⟨fun fn hf => (by cases hf), fun t tr' he => by rw [← hlast he]; rfl⟩
  · unfold makeDropImpl at hm
    simp only [c1] at hm
    split at hm
    all_goals
      simp only [List.mem_cons, List.not_mem_nil, or_false, reduceCtorEq, false_or, GItem.traitImpl.injEq] at hm
    · obtain ⟨rfl, rfl, rfl, rfl, rfl, rfl, rfl, rfl⟩ := hm
      refine ⟨fun fn hf V m defs R => ?_, fun t tr' he => (hlen he).elim⟩
      obtain rfl := List.mem_singleton.1 hf
      exact ⟨trivial, fun p hp => (by cases hp), trivial⟩
    · rcases hm with ⟨rfl, rfl, rfl, rfl, rfl, rfl, rfl, rfl⟩ | ⟨rfl, rfl, rfl, rfl, rfl, rfl, rfl, rfl⟩
      · exact ⟨fun fn hf => (by cases hf), fun t tr' he => (hlen he).elim⟩
      · refine ⟨fun fn hf V m defs R => ?_, fun t tr' he => (hlen he).elim⟩
        obtain rfl := List.mem_singleton.1 hf
        exact ⟨trivial, fun p hp => (by cases hp), trivial⟩

/-- **C68** .. and no generated impl, in its bounds and in the signatures of its functions. -/
theorem C68_impls (item : Item) (E : Expansion) (h : parseDerive item = .ok E)
    (hlf : LifetimesFirst (itemGenerics item).params) (V : Shown) (m : ModAt) (hplace : VisPlaced (itemVis item) m)
    (hs : DefShown V m (sourceDef item :: typeDefs (allItems E)) (sourceDef item))
    (i : GItem) (hi : i ∈ allItems E) : ImplShown V m (sourceDef item :: typeDefs (allItems E)) i := by
  have hseen : ∀ a, ImplSeen m (sourceDef item :: typeDefs (allItems E)) i a → Visible (itemVis item) m a := by
    intro a ha
    cases i with
    | inherent ps n as ws fns =>
      obtain ⟨d, hd, -, hv⟩ := ha
      exact generated_vis h hlf hplace.1 hd hv
    | traitImpl hidden isUnsafe ps tr n as ws fns =>
      obtain ⟨⟨d, hd, -, hv⟩, -⟩ := ha
      exact generated_vis h hlf hplace.1 hd hv
    | _ => exact hplace.2 a ha
  have hdefault : ∀ p ∈ (itemParams item).map withoutDefault,
      ParamShown V (ImplSeen m (sourceDef item :: typeDefs (allItems E)) i) p := by
    intro p hp
    obtain ⟨q, hq, rfl⟩ := List.mem_map.1 hp
    exact paramShown_noDefault (ParamShown.mono hseen (hs.params q hq))
  have hpreds : ∀ w ∈ itemPreds item,
      PredShown V m (sourceDef item :: typeDefs (allItems E)) (ImplSeen m (sourceDef item :: typeDefs (allItems E)) i) w :=
    fun w hw => PredShown.mono hseen (hs.preds w hw)
  refine ⟨?_, ?_, ?_, ?_⟩
  · intro ps as ws hg p hp
    rcases other_header h hlf hi hg with ⟨hidden, isUnsafe, tr, n, fns, rfl⟩ | ⟨rfl, rfl, rfl⟩
    · obtain ⟨-, -, ⟨rfl, -, -⟩ | ⟨rfl, -, -⟩⟩ := trait_impl_preds item E h hlf _ _ _ _ _ _ _ _ hi
      · exact hdefault p hp
      · rcases List.mem_cons.1 hp with rfl | hp
        · trivial
        · exact hdefault p hp
    · exact hdefault p hp
  · intro ps as ws hg w hw
    rcases other_header h hlf hi hg with ⟨hidden, isUnsafe, tr, n, fns, rfl⟩ | ⟨rfl, rfl, rfl⟩
    · obtain ⟨hid, -, ⟨-, rfl, -⟩ | ⟨-, -, t, tr', rfl, ht⟩⟩ := trait_impl_preds item E h hlf _ _ _ _ _ _ _ _ hi
      · exact hpreds w hw
      · rcases List.mem_append.1 hw with hw | hw
        · exact hpreds w hw
        · obtain rfl := List.mem_singleton.1 hw
          refine ⟨?_, fun a ha => ?_⟩
          · rcases ht with rfl | rfl | ⟨rfl, hh⟩
            · trivial
            · trivial
            · refine ⟨_, List.mem_cons_of_mem _ hh, rfl, fun a ha => ?_⟩
              rw [show (helperDef item n (preGenerics item)).vis = (itemVis item).visit from rfl, visit_vis hplace.1]
              exact hseen a ha
          · rw [(trait_impl_sig item E h _ _ _ _ _ _ _ _ hi).2 _ _ rfl]
            trivial
    · exact hpreds w hw
  · intro t ht
    obtain ⟨ps, as, ws, hg⟩ : ∃ ps as ws, implHeader i = some (ps, as, ws) := by
      cases i <;> first | exact ⟨_, _, _, rfl⟩ | cases ht
    obtain ⟨n, hid, rfl⟩ := implFor_name h hi hg ht
    exact ⟨sourceDef item, .head _, source_name hid, hseen⟩
  · intro fn hf
    cases i with
    | traitImpl hidden isUnsafe ps tr n as ws fns =>
      exact (trait_impl_sig item E h _ _ _ _ _ _ _ _ hi).1 fn hf _ _ _ _
    | inherent ps n as ws fns =>
      obtain ⟨-, -, -, -, mode, hmeth, -⟩ := inherent_fns item E h _ _ _ _ _ hi fn hf
      obtain ⟨A, ident, -, -, hd, hret, hvis, -⟩ := method_def item E h mode fn hmeth
      have hsig := (method_sig item E h mode fn hmeth).2
      refine ⟨?_, ?_, ?_⟩
      · cases mode <;> (simp only at hsig; rw [hsig.1]; trivial)
      · intro p hp
        cases mode <;> simp only at hsig
        · rw [hsig.2] at hp; cases hp
        · rw [hsig.2] at hp; cases hp
        · have := List.mem_map_of_mem (f := Prod.snd) hp
          rw [hsig.2] at this
          rw [List.mem_singleton.1 this]
          trivial
      · rw [hret]
        refine ⟨_, List.mem_cons_of_mem _ ?_, rfl, fun a ha => ?_⟩
        · rw [allItems, typeDefs_append]
          split at hd
          · exact List.mem_append_left _ hd
          · exact List.mem_append_right _ hd
        · rw [← hvis]
          exact ha.2 _ _ _ _ _ rfl
    | _ => cases hf

end

/-- The types of the fields of `demoWF` are private, the rest of what it mentions is public. -/
def demoShown (m : ModAt) : Shown := fun n a =>
  n ∈ [Node.tyIdent "T", .other "&'a u8" [], .other "[u8; N]" []] → Visible .inherited m a

theorem demo_shown (m : ModAt) (defs : List TypeDef) : DefShown (demoShown m) m defs (sourceDef (.struct_ demoWF)) := by
  refine ⟨?_, ?_, ?_⟩
  · intro p hp
    rcases hp with _ | ⟨_, _ | ⟨_, _ | ⟨_, hp⟩⟩⟩
    · trivial
    · refine ⟨fun n hn a _ h => ?_, fun n hn a _ h => ?_⟩
      · obtain rfl := List.mem_singleton.1 hn
        nomatch h
      · obtain rfl := Option.some.inj hn
        rw [show resolved (.struct_ demoWF) (Node.tyIdent "u8") = (Node.tyIdent "u8") from rfl] at h
        simp [Node.tyIdent, Path.ofIdent] at h
    · refine ⟨fun a _ h => ?_, fun n hn => by cases hn⟩
      rw [show resolved (.struct_ demoWF) (Node.tyIdent "usize") = (Node.tyIdent "usize") from rfl] at h
      simp [Node.tyIdent, Path.ofIdent] at h
    · cases hp
  · intro w hw
    obtain rfl := List.mem_singleton.1 hw
    intro a _ h
    rw [show resolved (.struct_ demoWF) (.other "T: Copy" []) = (.other "T: Copy" []) from rfl] at h
    simp [Node.tyIdent, Path.ofIdent] at h
  · intro v hv f hf
    obtain rfl := List.mem_singleton.1 hv
    rcases hf with _ | ⟨_, _ | ⟨_, _ | ⟨_, hf⟩⟩⟩
    · exact fun a ha _ => ha.2 rfl
    · exact fun a ha _ => ha.2 rfl
    · exact fun a ha _ => ha.2 rfl
    · cases hf

/-- A public type may have private fields whose types are private. Then everything that is generated is accepted: three
types and six impls. -/
example (m : ModAt) : ∃ E, parseDerive (.struct_ demoWF) = .ok E ∧ (typeDefs (allItems E)).length = 3 ∧
    ((allItems E).filterMap implHeader).length = 6 ∧
    (∀ d ∈ typeDefs (allItems E), DefShown (demoShown m) m (sourceDef (.struct_ demoWF) :: typeDefs (allItems E)) d) ∧
    ∀ i ∈ allItems E, ImplShown (demoShown m) m (sourceDef (.struct_ demoWF) :: typeDefs (allItems E)) i := by
  obtain ⟨E, hE, h1, h2⟩ : ∃ E, parseDerive (.struct_ demoWF) = .ok E ∧ (typeDefs (allItems E)).length = 3 ∧
    ((allItems E).filterMap implHeader).length = 6 := ⟨_, rfl, rfl, rfl⟩
  have hlf := order_source demoWF_wf.params.order
  have hpl : VisPlaced (itemVis (.struct_ demoWF)) m := ⟨rfl, fun _ _ => trivial⟩
  refine ⟨E, hE, h1, h2, C68_types _ E hE hlf _ m hpl ?_ (demo_shown m _), C68_impls _ E hE hlf _ m hpl (demo_shown m _)⟩
  intro v hv f hf
  obtain rfl := List.mem_singleton.1 hv
  rcases hf with _ | ⟨_, _ | ⟨_, _ | ⟨_, hf⟩⟩⟩
  · exact ⟨rfl, fun _ h => h⟩
  · exact ⟨rfl, fun _ h => h⟩
  · exact ⟨rfl, fun _ h => h⟩
  · cases hf

/-- The check is not void: the helper struct could neither have a public field .. -/
example : ¬ DefShown (demoShown ⟨0, ["a"]⟩) ⟨0, ["a"]⟩ [] ⟨.pub, "__W", [], [], [(none, ⟨some .brace,
    [⟨.pub, some "__field0", .user (.tyIdent "T")⟩]⟩)]⟩ := by
  intro h
  have := h.fields _ (.head _) _ (.head _) ⟨1, []⟩ ⟨trivial, fun _ => trivial⟩ (.head _)
  exact absurd this.1 (by decide)

/-- .. nor be private: then the bound of the `Unpin` impl of a public type would mention a private type. -/
example : ¬ PredShown (demoShown ⟨0, ["a"]⟩) ⟨0, ["a"]⟩ [⟨.pub, "W", [], [], []⟩, ⟨.inherited, "__W", [], [], []⟩]
    (ImplSeen ⟨0, ["a"]⟩ [⟨.pub, "W", [], [], []⟩, ⟨.inherited, "__W", [], [], []⟩] (.traitImpl false false [] .unpin "W" [] [] []))
    (.bound (.pinnedFieldsOf (.adt "__W" [])) .unpin) := by
  rintro ⟨⟨d, hd, hn, hv⟩, -⟩
  have := hv ⟨1, []⟩ ⟨⟨_, .head _, rfl, trivial⟩, trivial⟩
  simp only [List.mem_cons, List.not_mem_nil, or_false] at hd
  rcases hd with rfl | rfl
  · exact absurd hn (by decide)
  · exact absurd this.1 (by decide)

/-- A method of a public projection type that returns a private one would be rejected. -/
example (fn : GFn) (hv : fn.vis = .pub) (hr : fn.ret = .adt "P" []) : ¬ ImplShown (fun _ _ => True) ⟨0, ["a"]⟩
    [⟨.pub, "W", [], [], []⟩, ⟨.inherited, "P", [], [], []⟩] (.inherent [] "W" [] [] [fn]) := by
  intro h
  have := (h.fns fn (.head _)).2.2
  rw [hr] at this
  obtain ⟨d, hd, hn, hv'⟩ := this
  have := hv' ⟨1, []⟩ ⟨⟨_, .head _, rfl, trivial⟩, fun _ _ _ _ _ _ => by rw [hv]; trivial⟩
  simp only [List.mem_cons, List.not_mem_nil, or_false] at hd
  rcases hd with rfl | rfl
  · exact absurd hn (by decide)
  · exact absurd this.1 (by decide)

end PinProject

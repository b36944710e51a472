import Verif.Spec.Sized
import Verif.Props.WellFormed
import Verif.Props.Typing
import Verif.Props.Shadow
/-!
# Types without a known size: C55
-/
namespace PinProject
open Spec

theorem mem_dropLast_filter {α : Type} (p : α → Bool) (l : List α) (x : α) (h : x ∈ (l.filter p).dropLast) :
    x ∈ l.dropLast := by
  rcases List.eq_nil_or_concat l with rfl | ⟨l', y, rfl⟩
  · simp at h
  · rw [List.concat_eq_append] at *
    rw [List.dropLast_concat]
    rw [List.filter_append] at h
    cases hy : p y with
    | true =>
      rw [show [y].filter p = [y] by simp [hy], List.dropLast_concat] at h
      exact (List.mem_filter.1 h).1
    | false =>
      rw [show [y].filter p = [] by simp [hy], List.append_nil] at h
      exact (List.mem_filter.1 (List.dropLast_subset _ h)).1

theorem mem_dropLast_or {α : Type} {l : List α} {x : α} (h : x ∈ l) : x ∈ l.dropLast ∨ l.getLast? = some x := by
  rcases List.eq_nil_or_concat l with rfl | ⟨l', y, rfl⟩
  · cases h
  · rw [List.concat_eq_append] at *
    rw [List.dropLast_concat, List.getLast?_concat]
    rcases List.mem_append.1 h with h | h
    · exact .inl h
    · exact .inr (by rw [List.mem_singleton.1 h])

theorem Spec.Sizes.defaults (S : Sizes) {ps qs : List GParam} {ws : List WPred} {n : Node}
    (h : ps.map withoutDefault = qs.map withoutDefault) (hu : S.user ps ws n) : S.user qs ws n :=
  S.mono _ _ _ _ _ (fun p hp => by rw [← h]; exact List.mem_map_of_mem hp) (List.Subset.refl _) hu

theorem Spec.Sizes.fresh (S : Sizes) (l : String) {ps : List GParam} {ws : List WPred} {n : Node} :
    S.user (.lifetime l [] :: ps) ws n ↔ S.user ps ws n :=
  ⟨S.lifetime l ps ws n, S.mono _ _ _ _ _ (fun _ hp => List.mem_cons_of_mem _ (List.mem_map_of_mem hp)) (List.Subset.refl _)⟩

/-- The fields of the annotated type: all but the last one of a struct. -/
theorem source_sized {S : Sizes} {item : Item} (hs : DefSizes S item [] (sourceDef item)) {v : Option String × Fields}
    (hv : v ∈ itemVariants item) {f : Field} (hf : f ∈ if v.1.isSome then v.2.list else v.2.list.dropLast) :
    S.user (itemParams item) (itemPreds item) (resolved item f.ty) := by
  obtain ⟨va, fs⟩ := v
  have hm : (va, (⟨fieldsDelim fs, fs.list.map (fun f => ⟨f.vis, f.ident, .user (resolved item f.ty)⟩)⟩ : GFields)) ∈ (sourceDef item).variants :=
    List.mem_map.2 ⟨_, hv, rfl⟩
  have : TySized S item [] (itemParams item) (itemPreds item) (.user (resolved item f.ty)) := by
    cases va with
    | none =>
      refine hs.struct_ _ hm ⟨f.vis, f.ident, .user (resolved item f.ty)⟩ ?_
      rw [← List.map_dropLast]
      exact List.mem_map.2 ⟨f, hf, rfl⟩
    | some n => exact hs.enum_ _ _ hm ⟨f.vis, f.ident, .user (resolved item f.ty)⟩ (List.mem_map.2 ⟨f, hf, rfl⟩)
  cases this; assumption

/-- If the annotated type is `Sized`, so are all its fields. -/
theorem all_sized {S : Sizes} {item : Item} (hs : DefSizes S item [] (sourceDef item))
    (hself : SelfSized S item (itemParams item) (itemPreds item)) {v : Option String × Fields}
    (hv : v ∈ itemVariants item) {f : Field} (hf : f ∈ v.2.list) :
    S.user (itemParams item) (itemPreds item) (resolved item f.ty) := by
  rcases mem_dropLast_or hf with h | h
  · refine source_sized hs hv ?_
    split
    · exact hf
    · exact h
  · exact hself v hv f h

/-- The fields of a projection type, and where they come from. -/
theorem modeFields_fields (mode : Mode) (lt : String) (item : Item) (fs : Fields) :
    (modeFields mode lt (fs.visit (itemSelfTy item))).fields = fs.list.map (fun f =>
      match mode with
      | .proj => projField lt (f.visit (itemSelfTy item))
      | .projRef => projRefField lt (f.visit (itemSelfTy item))
      | .replace => projOwnField (f.visit (itemSelfTy item))) := by
  cases mode <;> simp [modeFields, list_visit]

theorem modeField_sized {S : Sizes} {item : Item} {defs : List TypeDef} {mode : Mode} {lt : String} {f : Field}
    {ps : List GParam} {ws : List WPred} (h : mode = .replace → S.user ps ws (resolved item f.ty)) :
    TySized S item defs ps ws (match mode with
      | .proj => projField lt (f.visit (itemSelfTy item))
      | .projRef => projRefField lt (f.visit (itemSelfTy item))
      | .replace => projOwnField (f.visit (itemSelfTy item))).ty := by
  cases mode with
  | proj =>
    simp only [projField]
    split
    · exact .pin .ref
    · exact .ref
  | projRef =>
    simp only [projRefField]
    split
    · exact .pin .ref
    · exact .ref
  | replace =>
    simp only [projOwnField]
    split
    · exact .phantomData
    · exact .user (h rfl)

theorem modeDef_sized {S : Sizes} {item : Item} (hs : DefSizes S item [] (sourceDef item))
    (hlf : LifetimesFirst (itemGenerics item).params) (defs : List TypeDef) (A : Args) (mode : Mode) (vis : Vis) (ident : String) :
    DefSizes S item defs (modeDef A mode vis ident (preGenerics item) (preVariants item)) := by
  have hpar : (modeDef A mode vis ident (preGenerics item) (preVariants item)).params =
    (if mode = .replace then [] else [.lifetime (freshLt item) []]) ++ itemParams item := modeDefParams item hlf mode
  have key : ∀ v ∈ itemVariants item, ∀ f ∈ (if v.1.isSome then v.2.list else v.2.list.dropLast), mode = .replace →
      S.user (modeDef A mode vis ident (preGenerics item) (preVariants item)).params
        (modeDef A mode vis ident (preGenerics item) (preVariants item)).preds (resolved item f.ty) := by
    rintro v hv f hf rfl
    rw [hpar]
    simp only [modeDef, modePreds, preGenerics_preds]
    exact source_sized hs hv hf
  constructor
  · intro fs hfs f hf
    simp only [modeDef, preVariants, List.map_map, List.mem_map] at hfs
    obtain ⟨⟨va, gs⟩, hw, he⟩ := hfs
    simp only [Function.comp, Prod.mk.injEq] at he
    obtain ⟨rfl, rfl⟩ := he
    rw [modeFields_fields, ← List.map_dropLast] at hf
    obtain ⟨g, hg, rfl⟩ := List.mem_map.1 hf
    exact modeField_sized (key _ hw g hg)
  · intro n fs hfs f hf
    simp only [modeDef, preVariants, List.map_map, List.mem_map] at hfs
    obtain ⟨⟨va, gs⟩, hw, he⟩ := hfs
    simp only [Function.comp, Prod.mk.injEq] at he
    obtain ⟨rfl, rfl⟩ := he
    rw [modeFields_fields] at hf
    obtain ⟨g, hg, rfl⟩ := List.mem_map.1 hf
    exact modeField_sized (key _ hw g hg)

/-- The types of the fields of the helper struct. -/
theorem helper_types (item : Item) (ident : String) (fs : GFields)
    (h : (none, fs) ∈ (helperDef item ident (preGenerics item)).variants) :
    fs.fields.map GField.ty = .alwaysUnpin (freshLt item) (preGenerics item).typeParams ::
      ((pinnedFieldTys item).map GTy.user ++ (preGenerics item).lifetimes.map (fun lt => .ref (some lt) false .unit)) := by
  obtain ⟨-, rfl⟩ := Prod.mk.inj (List.mem_singleton.1 h)
  have h1 : ∀ {α : Type} (l : List α) (m : Nat → α → String) (g : α → GTy),
      (l.mapIdx (fun i x => GField.mk .inherited (some (m i x)) (g x))).map GField.ty = l.map g := by
    intro α l m g
    apply List.ext_getElem
    · simp
    · intros; simp
  simp only [List.map_cons, List.map_append, List.cons_append]
  rw [h1 _ (fun i _ => "__field" ++ toString i), h1 _ (fun i _ => "__lifetime" ++ toString i)]

/-- The sizes in the helper struct are in order, unless an unsized pinned field is followed by the fields for the lifetimes. -/
theorem helperDef_sized {S : Sizes} {item : Item} (hs : DefSizes S item [] (sourceDef item)) (defs : List TypeDef) (ident : String) :
    DefSizes S item defs (helperDef item ident (preGenerics item)) ↔
      ((preGenerics item).lifetimes ≠ [] → ¬ PinnedUnsizedTail S item) := by
  have hkey : DefSizes S item defs (helperDef item ident (preGenerics item)) ↔
      ∀ n ∈ (if (preGenerics item).lifetimes = [] then (pinnedFieldTys item).dropLast else pinnedFieldTys item),
        S.user (itemParams item) (itemPreds item) n := by
    have henv : ∀ n, TySized S item defs (helperDef item ident (preGenerics item)).params (helperDef item ident (preGenerics item)).preds (.user n) ↔
        S.user (itemParams item) (itemPreds item) n := by
      intro n
      rw [← S.fresh (freshLt item)]
      exact ⟨fun h => by cases h; assumption, fun h => .user h⟩
    constructor
    · intro h n hn
      rw [← henv]
      have h1 := h.struct_ _ (.head _)
      have h2 := helper_types item ident _ (.head _)
      generalize (helperDef item ident (preGenerics item)).params = ps at *
      generalize (helperDef item ident (preGenerics item)).preds = ws at *
      have h3 : ∀ t ∈ (.alwaysUnpin (freshLt item) (preGenerics item).typeParams ::
          ((pinnedFieldTys item).map GTy.user ++ (preGenerics item).lifetimes.map (fun lt => GTy.ref (some lt) false .unit))).dropLast,
          TySized S item defs ps ws t := by
        intro t ht
        rw [← h2, ← List.map_dropLast] at ht
        obtain ⟨g, hg, rfl⟩ := List.mem_map.1 ht
        exact h1 g hg
      apply h3
      split at hn
      · rename_i hl
        rw [hl, List.map_nil, List.append_nil]
        cases hP : pinnedFieldTys item with
        | nil => rw [hP] at hn; cases hn
        | cons a P =>
          rw [hP] at hn
          rw [List.map_cons, List.dropLast_cons_cons, ← List.map_cons, ← List.map_dropLast]
          exact List.mem_cons_of_mem _ (List.mem_map_of_mem hn)
      · rename_i hl
        obtain ⟨L, y, hL⟩ := (List.eq_nil_or_concat _).resolve_left hl
        rw [hL, List.concat_eq_append, List.map_append, ← List.append_assoc, List.map_singleton, ← List.cons_append,
          List.dropLast_concat]
        exact List.mem_cons_of_mem _ (List.mem_append_left _ (List.mem_map_of_mem hn))
    · intro h
      constructor
      · intro fs hfs f hf
        have h2 := helper_types item ident fs hfs
        have hf' : f.ty ∈ (fs.fields.map GField.ty).dropLast := by
          rw [← List.map_dropLast]; exact List.mem_map_of_mem hf
        rw [h2] at hf'
        split at h
        · rename_i hl
          rw [hl, List.map_nil, List.append_nil] at hf'
          cases hP : pinnedFieldTys item with
          | nil => rw [hP] at hf'; cases hf'
          | cons a P =>
            rw [hP, List.map_cons, List.dropLast_cons_cons, ← List.map_cons, ← List.map_dropLast] at hf'
            rcases List.mem_cons.1 hf' with he | hm
            · rw [he]; exact .alwaysUnpin
            · obtain ⟨n, hn, he⟩ := List.mem_map.1 hm
              rw [← he, henv]
              exact h n (by rw [hP]; exact hn)
        · rcases List.mem_cons.1 (List.dropLast_subset _ hf') with he | hm
          · rw [he]; exact .alwaysUnpin
          · rcases List.mem_append.1 hm with hm | hm
            · obtain ⟨n, hn, he⟩ := List.mem_map.1 hm
              rw [← he, henv]
              exact h n hn
            · obtain ⟨l, -, he⟩ := List.mem_map.1 hm
              rw [← he]
              exact .ref
      · intro n fs hfs
        cases List.mem_singleton.1 hfs
  rw [hkey]
  have hpin : ∀ n ∈ pinnedFieldTys item, ∃ f ∈ itemFields item, Pinned f = true ∧ resolved item f.ty = n := by
    intro n hn
    obtain ⟨f, hf, he⟩ := List.mem_map.1 hn
    exact ⟨f, (List.mem_filter.1 hf).1, (List.mem_filter.1 hf).2, he⟩
  constructor
  · rintro h hl ⟨fs, hfs, f, hlast, hp, hno⟩
    rw [if_neg hl] at h
    refine hno (h _ ?_)
    have hf : f ∈ itemFields item := by
      rw [itemFields_variants]
      exact List.mem_flatMap.2 ⟨_, hfs, List.mem_of_getLast? hlast⟩
    exact List.mem_map.2 ⟨f, List.mem_filter.2 ⟨hf, hp⟩, rfl⟩
  · intro h n hn
    split at hn
    · cases item with
      | other a => cases hn
      | struct_ s =>
        have hn' : n ∈ (s.fields.list.filter Pinned).dropLast.map (fun f => resolved (.struct_ s) f.ty) := by
          rw [List.map_dropLast]; exact hn
        obtain ⟨f, hf, rfl⟩ := List.mem_map.1 hn'
        exact source_sized hs (v := (none, s.fields)) (.head _) (mem_dropLast_filter _ _ _ hf)
      | enum_ e =>
        obtain ⟨f, hf, -, rfl⟩ := hpin n (List.dropLast_subset _ hn)
        obtain ⟨v, hv, hf⟩ := List.mem_flatMap.1 hf
        exact source_sized hs (v := (some v.ident, v.fields)) (List.mem_map_of_mem hv) hf
    · rename_i hl
      obtain ⟨f, hf, hp, rfl⟩ := hpin n hn
      obtain ⟨⟨va, fs⟩, hv, hf⟩ := mem_variant_field hf
      cases va with
      | some m => exact source_sized hs hv hf
      | none =>
        rcases mem_dropLast_or hf with h1 | h1
        · exact source_sized hs hv h1
        · apply Classical.byContradiction
          intro hno
          exact h hl ⟨fs, hv, f, h1, hp, hno⟩

/-- **C55** If the annotated type needs no change of its own - only the last field of a struct, and no field of an enum,
may be unsized - then the same is true of every generated type, with exactly one exception: in the default mode the helper
struct for `Unpin` is ill-formed if the type has a lifetime parameter and its last field is pinned and unsized. -/
theorem C55_types (item : Item) (E : Expansion) (h : parseDerive item = .ok E) (S : Sizes)
    (hlf : LifetimesFirst (itemGenerics item).params) (hs : DefSizes S item [] (sourceDef item))
    (A : Args) (hA : parseArgs (itemAttrs item) = .ok A) :
    (∀ d ∈ typeDefs (allItems E), DefSizes S item (typeDefs (allItems E)) d) ↔
      ¬ (A.unpinImpl = .default ∧ (∃ p ∈ (itemGenerics item).params, isLifetimeParam p = true) ∧ PinnedUnsizedTail S item) := by
  have hlt : (preGenerics item).lifetimes ≠ [] ↔ ∃ p ∈ (itemGenerics item).params, isLifetimeParam p = true := by
    constructor
    · intro hne
      obtain ⟨x, hx⟩ := List.exists_mem_of_ne_nil _ hne
      obtain ⟨bs, hm⟩ := mem_lifetimes.1 hx
      obtain ⟨p, hp, he⟩ := List.mem_map.1 hm
      cases p <;> cases he
      exact ⟨_, hp, rfl⟩
    · rintro ⟨p, hp, hl⟩
      cases p with
      | lifetime n bs =>
        have : n ∈ (preGenerics item).lifetimes := mem_lifetimes.2 ⟨bs, List.mem_map.2 ⟨_, hp, rfl⟩⟩
        exact List.ne_nil_of_mem this
      | _ => cases hl
  constructor
  · rintro hall ⟨hm, hl, ht⟩
    have hd : ∃ ident, helperDef item ident (preGenerics item) ∈ typeDefs (allItems E) := by
      obtain ⟨A', ident, attrs, kind, front, h1, h2, h3, -, -⟩ := expansion_shape item E h
      obtain rfl := Except.ok.inj (hA.symm.trans h1)
      obtain ⟨-, g2, -, -, -, -, g6⟩ := item_generics hlf A attrs (itemVis item).visit ident kind
      refine ⟨ident, ?_⟩
      rw [h3, typeDefs_append, typeDefs_append]
      refine List.mem_append_left _ (List.mem_append_right _ ?_)
      generalize hcx : mkCtx A attrs (itemVis item).visit ident (preGenerics item) kind = cx at *
      have c1 : cx.unpinImpl = .default := by rw [← hcx]; exact hm
      have c2 : cx.ident = ident := by rw [← hcx]; rfl
      have c3 : cx.lifetime = freshLt item := by rw [← hcx]; rfl
      have c4 : cx.vis = (itemVis item).visit := by rw [← hcx]; rfl
      have c5 : cx.generics.typeParams = (preGenerics item).typeParams := by rw [← hcx]; rfl
      have c6 : cx.generics.lifetimes = (preGenerics item).lifetimes := by rw [← hcx]; rfl
      unfold makeUnpinImpl
      simp only [c1, c2, c3, c4, c5, c6, g2, g6, typeDefs, asTypeDef, List.filterMap_cons, List.filterMap_nil]
      exact .head _
    obtain ⟨ident, hd⟩ := hd
    exact (helperDef_sized hs _ ident).1 (hall _ hd) (hlt.2 hl) ht
  · intro hno d hd
    obtain ⟨A', ident, h1, -, ⟨mode, rfl⟩ | ⟨rfl, hm⟩⟩ := typeDefs_cases item E h hlf d hd
    · exact modeDef_sized hs hlf _ _ _ _ _
    · obtain rfl := Except.ok.inj (hA.symm.trans h1)
      exact (helperDef_sized hs _ ident).2 (fun hl ht => hno ⟨hm, hlt.1 hl, ht⟩)

/-- The types of the three modes are `Sized`; the one `project_replace` returns only if the annotated type is. -/
theorem modeDef_self {S : Sizes} {item : Item} (hs : DefSizes S item [] (sourceDef item))
    (hlf : LifetimesFirst (itemGenerics item).params) (defs : List TypeDef) (A : Args) (mode : Mode) (vis : Vis) (ident : String)
    (hself : mode = .replace → SelfSized S item (itemParams item) (itemPreds item)) :
    let d := modeDef A mode vis ident (preGenerics item) (preVariants item)
    ∀ v ∈ d.variants, ∀ f ∈ v.2.fields.getLast?, TySized S item defs d.params d.preds f.ty := by
  intro d v hv f hf
  have hpar : d.params = (if mode = .replace then [] else [.lifetime (freshLt item) []]) ++ itemParams item :=
    modeDefParams item hlf mode
  simp only [d, modeDef, preVariants, List.map_map, List.mem_map] at hv
  obtain ⟨⟨va, gs⟩, hw, rfl⟩ := hv
  simp only [Function.comp, modeFields_fields, List.getLast?_map, Option.mem_def, Option.map_eq_some_iff] at hf
  obtain ⟨g, hg, rfl⟩ := hf
  apply modeField_sized
  rintro rfl
  rw [hpar]
  simp only [d, modeDef, modePreds, preGenerics_preds]
  exact all_sized hs (hself rfl) hw (List.mem_of_getLast? hg)

/-- Only `project_replace` moves anything. -/
theorem moves_mode {mode : Mode} {name : String} {item : Item}
    (h : ((modeBody mode name item).stmts.any movesStmt || movesTail (modeBody mode name item).tail) = true) : mode = .replace := by
  have hp : ∀ l : List (Field × Nat), (l.map projInit).any (fun i => match i with | .labelled _ (.read _) => true | _ => false) = false := by
    intro l
    rw [List.any_eq_false]
    intro x hx
    obtain ⟨y, -, rfl⟩ := List.mem_map.1 hx
    cases hpi : Pinned y.1 <;> simp [projInit, hpi]
  have harm : ∀ v, mode ≠ .replace → (armOf mode name v).stmts = [] ∧ movesRHS (armOf mode name v).tail = false := by
    intro v hm
    cases mode with
    | replace => exact absurd rfl hm
    | _ => exact ⟨rfl, hp _⟩
  apply Classical.byContradiction
  intro hm
  have h1 : modeStmts mode = [] := by cases mode <;> first | rfl | exact absurd rfl hm
  have h2 : movesRHS (headRHS mode) = false := by cases mode <;> rfl
  unfold modeBody at h
  split at h
  · split at h
    · rename_i v _ _
      simp [h1, movesStmt, h2, movesTail, harm v hm] at h
    · cases h
  · simp only [h1, movesTail, h2, List.any_nil, Bool.false_or, List.any_eq_true] at h
    obtain ⟨a, ha, h⟩ := h
    obtain ⟨v, -, rfl⟩ := List.mem_map.1 ha
    simp [harm v hm] at h

/-- **C55** The sizes in `project` and `project_ref` are always in order; `project_replace` takes `Self` by value and moves
the fields out, so it needs an annotated type that is `Sized`, and no more than that. -/
theorem C55_methods (item : Item) (E : Expansion) (h : parseDerive item = .ok E) (S : Sizes)
    (hlf : LifetimesFirst (itemGenerics item).params) (hs : DefSizes S item [] (sourceDef item))
    (ps : List GParam) (n : String) (as : List GArg) (ws : List WPred) (fns : List GFn)
    (hm : GItem.inherent ps n as ws fns ∈ allItems E) (fn : GFn) (hf : fn ∈ fns) :
    FnSizes S item (typeDefs (allItems E)) ps ws fn ↔
      (fn.name = "project_replace" → SelfSized S item (itemParams item) (itemPreds item)) := by
  obtain ⟨-, rfl, -, rfl, mode, hmeth, hname, -, hpar, name, args, hret, hbody⟩ := inherent_fns item E h ps n as ws fns hm fn hf
  obtain ⟨A, ident, -, -, hd, hret', -⟩ := method_def item E h mode fn hmeth
  have henv : ∀ n, S.user (preGenerics item).implGenerics (preGenerics item).preds n ↔
      S.user (itemParams item) (itemPreds item) n := by
    intro n
    have himp : (preGenerics item).implGenerics = (itemParams item).map GParam.noDefault :=
      implGenerics_eq (lifetimesFirst_visit hlf)
    rw [preGenerics_preds, himp, ← withoutDefault_eq]
    have : ((itemParams item).map withoutDefault).map withoutDefault = (itemParams item).map withoutDefault := by
      rw [List.map_map]
      refine List.map_congr_left (fun p _ => ?_)
      cases p <;> rfl
    exact ⟨S.defaults this, S.defaults this.symm⟩
  constructor
  · intro hF hn
    have hmode : mode = .replace := by
      cases mode <;> simp_all [Mode.fn]
    subst hmode
    have := hF.params ("__replacement", .selfTy) (by rw [hpar]; exact .head _)
    cases this with
    | selfTy hself => exact fun v hv f hf => (henv _).1 (hself v hv f hf)
  · intro hself
    have hself' : mode = .replace → SelfSized S item (itemParams item) (itemPreds item) := by
      rintro rfl
      exact hself (by rw [hname]; rfl)
    constructor
    · have := (method_sig item E h mode fn hmeth).2
      cases mode <;> rw [this.1] <;> exact .pin .ref
    · intro p hp
      rw [hpar] at hp
      split at hp
      · rename_i hr
        obtain rfl := List.mem_singleton.1 hp
        exact .selfTy (fun v hv f hf => (henv _).2 (hself' hr v hv f hf))
      · cases hp
    · rw [hret']
      refine .adt ?_ rfl (modeDef_self hs hlf _ A mode _ ident hself')
      rw [allItems, typeDefs_append]
      split at hd
      · exact List.mem_append_left _ hd
      · exact List.mem_append_right _ hd
    · intro hmv f hf
      have hmode : mode = .replace := by
        rw [movesFn, hbody] at hmv
        exact moves_mode hmv
      obtain ⟨v, hv, hf⟩ := mem_variant_field hf
      exact (henv _).2 (all_sized hs (hself' hmode) hv hf)

/-- **C55** The functions in generated trait impls work for unsized types. -/
theorem C55_impls (item : Item) (E : Expansion) (h : parseDerive item = .ok E) (S : Sizes)
    (hidden isUnsafe : Bool) (ps : List GParam) (tr : GTrait) (n : String) (as : List GArg) (ws : List WPred)
    (fns : List GFn) (hm : GItem.traitImpl hidden isUnsafe ps tr n as ws fns ∈ allItems E) (fn : GFn) (hf : fn ∈ fns) :
    FnSizes S item (typeDefs (allItems E)) ps ws fn := by
  obtain ⟨A, ident, attrs, kind, front, h1, h2, h3, h4, -⟩ := expansion_shape item E h
  rw [h3] at hm
  rcases List.mem_append.1 hm with hm | hm
  · rcases List.mem_append.1 hm with hm | hm
    · cases h4 _ hm
    · unfold makeUnpinImpl at hm
      simp only at hm
      split at hm
      all_goals
        simp only [List.mem_cons, List.not_mem_nil, or_false, reduceCtorEq, false_or, GItem.traitImpl.injEq] at hm
      · obtain ⟨rfl, rfl, rfl, rfl, rfl, rfl, rfl, rfl⟩ := hm; simp at hf
      · rcases hm with ⟨rfl, rfl, rfl, rfl, rfl, rfl, rfl, rfl⟩ | ⟨rfl, rfl, rfl, rfl, rfl, rfl, rfl, rfl⟩ <;> simp at hf
      · rcases hm with ⟨rfl, rfl, rfl, rfl, rfl, rfl, rfl, rfl⟩ | ⟨rfl, rfl, rfl, rfl, rfl, rfl, rfl, rfl⟩ <;> simp at hf
  · unfold makeDropImpl at hm
    simp only at hm
    split at hm
    all_goals
      simp only [List.mem_cons, List.not_mem_nil, or_false, reduceCtorEq, false_or, GItem.traitImpl.injEq] at hm
    · obtain ⟨rfl, rfl, rfl, rfl, rfl, rfl, rfl, rfl⟩ := hm
      simp only [List.mem_singleton] at hf
      subst hf
      exact ⟨.ref, fun _ h => (by cases h), .unit, fun h => absurd h (by decide)⟩
    · rcases hm with ⟨rfl, rfl, rfl, rfl, rfl, rfl, rfl, rfl⟩ | ⟨rfl, rfl, rfl, rfl, rfl, rfl, rfl, rfl⟩
      · simp at hf
      · simp only [List.mem_singleton] at hf
        subst hf
        exact ⟨.pin .ref, fun _ h => (by cases h), .unit, fun h => absurd h (by decide)⟩

/-! ## Examples -/

/-- `#[pin_project(args)] struct Z<'a, T: ?Sized> { x: &'a u8, #[pin] f: T }`, and without `#[pin]`. -/
def demoUnsized (args : List TT) (pin : Bool) : ItemStruct where
  attrs := [pinPrivateAttr args]
  vis := .pub
  ident := "Z"
  generics := { params := [.lifetime "'a" [], .type "T" [.other "?Sized" []] none] }
  fields := .named [
    { ident := some "x", ty := .other "&'a u8" [] },
    { attrs := if pin then [⟨.path { segs := ["pin"] }⟩] else [], ident := some "f", ty := Node.tyIdent "T" }]

/-- Everything but `T` is `Sized`. -/
def demoSizes : Sizes where
  user := fun _ _ n => n ≠ .tyIdent "T"
  mono := fun _ _ _ _ _ _ _ h => h
  lifetime := fun _ _ _ _ h => h

theorem demoUnsized_ok (args : List TT) (pin : Bool) : DefSizes demoSizes (.struct_ (demoUnsized args pin)) [] (sourceDef (.struct_ (demoUnsized args pin))) where
  struct_ := by
    intro fs hfs f hf
    obtain ⟨-, rfl⟩ := Prod.mk.inj (List.mem_singleton.1 hfs)
    obtain rfl := List.mem_singleton.1 hf
    exact .user (fun h => by cases h)
  enum_ := by
    intro n fs hfs
    cases List.mem_singleton.1 hfs

theorem demoUnsized_tail (args : List TT) (pin : Bool) : PinnedUnsizedTail demoSizes (.struct_ (demoUnsized args pin)) ↔ pin = true := by
  constructor
  · rintro ⟨fs, hfs, f, hlast, hp, -⟩
    obtain ⟨-, rfl⟩ := Prod.mk.inj (List.mem_singleton.1 hfs)
    obtain rfl := Option.some.inj hlast
    cases pin with
    | true => rfl
    | false => exact absurd hp (by decide)
  · rintro rfl
    exact ⟨_, .head _, _, rfl, by decide, fun h => h rfl⟩

theorem demoUnsized_order (args : List TT) (pin : Bool) : LifetimesFirst (itemGenerics (.struct_ (demoUnsized args pin))).params := by
  refine ⟨[_], [_], rfl, ?_, ?_⟩
  · intro p hp; obtain rfl := List.mem_singleton.1 hp; exact ⟨_, _, rfl⟩
  · intro p hp n b he
    obtain rfl := List.mem_singleton.1 hp
    cases he

/-- The exception is real: `struct Z<'a, T: ?Sized> { x: &'a u8, #[pin] f: T }` has a generated type that the compiler
rejects, .. -/
example : ∃ E, parseDerive (.struct_ (demoUnsized [] true)) = .ok E ∧
    ∃ d ∈ typeDefs (allItems E), ¬ DefSizes demoSizes (.struct_ (demoUnsized [] true)) (typeDefs (allItems E)) d := by
  obtain ⟨E, hE⟩ : ∃ E, parseDerive (.struct_ (demoUnsized [] true)) = .ok E := ⟨_, rfl⟩
  have h := C55_types _ E hE demoSizes (demoUnsized_order _ _) (demoUnsized_ok _ _) {} rfl
  refine ⟨E, hE, ?_⟩
  apply Classical.byContradiction
  intro hno
  have h2 : ∀ d ∈ typeDefs (allItems E), DefSizes demoSizes (.struct_ (demoUnsized [] true)) (typeDefs (allItems E)) d :=
    fun d hd => Classical.byContradiction (fun hc => hno ⟨d, hd, hc⟩)
  exact h.1 h2 ⟨rfl, ⟨_, .head _, rfl⟩, (demoUnsized_tail _ _).2 rfl⟩

/-- .. and it is fine if the field is not pinned, .. -/
example : ∃ E, parseDerive (.struct_ (demoUnsized [] false)) = .ok E ∧
    ∀ d ∈ typeDefs (allItems E), DefSizes demoSizes (.struct_ (demoUnsized [] false)) (typeDefs (allItems E)) d := by
  obtain ⟨E, hE⟩ : ∃ E, parseDerive (.struct_ (demoUnsized [] false)) = .ok E := ⟨_, rfl⟩
  refine ⟨E, hE, (C55_types _ E hE demoSizes (demoUnsized_order _ _) (demoUnsized_ok _ _) {} rfl).2 ?_⟩
  rintro ⟨-, -, h⟩
  cases (demoUnsized_tail _ _).1 h

/-- .. or with `#[pin_project(UnsafeUnpin)]`. -/
example : ∃ E, parseDerive (.struct_ (demoUnsized [.ident "UnsafeUnpin"] true)) = .ok E ∧
    ∀ d ∈ typeDefs (allItems E), DefSizes demoSizes (.struct_ (demoUnsized [.ident "UnsafeUnpin"] true)) (typeDefs (allItems E)) d := by
  obtain ⟨E, hE⟩ : ∃ E, parseDerive (.struct_ (demoUnsized [.ident "UnsafeUnpin"] true)) = .ok E := ⟨_, rfl⟩
  refine ⟨E, hE, (C55_types _ E hE demoSizes (demoUnsized_order _ _) (demoUnsized_ok _ _) { unpinImpl := .unsafe_ } rfl).2 ?_⟩
  rintro ⟨h, -⟩
  cases h

/-- `project` works for it; `project_replace` does not. -/
example : ∃ E ps as ws f1 f2 f3, parseDerive (.struct_ (demoUnsized [.ident "project_replace"] false)) = .ok E ∧
    GItem.inherent ps "Z" as ws [f1, f2, f3] ∈ allItems E ∧
    FnSizes demoSizes (.struct_ (demoUnsized [.ident "project_replace"] false)) (typeDefs (allItems E)) ps ws f1 ∧
    FnSizes demoSizes (.struct_ (demoUnsized [.ident "project_replace"] false)) (typeDefs (allItems E)) ps ws f2 ∧
    ¬ FnSizes demoSizes (.struct_ (demoUnsized [.ident "project_replace"] false)) (typeDefs (allItems E)) ps ws f3 := by
  obtain ⟨E, hE, ps, as, ws, f1, f2, f3, hm, h1, h2, h3⟩ :
      ∃ E, parseDerive (.struct_ (demoUnsized [.ident "project_replace"] false)) = .ok E ∧ ∃ ps as ws f1 f2 f3,
      GItem.inherent ps "Z" as ws [f1, f2, f3] ∈ allItems E ∧
      f1.name = "project" ∧ f2.name = "project_ref" ∧ f3.name = "project_replace" :=
    ⟨_, rfl, _, _, _, _, _, _, List.mem_of_getElem? (i := 3) rfl, rfl, rfl, rfl⟩
  have key := fun f hf => C55_methods _ E hE demoSizes (demoUnsized_order _ _) (demoUnsized_ok _ _) ps _ as ws _ hm f hf
  refine ⟨E, ps, as, ws, f1, f2, f3, hE, hm, (key f1 (.head _)).2 ?_, (key f2 (.tail _ (.head _))).2 ?_, ?_⟩
  · rw [h1]; intro h; exact absurd h (by decide)
  · rw [h2]; intro h; exact absurd h (by decide)
  · intro h
    exact (key f3 (.tail _ (.tail _ (.head _)))).1 h h3 (none, (demoUnsized [.ident "project_replace"] false).fields) (.head _) _ rfl rfl

end PinProject

import Verif.Props.ClientDemo
import Verif.Props.Capture
/-!
# Several annotated types in one program: C65
-/
namespace PinProject
open Spec

/-- An annotated type of the program: the item, its expansion, its arguments and its name. -/
structure Spec.Annotated where
  item : Item
  E : Expansion
  A : Args
  ident : String
  ok : parseDerive item = .ok E
  args : parseArgs (itemAttrs item) = .ok A
  name : itemName item = some ident
  wellScoped : WellScoped item

/-- The runtime crate and the expansions of all annotated types, with the impls the user wrote. -/
def Spec.programOf (ds : List Annotated) (us : List UImpl) : Program :=
  ⟨runtimeItems ++ ds.flatMap (fun d => allItems d.E), us⟩

/-- An impl of one of the four traits, written by the user for an annotated type, or for a type that is not annotated. -/
def Spec.WrittenFor (ds : List Annotated) (N : Names) (u : UImpl) : Prop :=
  (∃ d ∈ ds, UserImpl d.item N d.ident u) ∨
  (u.tr ∈ userTraits ∧ (∀ d ∈ ds, u.name ≠ d.ident) ∧ u.name ≠ wrapperName ∧ u.name ≠ alwaysUnpinName)

/-- The impls of an expansion are for the annotated type. -/
theorem impls_other {d : Annotated} {n : String} (hn : n ≠ d.ident) (tr : GTrait) : implsOf (allItems d.E) tr n = [] := by
  rw [implsOf, List.filterMap_eq_nil_iff]
  intro i hi
  cases i with
  | traitImpl a b ps tr' m as ws fns =>
    obtain ⟨A, ident, attrs, kind, front, h1, h2, h3, h4, -⟩ := expansion_shape d.item d.E d.ok
    obtain rfl := Option.some.inj (d.name.symm.trans h2)
    have hm : m = d.ident := by
      rw [h3, List.append_assoc, List.mem_append, List.mem_append] at hi
      rcases hi with hi | hi | hi
      · cases h4 _ hi
      · unfold makeUnpinImpl at hi
        split at hi <;> simp only [List.mem_cons, List.not_mem_nil, or_false, reduceCtorEq, GItem.traitImpl.injEq, false_or] at hi
        · exact hi.2.2.2.2.1
        · rcases hi with hi | hi <;> exact hi.2.2.2.2.1
        · rcases hi with hi | hi <;> exact hi.2.2.2.2.1
      · unfold makeDropImpl at hi
        split at hi <;> simp only [List.mem_cons, List.not_mem_nil, or_false, reduceCtorEq, GItem.traitImpl.injEq, false_or] at hi
        · exact hi.2.2.2.2.1
        · rcases hi with hi | hi <;> exact hi.2.2.2.2.1
    simp only [GItem.implOf]
    rw [if_neg]
    rintro ⟨-, h⟩
    exact hn (h.symm.trans hm)
  | _ => rfl

theorem ident_lexical (d : Annotated) : d.ident ≠ wrapperName ∧ d.ident ≠ alwaysUnpinName := by
  have := (d.wellScoped.lexical d.ident d.name).1
  constructor <;> intro h <;> rw [h] at this <;> exact this (by decide)

/-- The names of the annotated types are distinct. -/
abbrev Spec.DistinctNames (ds : List Annotated) : Prop := ds.Pairwise (fun d d' => noRaw d.ident ≠ noRaw d'.ident)

theorem annotated_unique {ds : List Annotated} (h : DistinctNames ds) {d d' : Annotated} (h1 : d ∈ ds) (h2 : d' ∈ ds)
    (he : d.ident = d'.ident) : d' = d := by
  induction h with
  | nil => cases h1
  | cons ha _ ih =>
    rcases List.mem_cons.1 h1 with rfl | h1 <;> rcases List.mem_cons.1 h2 with rfl | h2
    · rfl
    · exact (ha _ h2 (by rw [he])).elim
    · exact (ha _ (by assumption) (by rw [he])).elim
    · exact ih (by assumption) (by assumption)

theorem implsOf_program {ds : List Annotated} (hd : DistinctNames ds) {d : Annotated} (hm : d ∈ ds) (tr : GTrait) {i : ImplHeader}
    (hi : i ∈ implsOf (ds.flatMap (fun d => allItems d.E)) tr d.ident) : i ∈ implsOf (allItems d.E) tr d.ident := by
  simp only [implsOf, List.filterMap_flatMap, List.mem_flatMap] at hi
  obtain ⟨d', hd', hi⟩ := hi
  by_cases he : d.ident = d'.ident
  · obtain rfl := annotated_unique hd hm hd' he
    exact hi
  · have := impls_other he tr
    unfold implsOf at this
    rw [this] at hi
    cases hi

/-- In the whole program, an annotated type without `PinnedDrop` can only have a `Drop` impl by the user. -/
theorem mayDrop_program {ds : List Annotated} (hd : DistinctNames ds) {us : List UImpl} {K : Negative}
    {d : Annotated} (hm : d ∈ ds) (args : List TArg)
    (h : MayDrop (programOf ds us).items us K (.adt d.ident args)) (hp : d.A.pinnedDrop = false) :
    ∃ u ∈ us, u.tr = .drop ∧ u.name = d.ident := by
  rcases h with ⟨i, hi, -⟩ | ⟨u, hu, h1, h2, -⟩
  · exfalso
    simp only [programOf, implsOf_append, List.mem_append] at hi
    rcases hi with hi | hi
    · simp [implsOf, runtimeItems, GItem.implOf] at hi
    · have hi := implsOf_program hd hm .drop hi
      rw [(drop_header d.ok d.wellScoped d.args d.name).1, hp] at hi
      cases hi
  · exact ⟨u, hu, h1, h2⟩

theorem mustNot_inj {a b : String} (h : unraw a ++ "MustNotImplDrop" = unraw b ++ "MustNotImplDrop") : noRaw a = noRaw b := by
  have := congrArg String.toList h
  simp only [String.toList_append, List.append_cancel_right_eq] at this
  exact String.toList_inj.1 this

/-- The impls in an expansion: their traits, and the types they are for. -/
theorem reach_shape (d : Annotated) (its : List GItem) (us : List UImpl) (K : Negative) (r : Reach)
    (hr : r ∈ (allItems d.E).filterMap (reachOf its us K)) :
    (r.tr ∈ [.unpin, .unsafeUnpin, .drop, .pinnedDrop] ∧ ¬ Allowed d.A r.tr ∧ ∀ t, r.reach t → ∃ args, t = .adt d.ident args) ∨
    r.tr = .mustNotImplDrop (unraw d.ident ++ "MustNotImplDrop") := by
  rw [reach_in d.ok d.wellScoped d.args d.name its us K] at hr
  have hh : ∀ (h : ImplHeader) t, h.reachFor K d.ident t → ∃ args, t = .adt d.ident args := fun h t ⟨args, e, _⟩ => ⟨args, e⟩
  simp only [List.mem_append, List.mem_singleton] at hr
  rcases hr with (rfl | hr) | hr
  · exact .inl ⟨by simp, by simp [Allowed], hh _⟩
  · split at hr
    · cases hr
    · rename_i hu
      rw [List.mem_singleton] at hr
      subst hr
      exact .inl ⟨by simp, by simp [Allowed, hu], hh _⟩
  · split at hr
    · rw [List.mem_singleton] at hr
      subst hr
      exact .inl ⟨by simp, by simp [Allowed], hh _⟩
    · rename_i hp
      simp only [List.mem_cons, List.not_mem_nil, or_false] at hr
      rcases hr with rfl | rfl | rfl
      · exact .inr rfl
      · exact .inr rfl
      · exact .inl ⟨by simp, by simp [Allowed, hp], hh _⟩

/-- **C65** In a program with any number of annotated types, of different names, and any impls written by the user for these and
other types, the overlap check passes exactly when each impl for an annotated type is one the documentation allows for that type,
and the user's own impls do not conflict with each other. So annotated types do not interfere with each other. -/
theorem C65_no_interference (ds : List Annotated) (hd : DistinctNames ds) (N : Names) (hN : N.Lawful)
    (K : Negative) (hK : K.Sound N) (us : List UImpl) (hus : ∀ u ∈ us, WrittenFor ds N u) :
    (programOf ds us).Coherent K ↔
      (∀ d ∈ ds, ∀ u ∈ us, u.name = d.ident → Allowed d.A u.tr) ∧ Disjoint us := by
  constructor
  · intro h
    refine ⟨?_, ?_⟩
    · intro d hm u hu hn
      have hUI : UserImpl d.item N d.ident u := by
        rcases hus u hu with ⟨d', hd', h'⟩ | ⟨-, h', -⟩
        · have he : d.ident = d'.ident := by rw [← hn, h'.name]
          obtain rfl := annotated_unique hd hm hd' he
          exact h'
        · exact (h' d hm hn).elim
      have hs : Program.Coherent ⟨allItems d.E, [u]⟩ K := by
        refine coherent_sub h ?_ (List.singleton_sublist.2 hu)
        obtain ⟨l, r, rfl⟩ := List.append_of_mem hm
        simp only [programOf, List.flatMap_append, List.flatMap_cons]
        exact (List.sublist_append_left _ _).trans ((List.sublist_append_right _ _).trans (List.sublist_append_right _ _))
      rw [coherent_iff d.item d.E d.ok d.wellScoped d.A d.args d.ident d.name N hN K hK [u]
        (by intro v hv; rw [List.mem_singleton] at hv; subst hv; exact hUI)] at hs
      exact hs.1 u (.head _)
    · have hs : Program.Coherent ⟨[], us⟩ K := coherent_sub h (List.nil_sublist _) (List.Sublist.refl _)
      unfold Program.Coherent at hs
      simp only [List.filterMap_nil, List.nil_append, List.pairwise_map] at hs
      exact hs
  · rintro ⟨hall, hdis⟩
    have huname : ∀ u ∈ us, u.tr ∈ userTraits ∧ u.name ≠ wrapperName ∧ u.name ≠ alwaysUnpinName := by
      intro u hu
      rcases hus u hu with ⟨d, hm, h⟩ | ⟨h1, -, h3⟩
      · refine ⟨h.tr, ?_⟩
        rw [h.name]
        exact ident_lexical d
      · exact ⟨h1, h3⟩
    have hnd : ∀ d ∈ ds, ∀ u ∈ us, u.name = d.ident → u.tr ≠ .drop := by
      intro d hm u hu hn ht
      rcases hall d hm u hu hn with ⟨h1, -⟩ | ⟨h1, -⟩ <;> rw [ht] at h1 <;> cases h1
    have hdrop := fun d hm args h hp => mayDrop_program (us := us) (K := K) hd (d := d) hm args h hp
    unfold Program.Coherent
    generalize hits : (programOf ds us).items = its at *
    have hus' : (programOf ds us).user = us := rfl
    rw [hus']
    have he : its.filterMap (reachOf its us K) = runtimeItems.filterMap (reachOf its us K) ++
        ds.flatMap (fun d => (allItems d.E).filterMap (reachOf its us K)) := by
      conv => lhs; arg 2; rw [← hits]
      simp [programOf, List.filterMap_append, List.filterMap_flatMap]
    rw [he]
    have hrt : ∀ a ∈ runtimeItems.filterMap (reachOf its us K), (a.tr = .unsafeUnpin ∨ a.tr = .unpin) ∧
        ∀ t, a.reach t → ∃ n args, t = .adt n args ∧ (n = wrapperName ∨ n = alwaysUnpinName) := by
      intro a ha
      simp only [runtimeItems, reachOf, List.filterMap_cons, List.filterMap_nil, List.mem_cons, List.not_mem_nil, or_false] at ha
      rcases ha with rfl | rfl
      · exact ⟨.inl rfl, fun t ⟨args, h, _⟩ => ⟨_, args, h, .inl rfl⟩⟩
      · exact ⟨.inr rfl, fun t ⟨args, h, _⟩ => ⟨_, args, h, .inr rfl⟩⟩
    rw [List.append_assoc, List.pairwise_append, List.pairwise_append, List.pairwise_flatMap]
    refine ⟨by simp [runtimeItems, reachOf, Reach.Overlap, List.filterMap_cons], ⟨⟨?_, ?_⟩, ?_, ?_⟩, ?_⟩
    · -- within one type
      intro d hm
      have hblank : d.A.pinnedDrop = false → ∀ t, MayDrop its us K t → (plainHeader d.item).reachFor K d.ident t → False := by
        rintro hp t h1 ⟨args, rfl, -⟩
        obtain ⟨u, hu, ht, hn⟩ := hdrop d hm args h1 hp
        exact hnd d hm u hu hn ht
      rw [reach_in d.ok d.wellScoped d.args d.name its us K]
      by_cases hm1 : d.A.unpinImpl = .unsafe_
      · cases hm2 : d.A.pinnedDrop with
        | true => simp [hm1, Reach.Overlap]
        | false =>
          simp [hm1, Reach.Overlap]
          exact fun t h1 _ h2 => hblank hm2 t h1 h2
      · cases hm2 : d.A.pinnedDrop with
        | true => simp [hm1, Reach.Overlap]
        | false =>
          simp [hm1, Reach.Overlap]
          exact fun t h1 _ h2 => hblank hm2 t h1 h2
    · -- between two types
      refine hd.imp ?_
      intro d d' hne a ha b hb ⟨ht, t, h1, h2⟩
      rcases reach_shape d its us K a ha with ⟨ha1, -, ha2⟩ | ha1 <;>
        rcases reach_shape d' its us K b hb with ⟨hb1, -, hb2⟩ | hb1
      · obtain ⟨x, hx⟩ := ha2 t h1
        obtain ⟨y, hy⟩ := hb2 t h2
        rw [hx] at hy
        exact hne (congrArg noRaw (Ty.adt.inj hy).1)
      · rw [ht, hb1] at ha1; simp at ha1
      · rw [← ht, ha1] at hb1; simp at hb1
      · rw [ha1, hb1] at ht
        exact hne (mustNot_inj (GTrait.mustNotImplDrop.inj ht))
    · rw [List.pairwise_map]; exact hdis
    · -- a type and the impls by the user
      intro a ha b hb ⟨ht, t, h1, h2⟩
      obtain ⟨d, hm, ha⟩ := List.mem_flatMap.1 ha
      obtain ⟨u, hu, rfl⟩ := List.mem_map.1 hb
      obtain ⟨args, rfl, -⟩ := h2
      have ht' : a.tr = u.tr := ht
      rcases reach_shape d its us K a ha with ⟨-, ha1, ha2⟩ | ha1
      · obtain ⟨x, hx⟩ := ha2 _ h1
        exact ha1 (ht' ▸ hall d hm u hu (Ty.adt.inj hx).1)
      · have := (huname u hu).1
        rw [← ht', ha1] at this
        simp [userTraits] at this
    · -- the runtime crate
      intro a ha b hb ⟨ht, t, h1, h2⟩
      obtain ⟨htr, ha⟩ := hrt a ha
      obtain ⟨n, args, rfl, hn⟩ := ha t h1
      rcases List.mem_append.1 hb with hb | hb
      · obtain ⟨d, hm, hb⟩ := List.mem_flatMap.1 hb
        rcases reach_shape d its us K b hb with ⟨-, -, hb2⟩ | hb1
        · obtain ⟨y, hy⟩ := hb2 _ h2
          obtain ⟨rfl, -⟩ := Ty.adt.inj hy
          have := ident_lexical d
          rcases hn with h | h
          · exact this.1 h
          · exact this.2 h
        · rw [ht, hb1] at htr; simp at htr
      · obtain ⟨u, hu, rfl⟩ := List.mem_map.1 hb
        obtain ⟨y, hy, -⟩ := h2
        obtain ⟨rfl, -⟩ := Ty.adt.inj hy
        have := (huname u hu).2
        rcases hn with h | h
        · exact this.1 h
        · exact this.2 h

/-! ## Such programs exist -/

/-- The names of the types that are generated for an annotated type, besides the helper struct `__Name`. -/
def Spec.projectionNames (d : Annotated) : List String :=
  userNames d.A ++ ["Projection", "ProjectionRef", "ProjectionOwned"].map (fun s => "__" ++ noRaw d.ident ++ s)

/-- The model has one namespace for types, so that `__Name` must not also be the name of another type. (In Rust `__Name` is
defined in an anonymous scope. There another type of that name is only shadowed, see C44 and C47.) -/
structure Spec.Apart (ds : List Annotated) (us : List UImpl) : Prop where
  distinct : DistinctNames ds
  names : ∀ d ∈ ds, NamesOk d.ident d.A
  types : ∀ d ∈ ds, ∀ d' ∈ ds, "__" ++ noRaw d.ident ∉ d'.ident :: projectionNames d'
  user : ∀ d ∈ ds, ∀ u ∈ us, u.name ≠ "__" ++ noRaw d.ident

theorem typeDefs_names (d : Annotated) (t : TypeDef) (ht : t ∈ typeDefs (allItems d.E)) :
    t.name = "__" ++ noRaw d.ident ∨ (t.name ∈ projectionNames d ∧
      t.name ∈ [d.A.project.getD ("__" ++ unraw d.ident ++ "Projection"),
        d.A.projectRef.getD ("__" ++ unraw d.ident ++ "ProjectionRef"),
        d.A.projectReplace.ident.getD ("__" ++ unraw d.ident ++ "ProjectionOwned")]) := by
  obtain ⟨A, ident, attrs, kind, front, h1, h2, h3, -, h5⟩ := expansion_shape d.item d.E d.ok
  obtain rfl := Option.some.inj (d.name.symm.trans h2)
  obtain rfl := Except.ok.inj (d.args.symm.trans h1)
  rw [h3, typeDefs_append, typeDefs_append, List.mem_append, List.mem_append] at ht
  rcases ht with (ht | ht) | ht
  · have := h5 t ht
    refine .inr ⟨?_, this⟩
    have hget : ∀ (o : Option String) (s : String), (∀ k ∈ o, k ∈ userNames d.A) → s ∈ ["Projection", "ProjectionRef", "ProjectionOwned"] →
        o.getD ("__" ++ unraw d.ident ++ s) ∈ projectionNames d := by
      intro o s ho hs
      cases o with
      | none => exact List.mem_append_right _ (List.mem_map.2 ⟨s, hs, rfl⟩)
      | some k => exact List.mem_append_left _ (ho k rfl)
    simp only [mkCtx, List.mem_cons, List.not_mem_nil, or_false] at this
    rcases this with h | h | h <;> rw [h]
    · exact hget _ _ (by intro k hk; simp [userNames, Option.mem_def.1 hk]) (by simp)
    · exact hget _ _ (by intro k hk; simp [userNames, Option.mem_def.1 hk]) (by simp)
    · exact hget _ _ (by intro k hk; simp [userNames, Option.mem_def.1 hk]) (by simp)
  · left
    unfold makeUnpinImpl at ht
    split at ht <;> simp [typeDefs, asTypeDef, List.filterMap_cons] at ht
    rw [ht]; rfl
  · unfold makeDropImpl at ht
    split at ht <;> simp [typeDefs, asTypeDef, List.filterMap_cons] at ht

theorem helper_inj {a b : String} (h : "__" ++ noRaw a = "__" ++ noRaw b) : noRaw a = noRaw b := by
  have := congrArg String.toList h
  simp only [String.toList_append, List.append_cancel_left_eq] at this
  exact String.toList_inj.1 this

theorem implsOf_flatMap (ds : List Annotated) (tr : GTrait) (n : String) (h : ∀ d ∈ ds, n ≠ d.ident) :
    implsOf (ds.flatMap (fun d => allItems d.E)) tr n = [] := by
  rw [List.eq_nil_iff_forall_not_mem]
  intro i hi
  simp only [implsOf, List.filterMap_flatMap, List.mem_flatMap] at hi
  obtain ⟨d, hd, hi⟩ := hi
  have := impls_other (h d hd) tr
  unfold implsOf at this
  rw [this] at hi
  cases hi

theorem unrelated_of {ds : List Annotated} {us : List UImpl} (ha : Apart ds us) {d : Annotated} (hm : d ∈ ds)
    (others : List Annotated) (hs : ∀ d' ∈ others, d' ∈ ds ∧ noRaw d'.ident ≠ noRaw d.ident) :
    Unrelated d.ident (others.flatMap (fun d => allItems d.E)) := by
  obtain ⟨-, -, -, n1, n2, -⟩ := ourNames_ne d.wellScoped d.name
  intro n hn
  have hne : ∀ d' ∈ others, n ≠ d'.ident := by
    intro d' hd' he
    obtain ⟨h1, h2⟩ := hs d' hd'
    simp only [ourNames, List.mem_cons, List.not_mem_nil, or_false] at hn
    rcases hn with rfl | rfl | rfl | rfl
    · exact h2 (by rw [he])
    · exact ha.types d hm d' h1 (by rw [he]; exact .head _)
    · exact (ident_lexical d').1 he.symm
    · exact (ident_lexical d').2 he.symm
  refine ⟨implsOf_flatMap _ _ _ hne, implsOf_flatMap _ _ _ hne, ?_⟩
  intro t ht he
  obtain ⟨i, hi, ht⟩ := List.mem_filterMap.1 ht
  obtain ⟨d', hd', hi⟩ := List.mem_flatMap.1 hi
  have ht := typeDefs_names d' t (List.mem_filterMap.2 ⟨i, hi, ht⟩)
  obtain ⟨h1, h2⟩ := hs d' hd'
  simp only [ourNames, List.mem_cons, List.not_mem_nil, or_false] at hn
  obtain ⟨-, -, -, m1, m2, -⟩ := ourNames_ne d'.wellScoped d'.name
  rcases hn with rfl | rfl | rfl | rfl
  · rfl
  · rcases ht with ht | ⟨ht, -⟩
    · exact (h2 (helper_inj (ht.symm.trans he))).elim
    · exact (ha.types d hm d' h1 (.tail _ (he ▸ ht))).elim
  · rcases ht with ht | ⟨-, ht⟩
    · exact (m1 (ht.symm.trans he)).elim
    · exact ((proj_names d'.name d'.wellScoped (ha.names d' h1) ht).2.1 he).elim
  · rcases ht with ht | ⟨-, ht⟩
    · exact (m2 (ht.symm.trans he)).elim
    · exact ((proj_names d'.name d'.wellScoped (ha.names d' h1) ht).2.2 he).elim

/-- Each annotated type finds its own expansion in the program, undisturbed by the other ones. -/
theorem C65_hosts {ds : List Annotated} {us : List UImpl} (ha : Apart ds us) {N : Names} (hus : ∀ u ∈ us, WrittenFor ds N u)
    (hall : ∀ d ∈ ds, ∀ u ∈ us, u.name = d.ident → Allowed d.A u.tr) {d : Annotated} (hm : d ∈ ds) :
    Hosts d.ident d.E (programOf ds us) := by
  refine ⟨?_, ?_⟩
  · obtain ⟨l, r, rfl⟩ := List.append_of_mem hm
    have hp := List.pairwise_append.1 ha.distinct
    have hr := List.pairwise_cons.1 hp.2.1
    refine ⟨l.flatMap (fun d => allItems d.E), r.flatMap (fun d => allItems d.E), by simp [programOf], ?_, ?_⟩
    · refine unrelated_of ha hm l fun d' hd' => ⟨by simp [hd'], hp.2.2 d' hd' d (.head _)⟩
    · refine unrelated_of ha hm r fun d' hd' => ⟨by simp [hd'], (hr.1 d' hd').symm⟩
  · intro u hu hn ht
    have hn' : u.name = d.ident := by
      simp only [ourNames, List.mem_cons, List.not_mem_nil, or_false] at hn
      rcases hn with h | h | h | h
      · exact h
      · exact (ha.user d hm u hu h).elim
      all_goals
        rcases hus u hu with ⟨d', -, hd'⟩ | ⟨-, -, h1, h2⟩
        · have := ident_lexical d'
          rw [← hd'.name, h] at this
          simp at this
        · first | exact (h1 h).elim | exact (h2 h).elim
    refine ⟨?_, hn'⟩
    rcases hall d hm u hu hn' with ⟨h, -⟩ | ⟨h, -⟩
    · exact h
    · rcases ht with ht | ht <;> rw [h] at ht <;> cases ht

/-- The entry for an annotated type. -/
def Spec.lookupDef : List (Annotated × Def) → String → Option Def
  | [], _ => none
  | (d, D) :: ds, n => if d.ident = n then some D else lookupDef ds n

theorem lookupDef_mem {ds : List (Annotated × Def)} {n : String} {D : Def} (h : lookupDef ds n = some D) :
    ∃ d, (d, D) ∈ ds ∧ d.ident = n := by
  induction ds with
  | nil => cases h
  | cons x xs ih =>
    obtain ⟨d, D'⟩ := x
    unfold lookupDef at h
    split at h
    · rename_i he
      cases h
      exact ⟨d, .head _, he⟩
    · obtain ⟨d', h1, h2⟩ := ih h
      exact ⟨d', .tail _ h1, h2⟩

theorem lookupDef_of {ds : List (Annotated × Def)} (hd : DistinctNames (ds.map Prod.fst)) {d : Annotated} {D : Def}
    (hm : (d, D) ∈ ds) : lookupDef ds d.ident = some D := by
  induction ds with
  | nil => cases hm
  | cons x xs ih =>
    obtain ⟨d', D'⟩ := x
    rw [List.map_cons, DistinctNames, List.pairwise_cons] at hd
    unfold lookupDef
    rcases List.mem_cons.1 hm with he | hm
    · cases he
      simp
    · rw [if_neg, ih hd.2 hm]
      intro he
      exact hd.1 d (List.mem_map.2 ⟨_, hm, rfl⟩) (by rw [he])

/-- **C65** All programs as above are programs in the sense of C39, C40, C54, C60 and C61: those properties hold for all annotated
types at once. `F` are the trait facts; they exist by `Program.solves_exists`. -/
theorem C65_universe (ds : List (Annotated × Def)) (hsame : ∀ x ∈ ds, x.2.item = x.1.item ∧ x.2.E = x.1.E)
    (us : List UImpl) (ha : Apart (ds.map Prod.fst) us) (N : Names) (hN : N.Lawful) (K : Negative) (hK : K.Sound N)
    (hus : ∀ u ∈ us, WrittenFor (ds.map Prod.fst) N u)
    (hall : ∀ x ∈ ds, ∀ u ∈ us, u.name = x.1.ident → Allowed x.1.A u.tr) (hdis : Disjoint us)
    (F : Facts) (hF : (programOf (ds.map Prod.fst) us).Solves N F)
    (hcontract : ∀ u ∈ us, u.tr = .unsafeUnpin → ∀ x ∈ ds, x.1.ident = u.name → ∀ args, u.covers args →
      ∀ f ∈ itemFields x.1.item, Pinned f → F.unpin (N.den (instSubst x.1.item args) (resolved x.1.item f.ty)))
    (structural : Ty → Prop) (hstr : ∀ x ∈ ds, ∀ args, ¬ structural (.adt x.1.ident args)) :
    ∃ U : Universe, U.P = programOf (ds.map Prod.fst) us ∧ U.N = N ∧ U.F = F ∧ U.structural = structural ∧
      ∀ x ∈ ds, U.D x.1.ident = some x.2 := by
  have hall' : ∀ d ∈ ds.map Prod.fst, ∀ u ∈ us, u.name = d.ident → Allowed d.A u.tr := by
    intro d hd
    obtain ⟨x, hx, rfl⟩ := List.mem_map.1 hd
    exact hall x hx
  refine ⟨{ P := programOf (ds.map Prod.fst) us, N := N, F := F, K := K, D := lookupDef ds, structural := structural,
            lawful := hN, solves := hF, negative := hK,
            coherent := (C65_no_interference _ ha.distinct N hN K hK us hus).2 ⟨hall', hdis⟩,
            name := ?_, wellScoped := ?_, names := ?_, hosts := ?_, foreign := ?_, contract := ?_ },
    rfl, rfl, rfl, rfl, fun x hx => lookupDef_of ha.distinct hx⟩
  · intro n D h
    obtain ⟨d, hm, rfl⟩ := lookupDef_mem h
    rw [(hsame _ hm).1]
    exact d.name
  · intro n D h
    obtain ⟨d, hm, rfl⟩ := lookupDef_mem h
    rw [(hsame _ hm).1]
    exact d.wellScoped
  · intro n D A h hA
    obtain ⟨d, hm, rfl⟩ := lookupDef_mem h
    rw [(hsame _ hm).1] at hA
    obtain rfl := Except.ok.inj (d.args.symm.trans hA)
    exact ha.names d (List.mem_map.2 ⟨_, hm, rfl⟩)
  · intro n D h
    obtain ⟨d, hm, rfl⟩ := lookupDef_mem h
    rw [(hsame _ hm).2]
    exact C65_hosts ha hus hall' (List.mem_map.2 ⟨_, hm, rfl⟩)
  · intro n args h
    cases hl : lookupDef ds n with
    | none => rfl
    | some D =>
      obtain ⟨d, hm, rfl⟩ := lookupDef_mem hl
      exact (hstr _ hm args h).elim
  · intro u hu ht D h args hc f hf hp
    obtain ⟨d, hm, he⟩ := lookupDef_mem h
    rw [(hsame _ hm).1] at hf ⊢
    exact hcontract u hu ht _ hm he args hc f hf hp

/-! ## Two types -/

/-- `#[pin_project(PinnedDrop)] struct G<'a, T: Tr, U> ..`. -/
def togetherG : Annotated where
  item := .struct_ (demoGeneric [.ident "PinnedDrop"])
  E := match parseDerive (.struct_ (demoGeneric [.ident "PinnedDrop"])) with
    | .ok E => E
    | .error _ => default
  A := { pinnedDrop := true }
  ident := "G"
  ok := rfl
  args := rfl
  name := rfl
  wellScoped := demoGeneric_scoped _

/-- `#[pin_project(project_replace)] struct S { f: .. }`. -/
def togetherS : Annotated where
  item := captureItem
  E := captureE
  A := captureArgs
  ident := "S"
  ok := captureE_ok
  args := rfl
  name := rfl
  wellScoped := capture_scoped

/-- `#[pinned_drop] impl<..> PinnedDrop for G<..>`, and `impl Drop for Other`. -/
def togetherUs : List UImpl :=
  [{ tr := .pinnedDrop, name := "G", covers := fun _ => True }, { tr := .drop, name := "Other", covers := fun _ => True }]

theorem together_apart : Apart [togetherG, togetherS] togetherUs where
  distinct := by simp [DistinctNames, togetherG, togetherS]; decide
  names := by
    intro d hd
    simp only [List.mem_cons, List.not_mem_nil, or_false] at hd
    rcases hd with rfl | rfl
    · exact ⟨nofun, nofun⟩
    · exact capture_namesOk
  types := by
    intro d hd d' hd'
    simp only [List.mem_cons, List.not_mem_nil, or_false] at hd hd'
    rcases hd with rfl | rfl <;> rcases hd' with rfl | rfl <;> decide
  user := by
    intro d hd u hu
    simp only [togetherUs, List.mem_cons, List.not_mem_nil, or_false] at hd hu
    rcases hd with rfl | rfl <;> rcases hu with rfl | rfl <;> decide

theorem together_written : ∀ u ∈ togetherUs, WrittenFor [togetherG, togetherS] demoNames u := by
  intro u hu
  simp only [togetherUs, List.mem_cons, List.not_mem_nil, or_false] at hu
  rcases hu with rfl | rfl
  · exact .inl ⟨togetherG, .head _, rfl, by simp [userTraits], _,
      demoGeneric_instance _ 0 .phantomPinned .phantomPinned (by simp), trivial, fun h => by cases h⟩
  · refine .inr ⟨by simp [userTraits], ?_, by decide, by decide⟩
    intro d hd
    simp only [List.mem_cons, List.not_mem_nil, or_false] at hd
    rcases hd with rfl | rfl <;> decide

/-- The two types compile together. -/
example : (programOf [togetherG, togetherS] togetherUs).Coherent ClientDemo.demoK := by
  rw [C65_no_interference _ together_apart.distinct demoNames demoNames_lawful _ ClientDemo.demoK_sound _ together_written]
  refine ⟨?_, ?_⟩
  · intro d hd u hu hn
    simp only [togetherUs, List.mem_cons, List.not_mem_nil, or_false] at hd hu
    rcases hd with rfl | rfl <;> rcases hu with rfl | rfl
    · exact .inr ⟨rfl, rfl⟩
    · exact absurd hn (by decide)
    · exact absurd hn (by decide)
    · exact absurd hn (by decide)
  · simp [Disjoint, togetherUs, Reach.Overlap, UImpl.reach]

/-- With `impl Drop for S` they do not. -/
example : ¬ (programOf [togetherG, togetherS] [{ tr := .drop, name := "S", covers := fun _ => True }]).Coherent ClientDemo.demoK := by
  rw [C65_no_interference _ together_apart.distinct demoNames demoNames_lawful _ ClientDemo.demoK_sound]
  · intro h
    rcases h.1 togetherS (by simp) _ (.head _) rfl with ⟨h, -⟩ | ⟨h, -⟩ <;> cases h
  · intro u hu
    rw [List.mem_singleton] at hu
    subst hu
    exact .inl ⟨togetherS, by simp, rfl, by simp [userTraits], [], ⟨rfl, nofun, nofun⟩, trivial, fun _ => trivial⟩

def togetherDefG : Def where
  item := togetherG.item
  E := togetherG.E
  ok := togetherG.ok
  wf := by
    refine ⟨?_, fun e h => by cases h⟩
    rintro va fs ⟨rfl, rfl⟩
    simp [demoGeneric, Fields.WF]
  free := by
    rintro va fs ⟨rfl, rfl⟩ -
    exact ⟨by simp [demoGeneric, Fields.list], fun f hf => by cases hf⟩

def togetherDefS : Def where
  item := togetherS.item
  E := togetherS.E
  ok := togetherS.ok
  wf := by
    refine ⟨?_, fun e h => by cases h⟩
    rintro va fs ⟨rfl, rfl⟩
    simp [Fields.WF]
  free := by
    rintro va fs ⟨rfl, rfl⟩ -
    exact ⟨by simp [Fields.list], fun f hf => by cases hf⟩

/-- A program with both types. -/
example : ∃ U : Universe, U.D "G" = some togetherDefG ∧ U.D "S" = some togetherDefS := by
  obtain ⟨F, hF, -⟩ := Program.solves_exists (programOf [togetherG, togetherS] togetherUs) demoNames ⟨fun _ => False, fun _ => False⟩
  obtain ⟨U, -, -, -, -, h⟩ := C65_universe [(togetherG, togetherDefG), (togetherS, togetherDefS)]
    (by intro x hx; simp only [List.mem_cons, List.not_mem_nil, or_false] at hx; rcases hx with rfl | rfl <;> exact ⟨rfl, rfl⟩)
    togetherUs together_apart demoNames demoNames_lawful ClientDemo.demoK ClientDemo.demoK_sound together_written
    (by
      intro d hd u hu hn
      simp only [togetherUs, List.mem_cons, List.not_mem_nil, or_false] at hd hu
      rcases hd with rfl | rfl <;> rcases hu with rfl | rfl
      · exact .inr ⟨rfl, rfl⟩
      · exact absurd hn (by decide)
      · exact absurd hn (by decide)
      · exact absurd hn (by decide))
    (by simp [Disjoint, togetherUs, Reach.Overlap, UImpl.reach]) F hF
    (by
      intro u hu ht
      simp only [togetherUs, List.mem_cons, List.not_mem_nil, or_false] at hu
      rcases hu with rfl | rfl <;> cases ht)
    (fun _ => False) (fun _ _ _ h => h)
  exact ⟨U, h _ (.head _), h _ (.tail _ (.head _))⟩

end PinProject

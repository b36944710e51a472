import Verif.Spec.Hygiene
import Verif.Props.Names
/-!
# Names in generated code: C41, C44, C45, and the impl header part of C19
-/
namespace PinProject
open Spec

/-! ## C44 -/

theorem unraw_id {s : String} (h : '#' ∉ s.toList) : unraw s = s := by
  unfold unraw
  split
  · rename_i rest he
    rw [he] at h
    simp at h
  · rfl

theorem unpinNames (cx : Ctx) (tys : List Node) :
    (makeUnpinImpl cx tys).filterMap generatedName =
      if cx.unpinImpl = .default then ["__" ++ unraw cx.ident] else [] := by
  unfold makeUnpinImpl
  cases cx.unpinImpl <;> simp [generatedName]

theorem dropNames (cx : Ctx) :
    (makeDropImpl cx).filterMap generatedName =
      if cx.pinnedDrop then [] else [unraw cx.ident ++ "MustNotImplDrop"] := by
  unfold makeDropImpl
  cases cx.pinnedDrop <;> simp [generatedName]

/-- **C44** The names an expansion defines are, up to order, the names the user chose and the names
pin-project makes up. -/
theorem C44_generated_names (item : Item) (E : Expansion) (h : parseDerive item = .ok E) :
    ∃ A ident, parseArgs (itemAttrs item) = .ok A ∧ itemName item = some ident ∧
      (generatedNames E).Perm (userNames A ++ madeUp A item (noRaw ident)) := by
  simp only [noRaw_eq] at *
  cases item with
  | other a => simp [parseDerive] at h
  | struct_ s =>
    obtain ⟨A, h1, -, -, -, -, -, rfl⟩ := (deriveStruct_iff s E).1 h
    refine ⟨A, s.ident, h1, rfl, ?_⟩
    have hp : (s.ctx A).project = A.project.isSome := rfl
    have hr : (s.ctx A).projectRef = A.projectRef.isSome := rfl
    have ho : (s.ctx A).projectReplace = A.projectReplace := rfl
    have e1 : generatedName (projItemS (s.ctx A) s.pre.fields) =
      some (A.project.getD ("__" ++ unraw s.ident ++ "Projection")) := rfl
    have e2 : generatedName (refItemS (s.ctx A) s.pre.fields) =
      some (A.projectRef.getD ("__" ++ unraw s.ident ++ "ProjectionRef")) := rfl
    have e3 : generatedName (ownItemS (s.ctx A) s.pre.fields) =
      some (A.projectReplace.ident.getD ("__" ++ unraw s.ident ++ "ProjectionOwned")) := rfl
    have e4 : generatedName (implItemS (s.ctx A) s.pre.fields) = none := rfl
    have e5 : generatedName (assertItem (s.ctx A) s.pre.fields) = none := rfl
    have e6 := unpinNames (s.ctx A) (pinnedTys s.pre.fields.list)
    have e7 := dropNames (s.ctx A)
    rw [show (s.ctx A).unpinImpl = A.unpinImpl from rfl, show (s.ctx A).ident = s.ident from rfl] at e6
    rw [show (s.ctx A).pinnedDrop = A.pinnedDrop from rfl, show (s.ctx A).ident = s.ident from rfl] at e7
    rw [generatedNames, allItems, userNames, madeUp]
    simp only [structExpansion, List.filterMap_append, e6, e7, hp, hr, ho]
    rw [List.perm_iff_count]
    intro x
    cases h1 : A.project <;> cases h2 : A.projectRef <;> cases h3 : A.projectReplace <;>
      simp only [Option.isSome_none, Option.isSome_some, ProjReplace.ident, ProjReplace.isSome, if_true,
        Bool.false_eq_true, if_false, List.filterMap_cons, List.filterMap_nil, e1, e2, e3, e4, e5, h1, h2, h3,
        List.count_append, List.count_nil, true_and, false_and, and_true, and_false, isStruct, reduceCtorEq, Option.toList_none, Option.toList_some,
          Option.getD_none, Option.getD_some] <;> omega
  | enum_ s =>
    obtain ⟨A, h1, -, hrep, -, -, -, -, rfl⟩ := (deriveEnum_iff s E).1 h
    refine ⟨A, s.ident, h1, rfl, ?_⟩
    have hp : (s.ctx A).project = A.project.isSome := rfl
    have hr : (s.ctx A).projectRef = A.projectRef.isSome := rfl
    have ho : (s.ctx A).projectReplace = A.projectReplace := rfl
    have e1 : generatedName (projItemE (s.ctx A) s.pre.variants) =
      some (A.project.getD ("__" ++ unraw s.ident ++ "Projection")) := rfl
    have e2 : generatedName (refItemE (s.ctx A) s.pre.variants) =
      some (A.projectRef.getD ("__" ++ unraw s.ident ++ "ProjectionRef")) := rfl
    have e3 : generatedName (ownItemE (s.ctx A) s.pre.variants) =
      some (A.projectReplace.ident.getD ("__" ++ unraw s.ident ++ "ProjectionOwned")) := rfl
    have e4 : generatedName (implItemE (s.ctx A) s.pre.variants) = none := rfl
    have e6 := unpinNames (s.ctx A) (s.pre.variants.flatMap (fun v => pinnedTys v.fields.list))
    have e7 := dropNames (s.ctx A)
    rw [show (s.ctx A).unpinImpl = A.unpinImpl from rfl, show (s.ctx A).ident = s.ident from rfl] at e6
    rw [show (s.ctx A).pinnedDrop = A.pinnedDrop from rfl, show (s.ctx A).ident = s.ident from rfl] at e7
    rw [generatedNames, allItems, userNames, madeUp]
    simp only [enumExpansion, List.filterMap_append, e6, e7, hp, hr, ho]
    rw [List.perm_iff_count]
    intro x
    cases h1 : A.project <;> cases h2 : A.projectRef <;> cases h3 : A.projectReplace <;>
      simp only [Option.isSome_none, Option.isSome_some, ProjReplace.ident, ProjReplace.isSome, if_true,
        Bool.false_eq_true, if_false, List.filterMap_cons, List.filterMap_nil, e1, e2, e3, e4, h1, h2, h3,
        List.count_append, List.count_nil, true_and, false_and, and_true, and_false, isStruct, reduceCtorEq, Option.toList_none, Option.toList_some,
          Option.getD_none, Option.getD_some] <;> first | omega | exact absurd h3 hrep

theorem defaults_nodup (X : String) :
    [X, "__" ++ X ++ "Projection", "__" ++ X ++ "ProjectionRef", "__" ++ X ++ "ProjectionOwned",
      "__" ++ X, X ++ "MustNotImplDrop"].Nodup := by
  have len : ∀ a b : String, a.length ≠ b.length → a ≠ b := fun a b h e => h (by rw [e])
  have l1 : "__".length = 2 := rfl
  have l2 : "Projection".length = 10 := rfl
  have l3 : "ProjectionRef".length = 13 := rfl
  have l4 : "ProjectionOwned".length = 15 := rfl
  have l5 : "MustNotImplDrop".length = 15 := rfl
  have hlast : "__" ++ X ++ "ProjectionRef" ≠ X ++ "MustNotImplDrop" := by
    intro h
    have h1 := congrArg (fun s => s.toList.getLast?) h
    simp only [String.toList_append, List.getLast?_append] at h1
    have a1 : "ProjectionRef".toList.getLast? = some 'f' := by decide
    have a2 : "MustNotImplDrop".toList.getLast? = some 'p' := by decide
    rw [a1, a2] at h1
    simp at h1
  simp only [List.nodup_cons, List.mem_cons, List.not_mem_nil, or_false, not_or, not_false_eq_true,
    List.nodup_nil, and_true]
  refine ⟨⟨?_, ?_, ?_, ?_, ?_⟩, ⟨?_, ?_, ?_, ?_⟩, ⟨?_, ?_, hlast⟩, ⟨?_, ?_⟩, ?_⟩ <;>
    (apply len; simp only [String.length_append, l1, l2, l3, l4, l5]; omega)

theorem no_hash_append {a b : String} (ha : '#' ∉ a.toList) (hb : '#' ∉ b.toList) : '#' ∉ (a ++ b).toList := by
  rw [String.toList_append, List.mem_append]; exact not_or.2 ⟨ha, hb⟩

theorem map_unraw {l : List String} (h : ∀ n ∈ l, unraw n = n) : l.map unraw = l :=
  (List.map_congr_left h).trans (List.map_id _)

theorem madeUp_sub (A : Args) (item : Item) (X : String) : (X :: madeUp A item X).Sublist
    [X, "__" ++ X ++ "Projection", "__" ++ X ++ "ProjectionRef", "__" ++ X ++ "ProjectionOwned",
      "__" ++ X, X ++ "MustNotImplDrop"] := by
  have ite_sub : ∀ (c : Prop) [Decidable c] (x : String), (if c then [x] else []).Sublist [x] := by
    intro c _ x; split
    · exact List.Sublist.refl _
    · exact List.nil_sublist _
  have ite_sub' : ∀ (c : Prop) [Decidable c] (x : String), (if c then [] else [x]).Sublist [x] := by
    intro c _ x; split
    · exact List.nil_sublist _
    · exact List.Sublist.refl _
  unfold madeUp
  simp only [List.append_assoc]
  refine List.Sublist.cons_cons _ ?_
  refine List.Sublist.append (l₂ := [_]) (ite_sub _ _) ?_
  refine List.Sublist.append (l₂ := [_]) (ite_sub _ _) ?_
  refine List.Sublist.append (l₂ := [_]) (ite_sub _ _) ?_
  exact List.Sublist.append (l₂ := [_]) (ite_sub _ _) (ite_sub' _ _)

/-- **C44** All names the expansion defines are pairwise distinct and distinct from the annotated type
(raw identifiers being the same as their plain form) exactly when this already holds of the names the
user wrote and none of these is a name made up by pin-project. (`hlex`: after an initial `r#`, an
identifier contains no `#`.) -/
theorem C44_names_distinct_iff (item : Item) (E : Expansion) (h : parseDerive item = .ok E) (A : Args)
    (hA : parseArgs (itemAttrs item) = .ok A) (ident : String) (hid : itemName item = some ident)
    (hlex : '#' ∉ (noRaw ident).toList) :
    ((ident :: generatedNames E).map noRaw).Nodup ↔
      ((ident :: userNames A).map noRaw).Nodup ∧
      ∀ n ∈ userNames A, noRaw n ∉ madeUp A item (noRaw ident) := by
  simp only [noRaw_eq] at *
  obtain ⟨A', ident', h1, h2, hp⟩ := C44_generated_names item E h
  obtain rfl := Except.ok.inj (hA.symm.trans h1)
  obtain rfl := Option.some.inj (hid.symm.trans h2)
  have hp' : ((ident :: generatedNames E).map unraw).Perm
      ((ident :: (userNames A ++ madeUp A item (unraw ident))).map unraw) := (List.Perm.cons _ hp).map _
  rw [hp'.nodup_iff]
  have hs := madeUp_sub A item (unraw ident)
  have hX := hlex
  have hu : ∀ m ∈ madeUp A item (unraw ident), unraw m = m := by
    intro m hm
    have := (List.cons_sublist_cons.1 hs).subset hm
    simp only [List.mem_cons, List.not_mem_nil, or_false] at this
    rcases this with rfl | rfl | rfl | rfl | rfl
    · exact unraw_id (no_hash_append (no_hash_append (a := "__") (by decide) hX) (b := "Projection") (by decide))
    · exact unraw_id (no_hash_append (no_hash_append (a := "__") (by decide) hX) (b := "ProjectionRef") (by decide))
    · exact unraw_id (no_hash_append (no_hash_append (a := "__") (by decide) hX) (b := "ProjectionOwned") (by decide))
    · exact unraw_id (no_hash_append (a := "__") (by decide) hX)
    · exact unraw_id (no_hash_append hX (b := "MustNotImplDrop") (by decide))
  have hmap : (madeUp A item (unraw ident)).map unraw = madeUp A item (unraw ident) := by
    exact map_unraw hu
  have hnd := hs.nodup (defaults_nodup (unraw ident))
  rw [List.nodup_cons] at hnd
  rw [List.map_cons, List.map_append, hmap, List.map_cons, List.nodup_cons, List.nodup_cons,
    List.nodup_append, List.mem_append]
  constructor
  · rintro ⟨h3, h4, -, h5⟩
    exact ⟨⟨fun h => h3 (.inl h), h4⟩, fun n hn hm => h5 _ (List.mem_map_of_mem hn) _ hm rfl⟩
  · rintro ⟨⟨h3, h4⟩, h5⟩
    refine ⟨?_, h4, hnd.2, ?_⟩
    · rintro (h | h)
      · exact h3 h
      · exact hnd.1 h
    · intro a ha b hb hab
      obtain ⟨n, hn, rfl⟩ := List.mem_map.1 ha
      subst hab
      exact h5 n hn hb

/-- **C44** When no raw identifiers are used, a user only has to avoid the names made up by pin-project:
that the chosen names differ from each other and from the type is checked during expansion. -/
theorem C44_no_raw (item : Item) (E : Expansion) (h : parseDerive item = .ok E) (A : Args)
    (hA : parseArgs (itemAttrs item) = .ok A) (ident : String) (hid : itemName item = some ident)
    (hraw : ∀ n ∈ ident :: userNames A, '#' ∉ n.toList) :
    (ident :: generatedNames E).Nodup ↔ ∀ n ∈ userNames A, n ∉ madeUp A item ident := by
  have hi : unraw ident = ident := unraw_id (hraw _ (by simp))
  have hk := C44_names_distinct_iff item E h A hA ident hid (by rw [noRaw_eq, hi]; exact hraw _ (by simp))
  simp only [noRaw_eq] at hk
  have hm : (ident :: userNames A).map unraw = ident :: userNames A := by
    exact map_unraw (fun n hn => unraw_id (hraw n hn))
  have hg : (ident :: generatedNames E).map unraw = ident :: generatedNames E := by
    refine map_unraw (fun n hn => unraw_id ?_)
    obtain ⟨A', ident', h1, h2, hp⟩ := C44_generated_names item E h
    obtain rfl := Except.ok.inj (hA.symm.trans h1)
    obtain rfl := Option.some.inj (hid.symm.trans h2)
    rw [noRaw_eq, hi] at hp
    rcases List.mem_cons.1 hn with rfl | hn
    · exact hraw _ (by simp)
    · rcases List.mem_append.1 (hp.mem_iff.1 hn) with hn | hn
      · exact hraw _ (List.mem_cons_of_mem _ hn)
      · have hX := hraw ident (by simp)
        have := (List.cons_sublist_cons.1 (madeUp_sub A item ident)).subset hn
        simp only [List.mem_cons, List.not_mem_nil, or_false] at this
        rcases this with rfl | rfl | rfl | rfl | rfl
        · exact no_hash_append (no_hash_append (a := "__") (by decide) hX) (b := "Projection") (by decide)
        · exact no_hash_append (no_hash_append (a := "__") (by decide) hX) (b := "ProjectionRef") (by decide)
        · exact no_hash_append (no_hash_append (a := "__") (by decide) hX) (b := "ProjectionOwned") (by decide)
        · exact no_hash_append (a := "__") (by decide) hX
        · exact no_hash_append hX (b := "MustNotImplDrop") (by decide)
  rw [hm, hg, hi] at hk
  have hu : ∀ n ∈ userNames A, unraw n = n := fun n hn => unraw_id (hraw n (List.mem_cons_of_mem _ hn))
  rw [hk]
  obtain ⟨A', h1, h2⟩ := C04_names_distinct item E h
  obtain rfl := Except.ok.inj (hA.symm.trans h1)
  constructor
  · rintro ⟨-, h3⟩ n hn
    rw [← hu n hn]; exact h3 n hn
  · intro h3
    refine ⟨h2 ident hid, fun n hn => ?_⟩
    rw [hu n hn]; exact h3 n hn

/-- `#[pin_project(project = P)] enum E ..` is in order; on a struct, `__EProjection` may be used as the
name for `project`, but not for `project_ref`. -/
example : ∀ n ∈ userNames { project := some "P" }, n ∉ madeUp { project := some "P" } (.enum_ demoEnum) "E" := by decide
example : ∀ n ∈ userNames { project := some "__SProjection" },
    n ∉ madeUp { project := some "__SProjection" } (.struct_ demoStruct) "S" := by decide
example : ¬ ∀ n ∈ userNames { projectRef := some "__SProjection" },
    n ∉ madeUp { projectRef := some "__SProjection" } (.struct_ demoStruct) "S" := by decide

/-- **C44** fails without the restriction: `#[pin_project(project = __SProjectionRef)] struct S`
is accepted and defines two types of that name. -/
theorem C44_counterexample : ∃ (item : Item) (E : Expansion), parseDerive item = .ok E ∧
    itemName item = some "S" ∧ ¬ (generatedNames E).Nodup :=
  ⟨.struct_ { demoStruct with
      attrs := [pinPrivateAttr [.ident "project", .punct '=' false, .ident "__SProjectionRef"]] },
    _, rfl, rfl, by decide⟩

/-- The names are compared as written, so `#[pin_project(project = S)] struct r#S` is accepted although
both are the same identifier to rustc, which then reports the duplicate definition. -/
theorem C44_raw_counterexample : ∃ (item : Item) (E : Expansion) (ident : String), parseDerive item = .ok E ∧
    itemName item = some ident ∧ ¬ ((ident :: generatedNames E).map noRaw).Nodup :=
  ⟨.struct_ { demoStruct with
      ident := "r#S", attrs := [pinPrivateAttr [.ident "project", .punct '=' false, .ident "S"]] },
    _, _, rfl, rfl, by decide⟩

/-! ## C41 -/

/-- The helper variables of the generated methods. -/
def helperNames : List String := ["self", "__replacement", "__self_ptr", "__guard", "__result"]

theorem ownBody_locals (cx : Ctx) (variant : Option String) (mv : Option Delim × List GInit)
    (pinned : List String) :
    (projOwnBody cx variant mv pinned).1.flatMap stmtLocals ⊆ helperNames ∧
    (projOwnBody cx variant mv pinned).1.flatMap stmtPats = [] := by
  constructor
  · intro x hx
    simp only [projOwnBody, List.flatMap_cons, List.flatMap_nil, stmtLocals, List.map_map,
      List.append_nil, List.mem_append, List.mem_singleton, List.mem_map, Function.comp] at hx
    rcases hx with rfl | ⟨_, _, rfl⟩ <;> decide
  · rfl

/-- Every pattern of a method binds the fields of one variant, and its helpers are the known ones. -/
theorem method_pats (item : Item) (E : Expansion) (h : parseDerive item = .ok E) (name : String) (fn : GFn)
    (hfn : method E name = some fn) :
    fnLocals fn ⊆ helperNames ∧
    ∀ pat ∈ fnPats fn, ∃ v ∈ itemVariants item, pat.variant = v.1 ∧ pat.delim = fieldsDelim v.2 ∧
      pat.binders = bindings v.2.list := by
  have hb : ∀ (st : SelfTy) (fs : Fields), bindings (fs.visit st).list = bindings fs.list := by
    intro st fs
    rw [list_visit]
    simp only [bindings]
    rw [List.zipIdx_map, List.map_map]
    rfl
  cases item with
  | other a => simp [parseDerive] at h
  | struct_ s =>
    obtain ⟨A, h1, -, -, -, -, -, rfl⟩ := (deriveStruct_iff s E).1 h
    rw [method_struct] at hfn
    have hmem := List.mem_of_find?_eq_some hfn
    have hpat : ∀ pat, pat = (projectedOf (s.ctx A) none s.pre.fields).projPat →
        ∃ v ∈ itemVariants (.struct_ s), pat.variant = v.1 ∧ pat.delim = fieldsDelim v.2 ∧
          pat.binders = bindings v.2.list := by
      rintro pat rfl
      refine ⟨(none, s.fields), List.mem_singleton.2 rfl, rfl, ?_, ?_⟩
      · simp only [projectedOf]; rw [← delim_eq]; exact delim_visit _ _
      · simp only [projectedOf]; exact hb _ _
    have hown := ownBody_locals (s.ctx A) none (s.pre.fields.delim, s.pre.fields.list.zipIdx.map moveInit)
      (pinnedBindings s.pre.fields.list)
    simp only [implFns, List.mem_append] at hmem
    rcases hmem with (hm | hm) | hm
    · split at hm <;> simp at hm
      subst hm
      refine ⟨?_, ?_⟩
      · intro x hx
        simp [fnLocals, projectFn, projMutBodyS, stmtLocals, tailLocals] at hx
        subst hx; decide
      · intro pat hp
        apply hpat
        simpa [fnPats, projectFn, projMutBodyS, stmtPats, tailPats] using hp
    · split at hm <;> simp at hm
      subst hm
      refine ⟨?_, ?_⟩
      · intro x hx
        simp [fnLocals, projectRefFn, projRefBodyS, stmtLocals, tailLocals] at hx
        subst hx; decide
      · intro pat hp
        apply hpat
        simpa [fnPats, projectRefFn, projRefBodyS, stmtPats, tailPats] using hp
    · split at hm <;> simp at hm
      subst hm
      refine ⟨?_, ?_⟩
      · intro x hx
        simp only [fnLocals, projectReplaceFn, projOwnBodyS, tailLocals, List.flatMap_append,
          List.flatMap_cons, List.flatMap_nil, stmtLocals, List.map_cons, List.map_nil, List.append_nil,
          List.nil_append, List.cons_append, List.mem_cons, List.mem_append] at hx
        rcases hx with rfl | rfl | rfl | rfl | hx
        iterate 4 decide
        exact hown.1 hx
      · intro pat hp
        apply hpat
        simp only [fnPats, projectReplaceFn, projOwnBodyS, tailPats, List.flatMap_append,
          List.flatMap_cons, List.flatMap_nil, stmtPats, List.append_nil, List.nil_append,
          List.cons_append, List.mem_cons] at hp
        rcases hp with hp | hp
        · exact hp
        · have := hown.2
          simp only [projectedOf] at hp
          rw [this] at hp
          simp at hp
  | enum_ s =>
    obtain ⟨A, h1, -, -, -, -, -, -, rfl⟩ := (deriveEnum_iff s E).1 h
    rw [method_enum] at hfn
    have hmem := List.mem_of_find?_eq_some hfn
    have hpat : ∀ v ∈ s.pre.variants, ∀ pat, pat = (projectedOf (s.ctx A) (some v.ident) v.fields).projPat →
        ∃ v ∈ itemVariants (.enum_ s), pat.variant = v.1 ∧ pat.delim = fieldsDelim v.2 ∧
          pat.binders = bindings v.2.list := by
      rintro v hv pat rfl
      obtain ⟨w, hw, rfl⟩ := List.mem_map.1 hv
      refine ⟨(some w.ident, w.fields), List.mem_map.2 ⟨w, hw, rfl⟩, rfl, ?_, ?_⟩
      · simp only [projectedOf]; rw [← delim_eq]; exact delim_visit _ _
      · simp only [projectedOf]; exact hb _ _
    simp only [implFns, List.mem_append] at hmem
    rcases hmem with (hm | hm) | hm
    · split at hm <;> simp at hm
      subst hm
      refine ⟨?_, ?_⟩
      · intro x hx
        simp only [fnLocals, projectFn, projMutBodyE, tailLocals, List.mem_append, List.mem_cons, List.map_nil,
          List.flatMap_nil, List.append_nil, List.not_mem_nil, or_false, List.mem_flatMap, List.mem_map] at hx
        rcases hx with rfl | ⟨a, ⟨v, hv, rfl⟩, y, hy, -⟩
        · decide
        · simp [armMut] at hy
      · intro pat hp
        simp only [fnPats, projectFn, projMutBodyE, tailPats, List.flatMap_nil, List.nil_append,
          List.mem_flatMap, List.mem_map] at hp
        obtain ⟨a, ⟨v, hv, rfl⟩, hp⟩ := hp
        exact hpat v hv pat (by simpa [armMut] using hp)
    · split at hm <;> simp at hm
      subst hm
      refine ⟨?_, ?_⟩
      · intro x hx
        simp only [fnLocals, projectRefFn, projRefBodyE, tailLocals, List.mem_append, List.mem_cons, List.map_nil,
          List.flatMap_nil, List.append_nil, List.not_mem_nil, or_false, List.mem_flatMap, List.mem_map] at hx
        rcases hx with rfl | ⟨a, ⟨v, hv, rfl⟩, y, hy, -⟩
        · decide
        · simp [armRef] at hy
      · intro pat hp
        simp only [fnPats, projectRefFn, projRefBodyE, tailPats, List.flatMap_nil, List.nil_append,
          List.mem_flatMap, List.mem_map] at hp
        obtain ⟨a, ⟨v, hv, rfl⟩, hp⟩ := hp
        exact hpat v hv pat (by simpa [armRef] using hp)
    · split at hm <;> simp at hm
      subst hm
      refine ⟨?_, ?_⟩
      · intro x hx
        simp only [fnLocals, projectReplaceFn, projOwnBodyE, tailLocals, List.append_nil,
          List.flatMap_cons, List.flatMap_nil, stmtLocals, List.map_cons, List.map_nil,
          List.nil_append, List.cons_append, List.mem_cons, List.mem_flatMap, List.mem_map] at hx
        rcases hx with rfl | rfl | rfl | rfl | ⟨a, ⟨v, hv, rfl⟩, hx⟩
        iterate 4 decide
        exact (ownBody_locals (s.ctx A) (some v.ident) _ _).1 (List.mem_flatMap.2 hx)
      · intro pat hp
        simp only [fnPats, projectReplaceFn, projOwnBodyE, tailPats, List.append_nil,
          List.flatMap_cons, List.flatMap_nil, stmtPats, List.nil_append, List.mem_flatMap,
          List.mem_map] at hp
        obtain ⟨a, ⟨v, hv, rfl⟩, hp⟩ := hp
        refine hpat v hv pat ?_
        rcases List.mem_cons.1 hp with hp | hp
        · exact hp
        · have := (ownBody_locals (s.ctx A) (some v.ident)
            (v.fields.delim, v.fields.list.zipIdx.map moveInit) (pinnedBindings v.fields.list)).2
          simp only [armOwn, projectedOf] at hp
          rw [this] at hp
          simp at hp

/-- **C41** In every generated method, the names bound by the pattern of a tuple struct or tuple variant
are pairwise distinct, one per field, and differ from every other variable of the method. -/
theorem C41_tuple_bindings (item : Item) (E : Expansion) (h : parseDerive item = .ok E) (hwf : ItemWF item)
    (name : String) (fn : GFn) (hfn : method E name = some fn) (pat : GPat) (hp : pat ∈ fnPats fn)
    (ht : pat.delim = some .paren) :
    pat.binders.Nodup ∧ (∀ b ∈ pat.binders, b ∉ fnLocals fn) ∧
    ∃ v ∈ itemVariants item, pat.variant = v.1 ∧ pat.binders.length = v.2.list.length := by
  obtain ⟨h1, h2⟩ := method_pats item E h name fn hfn
  obtain ⟨v, hv, hv1, hv2, hv3⟩ := h2 pat hp
  have hvar : HasVariant item v.1 v.2 := by
    cases item with
    | struct_ s => simp only [itemVariants, List.mem_singleton] at hv; subst hv; exact ⟨rfl, rfl⟩
    | enum_ e =>
      simp only [itemVariants, List.mem_map] at hv
      obtain ⟨w, hw, rfl⟩ := hv
      exact ⟨w, hw, rfl, rfl⟩
    | other a => simp [itemVariants] at hv
  have hfwf := hwf.fields v.1 v.2 hvar
  rw [hv3]
  refine ⟨bindings_nodup hfwf, ?_, v, hv, hv1, by simp [bindings]⟩
  intro b hb hloc
  have hloc := h1 hloc
  obtain ⟨x, hx, rfl⟩ := List.mem_map.1 hb
  have hnone : x.1.ident = none := by
    rw [hv2] at ht
    cases hf : v.2 with
    | named fs => rw [hf] at ht; simp [fieldsDelim] at ht
    | unit => rw [hf] at ht; simp [fieldsDelim] at ht
    | unnamed fs =>
      rw [hf] at hfwf hx
      exact hfwf _ (List.fst_mem_of_mem_zipIdx hx)
  simp only [helperNames, List.mem_cons, List.not_mem_nil, or_false] at hloc
  rcases hloc with hl | hl | hl | hl | hl
  · simp only [binding, hnone, Option.getD_none] at hl
    have := congrArg (fun s => s.toList.head?) hl
    simp only [String.toList_append] at this
    rw [show "_".toList = ['_'] from by decide, show "self".toList = ['s', 'e', 'l', 'f'] from by decide] at this
    simp at this
  iterate 4
    rw [binding_eq_iff _ _ _ ⟨_, rfl⟩, hnone] at hl
    cases hl

/-- `#[pin_project(project_replace)] struct T<A, B>(#[pin] A, B)`. -/
def demoTuple : ItemStruct where
  attrs := [pinPrivateAttr [.ident "project_replace"]]
  vis := .pub
  ident := "T"
  generics := { params := [.type "A" [] none, .type "B" [] none] }
  fields := .unnamed [{ attrs := [⟨.path { segs := ["pin"] }⟩], ident := none, ty := .tyIdent "A" },
    { ident := none, ty := .tyIdent "B" }]

example : ∃ E fn, parseDerive (.struct_ demoTuple) = .ok E ∧ method E "project_replace" = some fn ∧
    fnPats fn = [⟨none, some .paren, ["_0", "_1"]⟩] ∧
    fnLocals fn = ["self", "__replacement", "__self_ptr", "__guard", "__result", "__guard"] :=
  ⟨_, _, rfl, rfl, rfl, rfl⟩

/-! ## C45 -/

/-- **C45** The types placed next to the annotated type refer to the crate only by the absolute path
`::pin_project`, never by the alias that exists only inside the anonymous scope. -/
theorem C45_exposed_absolute (item : Item) (E : Expansion) (h : parseDerive item = .ok E) :
    ∀ d ∈ typeDefs E.exposed, ∀ v ∈ d.variants, ∀ f ∈ v.2.fields, ∀ r ∈ tyRoots f.ty, r = .abs := by
  intro d hd v hv f hf r hr
  obtain ⟨A, ident, mode, -, -, -, rfl⟩ := mem_exposed h hd
  simp only [modeDef, List.mem_map] at hv
  obtain ⟨w, hw, rfl⟩ := hv
  cases mode <;> simp only [modeFields, List.mem_map] at hf <;> obtain ⟨g, hg, rfl⟩ := hf <;>
    simp only [projField, projRefField, projOwnField] at hr <;> split at hr <;> simpa [tyRoots] using hr

example : ∃ E d v f, parseDerive (.enum_ demoEnum) = .ok E ∧ d ∈ typeDefs E.exposed ∧ v ∈ d.variants ∧
    f ∈ v.2.fields ∧ tyRoots f.ty = [.abs] :=
  ⟨_, _, _, _, rfl, List.mem_cons_self, List.mem_cons_self, List.mem_cons_self, rfl⟩

/-! ## C19: the impl headers -/

theorem implGenerics_eq {g : Generics} (h : LifetimesFirst g.params) :
    g.implGenerics = g.params.map GParam.noDefault := by
  have := lifetimesFirst_defParams h
  unfold Generics.implGenerics
  rw [show List.filter GParam.isLifetime g.params ++ List.filter (fun p => !p.isLifetime) g.params = g.defParams from rfl,
    this]

/-- **C19** There is exactly one inherent impl. It is for the annotated type applied to its own
parameters, is generic over exactly these parameters, and has exactly its where-clause. So the methods
exist for every instantiation of the type. -/
theorem C19_impl_header (item : Item) (E : Expansion) (h : parseDerive item = .ok E)
    (hlf : LifetimesFirst (itemGenerics item).params) (ident : String) (hid : itemName item = some ident) :
    ∃ fns, (allItems E).filter GItem.isInherent =
      [.inherent ((itemParams item).map withoutDefault) ident ((itemParams item).map ownArg)
        (itemPreds item) fns] := by
  rw [withoutDefault_eq, ownArg_eq]
  have hfil : ∀ l : List GItem, (∀ x ∈ l, x.isInherent = false) → l.filter GItem.isInherent = [] := by
    intro l hl
    rw [List.filter_eq_nil_iff]
    intro x hx; rw [hl x hx]; simp
  have hty : (preGenerics item).tyGenerics = (itemParams item).map GParam.arg := by
    rw [← defParams_args, preGenerics_params item hlf]
  have himp : (preGenerics item).implGenerics = (itemParams item).map GParam.noDefault :=
    implGenerics_eq (lifetimesFirst_visit hlf)
  have hpr := preGenerics_preds item
  cases item with
  | other a => simp [parseDerive] at h
  | struct_ s =>
    obtain rfl := Option.some.inj hid
    obtain ⟨A, h1, -, -, -, -, -, rfl⟩ := (deriveStruct_iff s E).1 h
    rw [← hty, ← himp, ← hpr]
    refine ⟨implFns (s.ctx A) (projMutBodyS (s.ctx A) s.pre.fields) (projRefBodyS (s.ctx A) s.pre.fields)
      (projOwnBodyS (s.ctx A) s.pre.fields), ?_⟩
    · simp only [allItems, structExpansion, List.filter_append]
      rw [hfil _ (unpin_not_inherent _ _), hfil _ (drop_not_inherent _)]
      have e1 : (projItemS (s.ctx A) s.pre.fields).isInherent = false := rfl
      have e2 : (refItemS (s.ctx A) s.pre.fields).isInherent = false := rfl
      have e3 : (ownItemS (s.ctx A) s.pre.fields).isInherent = false := rfl
      have e4 : (assertItem (s.ctx A) s.pre.fields).isInherent = false := rfl
      have e5 : (implItemS (s.ctx A) s.pre.fields).isInherent = true := rfl
      have hi : ∀ (c : Bool) (x y : List GItem), (if c then x else y).filter GItem.isInherent =
        if c then x.filter GItem.isInherent else y.filter GItem.isInherent := by intro c x y; cases c <;> rfl
      simp only [hi, List.filter_cons, List.filter_nil, e1, e2, e3, e4, e5, if_true, Bool.false_eq_true, if_false, ite_self,
        List.nil_append, List.append_nil]
      rfl
  | enum_ s =>
    obtain rfl := Option.some.inj hid
    obtain ⟨A, h1, -, -, -, -, -, -, rfl⟩ := (deriveEnum_iff s E).1 h
    rw [← hty, ← himp, ← hpr]
    refine ⟨implFns (s.ctx A) (projMutBodyE (s.ctx A) s.pre.variants) (projRefBodyE (s.ctx A) s.pre.variants)
      (projOwnBodyE (s.ctx A) s.pre.variants), ?_⟩
    · simp only [allItems, enumExpansion, List.filter_append]
      rw [hfil _ (unpin_not_inherent _ _), hfil _ (drop_not_inherent _)]
      have e1 : (projItemE (s.ctx A) s.pre.variants).isInherent = false := rfl
      have e2 : (refItemE (s.ctx A) s.pre.variants).isInherent = false := rfl
      have e3 : (ownItemE (s.ctx A) s.pre.variants).isInherent = false := rfl
      have e5 : (implItemE (s.ctx A) s.pre.variants).isInherent = true := rfl
      have hi : ∀ (c : Bool) (x y : List GItem), (if c then x else y).filter GItem.isInherent =
        if c then x.filter GItem.isInherent else y.filter GItem.isInherent := by intro c x y; cases c <;> rfl
      simp only [hi, List.filter_cons, List.filter_nil, e1, e2, e3, e5, if_true, Bool.false_eq_true, if_false, ite_self,
        List.nil_append, List.append_nil]
      rfl

end PinProject

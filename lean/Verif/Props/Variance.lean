import Verif.Spec.Variance
import Verif.Props.AutoTraits
import Verif.Props.WellFormed
/-!
# Variance of the projections: C67
-/
namespace PinProject
open Spec

theorem modeDef_occurs {item : Item} {A : Args} {mode : Mode} {vis : Vis} {ident : String} {g : Generics}
    (V : Variances) (x : String) (s : Bool) :
    OccursIn V (modeDef A mode vis ident g (preVariants item)) x s ↔
      ∃ f ∈ itemFields item, Occurs V (modeFieldTy mode (determineLifetimeName "'pin" g) (f.visit (itemSelfTy item))) x s := by
  have h := modeDef_fields (item := item) (A := A) (mode := mode) (vis := vis) (ident := ident) (g := g)
    (fun t => ¬ Occurs V t x s)
  apply Classical.byContradiction
  intro hn
  apply hn
  constructor
  · intro ⟨v, hv, f, hf, ho⟩
    apply Classical.byContradiction
    intro hc
    exact h.2 (fun f hf ho => hc ⟨f, hf, ho⟩) v hv f hf ho
  · intro ⟨f, hf, ho⟩
    apply Classical.byContradiction
    intro hc
    exact h.1 (fun v hv f hf ho => hc ⟨v, hv, f, hf, ho⟩) f hf ho

theorem source_occurs {item : Item} (V : Variances) (x : String) (s : Bool) :
    OccursIn V (sourceDef item) x s ↔ ∃ f ∈ itemFields item, V (resolved item f.ty) x s := by
  constructor
  · rintro ⟨v, hv, f, hf, ho⟩
    obtain ⟨w, hw, rfl⟩ := List.mem_map.1 hv
    obtain ⟨f', hf', rfl⟩ := List.mem_map.1 hf
    refine ⟨f', ?_, ho⟩
    cases item with
    | struct_ s => simp [itemVariants] at hw; subst hw; exact hf'
    | enum_ e =>
      obtain ⟨w', hw', rfl⟩ := List.mem_map.1 hw
      exact List.mem_flatMap.2 ⟨w', hw', hf'⟩
    | other a => simp [itemVariants] at hw
  · rintro ⟨f, hf, ho⟩
    obtain ⟨v, hv, hf⟩ := mem_variant_field hf
    exact ⟨_, List.mem_map_of_mem hv, _, List.mem_map_of_mem hf, ho⟩

/-- The result type of a projection, its field types, and its positions. -/
theorem method_occurs (item : Item) (E : Expansion) (h : parseDerive item = .ok E) (mode : Mode) (fn : GFn)
    (hfn : method E mode.fn = some fn) :
    ∃ d ∈ typeDefs (allItems E), ∃ gas, fn.ret = .adt d.name gas ∧ ∀ V x s, OccursIn V d x s ↔
      ∃ f ∈ itemFields item, (fn.ltParam = some x ∧ s = true) ∨ V (resolved item f.ty) x s ∨
        (mode = .proj ∧ V (resolved item f.ty) x (!s)) := by
  obtain ⟨A, ident, h1, h2, h3, h4, h5, h6⟩ := method_def item E h mode fn hfn
  refine ⟨_, typeDefs_all h3, _, h4, fun V x s => ?_⟩
  rw [modeDef_occurs, h6]
  apply exists_congr; intro f
  apply and_congr_right; intro hf
  have hfl : (f.visit (itemSelfTy item)).ty = resolved item f.ty := rfl
  cases mode <;> cases hpin : Pinned (f.visit (itemSelfTy item)) <;>
    simp [modeFieldTy, projField, projRefField, projOwnField, hpin, Occurs, hfl]

/-- The new lifetime is no parameter of the definition. -/
theorem new_lifetime {item : Item} {E : Expansion} (h : parseDerive item = .ok E) {U : Uses} (hs : DefWF U (sourceDef item))
    {mode : Mode} {fn : GFn} (hfn : method E mode.fn = some fn) {x : String} (hx : x ∈ (itemParams item).map GParam.name) :
    fn.ltParam ≠ some x := by
  obtain ⟨A, ident, h1, h2, h3, h4, h5, h6⟩ := method_def item E h mode fn hfn
  intro hl
  rw [h6] at hl
  split at hl
  · cases hl
  · have := (params_fresh hs.params).distinct
    rw [List.map_cons, List.nodup_cons] at this
    exact this.1 ((Option.some.inj hl : freshLt item = x) ▸ hx)

/-- **C67** The results of `project_ref` and `project_replace` have the variance of the annotated type in each of its
parameters; the result of `project` is invariant in each parameter that occurs in a field. This holds for every
well-formed definition, whatever the variance of the types in it. -/
theorem C67_variance (item : Item) (E : Expansion) (h : parseDerive item = .ok E) (U : Uses)
    (hs : DefWF U (sourceDef item)) (mode : Mode) (fn : GFn) (hfn : method E mode.fn = some fn) :
    ∃ d ∈ typeDefs (allItems E), ∃ gas, fn.ret = .adt d.name gas ∧
      ∀ V x, x ∈ (sourceDef item).params.map GParam.name →
        match mode with
        | .proj =>
            (Covariant V d x ↔ ∀ s, ¬ OccursIn V (sourceDef item) x s) ∧
            (Contravariant V d x ↔ ∀ s, ¬ OccursIn V (sourceDef item) x s)
        | _ => (Covariant V d x ↔ Covariant V (sourceDef item) x) ∧
            (Contravariant V d x ↔ Contravariant V (sourceDef item) x) := by
  obtain ⟨d, hd, gas, hr, ho⟩ := method_occurs item E h mode fn hfn
  refine ⟨d, hd, gas, hr, fun V x hx => ?_⟩
  have hx : fn.ltParam ≠ some x := new_lifetime h hs hfn hx
  have hso := source_occurs (item := item) V x
  cases mode with
  | proj =>
    have key : ∀ s, OccursIn V d x s ↔ ∃ s', OccursIn V (sourceDef item) x s' := by
      intro s
      rw [ho]
      constructor
      · rintro ⟨f, hf, ⟨hl, -⟩ | hv | ⟨-, hv⟩⟩
        · exact (hx hl).elim
        · exact ⟨s, (hso s).2 ⟨f, hf, hv⟩⟩
        · exact ⟨!s, (hso _).2 ⟨f, hf, hv⟩⟩
      · rintro ⟨s', hv⟩
        obtain ⟨f, hf, hv⟩ := (hso s').1 hv
        refine ⟨f, hf, .inr ?_⟩
        cases s <;> cases s' <;> simp [hv]
    simp only [Covariant, Contravariant, key, not_exists, and_self]
  | projRef => simp [Covariant, Contravariant, ho, hso, hx]
  | replace => simp [Covariant, Contravariant, ho, hso, hx]

/-- **C67** The result of `project` or `project_ref` is covariant in its new lifetime, the one of the borrow, and only
covariant: the projection can be used where one with a shorter borrow is expected, and not where a longer one is. -/
theorem C67_borrow (item : Item) (E : Expansion) (h : parseDerive item = .ok E) (U : Uses)
    (hs : DefWF U (sourceDef item)) (mode : Mode) (fn : GFn) (hfn : method E mode.fn = some fn) (lt : String)
    (hlt : fn.ltParam = some lt) :
    ∃ d ∈ typeDefs (allItems E), ∃ gas, fn.ret = .adt d.name gas ∧ ∀ V : Variances, (∀ n x s, V n x s → U n x) →
        Covariant V d lt ∧ ¬ Contravariant V d lt := by
  obtain ⟨d, hd, gas, hr, ho⟩ := method_occurs item E h mode fn hfn
  refine ⟨d, hd, gas, hr, fun V hV => ?_⟩
  have hno : ∀ f ∈ itemFields item, ∀ s, ¬ V (resolved item f.ty) lt s := by
    intro f hf s hv
    obtain ⟨v, hv', hf'⟩ := mem_variant_field hf
    exact new_lifetime h hs hfn (hs.fields _ (List.mem_map_of_mem hv') _ (List.mem_map_of_mem hf') lt (hV _ _ _ hv)) hlt
  constructor
  · intro hc
    obtain ⟨f, hf, ⟨-, h⟩ | hv | ⟨-, hv⟩⟩ := (ho _ _ _).1 hc
    · cases h
    · exact hno f hf _ hv
    · exact hno f hf _ hv
  · intro hc
    obtain ⟨v, hv, f, hf⟩ := has_field h
    have hf : f ∈ itemFields item := by
      cases item with
      | struct_ s => simp [itemVariants] at hv; subst hv; exact hf
      | enum_ e =>
        obtain ⟨w', hw', rfl⟩ := List.mem_map.1 hv
        exact List.mem_flatMap.2 ⟨w', hw', hf⟩
      | other a => simp [itemVariants] at hv
    exact hc ((ho _ _ _).2 ⟨f, hf, .inl ⟨hlt, rfl⟩⟩)

/-- C67 for the example `struct W<'a: 'static, T: Tr = u8, const N: usize> where T: Copy { #[pin] x: T, y: &'a u8, z: [u8; N] }`,
in which each parameter occurs in a covariant position: the result of `project_ref` is covariant in `'a`, the result of
`project` is not, and it is covariant in the lifetime of the borrow. -/
example : ∃ E, parseDerive (.struct_ demoWF) = .ok E ∧
    (∃ d ∈ typeDefs (allItems E), d.name = "__WProjectionRef" ∧ Covariant (fun n x s => s = true ∧ demoUses n x) d "'a") ∧
    (∃ d ∈ typeDefs (allItems E), d.name = "__WProjection" ∧ ¬ Covariant (fun n x s => s = true ∧ demoUses n x) d "'a") ∧
    ∃ d ∈ typeDefs (allItems E), d.name = "__WProjection" ∧ ∃ fn lt, method E "project" = some fn ∧
      fn.ltParam = some lt ∧ Covariant (fun n x s => s = true ∧ demoUses n x) d lt := by
  obtain ⟨E, hE, ⟨f1, m1, g1, r1, lt, l1⟩, ⟨f2, m2, g2, r2⟩⟩ : ∃ E, parseDerive (.struct_ demoWF) = .ok E ∧
      (∃ fn, method E Mode.proj.fn = some fn ∧ ∃ gas, fn.ret = .adt "__WProjection" gas ∧ ∃ lt, fn.ltParam = some lt) ∧
      (∃ fn, method E Mode.projRef.fn = some fn ∧ ∃ gas, fn.ret = .adt "__WProjectionRef" gas) :=
    ⟨_, rfl, ⟨_, rfl, _, rfl, _, rfl⟩, ⟨_, rfl, _, rfl⟩⟩
  refine ⟨E, hE, ?_, ?_, ?_⟩
  · obtain ⟨d, hd, gas, hr, hv⟩ := C67_variance _ E hE demoUses demoWF_wf .projRef f2 m2
    rw [r2] at hr
    injection hr with hr _
    refine ⟨d, hd, hr.symm, (hv _ "'a" (by decide)).1.2 ?_⟩
    rintro ⟨v, hv, f, hf, h⟩
    rw [List.mem_singleton.1 hv] at hf
    rcases hf with _ | ⟨_, _ | ⟨_, _ | ⟨_, hf⟩⟩⟩
    · cases h.1
    · cases h.1
    · cases h.1
    · cases hf
  · obtain ⟨d, hd, gas, hr, hv⟩ := C67_variance _ E hE demoUses demoWF_wf .proj f1 m1
    rw [r1] at hr
    injection hr with hr _
    refine ⟨d, hd, hr.symm, fun hc => (hv _ "'a" (by decide)).1.1 hc true ?_⟩
    exact ⟨_, .head _, _, .tail _ (.head _), rfl, .inr (.inl ⟨rfl, rfl⟩)⟩
  · obtain ⟨d, hd, gas, hr, hv⟩ := C67_borrow _ E hE demoUses demoWF_wf .proj f1 m1 _ l1
    rw [r1] at hr
    injection hr with hr _
    exact ⟨d, hd, hr.symm, f1, lt, m1, l1, (hv _ (fun n x s h => h.2)).1⟩

end PinProject

import Verif.Props.Spans
/-!
# C73: lints
-/
namespace PinProject
open Spec

/-- **C73** The attributes of the expansion of `#[pin_project]` silence no lint outside a fixed list; they forbid
references to packed fields, ask for inlining and hide documentation, and there are no others. -/
theorem C73_attributes (item : Item) (hwf : ItemWF item) (toks : List ETok) (h : deriveTokens item = .ok toks)
    (name : String) (args : List String) (s : Span) (ha : .attr name args s ∈ toks) : GeneratedAttr name args := by
  obtain ⟨cx, E, -, h2, ht⟩ := deriveTokens_inv h
  rw [ht] at ha
  exact Emit.s_expansion cx (expansion_ok hwf h2) (expansion_lints h2) _ ha

/-- **C73** Around the user's code in `#[pinned_drop]`, only three lints are silenced. -/
theorem C73_pinned_drop (args : List TT) (item : ItemImpl) (out : PinnedDropImpl)
    (h : pinnedDropAttribute args item = .expanded out) (name : String) (as : List String) (s : Span)
    (ha : .attr name as s ∈ Emit.pinnedDrop out) : name = "allow" ∧ as = dropLints := by
  rcases attribute_cases args item with ⟨neg, m, q, p, b, sh, ty, ⟨hc, -⟩, hty, hr, hpin, heq⟩ | ⟨_, h2⟩
  · rw [heq] at h
    obtain rfl := PinnedDropOut.expanded.inj h
    exact Emit.s_pinnedDrop _ m.attrs m.vis { m.sig with isUnsafe := true, inputs := [.receiver false sh ty] } m.innerAttrs
      (dropInner ⟨q, p, item.selfToks⟩ item.generics m b ty) rfl rfl rfl _ ha
  · exact absurd h (h2 out)

/-- What the lints of the projected types contain. -/
theorem projLints (cx : Ctx) :
    (∀ l ∈ typeLints ++ methodTypeLints (cx.kind = .enum_) "project", l ∈ (projAllowedLints cx).1) ∧
    (∀ l ∈ typeLints ++ methodTypeLints (cx.kind = .enum_) "project_ref", l ∈ (projAllowedLints cx).2.1) ∧
    (∀ l ∈ typeLints ++ methodTypeLints (cx.kind = .enum_) "project_replace", l ∈ (projAllowedLints cx).2.2) ∧
    (cx.project = true → ∀ l ∈ formLints ++ typeLints, l ∈ (projAllowedLints cx).1) ∧
    (cx.projectRef = true → ∀ l ∈ formLints ++ typeLints, l ∈ (projAllowedLints cx).2.1) ∧
    (cx.projectReplace.ident.isSome = true → ∀ l ∈ formLints ++ typeLints, l ∈ (projAllowedLints cx).2.2) := by
  have key : ∀ (X Y : List String), (∀ l ∈ formLints ++ typeLints,
      l ∈ ["dead_code"] ++ globalAllowedLints ++ X ++ ["clippy::missing_docs_in_private_items"] ++ Y) := by
    intro X Y l hl
    have : l ∈ ["dead_code"] ++ globalAllowedLints ++ ["clippy::missing_docs_in_private_items"] := by
      revert l; decide
    simp only [List.mem_append] at this ⊢
    grind
  refine ⟨?_, ?_, ?_, ?_, ?_, ?_⟩
  · intro l hl
    simp only [typeLints, methodTypeLints, List.mem_append, List.mem_cons, List.not_mem_nil, or_false] at hl
    simp only [projAllowedLints, List.mem_append, List.mem_cons, List.not_mem_nil, or_false]
    grind
  · intro l hl
    simp only [typeLints, methodTypeLints, List.mem_append, List.mem_cons, List.not_mem_nil, or_false] at hl
    simp only [projAllowedLints, List.mem_append, List.mem_cons, List.not_mem_nil, or_false]
    grind
  · intro l hl
    by_cases he : cx.kind = .enum_ <;>
      simp only [typeLints, methodTypeLints, he, decide_true, decide_false, List.mem_append, List.mem_cons,
        List.not_mem_nil, or_false, if_true, if_false, Bool.false_eq_true] at hl <;>
      simp only [projAllowedLints, he, List.mem_append, List.mem_cons, List.not_mem_nil, or_false, if_true, if_false] <;>
      grind
  · intro hp l hl
    have := key [] ["clippy::mut_mut"] l hl
    simpa [projAllowedLints, hp] using this
  · intro hp l hl
    have := key [] ["clippy::ref_option_ref"] l hl
    simpa [projAllowedLints, hp] using this
  · intro hp l hl
    have := key (if cx.kind = .enum_ then ["variant_size_differences", "clippy::large_enum_variant"] else []) [] l hl
    simpa [projAllowedLints, hp] using this

/-- **C73** All generated items are under attributes that silence the lints about the form of code. Those outside of
the unnamed constant are projected types, also under ones that silence the lints about types. -/
theorem C73_covered (item : Item) (toks : List ETok) (h : deriveTokens item = .ok toks) : Covered toks := by
  obtain ⟨cx, E, h1, h2, ht⟩ := deriveTokens_inv h
  have hexp : ∀ i ∈ E.exposed, ∃ lints name, TypeUnder i name lints ∧ ∀ l ∈ formLints ++ typeLints, l ∈ lints := by
    intro i hi
    cases item with
    | other a => cases h2
    | struct_ s =>
      obtain ⟨A, -, -, -, -, -, -, rfl⟩ := (deriveStruct_iff s E).1 h2
      simp only [structExpansion, List.mem_append, List.mem_ite_nil_right, List.mem_singleton] at hi
      obtain ⟨-, -, -, k1, k2, k3⟩ := projLints (s.ctx A)
      rcases hi with (⟨hc, rfl⟩ | ⟨hc, rfl⟩) | ⟨hc, _, rfl⟩
      · exact ⟨_, _, .struct_, k1 hc⟩
      · exact ⟨_, _, .struct_, k2 hc⟩
      · exact ⟨_, _, .struct_, k3 hc⟩
    | enum_ s =>
      obtain ⟨A, -, -, -, -, -, -, -, rfl⟩ := (deriveEnum_iff s E).1 h2
      simp only [enumExpansion, List.mem_append, List.mem_ite_nil_right, List.mem_singleton] at hi
      obtain ⟨-, -, -, k1, k2, k3⟩ := projLints (s.ctx A)
      rcases hi with (⟨hc, rfl⟩ | ⟨hc, rfl⟩) | ⟨hc, rfl⟩
      · exact ⟨_, _, .enum_, k1 hc⟩
      · exact ⟨_, _, .enum_, k2 hc⟩
      · exact ⟨_, _, .enum_, k3 hc⟩
  clear h h1 h2
  refine ⟨E.exposed.map (Emit.item cx.lifetime cx.unpinImpl false), Emit.constLints, .site, ?_, ?_, by decide, ?_⟩
  · exact Emit.attr ⟨cx.lifetime, .site⟩ "allow" ["unused_extern_crates"] ++
      (Emit.W ⟨cx.lifetime, .site⟩ "extern" ++ (Emit.W ⟨cx.lifetime, .site⟩ "crate" ++
      (Emit.W ⟨cx.lifetime, .site⟩ "pin_project" ++ (Emit.W ⟨cx.lifetime, .site⟩ "as" ++
      (Emit.W ⟨cx.lifetime, .site⟩ "_pin_project" ++ (Emit.P ⟨cx.lifetime, .site⟩ ";" ++
      E.inScope.flatMap (fun i => Emit.item cx.lifetime cx.unpinImpl (Emit.isHelper i) i)))))))
  · rw [ht]
    unfold Emit.expansion
    generalize E.inScope.flatMap (fun i => Emit.item cx.lifetime cx.unpinImpl (Emit.isHelper i) i) = F
    rw [List.flatMap_def]
    generalize (E.exposed.map (Emit.item cx.lifetime cx.unpinImpl false)).flatten = G
    simp only [List.append_assoc, Emit.attr, Emit.W, Emit.P, List.cons_append, List.nil_append]
  · intro t htm
    obtain ⟨i, hi, rfl⟩ := List.mem_map.1 htm
    obtain ⟨lints, name, hd, hl⟩ := hexp i hi
    cases hd <;> exact ⟨_, .site, _, rfl, hl⟩

/-- **C73** A generated type is a projected type, with the lints about types silenced, or the helper struct for
`Unpin`. -/
theorem C73_types (item : Item) (E : Expansion) (h : parseDerive item = .ok E) (i : GItem) (hi : i ∈ allItems E)
    (name : String) (lints : List String) (hd : TypeUnder i name lints) :
    (∀ l ∈ typeLints, l ∈ lints) ∨ lints = ["missing_debug_implementations", "unnameable_types"] := by
  have drop : ∀ cx, i ∈ makeDropImpl cx → False := by
    intro cx hi
    unfold makeDropImpl at hi
    split at hi <;> simp only [List.mem_cons, List.not_mem_nil, or_false] at hi
    · subst hi; cases hd
    · rcases hi with rfl | rfl | rfl | rfl <;> cases hd
  have unpin : ∀ cx tys, i ∈ makeUnpinImpl cx tys → lints = ["missing_debug_implementations", "unnameable_types"] := by
    intro cx tys hi
    unfold makeUnpinImpl at hi
    split at hi <;> simp only [List.mem_cons, List.not_mem_nil, or_false] at hi
    · subst hi; cases hd
    · rcases hi with rfl | rfl <;> cases hd
    · rcases hi with rfl | rfl | rfl <;> cases hd
      rfl
  have k := fun cx => projLints cx
  have k1 : ∀ cx, ∀ l ∈ typeLints, l ∈ (projAllowedLints cx).1 := fun cx l hl => (k cx).1 l (List.mem_append_left _ hl)
  have k2 : ∀ cx, ∀ l ∈ typeLints, l ∈ (projAllowedLints cx).2.1 :=
    fun cx l hl => (k cx).2.1 l (List.mem_append_left _ hl)
  have k3 : ∀ cx, ∀ l ∈ typeLints, l ∈ (projAllowedLints cx).2.2 :=
    fun cx l hl => (k cx).2.2.1 l (List.mem_append_left _ hl)
  cases item with
  | other a => cases h
  | struct_ s =>
    obtain ⟨A, -, -, -, -, -, -, rfl⟩ := (deriveStruct_iff s E).1 h
    simp only [allItems, structExpansion, List.mem_append, List.mem_ite_nil_left, List.mem_ite_nil_right,
      List.mem_singleton] at hi
    rcases hi with ((⟨_, rfl⟩ | ⟨_, rfl⟩) | ⟨_, _, rfl⟩) |
      (((((⟨_, rfl⟩ | ⟨_, rfl⟩) | ⟨_, _, rfl⟩) | rfl) | rfl) | hi) | hi
    all_goals first
      | exact .inr (unpin _ _ hi)
      | exact absurd (drop _ hi) id
      | (cases hd; done)
      | (cases hd; first | exact .inl (k1 _) | exact .inl (k2 _) | exact .inl (k3 _))
  | enum_ s =>
    obtain ⟨A, -, -, -, -, -, -, -, rfl⟩ := (deriveEnum_iff s E).1 h
    simp only [allItems, enumExpansion, List.mem_append, List.mem_ite_nil_right, List.mem_singleton] at hi
    rcases hi with ((⟨_, rfl⟩ | ⟨_, rfl⟩) | ⟨_, rfl⟩) | (rfl | hi) | hi
    all_goals first
      | exact .inr (unpin _ _ hi)
      | exact absurd (drop _ hi) id
      | (cases hd; done)
      | (cases hd; first | exact .inl (k1 _) | exact .inl (k2 _) | exact .inl (k3 _))

/-- Is the item an enum? -/
def isEnumItem : Item → Bool
  | .enum_ _ => true
  | _ => false

/-- **C73** The type that a generated method returns is defined with the lints silenced that the fields of the user
may trigger. -/
theorem C73_method_types (item : Item) (E : Expansion) (h : parseDerive item = .ok E) (mode : Mode) (f : GFn)
    (hf : method E mode.fn = some f) :
    ∃ i ∈ allItems E, ∃ name lints args, TypeUnder i name lints ∧ f.ret = .adt name args ∧
      ∀ l ∈ typeLints ++ methodTypeLints (isEnumItem item) mode.fn, l ∈ lints := by
  cases item with
  | other a => cases h
  | struct_ s =>
    obtain ⟨A, -, -, -, -, -, -, rfl⟩ := (deriveStruct_iff s E).1 h
    have hk : (s.ctx A).kind = .struct_ := rfl
    obtain ⟨k1, k2, k3, -⟩ := projLints (s.ctx A)
    rw [method_struct] at hf
    have m1 : projItemS (s.ctx A) s.pre.fields ∈ allItems (structExpansion (s.ctx A) s.pre.fields) := by
      cases hc : (s.ctx A).project <;> simp [allItems, structExpansion, hc]
    have m2 : refItemS (s.ctx A) s.pre.fields ∈ allItems (structExpansion (s.ctx A) s.pre.fields) := by
      cases hc : (s.ctx A).projectRef <;> simp [allItems, structExpansion, hc]
    have m3 : (s.ctx A).projectReplace.isSome = true →
        ownItemS (s.ctx A) s.pre.fields ∈ allItems (structExpansion (s.ctx A) s.pre.fields) := by
      intro hs
      cases hc : (s.ctx A).projectReplace.ident.isSome <;> simp [allItems, structExpansion, hc, hs]
    cases mode with
    | proj =>
      rw [Mode.fn, implFns_project] at hf
      obtain rfl : projectFn _ _ = f := by simpa [hk] using hf
      exact ⟨_, m1, _, _, _, .struct_, rfl, k1⟩
    | projRef =>
      rw [Mode.fn, implFns_projectRef] at hf
      obtain rfl : projectRefFn _ _ = f := by simpa [hk] using hf
      exact ⟨_, m2, _, _, _, .struct_, rfl, k2⟩
    | replace =>
      rw [Mode.fn, implFns_projectReplace] at hf
      have hs : (s.ctx A).projectReplace.isSome = true := by
        cases hc : (s.ctx A).projectReplace.isSome <;> simp [hc] at hf ⊢
      obtain rfl : projectReplaceFn _ _ = f := by simpa [hk, hs] using hf
      exact ⟨_, m3 hs, _, _, _, .struct_, rfl, k3⟩
  | enum_ s =>
    obtain ⟨A, -, -, -, -, -, -, -, rfl⟩ := (deriveEnum_iff s E).1 h
    have hk : (s.ctx A).kind = .enum_ := rfl
    obtain ⟨k1, k2, k3, -⟩ := projLints (s.ctx A)
    rw [method_enum] at hf
    cases mode with
    | proj =>
      rw [Mode.fn, implFns_project] at hf
      cases hc : (s.ctx A).project <;> simp [hk, hc] at hf
      subst hf
      refine ⟨projItemE (s.ctx A) s.pre.variants, ?_, _, _, _, .enum_, rfl, k1⟩
      simp [allItems, enumExpansion, hc]
    | projRef =>
      rw [Mode.fn, implFns_projectRef] at hf
      cases hc : (s.ctx A).projectRef <;> simp [hk, hc] at hf
      subst hf
      refine ⟨refItemE (s.ctx A) s.pre.variants, ?_, _, _, _, .enum_, rfl, k2⟩
      simp [allItems, enumExpansion, hc]
    | replace =>
      rw [Mode.fn, implFns_projectReplace] at hf
      cases hc : (s.ctx A).projectReplace.ident <;> simp [hk, hc] at hf
      obtain ⟨-, rfl⟩ := hf
      refine ⟨ownItemE (s.ctx A) s.pre.variants, ?_, _, _, _, .enum_, rfl, k3⟩
      simp [allItems, enumExpansion, hc]

/-- **C73** The generated methods may be unused and are inlined. -/
theorem C73_methods (item : Item) (name : String) (ts : List ETok) (h : IsFunction item name ts)
    (hn : name ∈ ["project", "project_ref", "project_replace"]) :
    ∃ s s' rest, ts = .attr "allow" ["dead_code"] s :: .attr "inline" [] s' :: rest := by
  obtain ⟨cx, E, hcx, hE, i, hi, hf⟩ := h
  have hk := Emit.known hE i hi
  cases i with
  | inherent ps n as ws fns =>
    obtain ⟨f, hg, he⟩ := List.mem_map.1 hf
    obtain ⟨-, rfl⟩ := Prod.mk.inj he
    obtain ⟨cx', b, rfl | rfl | rfl⟩ := hk f hg <;> exact ⟨_, _, _, rfl⟩
  | traitImpl hidden isUnsafe ps tr n as ws fns =>
    obtain ⟨f, hg, he⟩ := List.mem_map.1 hf
    obtain ⟨rfl, -⟩ := Prod.mk.inj he
    rcases hk f hg with rfl | rfl <;> exact absurd hn (by decide)
  | assertNotPacked ps n as ws refs =>
    obtain ⟨rfl, -⟩ := Prod.mk.inj (List.mem_singleton.1 hf)
    exact absurd hn (by decide)
  | _ => cases hf

/-- **C73** For a struct, references to packed fields are forbidden in a function that takes references to fields. -/
theorem C73_packed (s : ItemStruct) (toks : List ETok) (h : deriveTokens (.struct_ s) = .ok toks) :
    ∃ ts s' rest, IsFunction (.struct_ s) "__assert_not_repr_packed" ts ∧
      ts = .attr "forbid" ["unaligned_references", "safe_packed_borrows"] s' :: rest := by
  obtain ⟨cx, E, h1, h2, -⟩ := deriveTokens_inv h
  have h2' := h2
  obtain ⟨A, -, -, -, -, -, -, rfl⟩ := (deriveStruct_iff s E).1 h2
  refine ⟨_, .site, _, ⟨cx, _, h1, h2', assertItem (s.ctx A) s.pre.fields, ?_, List.mem_singleton.2 rfl⟩, rfl⟩
  simp [structExpansion]

/-! ## Examples -/

/-- Lints about `unsafe`, about missing documentation of public items and about unused code of the user are never
silenced. -/
example : ∀ l ∈ ["unsafe_code", "unsafe_op_in_unsafe_fn", "missing_docs", "unused_variables", "unused_must_use",
    "warnings", "clippy::all", "clippy::undocumented_unsafe_blocks"], l ∉ silenced ++ dropLints := by decide

example : ∃ toks, deriveTokens (.enum_ demoEnum) = .ok toks ∧ Covered toks := ⟨_, rfl, C73_covered (.enum_ demoEnum) _ rfl⟩

example : ∃ E f, parseDerive (.struct_ demoReplace) = .ok E ∧ method E "project_replace" = some f := ⟨_, _, rfl, rfl⟩

example : ∃ ts, IsFunction (.struct_ demoReplace) "project_replace" ts :=
  ⟨_, _, _, rfl, rfl, _, List.mem_append_right _ (.tail _ (.tail _ (.tail _ (.head _)))),
    .tail _ (.tail _ (.head _))⟩

/-- An attribute that does not belong. -/
example : ¬ GeneratedAttr "allow" ["unsafe_code"] := by
  rintro (⟨-, h⟩ | ⟨h, -⟩ | ⟨h, -⟩ | ⟨h, -⟩)
  · exact absurd (h "unsafe_code" (.head _)) (by decide)
  all_goals exact absurd h (by decide)

end PinProject

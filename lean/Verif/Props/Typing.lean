import Verif.Spec.Typing
import Verif.Props.Headers
import Verif.Props.Drop
/-!
# The generated functions type check: C52
-/
namespace PinProject
open Spec

/-! ## Using variables -/

theorem use_of_look {V : Values} {Γ : Locals} {x : String} {t : LTy} (h : Γ.lookup x = some (some t)) :
    ∃ Γ', Use V Γ x t Γ' ∧ ∀ y, y ≠ x → Γ'.lookup y = Γ.lookup y := by
  induction Γ with
  | nil => simp at h
  | cons e Γ ih =>
    obtain ⟨y, s⟩ := e
    by_cases hy : x = y
    · subst hy
      simp only [List.lookup_cons, beq_self_eq_true, Option.some.injEq] at h
      subst h
      refine ⟨_, .move, fun z hz => ?_⟩
      have : (z == x) = false := by simpa using hz
      simp [List.lookup_cons, this]
    · have hb : (x == y) = false := by simpa using hy
      rw [List.lookup_cons, hb] at h
      obtain ⟨Γ', h1, h2⟩ := ih h
      refine ⟨_, .older hy h1, fun z hz => ?_⟩
      rw [List.lookup_cons, List.lookup_cons, h2 z hz]

theorem look_of_use {V : Values} {Γ Γ' : Locals} {x : String} {t : LTy} (h : Use V Γ x t Γ') :
    (Γ.lookup x = some (some t) ∨ Γ.lookup x = none ∧ ∃ C, (x, C) ∈ V.consts ∧ V.same C t) ∧ ∀ y, y ≠ x → Γ'.lookup y = Γ.lookup y := by
  induction h with
  | @move x t Γ =>
    refine ⟨by simp, fun z hz => ?_⟩
    have : (z == x) = false := by simpa using hz
    simp [List.lookup_cons, this]
  | copy => exact ⟨by simp, fun _ _ => rfl⟩
  | const h1 h2 => exact ⟨.inr ⟨rfl, _, h1, h2⟩, fun _ _ => rfl⟩
  | @older x y s t Γ Γ' hy _ ih =>
    have hb : (x == y) = false := by simpa using hy
    refine ⟨by rw [List.lookup_cons, hb]; exact ih.1, fun z hz => ?_⟩
    rw [List.lookup_cons, List.lookup_cons, ih.2 z hz]

theorem use_append {V : Values} {inner Γ Γ' : Locals} {x : String} {t : LTy} (hx : ∀ p ∈ inner, p.1 ≠ x)
    (h : Use V Γ x t Γ') : Use V (inner ++ Γ) x t (inner ++ Γ') := by
  induction inner with
  | nil => exact h
  | cons p inner ih =>
    exact .older (fun he => hx p List.mem_cons_self he.symm) (ih (fun q hq => hx q (List.mem_cons_of_mem _ hq)))

/-! ## Patterns -/

/-- The variables of the generated pattern. -/
def patTys (lt : Option String) (b : Bool) (fs : List Field) : List (String × LTy) :=
  fs.zipIdx.map (fun x => (binding x.2 x.1, .ref lt b (.field x.1.ty)))

theorem patTys_keys (lt : Option String) (b : Bool) (fs : List Field) :
    (patTys lt b fs).map Prod.fst = bindings fs := by
  simp [patTys, bindings, List.map_map, Function.comp_def]

theorem patTys_look {fs : Fields} (hwf : fs.WF) (lt : Option String) (b : Bool) (Γ : Locals)
    {x : Field × Nat} (hx : x ∈ fs.list.zipIdx) :
    (asLocals (patTys lt b fs.list) ++ Γ).lookup (binding x.2 x.1) = some (some (.ref lt b (.field x.1.ty))) := by
  apply lookup_append_of_mem
  · have : (((patTys lt b fs.list).map (fun x => (x.1, some x.2))).map Prod.fst) = bindings fs.list := by
      rw [List.map_map]; exact patTys_keys lt b fs.list
    rw [asLocals, List.map_reverse, (List.reverse_perm _).nodup_iff, this]
    exact bindings_nodup hwf
  · rw [asLocals, List.mem_reverse]
    exact List.mem_map.2 ⟨_, List.mem_map.2 ⟨x, hx, rfl⟩, rfl⟩

theorem namesBind_free {V : Values} {lt : Option String} {b : Bool} {α : Type} (g : α → String) (T : α → LTy) (l : List α)
    (hv : ∀ x ∈ l, V.Free (g x)) :
    NamesBind V lt b (l.map (fun x => (g x, T x))) (l.map (fun x => (g x, .ref lt b (T x)))) := by
  induction l with
  | nil => exact .nil
  | cons x l ih =>
    exact .cons (bs := [(g x, .ref lt b (T x))]) (.var (hv x List.mem_cons_self)) (ih (fun y hy => hv y (List.mem_cons_of_mem _ hy)))

theorem patBinds {V : Values} {item : Item} {variant : Option String} {fs : Fields} (hv : (variant, fs) ∈ itemVariants item)
    (hwf : fs.WF) (lt : Option String) (b : Bool)
    (hfree : ∀ x ∈ bindings (fs.visit (itemSelfTy item)).list, V.Free x) :
    PatBinds V item ⟨variant, (fs.visit (itemSelfTy item)).delim, bindings (fs.visit (itemSelfTy item)).list⟩ lt b
      (patTys lt b (fs.visit (itemSelfTy item)).list) := by
  refine ⟨fs, (fs.visit (itemSelfTy item)).list.zipIdx.map (fun x => (binding x.2 x.1, .field x.1.ty)), hv,
    by rw [delim_visit, delim_eq], bindings_nodup (wf_visit _ _ hwf),
    by simp [bindings, List.map_map, Function.comp_def],
    namesBind_free (fun x => binding x.2 x.1) (fun x => .field x.1.ty) _
      (fun x hx => hfree _ (List.mem_map.2 ⟨x, hx, rfl⟩)), ?_⟩
  cases fs with
  | unit => rfl
  | named l =>
    refine ⟨fun f hf => ?_, fun x hx => ?_⟩
    · obtain ⟨i, hi, rfl⟩ := List.getElem_of_mem hf
      obtain ⟨n, hn⟩ := Option.isSome_iff_exists.1 (hwf.1 _ hf)
      refine ⟨n, ?_, hn⟩
      refine List.mem_map.2 ⟨(l[i].visit (itemSelfTy item), i), ?_, ?_⟩
      · rw [List.mem_zipIdx_iff_getElem?]
        simp [Fields.visit, Fields.list, hi]
      · simp [binding, Field.visit, hn]
    · obtain ⟨y, hy, rfl⟩ := List.mem_map.1 hx
      have hy' := List.fst_mem_of_mem_zipIdx hy
      obtain ⟨f, hf, hfe⟩ := List.mem_map.1 hy'
      obtain ⟨n, hn⟩ := Option.isSome_iff_exists.1 (hwf.1 _ hf)
      refine ⟨f, hf, ?_, ?_⟩
      · rw [← hfe]; simp [binding, Field.visit, hn]
      · rw [← hfe]; rfl
  | unnamed l =>
    have : ∀ (l : List Field) (i : Nat), ((l.map (Field.visit (itemSelfTy item))).zipIdx i).map
        (fun x => (LTy.field x.1.ty)) = l.map (fun f => .field (resolved item f.ty)) := by
      intro l
      induction l with
      | nil => intro i; rfl
      | cons f l ih =>
        intro i
        rw [List.map_cons, List.zipIdx_cons, List.map_cons, ih, List.map_cons]
        rfl
    simp only [List.map_map]
    exact this l 0

/-! ## Constructors -/

theorem entries_ty {K : Site} {d : Option Delim} {init : Field × Nat → GInit} {e : Field × Nat → FExpr}
    {t T : Field × Nat → LTy} {keep : Field × Nat → Bool} (fs : List Field) (i : Nat) (Γ : Locals)
    (hE : ∀ x ∈ fs.zipIdx i, Entry d x.2 (init x) (fieldLabel x.2 x.1) (e x))
    (hX : ∀ x ∈ fs.zipIdx i, ∀ Γ : Locals, Γ.lookup (binding x.2 x.1) = some (some (T x)) →
      ∃ Γ', FExprTy K Γ (e x) (t x) Γ' ∧ ∀ y, (keep x = true ∨ y ≠ binding x.2 x.1) → Γ'.lookup y = Γ.lookup y)
    (hn : ((fs.zipIdx i).map (fun x => binding x.2 x.1)).Nodup)
    (hL : ∀ x ∈ fs.zipIdx i, Γ.lookup (binding x.2 x.1) = some (some (T x))) :
    ∃ Γ', EntriesTy K d i Γ ((fs.zipIdx i).map init) ((fs.zipIdx i).map (fun x => (fieldLabel x.2 x.1, t x))) Γ' ∧
      ∀ y, (∀ x ∈ fs.zipIdx i, keep x = true ∨ y ≠ binding x.2 x.1) → Γ'.lookup y = Γ.lookup y := by
  induction fs generalizing i Γ with
  | nil => exact ⟨Γ, .nil, fun _ _ => rfl⟩
  | cons f fs ih =>
    rw [List.zipIdx_cons] at hE hX hn hL
    rw [List.map_cons, List.nodup_cons] at hn
    obtain ⟨Γ1, h1, h2⟩ := hX (f, i) List.mem_cons_self Γ (hL _ List.mem_cons_self)
    obtain ⟨Γ2, h3, h4⟩ := ih (i + 1) Γ1 (fun x hx => hE x (List.mem_cons_of_mem _ hx))
      (fun x hx => hX x (List.mem_cons_of_mem _ hx)) hn.2 (fun x hx => by
        rw [h2 _ (.inr ?_)]
        · exact hL x (List.mem_cons_of_mem _ hx)
        · intro he
          exact hn.1 (List.mem_map.2 ⟨x, hx, he⟩))
    refine ⟨Γ2, ?_, fun y hy => ?_⟩
    · rw [List.zipIdx_cons]
      exact .cons (hE _ List.mem_cons_self) h1 h3
    · rw [List.zipIdx_cons] at hy
      rw [h4 y (fun x hx => hy x (List.mem_cons_of_mem _ hx)), h2 y (hy _ List.mem_cons_self)]

theorem inj_of_map_nodup {α β : Type} {g : α → β} {l : List α} (h : (l.map g).Nodup) {x z : α} (hx : x ∈ l)
    (hz : z ∈ l) (he : g x = g z) : x = z := by
  induction l with
  | nil => simp at hx
  | cons a l ih =>
    rw [List.map_cons, List.nodup_cons] at h
    rcases List.mem_cons.1 hx with hx | hx <;> rcases List.mem_cons.1 hz with hz | hz
    · rw [hx, hz]
    · exact absurd (List.mem_map.2 ⟨z, hz, by rw [← he, hx]⟩) h.1
    · exact absurd (List.mem_map.2 ⟨x, hx, by rw [he, hz]⟩) h.1
    · exact ih h.2 hx hz

theorem not_mem_map_iff {α β : Type} {g : α → β} {l : List α} {b : β} : b ∉ l.map g ↔ ∀ x ∈ l, g x ≠ b :=
  ⟨fun h x hx he => h (List.mem_map.2 ⟨x, hx, he⟩), fun h hb => by
    obtain ⟨x, hx, he⟩ := List.mem_map.1 hb
    exact h x hx he⟩

/-- The type a projection gives to a field. -/
def projTy (lt : Option String) (b : Bool) (f : Field) : LTy :=
  if Pinned f then .pin (.ref lt b (.field f.ty)) else .ref lt b (.field f.ty)
def ownTy (f : Field) : LTy := if Pinned f then .phantom (.field f.ty) else .field f.ty

theorem labels_fields {fs : List Field} (g : Field → GField) (hg : ∀ f, (g f).ident = f.ident) :
    labels fs = (fs.map g).zipIdx.map (fun x => gLabel x.2 x.1) := by
  rw [List.zipIdx_map, List.map_map]
  apply List.map_congr_left
  intro x _
  simp [fieldLabel, gLabel, hg]

theorem map_zipIdx_fst {β : Type} (g : Field → β) (fs : List Field) (i : Nat) :
    (fs.zipIdx i).map (fun x => g x.1) = fs.map g := by
  induction fs generalizing i with
  | nil => rfl
  | cons f fs ih => rw [List.zipIdx_cons, List.map_cons, ih, List.map_cons]

theorem entry_any {fs : Fields} (hwf : fs.WF) {x : Field × Nat} (hx : x ∈ fs.list.zipIdx) (e : FExpr) :
    Entry fs.delim x.2 (.labelled x.1.ident e) (fieldLabel x.2 x.1) e := by
  have hm := List.fst_mem_of_mem_zipIdx hx
  cases fs with
  | unit => simp [Fields.list] at hm
  | named l =>
    obtain ⟨n, hn⟩ := Option.isSome_iff_exists.1 (hwf.1 _ hm)
    simp only [fieldLabel, hn, Option.getD_some]
    exact .named
  | unnamed l =>
    have hn := hwf _ hm
    simp only [fieldLabel, hn, Option.getD_none]
    exact .tuple

theorem entry_bare {fs : Fields} (hwf : fs.WF) {x : Field × Nat} (hx : x ∈ fs.list.zipIdx) :
    Entry fs.delim x.2 (.bare (binding x.2 x.1)) (fieldLabel x.2 x.1) (.bind (binding x.2 x.1)) := by
  have hm := List.fst_mem_of_mem_zipIdx hx
  cases fs with
  | unit => simp [Fields.list] at hm
  | named l =>
    obtain ⟨n, hn⟩ := Option.isSome_iff_exists.1 (hwf.1 _ hm)
    simp only [fieldLabel, binding, hn, Option.getD_some]
    exact .short
  | unnamed l =>
    have hn := hwf _ hm
    simp only [fieldLabel, binding, hn, Option.getD_none]
    exact .tupleVar

/-- The constructor of a projection. -/
theorem ctor_proj {K : Site} (hu : K.isUnsafe = true) {fs : Fields} (hwf : fs.WF) {lt : Option String} {b : Bool}
    {Γ : Locals} {d : TypeDef} (hd : d ∈ K.defs) {variant : Option String} {g : Field → GField}
    (hv : (variant, ⟨fs.delim, fs.list.map g⟩) ∈ d.variants) (hg : ∀ f, (g f).ident = f.ident)
    (hgt : ∀ f, tyOf (g f).ty = some (projTy lt b f))
    (hp : ∀ p ∈ d.params, ownArg p ∈ K.params) (hw : ∀ w ∈ d.preds, K.known w) :
    ∃ Γ', ExprTy K (asLocals (patTys lt b fs.list) ++ Γ)
      (.ctor ⟨d.name, variant, fs.delim, fs.list.zipIdx.map projInit⟩) (.adt d.name (d.params.map ownArg)) Γ' := by
  obtain ⟨Γ', h1, -⟩ := entries_ty (K := K) (d := fs.delim) (init := projInit)
    (e := fun x => if Pinned x.1 then .pinNew (binding x.2 x.1) else .bind (binding x.2 x.1))
    (t := fun x => projTy lt b x.1) (T := fun x => .ref lt b (.field x.1.ty)) (keep := fun _ => false)
    fs.list 0 (asLocals (patTys lt b fs.list) ++ Γ)
    (by
      intro x hx
      unfold projInit
      split
      · exact entry_any hwf hx _
      · exact entry_bare hwf hx)
    (by
      intro x hx Γ hl
      obtain ⟨Γ', h1, h2⟩ := use_of_look hl
      refine ⟨Γ', ?_, fun y hy => h2 y (by simpa using hy)⟩
      unfold projTy
      split
      · exact .pinNew hu h1
      · exact .bind h1)
    (bindings_nodup hwf)
    (fun x hx => patTys_look hwf lt b Γ hx)
  refine ⟨Γ', .ctor hd rfl hv rfl h1 ?_ ?_ hp hw⟩
  · rw [List.map_map]
    exact labels_fields g hg
  · rw [List.map_map, List.map_map]
    refine (map_zipIdx_fst (fun f => some (projTy lt b f)) fs.list 0).trans ?_
    apply List.map_congr_left
    intro f _
    exact (hgt f).symm

/-- The constructor in `project_replace`. Only the variables of other fields are used. -/
theorem ctor_own {K : Site} (hu : K.isUnsafe = true) {fs : Fields} (hwf : fs.WF) {lt : Option String}
    {Γ : Locals} {d : TypeDef} (hd : d ∈ K.defs) {variant : Option String}
    (hv : (variant, ⟨fs.delim, fs.list.map projOwnField⟩) ∈ d.variants)
    (hp : ∀ p ∈ d.params, ownArg p ∈ K.params) (hw : ∀ w ∈ d.preds, K.known w) :
    ∃ Γ', ExprTy K (asLocals (patTys lt true fs.list) ++ Γ)
      (.ctor ⟨d.name, variant, fs.delim, fs.list.zipIdx.map moveInit⟩) (.adt d.name (d.params.map ownArg)) Γ' ∧
      ∀ x ∈ fs.list.zipIdx, Pinned x.1 = true →
        Γ'.lookup (binding x.2 x.1) = some (some (.ref lt true (.field x.1.ty))) := by
  obtain ⟨Γ', h1, h2⟩ := entries_ty (K := K) (d := fs.delim) (init := moveInit)
    (e := fun x => if Pinned x.1 then .phantom else .read (binding x.2 x.1))
    (t := fun x => ownTy x.1) (T := fun x => .ref lt true (.field x.1.ty)) (keep := fun x => Pinned x.1)
    fs.list 0 (asLocals (patTys lt true fs.list) ++ Γ)
    (by
      intro x hx
      exact entry_any hwf hx _)
    (by
      intro x hx Γ hl
      obtain ⟨Γ', h1, h2⟩ := use_of_look hl
      unfold ownTy
      cases hpin : Pinned x.1 with
      | true => exact ⟨Γ, .phantom, fun y _ => rfl⟩
      | false => exact ⟨Γ', .read hu h1, fun y hy => h2 y (by simpa using hy)⟩)
    (bindings_nodup hwf)
    (fun x hx => patTys_look hwf lt true Γ hx)
  refine ⟨Γ', .ctor hd rfl hv rfl h1 ?_ ?_ hp hw, fun x hx hpin => ?_⟩
  · rw [List.map_map]
    exact labels_fields projOwnField (fun _ => rfl)
  · rw [List.map_map, List.map_map]
    refine (map_zipIdx_fst (fun f => some (ownTy f)) fs.list 0).trans ?_
    apply List.map_congr_left
    intro f _
    simp only [Function.comp, ownTy, projOwnField]
    split <;> rfl
  · rw [h2 _ (fun z hz => ?_)]
    · exact patTys_look hwf lt true Γ hx
    · by_cases hz2 : Pinned z.1 = true
      · exact .inl hz2
      · refine .inr fun he => hz2 ?_
        have hnd := bindings_nodup hwf
        have : x = z := by exact inj_of_map_nodup hnd hx hz he
        rw [← this]; exact hpin

/-! ## The guards of `project_replace` -/

theorem lets_guards {K : Site} (hu : K.isUnsafe = true) (T : String → LTy) (lt : Option String) (xs : List String)
    (hres : "__result" ∉ xs) (hnd : xs.Nodup) (inner Γ : Locals) (hin : ∀ p ∈ inner, p.1 = "__guard")
    (hg : inner ≠ [] → "__guard" ∉ xs) (hgt : "__guard" ∉ xs.tail)
    (hl : ∀ x ∈ xs, Γ.lookup x = some (some (.ref lt true (T x)))) :
    ∃ inner' Γ', LetsTy K (inner ++ Γ) (xs.map (fun x => ("__guard", .dropGuard x))) (inner' ++ Γ') ∧
      inner'.length = inner.length + xs.length ∧ Γ'.lookup "__result" = Γ.lookup "__result" := by
  induction xs generalizing inner Γ with
  | nil => exact ⟨inner, Γ, .nil, rfl, rfl⟩
  | cons x xs ih =>
    obtain ⟨Γ1, h1, h2⟩ := use_of_look (hl x List.mem_cons_self)
    have hx : ∀ p ∈ inner, p.1 ≠ x := by
      rintro p hp rfl
      exact hg (List.ne_nil_of_mem hp) (by rw [hin p hp]; exact List.mem_cons_self)
    rw [List.nodup_cons] at hnd
    have hgx : "__guard" ∉ xs := hgt
    obtain ⟨inner', Γ', h3, h4, h5⟩ := ih (fun h => hres (List.mem_cons_of_mem _ h)) hnd.2
      (("__guard", some (.dropGuard (T x))) :: inner) Γ1
      (by simpa using hin) (fun _ => hgx) (fun h => hgx (List.mem_of_mem_tail h))
      (fun y hy => by
        rw [h2 y (fun he => hnd.1 (he ▸ hy))]
        exact hl y (List.mem_cons_of_mem _ hy))
    refine ⟨inner', Γ', .cons (.dropGuard hu (use_append hx h1)) h3, ?_, ?_⟩
    · rw [h4, List.length_cons, List.length_cons]; omega
    · rw [h5, h2 _ (fun he => hres (by rw [he]; exact List.mem_cons_self))]

/-- The argument of a guard is a mutable reference or a raw pointer. -/
theorem guard_use {K : Site} {Γ Γ' : Locals} {x : String} {t : LTy} (h : ExprTy K Γ (.dropGuard x) t Γ') :
    ∃ s Γ1, Use K.vals Γ x s Γ1 ∧ (∃ lt u, (s = .ref lt true u ∨ s = .ptr u) ∧ t = .dropGuard u) ∧ Γ' = Γ1 := by
  cases h with
  | dropGuard _ hu => exact ⟨_, _, hu, ⟨_, _, .inl rfl, rfl⟩, rfl⟩
  | dropGuardPtr _ hu => exact ⟨_, _, hu, ⟨none, _, .inr rfl, rfl⟩, rfl⟩

theorem guards_result {K : Site} {xs : List String} {Γ Γ' : Locals} {n : String} {as : List GArg}
    (h : LetsTy K Γ (xs.map (fun x => ("__guard", .dropGuard x))) Γ')
    (hr : Γ.lookup "__result" = some (some (.adt n as))) : "__result" ∉ xs := by
  induction xs generalizing Γ with
  | nil => simp
  | cons x xs ih =>
    cases h with
    | cons h1 h2 =>
      obtain ⟨t, Γ1, hu, ht, rfl⟩ := guard_use h1
      · obtain ⟨h3, h4⟩ := look_of_use hu
        have hx : "__result" ≠ x := by
          rintro rfl
          rw [hr] at h3
          rcases h3 with h3 | ⟨h3, -⟩ <;> cases h3
          obtain ⟨_, _, h | h⟩ := ht <;> cases h
        rw [List.mem_cons, not_or]
        refine ⟨hx, ih h2 ?_⟩
        rw [List.lookup_cons, show ("__result" == "__guard") = false from by decide, h4 _ hx]
        exact hr

theorem guards_guard {K : Site} {xs : List String} {Γ Γ' : Locals} {t : LTy}
    (h : LetsTy K Γ (xs.map (fun x => ("__guard", .dropGuard x))) Γ')
    (hr : Γ.lookup "__guard" = some (some (.dropGuard t))) : "__guard" ∉ xs := by
  induction xs generalizing Γ t with
  | nil => simp
  | cons x xs ih =>
    cases h with
    | cons h1 h2 =>
      obtain ⟨t, Γ1, hu, ht, rfl⟩ := guard_use h1
      · obtain ⟨h3, h4⟩ := look_of_use hu
        have hx : "__guard" ≠ x := by
          rintro rfl
          rw [hr] at h3
          rcases h3 with h3 | ⟨h3, -⟩ <;> cases h3
          obtain ⟨_, _, h | h⟩ := ht <;> cases h
        rw [List.mem_cons, not_or]
        obtain ⟨_, u, -, rfl⟩ := ht
        exact ⟨hx, ih h2 (List.lookup_cons_self)⟩

theorem guards_tail {K : Site} {xs : List String} {Γ Γ' : Locals}
    (h : LetsTy K Γ (xs.map (fun x => ("__guard", .dropGuard x))) Γ') : "__guard" ∉ xs.tail := by
  cases xs with
  | nil => simp
  | cons x xs =>
    cases h with
    | cons h1 h2 =>
      obtain ⟨t, Γ1, hu, ht, rfl⟩ := guard_use h1
      obtain ⟨_, u, -, rfl⟩ := ht
      exact guards_guard h2 List.lookup_cons_self

theorem namesFree_bindings (fs : Fields) : NamesFree fs ↔
    "__result" ∉ (pinnedBindings fs.list).reverse ∧ "__guard" ∉ (pinnedBindings fs.list).reverse.tail := by
  have e : (pinnedBindings fs.list).reverse = (pinnedLocs 0 fs.list).reverse.map Prod.fst := by
    simp [pinnedBindings, pinnedLocs, List.map_reverse, List.map_map, Function.comp_def]
  have h1 : "__result" ∉ (pinnedBindings fs.list).reverse ↔ ∀ x ∈ pinnedLocs 0 fs.list, x.1 ≠ "__result" := by
    rw [e, not_mem_map_iff]
    simp only [List.mem_reverse]
  have h2 : "__guard" ∉ (pinnedBindings fs.list).reverse.tail ↔
      ∀ x ∈ (pinnedLocs 0 fs.list).reverse.tail, x.1 ≠ "__guard" := by
    rw [e, ← List.map_tail, not_mem_map_iff]
  rw [h1, h2]
  constructor
  · intro h
    exact ⟨namesFree_result h.1 0, (namesFree_guard 0).1 h.2⟩
  · rintro ⟨h3, h4⟩
    apply Classical.byContradiction
    intro hn
    rcases namesFree_cases fs 0 hn with ⟨x, hx, hxe⟩ | ⟨-, x, hx, hxe⟩
    · exact h3 x hx hxe
    · exact h4 x hx hxe

/-- The statements of `project_replace` after the pattern. -/
theorem own_typed {K : Site} (hu : K.isUnsafe = true) {fs : Fields} (hwf : fs.WF) {lt : Option String}
    {Γ : Locals} {d : TypeDef} (hd : d ∈ K.defs) {variant : Option String}
    (hv : (variant, ⟨fs.delim, fs.list.map projOwnField⟩) ∈ d.variants)
    (hp : ∀ p ∈ d.params, ownArg p ∈ K.params) (hw : ∀ w ∈ d.preds, K.known w) (hf : NamesFree fs) :
    ∃ Γ' Γ'', StmtsTy K (asLocals (patTys lt true fs.list) ++ Γ)
        [.letVar "__result" none (.ctor ⟨d.name, variant, fs.delim, fs.list.zipIdx.map moveInit⟩),
         .scope ((pinnedBindings fs.list).reverse.map (fun x => ("__guard", .dropGuard x)))] Γ' ∧
      ExprTy K Γ' (.var "__result") (.adt d.name (d.params.map ownArg)) Γ'' := by
  obtain ⟨Γ1, h1, h2⟩ := ctor_own hu hwf (lt := lt) (Γ := Γ) hd hv hp hw
  obtain ⟨hr, hg⟩ := (namesFree_bindings fs).1 hf
  let T : String → LTy := fun x => match Γ1.lookup x with
    | some (some (.ref _ _ t)) => t
    | _ => .unit
  obtain ⟨inner, Γ2, h3, h4, h5⟩ := lets_guards (K := K) hu T lt (pinnedBindings fs.list).reverse hr
    (by
      rw [(List.reverse_perm _).nodup_iff]
      exact List.Nodup.sublist (List.Sublist.map _ List.filter_sublist) (bindings_nodup hwf))
    [] (("__result", some (.adt d.name (d.params.map ownArg))) :: Γ1) (by simp) (by simp) hg
    (by
      intro x hx
      rw [List.lookup_cons]
      have : (x == "__result") = false := by
        simp only [beq_eq_false_iff_ne, ne_eq]
        rintro rfl
        exact hr hx
      rw [this]
      simp only
      obtain ⟨y, hy, rfl⟩ := List.mem_map.1 (List.mem_reverse.1 hx)
      obtain ⟨hy1, hy2⟩ := List.mem_filter.1 hy
      have := h2 y hy1 hy2
      simp only [T, this])
  have h6 : Γ2.lookup "__result" = some (some (.adt d.name (d.params.map ownArg))) := by
    rw [h5]; simp
  obtain ⟨Γ3, h7, -⟩ := use_of_look h6
  refine ⟨Γ2, Γ3, .cons (.letVar h1) (.cons (.scope h3 ?_) .nil), .var h7⟩
  rw [h4]; simp

theorem own_names {K : Site} {fs : Fields} {Γ Γ' : Locals} {c : GCtor}
    (h : StmtsTy K Γ [.letVar "__result" none (.ctor c),
      .scope ((pinnedBindings fs.list).reverse.map (fun x => ("__guard", .dropGuard x)))] Γ') : NamesFree fs := by
  cases h with
  | cons h1 h2 =>
    cases h1 with
    | letVar h1 =>
      cases h1 with
      | ctor =>
        cases h2 with
        | cons h2 h3 =>
          cases h2 with
          | scope h2 =>
            exact (namesFree_bindings fs).2 ⟨guards_result h2 List.lookup_cons_self, guards_tail h2⟩

/-! ## The three bodies, in one form -/

/-- What is matched. -/
def headRHS : Mode → RHS
  | .proj => .getUncheckedMut "self"
  | .projRef => .getRef "self"
  | .replace => .reborrow "__self_ptr"

def modeStmts : Mode → List GStmt
  | .replace => [.letVar "__self_ptr" (some "*mut Self") (.getUncheckedMut "self"),
      .letVar "__guard" none (.overwriteGuard "__self_ptr" "__replacement")]
  | _ => []

def armOf (mode : Mode) (name : String) (v : Option String × Fields) : GArm :=
  ⟨⟨v.1, v.2.delim, bindings v.2.list⟩,
   match mode with
    | .replace => [.letVar "__result" none (.ctor ⟨name, v.1, v.2.delim, v.2.list.zipIdx.map moveInit⟩),
        .scope ((pinnedBindings v.2.list).reverse.map (fun x => ("__guard", .dropGuard x)))]
    | _ => [],
   match mode with
    | .replace => .var "__result"
    | _ => .ctor ⟨name, v.1, v.2.delim, v.2.list.zipIdx.map projInit⟩⟩

def modeBody (mode : Mode) (name : String) (item : Item) : GBody :=
  if isStruct item then
    match preVariants item with
    | v :: _ => ⟨modeStmts mode ++ .letPat (armOf mode name v).pat (headRHS mode) :: (armOf mode name v).stmts,
        .expr (armOf mode name v).tail⟩
    | [] => default
  else ⟨modeStmts mode, .match_ (headRHS mode) ((preVariants item).map (armOf mode name))⟩

def modeMut : Mode → Bool
  | .projRef => false
  | _ => true

/-- The functions of the inherent impl. -/
theorem inherent_fns (item : Item) (E : Expansion) (h : parseDerive item = .ok E) (ps : List GParam) (n : String)
    (as : List GArg) (ws : List WPred) (fns : List GFn) (hm : GItem.inherent ps n as ws fns ∈ allItems E)
    (fn : GFn) (hf : fn ∈ fns) :
    itemName item = some n ∧ ps = (preGenerics item).implGenerics ∧ as = (preGenerics item).tyGenerics ∧
    ws = (preGenerics item).preds ∧ ∃ mode, method E mode.fn = some fn ∧ fn.name = mode.fn ∧
      fn.unsafeBlock = true ∧
      fn.params = (if mode = .replace then [("__replacement", .selfTy)] else []) ∧
      ∃ name args, fn.ret = .adt name args ∧ fn.body = modeBody mode name item := by
  cases item with
  | other a => simp [parseDerive] at h
  | struct_ s =>
    obtain ⟨A, h1, -, -, -, -, -, rfl⟩ := (deriveStruct_iff s E).1 h
    have hmem : GItem.inherent ps n as ws fns = implItemS (s.ctx A) s.pre.fields := by
      simp only [allItems, structExpansion, List.mem_append, List.mem_singleton] at hm
      rcases hm with ((hm | hm) | hm) | ((((((hm | hm) | hm) | hm) | hm) | hm) | hm)
      case inr.inl.inl.inl.inr => exact hm
      case inr.inl.inl.inr => cases hm
      case inr.inl.inr => have := unpin_not_inherent _ _ _ hm; cases this
      case inr.inr => have := drop_not_inherent _ _ hm; cases this
      all_goals (split at hm <;> simp [projItemS, refItemS, ownItemS] at hm)
    rw [implItemS, makeProjImpl_eq] at hmem
    injection hmem with e1 e2 e3 e4 e5
    subst e1 e2 e3 e4 e5
    refine ⟨rfl, rfl, rfl, rfl, ?_⟩
    have hst : mkSelfTy s.ident s.generics.tyGenerics = itemSelfTy (.struct_ s) := (itemSelfTy_eq (.struct_ s)).symm
    have hb : ∀ mode name, modeBody mode name (.struct_ s) =
        ⟨modeStmts mode ++ .letPat (armOf mode name (none, s.pre.fields)).pat (headRHS mode) ::
          (armOf mode name (none, s.pre.fields)).stmts, .expr (armOf mode name (none, s.pre.fields)).tail⟩ := by
      intro mode name
      rw [ItemStruct.pre_fields, hst]
      rfl
    simp only [implFns, List.mem_append, List.mem_ite_nil_left, List.mem_singleton] at hf
    rcases hf with (⟨hc, rfl⟩ | ⟨hc, rfl⟩) | ⟨hc, rfl⟩
    · refine ⟨.proj, ?_, rfl, rfl, rfl, _, _, rfl, ?_⟩
      · rw [Mode.fn, method_struct, implFns_project, if_neg hc]
      · rw [hb]; rfl
    · refine ⟨.projRef, ?_, rfl, rfl, rfl, _, _, rfl, ?_⟩
      · rw [Mode.fn, method_struct, implFns_projectRef, if_neg hc]
      · rw [hb]; rfl
    · refine ⟨.replace, ?_, rfl, rfl, rfl, _, _, rfl, ?_⟩
      · rw [Mode.fn, method_struct, implFns_projectReplace, if_neg hc]
      · rw [hb]; rfl
  | enum_ s =>
    obtain ⟨A, h1, -, -, -, -, -, -, rfl⟩ := (deriveEnum_iff s E).1 h
    have hmem : GItem.inherent ps n as ws fns = implItemE (s.ctx A) s.pre.variants := by
      simp only [allItems, enumExpansion, List.mem_append, List.mem_singleton] at hm
      rcases hm with ((hm | hm) | hm) | ((hm | hm) | hm)
      case inr.inl.inl => exact hm
      case inr.inl.inr => have := unpin_not_inherent _ _ _ hm; cases this
      case inr.inr => have := drop_not_inherent _ _ hm; cases this
      all_goals (split at hm <;> simp [projItemE, refItemE, ownItemE] at hm)
    rw [implItemE, makeProjImpl_eq] at hmem
    injection hmem with e1 e2 e3 e4 e5
    subst e1 e2 e3 e4 e5
    refine ⟨rfl, rfl, rfl, rfl, ?_⟩
    have hst : mkSelfTy s.ident s.generics.tyGenerics = itemSelfTy (.enum_ s) := (itemSelfTy_eq (.enum_ s)).symm
    have hv : ∀ {β : Type} (g : Option String × Fields → β), (preVariants (.enum_ s)).map g =
        s.pre.variants.map (fun v => g (some v.ident, v.fields)) := by
      intro β g
      rw [ItemEnum.pre_variants, hst, preVariants, itemVariants]
      simp only [List.map_map]
      rfl
    have hb : ∀ mode name, modeBody mode name (.enum_ s) =
        ⟨modeStmts mode, .match_ (headRHS mode) (s.pre.variants.map (fun v => armOf mode name (some v.ident, v.fields)))⟩ := by
      intro mode name
      rw [← hv]
      rfl
    simp only [implFns, List.mem_append, List.mem_ite_nil_left, List.mem_singleton] at hf
    rcases hf with (⟨hc, rfl⟩ | ⟨hc, rfl⟩) | ⟨hc, rfl⟩
    · refine ⟨.proj, ?_, rfl, rfl, rfl, _, _, rfl, ?_⟩
      · rw [Mode.fn, method_enum, implFns_project, if_neg hc]
      · rw [hb]; rfl
    · refine ⟨.projRef, ?_, rfl, rfl, rfl, _, _, rfl, ?_⟩
      · rw [Mode.fn, method_enum, implFns_projectRef, if_neg hc]
      · rw [hb]; rfl
    · refine ⟨.replace, ?_, rfl, rfl, rfl, _, _, rfl, ?_⟩
      · rw [Mode.fn, method_enum, implFns_projectReplace, if_neg hc]
      · rw [hb]; rfl

theorem stmts_append {K : Site} {a b : List GStmt} {Γ Γ' Γ'' : Locals} (h1 : StmtsTy K Γ a Γ')
    (h2 : StmtsTy K Γ' b Γ'') : StmtsTy K Γ (a ++ b) Γ'' := by
  induction h1 with
  | nil => exact h2
  | cons h _ ih => exact .cons h (ih h2)

theorem stmts_split {K : Site} {a b : List GStmt} {Γ Γ'' : Locals} (h : StmtsTy K Γ (a ++ b) Γ'') :
    ∃ Γ', StmtsTy K Γ a Γ' ∧ StmtsTy K Γ' b Γ'' := by
  induction a generalizing Γ with
  | nil => exact ⟨Γ, .nil, h⟩
  | cons s a ih =>
    cases h with
    | cons h1 h2 =>
      obtain ⟨Γ', h3, h4⟩ := ih h2
      exact ⟨Γ', .cons h1 h3, h4⟩

def modeParams : Mode → List (String × LTy)
  | .replace => [("__replacement", .self_)]
  | _ => []

/-- The value that is matched. -/
theorem head_typed {K : Site} (hu : K.isUnsafe = true) (mode : Mode) (lt : Option String) :
    ∃ Γ Γ', StmtsTy K (startLocals (.pin (.ref lt (modeMut mode) .self_)) (modeParams mode)) (modeStmts mode) Γ ∧
      ExprTy K Γ (headRHS mode) (.ref lt (modeMut mode) .self_) Γ' := by
  cases mode with
  | proj => exact ⟨_, _, .nil, .getUncheckedMut hu .move⟩
  | projRef => exact ⟨_, _, .nil, .getRef .move⟩
  | replace =>
    exact ⟨_, _, .cons (.letPtr (.getUncheckedMut hu (lt := lt) (.older (by decide) .move)))
        (.cons (.letVar (.overwriteGuard hu (.copy rfl) (.older (by decide) .move))) .nil),
      .reborrow hu (.older (by decide) (.copy rfl))⟩

/-- One arm. -/
theorem arm_typed {K : Site} (hu : K.isUnsafe = true) {mode : Mode} {lt : String} {A : Args} {vis : Vis} {ident : String}
    {g : Generics} {vs : List (Option String × Fields)} {d : TypeDef} (hd : d ∈ K.defs)
    (hde : d = modeDef A mode vis ident g vs) (hlt : mode ≠ .replace → lt = determineLifetimeName "'pin" g)
    (hp : ∀ p ∈ d.params, ownArg p ∈ K.params) (hw : ∀ w ∈ d.preds, K.known w)
    {v : Option String × Fields} (hv : v ∈ vs) (hwf : v.2.WF) (hf : mode = .replace → NamesFree v.2) (Γ : Locals) :
    ∃ Γ' Γ'', StmtsTy K (asLocals (patTys (if mode = .replace then none else some lt) (modeMut mode) v.2.list) ++ Γ)
        (armOf mode d.name v).stmts Γ' ∧
      ExprTy K Γ' (armOf mode d.name v).tail (.adt d.name (d.params.map ownArg)) Γ'' := by
  have hmem : (v.1, modeFields mode (determineLifetimeName "'pin" g) v.2) ∈ d.variants := by
    rw [hde]
    exact List.mem_map.2 ⟨v, hv, rfl⟩
  cases mode with
  | proj =>
    obtain rfl := hlt (by simp)
    obtain ⟨Γ', h1⟩ := ctor_proj hu hwf (lt := some (determineLifetimeName "'pin" g)) (b := true) (Γ := Γ) hd
      (g := projField (determineLifetimeName "'pin" g)) hmem (fun _ => rfl)
      (fun f => by simp only [projTy, projField]; split <;> rfl) hp hw
    exact ⟨_, Γ', .nil, h1⟩
  | projRef =>
    obtain rfl := hlt (by simp)
    obtain ⟨Γ', h1⟩ := ctor_proj hu hwf (lt := some (determineLifetimeName "'pin" g)) (b := false) (Γ := Γ) hd
      (g := projRefField (determineLifetimeName "'pin" g)) hmem (fun _ => rfl)
      (fun f => by simp only [projTy, projRefField]; split <;> rfl) hp hw
    exact ⟨_, Γ', .nil, h1⟩
  | replace => exact own_typed hu hwf hd hmem hp hw (hf rfl)

theorem mem_preVariants {item : Item} {v : Option String × Fields} (hv : v ∈ itemVariants item) :
    (v.1, v.2.visit (itemSelfTy item)) ∈ preVariants item := List.mem_map.2 ⟨v, hv, rfl⟩

theorem hasVariant_of_mem {item : Item} {v : Option String × Fields} (hv : v ∈ itemVariants item) :
    HasVariant item v.1 v.2 := by
  cases item with
  | struct_ s => simp only [itemVariants, List.mem_singleton] at hv; subst hv; exact ⟨rfl, rfl⟩
  | enum_ e =>
    simp only [itemVariants, List.mem_map] at hv
    obtain ⟨w, hw, rfl⟩ := hv
    exact ⟨w, hw, rfl, rfl⟩
  | other a => simp [itemVariants] at hv

theorem impl_arg (g : Generics) (p : GParam) (hp : p ∈ g.defParams) : ownArg p ∈ g.implGenerics.map ownArg := by
  rw [ownArg_eq]
  have h1 : g.implGenerics.map GParam.arg = g.tyGenerics := by
    simp only [Generics.implGenerics, Generics.tyGenerics, List.map_append, List.map_map]
    congr 1 <;> (apply List.map_congr_left; intro p _; cases p <;> rfl)
  rw [h1, ← defParams_args]
  exact List.mem_map_of_mem hp

/-- The names in the patterns for all variants are new variables. -/
def AllFree (V : Values) (item : Item) : Prop :=
  ∀ v ∈ itemVariants item, ∀ x ∈ bindings v.2.list, V.Free x

theorem bindings_visit (fs : Fields) (st : SelfTy) : bindings (fs.visit st).list = bindings fs.list := by
  simp only [list_visit, bindings, List.zipIdx_map, List.map_map]
  apply List.map_congr_left
  intro x _
  simp [binding, Field.visit]

theorem methods_typed_in (item : Item) (E : Expansion) (h : parseDerive item = .ok E) (hwf : ItemWF item)
    (ps : List GParam) (n : String) (as : List GArg) (ws : List WPred) (fns : List GFn)
    (hm : GItem.inherent ps n as ws fns ∈ allItems E) (fn : GFn) (hf : fn ∈ fns)
    (V : Values) (hV : AllFree V item) :
    WellTyped ((fnSite item E ps n as ws fn).within V) fn ↔
      (fn.name = "project_replace" → ∀ v ∈ itemVariants item, NamesFree v.2) := by
  obtain ⟨h1, rfl, rfl, rfl, mode, h2, h3, h4, h5, name, args, h6, h7⟩ := inherent_fns item E h ps n as ws fns hm fn hf
  obtain ⟨A, ident, h8, h9, h10, h11, h12, h13⟩ := method_def item E h mode fn h2
  obtain rfl := Option.some.inj (h9.symm.trans h1)
  obtain ⟨h14, h15⟩ := method_sig item E h mode fn h2
  generalize hd : modeDef A mode (itemVis item).visit ident (preGenerics item) (preVariants item) = d at h10 h11 h12
  obtain ⟨rfl, -⟩ := GTy.adt.inj (h6.symm.trans h11)
  have hname : fn.name = "project_replace" ↔ mode = .replace := by
    rw [h3]; cases mode <;> simp [Mode.fn]
  let lt := determineLifetimeName "'pin" (preGenerics item)
  have hrecv : fn.recv = .pin .local_ (.ref (if mode = .replace then none else some lt) (modeMut mode) .selfTy) := by
    rw [← h13]
    cases mode <;> exact h15.1
  have hu : ((fnSite item E (preGenerics item).implGenerics ident (preGenerics item).tyGenerics
      (preGenerics item).preds fn).within V).isUnsafe = true := by simp [fnSite, Site.within, h4]
  have hdm : d ∈ ((fnSite item E (preGenerics item).implGenerics ident (preGenerics item).tyGenerics
      (preGenerics item).preds fn).within V).defs := typeDefs_all h10
  have hp : ∀ p ∈ d.params, ownArg p ∈ ((fnSite item E (preGenerics item).implGenerics ident (preGenerics item).tyGenerics
      (preGenerics item).preds fn).within V).params := by
    intro p hp
    rw [← hd] at hp
    simp only [fnSite, Site.within, h13]
    cases mode with
    | replace => exact List.mem_append_left _ (impl_arg _ p hp)
    | proj =>
      simp only [modeDef, modeGenerics, defParams_insert, List.mem_cons] at hp
      rcases hp with rfl | hp
      · exact List.mem_append_right _ (by simp [ownArg])
      · exact List.mem_append_left _ (impl_arg _ p hp)
    | projRef =>
      simp only [modeDef, modeGenerics, defParams_insert, List.mem_cons] at hp
      rcases hp with rfl | hp
      · exact List.mem_append_right _ (by simp [ownArg])
      · exact List.mem_append_left _ (impl_arg _ p hp)
  have hw : ∀ w ∈ d.preds, ((fnSite item E (preGenerics item).implGenerics ident (preGenerics item).tyGenerics
      (preGenerics item).preds fn).within V).known w := by
    intro w hw
    rw [← hd] at hw
    simp only [fnSite, Site.within]
    cases mode with
    | replace => exact .written hw
    | proj =>
      simp only [modeDef, modePreds, List.mem_append, List.mem_singleton] at hw
      rcases hw with hw | rfl
      · exact .written hw
      · exact .implied hrecv
    | projRef =>
      simp only [modeDef, modePreds, List.mem_append, List.mem_singleton] at hw
      rcases hw with hw | rfl
      · exact .written hw
      · exact .implied hrecv
  have hltin : mode ≠ .replace → .lifetime lt ∈ ((fnSite item E (preGenerics item).implGenerics ident
      (preGenerics item).tyGenerics (preGenerics item).preds fn).within V).params := by
    intro hne
    simp only [fnSite, Site.within, h13, if_neg hne]
    exact List.mem_append_right _ (by simp [lt])
  have hitem : ((fnSite item E (preGenerics item).implGenerics ident (preGenerics item).tyGenerics
      (preGenerics item).preds fn).within V).item = item := rfl
  have hvals : ((fnSite item E (preGenerics item).implGenerics ident (preGenerics item).tyGenerics
      (preGenerics item).preds fn).within V).vals = V := rfl
  generalize (fnSite item E (preGenerics item).implGenerics ident (preGenerics item).tyGenerics
    (preGenerics item).preds fn).within V = K at *
  have hps : (modeParams mode).map Prod.fst = fn.params.map Prod.fst ∧
      (modeParams mode).map (fun p => some p.2) = fn.params.map (fun p => tyOf p.2) := by
    rw [h5]; cases mode <;> exact ⟨rfl, rfl⟩
  constructor
  · -- only if
    intro hty hrep v hv
    have hmode := hname.1 hrep
    subst hmode
    obtain ⟨-, recv, ps, ret, -, -, -, -, hb⟩ := hty
    rw [h7, modeBody] at hb
    suffices ∃ Γ Γ', StmtsTy K Γ (armOf .replace d.name (v.1, v.2.visit (itemSelfTy item))).stmts Γ' by
      obtain ⟨Γ, Γ', h⟩ := this
      exact (namesFree_visit _ _).1 (own_names h)
    split at hb
    · rename_i hs
      have : preVariants item = [(v.1, v.2.visit (itemSelfTy item))] := by
        cases item with
        | struct_ s => simp only [itemVariants, List.mem_singleton] at hv; subst hv; rfl
        | enum_ e => cases hs
        | other a => cases hs
      rw [this] at hb
      cases hb with
      | expr hs _ =>
        obtain ⟨Γ', -, hs⟩ := stmts_split hs
        cases hs with
        | cons _ hs => exact ⟨_, _, hs⟩
    · cases hb with
      | match_ _ _ _ harm =>
        obtain ⟨bs, Γ3, Γ4, -, hs, -⟩ := harm _ (List.mem_map.2 ⟨_, mem_preVariants hv, rfl⟩)
        exact ⟨_, _, hs⟩
  · -- if
    intro hfree
    have hfree' : ∀ v ∈ itemVariants item, mode = .replace → NamesFree (v.2.visit (itemSelfTy item)) :=
      fun v hv hmode => (namesFree_visit _ _).2 (hfree (hname.2 hmode) v hv)
    refine ⟨?_, .pin (.ref (if mode = .replace then none else some lt) (modeMut mode) .self_), modeParams mode,
      .adt d.name (d.params.map ownArg), by rw [hrecv]; rfl, hps.1, hps.2, by rw [h11, ownArg_eq]; rfl, ?_⟩
    · intro r l b t he
      rw [hrecv] at he
      obtain ⟨-, he⟩ := GTy.pin.inj he
      obtain ⟨he, -, -⟩ := GTy.ref.inj he
      split at he
      · cases he
      · cases he; exact hltin ‹_›
    · obtain ⟨Γ, Γ', s1, s2⟩ := head_typed hu mode (if mode = .replace then none else some lt)
      have harm : ∀ v ∈ itemVariants item, ∀ Γ, ∃ Γ' Γ'', StmtsTy K (asLocals (patTys
          (if mode = .replace then none else some lt) (modeMut mode) (v.2.visit (itemSelfTy item)).list) ++ Γ)
          (armOf mode d.name (v.1, v.2.visit (itemSelfTy item))).stmts Γ' ∧
          ExprTy K Γ' (armOf mode d.name (v.1, v.2.visit (itemSelfTy item))).tail (.adt d.name (d.params.map ownArg)) Γ'' :=
        fun v hv Γ => arm_typed hu hdm hd.symm (fun _ => rfl) hp hw (mem_preVariants hv)
          (wf_visit _ _ (hwf.fields _ _ (hasVariant_of_mem hv))) (hfree' v hv) Γ
      have hpat : ∀ v ∈ itemVariants item, ∀ lt b, PatBinds K.vals K.item (armOf mode d.name (v.1, v.2.visit (itemSelfTy item))).pat
          lt b (patTys lt b (v.2.visit (itemSelfTy item)).list) := by
        intro v hv lt b
        rw [hitem, hvals]
        exact patBinds hv (hwf.fields _ _ (hasVariant_of_mem hv)) lt b
          (fun x hx => hV v hv x (by rwa [bindings_visit] at hx))
      rw [h7, modeBody]
      by_cases hs : isStruct item = true
      · rw [if_pos hs]
        obtain ⟨v, hv⟩ : ∃ v, itemVariants item = [v] := by
          cases item with
          | struct_ s => exact ⟨_, rfl⟩
          | enum_ e => cases hs
          | other a => cases hs
        have hvm : v ∈ itemVariants item := by rw [hv]; exact List.mem_singleton.2 rfl
        rw [show preVariants item = [(v.1, v.2.visit (itemSelfTy item))] by rw [preVariants, hv]; rfl]
        obtain ⟨Γ3, Γ4, t1, t2⟩ := harm v hvm Γ'
        exact .expr (stmts_append s1 (.cons (.letPat s2 (by rw [hitem]; exact hs) (hpat v hvm _ _)) t1)) t2
      · rw [if_neg hs]
        refine .match_ s1 s2 ?_ ?_
        · intro v hv
          rw [hitem] at hv
          exact ⟨_, List.mem_map.2 ⟨_, mem_preVariants hv, rfl⟩, rfl⟩
        · intro a ha
          obtain ⟨w, hw, rfl⟩ := List.mem_map.1 ha
          obtain ⟨v, hv, rfl⟩ := List.mem_map.1 hw
          obtain ⟨Γ3, Γ4, t1, t2⟩ := harm v hv Γ'
          exact ⟨_, Γ3, Γ4, hpat v hv _ _, t1, t2⟩

/-- **C52** The generated `project` and `project_ref` always type check; `project_replace` does unless some
`#[pin]` field is called `__result`, or one that is not the last is called `__guard` (compare C42). That is:
their `unsafe` calls are in an `unsafe` block, every variable has the type its use requires, no reference is
used twice, patterns name all fields (no constants have these names, see C81) and matches have all variants, every field of the result is given a
value of its declared type, all generic parameters and lifetimes are in scope, and the where-clauses of the
projection types hold. -/
theorem C52_methods_typed (item : Item) (E : Expansion) (h : parseDerive item = .ok E) (hwf : ItemWF item)
    (ps : List GParam) (n : String) (as : List GArg) (ws : List WPred) (fns : List GFn)
    (hm : GItem.inherent ps n as ws fns ∈ allItems E) (fn : GFn) (hf : fn ∈ fns) :
    WellTyped (fnSite item E ps n as ws fn) fn ↔
      (fn.name = "project_replace" → ∀ v ∈ itemVariants item, NamesFree v.2) :=
  methods_typed_in item E h hwf ps n as ws fns hm fn hf .none (fun _ _ _ _ => ⟨by simp [Values.none], by simp [Values.none]⟩)

/-- **C52** The functions in generated trait impls (`Drop::drop`, or the `PinnedDrop::drop` that does
nothing) type check. -/
theorem C52_impls_typed (item : Item) (E : Expansion) (h : parseDerive item = .ok E)
    (hidden isUnsafe : Bool) (ps : List GParam) (tr : GTrait) (n : String) (as : List GArg) (ws : List WPred)
    (fns : List GFn) (hm : GItem.traitImpl hidden isUnsafe ps tr n as ws fns ∈ allItems E) (fn : GFn) (hf : fn ∈ fns) :
    WellTyped (fnSite item E ps n as ws fn) fn := by
  obtain ⟨A, ident, attrs, kind, front, h1, h2, h3, h4, -⟩ := expansion_shape item E h
  rw [h3] at hm
  rcases List.mem_append.1 hm with hm | hm
  · rcases List.mem_append.1 hm with hm | hm
    · cases h4 _ hm
    · unfold makeUnpinImpl at hm
      simp only at hm
      split at hm
      all_goals
        simp only [List.mem_cons, List.not_mem_nil, or_false, reduceCtorEq, false_or, GItem.traitImpl.injEq] at hm
      · obtain ⟨rfl, rfl, rfl, rfl, rfl, rfl, rfl, rfl⟩ := hm; simp at hf
      · rcases hm with ⟨rfl, rfl, rfl, rfl, rfl, rfl, rfl, rfl⟩ | ⟨rfl, rfl, rfl, rfl, rfl, rfl, rfl, rfl⟩ <;> simp at hf
      · rcases hm with ⟨rfl, rfl, rfl, rfl, rfl, rfl, rfl, rfl⟩ | ⟨rfl, rfl, rfl, rfl, rfl, rfl, rfl, rfl⟩ <;> simp at hf
  · unfold makeDropImpl at hm
    simp only at hm
    split at hm
    all_goals
      simp only [List.mem_cons, List.not_mem_nil, or_false, reduceCtorEq, false_or, GItem.traitImpl.injEq] at hm
    · obtain ⟨rfl, rfl, rfl, rfl, rfl, rfl, rfl, rfl⟩ := hm
      simp only [List.mem_singleton] at hf
      subst hf
      refine ⟨by simp, .ref none true .self_, [], .unit, rfl, rfl, rfl, rfl, ?_⟩
      exact .expr (.cons (.letVar (.pinNew rfl .move)) (.cons (.expr (.pinnedDropCall rfl .move)) .nil)) .unit
    · rcases hm with ⟨rfl, rfl, rfl, rfl, rfl, rfl, rfl, rfl⟩ | ⟨rfl, rfl, rfl, rfl, rfl, rfl, rfl, rfl⟩
      · simp at hf
      · simp only [List.mem_singleton] at hf
        subst hf
        refine ⟨by simp [pinMutSelf], .pin (.ref none true .self_), [], .unit, rfl, rfl, rfl, rfl, ?_⟩
        exact .expr .nil .unit

/-- The three methods of `struct R<T, U> { #[pin] a: T, b: U, #[pin] c: T }` type check. -/
example : ∃ E ps as ws f1 f2 f3, parseDerive (.struct_ demoReplace) = .ok E ∧
    GItem.inherent ps "R" as ws [f1, f2, f3] ∈ allItems E ∧ f3.name = "project_replace" ∧
    ∀ f ∈ [f1, f2, f3], WellTyped (fnSite (.struct_ demoReplace) E ps "R" as ws f) f := by
  have hE : ∃ E, parseDerive (.struct_ demoReplace) = .ok E ∧ ∃ ps as ws f1 f2 f3,
      GItem.inherent ps "R" as ws [f1, f2, f3] ∈ allItems E ∧ f3.name = "project_replace" :=
    ⟨_, rfl, _, _, _, _, _, _, List.mem_of_getElem? (i := 3) rfl, rfl⟩
  obtain ⟨E, hE, ps, as, ws, f1, f2, f3, hm, hn⟩ := hE
  refine ⟨E, ps, as, ws, f1, f2, f3, hE, hm, hn, fun f hf => ?_⟩
  refine (C52_methods_typed _ E hE demoReplace_wf ps _ as ws _ hm f hf).2 (fun _ v hv => ?_)
  obtain rfl : v = (none, demoReplace.fields) := by simpa [itemVariants] using hv
  exact demoReplace_free

example : ∃ E ps as ws f1, parseDerive (.enum_ demoEnum) = .ok E ∧
    GItem.inherent ps "E" as ws [f1] ∈ allItems E ∧ f1.name = "project" :=
  ⟨_, _, _, _, _, rfl, List.mem_of_getElem? (i := 1) rfl, rfl⟩

example : ∃ E ps as ws f, parseDerive (.struct_ demoDrop) = .ok E ∧
    GItem.traitImpl false false ps .drop "S" as ws [f] ∈ allItems E ∧ f.name = "drop" :=
  ⟨_, _, _, _, _, rfl, List.mem_of_getElem? (i := 7) rfl, by rfl⟩

/-- A mutable reference cannot be used twice, -/
example (K : Site) (Γ' : Locals) (F : Node) :
    ¬ EntriesTy K (some .paren) 0 [("x", some (.ref none true (.field F)))]
      [.bare "x", .bare "x"] [("0", .ref none true (.field F)), ("1", .ref none true (.field F))] Γ' := by
  intro h
  cases h with
  | cons he h1 h2 =>
    cases he
    cases h1 with
    | bind h1 =>
      cases h1 with
      | copy h => cases h
      | older h => exact absurd rfl h
      | move =>
        cases h2 with
        | cons he h3 _ =>
          cases he
          cases h3 with
          | bind h3 => cases h3 with | older h => exact absurd rfl h

/-- .. and unsafe functions cannot be called outside of `unsafe`. -/
example (K : Site) (h : K.isUnsafe = false) (Γ Γ' : Locals) (x : String) (t : LTy) :
    ¬ ExprTy K Γ (.getUncheckedMut x) t Γ' := by
  intro h1
  cases h1 with
  | getUncheckedMut hu => rw [h] at hu; cases hu

end PinProject

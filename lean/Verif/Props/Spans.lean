import Verif.Props.Tokens
import Verif.Props.Drop
import Verif.Spec.Spans
import Verif.Spec.Lints
/-!
# C75: spans
-/
namespace PinProject
open Spec

namespace Emit

theorem ownName_safe {x : String} (h : OwnName x) : x ≠ "unsafe" := by
  rintro rfl
  rcases ownName_underscore h (by decide) with h | h <;> revert h <;> decide

theorem localName_safe {x : String} (h : LocalName x) : x ≠ "unsafe" := by
  rcases h with rfl | h
  · decide
  · exact ownName_safe h

theorem fnName_safe {f : GFn} (h : FnOk f) : f.name ≠ "unsafe" := by
  intro e
  have := h.name
  rw [e] at this
  revert this
  decide

/-- The span of every word satisfies `A`, and `unsafe` has the call-site span; attributes satisfy
`B`. -/
def OkTok (A : Span → Prop) (B : String → List String → Prop) : ETok → Prop
  | .word w s => A s ∧ (w = "unsafe" → s = .site)
  | .attr n as _ => B n as
  | _ => True

def S (A : Span → Prop) (B : String → List String → Prop) (ts : Toks) : Prop := ∀ t ∈ ts, OkTok A B t

section
variable {A : Span → Prop} {B : String → List String → Prop}

theorem S.nil : S A B [] := fun _ h => by cases h

theorem S.append {x y : Toks} (hx : S A B x) (hy : S A B y) : S A B (x ++ y) := by
  intro t ht
  rcases List.mem_append.1 ht with h | h
  · exact hx t h
  · exact hy t h

theorem S.flatMap {α : Type} {l : List α} {f : α → Toks} (h : ∀ x ∈ l, S A B (f x)) : S A B (l.flatMap f) := by
  intro t ht
  obtain ⟨x, hx, ht⟩ := List.mem_flatMap.1 ht
  exact h x hx t ht

theorem S.ite {x y : Toks} {c : Prop} [Decidable c] (hx : S A B x) (hy : S A B y) : S A B (if c then x else y) := by
  split <;> assumption

theorem s_U (x : String) : S A B (U x) := fun t ht => by obtain rfl := List.mem_singleton.1 ht; trivial
theorem s_P (q : Quote) (p : String) : S A B (P q p) := fun t ht => by obtain rfl := List.mem_singleton.1 ht; trivial
theorem s_attr (q : Quote) (n : String) (as : List String) (h : B n as) : S A B (attr q n as) :=
  fun t ht => by obtain rfl := List.mem_singleton.1 ht; exact h
theorem s_allow (q : Quote) (as : List String) (h : ∀ l ∈ as, l ∈ silenced) : S A GeneratedAttr (attr q "allow" as) :=
  s_attr q _ as (.inl ⟨rfl, h⟩)
theorem s_users (l : List String) : S A B (l.map .user) := fun t ht => by
  obtain ⟨x, -, rfl⟩ := List.mem_map.1 ht; trivial
theorem s_life (lt l : String) : S A B [life lt l] := fun t ht => by
  obtain rfl := List.mem_singleton.1 ht
  unfold life
  split <;> trivial
theorem s_vis (v : Vis) : S A B (vis v) := by
  cases v with
  | inherited => exact .nil
  | pub => exact s_U _
  | restricted i p => exact s_users _

theorem s_W (q : Quote) (hq : A q.s) (w : String) (hw : w ≠ "unsafe") : S A B (W q w) := fun t ht => by
  obtain rfl := List.mem_singleton.1 ht
  exact ⟨hq, fun h => absurd h hw⟩

section
variable (q : Quote) (hq : A q.s)

theorem s_sep (ts : List Toks) (h : ∀ t ∈ ts, S A B t) : S A B (sep q ts) := .flatMap fun t ht => (h t ht).append (s_P q _)
theorem s_parens (ts : List Toks) (h : ∀ t ∈ ts, S A B t) : S A B (parens q ts) :=
  ((s_P q _).append (s_sep q ts h)).append (s_P q _)
theorem s_angles (ts : List Toks) (h : ∀ t ∈ ts, S A B t) : S A B (angles q ts) :=
  .ite .nil (((s_P q _).append (s_sep q ts h)).append (s_P q _))
theorem s_delimited (d : Option Delim) (ts : List Toks) (h : ∀ t ∈ ts, S A B t) : S A B (delimited q d ts) := by
  unfold delimited
  split
  · exact .nil
  all_goals exact ((s_P q _).append (s_sep q ts h)).append (s_P q _)

include hq

theorem s_segments (ns : List String) (h : "unsafe" ∉ ns) : S A B (segments q ns) := by
  induction ns with
  | nil => exact .nil
  | cons n ns ih =>
    exact ((s_P q _).append (s_W q hq n fun e => h (by simp [e]))).append (ih fun e => h (List.mem_cons_of_mem _ e))
theorem s_root (r : Root) : S A B (root q r) := by
  cases r with
  | abs => exact (s_P q _).append (s_W q hq _ (by decide))
  | local_ => exact s_W q hq _ (by decide)
theorem s_priv (r : Root) (ns : List String) (h : "unsafe" ∉ ns) : S A B (priv q r ns) :=
  (s_root q hq r).append (s_segments q hq _ (by simpa using h))
omit hq in
theorem s_garg (a : GArg) : S A B (garg q a) := by
  cases a with
  | lifetime s => exact s_life _ _
  | ident s => exact s_U _
omit hq in
theorem s_adt (n : String) (as : List GArg) : S A B (adt q n as) :=
  (s_U _).append (s_angles q _ fun t ht => by obtain ⟨a, -, rfl⟩ := List.mem_map.1 ht; exact s_garg q a)

omit hq in
theorem s_generic {x y : Toks} (hx : S A B x) (hy : S A B y) : S A B (x ++ P q "<" ++ y ++ P q ">") :=
  ((hx.append (s_P q _)).append hy).append (s_P q _)

theorem s_ty (t : GTy) : S A B (ty q t) := by
  induction t with
  | user n => exact s_users _
  | paren t ih => exact ((s_P q _).append ih).append (s_P q _)
  | ref lt m t ih =>
    have h1 : S A B (lt.toList.map (life q.lt)) := by
      cases lt with
      | none => exact .nil
      | some l => exact s_life _ _
    exact (((s_P q _).append h1).append (.ite (s_W q hq _ (by decide)) .nil)).append ih
  | pin r t ih => exact s_generic q (s_priv q hq _ _ (by decide)) ih
  | phantomData r t ih => exact s_generic q (s_priv q hq _ _ (by decide)) ih
  | phantomPinned => exact s_priv q hq _ _ (by decide)
  | adt n as => exact s_adt q n as
  | param n => exact s_U _
  | selfTy => exact s_W q hq _ (by decide)
  | ptrMut t ih => exact ((s_P q _).append (s_W q hq _ (by decide))).append ih
  | pinnedFieldsOf t ih => exact s_generic q (s_priv q hq _ _ (by decide)) ih
  | wrapper lt t ih =>
    exact (((((s_priv q hq _ _ (by decide)).append (s_P q _)).append (s_life _ _)).append (s_P q _)).append ih).append
      (s_P q _)
  | alwaysUnpin lt ps =>
    refine (((((s_priv q hq _ _ (by decide)).append (s_P q _)).append (s_life _ _)).append (s_P q _)).append
      (s_parens q _ fun t ht => ?_)).append (s_P q _)
    obtain ⟨p, -, rfl⟩ := List.mem_map.1 ht
    exact s_generic q (s_priv q hq _ _ (by decide)) (s_U p)
  | unit => exact (s_P q _).append (s_P q _)

theorem s_trait (t : GTrait) : S A B (trait_ q t) := by
  cases t with
  | unsafeUnpin => exact (s_root q hq _).append (s_segments q hq _ (by decide))
  | mustNotImplDrop n => exact s_U _
  | _ => exact s_priv q hq _ _ (by decide)

omit hq in
theorem s_gparam (p : GParam) : S A B (gparam q p) := by
  cases p with
  | lifetime n bs => exact S.append (x := [_]) (s_life _ _) (s_users _)
  | type n bs d => exact s_users _
  | const n t d => exact s_users _

omit hq in
theorem s_generics (ps : List GParam) : S A B (generics q ps) :=
  s_angles q _ fun t ht => by obtain ⟨a, -, rfl⟩ := List.mem_map.1 ht; exact s_gparam q a

omit hq in
theorem s_pred (hs : A .site) (b : Span) (hb : A b) (p : WPred) : S A B (pred q b p) := by
  cases p with
  | user n => exact s_users _
  | outlives t lt => exact ((s_ty ⟨q.lt, .site⟩ hs t).append (s_P _ _)).append (s_life _ _)
  | bound t tr => exact ((s_ty ⟨q.lt, b⟩ hb t).append (s_P _ _)).append (s_trait ⟨q.lt, b⟩ hb tr)

omit hq in
theorem s_wheres (hs : A .site) (b : Span) (hb : A b) (ps : List WPred) : S A B (wheres q b ps) :=
  .ite .nil ((s_W ⟨q.lt, .site⟩ hs _ (by decide)).append (s_sep _ _ fun t ht => by
    obtain ⟨a, -, rfl⟩ := List.mem_map.1 ht; exact s_pred q hs b hb a))


theorem s_field (own : Bool) (f : GField) (h : own = true → ∀ i, f.ident = some i → OwnName i) :
    S A B (field q own f) := by
  refine ((s_vis _).append ?_).append (s_ty q hq _)
  cases hf : f.ident with
  | none => exact .nil
  | some i =>
    refine S.append ?_ (s_P q _)
    show S A B (if own = true then W q i else U i)
    split
    · next ho => exact s_W q hq _ (ownName_safe (h ho i hf))
    · exact s_U i

theorem s_fields (own : Bool) (f : GFields) (h : own = true → ∀ g ∈ f.fields, ∀ i, g.ident = some i → OwnName i) :
    S A B (fields q own f) :=
  s_delimited q _ _ fun t ht => by
    obtain ⟨g, hg, rfl⟩ := List.mem_map.1 ht
    exact s_field q hq own g fun ho i hi => h ho g hg i hi

variable (hs : A .site)
include hs

omit hq in
theorem s_binder {d : Option Delim} {x : String} (h : BinderOk d x) : S A B (binder q d x) := by
  unfold binder
  split
  · exact s_U x
  · next hd => exact s_W ⟨q.lt, .site⟩ hs _ (ownName_safe (h hd))

theorem s_pat {p : GPat} (h : PatOk p) : S A B (pat q p) := by
  refine ((s_W q hq _ (by decide)).append ?_).append (s_delimited q _ _ fun t ht => ?_)
  · split
    · exact (s_P q _).append (s_U _)
    · exact .nil
  · obtain ⟨x, hx, rfl⟩ := List.mem_map.1 ht
    exact s_binder q hs (h x hx)

omit hs hq in
theorem s_call {x y : Toks} (hx : S A B x) (hy : S A B y) : S A B (x ++ P q "(" ++ y ++ P q ")") :=
  ((hx.append (s_P q _)).append hy).append (s_P q _)

theorem s_fexpr {d : Option Delim} {e : FExpr} (h : FExprOk d e) : S A B (fexpr q d e) := by
  cases e with
  | bind x => exact s_binder q hs h
  | pinNew x => exact s_call q (s_priv q hq _ _ (by decide)) (s_binder q hs h)
  | read x => exact s_call q (s_priv q hq _ _ (by decide)) (s_binder q hs h)
  | phantom => exact s_priv q hq _ _ (by decide)

theorem s_init {d : Option Delim} {i : GInit} (h : InitOk d i) : S A B (init q d i) := by
  cases i with
  | bare x => exact s_binder q hs h
  | labelled i e =>
    refine S.append ?_ (s_fexpr q hq hs h)
    cases i with
    | none => exact .nil
    | some i => exact (s_U i).append (s_P q _)

theorem s_ctor {c : GCtor} (h : CtorOk c) : S A B (ctor q c) := by
  refine ((s_U _).append ?_).append (s_delimited q _ _ fun t ht => ?_)
  · split
    · exact (s_P q _).append (s_U _)
    · exact .nil
  · obtain ⟨x, hx, rfl⟩ := List.mem_map.1 ht
    exact s_init q hq hs (h x hx)

omit hs in
theorem s_local {x : String} (h : LocalName x) : S A B (W q x) := s_W q hq x (localName_safe h)

theorem s_rhs {d : Option Delim} {e : RHS} (h : RhsOk d e) : S A B (rhs q d e) := by
  cases e with
  | var x => exact s_local q hq h
  | getUncheckedMut x | getRef x =>
    exact ((((s_local q hq h).append (s_P q _)).append (s_W q hq _ (by decide))).append (s_P q _)).append (s_P q _)
  | reborrow x => exact (((s_P q _).append (s_W q hq _ (by decide))).append (s_P q _)).append (s_local q hq h)
  | pinNew x => exact s_call q (s_priv q hq _ _ (by decide)) (s_local q hq h)
  | ctor c => exact s_ctor q hq hs h
  | overwriteGuard p v =>
    exact (((((s_priv q hq _ _ (by decide)).append (s_P q _)).append (s_local q hq h.1)).append (s_P q _)).append
      (s_local q hq h.2)).append (s_P q _)
  | dropGuard x => exact s_call q (s_priv q hq _ _ (by decide)) (s_binder q hs h)
  | pinnedDropCall x => exact s_call q (s_priv q hq _ _ (by decide)) (s_local q hq h)
  | unit => exact .nil

omit hs in
theorem s_ascription {t : Option String} (h : ∀ s, t = some s → s = "*mut Self") : S A B (ascription q t) := by
  cases t with
  | none => exact .nil
  | some s =>
    obtain rfl := h s rfl
    exact (s_P q _).append (((s_P q _).append (s_W q hq _ (by decide))).append (s_W q hq _ (by decide)))

theorem s_stmt {d : Option Delim} {s : GStmt} (h : StmtOk d s) : S A B (stmt q d s) := by
  have hlet : S A B (W q "let") := s_W q hq _ (by decide)
  cases s with
  | letPat p e => exact (((hlet.append (s_pat q hq hs h.1)).append (s_P q _)).append (s_rhs q hq hs h.2)).append (s_P q _)
  | letVar x t e =>
    exact ((((hlet.append (s_local q hq h.1)).append (s_ascription q hq h.2.1)).append (s_P q _)).append
      (s_rhs q hq hs h.2.2)).append (s_P q _)
  | scope ss =>
    refine ((s_P q _).append (S.flatMap fun s hss => ?_)).append (s_P q _)
    exact (((hlet.append (s_local q hq (h s hss).1)).append (s_P q _)).append (s_rhs q hq hs (h s hss).2)).append (s_P q _)
  | expr e => exact (s_rhs q hq hs h).append (s_P q _)

theorem s_arm (brace : Bool) {a : GArm} (h : ArmOk a) : S A B (arm q brace a) :=
  (((((s_pat q hq hs h.1).append (s_P q _)).append (.ite (s_P q _) .nil)).append
    (S.flatMap fun s hss => s_stmt q hq hs (h.2.1 s hss))).append (s_rhs q hq hs h.2.2)).append
    (.ite (s_P q _) (s_P q _))

theorem s_body {b : GBody} (h : BodyOk b) : S A B (body q b) := by
  refine (S.flatMap fun s hss => s_stmt q hq hs (h.1 s hss)).append ?_
  have h2 := h.2
  cases hb : b.tail with
  | expr e => rw [hb] at h2; exact s_rhs q hq hs h2
  | match_ s arms =>
    rw [hb] at h2
    exact ((((s_W q hq _ (by decide)).append (s_rhs q hq hs h2.1)).append (s_P q _)).append
      (S.flatMap fun a ha => s_arm q hq hs _ (h2.2 a ha))).append (s_P q _)

omit hs in
theorem s_receiver (t : GTy) : S A B (receiver q t) := by
  unfold receiver
  split
  · exact ((s_P q _).append (s_W q hq _ (by decide))).append (s_W q hq _ (by decide))
  · exact ((s_W q hq _ (by decide)).append (s_P q _)).append (s_ty q hq _)

omit hq in
theorem s_unsafety : S A B unsafety := fun t ht => by
  obtain rfl := List.mem_singleton.1 ht
  exact ⟨hs, fun _ => rfl⟩

theorem s_sig {f : GFn} (h : FnOk f) : S A B (sig q f) := by
  refine ((((((s_vis _).append (.ite (s_unsafety hs) .nil)).append (s_W q hq _ (by decide))).append
    (s_W q hq _ (fnName_safe h))).append (s_angles q _ fun t ht => ?_)).append (s_parens q _ fun t ht => ?_)).append ?_
  · obtain ⟨l, -, rfl⟩ := List.mem_map.1 ht
    exact s_life _ _
  · rcases List.mem_cons.1 ht with rfl | ht
    · exact s_receiver q hq _
    · obtain ⟨p, hp, rfl⟩ := List.mem_map.1 ht
      exact ((s_local q hq (h.params p hp)).append (s_P q _)).append (s_ty q hq _)
  · split
    · exact .nil
    · exact (s_P q _).append (s_ty q hq _)

omit hs hq in
theorem s_fnAttr (a : String)
    (h : a ∈ ["allow(dead_code)", "inline", "allow(clippy::missing_inline_in_public_items)"]) :
    S A GeneratedAttr (fnAttr q a) := by
  simp only [List.mem_cons, List.not_mem_nil, or_false] at h
  rcases h with rfl | rfl | rfl
  · exact s_allow q ["dead_code"] (by decide)
  · exact s_attr q "inline" [] (.inr (.inr (.inl ⟨rfl, rfl⟩)))
  · exact s_allow q ["clippy::missing_inline_in_public_items"] (by decide)

theorem s_fn (s : Span) (hA : A s) {f : GFn} (h : FnOk f) : S A GeneratedAttr (fn q s f) :=
  ((((S.flatMap fun a ha => s_fnAttr q a (h.attrs a ha)).append (s_sig ⟨q.lt, s⟩ hA hs h)).append (s_P q _)).append
    (.ite ((((s_unsafety hs).append (s_P q _)).append (s_body q hq hs h.body)).append (s_P q _))
      (s_body q hq hs h.body))).append (s_P q _)

end
end

theorem s_fieldRef {A : Span → Prop} (r : String) : S A GeneratedAttr (fieldRef r) :=
  .ite (fun t ht => by obtain rfl := List.mem_singleton.1 ht; trivial)
    (fun t ht => by obtain rfl := List.mem_singleton.1 ht; trivial)

theorem s_assertFn {A : Span → Prop} (hs : A .site) (lt : String) (ps : List GParam) (n : String) (as : List GArg)
    (ws : List WPred) (refs : List String) : S A GeneratedAttr (assertFn lt ps n as ws refs) := by
  have w : ∀ x, x ≠ "unsafe" → S A GeneratedAttr (W ⟨lt, .site⟩ x) := fun x hx => s_W ⟨lt, .site⟩ hs x hx
  have p : ∀ x, S A GeneratedAttr (P ⟨lt, .site⟩ x) := fun x => s_P _ x
  exact (((((((((((((s_attr _ _ _ (.inr (.inl ⟨rfl, rfl⟩))).append (w _ (by decide))).append (w _ (by decide))).append (s_generics _ ps)).append
    (p _)).append (w _ (by decide))).append (p _)).append (p _)).append (s_adt _ n as)).append (p _)).append
    (s_wheres _ hs _ hs ws)).append (p _)).append (S.flatMap fun r _ => ((((((((w _ (by decide)).append
    (w _ (by decide))).append (p _)).append (p _)).append (w _ (by decide))).append (p _)).append (s_fieldRef r)).append
    (p _)))).append (p _)

/-- Any spans. -/
abbrev Any : Span → Prop := fun _ => True

/-- The lints of a type definition. -/
def LintsOk : GItem → Prop
  | .struct_ attrs _ _ _ _ _ | .enum_ attrs _ _ _ _ _ => ∀ l ∈ attrs, l ∈ silenced
  | _ => True

theorem s_item (lt : String) (u : UnpinImpl) (own : Bool) {i : GItem} (h : ItemOk own i) (hl : LintsOk i) :
    S Any GeneratedAttr (item lt u own i) := by
  have w : ∀ (q : Quote) x, x ≠ "unsafe" → S Any GeneratedAttr (W q x) := fun q x hx => s_W q trivial x hx
  have p : ∀ (q : Quote) x, S Any GeneratedAttr (P q x) := fun q x => s_P q x
  have ws' : ∀ (q : Quote) b ps, S Any GeneratedAttr (wheres q b ps) := fun q b ps => s_wheres q trivial b trivial ps
  cases i with
  | struct_ attrs v n ps ws fs =>
    exact ((((((s_allow _ _ hl).append (s_vis v)).append (w _ _ (by decide))).append (s_U n)).append
      (s_generics _ ps)).append (.ite (((s_fields _ trivial own fs h).append (ws' _ _ ws)).append (p _ _))
      ((ws' _ _ ws).append (s_fields _ trivial own fs h))))
  | enum_ attrs v n ps ws vs =>
    refine (((((((((s_allow _ _ hl).append (s_vis v)).append (w _ _ (by decide))).append (s_U n)).append
      (s_generics _ ps)).append (ws' _ _ ws)).append (p _ _)).append (s_sep _ _ fun t ht => ?_)).append (p _ _))
    obtain ⟨x, hx, rfl⟩ := List.mem_map.1 ht
    exact (s_U x.1).append (s_fields _ trivial own x.2 fun ho => by rw [show own = false from h] at ho; cases ho)
  | inherent ps n as ws fns =>
    refine (((((((w _ _ (by decide)).append (s_generics _ ps)).append (s_adt _ n as)).append (ws' _ _ ws)).append
      (p _ _)).append (S.flatMap fun f hf => ?_)).append (p _ _))
    obtain ⟨g, hg, rfl⟩ := List.mem_map.1 hf
    exact s_fn _ trivial trivial _ trivial (h g hg)
  | traitImpl hidden isUnsafe ps tr n as ws fns =>
    refine (((((((((((S.ite (s_attr _ _ _ (.inr (.inr (.inr ⟨rfl, rfl⟩)))) .nil).append (.ite (s_unsafety trivial) .nil)).append
      (w _ _ (by decide))).append (s_generics _ ps)).append (s_trait _ trivial tr)).append (w _ _ (by decide))).append
      (s_adt _ n as)).append (ws' _ _ ws)).append (p _ _)).append (S.flatMap fun f hf => ?_)).append (p _ _))
    obtain ⟨g, hg, rfl⟩ := List.mem_map.1 hf
    exact s_fn _ trivial trivial _ trivial (h g hg)
  | traitDef n => exact (((w _ _ (by decide)).append (s_U n)).append (p _ _)).append (p _ _)
  | blanketDrop n =>
    exact ((((((((((((s_allow _ _ (by decide)).append (w _ _ (by decide))).append (p _ _)).append (w _ _ (by decide))).append
      (p _ _)).append (s_priv _ trivial _ _ (by decide))).append (p _ _)).append (s_U n)).append
      (w _ _ (by decide))).append (w _ _ (by decide))).append (p _ _)).append (p _ _))
  | assertNotPacked ps n as ws refs =>
    refine S.flatMap fun f hf => ?_
    obtain rfl := List.mem_singleton.1 hf
    exact s_assertFn trivial lt ps n as ws refs

theorem s_expansion (cx : Ctx) {E : Expansion} (h : ExpansionOk E) (hl : ∀ i ∈ allItems E, LintsOk i) :
    S Any GeneratedAttr (expansion cx E) := by
  have w : ∀ x, x ≠ "unsafe" → S Any GeneratedAttr (W ⟨cx.lifetime, .site⟩ x) := fun x hx => s_W _ trivial x hx
  have p : ∀ x, S Any GeneratedAttr (P ⟨cx.lifetime, .site⟩ x) := fun x => s_P _ x
  exact ((((((((((((((((((S.flatMap fun i hi => s_item _ _ _ (h.1 i hi) (hl i (List.mem_append_left _ hi))).append (s_allow _ _ (by decide))).append
    (w _ (by decide))).append (w _ (by decide))).append (p _)).append (p _)).append (p _)).append (p _)).append
    (p _)).append (s_allow _ _ (by decide))).append (w _ (by decide))).append (w _ (by decide))).append
    (w _ (by decide))).append (w _ (by decide))).append (w _ (by decide))).append (p _)).append
    (S.flatMap fun i hi => s_item _ _ _ (h.2 i hi) (hl i (List.mem_append_right _ hi)))).append (p _)).append (p _)

/-- The attribute of pinned_drop.rs:225-229. -/
abbrev AllowDrop : String → List String → Prop := fun n as => n = "allow" ∧ as = dropLints

theorem s_pinnedDrop (i : PinnedDropImpl) (attrs : List Attribute) (v : Vis) (sg : Signature) (ias : List Attribute) (f : DropInner)
    (hf : f.name = "__drop_inner") (hi : i.items = [.drop attrs v sg ias [.fnItem f, .call "__drop_inner" "self"]])
    (hp : i.traitPath = .mk true [.mk "pin_project" .none, .mk "__private" .none, .mk "PinnedDrop" .none]) :
    S Any AllowDrop (pinnedDrop i) := by
  have w : ∀ x, x ≠ "unsafe" → S Any AllowDrop (W dropQuote x) := fun x hx => s_W _ trivial x hx
  have p : ∀ x, S Any AllowDrop (P dropQuote x) := fun x => s_P _ x
  have ws' : ∀ ps, S Any AllowDrop (wheres dropQuote .site ps) := fun ps => s_wheres _ trivial _ trivial ps
  have a : ∀ l : List Attribute, S Any AllowDrop (l.flatMap userAttr) := fun l => S.flatMap fun _ _ => s_users _
  have ia : ∀ l : List Attribute, S Any AllowDrop (l.flatMap innerAttr) := fun l => S.flatMap fun x _ => by
    have h : (userAttr x).tail = ((match x.m with
      | .path p => ["["] ++ spath p ++ ["]"]
      | .list p d ts => ["["] ++ spath p ++ tts [.group d ts] ++ ["]"]
      | .nameValue p ts => ["["] ++ spath p ++ ["="] ++ tts ts ++ ["]"])).map .user := by
      unfold userAttr
      cases x.m <;> rfl
    unfold innerAttr
    rw [h]
    exact ((s_U _).append (s_U _)).append (s_users _)
  have hinner : S Any AllowDrop (inner f) := by
    refine (((((((((((((((((((((s_attr _ _ _ ⟨rfl, rfl⟩).append (a _)).append (s_vis _)).append (((s_users _).append (.ite (s_U _) .nil)).append (s_users _))).append
      (w _ (by decide))).append (w _ (by rw [hf]; decide))).append (s_generics _ _)).append (p _)).append (a _)).append
      (.ite (s_U _) .nil)).append (s_U _)).append (p _)).append (s_users _)).append (s_users _)).append (p _)).append ?_).append
      (ws' _)).append (p _)).append (ia _)).append (s_users _)).append (p _))
    split
    · exact s_users _
    · exact .nil
  have hpath : S Any AllowDrop (templatePath dropQuote i.traitPath) := by
    rw [hp]
    exact (S.ite (p _) .nil).append ((w _ (by decide)).append (s_segments _ trivial _ (by decide)))
  refine ((((((((((((((a _).append (.ite (s_U _) .nil)).append (.ite (s_U _) .nil)).append (s_U _)).append (s_generics _ _)).append
    (.ite (s_U _) .nil)).append hpath).append (s_U _)).append (s_users _)).append (ws' _)).append (p _)).append (ia _)).append
    (S.flatMap fun x hx => ?_)).append (p _))
  rw [hi] at hx
  obtain rfl := List.mem_singleton.1 hx
  refine (((((((((((((a _).append (s_vis _)).append (((s_users _).append (.ite (s_unsafety trivial) .nil)).append (s_users _))).append
    (s_users _)).append (s_generics _ _)).append (s_users _)).append (a _)).append (s_users _)).append (ws' _)).append
    (p _)).append (ia _)).append (S.flatMap fun s hs => ?_)).append (p _))
  simp only [List.mem_cons, List.not_mem_nil, or_false] at hs
  rcases hs with rfl | rfl
  · exact hinner
  · exact ((((w _ (by decide)).append (p _)).append (s_U _)).append (p _)).append (p _)

end Emit

theorem lints_ok (cx : Ctx) (l : String) :
    (l ∈ (projAllowedLints cx).1 → l ∈ silenced) ∧ (l ∈ (projAllowedLints cx).2.1 → l ∈ silenced) ∧
      (l ∈ (projAllowedLints cx).2.2 → l ∈ silenced) := by
  have key : ∀ l ∈ globalAllowedLints ++ ["dead_code", "clippy::missing_docs_in_private_items", "clippy::mut_mut",
      "clippy::ref_option_ref", "variant_size_differences", "clippy::large_enum_variant"], l ∈ silenced := by
    decide
  refine ⟨fun h => key l ?_, fun h => key l ?_, fun h => key l ?_⟩ <;>
    (simp only [projAllowedLints] at h; generalize globalAllowedLints = G at h ⊢) <;> (repeat' split at h) <;>
      simp only [List.mem_append, List.mem_cons, List.not_mem_nil, or_false] at h ⊢ <;> grind

theorem unpin_lints (cx : Ctx) (tys : List Node) : ∀ i ∈ makeUnpinImpl cx tys, Emit.LintsOk i := by
  intro i hi
  unfold makeUnpinImpl at hi
  split at hi
  · obtain rfl := List.mem_singleton.1 hi
    trivial
  · simp only [List.mem_cons, List.not_mem_nil, or_false] at hi
    rcases hi with rfl | rfl <;> trivial
  · simp only [List.mem_cons, List.not_mem_nil, or_false] at hi
    rcases hi with rfl | rfl | rfl
    · show ∀ l ∈ ["missing_debug_implementations", "unnameable_types"], _
      decide
    · trivial
    · trivial

theorem drop_lints (cx : Ctx) : ∀ i ∈ makeDropImpl cx, Emit.LintsOk i := by
  intro i hi
  unfold makeDropImpl at hi
  split at hi <;> simp only [List.mem_cons, List.not_mem_nil, or_false] at hi
  · subst hi
    trivial
  · rcases hi with rfl | rfl | rfl | rfl <;> trivial

theorem expansion_lints {item : Item} {E : Expansion} (h : parseDerive item = .ok E) :
    ∀ i ∈ allItems E, Emit.LintsOk i := by
  intro i hi
  cases item with
  | other a => cases h
  | struct_ s =>
    obtain ⟨A, -, -, -, -, -, -, rfl⟩ := (deriveStruct_iff s E).1 h
    simp only [allItems, structExpansion, List.mem_append, List.mem_ite_nil_left, List.mem_ite_nil_right,
      List.mem_singleton] at hi
    rcases hi with ((⟨_, rfl⟩ | ⟨_, rfl⟩) | ⟨_, _, rfl⟩) |
      (((((⟨_, rfl⟩ | ⟨_, rfl⟩) | ⟨_, _, rfl⟩) | rfl) | rfl) | hi) | hi
    all_goals first
      | exact unpin_lints _ _ i hi
      | exact drop_lints _ i hi
      | exact fun l hl => (lints_ok _ l).1 hl
      | exact fun l hl => (lints_ok _ l).2.1 hl
      | exact fun l hl => (lints_ok _ l).2.2 hl
      | trivial
  | enum_ s =>
    obtain ⟨A, -, -, -, -, -, -, -, rfl⟩ := (deriveEnum_iff s E).1 h
    simp only [allItems, enumExpansion, List.mem_append, List.mem_ite_nil_right,
      List.mem_singleton] at hi
    rcases hi with ((⟨_, rfl⟩ | ⟨_, rfl⟩) | ⟨_, rfl⟩) | (rfl | hi) | hi
    all_goals first
      | exact unpin_lints _ _ i hi
      | exact drop_lints _ i hi
      | exact fun l hl => (lints_ok _ l).1 hl
      | exact fun l hl => (lints_ok _ l).2.1 hl
      | exact fun l hl => (lints_ok _ l).2.2 hl
      | trivial

/-- **C75** Every `unsafe` in the expansion of `#[pin_project]` that is not the user's has the call-site span. -/
theorem C75_unsafe (item : Item) (hwf : ItemWF item) (toks : List ETok) (h : deriveTokens item = .ok toks) (s : Span)
    (hs : .word "unsafe" s ∈ toks) : s = .site := by
  obtain ⟨cx, E, -, h2, ht⟩ := deriveTokens_inv h
  rw [ht] at hs
  exact (Emit.s_expansion cx (expansion_ok hwf h2) (expansion_lints h2) _ hs).2 rfl

/-- **C75** The same for `#[pinned_drop]`. -/
theorem C75_unsafe_pinned_drop (args : List TT) (item : ItemImpl) (out : PinnedDropImpl)
    (h : pinnedDropAttribute args item = .expanded out) (s : Span) (hs : .word "unsafe" s ∈ Emit.pinnedDrop out) :
    s = .site := by
  rcases attribute_cases args item with ⟨neg, m, q, p, b, sh, ty, ⟨hc, -⟩, hty, hr, hpin, heq⟩ | ⟨_, h2⟩
  · rw [heq] at h
    obtain rfl := PinnedDropOut.expanded.inj h
    exact (Emit.s_pinnedDrop _ m.attrs m.vis { m.sig with isUnsafe := true, inputs := [.receiver false sh ty] } m.innerAttrs
      (dropInner ⟨q, p, item.selfToks⟩ item.generics m b ty) rfl rfl rfl _ hs).2 rfl
  · exact absurd h (h2 out)

/-! ## Hygiene -/

namespace Emit

/-- The function of the generated `Drop` impl (derive.rs:869-884) and that of the generated `PinnedDrop` impl
(derive.rs:926-931). -/
def dropFn : GFn :=
  { attrs := ["allow(clippy::missing_inline_in_public_items)"], vis := .inherited
    isUnsafe := false, name := "drop", ltParam := none
    recv := .ref none true .selfTy, params := [], ret := .unit
    unsafeBlock := true
    body := ⟨[.letVar "__pinned_self" none (.pinNew "self"), .expr (.pinnedDropCall "__pinned_self")], .expr .unit⟩ }
def emptyDropFn : GFn :=
  { attrs := [], vis := .inherited, isUnsafe := true, name := "drop", ltParam := none
    recv := pinMutSelf none, params := [], ret := .unit
    unsafeBlock := false, body := ⟨[], .expr .unit⟩ }

/-- Where functions come from. -/
def Known : GItem → Prop
  | .inherent _ _ _ _ fns => ∀ f ∈ fns, ∃ cx b, f = projectFn cx b ∨ f = projectRefFn cx b ∨ f = projectReplaceFn cx b
  | .traitImpl _ _ _ _ _ _ _ fns => ∀ f ∈ fns, f = dropFn ∨ f = emptyDropFn
  | _ => True

theorem known_impl (cx : Ctx) (b1 b2 b3 : GBody) : Known (makeProjImpl cx b1 b2 b3) := by
  rw [makeProjImpl_eq]
  intro f hf
  simp only [implFns, List.mem_append] at hf
  rcases hf with (hf | hf) | hf <;> split at hf <;> simp at hf
  · exact ⟨cx, b1, .inl hf⟩
  · exact ⟨cx, b2, .inr (.inl hf)⟩
  · exact ⟨cx, b3, .inr (.inr hf)⟩

theorem known_unpin (cx : Ctx) (tys : List Node) : ∀ i ∈ makeUnpinImpl cx tys, Known i := by
  intro i hi
  unfold makeUnpinImpl at hi
  split at hi <;> simp only [List.mem_cons, List.not_mem_nil, or_false] at hi
  · subst hi; exact fun f hf => by cases hf
  · rcases hi with rfl | rfl <;> exact fun f hf => by cases hf
  · rcases hi with rfl | rfl | rfl
    · trivial
    · exact fun f hf => by cases hf
    · exact fun f hf => by cases hf

theorem known_drop (cx : Ctx) : ∀ i ∈ makeDropImpl cx, Known i := by
  intro i hi
  unfold makeDropImpl at hi
  split at hi <;> simp only [List.mem_cons, List.not_mem_nil, or_false] at hi
  · subst hi
    intro f hf
    exact .inl (List.mem_singleton.1 hf)
  · rcases hi with rfl | rfl | rfl | rfl
    · trivial
    · trivial
    · exact fun f hf => by cases hf
    · intro f hf
      exact .inr (List.mem_singleton.1 hf)

theorem known {item : Item} {E : Expansion} (h : parseDerive item = .ok E) : ∀ i ∈ E.exposed ++ E.inScope, Known i := by
  intro i hi
  cases item with
  | struct_ s =>
    obtain ⟨A, -, -, -, -, -, -, rfl⟩ := (deriveStruct_iff s E).1 h
    generalize s.ctx A = cx at hi
    generalize s.pre.fields = fields at hi
    simp only [structExpansion, List.mem_append] at hi
    rcases hi with ((hi | hi) | hi) | (((((hi | hi) | hi) | hi) | hi) | hi) | hi
    · split at hi <;> simp at hi; subst hi; trivial
    · split at hi <;> simp at hi; subst hi; trivial
    · (repeat' split at hi) <;> simp at hi; subst hi; trivial
    · split at hi <;> simp at hi; subst hi; trivial
    · split at hi <;> simp at hi; subst hi; trivial
    · (repeat' split at hi) <;> simp at hi; subst hi; trivial
    · obtain rfl := List.mem_singleton.1 hi; exact known_impl _ _ _ _
    · obtain rfl := List.mem_singleton.1 hi; trivial
    · exact known_unpin _ _ i hi
    · exact known_drop _ i hi
  | enum_ s =>
    obtain ⟨A, -, -, -, -, -, -, -, rfl⟩ := (deriveEnum_iff s E).1 h
    generalize s.ctx A = cx at hi
    generalize s.pre.variants = vs at hi
    simp only [enumExpansion, List.mem_append] at hi
    rcases hi with ((hi | hi) | hi) | (hi | hi) | hi
    · split at hi <;> simp at hi; subst hi; trivial
    · split at hi <;> simp at hi; subst hi; trivial
    · (repeat' split at hi) <;> simp at hi; subst hi; trivial
    · obtain rfl := List.mem_singleton.1 hi; exact known_impl _ _ _ _
    · exact known_unpin _ _ i hi
    · exact known_drop _ i hi
  | other a => cases h

theorem not_local_unsafe : ¬ LocalVariable "unsafe" := by
  rintro (h | ⟨n, h⟩)
  · revert h; decide
  · have := congrArg (fun s => s.toList.head?) h
    simp only [String.toList_append] at this
    rw [show "_".toList = ['_'] from by decide,
      show "unsafe".toList = ['u', 'n', 's', 'a', 'f', 'e'] from by decide] at this
    simp at this

theorem drop_words (lt : String) (s : Span) (x : String) (s' : Span) (hx : LocalVariable x)
    (h : .word x s' ∈ fn ⟨lt, s⟩ s dropFn ∨ .word x s' ∈ fn ⟨lt, s⟩ s emptyDropFn) : s' = s := by
  simp [fn, dropFn, emptyDropFn, fnAttr, attr, sig, vis, W, P, angles, parens, sep, receiver, pinMutSelf, ty, priv, root,
    segments, unsafety, body, structDelim, stmt, rhs, ascription] at h
  by_cases hs : s' = s
  · exact hs
  · exfalso
    simp [hs] at h
    rw [h.1] at hx
    exact not_local_unsafe hx

end Emit

/-- The tokens `ts` of the function `name` of the expansion. -/
def IsFunction (item : Item) (name : String) (ts : List ETok) : Prop :=
  ∃ cx E, deriveCtx item = .ok cx ∧ parseDerive item = .ok E ∧
    ∃ i ∈ E.exposed ++ E.inScope, (name, ts) ∈ Emit.functions cx.lifetime cx.unpinImpl i

theorem functions_infix (lt : String) (u : UnpinImpl) (own : Bool) (i : GItem) (name : String) (ts : List ETok)
    (h : (name, ts) ∈ Emit.functions lt u i) : ts <:+: Emit.item lt u own i := by
  have key : ts <:+: (Emit.functions lt u i).flatMap Prod.snd := by
    obtain ⟨a, b, hab⟩ := List.append_of_mem h
    rw [hab]
    exact ⟨a.flatMap Prod.snd, b.flatMap Prod.snd, by simp⟩
  cases i with
  | inherent ps n as ws fns => exact key.trans (List.infix_append _ _ _)
  | traitImpl hidden isUnsafe ps tr n as ws fns => exact key.trans (List.infix_append _ _ _)
  | assertNotPacked ps n as ws refs => exact key
  | _ => cases h

theorem infix_flatMap {α : Type} (f : α → Emit.Toks) {l : List α} {i : α} (h : i ∈ l) : f i <:+: l.flatMap f := by
  obtain ⟨a, b, rfl⟩ := List.append_of_mem h
  exact ⟨a.flatMap f, b.flatMap f, by simp⟩

theorem exposed_infix (cx : Ctx) (E : Expansion) :
    E.exposed.flatMap (Emit.item cx.lifetime cx.unpinImpl false) <:+: Emit.expansion cx E := by
  unfold Emit.expansion
  generalize E.exposed.flatMap (Emit.item cx.lifetime cx.unpinImpl false) = F
  simp only [List.append_assoc]
  exact (List.prefix_append F _).isInfix

theorem inScope_infix (cx : Ctx) (E : Expansion) :
    E.inScope.flatMap (fun i => Emit.item cx.lifetime cx.unpinImpl (Emit.isHelper i) i) <:+: Emit.expansion cx E := by
  unfold Emit.expansion
  generalize E.inScope.flatMap (fun i => Emit.item cx.lifetime cx.unpinImpl (Emit.isHelper i) i) = F
  rw [List.append_assoc (_ ++ F)]
  exact List.infix_append _ F _

/-- **C75** The functions are parts of the expansion. -/
theorem C75_functions (item : Item) (toks : List ETok) (ht : deriveTokens item = .ok toks) (name : String)
    (ts : List ETok) (h : IsFunction item name ts) : ts <:+: toks := by
  obtain ⟨cx, E, hcx, hE, i, hi, hf⟩ := h
  obtain ⟨cx', E', hcx', hE', he⟩ := deriveTokens_inv ht
  have e1 : cx = cx' := Except.ok.inj (hcx.symm.trans hcx')
  have e2 : E = E' := Except.ok.inj (hE.symm.trans hE')
  clear ht hcx hcx' hE hE'
  rw [he, ← e1, ← e2]
  clear he e1 e2
  rcases List.mem_append.1 hi with hi | hi
  · exact (functions_infix _ _ false _ _ _ hf).trans ((infix_flatMap _ hi).trans (exposed_infix cx E))
  · exact (functions_infix _ _ (Emit.isHelper i) _ _ _ hf).trans ((infix_flatMap
      (fun i => Emit.item cx.lifetime cx.unpinImpl (Emit.isHelper i) i) hi).trans (inScope_infix cx E))

/-- **C75** In the functions that are generated, other than `project_replace`, local variables are used as they are
bound, wherever the tokens of the attribute come from. -/
theorem C75_hygiene (item : Item) (hwf : ItemWF item) (name : String) (ts : List ETok) (h : IsFunction item name ts)
    (hn : name ≠ "project_replace") (ctx : Span → Nat) : Hygienic ctx ts := by
  obtain ⟨cx, E, -, hE, i, hi, hf⟩ := h
  have hk := Emit.known hE i hi
  have hok : ∃ own, Emit.ItemOk own i := by
    rcases List.mem_append.1 hi with hi | hi
    · exact ⟨_, (expansion_ok hwf hE).1 i hi⟩
    · exact ⟨_, (expansion_ok hwf hE).2 i hi⟩
  obtain ⟨own, hok⟩ := hok
  have key : ∀ s, (∀ x s', LocalVariable x → .word x s' ∈ ts → s' = s) → Hygienic ctx ts :=
    fun s hs x s1 s2 hx h1 h2 => by rw [hs x s1 hx h1, hs x s2 hx h2]
  cases i with
  | inherent ps n as ws fns =>
    obtain ⟨f, hg, he⟩ := List.mem_map.1 hf
    obtain ⟨rfl, rfl⟩ := Prod.mk.inj he
    have hm : Emit.methodSpan f = .site := if_neg hn
    rw [hm] at key ⊢
    refine key .site fun x s' _ h => ?_
    exact (Emit.s_fn (A := (· = .site)) _ rfl rfl .site rfl (hok f hg) _ h).1
  | traitImpl hidden isUnsafe ps tr n as ws fns =>
    obtain ⟨f, hg, he⟩ := List.mem_map.1 hf
    obtain ⟨rfl, rfl⟩ := Prod.mk.inj he
    refine key _ fun x s' hx h => Emit.drop_words cx.lifetime (Emit.implSpans cx.unpinImpl tr).1 x s' hx ?_
    rcases hk f hg with rfl | rfl
    · exact .inl h
    · exact .inr h
  | assertNotPacked ps n as ws refs =>
    obtain ⟨rfl, rfl⟩ := Prod.mk.inj (List.mem_singleton.1 hf)
    exact key .site fun x s' _ h => (Emit.s_assertFn (A := (· = .site)) rfl _ _ _ _ _ _ _ h).1
  | _ => cases hf

/-- **C75** In `project_replace`, `self` and `__replacement` are bound with the span of the argument
`project_replace` of the attribute and used with the call-site span: they resolve exactly if both have the same syntax
context, that is, unless the argument and the attribute come from different macros. -/
theorem C75_replace (item : Item) (hwf : ItemWF item) (ts : List ETok) (h : IsFunction item "project_replace" ts)
    (ctx : Span → Nat) : Hygienic ctx ts ↔ ctx .replace = ctx .site := by
  obtain ⟨cx, E, -, hE, i, hi, hf⟩ := h
  have hk := Emit.known hE i hi
  have hok : ∃ own, Emit.ItemOk own i := by
    rcases List.mem_append.1 hi with hi | hi
    · exact ⟨_, (expansion_ok hwf hE).1 i hi⟩
    · exact ⟨_, (expansion_ok hwf hE).2 i hi⟩
  obtain ⟨own, hok⟩ := hok
  cases i with
  | inherent ps n as ws fns =>
    obtain ⟨f, hg, he⟩ := List.mem_map.1 hf
    obtain ⟨hn, rfl⟩ := Prod.mk.inj he
    have hm : Emit.methodSpan f = .replace := if_pos hn
    rw [hm]
    constructor
    · intro hh
      obtain ⟨cx', b, rfl | rfl | rfl⟩ := hk f hg
      · exact absurd hn (show "project" ≠ "project_replace" by decide)
      · exact absurd hn (show "project_ref" ≠ "project_replace" by decide)
      refine hh "self" .replace .site (.inl (by decide)) ?_ ?_
      · simp [Emit.fn, projectReplaceFn, Emit.sig, Emit.parens, Emit.sep, Emit.receiver, pinMutSelf, Emit.W]
      · simp [Emit.fn, projectReplaceFn, Emit.body, Emit.stmt, Emit.rhs, Emit.W]
    · intro hc x s s' _ h1 h2
      have hA : ∀ s, .word x s ∈ Emit.fn ⟨cx.lifetime, .site⟩ .replace f → ctx s = ctx .site := fun s hs => by
        rcases (Emit.s_fn (A := fun s => s = .site ∨ s = .replace) _ (.inl rfl) (.inl rfl) .replace (.inr rfl)
          (hok f hg) _ hs).1 with rfl | rfl
        · rfl
        · exact hc
      rw [hA s h1, hA s' h2]
  | traitImpl hidden isUnsafe ps tr n as ws fns =>
    obtain ⟨f, hg, he⟩ := List.mem_map.1 hf
    obtain ⟨hn, rfl⟩ := Prod.mk.inj he
    rcases hk f hg with rfl | rfl <;> exact absurd hn (by decide)
  | assertNotPacked ps n as ws refs =>
    obtain ⟨hn, -⟩ := Prod.mk.inj (List.mem_singleton.1 hf)
    exact absurd hn (by decide)
  | _ => cases hf

/-! ## Examples -/

/-- `project_replace` of the struct of `Props/ProjectReplace.lean`. If the argument comes from another macro than the
attribute, `self` is not found. -/
example : ∃ ts, IsFunction (.struct_ demoReplace) "project_replace" ts ∧
    Hygienic (fun _ => 0) ts ∧ ¬ Hygienic (fun s => if s = .replace then 1 else 0) ts := by
  have hf : ∃ ts, IsFunction (.struct_ demoReplace) "project_replace" ts :=
    ⟨_, _, _, rfl, rfl, _, List.mem_append_right _ (List.mem_append_left _ (List.mem_append_left _
      (List.mem_append_left _ (List.mem_append_right _ (List.mem_singleton.2 rfl))))),
      List.mem_cons_of_mem _ (List.mem_cons_of_mem _ (List.mem_singleton.2 rfl))⟩
  obtain ⟨ts, h⟩ := hf
  refine ⟨ts, h, (C75_replace _ demoReplace_wf ts h _).2 rfl, fun hh => ?_⟩
  have := (C75_replace _ demoReplace_wf ts h _).1 hh
  revert this
  decide

/-- `unsafe` does occur, also in the template that has the span of `PinnedDrop`. -/
example (cx : Ctx) (h : cx.pinnedDrop = true) : ∀ i ∈ makeDropImpl cx,
    .word "unsafe" .site ∈ Emit.item cx.lifetime cx.unpinImpl false i ∧
    .word "impl" .pinnedDrop ∈ Emit.item cx.lifetime cx.unpinImpl false i := by
  simp [makeDropImpl, h, Emit.item, Emit.functions, Emit.fn, Emit.unsafety, Emit.W, Emit.implSpans]

end PinProject

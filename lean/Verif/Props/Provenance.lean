import Verif.Spec.Provenance
import Verif.Props.Grammar
/-!
# C78: where the tokens of the expansion come from
-/
namespace PinProject
open Spec

/-! ## Words of the user, with `Self` resolved -/

namespace Emit

section Words
variable {S : String → Prop}

theorem all_append {x y : List String} : (∀ w ∈ x ++ y, S w) ↔ (∀ w ∈ x, S w) ∧ ∀ w ∈ y, S w := by
  simp only [List.mem_append, or_imp, forall_and]

theorem all_cons {x : String} {y : List String} : (∀ w ∈ x :: y, S w) ↔ S x ∧ ∀ w ∈ y, S w := by simp

theorem all_nil : (∀ w ∈ ([] : List String), S w) ↔ True := by simp

/-- The words of the type that replaces `Self`. -/
structure SelfWords (S : String → Prop) (s : SelfTy) : Prop where
  marks : ∀ m ∈ marks, S m
  self_ : S "self" → S "__self"
  q : ∀ w ∈ qself s.q, S w
  p : ∀ x ∈ s.p.segs, ∀ w ∈ seg x, S w
  toks : ∀ w ∈ tts s.toks, S w

theorem segs_iff (hm : S "::") (segs : List Seg) : (∀ w ∈ segsToks segs, S w) ↔ ∀ x ∈ segs, ∀ w ∈ seg x, S w := by
  induction segs with
  | nil => simp [segsToks]
  | cons x xs ih =>
    cases xs with
    | nil => simp [segsToks]
    | cons y ys => simp only [segsToks, all_append, all_nil, hm, ih, List.mem_cons, forall_eq_or_imp]; simp

theorem prepend_words {s : SelfTy} (hs : SelfWords S s) {i : String} (h : S i) : S (prependUnderscore i) := by
  unfold prependUnderscore
  split
  · exact hs.self_ (by subst i; exact h)
  · exact h

theorem rename_words {s : SelfTy} (hs : SelfWords S s) {segs : List Seg} (h : ∀ x ∈ segs, ∀ w ∈ seg x, S w) :
    ∀ x ∈ renameSingle segs, ∀ w ∈ seg x, S w := by
  unfold renameSingle
  split
  · rename_i i a
    have := h _ (.head _)
    simp only [seg, all_cons] at this
    intro x hx
    rw [List.mem_singleton.1 hx]
    simp only [seg, all_cons]
    exact ⟨prepend_words hs this.1, this.2⟩
  · exact h

theorem turbofish_words {s : SelfTy} (hs : SelfWords S s) {segs : List Seg} (h : ∀ x ∈ segs, ∀ w ∈ seg x, S w) :
    ∀ x ∈ turbofish segs, ∀ w ∈ seg x, S w := by
  have hc := hs.marks "::" (by decide)
  fun_induction turbofish segs with
  | case1 => nofun
  | case2 i c args ss ih =>
    intro x hx
    rcases List.mem_cons.1 hx with rfl | hx
    · have := h _ (.head _)
      simp only [seg, pargs, all_cons, all_append] at this ⊢
      refine ⟨this.1, ⟨⟨?_, this.2.1.1.2⟩, this.2.1.2⟩, this.2.2⟩
      split <;> simp [hc]
    · exact ih (fun x hx => h x (.tail _ hx)) x hx
  | case3 y ss _ ih =>
    intro x hx
    rcases List.mem_cons.1 hx with rfl | hx
    · exact h _ (.head _)
    · exact ih (fun x hx => h x (.tail _ hx)) x hx

theorem tail_words {segs : List Seg} (h : ∀ x ∈ segs, ∀ w ∈ seg x, S w) : ∀ x ∈ segs.tail, ∀ w ∈ seg x, S w :=
  fun x hx => h x (List.mem_of_mem_tail hx)

theorem path_iff {s : SelfTy} (hs : SelfWords S s) (p : Path) : (∀ w ∈ path p, S w) ↔ ∀ x ∈ p.segs, ∀ w ∈ seg x, S w := by
  obtain ⟨l, segs⟩ := p
  have hc := hs.marks "::" (by decide)
  rw [path, all_append, segs_iff hc]
  refine ⟨fun h => h.2, fun h => ⟨?_, h⟩⟩
  split <;> simp [hc]

theorem qself_words {s : SelfTy} (hs : SelfWords S s) {q qv : QS} {p : Path} {segs : List Seg} (hq : ∀ w ∈ qself qv, S w)
    (hp : ∀ x ∈ segs, ∀ w ∈ seg x, S w) :
    (∀ w ∈ qself (selfToQself s q p qv segs).1, S w) ∧ ∀ w ∈ path (selfToQself s q p qv segs).2, S w := by
  unfold selfToQself
  split
  · split
    · exact ⟨by simp [qself], (path_iff hs _).2 (turbofish_words hs hs.p)⟩
    · refine ⟨?_, (path_iff hs _).2 (rename_words hs (tail_words hp))⟩
      simp only [qself, node, all_append, all_cons, all_nil, and_true]
      exact ⟨⟨hs.marks _ (by decide), hs.q, (path_iff hs _).2 hs.p⟩, hs.marks _ (by decide)⟩
  · exact ⟨hq, (path_iff hs _).2 (rename_words hs hp)⟩

theorem exprPath_words {s : SelfTy} (hs : SelfWords S s) {p : Path} {segs : List Seg} (hp : ∀ x ∈ segs, ∀ w ∈ seg x, S w) :
    ∀ w ∈ path (selfToExprPath s p segs), S w := by
  unfold selfToExprPath
  rw [path_iff hs]
  split
  · intro x hx
    rcases List.mem_append.1 hx with hx | hx
    · exact turbofish_words hs hs.p x hx
    · exact tail_words hp x hx
  · exact rename_words hs hp

theorem tts_append (x y : List TT) : tts (x ++ y) = tts x ++ tts y := by
  induction x with
  | nil => rfl
  | cons t ts ih => simp only [List.cons_append, tts, ih, List.append_assoc]

theorem toks_words {s : SelfTy} (hs : SelfWords S s) (ts : List TT) (h : ∀ w ∈ tts ts, S w) :
    ∀ w ∈ tts (visitToks s.toks ts), S w := by
  have hlt := hs.marks "<" (by decide)
  have hgt := hs.marks ">" (by decide)
  fun_induction visitToks s.toks ts with
  | case1 => exact h
  | case2 rest' ih =>
    simp only [tts, tt, tts_append, all_append, all_cons, all_nil, and_true] at h ⊢
    refine ⟨?_, h.2.1, ih h.2.2⟩
    split
    · simp only [PinProject.angled, tts, tt, tts_append, all_append, all_cons, all_nil, and_true, true_and,
        List.cons_append]
      exact ⟨hlt, hs.toks, hgt⟩
    · exact hs.toks
  | case3 c rest' hc ih =>
    simp only [tts, tt, tts_append, all_append, all_cons, all_nil, and_true] at h ⊢
    exact ⟨hs.toks, h.2.1, ih h.2.2⟩
  | case4 rest hr ih =>
    simp only [tts, tt, tts_append, all_append, all_cons, all_nil, and_true] at h ⊢
    exact ⟨hs.toks, ih h.2⟩
  | case5 i rest hi ih =>
    simp only [tts, tt, all_append, all_cons, all_nil, and_true] at h ⊢
    exact ⟨prepend_words hs h.1, ih h.2⟩
  | case6 d ts rest ih1 ih2 =>
    cases d <;> simp only [tts, tt, all_append, all_cons, all_nil, and_true] at h ⊢ <;>
      exact ⟨⟨⟨h.1.1.1, ih1 h.1.1.2⟩, h.1.2⟩, ih2 h.2⟩
  | case7 c j rest ih =>
    simp only [tts, tt, all_append, all_cons, all_nil, and_true] at h ⊢
    exact ⟨h.1, ih h.2⟩
  | case8 l rest ih =>
    simp only [tts, tt, all_append, all_cons, all_nil, and_true] at h ⊢
    exact ⟨h.1, ih h.2⟩

theorem macToks_words {s : SelfTy} (hs : SelfWords S s) {ts : List TT} (h : ∀ w ∈ tts ts, S w) :
    ∀ w ∈ tts (visitMacToks s.toks ts), S w := by
  unfold visitMacToks
  split
  · exact h
  · exact toks_words hs ts h

mutual
theorem node_words {s : SelfTy} (hs : SelfWords S s) : ∀ n : Node, (∀ w ∈ node n, S w) → ∀ w ∈ node (n.visit s), S w
  | .tyPath q p, h => by
    simp only [node, all_append] at h
    rw [Node.visit]
    split
    · simp only [node, all_append]
      exact ⟨hs.q, (path_iff hs _).2 hs.p⟩
    · simp only [node, all_append]
      exact qself_words hs (qs_words hs q h.1) (path_words hs p h.2)
  | .exprPath q p, h => by
    simp only [node, all_append] at h
    simp only [Node.visit, node, all_append]
    exact qself_words hs (qs_words hs q h.1) (path_words hs p h.2)
  | .exprStruct q p cs, h => by
    simp only [node, all_append] at h
    simp only [Node.visit, node, all_append]
    exact ⟨⟨qs_words hs q h.1.1, exprPath_words hs (path_words hs p h.1.2)⟩, nodes_words hs cs h.2⟩
  | .patStruct q p cs, h => by
    simp only [node, all_append] at h
    simp only [Node.visit, node, all_append]
    exact ⟨⟨qs_words hs q h.1.1, exprPath_words hs (path_words hs p h.1.2)⟩, nodes_words hs cs h.2⟩
  | .patTupleStruct q p cs, h => by
    simp only [node, all_append] at h
    simp only [Node.visit, node, all_append]
    exact ⟨⟨qs_words hs q h.1.1, exprPath_words hs (path_words hs p h.1.2)⟩, nodes_words hs cs h.2⟩
  | .path p, h => by
    simp only [node] at h
    simp only [Node.visit, node]
    exact (path_iff hs _).2 (rename_words hs (path_words hs p h))
  | .mac p ts, h => by
    simp only [node, all_append, all_cons, all_nil, and_true] at h
    simp only [Node.visit, node, all_append, all_cons, all_nil, and_true]
    exact ⟨⟨⟨h.1.1.1, h.1.1.2⟩, macToks_words hs h.1.2⟩, h.2⟩
  | .itemMac p ts, h => by
    simp only [node, all_append, all_cons, all_nil, and_true] at h
    rw [Node.visit]
    split
    · simp only [node, all_append, all_cons, all_nil, and_true]
      exact ⟨⟨⟨h.1.1.1, h.1.1.2⟩, macToks_words hs h.1.2⟩, h.2⟩
    · simp only [node, all_append, all_cons, all_nil, and_true]
      exact h
  | .item l cs, h => by rw [Node.visit]; exact h
  | .binder lts, h => by rw [Node.visit]; exact h
  | .lifetime n, h => by rw [Node.visit]; exact h
  | .other l cs, h => by
    simp only [node, all_append] at h
    simp only [Node.visit, node, all_append]
    exact ⟨h.1, nodes_words hs cs h.2⟩
theorem qs_words {s : SelfTy} (hs : SelfWords S s) : ∀ q : QS, (∀ w ∈ qself q, S w) → ∀ w ∈ qself (q.visit s), S w
  | .none, h => h
  | .some t pos, h => by
    simp only [qself, all_append, all_cons, all_nil, and_true] at h
    simp only [QS.visit, qself, all_append, all_cons, all_nil, and_true]
    exact ⟨⟨h.1.1, node_words hs t h.1.2⟩, h.2⟩
theorem path_words {s : SelfTy} (hs : SelfWords S s) : ∀ p : Path, (∀ w ∈ path p, S w) → ∀ x ∈ p.visitSegs s, ∀ w ∈ seg x, S w
  | .mk l segs, h => by
    rw [Path.visitSegs]
    exact segs_words hs segs ((path_iff hs _).1 h)
theorem segs_words {s : SelfTy} (hs : SelfWords S s) : ∀ segs : List Seg, (∀ x ∈ segs, ∀ w ∈ seg x, S w) →
    ∀ x ∈ visitSegList s segs, ∀ w ∈ seg x, S w
  | [], _ => nofun
  | x :: xs, h => by
    intro y hy
    rw [visitSegList] at hy
    rcases List.mem_cons.1 hy with rfl | hy
    · exact seg_words hs x (h x (.head _))
    · exact segs_words hs xs (fun x hx => h x (.tail _ hx)) y hy
theorem seg_words {s : SelfTy} (hs : SelfWords S s) : ∀ x : Seg, (∀ w ∈ seg x, S w) → ∀ w ∈ seg (x.visit s), S w
  | .mk i a, h => by
    simp only [seg, all_cons] at h
    simp only [Seg.visit, seg, all_cons]
    exact ⟨h.1, pargs_words hs a h.2⟩
theorem pargs_words {s : SelfTy} (hs : SelfWords S s) : ∀ a : PArgs, (∀ w ∈ pargs a, S w) → ∀ w ∈ pargs (a.visit s), S w
  | .none, h => h
  | .angle c args, h => by
    simp only [pargs, all_append, all_cons, all_nil, and_true] at h
    simp only [PArgs.visit, pargs, all_append, all_cons, all_nil, and_true]
    exact ⟨⟨h.1.1, nodesSep_words hs args h.1.2⟩, h.2⟩
  | .paren args, h => by
    simp only [pargs, all_append, all_cons, all_nil, and_true] at h
    simp only [PArgs.visit, pargs, all_append, all_cons, all_nil, and_true]
    exact ⟨⟨h.1.1, nodesSep_words hs args h.1.2⟩, h.2⟩
theorem nodes_words {s : SelfTy} (hs : SelfWords S s) : ∀ ns : List Node, (∀ w ∈ nodes ns, S w) → ∀ w ∈ nodes (visitNodes s ns), S w
  | [], h => h
  | n :: ns, h => by
    simp only [nodes, all_append] at h
    simp only [visitNodes, nodes, all_append]
    exact ⟨node_words hs n h.1, nodes_words hs ns h.2⟩
theorem nodesSep_words {s : SelfTy} (hs : SelfWords S s) : ∀ ns : List Node, (∀ w ∈ nodesSep ns, S w) →
    ∀ w ∈ nodesSep (visitNodes s ns), S w
  | [], h => h
  | n :: ns, h => by
    simp only [nodesSep, all_append, all_cons, all_nil, and_true] at h
    simp only [visitNodes, nodesSep, all_append, all_cons, all_nil, and_true]
    exact ⟨⟨node_words hs n h.1.1, h.1.2⟩, nodesSep_words hs ns h.2⟩
end

end Words

/-! ## Tokens of templates -/

section Templates
variable (S : String → Prop) (G : Span → Prop) (lt : String)

/-- A token is one of the user's words or has one of the spans. -/
def TokP : ETok → Prop
  | .user t => S t
  | .word _ s | .punct _ s | .lit _ s | .attr _ _ s => G s
  | .life l s => l = lt ∧ G s

def ToksP (ts : Toks) : Prop := ∀ t ∈ ts, TokP S G lt t

variable {S G lt}

theorem o_append {x y : Toks} : ToksP S G lt (x ++ y) ↔ ToksP S G lt x ∧ ToksP S G lt y := by
  simp only [ToksP, List.mem_append, or_imp, forall_and]
theorem o_nil : ToksP S G lt [] ↔ True := by simp [ToksP]
theorem o_flatMap {α : Type} {xs : List α} {f : α → Toks} : ToksP S G lt (xs.flatMap f) ↔ ∀ x ∈ xs, ToksP S G lt (f x) := by
  simp only [ToksP, List.mem_flatMap]
  exact ⟨fun h x hx t ht => h t ⟨x, hx, ht⟩, fun h t ⟨x, hx, ht⟩ => h x hx t ht⟩
theorem o_user {xs : List String} : ToksP S G lt (xs.map .user) ↔ ∀ w ∈ xs, S w := by
  simp [ToksP, TokP]
theorem o_W {q : Quote} {w : String} : ToksP S G lt (W q w) ↔ G q.s := by simp [ToksP, TokP, W]
theorem o_P {q : Quote} {w : String} : ToksP S G lt (P q w) ↔ G q.s := by simp [ToksP, TokP, P]
theorem o_U {w : String} : ToksP S G lt (U w) ↔ S w := by simp [ToksP, TokP, U]
theorem o_unsafety : ToksP S G lt unsafety ↔ G .site := by simp [ToksP, TokP, unsafety]
theorem o_attr {q : Quote} {n : String} {as : List String} : ToksP S G lt (attr q n as) ↔ G q.s := by
  simp [ToksP, TokP, attr]

/-- A lifetime: that of the projection, or one of the user. -/
def LifeP (S : String → Prop) (lt l : String) : Prop := l = lt ∨ S l

variable (hG : G .site) (hM : ∀ m ∈ marks, S m)
include hG

theorem o_life {l : String} (h : LifeP S lt l) : ToksP S G lt [life lt l] := by
  unfold life
  split
  · simp [ToksP, TokP, *]
  · rcases h with h | h
    · exact absurd h ‹_›
    · simpa [ToksP, TokP] using h

theorem o_binder {s : Span} {d : Option Delim} {x : String} (h : d = some .brace → S x) :
    ToksP S G lt (binder ⟨lt, s⟩ d x) := by
  unfold binder
  split
  · exact o_U.2 (h ‹_›)
  · exact o_W.2 hG

omit hG
variable {s : Span} (hq : G s)
include hq

theorem o_sep {ts : List Toks} (h : ∀ t ∈ ts, ToksP S G lt t) : ToksP S G lt (sep ⟨lt, s⟩ ts) :=
  o_flatMap.2 fun t ht => o_append.2 ⟨h t ht, o_P.2 hq⟩

theorem o_parens {ts : List Toks} (h : ∀ t ∈ ts, ToksP S G lt t) : ToksP S G lt (parens ⟨lt, s⟩ ts) :=
  o_append.2 ⟨o_append.2 ⟨o_P.2 hq, o_sep hq h⟩, o_P.2 hq⟩

theorem o_angles {ts : List Toks} (h : ∀ t ∈ ts, ToksP S G lt t) : ToksP S G lt (angles ⟨lt, s⟩ ts) := by
  unfold angles
  split
  · exact o_nil.2 trivial
  · exact o_append.2 ⟨o_append.2 ⟨o_P.2 hq, o_sep hq h⟩, o_P.2 hq⟩

theorem o_segments (ns : List String) : ToksP S G lt (segments ⟨lt, s⟩ ns) := by
  induction ns with
  | nil => exact o_nil.2 trivial
  | cons n ns ih => exact o_append.2 ⟨o_append.2 ⟨o_P.2 hq, o_W.2 hq⟩, ih⟩

theorem o_root (r : Root) : ToksP S G lt (root ⟨lt, s⟩ r) := by
  cases r
  · exact o_append.2 ⟨o_P.2 hq, o_W.2 hq⟩
  · exact o_W.2 hq

theorem o_priv (r : Root) (ns : List String) : ToksP S G lt (priv ⟨lt, s⟩ r ns) :=
  o_append.2 ⟨o_root hq r, o_segments hq _⟩

omit hq

def ArgP (S : String → Prop) (lt : String) : GArg → Prop
  | .lifetime l => LifeP S lt l
  | .ident i => S i

include hG

theorem o_arg {a : GArg} (h : ArgP S lt a) : ToksP S G lt (garg ⟨lt, s⟩ a) := by
  cases a with
  | lifetime l => exact o_life hG h
  | ident i => exact o_U.2 h

include hq

theorem o_adt {n : String} {as : List GArg} (hn : S n) (ha : ∀ a ∈ as, ArgP S lt a) : ToksP S G lt (adt ⟨lt, s⟩ n as) := by
  refine o_append.2 ⟨o_U.2 hn, o_angles hq fun t ht => ?_⟩
  obtain ⟨a, ha', rfl⟩ := List.mem_map.1 ht
  exact o_arg hG (ha a ha')

omit hG hq

def TyP (S : String → Prop) (lt : String) : GTy → Prop
  | .user n => ∀ w ∈ node n, S w
  | .paren t | .pin _ t | .phantomData _ t | .ptrMut t | .pinnedFieldsOf t => TyP S lt t
  | .ref l _ t => (∀ x, l = some x → LifeP S lt x) ∧ TyP S lt t
  | .adt n as => S n ∧ ∀ a ∈ as, ArgP S lt a
  | .param n => S n
  | .wrapper l t => LifeP S lt l ∧ TyP S lt t
  | .alwaysUnpin l ps => LifeP S lt l ∧ ∀ p ∈ ps, S p
  | .phantomPinned | .selfTy | .unit => True

include hG hq

theorem o_ty {t : GTy} (h : TyP S lt t) : ToksP S G lt (ty ⟨lt, s⟩ t) := by
  have hP := @o_P S G lt ⟨lt, s⟩
  have hW := @o_W S G lt ⟨lt, s⟩
  induction t with
  | user n => exact o_user.2 h
  | paren t ih => simp only [ty, o_append, hP, hq, ih h, and_self]
  | ref l m t ih =>
    simp only [ty, o_append, hP, hq, ih h.2, and_true, true_and]
    refine ⟨?_, ?_⟩
    · cases l with
      | none => exact o_nil.2 trivial
      | some l => exact o_life hG (h.1 l rfl)
    · split
      · exact o_W.2 hq
      · exact o_nil.2 trivial
  | pin r t ih => simp only [ty, o_append, hP, hq, ih h, o_priv hq, and_self]
  | phantomData r t ih => simp only [ty, o_append, hP, hq, ih h, o_priv hq, and_self]
  | phantomPinned => exact o_priv hq _ _
  | adt n as => exact o_adt hG hq h.1 h.2
  | param n => exact o_U.2 h
  | selfTy => exact o_W.2 hq
  | ptrMut t ih => simp only [ty, o_append, hP, hW, hq, ih h, and_self]
  | pinnedFieldsOf t ih => simp only [ty, o_append, hP, hq, ih h, o_priv hq, and_self]
  | wrapper l t ih => simp only [ty, o_append, hP, hq, ih h.2, o_priv hq, o_life hG h.1, and_self]
  | alwaysUnpin l ps =>
    simp only [ty, o_append, hP, hq, o_priv hq, o_life hG h.1, and_true, true_and]
    refine o_parens hq fun t ht => ?_
    obtain ⟨p, hp, rfl⟩ := List.mem_map.1 ht
    simp only [o_append, hP, hq, o_priv hq, o_U, h.2 p hp, and_self]
  | unit => simp only [ty, o_append, hP, hq, and_self]

omit hG hq

def TraitP (S : String → Prop) : GTrait → Prop
  | .mustNotImplDrop n => S n
  | _ => True

include hq

theorem o_trait {t : GTrait} (h : TraitP S t) : ToksP S G lt (trait_ ⟨lt, s⟩ t) := by
  cases t with
  | mustNotImplDrop n => exact o_U.2 h
  | unsafeUnpin => exact o_append.2 ⟨o_root hq _, o_segments hq _⟩
  | unpin => exact o_priv hq _ _
  | drop => exact o_priv hq _ _
  | pinnedDrop => exact o_priv hq _ _

omit hq

def ParamP (S : String → Prop) (lt : String) : GParam → Prop
  | .lifetime n bs => LifeP S lt n ∧ ∀ b ∈ bs, S b
  | .type n bs d => S n ∧ (∀ b ∈ bs, ∀ w ∈ node b, S w) ∧ ∀ x, d = some x → ∀ w ∈ node x, S w
  | .const n t d => S n ∧ (∀ w ∈ node t, S w) ∧ ∀ x, d = some x → ∀ w ∈ node x, S w

include hM

theorem o_plus {xs : List (List String)} (h : ∀ x ∈ xs, ∀ w ∈ x, S w) : ∀ w ∈ plus xs, S w := by
  fun_induction plus xs with
  | case1 => nofun
  | case2 b => exact h b (.head _)
  | case3 b bs _ ih =>
    simp only [all_append, all_cons, all_nil, and_true]
    exact ⟨⟨h b (.head _), hM _ (by decide)⟩, ih fun x hx => h x (.tail _ hx)⟩

theorem o_default {d : Option Node} (h : ∀ x, d = some x → ∀ w ∈ node x, S w) :
    ∀ w ∈ (match d with | some d => "=" :: node d | none => ([] : List String)), S w := by
  cases d with
  | none => nofun
  | some x => exact all_cons.2 ⟨hM _ (by decide), h x rfl⟩

include hG

theorem o_param {p : GParam} (h : ParamP S lt p) : ToksP S G lt (gparam ⟨lt, s⟩ p) := by
  cases p with
  | lifetime n bs =>
    have : ToksP S G lt ([life lt n] ++ ((if bs.isEmpty then [] else ":" :: plus (bs.map (fun b => [b]))).map .user)) := by
      refine o_append.2 ⟨o_life hG h.1, o_user.2 ?_⟩
      split
      · nofun
      · refine all_cons.2 ⟨hM _ (by decide), o_plus hM fun x hx => ?_⟩
        obtain ⟨b, hb, rfl⟩ := List.mem_map.1 hx
        simpa using h.2 b hb
    exact this
  | type n bs d =>
    refine o_user.2 (all_append.2 ⟨all_cons.2 ⟨h.1, ?_⟩, o_default hM h.2.2⟩)
    split
    · nofun
    · refine all_cons.2 ⟨hM _ (by decide), o_plus hM fun x hx => ?_⟩
      obtain ⟨b, hb, rfl⟩ := List.mem_map.1 hx
      exact h.2.1 b hb
  | const n t d =>
    refine o_user.2 (all_append.2 ⟨all_append.2 ⟨?_, h.2.1⟩, o_default hM h.2.2⟩)
    simp only [all_cons, all_nil, and_true]
    exact ⟨hM _ (by decide), h.1, hM _ (by decide)⟩

include hq

theorem o_generics {ps : List GParam} (h : ∀ p ∈ ps, ParamP S lt p) : ToksP S G lt (generics ⟨lt, s⟩ ps) :=
  o_angles hq fun t ht => by
    obtain ⟨p, hp, rfl⟩ := List.mem_map.1 ht
    exact o_param hG hM (h p hp)

omit hG hM hq

def PredP (S : String → Prop) (lt : String) : WPred → Prop
  | .user n => ∀ w ∈ node n, S w
  | .outlives t l => TyP S lt t ∧ LifeP S lt l
  | .bound t tr => TyP S lt t ∧ TraitP S tr

include hG

theorem o_pred {b : Span} (hb : G b) {w : WPred} (h : PredP S lt w) : ToksP S G lt (pred ⟨lt, s⟩ b w) := by
  cases w with
  | user n => exact o_user.2 h
  | outlives t l => exact o_append.2 ⟨o_append.2 ⟨o_ty hG hG h.1, o_P.2 hG⟩, o_life hG h.2⟩
  | bound t tr => exact o_append.2 ⟨o_append.2 ⟨o_ty hG hb h.1, o_P.2 hb⟩, o_trait hb h.2⟩

theorem o_wheres {b : Span} (hb : G b) {ws : List WPred} (h : ∀ w ∈ ws, PredP S lt w) :
    ToksP S G lt (wheres ⟨lt, s⟩ b ws) := by
  unfold wheres
  split
  · exact o_nil.2 trivial
  · refine o_append.2 ⟨o_W.2 hG, o_sep hG fun t ht => ?_⟩
    obtain ⟨w, hw, rfl⟩ := List.mem_map.1 ht
    exact o_pred hG hb (h w hw)

omit hG

def VisP (S : String → Prop) (v : Vis) : Prop := ∀ w ∈ visWords v, S w

include hM

theorem colons_words {p : List String} (h : ∀ w ∈ p, S w) : ∀ w ∈ colons p, S w := by
  fun_induction colons p with
  | case1 => exact h
  | case2 t => exact h
  | case3 t ts _ ih =>
    simp only [all_cons] at h ⊢
    exact ⟨h.1, hM _ (by decide), ih h.2⟩

theorem o_vis {v : Vis} (h : VisP S v) : ToksP S G lt (vis v) := by
  have m : ∀ x ∈ marks, S x := hM
  cases v with
  | inherited => exact o_nil.2 trivial
  | pub => exact o_U.2 (hM _ (by decide))
  | restricted i p =>
    refine o_user.2 ?_
    simp only [all_append, all_cons, all_nil, and_true]
    refine ⟨⟨⟨⟨⟨hM _ (by decide), hM _ (by decide)⟩, ?_⟩, ?_⟩, colons_words hM h⟩, hM _ (by decide)⟩
    · split
      · exact all_cons.2 ⟨hM _ (by decide), nofun⟩
      · nofun
    · split
      · exact all_cons.2 ⟨hM _ (by decide), nofun⟩
      · nofun

omit hM

/-- A field; the names of the fields of the helper struct are not the user's. -/
def FieldP (S : String → Prop) (lt : String) (own : Bool) (f : GField) : Prop :=
  VisP S f.vis ∧ (own = false → ∀ i, f.ident = some i → S i) ∧ TyP S lt f.ty

include hG hM hq

theorem o_field {own : Bool} {f : GField} (h : FieldP S lt own f) : ToksP S G lt (field ⟨lt, s⟩ own f) := by
  refine o_append.2 ⟨o_append.2 ⟨o_vis hM h.1, ?_⟩, o_ty hG hq h.2.2⟩
  cases hi : f.ident with
  | none => exact o_nil.2 trivial
  | some i =>
    refine o_append.2 ⟨?_, o_P.2 hq⟩
    cases own with
    | true => exact o_W.2 hq
    | false => exact o_U.2 (h.2.1 rfl i hi)

omit hG hM

theorem o_delimited {d : Option Delim} {ts : List Toks} (h : ∀ t ∈ ts, ToksP S G lt t) :
    ToksP S G lt (delimited ⟨lt, s⟩ d ts) := by
  unfold delimited
  split
  · exact o_nil.2 trivial
  all_goals exact o_append.2 ⟨o_append.2 ⟨o_P.2 hq, o_sep hq h⟩, o_P.2 hq⟩

include hG hM

theorem o_fields {own : Bool} {f : GFields} (h : ∀ x ∈ f.fields, FieldP S lt own x) :
    ToksP S G lt (fields ⟨lt, s⟩ own f) :=
  o_delimited hq fun t ht => by
    obtain ⟨x, hx, rfl⟩ := List.mem_map.1 ht
    exact o_field hG hM hq (h x hx)

omit hG hM hq

/-- A variable that is bound to a field: in braces it has the name of the field. -/
def BinderP (S : String → Prop) (d : Option Delim) (x : String) : Prop := d = some .brace → S x

def PatP (S : String → Prop) (p : GPat) : Prop :=
  (∀ v, p.variant = some v → S v) ∧ ∀ x ∈ p.binders, BinderP S p.delim x

include hq

theorem o_variant {v : Option String} (h : ∀ x, v = some x → S x) :
    ToksP S G lt (variantToks ⟨lt, s⟩ v) := by
  cases v with
  | none => exact o_nil.2 trivial
  | some v => exact o_append.2 ⟨o_P.2 hq, o_U.2 (h v rfl)⟩

include hG

theorem o_pat {p : GPat} (h : PatP S p) : ToksP S G lt (pat ⟨lt, s⟩ p) := by
  rw [pat_eq]
  refine o_append.2 ⟨o_append.2 ⟨o_W.2 hq, o_variant hq h.1⟩, o_delimited hq fun t ht => ?_⟩
  obtain ⟨x, hx, rfl⟩ := List.mem_map.1 ht
  exact o_binder hG (h.2 x hx)

omit hG hq

def FExprP (S : String → Prop) (d : Option Delim) : FExpr → Prop
  | .bind x | .pinNew x | .read x => BinderP S d x
  | .phantom => True

def InitP (S : String → Prop) (d : Option Delim) : GInit → Prop
  | .labelled i e => (∀ x, i = some x → S x) ∧ FExprP S d e
  | .bare x => BinderP S d x

def CtorP (S : String → Prop) (c : GCtor) : Prop :=
  S c.ty ∧ (∀ v, c.variant = some v → S v) ∧ ∀ i ∈ c.inits, InitP S c.delim i

include hG hq

theorem o_fexpr {d : Option Delim} {e : FExpr} (h : FExprP S d e) : ToksP S G lt (fexpr ⟨lt, s⟩ d e) := by
  have hP := fun w => (@o_P S G lt ⟨lt, s⟩ w).2 hq
  cases e with
  | bind x => exact o_binder hG h
  | pinNew x => simp only [fexpr, o_append, o_priv hq, hP, o_binder hG h, and_self]
  | read x => simp only [fexpr, o_append, o_priv hq, hP, o_binder hG h, and_self]
  | phantom => exact o_priv hq _ _

theorem o_init {d : Option Delim} {i : GInit} (h : InitP S d i) : ToksP S G lt (init ⟨lt, s⟩ d i) := by
  cases i with
  | labelled i e =>
    refine o_append.2 ⟨?_, o_fexpr hG hq h.2⟩
    cases i with
    | none => exact o_nil.2 trivial
    | some i => exact o_append.2 ⟨o_U.2 (h.1 i rfl), o_P.2 hq⟩
  | bare x => exact o_binder hG h

theorem o_ctor {c : GCtor} (h : CtorP S c) : ToksP S G lt (ctor ⟨lt, s⟩ c) := by
  rw [ctor_eq]
  refine o_append.2 ⟨o_append.2 ⟨o_U.2 h.1, o_variant hq h.2.1⟩, o_delimited hq fun t ht => ?_⟩
  obtain ⟨x, hx, rfl⟩ := List.mem_map.1 ht
  exact o_init hG hq (h.2.2 x hx)

omit hG hq

def RhsP (S : String → Prop) (d : Option Delim) : RHS → Prop
  | .ctor c => CtorP S c
  | .dropGuard x => BinderP S d x
  | _ => True

include hG hq

theorem o_rhs {d : Option Delim} {e : RHS} (h : RhsP S d e) : ToksP S G lt (rhs ⟨lt, s⟩ d e) := by
  have hP := fun w => (@o_P S G lt ⟨lt, s⟩ w).2 hq
  have hW := fun w => (@o_W S G lt ⟨lt, s⟩ w).2 hq
  cases e with
  | ctor c => exact o_ctor hG hq h
  | dropGuard x => simp only [rhs, o_append, o_priv hq, hP, o_binder hG h, and_self]
  | unit => exact o_nil.2 trivial
  | _ => simp only [rhs, o_append, o_priv hq, hP, hW, and_self]

omit hG hq

def StmtP (S : String → Prop) (d : Option Delim) : GStmt → Prop
  | .letPat p e => PatP S p ∧ RhsP S d e
  | .letVar _ _ e => RhsP S d e
  | .scope ss => ∀ x ∈ ss, RhsP S d x.2
  | .expr e => RhsP S d e

include hG hq

theorem o_stmt {d : Option Delim} {x : GStmt} (h : StmtP S d x) : ToksP S G lt (stmt ⟨lt, s⟩ d x) := by
  have hP := fun w => (@o_P S G lt ⟨lt, s⟩ w).2 hq
  have hW := fun w => (@o_W S G lt ⟨lt, s⟩ w).2 hq
  cases x with
  | letPat p e => simp only [stmt, o_append, hP, hW, o_pat hG hq h.1, o_rhs hG hq h.2, and_self]
  | letVar x t e =>
    simp only [stmt, o_append, hP, hW, o_rhs hG hq h, and_true, true_and]
    unfold ascription
    split
    · refine o_append.2 ⟨hP _, ?_⟩
      split <;> simp only [o_append, hP, hW, and_self]
    · exact o_nil.2 trivial
  | scope ss =>
    simp only [stmt, o_append, hP, and_true, true_and, o_flatMap]
    intro x hx
    simp only [hW, o_rhs hG hq (h x hx), and_self]
  | expr e => simp only [stmt, o_append, hP, o_rhs hG hq h, and_self]

omit hG hq

def ArmP (S : String → Prop) (a : GArm) : Prop :=
  PatP S a.pat ∧ (∀ x ∈ a.stmts, StmtP S a.pat.delim x) ∧ RhsP S a.pat.delim a.tail

def TailP (S : String → Prop) (d : Option Delim) : GTail → Prop
  | .expr e => RhsP S d e
  | .match_ e arms => RhsP S none e ∧ ∀ a ∈ arms, ArmP S a

def BodyP (S : String → Prop) (b : GBody) : Prop :=
  (∀ x ∈ b.stmts, StmtP S (structDelim b.stmts) x) ∧ TailP S (structDelim b.stmts) b.tail

include hG hq

theorem o_arm {brace : Bool} {a : GArm} (h : ArmP S a) : ToksP S G lt (arm ⟨lt, s⟩ brace a) := by
  have hP := fun w => (@o_P S G lt ⟨lt, s⟩ w).2 hq
  simp only [arm, o_append, hP, o_pat hG hq h.1, o_rhs hG hq h.2.2, and_true, true_and, o_flatMap]
  refine ⟨⟨?_, fun x hx => o_stmt hG hq (h.2.1 x hx)⟩, ?_⟩
  · split
    · exact hP _
    · exact o_nil.2 trivial
  · split <;> exact hP _

theorem o_body {b : GBody} (h : BodyP S b) : ToksP S G lt (body ⟨lt, s⟩ b) := by
  have hP := fun w => (@o_P S G lt ⟨lt, s⟩ w).2 hq
  have hW := fun w => (@o_W S G lt ⟨lt, s⟩ w).2 hq
  refine o_append.2 ⟨o_flatMap.2 fun x hx => o_stmt hG hq (h.1 x hx), ?_⟩
  have := h.2
  cases ht : b.tail with
  | expr e => rw [ht] at this; exact o_rhs hG hq this
  | match_ e arms =>
    rw [ht] at this
    simp only [o_append, hP, hW, o_rhs hG hq this.1, and_true, true_and, o_flatMap]
    exact fun a ha => o_arm hG hq (this.2 a ha)

omit hG hq

structure FnP (S : String → Prop) (lt : String) (f : GFn) : Prop where
  vis : VisP S f.vis
  ltParam : ∀ l, f.ltParam = some l → LifeP S lt l
  recv : TyP S lt f.recv
  params : ∀ p ∈ f.params, TyP S lt p.2
  ret : TyP S lt f.ret
  body : BodyP S f.body

include hG hq

theorem o_receiver {t : GTy} (h : TyP S lt t) : ToksP S G lt (receiver ⟨lt, s⟩ t) := by
  have hP := fun w => (@o_P S G lt ⟨lt, s⟩ w).2 hq
  have hW := fun w => (@o_W S G lt ⟨lt, s⟩ w).2 hq
  unfold receiver
  split <;> simp only [o_append, hP, hW, o_ty hG hq h, and_self]

include hM

theorem o_sig {f : GFn} (h : FnP S lt f) : ToksP S G lt (sig ⟨lt, s⟩ f) := by
  have hP := fun w => (@o_P S G lt ⟨lt, s⟩ w).2 hq
  have hW := fun w => (@o_W S G lt ⟨lt, s⟩ w).2 hq
  simp only [sig, o_append, hW, o_vis hM h.vis, and_true, true_and]
  refine ⟨⟨⟨?_, ?_⟩, ?_⟩, ?_⟩
  · split
    · exact o_unsafety.2 hG
    · exact o_nil.2 trivial
  · refine o_angles hq fun t ht => ?_
    obtain ⟨l, hl, rfl⟩ := List.mem_map.1 ht
    exact o_life hG (h.ltParam l (by simpa using hl))
  · refine o_parens hq fun t ht => ?_
    rcases List.mem_cons.1 ht with rfl | ht
    · exact o_receiver hG hq h.recv
    · obtain ⟨p, hp, rfl⟩ := List.mem_map.1 ht
      simp only [o_append, hP, hW, o_ty hG hq (h.params p hp), and_self]
  · have := h.ret
    split
    · exact o_nil.2 trivial
    · simp only [o_append, hP, o_ty hG hq this, and_self]

theorem o_fn {b : Span} (hb : G b) {f : GFn} (h : FnP S lt f) : ToksP S G lt (fn ⟨lt, s⟩ b f) := by
  have hP := fun w => (@o_P S G lt ⟨lt, s⟩ w).2 hq
  simp only [fn, o_append, hP, o_sig hG hM hb h, and_true, o_flatMap]
  refine ⟨fun a _ => ?_, ?_⟩
  · unfold fnAttr
    repeat' split
    all_goals exact o_attr.2 hq
  · split
    · simp only [o_append, hP, o_unsafety.2 hG, o_body hG hq h.body, and_self]
    · exact o_body hG hq h.body

omit hG hM hq

def ItemP (S : String → Prop) (G : Span → Prop) (lt : String) (u : UnpinImpl) (own : Bool) : GItem → Prop
  | .struct_ _ v n ps ws fs => VisP S v ∧ S n ∧ (∀ p ∈ ps, ParamP S lt p) ∧ (∀ w ∈ ws, PredP S lt w) ∧
      ∀ x ∈ fs.fields, FieldP S lt own x
  | .enum_ _ v n ps ws vs => VisP S v ∧ S n ∧ (∀ p ∈ ps, ParamP S lt p) ∧ (∀ w ∈ ws, PredP S lt w) ∧
      ∀ x ∈ vs, S x.1 ∧ ∀ y ∈ x.2.fields, FieldP S lt own y
  | .inherent ps n as ws fns => (∀ p ∈ ps, ParamP S lt p) ∧ S n ∧ (∀ a ∈ as, ArgP S lt a) ∧ (∀ w ∈ ws, PredP S lt w) ∧
      ∀ f ∈ fns, G (methodSpan f) ∧ FnP S lt f
  | .traitImpl _ _ ps tr n as ws fns => G (implSpans u tr).1 ∧ G (implSpans u tr).2 ∧ (∀ p ∈ ps, ParamP S lt p) ∧
      TraitP S tr ∧ S n ∧ (∀ a ∈ as, ArgP S lt a) ∧ (∀ w ∈ ws, PredP S lt w) ∧ ∀ f ∈ fns, FnP S lt f
  | .traitDef n => S n
  | .blanketDrop n => S n
  | .assertNotPacked ps n as ws refs => (∀ p ∈ ps, ParamP S lt p) ∧ S n ∧ (∀ a ∈ as, ArgP S lt a) ∧
      (∀ w ∈ ws, PredP S lt w) ∧ ∀ r ∈ refs, S r ∨ ∃ i : Nat, r = toString i

include hG hM

omit hG hM in
theorem digits_all (n : Nat) : (toString n).toList.all Char.isDigit = true := by
  rw [List.all_eq_true]
  exact fun c hc => Nat.isDigit_of_mem_toDigits (b := 10) (n := n) (by decide) (by decide) (by simpa using hc)

theorem o_assertFn {ps : List GParam} {n : String} {as : List GArg} {ws : List WPred} {refs : List String}
    (h : ItemP S G lt .default false (.assertNotPacked ps n as ws refs)) : ToksP S G lt (assertFn lt ps n as ws refs) := by
  obtain ⟨h1, h2, h3, h4, h5⟩ := h
  have hP := fun w => (@o_P S G lt ⟨lt, .site⟩ w).2 hG
  have hW := fun w => (@o_W S G lt ⟨lt, .site⟩ w).2 hG
  have hA := fun m l => (@o_attr S G lt ⟨lt, .site⟩ m l).2 hG
  simp only [assertFn, o_append, hP, hW, hA, o_generics hG hM hG h1, o_adt hG hG h2 h3, o_wheres hG hG h4, o_flatMap,
    and_true, true_and]
  intro r hr
  unfold fieldRef
  split
  · simpa [ToksP, TokP] using hG
  · rcases h5 r hr with h | ⟨i, rfl⟩
    · exact o_U.2 h
    · exact absurd (digits_all i) ‹_›

theorem o_item {u : UnpinImpl} {own : Bool} {i : GItem} (h : ItemP S G lt u own i) : ToksP S G lt (item lt u own i) := by
  have hP := fun w => (@o_P S G lt ⟨lt, .site⟩ w).2 hG
  have hW := fun w => (@o_W S G lt ⟨lt, .site⟩ w).2 hG
  have hA := fun m l => (@o_attr S G lt ⟨lt, .site⟩ m l).2 hG
  cases i with
  | struct_ attrs v n ps ws fs =>
    obtain ⟨h1, h2, h3, h4, h5⟩ := h
    simp only [item, o_append, hW, hA, o_vis hM h1, o_U.2 h2, o_generics hG hM hG h3, and_true, true_and]
    split <;> simp only [o_append, hP, o_fields hG hM hG h5, o_wheres hG hG h4, and_self]
  | enum_ attrs v n ps ws vs =>
    obtain ⟨h1, h2, h3, h4, h5⟩ := h
    simp only [item, o_append, hP, hW, hA, o_vis hM h1, o_U.2 h2, o_generics hG hM hG h3, o_wheres hG hG h4, and_true, true_and]
    refine o_sep hG fun t ht => ?_
    obtain ⟨x, hx, rfl⟩ := List.mem_map.1 ht
    exact o_append.2 ⟨o_U.2 (h5 x hx).1, o_fields hG hM hG (h5 x hx).2⟩
  | inherent ps n as ws fns =>
    obtain ⟨h1, h2, h3, h4, h5⟩ := h
    simp only [item, functions, o_append, hP, hW, o_generics hG hM hG h1, o_adt hG hG h2 h3, o_wheres hG hG h4, o_flatMap, and_true, true_and]
    intro x hx
    obtain ⟨f, hf, rfl⟩ := List.mem_map.1 hx
    exact o_fn hG hM hG (h5 f hf).1 (h5 f hf).2
  | traitImpl d un ps tr n as ws fns =>
    obtain ⟨hs, hb, h1, ht, h2, h3, h4, h5⟩ := h
    have hP := fun w => (@o_P S G lt ⟨lt, (implSpans u tr).1⟩ w).2 hs
    have hW := fun w => (@o_W S G lt ⟨lt, (implSpans u tr).1⟩ w).2 hs
    simp only [item, functions, o_append, hP, hW, o_generics hG hM hs h1, o_adt hG hs h2 h3, o_wheres hG hb h4, o_trait hs ht,
      o_flatMap, and_true]
    refine ⟨⟨?_, ?_⟩, ?_⟩
    · split
      · exact o_attr.2 hs
      · exact o_nil.2 trivial
    · split
      · exact o_unsafety.2 hG
      · exact o_nil.2 trivial
    · intro x hx
      obtain ⟨f, hf, rfl⟩ := List.mem_map.1 hx
      exact o_fn hG hM hs hs (h5 f hf)
  | traitDef n => simp only [item, o_append, hP, hW, o_U.2 h, and_self]
  | blanketDrop n => simp only [item, o_append, hP, hW, o_U.2 h, hA, o_priv hG, and_self]
  | assertNotPacked ps n as ws refs =>
    simp only [item, functions, List.flatMap_cons, List.flatMap_nil, List.append_nil]
    exact o_assertFn hG hM h

theorem o_expansion {cx : Ctx} {E : Expansion} (h1 : ∀ i ∈ E.exposed, ItemP S G cx.lifetime cx.unpinImpl false i)
    (h2 : ∀ i ∈ E.inScope, ItemP S G cx.lifetime cx.unpinImpl (isHelper i) i) : ToksP S G cx.lifetime (expansion cx E) := by
  have hP := fun w => (@o_P S G cx.lifetime ⟨cx.lifetime, .site⟩ w).2 hG
  have hW := fun w => (@o_W S G cx.lifetime ⟨cx.lifetime, .site⟩ w).2 hG
  have hA := fun m l => (@o_attr S G cx.lifetime ⟨cx.lifetime, .site⟩ m l).2 hG
  unfold expansion
  generalize constLints = lints
  simp only [o_append, hP, hW, hA, o_flatMap, and_true]
  exact ⟨fun i hi => o_item hG hM (h1 i hi), fun i hi => o_item hG hM (h2 i hi)⟩

omit hG hM

/-! ## Generated items -/

/-- The context, with the spans of the arguments. -/
structure CtxP (S : String → Prop) (G : Span → Prop) (cx : Ctx) : Prop where
  marks : ∀ m ∈ marks, S m
  site : G .site
  pinnedDrop : cx.pinnedDrop = true → G .pinnedDrop
  unpin : cx.unpinImpl ≠ .default → G .unpin
  replace : cx.projectReplace.isSome = true → G .replace
  vis : VisP S cx.vis
  projVis : VisP S cx.projVis
  ident : S cx.ident
  made : ∀ n ∈ madeFrom cx.ident, S n
  mutIdent : S cx.mutIdent
  refIdent : S cx.refIdent
  ownIdent : S cx.ownIdent
  params : ∀ p ∈ cx.generics.params, ParamP S cx.lifetime p
  projParams : ∀ p ∈ cx.projGenerics.params, ParamP S cx.lifetime p
  preds : ∀ w ∈ cx.generics.preds, PredP S cx.lifetime w
  projPreds : ∀ w ∈ cx.projGenerics.preds, PredP S cx.lifetime w
  projWhere : ∀ w ∈ cx.projWhere, PredP S cx.lifetime w

theorem args_p {g : PinProject.Generics} (h : ∀ p ∈ g.params, ParamP S lt p) : ∀ a ∈ g.tyGenerics, ArgP S lt a := by
  intro a ha
  have : ∃ p ∈ g.params, p.arg = a := by
    simp only [Generics.tyGenerics, List.mem_append, List.mem_map, List.mem_filter] at ha
    rcases ha with ⟨p, ⟨hp, -⟩, rfl⟩ | ⟨p, ⟨hp, -⟩, rfl⟩ <;> exact ⟨p, hp, rfl⟩
  obtain ⟨p, hp, rfl⟩ := this
  have := h p hp
  cases p <;> exact this.1

theorem defParams_p {g : PinProject.Generics} (h : ∀ p ∈ g.params, ParamP S lt p) : ∀ p ∈ g.defParams, ParamP S lt p := by
  intro p hp
  refine h p ?_
  simp only [Generics.defParams, List.mem_append, List.mem_filter] at hp
  rcases hp with hp | hp <;> exact hp.1

theorem implParams_p {g : PinProject.Generics} (h : ∀ p ∈ g.params, ParamP S lt p) : ∀ p ∈ g.implGenerics, ParamP S lt p := by
  intro p hp
  simp only [Generics.implGenerics, List.mem_map, List.mem_append, List.mem_filter] at hp
  obtain ⟨p, hp, rfl⟩ := hp
  have hp' : p ∈ g.params := by rcases hp with hp | hp <;> exact hp.1
  have := h p hp'
  cases p with
  | lifetime n bs => exact this
  | type n bs d => exact ⟨this.1, this.2.1, nofun⟩
  | const n t d => exact ⟨this.1, this.2.1, nofun⟩

/-- The fields of a struct or variant. -/
def FieldsP (S : String → Prop) (fs : Fields) : Prop := fs.WF ∧ ∀ f ∈ fs.list, ∀ w ∈ fieldWords f, S w

theorem fieldWords_iff {f : Field} : (∀ w ∈ fieldWords f, S w) ↔ VisP S f.vis ∧ (∀ i, f.ident = some i → S i) ∧ ∀ w ∈ node f.ty, S w := by
  rw [fieldWords, all_append, all_append, and_assoc]
  simp [VisP]

/-- The names of the fields of a struct or variant. -/
def FieldsN (S : String → Prop) (fs : Fields) : Prop := fs.WF ∧ ∀ f ∈ fs.list, ∀ i, f.ident = some i → S i

theorem fields_names {fs : Fields} (h : FieldsP S fs) : FieldsN S fs := ⟨h.1, fun f hf => (fieldWords_iff.1 (h.2 f hf)).2.1⟩

/-- The names of the projected types. -/
structure NamesP (S : String → Prop) (cx : Ctx) : Prop where
  mutIdent : S cx.mutIdent
  refIdent : S cx.refIdent
  ownIdent : S cx.ownIdent

theorem ctx_names {cx : Ctx} (h : CtxP S G cx) : NamesP S cx := ⟨h.mutIdent, h.refIdent, h.ownIdent⟩

theorem bindings_p {fs : Fields} (h : FieldsN S fs) {x : Field × Nat} (hx : x ∈ fs.list.zipIdx) :
    BinderP S fs.delim (binding x.2 x.1) := by
  intro hd
  have hf := List.fst_mem_of_mem_zipIdx hx
  cases fs with
  | unit => cases hd
  | unnamed l => cases hd
  | named l =>
    have h1 := h.1.1 x.1 hf
    obtain ⟨i, hi⟩ := Option.isSome_iff_exists.1 h1
    rw [binding, hi]
    exact h.2 _ hf i hi

theorem fields_p {fs : Fields} (h : FieldsP S fs) (cx : Ctx) (v : Option String) (own : Bool) :
    (∀ x ∈ (projectedOf cx v fs).projFields.fields, FieldP S cx.lifetime own x) ∧
    (∀ x ∈ (projectedOf cx v fs).projRefFields.fields, FieldP S cx.lifetime own x) ∧
    ∀ x ∈ (projectedOf cx v fs).projOwnFields.fields, FieldP S cx.lifetime own x := by
  have hl : ∀ l, some cx.lifetime = some l → LifeP S cx.lifetime l := fun l hl => .inl (Option.some.inj hl).symm
  refine ⟨fun x hx => ?_, fun x hx => ?_, fun x hx => ?_⟩
  · obtain ⟨f, hf, rfl⟩ := List.mem_map.1 hx
    obtain ⟨h1, h2, h3⟩ := fieldWords_iff.1 (h.2 f hf)
    unfold projField
    split <;> exact ⟨h1, fun _ => h2, hl, h3⟩
  · obtain ⟨f, hf, rfl⟩ := List.mem_map.1 hx
    obtain ⟨h1, h2, h3⟩ := fieldWords_iff.1 (h.2 f hf)
    unfold projRefField
    split <;> exact ⟨h1, fun _ => h2, hl, h3⟩
  · obtain ⟨f, hf, rfl⟩ := List.mem_map.1 hx
    obtain ⟨h1, h2, h3⟩ := fieldWords_iff.1 (h.2 f hf)
    unfold projOwnField
    split <;> exact ⟨h1, fun _ => h2, h3⟩

def VariantP (S : String → Prop) (v : Option String) : Prop := ∀ w, v = some w → S w

theorem pat_p {fs : Fields} (h : FieldsN S fs) (cx : Ctx) {v : Option String} (hv : VariantP S v) :
    PatP S (projectedOf cx v fs).projPat := by
  refine ⟨hv, fun b hb => ?_⟩
  obtain ⟨x, hx, rfl⟩ := List.mem_map.1 hb
  exact bindings_p h hx

theorem init_p {fs : Fields} (h : FieldsN S fs) {x : Field × Nat} (hx : x ∈ fs.list.zipIdx) :
    InitP S fs.delim (projInit x) ∧ InitP S fs.delim (moveInit x) := by
  have h1 := bindings_p h hx
  have h2 := h.2 _ (List.fst_mem_of_mem_zipIdx hx)
  unfold projInit moveInit
  constructor
  · split
    · exact ⟨h2, h1⟩
    · exact h1
  · split
    · exact ⟨h2, trivial⟩
    · exact ⟨h2, h1⟩

theorem ctor_p {fs : Fields} (h : FieldsN S fs) (cx : Ctx) {v : Option String} (hv : VariantP S v) {n : String}
    (hn : S n) : CtorP S ⟨n, v, (projectedOf cx v fs).projBody.1, (projectedOf cx v fs).projBody.2⟩ := by
  refine ⟨hn, hv, fun i hi => ?_⟩
  obtain ⟨x, hx, rfl⟩ := List.mem_map.1 hi
  exact (init_p h hx).1

theorem own_p {fs : Fields} (h : FieldsN S fs) {cx : Ctx} (hc : NamesP S cx) {v : Option String} (hv : VariantP S v) :
    (∀ s ∈ (projectedOf cx v fs).projOwnBody.1, StmtP S fs.delim s) ∧ RhsP S fs.delim (projectedOf cx v fs).projOwnBody.2 := by
  refine ⟨?_, trivial⟩
  intro s hs
  simp only [projectedOf, projOwnBody, List.mem_cons, List.not_mem_nil, or_false] at hs
  rcases hs with rfl | rfl
  · refine ⟨hc.ownIdent, hv, fun i hi => ?_⟩
    obtain ⟨x, hx, rfl⟩ := List.mem_map.1 hi
    exact (init_p h hx).2
  · intro s hs
    obtain ⟨b, hb, rfl⟩ := List.mem_map.1 hs
    obtain ⟨x, hx, rfl⟩ := List.mem_map.1 (List.mem_reverse.1 hb)
    exact bindings_p h (List.mem_filter.1 hx).1

theorem variantP_none : VariantP S none := nofun

/-- A body that follows statements without patterns. -/
def LateBody (S : String → Prop) (b : GBody) : Prop :=
  ∀ x e y e' f, BodyP S ⟨[.letVar "__self_ptr" x (.getUncheckedMut e), .letVar "__guard" y (.overwriteGuard e' f)] ++ b.stmts, b.tail⟩

theorem late_body {b : GBody} (h : BodyP S b) : LateBody S b := by
  intro x e y e' f
  refine ⟨?_, h.2⟩
  intro s hs
  simp only [List.cons_append, List.nil_append, List.mem_cons] at hs
  rcases hs with rfl | rfl | hs
  · trivial
  · trivial
  · exact h.1 s hs

theorem bodiesS_p {fs : Fields} (h : FieldsN S fs) {cx : Ctx} (hc : NamesP S cx) :
    BodyP S (projMutBodyS cx fs) ∧ BodyP S (projRefBodyS cx fs) ∧ BodyP S (projOwnBodyS cx fs) := by
  have hp := pat_p h cx variantP_none
  refine ⟨⟨?_, ctor_p h cx variantP_none hc.mutIdent⟩, ⟨?_, ctor_p h cx variantP_none hc.refIdent⟩, ?_,
    (own_p h hc variantP_none).2⟩
  · intro s hs
    obtain rfl := List.mem_singleton.1 hs
    exact ⟨hp, trivial⟩
  · intro s hs
    obtain rfl := List.mem_singleton.1 hs
    exact ⟨hp, trivial⟩
  · intro s hs
    rcases List.mem_cons.1 hs with rfl | hs
    · exact ⟨hp, trivial⟩
    · exact (own_p h hc variantP_none).1 s hs

theorem bodiesE_p {vs : List PinProject.Variant} (h : ∀ v ∈ vs, S v.ident ∧ FieldsN S v.fields) {cx : Ctx} (hc : NamesP S cx) :
    BodyP S (projMutBodyE cx vs) ∧ BodyP S (projRefBodyE cx vs) ∧ BodyP S (projOwnBodyE cx vs) := by
  have hv : ∀ v ∈ vs, VariantP S (some v.ident) := fun v hv w hw => (Option.some.inj hw) ▸ (h v hv).1
  refine ⟨⟨nofun, trivial, ?_⟩, ⟨nofun, trivial, ?_⟩, nofun, trivial, ?_⟩
  · intro a ha
    obtain ⟨v, hv', rfl⟩ := List.mem_map.1 ha
    exact ⟨pat_p (h v hv').2 cx (hv v hv'), nofun, ctor_p (h v hv').2 cx (hv v hv') hc.mutIdent⟩
  · intro a ha
    obtain ⟨v, hv', rfl⟩ := List.mem_map.1 ha
    exact ⟨pat_p (h v hv').2 cx (hv v hv'), nofun, ctor_p (h v hv').2 cx (hv v hv') hc.refIdent⟩
  · intro a ha
    obtain ⟨v, hv', rfl⟩ := List.mem_map.1 ha
    exact ⟨pat_p (h v hv').2 cx (hv v hv'), own_p (h v hv').2 hc (hv v hv')⟩

theorem impl_p {cx : Ctx} (hc : CtxP S G cx) {b1 b2 b3 : GBody} (h1 : BodyP S b1) (h2 : BodyP S b2) (h3 : BodyP S b3) (own : Bool) :
    ItemP S G cx.lifetime cx.unpinImpl own (makeProjImpl cx b1 b2 b3) := by
  rw [makeProjImpl_eq]
  refine ⟨implParams_p hc.params, hc.ident, args_p hc.params, hc.preds, fun f hf => ?_⟩
  have hl : ∀ l, some cx.lifetime = some l → LifeP S cx.lifetime l := fun l hl => .inl (Option.some.inj hl).symm
  have : f = projectFn cx b1 ∨ f = projectRefFn cx b2 ∨ f = projectReplaceFn cx b3 ∧ cx.projectReplace.isSome = true := by
    simp only [implFns, List.mem_append] at hf
    rcases hf with (hf | hf) | hf
    · split at hf <;> simp at hf; exact .inl hf
    · split at hf <;> simp at hf; exact .inr (.inl hf)
    · split at hf <;> simp at hf
      refine .inr (.inr ⟨hf, ?_⟩)
      rename_i hn
      simp only [Bool.or_eq_true, not_or, Bool.not_eq_true', Bool.not_eq_true, Bool.not_eq_false] at hn
      exact hn.1
  rcases this with rfl | rfl | ⟨rfl, hr⟩
  · exact ⟨hc.site, hc.projVis, hl, ⟨hl, trivial⟩, nofun, ⟨hc.mutIdent, args_p hc.projParams⟩, h1⟩
  · exact ⟨hc.site, hc.projVis, hl, ⟨hl, trivial⟩, nofun, ⟨hc.refIdent, args_p hc.projParams⟩, h2⟩
  · refine ⟨hc.replace hr, hc.projVis, nofun, ⟨nofun, trivial⟩, ?_, ⟨hc.ownIdent, args_p hc.params⟩, late_body h3 _ _ _ _ _⟩
    intro p hp
    obtain rfl := List.mem_singleton.1 hp
    trivial

theorem structItems_p {fs : Fields} (h : FieldsP S fs) {cx : Ctx} (hc : CtxP S G cx) (own : Bool) :
    ItemP S G cx.lifetime cx.unpinImpl own (projItemS cx fs) ∧ ItemP S G cx.lifetime cx.unpinImpl own (refItemS cx fs) ∧
    ItemP S G cx.lifetime cx.unpinImpl own (ownItemS cx fs) ∧ ItemP S G cx.lifetime cx.unpinImpl own (implItemS cx fs) ∧
    ItemP S G cx.lifetime cx.unpinImpl own (assertItem cx fs) := by
  obtain ⟨f1, f2, f3⟩ := fields_p h cx none own
  obtain ⟨b1, b2, b3⟩ := bodiesS_p (fields_names h) (ctx_names hc)
  refine ⟨⟨hc.projVis, hc.mutIdent, defParams_p hc.projParams, hc.projWhere, f1⟩,
    ⟨hc.projVis, hc.refIdent, defParams_p hc.projParams, hc.projWhere, f2⟩,
    ⟨hc.projVis, hc.ownIdent, defParams_p hc.params, hc.preds, f3⟩, impl_p hc b1 b2 b3 own,
    implParams_p hc.params, hc.ident, args_p hc.params, hc.preds, fun r hr => ?_⟩
  cases fs with
  | unit => cases hr
  | named fs =>
    obtain ⟨f, hf, rfl⟩ := List.mem_map.1 hr
    obtain ⟨i, hi⟩ := Option.isSome_iff_exists.1 (h.1.1 f hf)
    rw [hi]
    exact .inl ((fieldWords_iff.1 (h.2 f hf)).2.1 i hi)
  | unnamed fs =>
    obtain ⟨i, -, rfl⟩ := List.mem_map.1 hr
    exact .inr ⟨i, rfl⟩

theorem enumItems_p {vs : List PinProject.Variant} (h : ∀ v ∈ vs, S v.ident ∧ FieldsP S v.fields) {cx : Ctx} (hc : CtxP S G cx)
    (own : Bool) :
    ItemP S G cx.lifetime cx.unpinImpl own (projItemE cx vs) ∧ ItemP S G cx.lifetime cx.unpinImpl own (refItemE cx vs) ∧
    ItemP S G cx.lifetime cx.unpinImpl own (ownItemE cx vs) ∧ ItemP S G cx.lifetime cx.unpinImpl own (implItemE cx vs) := by
  obtain ⟨b1, b2, b3⟩ := bodiesE_p (fun v hv => ⟨(h v hv).1, fields_names (h v hv).2⟩) (ctx_names hc)
  refine ⟨⟨hc.projVis, hc.mutIdent, defParams_p hc.projParams, hc.projWhere, ?_⟩,
    ⟨hc.projVis, hc.refIdent, defParams_p hc.projParams, hc.projWhere, ?_⟩,
    ⟨hc.projVis, hc.ownIdent, defParams_p hc.params, hc.preds, ?_⟩, impl_p hc b1 b2 b3 own⟩ <;>
  · intro x hx
    obtain ⟨v, hv, rfl⟩ := List.mem_map.1 hx
    obtain ⟨f1, f2, f3⟩ := fields_p (h v hv).2 cx (some v.ident) own
    first | exact ⟨(h v hv).1, f1⟩ | exact ⟨(h v hv).1, f2⟩ | exact ⟨(h v hv).1, f3⟩

theorem append_pred {ws : List WPred} {w' : WPred} (h : ∀ w ∈ ws, PredP S lt w) (h' : PredP S lt w') :
    ∀ w ∈ ws ++ [w'], PredP S lt w := by
  intro w hw
  rcases List.mem_append.1 hw with hw | hw
  · exact h w hw
  · exact List.mem_singleton.1 hw ▸ h'

theorem implSpans_p {cx : Ctx} (hc : CtxP S G cx) (tr : GTrait) (ht : tr = .drop → cx.pinnedDrop = true) :
    G (implSpans cx.unpinImpl tr).1 ∧ G (implSpans cx.unpinImpl tr).2 := by
  cases tr with
  | drop => exact ⟨hc.pinnedDrop (ht rfl), hc.site⟩
  | unpin =>
    cases hu : cx.unpinImpl with
    | default => exact ⟨hc.site, hc.site⟩
    | unsafe_ => exact ⟨hc.unpin (by rw [hu]; nofun), hc.unpin (by rw [hu]; nofun)⟩
    | negative => exact ⟨hc.unpin (by rw [hu]; nofun), hc.site⟩
  | unsafeUnpin =>
    cases hu : cx.unpinImpl with
    | default => exact ⟨hc.site, hc.site⟩
    | unsafe_ => exact ⟨hc.unpin (by rw [hu]; nofun), hc.unpin (by rw [hu]; nofun)⟩
    | negative => exact ⟨hc.unpin (by rw [hu]; nofun), hc.site⟩
  | pinnedDrop => exact ⟨hc.site, hc.site⟩
  | mustNotImplDrop n => exact ⟨hc.site, hc.site⟩

theorem unpinImpl_p {cx : Ctx} (hc : CtxP S G cx) (d u own : Bool) {tr : GTrait} (ht : TraitP S tr) (htr : tr ≠ .drop) {ws : List WPred}
    (hw : ∀ w ∈ ws, PredP S cx.lifetime w) :
    ItemP S G cx.lifetime cx.unpinImpl own
      (.traitImpl d u cx.projGenerics.implGenerics tr cx.ident cx.generics.tyGenerics ws []) :=
  ⟨(implSpans_p hc tr fun h => absurd h htr).1, (implSpans_p hc tr fun h => absurd h htr).2, implParams_p hc.projParams, ht, hc.ident,
    args_p hc.params, hw, fun _ h => by cases h⟩

theorem helperFields_p {cx : Ctx} (hc : CtxP S G cx) {tys : List Node} (ht : ∀ t ∈ tys, ∀ w ∈ node t, S w) (x : GField)
    (hx : x ∈ GField.mk .inherited (some "__pin_project_use_generics") (.alwaysUnpin cx.lifetime cx.generics.typeParams) ::
      tys.mapIdx (fun i ty => GField.mk .inherited (some ("__field" ++ toString i)) (.user ty)) ++
      cx.generics.lifetimes.mapIdx (fun i lt => GField.mk .inherited (some ("__lifetime" ++ toString i))
        (.ref (some lt) false .unit))) : FieldP S cx.lifetime true x := by
  simp only [List.cons_append, List.mem_cons, List.mem_append, List.mem_mapIdx] at hx
  rcases hx with rfl | ⟨k, hk, rfl⟩ | ⟨k, hk, rfl⟩
  · refine ⟨nofun, nofun, .inl rfl, fun p hp => ?_⟩
    obtain ⟨q, hq, hqp⟩ := List.mem_filterMap.1 hp
    have := hc.params q hq
    cases q with
    | type n bs d => cases hqp; exact this.1
    | lifetime n bs => cases hqp
    | const n t d => cases hqp
  · exact ⟨nofun, nofun, ht _ (List.getElem_mem hk)⟩
  · refine ⟨nofun, nofun, fun l hl => ?_, trivial⟩
    cases hl
    obtain ⟨q, hq, hqp⟩ := List.mem_filterMap.1 (List.getElem_mem hk)
    have := hc.params q hq
    cases q with
    | lifetime n bs => exact (Option.some.inj hqp) ▸ this.1
    | type n bs d => cases hqp
    | const n t d => cases hqp

theorem unpin_p {cx : Ctx} (hc : CtxP S G cx) {tys : List Node} (ht : ∀ t ∈ tys, ∀ w ∈ node t, S w) :
    ∀ i ∈ makeUnpinImpl cx tys, ItemP S G cx.lifetime cx.unpinImpl (isHelper i) i := by
  intro i hi
  unfold makeUnpinImpl at hi
  have hn : S ("__" ++ unraw cx.ident) := hc.made _ (by simp [madeFrom])
  split at hi <;> simp only [List.mem_cons, List.not_mem_nil, or_false] at hi
  · subst hi
    exact unpinImpl_p hc _ _ _ (by trivial) (by nofun) (append_pred hc.projPreds ⟨⟨.inl rfl, trivial⟩, trivial⟩)
  · rcases hi with rfl | rfl <;>
      exact unpinImpl_p hc _ _ _ (by trivial) (by nofun) (append_pred hc.projPreds ⟨⟨.inl rfl, trivial⟩, trivial⟩)
  · rcases hi with rfl | rfl | rfl
    · exact ⟨hc.vis, hn, defParams_p hc.projParams, hc.preds, helperFields_p hc ht⟩
    · exact unpinImpl_p hc _ _ _ (by trivial) (by nofun) (append_pred hc.preds ⟨⟨hn, args_p hc.projParams⟩, trivial⟩)
    · exact unpinImpl_p hc _ _ _ (by trivial) (by nofun) (append_pred hc.preds ⟨⟨hn, args_p hc.projParams⟩, trivial⟩)

theorem drop_p {cx : Ctx} (hc : CtxP S G cx) (own : Bool) : ∀ i ∈ makeDropImpl cx, ItemP S G cx.lifetime cx.unpinImpl own i := by
  intro i hi
  unfold makeDropImpl at hi
  have hn : S (unraw cx.ident ++ "MustNotImplDrop") := hc.made _ (by simp [madeFrom])
  split at hi <;> simp only [List.mem_cons, List.not_mem_nil, or_false] at hi
  · rename_i hd
    subst hi
    refine ⟨(implSpans_p hc _ fun _ => hd).1, (implSpans_p hc _ fun _ => hd).2, implParams_p hc.params, trivial, hc.ident,
      args_p hc.params, hc.preds, fun f hf => ?_⟩
    obtain rfl := List.mem_singleton.1 hf
    refine ⟨nofun, nofun, ⟨nofun, trivial⟩, nofun, trivial, ?_, trivial⟩
    intro s hs
    simp only [List.mem_cons, List.not_mem_nil, or_false] at hs
    rcases hs with rfl | rfl <;> trivial
  · rcases hi with rfl | rfl | rfl | rfl
    · exact hn
    · exact hn
    · exact ⟨hc.site, hc.site, implParams_p hc.params, hn, hc.ident, args_p hc.params, hc.preds, nofun⟩
    · refine ⟨hc.site, hc.site, implParams_p hc.params, trivial, hc.ident, args_p hc.params, hc.preds, fun f hf => ?_⟩
      obtain rfl := List.mem_singleton.1 hf
      exact ⟨nofun, nofun, ⟨nofun, trivial⟩, nofun, trivial, nofun, trivial⟩

end Templates

/-! ## From the definition -/

section Definition
variable {item : Item}

theorem self_notMade (n : String) : "self" ∉ madeFrom n := by
  have h1 : ∀ x : String, "self" ≠ "__" ++ x := fun x h => by
    have := congrArg String.toList h
    simp at this
  have h2 : ∀ x : String, "self" ≠ x ++ "MustNotImplDrop" := fun x h => by
    have := congrArg String.length h
    rw [String.length_append] at this
    have h3 : "self".length = 4 := by decide
    have h4 : "MustNotImplDrop".length = 15 := by decide
    omega
  intro h
  simp only [madeFrom, List.mem_cons, List.not_mem_nil, or_false] at h
  rcases h with h | h | h | h | h
  · exact h1 _ h
  · rw [String.append_assoc] at h; exact h1 _ h
  · rw [String.append_assoc] at h; exact h1 _ h
  · rw [String.append_assoc] at h; exact h1 _ h
  · exact h2 _ h

theorem fromUser_self (h : FromUser item "self") : FromUser item "__self" := by
  generalize hs : "self" = t at h
  cases h with
  | mark h => subst hs; exact absurd h (by decide)
  | word h => subst hs; exact .self_ h
  | arg _ h => subst hs; exact absurd h (by decide)
  | made _ h => subst hs; exact absurd h (self_notMade _)
  | self_ => exact absurd hs (by decide)

theorem param_words {p : GParam} (h : p ∈ (itemGenerics item).params) : ∀ w ∈ paramWords p, FromUser item w :=
  fun w hw => .word (by
    simp only [definitionWords, List.mem_append, List.mem_flatMap]
    exact .inl (.inl (.inr ⟨p, h, hw⟩)))

theorem arg_words {a : GArg} (h : a ∈ (itemGenerics item).tyGenerics) :
    (∀ w ∈ node a.node, FromUser item w) ∧ ∀ w ∈ tts a.toks, FromUser item w := by
  have : ∃ p ∈ (itemGenerics item).params, p.arg = a := by
    simp only [Generics.tyGenerics, List.mem_append, List.mem_map, List.mem_filter] at h
    rcases h with ⟨p, ⟨hp, -⟩, rfl⟩ | ⟨p, ⟨hp, -⟩, rfl⟩ <;> exact ⟨p, hp, rfl⟩
  obtain ⟨p, hp, rfl⟩ := this
  have := param_words hp
  cases p with
  | lifetime n bs =>
    simp only [paramWords, all_cons] at this
    have hq : FromUser item "'" := .mark (by decide)
    refine ⟨?_, ?_⟩
    · simpa [GParam.arg, GArg.node, node] using this.1
    · intro w hw
      simp only [GParam.arg, GArg.toks, tts, tt, List.mem_append, List.mem_cons, List.not_mem_nil, or_false] at hw
      rcases hw with rfl | rfl
      · exact hq
      · exact this.2.1
  | type n bs d =>
    simp only [paramWords, all_cons] at this
    exact ⟨by simpa [GParam.arg, GArg.node, Node.tyIdent, Path.ofIdent, node, qself, path, segsToks, seg, pargs] using this.1,
      by simpa [GParam.arg, GArg.toks, tts, tt] using this.1⟩
  | const n t d =>
    simp only [paramWords, all_cons] at this
    exact ⟨by simpa [GParam.arg, GArg.node, Node.tyIdent, Path.ofIdent, node, qself, path, segsToks, seg, pargs] using this.1,
      by simpa [GParam.arg, GArg.toks, tts, tt] using this.1⟩

theorem nodesSep_all {S : String → Prop} (hc : S ",") {ns : List Node} (h : ∀ n ∈ ns, ∀ w ∈ node n, S w) :
    ∀ w ∈ nodesSep ns, S w := by
  induction ns with
  | nil => simp [nodesSep]
  | cons n ns ih =>
    simp only [nodesSep, all_append, all_cons, all_nil, and_true]
    exact ⟨⟨h n (.head _), hc⟩, ih fun n hn => h n (.tail _ hn)⟩

theorem intercalate_all {S : String → Prop} (hc : S ",") {xs : List (List TT)} (h : ∀ x ∈ xs, ∀ w ∈ tts x, S w) :
    ∀ w ∈ tts (List.intercalate [.punct ',' false] xs), S w := by
  induction xs with
  | nil => simp [List.intercalate, tts]
  | cons x xs ih =>
    cases xs with
    | nil => simpa [List.intercalate] using h
    | cons y ys =>
      have : List.intercalate [TT.punct ',' false] (x :: y :: ys) = x ++ ([.punct ',' false] ++ List.intercalate [.punct ',' false] (y :: ys)) := by
        simp [List.intercalate]
      rw [this, tts_append, tts_append, all_append, all_append]
      refine ⟨h x (.head _), ?_, ih fun x hx => h x (.tail _ hx)⟩
      intro w hw
      simp only [tts, tt, List.mem_append, List.mem_cons, List.not_mem_nil, or_false] at hw
      subst hw
      exact hc

theorem self_words {n : String} (hn : itemName item = some n) : SelfWords (FromUser item) (itemSelfTy item) := by
  have hn' : FromUser item n := .word (by simp [definitionWords, hn])
  have hm : ∀ m ∈ marks, FromUser item m := fun m h => .mark h
  rw [itemSelfTy_eq, hn]
  refine ⟨hm, fromUser_self, by simp [mkSelfTy, qself], ?_, ?_⟩
  · intro x hx
    obtain rfl := List.mem_singleton.1 hx
    simp only [seg, all_cons]
    refine ⟨hn', ?_⟩
    split
    · simp [pargs]
    · simp only [pargs, all_append, all_cons, all_nil, and_true]
      refine ⟨⟨⟨by simp, hm _ (by decide)⟩, nodesSep_all (hm _ (by decide)) fun a ha => ?_⟩, hm _ (by decide)⟩
      obtain ⟨a, ha', rfl⟩ := List.mem_map.1 ha
      exact (arg_words ha').1
  · simp only [mkSelfTy, Option.getD_some]
    split
    · simpa [tts, tt] using hn'
    · simp only [List.cons_append, tts, tts_append, all_append]
      refine ⟨by simpa [tt] using hn', ?_, intercalate_all (hm _ (by decide)) fun x hx => ?_, ?_⟩
      · exact fun w hw => by simp only [tt, List.mem_singleton] at hw; subst hw; exact hm _ (by decide)
      · obtain ⟨a, ha, rfl⟩ := List.mem_map.1 hx
        exact (arg_words ha).2
      · exact ⟨fun w hw => by simp only [tt, List.mem_singleton] at hw; subst hw; exact hm _ (by decide), by simp⟩

theorem vis_words {v : Vis} (h : ∀ w ∈ visWords v, FromUser item w) : VisP (FromUser item) v.visit := by
  cases v with
  | restricted b p =>
    intro w hw
    obtain ⟨l, segs⟩ := p
    simp only [visWords, Vis.visit, SPath.visit] at hw h
    split at hw
    · rename_i i
      obtain rfl := List.mem_singleton.1 hw
      have := h i (.head _)
      unfold prependUnderscore
      split
      · exact fromUser_self (by subst i; exact this)
      · exact this
    · exact h w hw
  | inherited => nofun
  | pub => nofun

theorem projVis_p {S : String → Prop} (hM : ∀ m ∈ marks, S m) {v : Vis} (h : VisP S v) : VisP S (determineVisibility v) := by
  cases v with
  | inherited => exact h
  | restricted b p => exact h
  | pub =>
    intro w hw
    simp only [determineVisibility, Vis.pubCrate, visWords, List.mem_singleton] at hw
    subst hw
    exact hM _ (by decide)

theorem params_words {lt n : String} (hn : itemName item = some n) : ∀ p ∈ (preGenerics item).params, ParamP (FromUser item) lt p := by
  have hs := self_words hn
  intro p hp
  obtain ⟨p, hp', rfl⟩ := List.mem_map.1 hp
  have := param_words hp'
  cases p with
  | lifetime n bs =>
    simp only [paramWords, all_cons] at this
    exact ⟨.inr this.1, this.2.2⟩
  | type n bs d =>
    simp only [paramWords, all_cons, List.mem_flatMap, List.mem_append, Option.mem_toList] at this
    refine ⟨this.1, fun b hb => ?_, fun x hx => ?_⟩
    · obtain ⟨b, hb', rfl⟩ := List.mem_map.1 hb
      exact node_words hs b fun w hw => this.2 w ⟨b, .inl hb', hw⟩
    · obtain ⟨x, hx', rfl⟩ := Option.map_eq_some_iff.1 hx
      exact node_words hs x fun w hw => this.2 w ⟨x, .inr hx', hw⟩
  | const n t d =>
    simp only [paramWords, List.mem_flatMap, List.mem_cons, Option.mem_toList] at this
    refine ⟨this n (.inl rfl), node_words hs t fun w hw => this w (.inr ⟨t, .inl rfl, hw⟩), fun x hx => ?_⟩
    obtain ⟨x, hx', rfl⟩ := Option.map_eq_some_iff.1 hx
    exact node_words hs x fun w hw => this w (.inr ⟨x, .inr hx', hw⟩)

theorem preds_words {lt n : String} (hn : itemName item = some n) (hp : ∀ w ∈ (itemGenerics item).preds, ∃ n, w = .user n) :
    ∀ w ∈ (preGenerics item).preds, PredP (FromUser item) lt w := by
  intro w hw
  have : ∃ w' ∈ (itemGenerics item).preds, w'.visit (itemSelfTy item) = w := by
    unfold preGenerics Generics.preds Generics.visit at hw
    unfold Generics.preds
    cases hg : (itemGenerics item).whereClause with
    | none => rw [hg] at hw; cases hw
    | some ws => rw [hg] at hw; exact List.mem_map.1 hw
  obtain ⟨w', hw', rfl⟩ := this
  obtain ⟨x, rfl⟩ := hp w' hw'
  refine node_words (self_words hn) x fun w hw => .word ?_
  simp only [definitionWords, List.mem_append, List.mem_flatMap]
  exact .inl (.inr ⟨_, hw', hw⟩)

theorem fieldsP {n : String} (hn : itemName item = some n) {v : Option String × Fields} (hv : v ∈ itemVariants item) (hw : v.2.WF) :
    FieldsP (FromUser item) (v.2.visit (itemSelfTy item)) := by
  refine ⟨wf_visit _ _ hw, fun f hf => ?_⟩
  rw [visit_fields_list] at hf
  obtain ⟨f, hf', rfl⟩ := List.mem_map.1 hf
  have : ∀ w ∈ fieldWords f, FromUser item w := fun w hw => .word (by
    simp only [definitionWords, List.mem_append, List.mem_flatMap]
    exact .inr ⟨v, hv, .inr ⟨f, hf', hw⟩⟩)
  obtain ⟨h1, h2, h3⟩ := fieldWords_iff.1 this
  exact fieldWords_iff.2 ⟨vis_words h1, h2, node_words (self_words hn) _ h3⟩

theorem tys_p {S : String → Prop} {fs : Fields} (h : FieldsP S fs) : ∀ t ∈ pinnedTys fs.list, ∀ w ∈ node t, S w := by
  intro t ht
  obtain ⟨f, hf, rfl⟩ := List.mem_map.1 ht
  exact (fieldWords_iff.1 (h.2 f (List.mem_filter.1 hf).1)).2.2

theorem args_of {A : Args} (h : parseArgs (itemAttrs item) = .ok A) : ∃ as, ArgsOf item as ∧ A = config as ∧
    ∀ n ∈ userNames A, FromUser item n := by
  obtain ⟨a, p, d, ts, ha, hm, h⟩ := parseArgs_ok_shape h
  obtain ⟨as, h1, h2, rfl⟩ := parse_ok_iff.1 h
  have ha' : a ∈ (itemAttrs item).filter isPinAttr := by rw [ha]; exact .head _
  have ha := (List.mem_filter.1 ha').1
  refine ⟨as, ⟨a, ha, p, d, ts, hm, h1⟩, rfl, fun n hn => ?_⟩
  have := argNames h1 n ((config_names as h2 n).1 hn)
  exact .arg ⟨a, ha, p, d, ts, hm, this.2⟩ this.1

theorem replace_given {as : List Arg} (h : (config as).projectReplace.isSome = true) : SpanGiven as .replace := by
  unfold config at h
  dsimp only at h
  generalize hf : List.findSome? _ as = o at h
  cases o with
  | none => cases h
  | some r =>
    obtain ⟨a, ha, hr⟩ := List.exists_of_findSome?_eq_some hf
    refine List.mem_map.2 ⟨a, ha, ?_⟩
    cases a <;> first | rfl | cases hr

theorem ctx_p {as : List Arg} (hu : ∀ n ∈ userNames (config as), FromUser item n) {n : String} (hn : itemName item = some n)
    (hp : ∀ w ∈ (itemGenerics item).preds, ∃ n, w = .user n) (attrs : List Attribute) (k : TypeKind) :
    CtxP (FromUser item) (SpanGiven as) (mkCtx (config as) attrs (itemVis item).visit n (preGenerics item) k) := by
  have hM : ∀ m ∈ marks, FromUser item m := fun m h => .mark h
  have hid : FromUser item n := .word (by simp [definitionWords, hn])
  have hv : VisP (FromUser item) (itemVis item).visit := vis_words fun w hw => .word (by
    simp only [definitionWords, List.mem_append]
    exact .inl (.inl (.inl (.inr hw))))
  have hmade : ∀ m ∈ madeFrom n, FromUser item m := fun m hm => .made hn hm
  have hps := fun lt => params_words (lt := lt) hn
  have hws := fun lt => preds_words (lt := lt) hn hp
  have name : ∀ (o : Option String) (d : String), (∀ n, o = some n → n ∈ userNames (config as)) → FromUser item d →
      FromUser item (o.getD d) := by
    intro o d ho hd
    cases o with
    | none => exact hd
    | some n => exact hu n (ho n rfl)
  exact
    { marks := hM
      site := trivial
      pinnedDrop := fun h => of_decide_eq_true (p := Arg.pinnedDrop ∈ as) h
      unpin := fun h => by
        simp only [mkCtx, config] at h
        simp only [SpanGiven]
        split at h
        · exact .inl ‹_›
        · split at h
          · exact .inr ‹_›
          · exact absurd rfl h
      replace := fun h => replace_given h
      vis := hv
      projVis := projVis_p hM hv
      ident := hid
      made := hmade
      mutIdent := name _ _ (fun n hn => by simp [userNames, hn]) (hmade _ (by simp [madeFrom]))
      refIdent := name _ _ (fun n hn => by simp [userNames, hn]) (hmade _ (by simp [madeFrom]))
      ownIdent := name _ _ (fun n hn => by simp [userNames, hn]) (hmade _ (by simp [madeFrom]))
      params := hps _
      projParams := by
        intro p hp
        rcases List.mem_cons.1 hp with rfl | hp
        · exact ⟨.inl rfl, nofun⟩
        · exact hps _ p hp
      preds := by
        have := hws (determineLifetimeName "'pin" (preGenerics item))
        revert this
        generalize preGenerics item = g
        intro this
        obtain ⟨ps, _ | ws⟩ := g
        · nofun
        · exact this
      projPreds := hws _
      projWhere := append_pred (hws _) ⟨⟨hid, args_p (hps _)⟩, .inl rfl⟩ }

end Definition

end Emit

theorem origin_expansion {item : Item} {cx : Ctx} {E : Expansion} (h : parseDerive item = .ok E) (hx : deriveCtx item = .ok cx)
    (hwf : ItemWF item) (hp : ∀ w ∈ (itemGenerics item).preds, ∃ n, w = .user n) :
    ∃ as, ArgsOf item as ∧ cx.lifetime = determineLifetimeName "'pin" (preGenerics item) ∧
      (∀ i ∈ E.exposed, Emit.ItemP (FromUser item) (SpanGiven as) cx.lifetime cx.unpinImpl false i) ∧
      ∀ i ∈ E.inScope, Emit.ItemP (FromUser item) (SpanGiven as) cx.lifetime cx.unpinImpl (Emit.isHelper i) i := by
  cases item with
  | other a => cases h
  | struct_ s =>
    obtain ⟨A, hA, -, -, -, hne, -, rfl⟩ := (deriveStruct_iff s E).1 h
    obtain ⟨A', hA', -, rfl⟩ := (ctxNew_iff _ _ _ _ _ _).1 hx
    obtain rfl : A = A' := Except.ok.inj (hA.symm.trans hA')
    obtain ⟨as, h1, rfl, hu⟩ := Emit.args_of (item := .struct_ s) hA
    have hs : s.pre.fields = s.fields.visit (itemSelfTy (.struct_ s)) := by rw [itemSelfTy_eq]; rfl
    have hfs : Emit.FieldsP (FromUser (.struct_ s)) s.pre.fields := by
      rw [hs]
      exact Emit.fieldsP (v := (none, s.fields)) rfl (.head _) (hwf.fields none s.fields ⟨rfl, rfl⟩)
    have hg : s.pre.generics = preGenerics (.struct_ s) := by rw [preGenerics, itemSelfTy_eq]; rfl
    have hc : Emit.CtxP (FromUser (.struct_ s)) (SpanGiven as) (s.ctx (config as)) := by
      unfold ItemStruct.ctx
      rw [hg]
      exact Emit.ctx_p hu rfl hp _ _
    refine ⟨as, h1, by rw [← hg]; rfl, fun i hi => ?_, fun i hi => ?_⟩
    · obtain ⟨i1, i2, i3, i4, i5⟩ := Emit.structItems_p hfs hc false
      simp only [structExpansion, List.mem_append, List.mem_ite_nil_right,
        List.mem_singleton] at hi
      rcases hi with ((⟨_, rfl⟩ | ⟨_, rfl⟩) | ⟨_, _, rfl⟩) <;> assumption
    · obtain ⟨i1, i2, i3, i4, i5⟩ := Emit.structItems_p hfs hc (Emit.isHelper i)
      simp only [structExpansion, List.mem_append, List.mem_ite_nil_left, List.mem_ite_nil_right,
        List.mem_singleton] at hi
      rcases hi with (((((⟨_, rfl⟩ | ⟨_, rfl⟩) | ⟨_, _, rfl⟩) | rfl) | rfl) | hi) | hi
      all_goals first
        | assumption
        | exact Emit.unpin_p hc (Emit.tys_p hfs) i hi
        | exact Emit.drop_p hc _ i hi
  | enum_ s =>
    obtain ⟨A, hA, -, -, -, -, -, -, rfl⟩ := (deriveEnum_iff s E).1 h
    obtain ⟨A', hA', -, rfl⟩ := (ctxNew_iff _ _ _ _ _ _).1 hx
    obtain rfl : A = A' := Except.ok.inj (hA.symm.trans hA')
    obtain ⟨as, h1, rfl, hu⟩ := Emit.args_of (item := .enum_ s) hA
    have hs : s.pre.variants = s.variants.map (Variant.visit (itemSelfTy (.enum_ s))) := by rw [itemSelfTy_eq]; rfl
    have hvs : ∀ v ∈ s.pre.variants, FromUser (.enum_ s) v.ident ∧ Emit.FieldsP (FromUser (.enum_ s)) v.fields := by
      rw [hs]
      intro v hv'
      obtain ⟨v, hv, rfl⟩ := List.mem_map.1 hv'
      have hm : (some v.ident, v.fields) ∈ itemVariants (.enum_ s) := List.mem_map.2 ⟨v, hv, rfl⟩
      refine ⟨.word ?_, Emit.fieldsP rfl hm (hwf.fields (some v.ident) v.fields ⟨v, hv, rfl, rfl⟩)⟩
      simp only [definitionWords, List.mem_append, List.mem_flatMap]
      exact .inr ⟨_, hm, .inl (.head _)⟩
    have hg : s.pre.generics = preGenerics (.enum_ s) := by rw [preGenerics, itemSelfTy_eq]; rfl
    have hc : Emit.CtxP (FromUser (.enum_ s)) (SpanGiven as) (s.ctx (config as)) := by
      unfold ItemEnum.ctx
      rw [hg]
      exact Emit.ctx_p hu rfl hp _ _
    refine ⟨as, h1, by rw [← hg]; rfl, fun i hi => ?_, fun i hi => ?_⟩
    · obtain ⟨i1, i2, i3, i4⟩ := Emit.enumItems_p hvs hc false
      simp only [enumExpansion, List.mem_append, List.mem_ite_nil_right, List.mem_singleton] at hi
      rcases hi with ((⟨_, rfl⟩ | ⟨_, rfl⟩) | ⟨_, rfl⟩) <;> assumption
    · obtain ⟨i1, i2, i3, i4⟩ := Emit.enumItems_p hvs hc (Emit.isHelper i)
      simp only [enumExpansion, List.mem_append, List.mem_singleton] at hi
      rcases hi with (rfl | hi) | hi
      all_goals first
        | assumption
        | refine Emit.unpin_p hc (fun t ht => ?_) i hi
          obtain ⟨v, hv, ht⟩ := List.mem_flatMap.1 ht
          exact Emit.tys_p (hvs v hv).2 t ht
        | exact Emit.drop_p hc _ i hi

theorem lifetime_fresh (item : Item) : ¬ GenericsDeclare (itemGenerics item) (determineLifetimeName "'pin" (preGenerics item)) := by
  intro hd
  obtain ⟨k, hk1, hk2, -⟩ := lifetimeLoop_spec (preGenerics item).declaredLifetimes "'pin"
  have hl : ∀ l, GenericsDeclare (itemGenerics item) l → l ∈ (preGenerics item).declaredLifetimes := by
    intro l hl
    rwa [preGenerics, itemSelfTy_eq, declaredLifetimes_visit (mkSelfTy_noBinder _ _), mem_declaredLifetimes]
  exact hk2 _ (hl _ hd) (List.prefix_refl _)

/-- **C78** Tokens of the expansion that carry the user's spans and hygiene are words of the definition or of the arguments, or
names made from the name of the type. All others carry the span of the macro call or of an argument that is there, and
a lifetime among them is none that the definition declares. -/
theorem C78_origin (item : Item) (hwf : ItemWF item) (hp : ∀ w ∈ (itemGenerics item).preds, ∃ n, w = .user n) (toks : List ETok)
    (h : deriveTokens item = .ok toks) : ∃ args, ArgsOf item args ∧ ∀ t ∈ toks, Origin item args t := by
  obtain ⟨cx, E, hx, h3, ht⟩ := deriveTokens_inv h
  clear h
  obtain ⟨as, h1, hl, h4, h5⟩ := origin_expansion h3 hx hwf hp
  refine ⟨as, h1, ?_⟩
  have hfresh : ¬ GenericsDeclare (itemGenerics item) cx.lifetime := by
    rw [hl]
    exact lifetime_fresh item
  rw [ht]
  clear ht
  intro t ht
  have := Emit.o_expansion (G := SpanGiven as) trivial (fun m hm => .mark hm) h4 h5 t ht
  cases t with
  | life l s => exact ⟨this.1 ▸ hfresh, this.2⟩
  | _ => exact this

theorem demoGeneric_wf (args : List TT) : ItemWF (.struct_ (demoGeneric args)) := by
  refine ⟨?_, fun _ h => by cases h⟩
  rintro v fs ⟨-, rfl⟩
  exact ⟨by simp, by simp⟩

theorem demoGeneric_preds (args : List TT) : ∀ w ∈ (itemGenerics (.struct_ (demoGeneric args))).preds, ∃ n, w = .user n := by
  intro w hw
  obtain rfl := List.mem_singleton.1 hw
  exact ⟨_, rfl⟩

/-- The hypotheses are met, with a lifetime, a bound and a where-clause, by each of four definitions. -/
example (args : List TT) (h : args ∈ [[], [.ident "PinnedDrop"], [.ident "UnsafeUnpin"],
    [.ident "project_replace", .punct '=' false, .ident "R"]]) :
    ∃ toks as, deriveTokens (.struct_ (demoGeneric args)) = .ok toks ∧ ArgsOf (.struct_ (demoGeneric args)) as ∧
      ∀ t ∈ toks, Origin (.struct_ (demoGeneric args)) as t := by
  have hok : ∃ toks, deriveTokens (.struct_ (demoGeneric args)) = .ok toks := by
    simp only [List.mem_cons, List.not_mem_nil, or_false] at h
    rcases h with rfl | rfl | rfl | rfl <;> exact ⟨_, rfl⟩
  obtain ⟨toks, ht⟩ := hok
  obtain ⟨as, h1, h2⟩ := C78_origin _ (demoGeneric_wf args) (demoGeneric_preds args) toks ht
  exact ⟨toks, as, ht, h1, h2⟩

/-- Not every token is allowed: not a name that does not occur in the definition, and not the span of an argument that is not
there. -/
example : ¬ Origin (.struct_ (demoGeneric [])) [] (.word "unsafe" .unpin) := by
  rintro (h | h) <;> cases h

example : ¬ Origin (.struct_ (demoGeneric [])) [] (.user "__field0") := by
  intro h
  generalize hs : "__field0" = t at h
  cases h with
  | mark h => subst hs; exact absurd h (by decide)
  | word h => subst hs; exact absurd h (by decide)
  | arg h =>
    subst hs
    obtain ⟨a, ha, p, d, ts, h, ht⟩ := h
    obtain rfl := List.mem_singleton.1 ha
    cases h
    cases ht
  | made h1 h =>
    subst hs
    cases h1
    exact absurd h (by decide)
  | self_ => exact absurd hs (by decide)

end PinProject

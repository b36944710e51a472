import Verif.Props.Receiver
import Verif.Props.Lifetime
/-!
# Rewriting `self` and `Self` in syntax trees (lemmas for C35 and C38)
-/
namespace PinProject
open Spec

theorem refers_iff (w : Word) (n : Node) : Refers w n ↔
    (∃ p, nodePath n = some p ∧ w.At p) ∨
    (∃ toks, openToks n = some toks ∧ TokOccurs w.text toks ∧ ¬ TokOccurs "fn" toks) ∨
    ∃ c ∈ scopeChildren n, Refers w c := by
  constructor
  · intro h
    cases h with
    | path h1 h2 => exact .inl ⟨_, h1, h2⟩
    | tokens h1 h2 h3 => exact .inr (.inl ⟨_, h1, h2, h3⟩)
    | inside h1 h2 => exact .inr (.inr ⟨_, h1, h2⟩)
  · rintro (⟨_, h1, h2⟩ | ⟨_, h1, h2, h3⟩ | ⟨_, h1, h2⟩)
    · exact .path h1 h2
    · exact .tokens h1 h2 h3
    · exact .inside h1 h2

theorem wellUsed_iff (n : Node) : WellUsed n ↔ SelfAllowed n ∧ ∀ c ∈ scopeChildren n, WellUsed c := by
  constructor
  · intro h
    exact ⟨h n (.here n), fun c hc m hm => h m (.inside hc hm)⟩
  · rintro ⟨h1, h2⟩ m hm
    cases hm with
    | here => exact h1
    | inside hc hm => exact h2 _ hc m hm

/-- Neither word is used in `n`. -/
def Free (n : Node) : Prop := ∀ w, ¬ Refers w n

/-- The path itself uses neither word. -/
def PathFree (p : Path) : Prop := ∀ w : Word, ¬ w.At p

/-- The macro tokens use neither word, or contain `fn`. -/
def ToksFree (ts : List TT) : Prop := ∀ w : Word, TokOccurs w.text ts → TokOccurs "fn" ts

theorem free_iff (n : Node) : Free n ↔
    (∀ p, nodePath n = some p → PathFree p) ∧ (∀ ts, openToks n = some ts → ToksFree ts) ∧
    ∀ c ∈ scopeChildren n, Free c := by
  constructor
  · intro h
    refine ⟨fun p hp w ha => h w (.path hp ha), fun ts ht w ho => ?_, fun c hc w hr => h w (.inside hc hr)⟩
    apply Classical.byContradiction
    intro hn
    exact h w (.tokens ht ho hn)
  · rintro ⟨h1, h2, h3⟩ w hr
    cases hr with
    | path hp ha => exact h1 _ hp w ha
    | tokens ht ho hn => exact hn (h2 _ ht w ho)
    | inside hc hr => exact h3 _ hc w hr

theorem at_type_mk (l : Bool) (segs : List Seg) :
    Word.type.At (.mk l segs) ↔ l = false ∧ ∃ a rest, segs = .mk "Self" a :: rest := Iff.rfl

theorem at_value_mk (l : Bool) (segs : List Seg) :
    Word.value.At (.mk l segs) ↔ ∃ a, segs = [.mk "self" a] := Iff.rfl

theorem startsWithSelf_iff (p : Path) : startsWithSelf p = true ↔
    Word.type.At p ∧ ∀ s ∈ p.segs.head?, s.args.isEmpty = true := by
  obtain ⟨l, segs⟩ := p
  rw [at_type_mk]
  cases l <;> cases segs with
  | nil => simp [startsWithSelf]
  | cons x xs =>
    obtain ⟨i, a⟩ := x
    simp [startsWithSelf, Path.segs, Seg.args]

theorem not_startsWithSelf {p : Path} (h : ¬ Word.type.At p) : startsWithSelf p = false := by
  cases hs : startsWithSelf p with
  | false => rfl
  | true => exact absurd ((startsWithSelf_iff p).1 hs).1 h

theorem renameSingle_of_not {l : Bool} {segs : List Seg} (h : ¬ Word.value.At (.mk l segs)) :
    renameSingle segs = segs := by
  match segs, h with
  | [], _ => rfl
  | [.mk i a], h =>
    have : i ≠ "self" := fun hi => h ⟨a, by rw [hi]; rfl⟩
    simp [renameSingle, prependUnderscore, this]
  | .mk _ _ :: _ :: _, _ => rfl

theorem isIdent_self {p : Path} (h : p.isIdent "Self" = true) : p = .mk false [.mk "Self" .none] := by
  match p, h with
  | .mk false [.mk i .none], h => simpa [Path.isIdent] using h

/-! ## Code that uses neither word is left alone -/

theorem visitMacToks_free (sty : List TT) {ts : List TT} (h : ToksFree ts) : visitMacToks sty ts = ts := by
  rw [visitMacToks]
  split
  · rfl
  · rename_i hf
    rw [containsFn_iff] at hf
    exact C37_untouched _ _ (fun ho => hf (h .value ho)) (fun ho => hf (h .type ho))

mutual
/-- A node that uses neither `self` nor `Self` is left alone. -/
theorem Node.visit_free (s : SelfTy) : ∀ n : Node, Free n → n.visit s = n
  | .tyPath q p, h => by
    obtain ⟨hp, -, hc⟩ := (free_iff _).1 h
    have hp := hp p rfl
    have hq := QS.visit_free s q (fun c hc' => hc c (List.mem_append_left _ hc'))
    have hs := Path.visitSegs_free s p (fun c hc' => hc c (List.mem_append_right _ hc'))
    rw [Node.visit, if_neg, selfToQself, not_startsWithSelf (hp .type), hq, hs]
    · obtain ⟨l, segs⟩ := p
      simp [Path.segs, Path.leading, renameSingle_of_not (hp .value)]
    · rw [Bool.and_eq_true]
      rintro ⟨-, h⟩
      rw [isIdent_self h] at hp
      exact hp .type ⟨rfl, _, _, rfl⟩
  | .exprPath q p, h => by
    obtain ⟨hp, -, hc⟩ := (free_iff _).1 h
    have hp := hp p rfl
    have hq := QS.visit_free s q (fun c hc' => hc c (List.mem_append_left _ hc'))
    have hs := Path.visitSegs_free s p (fun c hc' => hc c (List.mem_append_right _ hc'))
    rw [Node.visit, selfToQself, not_startsWithSelf (hp .type), hq, hs]
    obtain ⟨l, segs⟩ := p
    simp [Path.segs, Path.leading, renameSingle_of_not (hp .value)]
  | .exprStruct q p cs, h => by
    obtain ⟨hp, -, hc⟩ := (free_iff _).1 h
    have hp := hp p rfl
    have hq := QS.visit_free s q (fun c hc' => hc c (List.mem_append_left _ (List.mem_append_left _ hc')))
    have hs := Path.visitSegs_free s p (fun c hc' => hc c (List.mem_append_left _ (List.mem_append_right _ hc')))
    have hn := visitNodes_free s cs (fun c hc' => hc c (List.mem_append_right _ hc'))
    rw [Node.visit, selfToExprPath, not_startsWithSelf (hp .type), hq, hs, hn]
    obtain ⟨l, segs⟩ := p
    simp [Path.segs, Path.leading, renameSingle_of_not (hp .value)]
  | .patStruct q p cs, h => by
    obtain ⟨hp, -, hc⟩ := (free_iff _).1 h
    have hp := hp p rfl
    have hq := QS.visit_free s q (fun c hc' => hc c (List.mem_append_left _ (List.mem_append_left _ hc')))
    have hs := Path.visitSegs_free s p (fun c hc' => hc c (List.mem_append_left _ (List.mem_append_right _ hc')))
    have hn := visitNodes_free s cs (fun c hc' => hc c (List.mem_append_right _ hc'))
    rw [Node.visit, selfToExprPath, not_startsWithSelf (hp .type), hq, hs, hn]
    obtain ⟨l, segs⟩ := p
    simp [Path.segs, Path.leading, renameSingle_of_not (hp .value)]
  | .patTupleStruct q p cs, h => by
    obtain ⟨hp, -, hc⟩ := (free_iff _).1 h
    have hp := hp p rfl
    have hq := QS.visit_free s q (fun c hc' => hc c (List.mem_append_left _ (List.mem_append_left _ hc')))
    have hs := Path.visitSegs_free s p (fun c hc' => hc c (List.mem_append_left _ (List.mem_append_right _ hc')))
    have hn := visitNodes_free s cs (fun c hc' => hc c (List.mem_append_right _ hc'))
    rw [Node.visit, selfToExprPath, not_startsWithSelf (hp .type), hq, hs, hn]
    obtain ⟨l, segs⟩ := p
    simp [Path.segs, Path.leading, renameSingle_of_not (hp .value)]
  | .path p, h => by
    obtain ⟨hp, -, hc⟩ := (free_iff _).1 h
    have hp := hp p rfl
    have hs := Path.visitSegs_free s p hc
    rw [Node.visit, hs]
    obtain ⟨l, segs⟩ := p
    simp [Path.segs, Path.leading, renameSingle_of_not (hp .value)]
  | .mac p ts, h => by
    obtain ⟨-, ht, -⟩ := (free_iff _).1 h
    rw [Node.visit, visitMacToks_free _ (ht ts rfl)]
  | .itemMac p ts, h => by
    obtain ⟨-, ht, -⟩ := (free_iff _).1 h
    rw [Node.visit]
    split
    · rename_i hm
      rw [visitMacToks_free _ (ht ts (if_pos hm))]
    · rfl
  | .item l cs, _ => by rw [Node.visit]
  | .binder _, _ => by rw [Node.visit]
  | .lifetime _, _ => by rw [Node.visit]
  | .other l cs, h => by
    obtain ⟨-, -, hc⟩ := (free_iff _).1 h
    rw [Node.visit, visitNodes_free s cs hc]
theorem QS.visit_free (s : SelfTy) : ∀ q : QS, (∀ c ∈ q.children, Free c) → q.visit s = q
  | .none, _ => by rw [QS.visit]
  | .some t pos, h => by rw [QS.visit, Node.visit_free s t (h t (List.mem_singleton.2 rfl))]
theorem Path.visitSegs_free (s : SelfTy) : ∀ p : Path, (∀ c ∈ p.children, Free c) → p.visitSegs s = p.segs
  | .mk _ segs, h => visitSegList_free s segs h
theorem visitSegList_free (s : SelfTy) : ∀ ss : List Seg, (∀ c ∈ ss.flatMap (fun x => x.args.children), Free c) →
    visitSegList s ss = ss
  | [], _ => by rw [visitSegList]
  | x :: xs, h => by
    rw [List.flatMap_cons] at h
    rw [visitSegList, Seg.visit_free s x (fun c hc => h c (List.mem_append_left _ hc)),
      visitSegList_free s xs (fun c hc => h c (List.mem_append_right _ hc))]
theorem Seg.visit_free (s : SelfTy) : ∀ x : Seg, (∀ c ∈ x.args.children, Free c) → x.visit s = x
  | .mk i a, h => by rw [Seg.visit, PArgs.visit_free s a h]
theorem PArgs.visit_free (s : SelfTy) : ∀ a : PArgs, (∀ c ∈ a.children, Free c) → a.visit s = a
  | .none, _ => by rw [PArgs.visit]
  | .angle c args, h => by rw [PArgs.visit, visitNodes_free s args h]
  | .paren args, h => by rw [PArgs.visit, visitNodes_free s args h]
theorem visitNodes_free (s : SelfTy) : ∀ ns : List Node, (∀ n ∈ ns, Free n) → visitNodes s ns = ns
  | [], _ => by rw [visitNodes]
  | n :: ns, h => by
    rw [visitNodes, Node.visit_free s n (h n (List.mem_cons_self ..)),
      visitNodes_free s ns (fun m hm => h m (List.mem_cons_of_mem _ hm))]
end

/-! ## No use of the two words is left -/

theorem renameSingle_not_value (l : Bool) (segs : List Seg) : ¬ Word.value.At (.mk l (renameSingle segs)) := by
  rw [at_value_mk]
  rintro ⟨a, h⟩
  match segs, h with
  | [], h => simp [renameSingle] at h
  | [.mk i b], h =>
    simp only [renameSingle, List.cons.injEq, Seg.mk.injEq, and_true, prependUnderscore] at h
    split at h
    · exact absurd h.1 (by decide)
    · rename_i hi
      exact hi h.1
  | .mk _ _ :: _ :: _, h => simp [renameSingle] at h

theorem renameSingle_type {l : Bool} {segs : List Seg} (h : Word.type.At (.mk l (renameSingle segs))) :
    Word.type.At (.mk l segs) := by
  rw [at_type_mk] at h ⊢
  refine ⟨h.1, ?_⟩
  obtain ⟨-, a, rest, h⟩ := h
  match segs, h with
  | [], h => simp [renameSingle] at h
  | [.mk i b], h =>
    simp only [renameSingle, List.cons.injEq, Seg.mk.injEq, prependUnderscore] at h
    split at h
    · exact absurd h.1.1 (by decide)
    · exact ⟨b, [], by rw [h.1.1]⟩
  | .mk _ _ :: _ :: _, h => exact ⟨_, _, h⟩

def segsChildren (ss : List Seg) : List Node := ss.flatMap (fun x => x.args.children)

theorem renameSingle_children (segs : List Seg) : segsChildren (renameSingle segs) = segsChildren segs := by
  match segs with
  | [] => rfl
  | [.mk i b] => rfl
  | .mk _ _ :: _ :: _ => rfl

theorem turbofish_children (segs : List Seg) : segsChildren (turbofish segs) = segsChildren segs := by
  fun_induction turbofish segs with
  | case1 => rfl
  | case2 i c args ss ih =>
    simp only [segsChildren, List.flatMap_cons] at *
    rw [ih]
    rfl
  | case3 s ss _ ih =>
    simp only [segsChildren, List.flatMap_cons] at *
    rw [ih]

theorem turbofish_idents (segs : List Seg) : (turbofish segs).map Seg.ident = segs.map Seg.ident := by
  fun_induction turbofish segs with
  | case1 => rfl
  | case2 i c args ss ih => simp [ih, Seg.ident]
  | case3 s ss _ ih => simp [ih]

theorem at_value_idents (l : Bool) (segs : List Seg) :
    Word.value.At (.mk l segs) ↔ segs.map Seg.ident = ["self"] := by
  rw [at_value_mk]
  match segs with
  | [] => simp
  | [.mk i a] => simp [Seg.ident]
  | _ :: _ :: _ => simp

theorem at_type_idents (l : Bool) (segs : List Seg) :
    Word.type.At (.mk l segs) ↔ l = false ∧ ∃ r, segs.map Seg.ident = "Self" :: r := by
  rw [at_type_mk]
  match segs with
  | [] => simp
  | .mk i a :: rest => simp [Seg.ident]

theorem pathFree_turbofish {l : Bool} {segs : List Seg} (h : PathFree (.mk l segs)) (ne : segs ≠ [])
    (tail : List Seg) : PathFree (.mk l (turbofish segs ++ tail)) := by
  intro w hw
  cases w with
  | value =>
    rw [at_value_idents, List.map_append, turbofish_idents] at hw
    refine h .value ((at_value_idents l segs).2 ?_)
    match segs, ne with
    | x :: xs, _ => simp at hw ⊢; exact ⟨hw.1, hw.2.1⟩
  | type =>
    rw [at_type_idents, List.map_append, turbofish_idents] at hw
    obtain ⟨hl, r, hr⟩ := hw
    refine h .type ((at_type_idents l segs).2 ⟨hl, ?_⟩)
    match segs, ne with
    | x :: xs, _ => simp at hr ⊢; exact hr.1

theorem visitSegList_idents (s : SelfTy) (ss : List Seg) : (visitSegList s ss).map Seg.ident = ss.map Seg.ident := by
  induction ss with
  | nil => rw [visitSegList]
  | cons x xs ih =>
    obtain ⟨i, a⟩ := x
    rw [visitSegList, List.map_cons, ih, Seg.visit]
    rfl

theorem visitSegs_type {s : SelfTy} {p : Path} (h : Word.type.At (.mk p.leading (p.visitSegs s))) :
    Word.type.At p := by
  obtain ⟨l, segs⟩ := p
  rw [Path.visitSegs, at_type_idents, visitSegList_idents] at h
  exact (at_type_idents l segs).2 h

theorem pathFree_visit {s : SelfTy} {p : Path} (h : ¬ Word.type.At p) :
    PathFree (.mk p.leading (renameSingle (p.visitSegs s))) := by
  intro w hw
  cases w with
  | value => exact renameSingle_not_value _ _ hw
  | type => exact h (visitSegs_type (renameSingle_type hw))

theorem path_eta (p : Path) : p = .mk p.leading p.segs := by cases p; rfl

theorem path_children_eq (p : Path) : p.children = segsChildren p.segs := by cases p; rfl

theorem path_children_mk (l : Bool) (segs : List Seg) : (Path.mk l segs).children = segsChildren segs := rfl

theorem mem_tail_children {c : Node} {segs : List Seg} (h : c ∈ segsChildren segs.tail) : c ∈ segsChildren segs := by
  cases segs with
  | nil => exact h
  | cons x xs =>
    simp only [segsChildren, List.flatMap_cons, List.tail_cons] at *
    exact List.mem_append_right _ h

theorem mentions_of_child {w : Word} {c n : Node} (hc : c ∈ scopeChildren n) : Mentions w c → Mentions w n := by
  rintro ⟨m, hm, h⟩
  exact ⟨m, .inside hc hm, h⟩

theorem Spec.Refers.mentions {w : Word} {n : Node} (h : Refers w n) : Mentions w n := by
  induction h with
  | path h1 h2 => exact ⟨_, .here _, .inl ⟨_, h1, h2⟩⟩
  | tokens h1 h2 _ => exact ⟨_, .here _, .inr ⟨_, h1, h2⟩⟩
  | inside hc _ ih => exact mentions_of_child hc ih

theorem Spec.Closed.children {s : SelfTy} (hs : Closed s) : ∀ c ∈ s.q.children ++ s.p.children, Free c :=
  fun c hc w hr => hs.node w (mentions_of_child hc hr.mentions)

theorem Spec.Closed.path {s : SelfTy} (hs : Closed s) : PathFree s.p := fun w hw => hs.node w (Refers.path rfl hw).mentions

/-- The path made by `self_to_expr_path` uses neither word. -/
theorem selfToExprPath_free {s : SelfTy} (hs : Closed s) {p : Path}
    (ha : Word.type.At p → ∀ x ∈ p.segs.head?, x.args.isEmpty = true)
    (hc : ∀ c ∈ segsChildren (p.visitSegs s), Free c) :
    PathFree (selfToExprPath s p (p.visitSegs s)) ∧
      ∀ c ∈ (selfToExprPath s p (p.visitSegs s)).children, Free c := by
  rw [selfToExprPath]
  split
  · refine ⟨pathFree_turbofish (l := s.p.leading) ?_ hs.nonempty _, ?_⟩
    · have := hs.path
      rwa [path_eta s.p] at this
    · intro c h
      rw [path_children_mk, segsChildren, List.flatMap_append, List.mem_append] at h
      rcases h with h | h
      · rw [← segsChildren, turbofish_children] at h
        exact hs.children c (List.mem_append_right _ (path_children_eq s.p ▸ h))
      · exact hc c (mem_tail_children h)
  · rename_i hn
    refine ⟨pathFree_visit (fun h => hn ((startsWithSelf_iff p).2 ⟨h, ha h⟩)), ?_⟩
    intro c h
    rw [path_children_mk, renameSingle_children] at h
    exact hc c h

/-- The path made by `self_to_qself` uses neither word. -/
theorem selfToQself_free {s : SelfTy} (hs : Closed s) {q : QS} {p : Path}
    (ha : Word.type.At p → q = .none ∧ ∀ x ∈ p.segs.head?, x.args.isEmpty = true)
    (hq : ∀ c ∈ (q.visit s).children, Free c)
    (hc : ∀ c ∈ segsChildren (p.visitSegs s), Free c) :
    let r := selfToQself s q p (q.visit s) (p.visitSegs s)
    PathFree r.2 ∧ ∀ c ∈ r.1.children ++ r.2.children, Free c := by
  intro r
  have hr : r = selfToQself s q p (q.visit s) (p.visitSegs s) := rfl
  clear_value r
  rw [selfToQself] at hr
  split at hr
  · split at hr
    · subst hr
      have hp := hs.path
      rw [path_eta s.p] at hp
      have := pathFree_turbofish hp hs.nonempty []
      rw [List.append_nil] at this
      refine ⟨this, ?_⟩
      intro c h
      rw [path_children_mk, turbofish_children] at h
      exact hs.children c (List.mem_append_right _ (path_children_eq s.p ▸ h))
    · subst hr
      refine ⟨?_, ?_⟩
      · intro w hw
        cases w with
        | value => exact renameSingle_not_value _ _ hw
        | type => exact absurd hw.1 (by simp [Path.leading])
      · intro c h
        rw [path_children_mk, renameSingle_children, List.mem_append] at h
        rcases h with h | h
        · simp only [QS.children, List.mem_singleton] at h
          subst h
          exact fun w hw => hs.node w hw.mentions
        · exact hc c (mem_tail_children h)
  · rename_i hn
    subst hr
    refine ⟨pathFree_visit (fun h => hn ?_), ?_⟩
    · obtain ⟨h1, h2⟩ := ha h
      subst h1
      simp [QS.isNone, (startsWithSelf_iff p).2 ⟨h, h2⟩]
    · intro c h
      rw [path_children_mk, renameSingle_children, List.mem_append] at h
      rcases h with h | h
      · exact hq c h
      · exact hc c h

theorem visitMacToks_toksFree {s : SelfTy} (hs : Closed s) (ts : List TT) : ToksFree (visitMacToks s.toks ts) := by
  intro w ho
  rw [visitMacToks] at ho ⊢
  split
  · rename_i h
    exact (containsFn_iff ts).1 h
  · rename_i h
    rw [if_neg h] at ho
    exact absurd ho (C37_none_left _ _ w (hs.toks w))

mutual
/-- After the visitor, neither `self` nor `Self` is used. -/
theorem Node.visit_none_left {s : SelfTy} (hs : Closed s) : ∀ n : Node, WellUsed n → Free (n.visit s)
  | .tyPath q p, h => by
    obtain ⟨ha, hc⟩ := (wellUsed_iff _).1 h
    have hq := QS.visit_none_left hs q (fun c hc' => hc c (List.mem_append_left _ hc'))
    have hp := Path.visitSegs_none_left hs p (fun c hc' => hc c (List.mem_append_right _ hc'))
    rw [Node.visit]
    split
    · exact (fun w hw => hs.node w hw.mentions)
    · obtain ⟨h1, h2⟩ := selfToQself_free hs ha hq hp
      refine (free_iff _).2 ⟨?_, ?_, h2⟩
      · rintro p' ⟨⟩
        exact h1
      · rintro ts ⟨⟩
  | .exprPath q p, h => by
    obtain ⟨ha, hc⟩ := (wellUsed_iff _).1 h
    have hq := QS.visit_none_left hs q (fun c hc' => hc c (List.mem_append_left _ hc'))
    have hp := Path.visitSegs_none_left hs p (fun c hc' => hc c (List.mem_append_right _ hc'))
    rw [Node.visit]
    obtain ⟨h1, h2⟩ := selfToQself_free hs ha hq hp
    refine (free_iff _).2 ⟨?_, ?_, h2⟩
    · rintro p' ⟨⟩
      exact h1
    · rintro ts ⟨⟩
  | .exprStruct q p cs, h => by
    obtain ⟨ha, hc⟩ := (wellUsed_iff _).1 h
    have hq := QS.visit_none_left hs q (fun c hc' => hc c (List.mem_append_left _ (List.mem_append_left _ hc')))
    have hp := Path.visitSegs_none_left hs p (fun c hc' => hc c (List.mem_append_left _ (List.mem_append_right _ hc')))
    have hn := visitNodes_none_left hs cs (fun c hc' => hc c (List.mem_append_right _ hc'))
    rw [Node.visit]
    obtain ⟨h1, h2⟩ := selfToExprPath_free hs (fun h => (ha h).2) hp
    refine (free_iff _).2 ⟨?_, ?_, ?_⟩
    · rintro p' ⟨⟩
      exact h1
    · rintro ts ⟨⟩
    · intro c hc'
      simp only [scopeChildren, Node.children, List.mem_append] at hc'
      rcases hc' with (hc' | hc') | hc'
      · exact hq c hc'
      · exact h2 c hc'
      · exact hn c hc'
  | .patStruct q p cs, h => by
    obtain ⟨ha, hc⟩ := (wellUsed_iff _).1 h
    have hq := QS.visit_none_left hs q (fun c hc' => hc c (List.mem_append_left _ (List.mem_append_left _ hc')))
    have hp := Path.visitSegs_none_left hs p (fun c hc' => hc c (List.mem_append_left _ (List.mem_append_right _ hc')))
    have hn := visitNodes_none_left hs cs (fun c hc' => hc c (List.mem_append_right _ hc'))
    rw [Node.visit]
    obtain ⟨h1, h2⟩ := selfToExprPath_free hs (fun h => (ha h).2) hp
    refine (free_iff _).2 ⟨?_, ?_, ?_⟩
    · rintro p' ⟨⟩
      exact h1
    · rintro ts ⟨⟩
    · intro c hc'
      simp only [scopeChildren, Node.children, List.mem_append] at hc'
      rcases hc' with (hc' | hc') | hc'
      · exact hq c hc'
      · exact h2 c hc'
      · exact hn c hc'
  | .patTupleStruct q p cs, h => by
    obtain ⟨ha, hc⟩ := (wellUsed_iff _).1 h
    have hq := QS.visit_none_left hs q (fun c hc' => hc c (List.mem_append_left _ (List.mem_append_left _ hc')))
    have hp := Path.visitSegs_none_left hs p (fun c hc' => hc c (List.mem_append_left _ (List.mem_append_right _ hc')))
    have hn := visitNodes_none_left hs cs (fun c hc' => hc c (List.mem_append_right _ hc'))
    rw [Node.visit]
    obtain ⟨h1, h2⟩ := selfToExprPath_free hs (fun h => (ha h).2) hp
    refine (free_iff _).2 ⟨?_, ?_, ?_⟩
    · rintro p' ⟨⟩
      exact h1
    · rintro ts ⟨⟩
    · intro c hc'
      simp only [scopeChildren, Node.children, List.mem_append] at hc'
      rcases hc' with (hc' | hc') | hc'
      · exact hq c hc'
      · exact h2 c hc'
      · exact hn c hc'
  | .path p, h => by
    obtain ⟨ha, hc⟩ := (wellUsed_iff _).1 h
    have hp := Path.visitSegs_none_left hs p hc
    rw [Node.visit]
    refine (free_iff _).2 ⟨?_, ?_, ?_⟩
    · rintro p' ⟨⟩
      exact pathFree_visit ha
    · rintro ts ⟨⟩
    · intro c hc'
      simp only [scopeChildren, Node.children] at hc'
      rw [path_children_mk, renameSingle_children] at hc'
      exact hp c hc'
  | .mac p ts, _ => by
    rw [Node.visit]
    refine (free_iff _).2 ⟨?_, ?_, ?_⟩
    · rintro p' ⟨⟩
    · rintro ts' ⟨⟩
      exact visitMacToks_toksFree hs ts
    · intro c hc
      exact absurd hc List.not_mem_nil
  | .itemMac p ts, _ => by
    rw [Node.visit]
    split
    · refine (free_iff _).2 ⟨?_, ?_, ?_⟩
      · rintro p' ⟨⟩
      · rename_i hm
        rw [openToks, if_pos hm]
        rintro ts' ⟨⟩
        exact visitMacToks_toksFree hs ts
      · intro c hc
        exact absurd hc List.not_mem_nil
    · refine (free_iff _).2 ⟨?_, ?_, ?_⟩
      · rintro p' ⟨⟩
      · rename_i hm
        rw [openToks, if_neg hm]
        rintro ts' ⟨⟩
      · intro c hc
        exact absurd hc List.not_mem_nil
  | .item l cs, _ => by
    rw [Node.visit]
    refine (free_iff _).2 ⟨?_, ?_, ?_⟩
    · rintro p' ⟨⟩
    · rintro ts' ⟨⟩
    · intro c hc
      exact absurd hc List.not_mem_nil
  | .binder _, _ => by
    rw [Node.visit]
    refine (free_iff _).2 ⟨?_, ?_, ?_⟩
    · rintro p' ⟨⟩
    · rintro ts' ⟨⟩
    · intro c hc
      exact absurd hc List.not_mem_nil
  | .lifetime _, _ => by
    rw [Node.visit]
    refine (free_iff _).2 ⟨?_, ?_, ?_⟩
    · rintro p' ⟨⟩
    · rintro ts' ⟨⟩
    · intro c hc
      exact absurd hc List.not_mem_nil
  | .other l cs, h => by
    obtain ⟨-, hc⟩ := (wellUsed_iff _).1 h
    have hn := visitNodes_none_left hs cs hc
    rw [Node.visit]
    refine (free_iff _).2 ⟨?_, ?_, hn⟩
    · rintro p' ⟨⟩
    · rintro ts' ⟨⟩
theorem QS.visit_none_left {s : SelfTy} (hs : Closed s) : ∀ q : QS, (∀ c ∈ q.children, WellUsed c) →
    ∀ c ∈ (q.visit s).children, Free c
  | .none, _ => by
    rw [QS.visit]
    intro c hc
    exact absurd hc List.not_mem_nil
  | .some t pos, h => by
    rw [QS.visit]
    intro c hc
    rw [List.mem_singleton.1 hc]
    exact Node.visit_none_left hs t (h t (List.mem_singleton.2 rfl))
theorem Path.visitSegs_none_left {s : SelfTy} (hs : Closed s) : ∀ p : Path, (∀ c ∈ p.children, WellUsed c) →
    ∀ c ∈ segsChildren (p.visitSegs s), Free c
  | .mk _ segs, h => by
    rw [Path.visitSegs]
    exact visitSegList_none_left hs segs h
theorem visitSegList_none_left {s : SelfTy} (hs : Closed s) : ∀ ss : List Seg,
    (∀ c ∈ ss.flatMap (fun x => x.args.children), WellUsed c) → ∀ c ∈ segsChildren (visitSegList s ss), Free c
  | [], _ => by
    rw [visitSegList]
    intro c hc
    exact absurd hc List.not_mem_nil
  | x :: xs, h => by
    rw [List.flatMap_cons] at h
    have h1 := Seg.visit_none_left hs x (fun c hc => h c (List.mem_append_left _ hc))
    have h2 := visitSegList_none_left hs xs (fun c hc => h c (List.mem_append_right _ hc))
    rw [visitSegList, segsChildren, List.flatMap_cons]
    intro c hc
    rcases List.mem_append.1 hc with hc | hc
    · exact h1 c hc
    · exact h2 c hc
theorem Seg.visit_none_left {s : SelfTy} (hs : Closed s) : ∀ x : Seg, (∀ c ∈ x.args.children, WellUsed c) →
    ∀ c ∈ (x.visit s).args.children, Free c
  | .mk i a, h => by
    rw [Seg.visit]
    exact PArgs.visit_none_left hs a h
theorem PArgs.visit_none_left {s : SelfTy} (hs : Closed s) : ∀ a : PArgs, (∀ c ∈ a.children, WellUsed c) →
    ∀ c ∈ (a.visit s).children, Free c
  | .none, _ => by
    rw [PArgs.visit]
    intro c hc
    exact absurd hc List.not_mem_nil
  | .angle c args, h => by
    rw [PArgs.visit]
    exact visitNodes_none_left hs args h
  | .paren args, h => by
    rw [PArgs.visit]
    exact visitNodes_none_left hs args h
theorem visitNodes_none_left {s : SelfTy} (hs : Closed s) : ∀ ns : List Node, (∀ n ∈ ns, WellUsed n) →
    ∀ n ∈ visitNodes s ns, Free n
  | [], _ => by
    rw [visitNodes]
    intro c hc
    exact absurd hc List.not_mem_nil
  | n :: ns, h => by
    have h1 := Node.visit_none_left hs n (h n (List.mem_cons_self ..))
    have h2 := visitNodes_none_left hs ns (fun m hm => h m (List.mem_cons_of_mem _ hm))
    rw [visitNodes]
    intro c hc
    rcases List.mem_cons.1 hc with rfl | hc
    · exact h1
    · exact h2 c hc
end

/-! ## The rewriting is as specified -/

theorem turbofish_spec (segs : List Seg) : TurbofishOf segs (turbofish segs) := by
  fun_induction turbofish segs with
  | case1 => exact .nil
  | case2 i c args ss ih => exact .colons i _ _ args ih
  | case3 s ss _ ih => exact .same _ ih

theorem turbofish_form (segs : List Seg) : ExprForm segs (turbofish segs) := by
  fun_induction turbofish segs with
  | case1 => exact .nil
  | case2 i c args ss ih =>
    cases args with
    | nil =>
      simp only [List.isEmpty_nil, Bool.not_true, Bool.or_false]
      exact .same _ (by simp [Seg.args]) ih
    | cons x xs => simpa using ExprForm.colons i c (x :: xs) ih
  | case3 s ss h ih =>
    refine .same _ (fun b args hb => ?_) ih
    obtain ⟨i, a⟩ := s
    simp only [Seg.args] at hb
    exact absurd (by rw [hb]) (h i b args)

theorem turbofishOf_refl (segs : List Seg) : TurbofishOf segs segs := by
  induction segs with
  | nil => exact .nil
  | cons x xs ih => exact .same x ih

theorem rewritesSegs_cons {s : SelfTy} {i j : String} {a a' : PArgs} {xs ys : List Seg}
    (h : RewritesSegs s (.mk i a :: xs) (.mk j a' :: ys)) : RewritesArgs s a a' ∧ RewritesSegs s xs ys := by
  cases h with
  | cons h1 h2 => exact ⟨h1, h2⟩

theorem rewritesPath_visit {s : SelfTy} {l : Bool} {segs : List Seg} (h : RewritesSegs s segs (visitSegList s segs)) :
    RewritesPath s (.mk l segs) (.mk l (renameSingle (visitSegList s segs))) := by
  by_cases hv : Word.value.At (.mk l segs)
  · obtain ⟨a, hv⟩ := hv
    rw [show segs = [.mk "self" a] from hv] at h ⊢
    simp only [visitSegList, Seg.visit, renameSingle, prependUnderscore, ↓reduceIte] at h ⊢
    exact .value (rewritesSegs_cons h).1
  · have : renameSingle (visitSegList s segs) = visitSegList s segs := by
      apply renameSingle_of_not (l := l)
      rwa [at_value_idents, visitSegList_idents, ← at_value_idents l]
    rw [this]
    exact .other hv h

theorem at_type_cases {p : Path} (h : Word.type.At p)
    (ha : ∀ x ∈ p.segs.head?, x.args.isEmpty = true) :
    ∃ a rest, p = .mk false (.mk "Self" a :: rest) ∧ a.isEmpty = true := by
  obtain ⟨l, segs⟩ := p
  obtain ⟨rfl, a, rest, rfl⟩ := (at_type_mk l segs).1 h
  exact ⟨a, rest, rfl, ha _ rfl⟩

theorem selfToQself_at {s : SelfTy} (a : PArgs) (rest : List Seg) (ha : a.isEmpty = true) (qv : QS) :
    selfToQself s .none (.mk false (.mk "Self" a :: rest)) qv (visitSegList s (.mk "Self" a :: rest)) =
      if rest = [] then (.none, .mk s.p.leading (turbofish s.p.segs))
      else (.some (.tyPath s.q s.p) 0, .mk true (renameSingle (visitSegList s rest))) := by
  have : startsWithSelf (.mk false (.mk "Self" a :: rest)) = true := by simp [startsWithSelf, ha]
  rw [selfToQself, this]
  simp only [QS.isNone, Bool.and_self, ↓reduceIte, Path.segs, List.length_cons, visitSegList, List.tail_cons]
  cases rest <;> simp

/-- `SelfAllowed` everywhere in `n`, and no receiver type `<T as ..>::x` is cut short there. -/
def Good (s : SelfTy) (n : Node) : Prop :=
  ∀ m, InScope m n → SelfAllowed m ∧ (s.q = .none ∨ ¬ SelfAsPath m)

theorem good_iff (s : SelfTy) (n : Node) : Good s n ↔
    (SelfAllowed n ∧ (s.q = .none ∨ ¬ SelfAsPath n)) ∧ ∀ c ∈ scopeChildren n, Good s c := by
  constructor
  · exact fun h => ⟨h n (.here n), fun c hc m hm => h m (.inside hc hm)⟩
  · rintro ⟨h, hc⟩ m hm
    cases hm with
    | here => exact h
    | inside hc' hm => exact hc _ hc' _ hm

mutual
/-- The visitor does what is specified. -/
theorem Node.visit_rewrites {s : SelfTy} : ∀ n : Node, Good s n → Rewrites s n (n.visit s)
  | .tyPath q p, h => by
    obtain ⟨⟨ha, hl⟩, hc⟩ := (good_iff _ _).1 h
    have hq := QS.visit_rewrites q (fun c hc' => hc c (List.mem_append_left _ hc'))
    have hp := Path.visitSegs_rewrites p (fun c hc' => hc c (List.mem_append_right _ hc'))
    rw [Node.visit]
    split
    · rename_i hi
      rw [Bool.and_eq_true] at hi
      obtain ⟨h1, h2⟩ := hi
      rw [isIdent_self h2]
      cases q with
      | some => simp [QS.isNone] at h1
      | none =>
        rw [show Node.tyPath s.q s.p = .tyPath s.q (.mk s.p.leading s.p.segs) by rw [← path_eta]]
        exact .selfTy (a := .none) rfl (turbofishOf_refl _)
    · by_cases hat : Word.type.At p
      · obtain ⟨rfl, ha'⟩ := ha hat
        obtain ⟨a, rest, rfl, hae⟩ := at_type_cases hat ha'
        rw [Path.visitSegs, selfToQself_at a rest hae]
        cases rest with
        | nil =>
          have := Rewrites.selfTy (s := s) hae (turbofish_spec s.p.segs)
          rcases hl with hl | hl
          · rwa [hl] at this
          · exfalso
            cases a with
            | none => rename_i hi; simp [QS.isNone, Path.isIdent] at hi
            | angle c as => exact hl ⟨hat, c, by simpa [PArgs.isEmpty, Path.segs] using hae⟩
            | paren as => simp [PArgs.isEmpty] at hae
        | cons x xs =>
          rw [if_neg (by simp)]
          simp only [Path.segs, Path.visitSegs] at hp
          rw [visitSegList, Seg.visit] at hp
          exact .assocTy hae (rewritesPath_visit (rewritesSegs_cons hp).2)
      · obtain ⟨l, segs⟩ := p
        rw [selfToQself, not_startsWithSelf hat, Bool.and_false]
        exact .tyPath hat hq (rewritesPath_visit hp)
  | .exprPath q p, h => by
    obtain ⟨⟨ha, hl⟩, hc⟩ := (good_iff _ _).1 h
    have hq := QS.visit_rewrites q (fun c hc' => hc c (List.mem_append_left _ hc'))
    have hp := Path.visitSegs_rewrites p (fun c hc' => hc c (List.mem_append_right _ hc'))
    rw [Node.visit]
    by_cases hat : Word.type.At p
    · obtain ⟨rfl, ha'⟩ := ha hat
      obtain ⟨a, rest, rfl, hae⟩ := at_type_cases hat ha'
      rw [Path.visitSegs, selfToQself_at a rest hae]
      cases rest with
      | nil =>
        have := Rewrites.selfExpr (s := s) hae (turbofish_form s.p.segs)
        rwa [hl.resolve_right (fun h => h ⟨hat, rfl⟩)] at this
      | cons x xs =>
        rw [if_neg (by simp)]
        simp only [Path.segs, Path.visitSegs] at hp
        rw [visitSegList, Seg.visit] at hp
        exact .assocExpr hae (rewritesPath_visit (rewritesSegs_cons hp).2)
    · obtain ⟨l, segs⟩ := p
      rw [selfToQself, not_startsWithSelf hat, Bool.and_false]
      exact .exprPath hat hq (rewritesPath_visit hp)
  | .exprStruct q p cs, h => by
    obtain ⟨⟨ha, hl⟩, hc⟩ := (good_iff _ _).1 h
    have hq := QS.visit_rewrites q (fun c hc' => hc c (List.mem_append_left _ (List.mem_append_left _ hc')))
    have hp := Path.visitSegs_rewrites p (fun c hc' => hc c (List.mem_append_left _ (List.mem_append_right _ hc')))
    have hn := visitNodes_rewrites cs (fun c hc' => hc c (List.mem_append_right _ hc'))
    rw [Node.visit, selfToExprPath]
    by_cases hat : Word.type.At p
    · obtain ⟨rfl, ha'⟩ := ha hat
      rw [if_pos ((startsWithSelf_iff p).2 ⟨hat, ha'⟩)]
      obtain ⟨a, rest, rfl, hae⟩ := at_type_cases hat ha'
      simp only [Path.segs, Path.visitSegs] at hp ⊢
      rw [visitSegList, Seg.visit] at hp ⊢
      have := Rewrites.selfStruct (s := s) hae (turbofish_form s.p.segs) (rewritesSegs_cons hp).2 hn
      rwa [hl.resolve_right (fun h => h hat)] at this
    · obtain ⟨l, segs⟩ := p
      rw [not_startsWithSelf hat]
      exact .exprStruct hat hq (rewritesPath_visit hp) hn
  | .patStruct q p cs, h => by
    obtain ⟨⟨ha, hl⟩, hc⟩ := (good_iff _ _).1 h
    have hq := QS.visit_rewrites q (fun c hc' => hc c (List.mem_append_left _ (List.mem_append_left _ hc')))
    have hp := Path.visitSegs_rewrites p (fun c hc' => hc c (List.mem_append_left _ (List.mem_append_right _ hc')))
    have hn := visitNodes_rewrites cs (fun c hc' => hc c (List.mem_append_right _ hc'))
    rw [Node.visit, selfToExprPath]
    by_cases hat : Word.type.At p
    · obtain ⟨rfl, ha'⟩ := ha hat
      rw [if_pos ((startsWithSelf_iff p).2 ⟨hat, ha'⟩)]
      obtain ⟨a, rest, rfl, hae⟩ := at_type_cases hat ha'
      simp only [Path.segs, Path.visitSegs] at hp ⊢
      rw [visitSegList, Seg.visit] at hp ⊢
      have := Rewrites.selfPatStruct (s := s) hae (turbofish_form s.p.segs) (rewritesSegs_cons hp).2 hn
      rwa [hl.resolve_right (fun h => h hat)] at this
    · obtain ⟨l, segs⟩ := p
      rw [not_startsWithSelf hat]
      exact .patStruct hat hq (rewritesPath_visit hp) hn
  | .patTupleStruct q p cs, h => by
    obtain ⟨⟨ha, hl⟩, hc⟩ := (good_iff _ _).1 h
    have hq := QS.visit_rewrites q (fun c hc' => hc c (List.mem_append_left _ (List.mem_append_left _ hc')))
    have hp := Path.visitSegs_rewrites p (fun c hc' => hc c (List.mem_append_left _ (List.mem_append_right _ hc')))
    have hn := visitNodes_rewrites cs (fun c hc' => hc c (List.mem_append_right _ hc'))
    rw [Node.visit, selfToExprPath]
    by_cases hat : Word.type.At p
    · obtain ⟨rfl, ha'⟩ := ha hat
      rw [if_pos ((startsWithSelf_iff p).2 ⟨hat, ha'⟩)]
      obtain ⟨a, rest, rfl, hae⟩ := at_type_cases hat ha'
      simp only [Path.segs, Path.visitSegs] at hp ⊢
      rw [visitSegList, Seg.visit] at hp ⊢
      have := Rewrites.selfPatTupleStruct (s := s) hae (turbofish_form s.p.segs) (rewritesSegs_cons hp).2 hn
      rwa [hl.resolve_right (fun h => h hat)] at this
    · obtain ⟨l, segs⟩ := p
      rw [not_startsWithSelf hat]
      exact .patTupleStruct hat hq (rewritesPath_visit hp) hn
  | .path p, h => by
    obtain ⟨⟨ha, hl⟩, hc⟩ := (good_iff _ _).1 h
    have hp := Path.visitSegs_rewrites p hc
    rw [Node.visit]
    obtain ⟨l, segs⟩ := p
    exact .path ha (rewritesPath_visit hp)
  | .mac p ts, _ => by
    rw [Node.visit, visitMacToks]
    split
    · rename_i hf
      exact .macFn ((containsFn_iff ts).1 hf)
    · rename_i hf
      exact .mac (by rwa [containsFn_iff] at hf) (C37_rewrites _ _)
  | .itemMac p ts, _ => by
    rw [Node.visit, visitMacToks]
    split
    · rename_i hm
      split
      · rename_i hf
        exact .macroRulesFn ((containsFn_iff ts).1 hf)
      · rename_i hf
        exact .macroRules hm (by rwa [containsFn_iff] at hf) (C37_rewrites _ _)
    · rename_i hm
      exact .itemMac hm
  | .item l cs, _ => by rw [Node.visit]; exact .item
  | .binder _, _ => by rw [Node.visit]; exact .binder
  | .lifetime _, _ => by rw [Node.visit]; exact .lifetime
  | .other l cs, h => by
    obtain ⟨-, hc⟩ := (good_iff _ _).1 h
    rw [Node.visit]
    exact .other (visitNodes_rewrites cs hc)
theorem QS.visit_rewrites {s : SelfTy} : ∀ q : QS, (∀ c ∈ q.children, Good s c) →
    RewritesQS s q (q.visit s)
  | .none, _ => by rw [QS.visit]; exact .none
  | .some t pos, h => by rw [QS.visit]; exact .some (Node.visit_rewrites t (h t (List.mem_singleton.2 rfl)))
theorem Path.visitSegs_rewrites {s : SelfTy} : ∀ p : Path, (∀ c ∈ p.children, Good s c) →
    RewritesSegs s p.segs (p.visitSegs s)
  | .mk _ segs, h => by
    rw [Path.visitSegs]
    exact visitSegList_rewrites segs h
theorem visitSegList_rewrites {s : SelfTy} : ∀ ss : List Seg,
    (∀ c ∈ ss.flatMap (fun x => x.args.children), Good s c) → RewritesSegs s ss (visitSegList s ss)
  | [], _ => by rw [visitSegList]; exact .nil
  | .mk i a :: xs, h => by
    rw [List.flatMap_cons] at h
    rw [visitSegList, Seg.visit]
    exact .cons (PArgs.visit_rewrites a (fun c hc => h c (List.mem_append_left _ hc)))
      (visitSegList_rewrites xs (fun c hc => h c (List.mem_append_right _ hc)))
theorem PArgs.visit_rewrites {s : SelfTy} : ∀ a : PArgs, (∀ c ∈ a.children, Good s c) →
    RewritesArgs s a (a.visit s)
  | .none, _ => by rw [PArgs.visit]; exact .none
  | .angle c args, h => by rw [PArgs.visit]; exact .angle (visitNodes_rewrites args h)
  | .paren args, h => by rw [PArgs.visit]; exact .paren (visitNodes_rewrites args h)
theorem visitNodes_rewrites {s : SelfTy} : ∀ ns : List Node, (∀ n ∈ ns, Good s n) →
    RewritesNodes s ns (visitNodes s ns)
  | [], _ => by rw [visitNodes]; exact .nil
  | n :: ns, h => by
    rw [visitNodes]
    exact .cons (Node.visit_rewrites n (h n (List.mem_cons_self ..)))
      (visitNodes_rewrites ns (fun m hm => h m (List.mem_cons_of_mem _ hm)))
end

/-! ## The children of a visited node -/

theorem mem_visitNodes {s : SelfTy} {ns : List Node} {c : Node} :
    c ∈ visitNodes s ns ↔ ∃ b ∈ ns, c = b.visit s := by
  induction ns with
  | nil => simp [visitNodes]
  | cons n ns ih => simp [visitNodes, ih]

theorem mem_qs_visit {s : SelfTy} {q : QS} {c : Node} :
    c ∈ (q.visit s).children ↔ ∃ b ∈ q.children, c = b.visit s := by
  cases q <;> simp [QS.visit, QS.children]

theorem mem_args_visit {s : SelfTy} {a : PArgs} {c : Node} :
    c ∈ (a.visit s).children ↔ ∃ b ∈ a.children, c = b.visit s := by
  cases a <;> simp [PArgs.visit, PArgs.children, mem_visitNodes]

theorem mem_segs_visit {s : SelfTy} {ss : List Seg} {c : Node} :
    c ∈ segsChildren (visitSegList s ss) ↔ ∃ b ∈ segsChildren ss, c = b.visit s := by
  induction ss with
  | nil => simp [visitSegList, segsChildren]
  | cons x xs ih =>
    obtain ⟨i, a⟩ := x
    simp only [segsChildren, visitSegList, Seg.visit, List.flatMap_cons, List.mem_append, Seg.args] at ih ⊢
    rw [ih, mem_args_visit]
    grind

theorem emptyArgs_children {a : PArgs} (h : a.isEmpty = true) : a.children = [] := by
  cases a <;> simp_all [PArgs.isEmpty, PArgs.children]

theorem startsWithSelf_tail {s : SelfTy} {p : Path} (h : startsWithSelf p = true) :
    segsChildren (p.visitSegs s).tail = segsChildren (p.visitSegs s) := by
  obtain ⟨hat, ha⟩ := (startsWithSelf_iff p).1 h
  obtain ⟨a, rest, rfl, hae⟩ := at_type_cases hat ha
  simp only [Path.visitSegs, visitSegList, List.tail_cons, segsChildren, List.flatMap_cons, Seg.visit, Seg.args]
  have : (a.visit s).children = [] := by
    have := emptyArgs_children hae
    rw [List.eq_nil_iff_forall_not_mem]
    simp [mem_args_visit, this]
  rw [this, List.nil_append]

theorem mem_exprPath_children {s : SelfTy} {p : Path} {c : Node} :
    c ∈ (selfToExprPath s p (p.visitSegs s)).children ↔
      (startsWithSelf p = true ∧ c ∈ s.p.children) ∨ ∃ b ∈ p.children, c = b.visit s := by
  have hv : c ∈ segsChildren (p.visitSegs s) ↔ ∃ b ∈ p.children, c = b.visit s := by
    obtain ⟨l, segs⟩ := p
    rw [Path.visitSegs, mem_segs_visit, path_children_mk]
  rw [selfToExprPath]
  split
  · rename_i h
    rw [path_children_mk, segsChildren, List.flatMap_append, List.mem_append]
    have := startsWithSelf_tail (s := s) h
    rw [segsChildren, segsChildren] at this
    rw [this]
    change c ∈ segsChildren _ ∨ c ∈ segsChildren _ ↔ _
    rw [turbofish_children, ← path_children_eq, hv]
    simp [h]
  · rename_i h
    rw [path_children_mk, renameSingle_children, hv]
    simp [h]

theorem mem_qself_children {s : SelfTy} {q : QS} {p : Path} {c : Node} :
    c ∈ (selfToQself s q p (q.visit s) (p.visitSegs s)).1.children ++
        (selfToQself s q p (q.visit s) (p.visitSegs s)).2.children ↔
      ((q.isNone && startsWithSelf p) = true ∧
        if p.segs.length = 1 then c ∈ s.p.children else c = .tyPath s.q s.p) ∨
      ∃ b ∈ q.children ++ p.children, c = b.visit s := by
  have hv : c ∈ segsChildren (p.visitSegs s) ↔ ∃ b ∈ p.children, c = b.visit s := by
    obtain ⟨l, segs⟩ := p
    rw [Path.visitSegs, mem_segs_visit, path_children_mk]
  rw [selfToQself]
  split
  · rename_i h
    obtain ⟨hq, hp⟩ := Bool.and_eq_true_iff.1 h
    have hq : q.children = [] := by cases q <;> simp_all [QS.isNone, QS.children]
    rw [hq, List.nil_append, ← hv, h]
    have ht := startsWithSelf_tail (s := s) hp
    split
    · rename_i hl
      have : segsChildren (p.visitSegs s) = [] := by
        obtain ⟨l, segs⟩ := p
        rw [← ht, Path.visitSegs]
        match segs, hl with
        | [x], _ => simp [visitSegList, segsChildren]
      rw [this, path_children_mk, turbofish_children, ← path_children_eq]
      simp [QS.children]
    · rw [path_children_mk, renameSingle_children, ht]
      simp [QS.children]
  · rename_i h
    rw [path_children_mk, renameSingle_children, List.mem_append, mem_qs_visit, hv]
    simp only [h, List.mem_append]
    grind

/-- The children of a visited node are the visited children, and parts of the receiver type. -/
theorem visit_children {s : SelfTy} {n c : Node} (hc : c ∈ scopeChildren (n.visit s)) :
    (∃ b ∈ scopeChildren n, c = b.visit s) ∨ c = .tyPath s.q s.p ∨ c ∈ s.q.children ++ s.p.children := by
  cases n with
  | tyPath q p =>
    rw [Node.visit] at hc
    split at hc
    · exact .inr (.inr hc)
    · rcases mem_qself_children.1 hc with ⟨-, h⟩ | h
      · split at h
        · exact .inr (.inr (List.mem_append_right _ h))
        · exact .inr (.inl h)
      · exact .inl h
  | exprPath q p =>
    rw [Node.visit] at hc
    rcases mem_qself_children.1 hc with ⟨-, h⟩ | h
    · split at h
      · exact .inr (.inr (List.mem_append_right _ h))
      · exact .inr (.inl h)
    · exact .inl h
  | exprStruct q p cs | patStruct q p cs | patTupleStruct q p cs =>
    simp only [Node.visit, scopeChildren, Node.children, List.mem_append, mem_qs_visit, mem_exprPath_children,
      mem_visitNodes] at hc ⊢
    grind
  | path p =>
    simp only [Node.visit, scopeChildren, Node.children, path_children_mk, renameSingle_children] at hc ⊢
    obtain ⟨l, segs⟩ := p
    rw [Path.visitSegs, mem_segs_visit] at hc
    exact .inl hc
  | other l cs =>
    simp only [Node.visit, scopeChildren, Node.children, mem_visitNodes] at hc ⊢
    exact .inl hc
  | mac p ts => simp [Node.visit, scopeChildren] at hc
  | itemMac p ts =>
    rw [Node.visit] at hc
    split at hc <;> simp [scopeChildren] at hc
  | item l cs => simp [Node.visit, scopeChildren] at hc
  | binder | lifetime => simp [Node.visit, scopeChildren, Node.children] at hc

theorem visit_child {s : SelfTy} {n c : Node} (hc : c ∈ scopeChildren n) : c.visit s ∈ scopeChildren (n.visit s) := by
  cases n with
  | tyPath q p =>
    rw [Node.visit]
    split
    · rename_i h
      rw [Bool.and_eq_true] at h
      cases q with
      | some => simp [QS.isNone] at h
      | none =>
        rw [isIdent_self h.2] at hc
        simp [scopeChildren, Node.children, QS.children, Path.children, Seg.args, PArgs.children] at hc
    · exact mem_qself_children.2 (.inr ⟨c, hc, rfl⟩)
  | exprPath q p =>
    rw [Node.visit]
    exact mem_qself_children.2 (.inr ⟨c, hc, rfl⟩)
  | exprStruct q p cs | patStruct q p cs | patTupleStruct q p cs =>
    simp only [Node.visit, scopeChildren, Node.children, List.mem_append, mem_qs_visit, mem_exprPath_children,
      mem_visitNodes] at hc ⊢
    grind
  | path p =>
    simp only [Node.visit, scopeChildren, Node.children, path_children_mk, renameSingle_children] at hc ⊢
    obtain ⟨l, segs⟩ := p
    rw [Path.visitSegs, mem_segs_visit]
    exact ⟨c, hc, rfl⟩
  | other l cs =>
    simp only [Node.visit, scopeChildren, Node.children, mem_visitNodes] at hc ⊢
    exact ⟨c, hc, rfl⟩
  | mac | itemMac | item => simp [scopeChildren] at hc
  | binder | lifetime => simp [scopeChildren, Node.children] at hc

/-! ## What is left after the rewriting -/

theorem Spec.InScope.trans {a b c : Node} (h1 : InScope a b) (h2 : InScope b c) : InScope a c := by
  induction h2 with
  | here => exact h1
  | inside hc _ ih => exact .inside hc ih

/-- Neither word is mentioned. -/
def Bare (n : Node) : Prop := ∀ w, ¬ Mentions w n

theorem bare_iff (n : Node) : Bare n ↔
    (∀ p, nodePath n = some p → PathFree p) ∧ (∀ ts, openToks n = some ts → ∀ w : Word, ¬ TokOccurs w.text ts) ∧
    ∀ c ∈ scopeChildren n, Bare c := by
  constructor
  · intro h
    exact ⟨fun p hp w ha => h w ⟨n, .here n, .inl ⟨p, hp, ha⟩⟩, fun ts ht w ho => h w ⟨n, .here n, .inr ⟨ts, ht, ho⟩⟩,
      fun c hc w hm => h w (mentions_of_child hc hm)⟩
  · rintro ⟨h1, h2, h3⟩ w ⟨m, hm, h⟩
    cases hm with
    | here =>
      rcases h with ⟨p, hp, ha⟩ | ⟨ts, ht, ho⟩
      · exact h1 p hp w ha
      · exact h2 ts ht w ho
    | inside hc hm => exact h3 _ hc w ⟨m, hm, h⟩

theorem mentions_iff (w : Word) (n : Node) : Mentions w n ↔ Refers w n ∨ InFnMacro w n := by
  constructor
  · rintro ⟨m, hm, h⟩
    induction hm with
    | here =>
      rcases h with ⟨p, h1, h2⟩ | ⟨toks, h1, h2⟩
      · exact .inl (.path h1 h2)
      · by_cases hf : TokOccurs "fn" toks
        · exact .inr ⟨_, toks, .here _, h1, hf, h2⟩
        · exact .inl (.tokens h1 h2 hf)
    | inside hc _ ih =>
      rcases ih with h | ⟨m, toks, hm, h⟩
      · exact .inl (.inside hc h)
      · exact .inr ⟨m, toks, .inside hc hm, h⟩
  · rintro (h | ⟨m, toks, hm, h1, _, h2⟩)
    · exact h.mentions
    · exact ⟨m, hm, .inr ⟨toks, h1, h2⟩⟩

/-- A macro call whose tokens contain `fn` is not changed. -/
theorem visit_fnMacro {s : SelfTy} {m : Node} {toks : List TT} (h : openToks m = some toks)
    (hf : TokOccurs "fn" toks) : m.visit s = m := by
  have hf' := (containsFn_iff toks).2 hf
  cases m <;> simp only [openToks, reduceCtorEq, Option.some.injEq] at h
  · subst h
    rw [Node.visit, visitMacToks, if_pos hf']
  · split at h
    · simp only [Option.some.injEq] at h
      subst h
      rw [Node.visit, visitMacToks, if_pos hf']
      split <;> rfl
    · simp at h

/-- The tokens of a visited macro call. -/
theorem openToks_visit {s : SelfTy} {n : Node} {toks : List TT} (h : openToks (n.visit s) = some toks) :
    ∃ ts, openToks n = some ts ∧ toks = visitMacToks s.toks ts := by
  cases n with
  | mac p ts =>
    simp only [Node.visit, openToks, Option.some.injEq] at h ⊢
    exact ⟨ts, rfl, h.symm⟩
  | itemMac p ts =>
    rw [Node.visit] at h
    split at h
    · rename_i hp
      simp only [openToks, hp, ↓reduceIte, Option.some.injEq] at h ⊢
      exact ⟨ts, rfl, h.symm⟩
    · rename_i hp
      simp [openToks, hp] at h
  | tyPath q p =>
    rw [Node.visit] at h
    split at h <;> simp [openToks] at h
  | exprPath | exprStruct | patStruct | patTupleStruct | path | item | binder | lifetime | other =>
    simp [Node.visit, openToks] at h

theorem inFnMacro_visit {s : SelfTy} (hs : Closed s) {w : Word} {n : Node} :
    InFnMacro w (n.visit s) ↔ InFnMacro w n := by
  constructor
  · rintro ⟨m, toks, hm, h1, hf, hw⟩
    generalize hn' : n.visit s = n' at hm
    induction hm generalizing n with
    | here =>
      subst hn'
      obtain ⟨ts, h2, rfl⟩ := openToks_visit h1
      rw [visitMacToks] at hf hw
      split at hw
      · rename_i hc
        rw [if_pos hc] at hf
        exact ⟨n, ts, .here n, h2, hf, hw⟩
      · exact absurd hw (C37_none_left _ _ w (hs.toks w))
    | inside hc hm ih =>
      subst hn'
      rcases visit_children hc with ⟨b, hb, rfl⟩ | rfl | hc
      · obtain ⟨m, toks, hm, h⟩ := ih rfl
        exact ⟨m, toks, .inside hb hm, h⟩
      · exact absurd ⟨_, hm, .inr ⟨toks, h1, hw⟩⟩ (hs.node w)
      · exact absurd ⟨_, .inside hc hm, .inr ⟨toks, h1, hw⟩⟩ (hs.node w)
  · rintro ⟨m, toks, hm, h1, hf, hw⟩
    refine ⟨m, toks, ?_, h1, hf, hw⟩
    induction hm with
    | here =>
      rw [visit_fnMacro h1 hf]
      exact .here m
    | inside hc _ ih => exact .inside (visit_child hc) ih

/-- After the rewriting the words are left exactly in the macro calls whose tokens contain `fn`. -/
theorem visit_mentions {s : SelfTy} (hs : Closed s) {w : Word} {n : Node} (hu : WellUsed n) :
    Mentions w (n.visit s) ↔ InFnMacro w n := by
  rw [mentions_iff, inFnMacro_visit hs]
  exact ⟨fun h => h.resolve_left (Node.visit_none_left hs n hu w), .inr⟩

/-! ## When the rewriting is as specified -/

theorem rewritesNodes_mem {s : SelfTy} {ns : List Node} (h : RewritesNodes s ns (visitNodes s ns)) :
    ∀ n ∈ ns, Rewrites s n (n.visit s) := by
  induction ns with
  | nil => simp
  | cons n ns ih =>
    rw [visitNodes] at h
    cases h with
    | cons h1 h2 => simpa using ⟨h1, ih h2⟩

theorem rewritesQS_mem {s : SelfTy} {q : QS} (h : RewritesQS s q (q.visit s)) :
    ∀ n ∈ q.children, Rewrites s n (n.visit s) := by
  cases q with
  | none => simp [QS.children]
  | some t pos =>
    rw [QS.visit] at h
    cases h with
    | some h => simpa [QS.children] using h

theorem rewritesArgs_mem {s : SelfTy} {a : PArgs} (h : RewritesArgs s a (a.visit s)) :
    ∀ n ∈ a.children, Rewrites s n (n.visit s) := by
  cases a with
  | none => simp [PArgs.children]
  | angle c as =>
    rw [PArgs.visit] at h
    cases h with
    | angle h => exact rewritesNodes_mem h
  | paren as =>
    rw [PArgs.visit] at h
    cases h with
    | paren h => exact rewritesNodes_mem h

theorem rewritesSegs_mem {s : SelfTy} {ss : List Seg} (h : RewritesSegs s ss (visitSegList s ss)) :
    ∀ n ∈ segsChildren ss, Rewrites s n (n.visit s) := by
  induction ss with
  | nil => simp [segsChildren]
  | cons x xs ih =>
    obtain ⟨i, a⟩ := x
    rw [visitSegList, Seg.visit] at h
    obtain ⟨h1, h2⟩ := rewritesSegs_cons h
    intro n hn
    simp only [segsChildren, List.flatMap_cons, List.mem_append, Seg.args] at hn
    rcases hn with hn | hn
    · exact rewritesArgs_mem h1 n hn
    · exact ih h2 n hn

theorem rewritesPath_mem {s : SelfTy} {l l' : Bool} {segs : List Seg}
    (h : RewritesPath s (.mk l segs) (.mk l' (renameSingle (visitSegList s segs)))) :
    ∀ n ∈ segsChildren segs, Rewrites s n (n.visit s) := by
  generalize hr : renameSingle (visitSegList s segs) = r at h
  cases h with
  | value h =>
    simp only [visitSegList, Seg.visit, renameSingle, prependUnderscore, ↓reduceIte, List.cons.injEq, Seg.mk.injEq,
      true_and, and_true] at hr
    subst hr
    simpa [segsChildren, Seg.args] using rewritesArgs_mem h
  | other hv h =>
    have : renameSingle (visitSegList s segs) = visitSegList s segs := by
      apply renameSingle_of_not (l := l)
      rwa [at_value_idents, visitSegList_idents, ← at_value_idents l]
    rw [← hr, this] at h
    exact rewritesSegs_mem h

theorem Spec.ExprForm.length {a b : List Seg} (h : ExprForm a b) : a.length = b.length := by
  induction h with
  | nil => rfl
  | same _ _ _ ih => simp [ih]
  | colons _ _ _ _ ih => simp [ih]

theorem turbofish_length (a : List Seg) : (turbofish a).length = a.length := (turbofish_form a).length.symm

/-- If a visited node is as specified, so are its visited children. -/
theorem rewrites_child {s : SelfTy} {n : Node} (ha : SelfAllowed n) (h : Rewrites s n (n.visit s)) :
    ∀ c ∈ scopeChildren n, Rewrites s c (c.visit s) := by
  intro c hc
  cases n with
  | tyPath q p =>
    rw [Node.visit] at h
    split at h
    · rename_i hi
      rw [Bool.and_eq_true] at hi
      cases q with
      | some => simp [QS.isNone] at hi
      | none =>
        rw [isIdent_self hi.2] at hc
        simp [scopeChildren, Node.children, QS.children, Path.children, Seg.args, PArgs.children] at hc
    · by_cases hat : Word.type.At p
      · obtain ⟨rfl, ha'⟩ := ha hat
        obtain ⟨a, rest, rfl, hae⟩ := at_type_cases hat ha'
        rw [Path.visitSegs, selfToQself_at a rest hae] at h
        simp only [scopeChildren, Node.children, QS.children, List.nil_append, path_children_mk, segsChildren,
          List.flatMap_cons, Seg.args, emptyArgs_children hae] at hc
        cases rest with
        | nil => simp at hc
        | cons x xs =>
          rw [if_neg (by simp)] at h
          cases h with
          | assocTy _ h => exact rewritesPath_mem h c hc
          | tyPath hn => exact absurd hat hn
      · obtain ⟨l, segs⟩ := p
        rw [selfToQself, not_startsWithSelf hat, Bool.and_false] at h
        simp only [Bool.false_eq_true, ↓reduceIte, Path.visitSegs, Path.leading] at h
        generalize hq : q.visit s = q' at h
        generalize hp : Path.mk l (renameSingle (visitSegList s segs)) = p' at h
        cases h with
        | selfTy ha' => exact absurd ⟨rfl, _, _, rfl⟩ hat
        | assocTy ha' => exact absurd ⟨rfl, _, _, rfl⟩ hat
        | tyPath _ h1 h2 =>
          subst hq hp
          rcases List.mem_append.1 hc with hc | hc
          · exact rewritesQS_mem h1 c hc
          · exact rewritesPath_mem h2 c hc
  | exprPath q p =>
    rw [Node.visit] at h
    by_cases hat : Word.type.At p
    · obtain ⟨rfl, ha'⟩ := ha hat
      obtain ⟨a, rest, rfl, hae⟩ := at_type_cases hat ha'
      rw [Path.visitSegs, selfToQself_at a rest hae] at h
      simp only [scopeChildren, Node.children, QS.children, List.nil_append, path_children_mk, segsChildren,
        List.flatMap_cons, Seg.args, emptyArgs_children hae] at hc
      cases rest with
      | nil => simp at hc
      | cons x xs =>
        rw [if_neg (by simp)] at h
        cases h with
        | assocExpr _ h => exact rewritesPath_mem h c hc
        | exprPath hn => exact absurd hat hn
    · obtain ⟨l, segs⟩ := p
      rw [selfToQself, not_startsWithSelf hat, Bool.and_false] at h
      simp only [Bool.false_eq_true, ↓reduceIte, Path.visitSegs, Path.leading] at h
      generalize hq : q.visit s = q' at h
      generalize hp : Path.mk l (renameSingle (visitSegList s segs)) = p' at h
      cases h with
      | selfExpr ha' => exact absurd ⟨rfl, _, _, rfl⟩ hat
      | assocExpr ha' => exact absurd ⟨rfl, _, _, rfl⟩ hat
      | exprPath _ h1 h2 =>
        subst hq hp
        rcases List.mem_append.1 hc with hc | hc
        · exact rewritesQS_mem h1 c hc
        · exact rewritesPath_mem h2 c hc
  | exprStruct q p cs =>
    rw [Node.visit, selfToExprPath] at h
    by_cases hat : Word.type.At p
    · obtain ⟨rfl, ha'⟩ := ha hat
      rw [if_pos ((startsWithSelf_iff p).2 ⟨hat, ha'⟩)] at h
      obtain ⟨a, rest, rfl, hae⟩ := at_type_cases hat ha'
      simp only [scopeChildren, Node.children, QS.children, List.nil_append, path_children_mk, segsChildren,
        List.flatMap_cons, Seg.args, emptyArgs_children hae] at hc
      simp only [Path.visitSegs, visitSegList, List.tail_cons] at h
      generalize hq : QS.visit s .none = q' at h
      generalize hp : Path.mk s.p.leading (turbofish s.p.segs ++ visitSegList s rest) = p' at h
      cases h with
      | selfStruct _ ht h1 h2 =>
        rename_i rest' segs _
        have : segs = turbofish s.p.segs ∧ rest' = visitSegList s rest := by
          simp only [Path.mk.injEq, true_and] at hp
          exact (List.append_inj hp ((turbofish_length s.p.segs).trans ht.length)).imp Eq.symm Eq.symm
        obtain ⟨rfl, rfl⟩ := this
        rcases List.mem_append.1 hc with hc | hc
        · exact rewritesSegs_mem h1 c hc
        · exact rewritesNodes_mem h2 c hc
      | exprStruct hn => exact absurd hat hn
    · obtain ⟨l, segs⟩ := p
      rw [not_startsWithSelf hat] at h
      simp only [Bool.false_eq_true, ↓reduceIte, Path.visitSegs, Path.leading] at h
      generalize hq : q.visit s = q' at h
      generalize hp : Path.mk l (renameSingle (visitSegList s segs)) = p' at h
      generalize hd : visitNodes s cs = cs' at h
      cases h with
      | selfStruct ha' => exact absurd ⟨rfl, _, _, rfl⟩ hat
      | exprStruct _ h1 h2 h3 =>
        subst hq hp hd
        rcases List.mem_append.1 hc with hc | hc
        · rcases List.mem_append.1 hc with hc | hc
          · exact rewritesQS_mem h1 c hc
          · exact rewritesPath_mem h2 c hc
        · exact rewritesNodes_mem h3 c hc
  | patStruct q p cs =>
    rw [Node.visit, selfToExprPath] at h
    by_cases hat : Word.type.At p
    · obtain ⟨rfl, ha'⟩ := ha hat
      rw [if_pos ((startsWithSelf_iff p).2 ⟨hat, ha'⟩)] at h
      obtain ⟨a, rest, rfl, hae⟩ := at_type_cases hat ha'
      simp only [scopeChildren, Node.children, QS.children, List.nil_append, path_children_mk, segsChildren,
        List.flatMap_cons, Seg.args, emptyArgs_children hae] at hc
      simp only [Path.visitSegs, visitSegList, List.tail_cons] at h
      generalize hq : QS.visit s .none = q' at h
      generalize hp : Path.mk s.p.leading (turbofish s.p.segs ++ visitSegList s rest) = p' at h
      cases h with
      | selfPatStruct _ ht h1 h2 =>
        rename_i rest' segs _
        have : segs = turbofish s.p.segs ∧ rest' = visitSegList s rest := by
          simp only [Path.mk.injEq, true_and] at hp
          exact (List.append_inj hp ((turbofish_length s.p.segs).trans ht.length)).imp Eq.symm Eq.symm
        obtain ⟨rfl, rfl⟩ := this
        rcases List.mem_append.1 hc with hc | hc
        · exact rewritesSegs_mem h1 c hc
        · exact rewritesNodes_mem h2 c hc
      | patStruct hn => exact absurd hat hn
    · obtain ⟨l, segs⟩ := p
      rw [not_startsWithSelf hat] at h
      simp only [Bool.false_eq_true, ↓reduceIte, Path.visitSegs, Path.leading] at h
      generalize hq : q.visit s = q' at h
      generalize hp : Path.mk l (renameSingle (visitSegList s segs)) = p' at h
      generalize hd : visitNodes s cs = cs' at h
      cases h with
      | selfPatStruct ha' => exact absurd ⟨rfl, _, _, rfl⟩ hat
      | patStruct _ h1 h2 h3 =>
        subst hq hp hd
        rcases List.mem_append.1 hc with hc | hc
        · rcases List.mem_append.1 hc with hc | hc
          · exact rewritesQS_mem h1 c hc
          · exact rewritesPath_mem h2 c hc
        · exact rewritesNodes_mem h3 c hc
  | patTupleStruct q p cs =>
    rw [Node.visit, selfToExprPath] at h
    by_cases hat : Word.type.At p
    · obtain ⟨rfl, ha'⟩ := ha hat
      rw [if_pos ((startsWithSelf_iff p).2 ⟨hat, ha'⟩)] at h
      obtain ⟨a, rest, rfl, hae⟩ := at_type_cases hat ha'
      simp only [scopeChildren, Node.children, QS.children, List.nil_append, path_children_mk, segsChildren,
        List.flatMap_cons, Seg.args, emptyArgs_children hae] at hc
      simp only [Path.visitSegs, visitSegList, List.tail_cons] at h
      generalize hq : QS.visit s .none = q' at h
      generalize hp : Path.mk s.p.leading (turbofish s.p.segs ++ visitSegList s rest) = p' at h
      cases h with
      | selfPatTupleStruct _ ht h1 h2 =>
        rename_i rest' segs _
        have : segs = turbofish s.p.segs ∧ rest' = visitSegList s rest := by
          simp only [Path.mk.injEq, true_and] at hp
          exact (List.append_inj hp ((turbofish_length s.p.segs).trans ht.length)).imp Eq.symm Eq.symm
        obtain ⟨rfl, rfl⟩ := this
        rcases List.mem_append.1 hc with hc | hc
        · exact rewritesSegs_mem h1 c hc
        · exact rewritesNodes_mem h2 c hc
      | patTupleStruct hn => exact absurd hat hn
    · obtain ⟨l, segs⟩ := p
      rw [not_startsWithSelf hat] at h
      simp only [Bool.false_eq_true, ↓reduceIte, Path.visitSegs, Path.leading] at h
      generalize hq : q.visit s = q' at h
      generalize hp : Path.mk l (renameSingle (visitSegList s segs)) = p' at h
      generalize hd : visitNodes s cs = cs' at h
      cases h with
      | selfPatTupleStruct ha' => exact absurd ⟨rfl, _, _, rfl⟩ hat
      | patTupleStruct _ h1 h2 h3 =>
        subst hq hp hd
        rcases List.mem_append.1 hc with hc | hc
        · rcases List.mem_append.1 hc with hc | hc
          · exact rewritesQS_mem h1 c hc
          · exact rewritesPath_mem h2 c hc
        · exact rewritesNodes_mem h3 c hc
  | path p =>
    rw [Node.visit] at h
    obtain ⟨l, segs⟩ := p
    cases h with
    | path _ h => exact rewritesPath_mem h c hc
  | other l cs =>
    rw [Node.visit] at h
    cases h with
    | other h => exact rewritesNodes_mem h c hc
  | mac | itemMac | item => simp [scopeChildren] at hc
  | binder | lifetime => simp [scopeChildren, Node.children] at hc

theorem not_selfAsPath {s : SelfTy} (hs : s.q ≠ .none) {n : Node} (ha : SelfAllowed n)
    (h : Rewrites s n (n.visit s)) : ¬ SelfAsPath n := by
  intro hn
  obtain ⟨sq, sp, sts⟩ := s
  cases n with
  | tyPath q p =>
    obtain ⟨hat, c, hp⟩ := hn
    obtain ⟨rfl, ha'⟩ := ha hat
    obtain ⟨l, segs⟩ := p
    obtain rfl : segs = _ := hp
    obtain rfl : l = false := hat.1
    rw [Node.visit, if_neg (by simp [Path.isIdent]), Path.visitSegs, selfToQself_at _ _ rfl, if_pos rfl] at h
    cases h with
    | selfTy => exact hs rfl
    | tyPath hn => exact hn hat
  | exprPath q p =>
    obtain ⟨hat, hl⟩ := hn
    obtain ⟨rfl, ha'⟩ := ha hat
    obtain ⟨a, rest, rfl, hae⟩ := at_type_cases hat ha'
    obtain rfl : rest = [] := by simpa [Path.segs] using hl
    rw [Node.visit, Path.visitSegs, selfToQself_at _ _ hae, if_pos rfl] at h
    cases h with
    | selfExpr => exact hs rfl
    | exprPath hn => exact hn hat
  | exprStruct q p cs | patStruct q p cs | patTupleStruct q p cs =>
    have hat : Word.type.At p := hn
    obtain ⟨rfl, ha'⟩ := ha hat
    rw [Node.visit, QS.visit] at h
    generalize selfToExprPath _ p _ = p' at h
    cases h <;> first
      | exact hs rfl
      | exact absurd hat (by assumption)
  | _ => exact hn

/-- The rewriting is as specified exactly if the receiver type is a plain path or `Self` is not used as
a plain path. -/
theorem rewrites_iff {s : SelfTy} {n : Node} (hu : WellUsed n) :
    Rewrites s n (n.visit s) ↔ s.q = .none ∨ ∀ m, InScope m n → ¬ SelfAsPath m := by
  constructor
  · intro h
    by_cases hs : s.q = .none
    · exact .inl hs
    · refine .inr fun m hm => ?_
      induction hm with
      | here =>
        exact not_selfAsPath hs (hu _ (.here _)) h
      | inside hc _ ih =>
        exact ih (((wellUsed_iff _).1 hu).2 _ hc) (rewrites_child (hu _ (.here _)) h _ hc)
  · intro h
    refine Node.visit_rewrites n fun m hm => ⟨hu m hm, ?_⟩
    exact h.imp_right fun h => h m hm

end PinProject

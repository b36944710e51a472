import Verif.Spec.Receiver
/-!
# C37: rewriting the tokens of macro calls; lemmas on rewriting syntax trees (for C35, C38)
-/
namespace PinProject
open Spec

/-! ## Tokens -/

theorem tokOccurs_nil (w : String) : ¬ TokOccurs w [] := fun h => nomatch h

theorem tokOccurs_ident (w x : String) (ts : List TT) :
    TokOccurs w (.ident x :: ts) ↔ x = w ∨ TokOccurs w ts := by
  constructor
  · intro h
    cases h with
    | here => exact .inl rfl
    | later _ h => exact .inr h
  · rintro (rfl | h)
    · exact .here _
    · exact .later _ h

theorem tokOccurs_punct (w : String) (c : Char) (j : Bool) (ts : List TT) :
    TokOccurs w (.punct c j :: ts) ↔ TokOccurs w ts := by
  constructor
  · intro h
    cases h with
    | later _ h => exact h
  · exact .later _

theorem tokOccurs_lit (w l : String) (ts : List TT) : TokOccurs w (.lit l :: ts) ↔ TokOccurs w ts := by
  constructor
  · intro h
    cases h with
    | later _ h => exact h
  · exact .later _

theorem tokOccurs_group (w : String) (d : Delim) (is ts : List TT) :
    TokOccurs w (.group d is :: ts) ↔ TokOccurs w is ∨ TokOccurs w ts := by
  constructor
  · intro h
    cases h with
    | deeper _ h => exact .inl h
    | later _ h => exact .inr h
  · rintro (h | h)
    · exact .deeper _ h
    · exact .later _ h

theorem tokOccurs_append (w : String) (as bs : List TT) :
    TokOccurs w (as ++ bs) ↔ TokOccurs w as ∨ TokOccurs w bs := by
  induction as with
  | nil => simp [tokOccurs_nil]
  | cons t ts ih =>
    cases t <;> simp only [List.cons_append, tokOccurs_ident, tokOccurs_punct, tokOccurs_lit,
      tokOccurs_group, ih, or_assoc]

/-- The tokens contain `fn` at some depth. -/
theorem containsFn_iff (ts : List TT) : containsFn ts = true ↔ TokOccurs "fn" ts := by
  fun_induction containsFn ts with
  | case1 => simp [tokOccurs_nil]
  | case2 s rest ih => simp [tokOccurs_ident, ih]
  | case3 d is rest ih1 ih2 => simp [tokOccurs_group, ih1, ih2]
  | case4 c j rest ih => simp [tokOccurs_punct, ih]
  | case5 l rest ih => simp [tokOccurs_lit, ih]

theorem headPunct_iff (c : Char) (ts : List TT) : headPunct c ts = true ↔ ∃ j rest, ts = .punct c j :: rest := by
  cases ts with
  | nil => simp [headPunct]
  | cons t ts => cases t <;> simp [headPunct]

theorem pathSepNext_joint (ts : List TT) : PathSepNext (.punct ':' true :: ts) ↔ headPunct ':' ts = true := by
  rw [headPunct_iff]
  constructor
  · rintro ⟨j, rest, h⟩
    cases h
    exact ⟨_, _, rfl⟩
  · rintro ⟨j, rest, rfl⟩
    exact ⟨_, _, rfl⟩

/-- **C37** The rewriting replaces `self` and `Self`, at any depth, and changes nothing else. -/
theorem C37_rewrites (sty ts : List TT) : TokRewrites sty ts (visitToks sty ts) := by
  fun_induction visitToks sty ts with
  | case1 => exact .nil
  | case2 rest ih =>
    split
    · rename_i h
      simp only [angled, List.cons_append, List.append_assoc, List.nil_append]
      exact .selfPath ((pathSepNext_joint rest).2 h) (.punct ih)
    · rename_i h
      exact .selfTy (fun hp => h ((pathSepNext_joint rest).1 hp)) (.punct ih)
  | case3 c rest h ih =>
    refine .selfTy ?_ (.punct ih)
    rintro ⟨j, r, hr⟩
    cases hr
    exact h rfl
  | case4 rest h ih =>
    refine .selfTy ?_ ih
    rintro ⟨j, r, rfl⟩
    exact h _ _ rfl
  | case5 s rest h ih =>
    by_cases hs : s = "self"
    · subst hs
      exact .self_ ih
    · rw [show prependUnderscore s = s from if_neg hs]
      exact .ident hs h ih
  | case6 d is rest ih1 ih2 => exact .group ih1 ih2
  | case7 c j rest ih => exact .punct ih
  | case8 l rest ih => exact .lit ih

theorem visitToks_self (sty ts : List TT) :
    visitToks sty (.ident "Self" :: ts) = .punct '<' false :: sty ++ .punct '>' false :: visitToks sty ts ∧
      PathSepNext ts ∨
    visitToks sty (.ident "Self" :: ts) = sty ++ visitToks sty ts ∧ ¬ PathSepNext ts := by
  by_cases hp : PathSepNext ts
  · obtain ⟨j, r, rfl⟩ := hp
    refine .inl ⟨?_, _, _, rfl⟩
    simp [visitToks, headPunct, angled]
  · refine .inr ⟨?_, hp⟩
    rw [visitToks.eq_def]
    simp only [↓reduceIte]
    split
    · rename_i c rest'
      by_cases hc : c = ':'
      · subst hc
        rw [if_pos rfl, if_neg (by rwa [← pathSepNext_joint]), visitToks.eq_def _ (_ :: _)]
      · rw [if_neg hc, visitToks.eq_def _ (_ :: _)]
    · rfl

theorem Spec.TokRewrites.eq_visit {sty ts b : List TT} (h : TokRewrites sty ts b) : b = visitToks sty ts := by
  induction h with
  | nil => rw [visitToks]
  | self_ h ih => rw [visitToks.eq_def _ (_ :: _), ih]; rfl
  | @selfPath ts ts' hp h ih =>
    rcases visitToks_self sty ts with ⟨h1, _⟩ | ⟨_, h2⟩
    · rw [h1, ih]
    · exact absurd hp h2
  | @selfTy ts ts' hn h ih =>
    rcases visitToks_self sty ts with ⟨_, h2⟩ | ⟨h1, _⟩
    · exact absurd h2 hn
    · rw [h1, ih]
  | ident h1 h2 h ih => rw [visitToks.eq_def _ (_ :: _), ih]; simp [h2, prependUnderscore, h1]
  | punct h ih => rw [visitToks, ih]
  | lit h ih => rw [visitToks, ih]
  | group h1 h2 ih1 ih2 => rw [visitToks, ih1, ih2]

/-- The specification leaves no choice. -/
theorem tokRewrites_unique {sty ts a b : List TT} (ha : TokRewrites sty ts a) (hb : TokRewrites sty ts b) :
    a = b := ha.eq_visit.trans hb.eq_visit.symm

/-- Which words occur after the rewriting. -/
theorem Spec.TokRewrites.occurs {sty ts ts' : List TT} (h : TokRewrites sty ts ts') (w : String) :
    TokOccurs w ts' →
      (TokOccurs w ts ∧ w ≠ "self" ∧ w ≠ "Self") ∨ (w = "__self" ∧ TokOccurs "self" ts) ∨
      (TokOccurs w sty ∧ TokOccurs "Self" ts) := by
  induction h with
  | nil => intro h; exact absurd h (tokOccurs_nil w)
  | self_ h ih =>
    simp only [tokOccurs_ident]
    rintro (rfl | h)
    · exact .inr (.inl ⟨rfl, .inl trivial⟩)
    · rcases ih h with h | h | h
      · exact .inl ⟨.inr h.1, h.2⟩
      · exact .inr (.inl ⟨h.1, .inr h.2⟩)
      · exact .inr (.inr ⟨h.1, .inr h.2⟩)
  | selfPath hp h ih =>
    simp only [tokOccurs_ident, tokOccurs_punct, List.cons_append, tokOccurs_append]
    rintro (h | h)
    · exact .inr (.inr ⟨h, .inl trivial⟩)
    · rcases ih h with h | h | h
      · exact .inl ⟨.inr h.1, h.2⟩
      · exact .inr (.inl ⟨h.1, .inr h.2⟩)
      · exact .inr (.inr ⟨h.1, .inr h.2⟩)
  | selfTy hn h ih =>
    simp only [tokOccurs_ident, tokOccurs_append]
    rintro (h | h)
    · exact .inr (.inr ⟨h, .inl trivial⟩)
    · rcases ih h with h | h | h
      · exact .inl ⟨.inr h.1, h.2⟩
      · exact .inr (.inl ⟨h.1, .inr h.2⟩)
      · exact .inr (.inr ⟨h.1, .inr h.2⟩)
  | ident h1 h2 h ih =>
    simp only [tokOccurs_ident]
    rintro (rfl | h)
    · exact .inl ⟨.inl rfl, h1, h2⟩
    · rcases ih h with h | h | h
      · exact .inl ⟨.inr h.1, h.2⟩
      · exact .inr (.inl ⟨h.1, .inr h.2⟩)
      · exact .inr (.inr ⟨h.1, .inr h.2⟩)
  | punct h ih => simpa only [tokOccurs_punct] using ih
  | lit h ih => simpa only [tokOccurs_lit] using ih
  | group h1 h2 ih1 ih2 =>
    simp only [tokOccurs_group]
    rintro (h | h)
    · rcases ih1 h with h | h | h
      · exact .inl ⟨.inl h.1, h.2⟩
      · exact .inr (.inl ⟨h.1, .inl h.2⟩)
      · exact .inr (.inr ⟨h.1, .inl h.2⟩)
    · rcases ih2 h with h | h | h
      · exact .inl ⟨.inr h.1, h.2⟩
      · exact .inr (.inl ⟨h.1, .inr h.2⟩)
      · exact .inr (.inr ⟨h.1, .inr h.2⟩)

/-- **C37** No `self` and no `Self` is left, at any depth, if the receiver type mentions neither. -/
theorem C37_none_left (sty ts : List TT) (w : Word) (hs : ¬ TokOccurs w.text sty) :
    ¬ TokOccurs w.text (visitToks sty ts) := by
  intro h
  rcases (C37_rewrites sty ts).occurs _ h with ⟨_, h1, h2⟩ | ⟨h, _⟩ | ⟨h, _⟩
  · cases w
    · exact h1 rfl
    · exact h2 rfl
  · cases w <;> exact absurd h (by decide)
  · exact hs h

/-- **C37** A stream with neither `self` nor `Self` is left alone. -/
theorem C37_untouched (sty ts : List TT) (h1 : ¬ TokOccurs "self" ts) (h2 : ¬ TokOccurs "Self" ts) :
    visitToks sty ts = ts := by
  fun_induction visitToks sty ts with
  | case1 => rfl
  | case2 rest ih => simp [tokOccurs_ident] at h2
  | case3 c rest h ih => simp [tokOccurs_ident] at h2
  | case4 rest h ih => simp [tokOccurs_ident] at h2
  | case5 s rest h ih =>
    simp only [tokOccurs_ident, not_or] at h1 h2
    rw [ih h1.2 h2.2, show prependUnderscore s = s from if_neg h1.1]
  | case6 d is rest ih1 ih2 =>
    simp only [tokOccurs_group, not_or] at h1 h2
    rw [ih1 h1.1 h2.1, ih2 h1.2 h2.2]
  | case7 c j rest ih =>
    simp only [tokOccurs_punct] at h1 h2
    rw [ih h1 h2]
  | case8 l rest ih =>
    simp only [tokOccurs_lit] at h1 h2
    rw [ih h1 h2]

/-- **C37** Rewriting twice is the same as rewriting once. -/
theorem C37_idempotent (sty ts : List TT) (h : ∀ w : Word, ¬ TokOccurs w.text sty) :
    visitToks sty (visitToks sty ts) = visitToks sty ts :=
  C37_untouched _ _ (C37_none_left sty ts .value (h .value)) (C37_none_left sty ts .type (h .type))

/-- **C37** The tokens of a macro call are rewritten unless they contain `fn`, at any depth. -/
theorem C37_macro (s : SelfTy) (p : Path) (ts : List TT) :
    ∃ ts', (Node.mac p ts).visit s = .mac p ts' ∧
      (TokOccurs "fn" ts → ts' = ts) ∧ (¬ TokOccurs "fn" ts → TokRewrites s.toks ts ts') := by
  refine ⟨visitMacToks s.toks ts, rfl, fun h => ?_, fun h => ?_⟩
  · exact if_pos ((containsFn_iff ts).2 h)
  · rw [visitMacToks, if_neg (by rwa [containsFn_iff])]
    exact C37_rewrites _ _

/-- `m!(Self::new(self, [Self]), x)` with the receiver `Foo<T>`. -/
def demoToks : List TT :=
  [.ident "Self", .punct ':' true, .punct ':' false, .ident "new",
    .group .paren [.ident "self", .punct ',' false, .group .bracket [.ident "Self"]],
    .punct ',' false, .ident "x"]

def demoRecvToks : List TT := [.ident "Foo", .punct '<' false, .ident "T", .punct '>' false]

example : visitToks demoRecvToks demoToks =
    [.punct '<' false, .ident "Foo", .punct '<' false, .ident "T", .punct '>' false, .punct '>' false,
     .punct ':' true, .punct ':' false, .ident "new",
     .group .paren [.ident "__self", .punct ',' false,
       .group .bracket [.ident "Foo", .punct '<' false, .ident "T", .punct '>' false]],
     .punct ',' false, .ident "x"] := by
  simp [demoToks, demoRecvToks, visitToks, headPunct, angled, prependUnderscore]

example (w : Word) : ¬ TokOccurs w.text demoRecvToks := by
  cases w <;> simp [demoRecvToks, Word.text, tokOccurs_ident, tokOccurs_punct, tokOccurs_nil]

example : TokOccurs "self" demoToks ∧ TokOccurs "Self" demoToks := by
  simp [demoToks, tokOccurs_ident, tokOccurs_punct, tokOccurs_group, tokOccurs_nil]

end PinProject

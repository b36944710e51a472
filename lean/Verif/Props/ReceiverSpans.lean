import Verif.Props.Receiver
import Verif.Spec.ReceiverSpans
/-!
# C99: the places of rewritten tokens
-/
namespace PinProject
open Spec

namespace ReceiverSpans

variable {S : Type}

theorem unplaceAll_append (as bs : List (PTok S)) : unplaceAll (as ++ bs) = unplaceAll as ++ unplaceAll bs := by
  induction as with
  | nil => rw [List.nil_append, unplaceAll, List.nil_append]
  | cons a as ih => rw [List.cons_append, unplaceAll, ih, unplaceAll, List.cons_append]

theorem unplace_respan (sp : S) (ts : List (PTok S)) : unplaceAll (respanToks sp ts) = unplaceAll ts := by
  induction ts with
  | nil => rfl
  | cons t ts ih =>
    rw [respanToks, List.map_cons, unplaceAll, unplaceAll]
    rw [respanToks] at ih
    rw [ih]
    cases t <;> simp [PTok.setSpan, unplace]

theorem headPunctP_eq (c : Char) (ts : List (PTok S)) : headPunctP c ts = headPunct c (unplaceAll ts) := by
  cases ts with
  | nil => rw [unplaceAll]; rfl
  | cons t ts => cases t <;> rw [unplaceAll, unplace] <;> rfl

theorem respan_shown (sp : S) (ts : List (PTok S)) : AllPutAt sp ts (respanToks sp ts) := by
  induction ts with
  | nil => exact .nil
  | cons t ts ih =>
    refine .cons ?_ ih
    cases t <;> constructor

theorem sepNext (sp : S) (ts : List (PTok S)) :
    PathSepNext (unplaceAll (.punct ':' true sp :: ts)) ↔ headPunctP ':' ts = true := by
  rw [unplaceAll, unplace, pathSepNext_joint, headPunctP_eq]

/-! ## Occurrences -/

theorem identAt_nil {w : String} {sp : S} : ¬ IdentAt w sp [] := nofun

theorem identAt_ident {w s : String} {sp sp' : S} {ts : List (PTok S)} :
    IdentAt w sp (.ident s sp' :: ts) ↔ (w = s ∧ sp = sp') ∨ IdentAt w sp ts := by
  constructor
  · intro h
    cases h with
    | here => exact .inl ⟨rfl, rfl⟩
    | later _ h => exact .inr h
  · rintro (⟨rfl, rfl⟩ | h)
    · exact .here _
    · exact .later _ h

theorem identAt_punct {w : String} {sp sp' : S} {c : Char} {j : Bool} {ts : List (PTok S)} :
    IdentAt w sp (.punct c j sp' :: ts) ↔ IdentAt w sp ts :=
  ⟨fun h => by cases h with | later _ h => exact h, .later _⟩

theorem identAt_lit {w s : String} {sp sp' : S} {ts : List (PTok S)} :
    IdentAt w sp (.lit s sp' :: ts) ↔ IdentAt w sp ts :=
  ⟨fun h => by cases h with | later _ h => exact h, .later _⟩

theorem identAt_group {w : String} {sp sp' : S} {d : Delim} {is ts : List (PTok S)} :
    IdentAt w sp (.group d is sp' :: ts) ↔ IdentAt w sp is ∨ IdentAt w sp ts := by
  constructor
  · intro h
    cases h with
    | deeper _ _ h => exact .inl h
    | later _ h => exact .inr h
  · rintro (h | h)
    · exact .deeper _ _ h
    · exact .later _ h

theorem identAt_append {w : String} {sp : S} {as bs : List (PTok S)} :
    IdentAt w sp (as ++ bs) ↔ IdentAt w sp as ∨ IdentAt w sp bs := by
  induction as with
  | nil => simp [identAt_nil]
  | cons a as ih => cases a <;> simp [identAt_ident, identAt_punct, identAt_lit, identAt_group, ih, or_assoc]

theorem shown_idents {sp : S} {sty shown : List (PTok S)} (h : AllPutAt sp sty shown) (w : String) (sp' : S) :
    IdentAt w sp' shown ↔ (sp' = sp ∧ Outermost w sty) ∨ Inside w sp' sty := by
  induction h with
  | nil => simp [identAt_nil, Outermost, Inside]
  | @cons a b as bs h _ ih =>
    cases h with
    | ident s sp0 =>
      simp only [identAt_ident, ih, Outermost, Inside, List.mem_cons, reduceCtorEq, false_or, PTok.ident.injEq]
      constructor
      · rintro (⟨rfl, rfl⟩ | ⟨rfl, x, hx⟩ | h)
        · exact .inl ⟨rfl, sp0, .inl ⟨rfl, rfl⟩⟩
        · exact .inl ⟨rfl, x, .inr hx⟩
        · exact .inr h
      · rintro (⟨rfl, x, ⟨rfl, rfl⟩ | hx⟩ | h)
        · exact .inl ⟨rfl, rfl⟩
        · exact .inr (.inl ⟨rfl, x, hx⟩)
        · exact .inr (.inr h)
    | punct c j sp0 => simp [identAt_punct, ih, Outermost, Inside]
    | lit s sp0 => simp [identAt_lit, ih, Outermost, Inside]
    | group d is sp0 =>
      simp only [identAt_group, ih, Outermost, Inside, List.mem_cons, reduceCtorEq, false_or, PTok.group.injEq]
      constructor
      · rintro (h | h | ⟨d', is', x, h, h'⟩)
        · exact .inr ⟨d, is, sp0, .inl ⟨rfl, rfl, rfl⟩, h⟩
        · exact .inl h
        · exact .inr ⟨d', is', x, .inr h, h'⟩
      · rintro (h | ⟨d', is', x, ⟨rfl, rfl, rfl⟩ | h, h'⟩)
        · exact .inr (.inl h)
        · exact .inl h'
        · exact .inr (.inr ⟨d', is', x, h, h'⟩)

end ReceiverSpans

open ReceiverSpans
variable {S : Type}

/-- **C99** Tokens of macro calls are rewritten in place: everything that is not `self` or `Self` stays where it was, `__self` is
where `self` was, the type is where `Self` was. -/
theorem C99_rewrites (sty ts : List (PTok S)) : PlacedRewrites sty ts (visitPlaced sty ts) := by
  fun_induction visitPlaced sty ts with
  | case1 => exact .nil
  | case2 sp sp' rest ih =>
    split
    · rename_i h
      simp only [angledAt, List.cons_append, List.append_assoc, List.nil_append]
      exact .selfPath ((sepNext sp' rest).2 h) (respan_shown _ _) (.punct ih)
    · rename_i h
      exact .selfTy (fun hp => h ((sepNext sp' rest).1 hp)) (respan_shown _ _) (.punct ih)
  | case3 sp c sp' rest h ih =>
    refine .selfTy ?_ (respan_shown _ _) (.punct ih)
    rintro ⟨j, r, hr⟩
    rw [unplaceAll, unplace] at hr
    exact h (TT.punct.inj (List.cons.inj hr).1).1
  | case4 sp rest h ih =>
    refine .selfTy ?_ (respan_shown _ _) ih
    rintro ⟨j, r, hr⟩
    cases rest with
    | nil => rw [unplaceAll] at hr; cases hr
    | cons t ts =>
      rw [unplaceAll] at hr
      have hr := (List.cons.inj hr).1
      cases t <;> rw [unplace] at hr
      · cases hr
      · obtain ⟨rfl, rfl⟩ := TT.punct.inj hr
        exact h _ _ _ rfl
      · cases hr
      · cases hr
  | case5 s sp rest h ih =>
    by_cases hs : s = "self"
    · subst hs
      exact .self_ ih
    · rw [show prependUnderscore s = s from if_neg hs]
      exact .ident hs h ih
  | case6 d is sp rest ih1 ih2 => exact .group ih1 ih2
  | case7 c j sp rest ih => exact .punct ih
  | case8 l sp rest ih => exact .lit ih

/-- **C99** Without the spans, this is the rewriting of C37. -/
theorem C99_tokens (sty ts : List (PTok S)) :
    unplaceAll (visitPlaced sty ts) = visitToks (unplaceAll sty) (unplaceAll ts) := by
  have hsh : ∀ {sp : S} {a b : List (PTok S)}, AllPutAt sp a b → unplaceAll b = unplaceAll a := by
    intro sp a b h
    induction h with
    | nil => rfl
    | cons h _ ih => rw [unplaceAll, unplaceAll, ih]; cases h <;> simp [unplace]
  refine TokRewrites.eq_visit ?_
  have h := C99_rewrites sty ts
  generalize visitPlaced sty ts = out at h
  induction h with
  | nil => rw [unplaceAll]; exact .nil
  | self_ _ ih => simp only [unplaceAll, unplace]; exact .self_ ih
  | selfPath hp hs _ ih =>
    simp only [unplaceAll, unplace, List.cons_append, unplaceAll_append, hsh hs]
    exact .selfPath hp ih
  | selfTy hp hs _ ih =>
    simp only [unplaceAll, unplace, unplaceAll_append, hsh hs]
    exact .selfTy hp ih
  | ident h1 h2 _ ih => simp only [unplaceAll, unplace]; exact .ident h1 h2 ih
  | punct _ ih => simp only [unplaceAll, unplace]; exact .punct ih
  | lit _ ih => simp only [unplaceAll, unplace]; exact .lit ih
  | group _ _ ih1 ih2 => simp only [unplaceAll, unplace]; exact .group ih1 ih2

/-- **C99** Which names there are afterwards, and where. -/
theorem C99_idents (sty ts : List (PTok S)) (w : String) (sp : S) :
    IdentAt w sp (visitPlaced sty ts) ↔
      (IdentAt w sp ts ∧ w ≠ "self" ∧ w ≠ "Self") ∨ (w = "__self" ∧ IdentAt "self" sp ts) ∨
      (IdentAt "Self" sp ts ∧ Outermost w sty) ∨ ((∃ sp', IdentAt "Self" sp' ts) ∧ Inside w sp sty) := by
  have h := C99_rewrites sty ts
  generalize visitPlaced sty ts = out at h
  induction h with
  | nil => simp [identAt_nil]
  | @self_ sp0 ts ts' _ ih =>
    simp only [identAt_ident, ih, show ("Self" = "self") = False by decide, false_and, false_or, true_and]
    constructor
    · rintro (⟨rfl, rfl⟩ | ⟨h, h'⟩ | ⟨rfl, h⟩ | h | h)
      · exact .inr (.inl ⟨rfl, .inl rfl⟩)
      · exact .inl ⟨.inr h, h'⟩
      · exact .inr (.inl ⟨rfl, .inr h⟩)
      · exact .inr (.inr (.inl h))
      · exact .inr (.inr (.inr h))
    · rintro (⟨⟨rfl, rfl⟩ | h, h', h''⟩ | ⟨rfl, rfl | h⟩ | h | h)
      · exact absurd rfl h'
      · exact .inr (.inl ⟨h, h', h''⟩)
      · exact .inl ⟨rfl, rfl⟩
      · exact .inr (.inr (.inl ⟨rfl, h⟩))
      · exact .inr (.inr (.inr (.inl h)))
      · exact .inr (.inr (.inr (.inr h)))
  | @selfPath sp0 shown ts ts' hp hs _ ih =>
    simp only [List.cons_append, identAt_punct, identAt_append, ih, shown_idents hs, identAt_ident,
      show ("self" = "Self") = False by decide, false_and, false_or, true_and]
    exact self_case
  | @selfTy sp0 shown ts ts' hp hs _ ih =>
    simp only [identAt_append, ih, shown_idents hs, identAt_ident,
      show ("self" = "Self") = False by decide, false_and, false_or, true_and]
    exact self_case
  | @ident s sp0 ts ts' h1 h2 _ ih =>
    simp only [identAt_ident, ih, fun x => show ("self" = s ∧ x) ↔ False from ⟨fun h => h1 h.1.symm, False.elim⟩,
      fun x => show ("Self" = s ∧ x) ↔ False from ⟨fun h => h2 h.1.symm, False.elim⟩, false_or]
    constructor
    · rintro (⟨rfl, rfl⟩ | ⟨h, h'⟩ | h)
      · exact .inl ⟨.inl ⟨rfl, rfl⟩, h1, h2⟩
      · exact .inl ⟨.inr h, h'⟩
      · exact .inr h
    · rintro (⟨h | h, h'⟩ | h)
      · exact .inl h
      · exact .inr (.inl ⟨h, h'⟩)
      · exact .inr (.inr h)
  | punct _ ih => simp only [identAt_punct, ih]
  | lit _ ih => simp only [identAt_lit, ih]
  | @group d sp0 is is' ts ts' _ _ ih1 ih2 =>
    simp only [identAt_group, ih1, ih2, exists_or]
    clear ih1 ih2
    generalize IdentAt w sp is = a1
    generalize IdentAt w sp ts = a2
    generalize IdentAt "self" sp is = b1
    generalize IdentAt "self" sp ts = b2
    generalize IdentAt "Self" sp is = c1
    generalize IdentAt "Self" sp ts = c2
    generalize (∃ sp', IdentAt "Self" sp' is) = d1
    generalize (∃ sp', IdentAt "Self" sp' ts) = d2
    grind (splits := 30)
where
  self_case {sp0 : S} {ts : List (PTok S)} :
      (((sp = sp0 ∧ Outermost w sty) ∨ Inside w sp sty) ∨
        (IdentAt w sp ts ∧ w ≠ "self" ∧ w ≠ "Self") ∨ (w = "__self" ∧ IdentAt "self" sp ts) ∨
        (IdentAt "Self" sp ts ∧ Outermost w sty) ∨ ((∃ sp', IdentAt "Self" sp' ts) ∧ Inside w sp sty)) ↔
      ((w = "Self" ∧ sp = sp0 ∨ IdentAt w sp ts) ∧ w ≠ "self" ∧ w ≠ "Self") ∨ (w = "__self" ∧ IdentAt "self" sp ts) ∨
        ((sp = sp0 ∨ IdentAt "Self" sp ts) ∧ Outermost w sty) ∨
        ((∃ sp', sp' = sp0 ∨ IdentAt "Self" sp' ts) ∧ Inside w sp sty) := by
    have : (∃ sp', sp' = sp0 ∨ IdentAt "Self" sp' ts) := ⟨sp0, .inl rfl⟩
    simp only [this, true_and]
    generalize (∃ sp', IdentAt "Self" sp' ts) = d
    grind

/-- **C99** Hygiene: a `self` in a macro call of the body refers to the parameter `self` of the user's `drop` exactly if the
`__self` in its place refers to the parameter `__self` that is bound instead, with the span of that parameter. The names `__self`
in the new tokens are exactly those, if the user does not write `__self`. -/
theorem C99_self (sty ts : List (PTok S)) (hs : ∀ sp, ¬ IdentAt "__self" sp sty) (ht : ∀ sp, ¬ IdentAt "__self" sp ts) {C : Type}
    (ctx : S → C) (param sp : S) :
    (IdentAt "__self" sp (visitPlaced sty ts) ∧ RefersTo ctx "__self" sp "__self" param) ↔
      (IdentAt "self" sp ts ∧ RefersTo ctx "self" sp "self" param) := by
  have h1 : ¬ Outermost "__self" sty := by
    rintro ⟨x, hx⟩
    obtain ⟨a, b, rfl⟩ := List.append_of_mem hx
    exact hs x (identAt_append.2 (.inr (.here _)))
  have h2 : ¬ Inside "__self" sp sty := by
    rintro ⟨d, is, x, hx, h⟩
    obtain ⟨a, b, rfl⟩ := List.append_of_mem hx
    exact hs sp (identAt_append.2 (.inr (.deeper _ _ h)))
  rw [C99_idents]
  simp [h1, h2, ht sp, RefersTo]

/-- **C99** Tokens of a macro call with `fn` among them are left as they are. -/
theorem C99_fn (sty ts : List (PTok S)) :
    visitMacPlaced sty ts = ts ∧ TokOccurs "fn" (unplaceAll ts) ∨
    visitMacPlaced sty ts = visitPlaced sty ts ∧ ¬ TokOccurs "fn" (unplaceAll ts) := by
  have h : containsFnP ts = containsFn (unplaceAll ts) := by
    fun_induction containsFnP ts <;> simp_all [unplaceAll, unplace, containsFn]
  unfold visitMacPlaced
  rw [h]
  cases hc : containsFn (unplaceAll ts) with
  | true => exact .inl ⟨rfl, (containsFn_iff _).1 hc⟩
  | false => exact .inr ⟨rfl, fun ho => by rw [(containsFn_iff _).2 ho] at hc; cases hc⟩

/-! ## The hypotheses are met -/

/-- `self.f(Self::g(self), Self)` in a macro call, the receiver type being `S<(T)>`: places are numbers. -/
example : visitPlaced
    [.ident "S" 90, .punct '<' false 91, .group .paren [.ident "T" 93] 92, .punct '>' false 94]
    [.ident "self" 1, .punct '.' false 2, .ident "f" 3,
      .group .paren [.ident "Self" 5, .punct ':' true 6, .punct ':' false 7, .ident "g" 8, .group .paren [.ident "self" 10] 9,
        .punct ',' false 11, .ident "Self" 12] 4] =
    [.ident "__self" 1, .punct '.' false 2, .ident "f" 3,
      .group .paren [.punct '<' false 5, .ident "S" 5, .punct '<' false 5, .group .paren [.ident "T" 93] 5, .punct '>' false 5,
        .punct '>' false 5, .punct ':' true 6, .punct ':' false 7, .ident "g" 8, .group .paren [.ident "__self" 10] 9,
        .punct ',' false 11, .ident "S" 12, .punct '<' false 12, .group .paren [.ident "T" 93] 12, .punct '>' false 12] 4] := by
  simp [visitPlaced, headPunctP, angledAt, respanToks, PTok.setSpan, prependUnderscore]

/-- The hypotheses of `C99_self`, with two different contexts. -/
example : ∃ (ctx : Nat → Bool) (sty ts : List (PTok Nat)), (∀ sp, ¬ IdentAt "__self" sp sty) ∧ (∀ sp, ¬ IdentAt "__self" sp ts) ∧
    (IdentAt "self" 1 ts ∧ RefersTo ctx "self" 1 "self" 0) ∧ (IdentAt "self" 5 ts ∧ ¬ RefersTo ctx "self" 5 "self" 0) := by
  refine ⟨fun n => decide (n < 5), [.ident "S" 9], [.ident "self" 1, .punct '.' false 2, .ident "self" 5], ?_, ?_, ?_, ?_⟩
  · simp [identAt_ident, identAt_nil]
  · simp [identAt_ident, identAt_punct, identAt_nil]
  · simp [identAt_ident, identAt_punct, identAt_nil, RefersTo]
  · simp [identAt_ident, identAt_punct, identAt_nil, RefersTo]

end PinProject

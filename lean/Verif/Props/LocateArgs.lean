import Verif.Props.LocateErase
import Verif.Spec.Locate
/-!
# C80: errors about the arguments are shown at the argument
-/
namespace PinProject.Locate
open Spec

variable {σ : Type}

theorem lbind_error {α β : Type} {x : LRes σ α} {f : α → LRes σ β} {e : LErr σ} :
    (x >>= f) = .error e ↔ x = .error e ∨ ∃ a, x = .ok a ∧ f a = .error e := by
  cases x with
  | error e => simp [bind, Except.bind]
  | ok a => simp [bind, Except.bind]

theorem lbind_ok {α β : Type} {x : LRes σ α} {f : α → LRes σ β} {b : β} :
    (x >>= f) = .ok b ↔ ∃ a, x = .ok a ∧ f a = .ok b := by
  cases x with
  | error e => simp [bind, Except.bind]
  | ok a => simp [bind, Except.bind]

theorem shownAt_one (t : TT) (p : σ) : ShownAt [(t, p)] (.one p) := .mk (x := (t, p)) (y := (t, p)) rfl rfl

theorem shownAt_two (t u : TT) (p q : σ) : ShownAt [(t, p), (u, q)] (.range p q) :=
  .mk (x := (t, p)) (y := (u, q)) rfl rfl

theorem shownAt_three (t u v : TT) (p q r : σ) : ShownAt [(t, p), (u, q), (v, r)] (.range p r) :=
  .mk (x := (t, p)) (y := (v, r)) rfl rfl

theorem parseIdent_lok {toks rest : List (Tok σ)} {s : String} {p : σ} :
    parseIdent toks = .ok ((s, p), rest) ↔ toks = (.ident s, p) :: rest ∧ isIdentWord s = true := by
  unfold parseIdent
  split
  · rename_i s' p' rest'
    split
    · rename_i hs
      simp only [Except.ok.injEq, Prod.mk.injEq, List.cons.injEq, TT.ident.injEq]
      constructor
      · rintro ⟨⟨rfl, rfl⟩, rfl⟩; exact ⟨⟨⟨rfl, rfl⟩, rfl⟩, hs⟩
      · rintro ⟨⟨⟨rfl, rfl⟩, rfl⟩, _⟩; exact ⟨⟨rfl, rfl⟩, rfl⟩
    · rename_i hs
      simp only [reduceCtorEq, List.cons.injEq, Prod.mk.injEq, TT.ident.injEq, false_iff]
      rintro ⟨⟨⟨rfl, rfl⟩, rfl⟩, h⟩
      exact hs h
  · rename_i hn
    simp only [reduceCtorEq, false_iff]
    rintro ⟨rfl, _⟩
    exact hn _ _ _ rfl

theorem parsePunct_lok {c : Char} {toks rest : List (Tok σ)} {p : σ} :
    parsePunct c toks = .ok (p, rest) ↔ ∃ j, toks = (.punct c j, p) :: rest := by
  unfold parsePunct
  split
  · rename_i d j p' rest'
    split
    · rename_i hc
      have hc : c = d := by simpa using hc
      subst hc
      simp only [Except.ok.injEq, Prod.mk.injEq, List.cons.injEq, TT.punct.injEq, true_and]
      constructor
      · rintro ⟨rfl, rfl⟩; exact ⟨j, ⟨rfl, rfl⟩, rfl⟩
      · rintro ⟨j, ⟨_, rfl⟩, rfl⟩; exact ⟨rfl, rfl⟩
    · rename_i hc
      simp only [reduceCtorEq, List.cons.injEq, Prod.mk.injEq, TT.punct.injEq, false_iff]
      rintro ⟨j, ⟨⟨rfl, _⟩, _⟩, _⟩
      simp at hc
  · rename_i hn
    simp only [reduceCtorEq, false_iff]
    rintro ⟨j, rfl⟩
    exact hn _ _ _ _ rfl

theorem parseKwUnpin_lok {toks rest : List (Tok σ)} {p : σ} (h : parseKwUnpin toks = .ok (p, rest)) :
    toks = (.ident "Unpin", p) :: rest := by
  unfold parseKwUnpin at h
  split at h
  · split at h
    · rename_i hs
      cases h
      have := eq_of_beq hs
      subst this
      rfl
    · cases h
  · cases h

theorem peekPunct_liff {c : Char} {toks : List (Tok σ)} :
    peekPunct c toks = true ↔ ∃ j p rest, toks = (.punct c j, p) :: rest := by
  unfold peekPunct
  split
  · rename_i d j p rest
    simp only [beq_iff_eq, List.cons.injEq, Prod.mk.injEq, TT.punct.injEq]
    constructor
    · rintro rfl; exact ⟨j, p, rest, ⟨⟨rfl, rfl⟩, rfl⟩, rfl⟩
    · rintro ⟨_, _, _, ⟨⟨rfl, _⟩, _⟩, _⟩; rfl
  · rename_i hn
    simp only [Bool.false_eq_true, false_iff]
    rintro ⟨j, p, rest, rfl⟩
    exact hn _ _ _ _ rfl

/-- At a token, `syn`'s errors are shown at the token. -/
theorem parseIdent_lerror {t : TT} {p : σ} {toks : List (Tok σ)} {e : LErr σ}
    (h : parseIdent ((t, p) :: toks) = .error e) :
    (∃ s, t = .ident s ∧ isIdentWord s = false ∧ e = .bail s!"expected identifier, found keyword `{s}`" (.one p)) ∨
    (¬ IsWordTok t ∧ e = .bail "expected identifier" (.one p)) := by
  unfold parseIdent at h
  split at h
  · rename_i s p' rest heq
    cases heq
    split at h
    · cases h
    · rename_i hs
      cases h
      exact .inl ⟨s, rfl, by simpa using hs, rfl⟩
  · rename_i hn
    cases h
    refine .inr ⟨?_, rfl⟩
    rintro ⟨s, rfl⟩
    exact hn _ _ _ rfl

theorem parsePunct_lerror {c : Char} {t : TT} {p : σ} {toks : List (Tok σ)} {e : LErr σ}
    (h : parsePunct c ((t, p) :: toks) = .error e) : ¬ IsPunct c t ∧ e = .bail s!"expected `{c}`" (.one p) := by
  unfold parsePunct at h
  split at h
  · rename_i d j p' rest heq
    cases heq
    split at h
    · cases h
    · rename_i hc
      cases h
      refine ⟨?_, rfl⟩
      rintro ⟨j', hj⟩
      cases hj
      simp at hc
  · rename_i hn
    cases h
    refine ⟨?_, rfl⟩
    rintro ⟨j, rfl⟩
    exact hn _ _ _ _ rfl

theorem parseKwUnpin_lerror {t : TT} {p : σ} {toks : List (Tok σ)} {e : LErr σ}
    (h : parseKwUnpin ((t, p) :: toks) = .error e) : t ≠ .ident "Unpin" ∧ e = .bail "expected `Unpin`" (.one p) := by
  unfold parseKwUnpin at h
  split at h
  · rename_i s p' rest heq
    cases heq
    split at h
    · cases h
    · rename_i hs
      cases h
      exact ⟨by rintro h; cases h; simp at hs, rfl⟩
  · rename_i hn
    cases h
    exact ⟨by rintro rfl; exact hn _ _ _ rfl, rfl⟩

theorem parseValue_lok {toks rest : List (Tok σ)} {name v : String × σ} {prev : Bool}
    (h : parseValue toks name prev = .ok (v, rest)) :
    prev = false ∧ isIdentWord v.1 = true ∧ ∃ j q, toks = (.punct '=' j, q) :: (.ident v.1, v.2) :: rest := by
  unfold parseValue at h
  split at h
  · cases h
  rw [lbind_ok] at h
  obtain ⟨⟨q, t1⟩, h1, h⟩ := h
  obtain ⟨j, rfl⟩ := parsePunct_lok.1 h1
  dsimp only at h
  split at h
  · cases h
  rw [lbind_ok] at h
  obtain ⟨⟨⟨s, p⟩, t2⟩, h2, h⟩ := h
  obtain ⟨rfl, hs⟩ := parseIdent_lok.1 h2
  dsimp only at h
  split at h
  · cases h
  · rename_i hp
    cases h
    exact ⟨by simpa using hp, hs, j, q, rfl⟩

/-! ## What the accumulator holds -/

/-- The spans in the accumulator are those of the arguments seen so far. -/
structure Inv (a : ArgAcc σ) (aps : List (Arg × List (Tok σ))) : Prop where
  pinnedDrop : ∀ s, a.pinnedDrop = some s → ∃ ts, (Arg.pinnedDrop, ts) ∈ aps ∧ ShownAt ts (.one s)
  unsafeUnpin : ∀ s, a.unsafeUnpin = some s → ∃ ts, (Arg.unsafeUnpin, ts) ∈ aps ∧ ShownAt ts (.one s)
  notUnpin : a.notUnpin.isSome = true → ∃ ts, (Arg.notUnpin, ts) ∈ aps
  project : ∀ v, a.project = some v → ∃ ts, (Arg.project v.1, ts) ∈ aps ∧ ShownAt (ts.drop 2) (.one v.2)
  projectRef : ∀ v, a.projectRef = some v → ∃ ts, (Arg.projectRef v.1, ts) ∈ aps ∧ ShownAt (ts.drop 2) (.one v.2)
  prValue : ∀ v, a.prValue = some v → ∃ ts, (Arg.projectReplaceNamed v.1, ts) ∈ aps ∧ ShownAt (ts.drop 2) (.one v.2)
  prSpan : ∀ s, a.prSpan = some s → a.prValue = none →
    ∃ ts, (Arg.projectReplace, ts) ∈ aps ∧ ShownAt ts (.range s.1 s.2)

theorem Inv.mono {a : ArgAcc σ} {aps : List (Arg × List (Tok σ))} (h : Inv a aps) (x : Arg × List (Tok σ)) :
    Inv a (aps ++ [x]) where
  pinnedDrop s e := (h.pinnedDrop s e).imp fun _ => And.imp_left (List.mem_append_left _)
  unsafeUnpin s e := (h.unsafeUnpin s e).imp fun _ => And.imp_left (List.mem_append_left _)
  notUnpin e := (h.notUnpin e).imp fun _ => List.mem_append_left _
  project s e := (h.project s e).imp fun _ => And.imp_left (List.mem_append_left _)
  projectRef s e := (h.projectRef s e).imp fun _ => And.imp_left (List.mem_append_left _)
  prValue s e := (h.prValue s e).imp fun _ => And.imp_left (List.mem_append_left _)
  prSpan s e e' := (h.prSpan s e e').imp fun _ => And.imp_left (List.mem_append_left _)

theorem mem_last {α : Type} (l : List α) (x : α) : x ∈ l ++ [x] := by simp

theorem parseArg_lok {a a' : ArgAcc σ} {toks rest : List (Tok σ)} {aps : List (Arg × List (Tok σ))} (inv : Inv a aps)
    (h : parseArg a toks = .ok (a', rest)) :
    ∃ x ts, ArgToks x (ts.map (·.1)) ∧ toks = ts ++ rest ∧ a.erase.has x.kind = false ∧ a'.erase = a.erase.set x ∧
      (x = .projectReplace → peekPunct '=' rest = false) ∧ Inv a' (aps ++ [(x, ts)]) := by
  unfold parseArg at h
  split at h
  · rw [lbind_ok] at h
    obtain ⟨⟨b, t1⟩, h1, h⟩ := h
    obtain ⟨j, rfl⟩ := parsePunct_lok.1 h1
    dsimp only at h
    split at h
    · cases h
    rw [lbind_ok] at h
    obtain ⟨⟨u, t2⟩, h2, h⟩ := h
    have := parseKwUnpin_lok h2
    subst this
    dsimp only at h
    split at h
    · cases h
    rename_i hn
    cases h
    refine ⟨.notUnpin, [(.punct '!' j, b), (.ident "Unpin", u)], .notUnpin j, rfl,
      by simpa [PinProject.ArgAcc.has, Arg.kind, ArgAcc.erase] using hn, rfl, by simp, ?_⟩
    exact { inv.mono _ with notUnpin := fun _ => ⟨_, mem_last _ _⟩ }
  rw [lbind_ok] at h
  obtain ⟨⟨⟨s, p⟩, t1⟩, h1, h⟩ := h
  obtain ⟨rfl, hs⟩ := parseIdent_lok.1 h1
  dsimp only at h
  split at h
  · rename_i e; subst e
    split at h
    · cases h
    rename_i hn
    cases h
    refine ⟨.pinnedDrop, [(.ident "PinnedDrop", p)], .pinnedDrop, rfl,
      by simpa [PinProject.ArgAcc.has, Arg.kind, ArgAcc.erase] using hn, rfl, by simp, ?_⟩
    exact { inv.mono _ with pinnedDrop := fun s hs => by cases hs; exact ⟨_, mem_last _ _, shownAt_one _ _⟩ }
  split at h
  · rename_i e; subst e
    split at h
    · cases h
    rename_i hn
    cases h
    refine ⟨.unsafeUnpin, [(.ident "UnsafeUnpin", p)], .unsafeUnpin, rfl,
      by simpa [PinProject.ArgAcc.has, Arg.kind, ArgAcc.erase] using hn, rfl, by simp, ?_⟩
    exact { inv.mono _ with unsafeUnpin := fun s hs => by cases hs; exact ⟨_, mem_last _ _, shownAt_one _ _⟩ }
  split at h
  · rename_i e; subst e
    rw [lbind_ok] at h
    obtain ⟨⟨v, t2⟩, h2, h⟩ := h
    obtain ⟨hp, hv, j, q, rfl⟩ := parseValue_lok h2
    cases h
    refine ⟨.project v.1, [(.ident "project", p), (.punct '=' j, q), (.ident v.1, v.2)],
      .project v.1 j ((isIdentWord_iff _).1 hv), rfl, by simpa [PinProject.ArgAcc.has, Arg.kind, ArgAcc.erase] using hp,
      rfl, by simp, ?_⟩
    exact { inv.mono _ with project := fun s hs => by cases hs; exact ⟨_, mem_last _ _, shownAt_one _ _⟩ }
  split at h
  · rename_i e; subst e
    rw [lbind_ok] at h
    obtain ⟨⟨v, t2⟩, h2, h⟩ := h
    obtain ⟨hp, hv, j, q, rfl⟩ := parseValue_lok h2
    cases h
    refine ⟨.projectRef v.1, [(.ident "project_ref", p), (.punct '=' j, q), (.ident v.1, v.2)],
      .projectRef v.1 j ((isIdentWord_iff _).1 hv), rfl,
      by simpa [PinProject.ArgAcc.has, Arg.kind, ArgAcc.erase] using hp, rfl, by simp, ?_⟩
    exact { inv.mono _ with projectRef := fun s hs => by cases hs; exact ⟨_, mem_last _ _, shownAt_one _ _⟩ }
  split at h
  · rename_i e; subst e
    split at h
    · rw [lbind_ok] at h
      obtain ⟨⟨v, t2⟩, h2, h⟩ := h
      obtain ⟨hp, hv, j, q, rfl⟩ := parseValue_lok h2
      cases h
      refine ⟨.projectReplaceNamed v.1, [(.ident "project_replace", p), (.punct '=' j, q), (.ident v.1, v.2)],
        .projectReplaceNamed v.1 j ((isIdentWord_iff _).1 hv), rfl,
        by simpa [PinProject.ArgAcc.has, Arg.kind, ArgAcc.erase] using hp, rfl, by simp, ?_⟩
      exact { inv.mono _ with
        prValue := fun s hs => by cases hs; exact ⟨_, mem_last _ _, shownAt_one _ _⟩
        prSpan := fun s _ hs => by cases hs }
    rename_i hpk
    split at h
    · cases h
    rename_i hn
    cases h
    refine ⟨.projectReplace, [(.ident "project_replace", p)], .projectReplace, rfl,
      by simpa [PinProject.ArgAcc.has, Arg.kind, ArgAcc.erase] using hn, rfl, fun _ => by simpa using hpk, ?_⟩
    exact { inv.mono _ with prSpan := fun s hs _ => by cases hs; exact ⟨_, mem_last _ _, shownAt_one _ _⟩ }
  split at h <;> cases h

theorem dup {before : List Arg} (x : Arg) (ts more : List (Tok σ)) (hx : ArgToks x (ts.map (·.1)))
    (hm : x.kind ∈ before.map Arg.kind) (hne : x ≠ .projectReplace) :
    ArgShown before (ts ++ more) s!"duplicate `{x.kind.text}` argument" ts :=
  .duplicate hx hm fun h => absurd h hne

theorem parseValue_lerror {toks : List (Tok σ)} {k : Kind} {p : σ} {prev : Bool} {msg : String} {s : Shown σ}
    {before : List Arg}
    (hk : k ∈ [.project, .projectRef, .projectReplace])
    (hk' : k = .projectReplace → peekPunct '=' toks = true)
    (hprev : prev = true → k ∈ before.map Arg.kind)
    (h : parseValue toks (k.text, p) prev = .error (.bail msg s)) :
    ∃ piece, ArgShown before ((.ident k.text, p) :: toks) msg piece ∧ ShownAt piece s := by
  have hk2 : k ∈ [.project, .projectRef] ∨ k = .projectReplace := by
    simp only [List.mem_cons, List.not_mem_nil, or_false] at hk ⊢
    rcases hk with h | h | h
    · exact .inl (.inl h)
    · exact .inl (.inr h)
    · exact .inr h
  unfold parseValue at h
  cases toks with
  | nil =>
    cases h
    rcases hk2 with hk2 | hk2
    · exact ⟨_, .noValue hk2, shownAt_one _ _⟩
    · simp [peekPunct] at hk'; exact absurd hk2 hk'
  | cons t toks =>
    obtain ⟨t, q⟩ := t
    simp only [List.isEmpty_cons, Bool.false_eq_true, if_false] at h
    replace h := lbind_error.1 h
    rcases h with h | ⟨⟨q', toks'⟩, h1, h⟩
    · obtain ⟨hn, he⟩ := parsePunct_lerror h
      cases he
      rcases hk2 with hk2 | hk2
      · exact ⟨_, .noEquals hk2 hn, shownAt_one _ _⟩
      · obtain ⟨j, q, r, hr⟩ := peekPunct_liff.1 (hk' hk2)
        cases hr
        exact absurd ⟨j, rfl⟩ hn
    · obtain ⟨j, hj⟩ := parsePunct_lok.1 h1
      cases hj
      cases toks with
      | nil => cases h; exact ⟨_, .noName hk, shownAt_two _ _ _ _⟩
      | cons u toks =>
        obtain ⟨u, r⟩ := u
        simp only [List.isEmpty_cons, Bool.false_eq_true, if_false] at h
        replace h := lbind_error.1 h
        rcases h with h | ⟨⟨⟨v, r'⟩, rest⟩, h1, h⟩
        · rcases parseIdent_lerror h with ⟨s, rfl, h2, he⟩ | ⟨h1, he⟩
          · cases he
            exact ⟨_, .valueKeyword hk ((isIdentWord_false _).1 h2), shownAt_one _ _⟩
          · cases he
            exact ⟨_, .valueNoWord hk h1, shownAt_one _ _⟩
        · obtain ⟨h1, h2⟩ := parseIdent_lok.1 h1
          cases h1
          dsimp only at h
          split at h
          · rename_i hp
            cases h
            have hm := hprev hp
            refine ⟨[(.ident k.text, p), (.punct '=' j, q), (.ident v, r)], ?_, shownAt_three _ _ _ _ _ _⟩
            simp only [List.mem_cons, List.not_mem_nil, or_false] at hk
            have hv := (isIdentWord_iff _).1 h2
            rcases hk with rfl | rfl | rfl
            · exact dup (.project v) [(.ident "project", p), (.punct '=' j, q), (.ident v, r)] toks (.project v j hv) hm
                (by simp)
            · exact dup (.projectRef v) [(.ident "project_ref", p), (.punct '=' j, q), (.ident v, r)] toks (.projectRef v j hv) hm
                (by simp)
            · exact dup (.projectReplaceNamed v) [(.ident "project_replace", p), (.punct '=' j, q), (.ident v, r)] toks (.projectReplaceNamed v j hv) hm
                (by simp)
          · cases h

theorem parseArg_lerror {a : ArgAcc σ} {before : List Arg} {t : TT} {p : σ} {toks : List (Tok σ)} {msg : String}
    {s : Shown σ} (ha : Holds a.erase before) (h : parseArg a ((t, p) :: toks) = .error (.bail msg s)) :
    ∃ piece, ArgShown before ((t, p) :: toks) msg piece ∧ ShownAt piece s := by
  unfold parseArg at h
  split at h
  · rename_i hp
    obtain ⟨j, p', r, hr⟩ := peekPunct_liff.1 hp
    cases hr
    replace h := lbind_error.1 h
    rcases h with h | ⟨⟨b, toks'⟩, h1, h⟩
    · exact absurd ⟨j, rfl⟩ (parsePunct_lerror h).1
    obtain ⟨j', hj⟩ := parsePunct_lok.1 h1
    cases hj
    cases toks with
    | nil => cases h; exact ⟨_, .bang, shownAt_one _ _⟩
    | cons u toks =>
      obtain ⟨u, q⟩ := u
      simp only [List.isEmpty_cons, Bool.false_eq_true, if_false] at h
      replace h := lbind_error.1 h
      rcases h with h | ⟨⟨q', rest⟩, h1, h⟩
      · obtain ⟨hu, he⟩ := parseKwUnpin_lerror h
        cases he
        exact ⟨_, .bangOther hu, shownAt_one _ _⟩
      · have h1 := parseKwUnpin_lok h1
        cases h1
        dsimp only at h
        split at h
        · rename_i hn
          cases h
          exact ⟨_, dup .notUnpin [(.punct '!' j, p), (.ident "Unpin", q)] toks (.notUnpin j) ((ha .notUnpin).1 hn) (by simp),
            shownAt_two _ _ _ _⟩
        · cases h
  · rename_i hp
    have hb : ¬ IsPunct '!' t := by
      rintro ⟨j, rfl⟩
      exact hp (peekPunct_liff.2 ⟨j, p, toks, rfl⟩)
    replace h := lbind_error.1 h
    rcases h with h | ⟨⟨⟨w, p'⟩, rest⟩, h1, h⟩
    · rcases parseIdent_lerror h with ⟨s, rfl, h2, he⟩ | ⟨h1, he⟩
      · cases he
        exact ⟨_, .keyword ((isIdentWord_false _).1 h2), shownAt_one _ _⟩
      · cases he
        exact ⟨_, .noWord h1 hb, shownAt_one _ _⟩
    obtain ⟨h1, hs⟩ := parseIdent_lok.1 h1
    cases h1
    dsimp only at h
    split at h
    · rename_i e; subst e
      split at h <;> cases h
      rename_i hx
      exact ⟨_, dup .pinnedDrop [(.ident "PinnedDrop", p)] toks .pinnedDrop ((ha .pinnedDrop).1 hx) (by simp), shownAt_one _ _⟩
    rename_i n1
    split at h
    · rename_i e; subst e
      split at h <;> cases h
      rename_i hx
      exact ⟨_, dup .unsafeUnpin [(.ident "UnsafeUnpin", p)] toks .unsafeUnpin ((ha .unsafeUnpin).1 hx) (by simp), shownAt_one _ _⟩
    rename_i n2
    split at h
    · rename_i e; subst e
      replace h := lbind_error.1 h
      rcases h with h | ⟨x, h1, h⟩
      · exact parseValue_lerror (k := .project) (by simp) (by simp)
          (fun hp => (ha .project).1 (by simpa [PinProject.ArgAcc.has, ArgAcc.erase] using hp)) h
      · cases h
    rename_i n3
    split at h
    · rename_i e; subst e
      replace h := lbind_error.1 h
      rcases h with h | ⟨x, h1, h⟩
      · exact parseValue_lerror (k := .projectRef) (by simp) (by simp)
          (fun hp => (ha .projectRef).1 (by simpa [PinProject.ArgAcc.has, ArgAcc.erase] using hp)) h
      · cases h
    rename_i n4
    split at h
    · rename_i e; subst e
      split at h
      · rename_i hq
        replace h := lbind_error.1 h
        rcases h with h | ⟨x, h1, h⟩
        · exact parseValue_lerror (k := .projectReplace) (by simp) (fun _ => hq)
            (fun hp => (ha .projectReplace).1 hp) h
        · cases h
      · rename_i hq
        split at h <;> cases h
        rename_i hx
        refine ⟨_, .duplicate (a := .projectReplace) (ts := [(.ident "project_replace", p)]) (more := toks) .projectReplace
          ((ha .projectReplace).1 hx) ?_, shownAt_one _ _⟩
        rintro - ⟨t, q⟩ us rfl ⟨j, rfl⟩
        exact hq (peekPunct_liff.2 ⟨j, q, us, rfl⟩)
    rename_i n5
    split at h
    · rename_i e; subst e
      cases h
      exact ⟨_, .replace, shownAt_one _ _⟩
    rename_i n6
    cases h
    refine ⟨_, .unknown n6 ?_, shownAt_one _ _⟩
    intro k hk
    cases k
    · exact n1
    · exact n2
    · exact absurd rfl hk
    · exact n3
    · exact n4
    · exact n5

theorem nodup_snoc {before : List Arg} {x : Arg} {a : PinProject.ArgAcc} (ha : Holds a before)
    (hnd : (before.map Arg.kind).Nodup) (hf : a.has x.kind = false) : ((before ++ [x]).map Arg.kind).Nodup := by
  rw [List.map_append, List.nodup_append]
  refine ⟨hnd, by simp, ?_⟩
  intro k hk k' hk'
  simp only [List.map_cons, List.map_nil, List.mem_singleton] at hk'
  rintro rfl
  subst hk'
  have := (ha x.kind).2 hk
  rw [hf] at this
  cases this

/-- The loop, up to an error. -/
theorem parseLoop_lerror : ∀ (n : Nat) (a : ArgAcc σ) (aps : List (Arg × List (Tok σ))) (toks : List (Tok σ))
    (msg : String) (s : Shown σ), Inv a aps → Holds a.erase (aps.map (·.1)) → ((aps.map (·.1)).map Arg.kind).Nodup →
    parseLoop n a toks = .error (.bail msg s) →
    ∃ b front rest piece, toks = front ++ rest ∧ ArgsBefore b (front.map (·.1)) ∧
      ((aps.map (·.1) ++ b).map Arg.kind).Nodup ∧ ArgShown (aps.map (·.1) ++ b) rest msg piece ∧ ShownAt piece s
  | n, a, aps, [], msg, s, _, _, _, h => by cases n <;> simp [parseLoop] at h
  | 0, a, aps, t :: ts, msg, s, _, _, _, h => by simp [parseLoop] at h
  | n + 1, a, aps, (t, p) :: ts, msg, s, inv, ha, hnd, h => by
    rw [parseLoop] at h
    case x_3 => simp
    replace h := lbind_error.1 h
    rcases h with h | ⟨⟨a', rest⟩, h1, h⟩
    · obtain ⟨piece, h1, h2⟩ := parseArg_lerror ha h
      exact ⟨[], [], _, piece, rfl, .nil, by simpa using hnd, by simpa using h1, h2⟩
    obtain ⟨x, pre, hx, heq, hf, he, hpr, inv'⟩ := parseArg_lok inv h1
    dsimp only at h
    cases rest with
    | nil => simp at h
    | cons u rest =>
      obtain ⟨u, q⟩ := u
      simp only [List.isEmpty_cons, Bool.false_eq_true, if_false] at h
      replace h := lbind_error.1 h
      rcases h with h | ⟨⟨q', rest'⟩, h1, h⟩
      · obtain ⟨hc, he⟩ := parsePunct_lerror h
        cases he
        refine ⟨[], [], _, [(u, q)], rfl, .nil, by simpa using hnd, ?_, shownAt_one _ _⟩
        rw [heq, List.append_nil]
        refine .noComma hx hc ?_
        rintro hxr ⟨j, rfl⟩
        have := hpr hxr
        rw [peekPunct_liff.2 ⟨j, q, rest, rfl⟩] at this
        cases this
      · obtain ⟨j, hj⟩ := parsePunct_lok.1 h1
        cases hj
        have ha' : Holds a'.erase ((aps ++ [(x, pre)]).map (·.1)) := by
          rw [he, List.map_append]
          exact ha.set x
        have hnd' : (((aps ++ [(x, pre)]).map (·.1)).map Arg.kind).Nodup := by
          rw [List.map_append]
          exact nodup_snoc ha hnd hf
        obtain ⟨b, front, r, piece, hr, hb, hn, hfault, hs⟩ := parseLoop_lerror n _ _ _ _ _ inv' ha' hnd' h
        refine ⟨x :: b, pre ++ (.punct ',' j, q) :: front, r, piece, ?_, ?_, ?_, ?_, hs⟩
        · dsimp only at hr
          rw [heq, hr]; simp
        · have := ArgsBefore.cons j hx hb
          simpa using this
        · simpa using hn
        · simpa using hfault

/-- The loop, to the end. -/
theorem parseLoop_lok : ∀ (n : Nat) (a a' : ArgAcc σ) (aps : List (Arg × List (Tok σ))) (toks : List (Tok σ)),
    Inv a aps → Holds a.erase (aps.map (·.1)) → ((aps.map (·.1)).map Arg.kind).Nodup → parseLoop n a toks = .ok a' →
    ∃ b, ArgPieces b toks ∧ Inv a' (aps ++ b) ∧ Holds a'.erase ((aps ++ b).map (·.1)) ∧
      (((aps ++ b).map (·.1)).map Arg.kind).Nodup
  | n, a, a', aps, [], inv, ha, hnd, h => by
    have : a = a' := by cases n <;> simpa [parseLoop] using h
    subst this
    exact ⟨[], .nil, by simpa using inv, by simpa using ha, by simpa using hnd⟩
  | 0, a, a', aps, t :: ts, _, _, _, h => by simp [parseLoop] at h
  | n + 1, a, a', aps, (t, p) :: ts, inv, ha, hnd, h => by
    rw [parseLoop] at h
    case x_3 => simp
    rw [lbind_ok] at h
    obtain ⟨⟨a1, rest⟩, h1, h⟩ := h
    obtain ⟨x, pre, hx, heq, hf, he, hpr, inv'⟩ := parseArg_lok inv h1
    have ha' : Holds a1.erase ((aps ++ [(x, pre)]).map (·.1)) := by
      rw [he, List.map_append]
      exact ha.set x
    have hnd' : (((aps ++ [(x, pre)]).map (·.1)).map Arg.kind).Nodup := by
      rw [List.map_append]
      exact nodup_snoc ha hnd hf
    dsimp only at h
    rw [heq]
    cases rest with
    | nil =>
      simp only [List.isEmpty_nil, if_true, Except.ok.injEq] at h
      subst h
      exact ⟨[(x, pre)], by simpa using ArgPieces.last hx, inv', ha', hnd'⟩
    | cons u rest =>
      simp only [List.isEmpty_cons, Bool.false_eq_true, if_false] at h
      rw [lbind_ok] at h
      obtain ⟨⟨q, rest'⟩, h1, h⟩ := h
      obtain ⟨j, hj⟩ := parsePunct_lok.1 h1
      cases hj
      obtain ⟨b, hb, inv'', ha'', hnd''⟩ := parseLoop_lok n _ _ _ _ inv' ha' hnd' h
      exact ⟨(x, pre) :: b, .cons j q hx hb, by simpa using inv'', by simpa using ha'', by simpa using hnd''⟩

theorem finish_lerror {a : ArgAcc σ} {as : List (Arg × List (Tok σ))} {msg : String} {s : Shown σ} (inv : Inv a as)
    (ha : Holds a.erase (as.map (·.1))) (h : a.finish = .error (.bail msg s)) :
    ∃ piece, ListShown as msg piece ∧ ShownAt piece s := by
  unfold ArgAcc.finish at h
  replace h := lbind_error.1 h
  rcases h with h | ⟨_, _, h⟩
  · unfold ArgAcc.checkNames at h
    split at h
    · rename_i hs
      split at h
      · rename_i he
        cases hp : a.project with
        | none =>
          cases hr : a.projectRef with
          | none => simp [hp, hr] at hs
          | some r => simp [hp, hr] at he
        | some v =>
          cases hr : a.projectRef with
          | none => simp [hp, hr] at he
          | some r =>
            have e : v.1 = r.1 := by simpa [hp, hr] using he
            rw [hr] at h
            cases h
            obtain ⟨ts, h1, _⟩ := inv.project v hp
            obtain ⟨us, h2, h3⟩ := inv.projectRef r hr
            rw [e] at h1
            exact ⟨_, .projectRef h1 h2, h3⟩
      · split at h
        · rename_i v hv
          obtain ⟨us, h2, h3⟩ := inv.prValue v hv
          split at h
          · rename_i he
            cases h
            cases hp : a.project with
            | none => simp [hp] at he
            | some w =>
              have e : w.1 = v.1 := by simpa [hp] using he
              obtain ⟨ts, h1, _⟩ := inv.project w hp
              rw [e] at h1
              exact ⟨_, .projectReplace h1 h2, h3⟩
          · split at h
            · rename_i he
              cases h
              cases hp : a.projectRef with
              | none => simp [hp] at he
              | some w =>
                have e : w.1 = v.1 := by simpa [hp] using he
                obtain ⟨ts, h1, _⟩ := inv.projectRef w hp
                rw [e] at h1
                exact ⟨_, .refReplace h1 h2, h3⟩
            · cases h
        · cases h
    · cases h
  · replace h := lbind_error.1 h
    rcases h with h | ⟨_, _, h⟩
    · unfold ArgAcc.checkDrop at h
      split at h
      · rename_i span hd
        split at h
        · rename_i hr
          cases h
          obtain ⟨ts, h1, h2⟩ := inv.pinnedDrop _ hd
          refine ⟨_, .dropReplace h1 ?_, h2⟩
          have := (ha .projectReplace).1 hr
          simpa using this
        · cases h
      · cases h
    · replace h := lbind_error.1 h
      rcases h with h | ⟨_, _, h⟩
      · unfold ArgAcc.unpinImpl at h
        split at h
        · cases h
        · cases h
        · cases h
        rename_i h1 h2
        cases h
        obtain ⟨ts, h3, h4⟩ := inv.unsafeUnpin _ h1
        obtain ⟨us, h5⟩ := inv.notUnpin (by rw [h2]; rfl)
        exact ⟨_, .unpin h3 h5, h4⟩
      · cases h

theorem inv_nil : Inv ({} : ArgAcc σ) [] where
  pinnedDrop _ h := by cases h
  unsafeUnpin _ h := by cases h
  notUnpin h := by cases h
  project _ h := by cases h
  projectRef _ h := by cases h
  prValue _ h := by cases h
  prSpan _ h := by cases h

theorem holds_nil : Holds ({} : ArgAcc σ).erase [] := by intro k; cases k <;> simp [PinProject.ArgAcc.has, ArgAcc.erase]

theorem argsParse_lerror {toks : List (Tok σ)} {msg : String} {s : Shown σ}
    (h : Args.parse toks = .error (.bail msg s)) : ArgsShown toks msg s := by
  unfold Args.parse at h
  replace h := lbind_error.1 h
  rcases h with h | ⟨a, h1, h⟩
  · obtain ⟨b, front, rest, piece, h1, h2, h3, h4, h5⟩ :=
      parseLoop_lerror _ _ [] _ _ _ inv_nil holds_nil (by simp) h
    exact .at_ h1 h2 h3 h4 h5
  · obtain ⟨as, h2, inv, ha, hn⟩ := parseLoop_lok _ _ _ [] _ inv_nil holds_nil (by simp) h1
    obtain ⟨piece, h3, h4⟩ := finish_lerror inv ha h
    exact .whole h2 (by simpa [Function.comp_def] using hn) h3 h4

/-- Accepted arguments: the names are shown where they are given, and an unnamed `project_replace` as well. -/
theorem argsParse_lok {toks : List (Tok σ)} {A : Args σ} (h : Args.parse toks = .ok A) :
    ∃ as, ArgPieces as toks ∧
      (∀ v, v ∈ [A.project, A.projectRef, A.projectReplace.ident].filterMap id →
        ∃ x us, (x, us) ∈ as ∧ x.name? = some v.1 ∧ ShownAt (us.drop 2) (.one v.2)) ∧
      ∀ span, A.projectReplace = .unnamed span → ∃ us, (.projectReplace, us) ∈ as ∧
        ShownAt us (.range span.1 span.2) := by
  unfold Args.parse at h
  rw [lbind_ok] at h
  obtain ⟨a, h1, h⟩ := h
  obtain ⟨as, h2, inv, ha, hn⟩ := parseLoop_lok _ _ _ [] _ inv_nil holds_nil (by simp) h1
  simp only [List.nil_append] at inv ha
  unfold ArgAcc.finish at h
  simp only [lbind_ok] at h
  obtain ⟨_, _, _, _, u, _, h⟩ := h
  cases h
  refine ⟨as, h2, ?_, ?_⟩
  · intro v hv
    simp only [List.mem_filterMap, List.mem_cons, List.not_mem_nil, or_false, id] at hv
    obtain ⟨o, ho, rfl⟩ := hv
    rcases ho with ho | ho | ho
    · obtain ⟨us, h3, h4⟩ := inv.project v ho.symm
      exact ⟨_, us, h3, rfl, h4⟩
    · obtain ⟨us, h3, h4⟩ := inv.projectRef v ho.symm
      exact ⟨_, us, h3, rfl, h4⟩
    · have hv : a.prValue = some v := by
        unfold ArgAcc.projectReplace at ho
        split at ho
        · cases ho
        · rename_i hv
          cases ho
          exact hv
        · cases ho
      obtain ⟨us, h3, h4⟩ := inv.prValue v hv
      exact ⟨_, us, h3, rfl, h4⟩
  · intro span hs
    have hs : a.projectReplace = .unnamed span := hs
    unfold ArgAcc.projectReplace at hs
    split at hs
    · cases hs
    · cases hs
    · rename_i h1 h2
      cases hs
      exact inv.prSpan _ h1 h2

/-- An argument list that is rejected is rejected with a message shown at the argument (or the part of it) that the
message is about. -/
theorem C80_args (toks : List (TT × σ)) (msg : String)
    (h : PinProject.Args.parse (toks.map (·.1)) = .error (.bail msg)) :
    ∃ s, Args.parse toks = .error (.bail msg s) ∧ ArgsShown toks msg s := by
  rw [← argsParse_erase toks] at h
  cases e : Args.parse toks with
  | ok A => rw [e] at h; cases h
  | error x =>
    rw [e] at h
    cases x with
    | panic m => cases h
    | bail m s =>
      cases h
      exact ⟨s, rfl, argsParse_lerror e⟩

/-- `#[pin_project(!Unpin, project = A, project = B)]`: from the second `project` to `B`. -/
example : Args.parse [(.punct '!' true, 0), (.ident "Unpin", 1), (.punct ',' false, 2), (.ident "project", 3),
    (.punct '=' false, 4), (.ident "A", 5), (.punct ',' false, 6), (.ident "project", 7), (.punct '=' false, 8),
    (.ident "B", 9)] = .error (.bail "duplicate `project` argument" (.range 7 9)) := rfl

/-- `#[pin_project(project = A, project_ref = A)]`: the second `A`. -/
example : Args.parse [(.ident "project", 0), (.punct '=' false, 1), (.ident "A", 2), (.punct ',' false, 3),
    (.ident "project_ref", 4), (.punct '=' false, 5), (.ident "A", 6)] =
    .error (.bail "name `A` is already specified by `project` argument" (.one 6)) := rfl

end PinProject.Locate

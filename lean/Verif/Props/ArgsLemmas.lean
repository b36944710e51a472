import Verif.Spec.Args
/-!
# Lemmas connecting the argument parser with the argument grammar
-/
namespace PinProject
open Spec

theorem bind_ok {α β : Type} {x : Res α} {f : α → Res β} {b : β} :
    (x >>= f) = .ok b ↔ ∃ a, x = .ok a ∧ f a = .ok b := by
  cases x with
  | error e => simp [bind, Except.bind]
  | ok a => simp [bind, Except.bind]

@[simp] theorem ok_bind {α β : Type} {a : α} {f : α → Res β} : ((.ok a : Res α) >>= f) = f a := rfl
@[simp] theorem error_bind {α β : Type} {e : Err} {f : α → Res β} :
    ((.error e : Res α) >>= f) = .error e := rfl

theorem isIdentWord_iff (s : String) : isIdentWord s = true ↔ Identifier s := by
  have h1 : ∀ w ∈ keywords, w ∈ strictKeywords ∨ w ∈ reservedKeywords ∨ w = "_" := by decide
  have h2 : ∀ w ∈ strictKeywords ++ reservedKeywords ++ ["_"], w ∈ keywords := by decide
  have h : s ∈ keywords ↔ s ∈ strictKeywords ∨ s ∈ reservedKeywords ∨ s = "_" :=
    ⟨h1 s, fun hs => h2 s (by simpa [or_assoc] using hs)⟩
  have hc : isIdentWord s = true ↔ s ∉ keywords := by simp [isIdentWord]
  rw [hc, h, not_or, not_or, Identifier]

theorem isIdentWord_false (s : String) : isIdentWord s = false ↔ ¬ Identifier s := by
  rw [← isIdentWord_iff, Bool.not_eq_true]

/-- Has an argument of this kind been seen? -/
def ArgAcc.has (a : ArgAcc) : Kind → Bool
  | .pinnedDrop => a.pinnedDrop
  | .unsafeUnpin => a.unsafeUnpin
  | .notUnpin => a.notUnpin
  | .project => a.project.isSome
  | .projectRef => a.projectRef.isSome
  | .projectReplace => a.prSpan

/-- Record an argument. -/
def ArgAcc.set (a : ArgAcc) : Arg → ArgAcc
  | .pinnedDrop => { a with pinnedDrop := true }
  | .unsafeUnpin => { a with unsafeUnpin := true }
  | .notUnpin => { a with notUnpin := true }
  | .project n => { a with project := some n }
  | .projectRef n => { a with projectRef := some n }
  | .projectReplace => { a with prSpan := true }
  | .projectReplaceNamed n => { a with prValue := some n, prSpan := true }

theorem ArgAcc.has_set (a : ArgAcc) (x : Arg) (k : Kind) :
    (a.set x).has k = (a.has k || decide (x.kind = k)) := by
  cases x <;> cases k <;> simp [ArgAcc.set, ArgAcc.has, Arg.kind]

theorem parsePunct_ok {c : Char} {toks rest : List TT} :
    parsePunct c toks = .ok rest ↔ ∃ j, toks = .punct c j :: rest := by
  unfold parsePunct
  split
  · rename_i d j r
    split
    · rename_i h; simp only [beq_iff_eq] at h; subst h; simp
    · rename_i h; simp only [beq_iff_eq] at h; simp [Ne.symm h]
  · rename_i h
    simp only [reduceCtorEq, false_iff]
    rintro ⟨j, rfl⟩
    exact h _ _ _ rfl

theorem peekPunct_iff {c : Char} {toks : List TT} :
    peekPunct c toks = true ↔ ∃ j rest, toks = .punct c j :: rest := by
  unfold peekPunct
  split
  · rename_i d j r
    rw [beq_iff_eq]
    constructor
    · rintro rfl; exact ⟨j, r, rfl⟩
    · rintro ⟨j', r', h⟩
      injection h with h1 h2
      injection h1 with h3 h4
      exact h3.symm
  · rename_i h
    simp only [Bool.false_eq_true, false_iff]
    rintro ⟨j, r, rfl⟩
    exact h _ _ _ rfl

theorem parseIdent_ok {toks rest : List TT} {s : String} :
    parseIdent toks = .ok (s, rest) ↔ toks = .ident s :: rest ∧ isIdentWord s = true := by
  unfold parseIdent
  split
  · rename_i t r
    split
    · rename_i h
      simp only [Except.ok.injEq, Prod.mk.injEq, List.cons.injEq, TT.ident.injEq]
      constructor
      · rintro ⟨rfl, rfl⟩; exact ⟨⟨rfl, rfl⟩, h⟩
      · rintro ⟨⟨rfl, rfl⟩, _⟩; exact ⟨rfl, rfl⟩
    · rename_i h
      simp only [reduceCtorEq, List.cons.injEq, TT.ident.injEq, false_iff]
      rintro ⟨⟨rfl, rfl⟩, h'⟩; exact h h'
  · rename_i h
    simp only [reduceCtorEq, false_iff]
    rintro ⟨rfl, _⟩
    exact h _ _ rfl

theorem parseKwUnpin_ok {toks rest : List TT} :
    parseKwUnpin toks = .ok rest ↔ toks = .ident "Unpin" :: rest := by
  unfold parseKwUnpin
  split
  · rename_i s r
    split
    · rename_i h; simp only [beq_iff_eq] at h; subst h; simp
    · rename_i h; simp only [beq_iff_eq] at h; simp [h]
  · rename_i h
    simp only [reduceCtorEq, false_iff]
    rintro rfl
    exact h _ _ rfl

theorem parseValue_ok {toks rest : List TT} {name v : String} {p : Bool} :
    parseValue toks name p = .ok (v, rest) ↔
      p = false ∧ isIdentWord v = true ∧ ∃ j, toks = .punct '=' j :: .ident v :: rest := by
  unfold parseValue
  cases toks with
  | nil => simp
  | cons t ts =>
    simp only [List.isEmpty_cons, Bool.false_eq_true, if_false, bind_ok, parsePunct_ok]
    constructor
    · rintro ⟨u, ⟨j, h⟩, h2⟩
      cases u with
      | nil => simp at h2
      | cons u us =>
        simp only [List.isEmpty_cons, Bool.false_eq_true, if_false, bind_ok] at h2
        obtain ⟨⟨w, r⟩, h3, h4⟩ := h2
        rw [parseIdent_ok] at h3
        cases p with
        | true => simp at h4
        | false =>
          simp at h4
          obtain ⟨rfl, rfl⟩ := h4
          exact ⟨rfl, h3.2, j, by rw [h, h3.1]⟩
    · rintro ⟨rfl, hv, j, h⟩
      refine ⟨.ident v :: rest, ⟨j, h⟩, ?_⟩
      simp only [List.isEmpty_cons, Bool.false_eq_true, if_false, bind_ok]
      exact ⟨(v, rest), parseIdent_ok.2 ⟨rfl, hv⟩, rfl⟩

theorem parseArg_sound {a a' : ArgAcc} {toks rest : List TT}
    (h : parseArg a toks = .ok (a', rest)) :
    ∃ x pre, ArgToks x pre ∧ toks = pre ++ rest ∧ a.has x.kind = false ∧ a' = a.set x := by
  unfold parseArg at h
  split at h
  · rw [bind_ok] at h
    obtain ⟨t1, h1, h⟩ := h
    obtain ⟨j, rfl⟩ := parsePunct_ok.1 h1
    split at h
    · simp at h
    · rw [bind_ok] at h
      obtain ⟨t2, h2, h⟩ := h
      rw [parseKwUnpin_ok] at h2
      subst h2
      split at h
      · simp at h
      · rename_i hn
        simp only [Except.ok.injEq, Prod.mk.injEq] at h
        obtain ⟨rfl, rfl⟩ := h
        exact ⟨.notUnpin, _, .notUnpin j, rfl, by simpa [ArgAcc.has, Arg.kind] using hn, rfl⟩
  · rw [bind_ok] at h
    obtain ⟨⟨s, t1⟩, h1, h⟩ := h
    obtain ⟨rfl, hs⟩ := parseIdent_ok.1 h1
    simp only at h
    split at h
    · rename_i e; subst e
      split at h
      · simp at h
      · rename_i hn
        simp only [Except.ok.injEq, Prod.mk.injEq] at h
        obtain ⟨rfl, rfl⟩ := h
        exact ⟨.pinnedDrop, _, .pinnedDrop, rfl, by simpa [ArgAcc.has, Arg.kind] using hn, rfl⟩
    split at h
    · rename_i e; subst e
      split at h
      · simp at h
      · rename_i hn
        simp only [Except.ok.injEq, Prod.mk.injEq] at h
        obtain ⟨rfl, rfl⟩ := h
        exact ⟨.unsafeUnpin, _, .unsafeUnpin, rfl, by simpa [ArgAcc.has, Arg.kind] using hn, rfl⟩
    split at h
    · rename_i e; subst e
      rw [bind_ok] at h
      obtain ⟨⟨v, t2⟩, h2, h⟩ := h
      obtain ⟨hp, hv, j, rfl⟩ := parseValue_ok.1 h2
      simp only [Except.ok.injEq, Prod.mk.injEq] at h
      obtain ⟨rfl, rfl⟩ := h
      exact ⟨.project v, _, .project v j ((isIdentWord_iff _).1 hv), rfl, hp, rfl⟩
    split at h
    · rename_i e; subst e
      rw [bind_ok] at h
      obtain ⟨⟨v, t2⟩, h2, h⟩ := h
      obtain ⟨hp, hv, j, rfl⟩ := parseValue_ok.1 h2
      simp only [Except.ok.injEq, Prod.mk.injEq] at h
      obtain ⟨rfl, rfl⟩ := h
      exact ⟨.projectRef v, _, .projectRef v j ((isIdentWord_iff _).1 hv), rfl, hp, rfl⟩
    split at h
    · rename_i e; subst e
      split at h
      · rw [bind_ok] at h
        obtain ⟨⟨v, t2⟩, h2, h⟩ := h
        obtain ⟨hp, hv, j, rfl⟩ := parseValue_ok.1 h2
        simp only [Except.ok.injEq, Prod.mk.injEq] at h
        obtain ⟨rfl, rfl⟩ := h
        exact ⟨.projectReplaceNamed v, _, .projectReplaceNamed v j ((isIdentWord_iff _).1 hv), rfl, hp, rfl⟩
      split at h
      · simp at h
      · rename_i hn
        simp only [Except.ok.injEq, Prod.mk.injEq] at h
        obtain ⟨rfl, rfl⟩ := h
        exact ⟨.projectReplace, _, .projectReplace, rfl, by simpa [ArgAcc.has, Arg.kind] using hn, rfl⟩
    split at h <;> simp at h

theorem parseArg_complete {a : ArgAcc} {x : Arg} {pre rest : List TT}
    (hx : ArgToks x pre) (ha : a.has x.kind = false) (hr : peekPunct '=' rest = false) :
    parseArg a (pre ++ rest) = .ok (a.set x, rest) := by
  cases hx with
  | pinnedDrop =>
    have e : isIdentWord "PinnedDrop" = true := by decide
    simp only [ArgAcc.has, Arg.kind] at ha
    simp [parseArg, peekPunct, parseIdent, e, ha, ArgAcc.set]
  | unsafeUnpin =>
    have e : isIdentWord "UnsafeUnpin" = true := by decide
    simp only [ArgAcc.has, Arg.kind] at ha
    simp [parseArg, peekPunct, parseIdent, e, ha, ArgAcc.set]
  | notUnpin j => simp_all [parseArg, peekPunct, parsePunct, parseKwUnpin, ArgAcc.has, ArgAcc.set, Arg.kind]
  | project n j hn =>
    have h := (parseValue_ok (name := "project") (p := false) (rest := rest)).2
      ⟨rfl, (isIdentWord_iff _).2 hn, j, rfl⟩
    have e : isIdentWord "project" = true := by decide
    simp only [ArgAcc.has, Arg.kind] at ha
    simp [parseArg, peekPunct, parseIdent, e, ha, h, ArgAcc.set]
  | projectRef n j hn =>
    have h := (parseValue_ok (name := "project_ref") (p := false) (rest := rest)).2
      ⟨rfl, (isIdentWord_iff _).2 hn, j, rfl⟩
    have e : isIdentWord "project_ref" = true := by decide
    simp only [ArgAcc.has, Arg.kind] at ha
    simp [parseArg, peekPunct, parseIdent, e, ha, h, ArgAcc.set]
  | projectReplace =>
    have e : isIdentWord "project_replace" = true := by decide
    simp only [ArgAcc.has, Arg.kind] at ha
    have hb : ∀ s ts, peekPunct '!' (TT.ident s :: ts) = false := fun _ _ => rfl
    simp [parseArg, hb, parseIdent, e, ha, hr, ArgAcc.set]
  | projectReplaceNamed n j hn =>
    have h := (parseValue_ok (name := "project_replace") (p := false) (rest := rest)).2
      ⟨rfl, (isIdentWord_iff _).2 hn, j, rfl⟩
    have e : isIdentWord "project_replace" = true := by decide
    simp only [ArgAcc.has, Arg.kind] at ha
    simp [parseArg, peekPunct, parseIdent, e, ha, h, ArgAcc.set]

theorem argToks_pos {x : Arg} {ts : List TT} (h : ArgToks x ts) : 0 < ts.length := by
  cases h <;> simp

/-- Freshness of a list of arguments with respect to the accumulator. -/
def FreshArgs (a : ArgAcc) (as : List Arg) : Prop :=
  (as.map Arg.kind).Nodup ∧ ∀ x ∈ as, a.has x.kind = false

theorem freshArgs_cons {a : ArgAcc} {x : Arg} {as : List Arg} :
    FreshArgs a (x :: as) ↔ a.has x.kind = false ∧ FreshArgs (a.set x) as := by
  simp only [FreshArgs, List.map_cons, List.nodup_cons, List.mem_cons, forall_eq_or_imp,
    ArgAcc.has_set, Bool.or_eq_false_iff, decide_eq_false_iff_not, List.mem_map, not_exists, not_and]
  constructor
  · rintro ⟨⟨h1, h2⟩, h3, h4⟩
    exact ⟨h3, h2, fun y hy => ⟨h4 y hy, fun e => h1 y hy e.symm⟩⟩
  · rintro ⟨h3, h2, h4⟩
    exact ⟨⟨fun y hy e => (h4 y hy).2 e.symm, h2⟩, h3, fun y hy => (h4 y hy).1⟩

theorem parseLoop_sound : ∀ (n : Nat) (a a' : ArgAcc) (toks : List TT),
    parseLoop n a toks = .ok a' →
    ∃ as, ArgsToks as toks ∧ FreshArgs a as ∧ a' = as.foldl ArgAcc.set a
  | n, a, a', [], h => by
    have : a = a' := by cases n <;> simpa [parseLoop] using h
    exact ⟨[], .nil, by simp [FreshArgs], by simp [this]⟩
  | 0, a, a', t :: ts, h => by simp [parseLoop] at h
  | n + 1, a, a', t :: ts, h => by
    rw [parseLoop] at h
    · rw [bind_ok] at h
      obtain ⟨⟨b, rest⟩, h1, h⟩ := h
      obtain ⟨x, pre, hx, htoks, ha, rfl⟩ := parseArg_sound h1
      simp only at h
      split at h
      · rename_i he
        simp only [List.isEmpty_iff] at he
        simp only [Except.ok.injEq] at h
        subst he
        refine ⟨[x], by rw [htoks]; simpa using .last hx, ?_, by simp [h]⟩
        rw [freshArgs_cons]
        exact ⟨ha, by simp [FreshArgs]⟩
      · rw [bind_ok] at h
        obtain ⟨us, h2, h⟩ := h
        obtain ⟨j, rfl⟩ := parsePunct_ok.1 h2
        obtain ⟨as, has, hf, rfl⟩ := parseLoop_sound n _ _ _ h
        exact ⟨x :: as, by rw [htoks]; exact .cons j hx has, freshArgs_cons.2 ⟨ha, hf⟩, rfl⟩
    · simp

theorem parseLoop_complete {as : List Arg} {toks : List TT} (h : ArgsToks as toks) :
    ∀ (n : Nat) (a : ArgAcc), toks.length ≤ n → FreshArgs a as →
    parseLoop n a toks = .ok (as.foldl ArgAcc.set a) := by
  induction h with
  | nil => intro n a _ _; cases n <;> simp [parseLoop]
  | @last x ts hx =>
    intro n a hl hf
    rw [freshArgs_cons] at hf
    have hp := argToks_pos hx
    cases n with
    | zero => omega
    | succ n =>
      cases ts with
      | nil => simp at hp
      | cons t ts =>
        rw [parseLoop]
        · have := parseArg_complete (rest := []) hx hf.1 rfl
          rw [List.append_nil] at this
          simp [this]
        · simp
  | @cons x as ts us j hx has ih =>
    intro n a hl hf
    rw [freshArgs_cons] at hf
    have hp := argToks_pos hx
    simp only [List.length_append, List.length_cons] at hl
    cases n with
    | zero => omega
    | succ n =>
      cases ts with
      | nil => simp at hp
      | cons t ts =>
        have h1 := parseArg_complete (rest := .punct ',' j :: us) hx hf.1 rfl
        rw [List.cons_append] at h1 ⊢
        rw [parseLoop]
        · rw [h1]
          have h2 := ih n (a.set x) (by simp at hl; omega) hf.2
          simp [parsePunct, h2]
        · simp

theorem parseLoop_ok {toks : List TT} {a' : ArgAcc} :
    parseLoop toks.length {} toks = .ok a' ↔
      ∃ as, ArgsToks as toks ∧ (as.map Arg.kind).Nodup ∧ a' = as.foldl ArgAcc.set {} := by
  constructor
  · intro h
    obtain ⟨as, h1, h2, h3⟩ := parseLoop_sound _ _ _ _ h
    exact ⟨as, h1, h2.1, h3⟩
  · rintro ⟨as, h1, h2, rfl⟩
    refine parseLoop_complete h1 _ _ (Nat.le_refl _) ⟨h2, ?_⟩
    intro x _
    cases x <;> rfl

end PinProject

import Verif.Props.Entry
import Verif.Spec.Errors
/-!
# C70: the messages about the arguments of `#[pin_project(..)]`
-/
namespace PinProject
open Spec

theorem bind_error {α β : Type} {x : Res α} {f : α → Res β} {e : Err} :
    (x >>= f) = .error e ↔ x = .error e ∨ ∃ a, x = .ok a ∧ f a = .error e := by
  cases x with
  | error e => simp [bind, Except.bind]
  | ok a => simp [bind, Except.bind]

/-- The accumulator holds exactly the arguments `before`. -/
def Holds (a : ArgAcc) (before : List Arg) : Prop := ∀ k, a.has k = true ↔ k ∈ before.map Arg.kind

theorem Holds.set {a : ArgAcc} {before : List Arg} (h : Holds a before) (x : Arg) :
    Holds (a.set x) (before ++ [x]) := by
  intro k
  rw [ArgAcc.has_set, Bool.or_eq_true, h k, decide_eq_true_iff]
  simp [eq_comm]

theorem parseIdent_error {toks : List TT} {msg : String} (h : parseIdent toks = .error (.bail msg)) :
    (∃ s rest, toks = .ident s :: rest ∧ isIdentWord s = false ∧
      msg = s!"expected identifier, found keyword `{s}`") ∨
    ((∀ t rest, toks = t :: rest → ¬ IsWordTok t) ∧ msg = "expected identifier") := by
  unfold parseIdent at h
  split at h
  · rename_i s rest
    split at h
    · cases h
    · rename_i hs
      cases h
      exact .inl ⟨s, rest, rfl, by simpa using hs, rfl⟩
  · rename_i hn
    cases h
    refine .inr ⟨?_, rfl⟩
    rintro t rest rfl ⟨s, rfl⟩
    exact hn _ _ rfl

theorem parsePunct_error {c : Char} {toks : List TT} {e : Err} (h : parsePunct c toks = .error e) :
    (∀ t rest, toks = t :: rest → ¬ IsPunct c t) ∧ e = .bail s!"expected `{c}`" := by
  unfold parsePunct at h
  split at h
  · rename_i d j rest
    split at h
    · cases h
    · rename_i hc
      cases h
      refine ⟨?_, rfl⟩
      rintro t r hr ⟨j', rfl⟩
      injection hr with h1 _
      injection h1 with h1 _
      simp [h1] at hc
  · rename_i hn
    cases h
    refine ⟨?_, rfl⟩
    rintro t rest rfl ⟨s, rfl⟩
    exact hn _ _ _ rfl

/-- The faults of `parse_value` after the keyword. -/
theorem parseValue_error {toks : List TT} {k : Kind} {prev : Bool} {msg : String} {before : List Arg}
    (hk : k ∈ [.project, .projectRef, .projectReplace])
    (hk' : k = .projectReplace → peekPunct '=' toks = true)
    (hprev : prev = true → k ∈ before.map Arg.kind)
    (h : parseValue toks k.text prev = .error (.bail msg)) :
    ArgFault before (.ident k.text :: toks) msg := by
  have hk2 : k ∈ [.project, .projectRef] ∨ k = .projectReplace := by
    simp only [List.mem_cons, List.not_mem_nil, or_false] at hk ⊢
    rcases hk with h | h | h
    · exact .inl (.inl h)
    · exact .inl (.inr h)
    · exact .inr h
  unfold parseValue at h
  cases toks with
  | nil =>
    cases h
    rcases hk2 with hk2 | hk2
    · exact .noValue hk2
    · simp [peekPunct] at hk'; exact absurd hk2 hk'
  | cons t toks =>
    simp only [List.isEmpty_cons, Bool.false_eq_true, if_false] at h
    replace h := bind_error.1 h
    rcases h with h | ⟨toks', h1, h⟩
    · obtain ⟨hn, he⟩ := parsePunct_error h
      cases he
      rcases hk2 with hk2 | hk2
      · exact .noEquals hk2 (hn _ _ rfl)
      · obtain ⟨j, r, hr⟩ := peekPunct_iff.1 (hk' hk2)
        injection hr with h1 h2
        exact absurd ⟨j, h1⟩ (hn _ _ rfl)
    · obtain ⟨j, hj⟩ := parsePunct_ok.1 h1
      injection hj with h2 h3
      subst h2 h3
      cases toks with
      | nil => cases h; exact .noName hk
      | cons u toks =>
        simp only [List.isEmpty_cons, Bool.false_eq_true, if_false] at h
        replace h := bind_error.1 h
        rcases h with h | ⟨⟨v, rest⟩, h1, h⟩
        · rcases parseIdent_error h with ⟨s, rest, h1, h2, rfl⟩ | ⟨h1, rfl⟩
          · injection h1 with h1 h3
            subst h1 h3
            exact .valueKeyword hk ((isIdentWord_false _).1 h2)
          · exact .valueNoWord hk (h1 _ _ rfl)
        · obtain ⟨h1, h2⟩ := parseIdent_ok.1 h1
          injection h1 with h1 h3
          subst h1 h3
          dsimp only at h
          split at h
          · rename_i hp
            cases h
            have hm := hprev hp
            simp only [List.mem_cons, List.not_mem_nil, or_false] at hk
            rcases hk with rfl | rfl | rfl
            · exact .duplicate (.project v j ((isIdentWord_iff _).1 h2)) hm
            · exact .duplicate (.projectRef v j ((isIdentWord_iff _).1 h2)) hm
            · exact .duplicate (.projectReplaceNamed v j ((isIdentWord_iff _).1 h2)) hm
          · cases h

theorem parseArg_error {a : ArgAcc} {before : List Arg} {t : TT} {toks : List TT} {msg : String}
    (ha : Holds a before) (h : parseArg a (t :: toks) = .error (.bail msg)) :
    ArgFault before (t :: toks) msg := by
  unfold parseArg at h
  split at h
  · rename_i hp
    obtain ⟨j, r, hr⟩ := peekPunct_iff.1 hp
    injection hr with h1 h2
    subst h1 h2
    replace h := bind_error.1 h
    rcases h with h | ⟨toks', h1, h⟩
    · exact absurd ⟨j, rfl⟩ ((parsePunct_error h).1 _ _ rfl)
    obtain ⟨j', hj⟩ := parsePunct_ok.1 h1
    injection hj with h2 h3
    subst h3
    cases toks with
    | nil => cases h; exact .bang
    | cons u toks =>
      simp only [List.isEmpty_cons, Bool.false_eq_true, if_false] at h
      replace h := bind_error.1 h
      rcases h with h | ⟨rest, h1, h⟩
      · have hu : u ≠ .ident "Unpin" := by rintro rfl; simp [parseKwUnpin] at h
        have : msg = "expected `Unpin`" := by
          unfold parseKwUnpin at h
          split at h
          · split at h <;> cases h
            rfl
          · cases h; rfl
        subst this
        exact .bangOther hu
      · have h1 := parseKwUnpin_ok.1 h1
        injection h1 with h1 h2
        subst h1 h2
        split at h
        · rename_i hn
          cases h
          exact .duplicate (.notUnpin j) ((ha .notUnpin).1 hn)
        · cases h
  · rename_i hp
    have hb : ¬ IsPunct '!' t := by
      rintro ⟨j, rfl⟩
      exact hp (peekPunct_iff.2 ⟨j, toks, rfl⟩)
    replace h := bind_error.1 h
    rcases h with h | ⟨⟨s, rest⟩, h1, h⟩
    · rcases parseIdent_error h with ⟨s, rest, h1, h2, rfl⟩ | ⟨h1, rfl⟩
      · injection h1 with h1 h3
        subst h1 h3
        exact .keyword ((isIdentWord_false _).1 h2)
      · exact .noWord (h1 _ _ rfl) hb
    obtain ⟨h1, hs⟩ := parseIdent_ok.1 h1
    injection h1 with h1 h3
    subst h1 h3
    dsimp only at h
    split at h
    · rename_i e; subst e
      split at h <;> cases h
      rename_i hx
      exact .duplicate .pinnedDrop ((ha .pinnedDrop).1 hx)
    rename_i n1
    split at h
    · rename_i e; subst e
      split at h <;> cases h
      rename_i hx
      exact .duplicate .unsafeUnpin ((ha .unsafeUnpin).1 hx)
    rename_i n2
    split at h
    · rename_i e; subst e
      replace h := bind_error.1 h
      rcases h with h | ⟨x, h1, h⟩
      · exact parseValue_error (k := .project) (by simp) (by simp) (fun hp => (ha .project).1 hp) h
      · cases h
    rename_i n3
    split at h
    · rename_i e; subst e
      replace h := bind_error.1 h
      rcases h with h | ⟨x, h1, h⟩
      · exact parseValue_error (k := .projectRef) (by simp) (by simp) (fun hp => (ha .projectRef).1 hp) h
      · cases h
    rename_i n4
    split at h
    · rename_i e; subst e
      split at h
      · rename_i hq
        replace h := bind_error.1 h
        rcases h with h | ⟨x, h1, h⟩
        · exact parseValue_error (k := .projectReplace) (by simp) (fun _ => hq)
            (fun hp => (ha .projectReplace).1 hp) h
        · cases h
      · split at h <;> cases h
        rename_i hx
        exact .duplicate .projectReplace ((ha .projectReplace).1 hx)
    rename_i n5
    split at h
    · rename_i e; subst e
      cases h
      exact .replace
    rename_i n6
    cases h
    refine .unknown n6 ?_
    intro k hk
    cases k
    · exact n1
    · exact n2
    · exact absurd rfl hk
    · exact n3
    · exact n4
    · exact n5

theorem parseLoop_error : ∀ (n : Nat) (a : ArgAcc) (before : List Arg) (toks : List TT) (msg : String),
    Holds a before → (before.map Arg.kind).Nodup → parseLoop n a toks = .error (.bail msg) →
    ∃ b front rest, toks = front ++ rest ∧ ArgsBefore b front ∧ ((before ++ b).map Arg.kind).Nodup ∧
      ArgFault (before ++ b) rest msg
  | n, a, before, [], msg, _, _, h => by cases n <;> simp [parseLoop] at h
  | 0, a, before, t :: ts, msg, _, _, h => by simp [parseLoop] at h
  | n + 1, a, before, t :: ts, msg, ha, hnd, h => by
    rw [parseLoop] at h
    case x_3 => simp
    replace h := bind_error.1 h
    rcases h with h | ⟨⟨a', rest⟩, h1, h⟩
    · exact ⟨[], [], t :: ts, rfl, .nil, by simpa using hnd, by simpa using parseArg_error ha h⟩
    obtain ⟨x, pre, hx, heq, hf, rfl⟩ := parseArg_sound h1
    dsimp only at h
    cases rest with
    | nil => simp at h
    | cons u rest =>
      simp only [List.isEmpty_cons, Bool.false_eq_true, if_false] at h
      replace h := bind_error.1 h
      rcases h with h | ⟨rest', h1, h⟩
      · obtain ⟨hc, he⟩ := parsePunct_error h
        cases he
        refine ⟨[], [], t :: ts, rfl, .nil, by simpa using hnd, ?_⟩
        rw [heq, List.append_nil]
        exact .noComma hx (hc _ _ rfl)
      · obtain ⟨j, hj⟩ := parsePunct_ok.1 h1
        injection hj with h2 h3
        subst h2 h3
        have hnd' : ((before ++ [x]).map Arg.kind).Nodup := by
          rw [List.map_append, List.nodup_append]
          refine ⟨hnd, by simp, ?_⟩
          intro k hk k' hk'
          simp only [List.map_cons, List.map_nil, List.mem_singleton] at hk'
          rintro rfl
          subst hk'
          have := (ha x.kind).2 hk
          rw [hf] at this
          cases this
        obtain ⟨b, front, r, rfl, hb, hn, hfault⟩ := parseLoop_error n _ _ _ _ (ha.set x) hnd' h
        refine ⟨x :: b, pre ++ .punct ',' j :: front, r, ?_, .cons j hx hb, ?_, ?_⟩
        · rw [heq]; simp
        · simpa using hn
        · simpa using hfault

theorem projectOf_mem {as : List Arg} {n : String} (h : as.findSome? projectOf = some n) : .project n ∈ as := by
  obtain ⟨l, x, r, rfl, hx, _⟩ := List.findSome?_eq_some_iff.1 h
  cases x <;> simp [projectOf] at hx
  simp [hx]

theorem projectRefOf_mem {as : List Arg} {n : String} (h : as.findSome? projectRefOf = some n) :
    .projectRef n ∈ as := by
  obtain ⟨l, x, r, rfl, hx, _⟩ := List.findSome?_eq_some_iff.1 h
  cases x <;> simp [projectRefOf] at hx
  simp [hx]

theorem replaceOf_mem {as : List Arg} {n : String} (h : as.findSome? replaceOf = some n) :
    .projectReplaceNamed n ∈ as := by
  obtain ⟨l, x, r, rfl, hx, _⟩ := List.findSome?_eq_some_iff.1 h
  cases x <;> simp [replaceOf] at hx
  simp [hx]

theorem finish_error {as : List Arg} {msg : String} (hn : (as.map Arg.kind).Nodup)
    (h : (as.foldl ArgAcc.set {}).finish = .error (.bail msg)) : ListFault as msg := by
  have e1 := fold_project as {} hn
  have e2 := fold_projectRef as {} hn
  have e3 := fold_prValue as {} hn
  have e4 := fold_pinnedDrop as {}
  have e5 := fold_prSpan as {}
  have e6 := fold_unsafeUnpin as {}
  have e7 := fold_notUnpin as {}
  generalize as.foldl ArgAcc.set {} = a at h e1 e2 e3 e4 e5 e6 e7
  simp only [Option.or_none, Bool.false_or] at e1 e2 e3 e4 e5 e6 e7
  unfold ArgAcc.finish at h
  replace h := bind_error.1 h
  rcases h with h | ⟨_, _, h⟩
  · unfold ArgAcc.checkNames at h
    split at h
    · rename_i hs
      split at h
      · rename_i he
        cases h
        rw [← he] at hs
        obtain ⟨n, hp⟩ := Option.isSome_iff_exists.1 (by simpa using hs)
        rw [hp] at he
        rw [← he]
        exact .projectRef (projectOf_mem (e1 ▸ hp)) (projectRefOf_mem (e2 ▸ he.symm))
      · split at h
        · rename_i n hv
          split at h
          · rename_i he
            cases h
            rw [hv] at he
            exact .projectReplace (projectOf_mem (e1 ▸ he)) (replaceOf_mem (e3 ▸ hv))
          · split at h
            · rename_i he
              cases h
              rw [hv] at he
              exact .refReplace (projectRefOf_mem (e2 ▸ he)) (replaceOf_mem (e3 ▸ hv))
            · cases h
        · cases h
    · cases h
  · split at h
    · rename_i hb
      cases h
      rw [e4, e5, Bool.and_eq_true, decide_eq_true_iff, decide_eq_true_iff] at hb
      exact .dropReplace hb.1 hb.2
    · replace h := bind_error.1 h
      rcases h with h | ⟨_, _, h⟩
      · unfold ArgAcc.unpinImpl at h
        split at h
        · cases h
        · cases h
        · cases h
        rename_i h1 h2
        cases h
        rw [e6, decide_eq_true_iff] at h1
        rw [e7, decide_eq_true_iff] at h2
        exact .unpin h1 h2
      · cases h

/-- If the argument list is rejected, then the message describes a fault that the list really has:
at the first place where it goes wrong (everything before is a list of complete, different
arguments), or in the list as a whole. -/
theorem C70_args (toks : List TT) (e : Err) (h : Args.parse toks = .error e) :
    ∃ msg, e = .bail msg ∧ ArgsFault toks msg := by
  cases e with
  | panic m => exact absurd h (argsParse_noPanic toks m)
  | bail msg =>
    refine ⟨msg, rfl, ?_⟩
    unfold Args.parse at h
    replace h := bind_error.1 h
    rcases h with h | ⟨a, h1, h⟩
    · obtain ⟨b, front, rest, h1, h2, h3, h4⟩ :=
        parseLoop_error _ _ [] _ _ (by intro k; cases k <;> simp [ArgAcc.has]) (by simp) h
      exact .at_ h1 h2 h3 h4
    · obtain ⟨as, h2, h3, rfl⟩ := parseLoop_ok.1 h1
      exact .whole h2 h3 (finish_error h3 h)

/-- `#[pin_project(!Unpin, project = A, project = B)]` -/
example : Args.parse [.punct '!' true, .ident "Unpin", .punct ',' false, .ident "project", .punct '=' false,
    .ident "A", .punct ',' false, .ident "project", .punct '=' false, .ident "B"] =
    .error (.bail "duplicate `project` argument") := rfl

/-- `#[pin_project(project = A, project_ref = A)]` -/
example : Args.parse [.ident "project", .punct '=' false, .ident "A", .punct ',' false,
    .ident "project_ref", .punct '=' false, .ident "A"] =
    .error (.bail "name `A` is already specified by `project` argument") := rfl

/-- `#[pin_project(PinnedDrop, project_replace =)]` -/
example : Args.parse [.ident "PinnedDrop", .punct ',' false, .ident "project_replace", .punct '=' false] =
    .error (.bail "expected `project_replace = <identifier>`, found `project_replace =`") := rfl

end PinProject

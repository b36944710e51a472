import Verif.Props.Args
/-!
# C01, C02, C03: the argument list of `#[pin_project(...)]`

The specification is `Verif/Spec/Args.lean`.
-/
namespace PinProject
open Spec

/-! ## An argument list can be read in only one way -/

/-- What may follow an argument: nothing, or a comma. -/
def CommaOrEnd : List TT → Prop
  | [] => True
  | .punct c _ :: _ => c = ','
  | _ => False

theorem argToks_unique {x y : Arg} {p q r s : List TT} (hx : ArgToks x p) (hy : ArgToks y q)
    (hr : CommaOrEnd r) (hs : CommaOrEnd s) (h : p ++ r = q ++ s) : x = y ∧ p = q ∧ r = s := by
  cases hx <;> cases hy <;> simp at h
  case projectReplace.projectReplaceNamed => subst h; simp [CommaOrEnd] at hr
  case projectReplaceNamed.projectReplace => subst h; simp [CommaOrEnd] at hs
  all_goals simp_all

theorem argsToks_unique {as : List Arg} {ts : List TT} (h : ArgsToks as ts) :
    ∀ {bs : List Arg}, ArgsToks bs ts → as = bs := by
  induction h with
  | nil =>
    intro bs hb
    generalize hw : ([] : List TT) = w at hb
    cases hb with
    | nil => rfl
    | last hx => subst hw; exact absurd (argToks_pos hx) (by simp)
    | cons j hx hb => simp at hw
  | @last x ts hx =>
    intro bs hb
    generalize hw : ts = w at hb
    cases hb with
    | nil => subst hw; exact absurd (argToks_pos hx) (by simp)
    | last hy =>
      have := argToks_unique (r := []) (s := []) hx hy trivial trivial (by simpa using hw)
      rw [this.1]
    | @cons y bs us vs j hy hb =>
      have := argToks_unique (r := []) (s := .punct ',' j :: vs) hx hy trivial rfl (by simpa using hw)
      simp at this
  | @cons x as ts us j hx has ih =>
    intro bs hb
    generalize hw : ts ++ .punct ',' j :: us = w at hb
    cases hb with
    | nil => simp at hw
    | last hy =>
      have := argToks_unique (r := .punct ',' j :: us) (s := []) hx hy rfl trivial (by simpa using hw)
      simp at this
    | @cons y bs vs ws k hy hb =>
      have := argToks_unique (r := .punct ',' j :: us) (s := .punct ',' k :: ws) hx hy rfl rfl hw
      obtain ⟨rfl, rfl, h3⟩ := this
      simp only [List.cons.injEq, TT.punct.injEq] at h3
      obtain ⟨_, rfl⟩ := h3
      rw [ih hb]

/-! ## C01 -/

/-- **C01.** The macro accepts a token stream as its arguments exactly when it is a comma
separated list (optional trailing comma) of known arguments that is acceptable in the sense of
the documentation, and then it uses exactly the configuration this list means. -/
theorem C01_argument_grammar (ts : List TT) (A : Args) :
    Args.parse ts = .ok A ↔ ∃ as, ArgsToks as ts ∧ Acceptable as ∧ A = config as :=
  parse_ok_iff

/-- **C01**, other direction: everything else is rejected with an error message; the macro
neither panics nor fails to terminate. -/
theorem C01_rejects_everything_else (ts : List TT)
    (h : ¬ ∃ as, ArgsToks as ts ∧ Acceptable as) :
    ∃ msg, Args.parse ts = .error (.bail msg) := by
  have hpan : ∀ m, Args.parse ts ≠ .error (.panic m) := by
    intro m hm
    have loop : ∀ (n : Nat) (a : ArgAcc) (us : List TT), us.length ≤ n →
        parseLoop n a us ≠ .error (.panic m) := by
      have hpunct : ∀ (c : Char) (us : List TT), parsePunct c us ≠ .error (.panic m) := by
        intro c us; unfold parsePunct; split
        · split <;> simp
        · simp
      have hident : ∀ (us : List TT), parseIdent us ≠ .error (.panic m) := by
        intro us; unfold parseIdent; split
        · split <;> simp
        · simp
      have hval : ∀ (us : List TT) (s : String) (b : Bool),
          parseValue us s b ≠ .error (.panic m) := by
        intro us s b; unfold parseValue
        split
        · simp
        · cases h1 : parsePunct '=' us with
          | error e => intro h2; simp only [error_bind, Except.error.injEq] at h2; exact hpunct _ _ (h2 ▸ h1)
          | ok v =>
            simp only [ok_bind]
            split
            · simp
            · cases h3 : parseIdent v with
              | error e =>
                intro h2; simp only [error_bind, Except.error.injEq] at h2; exact hident _ (h2 ▸ h3)
              | ok w => simp only [ok_bind]; split <;> simp
      have harg : ∀ (a : ArgAcc) (us : List TT), parseArg a us ≠ .error (.panic m) := by
        intro a us
        unfold parseArg
        split
        · cases h1 : parsePunct '!' us with
          | error e => intro h2; simp only [error_bind, Except.error.injEq] at h2; exact hpunct _ _ (h2 ▸ h1)
          | ok v =>
            simp only [ok_bind]
            split
            · simp
            · unfold parseKwUnpin
              split
              · split
                · simp only [ok_bind]; split <;> simp
                · simp
              · simp
        · cases h1 : parseIdent us with
          | error e => intro h2; simp only [error_bind, Except.error.injEq] at h2; exact hident _ (h2 ▸ h1)
          | ok w =>
            obtain ⟨s, v⟩ := w
            simp only [ok_bind]
            split
            · split <;> simp
            split
            · split <;> simp
            split
            · cases h2 : parseValue v s a.project.isSome with
              | error e => intro h3; simp only [error_bind, Except.error.injEq] at h3; exact hval _ _ _ (h3 ▸ h2)
              | ok x => simp
            split
            · cases h2 : parseValue v s a.projectRef.isSome with
              | error e => intro h3; simp only [error_bind, Except.error.injEq] at h3; exact hval _ _ _ (h3 ▸ h2)
              | ok x => simp
            split
            · split
              · cases h2 : parseValue v s a.prSpan with
                | error e => intro h3; simp only [error_bind, Except.error.injEq] at h3; exact hval _ _ _ (h3 ▸ h2)
                | ok x => simp
              · split <;> simp
            split <;> simp
      intro n
      induction n with
      | zero => intro a us hl; cases us with
        | nil => simp [parseLoop]
        | cons u us => simp at hl
      | succ n ih =>
        intro a us hl
        cases us with
        | nil => simp [parseLoop]
        | cons u us =>
          rw [parseLoop]
          · cases h1 : parseArg a (u :: us) with
            | error e => intro h2; simp only [error_bind, Except.error.injEq] at h2; exact harg _ _ (h2 ▸ h1)
            | ok w =>
              obtain ⟨b, rest⟩ := w
              obtain ⟨x, pre, hx, hus, _, _⟩ := parseArg_sound h1
              have hpos := argToks_pos hx
              simp only [ok_bind]
              split
              · simp
              · cases h3 : parsePunct ',' rest with
                | error e => intro h2; simp only [error_bind, Except.error.injEq] at h2; exact hpunct _ _ (h2 ▸ h3)
                | ok v =>
                  simp only [ok_bind]
                  obtain ⟨j, rfl⟩ := parsePunct_ok.1 h3
                  apply ih
                  have := congrArg List.length hus
                  simp at this hl
                  omega
          · simp
    unfold Args.parse at hm
    cases h1 : parseLoop ts.length {} ts with
    | error e =>
      rw [h1] at hm
      simp only [error_bind, Except.error.injEq] at hm
      exact loop _ _ _ (Nat.le_refl _) (hm ▸ h1)
    | ok a =>
      rw [h1] at hm
      simp only [ok_bind] at hm
      unfold ArgAcc.finish at hm
      cases h2 : a.checkNames with
      | error e =>
        rw [h2] at hm
        simp only [error_bind, Except.error.injEq] at hm
        subst hm
        unfold ArgAcc.checkNames at h2
        split at h2
        · split at h2
          · simp at h2
          · split at h2
            · split at h2
              · simp at h2
              · split at h2 <;> simp at h2
            · simp at h2
        · simp at h2
      | ok u =>
        rw [h2] at hm
        simp only [ok_bind] at hm
        split at hm
        · simp at hm
        · unfold ArgAcc.unpinImpl at hm
          split at hm <;> simp at hm
  cases hp : Args.parse ts with
  | ok A =>
    obtain ⟨as, h1, h2, _⟩ := parse_ok_iff.1 hp
    exact absurd ⟨as, h1, h2⟩ h
  | error e =>
    cases e with
    | bail m => exact ⟨m, rfl⟩
    | panic m => exact absurd hp (hpan m)

/-- Non-vacuity: a list using four arguments with a trailing comma is acceptable. -/
example : ∃ ts, ArgsToks [.project "FooProj", .notUnpin, .projectReplaceNamed "Own", .projectRef "R"] ts ∧
    Acceptable [.project "FooProj", .notUnpin, .projectReplaceNamed "Own", .projectRef "R"] ∧
    Args.parse ts = .ok (config [.project "FooProj", .notUnpin, .projectReplaceNamed "Own", .projectRef "R"]) := by
  have h1 : ArgsToks [.project "FooProj", .notUnpin, .projectReplaceNamed "Own", .projectRef "R"] _ :=
    .cons false (.project "FooProj" false (by decide))
      (.cons false (.notUnpin false)
        (.cons false (.projectReplaceNamed "Own" false (by decide))
          (.cons false (.projectRef "R" false (by decide)) .nil)))
  have h2 : Acceptable [.project "FooProj", .notUnpin, .projectReplaceNamed "Own", .projectRef "R"] := by
    constructor <;> decide
  exact ⟨_, h1, h2, (C01_argument_grammar _ _).2 ⟨_, h1, h2, rfl⟩⟩

/-- Non-vacuity: something is rejected. -/
example : ¬ ∃ as, ArgsToks as [.ident "Replace"] ∧ Acceptable as := by
  rintro ⟨as, h, ha⟩
  have := (C01_argument_grammar _ _).2 ⟨as, h, ha, rfl⟩
  simp [Args.parse, parseLoop, parseArg, peekPunct, parseIdent, isIdentWord, keywords] at this

/-! ## C02 -/

theorem findSome_perm {β : Type} {f : Arg → Option β} {k : Kind} {as bs : List Arg}
    (hf : ∀ x, (f x).isSome → x.kind = k)
    (hp : as.Perm bs) (hnd : (as.map Arg.kind).Nodup) : as.findSome? f = bs.findSome? f := by
  have hnd' : (bs.map Arg.kind).Nodup := (hp.map Arg.kind).nodup_iff.1 hnd
  have uniq : ∀ (cs : List Arg), (cs.map Arg.kind).Nodup → ∀ x ∈ cs, ∀ v, f x = some v →
      cs.findSome? f = some v := by
    intro cs hcs x hx v hv
    induction cs with
    | nil => cases hx
    | cons c cs ih =>
      rw [List.map_cons, List.nodup_cons] at hcs
      rw [List.findSome?_cons]
      rcases List.mem_cons.1 hx with rfl | hx
      · rw [hv]
      · cases hc : f c with
        | none => exact ih hcs.2 hx
        | some w =>
          have h1 := hf c (by simp [hc])
          have h2 := hf x (by simp [hv])
          exact absurd (List.mem_map.2 ⟨x, hx, h2.trans h1.symm⟩) hcs.1
  cases h : as.findSome? f with
  | none =>
    rw [List.findSome?_eq_none_iff] at h
    symm
    rw [List.findSome?_eq_none_iff]
    intro x hx
    exact h x (hp.mem_iff.2 hx)
  | some v =>
    obtain ⟨l, x, r, rfl, hx, _⟩ := List.findSome?_eq_some_iff.1 h
    exact (uniq bs hnd' x (hp.mem_iff.1 (by simp)) v hx).symm

theorem acceptable_perm {as bs : List Arg} (hp : as.Perm bs) (h : Acceptable as) : Acceptable bs where
  noDup := (hp.map Arg.kind).nodup_iff.1 h.noDup
  dropReplace := fun ⟨h1, h2⟩ => h.dropReplace ⟨hp.mem_iff.2 h1, (hp.map Arg.kind).mem_iff.2 h2⟩
  unpin := fun ⟨h1, h2⟩ => h.unpin ⟨hp.mem_iff.2 h1, hp.mem_iff.2 h2⟩
  names := (hp.filterMap Arg.name?).nodup_iff.1 h.names

theorem config_perm {as bs : List Arg} (hp : as.Perm bs) (h : (as.map Arg.kind).Nodup) :
    config as = config bs := by
  unfold config
  rw [findSome_perm (k := .project) _ hp h, findSome_perm (k := .projectRef) _ hp h,
    findSome_perm (k := .projectReplace) _ hp h]
  · simp [hp.mem_iff]
  all_goals intro x; cases x <;> simp [Arg.kind]

/-- **C02.** The order in which the arguments are written does not matter: two argument lists
that are permutations of each other are both accepted, with the same configuration, or both
rejected. -/
theorem C02_order_irrelevant {as bs : List Arg} {ts us : List TT} (hp : as.Perm bs)
    (hts : ArgsToks as ts) (hus : ArgsToks bs us) (A : Args) :
    Args.parse ts = .ok A ↔ Args.parse us = .ok A := by
  have one : ∀ {as bs : List Arg} {ts us : List TT}, as.Perm bs → ArgsToks as ts →
      ArgsToks bs us → Args.parse ts = .ok A → Args.parse us = .ok A := by
    intro as bs ts us hp hts hus h
    obtain ⟨cs, h1, h2, rfl⟩ := parse_ok_iff.1 h
    obtain rfl := argsToks_unique hts h1
    exact parse_ok_iff.2 ⟨bs, hus, acceptable_perm hp h2, config_perm hp h2.noDup⟩
  exact ⟨one hp hts hus, one hp.symm hus hts⟩

/-- Non-vacuity: `PinnedDrop, project = P` and `project = P, PinnedDrop,`. -/
example : Args.parse [.ident "PinnedDrop", .punct ',' false, .ident "project", .punct '=' false, .ident "P"] =
      .ok { pinnedDrop := true, project := some "P" } ∧
    Args.parse [.ident "project", .punct '=' false, .ident "P", .punct ',' false, .ident "PinnedDrop",
      .punct ',' false] = .ok { pinnedDrop := true, project := some "P" } := by
  have h1 : Args.parse [.ident "PinnedDrop", .punct ',' false, .ident "project", .punct '=' false, .ident "P"] =
      .ok { pinnedDrop := true, project := some "P" } :=
    (C01_argument_grammar _ _).2 ⟨[.pinnedDrop, .project "P"],
      .cons false .pinnedDrop (.last (.project "P" false (by decide))),
      by constructor <;> decide, by decide⟩
  refine ⟨h1, ?_⟩
  exact (C02_order_irrelevant (as := [.pinnedDrop, .project "P"]) (bs := [.project "P", .pinnedDrop])
    (.swap _ _ _) (.cons false .pinnedDrop (.last (.project "P" false (by decide))))
    (.cons false (.project "P" false (by decide)) (.cons false .pinnedDrop .nil)) _).1 h1

/-! ## C03 -/

/-- **C03.** Every argument list in which `PinnedDrop` occurs together with `project_replace`, or
`UnsafeUnpin` together with `!Unpin`, or in which a keyword or a name is repeated, is rejected,
whatever else the list contains and wherever the offending arguments are. -/
theorem C03_exclusive_rejected {as : List Arg} {ts : List TT} (hts : ArgsToks as ts)
    (h : (.pinnedDrop ∈ as ∧ (.projectReplace ∈ as ∨ ∃ n, .projectReplaceNamed n ∈ as)) ∨
         (.unsafeUnpin ∈ as ∧ .notUnpin ∈ as) ∨
         ¬ (as.map Arg.kind).Nodup ∨ ¬ (as.filterMap Arg.name?).Nodup) :
    ∃ msg, Args.parse ts = .error (.bail msg) := by
  apply C01_rejects_everything_else
  rintro ⟨bs, hb, hacc⟩
  obtain rfl := argsToks_unique hts hb
  rcases h with ⟨h1, h2⟩ | h | h | h
  · refine hacc.dropReplace ⟨h1, ?_⟩
    rcases h2 with h2 | ⟨n, h2⟩
    · exact List.mem_map.2 ⟨_, h2, rfl⟩
    · exact List.mem_map.2 ⟨_, h2, rfl⟩
  · exact hacc.unpin h
  · exact h hacc.noDup
  · exact h hacc.names

/-- Non-vacuity: `project_replace, UnsafeUnpin, PinnedDrop`. -/
example : ∃ msg, Args.parse [.ident "project_replace", .punct ',' false, .ident "UnsafeUnpin",
    .punct ',' false, .ident "PinnedDrop"] = .error (.bail msg) :=
  C03_exclusive_rejected (as := [.projectReplace, .unsafeUnpin, .pinnedDrop])
    (.cons false .projectReplace (.cons false .unsafeUnpin (.last .pinnedDrop)))
    (.inl ⟨by simp, .inl (by simp)⟩)

/-- **C03**, on the configuration: an accepted list never enables both features. -/
theorem C03_accepted_not_both {ts : List TT} {A : Args} (h : Args.parse ts = .ok A) :
    ¬ (A.pinnedDrop = true ∧ A.projectReplace ≠ .none) := by
  obtain ⟨as, h1, h2, rfl⟩ := parse_ok_iff.1 h
  rintro ⟨h3, h4⟩
  refine h2.dropReplace ⟨by simpa [config] using h3, ?_⟩
  rw [config_replace as h2.noDup, ArgAcc.projectReplace, fold_prSpan] at h4
  cases hd : decide (Kind.projectReplace ∈ as.map Arg.kind) with
  | true => simpa using hd
  | false => rw [hd] at h4; simp at h4

end PinProject

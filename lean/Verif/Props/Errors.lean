import Verif.Props.ErrorsArgs
import Verif.Props.PinnedDrop
/-!
# C70: what an error message says is true
-/
namespace PinProject
open Spec

theorem find_mem {attrs : List Attribute} {s : String} {a : Attribute} (h : findAttr attrs s = some a) :
    a ∈ attrs ∧ a.path.isIdent s = true :=
  ⟨List.mem_of_find?_eq_some h, by simpa using List.find?_some h⟩

theorem isPinProjectAttr_eq (a : Attribute) : a.path.isIdent "pin_project" = isPinProjectAttr a := by
  rw [Bool.eq_iff_iff, isIdent_iff]
  simp [isPinProjectAttr]

/-! ## The attribute stage -/

theorem peek_iff (ts : List TT) : peekStructOrEnum ts = true ↔
    ∃ w more, ts = .ident w :: more ∧ (w = "struct" ∨ w = "enum") := by
  unfold peekStructOrEnum
  split
  · simp
  · rename_i h
    simp only [Bool.false_eq_true, false_iff]
    rintro ⟨w, more, rfl, _⟩
    exact h _ _ rfl

theorem modPathTail_error (ts : List TT) (e : Err) (h : modPathTail ts = .error e) :
    e = .bail "expected identifier" := by
  fun_induction modPathTail ts with
  | case1 c d j hc s rest hw ih =>
    rcases bind_error.1 h with h | ⟨_, _, h⟩
    · exact ih h
    · cases h
  | case2 => cases h; rfl
  | case3 => cases h; rfl
  | case4 => cases h
  | case5 => cases h

theorem parseModPath_error (ts : List TT) (e : Err) (h : parseModPath ts = .error e) :
    e = .bail "expected identifier" := by
  unfold parseModPath at h
  repeat' split at h
  all_goals try (cases h; rfl)
  all_goals
    rcases bind_error.1 h with h | ⟨_, _, h⟩
    · exact modPathTail_error _ _ h
    · cases h

theorem skipVis_error {body : List TT} {e : Err} (h : skipVis body = .error e) :
    ∃ ts more, body = .ident "pub" :: .group .paren (.ident "in" :: ts) :: more ∧ ¬ ModPath ts ∧
      (e = .bail "expected identifier" ∨ e = .bail "unexpected token") := by
  unfold skipVis at h
  split at h
  · split at h
    · split at h
      · split at h
        · split at h <;> cases h
        · split at h
          · rename_i hk
            subst hk
            replace h := bind_error.1 h
            rcases h with h | ⟨⟨p, r⟩, h1, h⟩
            · refine ⟨_, _, rfl, ?_, .inl (parseModPath_error _ _ h)⟩
              intro hm
              obtain ⟨p, hp⟩ := (parseModPath_iff _).2 hm
              rw [hp] at h
              cases h
            · dsimp only at h
              split at h
              · cases h
              · rename_i hr
                cases h
                refine ⟨_, _, rfl, ?_, .inr rfl⟩
                intro hm
                obtain ⟨p', hp⟩ := (parseModPath_iff _).2 hm
                rw [hp] at h1
                cases h1
                exact hr rfl
          · cases h
      · cases h
    · cases h
  · cases h

/-- If the attribute stage rejects an item, then the message describes a fault of the item. -/
theorem C70_attribute (args : List TT) (i : RawInput) (e : Err) (h : parseAttribute args i = .error e) :
    ∃ msg, e = .bail msg ∧ AttributeFault i msg := by
  unfold parseAttribute at h
  replace h := bind_error.1 h
  rcases h with h | ⟨_, _, h⟩
  · unfold parseInput at h
    replace h := bind_error.1 h
    rcases h with h | ⟨ahead, h1, h⟩
    · obtain ⟨ts, more, h1, h2, h3⟩ := skipVis_error h
      rcases h3 with rfl | rfl
      · exact ⟨_, rfl, .badVis h1 h2 (by simp)⟩
      · exact ⟨_, rfl, .badVis h1 h2 (by simp)⟩
    · split at h
      · rename_i hp
        cases h
        refine ⟨_, rfl, .notType ?_⟩
        intro hs
        obtain ⟨rest, h2, h3⟩ := (skipVis_iff _).2 hs
        rw [h1] at h2
        cases h2
        rw [(peek_iff _).2 h3] at hp
        cases hp
      · split at h
        · rename_i hp
          cases h
          obtain ⟨a, ha⟩ := Option.isSome_iff_exists.1 hp
          exact ⟨_, rfl, .pin (find_mem ha).1 (isPinAttr_eq a ▸ (find_mem ha).2)⟩
        · split at h
          · rename_i hp
            cases h
            obtain ⟨a, ha⟩ := Option.isSome_iff_exists.1 hp
            exact ⟨_, rfl, .twice (find_mem ha).1 (isPinProjectAttr_eq a ▸ (find_mem ha).2)⟩
          · cases h
  · cases h

/-! ## The derive stage -/

theorem parsePrivate_some {ts args : List TT} (h : parsePrivate ts = .ok (some args)) :
    ts = [.ident "__private", .group .paren args] := by
  unfold parsePrivate at h
  repeat' split at h
  all_goals simp_all

theorem parsePrivate_error {ts : List TT} {e : Err} (h : parsePrivate ts = .error e) :
    e = .bail "unexpected token" ∧ ∀ args, ts ≠ [.ident "__private", .group .paren args] := by
  constructor
  · unfold parsePrivate at h
    repeat' split at h
    all_goals (cases h; try rfl)
  · rintro args rfl
    exact absurd h (by rw [show parsePrivate _ = .ok (some args) from rfl]; simp)

theorem requireList_error {m : Meta} {e : Err} (h : m.requireList = .error e) :
    e = .bail "expected attribute arguments in parentheses" ∧ ∀ p d ts, m ≠ .list p d ts := by
  cases m <;> simp_all [Meta.requireList]

theorem parseArgs_ok_shape {attrs : List Attribute} {A : Args} (h : parseArgs attrs = .ok A) :
    ∃ a p d ts, attrs.filter isPinAttr = [a] ∧ a.m = .list p d [.ident "__private", .group .paren ts] ∧
      Args.parse ts = .ok A := by
  have e : (fun a : Attribute => a.path.isIdent "pin") = isPinAttr := funext isPinAttr_eq
  unfold parseArgs at h
  rw [e] at h
  split at h
  · cases h
  · split at h
    · cases h
    · rename_i a more hf
      rw [bind_ok] at h
      obtain ⟨ts, h1, h⟩ := h
      rw [bind_ok] at h
      obtain ⟨prev, h2, h⟩ := h
      obtain ⟨p, d, hm⟩ := requireList_ok.1 h1
      split at h
      · rw [bind_ok] at h
        obtain ⟨_, _, h⟩ := h
        rw [bind_ok] at h
        obtain ⟨_, _, h⟩ := h
        cases h
      · split at h
        · rename_i toks
          have := parsePrivate_some h2
          subst this
          exact ⟨a, p, d, toks, hf, hm, h⟩
        · cases h

theorem parseArgs_error {item : Item} {msg : String}
    (h : parseArgs (itemAttrs item) = .error (.bail msg)) : DeriveFault item msg := by
  have e : (fun a : Attribute => a.path.isIdent "pin") = isPinAttr := funext isPinAttr_eq
  unfold parseArgs at h
  rw [e] at h
  split at h
  · rename_i a ha
    cases h
    exact .twice (find_mem ha).1 (isPinProjectAttr_eq a ▸ (find_mem ha).2)
  · split at h
    · rename_i hf
      cases h
      refine .removed ?_
      intro a ha
      rw [List.filter_eq_nil_iff] at hf
      simpa using hf a ha
    · rename_i a more hf
      have hmem : ∀ x ∈ a :: more, x ∈ itemAttrs item ∧ isPinAttr x = true := by
        intro x hx
        rw [← hf] at hx
        exact List.mem_filter.1 hx
      obtain ⟨ha1, ha2⟩ := hmem a (by simp)
      replace h := bind_error.1 h
      rcases h with h | ⟨ts, h1, h⟩
      · obtain ⟨he, hl⟩ := requireList_error h
        cases he
        exact .noList ha1 ha2 hl
      obtain ⟨p, d, hm⟩ := requireList_ok.1 h1
      replace h := bind_error.1 h
      rcases h with h | ⟨prev, h2, h⟩
      · obtain ⟨he, hl⟩ := parsePrivate_error h
        cases he
        exact .notOurs ha1 ha2 hm hl
      split at h
      · rename_i b rest
        obtain ⟨hb1, hb2⟩ := hmem b (by simp)
        replace h := bind_error.1 h
        rcases h with h | ⟨us, h3, h⟩
        · obtain ⟨he, hl⟩ := requireList_error h
          cases he
          exact .noList hb1 hb2 hl
        obtain ⟨p', d', hm'⟩ := requireList_ok.1 h3
        replace h := bind_error.1 h
        rcases h with h | ⟨_, _, h⟩
        · obtain ⟨he, hl⟩ := parsePrivate_error h
          cases he
          exact .notOurs hb1 hb2 hm' hl
        · cases h
          exact .pinTwice (by rw [hf]; simp)
      · split at h
        · rename_i toks
          have := parsePrivate_some h2
          subst this
          obtain ⟨msg', he, hfault⟩ := C70_args _ _ h
          cases he
          exact .args hf hm hfault
        · cases h

theorem config_replace_cases (as : List Arg) :
    (config as).projectReplace = .none ∨
    ((config as).projectReplace = .unnamed ∧ .projectReplace ∈ as) ∨
    ∃ n, (config as).projectReplace = .named n ∧ .projectReplaceNamed n ∈ as := by
  unfold config
  dsimp only
  generalize hf : List.findSome? _ as = o
  cases o with
  | none => exact .inl rfl
  | some x =>
    obtain ⟨l, y, r, rfl, hy, _⟩ := List.findSome?_eq_some_iff.1 hf
    cases y <;> simp at hy
    · subst hy; exact .inr (.inl ⟨rfl, by simp⟩)
    · subst hy; exact .inr (.inr ⟨_, rfl, by simp⟩)

theorem userNames_config {as : List Arg} {n : String} (h : n ∈ userNames (config as)) :
    n ∈ as.filterMap Arg.name? := by
  rw [List.mem_filterMap]
  simp only [userNames, List.mem_append, Option.mem_toList] at h
  rcases h with (h | h) | h
  · exact ⟨_, projectOf_mem h, rfl⟩
  · exact ⟨_, projectRefOf_mem h, rfl⟩
  · rcases config_replace_cases as with h1 | ⟨h1, _⟩ | ⟨m, h1, h2⟩
    · simp [h1, ProjReplace.ident] at h
    · simp [h1, ProjReplace.ident] at h
    · simp only [h1, ProjReplace.ident, Option.some.injEq] at h
      subst h
      exact ⟨_, h2, rfl⟩

theorem ctxNew_error {item : Item} {vis : Vis} {ident : String} {g : Generics} {kind : TypeKind} {msg : String}
    (hn : itemName item = some ident)
    (h : Ctx.new (itemAttrs item) vis ident g kind = .error (.bail msg)) : DeriveFault item msg := by
  unfold Ctx.new at h
  replace h := bind_error.1 h
  rcases h with h | ⟨A, h1, h⟩
  · exact parseArgs_error h
  · split at h
    · rename_i hany
      cases h
      obtain ⟨a, p, d, ts, h2, h3, h4⟩ := parseArgs_ok_shape h1
      obtain ⟨as, h5, _, rfl⟩ := parse_ok_iff.1 h4
      exact .ownName h2 h3 h5 hn (userNames_config ((names_any _ _).1 hany))
    · cases h

theorem parseMeta_error {ts : List TT} {e : Err} (h : parseMeta ts = .error e) :
    e = .bail "expected identifier" ∨ e = .bail "expected expression" := by
  unfold parseMeta at h
  replace h := bind_error.1 h
  rcases h with h | ⟨⟨p, toks⟩, _, h⟩
  · exact .inl (parseModPath_error _ _ h)
  · dsimp only at h
    split at h
    · cases h
    · split at h
      · split at h
        · cases h; exact .inr rfl
        · cases h
      · cases h
    · cases h

theorem parseMetas_error : ∀ (n : Nat) (ts : List TT) (msg : String), parseMetas n ts = .error (.bail msg) →
    msg ∈ synMessages
  | n, [], msg, h => by cases n <;> simp [parseMetas] at h
  | 0, t :: ts, msg, h => by simp [parseMetas] at h
  | n + 1, t :: ts, msg, h => by
    rw [parseMetas] at h
    case x_2 => simp
    replace h := bind_error.1 h
    rcases h with h | ⟨⟨m, rest⟩, _, h⟩
    · rcases parseMeta_error h with h | h <;> cases h <;> simp [synMessages]
    · dsimp only at h
      split at h
      · cases h
      · replace h := bind_error.1 h
        rcases h with h | ⟨rest', _, h⟩
        · have := (parsePunct_error h).2
          cases this
          show "expected `,`" ∈ synMessages
          simp [synMessages]
        · replace h := bind_error.1 h
          rcases h with h | ⟨_, _, h⟩
          · exact parseMetas_error n _ _ h
          · cases h

theorem isPacked_eq (m : Meta) : m.getPath.isIdent "packed" = isPacked m := by
  rw [Bool.eq_iff_iff, isIdent_iff]
  simp [isPacked]

theorem checkReprs_error {b : Bool} {ms : List Meta} {e : Err} (h : checkReprs b ms = .error e) :
    ∃ m ∈ ms, isPacked m = true ∧ e = .bail (
      if !b then "#[repr(packed)] attribute should be applied to a struct or union"
      else if m.isNameValue then "#[repr(packed)] attribute should not be name-value pair"
      else "#[pin_project] attribute may not be used on #[repr(packed)] types") := by
  induction ms with
  | nil => cases h
  | cons m ms ih =>
    unfold checkReprs at h
    rw [isPacked_eq] at h
    split at h
    · rename_i hp
      cases h
      exact ⟨m, by simp, hp, rfl⟩
    · obtain ⟨m', h1, h2⟩ := ih h
      exact ⟨m', by simp [h1], h2⟩

theorem checkPacked_error {b : Bool} {attrs : List Attribute} {msg : String}
    (h : checkPacked b attrs = .error (.bail msg)) :
    (¬ ReprsWellFormed attrs ∧ msg ∈ synMessages) ∨
    ∃ a ∈ attrs, ∃ ts ms m, reprArgs a = some ts ∧ MetasToks ms ts ∧ m ∈ ms ∧ isPacked m = true ∧ msg =
      if !b then "#[repr(packed)] attribute should be applied to a struct or union"
      else if m.isNameValue then "#[repr(packed)] attribute should not be name-value pair"
      else "#[pin_project] attribute may not be used on #[repr(packed)] types" := by
  induction attrs with
  | nil => cases h
  | cons a as ih =>
    have next : checkPacked b as = .error (.bail msg) → _ := fun h => (ih h).imp
      (fun ⟨h1, h2⟩ => (⟨fun hw => h1 fun x hx => hw x (List.mem_cons_of_mem _ hx), h2⟩ :
        ¬ ReprsWellFormed (a :: as) ∧ msg ∈ synMessages))
      (fun ⟨x, hx, h⟩ => (⟨x, List.mem_cons_of_mem _ hx, h⟩ :
        ∃ x ∈ a :: as, ∃ ts ms m, reprArgs x = some ts ∧ MetasToks ms ts ∧ m ∈ ms ∧ isPacked m = true ∧ msg =
          if !b then "#[repr(packed)] attribute should be applied to a struct or union"
          else if m.isNameValue then "#[repr(packed)] attribute should not be name-value pair"
          else "#[pin_project] attribute may not be used on #[repr(packed)] types"))
    unfold checkPacked at h
    split at h
    · rename_i p d toks hm
      split at h
      · rename_i hp
        have hr : reprArgs a = some toks := by
          have := isIdent_iff.1 hp
          simp [reprArgs, hm, this]
        replace h := bind_error.1 h
        rcases h with h | ⟨ms, h1, h⟩
        · refine .inl ⟨?_, parseMetas_error _ _ _ h⟩
          intro hw
          obtain ⟨ms, hms⟩ := hw a (by simp) toks hr
          rw [parseMetas_iff.2 hms] at h
          cases h
        · replace h := bind_error.1 h
          rcases h with h | ⟨_, _, h⟩
          · obtain ⟨m, h2, h3, he⟩ := checkReprs_error h
            cases he
            exact .inr ⟨a, by simp, toks, ms, m, hr, parseMetas_iff.1 h1, h2, h3, rfl⟩
          · exact next h
      · exact next h
    · exact next h

theorem positionExactFrom_error : ∀ (attrs : List Attribute) (i : Nat) (prev : Option Nat) (e : Err),
    positionExactFrom "pin" attrs i prev = .error e →
    (e = .bail "duplicate #[pin] attribute" ∧ (if prev.isSome then 1 else 2) ≤ (attrs.filter isPinAttr).length) ∨
    (e = .bail "unexpected token in attribute" ∧ ∃ a ∈ attrs, isPinAttr a = true ∧ ∀ p, a.m ≠ .path p)
  | [], _, _, _, h => by cases h
  | a :: as, i, prev, e, h => by
    unfold positionExactFrom at h
    rw [isPinAttr_eq] at h
    split at h
    · rename_i hp
      split at h
      · rename_i hs
        cases h
        exact .inl ⟨rfl, by simp [hs, hp]⟩
      · rename_i hs
        replace h := bind_error.1 h
        rcases h with h | ⟨_, _, h⟩
        · refine .inr ⟨?_, a, by simp, hp, ?_⟩
          · unfold Meta.requirePathOnly at h
            split at h <;> cases h
            rfl
          · intro p hpath
            rw [hpath] at h
            cases h
        · rcases positionExactFrom_error as _ _ _ h with ⟨h1, h2⟩ | ⟨h1, x, hx, h2⟩
          · refine .inl ⟨h1, ?_⟩
            rw [if_neg hs, List.filter_cons_of_pos hp, List.length_cons]
            simp only [Option.isSome_some, if_true] at h2
            omega
          · exact .inr ⟨h1, x, by simp [hx], h2⟩
    · rename_i hp
      rcases positionExactFrom_error as _ _ _ h with ⟨h1, h2⟩ | ⟨h1, x, hx, h2⟩
      · exact .inl ⟨h1, by rwa [List.filter_cons_of_neg hp]⟩
      · exact .inr ⟨h1, x, by simp [hx], h2⟩

/-- The faults of a list of fields. -/
def FieldFault (fs : List Field) (e : Err) : Prop :=
  ∃ f ∈ fs, (e = .bail "duplicate #[pin] attribute" ∧ 2 ≤ (f.attrs.filter isPinAttr).length) ∨
    (e = .bail "unexpected token in attribute" ∧ ∃ a ∈ f.attrs, isPinAttr a = true ∧ ∀ p, a.m ≠ .path p)

theorem visitFieldsLoop_error (cx : Ctx) : ∀ (fs : List Field) (a : FieldAcc) (i : Nat) (e : Err),
    visitFieldsLoop cx a i fs = .error e → FieldFault fs e
  | [], _, _, _, h => by cases h
  | f :: fs, a, i, e, h => by
    unfold visitFieldsLoop at h
    replace h := bind_error.1 h
    rcases h with h | ⟨a', _, h⟩
    · unfold visitField at h
      replace h := bind_error.1 h
      rcases h with h | ⟨_, _, h⟩
      · refine ⟨f, by simp, ?_⟩
        simpa using positionExactFrom_error _ _ _ _ h
      · split at h <;> cases h
    · obtain ⟨x, hx, h⟩ := visitFieldsLoop_error cx fs _ _ _ h
      exact ⟨x, by simp [hx], h⟩

theorem visitFields_error {cx : Ctx} {v : Option String} {fs : Fields} {d : Delim} {e : Err}
    (h : visitFields cx v fs d = .error e) : FieldFault fs.list e := by
  unfold visitFields at h
  replace h := bind_error.1 h
  rcases h with h | ⟨_, _, h⟩
  · exact visitFieldsLoop_error _ _ _ _ _ h
  · cases h

theorem visitFieldsOf_error {cx : Ctx} {v : Option String} {fs : Fields} {e : Err}
    (h : visitFieldsOf cx v fs = .error e) : FieldFault fs.list e := by
  unfold visitFieldsOf at h
  split at h
  · exact visitFields_error h
  · exact visitFields_error h
  · cases h

theorem visitStructFields_error {cx : Ctx} {fs : Fields} {msg : String}
    (h : visitStructFields cx fs = .error (.bail msg)) : FieldFault fs.list (.bail msg) := by
  unfold visitStructFields at h
  split at h
  · cases h
  · exact visitFieldsOf_error h

theorem visitVariants_error (cx : Ctx) : ∀ (vs : List Variant) (a : ProjectedVariants) (e : Err),
    visitVariants cx a vs = .error e → ∃ v ∈ vs, FieldFault v.fields.list e
  | [], _, _, h => by cases h
  | v :: vs, a, e, h => by
    unfold visitVariants at h
    replace h := bind_error.1 h
    rcases h with h | ⟨_, _, h⟩
    · exact ⟨v, by simp, visitFieldsOf_error h⟩
    · obtain ⟨x, hx, h⟩ := visitVariants_error cx vs _ _ h
      exact ⟨x, by simp [hx], h⟩

theorem enumHasField_error : ∀ (vs : List Variant) (b : Bool) (e : Err), enumHasField vs b = .error e →
    ∃ v ∈ vs, (v.discriminant.isSome = true ∧
        e = .bail "#[pin_project] attribute may not be used on enums with discriminants") ∨
      ((∃ a ∈ v.attrs, isPinAttr a = true) ∧
        e = .bail "#[pin] attribute may only be used on fields of structs or variants")
  | [], _, _, h => by cases h
  | v :: vs, b, e, h => by
    unfold enumHasField at h
    have next : ∀ b, enumHasField vs b = .error e → _ := fun b h =>
      (enumHasField_error vs b e h).imp fun x hx => And.imp_left (List.mem_cons_of_mem v) hx
    split at h
    · rename_i hd
      cases h
      exact ⟨v, by simp, .inl ⟨hd, rfl⟩⟩
    · split at h
      · rename_i hp
        cases h
        obtain ⟨a, ha⟩ := Option.isSome_iff_exists.1 hp
        exact ⟨v, by simp, .inr ⟨⟨a, (find_mem ha).1, isPinAttr_eq a ▸ (find_mem ha).2⟩, rfl⟩⟩
      · split at h
        · exact next _ h
        · exact next _ h

theorem enumHasField_false : ∀ (vs : List Variant) (b : Bool), enumHasField vs b = .ok false →
    b = false ∧ ∀ v ∈ vs, v.fields.list = []
  | [], b, h => by cases h; simp
  | v :: vs, b, h => by
    unfold enumHasField at h
    split at h
    · cases h
    · split at h
      · cases h
      · split at h
        · rename_i he
          obtain ⟨h1, h2⟩ := enumHasField_false vs _ h
          refine ⟨h1, ?_⟩
          intro x hx
          rcases List.mem_cons.1 hx with rfl | hx
          · simpa using he
          · exact h2 x hx
        · exact absurd (enumHasField_false vs _ h).1 (by simp)

theorem fieldFault {item : Item} {fs : List Field} {msg : String} (h : FieldFault fs (.bail msg))
    (hsub : ∀ f ∈ fs, ∃ f' ∈ itemFields item, f'.attrs = f.attrs) : DeriveFault item msg := by
  obtain ⟨f, hf, h⟩ := h
  obtain ⟨f', hf', he⟩ := hsub f hf
  rcases h with ⟨h1, h2⟩ | ⟨h1, a, ha, h2, h3⟩
  · cases h1
    exact .fieldPinTwice hf' (he ▸ h2)
  · cases h1
    exact .fieldPinArgs hf' (he ▸ ha) h2 h3

theorem deriveStruct_error {s : ItemStruct} {msg : String} (h : deriveStruct s = .error (.bail msg)) :
    DeriveFault (.struct_ s) msg := by
  unfold deriveStruct at h
  dsimp only at h
  replace h := bind_error.1 h
  rcases h with h | ⟨cx, hcx, h⟩
  · exact ctxNew_error (item := .struct_ s) rfl h
  obtain ⟨A, hA, hn, rfl⟩ := (ctxNew_iff _ _ _ _ _ _).1 hcx
  replace h := bind_error.1 h
  rcases h with h | ⟨_, _, h⟩
  · unfold parseStruct at h
    replace h := bind_error.1 h
    rcases h with h | ⟨_, _, h⟩
    · unfold ensureNotPacked at h
      replace h := bind_error.1 h
      rcases h with h | ⟨_, _, h⟩
      · rcases checkPacked_error h with ⟨h1, h2⟩ | ⟨a, ha, ts, ms, m, h1, h2, h3, h4, rfl⟩
        · exact .reprSyntax h1 h2
        · simp only [Option.isSome_some, Bool.not_true, Bool.false_eq_true, if_false]
          split
          · rename_i hv
            cases m with
            | nameValue p v =>
              have : p = { leading := false, segs := ["packed"] } := by simpa [isPacked, Meta.getPath] using h4
              subst this
              exact .packedValue rfl ha h1 h2 h3
            | _ => cases hv
          · exact .packed rfl ⟨a, ha, ts, ms, h1, h2, m, h3, h4⟩
      · cases h
    · replace h := bind_error.1 h
      rcases h with h | ⟨_, _, h⟩
      · unfold validateStruct at h
        split at h
        · rename_i he
          cases h
          refine .noFields rfl ?_
          have : (s.fields.visit (mkSelfTy s.ident s.generics.tyGenerics)).list = [] :=
            List.isEmpty_iff.1 he
          rw [visit_fields_list] at this
          simpa using this
        · cases h
      · replace h := bind_error.1 h
        rcases h with h | ⟨_, _, h⟩
        · refine fieldFault (visitStructFields_error h) ?_
          intro f hf
          have hf : f ∈ (s.fields.visit (mkSelfTy s.ident s.generics.tyGenerics)).list := hf
          rw [visit_fields_list, List.mem_map] at hf
          obtain ⟨f', hf', rfl⟩ := hf
          exact ⟨f', hf', rfl⟩
        · cases h
  · cases h

theorem deriveEnum_error {s : ItemEnum} {msg : String} (h : deriveEnum s = .error (.bail msg)) :
    DeriveFault (.enum_ s) msg := by
  unfold deriveEnum at h
  dsimp only at h
  replace h := bind_error.1 h
  rcases h with h | ⟨cx, hcx, h⟩
  · exact ctxNew_error (item := .enum_ s) rfl h
  obtain ⟨A, hA, hn, rfl⟩ := (ctxNew_iff _ _ _ _ _ _).1 hcx
  replace h := bind_error.1 h
  rcases h with h | ⟨_, _, h⟩
  · unfold parseEnum at h
    split at h
    · rename_i hu
      cases h
      obtain ⟨a, p, d, ts, h2, h3, h4⟩ := parseArgs_ok_shape hA
      obtain ⟨as, h5, _, rfl⟩ := parse_ok_iff.1 h4
      refine .replaceUnnamed rfl h2 h3 h5 ?_
      have hu : (config as).projectReplace = .unnamed := hu
      rcases config_replace_cases as with h1 | ⟨_, h1⟩ | ⟨m, h1, _⟩
      · rw [h1] at hu; cases hu
      · exact h1
      · rw [h1] at hu; cases hu
    replace h := bind_error.1 h
    rcases h with h | ⟨_, _, h⟩
    · unfold ensureNotPacked at h
      replace h := bind_error.1 h
      rcases h with h | ⟨_, _, h⟩
      · rcases checkPacked_error h with ⟨h1, h2⟩ | ⟨a, ha, ts, ms, m, h1, h2, h3, h4, rfl⟩
        · exact .reprSyntax h1 h2
        · exact .packedEnum rfl ⟨a, ha, ts, ms, h1, h2, m, h3, h4⟩
      · cases h
    · replace h := bind_error.1 h
      rcases h with h | ⟨_, _, h⟩
      · unfold validateEnum at h
        split at h
        · rename_i he
          cases h
          refine .noVariants rfl ?_
          have : s.variants.map (Variant.visit (mkSelfTy s.ident s.generics.tyGenerics)) = [] :=
            List.isEmpty_iff.1 he
          simpa using this
        · replace h := bind_error.1 h
          rcases h with h | ⟨b, hb, h⟩
          · replace h := enumHasField_error _ _ _ h
            obtain ⟨v, hv, h⟩ := h
            replace hv : v ∈ s.variants.map (Variant.visit (mkSelfTy s.ident s.generics.tyGenerics)) := hv
            rw [List.mem_map] at hv
            obtain ⟨v, hv, rfl⟩ := hv
            rcases h with ⟨h, he⟩ | ⟨⟨a, ha, h⟩, he⟩
            · cases he
              obtain ⟨n, hn⟩ := Option.isSome_iff_exists.1 (show v.discriminant.isSome = true by
                simpa [Variant.visit] using h)
              exact .discriminant rfl hv hn
            · cases he
              exact .pinOnVariant rfl hv ha h
          · split at h
            · cases h
            · rename_i hb'
              cases h
              have hb' : b = false := by simpa using hb'
              subst hb'
              refine .noVariantFields rfl ?_
              intro v hv
              have := (enumHasField_false _ _ hb).2 (v.visit (mkSelfTy s.ident s.generics.tyGenerics))
                (List.mem_map.2 ⟨v, hv, rfl⟩)
              have : (v.fields.visit (mkSelfTy s.ident s.generics.tyGenerics)).list = [] := this
              rw [visit_fields_list] at this
              simpa using this
      · replace h := bind_error.1 h
        rcases h with h | ⟨_, _, h⟩
        · replace h := visitVariants_error _ _ _ _ h
          obtain ⟨v, hv, h⟩ := h
          replace hv : v ∈ s.variants.map (Variant.visit (mkSelfTy s.ident s.generics.tyGenerics)) := hv
          rw [List.mem_map] at hv
          obtain ⟨v, hv, rfl⟩ := hv
          refine fieldFault h ?_
          intro f hf
          have hf : f ∈ (v.fields.visit (mkSelfTy s.ident s.generics.tyGenerics)).list := hf
          rw [visit_fields_list, List.mem_map] at hf
          obtain ⟨f', hf', rfl⟩ := hf
          exact ⟨f', List.mem_flatMap.2 ⟨v, hv, hf'⟩, rfl⟩
        · cases h
  · cases h

/-- If the derive stage rejects an item with a message, then the message describes a fault of the
item. (When it panics instead is the subject of C47.) -/
theorem C70_derive (item : Item) (msg : String) (h : parseDerive item = .error (.bail msg)) :
    DeriveFault item msg := by
  cases item with
  | struct_ s => exact deriveStruct_error h
  | enum_ e => exact deriveEnum_error h
  | other a => cases h; exact .notType rfl

/-- `#[pin_project] struct S { #[pin] #[pin] f: T }` -/
example : parseDerive (.struct_
    { attrs := [carriedArgs []]
      vis := .inherited, ident := "S", generics := {}
      fields := .named [{ attrs := [⟨.path { segs := ["pin"] }⟩, ⟨.path { segs := ["pin"] }⟩]
                          ident := some "f", ty := .tyIdent "T" }] }) =
    .error (.bail "duplicate #[pin] attribute") := rfl

/-- `#[pin_project(project_replace)] #[repr(packed)] enum E { V(T) }`: the first fault is reported. -/
example : parseDerive (.enum_
    { attrs := [carriedArgs [.ident "project_replace"], ⟨.list { segs := ["repr"] } .paren [.ident "packed"]⟩]
      vis := .inherited, ident := "E", generics := {}
      variants := [{ ident := "V", fields := .unnamed [{ ident := none, ty := .tyIdent "T" }] }] }) =
    .error (.bail "`project_replace` argument requires a value when used on enums") := rfl

/-- `#[pin_project] enum E { A, B }` -/
example : parseDerive (.enum_
    { attrs := [carriedArgs []]
      vis := .inherited, ident := "E", generics := {}
      variants := [{ ident := "A", fields := .unit }, { ident := "B", fields := .unit }] }) =
    .error (.bail "#[pin_project] attribute may not be used on enums with zero fields") := rfl

/-! ## `#[pinned_drop]` -/

theorem validateSig_error {sig : Signature} {msg : String} (h : validateSig sig = .error (.bail msg)) :
    SigFault sig msg := by
  unfold validateSig at h
  simp only at h
  split at h
  · rename_i hn
    cases h
    exact .name hn
  rename_i hn
  have hn : sig.ident = "drop" := by simpa using hn
  split at h
  · rename_i ho
    cases h
    refine .output hn ?_
    rw [← outputIsUnit_iff]
    simpa using ho
  split at h
  · rename_i b sh ty hi
    split at h
    · split at h
      · rename_i hu
        cases h
        exact .unsafe_ hn hu
      · cases h
    · rename_i hp
      cases h
      refine .receiver hn ?_
      rintro ⟨b', sh', ty', h1, h2⟩
      rw [hi] at h1
      simp only [List.cons.injEq, FnArg.receiver.injEq, and_true] at h1
      obtain ⟨_, _, rfl⟩ := h1
      exact hp ((isPinMutSelf_iff _).2 h2)
  · rename_i hi
    cases h
    refine .receiver hn ?_
    rintro ⟨b', sh', ty', h1, h2⟩
    exact hi _ _ _ h1

theorem validateItems_error (args : List TT) (item : ItemImpl) : ∀ (its done : List ImplItem) (msg : String),
    item.items = done ++ its → (∀ it ∈ done, ∃ m, it = .fn m ∧ m.sig.ident = "drop") →
    validateItems done.length its = .error (.bail msg) → PinnedDropFault args item msg
  | [], _, _, _, _, h => by cases h
  | it :: its, done, msg, hi, hd, h => by
    have hmem : it ∈ item.items := by rw [hi]; simp
    unfold validateItems at h
    cases it with
    | const n => cases h; exact .const hmem
    | type n => cases h; exact .type hmem
    | other => cases h
    | fn m =>
      dsimp only at h
      replace h := bind_error.1 h
      rcases h with h | ⟨_, h1, h⟩
      · exact .sig hmem (validateSig_error h)
      have hdrop := ((validateSig_iff _).1 h1).name
      split at h
      · refine validateItems_error args item its (done ++ [.fn m]) msg (by simpa using hi) ?_ (by simpa using h)
        intro it hit
        rcases List.mem_append.1 hit with hit | hit
        · exact hd it hit
        · rw [List.mem_singleton] at hit
          exact ⟨m, hit, hdrop⟩
      · rename_i hl
        cases h
        cases done with
        | nil => exact absurd rfl hl
        | cons x done =>
          obtain ⟨m', rfl, hm'⟩ := hd x (by simp)
          exact .dropTwice (front := []) (mid := done) (by simpa using hi) hm' hdrop

theorem traitIsPinnedDrop_iff (t : Option (Bool × Path)) : traitIsPinnedDrop t = true ↔
    ∃ negative, t = some (negative, .mk false [.mk "PinnedDrop" .none]) := by
  cases t with
  | none => simp [traitIsPinnedDrop]
  | some x =>
    obtain ⟨b, p⟩ := x
    simp [traitIsPinnedDrop, pathIsIdent_iff]

theorem validateImpl_error (args : List TT) {item : ItemImpl} {msg : String}
    (h : validateImpl item = .error (.bail msg)) : PinnedDropFault args item msg := by
  unfold validateImpl at h
  simp only at h
  split at h
  · rename_i hp
    cases h
    obtain ⟨a, ha⟩ := Option.isSome_iff_exists.1 hp
    exact .twice (find_mem ha).1 (find_mem ha).2
  split at h
  · rename_i ht
    cases h
    refine .trait_ ?_
    rw [← traitIsPinnedDrop_iff]
    simpa using ht
  split at h
  · rename_i hu
    cases h
    exact .unsafe_ hu
  split at h
  · rename_i hi
    cases h
    exact .noItems (List.isEmpty_iff.1 hi)
  split at h
  · rename_i ht
    cases h
    refine .selfTy ?_
    rw [← isTyPath_iff]
    simpa using ht
  exact validateItems_error args item _ [] _ rfl (by simp) h

/-- If `#[pinned_drop]` rejects an impl with a message, then the message describes a fault of the
impl. (When it panics instead is the subject of C36.) -/
theorem C70_pinned_drop (args : List TT) (item : ItemImpl) (msg : String) (dummy : Option DummyImpl)
    (h : pinnedDropAttribute args item = .compileError msg dummy) : PinnedDropFault args item msg := by
  unfold pinnedDropAttribute at h
  simp only at h
  split at h
  · cases h
  · cases h
  · rename_i m hm
    have e : m = msg := by injection h
    subst e
    split at hm
    · rename_i ha
      cases hm
      exact .args (by simpa using ha)
    · replace hm := bind_error.1 hm
      rcases hm with hm | ⟨_, h1, hm⟩
      · exact validateImpl_error args hm
      · obtain ⟨neg, m', hc⟩ := (validateImpl_iff item).1 h1
        obtain ⟨q, p, hty⟩ := hc.pathType
        obtain ⟨b, sh, ty, hr, -⟩ := hc.drop.receiver
        simp only [expandImpl, hc.pinnedDrop, hc.onlyDrop, hr, hty] at hm
        split at hm <;> cases hm

/-- The impl of the demonstration, written twice `fn drop`. -/
example : ∃ d, pinnedDropAttribute [] { demoImpl with items := demoImpl.items ++ demoImpl.items } =
    .compileError "duplicate definitions with name `drop`" d := ⟨_, rfl⟩

/-- `unsafe impl PinnedDrop for ..` -/
example : ∃ d, pinnedDropAttribute [] { demoImpl with isUnsafe := true } =
    .compileError "implementing the trait `PinnedDrop` is not unsafe" d := ⟨_, rfl⟩

end PinProject

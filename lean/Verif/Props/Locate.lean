import Verif.Props.LocateArgs
/-!
# C80: errors are shown at the offending code
-/
namespace PinProject.Locate
open Spec

/-! ## Attributes and their positions -/

theorem firstAttr_zero {a : Attribute} {as : List Attribute} {p : Attribute → Bool} (h : p a = true) :
    FirstAttr (a :: as) p 0 := ⟨⟨a, rfl, h⟩, fun j hj => absurd hj (Nat.not_lt_zero j)⟩

theorem firstAttr_succ {a : Attribute} {as : List Attribute} {p : Attribute → Bool} {i : Nat} (h : p a = false)
    (hi : FirstAttr as p i) : FirstAttr (a :: as) p (i + 1) := by
  obtain ⟨⟨x, hx, hp⟩, hj⟩ := hi
  refine ⟨⟨x, by simpa using hx, hp⟩, ?_⟩
  intro j hlt y hy
  cases j with
  | zero => simp at hy; subst hy; exact h
  | succ j => exact hj j (by omega) y (by simpa using hy)

theorem secondAttr_zero {a : Attribute} {as : List Attribute} {p : Attribute → Bool} {j : Nat} (h : p a = true)
    (hj : FirstAttr as p j) : SecondAttr (a :: as) p 0 (j + 1) := by
  obtain ⟨⟨x, hx, hp⟩, hk⟩ := hj
  refine ⟨firstAttr_zero h, by omega, ⟨x, by simpa using hx, hp⟩, ?_⟩
  intro k h1 h2 y hy
  cases k with
  | zero => omega
  | succ k => exact hk k (by omega) y (by simpa using hy)

theorem secondAttr_succ {a : Attribute} {as : List Attribute} {p : Attribute → Bool} {i j : Nat} (h : p a = false)
    (hj : SecondAttr as p i j) : SecondAttr (a :: as) p (i + 1) (j + 1) := by
  obtain ⟨h1, h2, ⟨x, hx, hp⟩, hk⟩ := hj
  refine ⟨firstAttr_succ h h1, by omega, ⟨x, by simpa using hx, hp⟩, ?_⟩
  intro k h3 h4 y hy
  cases k with
  | zero => omega
  | succ k => exact hk k (by omega) (by omega) y (by simpa using hy)

theorem findAttr_first {s : String} : ∀ {attrs : List Attribute} {i : Nat}, findAttr attrs s = some i →
    FirstAttr attrs (fun a => a.path.isIdent s) i
  | [], i, h => by cases h
  | a :: as, i, h => by
    unfold findAttr at h
    rw [List.findIdx?_cons] at h
    cases hp : a.path.isIdent s with
    | true => simp [hp] at h; subst h; exact firstAttr_zero hp
    | false =>
      simp only [hp, Bool.false_eq_true, if_false, Option.map_eq_some_iff] at h
      obtain ⟨j, hj, rfl⟩ := h
      exact firstAttr_succ hp (findAttr_first hj)

theorem pin_eq : (fun a : Attribute => a.path.isIdent "pin") = isPinAttr := funext isPinAttr_eq

theorem pinProject_eq : (fun a : Attribute => a.path.isIdent "pin_project") = isPinProjectAttr :=
  funext isPinProjectAttr_eq

/-- The first two `#[pin..]` attributes. -/
theorem pinAttrs_cons : ∀ (attrs : List Attribute) (n i : Nat) (a : Attribute) (more : List (Nat × Attribute)),
    pinAttrs n attrs = (i, a) :: more → ∃ k, i = n + k ∧ FirstAttr attrs isPinAttr k ∧ attrs[k]? = some a ∧
      isPinAttr a = true ∧
      ∀ j b rest, more = (j, b) :: rest → ∃ m, j = n + m ∧ SecondAttr attrs isPinAttr k m ∧ attrs[m]? = some b ∧
        isPinAttr b = true
  | [], n, i, a, more, h => by cases h
  | x :: as, n, i, a, more, h => by
    unfold pinAttrs at h
    rw [isPinAttr_eq] at h
    cases hp : isPinAttr x with
    | true =>
      rw [if_pos hp] at h
      cases h
      refine ⟨0, rfl, firstAttr_zero hp, rfl, hp, ?_⟩
      intro j b rest hr
      obtain ⟨k, h1, h2, h3, h4, _⟩ := pinAttrs_cons as _ _ _ _ hr
      exact ⟨k + 1, by omega, secondAttr_zero hp h2, by simpa using h3, h4⟩
    | false =>
      rw [if_neg (by simp [hp])] at h
      obtain ⟨k, h1, h2, h3, h4, h5⟩ := pinAttrs_cons as _ _ _ _ h
      refine ⟨k + 1, by omega, firstAttr_succ hp h2, by simpa using h3, h4, ?_⟩
      intro j b rest hr
      obtain ⟨m, h6, h7, h8, h9⟩ := h5 j b rest hr
      exact ⟨m + 1, by omega, secondAttr_succ hp h7, by simpa using h8, h9⟩

theorem atPlace_error {σ α : Type} {s s' : Shown σ} {x : Res α} {m : String}
    (h : atPlace s x = .error (.bail m s')) : x = .error (.bail m) ∧ s' = s := by
  cases x with
  | ok a => cases h
  | error e => cases e <;> cases h; exact ⟨rfl, rfl⟩

theorem atPlace_ok {σ α : Type} {s : Shown σ} {x : Res α} {a : α} (h : atPlace s x = .ok a) : x = .ok a := by
  cases x with
  | ok b => cases h; rfl
  | error e => cases e <;> cases h

/-! ## The attribute stage -/

theorem parseInput_lerror {i : RawInput} {msg : String} {s : Shown RawPlace}
    (h : parseInput i = .error (.bail msg s)) : AttributeShown i msg s := by
  unfold parseInput at h
  replace h := lbind_error.1 h
  rcases h with h | ⟨ahead, h1, h⟩
  · replace h := atPlace_error h
    obtain ⟨h, rfl⟩ := h
    obtain ⟨ts, more, h1, h2, h3⟩ := skipVis_error h
    refine .badVis h1 h2 ?_
    rcases h3 with h3 | h3 <;> cases h3 <;> simp
  · replace h1 := atPlace_ok h1
    split at h
    · rename_i hp
      cases h
      split
      · rename_i he
        exact .nothing (by simpa using he)
      · rename_i he
        refine .notType ?_ (by simpa using he)
        intro hs
        obtain ⟨rest, h2, h3⟩ := (skipVis_iff _).2 hs
        rw [h1] at h2
        cases h2
        rw [(peek_iff _).2 h3] at hp
        cases hp
    · split at h
      · rename_i j hj
        cases h
        exact .pin (pin_eq ▸ findAttr_first hj)
      · split at h
        · rename_i j hj
          cases h
          exact .twice (pinProject_eq ▸ findAttr_first hj)
        · cases h

/-- When the attribute stage rejects an item, the message is shown at the attribute it is about, or at the item. -/
theorem C80_attribute (args : List TT) (i : RawInput) (msg : String)
    (h : PinProject.parseAttribute args i = .error (.bail msg)) :
    ∃ s, parseAttribute args i = .error (.bail msg s) ∧ AttributeShown i msg s := by
  rw [← parseAttribute_erase] at h
  cases e : parseAttribute args i with
  | ok A => rw [e] at h; cases h
  | error x =>
    rw [e] at h
    cases x with
    | panic m => cases h
    | bail m s =>
      cases h
      refine ⟨s, rfl, ?_⟩
      unfold parseAttribute at e
      rcases lbind_error.1 e with e | ⟨_, _, e⟩
      · exact parseInput_lerror e
      · cases e

/-- `#[pin_project] #[doc] #[pin_project] struct S(T);`: the second `#[pin_project]`. -/
example : parseAttribute [] { attrs := [⟨.path { segs := ["doc"] }⟩, ⟨.path { segs := ["pin_project"] }⟩]
                              body := [.ident "struct", .ident "S", .group .paren [.ident "T"], .punct ';' false] } =
    .error (.bail "duplicate #[pin_project] attribute" (.one (.attr 1))) := rfl

/-! ## The derive stage -/

theorem carriedArgs_of {a : Attribute} {ts : List TT} {prev : List TT} (h1 : a.m.requireList = .ok ts)
    (h2 : parsePrivate ts = .ok (some prev)) : CarriedArgs a prev := by
  obtain ⟨p, d, hm⟩ := requireList_ok.1 h1
  exact ⟨p, d, by rw [hm, parsePrivate_some h2]⟩

theorem not_carriedArgs {a : Attribute} {ts : List TT} (h1 : a.m.requireList = .ok ts)
    (h2 : ∀ args, parsePrivate ts ≠ .ok (some args)) (args : List TT) : ¬ CarriedArgs a args := by
  rintro ⟨p, d, hm⟩
  rw [hm] at h1
  cases h1
  exact h2 args rfl

theorem parseArgs_lok {attrs : List Attribute} {A : Args Place} (h : parseArgs attrs = .ok A) :
    ∃ a ts, attrs.filter isPinAttr = [a] ∧ CarriedArgs a ts ∧ Args.parse (numbered ts) = .ok A := by
  unfold parseArgs at h
  split at h
  · cases h
  split at h
  · cases h
  rename_i i a more hf
  rw [lbind_ok] at h
  obtain ⟨ts, h1, h⟩ := h
  rw [lbind_ok] at h
  obtain ⟨prev, h2, h⟩ := h
  replace h1 := atPlace_ok h1
  replace h2 := atPlace_ok h2
  split at h
  · simp only [lbind_ok] at h
    obtain ⟨_, _, _, _, h⟩ := h
    cases h
  split at h
  · rename_i toks
    refine ⟨a, toks, ?_, carriedArgs_of h1 h2, h⟩
    rw [← pin_eq, ← pinAttrs_snd attrs 0, hf]
    rfl
  · cases h

theorem parseArgs_lerror {item : Item} {msg : String} {s : Shown Place}
    (h : parseArgs (itemAttrs item) = .error (.bail msg s)) : DeriveShown item msg s := by
  unfold parseArgs at h
  split at h
  · rename_i i hi
    cases h
    exact .twice (pinProject_eq ▸ findAttr_first hi)
  split at h
  · rename_i hf
    cases h
    refine .removed ?_
    have := pinAttrs_snd (itemAttrs item) 0
    rw [hf, pin_eq] at this
    intro a ha
    have := List.filter_eq_nil_iff.1 this.symm a ha
    simpa using this
  rename_i i a more hf
  obtain ⟨k, hk, hfirst, hget, hpin, hmore⟩ := pinAttrs_cons _ _ _ _ _ hf
  simp only [Nat.zero_add] at hk
  subst hk
  replace h := lbind_error.1 h
  rcases h with h | ⟨ts, h1, h⟩
  · replace h := atPlace_error h
    obtain ⟨h, rfl⟩ := h
    obtain ⟨he, hl⟩ := requireList_error h
    cases he
    exact .noList hget hpin hl
  replace h1 := atPlace_ok h1
  replace h := lbind_error.1 h
  rcases h with h | ⟨prev, h2, h⟩
  · replace h := atPlace_error h
    obtain ⟨h, rfl⟩ := h
    have he := (parsePrivate_error h).1
    cases he
    exact .notOurs hget hpin (not_carriedArgs h1 (by rw [h]; simp))
  replace h2 := atPlace_ok h2
  split at h
  · rename_i j b rest
    obtain ⟨m, hm, hsecond, hgetb, hpinb⟩ := hmore j b rest rfl
    simp only [Nat.zero_add] at hm
    subst hm
    replace h := lbind_error.1 h
    rcases h with h | ⟨us, h3, h⟩
    · replace h := atPlace_error h
      obtain ⟨h, rfl⟩ := h
      obtain ⟨he, hl⟩ := requireList_error h
      cases he
      exact .noList hgetb hpinb hl
    replace h3 := atPlace_ok h3
    replace h := lbind_error.1 h
    rcases h with h | ⟨_, _, h⟩
    · replace h := atPlace_error h
      obtain ⟨h, rfl⟩ := h
      have he := (parsePrivate_error h).1
      cases he
      exact .notOurs hgetb hpinb (not_carriedArgs h3 (by rw [h]; simp))
    cases h
    cases prev with
    | some args => exact .pinAfter hsecond hget (carriedArgs_of h1 h2)
    | none => exact .pinBefore hsecond hget (not_carriedArgs h1 (by rw [h2]; simp))
  · split at h
    · rename_i toks
      refine .args ?_ (carriedArgs_of h1 h2) (argsParse_lerror h)
      rw [← pin_eq, ← pinAttrs_snd _ 0, hf]
      rfl
    · cases h

theorem checkContext_lerror {item : Item} {ident : String} {msg : String} {s : Shown Place}
    (hn : itemName item = some ident)
    (h : checkContext (itemAttrs item) ident = .error (.bail msg s)) : DeriveShown item msg s := by
  unfold checkContext at h
  replace h := lbind_error.1 h
  rcases h with h | ⟨A, h1, h⟩
  · exact parseArgs_lerror h
  replace h := lbind_error.1 h
  rcases h with h | ⟨_, _, h⟩
  · unfold checkOwnName at h
    split at h
    · rename_i v hv
      cases h
      obtain ⟨a, ts, h2, h3, h4⟩ := parseArgs_lok h1
      obtain ⟨as, h5, h6, _⟩ := argsParse_lok h4
      obtain ⟨x, us, h7, h8, h9⟩ := h6 v (List.mem_of_find?_eq_some hv)
      have e : v.1 = ident := by simpa using List.find?_some hv
      exact .ownName h2 h3 h5 h7 h8 (e ▸ hn) h9
    · cases h
  · cases h

theorem checkReprs_lerror {b : Bool} {i : Nat} : ∀ {ms : List Meta} {j : Nat} {msg : String} {s : Shown Place},
    checkReprs b i j ms = .error (.bail msg s) →
    ∃ k m, ms[k]? = some m ∧ isPacked m = true ∧ s = .one (.repr i (j + k)) ∧ msg = (
      if !b then "#[repr(packed)] attribute should be applied to a struct or union"
      else if m.isNameValue then "#[repr(packed)] attribute should not be name-value pair"
      else "#[pin_project] attribute may not be used on #[repr(packed)] types")
  | [], j, msg, s, h => by cases h
  | m :: ms, j, msg, s, h => by
    unfold checkReprs at h
    rw [isPacked_eq] at h
    split at h
    · rename_i hp
      cases h
      exact ⟨0, m, rfl, hp, rfl, rfl⟩
    · obtain ⟨k, m', h1, h2, h3, h4⟩ := checkReprs_lerror h
      exact ⟨k + 1, m', by simpa using h1, h2, by rw [h3]; congr 2 <;> omega, h4⟩

theorem checkPacked_lerror {b : Bool} : ∀ {attrs : List Attribute} {i : Nat} {msg : String} {s : Shown Place},
    checkPacked b i attrs = .error (.bail msg s) →
    ∃ k a ts, attrs[k]? = some a ∧ reprArgs a = some ts ∧
      (((¬ ∃ ms, MetasToks ms ts) ∧ msg ∈ synMessages ∧ s = .one (.inAttr (i + k))) ∨
      ∃ ms j m, MetasToks ms ts ∧ ms[j]? = some m ∧ isPacked m = true ∧ s = .one (.repr (i + k) j) ∧ msg = (
        if !b then "#[repr(packed)] attribute should be applied to a struct or union"
        else if m.isNameValue then "#[repr(packed)] attribute should not be name-value pair"
        else "#[pin_project] attribute may not be used on #[repr(packed)] types"))
  | [], i, msg, s, h => by cases h
  | a :: as, i, msg, s, h => by
    have next : checkPacked b (i + 1) as = .error (.bail msg s) →
        ∃ k x ts, (a :: as)[k]? = some x ∧ reprArgs x = some ts ∧
          (((¬ ∃ ms, MetasToks ms ts) ∧ msg ∈ synMessages ∧ s = .one (.inAttr (i + k))) ∨
          ∃ ms j m, MetasToks ms ts ∧ ms[j]? = some m ∧ isPacked m = true ∧ s = .one (.repr (i + k) j) ∧ msg = (
            if !b then "#[repr(packed)] attribute should be applied to a struct or union"
            else if m.isNameValue then "#[repr(packed)] attribute should not be name-value pair"
            else "#[pin_project] attribute may not be used on #[repr(packed)] types")) := fun h => by
      obtain ⟨k, x, ts, h1, h2, h3⟩ := checkPacked_lerror h
      exact ⟨k + 1, x, ts, by simpa using h1, h2, by rw [show i + (k + 1) = i + 1 + k by omega]; exact h3⟩
    unfold checkPacked at h
    split at h
    · rename_i p d toks hm
      split at h
      · rename_i hp
        have hr : reprArgs a = some toks := by
          have := isIdent_iff.1 hp
          simp [reprArgs, hm, this]
        replace h := lbind_error.1 h
        rcases h with h | ⟨ms, h1, h⟩
        · replace h := atPlace_error h
          obtain ⟨h, rfl⟩ := h
          refine ⟨0, a, toks, rfl, hr, .inl ⟨?_, parseMetas_error _ _ _ h, rfl⟩⟩
          rintro ⟨ms, hms⟩
          rw [parseMetas_iff.2 hms] at h
          cases h
        · replace h1 := atPlace_ok h1
          replace h := lbind_error.1 h
          rcases h with h | ⟨_, _, h⟩
          · obtain ⟨j, m, h2, h3, h4, h5⟩ := checkReprs_lerror h
            exact ⟨0, a, toks, rfl, hr, .inr ⟨ms, j, m, parseMetas_iff.1 h1, h2, h3, by rw [h4]; simp, h5⟩⟩
          · exact next h
      · exact next h
    · exact next h

theorem positionExactFrom_lerror {v : Option Nat} {f : Nat} : ∀ (attrs : List Attribute) (i : Nat)
    (prev : Option Nat) (msg : String) (s : Shown Place),
    positionExactFrom v f "pin" attrs i prev = .error (.bail msg s) →
    ∃ k, (msg = "duplicate #[pin] attribute" ∧ s = .one (.fieldAttr v f (i + k)) ∧
        (prev.isSome = true → FirstAttr attrs isPinAttr k) ∧
        (prev.isSome = false → ∃ k0, SecondAttr attrs isPinAttr k0 k)) ∨
      (msg = "unexpected token in attribute" ∧ s = .one (.inFieldAttr v f (i + k)) ∧
        ∃ a, attrs[k]? = some a ∧ isPinAttr a = true ∧ ∀ p, a.m ≠ .path p)
  | [], _, _, _, _, h => by cases h
  | a :: as, i, prev, msg, s, h => by
    unfold positionExactFrom at h
    rw [isPinAttr_eq] at h
    split at h
    · rename_i hp
      split at h
      · rename_i hs
        cases h
        exact ⟨0, .inl ⟨rfl, rfl, fun _ => firstAttr_zero hp, fun hn => by rw [hs] at hn; cases hn⟩⟩
      · rename_i hs
        replace h := lbind_error.1 h
        rcases h with h | ⟨_, _, h⟩
        · replace h := atPlace_error h
          obtain ⟨h, rfl⟩ := h
          refine ⟨0, .inr ⟨?_, rfl, a, rfl, hp, ?_⟩⟩
          · unfold Meta.requirePathOnly at h
            split at h <;> cases h
            rfl
          · intro p hpath
            rw [hpath] at h
            cases h
        · obtain ⟨k, ⟨h1, h2, h3, _⟩ | ⟨h1, h2, x, hx, h3⟩⟩ := positionExactFrom_lerror as _ _ _ _ h
          · exact ⟨k + 1, .inl ⟨h1, by rw [h2]; congr 2 <;> omega, fun hn => absurd hn hs,
              fun _ => ⟨0, secondAttr_zero hp (h3 rfl)⟩⟩⟩
          · exact ⟨k + 1, .inr ⟨h1, by rw [h2]; congr 2 <;> omega, x, by simpa using hx, h3⟩⟩
    · rename_i hp
      have hp : isPinAttr a = false := by simpa using hp
      obtain ⟨k, ⟨h1, h2, h3, h4⟩ | ⟨h1, h2, x, hx, h3⟩⟩ := positionExactFrom_lerror as _ _ _ _ h
      · exact ⟨k + 1, .inl ⟨h1, by rw [h2]; congr 2 <;> omega, fun hs => firstAttr_succ hp (h3 hs), fun hs =>
          (h4 hs).elim fun k0 h => ⟨k0 + 1, secondAttr_succ hp h⟩⟩⟩
      · exact ⟨k + 1, .inr ⟨h1, by rw [h2]; congr 2 <;> omega, x, by simpa using hx, h3⟩⟩

theorem checkFields_lerror {item : Item} {v : Option Nat} : ∀ (fs done : List Field) (msg : String) (s : Shown Place),
    fieldsOf item v = done ++ fs → checkFields v done.length fs = .error (.bail msg s) → DeriveShown item msg s
  | [], _, _, _, _, h => by cases h
  | f :: fs, done, msg, s, hf, h => by
    have hget : (fieldsOf item v)[done.length]? = some f := by rw [hf]; simp
    unfold checkFields at h
    replace h := lbind_error.1 h
    rcases h with h | ⟨_, _, h⟩
    · obtain ⟨k, ⟨rfl, rfl, _, h4⟩ | ⟨rfl, rfl, a, ha, h5, h6⟩⟩ := positionExactFrom_lerror _ _ _ _ _ h
      · obtain ⟨k0, h4⟩ := h4 rfl
        rw [Nat.zero_add]
        exact .fieldPinTwice hget h4
      · rw [Nat.zero_add]
        exact .fieldPinArgs hget ha h5 h6
    · exact checkFields_lerror fs (done ++ [f]) msg s (by simpa using hf) (by simpa using h)

theorem checkVariants_lerror {e : ItemEnum} : ∀ (vs done : List Variant) (msg : String) (s : Shown Place),
    e.variants = done ++ vs → checkVariants done.length vs = .error (.bail msg s) → DeriveShown (.enum_ e) msg s
  | [], _, _, _, _, h => by cases h
  | v :: vs, done, msg, s, hv, h => by
    unfold checkVariants at h
    replace h := lbind_error.1 h
    rcases h with h | ⟨_, _, h⟩
    · refine checkFields_lerror v.fields.list [] msg s ?_ h
      simp [fieldsOf, hv]
    · exact checkVariants_lerror vs (done ++ [v]) msg s (by simpa using hv) (by simpa using h)

theorem enumHasField_lerror : ∀ (vs : List Variant) (i : Nat) (b : Bool) (msg : String) (s : Shown Place),
    enumHasField i vs b = .error (.bail msg s) →
    ∃ k v, vs[k]? = some v ∧
      ((v.discriminant.isSome = true ∧ msg = "#[pin_project] attribute may not be used on enums with discriminants" ∧
        s = .one (.discriminant (i + k))) ∨
      ∃ j, FirstAttr v.attrs isPinAttr j ∧ msg = "#[pin] attribute may only be used on fields of structs or variants" ∧
        s = .one (.variantAttr (i + k) j))
  | [], _, _, _, _, h => by cases h
  | v :: vs, i, b, msg, s, h => by
    unfold enumHasField at h
    have next : ∀ b, enumHasField (i + 1) vs b = .error (.bail msg s) → ∃ k w, (v :: vs)[k]? = some w ∧
      ((w.discriminant.isSome = true ∧ msg = "#[pin_project] attribute may not be used on enums with discriminants" ∧
        s = .one (.discriminant (i + k))) ∨
      ∃ j, FirstAttr w.attrs isPinAttr j ∧ msg = "#[pin] attribute may only be used on fields of structs or variants" ∧
        s = .one (.variantAttr (i + k) j)) := fun b h => by
      obtain ⟨k, w, h1, h2⟩ := enumHasField_lerror vs _ b _ _ h
      exact ⟨k + 1, w, by simpa using h1, by rw [show i + (k + 1) = i + 1 + k by omega]; exact h2⟩
    split at h
    · rename_i hd
      cases h
      exact ⟨0, v, rfl, .inl ⟨hd, rfl, rfl⟩⟩
    · split at h
      · rename_i j hj
        cases h
        exact ⟨0, v, rfl, .inr ⟨j, pin_eq ▸ findAttr_first hj, rfl, rfl⟩⟩
      · split at h
        · exact next _ h
        · exact next _ h

theorem enumHasField_lok {vs : List Variant} {i : Nat} (h : enumHasField i vs false = .ok false) :
    ∀ v ∈ vs, v.fields.list = [] := by
  have := enumHasField_erase vs i false
  rw [h] at this
  exact (enumHasField_false vs false this.symm).2

theorem checkDerive_lerror {item : Item} {msg : String} {s : Shown Place}
    (h : checkDerive item = .error (.bail msg s)) : DeriveShown item msg s := by
  cases item with
  | other a => cases h; exact .notType rfl
  | struct_ i =>
    unfold checkDerive at h
    replace h := lbind_error.1 h
    rcases h with h | ⟨A, h1, h⟩
    · exact checkContext_lerror (item := .struct_ i) rfl h
    unfold checkStruct at h
    replace h := lbind_error.1 h
    rcases h with h | ⟨_, _, h⟩
    · obtain ⟨k, a, ts, h1, h2, ⟨h3, h4, rfl⟩ | ⟨ms, j, m, h3, h4, h5, rfl, rfl⟩⟩ := checkPacked_lerror h
      · rw [Nat.zero_add]
        exact .reprSyntax h1 h2 h3 h4
      · rw [Nat.zero_add]
        simp only [Bool.not_true, Bool.false_eq_true, if_false]
        split
        · rename_i hv
          cases m with
          | nameValue p v =>
            have : p = { leading := false, segs := ["packed"] } := by simpa [isPacked, Meta.getPath] using h5
            subst this
            exact .packedValue rfl ⟨a, ts, ms, h1, h2, h3, h4⟩
          | _ => cases hv
        · exact .packed rfl ⟨a, ts, ms, h1, h2, h3, h4⟩ h5
    replace h := lbind_error.1 h
    rcases h with h | ⟨_, _, h⟩
    · unfold validateStruct at h
      dsimp only at h
      split at h
      · rename_i hu
        cases h
        exact .unit rfl hu
      · rename_i fs hu
        cases fs with
        | nil => cases h; exact .noFields rfl (.inl hu)
        | cons => cases h
      · rename_i fs hu
        cases fs with
        | nil => cases h; exact .noFields rfl (.inr hu)
        | cons => cases h
    · exact checkFields_lerror (item := .struct_ i) i.fields.list [] _ _ rfl h
  | enum_ e =>
    unfold checkDerive at h
    replace h := lbind_error.1 h
    rcases h with h | ⟨A, h1, h⟩
    · exact checkContext_lerror (item := .enum_ e) rfl h
    unfold checkEnum at h
    replace h := lbind_error.1 h
    rcases h with h | ⟨_, _, h⟩
    · unfold checkReplace at h
      split at h
      · rename_i span hs
        cases h
        unfold checkContext at h1
        simp only [lbind_ok] at h1
        obtain ⟨A', h1, _, _, h2⟩ := h1
        cases h2
        obtain ⟨a, ts, h2, h3, h4⟩ := parseArgs_lok h1
        obtain ⟨as, h5, _, h6⟩ := argsParse_lok h4
        obtain ⟨us, h7, h8⟩ := h6 span hs
        exact .replaceUnnamed rfl h2 h3 h5 h7 h8
      · cases h
    replace h := lbind_error.1 h
    rcases h with h | ⟨_, _, h⟩
    · obtain ⟨k, a, ts, h1, h2, ⟨h3, h4, rfl⟩ | ⟨ms, j, m, h3, h4, h5, rfl, rfl⟩⟩ := checkPacked_lerror h
      · rw [Nat.zero_add]
        exact .reprSyntax h1 h2 h3 h4
      · rw [Nat.zero_add]
        exact .packedEnum rfl ⟨a, ts, ms, h1, h2, h3, h4⟩ h5
    replace h := lbind_error.1 h
    rcases h with h | ⟨_, _, h⟩
    · unfold validateEnum at h
      split at h
      · rename_i he
        cases h
        exact .noVariants rfl (List.isEmpty_iff.1 he)
      · replace h := lbind_error.1 h
        rcases h with h | ⟨b, hb, h⟩
        · obtain ⟨k, v, hv, ⟨h2, rfl, rfl⟩ | ⟨j, h2, rfl, rfl⟩⟩ := enumHasField_lerror _ _ _ _ _ h
          · rw [Nat.zero_add]
            obtain ⟨n, hn⟩ := Option.isSome_iff_exists.1 h2
            exact .discriminant rfl hv hn
          · rw [Nat.zero_add]
            exact .pinOnVariant rfl hv h2
        · split at h
          · cases h
          · rename_i hb'
            cases h
            have hb' : b = false := by simpa using hb'
            subst hb'
            exact .noVariantFields rfl (enumHasField_lok hb)
    · exact checkVariants_lerror e.variants [] _ _ rfl h

/-- When the derive stage rejects an item, the message is shown at the piece of the definition it is about. -/
theorem C80_derive (item : Item) (msg : String) (h : parseDerive item = .error (.bail msg)) :
    ∃ s, checkDerive item = .error (.bail msg s) ∧ DeriveShown item msg s := by
  have e := checkDerive_erase item
  rw [h] at e
  cases e' : checkDerive item with
  | ok A => rw [e'] at e; cases e
  | error x =>
    rw [e'] at e
    cases x with
    | panic m => cases e
    | bail m s =>
      cases e
      exact ⟨s, rfl, checkDerive_lerror e'⟩

/-- `#[pin_project] struct S { f: T, #[pin] #[doc] #[pin] g: T }`: the second `#[pin]` of the second field. -/
example : checkDerive (.struct_
    { attrs := [carriedArgs []]
      vis := .inherited, ident := "S", generics := {}
      fields := .named [{ ident := some "f", ty := .tyIdent "T" },
        { attrs := [⟨.path { segs := ["pin"] }⟩, ⟨.path { segs := ["doc"] }⟩, ⟨.path { segs := ["pin"] }⟩]
          ident := some "g", ty := .tyIdent "T" }] }) =
    .error (.bail "duplicate #[pin] attribute" (.one (.fieldAttr none 1 2))) := rfl

/-- `#[pin_project(!Unpin, project = S)] struct S { f: T }`: the `S` of the argument. -/
example : checkDerive (.struct_
    { attrs := [carriedArgs [.punct '!' true, .ident "Unpin", .punct ',' false, .ident "project", .punct '=' false,
        .ident "S"]]
      vis := .inherited, ident := "S", generics := {}
      fields := .named [{ ident := some "f", ty := .tyIdent "T" }] }) =
    .error (.bail "name `S` is the same as the original type name" (.one (.arg 5))) := rfl

/-- `#[pin_project] #[repr(C, packed)] struct S { f: T }`: the `packed`. -/
example : checkDerive (.struct_
    { attrs := [carriedArgs [], ⟨.list { segs := ["repr"] } .paren [.ident "C", .punct ',' false, .ident "packed"]⟩]
      vis := .inherited, ident := "S", generics := {}
      fields := .named [{ ident := some "f", ty := .tyIdent "T" }] }) =
    .error (.bail "#[pin_project] attribute may not be used on #[repr(packed)] types" (.one (.repr 1 1))) := rfl

/-! ## `#[pinned_drop]` -/

theorem validateSig_lerror {i : Nat} {sig : Signature} {msg : String} {s : Shown DropPlace}
    (h : validateSig i sig = .error (.bail msg s)) : SigShown sig i msg s := by
  unfold validateSig at h
  dsimp only at h
  split at h
  · rename_i hn
    cases h
    exact .name hn
  split at h
  · rename_i ho
    cases h
    have ho : ¬ (sig.output = none ∨ sig.output = some (.other "tuple" [])) := by
      rw [← outputIsUnit_iff]
      simpa using ho
    cases hy : sig.output with
    | none => exact absurd (.inl hy) ho
    | some ty => exact .output hy fun he => ho (.inr (by rw [hy, he]))
  split at h
  · rename_i hi
    cases h
    exact .noParams hi
  · rename_i b sh ty hi
    split at h
    · split at h
      · rename_i hu
        cases h
        exact .unsafe_ hu
      · cases h
    · rename_i hp
      cases h
      refine .param hi ?_
      rintro b' sh' ty' h1 h2
      cases h1
      exact hp ((isPinMutSelf_iff _).2 h2)
  · rename_i hi
    cases h
    exact .param hi (by rintro _ _ _ h1; cases h1)
  · rename_i hi
    cases h
    exact .manyParams (by rw [hi]; simp)

theorem validateSig_lname {i : Nat} {sig : Signature} (h : validateSig i sig = .ok ()) : sig.ident = "drop" := by
  unfold validateSig at h
  dsimp only at h
  split at h
  · cases h
  · rename_i hn
    simpa using hn

theorem validateItems_lerror (args : List TT) (item : ItemImpl) : ∀ (its done : List ImplItem) (msg : String)
    (s : Shown DropPlace), item.items = done ++ its → (∀ it ∈ done, ∃ m, it = .fn m ∧ m.sig.ident = "drop") →
    done.length ≤ 1 →
    validateItems done.length its = .error (.bail msg s) → PinnedDropShown args item msg s
  | [], _, _, _, _, _, _, h => by cases h
  | it :: its, done, msg, s, hi, hd, hl, h => by
    have hget : item.items[done.length]? = some it := by rw [hi]; simp
    unfold validateItems at h
    cases it with
    | const n => cases h; exact .const hget
    | type n => cases h; exact .type hget
    | other => cases h
    | fn m =>
      dsimp only at h
      replace h := lbind_error.1 h
      rcases h with h | ⟨_, h1, h⟩
      · exact .sig hget (validateSig_lerror h)
      have hdrop := validateSig_lname h1
      by_cases hz : done.length = 0
      · rw [if_pos hz] at h
        replace h : validateItems (done.length + 1) its = .error (.bail msg s) := h
        refine validateItems_lerror args item its (done ++ [.fn m]) msg s (by simpa using hi) ?_ (by simp [hz])
          (by simpa using h)
        intro it hit
        rcases List.mem_append.1 hit with hit | hit
        · exact hd it hit
        · rw [List.mem_singleton] at hit
          exact ⟨m, hit, hdrop⟩
      · rw [if_neg hz] at h
        cases h
        have h1 : done.length = 1 := by omega
        rw [h1] at hget ⊢
        cases done with
        | nil => cases h1
        | cons x done =>
          obtain ⟨m', rfl, hm'⟩ := hd x (by simp)
          exact .dropTwice (m := m') (m' := m) (by rw [hi]; rfl) hget hm' hdrop

theorem validateImpl_lerror (args : List TT) {item : ItemImpl} {msg : String} {s : Shown DropPlace}
    (h : validateImpl item = .error (.bail msg s)) : PinnedDropShown args item msg s := by
  unfold validateImpl at h
  split at h
  · rename_i i hi
    cases h
    exact .twice (findAttr_first hi)
  replace h := lbind_error.1 h
  rcases h with h | ⟨_, _, h⟩
  · unfold checkTrait at h
    dsimp only at h
    split at h
    · rename_i neg p ht
      split at h
      · cases h
      · rename_i hp
        cases h
        refine .otherTrait ht ?_
        intro he
        exact hp ((pathIsIdent_iff _ _).2 he)
    · rename_i ht
      cases h
      exact .noTrait ht
  split at h
  · rename_i hu
    cases h
    exact .unsafe_ hu
  split at h
  · rename_i hi
    cases h
    exact .noItems (List.isEmpty_iff.1 hi)
  split at h
  · rename_i ht
    cases h
    refine .selfTy ?_
    rw [← isTyPath_iff]
    simpa using ht
  exact validateItems_lerror args item _ [] _ _ rfl (by simp) (by simp) h

/-- `#[pinned_drop]` fails with a message exactly when its checks do. -/
theorem pinnedDrop_located (args : List TT) (item : ItemImpl) (msg : String) (dummy : Option DummyImpl)
    (h : pinnedDropAttribute args item = .compileError msg dummy) :
    ∃ s, checkPinnedDrop args item = .error (.bail msg s) := by
  unfold pinnedDropAttribute at h
  simp only at h
  split at h
  · cases h
  · cases h
  · rename_i m hm
    have e : m = msg := by injection h
    subst e
    unfold checkPinnedDrop
    split at hm
    · rename_i ha
      rw [if_pos ha]
      cases hm
      exact ⟨_, rfl⟩
    · rename_i ha
      rw [if_neg ha]
      replace hm := bind_error.1 hm
      rcases hm with hm | ⟨_, h1, hm⟩
      · rw [← validateImpl_erase] at hm
        cases e : validateImpl item with
        | ok x => rw [e] at hm; cases hm
        | error x =>
          rw [e] at hm
          cases x with
          | panic => cases hm
          | bail m' s => cases hm; exact ⟨s, rfl⟩
      · obtain ⟨neg, m', hc⟩ := (validateImpl_iff item).1 h1
        obtain ⟨q, p, hty⟩ := hc.pathType
        obtain ⟨b, sh, ty, hr, -⟩ := hc.drop.receiver
        simp only [expandImpl, hc.pinnedDrop, hc.onlyDrop, hr, hty] at hm
        split at hm <;> cases hm

/-- When `#[pinned_drop]` rejects an impl, the message is shown at the piece of the impl it is about. -/
theorem C80_pinned_drop (args : List TT) (item : ItemImpl) (msg : String) (dummy : Option DummyImpl)
    (h : pinnedDropAttribute args item = .compileError msg dummy) :
    ∃ s, checkPinnedDrop args item = .error (.bail msg s) ∧ PinnedDropShown args item msg s := by
  obtain ⟨s, hs⟩ := pinnedDrop_located args item msg dummy h
  refine ⟨s, hs, ?_⟩
  unfold checkPinnedDrop at hs
  split at hs
  · rename_i ha
    cases hs
    exact .args (by simpa using ha)
  · exact validateImpl_lerror args hs

/-- The impl of the demonstration, written twice `fn drop`: the second one. -/
example : checkPinnedDrop [] { demoImpl with items := demoImpl.items ++ demoImpl.items } =
    .error (.bail "duplicate definitions with name `drop`" (.one (.member 1))) := rfl

end PinProject.Locate

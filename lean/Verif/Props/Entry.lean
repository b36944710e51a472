import Verif.Model.Entry
import Verif.Spec.Panic
import Verif.Props.Accept
import Verif.Props.Arguments
/-!
# C47: the macros do not panic
-/
namespace PinProject
open Spec

/-- The result is no panic. -/
def NoPanic {α : Type} (r : Res α) : Prop := ∀ m, r ≠ .error (.panic m)

theorem noPanic_ok {α : Type} (a : α) : NoPanic (.ok a : Res α) := fun _ h => nomatch h
theorem noPanic_bail {α : Type} (m : String) : NoPanic (.error (.bail m) : Res α) := by
  intro m' h; simp at h

theorem noPanic_bind {α β : Type} {r : Res α} {f : α → Res β} (h : NoPanic r) (hf : ∀ a, r = .ok a → NoPanic (f a)) :
    NoPanic (r >>= f) := by
  intro m hm
  cases r with
  | error e =>
    rw [error_bind] at hm
    exact h m (by rw [Except.error.inj hm])
  | ok a => exact hf a rfl m hm

theorem parsePunct_noPanic (c : Char) (ts : List TT) : NoPanic (parsePunct c ts) := by
  unfold parsePunct
  split
  · split
    · exact noPanic_ok _
    · exact noPanic_bail _
  · exact noPanic_bail _

theorem modPathTail_noPanic (ts : List TT) : NoPanic (modPathTail ts) := by
  fun_induction modPathTail ts with
  | case1 c d j hc s rest hw ih => exact noPanic_bind ih (fun _ _ => noPanic_ok _)
  | _ => first | exact noPanic_ok _ | exact noPanic_bail _

theorem parseModPath_noPanic (ts : List TT) : NoPanic (parseModPath ts) := by
  fun_cases parseModPath ts <;> first
    | exact noPanic_bail _
    | exact noPanic_bind (modPathTail_noPanic _) (fun _ _ => noPanic_ok _)

theorem parseMeta_noPanic (ts : List TT) : NoPanic (parseMeta ts) := by
  unfold parseMeta
  refine noPanic_bind (parseModPath_noPanic _) (fun a _ => ?_)
  obtain ⟨p, r⟩ := a
  dsimp only
  split
  · exact noPanic_ok _
  · split
    · split
      · exact noPanic_bail _
      · exact noPanic_ok _
    · exact noPanic_ok _
  · exact noPanic_ok _

theorem parseMetas_noPanic : ∀ (n : Nat) (ts : List TT), ts.length ≤ n → NoPanic (parseMetas n ts) := by
  intro n
  induction n with
  | zero =>
    intro ts h
    cases ts with
    | nil => exact noPanic_ok _
    | cons t ts => simp at h
  | succ n ih =>
    intro ts h
    cases ts with
    | nil => exact noPanic_ok _
    | cons t ts =>
      rw [parseMetas]
      · refine noPanic_bind (parseMeta_noPanic _) ?_
        rintro ⟨m, r⟩ hm
        obtain ⟨us, hus, hmt⟩ := parseMeta_sound hm
        have hp := metaToks_pos hmt
        dsimp only
        split
        · exact noPanic_ok _
        · refine noPanic_bind (parsePunct_noPanic _ _) (fun v hv => ?_)
          obtain ⟨j, rfl⟩ := parsePunct_ok.1 hv
          refine noPanic_bind (ih _ ?_) (fun _ _ => noPanic_ok _)
          have := congrArg List.length hus
          simp at this h
          omega
      · simp

theorem checkReprs_noPanic (b : Bool) (ms : List Meta) : NoPanic (checkReprs b ms) := by
  induction ms with
  | nil => exact noPanic_ok _
  | cons m ms ih =>
    rw [checkReprs]
    split
    · exact noPanic_bail _
    · exact ih

theorem checkPacked_noPanic (b : Bool) (as : List Attribute) : NoPanic (checkPacked b as) := by
  induction as with
  | nil => exact noPanic_ok _
  | cons a as ih =>
    rw [checkPacked]
    split
    · split
      · exact noPanic_bind (parseMetas_noPanic _ _ (Nat.le_refl _)) fun _ _ =>
          noPanic_bind (checkReprs_noPanic _ _) fun _ _ => ih
      · exact ih
    · exact ih

theorem ensureNotPacked_noPanic (cx : Ctx) (f : Option Fields) : NoPanic (ensureNotPacked cx f) := by
  unfold ensureNotPacked
  refine noPanic_bind (checkPacked_noPanic _ _) fun _ _ => ?_
  split <;> exact noPanic_ok _

theorem positionExactFrom_noPanic (s : String) (as : List Attribute) (i : Nat) (p : Option Nat) :
    NoPanic (positionExactFrom s as i p) := by
  induction as generalizing i p with
  | nil => exact noPanic_ok _
  | cons a as ih =>
    rw [positionExactFrom]
    split
    · split
      · exact noPanic_bail _
      · refine noPanic_bind ?_ fun _ _ => ih _ _
        unfold Meta.requirePathOnly
        split
        · exact noPanic_ok _
        · exact noPanic_bail _
    · exact ih _ _

theorem visitFieldsLoop_noPanic (cx : Ctx) (a : FieldAcc) (i : Nat) (fs : List Field) :
    NoPanic (visitFieldsLoop cx a i fs) := by
  induction fs generalizing a i with
  | nil => exact noPanic_ok _
  | cons f fs ih =>
    rw [visitFieldsLoop]
    refine noPanic_bind ?_ fun _ _ => ih _ _
    unfold visitField
    refine noPanic_bind (positionExactFrom_noPanic _ _ _ _) fun _ _ => ?_
    split <;> exact noPanic_ok _

theorem visitFieldsOf_noPanic (cx : Ctx) (v : Option String) (fs : Fields) : NoPanic (visitFieldsOf cx v fs) := by
  unfold visitFieldsOf
  split
  · exact noPanic_bind (visitFieldsLoop_noPanic _ _ _ _) fun _ _ => noPanic_ok _
  · exact noPanic_bind (visitFieldsLoop_noPanic _ _ _ _) fun _ _ => noPanic_ok _
  · exact noPanic_ok _

theorem visitVariants_noPanic (cx : Ctx) (a : ProjectedVariants) (vs : List Variant) :
    NoPanic (visitVariants cx a vs) := by
  induction vs generalizing a with
  | nil => exact noPanic_ok _
  | cons v vs ih =>
    rw [visitVariants]
    exact noPanic_bind (visitFieldsOf_noPanic _ _ _) fun _ _ => ih _

theorem parseStruct_noPanic (cx : Ctx) (fs : Fields) : NoPanic (parseStruct cx fs) := by
  unfold parseStruct
  refine noPanic_bind (ensureNotPacked_noPanic _ _) fun _ _ => ?_
  refine noPanic_bind ?_ fun u hu => ?_
  · unfold validateStruct
    split
    · exact noPanic_bail _
    · exact noPanic_ok _
  · refine noPanic_bind ?_ fun _ _ => noPanic_ok _
    unfold visitStructFields
    split
    · simp [validateStruct, Fields.list] at hu
    · exact visitFieldsOf_noPanic _ _ _

theorem enumHasField_noPanic (vs : List Variant) (b : Bool) : NoPanic (enumHasField vs b) := by
  induction vs generalizing b with
  | nil => exact noPanic_ok _
  | cons v vs ih =>
    rw [enumHasField]
    split
    · exact noPanic_bail _
    · split
      · exact noPanic_bail _
      · split <;> exact ih _

theorem parseEnum_noPanic (cx : Ctx) (vs : List Variant) : NoPanic (parseEnum cx vs) := by
  unfold parseEnum
  split
  · exact noPanic_bail _
  refine noPanic_bind (ensureNotPacked_noPanic _ _) fun _ _ => ?_
  refine noPanic_bind ?_ fun _ _ => ?_
  · unfold validateEnum
    split
    · exact noPanic_bail _
    · refine noPanic_bind (enumHasField_noPanic _ _) fun _ _ => ?_
      split
      · exact noPanic_ok _
      · exact noPanic_bail _
  · exact noPanic_bind (visitVariants_noPanic _ _ _) fun _ _ => noPanic_ok _

theorem argsParse_noPanic (ts : List TT) : NoPanic (Args.parse ts) := by
  intro m hm
  by_cases h : ∃ as, ArgsToks as ts ∧ Acceptable as
  · obtain ⟨as, h1, h2⟩ := h
    rw [(C01_argument_grammar ts (config as)).2 ⟨as, h1, h2, rfl⟩] at hm
    simp at hm
  · obtain ⟨msg, h⟩ := C01_rejects_everything_else ts h
    rw [h] at hm
    simp at hm

theorem parsePrivate_noPanic (ts : List TT) : NoPanic (parsePrivate ts) := by
  unfold parsePrivate
  repeat' split
  all_goals first | exact noPanic_ok _ | exact noPanic_bail _

theorem parsePrivate_none (ts : List TT) : parsePrivate ts = .ok none ↔
    ts = [] ∨ ∃ w, Identifier w ∧ ts = [.ident w] := by
  simp only [← isIdentWord_iff]
  unfold parsePrivate
  repeat' split
  all_goals simp_all
  rintro x hx rfl
  simp_all

theorem requireList_noPanic (m : Meta) : NoPanic m.requireList := by
  unfold Meta.requireList
  split
  · exact noPanic_ok _
  · exact noPanic_bail _

theorem requireList_ok {m : Meta} {toks : List TT} : m.requireList = .ok toks ↔ ∃ p d, m = .list p d toks := by
  cases m <;> simp [Meta.requireList]

theorem parseArgs_panic (attrs : List Attribute) : (∃ m, parseArgs attrs = .error (.panic m)) ↔ StrayPin attrs := by
  have e : (fun a : Attribute => a.path.isIdent "pin") = isPinAttr := funext isPinAttr_eq
  unfold parseArgs
  rw [e]
  cases hp : findAttr attrs "pin_project" with
  | some a =>
    simp only [Except.error.injEq, reduceCtorEq, exists_false, false_iff]
    intro h
    have := List.mem_of_find?_eq_some hp
    have h2 := List.find?_some hp
    exact h.noPinProject a this h2
  | none =>
    have hp' : ∀ a ∈ attrs, ¬ a.path.isIdent "pin_project" = true := by
      intro a ha
      exact List.find?_eq_none.1 hp a ha
    dsimp only
    cases hf : attrs.filter isPinAttr with
    | nil =>
      simp only [Except.error.injEq, reduceCtorEq, exists_false, false_iff]
      rintro ⟨_, p, d, t, h, _⟩
      rw [hf] at h; simp at h
    | cons a more =>
      have hn : ∀ {β : Type} (x : Attribute) (f : Option (List TT) → Res β),
          (∃ m, (x.m.requireList >>= fun t => parsePrivate t >>= f) = .error (.panic m)) ↔
            ∃ t o, x.m.requireList = .ok t ∧ parsePrivate t = .ok o ∧ ∃ m, f o = .error (.panic m) := by
        intro β x f
        cases h1 : x.m.requireList with
        | error e =>
          rw [error_bind]
          have := requireList_noPanic x.m
          rw [h1] at this
          simp only [reduceCtorEq, false_and, exists_false, iff_false, not_exists]
          intro m hm
          exact this m (by rw [Except.error.inj hm])
        | ok t =>
          rw [ok_bind]
          cases h2 : parsePrivate t with
          | error e =>
            rw [error_bind]
            have := parsePrivate_noPanic t
            rw [h2] at this
            simp only [Except.ok.injEq, exists_and_left, exists_eq_left', h2, reduceCtorEq, false_and, exists_false, iff_false, not_exists]
            intro m hm
            exact this m (by rw [Except.error.inj hm])
          | ok o =>
            rw [ok_bind]
            constructor
            · intro h; exact ⟨t, o, rfl, h2, h⟩
            · rintro ⟨t', o', h, h', h3⟩
              cases h
              rw [h2] at h'
              cases h'
              exact h3
      rw [hn]
      cases more with
      | cons b more =>
        constructor
        · rintro ⟨t, o, _, _, h⟩
          rw [hn] at h
          obtain ⟨_, _, _, _, m, h⟩ := h
          simp at h
        · rintro ⟨_, p, d, t, h, _⟩
          rw [hf] at h; simp at h
      | nil =>
        constructor
        · rintro ⟨t, o, h1, h2, m, h⟩
          refine ⟨hp', ?_⟩
          obtain ⟨p, d, h1⟩ := requireList_ok.1 h1
          obtain ⟨am⟩ := a
          cases o with
          | some toks => exact absurd h (argsParse_noPanic toks m)
          | none =>
            refine ⟨p, d, t, ?_, (parsePrivate_none t).1 h2⟩
            rw [hf]
            simp only at h1
            rw [h1]
        · rintro ⟨_, p, d, t, h, ht⟩
          rw [hf] at h
          simp only [List.cons.injEq, and_true] at h
          subst h
          exact ⟨t, none, rfl, (parsePrivate_none t).2 ht, _, rfl⟩

theorem ctxNew_panic (attrs : List Attribute) (vis : Vis) (ident : String) (g : Generics) (kind : TypeKind) (m : String) :
    Ctx.new attrs vis ident g kind = .error (.panic m) ↔ parseArgs attrs = .error (.panic m) := by
  unfold Ctx.new
  cases h : parseArgs attrs with
  | error e => rw [error_bind]; simp
  | ok A =>
    rw [ok_bind]
    split <;> simp

theorem toOut_panicked {α : Type} {r : Res α} {m : String} : Res.toOut r = .panicked m ↔ r = .error (.panic m) := by
  unfold Res.toOut
  split <;> simp

theorem bind_panic {α β : Type} {r : Res α} {f : α → Res β} {m : String} (hf : ∀ a, NoPanic (f a)) :
    (r >>= f) = .error (.panic m) ↔ r = .error (.panic m) := by
  cases r with
  | error e => rw [error_bind]; simp
  | ok a =>
    rw [ok_bind]
    simp only [reduceCtorEq, iff_false]
    exact hf a m

/-- **C47** The derive macro panics exactly if the item carries a stray `#[pin(..)]` instead of the attribute
left by the first stage. -/
theorem C47_derive_panics_iff (item : Item) :
    (∃ msg, pinProjectDerive item = .panicked msg) ↔
      (∃ name, itemName item = some name) ∧ StrayPin (itemAttrs item) := by
  unfold pinProjectDerive
  simp only [toOut_panicked]
  cases item with
  | other a => simp [parseDerive, itemName]
  | struct_ s =>
    simp only [parseDerive, itemName, itemAttrs, Option.some.injEq, exists_eq', true_and, deriveStruct]
    rw [← parseArgs_panic]
    refine exists_congr fun m => ?_
    rw [bind_panic (fun cx => noPanic_bind (parseStruct_noPanic _ _) (fun _ _ => noPanic_ok _)), ctxNew_panic]
    rfl
  | enum_ s =>
    simp only [parseDerive, itemName, itemAttrs, Option.some.injEq, exists_eq', true_and, deriveEnum]
    rw [← parseArgs_panic]
    refine exists_congr fun m => ?_
    rw [bind_panic (fun cx => noPanic_bind (parseEnum_noPanic _ _) (fun _ _ => noPanic_ok _)), ctxNew_panic]
    rfl

theorem skipVis_noPanic (ts : List TT) : NoPanic (skipVis ts) := by
  unfold skipVis
  repeat' split
  all_goals try exact noPanic_ok _
  refine noPanic_bind (parseModPath_noPanic _) fun a _ => ?_
  obtain ⟨p, r⟩ := a
  dsimp only
  split
  · exact noPanic_ok _
  · exact noPanic_bail _

/-- **C47** The attribute macro never panics. -/
theorem C47_attribute_never_panics (args : List TT) (input : RawInput) (msg : String) :
    pinProjectAttribute args input ≠ .panicked msg := by
  unfold pinProjectAttribute
  rw [ne_eq, toOut_panicked]
  revert msg
  unfold parseAttribute parseInput
  refine noPanic_bind (noPanic_bind (skipVis_noPanic _) fun _ _ => ?_) fun _ _ => noPanic_ok _
  repeat' split
  all_goals first | exact noPanic_ok _ | exact noPanic_bail _

/-- **C47** The derive macro does not panic on what the attribute macro has produced, whatever other macros
did to the item in between, if they left the attributes called `pin` and `pin_project` alone. -/
theorem C47_never_panics (args : List TT) (input out : RawInput) (h : pinProjectAttribute args input = .code out)
    (item : Item) (hi : (itemAttrs item).filter isOurs = out.attrs.filter isOurs) (msg : String) :
    pinProjectDerive item ≠ .panicked msg := by
  intro hm
  obtain ⟨_, hs⟩ := (C47_derive_panics_iff item).1 ⟨msg, hm⟩
  obtain ⟨m, hm⟩ := (parseArgs_panic _).2 hs
  have h' : parseAttribute args input = .ok out := by
    unfold pinProjectAttribute Res.toOut at h
    split at h <;> simp_all
  rw [C05_transparent args input out h' _ hi] at hm
  exact argsParse_noPanic args m hm

/-- A struct whose `#[pin(__private())]` was replaced by `#[pin(other)]` makes the derive macro panic. -/
example : ∃ msg, pinProjectDerive (.struct_ ⟨[⟨.list { segs := ["pin"] } .paren [.ident "other"]⟩], .inherited, "S",
    ⟨[], none⟩, .unit⟩) = .panicked msg := by
  refine (C47_derive_panics_iff _).2 ⟨⟨_, rfl⟩, ?_, ?_⟩
  · intro a ha; simp [itemAttrs] at ha; subst ha; decide
  · exact ⟨_, _, _, rfl, .inr ⟨"other", by decide, rfl⟩⟩

end PinProject

import Verif.Model.Locate
import Verif.Props.Errors
/-!
# C80: forgetting the places

The functions of `Model/Locate` fail exactly when the macros do, with the same messages.
-/
namespace PinProject.Locate

variable {σ : Type}

/-- The result without places, as a function of the value. -/
def eraseBy {α β : Type} (g : α → β) : LRes σ α → Res β
  | .ok a => .ok (g a)
  | .error e => .error e.erase

theorem eraseBy_bind {α β γ δ : Type} {g : α → β} {h : γ → δ} {x : LRes σ α} {y : Res β} {f : α → LRes σ γ}
    {f' : β → Res δ} (hx : eraseBy g x = y) (hf : ∀ a, eraseBy h (f a) = f' (g a)) :
    eraseBy h (x >>= f) = y >>= f' := by
  subst hx
  cases x with
  | ok a => exact hf a
  | error e => rfl

theorem eraseBy_atPlace {α : Type} (s : Shown σ) (x : Res α) : eraseBy id (atPlace s x) = x := by
  cases x with
  | ok a => rfl
  | error e => cases e <;> rfl

abbrev fsts (toks : List (Tok σ)) : List TT := toks.map (·.1)

theorem parseIdent_erase (toks : List (Tok σ)) :
    eraseBy (fun r => (r.1.1, fsts r.2)) (parseIdent toks) = PinProject.parseIdent (fsts toks) := by
  cases toks with
  | nil => rfl
  | cons t ts =>
    obtain ⟨t, p⟩ := t
    cases t <;> simp only [parseIdent, PinProject.parseIdent, List.map_cons, fsts] <;> try rfl
    split <;> rfl

theorem parsePunct_erase (c : Char) (toks : List (Tok σ)) :
    eraseBy (fun r => fsts r.2) (parsePunct c toks) = PinProject.parsePunct c (fsts toks) := by
  cases toks with
  | nil => rfl
  | cons t ts =>
    obtain ⟨t, p⟩ := t
    cases t <;> simp only [parsePunct, PinProject.parsePunct, List.map_cons, fsts] <;> try rfl
    split <;> rfl

theorem peekPunct_erase (c : Char) (toks : List (Tok σ)) : peekPunct c toks = PinProject.peekPunct c (fsts toks) := by
  cases toks with
  | nil => rfl
  | cons t ts => obtain ⟨t, p⟩ := t; cases t <;> rfl

theorem parseKwUnpin_erase (toks : List (Tok σ)) :
    eraseBy (fun r => fsts r.2) (parseKwUnpin toks) = PinProject.parseKwUnpin (fsts toks) := by
  cases toks with
  | nil => rfl
  | cons t ts =>
    obtain ⟨t, p⟩ := t
    cases t <;> simp only [parseKwUnpin, PinProject.parseKwUnpin, List.map_cons, fsts] <;> try rfl
    split <;> rfl

theorem fsts_isEmpty (toks : List (Tok σ)) : (fsts toks).isEmpty = toks.isEmpty := by cases toks <;> rfl

theorem parseValue_erase (toks : List (Tok σ)) (name : String × σ) (prev : Bool) :
    eraseBy (fun r => (r.1.1, fsts r.2)) (parseValue toks name prev) =
      PinProject.parseValue (fsts toks) name.1 prev := by
  unfold parseValue PinProject.parseValue
  rw [fsts_isEmpty]
  split
  · rfl
  refine eraseBy_bind (parsePunct_erase _ _) ?_
  rintro ⟨eq, toks⟩
  dsimp only
  rw [fsts_isEmpty]
  split
  · rfl
  refine eraseBy_bind (parseIdent_erase _) ?_
  rintro ⟨v, toks⟩
  dsimp only
  split <;> rfl

theorem parseArg_erase (a : ArgAcc σ) (toks : List (Tok σ)) :
    eraseBy (fun r => (r.1.erase, fsts r.2)) (parseArg a toks) = PinProject.parseArg a.erase (fsts toks) := by
  unfold parseArg PinProject.parseArg
  rw [peekPunct_erase]
  split
  · refine eraseBy_bind (parsePunct_erase _ _) ?_
    rintro ⟨eq, toks⟩
    dsimp only
    rw [fsts_isEmpty]
    split
    · rfl
    refine eraseBy_bind (parseKwUnpin_erase _) ?_
    rintro ⟨v, toks⟩
    dsimp only
    by_cases hn : a.notUnpin.isSome = true
    · rw [if_pos hn, if_pos (show a.erase.notUnpin = true from hn)]; rfl
    · rw [if_neg hn, if_neg (show ¬ a.erase.notUnpin = true from hn)]; rfl
  refine eraseBy_bind (parseIdent_erase _) ?_
  rintro ⟨⟨s, p⟩, toks⟩
  dsimp only
  split
  · by_cases hn : a.pinnedDrop.isSome = true
    · rw [if_pos hn, if_pos (show a.erase.pinnedDrop = true from hn)]; rfl
    · rw [if_neg hn, if_neg (show ¬ a.erase.pinnedDrop = true from hn)]; rfl
  split
  · by_cases hn : a.unsafeUnpin.isSome = true
    · rw [if_pos hn, if_pos (show a.erase.unsafeUnpin = true from hn)]; rfl
    · rw [if_neg hn, if_neg (show ¬ a.erase.unsafeUnpin = true from hn)]; rfl
  split
  · have : a.erase.project.isSome = a.project.isSome := by simp [ArgAcc.erase]
    rw [this]
    refine eraseBy_bind (parseValue_erase _ (s, p) _) ?_
    rintro ⟨v, toks⟩
    rfl
  split
  · have : a.erase.projectRef.isSome = a.projectRef.isSome := by simp [ArgAcc.erase]
    rw [this]
    refine eraseBy_bind (parseValue_erase _ (s, p) _) ?_
    rintro ⟨v, toks⟩
    rfl
  split
  · rw [peekPunct_erase]
    split
    · refine eraseBy_bind (parseValue_erase _ (s, p) _) ?_
      rintro ⟨v, toks⟩
      rfl
    · by_cases hn : a.prSpan.isSome = true
      · rw [if_pos hn, if_pos (show a.erase.prSpan = true from hn)]; rfl
      · rw [if_neg hn, if_neg (show ¬ a.erase.prSpan = true from hn)]; rfl
  split <;> rfl

theorem parseLoop_erase : ∀ (n : Nat) (a : ArgAcc σ) (toks : List (Tok σ)),
    eraseBy ArgAcc.erase (parseLoop n a toks) = PinProject.parseLoop n a.erase (fsts toks)
  | 0, a, [] => rfl
  | _ + 1, a, [] => rfl
  | 0, a, _ :: _ => rfl
  | n + 1, a, t :: ts => by
    show eraseBy ArgAcc.erase (parseArg a (t :: ts) >>= _) = PinProject.parseArg a.erase (fsts (t :: ts)) >>= _
    refine eraseBy_bind (parseArg_erase _ _) ?_
    rintro ⟨a, toks⟩
    dsimp only
    rw [fsts_isEmpty]
    split
    · rfl
    refine eraseBy_bind (parsePunct_erase _ _) ?_
    rintro ⟨_, toks⟩
    exact parseLoop_erase n _ _

theorem checkNames_erase (a : ArgAcc σ) : eraseBy id a.checkNames = a.erase.checkNames := by
  obtain ⟨_, _, _, p, r, v, _⟩ := a
  cases p <;> cases r <;> cases v <;>
    simp only [ArgAcc.checkNames, PinProject.ArgAcc.checkNames, ArgAcc.erase, Option.map, Option.isSome,
      Bool.or_self, Bool.or_true, Bool.true_or, if_true, Bool.false_eq_true, if_false, shownOpt] <;> try rfl
  all_goals (repeat' split) <;> first | rfl | simp_all [eraseBy, LErr.erase]

theorem projectReplace_erase (a : ArgAcc σ) : a.projectReplace.erase = a.erase.projectReplace := by
  obtain ⟨_, _, _, _, _, v, s⟩ := a
  cases v <;> cases s <;> rfl

theorem unpinImpl_erase (a : ArgAcc σ) : eraseBy id a.unpinImpl = a.erase.unpinImpl := by
  obtain ⟨_, u, n, _, _, _, _⟩ := a
  cases u <;> cases n <;> rfl

theorem finish_erase (a : ArgAcc σ) : eraseBy Args.erase a.finish = a.erase.finish := by
  unfold ArgAcc.finish PinProject.ArgAcc.finish
  refine eraseBy_bind (checkNames_erase a) ?_
  intro _
  have rest : eraseBy Args.erase (a.unpinImpl >>= fun u => Except.ok
        { pinnedDrop := a.pinnedDrop.isSome, unpinImpl := u, project := a.project, projectRef := a.projectRef,
          projectReplace := a.projectReplace }) =
      (a.erase.unpinImpl >>= fun u => Except.ok
        { pinnedDrop := a.erase.pinnedDrop, unpinImpl := u, project := a.erase.project,
          projectRef := a.erase.projectRef, projectReplace := a.erase.projectReplace }) := by
    refine eraseBy_bind (unpinImpl_erase a) ?_
    intro u
    rw [← projectReplace_erase]
    rfl
  cases hp : a.pinnedDrop with
  | none =>
    rw [if_neg (by simp [ArgAcc.erase, hp])]
    rw [hp] at rest
    simp only [ArgAcc.checkDrop, hp]
    exact rest
  | some p =>
    cases hs : a.prSpan with
    | none =>
      rw [if_neg (by simp [ArgAcc.erase, hs])]
      rw [hp] at rest
      simp only [ArgAcc.checkDrop, hp, hs, Option.isSome_none, Bool.false_eq_true, if_false]
      exact rest
    | some s =>
      rw [if_pos (by simp [ArgAcc.erase, hs, hp])]
      simp only [ArgAcc.checkDrop, hp, hs, Option.isSome_some, if_true]
      rfl

theorem argsParse_erase (toks : List (Tok σ)) : eraseBy Args.erase (Args.parse toks) = PinProject.Args.parse (fsts toks) := by
  unfold Args.parse PinProject.Args.parse
  refine eraseBy_bind (y := PinProject.parseLoop (fsts toks).length {} (fsts toks)) ?_ finish_erase
  rw [show (fsts toks).length = toks.length by simp [fsts]]
  exact parseLoop_erase _ _ _

/-! ## The derive stage -/

theorem findAttr_isSome (attrs : List Attribute) (s : String) :
    (findAttr attrs s).isSome = (PinProject.findAttr attrs s).isSome := by
  unfold findAttr PinProject.findAttr
  induction attrs with
  | nil => rfl
  | cons a as ih =>
    rw [List.findIdx?_cons, List.find?_cons]
    cases a.path.isIdent s <;> simp_all

theorem findAttr_none {attrs : List Attribute} {s : String} (h : findAttr attrs s = none) :
    PinProject.findAttr attrs s = none := by
  have := findAttr_isSome attrs s
  rw [h] at this
  simpa using this.symm

theorem findAttr_some {attrs : List Attribute} {s : String} {i : Nat} (h : findAttr attrs s = some i) :
    ∃ a, PinProject.findAttr attrs s = some a := by
  have := findAttr_isSome attrs s
  rw [h] at this
  exact Option.isSome_iff_exists.1 this.symm

theorem pinAttrs_snd (attrs : List Attribute) : ∀ i, (pinAttrs i attrs).map (·.2) =
    attrs.filter (fun a => a.path.isIdent "pin") := by
  induction attrs with
  | nil => intro i; rfl
  | cons a as ih =>
    intro i
    unfold pinAttrs
    cases h : a.path.isIdent "pin" <;> simp [h, ih]

theorem argToks_fst (ts : List TT) : fsts (argToks ts) = ts := by
  apply List.ext_getElem?
  intro i
  simp only [fsts, argToks, List.getElem?_map, List.getElem?_mapIdx]
  cases ts[i]? <;> rfl

theorem parseArgs_erase (attrs : List Attribute) :
    eraseBy Args.erase (parseArgs attrs) = PinProject.parseArgs attrs := by
  unfold parseArgs PinProject.parseArgs
  split
  · rename_i i hi
    obtain ⟨a, ha⟩ := findAttr_some hi
    rw [ha]
    rfl
  · rename_i hi
    rw [findAttr_none hi]
    dsimp only
    rw [← pinAttrs_snd attrs 0]
    split
    · rename_i h; rw [h]; rfl
    · rename_i i a more h
      rw [h]
      rw [List.map_cons]
      refine eraseBy_bind (eraseBy_atPlace _ _) fun toks => ?_
      refine eraseBy_bind (eraseBy_atPlace _ _) fun prev => ?_
      cases more with
      | cons b rest =>
        obtain ⟨j, b⟩ := b
        refine eraseBy_bind (eraseBy_atPlace _ _) fun toks => ?_
        refine eraseBy_bind (eraseBy_atPlace _ _) fun prev => ?_
        rfl
      | nil =>
        cases prev with
        | none => rfl
        | some ts =>
          show eraseBy Args.erase (Args.parse (argToks ts)) = PinProject.Args.parse ts
          rw [argsParse_erase, argToks_fst]

theorem checkReprs_erase (b : Bool) (i : Nat) : ∀ (ms : List Meta) (j : Nat),
    eraseBy id (checkReprs b i j ms) = PinProject.checkReprs b ms
  | [], _ => rfl
  | m :: ms, j => by
    unfold checkReprs PinProject.checkReprs
    split
    · rfl
    · exact checkReprs_erase b i ms _

theorem checkPacked_erase (b : Bool) : ∀ (attrs : List Attribute) (i : Nat),
    eraseBy id (checkPacked b i attrs) = PinProject.checkPacked b attrs
  | [], _ => rfl
  | a :: as, i => by
    unfold checkPacked PinProject.checkPacked
    cases a.m with
    | list p d toks =>
      dsimp only
      split
      · refine eraseBy_bind (eraseBy_atPlace _ _) fun ms => ?_
        refine eraseBy_bind (checkReprs_erase _ _ _ _) fun _ => ?_
        exact checkPacked_erase b as _
      · exact checkPacked_erase b as _
    | path p => exact checkPacked_erase b as _
    | nameValue p v => exact checkPacked_erase b as _

theorem validateStruct_erase (fs : Fields) : eraseBy id (validateStruct fs) = PinProject.validateStruct fs := by
  unfold validateStruct PinProject.validateStruct
  cases fs with
  | unit => rfl
  | named fs => cases fs <;> rfl
  | unnamed fs => cases fs <;> rfl

theorem enumHasField_erase : ∀ (vs : List Variant) (i : Nat) (b : Bool),
    eraseBy id (enumHasField i vs b) = PinProject.enumHasField vs b
  | [], _, _ => rfl
  | v :: vs, i, b => by
    unfold enumHasField PinProject.enumHasField
    split
    · rfl
    · rw [← findAttr_isSome]
      cases findAttr v.attrs "pin" with
      | some j => rfl
      | none =>
        simp only [Option.isSome_none, Bool.false_eq_true, if_false]
        split
        · exact enumHasField_erase vs _ _
        · exact enumHasField_erase vs _ _

theorem validateEnum_erase (vs : List Variant) : eraseBy id (validateEnum vs) = PinProject.validateEnum vs := by
  unfold validateEnum PinProject.validateEnum
  split
  · rfl
  · refine eraseBy_bind (enumHasField_erase _ _ _) fun b => ?_
    dsimp only [id]
    split <;> rfl

theorem positionExactFrom_erase (v : Option Nat) (f : Nat) (s : String) : ∀ (as : List Attribute) (i : Nat)
    (prev : Option Nat), eraseBy id (positionExactFrom v f s as i prev) = PinProject.positionExactFrom s as i prev
  | [], _, _ => rfl
  | a :: as, i, prev => by
    unfold positionExactFrom PinProject.positionExactFrom
    split
    · split
      · rfl
      · refine eraseBy_bind (eraseBy_atPlace _ _) fun _ => ?_
        exact positionExactFrom_erase v f s as _ _
    · exact positionExactFrom_erase v f s as _ _

/-- The value of a result does not matter. -/
def unit {α : Type} : Res α → Res Unit
  | .ok _ => .ok ()
  | .error e => .error e

theorem unit_bind {α β : Type} (x : Res α) (f : α → Res β) : unit (x >>= f) = x >>= fun a => unit (f a) := by
  cases x <;> rfl

theorem unit_ok {α : Type} (a : α) : unit (.ok a) = .ok () := rfl

theorem bind_unit {α : Type} {x : Res α} {y : Res Unit} (h : unit x = y) : (x >>= fun _ => .ok ()) = y := by
  subst h
  cases x <;> rfl

theorem unit_congr {α β : Type} {x : LRes σ Unit} {y : Res α} {f : Unit → LRes σ β} {g : α → Res Unit}
    {h : β → Unit} (hx : eraseBy id x = unit y) (hf : ∀ a, eraseBy h (f ()) = g a) :
    eraseBy h (x >>= f) = y >>= g := by
  cases x with
  | ok a =>
    cases y with
    | ok b => exact hf b
    | error e => cases hx
  | error e =>
    cases y with
    | ok b => cases hx
    | error e' => injection hx with hx; subst hx; rfl

theorem checkFields_erase (cx : Ctx) (v : Option Nat) : ∀ (fs fs' : List Field) (i : Nat) (a : FieldAcc),
    fs.map (·.attrs) = fs'.map (·.attrs) →
    eraseBy id (checkFields v i fs) = unit (visitFieldsLoop cx a i fs')
  | [], fs', i, a, h => by
    cases fs' with
    | nil => rfl
    | cons => simp at h
  | f :: fs, fs', i, a, h => by
    cases fs' with
    | nil => simp at h
    | cons f' fs' =>
      injection h with h1 h2
      dsimp only at h1
      unfold checkFields visitFieldsLoop
      rw [unit_bind]
      unfold visitField positionExact
      have e := positionExactFrom_erase v i "pin" f.attrs 0 none
      rw [h1] at e ⊢
      cases hl : positionExactFrom v i "pin" f'.attrs 0 none with
      | error er =>
        rw [hl] at e
        rw [← e]
        rfl
      | ok pos =>
        rw [hl] at e
        rw [← e]
        show eraseBy id (checkFields v (i + 1) fs) = _
        cases pos with
        | none => exact checkFields_erase cx v fs fs' _ _ h2
        | some p => exact checkFields_erase cx v fs fs' _ _ h2

theorem visitFieldsOf_erase (cx : Ctx) (w : Option String) (v : Option Nat) (fs fs' : Fields)
    (h : fs.list.map (·.attrs) = fs'.list.map (·.attrs)) :
    eraseBy id (checkFields v 0 fs.list) = unit (visitFieldsOf cx w fs') := by
  unfold visitFieldsOf
  split
  · unfold visitFields
    rw [unit_bind]
    exact (checkFields_erase cx v _ _ 0 {} h).trans (bind_unit rfl).symm
  · unfold visitFields
    rw [unit_bind]
    exact (checkFields_erase cx v _ _ 0 {} h).trans (bind_unit rfl).symm
  · have : fs.list = [] := by simpa [Fields.list] using h
    rw [this]
    rfl

theorem checkVariants_erase (cx : Ctx) (t : SelfTy) : ∀ (vs : List Variant) (i : Nat) (a : ProjectedVariants),
    eraseBy id (checkVariants i vs) = unit (visitVariants cx a (vs.map (Variant.visit t)))
  | [], _, _ => rfl
  | v :: vs, i, a => by
    rw [List.map_cons]
    unfold checkVariants visitVariants
    rw [unit_bind]
    refine unit_congr (visitFieldsOf_erase cx _ (some i) _ _ ?_) ?_
    · show _ = (v.fields.visit t).list.map (·.attrs)
      rw [visit_fields_list, List.map_map]
      rfl
    · rintro ⟨pf, tys⟩
      exact checkVariants_erase cx t vs _ _

theorem ownName_list (ident : String) (l : List (Option (String × Place))) :
    eraseBy id (match (l.filterMap id).find? (fun n => n.1 == ident) with
      | some name => (.error (.bail s!"name `{name.1}` is the same as the original type name" (.one name.2)) :
          LRes Place Unit)
      | none => .ok ()) =
    if (l.map (Option.map (·.1))).any (fun n => n == some ident) then
      .error (.bail s!"name `{ident}` is the same as the original type name") else .ok () := by
  induction l with
  | nil => rfl
  | cons o l ih =>
    cases o with
    | none =>
      rw [List.filterMap_cons_none rfl, List.map_cons, List.any_cons, Option.map_none, show
        ((none : Option String) == some ident) = false from rfl, Bool.false_or]
      exact ih
    | some n =>
      have e : (some n :: l).filterMap id = n :: l.filterMap id := by simp
      rw [e, List.map_cons, List.any_cons, List.find?_cons, Option.map_some]
      by_cases hn : n.1 = ident
      · subst hn
        have h1 : (n.1 == n.1) = true := by simp
        have h2 : (some n.1 == some n.1) = true := by simp
        rw [h1, h2, Bool.true_or, if_pos rfl]
        rfl
      · have h1 : (n.1 == ident) = false := by simpa using hn
        have h2 : (some n.1 == some ident) = false := by simpa using hn
        rw [h1, h2, Bool.false_or]
        exact ih

theorem checkOwnName_erase (ident : String) (A : Args Place) : eraseBy id (checkOwnName ident A) =
    if [A.erase.project, A.erase.projectRef, A.erase.projectReplace.ident].any (fun n => n == some ident) then
      .error (.bail s!"name `{ident}` is the same as the original type name") else .ok () := by
  have hi : A.erase.projectReplace.ident = A.projectReplace.ident.map (·.1) := by
    obtain ⟨_, _, _, _, r⟩ := A
    cases r <;> rfl
  rw [hi]
  exact ownName_list ident [A.project, A.projectRef, A.projectReplace.ident]

theorem checkContext_erase (attrs : List Attribute) (vis : Vis) (ident : String) (g : Generics) (kind : TypeKind) :
    eraseBy (fun A => mkCtx A.erase attrs vis ident g kind) (checkContext attrs ident) =
      Ctx.new attrs vis ident g kind := by
  unfold checkContext Ctx.new
  refine eraseBy_bind (parseArgs_erase attrs) fun A => ?_
  have h := checkOwnName_erase ident A
  cases ho : checkOwnName ident A with
  | ok u =>
    rw [ho] at h
    split at h
    · cases h
    · rename_i hn
      rw [if_neg hn]
      rfl
  | error e =>
    rw [ho] at h
    split at h
    · rename_i hn
      rw [if_pos hn]
      injection h with h
      exact congrArg Except.error h
    · cases h

theorem ensureNotPacked_erase (b : Bool) (cx : Ctx) (fs : Option Fields) (hb : fs.isSome = b) :
    eraseBy id (checkPacked b 0 cx.attrs) = unit (ensureNotPacked cx fs) := by
  unfold ensureNotPacked
  rw [unit_bind, hb, checkPacked_erase]
  cases fs <;> (cases PinProject.checkPacked b cx.attrs <;> rfl)

theorem checkStruct_erase (cx : Ctx) (t : SelfTy) (fs : Fields) :
    eraseBy id (checkStruct cx.attrs fs) = unit (parseStruct cx (fs.visit t)) := by
  unfold checkStruct parseStruct
  rw [unit_bind]
  refine unit_congr (ensureNotPacked_erase true cx _ rfl) fun _ => ?_
  rw [unit_bind]
  cases hfs : fs with
  | unit => rfl
  | named l =>
    refine unit_congr (y := PinProject.validateStruct _) ?_ fun _ => ?_
    · rw [validateStruct_erase]
      cases l <;> rfl
    · rw [unit_bind]
      refine (visitFieldsOf_erase cx none none _ ((Fields.named l).visit t) ?_).trans (bind_unit rfl).symm
      rw [visit_fields_list, List.map_map]
      rfl
  | unnamed l =>
    refine unit_congr (y := PinProject.validateStruct _) ?_ fun _ => ?_
    · rw [validateStruct_erase]
      cases l <;> rfl
    · rw [unit_bind]
      refine (visitFieldsOf_erase cx none none _ ((Fields.unnamed l).visit t) ?_).trans (bind_unit rfl).symm
      rw [visit_fields_list, List.map_map]
      rfl

theorem enumHasField_visit (t : SelfTy) : ∀ (vs : List Variant) (b : Bool),
    PinProject.enumHasField (vs.map (Variant.visit t)) b = PinProject.enumHasField vs b
  | [], _ => rfl
  | v :: vs, b => by
    have h1 : (v.visit t).discriminant.isSome = v.discriminant.isSome := by simp [Variant.visit]
    have h2 : (v.visit t).fields.list.isEmpty = v.fields.list.isEmpty := by
      show (v.fields.visit t).list.isEmpty = _
      rw [visit_fields_list]
      cases v.fields.list <;> rfl
    rw [List.map_cons]
    unfold PinProject.enumHasField
    rw [h1, h2, enumHasField_visit t vs, enumHasField_visit t vs]
    rfl

theorem checkEnum_erase (cx : Ctx) (A : Args Place) (t : SelfTy) (vs : List Variant)
    (hr : cx.projectReplace = A.projectReplace.erase) :
    eraseBy id (checkEnum cx.attrs A vs) = unit (parseEnum cx (vs.map (Variant.visit t))) := by
  unfold checkEnum parseEnum
  rw [hr]
  cases A.projectReplace with
  | unnamed s => rfl
  | none =>
    rw [if_neg (by simp [ProjReplace.erase]), unit_bind]
    show eraseBy id (checkPacked false 0 cx.attrs >>= _) = _
    refine unit_congr (ensureNotPacked_erase false cx none rfl) fun _ => ?_
    rw [unit_bind]
    refine unit_congr (y := PinProject.validateEnum _) ?_ fun _ => ?_
    · rw [validateEnum_erase]
      unfold PinProject.validateEnum
      rw [enumHasField_visit]
      cases vs with
      | nil => rfl
      | cons v vs =>
        simp only [List.isEmpty_cons, List.map_cons]
        cases PinProject.enumHasField (v :: vs) false with
        | error e => rfl
        | ok b => cases b <;> rfl
    · rw [unit_bind]
      exact (checkVariants_erase cx t vs 0 {}).trans (bind_unit rfl).symm
  | named s i =>
    rw [if_neg (by simp [ProjReplace.erase]), unit_bind]
    show eraseBy id (checkPacked false 0 cx.attrs >>= _) = _
    refine unit_congr (ensureNotPacked_erase false cx none rfl) fun _ => ?_
    rw [unit_bind]
    refine unit_congr (y := PinProject.validateEnum _) ?_ fun _ => ?_
    · rw [validateEnum_erase]
      unfold PinProject.validateEnum
      rw [enumHasField_visit]
      cases vs with
      | nil => rfl
      | cons v vs =>
        simp only [List.isEmpty_cons, List.map_cons]
        cases PinProject.enumHasField (v :: vs) false with
        | error e => rfl
        | ok b => cases b <;> rfl
    · rw [unit_bind]
      exact (checkVariants_erase cx t vs 0 {}).trans (bind_unit rfl).symm

/-- `parse_derive` fails exactly when its checks do, with the same message. -/
theorem checkDerive_erase (item : Item) : erase (checkDerive item) = unit (parseDerive item) := by
  show eraseBy id (checkDerive item) = _
  cases item with
  | struct_ s =>
    unfold checkDerive parseDerive deriveStruct
    dsimp only
    rw [unit_bind]
    refine eraseBy_bind (g := fun A => mkCtx A.erase s.attrs (s.visit (mkSelfTy s.ident s.generics.tyGenerics)).vis s.ident
      (s.visit (mkSelfTy s.ident s.generics.tyGenerics)).generics .struct_) (checkContext_erase s.attrs (s.visit (mkSelfTy s.ident s.generics.tyGenerics)).vis s.ident
      (s.visit (mkSelfTy s.ident s.generics.tyGenerics)).generics .struct_) fun A => ?_
    rw [unit_bind]
    exact (checkStruct_erase (mkCtx A.erase s.attrs (s.visit (mkSelfTy s.ident s.generics.tyGenerics)).vis s.ident _ .struct_) _ s.fields).trans (bind_unit rfl).symm
  | enum_ e =>
    unfold checkDerive parseDerive deriveEnum
    dsimp only
    rw [unit_bind]
    refine eraseBy_bind (g := fun A => mkCtx A.erase e.attrs (e.visit (mkSelfTy e.ident e.generics.tyGenerics)).vis e.ident
      (e.visit (mkSelfTy e.ident e.generics.tyGenerics)).generics .enum_) (checkContext_erase e.attrs (e.visit (mkSelfTy e.ident e.generics.tyGenerics)).vis e.ident
      (e.visit (mkSelfTy e.ident e.generics.tyGenerics)).generics .enum_) fun A => ?_
    rw [unit_bind]
    exact (checkEnum_erase (mkCtx A.erase e.attrs (e.visit (mkSelfTy e.ident e.generics.tyGenerics)).vis e.ident _ .enum_) A _ e.variants rfl).trans (bind_unit rfl).symm
  | other a => rfl

/-! ## The attribute stage -/

theorem parseAttribute_erase (args : List TT) (i : RawInput) :
    erase (parseAttribute args i) = PinProject.parseAttribute args i := by
  show eraseBy id (parseAttribute args i) = _
  unfold parseAttribute PinProject.parseAttribute
  refine eraseBy_bind (g := id) ?_ fun _ => rfl
  unfold parseInput PinProject.parseInput
  refine eraseBy_bind (eraseBy_atPlace _ _) fun ahead => ?_
  rw [← findAttr_isSome, ← findAttr_isSome]
  dsimp only [id]
  split
  · rfl
  · cases findAttr i.attrs "pin" with
    | some j => rfl
    | none =>
      cases findAttr i.attrs "pin_project" with
      | some j => rfl
      | none => rfl

/-! ## `#[pinned_drop]` -/

theorem validateSig_erase (i : Nat) (sig : Signature) :
    eraseBy id (validateSig i sig) = PinProject.validateSig sig := by
  unfold validateSig PinProject.validateSig
  dsimp only
  split
  · rfl
  split
  · rfl
  split
  · rename_i h; rw [h]; rfl
  · rename_i h
    rw [h]
    dsimp only
    split
    · split <;> rfl
    · rfl
  · rename_i h; rw [h]; rfl
  · rename_i x y z h
    rw [h]
    cases x <;> rfl

theorem validateItems_erase : ∀ (its : List ImplItem) (i : Nat),
    eraseBy id (validateItems i its) = PinProject.validateItems i its
  | [], _ => rfl
  | it :: its, i => by
    unfold validateItems PinProject.validateItems
    cases it with
    | const n => rfl
    | type n => rfl
    | other => rfl
    | fn m =>
      dsimp only
      refine eraseBy_bind (validateSig_erase i m.sig) fun _ => ?_
      by_cases hi : i = 0
      · rw [if_pos hi, if_pos hi]
        exact validateItems_erase its _
      · rw [if_neg hi, if_neg hi]
        rfl

theorem validateImpl_erase (item : ItemImpl) : eraseBy id (validateImpl item) = PinProject.validateImpl item := by
  unfold validateImpl PinProject.validateImpl
  dsimp only
  rw [← findAttr_isSome]
  cases findAttr item.allAttrs "pinned_drop" with
  | some i => rfl
  | none =>
    simp only [Option.isSome_none, Bool.false_eq_true, if_false]
    have rest : eraseBy id (if item.isUnsafe then
          .error (.bail "implementing the trait `PinnedDrop` is not unsafe" (.one .unsafe_))
        else if item.items.isEmpty then
          .error (.bail "not all trait items implemented, missing: `drop`" (.one .item))
        else if !item.selfTy.isTyPath then
          .error (.bail "implementing the trait `PinnedDrop` on this type is unsupported" (.one .selfTy))
        else validateItems 0 item.items) = (if item.isUnsafe then
          .error (.bail "implementing the trait `PinnedDrop` is not unsafe")
        else if item.items.isEmpty then
          .error (.bail "not all trait items implemented, missing: `drop`")
        else if !item.selfTy.isTyPath then
          .error (.bail "implementing the trait `PinnedDrop` on this type is unsupported")
        else PinProject.validateItems 0 item.items) := by
      split
      · rfl
      split
      · rfl
      split
      · rfl
      exact validateItems_erase _ _
    cases ht : item.trait_ with
    | none => rfl
    | some t =>
      obtain ⟨n, p⟩ := t
      cases hp : p.isIdent "PinnedDrop" with
      | false => simp only [checkTrait, traitIsPinnedDrop, hp]; rfl
      | true =>
        simp only [checkTrait, traitIsPinnedDrop, hp, Bool.not_true, Bool.false_eq_true, if_false, if_true]
        exact rest

end PinProject.Locate

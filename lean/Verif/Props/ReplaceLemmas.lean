import Verif.Props.Project
/-!
# Executing `project_replace`
-/
namespace PinProject
open Spec

theorem runDtor_mem (orc : Oracle) (e : Event) (m : M) : (m.runDtor orc e).mem = m.mem := by
  unfold M.runDtor
  split <;> rfl

theorem dropInPlace_mem (orc : Oracle) (p : Nat) (parts : List (String × Id)) (m : M) :
    (dropInPlace orc p parts m).mem = m.mem := by
  induction parts generalizing m with
  | nil => rfl
  | cons x parts ih => exact (ih _).trans (runDtor_mem _ _ _)

theorem dropOwned_mem (orc : Oracle) (parts : List (String × Id)) (m : M) :
    (dropOwned orc parts m).mem = m.mem := by
  induction parts generalizing m with
  | nil => rfl
  | cons x parts ih => exact (ih _).trans (runDtor_mem _ _ _)

theorem runDtor_not_stuck (orc : Oracle) (e : Event) (m : M) (h : m.status ≠ .stuck) :
    (m.runDtor orc e).status ≠ .stuck := by
  unfold M.runDtor
  split
  · simp only; split <;> simp
  · simp only; split <;> simp
  · exact h

theorem dropInPlace_not_stuck (orc : Oracle) (p : Nat) (parts : List (String × Id)) (m : M)
    (h : m.status ≠ .stuck) : (dropInPlace orc p parts m).status ≠ .stuck := by
  induction parts generalizing m with
  | nil => exact h
  | cons x parts ih => exact ih _ (runDtor_not_stuck _ _ _ h)

theorem lookup_of_mem {l : List (String × Id)} (hn : (l.map Prod.fst).Nodup) {x : String × Id}
    (hx : x ∈ l) : l.lookup x.1 = some x.2 := by
  have := lookup_append_of_mem (k := x.1) (v := x.2) hn hx []
  simpa using this

theorem obj_lookup {fs : Fields} (hwf : fs.WF) {o : Obj} (ho : o.fields.map Prod.fst = labels fs.list)
    {x : String × Id} (hx : x ∈ o.fields) : o.fields.lookup x.1 = some x.2 :=
  lookup_of_mem (by rw [ho]; exact labels_nodup hwf) hx

/-! ## The constructor that moves the unpinned fields out -/

theorem evalInits_own {fs : Fields} (hwf : fs.WF) {o : Obj}
    (ho : o.fields.map Prod.fst = labels fs.list) (p : Nat) (env : Env) (m : M) (hp : m.mem p = some o) :
    ∀ (l : List Field) (i : Nat) (ofs : List (String × Id)), (∀ x ∈ l.zipIdx i, x ∈ fs.list.zipIdx) →
    (∀ x ∈ ofs, x ∈ o.fields) → ofs.map Prod.fst = (l.zipIdx i).map (fun x => fieldLabel x.2 x.1) →
    evalInits m ((patEnv true p fs.list).reverse ++ env) fs.delim i ((l.zipIdx i).map moveInit) =
      some ((l.zip ofs).map (fun x => (x.2.1, if Pinned x.1 then .phantom else .own x.2.2))) := by
  intro l
  induction l with
  | nil => intro i ofs _ _ _; simp [evalInits]
  | cons f l ih =>
    intro i ofs hsub hofs hlab
    cases ofs with
    | nil => simp [List.zipIdx_cons] at hlab
    | cons of ofs =>
      rw [List.zipIdx_cons, List.map_cons, List.map_cons, List.cons.injEq] at hlab
      have hx : (f, i) ∈ fs.list.zipIdx := hsub _ (by simp [List.zipIdx_cons])
      have hlk := patEnv_lookup hwf true p env hx
      have hg : Env.getRef (binding i f) ((patEnv true p fs.list).reverse ++ env) =
          some (true, ⟨p, some (fieldLabel i f)⟩) := by
        unfold Env.getRef
        rw [hlk]
      have ih' := ih (i + 1) ofs
        (fun x hx => hsub x (by rw [List.zipIdx_cons]; exact List.mem_cons_of_mem _ hx))
        (fun x hx => hofs x (List.mem_cons_of_mem _ hx)) hlab.2
      have hid : m.idAt ⟨p, some (fieldLabel i f)⟩ = some of.2 := by
        unfold M.idAt
        simp only [hp]
        rw [← hlab.1]
        exact obj_lookup hwf ho (hofs _ List.mem_cons_self)
      rw [List.zipIdx_cons, List.map_cons, List.zip_cons_cons, List.map_cons]
      unfold evalInits
      rw [ih']
      have hv : evalF m ((patEnv true p fs.list).reverse ++ env) (moveInit (f, i)).expr =
          some (if Pinned f then .phantom else .own of.2) := by
        unfold moveInit
        cases hpf : Pinned f <;> simp [GInit.expr, evalF, hg, hid]
      have hlab' : GInit.label fs.delim i (moveInit (f, i)) = of.1 := hlab.1.symm
      simp only [hv, hlab']
      rfl

theorem evalCtor_own {fs : Fields} (hwf : fs.WF) {o : Obj}
    (ho : o.fields.map Prod.fst = labels fs.list) (p : Nat) (env : Env) (m : M) (hp : m.mem p = some o)
    (orc : Oracle) (name : String) (variant : Option String) :
    evalRHS orc ((patEnv true p fs.list).reverse ++ env) m
      (.ctor ⟨name, variant, fs.delim, fs.list.zipIdx.map moveInit⟩) =
      some (.adt name variant (ownedParts fs o), (patEnv true p fs.list).reverse ++ env, m) := by
  unfold evalRHS
  simp only
  rw [evalInits_own hwf ho p env m hp fs.list 0 o.fields (fun x hx => hx) (fun x hx => hx) ho]
  rfl

/-! ## The guards -/

theorem evalLets_guards (orc : Oracle) (m : M) (hm : m.status = .run) :
    ∀ (xs : List (String × Loc)) (env : Env),
    (∀ x ∈ xs, env.lookup x.1 = some (some (.fv (.ref true x.2)))) →
    (∀ x ∈ xs.tail, x.1 ≠ "__guard") →
    evalLets orc (xs.map (fun x => ("__guard", .dropGuard x.1))) env m =
      ((xs.map (fun x => ("__guard", some (Val.diGuard x.2)))).reverse ++ env, m) := by
  intro xs
  induction xs with
  | nil => intro env _ _; rfl
  | cons x xs ih =>
    intro env h hne
    have hu : env.use x.1 = some (.fv (.ref true x.2), env) :=
      use_of_lookup (h x List.mem_cons_self) rfl
    rw [List.map_cons]
    unfold evalLets
    have he : evalRHS orc env m (.dropGuard x.1) = some (.diGuard x.2, env, m) := by
      simp [evalRHS, hu]
    rw [he]
    simp only [hm, if_true]
    rw [ih]
    · simp
    · intro y hy
      have : (y.1 == "__guard") = false := by simpa using hne y hy
      rw [List.lookup_cons, this]
      exact h y (List.mem_cons_of_mem _ hy)
    · intro y hy
      exact hne y (List.mem_of_mem_tail hy)

theorem lookup_of_use {x : String} {env env' : Env} {v : Val} (h : env.use x = some (v, env')) :
    env.lookup x = some (some v) := by
  induction env generalizing env' with
  | nil => simp [Env.use] at h
  | cons e env ih =>
    obtain ⟨y, w⟩ := e
    unfold Env.use at h
    rw [List.lookup_cons]
    by_cases hy : y = x
    · subst hy
      simp only [if_true, Option.map_eq_some_iff] at h
      obtain ⟨w', rfl, h⟩ := h
      simp only [Prod.mk.injEq] at h
      simp [h.1]
    · have : (x == y) = false := by simpa using fun h => hy h.symm
      rw [if_neg hy] at h
      simp only [Option.map_eq_some_iff] at h
      obtain ⟨r, hr, h⟩ := h
      simp only [Prod.mk.injEq] at h
      rw [this]
      simp only
      obtain ⟨rv, re⟩ := r
      obtain ⟨rfl, -⟩ := h
      exact ih hr

/-- Does the name stand for something else than a reference? -/
def NotRef (env : Env) (x : String) : Prop := ∀ b l, env.lookup x ≠ some (some (.fv (.ref b l)))

theorem dropGuard_notRef (orc : Oracle) (env : Env) (m : M) (x : String) (h : NotRef env x) :
    evalRHS orc env m (.dropGuard x) = none := by
  unfold evalRHS
  cases hu : env.use x with
  | none => simp only [hu]; rfl
  | some r =>
    obtain ⟨v, env'⟩ := r
    have := lookup_of_use hu
    simp only [hu, Option.bind_eq_bind, Option.bind_some]
    split
    · rename_i l env'' heq
      simp only [Prod.mk.injEq] at heq
      rw [heq.1] at this
      exact absurd this (h _ _)
    · rfl

/-- A name captured by an earlier guard, or by `__result`: the borrow checker does not even see
this program. -/
theorem evalLets_stuck (orc : Oracle) (m : M) (hm : m.status = .run) :
    ∀ (xs : List (String × Loc)) (env : Env),
    (∀ x ∈ xs, env.lookup x.1 = some (some (.fv (.ref true x.2))) ∨ NotRef env x.1) →
    (∃ x ∈ xs, NotRef env x.1) →
    (evalLets orc (xs.map (fun x => ("__guard", .dropGuard x.1))) env m).2 = m.getStuck := by
  intro xs
  induction xs with
  | nil => rintro env _ ⟨x, hx, _⟩; simp at hx
  | cons x xs ih =>
    intro env h hb
    rw [List.map_cons]
    unfold evalLets
    rcases h x List.mem_cons_self with hx | hx
    · have he : evalRHS orc env m (.dropGuard x.1) = some (.diGuard x.2, env, m) := by
        simp [evalRHS, use_of_lookup hx rfl]
      rw [he]
      simp only [hm, if_true]
      have keep : ∀ y, NotRef env y → NotRef (("__guard", some (Val.diGuard x.2)) :: env) y := by
        intro y hy b l
        rw [List.lookup_cons]
        split
        · simp
        · exact hy b l
      apply ih
      · intro y hy
        rcases h y (List.mem_cons_of_mem _ hy) with h1 | h1
        · by_cases hg : y.1 = "__guard"
          · right
            intro b l
            simp [hg]
          · left
            have : (y.1 == "__guard") = false := by simpa using hg
            rw [List.lookup_cons, this]
            exact h1
        · exact .inr (keep _ h1)
      · obtain ⟨y, hy, hyn⟩ := hb
        rcases List.mem_cons.1 hy with rfl | hy
        · exact absurd hx (hyn _ _)
        · exact ⟨y, hy, keep _ hyn⟩
    · rw [dropGuard_notRef orc env m _ hx]

theorem evalLets_stuck_guard (orc : Oracle) (m : M) (hm : m.status = .run)
    (xs : List (String × Loc)) (env : Env)
    (h : ∀ x ∈ xs, env.lookup x.1 = some (some (.fv (.ref true x.2))))
    (hb : ∃ x ∈ xs.tail, x.1 = "__guard") :
    (evalLets orc (xs.map (fun x => ("__guard", .dropGuard x.1))) env m).2 = m.getStuck := by
  cases xs with
  | nil => obtain ⟨x, hx, _⟩ := hb; simp at hx
  | cons x xs =>
    rw [List.map_cons]
    unfold evalLets
    have he : evalRHS orc env m (.dropGuard x.1) = some (.diGuard x.2, env, m) := by
      simp [evalRHS, use_of_lookup (h x List.mem_cons_self) rfl]
    rw [he]
    simp only [hm, if_true]
    have cap : ∀ y : String, y = "__guard" → NotRef (("__guard", some (Val.diGuard x.2)) :: env) y := by
      intro y hy b l
      simp [hy]
    apply evalLets_stuck orc m hm
    · intro y hy
      by_cases hg : y.1 = "__guard"
      · exact .inr (cap _ hg)
      · left
        have : (y.1 == "__guard") = false := by simpa using hg
        rw [List.lookup_cons, this]
        exact h y (List.mem_cons_of_mem _ hy)
    · obtain ⟨y, hy, hyn⟩ := hb
      exact ⟨y, hy, cap _ hyn⟩

theorem dropSlots_guards (orc : Oracle) (p : Nat) (o : Obj) :
    ∀ (parts : List (String × Id)) (m : M), m.mem p = some o →
    (∀ x ∈ parts, o.fields.lookup x.1 = some x.2) →
    dropSlots orc ((parts.map Prod.fst).map (fun l => ("__guard", some (Val.diGuard ⟨p, some l⟩)))) m =
      dropInPlace orc p parts m := by
  intro parts
  induction parts with
  | nil => intro m _ _; rfl
  | cons x parts ih =>
    intro m hp h
    simp only [List.map_cons, dropSlots, dropVal, dropInPlaceGuardDrop]
    have hid : m.idAt ⟨p, some x.1⟩ = some x.2 := by
      unfold M.idAt
      simp only [hp]
      exact h x List.mem_cons_self
    rw [hid]
    simp only
    exact ih _ (by rw [runDtor_mem]; exact hp) (fun y hy => h y (List.mem_cons_of_mem _ hy))

/-- The locations of the pinned fields, with the names they are bound to. -/
def pinnedLocs (p : Nat) (fs : List Field) : List (String × Loc) :=
  (fs.zipIdx.filter (fun x => Pinned x.1)).map (fun x => (binding x.2 x.1, ⟨p, some (fieldLabel x.2 x.1)⟩))

theorem pinned_zip (l : List Field) (i : Nat) (ofs : List (String × Id))
    (h : ofs.map Prod.fst = (l.zipIdx i).map (fun x => fieldLabel x.2 x.1)) :
    (((l.zip ofs).filter (fun x => Pinned x.1)).map (·.2)).map Prod.fst =
      ((l.zipIdx i).filter (fun x => Pinned x.1)).map (fun x => fieldLabel x.2 x.1) := by
  induction l generalizing i ofs with
  | nil => simp
  | cons f l ih =>
    cases ofs with
    | nil => simp [List.zipIdx_cons] at h
    | cons of ofs =>
      rw [List.zipIdx_cons, List.map_cons, List.map_cons, List.cons.injEq] at h
      have := ih (i + 1) ofs h.2
      rw [List.zipIdx_cons, List.zip_cons_cons, List.filter_cons, List.filter_cons]
      cases hp : Pinned f
      · simpa [hp] using this
      · simp [this, h.1]

theorem pinnedParts_labels {fs : Fields} {o : Obj} (ho : o.fields.map Prod.fst = labels fs.list) (p : Nat) :
    (pinnedLocs p fs.list).map Prod.snd =
      ((pinnedParts fs o).map Prod.fst).map (fun l => Loc.mk p (some l)) := by
  unfold pinnedParts
  rw [pinned_zip fs.list 0 o.fields ho]
  simp [pinnedLocs, List.map_map, Function.comp_def]

theorem pinnedParts_lookup {fs : Fields} (hwf : fs.WF) {o : Obj}
    (ho : o.fields.map Prod.fst = labels fs.list) :
    ∀ x ∈ pinnedParts fs o, o.fields.lookup x.1 = some x.2 := by
  intro x hx
  apply obj_lookup hwf ho
  obtain ⟨y, hy, rfl⟩ := List.mem_map.1 hx
  have := (List.mem_filter.1 hy).1
  exact (List.of_mem_zip this).2

/-! ## The whole body -/

/-- The variables after the two first statements of `project_replace`. -/
def baseEnv (p : Nat) (new : Obj) : Env :=
  [("__guard", some (.owGuard ⟨p, none⟩ new)), ("__self_ptr", some (.ptr ⟨p, none⟩)),
   ("__replacement", none), ("self", some (.fv (.pinRef true ⟨p, none⟩)))]

theorem dropSlots_base (orc : Oracle) (p : Nat) (new : Obj) (m : M) :
    dropSlots orc (baseEnv p new) m = m.write p new := rfl

theorem filter_zipIdx (l : List Field) (i : Nat) :
    ((l.zipIdx i).filter (fun x => Pinned x.1)).map (·.1) = l.filter Pinned := by
  induction l generalizing i with
  | nil => rfl
  | cons f l ih =>
    rw [List.zipIdx_cons, List.filter_cons, List.filter_cons]
    cases hp : Pinned f <;> simp [ih]

theorem binding_eq_iff (i : Nat) (f : Field) (s : String) (hs : ∃ t, s.toList = '_' :: '_' :: t) :
    binding i f = s ↔ f.ident = some s := by
  unfold binding
  cases h : f.ident with
  | some n => simp
  | none =>
    simp only [Option.getD_none, reduceCtorEq, iff_false]
    intro he
    obtain ⟨t, ht⟩ := hs
    have h1 := congrArg String.toList he
    rw [ht, String.toList_append] at h1
    have h2 : (toString i).toList = Nat.toDigits 10 i := Nat.toList_repr
    have h3 : (toString i).toList = '_' :: t := by
      simpa using h1
    have := Nat.isDigit_of_mem_toDigits (b := 10) (n := i) (c := '_') (by decide) (by decide)
      (by rw [← h2, h3]; exact List.mem_cons_self)
    simp at this

theorem evalBlock_append (orc : Oracle) (tl : Bool) (n : Nat) (a b : List GStmt) (e : RHS) (env env' : Env)
    (m m' : M) (h : evalStmts orc a env m = (env', m')) (hm : m'.status = .run) :
    evalBlock orc tl n (a ++ b) e env m = evalBlock orc tl n b e env' m' := by
  have key : evalStmts orc (a ++ b) env m = evalStmts orc b env' m' := by
    induction a generalizing env m with
    | nil => simp only [evalStmts, Prod.mk.injEq] at h; simp [h.1, h.2]
    | cons s a ih =>
      simp only [List.cons_append, evalStmts] at *
      split at h
      · rename_i hr
        rw [if_pos hr]
        exact ih _ _ h
      · rename_i hr
        rw [h] at hr
        exact absurd hm hr
  unfold evalBlock
  rw [key]

theorem write_status (p : Nat) (o : Obj) (m : M) : (m.write p o).status = m.status := by
  unfold M.write
  split <;> rfl

theorem dropVal_owned (orc : Oracle) (name : String) (variant : Option String) (fs : Fields) (o : Obj)
    (m : M) : dropVal orc (.adt name variant (ownedParts fs o)) m = dropOwned orc (unpinnedParts fs o) m := by
  simp only [dropVal, ownedParts, unpinnedParts, dropOwned]
  generalize fs.list.zip o.fields = l
  induction l generalizing m with
  | nil => rfl
  | cons x l ih =>
    rw [List.map_cons, List.foldl_cons, List.filter_cons]
    cases hp : Pinned x.1
    · simp only [Bool.not_false, if_true, List.map_cons, List.foldl_cons, Bool.false_eq_true, if_false]
      exact ih _
    · simp only [Bool.not_true, if_true, Bool.false_eq_true, if_false]
      exact ih _

/-- What `project_replace` does with the value `o` at place `p`: destroy the `#[pin]` fields in place,
in order; if none of them panicked give the other fields back, else destroy them; in both cases the
place ends up holding the replacement. -/
def replaceOut (orc : Oracle) (p : Nat) (fs : Fields) (o new : Obj) (name : String) (m : M) :
    Option Val × M :=
  let m1 := dropInPlace orc p (pinnedParts fs o) m
  if m1.status = .run then (some (.adt name o.variant (ownedParts fs o)), m1.write p new)
  else (none, (dropOwned orc (unpinnedParts fs o) m1).write p new)

/-- The statements of the own body before the tail expression. -/
def ownStmts (name : String) (variant : Option String) (fs : Fields) : List GStmt :=
  [ .letVar "__result" none (.ctor ⟨name, variant, fs.delim, fs.list.zipIdx.map moveInit⟩),
    .scope ((pinnedBindings fs.list).reverse.map (fun x => ("__guard", .dropGuard x))) ]

theorem ownEnv_lookup {fs : Fields} (hwf : fs.WF) (p : Nat) (env : Env) (v : Option Val) :
    ∀ x ∈ (pinnedLocs p fs.list).reverse, x.1 ≠ "__result" →
      List.lookup x.1 (("__result", v) :: ((patEnv true p fs.list).reverse ++ env)) =
        some (some (.fv (.ref true x.2))) := by
  intro x hx hne
  rw [List.mem_reverse] at hx
  obtain ⟨y, hy, rfl⟩ := List.mem_map.1 hx
  have : (binding y.2 y.1 == "__result") = false := by simpa using hne
  rw [List.lookup_cons, this]
  exact patEnv_lookup hwf true p env (List.mem_filter.1 hy).1

theorem scope_args (p : Nat) (fs : List Field) :
    (pinnedBindings fs).reverse.map (fun x => ("__guard", RHS.dropGuard x)) =
      (pinnedLocs p fs).reverse.map (fun x => ("__guard", .dropGuard x.1)) := by
  simp [pinnedBindings, pinnedLocs, List.map_reverse, List.map_map, Function.comp_def]

theorem namesFree_result {fs : Fields} (h : ∀ f ∈ fs.list.filter Pinned, f.ident ≠ some "__result") (p : Nat) :
    ∀ x ∈ pinnedLocs p fs.list, x.1 ≠ "__result" := by
  intro x hx
  obtain ⟨y, hy, rfl⟩ := List.mem_map.1 hx
  intro he
  rw [binding_eq_iff _ _ _ ⟨_, rfl⟩] at he
  exact h y.1 (by rw [← filter_zipIdx fs.list 0]; exact List.mem_map_of_mem hy) he

theorem mem_dropLast_map {α β : Type} (g : α → β) (l : List α) : (l.map g).dropLast = l.dropLast.map g := by
  rw [List.map_dropLast]

theorem namesFree_guard {fs : Fields} (p : Nat) :
    (∀ f ∈ (fs.list.filter Pinned).dropLast, f.ident ≠ some "__guard") ↔
      ∀ x ∈ (pinnedLocs p fs.list).reverse.tail, x.1 ≠ "__guard" := by
  rw [List.tail_reverse]
  unfold pinnedLocs
  rw [mem_dropLast_map, ← filter_zipIdx fs.list 0, mem_dropLast_map]
  constructor
  · intro h x hx
    rw [List.mem_reverse] at hx
    obtain ⟨y, hy, rfl⟩ := List.mem_map.1 hx
    intro he
    rw [binding_eq_iff _ _ _ ⟨_, rfl⟩] at he
    exact h _ (List.mem_map_of_mem hy) he
  · intro h f hf
    obtain ⟨y, hy, rfl⟩ := List.mem_map.1 hf
    intro he
    refine h _ (List.mem_reverse.2 (List.mem_map_of_mem hy)) ?_
    rw [binding_eq_iff _ _ _ ⟨_, rfl⟩]
    exact he

/-- The statements of the own body, when no name is captured. -/
theorem evalStmts_own {fs : Fields} (hwf : fs.WF) (hfree : NamesFree fs) {o : Obj}
    (ho : o.fields.map Prod.fst = labels fs.list) (p : Nat) (env : Env) (m : M) (hp : m.mem p = some o)
    (hm : m.status = .run) (orc : Oracle) (name : String) (variant : Option String) :
    evalStmts orc (ownStmts name variant fs) ((patEnv true p fs.list).reverse ++ env) m =
      (("__result", some (.adt name variant (ownedParts fs o))) :: ((patEnv true p fs.list).reverse ++ env),
        dropInPlace orc p (pinnedParts fs o) m) := by
  have h1 := evalCtor_own hwf ho p env m hp orc name variant
  have h2 := evalLets_guards orc m hm (pinnedLocs p fs.list).reverse
    (("__result", some (.adt name variant (ownedParts fs o))) :: ((patEnv true p fs.list).reverse ++ env))
    (fun x hx => ownEnv_lookup hwf p env _ x hx
      (namesFree_result hfree.1 p x (List.mem_reverse.1 hx)))
    ((namesFree_guard p).1 hfree.2)
  unfold ownStmts
  simp only [evalStmts, evalStmt, h1, coerce, hm, if_true]
  rw [scope_args p fs.list, h2]
  have hlen : ∀ (a e : Env), (a ++ e).length - e.length = a.length := by
    intro a e; rw [List.length_append]; omega
  simp only [hlen, List.take_left, List.drop_left]
  have hd : ((pinnedLocs p fs.list).reverse.map (fun x => ("__guard", some (Val.diGuard x.2)))).reverse =
      ((pinnedParts fs o).map Prod.fst).map (fun l => ("__guard", some (Val.diGuard ⟨p, some l⟩))) := by
    rw [List.map_reverse, List.reverse_reverse]
    have := pinnedParts_labels ho p
    have h3 := congrArg (List.map (fun l => ("__guard", some (Val.diGuard l)))) this
    simpa [List.map_map, Function.comp_def] using h3
  rw [hd, dropSlots_guards orc p o _ m hp (pinnedParts_lookup hwf ho)]
  split <;> rfl

theorem namesFree_cases (fs : Fields) (p : Nat) (h : ¬ NamesFree fs) :
    (∃ x ∈ pinnedLocs p fs.list, x.1 = "__result") ∨
    ((∀ x ∈ pinnedLocs p fs.list, x.1 ≠ "__result") ∧
      ∃ x ∈ (pinnedLocs p fs.list).reverse.tail, x.1 = "__guard") := by
  by_cases h1 : ∃ x ∈ pinnedLocs p fs.list, x.1 = "__result"
  · exact .inl h1
  · right
    have h1' : ∀ x ∈ pinnedLocs p fs.list, x.1 ≠ "__result" := fun x hx he => h1 ⟨x, hx, he⟩
    refine ⟨h1', ?_⟩
    apply Classical.byContradiction
    intro h2
    apply h
    refine ⟨?_, (namesFree_guard p).2 (fun x hx he => h2 ⟨x, hx, he⟩)⟩
    intro f hf he
    rw [← filter_zipIdx fs.list 0] at hf
    obtain ⟨y, hy, rfl⟩ := List.mem_map.1 hf
    refine h1' _ (List.mem_map_of_mem hy) ?_
    rw [binding_eq_iff _ _ _ ⟨_, rfl⟩]
    exact he

theorem dropSlots_stuck (orc : Oracle) (e : Env) (m : M) (h : m.status = .stuck) :
    (dropSlots orc e m).status = .stuck := by
  have hr : ∀ (ev : Event) (m : M), m.status = .stuck → (m.runDtor orc ev).status = .stuck := by
    intro ev m h; unfold M.runDtor; rw [h]; exact h
  have hf : ∀ (v : FVal) (m : M), m.status = .stuck → (dropFVal orc v m).status = .stuck := by
    intro v m h; cases v <;> first | exact h | exact hr _ _ h
  have hv : ∀ (v : Val) (m : M), m.status = .stuck → (dropVal orc v m).status = .stuck := by
    intro v m h
    cases v with
    | fv v => exact hf v m h
    | obj o =>
      simp only [dropVal]
      generalize o.fields = l
      induction l generalizing m with
      | nil => exact h
      | cons x l ih => exact ih _ (hr _ _ h)
    | adt n vr l =>
      simp only [dropVal]
      induction l generalizing m with
      | nil => exact h
      | cons x l ih => exact ih _ (hf _ _ h)
    | owGuard l o =>
      simp only [dropVal, overwriteGuardDrop]
      split
      · rw [write_status]; exact h
      · rfl
    | diGuard l =>
      simp only [dropVal, dropInPlaceGuardDrop]
      split
      · exact hr _ _ h
      · rfl
    | unit => exact h
    | ptr => exact h
  induction e generalizing m with
  | nil => exact h
  | cons x e ih =>
    obtain ⟨y, v⟩ := x
    cases v with
    | none => exact ih m h
    | some v => exact ih _ (hv v m h)

/-- .. and when one is. -/
theorem evalStmts_own_stuck {fs : Fields} (hwf : fs.WF) (hfree : ¬ NamesFree fs) {o : Obj}
    (ho : o.fields.map Prod.fst = labels fs.list) (p : Nat) (env : Env) (m : M) (hp : m.mem p = some o)
    (hm : m.status = .run) (orc : Oracle) (name : String) (variant : Option String) :
    (evalStmts orc (ownStmts name variant fs) ((patEnv true p fs.list).reverse ++ env) m).2.status =
      .stuck := by
  have h1 := evalCtor_own hwf ho p env m hp orc name variant
  have h2 : (evalLets orc ((pinnedLocs p fs.list).reverse.map (fun x => ("__guard", .dropGuard x.1)))
      (("__result", some (.adt name variant (ownedParts fs o))) :: ((patEnv true p fs.list).reverse ++ env))
      m).2 = m.getStuck := by
    rcases namesFree_cases fs p hfree with h | ⟨h, hg⟩
    · have hb : ∀ x : String × Loc, x.1 = "__result" → NotRef
          (("__result", some (.adt name variant (ownedParts fs o))) ::
            ((patEnv true p fs.list).reverse ++ env)) x.1 := by
        intro x hx b l
        simp [hx]
      apply evalLets_stuck orc m hm
      · intro x hx
        by_cases hr : x.1 = "__result"
        · exact .inr (hb x hr)
        · exact .inl (ownEnv_lookup hwf p env _ x hx hr)
      · obtain ⟨x, hx, hr⟩ := h
        exact ⟨x, List.mem_reverse.2 hx, hb x hr⟩
    · apply evalLets_stuck_guard orc m hm
      · intro x hx
        exact ownEnv_lookup hwf p env _ x hx (h x (List.mem_reverse.1 hx))
      · exact hg
  unfold ownStmts
  simp only [evalStmts, evalStmt, h1, coerce, hm, if_true]
  rw [scope_args p fs.list, h2]
  have := dropSlots_stuck orc (List.take
    ((evalLets orc ((pinnedLocs p fs.list).reverse.map (fun x => ("__guard", .dropGuard x.1)))
      (("__result", some (.adt name variant (ownedParts fs o))) :: ((patEnv true p fs.list).reverse ++ env))
      m).1.length - (("__result", some (Val.adt name variant (ownedParts fs o))) ::
        ((patEnv true p fs.list).reverse ++ env)).length)
    (evalLets orc ((pinnedLocs p fs.list).reverse.map (fun x => ("__guard", .dropGuard x.1)))
      (("__result", some (.adt name variant (ownedParts fs o))) :: ((patEnv true p fs.list).reverse ++ env))
      m).1) m.getStuck rfl
  split
  · exact this
  · exact this

/-- The block of `project_replace` that follows the pattern. `n` is 0 (struct) or the number of
variables outside the match arm (enum). -/
theorem evalBlock_own {fs : Fields} (hwf : fs.WF) (hfree : NamesFree fs) {o : Obj}
    (ho : o.fields.map Prod.fst = labels fs.list) (p : Nat) (outer inner : Env) (m : M)
    (hp : m.mem p = some o) (hm : m.status = .run) (orc : Oracle) (tl : Bool) (name : String)
    (variant : Option String) (hin : ∀ m, (dropSlots orc inner m).status = m.status) :
    evalBlock orc tl outer.length (ownStmts name variant fs) (.var "__result")
      ((patEnv true p fs.list).reverse ++ (inner ++ outer)) m =
      (let m1 := dropInPlace orc p (pinnedParts fs o) m
       if m1.status = .run then
         ⟨some (.adt name variant (ownedParts fs o)), outer, dropSlots orc inner m1⟩
       else ⟨none, outer, dropSlots orc inner (dropOwned orc (unpinnedParts fs o) m1)⟩) := by
  unfold evalBlock
  rw [evalStmts_own hwf hfree ho p (inner ++ outer) m hp hm orc name variant]
  simp only
  have hsplit : ∀ (x : String × Option Val),
      x :: ((patEnv true p fs.list).reverse ++ (inner ++ outer)) =
        (x :: ((patEnv true p fs.list).reverse ++ inner)) ++ outer := by simp
  have hlen : ∀ (a e : Env), (a ++ e).length - e.length = a.length := by
    intro a e; rw [List.length_append]; omega
  split
  · rename_i hrun
    have hv : evalRHS orc (("__result", some (Val.adt name variant (ownedParts fs o))) ::
        ((patEnv true p fs.list).reverse ++ (inner ++ outer)))
        (dropInPlace orc p (pinnedParts fs o) m) (.var "__result") =
        some (.adt name variant (ownedParts fs o), ("__result", none) ::
        ((patEnv true p fs.list).reverse ++ (inner ++ outer)),
        dropInPlace orc p (pinnedParts fs o) m) := by
      simp [evalRHS, Env.use, Val.isOwning]
    rw [hv]
    simp only [hrun, if_true]
    unfold leave
    rw [hsplit]
    simp only [hlen, List.take_left, List.drop_left]
    simp only [dropSlots]
    rw [dropSlots_append, dropSlots_patEnv, hin, hrun]
  · rename_i hrun
    unfold leavePanic
    rw [hsplit]
    simp only [hlen, List.take_left, List.drop_left, dropSlots]
    rw [dropSlots_append, dropSlots_patEnv, dropVal_owned]

/-- The arguments of a call of `project_replace`. -/
def argEnv (p : Nat) (new : Obj) : Env :=
  [("__replacement", some (.obj new)), ("self", some (.fv (.pinRef true ⟨p, none⟩)))]

/-- The two first statements of `project_replace`. -/
def preStmts : List GStmt :=
  [ .letVar "__self_ptr" (some "*mut Self") (.getUncheckedMut "self"),
    .letVar "__guard" none (.overwriteGuard "__self_ptr" "__replacement") ]

theorem evalStmts_pre (orc : Oracle) (p : Nat) (new : Obj) (m : M) (hm : m.status = .run) :
    evalStmts orc preStmts (argEnv p new) m = (baseEnv p new, m) := by
  simp [preStmts, argEnv, evalStmts, evalStmt, evalRHS, Env.use, Val.isOwning, coerce, hm, baseEnv]

theorem evalStmt_pat (orc : Oracle) {fs : Fields} (hwf : fs.WF) {o : Obj}
    (ho : o.fields.map Prod.fst = labels fs.list) (p : Nat) (new : Obj) (m : M) (hp : m.mem p = some o) :
    evalStmt orc (baseEnv p new) m (.letPat ⟨o.variant, fs.delim, bindings fs.list⟩ (.reborrow "__self_ptr")) =
      ((patEnv true p fs.list).reverse ++ baseEnv p new, m) := by
  have hb := bindPat_eq hwf ho true p
  simp [evalStmt, evalRHS, baseEnv, Env.use, Val.isOwning, hp, hb]

end PinProject

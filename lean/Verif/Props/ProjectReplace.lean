import Verif.Props.Replace
/-!
# C20 – C23 and C42: `project_replace`
-/
namespace PinProject
open Spec

/-! ## Running a sequence of destructors -/

def runAll (orc : Oracle) (es : List Event) (m : M) : M := es.foldl (fun m e => m.runDtor orc e) m

theorem runAll_append (orc : Oracle) (a b : List Event) (m : M) :
    runAll orc (a ++ b) m = runAll orc b (runAll orc a m) := by simp [runAll]

theorem dropInPlace_eq (orc : Oracle) (p : Nat) (parts : List (String × Id)) (m : M) :
    dropInPlace orc p parts m =
      runAll orc (parts.map (fun x => .drop x.2 (some ⟨p, some x.1⟩))) m := by
  simp [dropInPlace, runAll, List.foldl_map]

theorem dropOwned_eq (orc : Oracle) (parts : List (String × Id)) (m : M) :
    dropOwned orc parts m = runAll orc (parts.map (fun x => .drop x.2 none)) m := by
  simp [dropOwned, runAll, List.foldl_map]

theorem runAll_dead (orc : Oracle) (es : List Event) (m : M) (h : m.status = .abort) :
    runAll orc es m = m := by
  induction es generalizing m with
  | nil => rfl
  | cons e es ih =>
    have : m.runDtor orc e = m := by unfold M.runDtor; rw [h]
    show runAll orc es (m.runDtor orc e) = m
    rw [this]
    exact ih m h

theorem runAll_unwind (orc : Oracle) (es : List Event) (m : M) (h : m.status = .unwind) :
    (panics orc m.trace es = 0 → runAll orc es m = { m with trace := m.trace ++ es }) ∧
    (panics orc m.trace es ≠ 0 → (runAll orc es m).status = .abort) := by
  induction es generalizing m with
  | nil => simp [panics, runAll]
  | cons e es ih =>
    have hs : runAll orc (e :: es) m = runAll orc es (m.runDtor orc e) := rfl
    rw [hs]
    cases ho : orc m.trace e with
    | true =>
      have hm : m.runDtor orc e = { m with trace := m.trace ++ [e], status := .abort } := by
        unfold M.runDtor; rw [h]; simp [ho]
      constructor
      · intro h0; simp [panics, ho] at h0
      · intro _; rw [hm, runAll_dead]; rfl
    | false =>
      have hm : m.runDtor orc e = { m with trace := m.trace ++ [e], status := .unwind } := by
        unfold M.runDtor; rw [h]; simp [ho]
      have := ih (m.runDtor orc e) (by rw [hm])
      rw [hm] at this ⊢
      simp only [panics, ho, Bool.false_eq_true, if_false, Nat.zero_add]
      constructor
      · intro h0
        rw [this.1 h0]
        simp [h]
      · exact this.2

theorem runAll_run (orc : Oracle) (es : List Event) (m : M) (h : m.status = .run) :
    (panics orc m.trace es = 0 → runAll orc es m = { m with trace := m.trace ++ es }) ∧
    (panics orc m.trace es = 1 → runAll orc es m = { m with trace := m.trace ++ es, status := .unwind }) ∧
    (2 ≤ panics orc m.trace es → (runAll orc es m).status = .abort) := by
  induction es generalizing m with
  | nil => simp [panics, runAll]
  | cons e es ih =>
    have hs : runAll orc (e :: es) m = runAll orc es (m.runDtor orc e) := rfl
    rw [hs]
    cases ho : orc m.trace e with
    | true =>
      have hm : m.runDtor orc e = { m with trace := m.trace ++ [e], status := .unwind } := by
        unfold M.runDtor; rw [h]; simp [ho]
      have := runAll_unwind orc es (m.runDtor orc e) (by rw [hm])
      rw [hm] at this ⊢
      simp only [panics, ho, if_true]
      refine ⟨fun h0 => by omega, fun h1 => ?_, fun h2 => this.2 (by simp only; omega)⟩
      rw [this.1 (by simp only; omega)]
      simp
    | false =>
      have hm : m.runDtor orc e = { m with trace := m.trace ++ [e], status := .run } := by
        unfold M.runDtor; rw [h]; simp [ho]
      have := ih (m.runDtor orc e) (by rw [hm])
      rw [hm] at this ⊢
      simp only [panics, ho, Bool.false_eq_true, if_false, Nat.zero_add]
      refine ⟨fun h0 => ?_, fun h1 => ?_, this.2.2⟩
      · rw [this.1 h0]; simp [h]
      · rw [this.2.1 h1]; simp

theorem panics_append (orc : Oracle) (tr a b : List Event) :
    panics orc tr (a ++ b) = panics orc tr a + panics orc (tr ++ a) b := by
  induction a generalizing tr with
  | nil => simp [panics]
  | cons e a ih => simp only [List.cons_append, panics, ih]; simp [Nat.add_assoc]

theorem replaceOut_eq (orc : Oracle) (p : Nat) (fs : Fields) (o new : Obj) (name : String) (m : M) :
    replaceOut orc p fs o new name m =
      if (runAll orc (pinnedDrops p fs o) m).status = .run then
        (some (.adt name o.variant (ownedParts fs o)), (runAll orc (pinnedDrops p fs o) m).write p new)
      else
        (none, (runAll orc (ownedDrops fs o) (runAll orc (pinnedDrops p fs o) m)).write p new) := by
  unfold replaceOut
  simp only [dropInPlace_eq, dropOwned_eq]
  rfl

/-! ## C20 -/

/-- **C20** If no destructor of a `#[pin]` field panics, `project_replace(new)` returns a value of the
declared type and of the variant of the old value, in which every unpinned field is the old field
value and every pinned position is `PhantomData`; afterwards the place holds `new`, all other places
are unchanged. The only destructors that ran are those of the pinned fields, so the returned values
are alive. -/
theorem C20_project_replace (item : Item) (E : Expansion) (h : parseDerive item = .ok E)
    (hwf : ItemWF item) (fn : GFn) (hfn : method E "project_replace" = some fn)
    (o : Obj) (fs : Fields) (ho : IsValue item o fs) (hfree : NamesFree fs) (p : Nat) (new : Obj) (m : M)
    (hp : m.mem p = some o) (hm : m.status = .run) (orc : Oracle) (tl : Bool)
    (hq : panics orc m.trace (pinnedDrops p fs o) = 0) :
    ∃ name args, fn.ret = .adt name args ∧
      callFn orc tl fn (.fv (.pinRef true ⟨p, none⟩)) [.obj new] m =
        (some (.adt name o.variant (ownedParts fs o)),
         { mem := update m.mem p new
           trace := m.trace ++ pinnedDrops p fs o ++ [.write p new]
           status := .run }) := by
  obtain ⟨name, args, h1, h2⟩ := call_replace item E h hwf fn hfn o fs ho hfree p new m hp hm orc tl
  refine ⟨name, args, h1, ?_⟩
  rw [h2]
  rw [replaceOut_eq]
  rw [(runAll_run orc _ m hm).1 hq]
  simp only [hm, if_true, M.write]
  rfl

/-! ## C21 -/

/-- **C21** Whatever panics, unless the process aborts: the first things `project_replace` does are the
destructor calls of the old `#[pin]` fields, in place and in declaration order; the memory is
overwritten afterwards; and if the call returns, nothing else was destroyed. -/
theorem C21_pinned_in_place (item : Item) (E : Expansion) (h : parseDerive item = .ok E)
    (hwf : ItemWF item) (fn : GFn) (hfn : method E "project_replace" = some fn)
    (o : Obj) (fs : Fields) (ho : IsValue item o fs) (hfree : NamesFree fs) (p : Nat) (new : Obj) (m : M)
    (hp : m.mem p = some o) (hm : m.status = .run) (orc : Oracle) (tl : Bool)
    (r : Option Val × M) (hr : callFn orc tl fn (.fv (.pinRef true ⟨p, none⟩)) [.obj new] m = r)
    (hna : r.2.status ≠ .abort) :
    ∃ rest, r.2.trace = m.trace ++ pinnedDrops p fs o ++ rest ++ [.write p new] ∧
      (r.1.isSome → rest = []) ∧ (r.1 = none → rest = ownedDrops fs o) := by
  obtain ⟨name, args, h1, h2⟩ := call_replace item E h hwf fn hfn o fs ho hfree p new m hp hm orc tl
  rw [h2] at hr
  subst hr
  rw [replaceOut_eq] at *
  have hrun := runAll_run orc (pinnedDrops p fs o) m hm
  by_cases h0 : panics orc m.trace (pinnedDrops p fs o) = 0
  · simp only [hrun.1 h0, hm, if_true, M.write]
    exact ⟨[], by simp, by simp, by simp⟩
  · by_cases h1 : panics orc m.trace (pinnedDrops p fs o) = 1
    · simp only [hrun.2.1 h1, reduceCtorEq, if_false] at hna ⊢
      have hun := runAll_unwind orc (ownedDrops fs o)
        { m with trace := m.trace ++ pinnedDrops p fs o, status := .unwind } rfl
      by_cases h2 : panics orc (m.trace ++ pinnedDrops p fs o) (ownedDrops fs o) = 0
      · rw [hun.1 h2]
        exact ⟨ownedDrops fs o, by simp [M.write], by simp, by simp⟩
      · rw [write_status] at hna
        exact absurd (hun.2 h2) hna
    · have ha := hrun.2.2 (by omega)
      simp only [ha, reduceCtorEq, if_false] at hna
      rw [runAll_dead _ _ _ ha, write_status] at hna
      exact absurd ha hna

/-- The destructor events for a value in a list of events. -/
def dropsOf (id : Id) (es : List Event) : List Event :=
  es.filter (fun e => match e with | .drop i _ => i == id | _ => false)

theorem count_drops {parts : List (String × Id)} (hn : (parts.map Prod.snd).Nodup) {x : String × Id}
    (hx : x ∈ parts) (g : String × Id → Option Loc) :
    dropsOf x.2 (parts.map (fun y => .drop y.2 (g y))) = [.drop x.2 (g x)] := by
  unfold dropsOf
  induction parts with
  | nil => simp at hx
  | cons y parts ih =>
    rw [List.map_cons, List.nodup_cons] at hn
    rw [List.map_cons, List.filter_cons]
    rcases List.mem_cons.1 hx with rfl | hx'
    · have : (parts.map (fun y => Event.drop y.2 (g y))).filter
          (fun e => match e with | .drop i _ => i == x.2 | _ => false) = [] := by
        rw [List.filter_eq_nil_iff]
        intro e he
        obtain ⟨z, hz, rfl⟩ := List.mem_map.1 he
        simp only [beq_iff_eq]
        rintro hzx
        exact hn.1 (by rw [← hzx]; exact List.mem_map_of_mem hz)
      simp [this]
    · have hne : ¬ y.2 = x.2 := by
        intro he
        exact hn.1 (by rw [he]; exact List.mem_map_of_mem hx')
      simp [hne, ih hn.2 hx']

theorem inj_of_nodup {α β : Type} {g : α → β} {l : List α} (h : (l.map g).Nodup) {x y : α}
    (hx : x ∈ l) (hy : y ∈ l) (he : g x = g y) : x = y := by
  induction l with
  | nil => simp at hx
  | cons a l ih =>
    rw [List.map_cons, List.nodup_cons] at h
    rcases List.mem_cons.1 hx with rfl | hx <;> rcases List.mem_cons.1 hy with rfl | hy
    · rfl
    · exact absurd (by rw [he]; exact List.mem_map_of_mem hy) h.1
    · exact absurd (List.mem_map.2 ⟨x, ‹x ∈ l›, he⟩) h.1
    · exact ih h.2 hx hy

/-- **C21**, counted: when the fields of the old value are distinct values, each pinned one is
destroyed exactly once, and that happens in place. -/
theorem C21_exactly_once (item : Item) (E : Expansion) (h : parseDerive item = .ok E)
    (hwf : ItemWF item) (fn : GFn) (hfn : method E "project_replace" = some fn)
    (o : Obj) (fs : Fields) (ho : IsValue item o fs) (hfree : NamesFree fs) (p : Nat) (new : Obj) (m : M)
    (hp : m.mem p = some o) (hm : m.status = .run) (orc : Oracle) (tl : Bool)
    (hids : (o.fields.map Prod.snd).Nodup)
    (r : Option Val × M) (hr : callFn orc tl fn (.fv (.pinRef true ⟨p, none⟩)) [.obj new] m = r)
    (hna : r.2.status ≠ .abort) (x : String × Id) (hx : x ∈ pinnedParts fs o) :
    ∃ es, r.2.trace = m.trace ++ es ∧ dropsOf x.2 es = [.drop x.2 (some ⟨p, some x.1⟩)] := by
  obtain ⟨rest, h1, h2, h3⟩ := C21_pinned_in_place item E h hwf fn hfn o fs ho hfree p new m hp hm orc tl
    r hr hna
  refine ⟨pinnedDrops p fs o ++ rest ++ [.write p new], by rw [h1]; simp, ?_⟩
  have hlen : fs.list.length = o.fields.length := by
    have := congrArg List.length ho.fields
    simpa [labels] using this.symm
  have hz : (fs.list.zip o.fields).map (·.2) = o.fields := by
    apply List.map_snd_zip
    omega
  have hsub : (pinnedParts fs o).Sublist o.fields := by
    have := (List.filter_sublist (p := fun x : Field × (String × Id) => Pinned x.1)
      (l := fs.list.zip o.fields)).map (·.2)
    rwa [hz] at this
  have hn : ((pinnedParts fs o).map Prod.snd).Nodup := (hsub.map Prod.snd).nodup hids
  have hrest : dropsOf x.2 rest = [] := by
    have hu : ∀ y ∈ unpinnedParts fs o, y.2 ≠ x.2 := by
      intro y hy he
      obtain ⟨y', hy', rfl⟩ := List.mem_map.1 hy
      obtain ⟨x', hx', rfl⟩ := List.mem_map.1 hx
      obtain ⟨hy1, hy2⟩ := List.mem_filter.1 hy'
      obtain ⟨hx1, hx2⟩ := List.mem_filter.1 hx'
      have hz2 : (fs.list.zip o.fields).map (fun z => z.2.2) = o.fields.map Prod.snd := by
        have := congrArg (List.map Prod.snd) hz
        rwa [List.map_map] at this
      have : x' = y' := by
        refine inj_of_nodup (g := fun z : Field × (String × Id) => z.2.2) ?_ hx1 hy1 he.symm
        rw [hz2]
        exact hids
      subst this
      rw [hx2] at hy2
      cases hy2
    cases hrv : r.1 with
    | some v => rw [h2 (by rw [hrv]; rfl)]; rfl
    | none =>
      rw [h3 hrv]
      unfold dropsOf ownedDrops
      rw [List.filter_eq_nil_iff]
      intro e he
      obtain ⟨y, hy, rfl⟩ := List.mem_map.1 he
      simpa using hu y hy
  have := count_drops hn hx (fun y => some ⟨p, some y.1⟩)
  unfold dropsOf at *
  rw [List.filter_append, List.filter_append, hrest]
  simp only [pinnedDrops, this]
  simp

/-! ## C22 -/

/-- **C22** If exactly one of the destructors involved panics, and it is that of a pinned field, the
panic propagates; all pinned fields have been dropped in order, then the unpinned fields that had
been moved out have been dropped in order, and the place holds the replacement. -/
theorem C22_one_panic (item : Item) (E : Expansion) (h : parseDerive item = .ok E)
    (hwf : ItemWF item) (fn : GFn) (hfn : method E "project_replace" = some fn)
    (o : Obj) (fs : Fields) (ho : IsValue item o fs) (hfree : NamesFree fs) (p : Nat) (new : Obj) (m : M)
    (hp : m.mem p = some o) (hm : m.status = .run) (orc : Oracle) (tl : Bool)
    (h1 : panics orc m.trace (pinnedDrops p fs o) = 1)
    (h2 : panics orc m.trace (pinnedDrops p fs o ++ ownedDrops fs o) = 1) :
    callFn orc tl fn (.fv (.pinRef true ⟨p, none⟩)) [.obj new] m =
      (none, { mem := update m.mem p new
               trace := m.trace ++ pinnedDrops p fs o ++ ownedDrops fs o ++ [.write p new]
               status := .unwind }) := by
  obtain ⟨name, args, _, hc⟩ := call_replace item E h hwf fn hfn o fs ho hfree p new m hp hm orc tl
  rw [hc]
  rw [replaceOut_eq]
  rw [(runAll_run orc _ m hm).2.1 h1]
  rw [panics_append] at h2
  have hun := runAll_unwind orc (ownedDrops fs o)
    { m with trace := m.trace ++ pinnedDrops p fs o, status := .unwind } rfl
  simp only [reduceCtorEq, if_false]
  rw [hun.1 (by simp only; omega)]
  simp [M.write]
  rfl

/-- **C22**, second panic: the process aborts. -/
theorem C22_second_panic_aborts (item : Item) (E : Expansion) (h : parseDerive item = .ok E)
    (hwf : ItemWF item) (fn : GFn) (hfn : method E "project_replace" = some fn)
    (o : Obj) (fs : Fields) (ho : IsValue item o fs) (hfree : NamesFree fs) (p : Nat) (new : Obj) (m : M)
    (hp : m.mem p = some o) (hm : m.status = .run) (orc : Oracle) (tl : Bool)
    (h1 : panics orc m.trace (pinnedDrops p fs o) ≠ 0)
    (h2 : 2 ≤ panics orc m.trace (pinnedDrops p fs o ++ ownedDrops fs o)) :
    (callFn orc tl fn (.fv (.pinRef true ⟨p, none⟩)) [.obj new] m).1 = none ∧
    (callFn orc tl fn (.fv (.pinRef true ⟨p, none⟩)) [.obj new] m).2.status = .abort := by
  obtain ⟨name, args, _, hc⟩ := call_replace item E h hwf fn hfn o fs ho hfree p new m hp hm orc tl
  rw [hc]
  rw [replaceOut_eq]
  rw [panics_append] at h2
  have hrun := runAll_run orc (pinnedDrops p fs o) m hm
  by_cases h3 : panics orc m.trace (pinnedDrops p fs o) = 1
  · rw [hrun.2.1 h3]
    have hun := runAll_unwind orc (ownedDrops fs o)
      { m with trace := m.trace ++ pinnedDrops p fs o, status := .unwind } rfl
    simp only [reduceCtorEq, if_false, true_and, write_status]
    exact hun.2 (by simp only; omega)
  · have ha := hrun.2.2 (by omega)
    simp only [ha, reduceCtorEq, if_false, true_and, write_status]
    rw [runAll_dead _ _ _ ha]
    exact ha

/-- **C22**, the three outcomes above are the only ones: the call never gets stuck. -/
theorem C22_never_stuck (item : Item) (E : Expansion) (h : parseDerive item = .ok E)
    (hwf : ItemWF item) (fn : GFn) (hfn : method E "project_replace" = some fn)
    (o : Obj) (fs : Fields) (ho : IsValue item o fs) (hfree : NamesFree fs) (p : Nat) (new : Obj) (m : M)
    (hp : m.mem p = some o) (hm : m.status = .run) (orc : Oracle) (tl : Bool) :
    (callFn orc tl fn (.fv (.pinRef true ⟨p, none⟩)) [.obj new] m).2.status ≠ .stuck := by
  by_cases h0 : panics orc m.trace (pinnedDrops p fs o) = 0
  · obtain ⟨_, _, _, hc⟩ := C20_project_replace item E h hwf fn hfn o fs ho hfree p new m hp hm orc tl h0
    rw [hc]; simp
  · by_cases h2 : 2 ≤ panics orc m.trace (pinnedDrops p fs o ++ ownedDrops fs o)
    · rw [(C22_second_panic_aborts item E h hwf fn hfn o fs ho hfree p new m hp hm orc tl h0 h2).2]
      simp
    · rw [panics_append] at h2
      rw [C22_one_panic item E h hwf fn hfn o fs ho hfree p new m hp hm orc tl (by omega)
        (by rw [panics_append]; omega)]
      simp

/-! ## C23 -/

/-- `Pin::set(new)`, that is the assignment `*place = new`, for a type without `Drop` impl: the old
fields are dropped in place, in order; then the new value is written, also when a destructor panicked. -/
def pinSet (orc : Oracle) (p : Nat) (new : Obj) (m : M) : M :=
  match m.mem p with
  | some o => (dropInPlace orc p o.fields m).write p new
  | none => m

/-- The values destroyed, in order. -/
def destroyed (es : List Event) : List Id :=
  es.filterMap (fun e => match e with | .drop id _ => some id | _ => none)

/-- `project_replace(new)`, then dropping what it returned (if it returned). -/
def replaceAndDrop (orc : Oracle) (tl : Bool) (fn : GFn) (p : Nat) (new : Obj) (m : M) : M :=
  match callFn orc tl fn (.fv (.pinRef true ⟨p, none⟩)) [.obj new] m with
  | (some v, m) => dropVal orc v m
  | (none, m) => m

theorem runAll_trace (orc : Oracle) (es : List Event) (m : M) (hm : m.status = .run ∨ m.status = .unwind)
    (hna : (runAll orc es m).status ≠ .abort) :
    (runAll orc es m).trace = m.trace ++ es ∧ (runAll orc es m).mem = m.mem ∧
    ((runAll orc es m).status = .run ∨ (runAll orc es m).status = .unwind) := by
  rcases hm with hm | hm
  · have := runAll_run orc es m hm
    by_cases h0 : panics orc m.trace es = 0
    · rw [this.1 h0]; simp [hm]
    · by_cases h1 : panics orc m.trace es = 1
      · rw [this.2.1 h1]; simp
      · exact absurd (this.2.2 (by omega)) hna
  · have := runAll_unwind orc es m hm
    by_cases h0 : panics orc m.trace es = 0
    · rw [this.1 h0]; simp [hm]
    · exact absurd (this.2 h0) hna

theorem perm_split {α : Type} (g : α → Bool) (l : List α) :
    (l.filter g ++ l.filter (fun x => !g x)).Perm l := List.filter_append_perm g l

/-- **C23** Compare `project_replace(new)` followed by dropping the returned value with
`Pin::set(new)`, each with its own pattern of panics. Unless one of them aborts, both leave the same
memory, and both destroy exactly the same values the same number of times. -/
theorem C23_agrees_with_set (item : Item) (E : Expansion) (h : parseDerive item = .ok E)
    (hwf : ItemWF item) (fn : GFn) (hfn : method E "project_replace" = some fn)
    (o : Obj) (fs : Fields) (ho : IsValue item o fs) (hfree : NamesFree fs) (p : Nat) (new : Obj) (m : M)
    (hp : m.mem p = some o) (hm : m.status = .run) (orc orc' : Oracle) (tl : Bool)
    (hna : (replaceAndDrop orc tl fn p new m).status ≠ .abort)
    (hna' : (pinSet orc' p new m).status ≠ .abort) :
    (replaceAndDrop orc tl fn p new m).mem = (pinSet orc' p new m).mem ∧
    (destroyed (replaceAndDrop orc tl fn p new m).trace).Perm
      (destroyed (pinSet orc' p new m).trace) := by
  obtain ⟨name, args, _, hc⟩ := call_replace item E h hwf fn hfn o fs ho hfree p new m hp hm orc tl
  have hlen : fs.list.length = o.fields.length := by
    have := congrArg List.length ho.fields
    simpa [labels] using this.symm
  have hz : (fs.list.zip o.fields).map (·.2) = o.fields := by
    apply List.map_snd_zip
    omega
  -- the right hand side
  have hset : (pinSet orc' p new m).mem = update m.mem p new ∧
      destroyed (pinSet orc' p new m).trace = destroyed m.trace ++ o.fields.map Prod.snd := by
    unfold pinSet at *
    simp only [hp] at *
    rw [dropInPlace_eq] at *
    rw [write_status] at hna'
    obtain ⟨t1, t2, t3⟩ := runAll_trace orc' _ m (.inl hm) hna'
    have hw : ∀ m' : M, (m'.status = .run ∨ m'.status = .unwind) → m'.write p new =
        { m' with mem := update m'.mem p new, trace := m'.trace ++ [.write p new] } := by
      intro m' hs
      rcases hs with hs | hs <;> simp [M.write, hs] <;> rfl
    rw [hw _ t3]
    refine ⟨by rw [t2], ?_⟩
    simp only [t1]
    simp [destroyed, List.filterMap_append, List.filterMap_map, Function.comp_def]
  -- the left hand side
  have hperm : ((pinnedParts fs o).map Prod.snd ++ (unpinnedParts fs o).map Prod.snd).Perm
      (o.fields.map Prod.snd) := by
    have := (perm_split (fun x : Field × (String × Id) => Pinned x.1) (fs.list.zip o.fields)).map
      (fun x => x.2.2)
    rw [List.map_append] at this
    have h3 : (fs.list.zip o.fields).map (fun z => z.2.2) = o.fields.map Prod.snd := by
      have := congrArg (List.map Prod.snd) hz
      rwa [List.map_map] at this
    rw [h3] at this
    simpa [pinnedParts, unpinnedParts, List.map_map, Function.comp_def] using this
  have hleft : (replaceAndDrop orc tl fn p new m).mem = update m.mem p new ∧
      destroyed (replaceAndDrop orc tl fn p new m).trace = destroyed m.trace ++
        ((pinnedParts fs o).map Prod.snd ++ (unpinnedParts fs o).map Prod.snd) := by
    have hw : ∀ m' : M, (m'.status = .run ∨ m'.status = .unwind) → m'.write p new =
        { m' with mem := update m'.mem p new, trace := m'.trace ++ [.write p new] } := by
      intro m' hs
      rcases hs with hs | hs <;> simp [M.write, hs] <;> rfl
    have heq : replaceAndDrop orc tl fn p new m =
        if (runAll orc (pinnedDrops p fs o) m).status = .run then
          runAll orc (ownedDrops fs o) ((runAll orc (pinnedDrops p fs o) m).write p new)
        else (runAll orc (ownedDrops fs o) (runAll orc (pinnedDrops p fs o) m)).write p new := by
      unfold replaceAndDrop
      rw [hc, replaceOut_eq]
      by_cases hrun : (runAll orc (pinnedDrops p fs o) m).status = .run
      · simp only [hrun, if_true]
        rw [dropVal_owned, dropOwned_eq]
        rfl
      · simp only [hrun, if_false]
    rw [heq] at hna ⊢
    have hA : (runAll orc (pinnedDrops p fs o) m).status ≠ .abort := by
      intro ha
      simp only [ha, reduceCtorEq, if_false] at hna
      rw [runAll_dead _ _ _ ha, write_status] at hna
      exact hna ha
    obtain ⟨t1, t2, t3⟩ := runAll_trace orc _ m (.inl hm) hA
    by_cases hrun : (runAll orc (pinnedDrops p fs o) m).status = .run
    · simp only [hrun, if_true] at hna ⊢
      rw [hw _ (.inl hrun)] at hna ⊢
      have hr := runAll_trace orc (ownedDrops fs o) _ (by left; exact hrun) hna
      rw [hr.1, hr.2.1]
      simp only [t1, t2]
      simp [destroyed, pinnedDrops, ownedDrops, List.filterMap_append, List.filterMap_map, Function.comp_def]
    · simp only [hrun, if_false] at hna ⊢
      rw [write_status] at hna
      obtain ⟨u1, u2, u3⟩ := runAll_trace orc (ownedDrops fs o) _ t3 hna
      rw [hw _ u3]
      simp only [u1, u2, t1, t2]
      simp [destroyed, pinnedDrops, ownedDrops, List.filterMap_append, List.filterMap_map, Function.comp_def]
  refine ⟨by rw [hleft.1, hset.1], ?_⟩
  rw [hleft.2, hset.2]
  exact List.Perm.append_left _ hperm

/-! ## C42 (project_replace) -/

/-- **C42** The generated code means something sensible exactly when no pinned field is called
`__result` and none but the last pinned field is called `__guard`; with such a name the generated
`project_replace` does not compile. (`project` and `project_ref` have no exceptions: C10, C11.) -/
theorem C42_replace_compiles_iff (item : Item) (E : Expansion) (h : parseDerive item = .ok E)
    (hwf : ItemWF item) (fn : GFn) (hfn : method E "project_replace" = some fn)
    (o : Obj) (fs : Fields) (ho : IsValue item o fs) (p : Nat) (new : Obj) (m : M)
    (hp : m.mem p = some o) (hm : m.status = .run) (orc : Oracle) (tl : Bool) :
    (callFn orc tl fn (.fv (.pinRef true ⟨p, none⟩)) [.obj new] m).2.status = .stuck ↔ ¬ NamesFree fs := by
  constructor
  · intro hs hfree
    exact C22_never_stuck item E h hwf fn hfn o fs ho hfree p new m hp hm orc tl hs
  · intro hfree
    exact call_replace_stuck item E h hwf fn hfn o fs ho hfree p new m hp hm orc tl

/-! ## The hypotheses are met -/

/-- `#[pin(__private(project_replace))] struct R<T, U> { #[pin] a: T, b: U, #[pin] c: T }`. -/
def demoReplace : ItemStruct where
  attrs := [pinPrivateAttr [.ident "project_replace"]]
  vis := .pub
  ident := "R"
  generics := { params := [.type "T" [] none, .type "U" [] none] }
  fields := .named [
    { attrs := [⟨.path { segs := ["pin"] }⟩], vis := .pub, ident := some "a", ty := .tyIdent "T" },
    { ident := some "b", ty := .tyIdent "U" },
    { attrs := [⟨.path { segs := ["pin"] }⟩], ident := some "c", ty := .tyIdent "T" }]

theorem demoReplace_wf : ItemWF (.struct_ demoReplace) where
  fields := by
    rintro variant fs ⟨-, rfl⟩
    refine ⟨?_, by decide⟩
    intro f hf
    simp [demoReplace] at hf
    rcases hf with rfl | rfl | rfl <;> rfl
  variants := by rintro e h; cases h

def demoOld : Obj := ⟨none, [("a", 1), ("b", 2), ("c", 3)]⟩
def demoNew : Obj := ⟨none, [("a", 4), ("b", 5), ("c", 6)]⟩

theorem demoOld_isValue : IsValue (.struct_ demoReplace) demoOld demoReplace.fields :=
  ⟨⟨rfl, rfl⟩, by decide⟩
theorem demoNew_isValue : IsValue (.struct_ demoReplace) demoNew demoReplace.fields :=
  ⟨⟨rfl, rfl⟩, by decide⟩

theorem demoReplace_free : NamesFree demoReplace.fields := by
  constructor
  · intro f hf
    rw [List.mem_filter] at hf
    have := hf.1
    simp [demoReplace, Fields.list] at this
    rcases this with rfl | rfl | rfl <;> simp
  · intro f hf
    have := (List.mem_filter.1 (List.dropLast_subset _ hf)).1
    simp [demoReplace, Fields.list] at this
    rcases this with rfl | rfl | rfl <;> simp

def demoM : M := { mem := fun q => if q = 9 then some demoOld else none }

/-- Without panics: `b` is returned, `a` and `c` are destroyed in place. -/
example : ∃ E fn, parseDerive (.struct_ demoReplace) = .ok E ∧ method E "project_replace" = some fn ∧
    (callFn (fun _ _ => false) false fn (.fv (.pinRef true ⟨9, none⟩)) [.obj demoNew] demoM).1 =
      some (.adt "__RProjectionOwned" none [("a", .phantom), ("b", .own 2), ("c", .phantom)]) ∧
    (callFn (fun _ _ => false) false fn (.fv (.pinRef true ⟨9, none⟩)) [.obj demoNew] demoM).2.trace =
      [.drop 1 (some ⟨9, some "a"⟩), .drop 3 (some ⟨9, some "c"⟩), .write 9 demoNew] :=
  ⟨_, _, rfl, rfl, rfl, rfl⟩

/-- An oracle for C22: the destructor of value 1 panics. -/
def demoOracle : Oracle := fun _ e => e == .drop 1 (some ⟨9, some "a"⟩)

example : panics demoOracle [] (pinnedDrops 9 demoReplace.fields demoOld) = 1 ∧
    panics demoOracle [] (pinnedDrops 9 demoReplace.fields demoOld ++ ownedDrops demoReplace.fields demoOld)
      = 1 := by decide

/-- An oracle for the abort: everything panics. -/
example : panics (fun _ _ => true) [] (pinnedDrops 9 demoReplace.fields demoOld) ≠ 0 ∧
    2 ≤ panics (fun _ _ => true) []
      (pinnedDrops 9 demoReplace.fields demoOld ++ ownedDrops demoReplace.fields demoOld) := by decide

/-- The hypotheses of C23 are met, also with a panic. -/
example : ∃ E fn, parseDerive (.struct_ demoReplace) = .ok E ∧ method E "project_replace" = some fn ∧
    (replaceAndDrop demoOracle false fn 9 demoNew demoM).status = .unwind ∧
    (pinSet demoOracle 9 demoNew demoM).status = .unwind :=
  ⟨_, _, rfl, rfl, rfl, rfl⟩

/-- **C42**, the exception happens: `#[pin_project(project_replace)] struct { #[pin] __result: T }`. -/
theorem C42_counterexample : ∃ (item : Item) (E : Expansion) (fn : GFn) (o : Obj) (fs : Fields),
    parseDerive item = .ok E ∧ ItemWF item ∧ method E "project_replace" = some fn ∧ IsValue item o fs ∧
    ∀ orc tl m, m.mem 0 = some o → m.status = .run →
      (callFn orc tl fn (.fv (.pinRef true ⟨0, none⟩)) [.obj o] m).2.status = .stuck := by
  let s : ItemStruct := { demoReplace with
    fields := .named [{ attrs := [⟨.path { segs := ["pin"] }⟩], ident := some "__result", ty := .tyIdent "T" }] }
  have hwf : ItemWF (.struct_ s) := by
    constructor
    · rintro variant fs ⟨-, rfl⟩
      refine ⟨?_, by decide⟩
      intro f hf
      simp [s] at hf
      subst hf; rfl
    · rintro e h; cases h
  have hv : IsValue (.struct_ s) ⟨none, [("__result", 1)]⟩ s.fields := ⟨⟨rfl, rfl⟩, by decide⟩
  obtain ⟨E, hE⟩ : ∃ E, parseDerive (.struct_ s) = .ok E := ⟨_, rfl⟩
  obtain ⟨fn, hfn⟩ : ∃ fn, method E "project_replace" = some fn := by
    obtain rfl := Except.ok.inj (hE.symm.trans rfl)
    exact ⟨_, rfl⟩
  refine ⟨_, E, fn, _, s.fields, hE, hwf, hfn, hv, ?_⟩
  intro orc tl m hp hm
  refine (C42_replace_compiles_iff _ E hE hwf fn hfn _ _ hv 0 _ m hp hm orc tl).2 ?_
  rintro ⟨h, -⟩
  refine h { attrs := [⟨.path { segs := ["pin"] }⟩], ident := some "__result", ty := .tyIdent "T" } ?_ rfl
  rw [List.mem_filter]
  exact ⟨List.mem_cons_self, rfl⟩

end PinProject

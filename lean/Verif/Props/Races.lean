import Verif.Props.Borrow
import Verif.Spec.Races
/-!
# C85: no data races

Any number of threads may call `project_ref` on the same value at the same time and use the results, and the references that
`project` returns may be used by different threads at the same time, whatever the schedule.
-/
namespace PinProject
open Spec

namespace Races

/-! ## Schedules -/

theorem mem_of_schedule {T : Nat → List Bool} {log : List (Nat × Bool)} (h : Schedule T log) :
    ∀ i a, (i, a) ∈ log → a ∈ T i := by
  induction h with
  | stop => intro i a h; cases h
  | @step T j a' rest log hT _ ih =>
    intro i a hm
    rcases List.mem_cons.1 hm with h | h
    · cases h
      rw [hT]
      exact List.mem_cons_self
    · have := ih i a h
      by_cases hij : i = j
      · subst hij
        simp only [if_true] at this
        rw [hT]
        exact List.mem_cons_of_mem _ this
      · simpa [if_neg hij] using this

/-! ## Reading only -/

/-- All pointers in the chain are shared references, and the accesses are reads. -/
def ReadsR (_ : List Nat) (_ : Nat) (c : BStack) (log : List Bool) : Prop :=
  (∀ i ∈ c, i.perm = .shared) ∧ ∀ w ∈ log, w = false

theorem write_shared {prot : List Nat} {t : Nat} {s : BStack} (h : ∀ i ∈ s, i.perm = .shared) : s.write prot t = none := by
  induction s with
  | nil => rfl
  | cons i s ih =>
    unfold BStack.write
    rw [h i List.mem_cons_self, ih (fun j hj => h j (List.mem_cons_of_mem _ hj))]
    split
    · rfl
    · split <;> rfl

theorem strictRead_sub {prot : List Nat} {t : Nat} {s r : BStack} (h : s.strictRead prot t = some r) :
    (∀ i ∈ r, i ∈ s) ∧ ∃ i ∈ s, i.tag = t := by
  induction s with
  | nil => cases h
  | cons i s ih =>
    unfold BStack.strictRead at h
    split at h
    · cases h
      exact ⟨fun _ h => h, i, List.mem_cons_self, by assumption⟩
    · split at h
      · cases h
      · obtain ⟨h1, j, h2, h3⟩ := ih h
        exact ⟨fun k hk => List.mem_cons_of_mem _ (h1 k hk), j, List.mem_cons_of_mem _ h2, h3⟩

theorem reads_access {prot : List Nat} {s r : BStack} {w : Bool} {t : Nat} {log : List Bool}
    (h : ReadsR prot 0 s log) (hr : chain.access prot w t s = some r) : w = false ∧ ReadsR prot 0 r (w :: log) := by
  cases w with
  | true =>
    rw [show chain.access prot true t s = s.write prot t from rfl, write_shared h.1] at hr
    cases hr
  | false =>
    refine ⟨rfl, fun i hi => h.1 i ((strictRead_sub hr).1 i hi), ?_⟩
    intro w hw
    rcases List.mem_cons.1 hw with h' | h'
    · exact h'
    · exact h.2 w h'

theorem reads_simulates : Simulates recorded ReadsR where
  access h hr := ⟨_, rfl, (reads_access h hr).2⟩
  retag {prot n s s' p t r} h hr := by
    obtain ⟨hw, h1⟩ := reads_access h hr
    have hp : p = .shared := by
      cases p <;> first | rfl | cases hw
    subst hp
    have h2 : ReadsR prot (n + 1) (⟨.shared, n⟩ :: r) ((BPerm.shared != .shared) :: s') :=
      ⟨fun i hi => by
        rcases List.mem_cons.1 hi with h | h
        · rw [h]
        · exact h1.1 i h, h1.2⟩
    exact ⟨_, rfl, h2, h2⟩
  next h := h
  release {prot n s s' t r} h hr := by
    refine ⟨_, rfl, ?_⟩
    simp only at hr
    split at hr
    · cases hr
      exact h
    · cases hr

/-- The invariant of a thread that only has shared references. -/
structure Reading (t0 : Nat) (s : Thread) : Prop where
  run : s.σ.status = .run
  next : t0 < s.σ.next
  prot : ∀ t ∈ s.σ.prot, t < s.σ.next
  log : ∀ w ∈ s.σ.mem, w = false
  refs : ∀ v ∈ s.refs, ∀ m l t, pointer v = some (m, l, t) → m = false

theorem fresh_reading (t0 : Nat) : Reading t0 (.fresh t0) :=
  ⟨rfl, Nat.lt_succ_self t0, (fun t ht => by cases ht), (fun w hw => by cases hw), (fun v hv => by cases hv)⟩

theorem reading_use (b : Byte) (fn : GFn) (o : Shape) (t0 k : Nat) (w : Bool) {s : Thread} (h : Reading t0 s) :
    Reading t0 (s.act b fn o t0 (.use k w)) ∧ (s.act b fn o t0 (.use k w)).refs = s.refs := by
  unfold Thread.act
  simp only
  cases hk : s.refs[k]? with
  | none => exact ⟨h, rfl⟩
  | some v =>
    cases hp : pointer v with
    | none => simpa [hp] using h
    | some q =>
      obtain ⟨m, l, t⟩ := q
      have hm := h.refs v (List.mem_of_getElem? hk) m l t hp
      subst hm
      cases w with
      | true => simpa [hp] using h
      | false =>
        simp only [Option.bind_some, hp, Bool.false_and, Bool.false_eq_true, if_false, and_true]
        unfold B.access
        split
        · refine ⟨h.run, h.next, h.prot, ?_, h.refs⟩
          intro w hw
          rcases List.mem_cons.1 hw with h' | h'
          · exact h'
          · exact h.log w h'
        · exact h

theorem reading_call (b : Byte) (fn : GFn) (variant : Option String) (fs : Fields) (t0 : Nat) (panics : BOracle) (tl : Bool) (p : Nat)
    (hok : ∀ σ : B chain, Callable b false t0 σ →
      ProjectionOk b false fs p t0 (bCallFn b panics tl fn ⟨variant, labels fs.list⟩ t0 σ))
    {s : Thread} (h : Reading t0 s) :
    let s' := s.act b fn ⟨variant, labels fs.list⟩ t0 (.call panics tl)
    Reading t0 s' ∧
      s'.refs.map (untagged p) = s.refs.map (untagged p) ++ (Spec.fieldRefs false p fs).map (fun v => some v.2) := by
  have hc : Callable b false t0 (Lift.start false t0 s.σ) := by
    refine ⟨h.run, ?_, h.prot, ?_⟩
    · intro i hi
      rw [show i = ⟨.shared, t0⟩ by simpa [Lift.start, permOf] using hi]
      exact h.next
    · have hl : ((Lift.start false t0 s.σ).live && b.within none) = true := by
        simp [B.live, Lift.start, h.run, Byte.within]
      unfold B.access
      rw [hl]
      simp [Lift.start, BStack.strictRead, B.set, h.run]
  have hrel : Lift.Rel ReadsR s.σ.prot (Lift.start false t0 s.σ) s.σ :=
    ⟨rfl, rfl, rfl, rfl, rfl, fun _ => ⟨fun i hi => by
      rw [show i = ⟨.shared, t0⟩ by simpa [Lift.start, permOf] using hi], h.log⟩⟩
  obtain ⟨fields, σ', h3, h4, h5, h6⟩ := hok _ hc
  have key := Lift.call reads_simulates b panics tl fn ⟨variant, labels fs.list⟩ t0 hrel
  rw [h3] at key
  obtain ⟨hrun, hcall⟩ := h5 [] (by simp)
  rcases key with hu | ⟨e, hr⟩
  · simp only at hu
    rw [show σ'.status = .run from hrun] at hu
    cases hu
  · have hrun' : σ'.status = .run := hrun
    have hcall' : Callable b false t0 σ' := hcall
    generalize hg : bCallFn b panics tl fn ⟨variant, labels fs.list⟩ t0 s.σ = g at e hr
    obtain ⟨v, τ⟩ := g
    simp only at e hr
    subst e
    simp only [Thread.act, hg]
    refine ⟨⟨hr.status.trans hrun', ?_, ?_, ?_, ?_⟩, ?_⟩
    · rw [hr.next]
      obtain ⟨s1, hs1⟩ := Lift.allowed hrun' hcall'.usable
      obtain ⟨-, i, hi, ht⟩ := strictRead_sub hs1
      rw [← ht]
      exact hcall'.valid i hi
    · intro t ht
      rw [hr.next]
      exact hcall'.prot t (by rw [hr.prot, ← hr.prot']; exact ht)
    · exact (hr.mem (by simp [B.live, hrun'])).2
    · intro v hv m l t hp
      rcases List.mem_append.1 hv with hv | hv
      · exact h.refs v hv m l t hp
      · obtain ⟨f, hf, rfl⟩ := List.mem_map.1 hv
        exact (h6 f hf m l t hp).1
    · rw [List.map_append, List.map_map]
      congr 1
      have := congrArg (List.map Prod.snd) h4
      simpa [List.map_map, Function.comp_def] using this

theorem reading_acts (b : Byte) (fn : GFn) (variant : Option String) (fs : Fields) (t0 p : Nat)
    (hok : ∀ panics tl, ∀ σ : B chain, Callable b false t0 σ →
      ProjectionOk b false fs p t0 (bCallFn b panics tl fn ⟨variant, labels fs.list⟩ t0 σ))
    (as : List ThreadAct) {s : Thread} (h : Reading t0 s) :
    let s' := s.acts b fn ⟨variant, labels fs.list⟩ t0 as
    Reading t0 s' ∧ s'.refs.map (untagged p) = s.refs.map (untagged p) ++
      (List.replicate (calls as) ((Spec.fieldRefs false p fs).map (fun v => some v.2))).flatten := by
  induction as generalizing s with
  | nil => exact ⟨h, by simp [calls, Thread.acts]⟩
  | cons a as ih =>
    cases a with
    | call panics tl =>
      obtain ⟨h1, h2⟩ := reading_call b fn variant fs t0 panics tl p (hok panics tl) h
      obtain ⟨h3, h4⟩ := ih h1
      refine ⟨h3, ?_⟩
      show List.map _ (Thread.acts _ _ _ _ as _).refs = _
      rw [h4, h2]
      simp [calls, List.replicate_succ]
    | use k w =>
      obtain ⟨h1, h2⟩ := reading_use b fn ⟨variant, labels fs.list⟩ t0 k w h
      obtain ⟨h3, h4⟩ := ih h1
      refine ⟨h3, ?_⟩
      show List.map _ (Thread.acts _ _ _ _ as _).refs = _
      rw [h4, h2]
      rfl

/-! ## References to different fields -/

theorem mem_given {b : Byte} {refs : List BFVal} {uses : List (Nat × Bool)} {w : Bool} (h : w ∈ given b refs uses) :
    ∃ v ∈ refs, ∃ m l t, pointer v = some (m, l, t) ∧ b.within l = true ∧ (w = true → m = true) := by
  unfold given at h
  obtain ⟨u, -, hu⟩ := List.mem_flatMap.1 h
  cases hk : refs[u.1]? with
  | none => simp [hk] at hu
  | some v =>
    cases hp : pointer v with
    | none => simp [hk, hp] at hu
    | some q =>
      obtain ⟨m, l, t⟩ := q
      simp only [hk, Option.bind_some, hp] at hu
      split at hu
      · rename_i hc
        simp only [Bool.and_eq_true, Bool.not_eq_true', Bool.and_eq_false_iff] at hc
        rw [List.mem_singleton] at hu
        refine ⟨v, List.mem_of_getElem? hk, m, l, t, hp, hc.1, ?_⟩
        intro hw
        rw [← hu, hw] at hc
        simpa using hc.2
      · cases hu

/-- A pointer in a projection is to the field under whose name it is. -/
theorem projected_place {m : Bool} {p : Nat} {fs : Fields} {fields : List (String × BFVal)}
    (h : fields.map (fun v => (v.1, untagged p v.2)) = (Spec.fieldRefs m p fs).map (fun v => (v.1, some v.2)))
    {x : String × BFVal} (hx : x ∈ fields) {m' : Bool} {l : Option String} {t : Nat} (hp : pointer x.2 = some (m', l, t)) :
    x.1 ∈ labels fs.list ∧ l = some x.1 := by
  have h1 : (x.1, untagged p x.2) ∈ (Spec.fieldRefs m p fs).map (fun v => (v.1, some v.2)) := by
    rw [← h]
    exact List.mem_map.2 ⟨x, hx, rfl⟩
  obtain ⟨y, hy, he⟩ := List.mem_map.1 h1
  obtain ⟨z, hz, rfl⟩ := List.mem_map.1 hy
  simp only [Prod.mk.injEq] at he
  obtain ⟨he1, he2⟩ := he
  refine ⟨List.mem_map.2 ⟨z, hz, he1⟩, ?_⟩
  rw [he1] at he2
  cases hv : x.2 with
  | ref a b c =>
    rw [hv] at hp he2
    simp only [pointer, Option.some.injEq, Prod.mk.injEq] at hp
    simp only [untagged, fieldRef] at he2
    split at he2 <;> simp_all
  | pinRef a b c =>
    rw [hv] at hp he2
    simp only [pointer, Option.some.injEq, Prod.mk.injEq] at hp
    simp only [untagged, fieldRef] at he2
    split at he2 <;> simp_all
  | own => rw [hv] at hp; cases hp
  | phantom => rw [hv] at hp; cases hp

theorem projected_labels {m : Bool} {p : Nat} {fs : Fields} {fields : List (String × BFVal)}
    (h : fields.map (fun v => (v.1, untagged p v.2)) = (Spec.fieldRefs m p fs).map (fun v => (v.1, some v.2))) :
    fields.map Prod.fst = labels fs.list := by
  have := congrArg (List.map Prod.fst) h
  simpa [List.map_map, Function.comp_def, Spec.fieldRefs, labels] using this

theorem eq_of_label {α : Type} {xs : List (String × α)} (h : (xs.map Prod.fst).Nodup) {x y : String × α} (hx : x ∈ xs)
    (hy : y ∈ xs) (he : x.1 = y.1) : x = y := by
  induction xs with
  | nil => cases hx
  | cons z xs ih =>
    rw [List.map_cons, List.nodup_cons] at h
    rcases List.mem_cons.1 hx with hx | hx <;> rcases List.mem_cons.1 hy with hy | hy
    · rw [hx, hy]
    · exact absurd (List.mem_map.2 ⟨y, hy, by rw [← he, hx]⟩) h.1
    · exact absurd (List.mem_map.2 ⟨x, hx, by rw [he, hy]⟩) h.1
    · exact ih h.2 hx hy

end Races

/-! ## C85 -/

/-- **C85** Any number of threads call `project_ref` on the same value at the same time, as often as they like, and use the
references they get, at any time: under no schedule is there a data race. -/
theorem C85_project_ref (item : Item) (E : Expansion) (h : parseDerive item = .ok E) (hwf : ItemWF item)
    (fn : GFn) (hfn : method E "project_ref" = some fn)
    (variant : Option String) (fs : Fields) (hv : HasVariant item variant fs) (b : Byte) (hb : OneField b fs)
    (t0 : Nat → Nat) (acts : Nat → List ThreadAct) (log : List (Nat × Bool))
    (hlog : Schedule (fun i => ((Thread.fresh (t0 i)).acts b fn ⟨variant, labels fs.list⟩ (t0 i) (acts i)).log) log) :
    ¬ Race log := by
  rintro ⟨i, j, w, -, hi, -⟩
  have hm := Races.mem_of_schedule hlog i true hi
  have := (Races.reading_acts b fn variant fs (t0 i) 0
    (fun panics tl σ hσ => borrow_projection item E h hwf false fn hfn variant fs hv b hb 0 (t0 i) σ hσ panics tl)
    (acts i) (Races.fresh_reading (t0 i))).1.log true (List.mem_reverse.1 hm)
  cases this

/-- **C85** .. and every call gives its thread the references C10 describes: none fails, whatever the others do. -/
theorem C85_project_ref_returns (item : Item) (E : Expansion) (h : parseDerive item = .ok E) (hwf : ItemWF item)
    (fn : GFn) (hfn : method E "project_ref" = some fn)
    (variant : Option String) (fs : Fields) (hv : HasVariant item variant fs) (b : Byte) (hb : OneField b fs)
    (t0 p : Nat) (acts : List ThreadAct) :
    let s := (Thread.fresh t0).acts b fn ⟨variant, labels fs.list⟩ t0 acts
    s.σ.status = .run ∧ s.refs.map (untagged p) =
      (List.replicate (calls acts) ((Spec.fieldRefs false p fs).map (fun v => some v.2))).flatten := by
  obtain ⟨h1, h2⟩ := Races.reading_acts b fn variant fs t0 p
    (fun panics tl σ hσ => borrow_projection item E h hwf false fn hfn variant fs hv b hb p t0 σ hσ panics tl)
    acts (Races.fresh_reading t0)
  exact ⟨h1.run, by simpa [Thread.fresh] using h2⟩

theorem Races.split (item : Item) (E : Expansion) (h : parseDerive item = .ok E) (hwf : ItemWF item)
    (m : Bool) (fn : GFn) (hfn : method E (if m then "project" else "project_ref") = some fn)
    (variant : Option String) (fs : Fields) (hv : HasVariant item variant fs) (b : Byte) (hb : OneField b fs)
    {A : AliasModel} (hA : AliasRules A) (t0 : Nat) (σ σ' : B A) (hσ : Callable b m t0 σ) (panics : BOracle) (tl : Bool)
    (fields : List (String × BFVal))
    (hcall : bCallFn b panics tl fn ⟨variant, labels fs.list⟩ t0 σ = (some (.adt fields), σ'))
    (share : Nat → List BFVal) (hshare : ∀ i, ∀ v ∈ share i, v ∈ fields.map Prod.snd)
    (hone : m = true → ∀ i j, i ≠ j → ∀ v ∈ share i, v ∉ share j)
    (uses : Nat → List (Nat × Bool)) (log : List (Nat × Bool))
    (hlog : Schedule (fun i => given b (share i) (uses i)) log) : ¬ Race log := by
  rintro ⟨i, j, w, hij, hi, hj⟩
  obtain ⟨fields', σ'', h1, h2, -, h4⟩ := Lift.projection hA b panics tl fn ⟨variant, labels fs.list⟩ m 0 t0 hσ
    (fun σ hσ => borrow_projection item E h hwf m fn hfn variant fs hv b hb 0 t0 σ hσ panics tl)
  rw [hcall] at h1
  simp only [Prod.mk.injEq, Option.some.injEq, BVal.adt.injEq] at h1
  obtain ⟨rfl, rfl⟩ := h1
  obtain ⟨v, hv1, m1, l1, t1, hp1, hw1, hm1⟩ := Races.mem_given (Races.mem_of_schedule hlog i true hi)
  obtain ⟨v', hv2, m2, l2, t2, hp2, hw2, -⟩ := Races.mem_given (Races.mem_of_schedule hlog j w hj)
  obtain ⟨x, hx, rfl⟩ := List.mem_map.1 (hshare i v hv1)
  obtain ⟨y, hy, rfl⟩ := List.mem_map.1 (hshare j v' hv2)
  have hm : m = true := (h4 x hx m1 l1 t1 hp1).1.symm.trans (hm1 rfl)
  obtain ⟨hx1, rfl⟩ := Races.projected_place h2 hx hp1
  obtain ⟨hy1, rfl⟩ := Races.projected_place h2 hy hp2
  have hxy : x = y := by
    refine Races.eq_of_label ?_ hx hy (hb x.1 hx1 y.1 hy1 hw1 hw2)
    rw [Races.projected_labels h2]
    exact labels_nodup (hwf.fields variant fs hv)
  subst hxy
  exact hone hm i j hij _ hv1 hv2

/-- **C85** The references that `project` returns are given to any number of threads, each to one of them, which use them for
reading and writing at the same time: under no schedule is there a data race. -/
theorem C85_project (item : Item) (E : Expansion) (h : parseDerive item = .ok E) (hwf : ItemWF item)
    (fn : GFn) (hfn : method E "project" = some fn)
    (variant : Option String) (fs : Fields) (hv : HasVariant item variant fs) (b : Byte) (hb : OneField b fs)
    {A : AliasModel} (hA : AliasRules A) (t0 : Nat) (σ σ' : B A) (hσ : Callable b true t0 σ) (panics : BOracle) (tl : Bool)
    (fields : List (String × BFVal))
    (hcall : bCallFn b panics tl fn ⟨variant, labels fs.list⟩ t0 σ = (some (.adt fields), σ'))
    (share : Nat → List BFVal) (hshare : ∀ i, ∀ v ∈ share i, v ∈ fields.map Prod.snd)
    (hone : ∀ i j, i ≠ j → ∀ v ∈ share i, v ∉ share j)
    (uses : Nat → List (Nat × Bool)) (log : List (Nat × Bool))
    (hlog : Schedule (fun i => given b (share i) (uses i)) log) : ¬ Race log :=
  Races.split item E h hwf true fn hfn variant fs hv b hb hA t0 σ σ' hσ panics tl fields hcall share hshare (fun _ => hone)
    uses log hlog

/-- **C85** The references that `project_ref` returns may even be given to several threads each. -/
theorem C85_project_ref_shared (item : Item) (E : Expansion) (h : parseDerive item = .ok E) (hwf : ItemWF item)
    (fn : GFn) (hfn : method E "project_ref" = some fn)
    (variant : Option String) (fs : Fields) (hv : HasVariant item variant fs) (b : Byte) (hb : OneField b fs)
    {A : AliasModel} (hA : AliasRules A) (t0 : Nat) (σ σ' : B A) (hσ : Callable b false t0 σ) (panics : BOracle) (tl : Bool)
    (fields : List (String × BFVal))
    (hcall : bCallFn b panics tl fn ⟨variant, labels fs.list⟩ t0 σ = (some (.adt fields), σ'))
    (share : Nat → List BFVal) (hshare : ∀ i, ∀ v ∈ share i, v ∈ fields.map Prod.snd)
    (uses : Nat → List (Nat × Bool)) (log : List (Nat × Bool))
    (hlog : Schedule (fun i => given b (share i) (uses i)) log) : ¬ Race log :=
  Races.split item E h hwf false fn hfn variant fs hv b hb hA t0 σ σ' hσ panics tl fields hcall share hshare
    (fun h => by cases h) uses log hlog

/-! ## The hypotheses are met -/

/-- Two threads call `project_ref` and read the field `a`: what they do to a byte of it, and one of the schedules. -/
example : ∃ E fn, parseDerive (.struct_ demoReplace) = .ok E ∧ method E "project_ref" = some fn ∧
    let T := fun i => ((Thread.fresh 0).acts demoByte fn ⟨none, ["a", "b", "c"]⟩ 0
      (if i < 2 then [.call (fun _ => false) false, .use 0 false] else [])).log
    T 0 ≠ [] ∧ T 1 = T 0 ∧ T 2 = [] ∧ Schedule T [(0, false), (1, false), (1, false), (0, false)] :=
  ⟨_, _, rfl, rfl, by decide, rfl, rfl,
    .step rfl (.step rfl (.step rfl (.step rfl (.stop _))))⟩

/-- The recording finds writes: a call of `project` would be a race with anything else. -/
example : ∃ E fn, parseDerive (.struct_ demoReplace) = .ok E ∧ method E "project" = some fn ∧
    let T := fun _ : Nat => ((Thread.fresh 0).acts demoByte fn ⟨none, ["a", "b", "c"]⟩ 0 [.call (fun _ => false) false]).log
    ∃ log, Schedule T log ∧ Race log :=
  ⟨_, _, rfl, rfl, [(0, true), (1, true)], .step rfl (.step rfl (.stop _)), 0, 1, true, by decide, by decide, by decide⟩

/-- `project`: one thread has `a`, another has `b` and `c`; they write. -/
example : given demoByte [.pinRef true (some "a") 7] [(0, true), (0, false), (1, true)] = [true, false] ∧
    given demoByte [.ref true (some "b") 5, .pinRef true (some "c") 8] [(0, true), (1, true)] = [] := by decide

/-- .. and so `C85_project` applies. -/
example : ∃ E fn, parseDerive (.struct_ demoReplace) = .ok E ∧ method E "project" = some fn ∧
    ∃ fields σ', bCallFn demoByte (fun _ => false) false fn ⟨none, ["a", "b", "c"]⟩ 1 demoB = (some (.adt fields), σ') ∧
      let share := fun i => if i = 0 then [BFVal.pinRef true (some "a") 7]
        else if i = 1 then [.ref true (some "b") 5, .pinRef true (some "c") 8] else []
      (∀ i, ∀ v ∈ share i, v ∈ fields.map Prod.snd) ∧ (∀ i j, i ≠ j → ∀ v ∈ share i, v ∉ share j) ∧
      Schedule (fun i => given demoByte (share i) [(0, true), (1, true)]) [(0, true)] ∧
      ∀ log, Schedule (fun i => given demoByte (share i) [(0, true), (1, true)]) log → ¬ Race log := by
  refine ⟨_, _, rfl, rfl, _, _, rfl, ?_⟩
  intro share
  have h1 : ∀ i, ∀ v ∈ share i, v ∈ [BFVal.pinRef true (some "a") 7, .ref true (some "b") 5, .pinRef true (some "c") 8] := by
    intro i v hv
    simp only [share] at hv
    split at hv
    · simp_all
    · split at hv <;> simp_all
  have h2 : ∀ i j, i ≠ j → ∀ v ∈ share i, v ∉ share j := by
    intro i j hij v hi hj
    simp only [share] at hi hj
    split at hi <;> split at hj <;> (try split at hi) <;> (try split at hj) <;> simp_all
  exact ⟨h1, h2, .step rfl (.stop _), fun log hlog =>
    C85_project (.struct_ demoReplace) _ rfl demoReplace_wf _ rfl none demoReplace.fields ⟨rfl, rfl⟩ demoByte demoByte_one
      .stacked 1 demoB _ (demoB_callable true) (fun _ => false) false _ rfl share h1 h2 _ log hlog⟩

/-- If two threads had the reference to `a`, there would be a race. -/
example : ∃ log, Schedule (fun i => given demoByte (if i < 2 then [.pinRef true (some "a") 7] else []) [(0, true)]) log ∧
    Race log :=
  ⟨[(1, true), (0, true)], .step rfl (.step rfl (.stop _)), 0, 1, true, by decide, by decide, by decide⟩

end PinProject

import Verif.Props.CellsRules
/-!
# C79: programs that write through shared projections obey the aliasing rules
-/
namespace PinProject
open Spec Lift

variable {A : AliasModel} {R : List Nat → Nat → BStack → A.St → Prop} {M : List Nat → A.St → Prop}

/-- What holds after every step, see `HInv`. The shared references are in `S`. -/
structure CInv (K : Cells A R) (I : List Nat) (s : Held × B A) : Prop where
  run : s.2.status = .run
  prot : s.2.prot = s.1.reading ++ (s.1.calls ++ I)
  lt : ∀ k ∈ s.2.prot, k < s.2.next
  calls : ∀ k ∈ s.1.calls, k ∈ s.1.nested.dropLast.map LiveRef.tag
  reading : ∀ k ∈ s.1.reading, k ∈ s.1.shared
  muts : ∀ r ∈ s.1.nested, r.isMut = true
  chain : ∃ r rs p below S, s.1.nested = r :: rs ∧ p ≠ .shared ∧
    Levels I (s.1.calls ++ I) s.2.next s.1.nested (⟨p, r.tag⟩ :: below) ∧
    (K.frame p r.tag below (s.1.calls ++ I)).W s.2.prot s.2.next s.2.mem S ∧ ∀ t ∈ s.1.shared, t ∈ S

/-- Without the shared references it is a state of a program of C72. -/
theorem CInv.hinv (hM : Calm A M) {K : Cells A R} {I : List Nat} {v : Held} {σ : B A} (h : CInv K I (v, σ)) (h0 : v.reading = []) :
    HInv R M I ({ v with shared := [] }, σ) := by
  obtain ⟨hr, hp, hlt, hc, hre, hm, r, rs, p, below, S, h1, h2, h3, h4, h5⟩ := h
  refine ⟨hr, hp, hlt, hc, fun k hk => ?_, ?_, ⟨p, r.tag⟩ :: below, h3, ⟨[], by simp, K.sound h4⟩, fun t ht => by cases ht⟩
  · simp only [h0] at hk
    cases hk
  · simp only [h0]
    exact hM.nil _

theorem HInv.cinv (K : Cells A R) {I : List Nat} {s : Held × B A} (h : HInv R M I s) (hs : s.1.shared = [])
    (hm : ∀ r ∈ s.1.nested, r.isMut = true) : CInv K I s := by
  obtain ⟨hr, hp, hlt, hc, hre, -, com, hch⟩ := h
  have h0 : s.1.reading = [] := by
    cases hx : s.1.reading with
    | nil => rfl
    | cons k ks =>
      have := hre k (by rw [hx]; exact List.mem_cons_self)
      rw [hs] at this
      cases this
  obtain ⟨r, rs, p, below, h1, rfl, h2⟩ := hch.levels.head
  obtain ⟨J, hJ, hR⟩ := hch.base
  have hpp : p ≠ .shared := h2 (hm r (by rw [h1]; exact List.mem_cons_self))
  have hP : s.2.prot = s.1.calls ++ I := by rw [hp, h0]; rfl
  refine ⟨hr, hp, hlt, hc, hre, hm, r, rs, p, below, [], h1, hpp, hch.levels, ?_, by rw [hs]; simp⟩
  rw [hP] at hlt ⊢
  exact K.enter hpp (fun i hi => ⟨fun e => (hJ i hi).2.1 (by rw [e]; simp), (hJ i hi).1⟩) hlt hR

/-- Pointers were made, and used, with shared references. -/
theorem CInv.grow {K : Cells A R} {I : List Nat} {v : Held} {σ : B A} (h : CInv K I (v, σ)) {r : LiveRef} {rs : List LiveRef}
    {p : BPerm} {below : BStack} {S S' : List Nat} (h1 : v.nested = r :: rs) (h2 : p ≠ .shared)
    (h3 : Levels I (v.calls ++ I) σ.next v.nested (⟨p, r.tag⟩ :: below)) (h5 : ∀ t ∈ v.shared, t ∈ S) {τ : B A}
    (g : Grows (K.frame p r.tag below (v.calls ++ I)) S σ S' τ) (new : List Nat) (hn : ∀ t ∈ new, t ∈ S') :
    CInv K I ({ v with shared := v.shared ++ new }, τ) := by
  refine ⟨g.inW.1, g.prot.trans h.prot, fun k hk => ?_, h.calls, fun k hk => List.mem_append_left _ (h.reading k hk), h.muts,
    r, rs, p, below, S', h1, h2, h3.next g.next, g.inW.2, fun t ht => ?_⟩
  · simp only [g.prot] at hk
    exact Nat.lt_of_lt_of_le (h.lt k hk) g.next
  · rcases List.mem_append.1 ht with ht | ht
    · exact g.sub t (h5 t ht)
    · exact hn t ht

theorem CInv.grow_same {K : Cells A R} {I : List Nat} {v : Held} {σ : B A} (h : CInv K I (v, σ)) {r : LiveRef} {rs : List LiveRef}
    {p : BPerm} {below : BStack} {S S' : List Nat} (h1 : v.nested = r :: rs) (h2 : p ≠ .shared)
    (h3 : Levels I (v.calls ++ I) σ.next v.nested (⟨p, r.tag⟩ :: below)) (h5 : ∀ t ∈ v.shared, t ∈ S) {τ : B A}
    (g : Grows (K.frame p r.tag below (v.calls ++ I)) S σ S' τ) : CInv K I (v, τ) := by
  have := h.grow h1 h2 h3 h5 g [] (by simp)
  rw [List.append_nil] at this
  exact this

/-- Which tags a shared step may use. -/
theorem tag_mem {v : Held} {r : LiveRef} {rs : List LiveRef} {S : List Nat} (h1 : v.nested = r :: rs) (h5 : ∀ t ∈ v.shared, t ∈ S)
    {g : Option Nat} {t : Nat} (h : v.tag g = some t) : t ∈ r.tag :: S := by
  cases g with
  | none =>
    simp only [Held.tag, h1, List.head?_cons, Option.map_some, Option.some.injEq] at h
    rw [h]
    exact List.mem_cons_self
  | some i =>
    exact List.mem_cons_of_mem _ (h5 t (List.mem_of_getElem? h))

/-- `project` makes mutable references. -/
theorem HInv.project_mut (hR : Allows A R) (hS : Shares A R) {I : List Nat} {s : Held × B A} (h : HInv R M I s) {c : MCall}
    (hw : s.1.CanWrite) (hc : Generated "project" c) : ∀ r ∈ s.1.nested.head?, ∀ q, innerRef c.byte (c.run r.tag s.2).1 = some q →
      q.isMut = true := by
  obtain ⟨hr, hσs, hp, -, -, -, com, hcs⟩ := h
  obtain ⟨h0, r, rs, h1, h2, h3⟩ := Held.CanWrite.tag hw
  rw [h0, List.nil_append] at hσs
  obtain ⟨hlt, F, hF, hrel, -⟩ := op_mut hR hS (by rw [hσs]; exact hcs) hp (fun k hk => by rw [hσs]; exact List.mem_append_right _ hk) h1 h2
  obtain ⟨σs, -, -, -, h5⟩ := op_project (m := true) hF c hc hr hp hlt hrel
  intro r' hr' q hq
  rw [h1, List.head?_cons, Option.mem_some_iff] at hr'
  subst hr'
  exact (h5 q hq).1

theorem innerRef_labels {b : Byte} {ls : List String} {fields : List (String × BFVal)}
    (h : fields.map (fun v => (pointer v.2).map (fun p => p.2.1)) = ls.map (fun l => some (some l))) :
    (innerRef b (some (.adt fields))).isSome = ls.any b.inField := by
  induction fields generalizing ls with
  | nil =>
    cases ls with
    | nil => rfl
    | cons l ls => cases h
  | cons v vs ih =>
    cases ls with
    | nil => cases h
    | cons l ls =>
      simp only [List.map_cons, List.cons.injEq] at h
      have := ih h.2
      cases hp : pointer v.2 with
      | none => rw [hp] at h; cases h.1
      | some q =>
        obtain ⟨m, k, t⟩ := q
        rw [hp] at h
        obtain rfl : k = some l := Option.some.inj h.1
        simp only [innerRef, List.findSome?_cons, hp, Byte.within] at this ⊢
        by_cases hb : b.inField l = true
        · simp [hb]
        · simp only [hb, Bool.false_eq_true, if_false, List.any_cons, Bool.false_or]
          exact this

/-- What `project_ref` does. -/
theorem CInv.projectRef {K : Cells A R} {I : List Nat} {v : Held} {σ : B A} (h : CInv K I (v, σ)) {g : Option Nat} {t : Nat}
    (ht : v.tag g = some t) (c : MCall) (hc : Generated "project_ref" c) :
    CInv K I (act (.projectRef g c) (v, σ)) ∧
      (innerRef c.byte (c.run t σ).1).isSome = c.shape.labels.any c.byte.inField := by
  obtain ⟨r, rs, p, below, S, h1, h2, h3, h4, h5⟩ := h.chain
  obtain ⟨item, E, variant, fs, k1, k2, k3, k4, -, k6, -⟩ := hc
  obtain ⟨vs, τ, S', e, gr, h6, h7⟩ := projectRef_w (F := K.frame p r.tag below (v.calls ++ I)) (S := S) (σ := σ) item E k1 k2 c.fn k3
    variant fs k4 c.byte t ⟨h.run, h4⟩ (tag_mem h1 h5 ht) c.panics c.tailLeak
  have e' : c.run t σ = (some (.adt vs), τ) := by
    unfold MCall.run
    rw [k6]
    exact e
  simp only [act, ht, e']
  refine ⟨h.grow h1 h2 h3 h5 gr _ ?_, ?_⟩
  · intro u hu
    cases hin : innerRef c.byte (some (.adt vs)) with
    | none => rw [hin] at hu; cases hu
    | some q =>
      rw [hin] at hu
      simp only [Option.map_some, Option.toList_some, List.mem_singleton] at hu
      subst hu
      obtain ⟨w, hw, l, hp, hb⟩ := innerRef_mem hin
      obtain ⟨l', t', h8, h9⟩ := h6 w hw
      rw [hp] at h8
      simp only [Option.some.injEq, Prod.mk.injEq] at h8
      obtain ⟨-, rfl, rfl⟩ := h8
      exact h9 hb
  · rw [innerRef_labels h7, k6]

theorem cellAct_inv (hR : Allows A R) (hS : Shares A R) (hM : Calm A M) (K : Cells A R) {I : List Nat} {a : CellAct}
    {s : Held × B A} (h : CInv K I s) (ha : a.Allowed s.1) :
    CInv K I (cellAct a s) ∨ ((cellAct a s).2.status = .abort ∧ ∃ c, a = .plain (.change c)) := by
  obtain ⟨v, σ⟩ := s
  obtain ⟨r, rs, p, below, S, h1, h2, h3, h4, h5⟩ := h.chain
  simp only at h1 h2 h3 h4 h5 ha
  have hin : InW (K.frame p r.tag below (v.calls ++ I)) S σ := ⟨h.run, h4⟩
  cases a with
  | set i =>
    left
    have ht : v.shared[i]? = some v.shared[i] := List.getElem?_eq_getElem ha
    simp only [cellAct, ht]
    exact h.grow_same h1 h2 h3 h5 (access_w hin wholeByte true none _ (fun _ => .inl (h5 _ (List.getElem_mem ha))))
  | plain a =>
    -- with a mutable reference, as in C72
    have mutable : v.reading = [] → a.Allowed { v with shared := [] } → act a ({ v with shared := [] }, σ) = act a (v, σ) →
        (act a (v, σ)).1.shared = [] → (∀ r ∈ (act a (v, σ)).1.nested, r.isMut = true) →
        CInv K I (act a (v, σ)) ∨ ((act a (v, σ)).2.status = .abort ∧ ∃ c, CellAct.plain a = .plain (.change c)) := by
      intro h0 h6 h7 h8 h9
      rcases act_inv hR hS hM (h.hinv hM h0) h6 with h10 | ⟨h10, c, rfl⟩
      · rw [h7] at h10
        exact .inl (h10.cinv K h8 h9)
      · rw [h7] at h10
        exact .inr ⟨h10, c, rfl⟩
    have hmuts := h.muts
    obtain ⟨nested, shared, calls, reading⟩ := v
    simp only at h1 hmuts
    subst h1
    cases a with
    | done => exact mutable ha.1 ha rfl rfl (fun q hq => hmuts q (List.mem_of_mem_tail hq))
    | write => exact mutable ha.1 ha rfl rfl hmuts
    | borrowMut =>
      refine mutable ha.1 ha rfl rfl (fun q hq => ?_)
      rcases List.mem_cons.1 hq with rfl | hq
      · rfl
      · exact hmuts q hq
    | enter =>
      refine mutable ha.1 ha rfl rfl (fun q hq => ?_)
      rcases List.mem_cons.1 hq with rfl | hq
      · rfl
      · exact hmuts q hq
    | change c => exact mutable ha.1.1 ha rfl rfl hmuts
    | project c =>
      refine mutable ha.1.1 ha rfl rfl (fun q hq => ?_)
      rcases List.mem_append.1 hq with hq | hq
      · exact (h.hinv hM ha.1.1).project_mut hR hS ha.1 ha.2 r rfl q (by simpa using hq)
      · exact hmuts q hq
    | read g =>
      left
      obtain ⟨t, ht⟩ := Option.isSome_iff_exists.1 ha
      simp only [cellAct, act, ht]
      refine h.grow_same rfl h2 h3 h5 (access_w hin wholeByte false none t (fun _ => ?_))
      rcases List.mem_cons.1 (tag_mem rfl h5 ht) with e | e
      · exact .inr ⟨e, rfl⟩
      · exact .inl e
    | borrow g =>
      left
      obtain ⟨t, ht⟩ := Option.isSome_iff_exists.1 ha
      obtain ⟨S', gr, hn⟩ := retag_w hin wholeByte none t (fun _ => tag_mem rfl h5 ht)
      simp only [cellAct, act, ht]
      refine h.grow rfl h2 h3 h5 gr _ (fun u hu => ?_)
      rw [List.mem_singleton] at hu
      subst hu
      exact hn rfl
    | projectRef g c =>
      left
      obtain ⟨t, ht⟩ := Option.isSome_iff_exists.1 ha.1
      exact (h.projectRef ht c ha.2).1
    | enterRef g =>
      left
      obtain ⟨t, ht⟩ := Option.isSome_iff_exists.1 ha
      obtain ⟨S', h6, h7, h8, h9, h10⟩ := enter_w hin wholeByte t (tag_mem rfl h5 ht)
      simp only [cellAct, act, ht]
      have hn : (σ.retag wholeByte .shared none t).2.next = σ.next + 1 := rfl
      have hq : (σ.retag wholeByte .shared none t).1 = σ.next := rfl
      refine ⟨h6.1, ?_, ?_, h.calls, ?_, hmuts, r, rs, p, below, S', rfl, h2, h3.next h9, ?_, ?_⟩
      · simp only [h10, List.cons_append]
        rw [h.prot]
      · intro k hk
        simp only [h10] at hk
        simp only [hn]
        rcases List.mem_cons.1 hk with rfl | hk
        · exact Nat.lt_succ_self _
        · exact Nat.lt_succ_of_lt (h.lt k hk)
      · intro k hk
        rcases List.mem_cons.1 hk with rfl | hk
        · exact List.mem_append_right _ (List.mem_singleton.2 rfl)
        · exact List.mem_append_left _ (h.reading k hk)
      · have := h6.2
        simp only [h10]
        exact this
      · intro u hu
        rcases List.mem_append.1 hu with hu | hu
        · exact h7 u (h5 u hu)
        · rw [List.mem_singleton] at hu
          subst hu
          exact h8
    | leave =>
      left
      have hprot := h.prot
      have hlt := h.lt
      have hcalls := h.calls
      have hread := h.reading
      simp only at hprot hlt hcalls hread h5
      cases reading with
      | cons t ts =>
        have ht := hread t List.mem_cons_self
        obtain ⟨h6, h7⟩ := leave_w (P := ts ++ (calls ++ I)) hin (h5 t ht) hprot
        have htail : σ.prot.tail = ts ++ (calls ++ I) := by rw [hprot]; rfl
        simp only [cellAct, act, htail]
        refine ⟨h6.1, rfl, fun k hk => ?_, hcalls, fun k hk => hread k (List.mem_cons_of_mem _ hk), hmuts, r, rs, p, below, S, rfl,
          h2, ?_, h6.2, h5⟩
        · simp only [h7]
          exact hlt k (by rw [hprot]; exact List.mem_cons_of_mem _ hk)
        · simp only [h7]
          exact h3
      | nil =>
        cases calls with
        | nil => simp [CellAct.Allowed, Act.Allowed] at ha
        | cons t ts =>
          replace hprot : σ.prot = t :: (ts ++ I) := hprot
          have h4' := h4
          rw [hprot] at h4'
          obtain ⟨s', h6, h7⟩ := K.leave h2 h4' (h3.tags.2 t (hcalls t List.mem_cons_self))
          have hless : ∀ k ∈ ts ++ I, k < σ.next → k ∈ t :: ts ++ I := fun k hk _ => List.mem_cons_of_mem _ hk
          simp only [cellAct, act, release_eq h.run (by rw [hprot]; exact h6), hprot, List.tail_cons]
          exact ⟨h.run, rfl, fun k hk => hlt k (by rw [hprot]; exact List.mem_cons_of_mem _ hk),
            fun k hk => hcalls k (List.mem_cons_of_mem _ hk), hread, hmuts, r, rs, p, below, S, rfl, h2,
            h3.mono (Nat.le_refl _) hless, h7, h5⟩

theorem cellHistory_stays {as : List CellAct} {s : Held × B A} (h : s.2.status ≠ .run) : cellHistory as s = s := by
  induction as with
  | nil => rfl
  | cons a as ih =>
    simp only [cellHistory, List.foldl_cons, h, if_false]
    exact ih

theorem cellAct_last {a : CellAct} {s : Held × B A} (ha : a.Allowed s.1) :
    (cellAct a s).1.nested.getLast? = s.1.nested.getLast? := by
  cases a with
  | plain a => exact act_last ha
  | set i =>
    simp only [cellAct]
    split <;> rfl

theorem cellHistory_inv (hR : Allows A R) (hS : Shares A R) (hM : Calm A M) (K : Cells A R) {I : List Nat} :
    ∀ (as : List CellAct) (s : Held × B A), CInv K I s → CellPermitted as s →
    (CInv K I (cellHistory as s) ∨ ((cellHistory as s).2.status = .abort ∧ ∃ c, .plain (.change c) ∈ as)) ∧
      (cellHistory as s).1.nested.getLast? = s.1.nested.getLast? := by
  intro as
  induction as with
  | nil => exact fun s h _ => ⟨.inl h, rfl⟩
  | cons a as ih =>
    intro s h hp
    obtain ⟨h1, h2⟩ := hp h.run
    have e : cellHistory (a :: as) s = cellHistory as (cellAct a s) := by
      simp only [cellHistory, List.foldl_cons, h.run, if_true]
    rw [e]
    rcases cellAct_inv hR hS hM K h h1 with h3 | ⟨h3, c, rfl⟩
    · obtain ⟨h4, h5⟩ := ih _ h3 h2
      exact ⟨h4.imp id (fun ⟨h6, c, h7⟩ => ⟨h6, c, List.mem_cons_of_mem _ h7⟩), h5.trans (cellAct_last h1)⟩
    · rw [cellHistory_stays (by rw [h3]; simp)]
      exact ⟨.inr ⟨h3, c, List.mem_cons_self⟩, cellAct_last h1⟩

theorem CInv.usable (hR : Allows A R) (hS : Shares A R) (hM : Calm A M) {K : Cells A R} {I : List Nat} {s : Held × B A}
    (h : CInv K I s) : AllUsable s ∧ AllSettable s := by
  obtain ⟨v, σ⟩ := s
  obtain ⟨r, rs, p, below, S, h1, h2, h3, h4, h5⟩ := h.chain
  have hin : InW (K.frame p r.tag below (v.calls ++ I)) S σ := ⟨h.run, h4⟩
  refine ⟨⟨fun h0 => ((h.hinv hM h0).usable hR hS hM).1 h0, ?_⟩, ?_⟩
  · intro g t ht
    refine (access_w hin wholeByte false none t (fun _ => ?_)).inW.1
    rcases List.mem_cons.1 (tag_mem h1 h5 ht) with e | e
    · exact .inr ⟨e, rfl⟩
    · exact .inl e
  · intro t ht
    exact (access_w hin wholeByte true none t (fun _ => .inl (h5 t ht))).inW.1

theorem CInv.init (hR : Allows A R) (hM : Calm A M) (K : Cells A R) {t0 : Nat} {σ : B A} (h : Callable wholeByte true t0 σ) :
    CInv K σ.prot (.only true t0, σ) :=
  (HInv.init hR hM h).cinv K rfl (fun r hr => by
    rw [List.mem_singleton.1 hr])

/-! ## C79 -/

/-- **C79** a program that has a usable mutable reference to a value of an annotated type whose field has interior mutability, and
does with it any number of things the borrow checker allows, as in C72; besides, it writes through shared references whenever
it has one: those `project_ref` returns, those it is called with, also while there are others and while functions that have got
one are in progress. Then there is no undefined behaviour. While the program goes on, all references of the function in progress
can be used: mutable ones to write, and shared ones to read and to write. Exactly the parameters of functions in progress
are protected. The reference it had at the beginning is still there, and when no function is in progress it can be used and
everything can begin again. -/
theorem C79_cells {A : AliasModel} (hA : CellRules A) (t0 : Nat) (σ : B A) (hσ : Callable wholeByte true t0 σ)
    (as : List CellAct) (has : CellPermitted as (.only true t0, σ)) :
    let s := cellHistory as (.only true t0, σ)
    ((s.2.status = .run ∧ AllUsable s ∧ AllSettable s ∧ s.2.prot = s.1.reading ++ s.1.calls ++ σ.prot ∧
        (s.1.calls = [] → s.1.reading = [] → Callable wholeByte true t0 s.2)) ∨
      (s.2.status = .abort ∧ ∃ c, .plain (.change c) ∈ as)) ∧
      s.1.nested.getLast? = some ⟨true, t0⟩ := by
  obtain ⟨R, M, hR, hS, hM, ⟨K⟩⟩ := cells hA
  obtain ⟨h1, h2⟩ := cellHistory_inv hR hS hM K as _ (.init hR hM K hσ) has
  refine ⟨h1.imp (fun h => ?_) id, h2⟩
  obtain ⟨h3, h4⟩ := h.usable hR hS hM
  refine ⟨h.run, h3, h4, by rw [List.append_assoc]; exact h.prot, fun h5 h6 => ⟨h.run, ?_, h.lt, ?_⟩⟩
  · exact (h.hinv (v := _) (σ := _) hM h6).valid hR
  refine h3.1 h6 ⟨true, t0⟩ ?_
  rw [h5]
  have : ∀ rs : List LiveRef, inProgress [] rs = rs := by
    intro rs
    induction rs with
    | nil => rfl
    | cons r rs ih => simp [inProgress, ih]
  rw [this]
  exact List.mem_of_getLast? h2

/-- **C79** in such a program `project_ref` gives a shared reference to what contains the byte if some field contains it, and only
then. -/
theorem C79_project_ref {A : AliasModel} (hA : CellRules A) (t0 : Nat) (σ : B A) (hσ : Callable wholeByte true t0 σ)
    (as : List CellAct) (has : CellPermitted as (.only true t0, σ)) (s : Held × B A) (hs : cellHistory as (.only true t0, σ) = s)
    (hr : s.2.status = .run) (c : MCall) (g : Option Nat) (hg : (s.1.tag g).isSome) (hc : Generated "project_ref" c) :
    ∃ new, (act (.projectRef g c) s).1 = { s.1 with shared := s.1.shared ++ new } ∧
      new.length = if c.shape.labels.any c.byte.inField then 1 else 0 := by
  obtain ⟨R, M, hR, hS, hM, ⟨K⟩⟩ := cells hA
  have hi : CInv K σ.prot s := by
    rw [← hs]
    refine (cellHistory_inv hR hS hM K as _ (.init hR hM K hσ) has).1.resolve_right (fun h => ?_)
    rw [hs, hr] at h
    cases h.1
  obtain ⟨t, ht⟩ := Option.isSome_iff_exists.1 hg
  obtain ⟨-, h4⟩ := CInv.projectRef (v := s.1) (σ := s.2) hi ht c hc
  refine ⟨((innerRef c.byte (c.run t s.2).1).map LiveRef.tag).toList, by simp [act, ht], ?_⟩
  rw [← h4]
  cases innerRef c.byte (c.run t s.2).1 <;> rfl

/-! ## The hypotheses are met -/

/-- A field's shared references are written through in turn, also by a function that has got one of them, while another is
in use by its caller; then the mutable reference is used; then a function that has got a mutable reference makes a shared one,
which is used after it has returned. -/
def demoCells : List CellAct :=
  [.plain .borrowMut, .plain (.projectRef none (demoCall "project_ref" (fun _ => false))), .set 0, .plain (.borrow none), .set 1, .set 0,
   .plain (.enterRef (some 0)), .set 0, .set 1, .set 2, .plain (.read none), .plain .leave, .set 2, .plain .write, .plain .enter,
   .plain (.projectRef none (demoCall "project_ref" (fun _ => false))), .set 0, .plain .leave, .set 0, .plain .done, .plain .done,
   .plain .write]

/-- Rules of both kinds: only what shared references point to is treated as having interior mutability. -/
def demoExempt (p : BPerm) (_ : Nat) : Bool := p == .shared
def demoHow (p : BPerm) (_ : Nat) : TreeHow := if p = .shared then .interior else .plain

example : CellRules (miri demoExempt) ∧ CellRules (miri (fun _ _ => true)) ∧ CellRules (tree demoHow) ∧ CellRules (tree (fun _ _ => .asRaw)) :=
  ⟨.miri _ (fun _ => rfl), .miri _ (fun _ => rfl), .tree _ (fun _ => by simp [demoHow]), .tree _ (fun _ => by simp)⟩

example : Callable wholeByte true 1 (demoMiri demoExempt) ∧ Callable wholeByte true 1 (demoTree demoHow) :=
  ⟨demo_whole (demoMiri_callable _ true), demo_whole (demoTree_callable _ true)⟩

set_option maxRecDepth 20000 in
theorem demoCells_permitted : CellPermitted demoCells (.only true 1, demoMiri demoExempt) ∧
    CellPermitted demoCells (.only true 1, demoTree demoHow) := by
  have hf := demoCall_generated "project_ref" (.inr (.inl rfl))
  have w : ∀ {r : LiveRef} {rs sh cs}, r.isMut = true → Held.CanWrite ⟨r :: rs, sh, cs, []⟩ := fun h => ⟨rfl, _, _, rfl, h⟩
  have d : ∀ {r r' : LiveRef} {rs sh}, Act.Allowed ⟨r :: r' :: rs, sh, [], []⟩ .done :=
    fun {r r' rs sh} => ⟨rfl, by simp, fun _ _ h => by cases h⟩
  have lt : ∀ {i n : Nat}, decide (i < n) = true → i < n := fun h => of_decide_eq_true h
  constructor <;> exact fun _ => ⟨w rfl, fun _ => ⟨⟨rfl, hf _⟩, fun _ => ⟨lt rfl, fun _ => ⟨rfl, fun _ => ⟨lt rfl, fun _ => ⟨lt rfl,
    fun _ => ⟨rfl, fun _ => ⟨lt rfl, fun _ => ⟨lt rfl, fun _ => ⟨lt rfl, fun _ => ⟨rfl, fun _ => ⟨.inl (fun h => by cases h),
    fun _ => ⟨lt rfl, fun _ => ⟨w rfl, fun _ => ⟨w rfl, fun _ => ⟨⟨rfl, hf _⟩, fun _ => ⟨lt rfl,
    fun _ => ⟨.inr (fun h => by cases h), fun _ => ⟨lt rfl, fun _ => ⟨d, fun _ => ⟨d, fun _ => ⟨w rfl, trivial⟩⟩⟩⟩⟩⟩⟩⟩⟩⟩⟩⟩⟩⟩⟩⟩⟩⟩⟩⟩⟩⟩

set_option maxRecDepth 20000 in
/-- It runs to the end. In the middle there are three shared references, and one function is in progress. -/
example : (cellHistory demoCells (.only true 1, demoMiri demoExempt)).2.status = .run ∧
    (cellHistory demoCells (.only true 1, demoTree demoHow)).2.status = .run ∧
    (cellHistory (demoCells.take 10) (.only true 1, demoMiri demoExempt)).1.shared.length = 3 ∧
    (cellHistory (demoCells.take 10) (.only true 1, demoTree demoHow)).1.reading.length = 1 ∧
    (cellHistory (demoCells.take 19) (.only true 1, demoTree demoHow)).1.shared.length = 1 := by
  exact ⟨rfl, rfl, rfl, rfl, rfl⟩

/-- Without interior mutability a write through a shared reference is undefined behaviour. -/
example : let prog := [.plain (.projectRef none (demoCall "project_ref" (fun _ => false))), .set 0]
    (cellHistory prog (.only true 1, demoMiri (fun _ _ => false))).2.status = .ub ∧
    (cellHistory prog (.only true 1, demoTree (fun _ _ => .plain))).2.status = .ub ∧
    (cellHistory prog (.only true 1, demoB)).2.status = .ub := by
  exact ⟨rfl, rfl, rfl⟩

/-- A mutable reference made meanwhile puts an end to shared ones, also with interior mutability. -/
example : let s := cellHistory [.plain (.projectRef none (demoCall "project_ref" (fun _ => false))), .set 0] (.only true 1, demoMiri demoExempt)
    s.1 = ⟨[⟨true, 1⟩], [7], [], []⟩ ∧ ((act .borrowMut s).2.access wholeByte true none 7).status = .ub := by
  exact ⟨rfl, rfl⟩

end PinProject

import Verif.Props.ClientUnique
import Verif.Spec.Ownership
/-!
# What is pending for values that are dead, and for values that are alive
-/
namespace PinProject
open Spec

/-! ## Definitions -/

/-- The operation ends the use of the memory at `L`. -/
def Instr.Dooms : Instr → GLoc → Prop
  | .store M _, L => M.Contains L
  | .free r, L => L.root = r
  | _, _ => False

/-- The destructor of `L` is running, according to `rest`. -/
def OwnDestructor (L : GLoc) (rest : List Instr) : Prop := (∃ k, .code [(L, k)] ∈ rest) ∧ .fields L ∈ rest

/-- A dead value is at `L`: the memory is overwritten or freed before anything else uses it, or anything that
contains it; but the destructor of `L` itself may still be running. -/
def SpentOk (L : GLoc) : List Instr → Prop
  | [] => False
  | i :: rest => i.Dooms L ∨ ((∀ M ∈ i.locs, ¬ M.Above L) ∧ (i = .destroy L → OwnDestructor L rest) ∧ SpentOk L rest)

/-- A value is at `L` that is not dead: it is destroyed before the memory is overwritten or freed. -/
def UnspentOk (L : GLoc) : List Instr → Prop
  | [] => True
  | i :: rest => i.Covers L ∨ (¬ i.Dooms L ∧ UnspentOk L rest)

/-- After the destruction of what is at `L`, the memory is overwritten or freed before anything else uses it. -/
def Strong (L : GLoc) : List Instr → Prop
  | [] => False
  | i :: rest => i.Dooms L ∨ ((∀ M ∈ i.locs, ¬ M.Contains L) ∧ Strong L rest)

/-- What is pending after `L` is overwritten. -/
def StoreOk (L : GLoc) (rest : List Instr) : Prop :=
  (∀ f p, UnspentOk (L.sub (f :: p)) rest) ∧ (.fields L ∈ rest → SpentOk L rest) ∧ (.fields L ∉ rest → UnspentOk L rest)

/-- Operations begun later do not concern anything that contains what earlier ones concern. -/
def NestAll : List Instr → Prop
  | [] => True
  | i :: rest => (∀ M ∈ i.locs, ∀ j ∈ rest, ∀ N ∈ j.locs, ¬ M.Above N) ∧ NestAll rest

/-- Each operation fits to what follows. -/
def Sound : List Instr → Prop
  | [] => True
  | i :: rest => ((∀ L, i = .destroy L ∨ i = .fields L → Strong L rest) ∧ (∀ L v, i = .store L v → StoreOk L rest)) ∧
      Sound rest

/-- The value `id` is part of `v`. -/
def V.Has (v : V) (p : List String) (id : Id) : Prop := ∃ ty va fs, v.get p = some (.node id ty va fs)

structure Own (c : Config) : Prop where
  nest : NestAll c.todo
  sound : Sound c.todo
  spent : ∀ id ty L, Resides c.w id ty L → Spent c.w id → SpentOk L c.todo
  unspent : ∀ id ty L, Resides c.w id ty L → ¬ Spent c.w id → UnspentOk L c.todo
  held : ∀ i ∈ c.todo, ∀ v ∈ i.vals, ∀ p id, v.Has p id → ¬ Spent c.w id
  used : ∀ id, Spent c.w id → id ∈ c.w.used

/-! ## Lists of operations -/

theorem Instr.Dooms.loc {i : Instr} {L : GLoc} (h : i.Dooms L) : ∃ N ∈ i.locs, N.Contains L := by
  cases i with
  | store M v => exact ⟨M, by simp [Instr.locs], h⟩
  | free r =>
    refine ⟨⟨r, []⟩, by simp [Instr.locs], ?_⟩
    have h : L.root = r := h
    subst h
    exact ⟨L.path, GLoc.root_sub L⟩
  | _ => exact h.elim

theorem Instr.Dooms.below {i : Instr} {L M : GLoc} (h : i.Dooms L) (hc : L.Contains M) : i.Dooms M := by
  cases i with
  | store N v => exact GLoc.Contains.trans h hc
  | free r => exact hc.root.trans h
  | _ => exact h.elim

theorem Clear.tail {i : Instr} {is : List Instr} {L : GLoc} (h : Clear (i :: is) L) : Clear is L :=
  fun j hj => h j (List.mem_cons_of_mem _ hj)

theorem Clear.not_contains {is : List Instr} {L : GLoc} (h : Clear is L) {i : Instr} (hi : i ∈ is) :
    ∀ M ∈ i.locs, ¬ M.Contains L := fun M hM => (h i hi M hM).1

theorem Clear.not_dooms {is : List Instr} {L : GLoc} (h : Clear is L) {i : Instr} (hi : i ∈ is) : ¬ i.Dooms L := by
  intro hd
  obtain ⟨N, hN, hc⟩ := hd.loc
  exact h.not_contains hi N hN hc

theorem Clear.not_covers {is : List Instr} {L : GLoc} (h : Clear is L) {i : Instr} (hi : i ∈ is) : ¬ i.Covers L := by
  intro hd
  obtain ⟨N, hN, hc⟩ := hd.loc
  exact h.not_contains hi N hN hc

theorem Clear.ne_destroy {is : List Instr} {L : GLoc} (h : Clear is L) {i : Instr} (hi : i ∈ is) : i ≠ .destroy L := by
  rintro rfl
  exact h.not_contains hi L (by simp [Instr.locs]) (.refl _)

theorem Clear.ne_fields {is : List Instr} {L : GLoc} (h : Clear is L) {i : Instr} (hi : i ∈ is) : i ≠ .fields L := by
  rintro rfl
  exact h.not_contains hi L (by simp [Instr.locs]) (.refl _)

theorem clear_of_not_busy {todo : List Instr} {L : GLoc} (h : L.root ∉ busyRoots todo) : Clear todo L := by
  intro i hi N hN
  have hne : N.root ≠ L.root := fun he => h (mem_busyRoots.2 ⟨i, hi, N, hN, he⟩)
  exact ⟨fun hc => hne hc.root.symm, fun hc => hne hc.root⟩

/-- Values on their way somewhere use no memory. -/
theorem clear_values {is : List Instr} (h : ∀ i ∈ is, i.locs = []) (L : GLoc) : Clear is L := by
  intro i hi N hN
  rw [h i hi] at hN
  cases hN

theorem spentOk_clear {pre rest : List Instr} {L : GLoc} (hc : Clear pre L) : SpentOk L (pre ++ rest) ↔ SpentOk L rest := by
  induction pre with
  | nil => rfl
  | cons i pre ih =>
    rw [List.cons_append, SpentOk, ih hc.tail]
    constructor
    · rintro (h | ⟨-, -, h⟩)
      · exact (hc.not_dooms List.mem_cons_self h).elim
      · exact h
    · intro h
      exact .inr ⟨fun M hM ha => hc.not_contains List.mem_cons_self M hM ha.contains,
        fun he => (hc.ne_destroy List.mem_cons_self he).elim, h⟩

theorem unspentOk_clear {pre rest : List Instr} {L : GLoc} (hc : Clear pre L) :
    UnspentOk L (pre ++ rest) ↔ UnspentOk L rest := by
  induction pre with
  | nil => rfl
  | cons i pre ih =>
    rw [List.cons_append, UnspentOk, ih hc.tail]
    constructor
    · rintro (h | ⟨-, h⟩)
      · exact (hc.not_covers List.mem_cons_self h).elim
      · exact h
    · intro h
      exact .inr ⟨hc.not_dooms List.mem_cons_self, h⟩

theorem unspentOk_all {is : List Instr} {L : GLoc} (hc : Clear is L) : UnspentOk L is := by
  rw [← List.append_nil is, unspentOk_clear hc]
  trivial

theorem not_spentOk {is : List Instr} {L : GLoc} (hc : Clear is L) : ¬ SpentOk L is := by
  rw [← List.append_nil is, spentOk_clear hc]
  exact fun h => h

/-- Operations that do not end the use of `L`, before the one that destroys what is there. -/
theorem unspentOk_skip {is rest : List Instr} {L : GLoc} (hd : ∀ i ∈ is, ¬ i.Dooms L) (h : UnspentOk L rest) :
    UnspentOk L (is ++ rest) := by
  induction is with
  | nil => exact h
  | cons i is ih =>
    exact .inr ⟨hd i List.mem_cons_self, ih (fun j hj => hd j (List.mem_cons_of_mem _ hj))⟩

theorem unspentOk_covered {is rest : List Instr} {L : GLoc} (hd : ∀ i ∈ is, ¬ i.Dooms L) (hc : Covered is L) :
    UnspentOk L (is ++ rest) := by
  induction is with
  | nil => obtain ⟨i, hi, -⟩ := hc; cases hi
  | cons i is ih =>
    rcases covered_cons.1 hc with h | h
    · exact .inl h
    · exact .inr ⟨hd i List.mem_cons_self, ih (fun j hj => hd j (List.mem_cons_of_mem _ hj)) h⟩

theorem strong_skip {is rest : List Instr} {L : GLoc} (hc : ∀ i ∈ is, ∀ M ∈ i.locs, ¬ M.Contains L) (h : Strong L rest) :
    Strong L (is ++ rest) := by
  induction is with
  | nil => exact h
  | cons i is ih =>
    exact .inr ⟨hc i List.mem_cons_self, ih (fun j hj => hc j (List.mem_cons_of_mem _ hj))⟩

theorem spentOk_skip {is rest : List Instr} {L : GLoc} (hc : ∀ i ∈ is, ∀ M ∈ i.locs, ¬ M.Above L)
    (hd : ∀ i ∈ is, i ≠ .destroy L) (h : SpentOk L rest) : SpentOk L (is ++ rest) := by
  induction is with
  | nil => exact h
  | cons i is ih =>
    exact .inr ⟨hc i List.mem_cons_self, fun he => (hd i List.mem_cons_self he).elim,
      ih (fun j hj => hc j (List.mem_cons_of_mem _ hj)) (fun j hj => hd j (List.mem_cons_of_mem _ hj))⟩

theorem Strong.spentOk {is : List Instr} {L : GLoc} (h : Strong L is) : SpentOk L is := by
  induction is with
  | nil => exact h
  | cons i is ih =>
    rcases h with h | ⟨h1, h2⟩
    · exact .inl h
    · refine .inr ⟨fun M hM ha => h1 M hM ha.contains, ?_, ih h2⟩
      rintro rfl
      exact (h1 L (by simp [Instr.locs]) (.refl _)).elim

/-- A part. -/
theorem Strong.below {is : List Instr} {L : GLoc} {f : String} (h : Strong L is)
    (hn : ∀ j ∈ is, ∀ N ∈ j.locs, ¬ L.Above N) : Strong (L.sub [f]) is := by
  induction is with
  | nil => exact h
  | cons i is ih =>
    rcases h with h | ⟨h1, h2⟩
    · exact .inl (h.below (.sub _ _))
    · refine .inr ⟨?_, ih h2 (fun j hj => hn j (List.mem_cons_of_mem _ hj))⟩
      intro M hM hc
      rcases hc.comparable (.sub L [f]) with h | h
      · exact h1 M hM h
      · rcases h.eq_or_above with h | h
        · exact h1 M hM (h ▸ .refl _)
        · exact hn i List.mem_cons_self M hM h

theorem SpentOk.first {i : Instr} {rest : List Instr} {L : GLoc} (h : SpentOk L (i :: rest)) (hd : ¬ i.Dooms L) :
    SpentOk L rest := (h.resolve_left hd).2.2

theorem UnspentOk.first {i : Instr} {rest : List Instr} {L : GLoc} (h : UnspentOk L (i :: rest)) (hd : ¬ i.Covers L) :
    UnspentOk L rest := (h.resolve_left hd).2

theorem nestAll_append {is rest : List Instr} (hi : NestAll is)
    (hl : ∀ i ∈ is, ∀ M ∈ i.locs, ∀ j ∈ rest, ∀ N ∈ j.locs, ¬ M.Above N) (h : NestAll rest) : NestAll (is ++ rest) := by
  induction is with
  | nil => exact h
  | cons i is ih =>
    refine ⟨?_, ih hi.2 (fun j hj => hl j (List.mem_cons_of_mem _ hj))⟩
    intro M hM j hj
    rcases List.mem_append.1 hj with hj | hj
    · exact hi.1 M hM j hj
    · exact hl i List.mem_cons_self M hM j hj

theorem nestAll_split {pre post : List Instr} {i : Instr} (h : NestAll (pre ++ i :: post)) :
    ∀ M ∈ i.locs, ∀ j ∈ post, ∀ N ∈ j.locs, ¬ M.Above N := by
  induction pre with
  | nil => exact h.1
  | cons j pre ih => exact ih h.2

theorem sound_split {pre post : List Instr} {i : Instr} (h : Sound (pre ++ i :: post)) :
    (∀ L, i = .destroy L ∨ i = .fields L → Strong L post) ∧ (∀ L v, i = .store L v → StoreOk L post) := by
  induction pre with
  | nil => exact h.1
  | cons j pre ih => exact ih h.2

/-- Values on their way somewhere. -/
theorem sound_values {is rest : List Instr} (hi : ∀ i ∈ is, i.locs = []) (h : Sound rest) : Sound (is ++ rest) := by
  induction is with
  | nil => exact h
  | cons i is ih =>
    refine ⟨⟨?_, ?_⟩, ih (fun j hj => hi j (List.mem_cons_of_mem _ hj))⟩
    · rintro L (rfl | rfl) <;> simp [Instr.locs] at hi
    · rintro L v rfl; simp [Instr.locs] at hi

theorem nestAll_values {is : List Instr} (hi : ∀ i ∈ is, i.locs = []) : NestAll is := by
  induction is with
  | nil => trivial
  | cons i is ih =>
    refine ⟨?_, ih (fun j hj => hi j (List.mem_cons_of_mem _ hj))⟩
    intro M hM
    rw [hi i List.mem_cons_self] at hM
    cases hM

theorem storeOk_clear {pre rest : List Instr} {L : GLoc} (hc : Clear pre L) : StoreOk L (pre ++ rest) ↔ StoreOk L rest := by
  have hm : Instr.fields L ∈ pre ++ rest ↔ Instr.fields L ∈ rest := by
    rw [List.mem_append]
    exact ⟨fun h => h.resolve_left (fun h => hc.ne_fields h rfl), .inr⟩
  unfold StoreOk
  rw [hm, spentOk_clear hc, unspentOk_clear hc]
  have : ∀ f p, UnspentOk (L.sub (f :: p)) (pre ++ rest) ↔ UnspentOk (L.sub (f :: p)) rest :=
    fun f p => unspentOk_clear (hc.below (.sub _ _))
  simp only [this]

/-- The parts of a value are destroyed one after the other. -/
theorem sound_destroys {L : GLoc} {names : List String} (hn : names.Nodup) {rest : List Instr}
    (hs : ∀ f ∈ names, Strong (L.sub [f]) rest) (hr : Sound rest) :
    Sound (names.map (fun f => .destroy (L.sub [f])) ++ rest) := by
  induction names with
  | nil => exact hr
  | cons f names ih =>
    rw [List.nodup_cons] at hn
    refine ⟨⟨?_, by simp⟩, ih hn.2 (fun g hg => hs g (List.mem_cons_of_mem _ hg))⟩
    rintro M (h | h)
    · obtain rfl := Instr.destroy.inj h
      refine strong_skip ?_ (hs f List.mem_cons_self)
      intro i hi M hM hc
      obtain ⟨g, hg, rfl⟩ := List.mem_map.1 hi
      simp only [Instr.locs, List.mem_singleton] at hM
      subst hM
      obtain ⟨p, hp⟩ := hc
      rw [GLoc.sub_sub, GLoc.sub_inj] at hp
      simp only [List.cons_append, List.nil_append, List.cons.injEq] at hp
      exact hn.1 (hp.1 ▸ hg)
    · cases h

theorem nestAll_destroys (L : GLoc) (names : List String) : NestAll (names.map (fun f => Instr.destroy (L.sub [f]))) := by
  induction names with
  | nil => trivial
  | cons f names ih =>
    refine ⟨?_, ih⟩
    intro M hM j hj N hN ha
    obtain ⟨g, -, rfl⟩ := List.mem_map.1 hj
    simp only [Instr.locs, List.mem_singleton] at hM hN
    subst hM hN
    obtain ⟨h, p, hp⟩ := ha
    rw [GLoc.sub_sub, GLoc.sub_inj] at hp
    simp at hp

/-! ## Other threads -/

/-- No memory in common. -/
def NoShare (i j : Instr) : Prop := ∀ M ∈ i.locs, ∀ N ∈ j.locs, N.Disjoint M

theorem noShare_false {i j : Instr} (h : NoShare i j) {L M N : GLoc} (hM : M ∈ i.locs) (hN : N ∈ j.locs) (h1 : M.Contains L)
    (h2 : N.Contains L) : False := by
  rcases h1.comparable h2 with hc | hc
  · exact (h M hM N hN).2 hc
  · exact (h M hM N hN).1 hc

theorem clear_cons {M : GLoc} {j : Instr} {pre : List Instr} : Clear (j :: pre) M ↔ (∀ N ∈ j.locs, N.Disjoint M) ∧ Clear pre M := by
  simp [Clear]

theorem sched_split {i j : Instr} {pre : List Instr} (h : ∀ M ∈ i.locs, Clear (j :: pre) M) :
    NoShare i j ∧ ∀ M ∈ i.locs, Clear pre M :=
  ⟨fun M hM => (clear_cons.1 (h M hM)).1, fun M hM => (clear_cons.1 (h M hM)).2⟩

theorem sched_spentOk {pre post : List Instr} {i : Instr} {L : GLoc} (hi : ∀ M ∈ i.locs, Clear pre M)
    (h : SpentOk L (pre ++ i :: post)) : SpentOk L (i :: (pre ++ post)) := by
  induction pre with
  | nil => exact h
  | cons j pre ih =>
    obtain ⟨ha, hi⟩ := sched_split hi
    by_cases hd : i.Dooms L
    · exact .inl hd
    rcases h with h | ⟨h1, h2, h3⟩
    · obtain ⟨N, hN, hNL⟩ := h.loc
      refine .inr ⟨fun M hM hab => noShare_false ha hM hN hab.contains hNL, ?_, .inl h⟩
      rintro rfl
      exact (noShare_false ha (M := L) (by simp [Instr.locs]) hN (.refl _) hNL).elim
    · obtain ⟨g1, g2, g3⟩ := (ih hi h3).resolve_left hd
      refine .inr ⟨g1, fun he => ?_, .inr ⟨h1, ?_, g3⟩⟩
      · obtain ⟨⟨k, hk⟩, hf⟩ := g2 he
        exact ⟨⟨k, List.mem_cons_of_mem _ hk⟩, List.mem_cons_of_mem _ hf⟩
      rintro rfl
      obtain ⟨⟨k, hk⟩, hf⟩ := h2 rfl
      refine ⟨⟨k, (List.mem_cons.1 (mem_sched.2 hk)).resolve_left ?_⟩, (List.mem_cons.1 (mem_sched.2 hf)).resolve_left ?_⟩
      · rintro rfl
        exact noShare_false ha (M := L) (N := L) (by simp [Instr.locs]) (by simp [Instr.locs]) (.refl _) (.refl _)
      · rintro rfl
        exact noShare_false ha (M := L) (N := L) (by simp [Instr.locs]) (by simp [Instr.locs]) (.refl _) (.refl _)

theorem sched_unspentOk {pre post : List Instr} {i : Instr} {L : GLoc} (hi : ∀ M ∈ i.locs, Clear pre M)
    (h : UnspentOk L (pre ++ i :: post)) : UnspentOk L (i :: (pre ++ post)) := by
  induction pre with
  | nil => exact h
  | cons j pre ih =>
    obtain ⟨ha, hi⟩ := sched_split hi
    by_cases hd : i.Covers L
    · exact .inl hd
    rcases h with h | ⟨h1, h2⟩
    · refine .inr ⟨?_, .inl h⟩
      intro hd
      obtain ⟨N, hN, hNL⟩ := h.loc
      obtain ⟨M, hM, hML⟩ := hd.loc
      exact noShare_false ha hM hN hML hNL
    · obtain ⟨g1, g2⟩ := (ih hi h2).resolve_left hd
      exact .inr ⟨g1, .inr ⟨h1, g2⟩⟩

theorem sched_strong {pre post : List Instr} {i : Instr} {L : GLoc} (hi : ∀ M ∈ i.locs, Clear pre M)
    (h : Strong L (pre ++ i :: post)) : Strong L (i :: (pre ++ post)) := by
  induction pre with
  | nil => exact h
  | cons j pre ih =>
    obtain ⟨ha, hi⟩ := sched_split hi
    by_cases hd : i.Dooms L
    · exact .inl hd
    rcases h with h | ⟨h1, h2⟩
    · obtain ⟨N, hN, hNL⟩ := h.loc
      exact .inr ⟨fun M hM hc => noShare_false ha hM hN hc hNL, .inl h⟩
    · obtain ⟨g1, g2⟩ := (ih hi h2).resolve_left hd
      exact .inr ⟨g1, .inr ⟨h1, g2⟩⟩

theorem sched_storeOk {pre post : List Instr} {i : Instr} {L : GLoc} (hi : ∀ M ∈ i.locs, Clear pre M)
    (h : StoreOk L (pre ++ i :: post)) : StoreOk L (i :: (pre ++ post)) := by
  refine ⟨fun f p => sched_unspentOk hi (h.1 f p), fun hm => sched_spentOk hi (h.2.1 (mem_sched.1 hm)),
    fun hm => sched_unspentOk hi (h.2.2 (fun hc => hm (mem_sched.2 hc)))⟩

theorem strong_uncons {i : Instr} {rest : List Instr} {L : GLoc} (h : Strong L (i :: rest))
    (hi : ∀ M ∈ i.locs, L.Disjoint M) : Strong L rest := by
  refine (h.resolve_left ?_).2
  intro hd
  obtain ⟨M, hM, hc⟩ := hd.loc
  exact (hi M hM).2 hc

theorem clear_one {i : Instr} {L : GLoc} (hi : ∀ M ∈ i.locs, M.Disjoint L) : Clear [i] L := by
  intro j hj
  rw [List.mem_singleton] at hj
  subst hj
  exact hi

theorem sched_sound {pre post : List Instr} {i : Instr} (hi : ∀ M ∈ i.locs, Clear pre M)
    (h : Sound (pre ++ i :: post)) : Sound (i :: (pre ++ post)) := by
  induction pre with
  | nil => exact h
  | cons j pre ih =>
    obtain ⟨ha, hi'⟩ := sched_split hi
    obtain ⟨g1, g2⟩ := ih hi' h.2
    refine ⟨⟨?_, ?_⟩, ⟨?_, ?_⟩, g2⟩
    · intro L hL
      have hLi : L ∈ i.locs := by rcases hL with rfl | rfl <;> simp [Instr.locs]
      exact .inr ⟨fun N hN hc => (ha L hLi N hN).1 hc, g1.1 L hL⟩
    · rintro L v rfl
      have hc : Clear [j] L := clear_one (fun N hN => ha L (by simp [Instr.locs]) N hN)
      exact (storeOk_clear (rest := pre ++ post) hc).2 (g1.2 L v rfl)
    · intro L hL
      have hLj : L ∈ j.locs := by rcases hL with rfl | rfl <;> simp [Instr.locs]
      exact strong_uncons (sched_strong hi' (h.1.1 L hL)) (fun M hM => ha M hM L hLj)
    · rintro L v rfl
      have hc : Clear [i] L := clear_one (fun M hM => (ha M hM L (by simp [Instr.locs])).symm)
      have := sched_storeOk hi' (h.1.2 L v rfl)
      exact (storeOk_clear (rest := pre ++ post) hc).1 this

theorem sched_nestAll {pre post : List Instr} {i : Instr} (hi : ∀ M ∈ i.locs, Clear pre M)
    (h : NestAll (pre ++ i :: post)) : NestAll (i :: (pre ++ post)) := by
  refine ⟨?_, ?_⟩
  · intro M hM j hj N hN ha
    rcases List.mem_append.1 hj with hj | hj
    · exact (hi M hM j hj N hN).2 ha.contains
    · exact nestAll_split h M hM j hj N hN ha
  · clear hi
    induction pre with
    | nil => exact h.2
    | cons j pre ih =>
      refine ⟨fun M hM k hk => h.1 M hM k ?_, ih h.2⟩
      exact mem_sched.1 (List.mem_cons_of_mem _ hk)

/-! ## What the running code can use -/

/-- How the running code comes to use `X`. -/
inductive Where (todo : List Instr) (X : GLoc) : Prop
  | root : Clear todo X → Where todo X
  | given {pre mid post : List Instr} {G : GLoc} {k : Mode} : todo = pre ++ .code [(G, k)] :: (mid ++ .fields G :: post) →
      Clear pre X → Clear mid G → G.Contains X → Where todo X

theorem Usable.where {U : Universe} {w : World} {todo : List Instr} {X : GLoc} {k : Mode} (hs : Shaped todo)
    (h : Usable U w todo X k) : Where todo X := by
  cases h with
  | root _ _ hc => exact .root hc
  | @given pre post gs g ht hg hd hc =>
    rw [ht] at hs
    rcases shaped_split hs with rfl | ⟨G, k', mid, post', rfl, rfl, hmid, -⟩
    · cases hg
    · rw [List.mem_singleton] at hg
      subst hg
      exact .given ht hc hmid hd.contains

theorem Where.not_above {todo : List Instr} {X : GLoc} (h : Where todo X) (hn : NestAll todo) :
    ∀ j ∈ todo, ∀ N ∈ j.locs, ¬ X.Above N := by
  intro j hj N hN ha
  cases h with
  | root hc => exact (hc j hj N hN).2 ha.contains
  | @given pre mid post G k ht hp hm hG =>
    subst ht
    rw [List.mem_append, List.mem_cons, List.mem_append, List.mem_cons] at hj
    rcases hj with hj | rfl | hj | rfl | hj
    · exact (hp j hj N hN).2 ha.contains
    · simp only [Instr.locs, List.map_cons, List.map_nil, List.mem_singleton] at hN
      subst hN
      exact ha.ne (ha.contains.antisymm hG)
    · exact (hm j hj N hN).2 (hG.trans ha.contains)
    · simp only [Instr.locs, List.mem_singleton] at hN
      subst hN
      exact ha.ne (ha.contains.antisymm hG)
    · have : pre ++ .code [(G, k)] :: (mid ++ .fields G :: post) =
        (pre ++ .code [(G, k)] :: mid) ++ .fields G :: post := by simp
      rw [this] at hn
      exact nestAll_split hn G (by simp [Instr.locs]) j hj N hN (hG.trans_above ha)

/-- A dead value that can be used: its own destructor is running. -/
theorem Where.spent {todo : List Instr} {X L : GLoc} (h : Where todo X) (hc : X.Contains L) (hs : SpentOk L todo) :
    L = X ∧ (∃ k, .code [(X, k)] ∈ todo) ∧ .fields X ∈ todo := by
  cases h with
  | root hcl => exact (not_spentOk (hcl.below hc) hs).elim
  | @given pre mid post G k ht hp hm hG =>
    subst ht
    rw [spentOk_clear (hp.below hc)] at hs
    obtain ⟨h1, -, -⟩ := hs.resolve_left (fun h => h)
    have hna : ¬ G.Above L := h1 G (by simp [Instr.locs])
    rcases (hG.trans hc).eq_or_above with rfl | h
    · obtain rfl := hG.antisymm hc
      exact ⟨rfl, ⟨k, by simp⟩, by simp⟩
    · exact (hna h).elim

theorem Where.unspent {todo : List Instr} {X L : GLoc} (h : Where todo X) (hc : X.Contains L)
    (hn : L ≠ X ∨ .fields X ∉ todo) : UnspentOk L todo := by
  cases h with
  | root hcl => exact unspentOk_all (hcl.below hc)
  | @given pre mid post G k ht hp hm hG =>
    subst ht
    rw [unspentOk_clear (hp.below hc)]
    rcases (hG.trans hc).eq_or_above with rfl | h
    · obtain rfl := hG.antisymm hc
      rcases hn with h | h
      · exact (h rfl).elim
      · exact (h (by simp)).elim
    · refine .inr ⟨fun h => h, (unspentOk_clear (hm.below (hG.trans hc))).2 (.inl h)⟩

/-- The destructor of a usable location is running. -/
theorem Where.dropping {todo : List Instr} {X : GLoc} (h : Where todo X) (hn : NestAll todo) (hs : Sound todo)
    (hf : .fields X ∈ todo) : SpentOk X todo := by
  cases h with
  | root hcl => exact (hcl.ne_fields hf rfl).elim
  | @given pre mid post G k ht hp hm hG =>
    subst ht
    have he : pre ++ .code [(G, k)] :: (mid ++ .fields G :: post) =
        (pre ++ .code [(G, k)] :: mid) ++ .fields G :: post := by simp
    have hGX : G = X := by
      rw [List.mem_append, List.mem_cons, List.mem_append, List.mem_cons] at hf
      rcases hf with hf | hf | hf | hf | hf
      · exact (hp.ne_fields hf rfl).elim
      · cases hf
      · exact ((hm.below hG).ne_fields hf rfl).elim
      · exact (Instr.fields.inj hf).symm
      · rw [he] at hn
        have := nestAll_split hn G (by simp [Instr.locs]) _ hf X (by simp [Instr.locs])
        rcases hG.eq_or_above with h | h
        · exact h.symm
        · exact (this h).elim
    subst hGX
    rw [spentOk_clear hp]
    refine .inr ⟨?_, by simp, (spentOk_clear hm).2 (.inr ⟨?_, by simp, ?_⟩)⟩
    · intro M hM ha
      simp only [Instr.locs, List.map_cons, List.map_nil, List.mem_singleton] at hM
      subst hM
      exact ha.ne rfl
    · intro M hM ha
      simp only [Instr.locs, List.mem_singleton] at hM
      subst hM
      exact ha.ne rfl
    · rw [he] at hs
      exact ((sound_split hs).1 G (.inr rfl)).spentOk

theorem Where.storeOk {todo : List Instr} {X : GLoc} (h : Where todo X) (hn : NestAll todo) (hs : Sound todo) :
    StoreOk X todo := by
  refine ⟨fun f p => h.unspent (.sub _ _) (.inl ?_), h.dropping hn hs, fun hf => h.unspent (.refl _) (.inr hf)⟩
  intro he
  have : X.Above (X.sub (f :: p)) := ⟨f, p, rfl⟩
  exact this.ne he.symm

end PinProject

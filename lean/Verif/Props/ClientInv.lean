import Verif.Props.ClientTypes
import Verif.Spec.Pinning
/-!
# The invariant of the client machine
-/
namespace PinProject
open Spec

/-! ## Definitions -/

/-- A pinned value whose life has not ended. -/
structure Alive (U : Universe) (w : World) (id : Id) (ty : Ty) (L : GLoc) : Prop where
  exposed : Exposed w id ty L
  notUnpin : ¬ U.F.unpin ty
  notEnded : ¬ Ended w id L

/-- The operation will destroy what is at `L`, in place. -/
def Instr.Covers : Instr → GLoc → Prop
  | .destroy M, L => M.Contains L
  | .fields M, L => M.Above L
  | _, _ => False

def Covered (todo : List Instr) (L : GLoc) : Prop := ∃ i ∈ todo, i.Covers L

/-- The operation does not endanger a live pinned value at `L`. -/
def Instr.Allows (U : Universe) (w : World) (L : GLoc) : Instr → Prop
  | .code gs => ∀ g ∈ gs, ∀ q, L = g.1.sub q → g.2 = .pinExcl ∧ w.PinPath U g.1 q
  | .destroy M => ∀ q, L = M.sub q → w.PinPath U M q
  | .fields M => ∀ q, L = M.sub q → w.PinPath U M q
  | .store M _ => ¬ M.Contains L
  | .free r => L.root ≠ r
  | .place _ => True
  | .discard _ => True

/-- No operation endangers `L`, unless the value is destroyed before. -/
def PathOk (U : Universe) (w : World) (L : GLoc) : Prop → List Instr → Prop
  | _, [] => True
  | cov, i :: rest => (cov ∨ i.Allows U w L) ∧ PathOk U w L (cov ∨ i.Covers L) rest

/-- Only pinned fields are passed between a pinned root and `L`. -/
def Anchored (U : Universe) (w : World) (L : GLoc) : Prop :=
  ∃ v, w.roots L.root = some ⟨true, v⟩ ∧ v.PinPath U L.path

/-- What holds for a live pinned value. -/
structure LiveOk (U : Universe) (c : Config) (id : Id) (ty : Ty) (L : GLoc) : Prop where
  resides : Resides c.w id ty L
  anchored : Covered c.todo L ∨ Anchored U c.w L
  path : PathOk U c.w L False c.todo

/-- User code is in a destructor, which is followed by the destruction of the fields. What other threads do
between has nothing to do with it. -/
def CodeOk (gs : List (GLoc × Mode)) (rest : List Instr) : Prop :=
  gs = [] ∨ ∃ G k mid post, gs = [(G, k)] ∧ rest = mid ++ .fields G :: post ∧ Clear mid G ∧ (k = .excl ∨ k = .pinExcl)

/-- User code runs at the outermost level, or in a destructor followed by the destruction of the fields. -/
def Shaped : List Instr → Prop
  | [] => True
  | .code gs :: rest => CodeOk gs rest ∧ Shaped rest
  | _ :: rest => Shaped rest

/-- Later operations do not concern anything that contains the value whose destructor is running. -/
def Nested : List Instr → Prop
  | [] => True
  | i :: rest => (∀ M ∈ i.locs, ∀ gs, .code gs ∈ rest → ∀ g ∈ gs, ¬ M.Above g.1) ∧ Nested rest

/-- A root is freed last. -/
def FreeOk : List Instr → Prop
  | [] => True
  | i :: rest => (∀ r, i = .free r → r ∉ busyRoots rest) ∧ FreeOk rest

/-- Memory is well-typed. -/
def WOk (U : Universe) (w : World) : Prop := ∀ r x, w.roots r = some x → x.val.Ok U

structure Frame (U : Universe) (c : Config) : Prop where
  shaped : Shaped c.todo
  nested : Nested c.todo
  freeOk : FreeOk c.todo
  mark : ∀ gs, .code gs ∈ c.todo → ∀ G, (G, .pinExcl) ∈ gs → ∀ id ty, Resides c.w id ty G → Ended c.w id G
  busy : ∀ r ∈ busyRoots c.todo, c.w.roots r ≠ none
  typed : WOk U c.w
  vals : ∀ i ∈ c.todo, ∀ v ∈ i.vals, v.Ok U

structure Inv (U : Universe) (c : Config) : Prop where
  frame : Frame U c
  live : ∀ id ty L, Alive U c.w id ty L → LiveOk U c id ty L

/-! ## Operations and paths -/

theorem Instr.Covers.loc {i : Instr} {L : GLoc} (h : i.Covers L) : ∃ N ∈ i.locs, N.Contains L := by
  cases i with
  | destroy M => exact ⟨M, by simp [Instr.locs], h⟩
  | fields M => exact ⟨M, by simp [Instr.locs], GLoc.Above.contains h⟩
  | _ => exact h.elim

theorem mem_busyRoots {todo : List Instr} {r : Nat} : r ∈ busyRoots todo ↔ ∃ i ∈ todo, ∃ N ∈ i.locs, N.root = r := by
  simp [busyRoots]

theorem busyRoots_append (a b : List Instr) : busyRoots (a ++ b) = busyRoots a ++ busyRoots b := by
  simp [busyRoots]

theorem Covered.busy {todo : List Instr} {L : GLoc} (h : Covered todo L) : L.root ∈ busyRoots todo := by
  obtain ⟨i, hi, hc⟩ := h
  obtain ⟨N, hN, hL⟩ := hc.loc
  exact mem_busyRoots.2 ⟨i, hi, N, hN, hL.root.symm⟩

theorem covered_append {a b : List Instr} {L : GLoc} : Covered (a ++ b) L ↔ Covered a L ∨ Covered b L := by
  simp only [Covered, List.mem_append]
  constructor
  · rintro ⟨i, hi | hi, h⟩
    · exact .inl ⟨i, hi, h⟩
    · exact .inr ⟨i, hi, h⟩
  · rintro (⟨i, hi, h⟩ | ⟨i, hi, h⟩)
    · exact ⟨i, .inl hi, h⟩
    · exact ⟨i, .inr hi, h⟩

theorem covered_cons {i : Instr} {b : List Instr} {L : GLoc} : Covered (i :: b) L ↔ i.Covers L ∨ Covered b L := by
  simp [Covered]

theorem Clear.not_covered {is : List Instr} {L M : GLoc} (hc : Clear is M) (hM : M.Contains L) : ¬ Covered is L := by
  rintro ⟨i, hi, h⟩
  obtain ⟨N, hN, hL⟩ := h.loc
  have := hc i hi N hN
  rcases hL.comparable hM with h | h
  · exact this.1 h
  · exact this.2 h

theorem pathOk_mono {U : Universe} {w : World} {L : GLoc} {c1 c2 : Prop} (h : c1 → c2) {todo : List Instr}
    (hp : PathOk U w L c1 todo) : PathOk U w L c2 todo := by
  induction todo generalizing c1 c2 with
  | nil => trivial
  | cons i rest ih =>
    exact ⟨hp.1.imp h id, ih (fun hc => hc.imp h id) hp.2⟩

theorem pathOk_covered {U : Universe} {w : World} {L : GLoc} {c : Prop} (h : c) (todo : List Instr) :
    PathOk U w L c todo := by
  induction todo generalizing c with
  | nil => trivial
  | cons i rest ih => exact ⟨.inl h, ih (.inl h)⟩

theorem pathOk_append {U : Universe} {w : World} {L : GLoc} {c : Prop} {a b : List Instr} :
    PathOk U w L c (a ++ b) ↔ PathOk U w L c a ∧ PathOk U w L (c ∨ Covered a L) b := by
  induction a generalizing c with
  | nil =>
    simp only [List.nil_append, PathOk, true_and]
    have : (c ∨ Covered [] L) ↔ c := by simp [Covered]
    rw [this]
  | cons i a ih =>
    simp only [List.cons_append, PathOk, ih, and_assoc]
    have : ((c ∨ i.Covers L) ∨ Covered a L) ↔ (c ∨ Covered (i :: a) L) := by rw [covered_cons, or_assoc]
    rw [this]

theorem Clear.allows {U : Universe} {w : World} {is : List Instr} {L : GLoc} (hc : Clear is L) {i : Instr} (hi : i ∈ is) :
    i.Allows U w L := by
  have h := hc i hi
  cases i with
  | code gs =>
    intro g hg q hq
    exact ((h g.1 (by simp only [Instr.locs, List.mem_map]; exact ⟨g, hg, rfl⟩)).1 ⟨q, hq⟩).elim
  | destroy M => intro q hq; exact ((h M (by simp [Instr.locs])).1 ⟨q, hq⟩).elim
  | fields M => intro q hq; exact ((h M (by simp [Instr.locs])).1 ⟨q, hq⟩).elim
  | store M v => exact (h M (by simp [Instr.locs])).1
  | free r =>
    intro hr
    refine (h ⟨r, []⟩ (by simp [Instr.locs])).1 (GLoc.contains_iff.2 ⟨hr.symm, List.nil_prefix⟩)
  | place v => trivial
  | discard v => trivial

/-- A part of a location. -/
theorem Clear.below {is : List Instr} {G L : GLoc} (h : Clear is G) (hL : G.Contains L) : Clear is L := by
  intro i hi N hN
  have := h i hi N hN
  refine ⟨fun hc => ?_, fun hc => this.2 (hL.trans hc)⟩
  rcases hL.comparable hc with h | h
  · exact this.2 h
  · exact this.1 h

theorem pathOk_clear {U : Universe} {w : World} {is : List Instr} {L : GLoc} (hc : Clear is L) (c : Prop) :
    PathOk U w L c is := by
  induction is generalizing c with
  | nil => trivial
  | cons i is ih =>
    exact ⟨.inr (hc.allows List.mem_cons_self), ih (fun j hj => hc j (List.mem_cons_of_mem _ hj)) _⟩

/-- All operations are harmless. -/
theorem pathOk_all {U : Universe} {w : World} {is : List Instr} {L : GLoc} (h : ∀ i ∈ is, i.Allows U w L) (c : Prop) :
    PathOk U w L c is := by
  induction is generalizing c with
  | nil => trivial
  | cons i is ih => exact ⟨.inr (h i List.mem_cons_self), ih (fun j hj => h j (List.mem_cons_of_mem _ hj)) _⟩

/-- The change of memory preserves pinned paths to `L`. -/
def Keeps (U : Universe) (w w' : World) (L : GLoc) : Prop :=
  ∀ M q, L = M.sub q → w.PinPath U M q → w'.PinPath U M q

theorem Instr.Allows.keep {U : Universe} {w w' : World} {L : GLoc} (hk : Keeps U w w' L) {i : Instr}
    (h : i.Allows U w L) : i.Allows U w' L := by
  cases i with
  | code gs =>
    intro g hg q hq
    exact ⟨(h g hg q hq).1, hk _ _ hq (h g hg q hq).2⟩
  | destroy M => intro q hq; exact hk _ _ hq (h q hq)
  | fields M => intro q hq; exact hk _ _ hq (h q hq)
  | _ => exact h

theorem pathOk_keep {U : Universe} {w w' : World} {L : GLoc} (hk : Keeps U w w' L) {todo : List Instr} {c : Prop}
    (h : PathOk U w L c todo) : PathOk U w' L c todo := by
  induction todo generalizing c with
  | nil => trivial
  | cons i rest ih => exact ⟨h.1.imp id (fun h => h.keep hk), ih h.2⟩

theorem pathOk_split {U : Universe} {w : World} {L : GLoc} {pre post : List Instr} {i : Instr}
    (h : PathOk U w L False (pre ++ i :: post)) : Covered pre L ∨ i.Allows U w L := by
  rw [pathOk_append] at h
  rcases h.2.1 with (h | h) | h
  · exact h.elim
  · exact .inl h
  · exact .inr h

theorem nested_split {pre post : List Instr} {i : Instr} (h : Nested (pre ++ i :: post)) :
    ∀ M ∈ i.locs, ∀ gs, .code gs ∈ post → ∀ g ∈ gs, ¬ M.Above g.1 := by
  induction pre with
  | nil => exact h.1
  | cons j pre ih => exact ih h.2

theorem shaped_split {pre post : List Instr} {gs : List (GLoc × Mode)} (h : Shaped (pre ++ .code gs :: post)) :
    CodeOk gs post := by
  induction pre with
  | nil => exact h.1
  | cons j pre ih =>
    apply ih
    cases j with
    | code gs => exact h.2
    | _ => exact h

theorem shaped_tail {i : Instr} {rest : List Instr} (h : Shaped (i :: rest)) : Shaped rest := by
  cases i with
  | code gs => exact h.2
  | _ => exact h

theorem shaped_append {is rest : List Instr} (hi : ∀ i ∈ is, ∀ gs, i ≠ .code gs) (h : Shaped rest) :
    Shaped (is ++ rest) := by
  induction is with
  | nil => exact h
  | cons i is ih =>
    have := ih (fun j hj => hi j (List.mem_cons_of_mem _ hj))
    cases i with
    | code gs => exact (hi (.code gs) List.mem_cons_self gs rfl).elim
    | _ => exact this

theorem nested_append {is rest : List Instr} (hi : ∀ i ∈ is, ∀ gs, i ≠ .code gs)
    (hl : ∀ i ∈ is, ∀ M ∈ i.locs, ∀ gs, .code gs ∈ rest → ∀ g ∈ gs, ¬ M.Above g.1) (h : Nested rest) :
    Nested (is ++ rest) := by
  induction is with
  | nil => exact h
  | cons i is ih =>
    refine ⟨?_, ih (fun j hj => hi j (List.mem_cons_of_mem _ hj)) (fun j hj => hl j (List.mem_cons_of_mem _ hj))⟩
    intro M hM gs hgs
    rcases List.mem_append.1 hgs with hgs | hgs
    · exact (hi _ (List.mem_cons_of_mem _ hgs) gs rfl).elim
    · exact hl i List.mem_cons_self M hM gs hgs

theorem freeOk_append {is rest : List Instr} (hi : ∀ i ∈ is, ∀ r, i ≠ .free r) (h : FreeOk rest) : FreeOk (is ++ rest) := by
  induction is with
  | nil => exact h
  | cons i is ih =>
    refine ⟨fun r hr => (hi i List.mem_cons_self r hr).elim, ih (fun j hj => hi j (List.mem_cons_of_mem _ hj))⟩

/-! ## Memory -/

theorem WOk.at {U : Universe} {w : World} (h : WOk U w) {L : GLoc} {v : V} (hv : w.at L = some v) : v.Ok U := by
  unfold World.at at hv
  cases hx : w.roots L.root with
  | none => simp [hx] at hv
  | some x => rw [hx] at hv; exact (h _ _ hx).get hv

theorem WOk.setRoot {U : Universe} {w : World} (h : WOk U w) {r : Nat} {x : Option Slot}
    (hx : ∀ y, x = some y → y.val.Ok U) : WOk U (w.setRoot r x) := by
  intro q y hq
  by_cases he : q = r
  · subst he; rw [World.setRoot_self] at hq; exact hx y hq
  · rw [World.setRoot_ne w x he] at hq; exact h q y hq

theorem WOk.put {U : Universe} {w : World} (h : WOk U w) {X : GLoc} {v : V} (hv : v.Ok U)
    (ht : ∀ old, w.at X = some old → old.ty = v.ty) : WOk U (w.put X v) := by
  intro q y hq
  rw [World.put_roots] at hq
  split at hq
  · rename_i he
    subst he
    rw [Option.map_eq_some_iff] at hq
    obtain ⟨x, hx, rfl⟩ := hq
    refine (h _ _ hx).set hv ?_
    intro old ho
    exact ht old (by unfold World.at; rw [hx]; exact ho)
  · exact h q y hq

theorem WOk.log {U : Universe} {w : World} (h : WOk U w) (es : List PEvent) : WOk U (w.log es) := h

theorem anchored_iff {U : Universe} {w : World} {L : GLoc} :
    Anchored U w L ↔ (∃ v, w.roots L.root = some ⟨true, v⟩) ∧ w.PinPath U ⟨L.root, []⟩ L.path := by
  unfold Anchored World.PinPath World.at
  constructor
  · rintro ⟨v, hv, h⟩
    exact ⟨⟨v, hv⟩, v, by simp [hv], h⟩
  · rintro ⟨⟨v, hv⟩, u, hu, h⟩
    simp only [hv, Option.bind_some, V.get_nil, Option.some.injEq] at hu
    subst hu
    exact ⟨v, hv, h⟩

theorem GLoc.root_sub (L : GLoc) : L = GLoc.sub ⟨L.root, []⟩ L.path := by cases L; rfl

theorem keeps_put {U : Universe} (w : World) {X L : GLoc} (h : ¬ X.Contains L) (v : V) : Keeps U w (w.put X v) L := by
  rintro M q rfl hp
  exact hp.put h v

theorem keeps_setRoot {U : Universe} (w : World) {r : Nat} {L : GLoc} (h : L.root ≠ r) (x : Option Slot) :
    Keeps U w (w.setRoot r x) L := by
  rintro M q rfl hp
  exact hp.setRoot h x

theorem resides_put {w : World} {X L : GLoc} {id : Id} {ty : Ty} (hr : Resides w id ty L) (h : ¬ X.Contains L) (v : V) :
    Resides (w.put X v) id ty L := by
  obtain ⟨va, fs, he⟩ := hr
  have := World.put_head w h v
  rw [he] at this
  cases hc : (w.put X v).at L with
  | none => rw [hc] at this; cases this
  | some u =>
    rw [hc] at this
    cases u with
    | hole t => simp [V.head] at this
    | node id' ty' va' fs' =>
      simp only [Option.map_some, V.head, Option.some.injEq, Prod.mk.injEq] at this
      obtain ⟨rfl, rfl, rfl⟩ := this
      exact ⟨_, fs', hc⟩

/-- Backwards: what is found outside of `X` was there before. -/
theorem resides_put_rev {w : World} {X L : GLoc} {id : Id} {ty : Ty} {v : V} (hr : Resides (w.put X v) id ty L)
    (h : ¬ X.Contains L) : Resides w id ty L := by
  obtain ⟨va, fs, he⟩ := hr
  have := World.put_head w h v
  rw [he] at this
  cases hc : w.at L with
  | none => rw [hc] at this; cases this
  | some u =>
    rw [hc] at this
    cases u with
    | hole t => simp [V.head] at this
    | node id' ty' va' fs' =>
      simp only [Option.map_some, V.head, Option.some.injEq, Prod.mk.injEq] at this
      obtain ⟨rfl, rfl, rfl⟩ := this
      exact ⟨_, fs', hc⟩

theorem put_pinned {w : World} {X : GLoc} {r : Nat} {v : V} {u : V} (h : w.roots r = some ⟨true, u⟩) :
    ∃ u', (w.put X v).roots r = some ⟨true, u'⟩ := by
  rw [World.put_roots]
  split
  · rw [h]; exact ⟨_, rfl⟩
  · exact ⟨u, h⟩

theorem anchored_keep {U : Universe} {w w' : World} {L : GLoc} (hk : Keeps U w w' L)
    (hp : ∀ u, w.roots L.root = some ⟨true, u⟩ → ∃ u', w'.roots L.root = some ⟨true, u'⟩)
    (h : Anchored U w L) : Anchored U w' L := by
  rw [anchored_iff] at *
  obtain ⟨⟨v, hv⟩, h⟩ := h
  exact ⟨hp v hv, hk _ _ (GLoc.root_sub L) h⟩

theorem ended_log {w : World} {id : Id} {L : GLoc} (h : Ended w id L) (es : List PEvent) : Ended (w.log es) id L := by
  unfold Ended at *
  simp only [World.log_trace, List.mem_append]
  rcases h with h | h | h
  · exact .inl (.inl h)
  · exact .inr (.inl (.inl h))
  · exact .inr (.inr (.inl h))

/-! ## References -/

theorem Deriv.contains {U : Universe} {w : World} {G L : GLoc} {k₀ k : Mode} (h : Deriv U w G k₀ L k) : G.Contains L := by
  induction h with
  | refl => exact .refl _
  | field _ _ _ _ ih => exact ih.trans (.sub _ _)
  | project _ _ _ _ ih => exact ih.trans (.sub _ _)
  | projectRef _ _ _ _ ih => exact ih.trans (.sub _ _)
  | part _ _ _ _ _ ih => exact ih.trans (.sub _ _)
  | cell _ _ _ _ ih => exact ih.trans (.sub _ _)
  | getMut _ _ _ ih => exact ih
  | pinNew _ _ _ ih => exact ih
  | pinNewRef _ _ _ ih => exact ih
  | asRef _ ih => exact ih
  | getRef _ ih => exact ih
  | share _ ih => exact ih

/-- What we know about a live pinned value at `L₀` with respect to a reference of kind `k₀` to `G`. -/
def Known (U : Universe) (w : World) (G : GLoc) (k₀ : Mode) (L₀ : GLoc) : Prop :=
  ∀ q, L₀ = G.sub q → k₀ = .pinExcl ∧ w.PinPath U G q

theorem Known.below {U : Universe} {w : World} {G M L₀ : GLoc} {k₀ : Mode} (h : Known U w G k₀ L₀) (hM : G.Contains M)
    {q : List String} (hq : L₀ = M.sub q) : w.PinPath U M q := by
  obtain ⟨p, rfl⟩ := hM
  rw [GLoc.sub_sub] at hq
  exact (World.pinPath_append.1 (h _ hq).2).2

/-- No exclusive, unpinned reference reaches a live pinned value. -/
theorem Deriv.excl {U : Universe} {w : World} (hw : WOk U w) {G L : GLoc} {k₀ k : Mode} (h : Deriv U w G k₀ L k)
    {L₀ : GLoc} (hk : Known U w G k₀ L₀) {id : Id} {ty : Ty} (hr : Resides w id ty L₀) (hu : ¬ U.F.unpin ty)
    (he : k = .excl) : ¬ L.Contains L₀ := by
  have step : ∀ {L : GLoc} {id' : Id} {ty' : Ty} {va : Option String} {fs : List (String × V)} {f : String} {q : List String},
      G.Contains L → w.at L = some (.node id' ty' va fs) → L₀ = (L.sub [f]).sub q → PinStep U ty' va f := by
    intro L id' ty' va fs f q hc ha hq
    rw [GLoc.sub_sub] at hq
    obtain ⟨v, hv, hp⟩ := hk.below hc hq
    rw [ha] at hv
    obtain rfl := Option.some.inj hv
    exact hp.1
  induction h with
  | refl =>
    subst he
    rintro ⟨q, hq⟩
    cases (hk q hq).1
  | field hd hk' ha hf ih =>
    intro hc
    exact ih he ((GLoc.Contains.sub _ _).trans hc)
  | @project L id' ty' va fs d args t hd ha hdef hp ih =>
    rintro ⟨q, hq⟩
    obtain ⟨Fs, i, fld, h1, h2, h3, h4, h5⟩ := projects_iff (hw.at ha).nodeOk hdef true t hp
    rw [h4] at hq
    have := pinStep_label hdef h1 h3 (step hd.contains ha hq)
    rw [h5, this] at he
    cases he
  | @projectRef L id' ty' va fs d args t hd ha hdef hp ih =>
    obtain ⟨Fs, i, fld, h1, h2, h3, h4, h5⟩ := projects_iff (hw.at ha).nodeOk hdef false t hp
    rw [h5] at he
    split at he <;> simp at he
  | part hd hk' _ _ _ _ => subst he; rcases hk' with h | h <;> cases h
  | cell hd ha hp hf ih =>
    rintro ⟨q, hq⟩
    exact pinStep_plain hp (step hd.contains ha hq)
  | getMut hd ha hun ih =>
    rintro ⟨q, hq⟩
    obtain ⟨v, hv, hp⟩ := hk.below hd.contains hq
    rw [ha] at hv
    obtain rfl := Option.some.inj hv
    obtain ⟨va, fs, hl⟩ := hr
    rw [hq, World.at_sub, ha] at hl
    exact hu (pinPath_unpin (hw.at ha) hun hp hl)
  | _ => cases he

/-- A pinned reference to a value that is not `Unpin` comes from a pinned reference, through pinned fields. -/
theorem Deriv.pin {U : Universe} {w : World} (hw : WOk U w) {G L : GLoc} {k₀ k : Mode} (h : Deriv U w G k₀ L k)
    (hk₀ : k₀ = .excl ∨ k₀ = .pinExcl) (hk : k = .pinExcl ∨ k = .pinShr) {u : V} (hu : w.at L = some u) :
    U.F.unpin u.ty ∨ (k₀ = .pinExcl ∧ ∃ q, L = G.sub q ∧ w.PinPath U G q) := by
  have down : ∀ {L : GLoc} {id : Id} {ty : Ty} {va : Option String} {fs : List (String × V)} {f : String} {u : V},
      w.at L = some (.node id ty va fs) → PinStep U ty va f → w.at (L.sub [f]) = some u →
      (U.F.unpin ty ∨ (k₀ = .pinExcl ∧ ∃ q, L = G.sub q ∧ w.PinPath U G q)) →
      U.F.unpin u.ty ∨ (k₀ = .pinExcl ∧ ∃ q, L.sub [f] = G.sub q ∧ w.PinPath U G q) := by
    intro L id ty va fs f u ha hs hu hor
    rw [World.at_sub, ha] at hu
    have hl : fs.lookup f = some u := by
      simp only [Option.bind_some, V.get] at hu
      cases hc : fs.lookup f with
      | none => simp [hc] at hu
      | some c => simpa [hc] using hu
    rcases hor with h | ⟨h, q, rfl, hq⟩
    · exact .inl (pinStep_unpin (hw.at ha).nodeOk h hs hl)
    · refine .inr ⟨h, q ++ [f], GLoc.sub_sub _ _ _, World.pinPath_append.2 ⟨hq, _, ha, hs, u, hl, by simp⟩⟩
  induction h generalizing u with
  | refl =>
    rcases hk₀ with rfl | rfl
    · rcases hk with h | h <;> cases h
    · exact .inr ⟨rfl, [], by simp, u, hu, by simp⟩
  | field hd hk' ha hf ih => rcases hk with h | h <;> rcases hk' with h' | h' <;> rw [h] at h' <;> cases h'
  | @project L id ty va fs d args t hd ha hdef hp ih =>
    obtain ⟨Fs, i, fld, h1, h2, h3, h4, h5⟩ := projects_iff (hw.at ha).nodeOk hdef true t hp
    rw [h4] at hu ⊢
    have hpin : Pinned fld = true := by
      cases hb : Pinned fld
      · rw [h5, hb] at hk; rcases hk with h | h <;> simp at h
      · rfl
    exact down ha (.inl ⟨d, args, Fs, i, fld, hdef, h1, h3, rfl, hpin⟩) hu (ih (.inl rfl) ha)
  | @projectRef L id ty va fs d args t hd ha hdef hp ih =>
    obtain ⟨Fs, i, fld, h1, h2, h3, h4, h5⟩ := projects_iff (hw.at ha).nodeOk hdef false t hp
    rw [h4] at hu ⊢
    have hpin : Pinned fld = true := by
      cases hb : Pinned fld
      · rw [h5, hb] at hk; rcases hk with h | h <;> simp at h
      · rfl
    exact down ha (.inl ⟨d, args, Fs, i, fld, hdef, h1, h3, rfl, hpin⟩) hu (ih (.inr rfl) ha)
  | part hd hk' ha hs hf ih => exact down ha (.inr hs) hu (ih hk' ha)
  | cell hd ha hp hf ih => rcases hk with h | h <;> cases h
  | getMut hd ha hun ih => rcases hk with h | h <;> cases h
  | pinNew hd ha hun ih =>
    obtain rfl := Option.some.inj (ha.symm.trans hu)
    exact .inl hun
  | pinNewRef hd ha hun ih =>
    obtain rfl := Option.some.inj (ha.symm.trans hu)
    exact .inl hun
  | asRef hd ih => exact ih (.inl rfl) hu
  | getRef hd ih => rcases hk with h | h <;> cases h
  | share hd ih => rcases hk with h | h <;> cases h

/-! ## What the running code can refer to -/

theorem LiveOk.known_root {U : Universe} {c : Config} {id : Id} {ty : Ty} {L₀ : GLoc} (hl : LiveOk U c id ty L₀)
    (hc : ¬ Covered c.todo L₀) {r : Nat} {x : Slot} (hx : c.w.roots r = some x) : Known U c.w ⟨r, []⟩ x.mode L₀ := by
  intro q hq
  have hr : L₀.root = r := by rw [hq]; rfl
  rcases hl.anchored with h | ⟨v, hv, hp⟩
  · exact (hc h).elim
  · subst hr
    obtain rfl := Option.some.inj (hx.symm.trans hv)
    refine ⟨rfl, v, by unfold World.at; simp [hx], ?_⟩
    rw [hq] at hp
    simpa [GLoc.sub] using hp

/-- The origin of a usable reference. -/
theorem Usable.base {U : Universe} {c : Config} (hi : Inv U c) {M : GLoc} {k : Mode} (h : Usable U c.w c.todo M k) :
    ∃ G k₀, Deriv U c.w G k₀ M k ∧ (k₀ = .excl ∨ k₀ = .pinExcl) ∧
      (∀ id ty L₀, Alive U c.w id ty L₀ → M.Contains L₀ → Known U c.w G k₀ L₀) ∧
      (∀ gs, .code gs ∈ c.todo → ∀ g ∈ gs, ¬ M.Above g.1) ∧ c.w.roots M.root ≠ none := by
  cases h with
  | @root r x hx hd hc =>
    refine ⟨⟨r, []⟩, x.mode, hd, ?_, ?_, ?_, ?_⟩
    · unfold Slot.mode; split <;> simp
    · intro id ty L₀ ha hM
      exact (hi.live _ _ _ ha).known_root (hc.not_covered hM) hx
    · intro gs hgs g hg hab
      exact (hc _ hgs g.1 (by simp only [Instr.locs, List.mem_map]; exact ⟨g, hg, rfl⟩)).2 hab.contains
    · rw [hd.contains.root]; simp [hx]
  | @given pre post gs g ht hg hd hc =>
    have hsh := hi.frame.shaped
    rw [ht] at hsh
    rcases shaped_split hsh with rfl | ⟨G, k', mid, post', rfl, rfl, hmid, hk'⟩
    · cases hg
    · rw [List.mem_singleton] at hg
      subst hg
      refine ⟨G, k', hd, hk', ?_, ?_, ?_⟩
      · intro id ty L₀ ha hM
        have hp := (hi.live _ _ _ ha).path
        rw [ht] at hp
        rcases pathOk_split hp with h | h
        · exact (hc.not_covered hM h).elim
        · exact fun q hq => h (G, k') (by simp) q hq
      · intro gs hgs g hg hab
        rw [ht, List.mem_append, List.mem_cons] at hgs
        rcases hgs with hgs | hgs | hgs
        · exact (hc _ hgs g.1 (by simp only [Instr.locs, List.mem_map]; exact ⟨g, hg, rfl⟩)).2 hab.contains
        · obtain rfl := Instr.code.inj hgs
          rw [List.mem_singleton] at hg
          subst hg
          exact hab.ne (hab.contains.antisymm hd.contains)
        · have hn := hi.frame.nested
          rw [ht] at hn
          exact nested_split hn G (by simp [Instr.locs]) gs hgs g hg (hd.contains.trans_above hab)
      · rw [hd.contains.root]
        apply hi.frame.busy
        rw [mem_busyRoots]
        exact ⟨.fields G, by rw [ht]; simp, G, by simp [Instr.locs], rfl⟩

theorem Usable.excl {U : Universe} {c : Config} (hi : Inv U c) {M : GLoc} (h : Usable U c.w c.todo M .excl)
    {id : Id} {ty : Ty} {L₀ : GLoc} (ha : Alive U c.w id ty L₀) : ¬ M.Contains L₀ := by
  intro hM
  obtain ⟨G, k₀, hd, -, hk, -, -⟩ := h.base hi
  exact hd.excl hi.frame.typed (hk _ _ _ ha hM) (hi.live _ _ _ ha).resides ha.notUnpin rfl hM

theorem Usable.pinPath {U : Universe} {c : Config} (hi : Inv U c) {M : GLoc} {k : Mode} (h : Usable U c.w c.todo M k)
    {id : Id} {ty : Ty} {L₀ : GLoc} (ha : Alive U c.w id ty L₀) {q : List String} (hq : L₀ = M.sub q) :
    c.w.PinPath U M q := by
  obtain ⟨G, k₀, hd, -, hk, -, -⟩ := h.base hi
  exact (hk _ _ _ ha ⟨q, hq⟩).below hd.contains hq

/-- Nothing alive in an owned root that is not in use. -/
theorem Inv.owned {U : Universe} {c : Config} (hi : Inv U c) {r : Nat} {v : V} (hr : c.w.roots r = some ⟨false, v⟩)
    (hb : r ∉ busyRoots c.todo) {id : Id} {ty : Ty} {L : GLoc} (ha : Alive U c.w id ty L) : L.root ≠ r := by
  rintro rfl
  rcases (hi.live _ _ _ ha).anchored with h | ⟨u, hu, -⟩
  · exact hb h.busy
  · rw [hr] at hu; simp at hu

theorem Inv.unused {U : Universe} {c : Config} (hi : Inv U c) {r : Nat} (hr : c.w.roots r = none)
    {id : Id} {ty : Ty} {L : GLoc} (ha : Alive U c.w id ty L) : L.root ≠ r := by
  rintro rfl
  obtain ⟨va, fs, h⟩ := (hi.live _ _ _ ha).resides
  unfold World.at at h
  rw [hr] at h
  cases h

end PinProject

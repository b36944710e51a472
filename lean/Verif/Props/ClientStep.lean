import Verif.Props.ClientInv
/-!
# Every step of the client machine preserves the invariant
-/
namespace PinProject
open Spec

/-! ## Changing the memory or the pending operations -/

theorem Alive.of_log {U : Universe} {w w' : World} {id : Id} {ty : Ty} {L : GLoc} (h : Alive U w' id ty L)
    {es : List PEvent} (he : w'.trace = w.trace ++ es) (hn : ∀ id ty L, .expose id ty L ∉ es) : Alive U w id ty L := by
  refine ⟨?_, h.notUnpin, ?_⟩
  · have := h.exposed
    unfold Exposed at *
    rw [he, List.mem_append] at this
    exact this.resolve_right (hn _ _ _)
  · intro hc
    apply h.notEnded
    unfold Ended at *
    simp only [he, List.mem_append]
    rcases hc with hc | hc | hc
    · exact .inl (.inl hc)
    · exact .inr (.inl (.inl hc))
    · exact .inr (.inr (.inl hc))

theorem Alive.of_trace {U : Universe} {w w' : World} {id : Id} {ty : Ty} {L : GLoc} (h : Alive U w' id ty L)
    (he : w'.trace = w.trace) : Alive U w id ty L :=
  h.of_log (es := []) (by rw [he, List.append_nil]) (by simp)

theorem at_agree {w w' : World} {L : GLoc} (h : w'.roots L.root = w.roots L.root) : w'.at L = w.at L := by
  unfold World.at
  rw [h]

theorem LiveOk.world {U : Universe} {w w' : World} {todo : List Instr} {id : Id} {ty : Ty} {L : GLoc}
    (h : LiveOk U ⟨w, todo⟩ id ty L) (hk : Keeps U w w' L)
    (hp : ∀ u, w.roots L.root = some ⟨true, u⟩ → ∃ u', w'.roots L.root = some ⟨true, u'⟩)
    (hr : Resides w' id ty L) : LiveOk U ⟨w', todo⟩ id ty L :=
  ⟨hr, h.anchored.imp _root_.id (anchored_keep hk hp), pathOk_keep hk h.path⟩

theorem keeps_agree {U : Universe} {w w' : World} {L : GLoc} (h : w'.roots L.root = w.roots L.root) :
    Keeps U w w' L := by
  rintro M q rfl ⟨v, hv, hp⟩
  exact ⟨v, by rw [at_agree (by simpa using h)]; exact hv, hp⟩

theorem LiveOk.agree {U : Universe} {w w' : World} {todo : List Instr} {id : Id} {ty : Ty} {L : GLoc}
    (h : LiveOk U ⟨w, todo⟩ id ty L) (he : w'.roots L.root = w.roots L.root) : LiveOk U ⟨w', todo⟩ id ty L := by
  refine h.world (keeps_agree he) (fun u hu => ⟨u, he.trans hu⟩) ?_
  obtain ⟨va, fs, hr⟩ := h.resides
  exact ⟨va, fs, (at_agree he).trans hr⟩

theorem LiveOk.put {U : Universe} {w : World} {todo : List Instr} {id : Id} {ty : Ty} {L : GLoc}
    (h : LiveOk U ⟨w, todo⟩ id ty L) {X : GLoc} (hX : ¬ X.Contains L) (v : V) : LiveOk U ⟨w.put X v, todo⟩ id ty L :=
  h.world (keeps_put w hX v) (fun _ hu => put_pinned hu) (resides_put h.resides hX v)

theorem LiveOk.push {U : Universe} {w : World} {todo is : List Instr} {id : Id} {ty : Ty} {L : GLoc}
    (h : LiveOk U ⟨w, todo⟩ id ty L) (hp : PathOk U w L False is) : LiveOk U ⟨w, is ++ todo⟩ id ty L :=
  ⟨h.resides, h.anchored.imp (fun hc => covered_append.2 (.inr hc)) _root_.id,
    pathOk_append.2 ⟨hp, pathOk_mono .inl h.path⟩⟩

theorem LiveOk.pop {U : Universe} {w : World} {rest : List Instr} {i : Instr} {id : Id} {ty : Ty} {L : GLoc}
    (h : LiveOk U ⟨w, i :: rest⟩ id ty L) (hi : ¬ i.Covers L) : LiveOk U ⟨w, rest⟩ id ty L :=
  ⟨h.resides, h.anchored.imp (fun hc => (covered_cons.1 hc).resolve_left hi) _root_.id,
    pathOk_mono (fun hc => hc.elim _root_.id hi) h.path.2⟩

theorem LiveOk.first {U : Universe} {w : World} {rest : List Instr} {i : Instr} {id : Id} {ty : Ty} {L : GLoc}
    (h : LiveOk U ⟨w, i :: rest⟩ id ty L) : i.Allows U w L := h.path.1.resolve_left _root_.id

theorem Frame.pop {U : Universe} {w : World} {rest : List Instr} {i : Instr} (h : Frame U ⟨w, i :: rest⟩) :
    Frame U ⟨w, rest⟩ where
  shaped := shaped_tail h.shaped
  nested := h.nested.2
  freeOk := h.freeOk.2
  mark gs hgs := h.mark gs (List.mem_cons_of_mem _ hgs)
  busy r hr := h.busy r (by
    rw [mem_busyRoots] at *
    obtain ⟨j, hj, h⟩ := hr
    exact ⟨j, List.mem_cons_of_mem _ hj, h⟩)
  typed := h.typed
  vals i hi := h.vals i (List.mem_cons_of_mem _ hi)

theorem Frame.agree {U : Universe} {w w' : World} {todo : List Instr} (h : Frame U ⟨w, todo⟩)
    (hr : ∀ q ∈ busyRoots todo, w'.roots q = w.roots q) (hw : WOk U w') (ht : ∀ e ∈ w.trace, e ∈ w'.trace) :
    Frame U ⟨w', todo⟩ where
  shaped := h.shaped
  nested := h.nested
  freeOk := h.freeOk
  mark gs hgs G hG id ty hres := by
    have hb : G.root ∈ busyRoots todo := mem_busyRoots.2 ⟨_, hgs, G, by
      simp only [Instr.locs, List.mem_map]; exact ⟨_, hG, rfl⟩, rfl⟩
    have : Resides w id ty G := by
      obtain ⟨va, fs, h⟩ := hres
      exact ⟨va, fs, (at_agree (hr _ hb)).symm.trans h⟩
    have := h.mark gs hgs G hG id ty this
    unfold Ended at *
    exact this.imp (ht _) (Or.imp (ht _) (ht _))
  busy r hb := by rw [hr r hb]; exact h.busy r hb
  typed := hw
  vals := h.vals

theorem Frame.push {U : Universe} {w : World} {todo is : List Instr} (h : Frame U ⟨w, todo⟩)
    (hc : ∀ i ∈ is, ∀ gs, i ≠ .code gs) (hf : ∀ i ∈ is, ∀ r, i ≠ .free r)
    (hl : ∀ i ∈ is, ∀ M ∈ i.locs, w.roots M.root ≠ none ∧ ∀ gs, .code gs ∈ todo → ∀ g ∈ gs, ¬ M.Above g.1)
    (hv : ∀ i ∈ is, ∀ v ∈ i.vals, v.Ok U) : Frame U ⟨w, is ++ todo⟩ where
  shaped := shaped_append hc h.shaped
  nested := nested_append hc (fun i hi M hM => (hl i hi M hM).2) h.nested
  freeOk := freeOk_append hf h.freeOk
  mark gs hgs := by
    rcases List.mem_append.1 hgs with hgs | hgs
    · exact (hc _ hgs gs rfl).elim
    · exact h.mark gs hgs
  busy r hr := by
    rw [busyRoots_append, List.mem_append] at hr
    rcases hr with hr | hr
    · obtain ⟨i, hi, N, hN, rfl⟩ := mem_busyRoots.1 hr
      exact (hl i hi N hN).1
    · exact h.busy r hr
  typed := h.typed
  vals i hi := by
    rcases List.mem_append.1 hi with hi | hi
    · exact hv i hi
    · exact h.vals i hi

theorem mark_put {w w' : World} {X G : GLoc} {v old : V} (hm : ∀ id ty, Resides w id ty G → Ended w' id G)
    (hab : ¬ X.Above G) (hold : w.at X = some old) (hl : X = G → ∀ id, v.id? = some id → Ended w' id G) :
    ∀ id ty, Resides (w.put X v) id ty G → Ended w' id G := by
  intro id ty hr
  by_cases hc : X.Contains G
  · rcases hc.eq_or_above with he | ha
    · subst he
      obtain ⟨va, fs, h⟩ := hr
      rw [World.put_at w hold v] at h
      obtain rfl := Option.some.inj h
      exact hl rfl id rfl
    · exact (hab ha).elim
  · exact hm id ty (resides_put_rev hr hc)

/-- The frame of a destructor is followed by the destruction of the fields. -/
theorem Shaped.dropping {todo : List Instr} (h : Shaped todo) {gs : List (GLoc × Mode)} (hg : .code gs ∈ todo)
    {G : GLoc} {k : Mode} (hG : (G, k) ∈ gs) : dropping G todo := by
  obtain ⟨pre, post, rfl⟩ := List.append_of_mem hg
  rcases shaped_split h with rfl | ⟨G', k', mid, post', rfl, rfl, -⟩
  · cases hG
  · rw [List.mem_singleton] at hG
    cases hG
    simp [PinProject.dropping]

theorem late_mem {X : GLoc} {v : V} {todo : List Instr} (hd : dropping X todo) {id : Id} (hid : v.id? = some id) :
    .late id X ∈ lateEvents X v todo := by
  unfold lateEvents
  rw [if_pos hd, hid]
  simp

theorem late_noexpose (X : GLoc) (v : V) (todo : List Instr) (id : Id) (ty : Ty) (L : GLoc) :
    .expose id ty L ∉ lateEvents X v todo := by
  unfold lateEvents
  split <;> simp

theorem escape_iff {X : GLoc} {v : V} {todo : List Instr} {e : PEvent} (h : e ∈ escapeEvents X v todo) :
    ∃ id, e = .escape id X := by
  unfold escapeEvents at h
  split at h
  · obtain ⟨id, -, rfl⟩ := List.mem_map.1 h; exact ⟨id, rfl⟩
  · cases h

/-! ## The steps -/

/-- A step preserves the invariant, and does not move what is alive. -/
structure StepOk (U : Universe) (c c' : Config) : Prop where
  inv : Inv U c'
  stays : ∀ id ty L, Alive U c.w id ty L → Resides c'.w id ty L

/-- Steps of user code that only change roots that are not in use and hold nothing alive. -/
theorem stepOk_agree {U : Universe} {w w' : World} {todo : List Instr} (hi : Inv U ⟨w, todo⟩)
    (ht : w'.trace = w.trace) (hw : WOk U w')
    (hb : ∀ q ∈ busyRoots todo, w'.roots q = w.roots q)
    (ha : ∀ id ty L, Alive U w id ty L → w'.roots L.root = w.roots L.root) : StepOk U ⟨w, todo⟩ ⟨w', todo⟩ where
  inv := ⟨hi.frame.agree hb hw (by rw [ht]; exact fun _ h => h), fun id ty L hl =>
    (hi.live _ _ _ (hl.of_trace ht)).agree (ha _ _ _ (hl.of_trace ht))⟩
  stays id ty L hl := ((hi.live _ _ _ hl).agree (ha _ _ _ hl)).resides

theorem StepOk.push {U : Universe} {c : Config} {w' : World} {todo is : List Instr} (h : StepOk U c ⟨w', todo⟩)
    (hf : Frame U ⟨w', is ++ todo⟩) (hp : ∀ id ty L, Alive U w' id ty L → PathOk U w' L False is) :
    StepOk U c ⟨w', is ++ todo⟩ :=
  ⟨⟨hf, fun id ty L hl => (h.inv.live _ _ _ hl).push (hp _ _ _ hl)⟩, h.stays⟩

theorem V.Ok.parts {U : Universe} {id : Id} {ty : Ty} {va : Option String} {fs : List (String × V)}
    (h : V.Ok U (.node id ty va fs)) : ∀ x ∈ fs, x.2.Ok U := by
  cases h with
  | node _ h => exact h

theorem frame_above {todo : List Instr} {M : GLoc} (h : M.root ∉ busyRoots todo) :
    ∀ gs, .code gs ∈ todo → ∀ g ∈ gs, ¬ M.Above g.1 := by
  intro gs hgs g hg ha
  apply h
  rw [mem_busyRoots]
  exact ⟨_, hgs, g.1, by simp only [Instr.locs, List.mem_map]; exact ⟨g, hg, rfl⟩, ha.contains.root⟩

/-- Dropping a root that is not in use. -/
theorem Frame.dropRoot {U : Universe} {w : World} {todo : List Instr} (h : Frame U ⟨w, todo⟩) {r : Nat}
    (hr : w.roots r ≠ none) (hb : r ∉ busyRoots todo) : Frame U ⟨w, .destroy ⟨r, []⟩ :: .free r :: todo⟩ where
  shaped := h.shaped
  nested := by
    refine ⟨?_, ?_, h.nested⟩
    · intro M hM gs hgs
      simp only [Instr.locs, List.mem_singleton] at hM
      subst hM
      have hgs' : .code gs ∈ todo := by
        rcases List.mem_cons.1 hgs with h | h
        · cases h
        · exact h
      exact frame_above hb gs hgs'
    · intro M hM
      simp only [Instr.locs, List.mem_singleton] at hM
      subst hM
      exact frame_above hb
  freeOk := ⟨fun _ h => (by cases h), fun q hq => (by cases hq; exact hb), h.freeOk⟩
  mark gs hgs := by
    apply h.mark
    rcases List.mem_cons.1 hgs with h | h
    · cases h
    rcases List.mem_cons.1 h with h | h
    · cases h
    exact h
  busy q hq := by
    rw [mem_busyRoots] at hq
    obtain ⟨i, hi, N, hN, rfl⟩ := hq
    rcases List.mem_cons.1 hi with rfl | hi
    · simp only [Instr.locs, List.mem_singleton] at hN; subst hN; exact hr
    rcases List.mem_cons.1 hi with rfl | hi
    · simp only [Instr.locs, List.mem_singleton] at hN; subst hN; exact hr
    exact h.busy _ (mem_busyRoots.2 ⟨i, hi, N, hN, rfl⟩)
  typed := h.typed
  vals i hi := by
    rcases List.mem_cons.1 hi with rfl | hi
    · simp [Instr.vals]
    rcases List.mem_cons.1 hi with rfl | hi
    · simp [Instr.vals]
    exact h.vals i hi

theorem op_build {U : Universe} {w : World} {todo : List Instr} (hi : Inv U ⟨w, todo⟩) (r : Nat) (id : Id) (ty : Ty)
    (variant : Option String) (parts : List (String × Nat × V)) (hr : w.roots r = none)
    (hp : ∀ x ∈ parts, w.roots x.2.1 = some ⟨false, x.2.2⟩ ∧ x.2.1 ∉ busyRoots todo)
    (hn : NodeOk U (.node id ty variant (parts.map (fun x => (x.1, x.2.2))))) :
    StepOk U ⟨w, todo⟩ ⟨{ (w.take (parts.map (·.2.1))).setRoot r
            (some ⟨false, .node id ty variant (parts.map (fun x => (x.1, x.2.2)))⟩) with used := id :: w.used }, todo⟩ := by
  have hroots : ∀ q, q ≠ r → (∀ x ∈ parts, x.2.1 ≠ q) → ((w.take (parts.map (·.2.1))).setRoot r
            (some ⟨false, .node id ty variant (parts.map (fun x => (x.1, x.2.2)))⟩)).roots q = w.roots q := by
    intro q h1 h2
    rw [World.setRoot_ne _ _ h1]
    unfold World.take
    simp only
    rw [if_neg]
    intro hm
    obtain ⟨x, hx, rfl⟩ := List.mem_map.1 hm
    exact h2 x hx rfl
  refine stepOk_agree hi rfl ?_ ?_ ?_
  · intro q y hq
    change ((w.take (parts.map (·.2.1))).setRoot r _).roots q = some y at hq
    by_cases he : q = r
    · subst he
      rw [World.setRoot_self] at hq
      obtain rfl := Option.some.inj hq
      refine .node hn ?_
      intro x hx
      obtain ⟨y, hy, rfl⟩ := List.mem_map.1 hx
      exact hi.frame.typed _ _ (hp y hy).1
    · rw [World.setRoot_ne _ _ he] at hq
      unfold World.take at hq
      simp only at hq
      split at hq
      · cases hq
      · exact hi.frame.typed _ _ hq
  · intro q hq
    apply hroots
    · rintro rfl
      exact hi.frame.busy _ hq hr
    · rintro x hx rfl
      exact (hp x hx).2 hq
  · intro id ty L hl
    apply hroots
    · exact hi.unused hr hl
    · intro x hx he
      exact hi.owned (hp x hx).1 (hp x hx).2 hl he.symm

/-- Changing one root that is not in use and holds nothing alive. -/
theorem op_setRoot {U : Universe} {w : World} {todo : List Instr} (hi : Inv U ⟨w, todo⟩) {r : Nat} {x : Option Slot}
    (hb : r ∉ busyRoots todo) (hx : ∀ y, x = some y → y.val.Ok U)
    (ha : ∀ id ty L, Alive U w id ty L → L.root ≠ r) : StepOk U ⟨w, todo⟩ ⟨w.setRoot r x, todo⟩ := by
  refine stepOk_agree hi rfl (hi.frame.typed.setRoot hx) ?_ ?_
  · intro q hq
    exact World.setRoot_ne _ _ (fun he => hb (he ▸ hq))
  · intro id ty L hl
    exact World.setRoot_ne _ _ (ha _ _ _ hl)

/-- Events that do not expose anything. -/
theorem op_log {U : Universe} {w : World} {todo : List Instr} (hi : Inv U ⟨w, todo⟩) {es : List PEvent}
    (he : ∀ id ty L, .expose id ty L ∉ es) : StepOk U ⟨w, todo⟩ ⟨w.log es, todo⟩ where
  inv := ⟨hi.frame.agree (fun _ _ => rfl) hi.frame.typed (fun e h => by simp [h]), fun id ty L hl =>
    (hi.live _ _ _ (hl.of_log (es := es) rfl he)).agree rfl⟩
  stays id ty L hl := ((hi.live _ _ _ hl).agree rfl).resides

theorem Inv.notBusy {U : Universe} {c : Config} (hi : Inv U c) {r : Nat} (hr : c.w.roots r = none) :
    r ∉ busyRoots c.todo := fun hb => hi.frame.busy r hb hr

theorem StepOk.trans {U : Universe} {c c' c'' : Config} (h1 : StepOk U c c') (h2 : StepOk U c' c'')
    (ha : ∀ id ty L, Alive U c.w id ty L → Alive U c'.w id ty L) : StepOk U c c'' :=
  ⟨h2.inv, fun id ty L hl => h2.stays _ _ _ (ha _ _ _ hl)⟩

/-- Values that are put into new variables, or dropped, later. -/
theorem pathOk_values {U : Universe} {w : World} {L : GLoc} {is : List Instr}
    (h : ∀ i ∈ is, (∃ v, i = .place v) ∨ ∃ v, i = .discard v) (c : Prop) : PathOk U w L c is := by
  apply pathOk_all
  intro i hi
  rcases h i hi with ⟨v, rfl⟩ | ⟨v, rfl⟩ <;> trivial

theorem op_expose {U : Universe} {w : World} {todo : List Instr} (hi : Inv U ⟨w, todo⟩) (L : GLoc) (k : Mode) (id : Id)
    (ty : Ty) (va : Option String) (fs : List (String × V)) (hu : Usable U w todo L k) (hk : k = .pinExcl ∨ k = .pinShr)
    (hat : w.at L = some (.node id ty va fs)) : StepOk U ⟨w, todo⟩ ⟨w.log [.expose id ty L], todo⟩ := by
  have hold : ∀ id' ty' L', Alive U w id' ty' L' → LiveOk U ⟨w.log [.expose id ty L], todo⟩ id' ty' L' :=
    fun _ _ _ hl => (hi.live _ _ _ hl).agree rfl
  refine ⟨⟨hi.frame.agree (fun _ _ => rfl) hi.frame.typed (fun e he => by simp [he]), ?_⟩, fun _ _ _ hl => (hold _ _ _ hl).resides⟩
  intro id' ty' L' hl
  by_cases hex : Exposed w id' ty' L'
  · apply hold
    refine ⟨hex, hl.notUnpin, fun hc => hl.notEnded (ended_log hc _)⟩
  · have he := hl.exposed
    unfold Exposed at he hex
    rw [World.log_trace, List.mem_append] at he
    have he := he.resolve_left hex
    rw [List.mem_singleton] at he
    obtain ⟨rfl, rfl, rfl⟩ := PEvent.expose.inj he
    have hne : ¬ Ended w id' L' := fun hc => hl.notEnded (ended_log hc _)
    suffices LiveOk U ⟨w, todo⟩ id' ty' L' from this.agree rfl
    cases hu with
    | @root r x hx hd hc =>
      have hm : x.mode = .excl ∨ x.mode = .pinExcl := by unfold Slot.mode; split <;> simp
      rcases hd.pin hi.frame.typed hm hk hat with h | ⟨h1, q, h2, h3⟩
      · exact (hl.notUnpin h).elim
      · refine ⟨⟨va, fs, hat⟩, .inr ?_, pathOk_clear hc _⟩
        have hpin : x.pinned = true := by
          unfold Slot.mode at h1
          split at h1
          · assumption
          · cases h1
        obtain ⟨b, v⟩ := x
        simp only at hpin
        subst hpin
        obtain ⟨u, hu, hp⟩ := h3
        have hv : w.at ⟨r, []⟩ = some v := by unfold World.at; simp [hx]
        obtain rfl := Option.some.inj (hv.symm.trans hu)
        subst h2
        exact ⟨v, hx, by simpa [GLoc.sub] using hp⟩
    | @given pre post gs g ht hg hd hc =>
      subst ht
      rcases shaped_split hi.frame.shaped with rfl | ⟨G, k', mid, post', rfl, rfl, hmid, hk'⟩
      · cases hg
      rw [List.mem_singleton] at hg
      subst hg
      rcases hd.pin hi.frame.typed hk' hk hat with h | ⟨h1, q, h2, h3⟩
      · exact (hl.notUnpin h).elim
      · simp only at h1 h2 h3
        subst h1
        cases q with
        | nil =>
          rw [GLoc.sub_nil] at h2
          subst h2
          exact (hne (hi.frame.mark [(L', .pinExcl)] (by simp) L' (by simp) id' ty' ⟨va, fs, hat⟩)).elim
        | cons f p =>
          have hcov : (Instr.fields G).Covers L' := ⟨f, p, h2⟩
          have hall : ∀ q, L' = G.sub q → w.PinPath U G q := by
            intro q hq
            rw [h2, GLoc.sub_inj] at hq
            rw [← hq]
            exact h3
          refine ⟨⟨va, fs, hat⟩, .inl ⟨.fields G, by simp, hcov⟩, pathOk_append.2 ⟨pathOk_clear hc _, ?_⟩⟩
          refine ⟨.inr ?_, pathOk_append.2 ⟨pathOk_clear (hmid.below ⟨_, h2⟩) _, .inr hall, pathOk_covered (.inr hcov) _⟩⟩
          intro g hg q hq
          rw [List.mem_singleton] at hg
          subst hg
          exact ⟨rfl, hall q hq⟩

theorem frame_put {U : Universe} {w w' : World} {todo : List Instr} (hf : Frame U ⟨w, todo⟩) {X : GLoc} {old v : V}
    (hold : w.at X = some old) (hv : v.Ok U) (ht : old.ty = v.ty)
    (hab : ∀ gs, .code gs ∈ todo → ∀ g ∈ gs, ¬ X.Above g.1) (hr : w'.roots = (w.put X v).roots)
    (htr : ∀ e ∈ w.trace, e ∈ w'.trace)
    (hl : dropping X todo → ∀ id, v.id? = some id → Ended w' id X) : Frame U ⟨w', todo⟩ where
  shaped := hf.shaped
  nested := hf.nested
  freeOk := hf.freeOk
  mark gs hgs G hG := by
    have hat : ∀ id ty, Resides w' id ty G → Resides (w.put X v) id ty G := by
      rintro id ty ⟨va, fs, h⟩
      exact ⟨va, fs, by unfold World.at at *; rw [← hr]; exact h⟩
    intro id ty h
    refine mark_put (w := w) (X := X) (v := v) ?_ (hab gs hgs _ hG) hold ?_ id ty (hat id ty h)
    · intro id ty hr
      have := hf.mark gs hgs G hG id ty hr
      unfold Ended at *
      exact this.imp (htr _) (Or.imp (htr _) (htr _))
    · rintro rfl
      exact hl (hf.shaped.dropping hgs hG)
  busy r hb := by
    have := hf.busy r hb
    rw [hr, World.put_roots]
    split
    · intro h; exact this (Option.map_eq_none_iff.1 h)
    · exact this
  typed := by
    intro r x hx
    rw [hr] at hx
    exact hf.typed.put hv (fun o ho => by obtain rfl := Option.some.inj (hold.symm.trans ho); exact ht) r x hx
  vals := hf.vals

theorem Disjoint.symm {X Y : GLoc} (h : X.Disjoint Y) : Y.Disjoint X := ⟨h.2, h.1⟩

theorem log_put (w : World) (es : List PEvent) (X : GLoc) (v : V) : (w.log es).put X v = (w.put X v).log es := by
  unfold World.put
  simp only [World.log_roots]
  cases w.roots X.root <;> rfl

theorem log_log (w : World) (a b : List PEvent) : (w.log a).log b = w.log (a ++ b) := by
  simp [World.log]

theorem op_swap {U : Universe} {w : World} {todo : List Instr} (hi : Inv U ⟨w, todo⟩) (X Y : GLoc) (u v : V)
    (hX : Usable U w todo X .excl) (hY : Usable U w todo Y .excl) (hd : X.Disjoint Y) (hu : w.at X = some u)
    (hv : w.at Y = some v) (ht : u.ty = v.ty) :
    StepOk U ⟨w, todo⟩ ⟨((w.put X v).put Y u).log
      (escapeEvents X u todo ++ escapeEvents Y v todo ++ (lateEvents X v todo ++ lateEvents Y u todo)), todo⟩ := by
  obtain ⟨-, -, -, -, -, hpX, -⟩ := hX.base hi
  obtain ⟨-, -, -, -, -, hpY, -⟩ := hY.base hi
  have hlive : ∀ id ty L, Alive U w id ty L →
      LiveOk U ⟨((w.put X v).put Y u).log
        (escapeEvents X u todo ++ escapeEvents Y v todo ++ (lateEvents X v todo ++ lateEvents Y u todo)), todo⟩ id ty L := by
    intro id ty L hl
    exact (((hi.live _ _ _ hl).put (hX.excl hi hl) v).put (hY.excl hi hl) u).agree rfl
  refine ⟨⟨?_, ?_⟩, fun id ty L hl => (hlive _ _ _ hl).resides⟩
  · have h1 : Frame U ⟨(w.put X v).log (escapeEvents X u todo ++ escapeEvents Y v todo ++ lateEvents X v todo), todo⟩ := by
      refine frame_put hi.frame hu (hi.frame.typed.at hv) ht hpX rfl (by simp_all) ?_
      intro hd id hid
      exact .inr (.inr (by simp [late_mem hd hid]))
    have h2 : Frame U ⟨(((w.put X v).log (escapeEvents X u todo ++ escapeEvents Y v todo ++ lateEvents X v todo)).put Y u).log
        (lateEvents Y u todo), todo⟩ := by
      refine frame_put h1 (old := v) ?_ (hi.frame.typed.at hu) ht.symm hpY rfl (fun e he => by simp at he ⊢; grind) ?_
      · rw [World.log_at, World.put_disjoint w hd]; exact hv
      · intro hd id hid
        exact .inr (.inr (by simp [late_mem hd hid]))
    rw [log_put, log_log, List.append_assoc] at h2
    exact h2
  · intro id ty L hl
    apply hlive
    refine hl.of_log (es := escapeEvents X u todo ++ escapeEvents Y v todo ++ (lateEvents X v todo ++ lateEvents Y u todo)) (by simp) ?_
    intro id ty L hm
    rcases List.mem_append.1 hm with hm | hm
    · rcases List.mem_append.1 hm with hm | hm
      · obtain ⟨_, h⟩ := escape_iff hm; cases h
      · obtain ⟨_, h⟩ := escape_iff hm; cases h
    rcases List.mem_append.1 hm with hm | hm
    · exact late_noexpose _ _ _ _ _ _ hm
    · exact late_noexpose _ _ _ _ _ _ hm

theorem op_set {U : Universe} {w : World} {todo : List Instr} (hi : Inv U ⟨w, todo⟩) (X : GLoc) (k : Mode) (u : V)
    (r : Nat) (new : V) (hX : Usable U w todo X k) (hu : w.at X = some u)
    (hr : w.roots r = some ⟨false, new⟩) (hb : r ∉ busyRoots todo) (hne : r ≠ X.root) :
    StepOk U ⟨w, todo⟩ ⟨w.setRoot r none, [.destroy X, .store X new] ++ todo⟩ := by
  obtain ⟨-, -, -, -, -, hp, hX0⟩ := hX.base hi
  have h1 : StepOk U ⟨w, todo⟩ ⟨w.setRoot r none, todo⟩ :=
    op_setRoot hi hb (by simp) (fun id ty L hl => hi.owned hr hb hl)
  refine h1.push (h1.inv.frame.push ?_ ?_ ?_ ?_) ?_
  · simp
  · simp
  · intro i him M hM
    have : M = X := by
      simp only [List.mem_cons, List.not_mem_nil, or_false] at him
      rcases him with rfl | rfl <;> simpa [Instr.locs] using hM
    subst this
    exact ⟨by rw [World.setRoot_ne _ _ hne.symm]; exact hX0, hp⟩
  · intro i him v hv
    simp only [List.mem_cons, List.not_mem_nil, or_false] at him
    rcases him with rfl | rfl
    · simp [Instr.vals] at hv
    · simp only [Instr.vals, List.mem_singleton] at hv
      subst hv
      exact hi.frame.typed _ _ hr
  · intro id ty L hl
    have hl' : Alive U w id ty L := hl.of_trace rfl
    by_cases hc : X.Contains L
    · refine ⟨.inr ?_, pathOk_covered (.inr hc) _⟩
      intro q hq
      exact (hX.pinPath hi hl' hq).setRoot hne.symm _
    · refine ⟨.inr ?_, .inr hc, trivial⟩
      intro q hq
      exact (hc ⟨q, hq⟩).elim

/-- Changing some parts of a value leaves what is in the other parts. -/
theorem keeps_part {U : Universe} {w : World} {L : GLoc} {id : Id} {ty : Ty} {va : Option String}
    {fs gs : List (String × V)} (hat : w.at L = some (.node id ty va fs)) {f : String} (hf : gs.lookup f = fs.lookup f)
    (q : List String) : (w.put L (.node id ty va gs)).at (L.sub (f :: q)) = w.at (L.sub (f :: q)) ∧
      Keeps U w (w.put L (.node id ty va gs)) (L.sub (f :: q)) := by
  have hbelow : ∀ q, (w.put L (.node id ty va gs)).at (L.sub (f :: q)) = w.at (L.sub (f :: q)) := by
    intro q
    rw [World.put_at_sub w hat, World.at_sub, hat]
    simp [V.get, hf]
  have hself : ∀ q, w.PinPath U L (f :: q) → (w.put L (.node id ty va gs)).PinPath U L (f :: q) := by
    rintro q ⟨v, hv, hp⟩
    obtain rfl := Option.some.inj (hat.symm.trans hv)
    refine ⟨_, World.put_at w hat _, hp.1, ?_⟩
    obtain ⟨-, c, hc, h2⟩ := hp
    exact ⟨c, hf.trans hc, h2⟩
  refine ⟨hbelow q, ?_⟩
  intro M q' hq hp
  have h1 : L.Contains (L.sub (f :: q)) := .sub _ _
  have h2 : M.Contains (L.sub (f :: q)) := ⟨q', hq⟩
  rcases h1.comparable h2 with h | h
  · rcases h.eq_or_above with rfl | ⟨f', p, rfl⟩
    · rw [GLoc.sub_inj] at hq
      subst hq
      exact hself q hp
    · rw [GLoc.sub_sub, GLoc.sub_inj] at hq
      simp only [List.cons_append, List.cons.injEq] at hq
      obtain ⟨rfl, -⟩ := hq
      obtain ⟨v, hv, hp⟩ := hp
      exact ⟨v, by rw [hbelow]; exact hv, hp⟩
  · obtain ⟨p, rfl⟩ := h
    rw [GLoc.sub_sub, GLoc.sub_inj] at hq
    subst hq
    rw [World.pinPath_append] at hp ⊢
    refine ⟨hp.1.put_above ?_ _, hself q hp.2⟩
    intro ha
    exact ha.ne rfl

theorem op_replace {U : Universe} {w : World} {todo : List Instr} (hi : Inv U ⟨w, todo⟩) (L : GLoc) (id : Id) (ty : Ty)
    (va : Option String) (fs : List (String × V)) (d : Def) (args : List TArg) (fn : GFn) (r : Nat) (id' : Id)
    (va' : Option String) (fs' : List (String × V)) (orc : Oracle) (tl : Bool) (res : Option Val × M)
    (hL : Usable U w todo L .pinExcl) (hat : w.at L = some (.node id ty va fs)) (hdef : U.def? ty = some (d, args))
    (hfn : method d.E "project_replace" = some fn) (hr : w.roots r = some ⟨false, .node id' ty va' fs'⟩)
    (hb : r ∉ busyRoots todo) (hne : r ≠ L.root)
    (hcall : callFn orc tl fn (.fv (.pinRef true ⟨0, none⟩)) [.obj (flatObj fs.length va' fs')]
        (solo (flatObj 0 va fs)) = res) (hna : res.2.status ≠ .abort) :
    StepOk U ⟨w, todo⟩
      ⟨((w.setRoot r none).put L (.node id ty va (punch (movedOut res) fs))).log [.taken id L],
        (res.2.trace.flatMap (instrsOf L ((fs ++ fs').map Prod.snd) id' ty) ++
          (res.1.toList.flatMap Val.ids).map (fun i => .place (tableGet ((fs ++ fs').map Prod.snd) i))) ++ todo⟩ := by
  obtain ⟨-, -, -, -, -, hp, hL0⟩ := hL.base hi
  have hok := hi.frame.typed.at hat
  obtain ⟨pins, outs, backs, heq, hpins, hpins', houts, hbacks, hpunch, -⟩ :=
    replace_facts hok.nodeOk hdef hfn L id' va' fs' orc tl res hcall hna
  rw [heq]
  have h1 : StepOk U ⟨w, todo⟩ ⟨w.setRoot r none, todo⟩ :=
    op_setRoot hi hb (by simp) (fun id ty L hl => hi.owned hr hb hl)
  have hat1 : (w.setRoot r none).at L = some (.node id ty va fs) := by
    rw [World.setRoot_at_ne _ _ hne.symm]; exact hat
  have hok2 : V.Ok U (.node id ty va (punch (movedOut res) fs)) := by
    refine .node (hok.nodeOk.congr (punch_names _ _) (punch_types _ _)) ?_
    intro x hx
    rcases punch_mem hx with h | ⟨t, h⟩
    · exact hok.parts x h
    · rw [h]; exact .hole t
  have hbelow : ∀ id₀ ty₀ L₀, Alive U w id₀ ty₀ L₀ → L.Contains L₀ → L₀ ≠ L →
      ∃ f q, L₀ = L.sub (f :: q) ∧ PinStep U ty va f := by
    intro id₀ ty₀ L₀ hl hc hne
    rcases hc.eq_or_above with he | ⟨f, q, rfl⟩
    · exact (hne he).elim
    · refine ⟨f, q, rfl, ?_⟩
      obtain ⟨v, hv, hp⟩ := hL.pinPath hi hl rfl
      obtain rfl := Option.some.inj (hat.symm.trans hv)
      exact hp.1
  have hstay : ∀ id₀ ty₀ L₀, Alive U w id₀ ty₀ L₀ →
      Resides (((w.setRoot r none).put L (.node id ty va (punch (movedOut res) fs))).log [.taken id L]) id₀ ty₀ L₀ ∧
      (L₀ ≠ L → Keeps U (w.setRoot r none)
        (((w.setRoot r none).put L (.node id ty va (punch (movedOut res) fs))).log [.taken id L]) L₀) := by
    intro id₀ ty₀ L₀ hl
    have hres : Resides (w.setRoot r none) id₀ ty₀ L₀ := h1.stays _ _ _ hl
    by_cases hc : L.Contains L₀
    · by_cases he : L₀ = L
      · subst he
        refine ⟨?_, fun h => (h rfl).elim⟩
        obtain ⟨va₀, fs₀, h⟩ := hres
        rw [hat1] at h
        simp only [Option.some.injEq, V.node.injEq] at h
        obtain ⟨rfl, rfl, rfl, rfl⟩ := h
        exact ⟨_, _, World.put_at _ hat1 _⟩
      · obtain ⟨f, q, rfl, hs⟩ := hbelow _ _ _ hl hc he
        obtain ⟨ha, hk⟩ := keeps_part (U := U) hat1 (hpunch f hs) q
        refine ⟨?_, fun _ => hk⟩
        obtain ⟨va₀, fs₀, h⟩ := hres
        exact ⟨va₀, fs₀, ha.trans h⟩
    · exact ⟨resides_put hres hc _, fun _ => keeps_put _ hc _⟩
  refine ⟨⟨?_, ?_⟩, fun _ _ _ hl => (hstay _ _ _ hl).1⟩
  · have h2 : Frame U ⟨((w.setRoot r none).put L (.node id ty va (punch (movedOut res) fs))).log [.taken id L], todo⟩ := by
      refine frame_put h1.inv.frame hat1 hok2 rfl hp rfl (by simp_all) ?_
      intro _ i hid
      simp only [V.id?, Option.some.injEq] at hid
      subst hid
      exact .inr (.inl (by simp))
    have hroot : (((w.setRoot r none).put L (.node id ty va (punch (movedOut res) fs))).log [.taken id L]).roots L.root ≠ none := by
      rw [World.log_roots, World.put_roots, if_pos rfl, World.setRoot_ne _ _ hne.symm]
      intro h
      exact hL0 (Option.map_eq_none_iff.1 h)
    refine h2.push ?_ ?_ ?_ ?_
    · intro i him gs
      simp only [List.mem_append, List.mem_cons, List.mem_map] at him
      rcases him with ⟨f, -, rfl⟩ | ⟨v, -, rfl⟩ | rfl | ⟨v, -, rfl⟩ <;> simp
    · intro i him gs
      simp only [List.mem_append, List.mem_cons, List.mem_map] at him
      rcases him with ⟨f, -, rfl⟩ | ⟨v, -, rfl⟩ | rfl | ⟨v, -, rfl⟩ <;> simp
    · intro i him M hM
      simp only [List.mem_append, List.mem_cons, List.mem_map] at him
      have hLM : L.Contains M := by
        rcases him with ⟨f, -, rfl⟩ | ⟨v, -, rfl⟩ | rfl | ⟨v, -, rfl⟩
        · simp only [Instr.locs, List.mem_singleton] at hM; subst hM; exact .sub _ _
        · simp [Instr.locs] at hM
        · simp only [Instr.locs, List.mem_singleton] at hM; subst hM; exact .refl _
        · simp [Instr.locs] at hM
      exact ⟨by rw [hLM.root]; exact hroot, fun gs hgs g hg ha => hp gs hgs g hg (hLM.trans_above ha)⟩
    · intro i him v hv
      simp only [List.mem_append, List.mem_cons, List.mem_map] at him
      have hparts : ∀ v ∈ fs.map Prod.snd, v.Ok U := by
        intro v hv
        obtain ⟨x, hx, rfl⟩ := List.mem_map.1 hv
        exact hok.parts x hx
      rcases him with ⟨f, -, rfl⟩ | ⟨v', hv', rfl⟩ | rfl | ⟨v', hv', rfl⟩
      · simp [Instr.vals] at hv
      · simp only [Instr.vals, List.mem_singleton] at hv; subst hv; exact hparts _ (houts _ hv')
      · simp only [Instr.vals, List.mem_singleton] at hv; subst hv; exact hi.frame.typed _ _ hr
      · simp only [Instr.vals, List.mem_singleton] at hv; subst hv; exact hparts _ (hbacks _ hv')
  · intro id₀ ty₀ L₀ hl
    have hl' : Alive U w id₀ ty₀ L₀ := hl.of_log (es := [.taken id L]) (by simp) (by simp)
    have hneq : L₀ ≠ L := by
      rintro rfl
      apply hl.notEnded
      obtain ⟨va₀, fs₀, h⟩ := (hi.live _ _ _ hl').resides
      simp only at h
      rw [hat] at h
      simp only [Option.some.injEq, V.node.injEq] at h
      obtain ⟨rfl, -⟩ := h
      exact .inr (.inl (by simp))
    obtain ⟨hres, hk⟩ := hstay _ _ _ hl'
    have hk := hk hneq
    have h3 : LiveOk U ⟨w.setRoot r none, todo⟩ id₀ ty₀ L₀ := h1.inv.live _ _ _ (hl'.of_trace rfl)
    have h4 : LiveOk U ⟨((w.setRoot r none).put L (.node id ty va (punch (movedOut res) fs))).log [.taken id L], todo⟩ id₀ ty₀ L₀ :=
      h3.world hk (fun u hu => put_pinned hu) hres
    refine h4.push (pathOk_append.2 ⟨?_, ?_⟩)
    · apply pathOk_all
      intro i him
      obtain ⟨f, hf, rfl⟩ := List.mem_map.1 him
      intro q hq
      apply hk _ _ hq
      have := hL.pinPath hi hl' (q := f :: q) (by rw [hq, GLoc.sub_sub]; rfl)
      have h5 := (World.pinPath_append (p := [f]) (q := q)).1 this
      exact h5.2.setRoot hne.symm _
    · rw [pathOk_append]
      refine ⟨pathOk_values ?_ _, ?_⟩
      · intro i him
        obtain ⟨v, -, rfl⟩ := List.mem_map.1 him
        exact .inr ⟨v, rfl⟩
      · by_cases hc : L.Contains L₀
        · obtain ⟨f, q, rfl, hs⟩ := hbelow _ _ _ hl' hc hneq
          apply pathOk_covered
          refine .inl (.inr ⟨.destroy (L.sub [f]), List.mem_map.2 ⟨f, hpins f hs, rfl⟩, q, ?_⟩)
          rw [GLoc.sub_sub]
          rfl
        · refine ⟨.inr hc, pathOk_values ?_ _⟩
          intro i him
          obtain ⟨v, -, rfl⟩ := List.mem_map.1 him
          exact .inl ⟨v, rfl⟩

theorem op_drop {U : Universe} {w : World} {todo : List Instr} (hi : Inv U ⟨w, todo⟩) (r : Nat) (x : Slot)
    (hx : w.roots r = some x) (hb : r ∉ busyRoots todo) :
    StepOk U ⟨w, todo⟩ ⟨w, [.destroy ⟨r, []⟩, .free r] ++ todo⟩ := by
  refine ⟨⟨hi.frame.dropRoot (by simp [hx]) hb, ?_⟩, fun id ty L hl => (hi.live _ _ _ hl).resides⟩
  intro id ty L hl
  refine (hi.live _ _ _ hl).push ?_
  by_cases hr : L.root = r
  · have hk := (hi.live _ _ _ hl).known_root (fun hc => hb (hr ▸ hc.busy)) hx
    refine ⟨.inr fun q hq => (hk q hq).2, pathOk_covered (.inr ?_) _⟩
    subst hr
    exact ⟨L.path, GLoc.root_sub L⟩
  · refine ⟨.inr ?_, .inr hr, trivial⟩
    rintro q rfl
    exact (hr rfl).elim

theorem op_ok {U : Universe} {w w' : World} {todo is : List Instr} (hi : Inv U ⟨w, todo⟩) (h : Op U todo w w' is) :
    StepOk U ⟨w, todo⟩ ⟨w', is ++ todo⟩ := by
  cases h with
  | build r id ty variant parts hr _ _ hp hn => exact op_build hi r id ty variant parts hr hp hn
  | move r q v hr hb hq =>
    have h1 := op_setRoot hi (x := none) hb (by simp) (fun id ty L hl => hi.owned hr hb hl)
    have hq' : (w.setRoot r none).roots q = none := by
      by_cases he : q = r
      · subst he; exact World.setRoot_self _ _ _
      · rw [World.setRoot_ne _ _ he]; exact hq
    refine h1.trans (op_setRoot h1.inv (h1.inv.notBusy hq') ?_ (fun id ty L hl => h1.inv.unused hq' hl))
      (fun _ _ _ hl => hl.of_trace rfl)
    intro y hy
    obtain rfl := Option.some.inj hy
    exact hi.frame.typed _ _ hr
  | pin r v hr hb =>
    refine op_setRoot hi hb ?_ (fun id ty L hl => hi.owned hr hb hl)
    intro y hy
    obtain rfl := Option.some.inj hy
    exact hi.frame.typed r ⟨false, v⟩ hr
  | unpin r v hr hb hu =>
    refine op_setRoot hi hb ?_ ?_
    · intro y hy
      obtain rfl := Option.some.inj hy
      exact hi.frame.typed r ⟨true, v⟩ hr
    · rintro id ty L hl rfl
      obtain ⟨⟨va, fs, hat⟩, hanch, -⟩ := hi.live _ _ _ hl
      rcases hanch with h | ⟨v', hv', hp⟩
      · exact hb h.busy
      · simp only at hv' hat
        rw [hr] at hv'
        cases hv'
        unfold World.at at hat
        rw [hr] at hat
        exact hl.notUnpin (pinPath_unpin (hi.frame.typed _ _ hr) hu hp hat)
  | expose L k id ty va fs hu hk hat => exact op_expose hi L k id ty va fs hu hk hat
  | swap X Y u v hX hY hd hu hv ht => exact op_swap hi X Y u v hX hY hd hu hv ht
  | set X k u r new hX _ hu hr hb hne ht => exact op_set hi X k u r new hX hu hr hb hne
  | replace L id ty va fs d args fn r id' va' fs' orc tl res hL hat hdef hfn hr hb hne hcall hna =>
    exact op_replace hi L id ty va fs d args fn r id' va' fs' orc tl res hL hat hdef hfn hr hb hne hcall hna
  | drop r x hx hb => exact op_drop hi r x hx hb
  | forget r v hr hb =>
    have h1 := op_setRoot hi (x := none) hb (by simp) (fun id ty L hl => hi.owned hr hb hl)
    have h2 := op_log h1.inv (es := v.ids.map .forgot) (by simp)
    exact ⟨h2.inv, h1.stays⟩
  | destructure r id ty va fs hr hb _ =>
    have h0 := op_setRoot hi (x := none) hb (by simp) (fun id ty L hl => hi.owned hr hb hl)
    have h1 : StepOk U ⟨w, todo⟩ ⟨(w.setRoot r none).log [.forgot id], todo⟩ :=
      ⟨(op_log h0.inv (es := [.forgot id]) (by simp)).inv, h0.stays⟩
    refine h1.push (h1.inv.frame.push ?_ ?_ ?_ ?_) ?_
    · intro i him; obtain ⟨x, -, rfl⟩ := List.mem_map.1 him; simp
    · intro i him; obtain ⟨x, -, rfl⟩ := List.mem_map.1 him; simp
    · intro i him; obtain ⟨x, -, rfl⟩ := List.mem_map.1 him; simp [Instr.locs]
    · intro i him v hv
      obtain ⟨x, hx, rfl⟩ := List.mem_map.1 him
      simp only [Instr.vals, List.mem_singleton] at hv
      subst hv
      exact V.Ok.parts (hi.frame.typed _ _ hr) x hx
    · intro _ _ _ _
      apply pathOk_values
      intro i him
      obtain ⟨x, -, rfl⟩ := List.mem_map.1 him
      exact .inl ⟨_, rfl⟩

/-! ## The steps of destructors -/

theorem destroy_frame {U : Universe} {w : World} {L : GLoc} {rest : List Instr} {id : Id} {ty : Ty}
    {va : Option String} {fs : List (String × V)} (hf : Frame U ⟨w, .destroy L :: rest⟩)
    (hat : w.at L = some (.node id ty va fs)) {is : List Instr}
    (his : is = [] ∨ is = [.code [(L, .excl)]] ∨ is = [.code [(L, .pinExcl)]]) :
    Frame U ⟨w.log [.dtor id L], is ++ .fields L :: rest⟩ := by
  have hbase : Frame U ⟨w.log [.dtor id L], .fields L :: rest⟩ := by
    refine ⟨shaped_tail (i := .destroy L) hf.shaped, ⟨hf.nested.1, hf.nested.2⟩,
      ⟨fun r h => (by cases h), hf.freeOk.2⟩, ?_, hf.busy, hf.typed, ?_⟩
    · intro gs hgs G hG id' ty' hr
      have hgs : .code gs ∈ rest := by simpa using hgs
      exact ended_log (hf.mark gs (List.mem_cons_of_mem _ hgs) G hG id' ty' hr) _
    · intro i hi
      rcases List.mem_cons.1 hi with rfl | hi
      · simp [Instr.vals]
      · exact hf.vals i (List.mem_cons_of_mem _ hi)
  have hcode : ∀ k, (k = .excl ∨ k = .pinExcl) →
      Frame U ⟨w.log [.dtor id L], .code [(L, k)] :: .fields L :: rest⟩ := by
    intro k hk
    refine ⟨⟨.inr ⟨L, k, [], rest, rfl, rfl, by simp [Clear], hk⟩, hbase.shaped⟩, ⟨?_, hbase.nested⟩, ⟨fun r h => (by cases h), hbase.freeOk⟩,
      ?_, ?_, hbase.typed, ?_⟩
    · intro M hM gs hgs
      simp only [Instr.locs, List.map_cons, List.map_nil, List.mem_singleton] at hM
      subst hM
      have hgs : .code gs ∈ rest := by simpa using hgs
      exact hf.nested.1 M (by simp [Instr.locs]) gs hgs
    · intro gs hgs G hG id' ty' hr
      rcases List.mem_cons.1 hgs with he | hgs
      · obtain rfl := Instr.code.inj he
        rw [List.mem_singleton] at hG
        cases hG
        obtain ⟨va', fs', hr⟩ := hr
        rw [World.log_at, hat] at hr
        simp only [Option.some.injEq, V.node.injEq] at hr
        obtain ⟨rfl, -⟩ := hr
        exact .inl (by simp)
      · exact hbase.mark gs hgs G hG id' ty' hr
    · intro r hr
      apply hbase.busy
      rw [mem_busyRoots] at hr ⊢
      obtain ⟨i, hi, N, hN, rfl⟩ := hr
      rcases List.mem_cons.1 hi with rfl | hi
      · simp only [Instr.locs, List.map_cons, List.map_nil, List.mem_singleton] at hN
        subst hN
        exact ⟨.fields N, by simp, N, by simp [Instr.locs], rfl⟩
      · exact ⟨i, hi, N, hN, rfl⟩
    · intro i hi
      rcases List.mem_cons.1 hi with rfl | hi
      · simp [Instr.vals]
      · exact hbase.vals i hi
  rcases his with rfl | rfl | rfl
  · exact hbase
  · exact hcode _ (.inl rfl)
  · exact hcode _ (.inr rfl)

/-- The destructor of the value at `L` starts. -/
theorem destroy_ok {U : Universe} {w : World} {L : GLoc} {rest : List Instr} {id : Id} {ty : Ty}
    {va : Option String} {fs : List (String × V)} (hi : Inv U ⟨w, .destroy L :: rest⟩)
    (hat : w.at L = some (.node id ty va fs)) {is : List Instr}
    (his : is = [] ∨ (is = [.code [(L, .excl)]] ∧ ∀ f, ¬ PinStep U ty va f) ∨ is = [.code [(L, .pinExcl)]]) :
    StepOk U ⟨w, .destroy L :: rest⟩ ⟨w.log [.dtor id L], is ++ .fields L :: rest⟩ := by
  refine ⟨⟨destroy_frame hi.frame hat (his.imp _root_.id (Or.imp And.left _root_.id)), ?_⟩, ?_⟩
  · intro id₀ ty₀ L₀ hl
    have hl' : Alive U w id₀ ty₀ L₀ := hl.of_log (es := [.dtor id L]) (by simp) (by simp)
    have hlo := hi.live _ _ _ hl'
    have hne : L₀ ≠ L := by
      rintro rfl
      apply hl.notEnded
      obtain ⟨va₀, fs₀, h⟩ := hlo.resides
      simp only at h
      rw [hat] at h
      simp only [Option.some.injEq, V.node.injEq] at h
      obtain ⟨rfl, -⟩ := h
      exact .inl (by simp)
    suffices LiveOk U ⟨w, is ++ .fields L :: rest⟩ id₀ ty₀ L₀ from this.agree rfl
    by_cases hc : L.Contains L₀
    · have hab : L.Above L₀ := hc.eq_or_above.resolve_left hne
      have hall : ∀ q, L₀ = L.sub q → w.PinPath U L q := hlo.first
      have hcov : (Instr.fields L).Covers L₀ := hab
      refine ⟨hlo.resides, .inl (covered_append.2 (.inr ⟨.fields L, by simp, hcov⟩)), pathOk_append.2 ⟨?_, .inr hall, pathOk_covered (.inr hcov) _⟩⟩
      rcases his with rfl | ⟨rfl, hn⟩ | rfl
      · trivial
      · obtain ⟨f, q, he⟩ := hab
        obtain ⟨v, hv, hp⟩ := hall _ he
        obtain rfl := Option.some.inj (hat.symm.trans hv)
        exact (hn f hp.1).elim
      · refine ⟨.inr ?_, trivial⟩
        intro g hg q hq
        rw [List.mem_singleton] at hg
        subst hg
        exact ⟨rfl, hall q hq⟩
    · have hpop : LiveOk U ⟨w, rest⟩ id₀ ty₀ L₀ := hlo.pop hc
      have hno : ∀ q, L₀ ≠ L.sub q := fun q hq => hc ⟨q, hq⟩
      have h1 : LiveOk U ⟨w, [.fields L] ++ rest⟩ id₀ ty₀ L₀ :=
        hpop.push ⟨.inr (fun q hq => (hno q hq).elim), trivial⟩
      refine LiveOk.push (todo := .fields L :: rest) h1 ?_
      rcases his with rfl | ⟨rfl, -⟩ | rfl
      · trivial
      · refine ⟨.inr ?_, trivial⟩
        intro g hg q hq
        rw [List.mem_singleton] at hg
        subst hg
        exact (hno q hq).elim
      · refine ⟨.inr ?_, trivial⟩
        intro g hg q hq
        rw [List.mem_singleton] at hg
        subst hg
        exact (hno q hq).elim
  · intro id₀ ty₀ L₀ hl
    exact (hi.live _ _ _ hl).resides

/-- Nothing is alive inside a value that was moved out. -/
theorem hole_dead {w : World} {L L₀ : GLoc} {id : Id} {ty ty' : Ty} (hr : Resides w id ty L₀)
    (hat : w.at L = some (.hole ty')) : ¬ L.Contains L₀ := by
  rintro ⟨q, rfl⟩
  obtain ⟨va, fs, h⟩ := hr
  rw [World.at_sub, hat] at h
  cases q <;> simp [V.get] at h

theorem fields_ok {U : Universe} {w : World} {L : GLoc} {rest : List Instr} {id : Id} {ty : Ty}
    {va : Option String} {fs : List (String × V)} (hi : Inv U ⟨w, .fields L :: rest⟩)
    (hat : w.at L = some (.node id ty va fs)) :
    StepOk U ⟨w, .fields L :: rest⟩ ⟨w, fs.map (fun f => .destroy (L.sub [f.1])) ++ rest⟩ := by
  refine ⟨⟨hi.frame.pop.push ?_ ?_ ?_ ?_, ?_⟩, fun _ _ _ hl => (hi.live _ _ _ hl).resides⟩
  · intro i him; obtain ⟨x, -, rfl⟩ := List.mem_map.1 him; simp
  · intro i him; obtain ⟨x, -, rfl⟩ := List.mem_map.1 him; simp
  · intro i him M hM
    obtain ⟨x, -, rfl⟩ := List.mem_map.1 him
    simp only [Instr.locs, List.mem_singleton] at hM
    subst hM
    refine ⟨hi.frame.busy _ (mem_busyRoots.2 ⟨.fields L, by simp, L, by simp [Instr.locs], rfl⟩), ?_⟩
    intro gs hgs g hg ha
    exact hi.frame.nested.1 L (by simp [Instr.locs]) gs hgs g hg ((GLoc.Contains.sub _ _).trans_above ha)
  · intro i him; obtain ⟨x, -, rfl⟩ := List.mem_map.1 him; simp [Instr.vals]
  · intro id₀ ty₀ L₀ hl
    have hlo := hi.live _ _ _ hl
    have hall : ∀ q, L₀ = L.sub q → w.PinPath U L q := hlo.first
    have hfs : PathOk U w L₀ False (fs.map (fun f => Instr.destroy (L.sub [f.1]))) := by
      apply pathOk_all
      intro i him
      obtain ⟨x, -, rfl⟩ := List.mem_map.1 him
      intro q hq
      rw [GLoc.sub_sub] at hq
      exact ((World.pinPath_append (p := [x.1]) (q := q)).1 (hall _ hq)).2
    by_cases hc : L.Above L₀
    · obtain ⟨f, q, rfl⟩ := hc
      have hcov : Covered (fs.map (fun f => Instr.destroy (L.sub [f.1]))) (L.sub (f :: q)) := by
        obtain ⟨v, hv, hp⟩ := hall _ rfl
        obtain rfl := Option.some.inj (hat.symm.trans hv)
        obtain ⟨-, c, hc, -⟩ := hp
        refine ⟨.destroy (L.sub [f]), List.mem_map.2 ⟨(f, c), lookup_mem hc, rfl⟩, q, ?_⟩
        rw [GLoc.sub_sub]
        rfl
      exact ⟨hlo.resides, .inl (covered_append.2 (.inl hcov)), pathOk_append.2 ⟨hfs, pathOk_covered (.inr hcov) _⟩⟩
    · exact (hlo.pop hc).push hfs

/-- An accepted item has no `repr(packed)`. -/
theorem not_packed (d : Def) : ¬ AsksForPacked (itemAttrs d.item) :=
  fun h => C08_packed_rejected d.item h d.E d.ok

/-! ## Other threads -/

theorem Covered.not_mine {U : Universe} {w : World} {pre : List Instr} {i : Instr} {L : GLoc} (hc : Covered pre L)
    (hi : ∀ M ∈ i.locs, Clear pre M) : i.Allows U w L := by
  have : Clear [i] L := by
    intro j hj M hM
    rw [List.mem_singleton] at hj
    subst hj
    refine ⟨fun h => (hi M hM).not_covered h hc, fun h => ?_⟩
    obtain ⟨j, hj, N, hN, hNL⟩ : ∃ j ∈ pre, ∃ N ∈ j.locs, N.Contains L := by
      obtain ⟨j, hj, hc⟩ := hc
      obtain ⟨N, hN, h⟩ := hc.loc
      exact ⟨j, hj, N, hN, h⟩
    exact (hi M hM j hj N hN).1 (hNL.trans h)
  exact this.allows List.mem_cons_self

theorem sched_pathOk {U : Universe} {w : World} {pre post : List Instr} {i : Instr} {L : GLoc}
    (hi : ∀ M ∈ i.locs, Clear pre M) (h : PathOk U w L False (pre ++ i :: post)) :
    PathOk U w L False (i :: (pre ++ post)) := by
  have hall : i.Allows U w L := (pathOk_split h).elim (fun hc => hc.not_mine hi) _root_.id
  obtain ⟨h1, -, h2⟩ := pathOk_append.1 h
  refine ⟨.inr hall, pathOk_append.2 ⟨pathOk_mono (fun hf => hf.elim) h1, pathOk_mono ?_ h2⟩⟩
  rintro ((h | h) | h)
  · exact h.elim
  · exact .inr h
  · exact .inl (.inr h)

theorem sched_codeOk {gs : List (GLoc × Mode)} {pre post : List Instr} {i : Instr}
    (hi : ∀ M ∈ i.locs, ∀ g ∈ gs, g.1.Disjoint M) (h : CodeOk gs (pre ++ i :: post)) : CodeOk gs (pre ++ post) := by
  rcases h with rfl | ⟨G, k, mid, rest, rfl, he, hm, hk⟩
  · exact .inl rfl
  refine .inr ⟨G, k, ?_⟩
  have hne : i ≠ .fields G := by
    rintro rfl
    exact (hi G (by simp [Instr.locs]) (G, k) (by simp)).1 (.refl _)
  rcases List.append_eq_append_iff.1 he with ⟨as, rfl, he'⟩ | ⟨bs, rfl, he'⟩
  · cases as with
    | nil =>
      simp only [List.nil_append, List.cons.injEq] at he'
      exact (hne he'.1).elim
    | cons j as =>
      simp only [List.cons_append, List.cons.injEq] at he'
      obtain ⟨rfl, rfl⟩ := he'
      refine ⟨pre ++ as, rest, rfl, by simp, ?_, hk⟩
      intro j hj
      apply hm
      rcases List.mem_append.1 hj with h | h
      · exact List.mem_append_left _ h
      · exact List.mem_append_right _ (List.mem_cons_of_mem _ h)
  · cases bs with
    | nil =>
      simp only [List.nil_append, List.cons.injEq] at he'
      exact (hne he'.1.symm).elim
    | cons j bs =>
      simp only [List.cons_append, List.cons.injEq] at he'
      obtain ⟨rfl, rfl⟩ := he'
      exact ⟨mid, bs ++ post, rfl, by simp, hm, hk⟩

theorem sched_shaped {pre post : List Instr} {i : Instr} (hi : ∀ M ∈ i.locs, Clear pre M)
    (h : Shaped (pre ++ i :: post)) : Shaped (i :: (pre ++ post)) := by
  have htail : ∀ pre, (∀ M ∈ i.locs, Clear pre M) → Shaped (pre ++ i :: post) → Shaped (pre ++ post) := by
    intro pre hi h
    induction pre with
    | nil => exact shaped_tail h
    | cons j pre ih =>
      have hi' : ∀ M ∈ i.locs, Clear pre M := fun M hM j hj => hi M hM j (List.mem_cons_of_mem _ hj)
      have := ih hi' (shaped_tail h)
      cases j with
      | code gs =>
        refine ⟨sched_codeOk ?_ h.1, this⟩
        intro M hM g hg
        exact hi M hM (.code gs) List.mem_cons_self g.1 (by simp only [Instr.locs, List.mem_map]; exact ⟨g, hg, rfl⟩)
      | _ => exact this
  have ht := htail pre hi h
  cases i with
  | code gs =>
    refine ⟨?_, ht⟩
    rcases shaped_split h with rfl | ⟨G, k, mid, rest, rfl, rfl, hm, hk⟩
    · exact .inl rfl
    refine .inr ⟨G, k, pre ++ mid, rest, rfl, by simp, ?_, hk⟩
    intro j hj
    rcases List.mem_append.1 hj with h | h
    · exact hi G (by simp [Instr.locs]) j h
    · exact hm j h
  | _ => exact ht

theorem mem_sched {pre post : List Instr} {i j : Instr} : j ∈ i :: (pre ++ post) ↔ j ∈ pre ++ i :: post := by
  simp only [List.mem_cons, List.mem_append]
  grind

theorem sched_nested {pre post : List Instr} {i : Instr} (hi : ∀ M ∈ i.locs, Clear pre M)
    (h : Nested (pre ++ i :: post)) : Nested (i :: (pre ++ post)) := by
  refine ⟨?_, ?_⟩
  · intro M hM gs hgs g hg ha
    rcases List.mem_append.1 hgs with hgs | hgs
    · exact (hi M hM _ hgs g.1 (by simp only [Instr.locs, List.mem_map]; exact ⟨g, hg, rfl⟩)).2 ha.contains
    · exact nested_split h M hM gs hgs g hg ha
  · clear hi
    induction pre with
    | nil => exact h.2
    | cons j pre ih =>
      refine ⟨fun M hM gs hgs => h.1 M hM gs ?_, ih h.2⟩
      exact mem_sched.1 (List.mem_cons_of_mem _ hgs)

theorem sched_freeOk {pre post : List Instr} {i : Instr} (hi : ∀ M ∈ i.locs, Clear pre M)
    (h : FreeOk (pre ++ i :: post)) : FreeOk (i :: (pre ++ post)) := by
  have hsplit : ∀ pre, FreeOk (pre ++ i :: post) → FreeOk (i :: post) ∧ FreeOk (pre ++ post) := by
    intro pre h
    induction pre with
    | nil => exact ⟨h, h.2⟩
    | cons j pre ih =>
      refine ⟨(ih h.2).1, ?_, (ih h.2).2⟩
      rintro r rfl hb
      apply h.1 r rfl
      rw [mem_busyRoots] at *
      obtain ⟨j, hj, h⟩ := hb
      exact ⟨j, mem_sched.1 (List.mem_cons_of_mem _ hj), h⟩
  refine ⟨?_, (hsplit pre h).2⟩
  rintro r rfl hb
  rw [busyRoots_append, List.mem_append] at hb
  rcases hb with hb | hb
  · obtain ⟨j, hj, N, hN, rfl⟩ := mem_busyRoots.1 hb
    exact (hi ⟨N.root, []⟩ (by simp [Instr.locs]) j hj N hN).2 ⟨N.path, GLoc.root_sub N⟩
  · exact (hsplit pre h).1.1 r rfl hb

/-- The turn of another thread. -/
theorem sched_ok {U : Universe} {w : World} {pre post : List Instr} {i : Instr} (hi : ∀ M ∈ i.locs, Clear pre M)
    (h : Inv U ⟨w, pre ++ i :: post⟩) : Inv U ⟨w, i :: (pre ++ post)⟩ where
  frame := {
    shaped := sched_shaped hi h.frame.shaped
    nested := sched_nested hi h.frame.nested
    freeOk := sched_freeOk hi h.frame.freeOk
    mark := fun gs hgs => h.frame.mark gs (mem_sched.1 hgs)
    busy := by
      intro r hr
      apply h.frame.busy
      rw [mem_busyRoots] at *
      obtain ⟨j, hj, h⟩ := hr
      exact ⟨j, mem_sched.1 hj, h⟩
    typed := h.frame.typed
    vals := fun j hj => h.frame.vals j (mem_sched.1 hj) }
  live id ty L hl := by
    have hlo := h.live _ _ _ hl
    refine ⟨hlo.resides, hlo.anchored.imp ?_ _root_.id, sched_pathOk hi hlo.path⟩
    rintro ⟨j, hj, hc⟩
    exact ⟨j, mem_sched.2 hj, hc⟩

/-- Every step preserves the invariant. -/
theorem step_ok {U : Universe} {c c' : Config} (hi : Inv U c) (h : CStep U c c') : StepOk U c c' := by
  cases h with
  | op _ h => exact op_ok hi h
  | sched hc => exact ⟨sched_ok hc hi, fun _ _ _ hl => (hi.live _ _ _ hl).resides⟩
  | ret => exact ⟨⟨hi.frame.pop, fun _ _ _ hl => (hi.live _ _ _ hl).pop (fun h => h)⟩, fun _ _ _ hl => (hi.live _ _ _ hl).resides⟩
  | @destroyPlain w L id ty va fs rest hat hp hs =>
    refine destroy_ok hi hat (is := [.code [(L, .excl)]]) (.inr (.inl ⟨rfl, ?_⟩))
    intro f
    rcases hp with hp | hp
    · exact pinStep_plain hp
    · rintro (⟨d, args, Fs, i, fld, hdef, h⟩ | h)
      · exact no_user_drop U hdef ((hi.frame.typed.at hat).nodeOk.1 d args hdef).1 hp
      · exact hs h
  | @destroyAnnotated w L id ty va fs d args orc tl rest hat hdef =>
    rw [dropInstrs_eq]
    refine destroy_ok hi hat ?_
    split
    · exact .inr (.inr rfl)
    · exact .inl rfl
  | @destroyStructural w L id ty va fs rest hat hs =>
    exact destroy_ok hi hat (is := [.code [(L, .pinExcl)]]) (.inr (.inr rfl))
  | @fieldsPacked w L id ty va fs d args rest hat hdef hp => exact (not_packed d hp).elim
  | fields hat => exact fields_ok hi hat
  | destroyHole hat =>
    refine ⟨⟨hi.frame.pop, fun _ _ _ hl => (hi.live _ _ _ hl).pop ?_⟩, fun _ _ _ hl => (hi.live _ _ _ hl).resides⟩
    exact hole_dead (hi.live _ _ _ hl).resides hat
  | fieldsHole hat =>
    refine ⟨⟨hi.frame.pop, fun _ _ _ hl => (hi.live _ _ _ hl).pop ?_⟩, fun _ _ _ hl => (hi.live _ _ _ hl).resides⟩
    exact fun h => hole_dead (hi.live _ _ _ hl).resides hat (GLoc.Above.contains h)
  | @store w L u v rest hat ht =>
    have hlive : ∀ id ty L₀, Alive U w id ty L₀ → LiveOk U ⟨(w.put L v).log (lateEvents L v rest), rest⟩ id ty L₀ := by
      intro id ty L₀ hl
      have hlo := hi.live _ _ _ hl
      exact ((hlo.pop (fun h => h)).put hlo.first v).agree rfl
    refine ⟨⟨?_, ?_⟩, fun _ _ _ hl => (hlive _ _ _ hl).resides⟩
    · refine frame_put hi.frame.pop hat (hi.frame.vals (.store L v) (by simp) v (by simp [Instr.vals])) ht
        (hi.frame.nested.1 L (by simp [Instr.locs])) rfl (fun e he => by simp [he]) ?_
      intro hd id hid
      exact .inr (.inr (by simp [late_mem hd hid]))
    · intro id ty L₀ hl
      exact hlive _ _ _ (hl.of_log (es := lateEvents L v rest) (by simp) (late_noexpose L v rest))
  | @free w r rest =>
    have hpop : Inv U ⟨w, rest⟩ := ⟨hi.frame.pop, fun _ _ _ hl => (hi.live _ _ _ hl).pop (fun h => h)⟩
    have := op_setRoot hpop (x := none) (hi.frame.freeOk.1 r rfl) (by simp) (fun _ _ _ hl => (hi.live _ _ _ hl).first)
    exact ⟨this.inv, this.stays⟩
  | @place w v r rest hr =>
    have hpop : Inv U ⟨w, rest⟩ := ⟨hi.frame.pop, fun _ _ _ hl => (hi.live _ _ _ hl).pop (fun h => h)⟩
    have := op_setRoot hpop (x := some ⟨false, v⟩) (hpop.notBusy hr)
      (fun y hy => by
        obtain rfl := Option.some.inj hy
        exact hi.frame.vals (.place v) (by simp) v (by simp [Instr.vals])) (fun _ _ _ hl => hpop.unused hr hl)
    exact ⟨this.inv, this.stays⟩
  | @discard w v r rest hr =>
    have hpop : Inv U ⟨w, rest⟩ := ⟨hi.frame.pop, fun _ _ _ hl => (hi.live _ _ _ hl).pop (fun h => h)⟩
    have h1 := op_setRoot hpop (x := some ⟨false, v⟩) (hpop.notBusy hr)
      (fun y hy => by
        obtain rfl := Option.some.inj hy
        exact hi.frame.vals (.discard v) (by simp) v (by simp [Instr.vals])) (fun _ _ _ hl => hpop.unused hr hl)
    have h2 := op_drop h1.inv r ⟨false, v⟩ (World.setRoot_self _ _ _) (hpop.notBusy hr)
    exact ⟨h2.inv, fun _ _ _ hl => h1.stays _ _ _ hl⟩

theorem inv_init (U : Universe) : Inv U .init where
  frame := {
    shaped := ⟨.inl rfl, trivial⟩
    nested := ⟨by simp [Instr.locs], trivial⟩
    freeOk := ⟨by simp, trivial⟩
    mark := by
      intro gs hgs G hG
      simp only [Config.init, List.mem_singleton, Instr.code.injEq] at hgs
      subst hgs
      cases hG
    busy := by simp [Config.init, busyRoots, Instr.locs]
    typed := by
      intro r x hx
      cases hx
    vals := by simp [Config.init, Instr.vals] }
  live := by
    intro id ty L hl
    have := hl.exposed
    simp [Exposed, Config.init] at this

theorem reachable_inv {U : Universe} {c : Config} (h : Reachable U c) : Inv U c := by
  induction h with
  | init => exact inv_init U
  | step _ hs ih => exact (step_ok ih hs).inv

end PinProject

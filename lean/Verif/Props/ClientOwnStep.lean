import Verif.Props.ClientOwn
/-!
# Every step preserves what is known about values that are dead and values that are alive
-/
namespace PinProject
open Spec

/-! ## The trace -/

theorem spent_congr {w w' : World} (h : w'.trace = w.trace) (id : Id) : Spent w' id ↔ Spent w id := by
  unfold Spent
  rw [h]

theorem spent_one (w : World) (e : PEvent) (id : Id) :
    Spent (w.log [e]) id ↔ Ends id e ∨ (¬ Revives id e ∧ Spent w id) := by
  constructor
  · rintro ⟨pre, e', post, ht, he, hr⟩
    rw [World.log_trace] at ht
    rcases List.eq_nil_or_concat post with rfl | ⟨post, e'', rfl⟩
    · have := List.append_inj' ht rfl
      simp only [List.cons.injEq, and_true] at this
      exact .inl (this.2 ▸ he)
    · have h2 : w.trace ++ [e] = (pre ++ e' :: post) ++ [e''] := by rw [ht]; simp
      have := List.append_inj' h2 rfl
      simp only [List.cons.injEq, and_true] at this
      obtain ⟨h3, rfl⟩ := this
      exact .inr ⟨hr e (by simp), pre, e', post, h3, he, fun x hx => hr x (by simp [hx])⟩
  · rintro (h | ⟨h, pre, e', post, ht, he, hr⟩)
    · exact ⟨w.trace, e, [], rfl, h, by simp⟩
    · refine ⟨pre, e', post ++ [e], by rw [World.log_trace, ht]; simp, he, ?_⟩
      intro x hx
      rcases List.mem_append.1 hx with hx | hx
      · exact hr x hx
      · rw [List.mem_singleton] at hx; subst hx; exact h

theorem log_cons (w : World) (e : PEvent) (es : List PEvent) : w.log (e :: es) = (w.log [e]).log es := by
  rw [log_log]; rfl

theorem log_nil (w : World) : w.log [] = w := by simp [World.log]

theorem spent_revive {w : World} {es : List PEvent} {id : Id} (h : ∀ e ∈ es, ¬ Ends id e) :
    Spent (w.log es) id ↔ (∀ e ∈ es, ¬ Revives id e) ∧ Spent w id := by
  induction es generalizing w with
  | nil => simp [log_nil]
  | cons e es ih =>
    rw [log_cons, ih (fun x hx => h x (List.mem_cons_of_mem _ hx)), spent_one]
    have := h e List.mem_cons_self
    simp only [List.mem_cons, forall_eq_or_imp]
    constructor
    · rintro ⟨h1, h2 | h2⟩
      · exact (this h2).elim
      · exact ⟨⟨h2.1, h1⟩, h2.2⟩
    · rintro ⟨⟨h1, h2⟩, h3⟩
      exact ⟨h2, .inr ⟨h1, h3⟩⟩

theorem spent_end {w : World} {es : List PEvent} {id : Id} (h : ∀ e ∈ es, ¬ Revives id e) :
    Spent (w.log es) id ↔ (∃ e ∈ es, Ends id e) ∨ Spent w id := by
  induction es generalizing w with
  | nil => simp [log_nil]
  | cons e es ih =>
    rw [log_cons, ih (fun x hx => h x (List.mem_cons_of_mem _ hx)), spent_one]
    have := h e List.mem_cons_self
    simp only [List.mem_cons, exists_eq_or_imp]
    constructor
    · rintro (h1 | h1 | h1)
      · exact .inl (.inr h1)
      · exact .inl (.inl h1)
      · exact .inr h1.2
    · rintro ((h1 | h1) | h1)
      · exact .inr (.inl h1)
      · exact .inl h1
      · exact .inr (.inr ⟨this, h1⟩)

theorem spent_same {w : World} {es : List PEvent} {id : Id} (h : ∀ e ∈ es, ¬ Ends id e ∧ ¬ Revives id e) :
    Spent (w.log es) id ↔ Spent w id := by
  rw [spent_end (fun e he => (h e he).2)]
  refine ⟨fun h1 => h1.elim (fun ⟨e, he, hx⟩ => ((h e he).1 hx).elim) _root_.id, .inr⟩

/-! ## One place -/

theorem mem_vals {todo : List Instr} {i : Instr} {v : V} (hi : i ∈ todo) (hv : v ∈ i.vals) :
    ∃ n : Nat, (todo.flatMap Instr.vals)[n]? = some v :=
  List.mem_iff_getElem?.1 (List.mem_flatMap.2 ⟨i, hi, hv⟩)

theorem uniq_mem {U : Universe} {c : Config} (h : Reachable U c) {id : Id} {ty ty' : Ty} {L M : GLoc}
    (h1 : Resides c.w id ty L) (h2 : Resides c.w id ty' M) : L = M := by
  obtain ⟨va, fs, h1⟩ := h1
  obtain ⟨va', fs', h2⟩ := h2
  exact Place.mem.inj (C54_one_place U c h id (.mem L) (.mem M) ⟨ty, va, fs, h1⟩ ⟨ty', va', fs', h2⟩)

theorem uniq_held {U : Universe} {c : Config} (h : Reachable U c) {id : Id} {ty : Ty} {L : GLoc}
    (h1 : Resides c.w id ty L) {i : Instr} (hi : i ∈ c.todo) {v : V} (hv : v ∈ i.vals) {p : List String}
    (h2 : v.Has p id) : False := by
  obtain ⟨va, fs, h1⟩ := h1
  obtain ⟨ty', va', fs', h2⟩ := h2
  obtain ⟨n, hn⟩ := mem_vals hi hv
  have := C54_one_place U c h id (.mem L) (.held n p) ⟨ty, va, fs, h1⟩ ⟨ty', va', fs', by simp [find, hn, h2]⟩
  cases this

/-- The first value held, and the others. -/
theorem uniq_first {U : Universe} {w : World} {L : GLoc} {v : V} {rest : List Instr}
    (h : Reachable U ⟨w, .store L v :: rest⟩) {id : Id} {p : List String} (h1 : v.Has p id) {i : Instr} (hi : i ∈ rest)
    {u : V} (hu : u ∈ i.vals) {q : List String} (h2 : u.Has q id) : False := by
  obtain ⟨ty, va, fs, h1⟩ := h1
  obtain ⟨ty', va', fs', h2⟩ := h2
  obtain ⟨n, hn⟩ := mem_vals hi hu
  have := C54_one_place U _ h id (.held 0 p) (.held (n + 1) q) ⟨ty, va, fs, by simp [find, Instr.vals, h1]⟩
    ⟨ty', va', fs', by simp [find, Instr.vals, hn, h2]⟩
  cases this

theorem uniq_self {U : Universe} {w : World} {L : GLoc} {v : V} {rest : List Instr}
    (h : Reachable U ⟨w, .store L v :: rest⟩) {id : Id} {p q : List String} (h1 : v.Has p id) (h2 : v.Has q id) : p = q := by
  obtain ⟨ty, va, fs, h1⟩ := h1
  obtain ⟨ty', va', fs', h2⟩ := h2
  have := C54_one_place U _ h id (.held 0 p) (.held 0 q) ⟨ty, va, fs, by simp [find, Instr.vals, h1]⟩
    ⟨ty', va', fs', by simp [find, Instr.vals, h2]⟩
  exact (Place.held.inj this).2

theorem has_mem {v : V} {p : List String} {id : Id} (h : v.Has p id) : 1 ≤ v.ids.count id := by
  obtain ⟨ty, va, fs, h⟩ := h
  have := get_count h id
  rw [node_count] at this
  omega

theorem used_mem {U : Universe} {c : Config} (h : Reachable U c) {id : Id} {ty : Ty} {L : GLoc}
    (h1 : Resides c.w id ty L) : id ∈ c.w.used := by
  obtain ⟨va, fs, h1⟩ := h1
  obtain ⟨x, hx, hg⟩ := at_some h1
  refine (reachable_lin h).used id (some L.root) ?_
  rw [cnt_some hx]
  exact has_mem ⟨ty, va, fs, hg⟩

theorem used_held {U : Universe} {c : Config} (h : Reachable U c) {id : Id} {i : Instr} (hi : i ∈ c.todo) {v : V}
    (hv : v ∈ i.vals) {p : List String} (h2 : v.Has p id) : id ∈ c.w.used := by
  refine (reachable_lin h).used id none ?_
  rw [cnt_held, heldCnt, List.count_pos_iff, List.mem_flatMap]
  exact ⟨v, List.mem_flatMap.2 ⟨i, hi, hv⟩, List.count_pos_iff.1 (has_mem h2)⟩

theorem resides_has {w : World} {L : GLoc} {v : V} (hv : w.at L = some v) {id : Id} {ty : Ty} {p : List String}
    (h : Resides w id ty (L.sub p)) : v.Has p id := by
  obtain ⟨va, fs, h⟩ := h
  rw [World.at_sub, hv] at h
  exact ⟨ty, va, fs, h⟩

theorem has_resides {w : World} {L : GLoc} {v : V} (hv : w.at L = some v) {id : Id} {p : List String}
    (h : v.Has p id) : ∃ ty, Resides w id ty (L.sub p) := by
  obtain ⟨ty, va, fs, h⟩ := h
  exact ⟨ty, va, fs, by rw [World.at_sub, hv]; exact h⟩

theorem root_at {w : World} {r : Nat} {x : Slot} (h : w.roots r = some x) : w.at ⟨r, []⟩ = some x.val := by
  unfold World.at
  simp [h]

theorem id_has {v : V} {id : Id} (h : v.id? = some id) : v.Has [] id := by
  cases v with
  | hole t => cases h
  | node i ty va fs =>
    simp only [V.id?, Option.some.injEq] at h
    subst h
    exact ⟨ty, va, fs, rfl⟩

theorem has_id {v : V} {id : Id} (h : v.Has [] id) : v.id? = some id := by
  obtain ⟨ty, va, fs, h⟩ := h
  rw [V.get_nil] at h
  obtain rfl := Option.some.inj h
  rfl

/-! ## Changing the memory or the pending operations -/

theorem Own.world {w w' : World} {todo : List Instr} (h : Own ⟨w, todo⟩) (hs : ∀ id, Spent w' id ↔ Spent w id)
    (hu : ∀ id ∈ w.used, id ∈ w'.used)
    (hr : ∀ id ty L, Resides w' id ty L → Resides w id ty L ∨ (¬ Spent w id ∧ UnspentOk L todo)) : Own ⟨w', todo⟩ where
  nest := h.nest
  sound := h.sound
  spent id ty L h1 h2 := by
    rcases hr id ty L h1 with h3 | ⟨h3, -⟩
    · exact h.spent id ty L h3 ((hs id).1 h2)
    · exact (h3 ((hs id).1 h2)).elim
  unspent id ty L h1 h2 := by
    rcases hr id ty L h1 with h3 | ⟨-, h3⟩
    · exact h.unspent id ty L h3 (fun h4 => h2 ((hs id).2 h4))
    · exact h3
  held i hi v hv p id hp h2 := h.held i hi v hv p id hp ((hs id).1 h2)
  used id h1 := hu id (h.used id ((hs id).1 h1))

/-- Nothing in a root that is not in use is dead. -/
theorem Own.free_root {w : World} {todo : List Instr} (h : Own ⟨w, todo⟩) {r : Nat} (hb : r ∉ busyRoots todo) {id : Id}
    {ty : Ty} {L : GLoc} (hr : Resides w id ty L) (hL : L.root = r) : ¬ Spent w id :=
  fun hs => not_spentOk (clear_of_not_busy (hL ▸ hb)) (h.spent id ty L hr hs)

theorem Own.free_value {w : World} {todo : List Instr} (h : Own ⟨w, todo⟩) {r : Nat} (hb : r ∉ busyRoots todo)
    {x : Slot} (hx : w.roots r = some x) {id : Id} {p : List String} (hp : x.val.Has p id) : ¬ Spent w id := by
  obtain ⟨ty, hr⟩ := has_resides (root_at hx) hp
  exact h.free_root hb hr rfl

/-- A value that is not dead is put into a root that is not in use. -/
theorem Own.setRoot {w : World} {todo : List Instr} (h : Own ⟨w, todo⟩) {r : Nat} {x : Option Slot}
    (hb : r ∉ busyRoots todo) (hx : ∀ y, x = some y → ∀ p id, y.val.Has p id → ¬ Spent w id) : Own ⟨w.setRoot r x, todo⟩ := by
  refine h.world (fun _ => Iff.rfl) (fun _ h => h) ?_
  intro id ty L hr
  by_cases he : L.root = r
  · right
    obtain ⟨va, fs, hr⟩ := hr
    obtain ⟨y, hy, hg⟩ := at_some hr
    rw [he, World.setRoot_self] at hy
    exact ⟨hx y hy L.path id ⟨ty, va, fs, hg⟩, unspentOk_all (clear_of_not_busy (he ▸ hb))⟩
  · left
    obtain ⟨va, fs, hr⟩ := hr
    exact ⟨va, fs, by rw [World.setRoot_at_ne w x he] at hr; exact hr⟩

theorem Own.log {w : World} {todo : List Instr} (h : Own ⟨w, todo⟩) {es : List PEvent}
    (he : ∀ id, ∀ e ∈ es, ¬ Ends id e ∧ ¬ Revives id e) : Own ⟨w.log es, todo⟩ :=
  h.world (fun id => spent_same (he id)) (fun _ h => h) (fun _ _ _ h => .inl h)

theorem Own.pop {w w' : World} {i : Instr} {rest : List Instr} (h : Own ⟨w, i :: rest⟩) (ht : w'.trace = w.trace)
    (hu : ∀ id ∈ w.used, id ∈ w'.used)
    (hr : ∀ id ty L, Resides w' id ty L → Resides w id ty L ∧ ¬ i.Dooms L ∧ ¬ i.Covers L) : Own ⟨w', rest⟩ where
  nest := h.nest.2
  sound := h.sound.2
  spent id ty L h1 h2 := by
    obtain ⟨h3, h4, h5⟩ := hr id ty L h1
    exact (h.spent id ty L h3 ((spent_congr ht id).1 h2)).first h4
  unspent id ty L h1 h2 := by
    obtain ⟨h3, h4, h5⟩ := hr id ty L h1
    exact (h.unspent id ty L h3 (fun h4 => h2 ((spent_congr ht id).2 h4))).first h5
  held j hj v hv p id hp h2 := h.held j (List.mem_cons_of_mem _ hj) v hv p id hp ((spent_congr ht id).1 h2)
  used id h1 := hu id (h.used id ((spent_congr ht id).1 h1))

theorem Own.push {w : World} {todo is : List Instr} (h : Own ⟨w, todo⟩) (hn : NestAll is)
    (hl : ∀ i ∈ is, ∀ M ∈ i.locs, ∀ j ∈ todo, ∀ N ∈ j.locs, ¬ M.Above N) (hs : Sound (is ++ todo))
    (h1 : ∀ id ty L, Resides w id ty L → Spent w id → SpentOk L todo → SpentOk L (is ++ todo))
    (h2 : ∀ id ty L, Resides w id ty L → ¬ Spent w id → UnspentOk L todo → UnspentOk L (is ++ todo))
    (h3 : ∀ i ∈ is, ∀ v ∈ i.vals, ∀ p id, v.Has p id → ¬ Spent w id) : Own ⟨w, is ++ todo⟩ where
  nest := nestAll_append hn hl h.nest
  sound := hs
  spent id ty L hr hsp := h1 id ty L hr hsp (h.spent id ty L hr hsp)
  unspent id ty L hr hsp := h2 id ty L hr hsp (h.unspent id ty L hr hsp)
  held i hi := (List.mem_append.1 hi).elim (h3 i) (h.held i)
  used := h.used

theorem Own.values {w : World} {todo is : List Instr} (h : Own ⟨w, todo⟩) (hi : ∀ i ∈ is, i.locs = [])
    (h3 : ∀ i ∈ is, ∀ v ∈ i.vals, ∀ p id, v.Has p id → ¬ Spent w id) : Own ⟨w, is ++ todo⟩ := by
  refine h.push (nestAll_values hi) ?_ (sound_values hi h.sound) ?_ ?_ h3
  · intro i hm M hM
    rw [hi i hm] at hM
    cases hM
  · exact fun _ _ L _ _ hs => (spentOk_clear (clear_values hi L)).2 hs
  · exact fun _ _ L _ _ hs => (unspentOk_clear (clear_values hi L)).2 hs

/-- A root that is not in use is dropped. -/
theorem Own.drop_root {w : World} {todo : List Instr} (h : Own ⟨w, todo⟩) {r : Nat} (hb : r ∉ busyRoots todo) :
    Own ⟨w, .destroy ⟨r, []⟩ :: .free r :: todo⟩ := by
  have hself : ¬ GLoc.Above ⟨r, []⟩ ⟨r, []⟩ := fun h => h.ne rfl
  have hno : ∀ {L : GLoc}, L.root ≠ r → ¬ GLoc.Contains ⟨r, []⟩ L := fun hL hc => hL hc.root
  refine h.push (is := [.destroy ⟨r, []⟩, .free r]) ?_ ?_ ?_ ?_ ?_ ?_
  · refine ⟨?_, by simp, trivial⟩
    intro M hM j hj N hN
    simp only [Instr.locs, List.mem_singleton] at hM hj
    subst hM hj
    simp only [Instr.locs, List.mem_singleton] at hN
    subst hN
    exact hself
  · intro i hi M hM j hj N hN ha
    apply hb
    rw [mem_busyRoots]
    refine ⟨j, hj, N, hN, ?_⟩
    simp only [List.mem_cons, List.not_mem_nil, or_false] at hi
    rcases hi with rfl | rfl
    · simp only [Instr.locs, List.mem_singleton] at hM; subst hM; exact ha.contains.root
    · simp only [Instr.locs, List.mem_singleton] at hM; subst hM; exact ha.contains.root
  · refine ⟨⟨?_, by simp⟩, ⟨by simp, by simp⟩, h.sound⟩
    rintro L (hL | hL)
    · obtain rfl := Instr.destroy.inj hL
      exact .inl rfl
    · cases hL
  · intro id ty L hr hs hok
    have hne : L.root ≠ r := fun he => h.free_root hb hr he hs
    refine .inr ⟨?_, ?_, .inr ⟨?_, by simp, hok⟩⟩
    · intro M hM ha
      simp only [Instr.locs, List.mem_singleton] at hM
      subst hM
      exact hno hne ha.contains
    · intro he
      obtain rfl := Instr.destroy.inj he
      exact (hne rfl).elim
    · intro M hM ha
      simp only [Instr.locs, List.mem_singleton] at hM
      subst hM
      exact hno hne ha.contains
  · intro id ty L hr hs hok
    by_cases he : L.root = r
    · subst he
      exact .inl ⟨L.path, GLoc.root_sub L⟩
    · exact .inr ⟨fun h => h, .inr ⟨he, hok⟩⟩
  · simp [Instr.vals]

/-! ## The steps of user code -/

theorem lookup_unique {fs : List (String × V)} (hn : (fs.map Prod.fst).Nodup) {f : String} {v : V} (h : (f, v) ∈ fs) :
    fs.lookup f = some v := by
  induction fs with
  | nil => cases h
  | cons x fs ih =>
    obtain ⟨g, u⟩ := x
    simp only [List.map_cons, List.nodup_cons] at hn
    rcases List.mem_cons.1 h with he | hm
    · cases he
      simp [List.lookup_cons]
    · have hne : f ≠ g := by
        rintro rfl
        exact hn.1 (List.mem_map.2 ⟨_, hm, rfl⟩)
      have hb : (f == g) = false := by simp [hne]
      rw [List.lookup_cons, hb]
      exact ih hn.2 hm

theorem punch_lookup {mv : List Id} {fs : List (String × V)} {f : String} {c : V} (h : (punch mv fs).lookup f = some c) :
    (∃ t, c = .hole t) ∨ (fs.lookup f = some c ∧ ∃ i : Nat, fs[i]? = some (f, c) ∧ i ∉ mv) := by
  have gen : ∀ (fs : List (String × V)) (k : Nat),
      (fs.mapIdx (fun i (g : String × V) => (g.1, if i + k ∈ mv then V.hole g.2.ty else g.2))).lookup f = some c →
      (∃ t, c = .hole t) ∨ (fs.lookup f = some c ∧ ∃ i : Nat, fs[i]? = some (f, c) ∧ i + k ∉ mv) := by
    intro fs
    induction fs with
    | nil => intro k h; simp at h
    | cons x fs ih =>
      intro k h
      obtain ⟨g, u⟩ := x
      rw [List.mapIdx_cons, List.lookup_cons] at h
      by_cases he : f = g
      · subst he
        simp only [beq_self_eq_true, Option.some.injEq, Nat.zero_add] at h
        by_cases hm : k ∈ mv
        · rw [if_pos hm] at h
          exact .inl ⟨_, h.symm⟩
        · rw [if_neg hm] at h
          subst h
          exact .inr ⟨by simp, 0, by simp, by simpa using hm⟩
      · have hb : (f == g) = false := by simp [he]
        simp only [hb] at h
        have h' : (fs.mapIdx (fun i (g : String × V) => (g.1, if i + (k + 1) ∈ mv then V.hole g.2.ty else g.2))).lookup f = some c := by
          rw [← h]
          congr
          funext i g
          rw [show i + (k + 1) = i + 1 + k by omega]
        rcases ih (k + 1) h' with h1 | ⟨h1, i, h2, h3⟩
        · exact .inl h1
        · refine .inr ⟨by rw [List.lookup_cons, hb]; exact h1, i + 1, by simpa using h2, ?_⟩
          rw [show i + 1 + k = i + (k + 1) by omega]
          exact h3
  exact gen fs 0 h

theorem own_build {U : Universe} {w : World} {todo : List Instr} (hi : Inv U ⟨w, todo⟩) (h : Own ⟨w, todo⟩) (r : Nat)
    (id : Id) (ty : Ty) (variant : Option String) (parts : List (String × Nat × V)) (hr : w.roots r = none)
    (hid : id ∉ w.used) (hp : ∀ x ∈ parts, w.roots x.2.1 = some ⟨false, x.2.2⟩ ∧ x.2.1 ∉ busyRoots todo) :
    Own ⟨{ (w.take (parts.map (·.2.1))).setRoot r
            (some ⟨false, .node id ty variant (parts.map (fun x => (x.1, x.2.2)))⟩) with used := id :: w.used }, todo⟩ := by
  have hrb := hi.notBusy hr
  refine h.world (fun _ => Iff.rfl) (fun _ h => List.mem_cons_of_mem _ h) ?_
  intro id₀ ty₀ L hres
  obtain ⟨va, fs, hres⟩ := hres
  obtain ⟨y, hy, hg⟩ := at_some hres
  by_cases he : L.root = r
  · right
    refine ⟨?_, unspentOk_all (clear_of_not_busy (he ▸ hrb))⟩
    change ((w.take _).setRoot r _).roots L.root = some y at hy
    rw [he, World.setRoot_self] at hy
    obtain rfl := Option.some.inj hy
    cases hpath : L.path with
    | nil =>
      rw [hpath, V.get_nil] at hg
      simp only [Option.some.injEq, V.node.injEq] at hg
      obtain ⟨rfl, -⟩ := hg
      exact fun hs => hid (h.used _ hs)
    | cons f p =>
      rw [hpath] at hg
      obtain ⟨c, hc, hg⟩ := Option.bind_eq_some_iff.1 hg
      obtain ⟨x, hx, hxe⟩ := List.mem_map.1 (lookup_mem hc)
      simp only [Prod.mk.injEq] at hxe
      obtain ⟨rfl, rfl⟩ := hxe
      exact h.free_value (hp x hx).2 (hp x hx).1 ⟨ty₀, va, fs, hg⟩
  · left
    change ((w.take _).setRoot r _).roots L.root = some y at hy
    rw [World.setRoot_ne _ _ he] at hy
    unfold World.take at hy
    simp only at hy
    split at hy
    · cases hy
    · exact ⟨va, fs, by unfold World.at; rw [hy]; exact hg⟩

/-- One side of a swap: what is at `X` afterwards. -/
theorem own_swap_side {U : Universe} {w : World} {todo : List Instr} (hreach : Reachable U ⟨w, todo⟩) (h : Own ⟨w, todo⟩)
    {X Y : GLoc} {u v : V} (hX : Where todo X) (hY : Where todo Y) (hd : X.Disjoint Y) (hu : w.at X = some u)
    (hv : w.at Y = some v) {es es' : List PEvent}
    (h1 : ∀ id, ∀ e ∈ es, ¬ Ends id e) (h2 : ∀ id, ∀ e ∈ es', ¬ Revives id e)
    (h3 : ∀ id, (∃ e ∈ es', Ends id e) ↔ (dropping X todo ∧ v.id? = some id) ∨ (dropping Y todo ∧ u.id? = some id))
    (h4 : ∀ id, (∃ e ∈ es, Revives id e) ↔ (dropping X todo ∧ u.id? = some id) ∨ (dropping Y todo ∧ v.id? = some id))
    {id : Id} {p : List String} (hp : v.Has p id) :
    (Spent (w.log (es ++ es')) id → SpentOk (X.sub p) todo) ∧ (¬ Spent (w.log (es ++ es')) id → UnspentOk (X.sub p) todo) := by
  obtain ⟨ty, hres⟩ := has_resides hv hp
  have hst : Spent (w.log (es ++ es')) id ↔
      (dropping X todo ∧ v.id? = some id ∨ dropping Y todo ∧ u.id? = some id) ∨
      ¬ (dropping X todo ∧ u.id? = some id ∨ dropping Y todo ∧ v.id? = some id) ∧ Spent w id := by
    rw [← log_log, spent_end (h2 id), spent_revive (h1 id), h3, ← h4]
    simp
  have hu' : u.id? ≠ some id := by
    intro he
    obtain ⟨ty', hr'⟩ := has_resides hu (id_has he)
    have := uniq_mem hreach hres hr'
    rw [GLoc.sub_nil] at this
    exact hd.2 ⟨p, this.symm⟩
  simp only [hu', and_false, or_false, false_or] at hst
  rw [hst]
  cases p with
  | nil =>
    have hid := has_id hp
    simp only [hid, and_true] at hst ⊢
    rw [GLoc.sub_nil]
    by_cases hdx : dropping X todo
    · exact ⟨fun _ => hX.dropping h.nest h.sound hdx, fun hn => (hn (.inl hdx)).elim⟩
    · have hun : UnspentOk X todo := hX.unspent (.refl _) (.inr hdx)
      refine ⟨?_, fun _ => hun⟩
      rintro (hc | ⟨hc1, hc2⟩)
      · exact (hdx hc).elim
      · have := hY.spent (.sub _ _) (h.spent id ty _ hres hc2)
        exact (hc1 this.2.2).elim
  | cons f p =>
    have hid : v.id? ≠ some id := by
      intro he
      obtain ⟨ty', hr'⟩ := has_resides hv (id_has he)
      have := uniq_mem hreach hres hr'
      rw [GLoc.sub_inj] at this
      cases this
    simp only [hid, and_false, false_or, not_false_eq_true, true_and] at hst ⊢
    have hab : ∀ Z : GLoc, Z.sub (f :: p) ≠ Z := fun Z he => (show Z.Above (Z.sub (f :: p)) from ⟨f, p, rfl⟩).ne he.symm
    refine ⟨fun hs => ?_, fun _ => hX.unspent (.sub _ _) (.inl (hab X))⟩
    exact (hab Y (hY.spent (.sub _ _) (h.spent id ty _ hres hs)).1).elim

theorem late_ends {X : GLoc} {v : V} {todo : List Instr} {id : Id} :
    (∃ e ∈ lateEvents X v todo, Ends id e) ↔ dropping X todo ∧ v.id? = some id := by
  unfold lateEvents
  split
  · rename_i h
    simp only [List.mem_map, Option.mem_toList, h, true_and]
    constructor
    · rintro ⟨e, ⟨i, hi, rfl⟩, he⟩
      obtain rfl : i = id := he
      exact hi
    · intro hi
      exact ⟨_, ⟨id, hi, rfl⟩, rfl⟩
  · rename_i h
    simp [h]

theorem escape_revives {X : GLoc} {v : V} {todo : List Instr} {id : Id} :
    (∃ e ∈ escapeEvents X v todo, Revives id e) ↔ dropping X todo ∧ v.id? = some id := by
  unfold escapeEvents
  split
  · rename_i h
    simp only [List.mem_map, Option.mem_toList, h, true_and]
    constructor
    · rintro ⟨e, ⟨i, hi, rfl⟩, he⟩
      obtain rfl : i = id := he
      exact hi
    · intro hi
      exact ⟨_, ⟨id, hi, rfl⟩, rfl⟩
  · rename_i h
    simp [h]

theorem late_not_revives {X : GLoc} {v : V} {todo : List Instr} {id : Id} : ∀ e ∈ lateEvents X v todo, ¬ Revives id e := by
  unfold lateEvents
  split
  · intro e he
    obtain ⟨i, -, rfl⟩ := List.mem_map.1 he
    exact fun h => h
  · simp

theorem escape_not_ends {X : GLoc} {v : V} {todo : List Instr} {id : Id} : ∀ e ∈ escapeEvents X v todo, ¬ Ends id e := by
  intro e he
  obtain ⟨i, rfl⟩ := escape_iff he
  exact fun h => h

theorem exists_mem_append {α : Type} {P : α → Prop} {a b : List α} : (∃ x ∈ a ++ b, P x) ↔ (∃ x ∈ a, P x) ∨ ∃ x ∈ b, P x := by
  simp only [List.mem_append]
  grind

theorem own_swap {U : Universe} {w : World} {todo : List Instr} (hreach : Reachable U ⟨w, todo⟩) (h : Own ⟨w, todo⟩)
    (X Y : GLoc) (u v : V) (hX : Usable U w todo X .excl) (hY : Usable U w todo Y .excl) (hd : X.Disjoint Y)
    (hu : w.at X = some u) (hv : w.at Y = some v) :
    Own ⟨((w.put X v).put Y u).log
      (escapeEvents X u todo ++ escapeEvents Y v todo ++ (lateEvents X v todo ++ lateEvents Y u todo)), todo⟩ := by
  have hsh := (reachable_inv hreach).frame.shaped
  have hXw := hX.where hsh
  have hYw := hY.where hsh
  generalize hes : escapeEvents X u todo ++ escapeEvents Y v todo = es
  generalize hes' : lateEvents X v todo ++ lateEvents Y u todo = es'
  have h1 : ∀ id, ∀ e ∈ es, ¬ Ends id e := by
    subst hes
    intro id e he
    rcases List.mem_append.1 he with he | he
    · exact escape_not_ends e he
    · exact escape_not_ends e he
  have h2 : ∀ id, ∀ e ∈ es', ¬ Revives id e := by
    subst hes'
    intro id e he
    rcases List.mem_append.1 he with he | he
    · exact late_not_revives e he
    · exact late_not_revives e he
  have h3 : ∀ id, (∃ e ∈ es', Ends id e) ↔ (dropping X todo ∧ v.id? = some id) ∨ (dropping Y todo ∧ u.id? = some id) := by
    subst hes'
    intro id
    rw [exists_mem_append, late_ends, late_ends]
  have h4 : ∀ id, (∃ e ∈ es, Revives id e) ↔ (dropping X todo ∧ u.id? = some id) ∨ (dropping Y todo ∧ v.id? = some id) := by
    subst hes
    intro id
    rw [exists_mem_append, escape_revives, escape_revives]
  have hst : ∀ id, Spent (((w.put X v).put Y u).log (es ++ es')) id ↔ Spent (w.log (es ++ es')) id :=
    fun id => spent_congr (by simp) id
  have hother : ∀ id, u.id? ≠ some id → v.id? ≠ some id → (Spent (w.log (es ++ es')) id ↔ Spent w id) := by
    intro id g1 g2
    refine spent_same ?_
    intro e he
    have g3 := h3 id
    have g4 := h4 id
    simp only [g1, g2, and_false, or_false, iff_false] at g3 g4
    rcases List.mem_append.1 he with he | he
    · exact ⟨h1 id e he, fun hr => g4 ⟨e, he, hr⟩⟩
    · exact ⟨fun hr => g3 ⟨e, he, hr⟩, h2 id e he⟩
  have hidX : ∀ id, u.id? = some id → ∃ ty, Resides w id ty X := by
    intro id he
    have := has_resides hu (id_has he)
    rwa [GLoc.sub_nil] at this
  have hidY : ∀ id, v.id? = some id → ∃ ty, Resides w id ty Y := by
    intro id he
    have := has_resides hv (id_has he)
    rwa [GLoc.sub_nil] at this
  have hY' : (w.put X v).at Y = some v := by rw [World.put_disjoint w hd]; exact hv
  have hcases : ∀ id ty L, Resides (((w.put X v).put Y u).log (es ++ es')) id ty L →
      (Spent (w.log (es ++ es')) id → SpentOk L todo) ∧ (¬ Spent (w.log (es ++ es')) id → UnspentOk L todo) := by
    intro id ty L hr
    by_cases hcY : Y.Contains L
    · obtain ⟨p, rfl⟩ := hcY
      have hp : u.Has p id := by
        obtain ⟨va, fs, hr⟩ := hr
        rw [World.log_at, World.put_at_sub _ hY'] at hr
        exact ⟨ty, va, fs, hr⟩
      refine own_swap_side hreach h hYw hXw ⟨hd.2, hd.1⟩ hv hu h1 h2 (fun id => ?_) (fun id => ?_) hp
      · rw [h3, or_comm]
      · rw [h4, or_comm]
    · have hr1 : Resides (w.put X v) id ty L := resides_put_rev (X := Y) (v := u) hr hcY
      by_cases hcX : X.Contains L
      · obtain ⟨p, rfl⟩ := hcX
        have hp : v.Has p id := by
          obtain ⟨va, fs, hr1⟩ := hr1
          rw [World.put_at_sub _ hu] at hr1
          exact ⟨ty, va, fs, hr1⟩
        exact own_swap_side hreach h hXw hYw hd hu hv h1 h2 h3 h4 hp
      · have hr0 : Resides w id ty L := resides_put_rev hr1 hcX
        rw [hother id ?_ ?_]
        · exact ⟨h.spent id ty L hr0, h.unspent id ty L hr0⟩
        · intro he
          obtain ⟨ty', hr'⟩ := hidX id he
          exact hcX (uniq_mem hreach hr' hr0 ▸ .refl _)
        · intro he
          obtain ⟨ty', hr'⟩ := hidY id he
          exact hcY (uniq_mem hreach hr' hr0 ▸ .refl _)
  refine ⟨h.nest, h.sound, ?_, ?_, ?_, ?_⟩
  · intro id ty L hr hs
    exact (hcases id ty L hr).1 ((hst id).1 hs)
  · intro id ty L hr hs
    exact (hcases id ty L hr).2 (fun h => hs ((hst id).2 h))
  · intro i hi x hx p id hp hs
    rw [hst, hother id ?_ ?_] at hs
    · exact h.held i hi x hx p id hp hs
    · intro he
      obtain ⟨ty', hr'⟩ := hidX id he
      exact uniq_held hreach hr' hi hx hp
    · intro he
      obtain ⟨ty', hr'⟩ := hidY id he
      exact uniq_held hreach hr' hi hx hp
  · intro id hs
    have hu0 : (((w.put X v).put Y u).log (es ++ es')).used = w.used := by
      change ((w.put X v).put Y u).used = w.used
      rw [put_used, put_used]
    rw [hu0]
    rw [hst] at hs
    by_cases g1 : u.id? = some id
    · obtain ⟨ty', hr'⟩ := hidX id g1
      exact used_mem hreach hr'
    · by_cases g2 : v.id? = some id
      · obtain ⟨ty', hr'⟩ := hidY id g2
        exact used_mem hreach hr'
      · exact h.used id ((hother id g1 g2).1 hs)

theorem own_set {w : World} {todo : List Instr} (h : Own ⟨w, todo⟩) (X : GLoc) (r : Nat) (new : V) (hX : Where todo X)
    (hr : w.roots r = some ⟨false, new⟩) (hb : r ∉ busyRoots todo) :
    Own ⟨w.setRoot r none, [.destroy X, .store X new] ++ todo⟩ := by
  have h0 : Own ⟨w.setRoot r none, todo⟩ := h.setRoot hb (by simp)
  have hself : ¬ X.Above X := fun h => h.ne rfl
  refine h0.push ?_ ?_ ?_ ?_ ?_ ?_
  · refine ⟨?_, by simp, trivial⟩
    intro M hM j hj N hN
    simp only [Instr.locs, List.mem_singleton] at hM hj
    subst hM hj
    simp only [Instr.locs, List.mem_singleton] at hN
    subst hN
    exact hself
  · intro i hi M hM
    have : M = X := by
      simp only [List.mem_cons, List.not_mem_nil, or_false] at hi
      rcases hi with rfl | rfl
      · simpa [Instr.locs] using hM
      · simpa [Instr.locs] using hM
    subst this
    exact hX.not_above h.nest
  · refine ⟨⟨?_, by simp⟩, ⟨by simp, ?_⟩, h.sound⟩
    · rintro L (hL | hL)
      · obtain rfl := Instr.destroy.inj hL
        exact .inl (.refl X)
      · cases hL
    · rintro L v hL
      obtain ⟨rfl, -⟩ := Instr.store.inj hL
      exact hX.storeOk h.nest h.sound
  · intro id ty L hres hs hok
    by_cases hc : X.Contains L
    · obtain ⟨rfl, ⟨k, hk⟩, hf⟩ := hX.spent hc hok
      refine .inr ⟨?_, fun _ => ⟨⟨k, List.mem_cons_of_mem _ hk⟩, List.mem_cons_of_mem _ hf⟩, .inl (.refl _)⟩
      intro M hM
      simp only [Instr.locs, List.mem_singleton] at hM
      subst hM
      exact hself
    · refine .inr ⟨?_, ?_, .inr ⟨?_, by simp, hok⟩⟩
      · intro M hM ha
        simp only [Instr.locs, List.mem_singleton] at hM
        subst hM
        exact hc ha.contains
      · intro he
        obtain rfl := Instr.destroy.inj he
        exact (hc (.refl _)).elim
      · intro M hM ha
        simp only [Instr.locs, List.mem_singleton] at hM
        subst hM
        exact hc ha.contains
  · intro id ty L hres hs hok
    by_cases hc : X.Contains L
    · exact .inl hc
    · exact .inr ⟨fun h => h, .inr ⟨hc, hok⟩⟩
  · intro i hi v hv p id hp
    simp only [List.mem_cons, List.not_mem_nil, or_false] at hi
    rcases hi with rfl | rfl
    · simp [Instr.vals] at hv
    · simp only [Instr.vals, List.mem_singleton] at hv
      subst hv
      exact h.free_value hb hr hp


theorem sub_cons_ne (Z : GLoc) (f : String) (p : List String) : Z.sub (f :: p) ≠ Z :=
  fun he => (show Z.Above (Z.sub (f :: p)) from ⟨f, p, rfl⟩).ne he.symm

theorem own_replace {U : Universe} {w : World} {todo : List Instr} (hreach : Reachable U ⟨w, todo⟩) (h : Own ⟨w, todo⟩)
    (L : GLoc) (id : Id) (ty : Ty)
    (va : Option String) (fs : List (String × V)) (d : Def) (args : List TArg) (fn : GFn) (r : Nat) (id' : Id)
    (va' : Option String) (fs' : List (String × V)) (orc : Oracle) (tl : Bool) (res : Option Val × M)
    (hL : Usable U w todo L .pinExcl) (hat : w.at L = some (.node id ty va fs)) (hdef : U.def? ty = some (d, args))
    (hfn : method d.E "project_replace" = some fn) (hr : w.roots r = some ⟨false, .node id' ty va' fs'⟩)
    (hb : r ∉ busyRoots todo) (hne : r ≠ L.root)
    (hcall : callFn orc tl fn (.fv (.pinRef true ⟨0, none⟩)) [.obj (flatObj fs.length va' fs')]
        (solo (flatObj 0 va fs)) = res) (hna : res.2.status ≠ .abort) :
    Own ⟨((w.setRoot r none).put L (.node id ty va (punch (movedOut res) fs))).log [.taken id L],
        (res.2.trace.flatMap (instrsOf L ((fs ++ fs').map Prod.snd) id' ty) ++
          (res.1.toList.flatMap Val.ids).map (fun i => .place (tableGet ((fs ++ fs').map Prod.snd) i))) ++ todo⟩ := by
  have hi := reachable_inv hreach
  have hLw := hL.where hi.frame.shaped
  have hok := hi.frame.typed.at hat
  obtain ⟨pins, outs, backs, heq, -, -, houts, hbacks, -, -, -, -, hnodup, hcompl⟩ :=
    replace_facts hok.nodeOk hdef hfn L id' va' fs' orc tl res hcall hna
  rw [heq]
  generalize hw2 : ((w.setRoot r none).put L (.node id ty va (punch (movedOut res) fs))).log [.taken id L] = w2
  have hat1 : (w.setRoot r none).at L = some (.node id ty va fs) := by
    rw [World.setRoot_at_ne _ _ hne.symm]; exact hat
  have hresL : Resides w id ty L := ⟨va, fs, hat⟩
  have hst : ∀ a, Spent w2 a ↔ a = id ∨ Spent w a := by
    intro a
    subst hw2
    rw [spent_one, spent_congr (w := w) (by simp [World.setRoot])]
    simp only [Ends, Revives, not_false_eq_true, true_and]
    rw [eq_comm]
  -- what is below `L` is not dead
  have hbelow : ∀ f q a t, Resides w a t (L.sub (f :: q)) → ¬ Spent w2 a := by
    intro f q a t hres hs
    rcases (hst a).1 hs with rfl | hs
    · exact sub_cons_ne L f q (uniq_mem hreach hres hresL)
    · exact sub_cons_ne L f q (hLw.spent (.sub _ _) (h.spent a t _ hres hs)).1
  have hpart : ∀ v ∈ fs.map Prod.snd, ∀ p a, v.Has p a → ¬ Spent w2 a := by
    intro v hv p a hp
    obtain ⟨⟨f, v⟩, hx, rfl⟩ := List.mem_map.1 hv
    obtain ⟨t, va₁, fs₁, hp⟩ := hp
    refine hbelow f p a t ⟨va₁, fs₁, ?_⟩
    rw [World.at_sub, hat]
    simp only [Option.bind_some, V.get]
    rw [lookup_unique hok.nodeOk.2.2 hx]
    exact hp
  have hcases : ∀ a t M, Resides w2 a t M →
      (M = L ∧ a = id) ∨ (∃ f q, M = L.sub (f :: q) ∧ f ∈ pins ∧ Resides w a t M) ∨ (¬ L.Contains M ∧ Resides w a t M) := by
    intro a t M hres
    subst hw2
    have hres : Resides ((w.setRoot r none).put L (.node id ty va (punch (movedOut res) fs))) a t M := hres
    by_cases hc : L.Contains M
    · obtain ⟨p, rfl⟩ := hc
      obtain ⟨va₁, fs₁, hp⟩ := hres
      rw [World.put_at_sub _ hat1] at hp
      cases p with
      | nil =>
        rw [V.get_nil] at hp
        simp only [Option.some.injEq, V.node.injEq] at hp
        exact .inl ⟨by simp, hp.1.symm⟩
      | cons f q =>
        right; left
        obtain ⟨c, hc, hp⟩ := Option.bind_eq_some_iff.1 hp
        rcases punch_lookup hc with ⟨t', rfl⟩ | ⟨hl, i, hi, hm⟩
        · cases q <;> simp [V.get] at hp
        · refine ⟨f, q, rfl, (hcompl i _ hi).resolve_left hm, va₁, fs₁, ?_⟩
          rw [World.at_sub, hat]
          simp only [Option.bind_some, V.get, hl]
          exact hp
    · right; right
      refine ⟨hc, ?_⟩
      obtain ⟨va₁, fs₁, hp⟩ := resides_put_rev hres hc
      have hroot : M.root ≠ r := by
        intro he
        obtain ⟨x, hx, -⟩ := at_some hp
        rw [he, World.setRoot_self] at hx
        cases hx
      rw [World.setRoot_at_ne _ _ hroot] at hp
      exact ⟨va₁, fs₁, hp⟩
  have hpins : ∀ i ∈ pins.map (fun f => Instr.destroy (L.sub [f])), ∃ f, i = .destroy (L.sub [f]) := by
    intro i hi
    obtain ⟨f, -, rfl⟩ := List.mem_map.1 hi
    exact ⟨f, rfl⟩
  have hvals : ∀ i ∈ outs.map Instr.discard, i.locs = [] := by
    intro i hi
    obtain ⟨v, -, rfl⟩ := List.mem_map.1 hi
    rfl
  have hplaces : ∀ i ∈ backs.map Instr.place, i.locs = [] := by
    intro i hi
    obtain ⟨v, -, rfl⟩ := List.mem_map.1 hi
    rfl
  have hassoc : ∀ (a b c e : List Instr) (i : Instr), a ++ (b ++ i :: c) ++ e = a ++ (b ++ i :: (c ++ e)) := by
    intros; simp
  rw [hassoc]
  have hab : ∀ f, ¬ (L.sub [f]).Above L := by
    intro f ha
    exact sub_cons_ne L f [] ((ha.contains).antisymm (.sub _ _))
  refine ⟨?_, ?_, ?_, ?_, ?_, ?_⟩
  · refine nestAll_append (nestAll_destroys L pins) ?_ (nestAll_append (nestAll_values hvals) ?_ ⟨?_, nestAll_append (nestAll_values hplaces) ?_ h.nest⟩)
    · intro i hi' M hM j hj N hN ha
      obtain ⟨f, rfl⟩ := hpins i hi'
      simp only [Instr.locs, List.mem_singleton] at hM
      subst hM
      rcases List.mem_append.1 hj with hj | hj
      · rw [hvals j hj] at hN; cases hN
      rcases List.mem_cons.1 hj with rfl | hj
      · simp only [Instr.locs, List.mem_singleton] at hN
        subst hN
        exact hab f ha
      rcases List.mem_append.1 hj with hj | hj
      · rw [hplaces j hj] at hN; cases hN
      · exact hLw.not_above h.nest j hj N hN ((GLoc.Contains.sub L [f]).trans_above ha)
    · intro i hi' M hM
      rw [hvals i hi'] at hM; cases hM
    · intro M hM j hj N hN
      simp only [Instr.locs, List.mem_singleton] at hM
      subst hM
      rcases List.mem_append.1 hj with hj | hj
      · rw [hplaces j hj] at hN; cases hN
      · exact hLw.not_above h.nest j hj N hN
    · intro i hi' M hM
      rw [hplaces i hi'] at hM; cases hM
  · have hstore : Sound (.store L (.node id' ty va' fs') :: (backs.map Instr.place ++ todo)) := by
      refine ⟨⟨by simp, ?_⟩, sound_values hplaces h.sound⟩
      intro M v hM
      obtain ⟨rfl, -⟩ := Instr.store.inj hM
      exact (storeOk_clear (clear_values hplaces _)).2 (hLw.storeOk h.nest h.sound)
    refine sound_destroys hnodup ?_ (sound_values hvals hstore)
    intro f _
    refine strong_skip ?_ (.inl (.sub _ _))
    intro i hi' M hM
    rw [hvals i hi'] at hM; cases hM
  · intro a t M hres hs
    rcases hcases a t M hres with ⟨rfl, rfl⟩ | ⟨f, q, rfl, -, hres'⟩ | ⟨hc, hres'⟩
    · refine spentOk_skip ?_ ?_ (spentOk_skip ?_ ?_ (.inl (.refl _)))
      · intro i hi' N hN
        obtain ⟨f, rfl⟩ := hpins i hi'
        simp only [Instr.locs, List.mem_singleton] at hN
        subst hN
        exact hab f
      · intro i hi' he
        obtain ⟨f, rfl⟩ := hpins i hi'
        exact sub_cons_ne M f [] (Instr.destroy.inj he)
      · intro i hi' N hN
        rw [hvals i hi'] at hN; cases hN
      · rintro i hi' rfl
        simpa [Instr.locs] using hvals _ hi'
    · exact (hbelow f q a t hres' hs).elim
    · have hne' : a ≠ id := by
        rintro rfl
        exact hc (uniq_mem hreach hresL hres' ▸ .refl _)
      have hsp := h.spent a t M hres' (((hst a).1 hs).resolve_left hne')
      refine spentOk_skip ?_ ?_ (spentOk_skip ?_ ?_ (.inr ⟨?_, by simp, (spentOk_clear (clear_values hplaces _)).2 hsp⟩))
      · intro i hi' N hN ha
        obtain ⟨f, rfl⟩ := hpins i hi'
        simp only [Instr.locs, List.mem_singleton] at hN
        subst hN
        exact hc ((GLoc.Contains.sub _ _).trans ha.contains)
      · intro i hi' he
        obtain ⟨f, rfl⟩ := hpins i hi'
        obtain rfl := Instr.destroy.inj he
        exact hc (.sub _ _)
      · intro i hi' N hN
        rw [hvals i hi'] at hN; cases hN
      · rintro i hi' rfl
        simpa [Instr.locs] using hvals _ hi'
      · intro N hN ha
        simp only [Instr.locs, List.mem_singleton] at hN
        subst hN
        exact hc ha.contains
  · intro a t M hres hs
    have hnd : ∀ i ∈ pins.map (fun f => Instr.destroy (L.sub [f])), ¬ i.Dooms M := by
      intro i hi' hd
      obtain ⟨f, rfl⟩ := hpins i hi'
      exact hd
    rcases hcases a t M hres with ⟨rfl, rfl⟩ | ⟨f, q, rfl, hf, hres'⟩ | ⟨hc, hres'⟩
    · exact (hs ((hst a).2 (.inl rfl))).elim
    · refine unspentOk_covered hnd ⟨_, List.mem_map.2 ⟨f, hf, rfl⟩, q, ?_⟩
      rw [GLoc.sub_sub]; rfl
    · have hsp := h.unspent a t M hres' (fun hc => hs ((hst a).2 (.inr hc)))
      refine unspentOk_skip hnd (unspentOk_skip ?_ (.inr ⟨hc, (unspentOk_clear (clear_values hplaces _)).2 hsp⟩))
      intro i hi' hd
      obtain ⟨v, -, rfl⟩ := List.mem_map.1 hi'
      exact hd
  · intro i hi' v hv p a hp
    rcases List.mem_append.1 hi' with hi' | hi'
    · obtain ⟨f, rfl⟩ := hpins i hi'
      simp [Instr.vals] at hv
    rcases List.mem_append.1 hi' with hi' | hi'
    · obtain ⟨u, hu, rfl⟩ := List.mem_map.1 hi'
      simp only [Instr.vals, List.mem_singleton] at hv
      subst hv
      exact hpart v (houts v hu) p a hp
    rcases List.mem_cons.1 hi' with rfl | hi'
    · simp only [Instr.vals, List.mem_singleton] at hv
      subst hv
      intro hs
      obtain ⟨t, hres⟩ := has_resides (root_at hr) hp
      rcases (hst a).1 hs with rfl | hs
      · exact hne (congrArg GLoc.root (uniq_mem hreach hres hresL))
      · exact h.free_root hb hres rfl hs
    rcases List.mem_append.1 hi' with hi' | hi'
    · obtain ⟨u, hu, rfl⟩ := List.mem_map.1 hi'
      simp only [Instr.vals, List.mem_singleton] at hv
      subst hv
      exact hpart v (hbacks v hu) p a hp
    · intro hs
      rcases (hst a).1 hs with rfl | hs
      · exact uniq_held hreach hresL hi' hv hp
      · exact h.held i hi' v hv p a hp hs
  · intro a hs
    have hu : w2.used = w.used := by
      subst hw2
      change ((w.setRoot r none).put L _).used = w.used
      rw [put_used]; rfl
    rw [hu]
    rcases (hst a).1 hs with rfl | hs
    · exact used_mem hreach hresL
    · exact h.used a hs

theorem own_op {U : Universe} {w w' : World} {todo is : List Instr} (hreach : Reachable U ⟨w, todo⟩) (h : Own ⟨w, todo⟩)
    (hop : Op U todo w w' is) : Own ⟨w', is ++ todo⟩ := by
  have hi := reachable_inv hreach
  cases hop with
  | build r id ty variant parts hr hid _ hp _ => exact own_build hi h r id ty variant parts hr hid hp
  | move r q v hr hb hq =>
    have h1 : Own ⟨w.setRoot r none, todo⟩ := h.setRoot hb (by simp)
    refine h1.setRoot (hi.notBusy hq) ?_
    intro y hy p id hp
    obtain rfl := Option.some.inj hy
    exact h.free_value hb hr hp
  | pin r v hr hb =>
    refine h.setRoot hb ?_
    intro y hy p id hp
    obtain rfl := Option.some.inj hy
    exact h.free_value hb hr hp
  | unpin r v hr hb _ =>
    refine h.setRoot hb ?_
    intro y hy p id hp
    obtain rfl := Option.some.inj hy
    exact h.free_value hb hr hp
  | expose L k id ty va fs _ _ _ =>
    refine h.log (es := [.expose id ty L]) ?_
    intro a e he
    rw [List.mem_singleton] at he
    subst he
    exact ⟨fun h => h, fun h => h⟩
  | swap X Y u v hX hY hd hu hv _ => exact own_swap hreach h X Y u v hX hY hd hu hv
  | set X k u r new hX _ hu hr hb hne ht => exact own_set h X r new (hX.where hi.frame.shaped) hr hb
  | replace L id ty va fs d args fn r id' va' fs' orc tl res hL hat hdef hfn hr hb hne hcall hna =>
    exact own_replace hreach h L id ty va fs d args fn r id' va' fs' orc tl res hL hat hdef hfn hr hb hne hcall hna
  | drop r x hx hb => exact h.drop_root hb
  | forget r v hr hb =>
    have h1 : Own ⟨w.setRoot r none, todo⟩ := h.setRoot hb (by simp)
    refine h1.log ?_
    intro a e he
    obtain ⟨i, -, rfl⟩ := List.mem_map.1 he
    exact ⟨fun h => h, fun h => h⟩
  | destructure r id ty va fs hr hb _ =>
    have h1 : Own ⟨w.setRoot r none, todo⟩ := h.setRoot hb (by simp)
    have h2 : Own ⟨(w.setRoot r none).log [.forgot id], todo⟩ := by
      refine h1.log ?_
      intro a e he
      rw [List.mem_singleton] at he
      subst he
      exact ⟨fun h => h, fun h => h⟩
    refine h2.values ?_ ?_
    · intro i him; obtain ⟨x, -, rfl⟩ := List.mem_map.1 him; rfl
    · intro i him v hv p a hp
      obtain ⟨⟨f, u⟩, hx, rfl⟩ := List.mem_map.1 him
      simp only [Instr.vals, List.mem_singleton] at hv
      subst hv
      have hk := (hi.frame.typed _ _ hr).nodeOk.2.2
      have hhas : V.Has (.node id ty va fs) (f :: p) a := by
        obtain ⟨t, va₁, fs₁, hp⟩ := hp
        refine ⟨t, va₁, fs₁, ?_⟩
        simp only [V.get, lookup_unique hk hx]
        exact hp
      have := h.free_value hb hr hhas
      rw [spent_same (w := w.setRoot r none)]
      · exact this
      · intro e he
        rw [List.mem_singleton] at he
        subst he
        exact ⟨fun h => h, fun h => h⟩

/-! ## The steps of destructors -/

theorem own_destroy {U : Universe} {w : World} {L : GLoc} {rest : List Instr} {id : Id} {ty : Ty}
    {va : Option String} {fs : List (String × V)} (hreach : Reachable U ⟨w, .destroy L :: rest⟩)
    (h : Own ⟨w, .destroy L :: rest⟩) (hat : w.at L = some (.node id ty va fs)) {is : List Instr}
    (his : is = [] ∨ ∃ k, is = [.code [(L, k)]]) : Own ⟨w.log [.dtor id L], is ++ .fields L :: rest⟩ := by
  have hresL : Resides w id ty L := ⟨va, fs, hat⟩
  have hst : ∀ a, Spent (w.log [.dtor id L]) a ↔ a = id ∨ Spent w a := by
    intro a
    rw [spent_one]
    simp only [Ends, Revives, not_false_eq_true, true_and]
    rw [eq_comm]
  have hself : ¬ L.Above L := fun h => h.ne rfl
  have hlocs : ∀ i ∈ is, ∀ M ∈ i.locs, M = L := by
    intro i hi M hM
    rcases his with rfl | ⟨k, rfl⟩
    · cases hi
    · rw [List.mem_singleton] at hi
      subst hi
      simpa [Instr.locs] using hM
  have hnd : ∀ i ∈ is, (∀ M, ¬ i.Dooms M) ∧ (∀ M, i ≠ .destroy M) ∧ i.vals = [] := by
    intro i hi
    rcases his with rfl | ⟨k, rfl⟩
    · cases hi
    · rw [List.mem_singleton] at hi
      subst hi
      exact ⟨fun M h => h, fun M h => (by cases h), rfl⟩
  have hstrong : Strong L rest := h.sound.1.1 L (.inl rfl)
  have hnest := h.nest.1 L (by simp [Instr.locs])
  refine ⟨nestAll_append ?_ ?_ ⟨?_, h.nest.2⟩, ?_, ?_, ?_, ?_, ?_⟩
  · rcases his with rfl | ⟨k, rfl⟩
    · trivial
    · exact ⟨by simp, trivial⟩
  · intro i hi M hM j hj N hN
    obtain rfl := hlocs i hi M hM
    rcases List.mem_cons.1 hj with rfl | hj
    · simp only [Instr.locs, List.mem_singleton] at hN; subst hN; exact hself
    · exact hnest j hj N hN
  · intro M hM
    simp only [Instr.locs, List.mem_singleton] at hM
    subst hM
    exact hnest
  · have hf : Sound (.fields L :: rest) := by
      refine ⟨⟨?_, by simp⟩, h.sound.2⟩
      rintro M (hM | hM)
      · cases hM
      · obtain rfl := Instr.fields.inj hM; exact hstrong
    rcases his with rfl | ⟨k, rfl⟩
    · exact hf
    · exact ⟨⟨by simp, by simp⟩, hf⟩
  · intro a t M hres hs
    by_cases ha : a = id
    · subst ha
      obtain rfl := uniq_mem hreach hres hresL
      refine spentOk_skip ?_ (fun i hi => (hnd i hi).2.1 _) (.inr ⟨?_, by simp, hstrong.spentOk⟩)
      · intro i hi N hN
        obtain rfl := hlocs i hi N hN
        exact hself
      · intro N hN
        simp only [Instr.locs, List.mem_singleton] at hN; subst hN; exact hself
    · have hsp := h.spent a t M hres (((hst a).1 hs).resolve_left ha)
      obtain ⟨h1, -, h3⟩ := hsp.resolve_left (fun h => h)
      have hna : ¬ L.Above M := h1 L (by simp [Instr.locs])
      refine spentOk_skip ?_ (fun i hi => (hnd i hi).2.1 _) (.inr ⟨?_, by simp, h3⟩)
      · intro i hi N hN
        obtain rfl := hlocs i hi N hN
        exact hna
      · intro N hN
        simp only [Instr.locs, List.mem_singleton] at hN; subst hN; exact hna
  · intro a t M hres hs
    have ha : a ≠ id := fun he => hs ((hst a).2 (.inl he))
    have hne : M ≠ L := by
      rintro rfl
      obtain ⟨va₁, fs₁, hres⟩ := hres
      rw [World.log_at, hat] at hres
      simp only [Option.some.injEq, V.node.injEq] at hres
      exact ha hres.1.symm
    refine unspentOk_skip (fun i hi => (hnd i hi).1 M) ?_
    rcases h.unspent a t M hres (fun hc => hs ((hst a).2 (.inr hc))) with hc | ⟨-, hu⟩
    · exact .inl (hc.eq_or_above.resolve_left hne)
    · exact .inr ⟨fun h => h, hu⟩
  · intro i hi v hv p a hp hs
    rcases List.mem_append.1 hi with hi | hi
    · rw [(hnd i hi).2.2] at hv; cases hv
    rcases List.mem_cons.1 hi with rfl | hi'
    · simp [Instr.vals] at hv
    · rcases (hst a).1 hs with rfl | hs
      · exact uniq_held hreach hresL (List.mem_cons_of_mem _ hi') hv hp
      · exact h.held i (List.mem_cons_of_mem _ hi') v hv p a hp hs
  · intro a hs
    rcases (hst a).1 hs with rfl | hs
    · exact used_mem hreach hresL
    · exact h.used a hs

theorem own_fields {U : Universe} {w : World} {L : GLoc} {rest : List Instr} {id : Id} {ty : Ty}
    {va : Option String} {fs : List (String × V)} (hi : Inv U ⟨w, .fields L :: rest⟩)
    (h : Own ⟨w, .fields L :: rest⟩) (hat : w.at L = some (.node id ty va fs)) :
    Own ⟨w, fs.map (fun f => .destroy (L.sub [f.1])) ++ rest⟩ := by
  have hstrong : Strong L rest := h.sound.1.1 L (.inr rfl)
  have hnest := h.nest.1 L (by simp [Instr.locs])
  have hmap : fs.map (fun f => Instr.destroy (L.sub [f.1])) = (fs.map Prod.fst).map (fun f => Instr.destroy (L.sub [f])) := by
    rw [List.map_map]; rfl
  have hmem : ∀ i ∈ (fs.map Prod.fst).map (fun f => Instr.destroy (L.sub [f])), ∃ f, i = .destroy (L.sub [f]) := by
    intro i hi
    obtain ⟨f, -, rfl⟩ := List.mem_map.1 hi
    exact ⟨f, rfl⟩
  rw [hmap]
  refine ⟨nestAll_append (nestAll_destroys _ _) ?_ h.nest.2, ?_, ?_, ?_, ?_, h.used⟩
  · intro i him M hM j hj N hN ha
    obtain ⟨f, rfl⟩ := hmem i him
    simp only [Instr.locs, List.mem_singleton] at hM
    subst hM
    exact hnest j hj N hN ((GLoc.Contains.sub _ _).trans_above ha)
  · exact sound_destroys (hi.frame.typed.at hat).nodeOk.2.2 (fun f _ => hstrong.below hnest) h.sound.2
  · intro a t M hres hs
    obtain ⟨h1, -, h3⟩ := (h.spent a t M hres hs).resolve_left (fun h => h)
    have hna : ¬ L.Above M := h1 L (by simp [Instr.locs])
    refine spentOk_skip ?_ ?_ h3
    · intro i him N hN ha
      obtain ⟨f, rfl⟩ := hmem i him
      simp only [Instr.locs, List.mem_singleton] at hN
      subst hN
      exact hna ((GLoc.Contains.sub _ _).trans_above ha)
    · intro i him he
      obtain ⟨f, rfl⟩ := hmem i him
      obtain rfl := Instr.destroy.inj he
      exact hna ⟨f, [], rfl⟩
  · intro a t M hres hs
    have hnd : ∀ i ∈ (fs.map Prod.fst).map (fun f => Instr.destroy (L.sub [f])), ¬ i.Dooms M := by
      intro i him hd
      obtain ⟨f, rfl⟩ := hmem i him
      exact hd
    rcases h.unspent a t M hres hs with hc | ⟨-, hu⟩
    · obtain ⟨f, q, rfl⟩ := (show L.Above M from hc)
      refine unspentOk_covered hnd ⟨.destroy (L.sub [f]), List.mem_map.2 ⟨f, ?_, rfl⟩, q, ?_⟩
      · obtain ⟨va₁, fs₁, hres⟩ := hres
        rw [World.at_sub, hat, Option.bind_some] at hres
        obtain ⟨c, hc, -⟩ := Option.bind_eq_some_iff.1 hres
        exact List.mem_map.2 ⟨_, lookup_mem hc, rfl⟩
      · rw [GLoc.sub_sub]; rfl
    · exact unspentOk_skip hnd hu
  · intro i him v hv
    rcases List.mem_append.1 him with him | him
    · obtain ⟨f, rfl⟩ := hmem i him
      simp [Instr.vals] at hv
    · exact h.held i (List.mem_cons_of_mem _ him) v hv

theorem own_store {U : Universe} {w : World} {L : GLoc} {u v : V} {rest : List Instr}
    (hreach : Reachable U ⟨w, .store L v :: rest⟩) (h : Own ⟨w, .store L v :: rest⟩) (hat : w.at L = some u) :
    Own ⟨(w.put L v).log (lateEvents L v rest), rest⟩ := by
  have hst : ∀ a, Spent ((w.put L v).log (lateEvents L v rest)) a ↔ (dropping L rest ∧ v.id? = some a) ∨ Spent w a := by
    intro a
    rw [spent_end late_not_revives, late_ends, spent_congr (w := w) (by simp)]
  have hstore := h.sound.1.2 L v rfl
  have hheld : ∀ p a, v.Has p a → ¬ Spent w a := h.held _ List.mem_cons_self v (by simp [Instr.vals])
  have hcases : ∀ a t M, Resides ((w.put L v).log (lateEvents L v rest)) a t M →
      (∃ p, M = L.sub p ∧ v.Has p a) ∨ (¬ L.Contains M ∧ Resides w a t M ∧ v.id? ≠ some a) := by
    intro a t M hres
    have hres : Resides (w.put L v) a t M := hres
    by_cases hc : L.Contains M
    · obtain ⟨p, rfl⟩ := hc
      obtain ⟨va, fs, hres⟩ := hres
      rw [World.put_at_sub _ hat] at hres
      exact .inl ⟨p, rfl, t, va, fs, hres⟩
    · have hr := resides_put_rev hres hc
      refine .inr ⟨hc, hr, fun he => ?_⟩
      exact uniq_held hreach hr List.mem_cons_self (v := v) (by simp [Instr.vals]) (id_has he)
  refine ⟨h.nest.2, h.sound.2, ?_, ?_, ?_, ?_⟩
  · intro a t M hres hs
    rcases hcases a t M hres with ⟨p, rfl, hp⟩ | ⟨hc, hr, hid⟩
    · rcases (hst a).1 hs with ⟨hd, hid⟩ | hs
      · obtain rfl := uniq_self hreach hp (id_has hid)
        rw [GLoc.sub_nil]
        exact hstore.2.1 hd
      · exact (hheld p a hp hs).elim
    · have hs := ((hst a).1 hs).resolve_left (fun h => hid h.2)
      exact (h.spent a t M hr hs).first hc
  · intro a t M hres hs
    rw [hst, not_or] at hs
    rcases hcases a t M hres with ⟨p, rfl, hp⟩ | ⟨hc, hr, hid⟩
    · cases p with
      | nil =>
        rw [GLoc.sub_nil]
        exact hstore.2.2 (fun hd => hs.1 ⟨hd, has_id hp⟩)
      | cons f p => exact hstore.1 f p
    · exact (h.unspent a t M hr hs.2).first (fun h => h)
  · intro i hi x hx p a hp hs
    rcases (hst a).1 hs with ⟨-, hid⟩ | hs
    · exact uniq_first hreach (id_has hid) hi hx hp
    · exact h.held i (List.mem_cons_of_mem _ hi) x hx p a hp hs
  · intro a hs
    have hu : ((w.put L v).log (lateEvents L v rest)).used = w.used := put_used w L v
    rw [hu]
    rcases (hst a).1 hs with ⟨-, hid⟩ | hs
    · exact used_held hreach List.mem_cons_self (v := v) (by simp [Instr.vals]) (id_has hid)
    · exact h.used a hs

theorem own_step {U : Universe} {c c' : Config} (hreach : Reachable U c) (h : Own c) (hs : CStep U c c') : Own c' := by
  have hi := reachable_inv hreach
  cases hs with
  | op _ hop => exact own_op hreach h hop
  | sched hc =>
    exact ⟨sched_nestAll hc h.nest, sched_sound hc h.sound, fun id ty L h1 h2 => sched_spentOk hc (h.spent id ty L h1 h2),
      fun id ty L h1 h2 => sched_unspentOk hc (h.unspent id ty L h1 h2), fun i hi => h.held i (mem_sched.1 hi), h.used⟩
  | ret => exact h.pop rfl (fun _ h => h) (fun _ _ _ hr => ⟨hr, fun h => h, fun h => h⟩)
  | @destroyPlain w L id ty va fs rest hat _ _ =>
    exact own_destroy hreach h hat (is := [.code [(L, .excl)]]) (.inr ⟨_, rfl⟩)
  | @destroyAnnotated w L id ty va fs d args orc tl rest hat hdef =>
    rw [dropInstrs_eq]
    refine own_destroy hreach h hat ?_
    split
    · exact .inr ⟨_, rfl⟩
    · exact .inl rfl
  | @destroyStructural w L id ty va fs rest hat _ =>
    exact own_destroy hreach h hat (is := [.code [(L, .pinExcl)]]) (.inr ⟨_, rfl⟩)
  | @fieldsPacked w L id ty va fs d args rest hat hdef hp => exact (not_packed d hp).elim
  | fields hat => exact own_fields hi h hat
  | destroyHole hat =>
    exact h.pop rfl (fun _ h => h) (fun _ _ _ hr => ⟨hr, fun h => h, hole_dead hr hat⟩)
  | fieldsHole hat =>
    exact h.pop rfl (fun _ h => h) (fun _ _ _ hr => ⟨hr, fun h => h, fun h => hole_dead hr hat (GLoc.Above.contains h)⟩)
  | store hat _ => exact own_store hreach h hat
  | @free w r rest =>
    refine h.pop (w' := w.setRoot r none) rfl (fun _ h => h) ?_
    rintro id ty L ⟨va, fs, hr⟩
    have hne : L.root ≠ r := by
      intro he
      obtain ⟨x, hx, -⟩ := at_some hr
      rw [he, World.setRoot_self] at hx
      cases hx
    rw [World.setRoot_at_ne _ _ hne] at hr
    exact ⟨⟨va, fs, hr⟩, hne, fun h => h⟩
  | @place w v r rest hr =>
    have h1 : Own ⟨w, rest⟩ := h.pop rfl (fun _ h => h) (fun _ _ _ hr => ⟨hr, fun h => h, fun h => h⟩)
    refine h1.setRoot (fun hb => hi.frame.busy r ?_ hr) ?_
    · rw [mem_busyRoots] at *
      obtain ⟨j, hj, hx⟩ := hb
      exact ⟨j, List.mem_cons_of_mem _ hj, hx⟩
    · intro y hy p id hp
      obtain rfl := Option.some.inj hy
      exact h.held _ List.mem_cons_self v (by simp [Instr.vals]) p id hp
  | @discard w v r rest hr =>
    have h1 : Own ⟨w, rest⟩ := h.pop rfl (fun _ h => h) (fun _ _ _ hr => ⟨hr, fun h => h, fun h => h⟩)
    have hb : r ∉ busyRoots rest := by
      intro hb
      refine hi.frame.busy r ?_ hr
      rw [mem_busyRoots] at *
      obtain ⟨j, hj, hx⟩ := hb
      exact ⟨j, List.mem_cons_of_mem _ hj, hx⟩
    refine (h1.setRoot hb ?_).drop_root hb
    intro y hy p id hp
    obtain rfl := Option.some.inj hy
    exact h.held _ List.mem_cons_self v (by simp [Instr.vals]) p id hp

theorem reachable_own {U : Universe} {c : Config} (h : Reachable U c) : Own c := by
  induction h with
  | init =>
    refine ⟨⟨by simp, trivial⟩, ⟨⟨by simp, by simp⟩, trivial⟩, ?_, ?_, ?_, ?_⟩
    · rintro id ty L ⟨va, fs, hr⟩
      simp [World.at, Config.init] at hr
    · rintro id ty L ⟨va, fs, hr⟩
      simp [World.at, Config.init] at hr
    · intro i hi v hv
      simp only [Config.init, List.mem_singleton] at hi
      subst hi
      simp [Instr.vals] at hv
    · rintro id ⟨pre, e, post, ht, -⟩
      simp [Config.init] at ht
  | step h hs ih => exact own_step h ih hs

end PinProject

import Verif.Sem.Client
import Verif.Props.Types
/-!
# Locations, values and memory of the client machine
-/
namespace PinProject
open Spec

/-! ## Locations -/

theorem GLoc.contains_iff {L M : GLoc} : L.Contains M ↔ L.root = M.root ∧ L.path <+: M.path := by
  constructor
  · rintro ⟨p, rfl⟩
    exact ⟨rfl, p, rfl⟩
  · rintro ⟨h1, p, hp⟩
    refine ⟨p, ?_⟩
    cases L; cases M
    simp_all [GLoc.sub]

@[simp] theorem GLoc.sub_nil (L : GLoc) : L.sub [] = L := by simp [GLoc.sub]

theorem GLoc.sub_sub (L : GLoc) (p q : List String) : (L.sub p).sub q = L.sub (p ++ q) := by
  simp [GLoc.sub]

@[simp] theorem GLoc.sub_root (L : GLoc) (p : List String) : (L.sub p).root = L.root := rfl

theorem GLoc.sub_inj {L : GLoc} {p q : List String} : L.sub p = L.sub q ↔ p = q := by
  simp [GLoc.sub]

theorem GLoc.Contains.refl (L : GLoc) : L.Contains L := ⟨[], by simp⟩

theorem GLoc.Contains.sub (L : GLoc) (p : List String) : L.Contains (L.sub p) := ⟨p, rfl⟩

theorem GLoc.Contains.trans {L M N : GLoc} (h1 : L.Contains M) (h2 : M.Contains N) : L.Contains N := by
  obtain ⟨p, rfl⟩ := h1
  obtain ⟨q, rfl⟩ := h2
  exact ⟨p ++ q, GLoc.sub_sub _ _ _⟩

theorem GLoc.Contains.root {L M : GLoc} (h : L.Contains M) : M.root = L.root := by
  obtain ⟨p, rfl⟩ := h; rfl

/-- Two locations that contain a third one overlap. -/
theorem GLoc.Contains.comparable {L M N : GLoc} (h1 : L.Contains N) (h2 : M.Contains N) :
    L.Contains M ∨ M.Contains L := by
  rw [GLoc.contains_iff] at h1 h2
  rcases List.prefix_or_prefix_of_prefix h1.2 h2.2 with h | h
  · exact .inl (GLoc.contains_iff.2 ⟨h1.1.trans h2.1.symm, h⟩)
  · exact .inr (GLoc.contains_iff.2 ⟨h2.1.trans h1.1.symm, h⟩)

theorem GLoc.Contains.antisymm {L M : GLoc} (h1 : L.Contains M) (h2 : M.Contains L) : L = M := by
  rw [GLoc.contains_iff] at *
  cases L; cases M
  simp only at *
  obtain ⟨rfl, hp⟩ := h1
  congr
  exact List.IsPrefix.eq_of_length hp (Nat.le_antisymm hp.length_le h2.2.length_le)

/-- A proper part. -/
def GLoc.Above (L M : GLoc) : Prop := ∃ f p, M = L.sub (f :: p)

theorem GLoc.Above.contains {L M : GLoc} (h : L.Above M) : L.Contains M := by
  obtain ⟨f, p, rfl⟩ := h; exact ⟨_, rfl⟩

theorem GLoc.Above.ne {L M : GLoc} (h : L.Above M) : L ≠ M := by
  obtain ⟨f, p, rfl⟩ := h
  intro he
  have : L.sub [] = L.sub (f :: p) := by rw [GLoc.sub_nil]; exact he
  rw [GLoc.sub_inj] at this
  cases this

theorem GLoc.Contains.eq_or_above {L M : GLoc} (h : L.Contains M) : M = L ∨ L.Above M := by
  obtain ⟨p, rfl⟩ := h
  cases p with
  | nil => exact .inl (by simp)
  | cons f p => exact .inr ⟨f, p, rfl⟩

theorem GLoc.Contains.trans_above {L M N : GLoc} (h1 : L.Contains M) (h2 : M.Above N) : L.Above N := by
  obtain ⟨p, rfl⟩ := h1
  obtain ⟨f, q, rfl⟩ := h2
  rw [GLoc.sub_sub]
  cases p with
  | nil => exact ⟨f, q, rfl⟩
  | cons g p => exact ⟨g, _, rfl⟩

theorem GLoc.Above.trans_contains {L M N : GLoc} (h1 : L.Above M) (h2 : M.Contains N) : L.Above N := by
  obtain ⟨q, rfl⟩ := h2
  obtain ⟨f, p, rfl⟩ := h1
  rw [GLoc.sub_sub]
  exact ⟨f, _, rfl⟩

/-! ## Values -/

theorem V.get_append (p q : List String) (v : V) : v.get (p ++ q) = (v.get p).bind (V.get q) := by
  induction p generalizing v with
  | nil => rfl
  | cons f p ih =>
    cases v with
    | hole t => rfl
    | node id ty va fs =>
      simp only [List.cons_append, V.get]
      cases fs.lookup f with
      | none => rfl
      | some c => exact ih c

@[simp] theorem V.get_nil (v : V) : v.get [] = some v := by cases v <;> rfl

theorem setField_names (f : String) (g : V → V) (fs : List (String × V)) :
    (setField f g fs).map Prod.fst = fs.map Prod.fst := by
  induction fs with
  | nil => rfl
  | cons x xs ih =>
    unfold setField
    split
    · simp
    · simp [ih]

theorem setField_lookup_self (f : String) (g : V → V) (fs : List (String × V)) :
    (setField f g fs).lookup f = (fs.lookup f).map g := by
  induction fs with
  | nil => rfl
  | cons x xs ih =>
    obtain ⟨a, c⟩ := x
    unfold setField
    by_cases h : f = a
    · subst h; simp
    · simp only [h, if_false, List.lookup_cons]
      have : (f == a) = false := by simpa using h
      simp [this, ih]

theorem setField_lookup_ne {f h : String} (hne : h ≠ f) (g : V → V) (fs : List (String × V)) :
    (setField f g fs).lookup h = fs.lookup h := by
  induction fs with
  | nil => rfl
  | cons x xs ih =>
    obtain ⟨a, c⟩ := x
    unfold setField
    by_cases h' : f = a
    · subst h'
      have : (h == f) = false := by simpa using hne
      simp [List.lookup_cons, this]
    · simp only [h', if_false, List.lookup_cons, ih]

theorem setField_types (f : String) (g : V → V) (fs : List (String × V))
    (h : ∀ c, fs.lookup f = some c → (g c).ty = c.ty) :
    (setField f g fs).map (fun x => x.2.ty) = fs.map (fun x => x.2.ty) := by
  induction fs with
  | nil => rfl
  | cons x xs ih =>
    obtain ⟨a, c⟩ := x
    unfold setField
    by_cases h' : f = a
    · subst h'
      simp [h c (by simp)]
    · have hb : (f == a) = false := by simpa using h'
      simp only [h', if_false, List.map_cons]
      rw [ih (fun c hc => h c (by simp [List.lookup_cons, hb, hc]))]

theorem setField_mem (f : String) (g : V → V) (fs : List (String × V)) (x : String × V)
    (hx : x ∈ setField f g fs) : x ∈ fs ∨ ∃ c, fs.lookup f = some c ∧ x = (f, g c) := by
  induction fs with
  | nil => simp [setField] at hx
  | cons y ys ih =>
    obtain ⟨a, c⟩ := y
    unfold setField at hx
    by_cases h' : f = a
    · subst h'
      simp only [if_true, List.mem_cons] at hx
      rcases hx with rfl | hx
      · exact .inr ⟨c, by simp, rfl⟩
      · exact .inl (List.mem_cons_of_mem _ hx)
    · have hb : (f == a) = false := by simpa using h'
      simp only [h', if_false, List.mem_cons] at hx
      rcases hx with rfl | hx
      · exact .inl List.mem_cons_self
      · rcases ih hx with h | ⟨c, hc, rfl⟩
        · exact .inl (List.mem_cons_of_mem _ h)
        · exact .inr ⟨c, by simp [List.lookup_cons, hb, hc], rfl⟩

theorem lookup_mem {f : String} {fs : List (String × V)} {c : V} (h : fs.lookup f = some c) : (f, c) ∈ fs := by
  induction fs with
  | nil => simp at h
  | cons y ys ih =>
    obtain ⟨a, d⟩ := y
    rw [List.lookup_cons] at h
    by_cases hb : (f == a) = true
    · simp only [hb, if_true] at h
      obtain rfl := Option.some.inj h
      have : f = a := by simpa using hb
      subst this
      exact List.mem_cons_self
    · simp only [Bool.not_eq_true] at hb
      simp only [hb] at h
      exact List.mem_cons_of_mem _ (ih h)

theorem lookup_isSome {f : String} {fs : List (String × V)} (h : f ∈ fs.map Prod.fst) :
    ∃ c, fs.lookup f = some c := by
  induction fs with
  | nil => simp at h
  | cons y ys ih =>
    obtain ⟨a, d⟩ := y
    rw [List.lookup_cons]
    by_cases hb : (f == a) = true
    · exact ⟨d, by simp [hb]⟩
    · simp only [Bool.not_eq_true] at hb
      simp only [hb]
      simp only [List.map_cons, List.mem_cons] at h
      rcases h with rfl | h
      · simp at hb
      · exact ih h

/-- Everything about a node but its parts. -/
def V.head : V → Option Id × Ty × Option String
  | .hole t => (none, t, none)
  | .node id t va _ => (some id, t, va)

theorem V.get_set_self (p : List String) (new v old : V) (h : v.get p = some old) :
    (v.set p new).get p = some new := by
  induction p generalizing v with
  | nil => simp [V.set]
  | cons f p ih =>
    cases v with
    | hole t => simp [V.get] at h
    | node id ty va fs =>
      simp only [V.get, V.set] at h ⊢
      rw [setField_lookup_self]
      cases hc : fs.lookup f with
      | none => simp [hc] at h
      | some c =>
        rw [hc] at h
        exact ih c h

/-- Below the point of change, the new value is seen. -/
theorem V.get_set_below (p q : List String) (new v old : V) (h : v.get p = some old) :
    (v.set p new).get (p ++ q) = new.get q := by
  rw [V.get_append, V.get_set_self p new v old h]; rfl

/-- Elsewhere nothing changes. -/
theorem V.head_set {p q : List String} (hpq : ¬ p <+: q) (new v : V) :
    ((v.set p new).get q).map V.head = (v.get q).map V.head := by
  induction p generalizing v q with
  | nil => simp at hpq
  | cons f p ih =>
    cases v with
    | hole t => rfl
    | node id ty va fs =>
      cases q with
      | nil => simp [V.set, V.head]
      | cons g q =>
        simp only [V.get, V.set]
        by_cases hg : g = f
        · subst hg
          rw [setField_lookup_self]
          have : ¬ p <+: q := fun h => hpq (by simpa using h)
          cases fs.lookup g with
          | none => rfl
          | some c => exact ih this c
        · rw [setField_lookup_ne hg]

/-- Apart from the point of change, nothing changes at all. -/
theorem V.get_set_disjoint {p q : List String} (hpq : ¬ p <+: q) (hqp : ¬ q <+: p) (new v : V) :
    (v.set p new).get q = v.get q := by
  induction p generalizing v q with
  | nil => simp at hpq
  | cons f p ih =>
    cases v with
    | hole t => rfl
    | node id ty va fs =>
      cases q with
      | nil => simp at hqp
      | cons g q =>
        simp only [V.get, V.set]
        by_cases hg : g = f
        · subst hg
          rw [setField_lookup_self]
          have h1 : ¬ p <+: q := fun h => hpq (by simpa using h)
          have h2 : ¬ q <+: p := fun h => hqp (by simpa using h)
          cases fs.lookup g with
          | none => rfl
          | some c => exact ih h1 h2 c
        · rw [setField_lookup_ne hg]

theorem V.set_ty {p : List String} {new v : V} (h : ∀ old, v.get p = some old → old.ty = new.ty) :
    (v.set p new).ty = v.ty := by
  cases p with
  | nil => simp only [V.set]; exact (h v (by simp)).symm
  | cons f p => cases v <;> rfl

/-! ## Typed values -/

/-- All nodes fit their types. -/
inductive V.Ok (U : Universe) : V → Prop
  | hole (t : Ty) : V.Ok U (.hole t)
  | node {id : Id} {ty : Ty} {va : Option String} {fs : List (String × V)} : NodeOk U (.node id ty va fs) →
      (∀ x ∈ fs, V.Ok U x.2) → V.Ok U (.node id ty va fs)

theorem V.Ok.nodeOk {U : Universe} {v : V} (h : v.Ok U) : NodeOk U v := by
  cases h with
  | hole t => trivial
  | node h _ => exact h

theorem V.Ok.get {U : Universe} {v : V} (h : v.Ok U) {p : List String} {u : V} (hu : v.get p = some u) : u.Ok U := by
  induction p generalizing v with
  | nil => simp at hu; subst hu; exact h
  | cons f p ih =>
    cases h with
    | hole t => simp [V.get] at hu
    | @node id ty va fs h1 h2 =>
      simp only [V.get] at hu
      cases hc : fs.lookup f with
      | none => simp [hc] at hu
      | some c =>
        rw [hc] at hu
        exact ih (h2 _ (lookup_mem hc)) hu

theorem flatObj_congr {b : Nat} {va : Option String} {fs gs : List (String × V)}
    (h : fs.map Prod.fst = gs.map Prod.fst) : flatObj b va fs = flatObj b va gs := by
  have : ∀ hs : List (String × V), hs.mapIdx (fun i f => (f.1, b + i)) =
      (hs.map Prod.fst).mapIdx (fun i f => (f, b + i)) := by
    intro hs
    rw [List.mapIdx_eq_zipIdx_map, List.mapIdx_eq_zipIdx_map, List.zipIdx_map, List.map_map]
    rfl
  unfold flatObj
  rw [this, this, h]

theorem flatObj_names (b : Nat) (va : Option String) (fs : List (String × V)) :
    (flatObj b va fs).fields.map Prod.fst = fs.map Prod.fst := by
  unfold flatObj
  simp only
  rw [List.mapIdx_eq_zipIdx_map, List.map_map]
  have := congrArg (List.map Prod.fst) (List.zipIdx_map_fst 0 fs)
  rw [List.map_map] at this
  exact this

/-- A node with other parts of the same names and types is as good. -/
theorem NodeOk.congr {U : Universe} {id id' : Id} {ty : Ty} {va : Option String} {fs gs : List (String × V)}
    (h : NodeOk U (.node id ty va fs)) (h1 : gs.map Prod.fst = fs.map Prod.fst)
    (h2 : gs.map (fun x => x.2.ty) = fs.map (fun x => x.2.ty)) : NodeOk U (.node id' ty va gs) := by
  refine ⟨?_, ?_, by rw [h1]; exact h.2.2⟩
  · intro d args hd
    obtain ⟨hi, Fs, hv, ht⟩ := h.1 d args hd
    exact ⟨hi, Fs, by rw [flatObj_congr h1]; exact hv, by rw [h2]; exact ht⟩
  · intro hs hu x hx
    have : x.2.ty ∈ gs.map (fun x => x.2.ty) := List.mem_map.2 ⟨x, hx, rfl⟩
    rw [h2] at this
    obtain ⟨y, hy, he⟩ := List.mem_map.1 this
    have := h.2.1 hs hu y hy
    rw [he] at this
    exact this

theorem V.Ok.set {U : Universe} {v new : V} (h : v.Ok U) (hn : new.Ok U) {p : List String}
    (ht : ∀ old, v.get p = some old → old.ty = new.ty) : (v.set p new).Ok U := by
  induction p generalizing v with
  | nil => simpa [V.set] using hn
  | cons f p ih =>
    cases h with
    | hole t => exact .hole t
    | @node id ty va fs h1 h2 =>
      have hc : ∀ c, fs.lookup f = some c → ∀ old, c.get p = some old → old.ty = new.ty := by
        intro c hc old ho
        exact ht old (by simp [V.get, hc, ho])
      refine .node (NodeOk.congr h1 (setField_names _ _ _) (setField_types _ _ _ ?_)) ?_
      · intro c h'
        exact V.set_ty (hc c h')
      · intro x hx
        rcases setField_mem _ _ _ _ hx with hx | ⟨c, h', rfl⟩
        · exact h2 x hx
        · exact ih (h2 _ (lookup_mem h')) (hc c h')

/-! ## Paths through pinned fields -/

/-- `f` is a part of a value of type `ty` that is pinned whenever the value is. -/
def PinStep (U : Universe) (ty : Ty) (va : Option String) (f : String) : Prop :=
  (∃ d args Fs i fld, U.def? ty = some (d, args) ∧ HasVariant d.item va Fs ∧
    Fs.list[i]? = some fld ∧ f = fieldLabel i fld ∧ Pinned fld = true) ∨ U.structural ty

def V.PinPath (U : Universe) : List String → V → Prop
  | [], _ => True
  | f :: p, .node _ ty va fs => PinStep U ty va f ∧ ∃ c, fs.lookup f = some c ∧ V.PinPath U p c
  | _ :: _, .hole _ => False

@[simp] theorem V.pinPath_nil (U : Universe) (v : V) : v.PinPath U [] := by cases v <;> trivial

theorem V.pinPath_append {U : Universe} {p q : List String} {v : V} :
    v.PinPath U (p ++ q) ↔ v.PinPath U p ∧ (∀ c, v.get p = some c → c.PinPath U q) := by
  induction p generalizing v with
  | nil => simp
  | cons f p ih =>
    cases v with
    | hole t => simp [V.PinPath]
    | node id ty va fs =>
      simp only [List.cons_append, V.PinPath, V.get]
      constructor
      · rintro ⟨h1, c, hc, h2⟩
        rw [ih] at h2
        refine ⟨⟨h1, c, hc, h2.1⟩, ?_⟩
        intro e he
        rw [hc] at he
        exact h2.2 e he
      · rintro ⟨⟨h1, c, hc, h2⟩, h3⟩
        refine ⟨h1, c, hc, ih.2 ⟨h2, ?_⟩⟩
        intro e he
        exact h3 e (by rw [hc]; exact he)

theorem V.PinPath.get {U : Universe} {p : List String} {v : V} (h : v.PinPath U p) : ∃ c, v.get p = some c := by
  induction p generalizing v with
  | nil => exact ⟨v, by simp⟩
  | cons f p ih =>
    cases v with
    | hole t => exact h.elim
    | node id ty va fs =>
      obtain ⟨-, c, hc, h2⟩ := h
      obtain ⟨e, he⟩ := ih h2
      exact ⟨e, by simp [V.get, hc, he]⟩

/-- A pinned path only depends on the nodes strictly above its end. -/
theorem V.PinPath.set {U : Universe} {p q : List String} {v : V} (h : v.PinPath U q)
    (hpq : ∀ f r, q ≠ p ++ f :: r) (new : V) : (v.set p new).PinPath U q := by
  induction p generalizing v q with
  | nil =>
    cases q with
    | nil => simp
    | cons f r => exact (hpq f r rfl).elim
  | cons f p ih =>
    cases q with
    | nil => simp
    | cons g q =>
      cases v with
      | hole t => exact h.elim
      | node id ty va fs =>
        obtain ⟨h1, c, hc, h2⟩ := h
        refine ⟨h1, ?_⟩
        by_cases hg : g = f
        · subst hg
          rw [setField_lookup_self, hc]
          exact ⟨_, rfl, ih h2 (fun f' r he => hpq f' r (by rw [he]; rfl))⟩
        · rw [setField_lookup_ne hg]
          exact ⟨c, hc, h2⟩

/-! ## Memory -/

theorem World.at_sub (w : World) (L : GLoc) (p : List String) : w.at (L.sub p) = (w.at L).bind (V.get p) := by
  unfold World.at
  simp only [GLoc.sub]
  cases w.roots L.root with
  | none => rfl
  | some x => simp [V.get_append]

@[simp] theorem World.log_at (w : World) (es : List PEvent) (L : GLoc) : (w.log es).at L = w.at L := rfl
@[simp] theorem World.log_roots (w : World) (es : List PEvent) : (w.log es).roots = w.roots := rfl
@[simp] theorem World.log_trace (w : World) (es : List PEvent) : (w.log es).trace = w.trace ++ es := rfl
@[simp] theorem World.setRoot_trace (w : World) (r : Nat) (x : Option Slot) : (w.setRoot r x).trace = w.trace := rfl

theorem World.setRoot_self (w : World) (r : Nat) (x : Option Slot) : (w.setRoot r x).roots r = x := by
  simp [World.setRoot]

theorem World.setRoot_ne (w : World) {r q : Nat} (x : Option Slot) (h : q ≠ r) :
    (w.setRoot r x).roots q = w.roots q := by
  simp [World.setRoot, h]

theorem World.setRoot_at_ne (w : World) {r : Nat} (x : Option Slot) {L : GLoc} (h : L.root ≠ r) :
    (w.setRoot r x).at L = w.at L := by
  simp [World.at, World.setRoot_ne w x h]

@[simp] theorem World.put_trace (w : World) (L : GLoc) (v : V) : (w.put L v).trace = w.trace := by
  unfold World.put; split <;> rfl

theorem World.put_roots (w : World) (X : GLoc) (v : V) (r : Nat) :
    (w.put X v).roots r =
      if r = X.root then (w.roots r).map (fun x => { x with val := x.val.set X.path v }) else w.roots r := by
  unfold World.put
  split
  · rename_i h
    split
    · rename_i he; subst he; simp [h]
    · rfl
  · rename_i x h
    split
    · rename_i he; subst he; simp [h, World.setRoot_self]
    · rename_i he; rw [World.setRoot_ne _ _ he]

/-- Writing does not move anything at locations that are not part of `X`. -/
theorem World.put_head (w : World) {X L : GLoc} (h : ¬ X.Contains L) (v : V) :
    ((w.put X v).at L).map V.head = (w.at L).map V.head := by
  unfold World.at
  rw [World.put_roots]
  split
  · rename_i he
    rw [GLoc.contains_iff] at h
    have hp : ¬ X.path <+: L.path := fun hp => h ⟨he.symm, hp⟩
    cases w.roots L.root with
    | none => rfl
    | some x => exact V.head_set hp v x.val
  · rfl

theorem World.put_disjoint (w : World) {X L : GLoc} (h : X.Disjoint L) (v : V) : (w.put X v).at L = w.at L := by
  unfold World.at
  rw [World.put_roots]
  split
  · rename_i he
    have h1 : ¬ X.path <+: L.path := fun hp => h.1 (GLoc.contains_iff.2 ⟨he.symm, hp⟩)
    have h2 : ¬ L.path <+: X.path := fun hp => h.2 (GLoc.contains_iff.2 ⟨he, hp⟩)
    cases w.roots L.root with
    | none => rfl
    | some x => exact V.get_set_disjoint h1 h2 v x.val
  · rfl

theorem World.put_at (w : World) {X : GLoc} {old : V} (h : w.at X = some old) (v : V) :
    (w.put X v).at X = some v := by
  unfold World.at at *
  rw [World.put_roots, if_pos rfl]
  cases hx : w.roots X.root with
  | none => simp [hx] at h
  | some x =>
    rw [hx] at h
    exact V.get_set_self _ _ _ _ h

theorem World.put_at_sub (w : World) {X : GLoc} {old : V} (h : w.at X = some old) (v : V) (q : List String) :
    (w.put X v).at (X.sub q) = v.get q := by
  rw [World.at_sub, World.put_at w h]; rfl

/-- From the value at `M`, following `q`, only pinned fields are passed. -/
def World.PinPath (U : Universe) (w : World) (M : GLoc) (q : List String) : Prop :=
  ∃ v, w.at M = some v ∧ v.PinPath U q

theorem World.pinPath_append {U : Universe} {w : World} {M : GLoc} {p q : List String} :
    w.PinPath U M (p ++ q) ↔ w.PinPath U M p ∧ w.PinPath U (M.sub p) q := by
  unfold World.PinPath
  constructor
  · rintro ⟨v, hv, h⟩
    rw [V.pinPath_append] at h
    obtain ⟨c, hc⟩ := h.1.get
    exact ⟨⟨v, hv, h.1⟩, c, by rw [World.at_sub, hv]; exact hc, h.2 c hc⟩
  · rintro ⟨⟨v, hv, h1⟩, c, hc, h2⟩
    rw [World.at_sub, hv] at hc
    refine ⟨v, hv, V.pinPath_append.2 ⟨h1, ?_⟩⟩
    intro e he
    obtain rfl := Option.some.inj (hc.symm.trans he)
    exact h2

theorem World.PinPath.put_above {U : Universe} {w : World} {M : GLoc} {q : List String} (h : w.PinPath U M q)
    {X : GLoc} (hX : ¬ X.Above (M.sub q)) (v : V) : (w.put X v).PinPath U M q := by
  obtain ⟨u, hu, h⟩ := h
  by_cases hc : X.Contains M
  · rcases (hc.trans (.sub M q)).eq_or_above with he | ha
    · obtain ⟨p, rfl⟩ := hc
      rw [GLoc.sub_sub] at he
      have : X.sub (p ++ q) = X.sub [] := by rw [he, GLoc.sub_nil]
      rw [GLoc.sub_inj, List.append_eq_nil_iff] at this
      obtain ⟨rfl, rfl⟩ := this
      rw [GLoc.sub_nil] at hu ⊢
      exact ⟨v, World.put_at w hu v, by simp⟩
    · exact (hX ha).elim
  unfold World.PinPath World.at
  unfold World.at at hu
  rw [World.put_roots]
  split
  · rename_i he
    cases hx : w.roots M.root with
    | none => simp [hx] at hu
    | some x =>
      rw [hx] at hu
      simp only [Option.map_some, Option.bind_some]
      have hu' : x.val.get M.path = some u := hu
      by_cases hp : X.path <+: M.path
      · exact (hc (GLoc.contains_iff.2 ⟨he.symm, hp⟩)).elim
      · by_cases hq : M.path <+: X.path
        · obtain ⟨p, hp'⟩ := hq
          have hset : ∀ (a : List String) (b : V), b.get a = some u → (b.set (a ++ p) v).get a = some (u.set p v) := by
            intro a
            induction a with
            | nil => intro b hb; simp at hb; subst hb; simp
            | cons f a ih =>
              intro b hb
              cases b with
              | hole t => simp [V.get] at hb
              | node id ty va fs =>
                simp only [List.cons_append, V.set, V.get] at hb ⊢
                rw [setField_lookup_self]
                cases hc : fs.lookup f with
                | none => simp [hc] at hb
                | some c => rw [hc] at hb; exact ih c hb
          refine ⟨u.set p v, by rw [← hp']; exact hset _ _ hu', h.set ?_ v⟩
          intro f r hq
          apply hX
          refine ⟨f, r, ?_⟩
          cases X
          simp only [GLoc.sub] at he hp' ⊢
          rw [← hp', hq, he]
          simp
        · rw [V.get_set_disjoint hp hq]
          exact ⟨u, hu', h⟩
  · exact ⟨u, hu, h⟩

theorem World.PinPath.put {U : Universe} {w : World} {M : GLoc} {q : List String} (h : w.PinPath U M q)
    {X : GLoc} (hX : ¬ X.Contains (M.sub q)) (v : V) : (w.put X v).PinPath U M q :=
  h.put_above (fun ha => hX ha.contains) v

theorem World.PinPath.setRoot {U : Universe} {w : World} {M : GLoc} {q : List String} (h : w.PinPath U M q)
    {r : Nat} (hr : M.root ≠ r) (x : Option Slot) : (w.setRoot r x).PinPath U M q := by
  obtain ⟨u, hu, h⟩ := h
  exact ⟨u, by rw [World.setRoot_at_ne w x hr]; exact hu, h⟩

end PinProject

import Verif.Props.BorrowStacked
import Verif.Sem.TreeBorrows
/-!
# Tree Borrows allows what the strictest rules allow
-/
namespace PinProject
open Spec

/-! ## Trees -/

theorem visit_map (f : TNode → Option TPerm) (s : TTree) (h : ∀ n ∈ s, (f n).isSome) :
    s.visit f = some (s.map (fun n => { n with perm := (f n).getD n.perm })) := by
  induction s with
  | nil => rfl
  | cons n s ih =>
    obtain ⟨p, hp⟩ := Option.isSome_iff_exists.1 (h n List.mem_cons_self)
    unfold TTree.visit
    rw [ih (fun m hm => h m (List.mem_cons_of_mem _ hm)), hp]
    simp [hp]

theorem visit_some {f : TNode → Option TPerm} {s s' : TTree} (h : s.visit f = some s') : ∀ n ∈ s, (f n).isSome := by
  induction s generalizing s' with
  | nil => intro n hn; cases hn
  | cons m s ih =>
    unfold TTree.visit at h
    split at h
    · rename_i p r h1 h2
      intro n hn
      rcases List.mem_cons.1 hn with rfl | hn
      · rw [h1]; rfl
      · exact ih h2 n hn
    · cases h

theorem node_some {s : TTree} {t : Nat} {a : TNode} (h : s.node t = some a) : a ∈ s ∧ t ∈ a.names := by
  unfold TTree.node at h
  exact ⟨List.mem_of_find?_eq_some h, by simpa using List.find?_some h⟩

theorem node_eq {n : Nat} {s : TTree} (hv : s.Valid n) {t : Nat} {a : TNode} (ha : a ∈ s) (ht : t ∈ a.names) :
    s.node t = some a := by
  cases h : s.node t with
  | none =>
    unfold TTree.node at h
    rw [List.find?_eq_none] at h
    exact absurd ht (by simpa using h a ha)
  | some b =>
    obtain ⟨hb, hb2⟩ := node_some h
    rw [hv.unique b hb a ha t hb2 ht]

/-- Nothing but permissions has changed. -/
structure SameNode (n n' : TNode) : Prop where
  id : n'.id = n.id
  names : n'.names = n.names
  above : n'.above = n.above

theorem valid_map {n : Nat} {s : TTree} (hv : s.Valid n) {u : TNode → TNode} (hu : ∀ m ∈ s, SameNode m (u m)) :
    TTree.Valid n (s.map u) := by
  refine ⟨?_, ?_, ?_, ?_⟩
  · intro m hm
    obtain ⟨m, h, rfl⟩ := List.mem_map.1 hm
    rw [(hu m h).id, (hu m h).names]
    exact hv.id m h
  · intro m hm
    obtain ⟨m, h, rfl⟩ := List.mem_map.1 hm
    rw [(hu m h).names]
    exact hv.names m h
  · intro m hm
    obtain ⟨m, h, rfl⟩ := List.mem_map.1 hm
    rw [(hu m h).above]
    exact hv.above m h
  · intro m hm m' hm' t h1 h2
    obtain ⟨m, h, rfl⟩ := List.mem_map.1 hm
    obtain ⟨m', h', rfl⟩ := List.mem_map.1 hm'
    rw [(hu m h).names] at h1
    rw [(hu m' h').names] at h2
    rw [hv.unique m h m' h' t h1 h2]

/-! ## Permissions along the chain -/

/-- A local write is allowed. -/
def CanWrite (prot : List Nat) (m : TNode) : Prop :=
  match m.perm with
  | .reserved _ c => c = true → m.id ∉ prot
  | .active => True
  | .cell => True
  | _ => False

theorem CanWrite.mono {prot prot' : List Nat} {m m' : TNode} (h : CanWrite prot m) (hp : m'.perm = m.perm)
    (hi : m'.id = m.id) (hs : m.id ∈ prot' → m.id ∈ prot) : CanWrite prot' m' := by
  unfold CanWrite at h ⊢
  rw [hp, hi]
  cases hq : m.perm with
  | reserved im c => rw [hq] at h; exact fun hc hm => h hc (hs hm)
  | active => trivial
  | cell => trivial
  | frozen => rw [hq] at h; exact h
  | disabled => rw [hq] at h; exact h

/-- The pointer `x`, of the node `a`, can be used. -/
structure CanUse (prot : List Nat) (s : TTree) (x : BItem) (a : TNode) : Prop where
  read : ∀ m ∈ s, m.id ∈ a.above → m.perm ≠ .disabled
  write : x.perm ≠ .shared → ∀ m ∈ s, m.id ∈ a.above → CanWrite prot m

/-- Every pointer of the chain was made from the one below it. `Line prot s c a`: the topmost has the node `a`. -/
inductive Line (prot : List Nat) (s : TTree) : BStack → TNode → Prop
  | base {x a} (ha : a ∈ s) (hx : x.tag ∈ a.names) (hu : CanUse prot s x a) : Line prot s [x] a
  | alias {x y c a} (h : Line prot s (y :: c) a) (ha : a ∈ s) (hx : x.tag ∈ a.names) (hid : a.id ≠ x.tag)
      (hp : x.perm ≠ .shared → y.perm ≠ .shared) (hu : CanUse prot s x a) : Line prot s (x :: y :: c) a
  | own {x y c a a'} (h : Line prot s (y :: c) a) (ha : a' ∈ s) (hid : a'.id = x.tag) (hab : a'.above = x.tag :: a.above)
      (hs : x.perm = .shared → a'.perm = .frozen ∨ a'.perm = .cell)
      (hp : x.perm ≠ .shared → y.perm ≠ .shared) (hu : CanUse prot s x a') : Line prot s (x :: y :: c) a'

/-- Protected nodes elsewhere do not mind the accesses that are possible with the chain. -/
def Harmless (prot : List Nat) (s : TTree) (c : BStack) (a : TNode) : Prop :=
  ∀ m ∈ s, m.id ∈ prot → m.id ∈ a.above ∨ m.perm = .disabled ∨ m.perm = .cell ∨
    ((∀ x ∈ c, x.perm = .shared) ∧ m.perm ≠ .active)

/-- The relation between the strict rules and Tree Borrows. -/
def TreeR (prot : List Nat) (n : Nat) (c : BStack) (s : TTree) : Prop :=
  s.Valid n ∧ ∃ a, Line prot s c a ∧ Harmless prot s c a

theorem Line.mem {prot : List Nat} {s : TTree} {c : BStack} {a : TNode} (h : Line prot s c a) : a ∈ s := by
  cases h <;> assumption

theorem Line.name {prot : List Nat} {n : Nat} {s : TTree} (hv : s.Valid n) {x : BItem} {c : BStack} {a : TNode}
    (h : Line prot s (x :: c) a) : x.tag ∈ a.names := by
  cases h with
  | base _ hx _ => exact hx
  | alias _ _ hx _ _ _ => exact hx
  | own _ ha hid _ _ _ _ => rw [← hid]; exact hv.id _ ha

theorem Line.usable {prot : List Nat} {s : TTree} {x : BItem} {c : BStack} {a : TNode}
    (h : Line prot s (x :: c) a) : CanUse prot s x a := by
  cases h <;> assumption

/-- Removing the topmost pointer. -/
theorem line_pop {prot : List Nat} {s : TTree} {x y : BItem} {c : BStack} {a : TNode} (h : Line prot s (x :: y :: c) a)
    (hh : Harmless prot s (x :: y :: c) a) (hx : x.tag ∉ prot) :
    ∃ a', Line prot s (y :: c) a' ∧ Harmless prot s (y :: c) a' := by
  cases h with
  | alias h ha hn hid hp hu =>
    refine ⟨a, h, ?_⟩
    intro m hm hmp
    rcases hh m hm hmp with h | h | h | ⟨h, h'⟩
    · exact .inl h
    · exact .inr (.inl h)
    · exact .inr (.inr (.inl h))
    · exact .inr (.inr (.inr ⟨fun z hz => h z (List.mem_cons_of_mem _ hz), h'⟩))
  | @own _ _ _ a0 _ h ha hid hab hs hp hu =>
    refine ⟨a0, h, ?_⟩
    intro m hm hmp
    rcases hh m hm hmp with h | h | h | ⟨h, h'⟩
    · rw [hab] at h
      rcases List.mem_cons.1 h with h | h
      · exact absurd (h ▸ hmp) hx
      · exact .inl h
    · exact .inr (.inl h)
    · exact .inr (.inr (.inl h))
    · exact .inr (.inr (.inr ⟨fun z hz => h z (List.mem_cons_of_mem _ hz), h'⟩))

theorem line_nonempty {prot : List Nat} {s : TTree} {c : BStack} {a : TNode} (h : Line prot s c a) : c ≠ [] := by
  cases h <;> simp

/-- Removing what is above a pointer. -/
theorem line_access {prot : List Nat} {s : TTree} {w : Bool} {t : Nat} {c r : BStack} {a : TNode} (h : Line prot s c a)
    (hh : Harmless prot s c a) (hc : chain.access prot w t c = some r) :
    ∃ a', Line prot s r a' ∧ Harmless prot s r a' := by
  induction c generalizing a with
  | nil => exact absurd rfl (line_nonempty h)
  | cons x c ih =>
    by_cases hx : x.tag = t
    · obtain ⟨rfl, -⟩ := chain_head hc hx
      exact ⟨a, h, hh⟩
    · obtain ⟨hp, hc⟩ := chain_cons hc hx
      cases c with
      | nil => exact absurd (chain_mem hc) (by simp)
      | cons y c =>
        obtain ⟨a', h1, h2⟩ := line_pop h hh hp
        exact ih h1 h2 hc

/-- The permissions of the nodes of the chain have only become better. -/
theorem line_map {prot prot' : List Nat} {s : TTree} {u : TNode → TNode} (hu : ∀ m ∈ s, SameNode m (u m))
    (hp : ∀ x ∈ prot', x ∈ prot) {c : BStack} {a : TNode} (h : Line prot s c a)
    (hg : ∀ m ∈ s, m.id ∈ a.above →
      (u m).perm = m.perm ∨ ((u m).perm = .active ∧ m.perm ≠ .frozen ∧ m.perm ≠ .cell)) :
    Line prot' (s.map u) c (u a) := by
  have hus : ∀ {x b}, b ∈ s → (∀ m ∈ s, m.id ∈ b.above → m.id ∈ a.above) → CanUse prot s x b →
      CanUse prot' (s.map u) x (u b) := by
    intro x b hb hsub h
    refine ⟨?_, ?_⟩
    · intro m' hm' hid
      obtain ⟨m, hm, rfl⟩ := List.mem_map.1 hm'
      rw [(hu b hb).above, (hu m hm).id] at hid
      rcases hg m hm (hsub m hm hid) with e | ⟨e, -⟩
      · rw [e]; exact h.read m hm hid
      · rw [e]; simp
    · intro hx m' hm' hid
      obtain ⟨m, hm, rfl⟩ := List.mem_map.1 hm'
      rw [(hu b hb).above, (hu m hm).id] at hid
      rcases hg m hm (hsub m hm hid) with e | ⟨e, -⟩
      · exact (h.write hx m hm hid).mono e (hu m hm).id (hp _)
      · unfold CanWrite
        rw [e]
        trivial
  induction h with
  | base ha hx hu' =>
    exact .base (List.mem_map_of_mem ha) (by rw [(hu _ ha).names]; exact hx) (hus ha (fun _ _ h => h) hu')
  | alias h ha hx hid hp' hu' ih =>
    exact .alias (ih hg hus) (List.mem_map_of_mem ha) (by rw [(hu _ ha).names]; exact hx)
      (by rw [(hu _ ha).id]; exact hid) hp' (hus ha (fun _ _ h => h) hu')
  | @own x y c a a' h ha hid hab hs hp' hu' ih =>
    have hsub : ∀ m ∈ s, m.id ∈ a.above → m.id ∈ a'.above := by
      intro m _ h
      rw [hab]
      exact List.mem_cons_of_mem _ h
    refine .own (ih (fun m hm h => hg m hm (hsub m hm h)) ?_) (List.mem_map_of_mem ha) (by rw [(hu _ ha).id]; exact hid)
      (by rw [(hu _ ha).above, (hu _ h.mem).above]; exact hab) ?_ hp' (hus ha (fun _ _ h => h) hu')
    · intro x b hb hsub' h
      exact hus hb (fun m hm hid => hsub m hm (hsub' m hm hid)) h
    · intro hx
      rcases hg a' ha (by rw [hab, hid]; exact List.mem_cons_self) with e | ⟨-, e1, e2⟩
      · rw [e]; exact hs hx
      · rcases hs hx with h | h
        · exact absurd h e1
        · exact absurd h e2

/-! ## Accesses -/

/-- The effect of an access with the topmost pointer. -/
theorem effect_some {prot : List Nat} {s : TTree} {w : Bool} {x : BItem} {c : BStack} {a : TNode}
    (h : CanUse prot s x a) (hh : Harmless prot s (x :: c) a) (hw : w = true → x.perm ≠ .shared) {m : TNode}
    (hm : m ∈ s) : ∃ p, a.effect prot w m = some p ∧
      (m.id ∈ a.above → p = m.perm ∨ (p = .active ∧ m.perm ≠ .frozen ∧ m.perm ≠ .cell)) ∧
      (m.id ∉ a.above → (m.perm = .disabled → p = .disabled) ∧ (m.perm = .cell → p = .cell) ∧
        (w = false → m.perm ≠ .active → p ≠ .active)) := by
  unfold TNode.effect
  by_cases hl : m.id ∈ a.above
  · have hl' : a.above.contains m.id = true := by simpa using hl
    rw [hl']
    have hr := h.read m hm hl
    cases w with
    | false =>
      refine ⟨m.perm, ?_, fun _ => .inl rfl, fun h => absurd hl h⟩
      cases hp : m.perm <;> first | rfl | exact absurd hp hr
    | true =>
      have hcw := h.write (hw rfl) m hm hl
      unfold CanWrite at hcw
      cases hp : m.perm with
      | reserved im c =>
        rw [hp] at hcw
        refine ⟨.active, ?_, fun _ => .inr ⟨rfl, by simp, by simp⟩, fun h => absurd hl h⟩
        simp only [TPerm.step]
        rw [if_neg]
        simp only [Bool.and_eq_true, List.contains_iff_mem, not_and]
        exact hcw
      | active => exact ⟨.active, rfl, fun _ => .inl rfl, fun h => absurd hl h⟩
      | cell => exact ⟨.cell, rfl, fun _ => .inl rfl, fun h => absurd hl h⟩
      | frozen => rw [hp] at hcw; exact absurd hcw id
      | disabled => rw [hp] at hcw; exact absurd hcw id
  · have hl' : a.above.contains m.id = false := by simpa using hl
    rw [hl']
    by_cases hpm : m.id ∈ prot
    · have hpm' : prot.contains m.id = true := by simpa using hpm
      rw [hpm']
      rcases hh m hm hpm with h | h | h | ⟨h, h'⟩
      · exact absurd h hl
      · rw [h]; cases w <;> exact ⟨_, rfl, fun h => absurd h hl, fun _ => by simp⟩
      · rw [h]; cases w <;> exact ⟨_, rfl, fun h => absurd h hl, fun _ => by simp⟩
      · cases w with
        | true => exact absurd (h x List.mem_cons_self) (hw rfl)
        | false => cases hp : m.perm <;> first | exact absurd hp h' | exact ⟨_, rfl, fun h => absurd h hl, fun _ => by simp⟩
    · have hpm' : prot.contains m.id = false := by simpa using hpm
      rw [hpm']
      cases w <;> cases hp : m.perm <;>
        first
          | exact ⟨_, rfl, fun h => absurd h hl, fun _ => by simp⟩
          | (rename_i im c; cases im <;> exact ⟨_, rfl, fun h => absurd h hl, fun _ => by simp⟩)

theorem tree_access {prot : List Nat} {n : Nat} {s : TTree} {w : Bool} {x : BItem} {c : BStack} {a : TNode}
    (hv : s.Valid n) (h : Line prot s (x :: c) a) (hh : Harmless prot s (x :: c) a) (hw : w = true → x.perm ≠ .shared) :
    ∃ s', s.access prot w x.tag = some s' ∧ TreeR prot n (x :: c) s' := by
  have hsome : ∀ m ∈ s, (a.effect prot w m).isSome := by
    intro m hm
    obtain ⟨p, h, -⟩ := effect_some h.usable hh hw hm
    rw [h]; rfl
  have hu : ∀ m ∈ s, SameNode m { m with perm := (a.effect prot w m).getD m.perm } := fun m _ => ⟨rfl, rfl, rfl⟩
  refine ⟨_, ?_, valid_map hv hu, _, line_map hu (fun _ h => h) h ?_, ?_⟩
  · unfold TTree.access
    rw [node_eq hv h.mem (h.name hv)]
    exact visit_map _ s hsome
  · intro m hm hid
    obtain ⟨p, h1, h2, -⟩ := effect_some h.usable hh hw hm
    simp only [h1, Option.getD_some]
    exact h2 hid
  · intro m' hm' hmp
    obtain ⟨m, hm, rfl⟩ := List.mem_map.1 hm'
    obtain ⟨p, h1, -, h3⟩ := effect_some h.usable hh hw hm
    simp only [h1, Option.getD_some]
    by_cases hl : m.id ∈ a.above
    · exact .inl hl
    · obtain ⟨h4, h5, h6⟩ := h3 hl
      rcases hh m hm hmp with h | h | h | ⟨h, h'⟩
      · exact absurd h hl
      · exact .inr (.inl (h4 h))
      · exact .inr (.inr (.inl (h5 h)))
      · refine .inr (.inr (.inr ⟨h, h6 ?_ h'⟩))
        cases w with
        | false => rfl
        | true => exact absurd (h x List.mem_cons_self) (hw rfl)

/-! ## New pointers -/

theorem how_perm {how : TreeHow} {p : BPerm} {q : TPerm} (h : how.perm p = some q) :
    q ≠ .disabled ∧ q ≠ .active ∧ (∀ im c, q = .reserved im c → c = false) ∧ (p ≠ .shared → q ≠ .frozen) ∧
    (p = .shared → q = .frozen ∨ q = .cell) := by
  cases how <;> cases p <;> simp only [TreeHow.perm, Option.some.injEq, reduceCtorEq] at h <;> subst h <;> simp

theorem line_addName {prot prot' : List Nat} {n : Nat} {s : TTree} {t : Nat} (hv : s.Valid n)
    (hp : ∀ x, x ≠ n → (x ∈ prot' → x ∈ prot)) {c : BStack} {a : TNode} (h : Line prot s c a) :
    Line prot' (s.map (fun m => if m.names.contains t then { m with names := n :: m.names } else m)) c
      (if a.names.contains t then { a with names := n :: a.names } else a) := by
  have hid : ∀ m : TNode, (if m.names.contains t then { m with names := n :: m.names } else m).id = m.id := by
    intro m; split <;> rfl
  have hab : ∀ m : TNode, (if m.names.contains t then { m with names := n :: m.names } else m).above = m.above := by
    intro m; split <;> rfl
  have hpm : ∀ m : TNode, (if m.names.contains t then { m with names := n :: m.names } else m).perm = m.perm := by
    intro m; split <;> rfl
  have hnm : ∀ (m : TNode) x, x ∈ m.names →
      x ∈ (if m.names.contains t then { m with names := n :: m.names } else m).names := by
    intro m x hx; split
    · exact List.mem_cons_of_mem _ hx
    · exact hx
  have hus : ∀ {x b}, CanUse prot s x b → CanUse prot'
      (s.map (fun m => if m.names.contains t then { m with names := n :: m.names } else m)) x
      (if b.names.contains t then { b with names := n :: b.names } else b) := by
    intro x b h
    refine ⟨?_, ?_⟩
    · intro m' hm' hi
      obtain ⟨m, hm, rfl⟩ := List.mem_map.1 hm'
      rw [hab, hid] at hi
      rw [hpm]
      exact h.read m hm hi
    · intro hx m' hm' hi
      obtain ⟨m, hm, rfl⟩ := List.mem_map.1 hm'
      rw [hab, hid] at hi
      have hne : m.id ≠ n := by
        have := hv.names m hm _ (hv.id m hm)
        omega
      exact (h.write hx m hm hi).mono (hpm m) (hid m) (hp _ hne)
  induction h with
  | base ha hx hu => exact .base (List.mem_map_of_mem ha) (hnm _ _ hx) (hus hu)
  | alias h ha hx hi hp' hu ih =>
    exact .alias ih (List.mem_map_of_mem ha) (hnm _ _ hx) (by rw [hid]; exact hi) hp' (hus hu)
  | own h ha hi ha' hs hp' hu ih =>
    exact .own ih (List.mem_map_of_mem ha) (by rw [hid]; exact hi) (by rw [hab, hab]; exact ha')
      (by rw [hpm]; exact hs) hp' (hus hu)

theorem line_addNode {prot prot' : List Nat} {n : Nat} {s : TTree} (hv : s.Valid n)
    (hp : ∀ x, x ≠ n → (x ∈ prot' → x ∈ prot)) (new : TNode) (hn : new.id = n) {c : BStack} {a : TNode}
    (h : Line prot s c a) : Line prot' (new :: s) c a := by
  have hus : ∀ {x b}, b ∈ s → CanUse prot s x b → CanUse prot' (new :: s) x b := by
    intro x b hb h
    have hno : new.id ∉ b.above := by
      intro hm
      have := hv.above b hb _ hm
      omega
    refine ⟨?_, ?_⟩
    · intro m hm hi
      rcases List.mem_cons.1 hm with rfl | hm
      · exact absurd hi hno
      · exact h.read m hm hi
    · intro hx m hm hi
      rcases List.mem_cons.1 hm with rfl | hm
      · exact absurd hi hno
      · have hne : m.id ≠ n := by
          have := hv.names m hm _ (hv.id m hm)
          omega
        exact (h.write hx m hm hi).mono rfl rfl (hp _ hne)
  induction h with
  | base ha hx hu => exact .base (List.mem_cons_of_mem _ ha) hx (hus ha hu)
  | alias h ha hx hi hp' hu ih => exact .alias ih (List.mem_cons_of_mem _ ha) hx hi hp' (hus ha hu)
  | own h ha hi ha' hs hp' hu ih => exact .own ih (List.mem_cons_of_mem _ ha) hi ha' hs hp' (hus ha hu)

theorem tree_push {prot prot' : List Nat} {n : Nat} {s : TTree} {x : BItem} {c : BStack} {a : TNode}
    (hv : s.Valid n) (h : Line prot s (x :: c) a) (hh : Harmless prot s (x :: c) a)
    (hp : ∀ y, y ≠ n → (y ∈ prot' → y ∈ prot)) (how : TreeHow) (p : BPerm) (hpx : p ≠ .shared → x.perm ≠ .shared) :
    TreeR prot' (n + 1) (⟨p, n⟩ :: x :: c) (s.push how p x.tag n) := by
  have hshared : (∀ y ∈ x :: c, y.perm = .shared) → ∀ y ∈ (⟨p, n⟩ :: x :: c : BStack), y.perm = .shared := by
    intro hall y hy
    rcases List.mem_cons.1 hy with rfl | hy
    · exact Decidable.byContradiction (fun hne => hpx hne (hall x List.mem_cons_self))
    · exact hall y hy
  unfold TTree.push
  cases hq : how.perm p with
  | none =>
    simp only
    have hline := line_addName (t := x.tag) hv hp h
    have hxa : a.names.contains x.tag = true := by simpa using h.name hv
    have hid : ∀ m : TNode, (if m.names.contains x.tag then { m with names := n :: m.names } else m).id = m.id := by
      intro m; split <;> rfl
    have hpm : ∀ m : TNode, (if m.names.contains x.tag then { m with names := n :: m.names } else m).perm = m.perm := by
      intro m; split <;> rfl
    rw [if_pos hxa] at hline
    refine ⟨?_, _, .alias hline hline.mem List.mem_cons_self ?_ hpx ?_, ?_⟩
    · refine ⟨?_, ?_, ?_, ?_⟩
      · intro m' hm'
        obtain ⟨m, hm, rfl⟩ := List.mem_map.1 hm'
        split
        · exact List.mem_cons_of_mem _ (hv.id m hm)
        · exact hv.id m hm
      · intro m' hm' t ht
        obtain ⟨m, hm, rfl⟩ := List.mem_map.1 hm'
        split at ht
        · rcases List.mem_cons.1 ht with rfl | ht
          · exact Nat.lt_succ_self _
          · exact Nat.lt_succ_of_lt (hv.names m hm t ht)
        · exact Nat.lt_succ_of_lt (hv.names m hm t ht)
      · intro m' hm' t ht
        obtain ⟨m, hm, rfl⟩ := List.mem_map.1 hm'
        split at ht <;> exact Nat.lt_succ_of_lt (hv.above m hm t ht)
      · intro m1' hm1' m2' hm2' t h1 h2
        obtain ⟨m1, hm1, rfl⟩ := List.mem_map.1 hm1'
        obtain ⟨m2, hm2, rfl⟩ := List.mem_map.1 hm2'
        suffices m1 = m2 by rw [this]
        have hl1 := hv.names m1 hm1
        have hl2 := hv.names m2 hm2
        have hlt : ∀ m ∈ s, n ∉ m.names := fun m hm hn => Nat.lt_irrefl _ (hv.names m hm n hn)
        by_cases c1 : m1.names.contains x.tag = true <;> by_cases c2 : m2.names.contains x.tag = true
        · exact hv.unique m1 hm1 m2 hm2 x.tag (by simpa using c1) (by simpa using c2)
        · rw [if_pos c1] at h1
          rw [if_neg c2] at h2
          rcases List.mem_cons.1 h1 with rfl | h1
          · exact absurd h2 (hlt m2 hm2)
          · exact hv.unique m1 hm1 m2 hm2 t h1 h2
        · rw [if_neg c1] at h1
          rw [if_pos c2] at h2
          rcases List.mem_cons.1 h2 with rfl | h2
          · exact absurd h1 (hlt m1 hm1)
          · exact hv.unique m1 hm1 m2 hm2 t h1 h2
        · rw [if_neg c1] at h1
          rw [if_neg c2] at h2
          exact hv.unique m1 hm1 m2 hm2 t h1 h2
    · have := hv.names a h.mem _ (hv.id a h.mem)
      simp only
      omega
    · exact ⟨hline.usable.read, fun hs => hline.usable.write (hpx hs)⟩
    · intro m' hm' hmp
      obtain ⟨m, hm, rfl⟩ := List.mem_map.1 hm'
      rw [hid] at hmp
      rw [hid, hpm]
      have hne : m.id ≠ n := by
        have := hv.names m hm _ (hv.id m hm)
        omega
      rcases hh m hm (hp _ hne hmp) with h | h | h | ⟨h, h'⟩
      · exact .inl h
      · exact .inr (.inl h)
      · exact .inr (.inr (.inl h))
      · exact .inr (.inr (.inr ⟨hshared h, h'⟩))
  | some q =>
    simp only
    rw [node_eq hv h.mem (h.name hv)]
    simp only
    obtain ⟨q1, q2, q3, q4, q5⟩ := how_perm hq
    have hline := line_addNode hv hp ⟨n, [n], n :: a.above, q⟩ rfl h
    refine ⟨?_, _, .own hline List.mem_cons_self rfl rfl q5 hpx ?_, ?_⟩
    · have hlt : ∀ m ∈ s, n ∉ m.names := fun m hm hn => Nat.lt_irrefl _ (hv.names m hm n hn)
      refine ⟨?_, ?_, ?_, ?_⟩
      · intro m hm
        rcases List.mem_cons.1 hm with rfl | hm
        · exact List.mem_cons_self
        · exact hv.id m hm
      · intro m hm t ht
        rcases List.mem_cons.1 hm with rfl | hm
        · rw [List.mem_singleton] at ht
          omega
        · exact Nat.lt_succ_of_lt (hv.names m hm t ht)
      · intro m hm t ht
        rcases List.mem_cons.1 hm with rfl | hm
        · rcases List.mem_cons.1 ht with rfl | ht
          · exact Nat.lt_succ_self _
          · exact Nat.lt_succ_of_lt (hv.above a h.mem t ht)
        · exact Nat.lt_succ_of_lt (hv.above m hm t ht)
      · intro m1 hm1 m2 hm2 t h1 h2
        rcases List.mem_cons.1 hm1 with rfl | hm1 <;> rcases List.mem_cons.1 hm2 with rfl | hm2
        · rfl
        · rw [List.mem_singleton] at h1
          exact absurd (h1 ▸ h2) (hlt m2 hm2)
        · rw [List.mem_singleton] at h2
          exact absurd (h2 ▸ h1) (hlt m1 hm1)
        · exact hv.unique m1 hm1 m2 hm2 t h1 h2
    · refine ⟨?_, ?_⟩
      · intro m hm hi
        rcases List.mem_cons.1 hm with rfl | hm'
        · exact q1
        · rcases List.mem_cons.1 hi with hi | hi
          · have := hv.names m hm' _ (hv.id m hm')
            omega
          · exact hline.usable.read m hm hi
      · intro hs m hm hi
        rcases List.mem_cons.1 hm with rfl | hm'
        · unfold CanWrite
          simp only
          split
          · intro hc
            exact absurd (q3 _ _ rfl) (by rw [hc]; simp)
          · trivial
          · trivial
          · rename_i h1 h2 h3
            cases q with
            | reserved im c => exact h1 im c rfl
            | active => exact h2 rfl
            | cell => exact h3 rfl
            | frozen => exact q4 hs rfl
            | disabled => exact q1 rfl
        · rcases List.mem_cons.1 hi with hi | hi
          · have := hv.names m hm' _ (hv.id m hm')
            omega
          · exact hline.usable.write (hpx hs) m hm hi
    · intro m hm hmp
      rcases List.mem_cons.1 hm with rfl | hm
      · exact .inl List.mem_cons_self
      · have hne : m.id ≠ n := by
          have := hv.names m hm _ (hv.id m hm)
          omega
        rcases hh m hm (hp _ hne hmp) with h | h | h | ⟨h, h'⟩
        · exact .inl (List.mem_cons_of_mem _ h)
        · exact .inr (.inl h)
        · exact .inr (.inr (.inl h))
        · exact .inr (.inr (.inr ⟨hshared h, h'⟩))

/-! ## The end of a call -/

/-- The own node of a pointer of the chain, and how the nodes above it are related to it. -/
theorem line_find {prot : List Nat} {n : Nat} {s : TTree} (hv : s.Valid n) {t : Nat} {c : BStack} {a : TNode}
    (h : Line prot s c a) (ht : t ∈ c.dropLast.map BItem.tag) {b : TNode} (hb : b ∈ s) (hbt : b.id = t) :
    ∃ x ∈ c, (x.perm = .shared → b.perm = .frozen ∨ b.perm = .cell) ∧ CanUse prot s x b ∧
      (∀ y, y ∈ b.above → y ∈ a.above) ∧ t ∈ b.above ∧
      ∀ m ∈ s, m.id ∈ a.above → m.id ∈ b.above ∨ (t ∈ m.above ∧ m.id ≠ t) := by
  have hbn : t ∈ b.names := hbt ▸ hv.id b hb
  induction h with
  | base ha hx hu => simp at ht
  | @alias x y c a h ha hx hid hp hu ih =>
    have ht' : t = x.tag ∨ t ∈ (y :: c).dropLast.map BItem.tag := by simpa using ht
    rcases ht' with rfl | ht'
    · exact absurd ((hv.unique a ha b hb _ hx hbn) ▸ hbt) hid
    · obtain ⟨z, hz, h1, h2⟩ := ih ht'
      exact ⟨z, List.mem_cons_of_mem _ hz, h1, h2⟩
  | @own x y c a a' h ha hid hab hs hp hu ih =>
    have hx : x.tag ∈ a'.names := hid ▸ hv.id a' ha
    have ht' : t = x.tag ∨ t ∈ (y :: c).dropLast.map BItem.tag := by simpa using ht
    by_cases hxt : t = x.tag
    · subst hxt
      obtain rfl := hv.unique a' ha b hb _ hx hbn
      exact ⟨x, List.mem_cons_self, hs, hu, fun y h => h, by rw [hab]; exact List.mem_cons_self, fun m _ h => .inl h⟩
    · obtain ⟨z, hz, h1, h2, h3, h4, h5⟩ := ih (ht'.resolve_left hxt)
      refine ⟨z, List.mem_cons_of_mem _ hz, h1, h2, ?_, h4, ?_⟩
      · intro y hy
        rw [hab]
        exact List.mem_cons_of_mem _ (h3 y hy)
      · intro m hm hma
        rw [hab] at hma
        rcases List.mem_cons.1 hma with hma | hma
        · right
          have : m = a' := hv.unique m hm a' ha x.tag (hma ▸ hv.id m hm) hx
          subst this
          refine ⟨?_, fun h => hxt (h ▸ hma)⟩
          rw [hab]
          exact List.mem_cons_of_mem _ (h3 _ h4)
        · exact h5 m hm hma

theorem treeR_prot {prot prot' : List Nat} {n : Nat} {c : BStack} {s : TTree} (h : TreeR prot n c s)
    (hp : ∀ x ∈ prot', x ∈ prot) : TreeR prot' n c s := by
  obtain ⟨hv, a, h1, h2⟩ := h
  have := line_map (u := id) (fun m _ => ⟨rfl, rfl, rfl⟩) hp h1 (fun m _ _ => .inl rfl)
  rw [List.map_id] at this
  exact ⟨hv, a, this, fun m hm hmp => h2 m hm (hp _ hmp)⟩

theorem tree_end {prot : List Nat} {n : Nat} {s : TTree} {c : BStack} {t : Nat} {w : Bool} {b : TNode}
    (h : TreeR (t :: prot) n c s) (ht : t ∈ c.dropLast.map BItem.tag) (hb : b ∈ s) (hbt : b.id = t)
    (hw : w = true → b.perm = .active) :
    ∃ s', s.visit (b.endEffect (t :: prot) w) = some s' ∧ TreeR prot n c s' := by
  obtain ⟨hv, a, hl, hh⟩ := h
  obtain ⟨x, hx, hs, hu, hsub, htb, hdesc⟩ := line_find hv hl ht hb hbt
  have hxw : w = true → x.perm ≠ .shared := by
    intro h1 h2
    rcases hs h2 with h | h <;> rw [hw h1] at h <;> cases h
  -- what happens to a node
  have key : ∀ m ∈ s, ∃ p, b.endEffect (t :: prot) w m = some p ∧
      (m.id ∈ a.above → p = m.perm ∨ (p = .active ∧ m.perm ≠ .frozen ∧ m.perm ≠ .cell)) ∧
      (m.id ∉ a.above → (m.perm = .disabled → p = .disabled) ∧ (m.perm = .cell → p = .cell) ∧
        (w = false → m.perm ≠ .active → p ≠ .active)) := by
    intro m hm
    unfold TNode.endEffect
    by_cases hd : (m.above.contains b.id && m.id != b.id) = true
    · rw [if_pos hd]
      exact ⟨m.perm, rfl, fun _ => .inl rfl, fun _ => ⟨id, id, fun _ => id⟩⟩
    · rw [if_neg hd]
      by_cases hma : m.id ∈ a.above
      · have hmb : m.id ∈ b.above := by
          rcases hdesc m hm hma with h | ⟨h1, h2⟩
          · exact h
          · refine absurd ?_ hd
            rw [hbt]
            simp [h1, h2]
        have hh' : Harmless (t :: prot) [m] (x :: []) b := by
          intro m' hm' _
          rw [List.mem_singleton] at hm'
          subst hm'
          exact .inl hmb
        have hu' : CanUse (t :: prot) [m] x b :=
          ⟨fun m' hm' => hu.read m' (by rw [List.mem_singleton] at hm'; subst hm'; exact hm),
           fun hx m' hm' => hu.write hx m' (by rw [List.mem_singleton] at hm'; subst hm'; exact hm)⟩
        obtain ⟨p, h1, h2, -⟩ := effect_some hu' hh' hxw (m := m) (by simp)
        exact ⟨p, h1, fun _ => h2 hmb, fun h => absurd hma h⟩
      · have hmb : m.id ∉ b.above := fun h => hma (hsub _ h)
        have hh' : Harmless (t :: prot) [m] (x :: []) b := by
          intro m' hm' hmp
          rw [List.mem_singleton] at hm'
          subst hm'
          rcases hh m' hm hmp with h | h | h | ⟨h, h'⟩
          · exact absurd h hma
          · exact .inr (.inl h)
          · exact .inr (.inr (.inl h))
          · refine .inr (.inr (.inr ⟨?_, h'⟩))
            intro y hy
            rw [List.mem_singleton] at hy
            subst hy
            exact h y hx
        have hu' : CanUse (t :: prot) [m] x b :=
          ⟨fun m' hm' => hu.read m' (by rw [List.mem_singleton] at hm'; subst hm'; exact hm),
           fun hx m' hm' => hu.write hx m' (by rw [List.mem_singleton] at hm'; subst hm'; exact hm)⟩
        obtain ⟨p, h1, -, h3⟩ := effect_some hu' hh' hxw (m := m) (by simp)
        exact ⟨p, h1, fun h => absurd h hma, fun _ => h3 hmb⟩
  have hsome : ∀ m ∈ s, (b.endEffect (t :: prot) w m).isSome := by
    intro m hm
    obtain ⟨p, h, -⟩ := key m hm
    rw [h]; rfl
  have hsame : ∀ m ∈ s, SameNode m { m with perm := (b.endEffect (t :: prot) w m).getD m.perm } :=
    fun m _ => ⟨rfl, rfl, rfl⟩
  refine ⟨_, visit_map _ s hsome, valid_map hv hsame, _,
    line_map hsame (fun _ h => List.mem_cons_of_mem _ h) hl ?_, ?_⟩
  · intro m hm hid
    obtain ⟨p, h1, h2, -⟩ := key m hm
    simp only [h1, Option.getD_some]
    exact h2 hid
  · intro m' hm' hmp
    obtain ⟨m, hm, rfl⟩ := List.mem_map.1 hm'
    obtain ⟨p, h1, -, h3⟩ := key m hm
    simp only [h1, Option.getD_some]
    by_cases hma : m.id ∈ a.above
    · exact .inl hma
    · obtain ⟨h4, h5, h6⟩ := h3 hma
      rcases hh m hm (List.mem_cons_of_mem _ hmp) with h | h | h | ⟨h, h'⟩
      · exact absurd h hma
      · exact .inr (.inl (h4 h))
      · exact .inr (.inr (.inl (h5 h)))
      · refine .inr (.inr (.inr ⟨h, h6 ?_ h'⟩))
        cases w with
        | false => rfl
        | true => exact absurd (h x hx) (hxw rfl)

theorem tree_simulates (how : BPerm → Nat → TreeHow) : Simulates (tree how) TreeR where
  access := by
    intro prot n s s' w t r ⟨hv, a, h1, h2⟩ hc
    obtain ⟨a', h3, h4⟩ := line_access h1 h2 hc
    obtain ⟨x, r, rfl, rfl, hw, -⟩ := chain_result hc
    exact tree_access hv h3 h4 hw
  retag := by
    intro prot n s s' p t r ⟨hv, a, h1, h2⟩ hc
    obtain ⟨a', h3, h4⟩ := line_access h1 h2 hc
    obtain ⟨x, r, rfl, rfl, hw, -⟩ := chain_result hc
    have hpx : p ≠ .shared → x.perm ≠ .shared := fun h => hw (by simpa using h)
    have hpn : ∀ y, y ≠ n → y ∈ n :: prot → y ∈ prot := fun y hy hm => (List.mem_cons.1 hm).resolve_left hy
    cases hq : ((how p n).perm p).isSome with
    | true =>
      obtain ⟨s'', h5, hv', a'', h6, h7⟩ := tree_access (w := false) hv h3 h4 (fun h => by cases h)
      refine ⟨s'', ?_, tree_push hv' h6 h7 (fun y _ h => h) (how p n) p hpx, tree_push hv' h6 h7 hpn (how p n) p hpx⟩
      simp only [hq, if_true]
      exact h5
    | false =>
      refine ⟨s', ?_, tree_push hv h3 h4 (fun y _ h => h) (how p n) p hpx, tree_push hv h3 h4 hpn (how p n) p hpx⟩
      simp only [hq, Bool.false_eq_true, if_false]
  next := fun ⟨hv, h⟩ => ⟨⟨hv.id, fun m hm t ht => Nat.lt_succ_of_lt (hv.names m hm t ht),
    fun m hm t ht => Nat.lt_succ_of_lt (hv.above m hm t ht), hv.unique⟩, h⟩
  release := by
    intro prot n s s' t r h hc
    have hts : t ∈ s.dropLast.map BItem.tag ∧ r = s := by
      simp only at hc
      split at hc
      · rename_i ht
        exact ⟨ht, (Option.some.inj hc).symm⟩
      · cases hc
    obtain ⟨ht, rfl⟩ := hts
    have hweak : TreeR prot n r s' := treeR_prot h (fun _ h => List.mem_cons_of_mem _ h)
    simp only
    unfold TTree.release
    cases hf : s'.find? (fun m => m.id == t) with
    | none => exact ⟨s', rfl, hweak⟩
    | some b =>
      have hb := List.mem_of_find?_eq_some hf
      have hbt : b.id = t := by simpa using List.find?_some hf
      have hr : ∃ s'', s'.visit (b.endEffect (t :: prot) false) = some s'' ∧ TreeR prot n r s'' :=
        tree_end h ht hb hbt (fun h => by cases h)
      cases hp : b.perm with
      | active => simpa only [hp] using tree_end h ht hb hbt (fun _ => hp)
      | reserved im c => simpa only [hp] using hr
      | frozen => simpa only [hp] using hr
      | cell => exact ⟨s', by simp only [hp], hweak⟩
      | disabled => exact ⟨s', by simp only [hp], hweak⟩

/-- A usable reference is a chain. -/
theorem tree_starts (how : BPerm → Nat → TreeHow) {prot : List Nat} {n t0 : Nat} {m : Bool} {s s' : TTree}
    (hv : (tree how).valid n s) (h : (tree how).access prot m t0 s = some s') :
    t0 < n ∧ TreeR prot n [⟨permOf m, t0⟩] s := by
  have hv : s.Valid n := hv
  have h : s.access prot m t0 = some s' := h
  unfold TTree.access at h
  cases ha : s.node t0 with
  | none => rw [ha] at h; cases h
  | some a =>
    rw [ha] at h
    obtain ⟨h1, h2⟩ := node_some ha
    have hs := visit_some h
    refine ⟨hv.names a h1 t0 h2, hv, a, .base h1 h2 ⟨?_, ?_⟩, ?_⟩
    · intro x hx hid hp
      have := hs x hx
      unfold TNode.effect at this
      rw [show a.above.contains x.id = true by simpa using hid, hp] at this
      cases m <;> simp [TPerm.step] at this
    · intro hm x hx hid
      have := hs x hx
      cases m with
      | false => exact absurd rfl hm
      | true =>
        unfold TNode.effect at this
        rw [show a.above.contains x.id = true by simpa using hid] at this
        unfold CanWrite
        cases hp : x.perm with
        | reserved im c =>
          rw [hp] at this
          simp only [TPerm.step] at this
          split at this
          · cases this
          · rename_i hc
            simpa using hc
        | active => trivial
        | cell => trivial
        | frozen => rw [hp] at this; simp [TPerm.step] at this
        | disabled => rw [hp] at this; simp [TPerm.step] at this
    · intro x hx hxp
      by_cases hid : x.id ∈ a.above
      · exact .inl hid
      · have := hs x hx
        unfold TNode.effect at this
        rw [show a.above.contains x.id = false by simpa using hid,
          show prot.contains x.id = true by simpa using hxp] at this
        right
        cases m with
        | true =>
          cases hp : x.perm with
          | reserved im c => rw [hp] at this; cases im <;> simp [TPerm.step] at this
          | active => rw [hp] at this; simp [TPerm.step] at this
          | cell => exact .inr (.inl rfl)
          | frozen => rw [hp] at this; simp [TPerm.step] at this
          | disabled => exact .inl rfl
        | false =>
          refine .inr (.inr ⟨?_, ?_⟩)
          · intro y hy
            rw [List.mem_singleton] at hy
            subst hy
            rfl
          · intro hp
            rw [hp] at this
            simp [TPerm.step] at this

end PinProject

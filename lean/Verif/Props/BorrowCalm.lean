import Verif.Props.BorrowFrame
/-!
# Protected shared references do not matter for reads

A function the user has written may have a shared reference as a parameter. It is protected as long as the function runs. Here: what
only reads does the same whether it is protected or not.
-/
namespace PinProject
open Spec

/-- `M D s`: the pointers in `D`, if they are protected, do not matter for reads. -/
structure Calm (A : AliasModel) (M : List Nat → A.St → Prop) : Prop where
  nil : ∀ s, M [] s
  mono : ∀ {D D' s}, M D s → (∀ k ∈ D', k ∈ D) → M D' s
  access_eq : ∀ {D P P' t s}, M D s → (∀ k ∈ P', k ∈ P) → (∀ k ∈ P, k ∈ P' ∨ k ∈ D) → A.access P false t s = A.access P' false t s
  access : ∀ {D P t s s'}, M D s → A.access P false t s = some s' → M D s'
  push : ∀ {D n t s}, A.valid n s → M D s → M (n :: D) (A.push .shared t n s)
  release_eq : ∀ {D P P' t s}, M D s → t ∈ D → (∀ k ∈ P', k ∈ P) → (∀ k ∈ P, k ∈ P' ∨ k ∈ D) →
    A.release P t s = A.release P' t s
  release : ∀ {D P t s s'}, M D s → t ∈ D → A.release P t s = some s' → M D s'
  release_some : ∀ {D P n t s s'}, A.valid n s → M D s → t ∈ D → A.access P false t s = some s' → ∃ r, A.release P t s = some r

/-! ## Stacked Borrows -/

def StackM (D : List Nat) (s : BStack) : Prop := ∀ i ∈ s, i.tag ∈ D → i.perm ≠ .unique

theorem stack_read_eq {D P P' : List Nat} {t : Nat} {s : BStack} (h : StackM D s) (h1 : ∀ k ∈ P', k ∈ P)
    (h2 : ∀ k ∈ P, k ∈ P' ∨ k ∈ D) : BStack.read P t s = BStack.read P' t s := by
  induction s with
  | nil => rfl
  | cons i s ih =>
    have := ih (fun j hj => h j (List.mem_cons_of_mem _ hj))
    rw [BStack.read, BStack.read, this]
    by_cases hu : i.perm = .unique
    · have hi : i.tag ∈ P ↔ i.tag ∈ P' :=
        ⟨fun hp => (h2 _ hp).resolve_right (fun hd => h i List.mem_cons_self hd hu), h1 _⟩
      simp only [hi]
    · simp only [hu, if_false]

theorem stack_read_mem {P : List Nat} {t : Nat} {s s' : BStack} (h : BStack.read P t s = some s') : ∀ i ∈ s', i ∈ s := by
  induction s generalizing s' with
  | nil => cases h
  | cons j s ih =>
    rw [BStack.read] at h
    split at h
    · cases h; exact fun i hi => hi
    · split at h
      · split at h
        · cases h
        · exact fun i hi => List.mem_cons_of_mem _ (ih h i hi)
      · obtain ⟨r, hr, rfl⟩ := Option.map_eq_some_iff.1 h
        intro i hi
        rcases List.mem_cons.1 hi with rfl | hi
        · exact List.mem_cons_self
        · exact List.mem_cons_of_mem _ (ih hr i hi)

theorem stacked_calm : Calm stacked StackM where
  nil := fun s i _ h => by cases h
  mono := fun h hd i hi ht => h i hi (hd _ ht)
  access_eq := fun h h1 h2 => stack_read_eq h h1 h2
  access := by
    intro D P t s s' h hr i hi
    exact h i (stack_read_mem (show BStack.read P t s = some s' from hr) i hi)
  push := by
    intro D n t s hv h i hi hd
    rcases List.mem_cons.1 hi with rfl | hi
    · simp
    · rcases List.mem_cons.1 hd with e | hd
      · exact absurd (hv i hi) (by omega)
      · exact h i hi hd
  release_eq := fun _ _ _ _ => rfl
  release := by
    intro D P t s s' h _ hr
    cases hr
    exact h
  release_some := fun _ _ _ _ => ⟨_, rfl⟩

/-! ## Stacked Borrows as in Miri -/

def MiriM (D : List Nat) (s : MStack) : Prop := ∀ i ∈ s, i.tag ∈ D → i.perm ≠ .unique

theorem miri_read_eq {D P P' : List Nat} {t : Nat} {s : MStack} (h : MiriM D s) (h1 : ∀ k ∈ P', k ∈ P)
    (h2 : ∀ k ∈ P, k ∈ P' ∨ k ∈ D) : MStack.read (MItem.guarded P) t s = MStack.read (MItem.guarded P') t s := by
  induction s with
  | nil => rfl
  | cons i s ih =>
    have := ih (fun j hj => h j (List.mem_cons_of_mem _ hj))
    rw [MStack.read, MStack.read, this]
    by_cases hu : i.perm = .unique
    · have hi : i.tag ∈ P ↔ i.tag ∈ P' :=
        ⟨fun hp => (h2 _ hp).resolve_right (fun hd => h i List.mem_cons_self hd hu), h1 _⟩
      simp only [MItem.guarded, List.contains_eq_mem, hi]
    · simp only [hu, if_false]

theorem miri_read_perm {prot : MItem → Bool} {t : Nat} {s s' : MStack} (h : MStack.read prot t s = some s') :
    ∀ i ∈ s', i ∈ s ∨ i.perm ≠ .unique := by
  induction s generalizing s' with
  | nil => cases h
  | cons j s ih =>
    rw [MStack.read] at h
    split at h
    · cases h; exact fun i hi => .inl hi
    · split at h
      · cases h
      · rename_i r hr
        have := ih hr
        split at h
        · split at h
          · cases h
          · cases h
            intro i hi
            rcases List.mem_cons.1 hi with rfl | hi
            · exact .inr (by simp)
            · exact (this i hi).imp (List.mem_cons_of_mem _) id
        · cases h
          intro i hi
          rcases List.mem_cons.1 hi with rfl | hi
          · exact .inl List.mem_cons_self
          · exact (this i hi).imp (List.mem_cons_of_mem _) id

theorem miri_calm (exempt : BPerm → Nat → Bool) : Calm (miri exempt) MiriM where
  nil := fun s i _ h => by cases h
  mono := fun h hd i hi ht => h i hi (hd _ ht)
  access_eq := fun h h1 h2 => miri_read_eq h h1 h2
  access := by
    intro D P t s s' h hr i hi hd
    rcases miri_read_perm (show MStack.read (MItem.guarded P) t s = some s' from hr) i hi with h1 | h1
    · exact h i h1 hd
    · exact h1
  push := by
    intro D n t s hv h
    have hold : ∀ i ∈ s, i.tag ∈ n :: D → i.perm ≠ .unique := by
      intro i hi hd
      rcases List.mem_cons.1 hd with e | hd
      · exact absurd (hv.1 i hi) (by omega)
      · exact h i hi hd
    have hcons : ∀ q : MPerm, q ≠ .unique → MiriM (n :: D) (⟨q, n⟩ :: s) := by
      intro q hq i hi
      rcases List.mem_cons.1 hi with rfl | hi
      · exact fun _ => hq
      · exact hold i hi
    simp only
    split
    · unfold MStack.insert
      cases hs : s.split t with
      | none => exact hcons _ (by simp)
      | some ak =>
        obtain ⟨a, k⟩ := ak
        have hak := split_append hs
        intro i hi
        simp only at hi
        rcases List.mem_append.1 hi with hi | hi
        · exact hold i (by rw [hak]; exact List.mem_append_left _ hi)
        · rcases List.mem_cons.1 hi with rfl | hi
          · exact fun _ => by simp
          · exact hold i (by rw [hak]; exact List.mem_append_right _ hi)
    · exact hcons _ (by simp)
  release_eq := fun _ _ _ _ => rfl
  release := by
    intro D P t s s' h _ hr
    cases hr
    exact h
  release_some := fun _ _ _ _ => ⟨_, rfl⟩

/-! ## Tree Borrows -/

def TreeM (D : List Nat) (s : TTree) : Prop := ∀ m ∈ s, m.id ∈ D → m.perm = .frozen ∨ m.perm = .cell

theorem visit_congr {f g : TNode → Option TPerm} {s : TTree} (h : ∀ m ∈ s, f m = g m) : s.visit f = s.visit g := by
  induction s with
  | nil => rfl
  | cons m s ih =>
    rw [TTree.visit, TTree.visit, h m List.mem_cons_self, ih (fun m' hm => h m' (List.mem_cons_of_mem _ hm))]

theorem tree_effect_eq {D P P' : List Nat} {s : TTree} (h : TreeM D s) (h1 : ∀ k ∈ P', k ∈ P)
    (h2 : ∀ k ∈ P, k ∈ P' ∨ k ∈ D) (a m : TNode) (hm : m ∈ s) : a.effect P false m = a.effect P' false m := by
  unfold TNode.effect
  by_cases hd : m.id ∈ D
  · rcases h m hm hd with h | h <;> rw [h] <;> cases a.above.contains m.id <;> rfl
  · have : m.id ∈ P ↔ m.id ∈ P' := ⟨fun hp => (h2 _ hp).resolve_right hd, h1 _⟩
    simp only [List.contains_eq_mem, this]

theorem visit_mild {D : List Nat} {s s' : TTree} {f : TNode → Option TPerm} (h : TreeM D s) (hs : s.visit f = some s')
    (hf : ∀ m ∈ s, ∀ p, f m = some p → (m.perm = .frozen → p = .frozen) ∧ (m.perm = .cell → p = .cell)) : TreeM D s' := by
  have hsome := visit_some hs
  have hs' := visit_map f s hsome
  rw [hs] at hs'
  obtain rfl := Option.some.inj hs'
  intro m' hm' hd
  obtain ⟨m, hm, rfl⟩ := List.mem_map.1 hm'
  obtain ⟨p, hp⟩ := Option.isSome_iff_exists.1 (hsome m hm)
  simp only [hp, Option.getD_some]
  obtain ⟨h1, h2⟩ := hf m hm p hp
  exact (h m hm hd).imp h1 h2

theorem effect_mild {P : List Nat} {a m : TNode} {p : TPerm} (h : a.effect P false m = some p) :
    (m.perm = .frozen → p = .frozen) ∧ (m.perm = .cell → p = .cell) := by
  unfold TNode.effect at h
  obtain ⟨-, h1, h2, -⟩ := step_read h
  exact ⟨fun h => (h1 h).trans h, fun h => (h2 h).trans h⟩

theorem endEffect_mild {P : List Nat} {a m : TNode} {p : TPerm} (h : a.endEffect P false m = some p) :
    (m.perm = .frozen → p = .frozen) ∧ (m.perm = .cell → p = .cell) := by
  unfold TNode.endEffect at h
  split at h
  · cases h
    exact ⟨id, id⟩
  · exact effect_mild h

theorem tree_calm (how : BPerm → Nat → TreeHow) : Calm (tree how) TreeM where
  nil := fun s m _ h => by cases h
  mono := fun h hd m hm ht => h m hm (hd _ ht)
  access_eq := by
    intro D P P' t s h h1 h2
    show s.access P false t = s.access P' false t
    unfold TTree.access
    cases s.node t with
    | none => rfl
    | some a => exact visit_congr (fun m hm => tree_effect_eq h h1 h2 a m hm)
  access := by
    intro D P t s s' h hr
    replace hr : s.access P false t = some s' := hr
    unfold TTree.access at hr
    split at hr
    · exact visit_mild h hr (fun m _ p hp => effect_mild hp)
    · cases hr
  push := by
    intro D n t s hv h
    have hold : ∀ m ∈ s, m.id ∈ n :: D → m.perm = .frozen ∨ m.perm = .cell := by
      intro m hm hd
      rcases List.mem_cons.1 hd with e | hd
      · have := hv.names m hm _ (hv.id m hm)
        omega
      · exact h m hm hd
    show TreeM (n :: D) (s.push (how .shared n) .shared t n)
    unfold TTree.push
    cases hq : (how .shared n).perm .shared with
    | none =>
      intro m' hm' hd
      obtain ⟨m, hm, rfl⟩ := List.mem_map.1 hm'
      have hid : (if m.names.contains t then { m with names := n :: m.names } else m).id = m.id := by split <;> rfl
      have hpm : (if m.names.contains t then { m with names := n :: m.names } else m).perm = m.perm := by split <;> rfl
      rw [hid] at hd
      rw [hpm]
      exact hold m hm hd
    | some q =>
      simp only
      cases s.node t with
      | none => exact hold
      | some a =>
        intro m hm hd
        rcases List.mem_cons.1 hm with rfl | hm
        · exact (how_perm hq).2.2.2.2 rfl
        · exact hold m hm hd
  release_eq := by
    intro D P P' t s h ht h1 h2
    show s.release P t = s.release P' t
    unfold TTree.release
    cases hf : s.find? (fun m => m.id == t) with
    | none => rfl
    | some b =>
      have hb := List.mem_of_find?_eq_some hf
      have hbt : b.id = t := by simpa using List.find?_some hf
      simp only
      rcases h b hb (hbt ▸ ht) with hp | hp
      · simp only [hp]
        refine visit_congr (fun m hm => ?_)
        unfold TNode.endEffect
        rw [tree_effect_eq h h1 h2 b m hm]
      · simp only [hp]
  release := by
    intro D P t s s' h ht hr
    replace hr : s.release P t = some s' := hr
    unfold TTree.release at hr
    cases hf : s.find? (fun m => m.id == t) with
    | none =>
      rw [hf] at hr
      cases hr
      exact h
    | some b =>
      have hb := List.mem_of_find?_eq_some hf
      have hbt : b.id = t := by simpa using List.find?_some hf
      rw [hf] at hr
      rcases h b hb (hbt ▸ ht) with hp | hp
      · simp only [hp] at hr
        exact visit_mild h hr (fun m _ p hp => endEffect_mild hp)
      · simp only [hp] at hr
        cases hr
        exact h
  release_some := by
    intro D P n t s s' hv h ht hr
    replace hr : s.access P false t = some s' := hr
    show ∃ r, s.release P t = some r
    unfold TTree.release
    cases hf : s.find? (fun m => m.id == t) with
    | none => exact ⟨_, rfl⟩
    | some b =>
      have hb := List.mem_of_find?_eq_some hf
      have hbt : b.id = t := by simpa using List.find?_some hf
      simp only
      rcases h b hb (hbt ▸ ht) with hp | hp
      · simp only [hp]
        unfold TTree.access at hr
        rw [node_eq hv hb (hbt ▸ hv.id b hb)] at hr
        have hsome := visit_some hr
        refine ⟨_, visit_map _ s (fun m hm => ?_)⟩
        unfold TNode.endEffect
        split
        · rfl
        · exact hsome m hm
      · simp only [hp]
        exact ⟨_, rfl⟩

theorem calms {A : AliasModel} (hA : AliasRules A) : ∃ R M, Lift.Allows A R ∧ Shares A R ∧ Calm A M := by
  cases hA with
  | stacked => exact ⟨StackR, StackM, ⟨stacked_simulates, stacked_starts, fun h => h.2⟩, stacked_shares, stacked_calm⟩
  | miri exempt =>
    exact ⟨MiriR exempt, MiriM, ⟨miri_simulates exempt, miri_starts exempt, fun h => h.2⟩, miri_shares exempt, miri_calm exempt⟩
  | tree how => exact ⟨TreeR, TreeM, ⟨tree_simulates how, tree_starts how, fun h => h.1⟩, tree_shares how, tree_calm how⟩

/-! ## Calls that only read -/

theorem strictRead_less {P P' : List Nat} {t : Nat} {c r : BStack} (h : BStack.strictRead P t c = some r) (hp : ∀ k ∈ P', k ∈ P) :
    BStack.strictRead P' t c = some r := by
  induction c with
  | nil => cases h
  | cons i c ih =>
    rw [BStack.strictRead] at h ⊢
    split at h
    · rename_i h1
      rw [if_pos h1]
      exact h
    · rename_i h1
      split at h
      · cases h
      · rename_i h2
        rw [if_neg h1, if_neg (fun h => h2 (hp _ h))]
        exact ih h

variable {A : AliasModel} {M : List Nat → A.St → Prop} {F : List Nat → Nat → BStack → A.St → Prop}

/-- `F`, while the shared references in `D` are protected. -/
def Calmed (M : List Nat → A.St → Prop) (F : List Nat → Nat → BStack → A.St → Prop) (D P0 : List Nat) (P : List Nat) (n : Nat)
    (c : BStack) (s : A.St) : Prop :=
  ∃ Q, P = Q ++ (D ++ P0) ∧ F (Q ++ P0) n c s ∧ M (Q ++ D) s

theorem calmed_sub {Q D P0 : List Nat} : (∀ k ∈ Q ++ P0, k ∈ Q ++ (D ++ P0)) ∧ ∀ k ∈ Q ++ (D ++ P0), k ∈ Q ++ P0 ∨ k ∈ Q ++ D := by
  constructor
  · intro k hk
    rcases List.mem_append.1 hk with h | h <;> simp [h]
  · intro k hk
    simp only [List.mem_append] at hk ⊢
    rcases hk with h | h | h <;> simp [h]

theorem calmed_simulates (hF : Simulates A F) (hM : Calm A M) (hno : ∀ n, A.retagAccess .shared n ≠ some true)
    {D P0 : List Nat} {n0 : Nat} (hD : ∀ k ∈ D ++ P0, k < n0)
    (hsh : ∀ {P n c s}, F P n c s → (∀ i ∈ c, i.perm = .shared) ∧ (∀ i ∈ c.dropLast, n0 ≤ i.tag) ∧ A.valid n s) :
    Simulates A (Calmed M F D P0) where
  access := by
    rintro P n c s w t r ⟨Q, rfl, h1, h2⟩ hc
    have hw : w = false := by
      cases w with
      | false => rfl
      | true =>
        obtain ⟨x, r, rfl, -, hxp, X, rfl⟩ := chain_result hc
        exact absurd ((hsh h1).1 x (by simp)) (hxp rfl)
    subst hw
    obtain ⟨s', h3, h4⟩ := hF.access h1 (show chain.access (Q ++ P0) false t c = some r from
      strictRead_less (show BStack.strictRead _ t c = some r from hc) calmed_sub.1)
    have h5 := hM.access_eq (t := t) h2 (calmed_sub (P0 := P0)).1 calmed_sub.2
    rw [h3] at h5
    exact ⟨s', h5, Q, rfl, h4, hM.access h2 h5⟩
  retag := by
    rintro P n c s p t r ⟨Q, rfl, h1, h2⟩ hc
    have hp : p = .shared := by
      refine Decidable.byContradiction fun hne => ?_
      obtain ⟨x, r, rfl, -, hxp, X, rfl⟩ := chain_result hc
      exact absurd ((hsh h1).1 x (by simp)) (hxp (by simpa using hne))
    subst hp
    have hc' : chain.access (Q ++ P0) (BPerm.shared != .shared) t c = some r :=
      strictRead_less (show BStack.strictRead _ t c = some r from hc) calmed_sub.1
    obtain ⟨s', h3, h4, h5⟩ := hF.retag h1 hc'
    have key : (match A.retagAccess .shared n with | some w => A.access (Q ++ (D ++ P0)) w t s | none => some s) = some s' ∧
        A.valid n s' ∧ M (Q ++ D) s' := by
      cases ha : A.retagAccess .shared n with
      | none =>
        rw [ha] at h3
        cases h3
        exact ⟨rfl, (hsh h1).2.2, h2⟩
      | some w =>
        rw [ha] at h3
        have hw : w = false := by
          cases w with
          | false => rfl
          | true => exact absurd ha (hno n)
        subst hw
        simp only at h3 ⊢
        have h6 := hM.access_eq (t := t) h2 (calmed_sub (P0 := P0)).1 calmed_sub.2
        rw [h3] at h6
        obtain ⟨s'', h7, h8⟩ := hF.access h1 hc'
        replace h7 : A.access (Q ++ P0) false t s = some s'' := h7
        rw [h3] at h7
        cases h7
        exact ⟨h6, (hsh h8).2.2, hM.access h2 h6⟩
    obtain ⟨h6, h7, h8⟩ := key
    have h9 := hM.push (t := t) h7 h8
    exact ⟨s', h6, ⟨Q, rfl, h4, hM.mono h9 (fun k hk => List.mem_cons_of_mem _ hk)⟩, ⟨n :: Q, rfl, h5, h9⟩⟩
  next := fun ⟨Q, h1, h2, h3⟩ => ⟨Q, h1, hF.next h2, h3⟩
  release := by
    rintro P n c s t r ⟨Q1, he, h1, h2⟩ hc
    have ht : t ∈ c.dropLast.map BItem.tag := by
      simp only at hc
      split at hc
      · assumption
      · cases hc
    obtain ⟨i, hi, rfl⟩ := List.mem_map.1 ht
    cases Q1 with
    | nil =>
      have := (hsh h1).2.1 i hi
      have := hD i.tag (by rw [List.nil_append] at he; rw [← he]; exact List.mem_cons_self)
      omega
    | cons k Q =>
      obtain ⟨rfl, rfl⟩ := List.cons.inj he
      obtain ⟨s', h3, h4⟩ := hF.release h1 hc
      have h5 := hM.release_eq (t := i.tag) h2 (by simp) (calmed_sub (Q := i.tag :: Q) (D := D) (P0 := P0)).1 calmed_sub.2
      replace h3 : A.release (i.tag :: Q ++ P0) i.tag s = some s' := h3
      rw [h3] at h5
      exact ⟨s', h5, Q, rfl, h4, hM.mono (hM.release h2 (by simp) h5) (fun k hk => List.mem_cons_of_mem _ hk)⟩

end PinProject

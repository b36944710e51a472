import Verif.Props.Borrow
/-!
# Reading with a pointer leaves other shared references usable

`Simulates` is about one chain of pointers. Several shared references made from the same one are several chains with a
common part. Here: what is read or made with one chain does not matter for the others.
-/
namespace PinProject
open Spec

/-- Reads with the chain `x ++ h :: com` are harmless for the chain `y ++ h :: com` of shared references. -/
structure Shares (A : AliasModel) (R : List Nat → Nat → BStack → A.St → Prop) : Prop where
  noWrite : ∀ n, A.retagAccess .shared n ≠ some true
  read : ∀ {P P0 : List Nat} {n : Nat} {x y com : BStack} {h : BItem} {s s' : A.St} {t : Nat},
    (∀ k ∈ P0, k ∈ P) → (∀ i ∈ y, i.perm = .shared) → R P n (x ++ h :: com) s → R P0 n (y ++ h :: com) s →
    t ∈ (x ++ [h]).map BItem.tag → A.access P false t s = some s' → R P0 n (y ++ h :: com) s'
  push : ∀ {P0 : List Nat} {n : Nat} {d : BStack} {s : A.St} {t : Nat},
    (∀ k ∈ P0, k < n) → R P0 n d s → A.valid (n + 1) (A.push .shared t n s) → R P0 (n + 1) d (A.push .shared t n s)
  release : ∀ {P P0 P1 : List Nat} {n : Nat} {x y com : BStack} {h : BItem} {s s' : A.St} {t : Nat},
    (∀ k ∈ P0, k ∈ P) → (∀ i ∈ y, i.perm = .shared) → (∀ i ∈ x, i.perm = .shared) →
    R P1 n (x ++ h :: com) s → R P0 n (y ++ h :: com) s → t ∈ x.map BItem.tag →
    A.release (t :: P) t s = some s' → R P0 n (y ++ h :: com) s'

/-! ## Stacked Borrows -/

/-- From the top, `t` comes before `h`, or is `h`. -/
inductive Before {α : Type} (tag : α → Nat) (t h : Nat) : List α → Prop
  | here {i s} (hi : tag i = t) : Before tag t h (i :: s)
  | later {i s} (hi : tag i ≠ h) (hs : Before tag t h s) : Before tag t h (i :: s)

theorem within_before {P : List Nat} {x com : BStack} {h : BItem} {s : BStack} {t : Nat}
    (hw : Within P (x ++ h :: com) s) (ht : t ∈ (x ++ [h]).map BItem.tag) : Before BItem.tag t h.tag s := by
  generalize hc : x ++ h :: com = c at hw
  induction hw generalizing x with
  | nil s => cases x <;> cases hc
  | skip hw hj hp ih =>
    refine .later ?_ (ih ht hc)
    intro e
    exact hj (by rw [← hc, e]; simp)
  | @keep c s a b hw hx hy hp hu ih =>
    cases x with
    | nil =>
      cases hc
      simp only [List.nil_append, List.map_cons, List.map_nil, List.mem_singleton] at ht
      exact .here (hy.trans ht.symm)
    | cons a' x =>
      cases hc
      by_cases hat : b.tag = t
      · exact .here hat
      · refine .later ?_ (ih ?_ rfl)
        · intro e
          exact hx (by rw [← hy, e]; simp)
        · simp only [List.cons_append, List.map_cons, List.mem_cons] at ht
          exact ht.resolve_left (fun e => hat (hy.trans e.symm))

theorem within_read_other {P P0 : List Nat} {y com : BStack} {h : BItem} {s s' : BStack} {t : Nat}
    (hys : ∀ i ∈ y, i.perm = .shared) (hw : Within P0 (y ++ h :: com) s) (hb : Before BItem.tag t h.tag s)
    (hr : BStack.read P t s = some s') : Within P0 (y ++ h :: com) s' ∧ ∀ i ∈ s', i ∈ s := by
  generalize hc : y ++ h :: com = c at hw
  induction hw generalizing y s' with
  | nil s => cases y <;> cases hc
  | @skip c s j hw hj hp ih =>
    by_cases hjt : j.tag = t
    · rw [BStack.read, if_pos hjt] at hr
      cases hr
      exact ⟨.skip hw hj hp, fun i hi => hi⟩
    · have hb' : Before BItem.tag t h.tag s := by
        cases hb with
        | here hi => exact absurd hi hjt
        | later _ hs => exact hs
      rw [BStack.read, if_neg hjt] at hr
      split at hr
      · split at hr
        · cases hr
        · obtain ⟨h1, h2⟩ := ih hys hb' hr hc
          exact ⟨h1, fun i hi => List.mem_cons_of_mem _ (h2 i hi)⟩
      · obtain ⟨r, hr', rfl⟩ := Option.map_eq_some_iff.1 hr
        obtain ⟨h1, h2⟩ := ih hys hb' hr' hc
        refine ⟨.skip h1 hj hp, fun i hi => ?_⟩
        rcases List.mem_cons.1 hi with rfl | hi
        · exact List.mem_cons_self
        · exact List.mem_cons_of_mem _ (h2 i hi)
  | @keep c s a b hw hx hy hp hu ih =>
    by_cases hbt : b.tag = t
    · rw [BStack.read, if_pos hbt] at hr
      cases hr
      exact ⟨.keep hw hx hy hp hu, fun i hi => hi⟩
    · cases hb with
      | here hi => exact absurd hi hbt
      | later hne hb' =>
        cases y with
        | nil =>
          cases hc
          exact absurd hy hne
        | cons a' y =>
          cases hc
          have hnu : b.perm ≠ .unique := hu (by simp) (hys a List.mem_cons_self)
          rw [BStack.read, if_neg hbt, if_neg hnu] at hr
          obtain ⟨r, hr', rfl⟩ := Option.map_eq_some_iff.1 hr
          obtain ⟨h1, h2⟩ := ih (fun i hi => hys i (List.mem_cons_of_mem _ hi)) hb' hr' rfl
          refine ⟨.keep h1 hx hy hp hu, fun i hi => ?_⟩
          rcases List.mem_cons.1 hi with rfl | hi
          · exact List.mem_cons_self
          · exact List.mem_cons_of_mem _ (h2 i hi)

theorem stacked_shares : Shares stacked StackR where
  noWrite := fun n => by simp
  read := by
    intro P P0 n x y com h s s' t _ hy h1 h2 ht hr
    obtain ⟨h3, h4⟩ := within_read_other hy h2.1 (within_before h1.1 ht) hr
    exact ⟨h3, fun i hi => h2.2 i (h4 i hi)⟩
  push := by
    intro P0 n d s t hP h hv
    refine ⟨.skip h.1 ?_ (fun hm => absurd (hP _ hm) (Nat.lt_irrefl _)), hv⟩
    intro hm
    obtain ⟨x, hx, hx2⟩ := List.mem_map.1 hm
    obtain ⟨y, hy, hy2⟩ := within_tags h.1 x hx
    have := h.2 y hy
    simp only at hx2
    omega
  release := by
    intro P P0 P1 n x y com h s s' t _ _ _ _ h2 _ hr
    cases hr
    exact h2

/-! ## Stacked Borrows as in Miri -/

theorem mwithin_before {prot : MItem → Bool} {x com : BStack} {h : BItem} {s : MStack} {t : Nat}
    (hw : MWithin prot (x ++ h :: com) s) (ht : t ∈ (x ++ [h]).map BItem.tag) : Before MItem.tag t h.tag s := by
  generalize hc : x ++ h :: com = c at hw
  induction hw generalizing x with
  | nil s => cases x <;> cases hc
  | skip hw hj hp ih =>
    refine .later ?_ (ih ht hc)
    intro e
    exact hj (by rw [← hc, e]; simp)
  | @keep c s a b hw hy hs hd hp hu ih =>
    cases x with
    | nil =>
      cases hc
      simp only [List.nil_append, List.map_cons, List.map_nil, List.mem_singleton] at ht
      exact .here (hy.trans ht.symm)
    | cons a' x =>
      cases hc
      by_cases hat : b.tag = t
      · exact .here hat
      · refine .later ?_ (ih ?_ rfl)
        · intro e
          obtain ⟨z, hz, hz2⟩ := hw.tags h (by simp)
          exact hs (List.mem_map.2 ⟨z, hz, hz2.trans e.symm⟩)
        · simp only [List.cons_append, List.map_cons, List.mem_cons] at ht
          exact ht.resolve_left (fun e => hat (hy.trans e.symm))

theorem mread_tags {prot : MItem → Bool} {t : Nat} {s s' : MStack} (hr : MStack.read prot t s = some s') :
    s'.map MItem.tag = s.map MItem.tag := by
  induction s generalizing s' with
  | nil => cases hr
  | cons i s ih =>
    rw [MStack.read] at hr
    split at hr
    · cases hr; rfl
    · split at hr
      · cases hr
      · rename_i r hr'
        have := ih hr'
        split at hr
        · split at hr
          · cases hr
          · cases hr; simp [this]
        · cases hr; simp [this]

theorem mwithin_read_other {prot prot0 : MItem → Bool} (hdis : ∀ t, prot ⟨.unique, t⟩ = false → prot0 ⟨.disabled, t⟩ = false)
    {y com : BStack} {h : BItem} {s s' : MStack} {t : Nat} (hnd : (s.map MItem.tag).Nodup) (ht : t ∈ s.map MItem.tag)
    (hys : ∀ i ∈ y, i.perm = .shared) (hw : MWithin prot0 (y ++ h :: com) s) (hb : Before MItem.tag t h.tag s)
    (hr : MStack.read prot t s = some s') : MWithin prot0 (y ++ h :: com) s' := by
  generalize hc : y ++ h :: com = c at hw
  have hcons : ∀ {j : MItem} {s : MStack} {c : BStack} {s' : MStack},
      ¬ (j.tag = t ∧ j.perm.grants false = true) → MStack.read prot t (j :: s) = some s' →
      ∃ r, MStack.read prot t s = some r ∧ ((j.perm = .unique ∧ prot j = false ∧ s' = ⟨.disabled, j.tag⟩ :: r) ∨
        (j.perm ≠ .unique ∧ s' = j :: r)) := by
    intro j s c s' hj hr
    rw [MStack.read, if_neg hj] at hr
    split at hr
    · cases hr
    · rename_i r hr'
      refine ⟨r, hr', ?_⟩
      split at hr
      · rename_i hu
        split at hr
        · cases hr
        · rename_i hp
          exact .inl ⟨hu, by simpa using hp, (Option.some.inj hr).symm⟩
      · rename_i hu
        exact .inr ⟨hu, (Option.some.inj hr).symm⟩
  induction hw generalizing y s' with
  | nil s => cases y <;> cases hc
  | @skip c s j hw hj hp ih =>
    simp only [List.map_cons, List.nodup_cons] at hnd
    by_cases hjt : j.tag = t
    · by_cases hg : j.perm.grants false = true
      · rw [MStack.read, if_pos ⟨hjt, hg⟩] at hr
        cases hr
        exact .skip hw hj hp
      · obtain ⟨r, hr', -⟩ := hcons (c := c) (fun h => hg h.2) hr
        exfalso
        have hno : ∀ {s : MStack} {r : MStack}, MStack.read prot t s = some r → t ∈ s.map MItem.tag := by
          intro s
          induction s with
          | nil => intro r h; cases h
          | cons i s ih =>
            intro r h
            rw [MStack.read] at h
            split at h
            · rename_i h1
              simp [h1.1]
            · split at h
              · cases h
              · rename_i r' hr'
                exact List.mem_cons_of_mem _ (ih hr')
        exact hnd.1 (hjt ▸ hno hr')
    · have hb' : Before MItem.tag t h.tag s := by
        cases hb with
        | here hi => exact absurd hi hjt
        | later _ hs => exact hs
      have ht' : t ∈ s.map MItem.tag := (List.mem_cons.1 ht).resolve_left (fun e => hjt e.symm)
      obtain ⟨r, hr', h1 | h1⟩ := hcons (c := c) (fun h => hjt h.1) hr
      · obtain ⟨hu, hpj, rfl⟩ := h1
        refine .skip (ih hnd.2 ht' hys hb' hr' hc) hj ?_
        intro hp'
        obtain ⟨q, u⟩ := j
        simp only at hu
        subst hu
        rw [hdis u hpj] at hp'
        cases hp'
      · obtain ⟨hu, rfl⟩ := h1
        exact .skip (ih hnd.2 ht' hys hb' hr' hc) hj hp
  | @keep c s a b hw hy hs hd hp hu ih =>
    simp only [List.map_cons, List.nodup_cons] at hnd
    by_cases hbt : b.tag = t
    · rw [MStack.read, if_pos ⟨hbt, hd⟩] at hr
      cases hr
      exact .keep hw hy hs hd hp hu
    · cases hb with
      | here hi => exact absurd hi hbt
      | later hne hb' =>
        cases y with
        | nil =>
          cases hc
          exact absurd hy hne
        | cons a' y =>
          cases hc
          have hnu : b.perm ≠ .unique := hu (by simp) (hys a List.mem_cons_self)
          have ht' : t ∈ s.map MItem.tag := (List.mem_cons.1 ht).resolve_left (fun e => hbt e.symm)
          obtain ⟨r, hr', h1 | h1⟩ := hcons (c := y ++ h :: com) (fun h => hbt h.1) hr
          · exact absurd h1.1 hnu
          · obtain ⟨-, rfl⟩ := h1
            refine .keep (ih hnd.2 ht' (fun i hi => hys i (List.mem_cons_of_mem _ hi)) hb' hr' rfl) hy ?_ hd hp hu
            rw [mread_tags hr']
            exact hs

/-- A new pointer anywhere in the stack. -/
theorem mwithin_insert {prot : MItem → Bool} {c : BStack} {a k : MStack} {q : MItem} (hw : MWithin prot c (a ++ k))
    (hq : prot q = false) (hn : q.tag ∉ (a ++ k).map MItem.tag) : MWithin prot c (a ++ q :: k) := by
  induction a generalizing c with
  | nil => exact .skip hw (hw.notin hn) (fun h => by rw [hq] at h; cases h)
  | cons j a ih =>
    simp only [List.cons_append, List.map_cons, List.mem_cons, not_or] at hn
    rw [List.cons_append] at hw ⊢
    generalize hs : j :: (a ++ k) = s at hw
    cases hw with
    | nil => exact .nil _
    | skip hw hj hp =>
      cases hs
      exact .skip (ih hw hn.2) hj hp
    | keep hw hy hs' hd hp hu =>
      cases hs
      refine .keep (ih hw hn.2) hy ?_ hd hp hu
      intro hm
      rw [List.map_append] at hm hs'
      rcases List.mem_append.1 hm with hm | hm
      · exact hs' (List.mem_append_left _ hm)
      · rcases List.mem_cons.1 hm with hm | hm
        · exact hn.1 hm.symm
        · exact hs' (List.mem_append_right _ hm)

theorem miri_shares (exempt : BPerm → Nat → Bool) : Shares (miri exempt) (MiriR exempt) where
  noWrite := fun n => by
    simp only
    split <;> simp
  read := by
    intro P P0 n x y com h s s' t hP hy h1 h2 ht hr
    have hm : t ∈ s.map MItem.tag := by
      obtain ⟨i, hi, hit⟩ := List.mem_map.1 ht
      obtain ⟨z, hz, hzi⟩ := h1.1.tags i (by
        rcases List.mem_append.1 hi with h | h
        · exact List.mem_append_left _ h
        · exact List.mem_append_right _ (by rw [List.mem_singleton] at h; subst h; exact List.mem_cons_self))
      exact List.mem_map.2 ⟨z, hz, hzi.trans hit⟩
    have hr' : MStack.read (MItem.guarded P) t s = some s' := hr
    refine ⟨mwithin_read_other ?_ h2.2.2 hm hy h2.1 (mwithin_before h1.1 ht) hr', ?_, ?_⟩
    · intro t ht
      simp only [MItem.guarded, Bool.and_eq_false_iff] at ht ⊢
      left
      rcases ht with ht | ht
      · simp only [List.contains_eq_mem, decide_eq_false_iff_not] at ht ⊢
        exact fun h => ht (hP _ h)
      · cases ht
    · intro i hi
      have : i.tag ∈ s.map MItem.tag := by rw [← mread_tags hr']; exact List.mem_map_of_mem hi
      obtain ⟨z, hz, hzi⟩ := List.mem_map.1 this
      rw [← hzi]
      exact h2.2.1 z hz
    · rw [mread_tags hr']
      exact h2.2.2
  push := by
    intro P0 n d s t hP h hv
    have hn : n ∉ s.map MItem.tag := by
      intro hm
      obtain ⟨z, hz, hzi⟩ := List.mem_map.1 hm
      have := h.2.1 z hz
      omega
    have hq : ∀ q : MPerm, (⟨q, n⟩ : MItem).guarded P0 = false := by
      intro q
      simp only [MItem.guarded, Bool.and_eq_false_iff]
      left
      simp only [List.contains_eq_mem, decide_eq_false_iff_not]
      exact fun h => Nat.lt_irrefl _ (hP _ h)
    refine ⟨?_, hv⟩
    simp only
    split
    · unfold MStack.insert
      cases hs : s.split t with
      | none => exact mwithin_insert (a := []) (by exact h.1) (hq _) (by exact hn)
      | some ak =>
        obtain ⟨a, k⟩ := ak
        have := split_append hs
        subst this
        exact mwithin_insert h.1 (hq _) hn
    · exact mwithin_insert (a := []) (by exact h.1) (hq _) (by exact hn)
  release := by
    intro P P0 P1 n x y com h s s' t _ _ _ _ h2 _ hr
    cases hr
    exact h2

/-! ## Tree Borrows -/

/-- The part of a chain below a pointer, and the nodes of the pointers above. -/
theorem line_split {P : List Nat} {n : Nat} {s : TTree} (hv : s.Valid n) {x com : BStack} {h : BItem} {a : TNode}
    (hl : Line P s (x ++ h :: com) a) : ∃ ah, Line P s (h :: com) ah ∧ (∀ k ∈ ah.above, k ∈ a.above) ∧
      ∀ t ∈ (x ++ [h]).map BItem.tag, ∃ b ∈ s, t ∈ b.names ∧ ∀ k ∈ ah.above, k ∈ b.above := by
  generalize hc : x ++ h :: com = c at hl
  induction hl generalizing x with
  | base ha hx hu =>
    cases x with
    | nil =>
      cases hc
      refine ⟨_, .base ha hx hu, fun k h => h, fun t ht => ⟨_, ha, ?_, fun k h => h⟩⟩
      simp only [List.nil_append, List.map_cons, List.map_nil, List.mem_singleton] at ht
      exact ht ▸ hx
    | cons i x => cases x <;> cases hc
  | @alias z w c a hl ha hx hid hp hu ih =>
    cases x with
    | nil =>
      cases hc
      refine ⟨_, .alias hl ha hx hid hp hu, fun k h => h, fun t ht => ⟨_, ha, ?_, fun k h => h⟩⟩
      simp only [List.nil_append, List.map_cons, List.map_nil, List.mem_singleton] at ht
      exact ht ▸ hx
    | cons i x =>
      obtain rfl := (List.cons.inj hc).1
      replace hc := (List.cons.inj hc).2
      obtain ⟨ah, h1, h2, h3⟩ := ih hc
      refine ⟨ah, h1, h2, fun t ht => ?_⟩
      simp only [List.cons_append, List.map_cons, List.mem_cons] at ht
      rcases ht with rfl | ht
      · exact ⟨a, ha, hx, h2⟩
      · exact h3 t ht
  | @own z w c a a' hl ha hid hab hs hp hu ih =>
    have hn : z.tag ∈ a'.names := hid ▸ hv.id a' ha
    cases x with
    | nil =>
      cases hc
      refine ⟨_, .own hl ha hid hab hs hp hu, fun k h => h, fun t ht => ⟨_, ha, ?_, fun k h => h⟩⟩
      simp only [List.nil_append, List.map_cons, List.map_nil, List.mem_singleton] at ht
      exact ht ▸ hn
    | cons i x =>
      obtain rfl := (List.cons.inj hc).1
      replace hc := (List.cons.inj hc).2
      obtain ⟨ah, h1, h2, h3⟩ := ih hc
      have h2' : ∀ k ∈ ah.above, k ∈ a'.above := fun k hk => by rw [hab]; exact List.mem_cons_of_mem _ (h2 k hk)
      refine ⟨ah, h1, h2', fun t ht => ?_⟩
      simp only [List.cons_append, List.map_cons, List.mem_cons] at ht
      rcases ht with rfl | ht
      · exact ⟨a', ha, hn, h2'⟩
      · exact h3 t ht

/-- The nodes of shared references can only be read. -/
theorem line_shared {P : List Nat} {n : Nat} {s : TTree} (hv : s.Valid n) {y com : BStack} {h : BItem} {a : TNode}
    (hl : Line P s (y ++ h :: com) a) (hy : ∀ i ∈ y, i.perm = .shared) : ∃ ah, Line P s (h :: com) ah ∧
      (∀ m ∈ s, m.id ∈ a.above → m.id ∈ ah.above ∨ m.perm = .frozen ∨ m.perm = .cell) ∧
      ∀ m ∈ s, m.id ∈ y.map BItem.tag → (m.perm = .frozen ∨ m.perm = .cell) ∧ ∀ k ∈ ah.above, k ∈ m.above := by
  generalize hc : y ++ h :: com = c at hl
  induction hl generalizing y with
  | base ha hx hu =>
    cases y with
    | nil =>
      cases hc
      exact ⟨_, .base ha hx hu, fun m _ h => .inl h, fun m _ h => by cases h⟩
    | cons i y => cases y <;> cases hc
  | @alias z w c a hl ha hx hid hp hu ih =>
    cases y with
    | nil =>
      cases hc
      exact ⟨_, .alias hl ha hx hid hp hu, fun m _ h => .inl h, fun m _ h => by cases h⟩
    | cons i y =>
      obtain rfl := (List.cons.inj hc).1
      replace hc := (List.cons.inj hc).2
      obtain ⟨ah, h1, h2, h3⟩ := ih (fun j hj => hy j (List.mem_cons_of_mem _ hj)) hc
      refine ⟨ah, h1, h2, fun m hm hmi => ?_⟩
      rcases List.mem_cons.1 hmi with e | hmi
      · have := hv.unique a ha m hm i.tag hx (e ▸ hv.id m hm)
        subst this
        exact absurd e hid
      · exact h3 m hm hmi
  | @own z w c a a' hl ha hid hab hs hp hu ih =>
    have hn : z.tag ∈ a'.names := hid ▸ hv.id a' ha
    cases y with
    | nil =>
      cases hc
      exact ⟨_, .own hl ha hid hab hs hp hu, fun m _ h => .inl h, fun m _ h => by cases h⟩
    | cons i y =>
      obtain rfl := (List.cons.inj hc).1
      replace hc := (List.cons.inj hc).2
      have hy' : ∀ j ∈ y, j.perm = .shared := fun j hj => hy j (List.mem_cons_of_mem _ hj)
      obtain ⟨ah, h1, h2, h3⟩ := ih hy' hc
      have hsub : ∀ k ∈ ah.above, k ∈ a'.above := by
        obtain ⟨ah', h4, h5, -⟩ := line_split hv (x := y) (h := h) (com := com) (a := a) (hc ▸ hl)
        have := hv.unique ah h1.mem ah' h4.mem h.tag (h1.name hv) (h4.name hv)
        subst this
        exact fun k hk => by rw [hab]; exact List.mem_cons_of_mem _ (h5 k hk)
      have hmine : ∀ m ∈ s, m.id = i.tag → m = a' := fun m hm e => hv.unique m hm a' ha i.tag (e ▸ hv.id m hm) hn
      refine ⟨ah, h1, fun m hm hma => ?_, fun m hm hmi => ?_⟩
      · rw [hab] at hma
        rcases List.mem_cons.1 hma with e | hma
        · rw [hmine m hm e]
          exact .inr (hs (hy i List.mem_cons_self))
        · exact h2 m hm hma
      · rcases List.mem_cons.1 hmi with e | hmi
        · rw [hmine m hm e]
          exact ⟨hs (hy i List.mem_cons_self), hsub⟩
        · exact h3 m hm hmi

/-- A change of permissions that does not matter for a chain. -/
theorem treeR_map {P0 : List Nat} {n : Nat} {d : BStack} {s : TTree} {a : TNode} (hv : s.Valid n) (hl : Line P0 s d a)
    (hh : Harmless P0 s d a) {f : TNode → Option TPerm} {s' : TTree} (hs : s.visit f = some s')
    (h1 : ∀ m ∈ s, ∀ p, f m = some p → m.id ∈ a.above → p = m.perm)
    (h2 : ∀ m ∈ s, ∀ p, f m = some p → (m.perm = .disabled → p = .disabled) ∧ (m.perm = .cell → p = .cell) ∧
      (m.perm ≠ .active → p ≠ .active)) : TreeR P0 n d s' := by
  have hsome := visit_some hs
  have hu : ∀ m ∈ s, SameNode m { m with perm := (f m).getD m.perm } := fun m _ => ⟨rfl, rfl, rfl⟩
  have hs' := visit_map f s hsome
  rw [hs] at hs'
  obtain rfl := Option.some.inj hs'
  have hget : ∀ m ∈ s, ∃ p, f m = some p := fun m hm => Option.isSome_iff_exists.1 (hsome m hm)
  refine ⟨valid_map hv hu, _, line_map hu (fun _ h => h) hl ?_, ?_⟩
  · intro m hm hid
    obtain ⟨p, hp⟩ := hget m hm
    simp only [hp, Option.getD_some]
    exact .inl (h1 m hm p hp hid)
  · intro m' hm' hmp
    obtain ⟨m, hm, rfl⟩ := List.mem_map.1 hm'
    obtain ⟨p, hp⟩ := hget m hm
    simp only [hp, Option.getD_some]
    obtain ⟨h3, h4, h5⟩ := h2 m hm p hp
    rcases hh m hm hmp with h | h | h | ⟨h, h'⟩
    · exact .inl h
    · exact .inr (.inl (h3 h))
    · exact .inr (.inr (.inl (h4 h)))
    · exact .inr (.inr (.inr ⟨h, h5 h'⟩))

theorem step_read {isLocal prot : Bool} {q p : TPerm} (h : q.step false isLocal prot = some p) :
    (isLocal = true → p = q) ∧ (q = .frozen → p = q) ∧ (q = .cell → p = q) ∧ (q = .disabled → p = q) ∧
      (q ≠ .active → p ≠ .active) := by
  cases isLocal <;> cases prot <;> cases q <;> simp [TPerm.step] at h <;> subst h <;> simp

theorem tree_shares (how : BPerm → Nat → TreeHow) : Shares (tree how) TreeR where
  noWrite := fun n => by
    simp only
    split <;> simp
  read := by
    intro P P0 n x y com h s s' t hP hy ⟨hv, ac, hlc, _⟩ ⟨_, ad, hld, hhd⟩ ht hr
    have hr' : s.access P false t = some s' := hr
    obtain ⟨ah, h1, -, h2⟩ := line_split hv hlc
    obtain ⟨ah', h3, h4, -⟩ := line_shared hv hld hy
    have := hv.unique ah h1.mem ah' h3.mem h.tag (h1.name hv) (h3.name hv)
    subst this
    obtain ⟨b, hb, hbt, hba⟩ := h2 t ht
    unfold TTree.access at hr'
    rw [node_eq hv hb hbt] at hr'
    refine treeR_map hv hld hhd hr' ?_ ?_
    · intro m hm p hp hma
      unfold TNode.effect at hp
      obtain ⟨h5, h6, h7, -⟩ := step_read hp
      rcases h4 m hm hma with h | h | h
      · exact h5 (by simpa using hba _ h)
      · exact h6 h
      · exact h7 h
    · intro m hm p hp
      unfold TNode.effect at hp
      obtain ⟨-, -, h7, h8, h9⟩ := step_read hp
      exact ⟨fun h => (h8 h).trans h, fun h => (h7 h).trans h, h9⟩
  push := by
    intro P0 n d s t hP ⟨hv, a, hl, hh⟩ hv'
    have hne : ∀ m ∈ s, m.id ≠ n := fun m hm e => by
      have := hv.names m hm _ (hv.id m hm)
      omega
    refine ⟨hv', ?_⟩
    show ∃ a, Line P0 (s.push (how .shared n) .shared t n) d a ∧ Harmless P0 (s.push (how .shared n) .shared t n) d a
    unfold TTree.push
    cases hq : (how .shared n).perm .shared with
    | none =>
      simp only
      refine ⟨_, line_addName (t := t) hv (fun x _ h => h) hl, ?_⟩
      intro m' hm' hmp
      obtain ⟨m, hm, rfl⟩ := List.mem_map.1 hm'
      have hid : ∀ m : TNode, (if m.names.contains t then { m with names := n :: m.names } else m).id = m.id := by
        intro m; split <;> rfl
      have hab : ∀ m : TNode, (if m.names.contains t then { m with names := n :: m.names } else m).above = m.above := by
        intro m; split <;> rfl
      have hpm : ∀ m : TNode, (if m.names.contains t then { m with names := n :: m.names } else m).perm = m.perm := by
        intro m; split <;> rfl
      rw [hid] at hmp
      rw [hid, hab, hpm]
      exact hh m hm hmp
    | some q =>
      simp only
      cases s.node t with
      | none => exact ⟨a, hl, hh⟩
      | some b =>
        simp only
        refine ⟨a, line_addNode hv (fun x _ h => h) _ rfl hl, ?_⟩
        intro m hm hmp
        rcases List.mem_cons.1 hm with rfl | hm
        · exact absurd (hP _ hmp) (Nat.lt_irrefl _)
        · exact hh m hm hmp
  release := by
    intro P P0 P1 n x y com h s s' t hP hy hx ⟨hv, ac, hlc, _⟩ hd ht hr
    have hr' : s.release (t :: P) t = some s' := hr
    have hd' := hd
    obtain ⟨-, ad, hld, hhd⟩ := hd
    obtain ⟨ah, h1, -, h2⟩ := line_shared hv hlc hx
    obtain ⟨ah', h3, h4, -⟩ := line_shared hv hld hy
    have := hv.unique ah h1.mem ah' h3.mem h.tag (h1.name hv) (h3.name hv)
    subst this
    unfold TTree.release at hr'
    cases hf : s.find? (fun m => m.id == t) with
    | none =>
      rw [hf] at hr'
      cases hr'
      exact hd'
    | some b =>
      have hb := List.mem_of_find?_eq_some hf
      have hbt : b.id = t := by simpa using List.find?_some hf
      rw [hf] at hr'
      obtain ⟨h5, h6⟩ := h2 b hb (hbt ▸ ht)
      rcases h5 with h5 | h5
      · simp only [h5] at hr'
        refine treeR_map hv hld hhd hr' ?_ ?_
        · intro m hm p hp hma
          unfold TNode.endEffect at hp
          split at hp
          · exact (Option.some.inj hp).symm
          · unfold TNode.effect at hp
            obtain ⟨h7, h8, h9, -⟩ := step_read hp
            rcases h4 m hm hma with h | h | h
            · exact h7 (by simpa using h6 _ h)
            · exact h8 h
            · exact h9 h
        · intro m hm p hp
          unfold TNode.endEffect at hp
          split at hp
          · cases hp
            exact ⟨id, id, id⟩
          · unfold TNode.effect at hp
            obtain ⟨-, -, h7, h8, h9⟩ := step_read hp
            exact ⟨fun h => (h8 h).trans h, fun h => (h7 h).trans h, h9⟩
      · simp only [h5] at hr'
        cases hr'
        exact hd'

theorem shares {A : AliasModel} (hA : AliasRules A) : ∃ R, Lift.Allows A R ∧ Shares A R := by
  cases hA with
  | stacked => exact ⟨StackR, ⟨stacked_simulates, stacked_starts, fun h => h.2⟩, stacked_shares⟩
  | miri exempt => exact ⟨MiriR exempt, ⟨miri_simulates exempt, miri_starts exempt, fun h => h.2⟩, miri_shares exempt⟩
  | tree how => exact ⟨TreeR, ⟨tree_simulates how, tree_starts how, fun h => h.1⟩, tree_shares how⟩

end PinProject

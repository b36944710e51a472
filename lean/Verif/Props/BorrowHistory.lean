import Verif.Props.BorrowCalm
import Verif.Spec.BorrowHistory
/-!
# C72: programs that use projections obey the aliasing rules
-/
namespace PinProject
open Spec

/-- A pointer that is not protected, and not in `com`. -/
def Loose (P : List Nat) (n : Nat) (com : BStack) (i : BItem) : Prop := i.tag ∉ P ∧ i.tag ∉ com.map BItem.tag ∧ i.tag < n

/-- The references the program has, as a chain. Only parameters of functions in progress are protected, apart from what was
protected at the beginning (`I`). -/
inductive Levels (I P : List Nat) (n : Nat) : List LiveRef → BStack → Prop
  | root {r : LiveRef} {p : BPerm} (hp : r.isMut = true → p ≠ .shared) (hn : r.tag < n) : Levels I P n [r] [⟨p, r.tag⟩]
  | more {r : LiveRef} {rs : List LiveRef} {p : BPerm} {J com : BStack} (h : Levels I P n rs com) (hJ : ∀ i ∈ J, Loose P n com i)
      (hr : Loose I n com ⟨p, r.tag⟩) (hp : r.isMut = true → p ≠ .shared) : Levels I P n (r :: rs) (⟨p, r.tag⟩ :: (J ++ com))

theorem Levels.head {I P : List Nat} {n : Nat} {rs : List LiveRef} {com : BStack} (h : Levels I P n rs com) :
    ∃ r rs' p below, rs = r :: rs' ∧ com = ⟨p, r.tag⟩ :: below ∧ (r.isMut = true → p ≠ .shared) := by
  cases h with
  | root hp hn => exact ⟨_, _, _, _, rfl, rfl, hp⟩
  | more h hJ hr hp => exact ⟨_, _, _, _, rfl, rfl, hp⟩

theorem Levels.lt {I P : List Nat} {n : Nat} {rs : List LiveRef} {com : BStack} (h : Levels I P n rs com) :
    ∀ i ∈ com, i.tag < n := by
  induction h with
  | root hp hn =>
    intro i hi
    rw [List.mem_singleton] at hi
    subst hi
    exact hn
  | more h hJ hr hp ih =>
    intro i hi
    rcases List.mem_cons.1 hi with rfl | hi
    · exact hr.2.2
    · rcases List.mem_append.1 hi with hi | hi
      · exact (hJ i hi).2.2
      · exact ih i hi

theorem Loose.mono {P P' : List Nat} {n n' : Nat} {com : BStack} {i : BItem} (h : Loose P n com i) (hn : n ≤ n')
    (hP : ∀ k ∈ P', k < n → k ∈ P) : Loose P' n' com i :=
  ⟨fun hk => h.1 (hP _ hk h.2.2), h.2.1, Nat.lt_of_lt_of_le h.2.2 hn⟩

theorem Loose.next {P : List Nat} {n n' : Nat} {com : BStack} {i : BItem} (h : Loose P n com i) (hn : n ≤ n') : Loose P n' com i :=
  h.mono hn (fun _ hk _ => hk)

theorem Levels.mono {I P P' : List Nat} {n n' : Nat} {rs : List LiveRef} {com : BStack} (h : Levels I P n rs com) (hn : n ≤ n')
    (hP : ∀ k ∈ P', k < n → k ∈ P) : Levels I P' n' rs com := by
  induction h with
  | root hp hlt => exact .root hp (Nat.lt_of_lt_of_le hlt hn)
  | more h hJ hr hp ih => exact .more ih (fun i hi => (hJ i hi).mono hn hP) (hr.next hn) hp

theorem Levels.next {I P : List Nat} {n n' : Nat} {rs : List LiveRef} {com : BStack} (h : Levels I P n rs com) (hn : n ≤ n') :
    Levels I P n' rs com :=
  h.mono hn (fun _ hk _ => hk)

theorem Levels.tags {I P : List Nat} {n : Nat} {rs : List LiveRef} {com : BStack} (h : Levels I P n rs com) :
    com ≠ [] ∧ ∀ k ∈ rs.dropLast.map LiveRef.tag, k ∈ com.dropLast.map BItem.tag := by
  induction h with
  | root hp hlt => exact ⟨by simp, fun k hk => by cases hk⟩
  | @more r rs p J com h hJ hr hp ih =>
    refine ⟨by simp, fun k hk => ?_⟩
    have hne : J ++ com ≠ [] := fun e => ih.1 (List.append_eq_nil_iff.1 e).2
    have hrs : rs ≠ [] := by
      cases h <;> simp
    rw [List.dropLast_cons_of_ne_nil hrs, List.map_cons] at hk
    rw [List.dropLast_cons_of_ne_nil hne, List.map_cons, List.dropLast_append_of_ne_nil ih.1, List.map_append]
    rcases List.mem_cons.1 hk with rfl | hk
    · exact List.mem_cons_self
    · exact List.mem_cons_of_mem _ (List.mem_append_right _ (ih.2 k hk))

variable {A : AliasModel} {R : List Nat → Nat → BStack → A.St → Prop} {M : List Nat → A.St → Prop}

/-- What holds after every step: `com` is the chain of nested references. -/
structure HChains (R : List Nat → Nat → BStack → A.St → Prop) (I : List Nat) (nested : List LiveRef) (shared : List Nat)
    (P : List Nat) (n : Nat) (s : A.St) (com : BStack) : Prop where
  levels : Levels I P n nested com
  base : ∃ J, (∀ i ∈ J, Loose P n com i) ∧ R P n (J ++ com) s
  shared : ∀ t ∈ shared, ∃ y, (∀ i ∈ y, i.perm = .shared ∧ Loose P n com i) ∧ t ∈ y.map BItem.tag ∧ R P n (y ++ com) s

/-- The shared references functions in progress have got are protected as well, but this does not matter. -/
structure HInv (R : List Nat → Nat → BStack → A.St → Prop) (M : List Nat → A.St → Prop) (I : List Nat) (s : Held × B A) : Prop where
  run : s.2.status = .run
  prot : s.2.prot = s.1.reading ++ (s.1.calls ++ I)
  lt : ∀ k ∈ s.2.prot, k < s.2.next
  calls : ∀ k ∈ s.1.calls, k ∈ s.1.nested.dropLast.map LiveRef.tag
  reading : ∀ k ∈ s.1.reading, k ∈ s.1.shared
  calm : M s.1.reading s.2.mem
  chains : ∃ com, HChains R I s.1.nested s.1.shared (s.1.calls ++ I) s.2.next s.2.mem com

open Lift

theorem start_callable (b : Byte) (m : Bool) (t : Nat) (σ : B A) (hr : σ.status = .run) (hp : ∀ k ∈ σ.prot, k < σ.next)
    (ht : t < σ.next) : Callable b m t (start m t σ) := by
  refine ⟨hr, ?_, hp, ?_⟩
  · intro i hi
    rw [show i = ⟨permOf m, t⟩ by simpa [start] using hi]
    exact ht
  · have hl : ((start m t σ).live && b.within none) = true := by simp [B.live, start, hr, Byte.within]
    unfold B.access
    rw [hl]
    cases m <;> simp [start, permOf, BStack.write, BStack.strictRead, B.set, hr]

/-- Something is done with the first of the nested references, which is mutable. -/
theorem op_mut (hR : Allows A R) (hS : Shares A R) {I : List Nat} {nested : List LiveRef} {shared : List Nat} {σ : B A} {com : BStack}
    (hi : HChains R I nested shared σ.prot σ.next σ.mem com) (hprot : ∀ k ∈ σ.prot, k < σ.next) (hI : ∀ k ∈ I, k ∈ σ.prot) {r : LiveRef}
    {rs : List LiveRef} (hv : nested = r :: rs) (hm : r.isMut = true) :
    r.tag < σ.next ∧ ∃ F, Simulates A F ∧ Rel F σ.prot (start true r.tag σ) σ ∧
      ∀ (σs : B chain) (τ : B A), Rel F σ.prot σs τ → σs.live = true →
        σ.next ≤ τ.next ∧ HChains R I nested [] σ.prot τ.next τ.mem com ∧
        ∀ p' t', t' ≠ r.tag → ⟨p', t'⟩ ∈ σs.mem → p' ≠ .shared →
          ∃ com', HChains R I (⟨true, t'⟩ :: nested) [] σ.prot τ.next τ.mem com' := by
  obtain ⟨r', rs', p, below, h1, rfl, hp⟩ := hi.levels.head
  rw [hv] at h1
  obtain ⟨rfl, rfl⟩ := List.cons.inj h1
  have hlt := hi.levels.lt
  obtain ⟨J, hJ, hRJ⟩ := hi.base
  refine ⟨hlt _ List.mem_cons_self,
    Framed R false σ.prot σ.next r.tag p below below ⟨p, r.tag⟩ (fun _ => False)
      (fun i => Loose σ.prot σ.next (⟨p, r.tag⟩ :: below) i), ?_, ?_, ?_⟩
  · exact framed_simulates hR hS hprot (fun _ h => absurd h id) ⟨[], rfl, fun h => by cases h⟩
  · refine ⟨rfl, rfl, rfl, rfl, rfl, fun _ => ⟨Nat.le_refl _, fun _ h => h, ⟨J, [], .unique, rfl, fun _ => hp hm, by simp,
      fun _ => rfl, ?_, by simp, hRJ, fun h => by cases h⟩, fun h => by cases h⟩⟩
    intro i hi
    refine ⟨?_, (hJ i hi).1, hJ i hi⟩
    intro e
    exact (hJ i hi).2.1 (by simp [e])
  · intro σs τ hrel hlive
    obtain ⟨h1, -, ⟨X, mid, q, h2, -, h4, h5, h6, hnd, h7, -⟩, -⟩ := hrel.mem hlive
    rw [hrel.next]
    have hmid : ∀ i ∈ mid, Loose σ.prot σs.next (⟨p, r.tag⟩ :: below) i := by
      intro i hi
      refine ⟨fun h => ?_, fun h => ?_, (h4 i hi).2⟩
      · have := hprot _ h
        have := (h4 i hi).1
        omega
      · obtain ⟨j, hj, hji⟩ := List.mem_map.1 h
        have := hlt j hj
        have := (h4 i hi).1
        omega
    refine ⟨h1, ⟨hi.levels.next h1, ⟨X ++ mid, ?_, by rw [List.append_assoc]; exact h7⟩, fun t ht => by cases ht⟩, ?_⟩
    · intro i hi
      rcases List.mem_append.1 hi with hi | hi
      · exact (h6 i hi).2.2.next h1
      · exact hmid i hi
    · intro p' t' hne hmem hp'
      rw [h2] at hmem
      have hmem : ⟨p', t'⟩ ∈ mid := by
        rcases List.mem_append.1 hmem with h | h
        · exact h
        · rw [List.mem_singleton] at h
          cases h
          exact absurd rfl hne
      have hX : X = [] := Decidable.byContradiction fun h => by rw [h5 h] at hmem; cases hmem
      subst hX
      obtain ⟨m1, m2, rfl⟩ := List.append_of_mem hmem
      refine ⟨⟨p', t'⟩ :: (m2 ++ (⟨p, r.tag⟩ :: below)), .more (hi.levels.next h1) ?_ ((hmid _ hmem).mono (Nat.le_refl _) (fun k hk _ => hI k hk)) (fun _ => hp'), ⟨m1, ?_, ?_⟩,
        fun t ht => by cases ht⟩
      · exact fun i hi => hmid i (List.mem_append_right _ (List.mem_cons_of_mem _ hi))
      · intro i hi
        obtain ⟨h8, h9, h10⟩ := hmid i (List.mem_append_left _ hi)
        refine ⟨h8, ?_, h10⟩
        rw [List.map_append, List.map_cons, List.nodup_append] at hnd
        have hni := hnd.2.2 i.tag (List.mem_map_of_mem hi)
        intro hmm
        rw [List.map_cons, List.map_append] at hmm
        rcases List.mem_cons.1 hmm with h | h
        · exact hni t' List.mem_cons_self h
        · rcases List.mem_append.1 h with h | h
          · exact hni i.tag (List.mem_cons_of_mem _ h) rfl
          · exact h9 h
      · simpa using h7

theorem op_shared_core (hR : Allows A R) (hS : Shares A R) (hM : Calm A M) {I : List Nat} {nested : List LiveRef} {shared : List Nat}
    {D P0 : List Nat} {σ : B A} {com : BStack} (hi : HChains R I nested shared P0 σ.next σ.mem com) (hσ : σ.prot = D ++ P0)
    (hprot : ∀ k ∈ σ.prot, k < σ.next) (hcalm : M D σ.mem) {t : Nat} {p : BPerm}
    {X0 z below : BStack} (hz : ⟨p, t⟩ :: below = z ++ com) (hzl : ∀ i ∈ z, i.perm = .shared ∧ Loose P0 σ.next com i)
    (hX0 : ∀ i ∈ X0, i.tag ≠ t ∧ Loose P0 σ.next com i) (hR0 : R P0 σ.next (X0 ++ ⟨p, t⟩ :: below) σ.mem) :
    t < σ.next ∧ ∃ F, Simulates A F ∧ Rel F σ.prot (start false t σ) σ ∧
      ∀ (σs : B chain) (τ : B A), Rel F σ.prot σs τ → σs.live = true →
        σ.next ≤ τ.next ∧ M D τ.mem ∧ HChains R I nested shared P0 τ.next τ.mem com ∧
        ∀ p' t', t' ≠ t → ⟨p', t'⟩ ∈ σs.mem →
          HChains R I nested (shared ++ [t']) P0 τ.next τ.mem com := by
  have hP0 : ∀ k ∈ P0, k < σ.next := fun k hk => hprot k (by rw [hσ]; exact List.mem_append_right _ hk)
  obtain ⟨r', rs', ph, cb, h1, rfl, hp⟩ := hi.levels.head
  have hlt := hi.levels.lt
  have ht : t < σ.next := by
    cases z with
    | nil => exact hlt ⟨p, t⟩ (by rw [(List.cons.inj hz).1]; exact List.mem_cons_self)
    | cons i z =>
      have := (hzl i List.mem_cons_self).2.2.2
      rw [← (List.cons.inj hz).1] at this
      exact this
  refine ⟨ht, Calmed M (Framed R true P0 σ.next t p below cb ⟨ph, r'.tag⟩
      (fun y => (∀ i ∈ y, i.perm = .shared) ∧ R P0 σ.next (y ++ ⟨ph, r'.tag⟩ :: cb) σ.mem)
      (fun i => Loose P0 σ.next (⟨ph, r'.tag⟩ :: cb) i)) D P0, ?_, ?_, ?_⟩
  · refine calmed_simulates (n0 := σ.next) (framed_simulates hR hS hP0 (fun _ h => h.1) ⟨z, hz, fun _ i hi => (hzl i hi).1⟩) hM hS.noWrite
      (by rw [← hσ]; exact hprot) ?_
    rintro P n c s ⟨-, -, ⟨X, mid, q, rfl, -, h4, -, -, -, h7, h8⟩, -⟩
    obtain ⟨h9, h10⟩ := h8 rfl
    refine ⟨fun i hi => ?_, fun i hi => ?_, hR.valid h7⟩
    · rcases List.mem_append.1 hi with hi | hi
      · exact h10 i hi
      · rw [List.mem_singleton] at hi
        subst hi
        exact h9
    · rw [List.dropLast_concat] at hi
      exact (h4 i hi).1
  · refine ⟨rfl, rfl, rfl, rfl, rfl, fun _ => ⟨[], hσ, ?_, hcalm⟩⟩
    refine ⟨Nat.le_refl _, fun _ h => h, ⟨X0, [], .shared, rfl, fun h => absurd rfl h, by simp,
      fun _ => rfl, fun i hi => ⟨(hX0 i hi).1, (hX0 i hi).2.1, (hX0 i hi).2⟩, by simp, hR0, fun _ => ⟨rfl, by simp⟩⟩,
      fun _ y hy => hy.2⟩
  · intro σs τ hrel hlive
    obtain ⟨Q, hQ, hF, hMτ⟩ := hrel.mem hlive
    obtain rfl : Q = [] := by
      have := congrArg List.length (hQ.symm.trans hσ)
      rw [List.length_append] at this
      exact List.eq_nil_of_length_eq_zero (by omega)
    obtain ⟨h1, -, ⟨X, mid, q, h2, -, h4, h5, h6, hnd, h7, h8⟩, h9⟩ := hF
    rw [hrel.next]
    have hmid : ∀ i ∈ mid, i.perm = .shared ∧ Loose P0 σs.next (⟨ph, r'.tag⟩ :: cb) i := by
      intro i hi
      refine ⟨(h8 rfl).2 i hi, fun h => ?_, fun h => ?_, (h4 i hi).2⟩
      · have := hP0 _ h
        have := (h4 i hi).1
        omega
      · obtain ⟨j, hj, hji⟩ := List.mem_map.1 h
        have := hlt j hj
        have := (h4 i hi).1
        omega
    have hz' : ∀ i ∈ mid ++ z, i.perm = .shared ∧ Loose P0 σs.next (⟨ph, r'.tag⟩ :: cb) i := by
      intro i hi
      rcases List.mem_append.1 hi with hi | hi
      · exact hmid i hi
      · exact ⟨(hzl i hi).1, (hzl i hi).2.next h1⟩
    rw [hz] at h7
    have hold : ∀ t ∈ shared, ∃ y, (∀ i ∈ y, i.perm = .shared ∧ Loose P0 σs.next (⟨ph, r'.tag⟩ :: cb) i) ∧
        t ∈ y.map BItem.tag ∧ R P0 σs.next (y ++ (⟨ph, r'.tag⟩ :: cb)) τ.mem := by
      intro t ht
      obtain ⟨y, hy1, hy2, hy3⟩ := hi.shared t ht
      exact ⟨y, fun i hi => ⟨(hy1 i hi).1, (hy1 i hi).2.next h1⟩, hy2, h9 rfl y ⟨fun i hi => (hy1 i hi).1, hy3⟩⟩
    have hbase : ∃ J, (∀ i ∈ J, Loose P0 σs.next (⟨ph, r'.tag⟩ :: cb) i) ∧
        R P0 σs.next (J ++ (⟨ph, r'.tag⟩ :: cb)) τ.mem := by
      refine ⟨X ++ (mid ++ z), ?_, by simpa using h7⟩
      intro i hi
      rcases List.mem_append.1 hi with hi | hi
      · exact (h6 i hi).2.2.next h1
      · exact (hz' i hi).2
    refine ⟨h1, hMτ, ⟨hi.levels.next h1, hbase, hold⟩, ?_⟩
    intro p' t' hne hmem
    rw [h2] at hmem
    have hmem : ⟨p', t'⟩ ∈ mid := by
      rcases List.mem_append.1 hmem with h | h
      · exact h
      · rw [List.mem_singleton] at h
        cases h
        exact absurd rfl hne
    have hX : X = [] := Decidable.byContradiction fun h => by rw [h5 h] at hmem; cases hmem
    subst hX
    refine ⟨hi.levels.next h1, hbase, ?_⟩
    intro t'' ht''
    rcases List.mem_append.1 ht'' with h | h
    · exact hold t'' h
    · rw [List.mem_singleton] at h
      subst h
      refine ⟨mid ++ z, hz', ?_, by simpa using h7⟩
      rw [List.map_append]
      exact List.mem_append_left _ (List.mem_map.2 ⟨_, hmem, rfl⟩)

theorem first_split {t : Nat} {y : BStack} (h : t ∈ y.map BItem.tag) :
    ∃ y1 x y2, y = y1 ++ x :: y2 ∧ x.tag = t ∧ ∀ i ∈ y1, i.tag ≠ t := by
  induction y with
  | nil => cases h
  | cons i y ih =>
    by_cases hi : i.tag = t
    · exact ⟨[], i, y, rfl, hi, by simp⟩
    · obtain ⟨y1, x, y2, rfl, h1, h2⟩ := ih ((List.mem_cons.1 h).resolve_left (fun e => hi e.symm))
      refine ⟨i :: y1, x, y2, rfl, h1, fun j hj => ?_⟩
      rcases List.mem_cons.1 hj with rfl | hj
      · exact hi
      · exact h2 j hj

/-- Something is done with a reference that only reads. -/
theorem op_shared (hR : Allows A R) (hS : Shares A R) (hM : Calm A M) {I : List Nat} {v : Held} {D P0 : List Nat} {σ : B A} {com : BStack}
    (hi : HChains R I v.nested v.shared P0 σ.next σ.mem com) (hσ : σ.prot = D ++ P0) (hprot : ∀ k ∈ σ.prot, k < σ.next)
    (hcalm : M D σ.mem) {g : Option Nat} {t : Nat} (ht : v.tag g = some t) :
    t < σ.next ∧ ∃ F, Simulates A F ∧ Rel F σ.prot (start false t σ) σ ∧
      ∀ (σs : B chain) (τ : B A), Rel F σ.prot σs τ → σs.live = true →
        σ.next ≤ τ.next ∧ M D τ.mem ∧ HChains R I v.nested v.shared P0 τ.next τ.mem com ∧
        ∀ p' t', t' ≠ t → ⟨p', t'⟩ ∈ σs.mem →
          HChains R I v.nested (v.shared ++ [t']) P0 τ.next τ.mem com := by
  cases g with
  | none =>
    obtain ⟨r, rs, p, below, h1, h2, hp⟩ := hi.levels.head
    have : t = r.tag := by
      simp only [Held.tag, h1, List.head?_cons, Option.map_some, Option.some.injEq] at ht
      exact ht.symm
    subst this
    obtain ⟨J, hJ, hRJ⟩ := hi.base
    refine op_shared_core hR hS hM hi hσ hprot hcalm (z := []) (X0 := J) (p := p) (below := below) h2.symm (by simp) ?_
      (by rw [← h2]; exact hRJ)
    intro i hi'
    refine ⟨fun e => (hJ i hi').2.1 ?_, hJ i hi'⟩
    rw [h2, e]
    simp
  | some k =>
    have hm : t ∈ v.shared := List.mem_of_getElem? ht
    obtain ⟨y, hy1, hy2, hy3⟩ := hi.shared t hm
    obtain ⟨y1, x, y2, rfl, rfl, hne⟩ := first_split hy2
    have hx := (hy1 x (by simp)).1
    refine op_shared_core hR hS hM hi hσ hprot hcalm (z := x :: y2) (X0 := y1) (p := .shared) (below := y2 ++ com) ?_ ?_ ?_ ?_
    · rw [List.cons_append, ← hx]
    · exact fun i hi => hy1 i (List.mem_append_right _ hi)
    · exact fun i hi => ⟨hne i hi, (hy1 i (List.mem_append_left _ hi)).2⟩
    · rw [← hx]
      simpa using hy3

/-! ## The steps of the strict machine -/

theorem start_access (m : Bool) (t : Nat) (σ : B A) (hr : σ.status = .run) (b : Byte) :
    (start m t σ).access b m none t = start m t σ := by
  have hl : ((start m t σ).live && b.within none) = true := by simp [B.live, start, hr, Byte.within]
  unfold B.access
  rw [hl]
  cases m <;> simp [start, permOf, BStack.write, BStack.strictRead, B.set]

theorem start_retag (m : Bool) (t : Nat) (σ : B A) (hr : σ.status = .run) (b : Byte) :
    (start m t σ).retag b (permOf m) none t =
      (σ.next, { start m t σ with next := σ.next + 1, mem := [⟨permOf m, σ.next⟩, ⟨permOf m, t⟩] }) := by
  have h := start_access m t σ hr b
  have h1 : (BPerm.unique != BPerm.shared) = true := rfl
  have h2 : (BPerm.shared != BPerm.shared) = false := rfl
  cases m with
  | true =>
    unfold B.retag
    simp only [permOf, if_true, h1, h]
    simp [start, Byte.within, permOf]
  | false =>
    unfold B.retag
    simp only [permOf, Bool.false_eq_true, if_false, h2, h]
    simp [start, Byte.within, permOf]

/-- A pointer that can be used is in the chain. -/
theorem access_mem {b : Byte} {w : Bool} {l : Option String} {t : Nat} {σ : B chain} (hr : σ.status = .run)
    (hw : b.within l = true) (h : (σ.access b w l t).status = .run) :
    ∃ p, ⟨p, t⟩ ∈ σ.mem ∧ (w = true → p ≠ .shared) := by
  unfold B.access at h
  rw [show (σ.live && b.within l) = true by simp [B.live, hr, hw]] at h
  cases hc : chain.access σ.prot w t σ.mem with
  | none =>
    rw [if_pos rfl, hc] at h
    simp [B.set] at h
  | some s =>
    clear h
    generalize σ.mem = c at hc ⊢
    induction c with
    | nil => cases w <;> simp [BStack.write, BStack.strictRead] at hc
    | cons i c ih =>
      by_cases hi : i.tag = t
      · obtain ⟨-, h2⟩ := chain_head hc hi
        refine ⟨i.perm, ?_, h2⟩
        rw [← hi]
        exact List.mem_cons_self
      · obtain ⟨p, h1, h2⟩ := ih (chain_cons hc hi).2
        exact ⟨p, List.mem_cons_of_mem _ h1, h2⟩

theorem innerRef_mem {b : Byte} {fields : List (String × BFVal)} {r : LiveRef} (h : innerRef b (some (.adt fields)) = some r) :
    ∃ v ∈ fields, ∃ l, pointer v.2 = some (r.isMut, l, r.tag) ∧ b.within l = true := by
  obtain ⟨v, hv, h2⟩ := List.exists_of_findSome?_eq_some h
  refine ⟨v, hv, ?_⟩
  cases hp : pointer v.2 with
  | none => simp [hp] at h2
  | some q =>
    obtain ⟨m, l, t⟩ := q
    simp only [hp] at h2
    split at h2
    · rename_i hw
      cases h2
      exact ⟨l, rfl, hw⟩
    · cases h2

/-- Is this reference to something that contains the byte? -/
def refWithin (b : Byte) : Option FVal → Bool
  | some (.ref _ l) => b.within l.field
  | some (.pinRef _ l) => b.within l.field
  | _ => false

theorem innerRef_isSome {b : Byte} {m : Bool} {p : Nat} {fs : Fields} {fields : List (String × BFVal)}
    (h : fields.map (fun v => (v.1, untagged p v.2)) = (Spec.fieldRefs m p fs).map (fun v => (v.1, some v.2))) :
    (innerRef b (some (.adt fields))).isSome = (labels fs.list).any b.inField := by
  have h1 : (innerRef b (some (.adt fields))).isSome = (fields.map (fun v => (v.1, untagged p v.2))).any (fun v => refWithin b v.2) := by
    simp only [innerRef, List.any_map]
    clear h
    induction fields with
    | nil => rfl
    | cons v vs ih =>
      rw [List.findSome?_cons, List.any_cons, ← ih]
      obtain ⟨n, v⟩ := v
      cases v with
      | ref m' l t => by_cases hw : b.within l = true <;> simp [pointer, untagged, refWithin, hw]
      | pinRef m' l t => by_cases hw : b.within l = true <;> simp [pointer, untagged, refWithin, hw]
      | own => simp [pointer, untagged, refWithin]
      | phantom => simp [pointer, untagged, refWithin]
  rw [h1, h]
  simp only [Spec.fieldRefs, labels, List.any_map]
  congr 1
  funext x
  simp only [Function.comp, fieldRef]
  split <;> simp [refWithin, Byte.within]

/-- A call of `project` or `project_ref`, with any aliasing rules. -/
theorem op_project {F : List Nat → Nat → BStack → A.St → Prop} (hF : Simulates A F) {m : Bool} {t : Nat} {σ : B A} (c : MCall)
    (hc : Generated (if m then "project" else "project_ref") c) (hr : σ.status = .run) (hp : ∀ k ∈ σ.prot, k < σ.next)
    (ht : t < σ.next) (hrel : Rel F σ.prot (start m t σ) σ) :
    ∃ σs : B chain, Rel F σ.prot σs (c.run t σ).2 ∧ σs.status = .run ∧
      (innerRef c.byte (c.run t σ).1).isSome = c.shape.labels.any c.byte.inField ∧
      ∀ r, innerRef c.byte (c.run t σ).1 = some r → r.isMut = m ∧ r.tag ≠ t ∧
        ∃ p, ⟨p, r.tag⟩ ∈ σs.mem ∧ (m = true → p ≠ .shared) := by
  obtain ⟨item, E, variant, fs, h1, h2, h3, h4, h5, h6, -⟩ := hc
  obtain ⟨fields, σ', h7, h8, h9, h10⟩ := borrow_projection item E h1 h2 m c.fn h3 variant fs h4 c.byte h5 0 t (start m t σ)
    (start_callable c.byte m t σ hr hp ht) c.panics c.tailLeak
  have hrun : σ'.status = .run := (h9 [] (by simp)).1
  have key := Lift.call hF c.byte c.panics c.tailLeak c.fn c.shape t hrel
  rw [h6, h7, ← h6] at key
  rcases key with hu | ⟨e, hrel'⟩
  · simp only at hu
    rw [hrun] at hu
    cases hu
  · refine ⟨σ', hrel', hrun, ?_, fun r hr => ?_⟩
    · unfold MCall.run
      rw [← e, innerRef_isSome h8, h6]
    unfold MCall.run at hr
    rw [← e] at hr
    obtain ⟨v, hv, l, hp, hw⟩ := innerRef_mem hr
    obtain ⟨hm, hne⟩ := h10 v hv _ _ _ hp
    refine ⟨hm, hne hw, access_mem (b := c.byte) (l := l) hrun hw ?_⟩
    have := (h9 [⟨v.2, m⟩] ?_).1
    · simpa [useAll, usePtr, hp] using this
    · intro u hu
      rw [List.mem_singleton] at hu
      subst hu
      refine ⟨List.mem_map_of_mem hv, fun m' l' t' h' hm' => ?_⟩
      rw [hp] at h'
      cases h'
      rw [hm]
      exact hm'

/-- A call of `project_replace` or of the destructor. -/
theorem op_change {F : List Nat → Nat → BStack → A.St → Prop} (hF : Simulates A F) {t : Nat} {σ : B A} (c : MCall)
    (hc : Generated "project_replace" c ∨ GeneratedDrop c) (hr : σ.status = .run) (hp : ∀ k ∈ σ.prot, k < σ.next)
    (ht : t < σ.next) (hrel : Rel F σ.prot (start true t σ) σ) :
    ∃ σs : B chain, Rel F σ.prot σs (c.run t σ).2 ∧ (σs.status = .run ∨ σs.status = .unwind ∨ σs.status = .abort) := by
  have hs := start_callable c.byte true t σ hr hp ht
  have key := Lift.call hF c.byte c.panics c.tailLeak c.fn c.shape t hrel
  have hm : MutationOk c.byte t (bCallFn c.byte c.panics c.tailLeak c.fn c.shape t (start true t σ)) := by
    rcases hc with ⟨item, E, variant, fs, h1, h2, h3, h4, h5, h6, h7⟩ | ⟨item, E, h1, h2⟩
    · rw [h6]
      exact borrow_replace item E h1 h2 c.fn h3 variant fs h4 (h7 rfl) c.byte h5 t _ hs c.panics c.tailLeak
    · rcases dropFn_cases item E h1 with hd | hd
      · rw [hd] at h2
        cases h2
      · rw [hd] at h2
        rw [← Option.some.inj h2]
        exact bCall_drop c.byte c.panics c.tailLeak c.shape t _ hs
  refine ⟨_, (key.resolve_left ?_).2, hm.1⟩
  rcases hm.1 with h | h | h <;> rw [h] <;> simp

/-! ## The steps of a program -/

theorem Held.CanWrite.tag {v : Held} (h : v.CanWrite) :
    v.reading = [] ∧ ∃ r rs, v.nested = r :: rs ∧ r.isMut = true ∧ v.tag none = some r.tag := by
  obtain ⟨h0, r, rs, h1, h2⟩ := h
  exact ⟨h0, r, rs, h1, h2, by simp [Held.tag, h1]⟩

theorem run_live {σ : B A} (h : σ.status = .run) : σ.live = true := by simp [B.live, h]

theorem dropLast_more (new rs : List LiveRef) {k : Nat} (h : k ∈ rs.dropLast.map LiveRef.tag) :
    k ∈ (new ++ rs).dropLast.map LiveRef.tag := by
  cases rs with
  | nil => cases h
  | cons r rs =>
    rw [List.dropLast_append_of_ne_nil (by simp), List.map_append]
    exact List.mem_append_right _ h

/-- After something was done with the first of the nested references, which is mutable. -/
theorem HInv.mut (hM : Calm A M) {I : List Nat} {v : Held} {σ τ : B A} {com : BStack} (hi : HInv R M I (v, σ)) (hr0 : v.reading = [])
    (hr : τ.status = .run) (hp : τ.prot = σ.prot) (hn : σ.next ≤ τ.next) (new : List LiveRef)
    (h : HChains R I (new ++ v.nested) [] σ.prot τ.next τ.mem com) :
    HInv R M I ({ v with nested := new ++ v.nested, shared := [] }, τ) := by
  refine ⟨hr, hp.trans hi.prot, fun k hk => Nat.lt_of_lt_of_le (hi.lt k (hp ▸ hk)) hn,
    fun k hk => dropLast_more new v.nested (hi.calls k hk), fun k hk => ?_, ?_, com, ?_⟩
  · simp only [hr0] at hk
    cases hk
  · simp only [hr0]
    exact hM.nil _
  · have := hi.prot
    simp only [hr0, List.nil_append] at this
    rw [this] at h
    exact h

/-- After something was done with a reference that only reads. -/
theorem HInv.reads {I : List Nat} {v : Held} {σ τ : B A} {com : BStack} (hi : HInv R M I (v, σ))
    (hr : τ.status = .run) (hp : τ.prot = σ.prot) (hn : σ.next ≤ τ.next) (hm : M v.reading τ.mem) (new : List Nat)
    (h : HChains R I v.nested (v.shared ++ new) (v.calls ++ I) τ.next τ.mem com) :
    HInv R M I ({ v with shared := v.shared ++ new }, τ) :=
  ⟨hr, hp.trans hi.prot, fun k hk => Nat.lt_of_lt_of_le (hi.lt k (hp ▸ hk)) hn, hi.calls,
    fun k hk => List.mem_append_left _ (hi.reading k hk), hm, com, h⟩

theorem retag_eq {p : BPerm} {σ : B A} {t : Nat} {s : A.St} (hr : σ.status = .run)
    (h : (match A.retagAccess p σ.next with | some w => A.access σ.prot w t σ.mem | none => some σ.mem) = some s) :
    σ.retag wholeByte p none t = (σ.next, { σ with next := σ.next + 1, mem := A.push p t σ.next s }) := by
  unfold B.retag
  cases ha : A.retagAccess p σ.next with
  | none =>
    rw [ha] at h
    cases h
    simp [Byte.within]
  | some w =>
    rw [ha] at h
    simp only at h
    simp [B.access, B.live, hr, Byte.within, h, B.set]

theorem release_eq {σ : B A} {t : Nat} {s : A.St} (hr : σ.status = .run) (h : A.release σ.prot t σ.mem = some s) :
    σ.release t = { σ with mem := s } := by
  simp [B.release, B.live, hr, h, B.set]

/-- A new shared reference may be protected. -/
theorem retag_calm (hM : Calm A M) (hno : ∀ n, A.retagAccess .shared n ≠ some true) {D : List Nat} {σ : B A} {t : Nat}
    (hr : σ.status = .run) (hc : M D σ.mem) (hv : A.valid σ.next σ.mem)
    (hv' : ∃ s, A.access σ.prot false t σ.mem = some s ∧ A.valid σ.next s) :
    M (σ.next :: D) (σ.retag wholeByte .shared none t).2.mem := by
  obtain ⟨s, h1, h2⟩ := hv'
  cases ha : A.retagAccess .shared σ.next with
  | none =>
    rw [retag_eq (s := σ.mem) hr (by rw [ha])]
    exact hM.push hv hc
  | some w =>
    have hw : w = false := by
      cases w with
      | false => rfl
      | true => exact absurd ha (hno _)
    subst hw
    rw [retag_eq (s := s) hr (by rw [ha]; exact h1)]
    exact hM.push h2 (hM.access hc h1)

theorem act_inv (hR : Allows A R) (hS : Shares A R) (hM : Calm A M) {I : List Nat} {a : Act} {s : Held × B A} (hi : HInv R M I s)
    (ha : a.Allowed s.1) : HInv R M I (act a s) ∨ ((act a s).2.status = .abort ∧ ∃ c, a = .change c) := by
  obtain ⟨v, σ⟩ := s
  have hi' := hi
  obtain ⟨hr, hσ, hp, hcalls, hreading, hcalm, com, hc⟩ := hi'
  simp only at hr hσ hp hcalls hreading hcalm hc ha
  -- with a mutable reference
  have mutable : v.CanWrite → ∃ r rs, v.tag none = some r.tag ∧ v.nested = r :: rs ∧ v.reading = [] ∧
      r.tag < σ.next ∧ ∃ F, Simulates A F ∧ Rel F σ.prot (start true r.tag σ) σ ∧
        ∀ (σs : B chain) (τ : B A), Rel F σ.prot σs τ → σs.live = true →
          σ.next ≤ τ.next ∧ HChains R I v.nested [] σ.prot τ.next τ.mem com ∧
          ∀ p' t', t' ≠ r.tag → ⟨p', t'⟩ ∈ σs.mem → p' ≠ .shared →
            ∃ com', HChains R I (⟨true, t'⟩ :: v.nested) [] σ.prot τ.next τ.mem com' := by
    intro hw
    obtain ⟨h0, r, rs, h1, h2, h3⟩ := Held.CanWrite.tag hw
    rw [h0, List.nil_append] at hσ
    obtain ⟨h4, h5⟩ := op_mut hR hS (by rw [hσ]; exact hc) hp (fun k hk => by rw [hσ]; exact List.mem_append_right _ hk) h1 h2
    exact ⟨r, rs, h3, h1, h0, h4, h5⟩
  cases a with
  | done =>
    left
    obtain ⟨nested, shared, calls, reading⟩ := v
    obtain ⟨hl, ⟨Jb, hJb, hRb⟩, -⟩ := hc
    obtain ⟨h0, ha, hnc⟩ := ha
    simp only at hl h0 ha hnc hcalls hσ hJb hRb
    subst h0
    cases hl with
    | root h1 h2 => simp at ha
    | @more r rs p J com h h1 h2 h3 =>
      have hrs : rs ≠ [] := by rintro rfl; simp at ha
      have hrc : r.tag ∉ calls := hnc r (by simp)
      refine ⟨hr, hσ, hp, fun k hk => ?_, (fun k hk => by cases hk), hM.nil _, com, h, ⟨Jb ++ ⟨p, r.tag⟩ :: J, ?_, by simpa [act] using hRb⟩,
        fun t ht => by cases ht⟩
      · have := hcalls k hk
        rw [List.dropLast_cons_of_ne_nil hrs, List.map_cons] at this
        refine (List.mem_cons.1 this).resolve_left ?_
        rintro rfl
        exact hrc hk
      · intro i hi
        rcases List.mem_append.1 hi with hi | hi
        · obtain ⟨h4, h5, h6⟩ := hJb i hi
          refine ⟨h4, fun h => h5 ?_, h6⟩
          rw [List.map_cons, List.map_append]
          exact List.mem_cons_of_mem _ (List.mem_append_right _ h)
        · rcases List.mem_cons.1 hi with rfl | hi
          · refine ⟨fun h => ?_, h2.2⟩
            rcases List.mem_append.1 h with h | h
            · exact hrc h
            · exact h2.1 h
          · exact h1 i hi
  | write =>
    left
    obtain ⟨r, rs, h3, -, h0, -, F, hF, hrel, hend⟩ := mutable ha
    have := (hrel.w.access hF wholeByte true none r.tag).rel (by rw [start_access true _ σ hr]; simp [start, hr])
    rw [start_access true _ σ hr] at this
    obtain ⟨h4, h5, -⟩ := hend _ _ this (run_live hr)
    simp only [act, h3]
    exact hi.mut hM h0 (this.status.trans hr) this.prot' h4 [] h5
  | read g =>
    left
    obtain ⟨t, h3⟩ := Option.isSome_iff_exists.1 ha
    obtain ⟨-, F, hF, hrel, hend⟩ := op_shared hR hS hM hc hσ hp hcalm h3
    have := (hrel.w.access hF wholeByte false none t).rel (by rw [start_access false _ σ hr]; simp [start, hr])
    rw [start_access false _ σ hr] at this
    obtain ⟨h4, hm, h5, -⟩ := hend _ _ this (run_live hr)
    simp only [act, h3]
    have := hi.reads (this.status.trans hr) this.prot' h4 hm [] (by rw [List.append_nil]; exact h5)
    rw [List.append_nil] at this
    exact this
  | borrowMut =>
    left
    obtain ⟨r, rs, h3, -, h0, hlt, F, hF, hrel, hend⟩ := mutable ha
    have he := start_retag true r.tag σ hr wholeByte
    have := (hrel.w.retag hF wholeByte .unique none r.tag).rel (by rw [show BPerm.unique = permOf true from rfl, he]; simp [start, hr])
    rw [show BPerm.unique = permOf true from rfl, he] at this
    obtain ⟨h4, -, h5⟩ := hend _ _ this (run_live hr)
    obtain ⟨com', h6⟩ := h5 .unique σ.next (Nat.ne_of_gt hlt) (by simp [permOf]) (by simp)
    simp only [act, h3]
    exact hi.mut hM h0 (this.status.trans hr) this.prot' h4 [_] h6
  | borrow g =>
    left
    obtain ⟨t, h3⟩ := Option.isSome_iff_exists.1 ha
    obtain ⟨hlt, F, hF, hrel, hend⟩ := op_shared hR hS hM hc hσ hp hcalm h3
    have he := start_retag false t σ hr wholeByte
    have := (hrel.w.retag hF wholeByte .shared none t).rel (by rw [show BPerm.shared = permOf false from rfl, he]; simp [start, hr])
    rw [show BPerm.shared = permOf false from rfl, he] at this
    obtain ⟨h4, hm, -, h5⟩ := hend _ _ this (run_live hr)
    have h6 := h5 .shared σ.next (Nat.ne_of_gt hlt) (by simp [permOf])
    simp only [act, h3]
    exact hi.reads (this.status.trans hr) this.prot' h4 hm [_] h6
  | project c =>
    left
    obtain ⟨r, rs, h3, -, h0, hlt, F, hF, hrel, hend⟩ := mutable ha.1
    obtain ⟨σs, h4, h5, -, h6⟩ := op_project (m := true) hF c ha.2 hr hp hlt hrel
    obtain ⟨h7, h8, h9⟩ := hend _ _ h4 (run_live h5)
    simp only [act, h3]
    cases hin : innerRef c.byte (c.run r.tag σ).1 with
    | none => exact hi.mut hM h0 (h4.status.trans h5) h4.prot' h7 [] h8
    | some q =>
      obtain ⟨h10, h11, p, h12, h13⟩ := h6 q hin
      obtain ⟨com', h14⟩ := h9 p q.tag h11 h12 (h13 rfl)
      rw [← h10] at h14
      exact hi.mut hM h0 (h4.status.trans h5) h4.prot' h7 [_] h14
  | projectRef g c =>
    left
    obtain ⟨t, h3⟩ := Option.isSome_iff_exists.1 ha.1
    obtain ⟨hlt, F, hF, hrel, hend⟩ := op_shared hR hS hM hc hσ hp hcalm h3
    obtain ⟨σs, h4, h5, -, h6⟩ := op_project (m := false) hF c ha.2 hr hp hlt hrel
    obtain ⟨h7, hm, h8, h9⟩ := hend _ _ h4 (run_live h5)
    simp only [act, h3]
    cases hin : innerRef c.byte (c.run t σ).1 with
    | none => exact hi.reads (h4.status.trans h5) h4.prot' h7 hm [] (by rw [List.append_nil]; exact h8)
    | some q =>
      obtain ⟨h10, h11, p, h12, -⟩ := h6 q hin
      exact hi.reads (h4.status.trans h5) h4.prot' h7 hm [_] (h9 p q.tag h11 h12)
  | change c =>
    obtain ⟨r, rs, h3, -, h0, hlt, F, hF, hrel, hend⟩ := mutable ha.1
    obtain ⟨σs, h4, h5⟩ := op_change hF c ha.2 hr hp hlt hrel
    simp only [act, h3]
    have hs := h4.status
    rcases h5 with h5 | h5 | h5
    · left
      obtain ⟨h7, h8, -⟩ := hend _ _ h4 (run_live h5)
      rw [show caught (c.run r.tag σ).2 = (c.run r.tag σ).2 by simp [caught, hs, h5]]
      exact hi.mut hM h0 (hs.trans h5) h4.prot' h7 [] h8
    · left
      obtain ⟨h7, h8, -⟩ := hend _ _ h4 (by simp [B.live, h5])
      have e : caught (c.run r.tag σ).2 = { (c.run r.tag σ).2 with status := .run } := by simp [caught, hs, h5]
      rw [e]
      exact hi.mut (τ := { (c.run r.tag σ).2 with status := .run }) hM h0 rfl h4.prot' h7 [] h8
    · right
      refine ⟨?_, c, rfl⟩
      simp [caught, hs, h5]
  | enter =>
    left
    obtain ⟨h0, r, rs, h1, h2, h3⟩ := Held.CanWrite.tag ha
    obtain ⟨r', rs', p, below, h1', rfl, hpp⟩ := hc.levels.head
    rw [h1] at h1'
    obtain ⟨rfl, rfl⟩ := List.cons.inj h1'
    obtain ⟨J, hJ, hRJ⟩ := hc.base
    have hlt := hc.levels.lt
    simp only [h0, List.nil_append] at hσ
    have hch : chain.access (v.calls ++ I) (BPerm.unique != .shared) r.tag (J ++ ⟨p, r.tag⟩ :: below) = some (⟨p, r.tag⟩ :: below) := by
      rw [chain_skip J _ (fun i hi => ⟨fun e => (hJ i hi).2.1 (by simp [e]), (hJ i hi).1⟩)]
      exact write_head (hpp h2) below
    obtain ⟨s', h4, -, h5⟩ := hR.simulates.retag hRJ hch
    have he := retag_eq (p := .unique) (t := r.tag) hr (by rw [hσ]; exact h4)
    simp only [act, h3, he]
    have hnot : σ.next ∉ (⟨p, r.tag⟩ :: below : BStack).map BItem.tag := by
      intro hm
      obtain ⟨i, hi, e⟩ := List.mem_map.1 hm
      have := hlt i hi
      omega
    refine ⟨hr, ?_, ?_, ?_, ?_, ?_, ⟨.unique, σ.next⟩ :: ([] ++ ⟨p, r.tag⟩ :: below), ?_, ⟨[], by simp, by simpa using h5⟩, fun t ht => by cases ht⟩
    · simp [hσ, h0]
    · intro k hk
      rcases List.mem_cons.1 hk with rfl | hk
      · exact Nat.lt_succ_self _
      · exact Nat.lt_succ_of_lt (hp k hk)
    · intro k hk
      simp only at hk ⊢
      rw [h1, List.dropLast_cons_of_ne_nil (by simp), List.map_cons, ← h1]
      rcases List.mem_cons.1 hk with rfl | hk
      · exact List.mem_cons_self
      · exact List.mem_cons_of_mem _ (hcalls k hk)
    · intro k hk
      simp only [h0] at hk
      cases hk
    · simp only [h0]
      exact hM.nil _
    · refine .more (hc.levels.mono (Nat.le_succ _) ?_) (by simp) ⟨?_, hnot, Nat.lt_succ_self _⟩ (fun _ => by simp)
      · intro k hk hkn
        rcases List.mem_cons.1 hk with rfl | hk
        · exact absurd hkn (Nat.lt_irrefl _)
        · exact hk
      · intro h
        have := hp σ.next (by rw [hσ]; exact List.mem_append_right _ h)
        omega
  | enterRef g =>
    left
    obtain ⟨t, h3⟩ := Option.isSome_iff_exists.1 ha
    obtain ⟨hlt, F, hF, hrel, hend⟩ := op_shared hR hS hM hc hσ hp hcalm h3
    have hread : ∃ s, A.access σ.prot false t σ.mem = some s ∧ A.valid σ.next s := by
      have := (hrel.w.access hF wholeByte false none t).rel (by rw [start_access false _ σ hr]; simp [start, hr])
      rw [start_access false _ σ hr] at this
      obtain ⟨-, -, ⟨-, ⟨J, -, h5⟩, -⟩, -⟩ := hend _ _ this (run_live hr)
      obtain ⟨s, hs⟩ := allowed (b := wholeByte) hr (this.status.trans hr)
      refine ⟨s, hs, ?_⟩
      have h6 := hR.valid h5
      have e : σ.access wholeByte false none t = { σ with mem := s } := by
        simp [B.access, B.live, hr, Byte.within, hs, B.set]
      rw [e] at h6
      exact h6
    have hv : A.valid σ.next σ.mem := by
      obtain ⟨J, -, h5⟩ := hc.base
      exact hR.valid h5
    have hm' := retag_calm hM hS.noWrite hr hcalm hv hread
    have he := start_retag false t σ hr wholeByte
    have := (hrel.w.retag hF wholeByte .shared none t).rel (by rw [show BPerm.shared = permOf false from rfl, he]; simp [start, hr])
    rw [show BPerm.shared = permOf false from rfl, he] at this
    obtain ⟨h4, hm, -, h5⟩ := hend _ _ this (run_live hr)
    have h6 := h5 .shared σ.next (Nat.ne_of_gt hlt) (by simp [permOf])
    simp only [act, h3]
    have hn : (σ.retag wholeByte .shared none t).2.next = σ.next + 1 := rfl
    have hpr : (σ.retag wholeByte .shared none t).2.prot = σ.prot := this.prot'
    refine ⟨this.status.trans hr, ?_, ?_, hcalls, ?_, hm', com, h6⟩
    · simp only [hpr, hσ]
      rfl
    · intro k hk
      simp only [hpr] at hk
      simp only [hn]
      rcases List.mem_cons.1 hk with rfl | hk
      · exact Nat.lt_succ_self _
      · exact Nat.lt_succ_of_lt (hp k hk)
    · intro k hk
      rcases List.mem_cons.1 hk with rfl | hk
      · exact List.mem_append_right _ (List.mem_singleton.2 rfl)
      · exact List.mem_append_left _ (hreading k hk)
  | leave =>
    left
    obtain ⟨nested, shared, calls, reading⟩ := v
    simp only [Act.Allowed] at ha
    simp only at hσ hcalls hreading hcalm hc
    cases reading with
    | nil =>
      cases calls with
      | nil => simp at ha
      | cons t ts =>
        replace hσ : σ.prot = t :: (ts ++ I) := hσ
        have ht : t ∈ com.dropLast.map BItem.tag := hc.levels.tags.2 t (hcalls t List.mem_cons_self)
        have hrel : ∀ {y}, R (t :: (ts ++ I)) σ.next (y ++ com) σ.mem →
            ∃ s', A.release σ.prot t σ.mem = some s' ∧ R (ts ++ I) σ.next (y ++ com) s' := by
          intro y hy
          rw [hσ]
          refine hR.simulates.release hy (if_pos ?_)
          rw [List.dropLast_append_of_ne_nil hc.levels.tags.1, List.map_append]
          exact List.mem_append_right _ ht
        have hless : ∀ k ∈ ts ++ I, k < σ.next → k ∈ t :: ts ++ I := fun k hk _ => List.mem_cons_of_mem _ hk
        obtain ⟨J, hJ, hRJ⟩ := hc.base
        obtain ⟨s', h1, h2⟩ := hrel hRJ
        simp only [act, release_eq hr h1]
        refine ⟨hr, by simp [hσ], fun k hk => hp k (by rw [hσ] at hk ⊢; exact List.mem_cons_of_mem _ hk),
          fun k hk => hcalls k (List.mem_cons_of_mem _ hk), hreading, hM.nil _, com,
          hc.levels.mono (Nat.le_refl _) hless, ⟨J, fun i hi => (hJ i hi).mono (Nat.le_refl _) hless, h2⟩, ?_⟩
        intro u hu
        obtain ⟨y, hy1, hy2, hy3⟩ := hc.shared u hu
        obtain ⟨s'', h3, h4⟩ := hrel hy3
        rw [h1] at h3
        cases h3
        exact ⟨y, fun i hi => ⟨(hy1 i hi).1, (hy1 i hi).2.mono (Nat.le_refl _) hless⟩, hy2, h4⟩
    | cons t ts =>
      have hsub1 : ∀ k ∈ calls ++ I, k ∈ σ.prot := fun k hk => by rw [hσ]; exact List.mem_append_right _ hk
      have hsub2 : ∀ k ∈ σ.prot, k ∈ calls ++ I ∨ k ∈ t :: ts := fun k hk => by
        rw [hσ] at hk
        exact (List.mem_append.1 hk).symm
      obtain ⟨x, hx1, hx2, hx3⟩ := hc.shared t (hreading t List.mem_cons_self)
      -- it can be read with the parameter, so the end of the call is allowed
      have hread : ∃ s, A.access σ.prot false t σ.mem = some s := by
        obtain ⟨x1, z, x2, rfl, rfl, hne⟩ := first_split hx2
        have hch : chain.access (calls ++ I) false z.tag (x1 ++ z :: x2 ++ com) = some (z :: (x2 ++ com)) := by
          rw [List.append_assoc, chain_skip x1 _ (fun i hi => ⟨hne i hi, (hx1 i (List.mem_append_left _ hi)).2.1⟩)]
          exact read_head _
        obtain ⟨s, h1, -⟩ := hR.simulates.access hx3 hch
        exact ⟨s, by rw [hM.access_eq hcalm hsub1 hsub2]; exact h1⟩
      obtain ⟨s1, hs1⟩ := hread
      obtain ⟨s', h1⟩ := hM.release_some (hR.valid hx3) hcalm List.mem_cons_self hs1
      have h2 : A.release (t :: (calls ++ I)) t σ.mem = some s' := by
        rw [← h1]
        refine (hM.release_eq hcalm List.mem_cons_self ?_ ?_).symm
        · intro k hk
          rcases List.mem_cons.1 hk with rfl | hk
          · rw [hσ]
            exact List.mem_cons_self
          · exact hsub1 k hk
        · exact fun k hk => (hsub2 k hk).imp (List.mem_cons_of_mem _) id
      obtain ⟨r, rs, p, below, -, rfl, -⟩ := hc.levels.head
      have hall : ∀ {y : BStack}, (∀ i ∈ y, i.perm = .shared ∧ Loose (calls ++ I) σ.next (⟨p, r.tag⟩ :: below) i) →
          R (calls ++ I) σ.next (y ++ ⟨p, r.tag⟩ :: below) σ.mem → R (calls ++ I) σ.next (y ++ ⟨p, r.tag⟩ :: below) s' :=
        fun hy hRy => hS.release (fun _ h => h) (fun i hi => (hy i hi).1) (fun i hi => (hx1 i hi).1) hx3 hRy hx2 h2
      simp only [act, release_eq hr h1]
      refine ⟨hr, by simp [hσ], fun k hk => hp k ?_, hcalls, fun k hk => hreading k (List.mem_cons_of_mem _ hk),
        hM.mono (hM.release hcalm List.mem_cons_self h1) (fun k hk => List.mem_cons_of_mem _ hk), _, hc.levels,
        ⟨x, fun i hi => (hx1 i hi).2, hall hx1 hx3⟩, ?_⟩
      · simp only [hσ, List.cons_append, List.tail_cons] at hk
        rw [hσ]
        exact List.mem_cons_of_mem _ hk
      · intro u hu
        obtain ⟨y, hy1, hy2, hy3⟩ := hc.shared u hu
        exact ⟨y, hy1, hy2, hall hy1 hy3⟩

theorem Levels.find {I P : List Nat} {n : Nat} {rs : List LiveRef} {com : BStack} (h : Levels I P n rs com) {C : List Nat}
    (hP : P = C ++ I) : ∀ r ∈ inProgress C rs, ∃ X p below, com = X ++ ⟨p, r.tag⟩ :: below ∧ (∀ i ∈ X, i.tag ≠ r.tag ∧ i.tag ∉ P) ∧
      (r.isMut = true → p ≠ .shared) := by
  induction h with
  | @root r' p hp hn =>
    intro r hr
    have : r = r' := by
      unfold inProgress at hr
      split at hr <;> simpa [inProgress] using hr
    subst this
    exact ⟨[], _, [], rfl, by simp, hp⟩
  | @more r' rs p J com h hJ hr' hp ih =>
    intro r hr
    unfold inProgress at hr
    split at hr
    · rw [List.mem_singleton] at hr
      subst hr
      exact ⟨[], _, _, rfl, by simp, hp⟩
    · rename_i hC
      rcases List.mem_cons.1 hr with rfl | hr
      · exact ⟨[], _, _, rfl, by simp, hp⟩
      · obtain ⟨X, q, below, rfl, h1, h2⟩ := ih r hr
        refine ⟨⟨p, r'.tag⟩ :: (J ++ X), q, below, by simp, ?_, h2⟩
        have hm : r.tag ∈ (X ++ ⟨q, r.tag⟩ :: below).map BItem.tag := by simp
        intro i hi
        rcases List.mem_cons.1 hi with rfl | hi
        · refine ⟨fun e => hr'.2.1 (by rw [e]; exact hm), fun h => ?_⟩
          rw [hP] at h
          rcases List.mem_append.1 h with h | h
          · exact hC h
          · exact hr'.1 h
        · rcases List.mem_append.1 hi with hi | hi
          · exact ⟨fun e => (hJ i hi).2.1 (by rw [e]; exact hm), (hJ i hi).1⟩
          · exact h1 i hi

theorem usable_of (hR : Allows A R) {σ : B A} (hr : σ.status = .run) {X below : BStack} {p : BPerm} {t : Nat} {w : Bool}
    (h : R σ.prot σ.next (X ++ ⟨p, t⟩ :: below) σ.mem) (hX : ∀ i ∈ X, i.tag ≠ t ∧ i.tag ∉ σ.prot) (hp : w = true → p ≠ .shared) :
    (σ.access wholeByte w none t).status = .run := by
  have hc : chain.access σ.prot w t (X ++ ⟨p, t⟩ :: below) = some (⟨p, t⟩ :: below) := by
    rw [chain_skip X _ hX]
    cases w with
    | true => exact write_head (hp rfl) below
    | false => exact read_head below
  obtain ⟨r', h1, -⟩ := hR.simulates.access h hc
  unfold B.access
  rw [show (σ.live && wholeByte.within none) = true by simp [B.live, hr, Byte.within], if_pos rfl, h1]
  exact hr

theorem HInv.usable (hR : Allows A R) (hS : Shares A R) (hM : Calm A M) {I : List Nat} {s : Held × B A} (h : HInv R M I s) : AllUsable s := by
  obtain ⟨hr, hσ, hp, -, -, hcalm, com, hc⟩ := h
  constructor
  · intro h0 r hm
    rw [h0, List.nil_append] at hσ
    obtain ⟨J, hJ, hRJ⟩ := hc.base
    obtain ⟨X, p, below, rfl, h1, h2⟩ := hc.levels.find rfl r hm
    refine usable_of hR hr (X := J ++ X) (p := p) (below := below) (by rw [hσ]; simpa using hRJ) ?_ h2
    rw [hσ]
    intro i hi
    rcases List.mem_append.1 hi with hi | hi
    · exact ⟨fun e => (hJ i hi).2.1 (by rw [e]; simp), (hJ i hi).1⟩
    · exact h1 i hi
  · intro g t ht
    obtain ⟨-, F, hF, hrel, -⟩ := op_shared hR hS hM hc hσ hp hcalm ht
    have := (hrel.w.access hF wholeByte false none t).rel (by rw [start_access false _ s.2 hr]; simp [start, hr])
    rw [start_access false _ s.2 hr] at this
    exact this.status.trans hr

theorem HInv.valid (hR : Allows A R) {I : List Nat} {s : Held × B A} (h : HInv R M I s) : A.valid s.2.next s.2.mem :=
  let ⟨_, _, _, _, _, _, _, _, ⟨_, _, h⟩, _⟩ := h
  hR.valid h

theorem act_last {a : Act} {s : Held × B A} (ha : a.Allowed s.1) : (act a s).1.nested.getLast? = s.1.nested.getLast? := by
  obtain ⟨⟨nested, shared, calls, reading⟩, σ⟩ := s
  have hcons : ∀ (l : List LiveRef) (r0 : LiveRef) (rs : List LiveRef), (l ++ r0 :: rs).getLast? = (r0 :: rs).getLast? := by
    intro l r0 rs
    rw [List.getLast?_append]
    simp [List.getLast?_cons]
  cases a with
  | done =>
    obtain ⟨-, ha, -⟩ := ha
    match nested, ha with
    | r :: r' :: rs, _ => simp [act, List.getLast?_cons]
  | write => simp only [act]; split <;> rfl
  | read g => simp only [act]; split <;> rfl
  | borrow g => simp only [act]; split <;> rfl
  | projectRef g c => simp only [act]; split <;> rfl
  | change c => simp only [act]; split <;> rfl
  | enterRef g => simp only [act]; split <;> rfl
  | leave => simp only [act]; split <;> rfl
  | borrowMut =>
    obtain ⟨-, r, rs, h1, h2, h3⟩ := Held.CanWrite.tag ha
    simp only [act, h3]
    simp only at h1
    rw [h1]
    exact hcons [_] r rs
  | enter =>
    obtain ⟨-, r, rs, h1, h2, h3⟩ := Held.CanWrite.tag ha
    simp only [act, h3]
    simp only at h1
    rw [h1]
    exact hcons [_] r rs
  | project c =>
    obtain ⟨-, r, rs, h1, h2, h3⟩ := Held.CanWrite.tag ha.1
    simp only [act, h3]
    simp only at h1
    rw [h1]
    exact hcons _ r rs

theorem history_stays {as : List Act} {s : Held × B A} (h : s.2.status ≠ .run) : history as s = s := by
  induction as with
  | nil => rfl
  | cons a as ih =>
    simp only [history, List.foldl_cons, h, if_false]
    exact ih

theorem history_inv (hR : Allows A R) (hS : Shares A R) (hM : Calm A M) {I : List Nat} : ∀ (as : List Act) (s : Held × B A),
    HInv R M I s → Permitted as s →
    (HInv R M I (history as s) ∨ ((history as s).2.status = .abort ∧ ∃ c, .change c ∈ as)) ∧
      (history as s).1.nested.getLast? = s.1.nested.getLast? := by
  intro as
  induction as with
  | nil => exact fun s h _ => ⟨.inl h, rfl⟩
  | cons a as ih =>
    intro s h hp
    obtain ⟨h1, h2⟩ := hp h.run
    have e : history (a :: as) s = history as (act a s) := by
      simp only [history, List.foldl_cons, h.run, if_true]
    rw [e]
    rcases act_inv hR hS hM h h1 with h3 | ⟨h3, c, rfl⟩
    · obtain ⟨h4, h5⟩ := ih _ h3 h2
      refine ⟨h4.imp id (fun ⟨h6, c, h7⟩ => ⟨h6, c, List.mem_cons_of_mem _ h7⟩), h5.trans (act_last h1)⟩
    · rw [history_stays (by rw [h3]; simp)]
      exact ⟨.inr ⟨h3, c, List.mem_cons_self⟩, act_last h1⟩

theorem HInv.init (hR : Allows A R) (hM : Calm A M) {m : Bool} {t0 : Nat} {σ : B A} (h : Callable wholeByte m t0 σ) :
    HInv R M σ.prot (.only m t0, σ) := by
  obtain ⟨s, hs⟩ := allowed h.run h.usable
  obtain ⟨h1, h2⟩ := hR.starts h.valid hs
  exact ⟨h.run, rfl, h.prot, (fun k hk => by cases hk), (fun k hk => by cases hk), hM.nil _, _,
    .root (r := ⟨m, t0⟩) (p := permOf m) (by rintro rfl; simp [permOf]) h1, ⟨[], by simp, h2⟩, fun t ht => by cases ht⟩

/-! ## C72 -/

/-- **C72** a program that has a usable reference to a value of an annotated type, and does with it any number of things the borrow
checker allows, in any order: it makes further references, calls generated methods (also of the types of fields, with the references
other calls have returned), uses what they return, or stops using it, calls functions of its own with references as parameters, which return or unwind, and so on.
Then there is no undefined behaviour, under all aliasing
rules and for every byte: the program goes on running, or is aborted because a destructor panicked during a panic, which needs
a call of `project_replace` or of the destructor. If it goes on, all references of the function in progress can be used, and exactly the
parameters of functions in progress are protected. The reference it had at the beginning is still there, and when no function is in
progress it can be used and everything can begin again. -/
theorem C72_history {A : AliasModel} (hA : AliasRules A) (m : Bool) (t0 : Nat) (σ : B A) (hσ : Callable wholeByte m t0 σ)
    (as : List Act) (has : Permitted as (.only m t0, σ)) :
    let s := history as (.only m t0, σ)
    ((s.2.status = .run ∧ AllUsable s ∧ s.2.prot = s.1.reading ++ s.1.calls ++ σ.prot ∧
        (s.1.calls = [] → s.1.reading = [] → Callable wholeByte m t0 s.2)) ∨
      (s.2.status = .abort ∧ ∃ c, .change c ∈ as)) ∧
      s.1.nested.getLast? = some ⟨m, t0⟩ := by
  obtain ⟨R, M, hR, hS, hM⟩ := calms hA
  obtain ⟨h1, h2⟩ := history_inv hR hS hM as _ (.init hR hM hσ) has
  refine ⟨h1.imp (fun h => ⟨h.run, h.usable hR hS hM, by rw [List.append_assoc]; exact h.prot, fun h3 h4 => ⟨h.run, h.valid hR, h.lt, ?_⟩⟩) id, h2⟩
  refine (h.usable hR hS hM).1 h4 ⟨m, t0⟩ ?_
  rw [h3]
  have : ∀ rs : List LiveRef, inProgress [] rs = rs := by
    intro rs
    induction rs with
    | nil => rfl
    | cons r rs ih => simp [inProgress, ih]
  rw [this]
  exact List.mem_of_getLast? h2

/-- **C72** in such a program, `project` gives a mutable reference to what contains the byte if some field contains it, and only
then. -/
theorem C72_project {A : AliasModel} (hA : AliasRules A) (m : Bool) (t0 : Nat) (σ : B A) (hσ : Callable wholeByte m t0 σ)
    (as : List Act) (has : Permitted as (.only m t0, σ)) (s : Held × B A) (hs : history as (.only m t0, σ) = s)
    (hr : s.2.status = .run) (c : MCall) (hw : s.1.CanWrite) (hc : Generated "project" c) :
    ∃ new, (act (.project c) s).1 = { s.1 with nested := new ++ s.1.nested, shared := [] } ∧ (∀ r ∈ new, r.isMut = true) ∧
      new.length = if c.shape.labels.any c.byte.inField then 1 else 0 := by
  obtain ⟨R, M, hR, hS, hM⟩ := calms hA
  have hi : HInv R M σ.prot s := by
    rw [← hs]
    refine (history_inv hR hS hM as _ (.init hR hM hσ) has).1.resolve_right (fun h => ?_)
    rw [hs, hr] at h
    cases h.1
  obtain ⟨-, hσs, hp, -, -, -, com, hcs⟩ := hi
  obtain ⟨h0, r, rs, h1, h2, h3⟩ := Held.CanWrite.tag hw
  rw [h0, List.nil_append] at hσs
  obtain ⟨hlt, F, hF, hrel, -⟩ := op_mut hR hS (by rw [hσs]; exact hcs) hp (fun k hk => by rw [hσs]; exact List.mem_append_right _ hk) h1 h2
  obtain ⟨σs, -, -, h4, h5⟩ := op_project (m := true) hF c hc hr hp hlt hrel
  refine ⟨(innerRef c.byte (c.run r.tag s.2).1).toList, by simp [act, h3], ?_, ?_⟩
  · intro q hq
    exact (h5 q (by simpa using hq)).1
  · rw [← h4]
    cases innerRef c.byte (c.run r.tag s.2).1 <;> rfl

/-- **C72** `project_ref`, likewise, gives a shared reference. -/
theorem C72_project_ref {A : AliasModel} (hA : AliasRules A) (m : Bool) (t0 : Nat) (σ : B A) (hσ : Callable wholeByte m t0 σ)
    (as : List Act) (has : Permitted as (.only m t0, σ)) (s : Held × B A) (hs : history as (.only m t0, σ) = s)
    (hr : s.2.status = .run) (c : MCall) (g : Option Nat) (hg : (s.1.tag g).isSome) (hc : Generated "project_ref" c) :
    ∃ new, (act (.projectRef g c) s).1 = { s.1 with shared := s.1.shared ++ new } ∧
      new.length = if c.shape.labels.any c.byte.inField then 1 else 0 := by
  obtain ⟨R, M, hR, hS, hM⟩ := calms hA
  have hi : HInv R M σ.prot s := by
    rw [← hs]
    refine (history_inv hR hS hM as _ (.init hR hM hσ) has).1.resolve_right (fun h => ?_)
    rw [hs, hr] at h
    cases h.1
  obtain ⟨-, hσs, hp, -, -, hcalm, com, hcs⟩ := hi
  obtain ⟨t, h3⟩ := Option.isSome_iff_exists.1 hg
  obtain ⟨hlt, F, hF, hrel, -⟩ := op_shared hR hS hM hcs hσs hp hcalm h3
  obtain ⟨σs, -, -, h4, -⟩ := op_project (m := false) hF c hc hr hp hlt hrel
  refine ⟨((innerRef c.byte (c.run t s.2).1).map LiveRef.tag).toList, by simp [act, h3], ?_⟩
  rw [← h4]
  cases innerRef c.byte (c.run t s.2).1 <;> rfl

/-! ## The hypotheses are met -/

/-- The functions generated for `demoReplace`. -/
def demoFn (name : String) : GFn :=
  match parseDerive (.struct_ demoReplace) with
  | .ok E => (method E name).getD genDropFn
  | .error _ => genDropFn

/-- A call for the byte of `demoByte`; the destructors in `panics` panic. -/
def demoCall (name : String) (panics : BOracle) : MCall :=
  { byte := demoByte, fn := demoFn name, shape := ⟨none, ["a", "b", "c"]⟩, panics, tailLeak := false }

theorem demoCall_generated (name : String) (hn : name = "project" ∨ name = "project_ref" ∨ name = "project_replace")
    (panics : BOracle) : Generated name (demoCall name panics) := by
  have key : ∃ E, parseDerive (.struct_ demoReplace) = .ok E ∧ method E name = some (demoFn name) := by
    rcases hn with rfl | rfl | rfl <;> exact ⟨_, rfl, rfl⟩
  obtain ⟨E, h1, h2⟩ := key
  exact ⟨.struct_ demoReplace, E, none, demoReplace.fields, h1, demoReplace_wf, h2, ⟨rfl, rfl⟩, demoByte_one, rfl,
    fun _ => demoReplace_free⟩

/-- A program: `project` twice, the second time with the field `a` (whose type is the same, for this example), write; make two shared
references, use `project_ref` with one, read all of them; go back to the first projection and write; go back to the beginning and replace the value, during
which a destructor panics; write and `project` again. -/
def demoProgram : List Act :=
  [.borrowMut, .project (demoCall "project" (fun _ => false)), .project (demoCall "project" (fun _ => false)), .write,
   .borrow none, .borrow none, .projectRef (some 1) (demoCall "project_ref" (fun _ => false)), .read (some 0), .read (some 2),
   .read (some 1), .read none, .read (some 2), .done, .write, .done, .done,
   .change (demoCall "project_replace" (fun n => n == 0)), .write, .project (demoCall "project" (fun _ => false)), .write]

set_option maxRecDepth 20000 in
theorem demoProgram_permitted : Permitted demoProgram (.only true 1, demoB) := by
  have hp := demoCall_generated "project" (.inl rfl)
  have hf := demoCall_generated "project_ref" (.inr (.inl rfl))
  have hr := demoCall_generated "project_replace" (.inr (.inr rfl))
  have w : ∀ {r : LiveRef} {rs sh cs}, r.isMut = true → Held.CanWrite ⟨r :: rs, sh, cs, []⟩ := fun h => ⟨rfl, _, _, rfl, h⟩
  have d : ∀ {r r' : LiveRef} {rs sh}, Act.Allowed ⟨r :: r' :: rs, sh, [], []⟩ .done :=
    fun {r r' rs sh} => ⟨rfl, by simp, fun _ _ h => by cases h⟩
  exact fun _ => ⟨w rfl, fun _ => ⟨⟨w rfl, hp _⟩, fun _ => ⟨⟨w rfl, hp _⟩, fun _ => ⟨w rfl, fun _ => ⟨rfl, fun _ => ⟨rfl,
    fun _ => ⟨⟨rfl, hf _⟩, fun _ => ⟨rfl, fun _ => ⟨rfl, fun _ => ⟨rfl, fun _ => ⟨rfl, fun _ => ⟨rfl,
    fun _ => ⟨d, fun _ => ⟨w rfl, fun _ => ⟨d, fun _ => ⟨d,
    fun _ => ⟨⟨w rfl, .inl (hr _)⟩, fun _ => ⟨w rfl, fun _ => ⟨⟨w rfl, hp _⟩, fun _ => ⟨w rfl, trivial⟩⟩⟩⟩⟩⟩⟩⟩⟩⟩⟩⟩⟩⟩⟩⟩⟩⟩⟩⟩

set_option maxRecDepth 20000 in
/-- It runs to the end, with two references. -/
example : (history demoProgram (.only true 1, demoB)).2.status = .run ∧
    (history demoProgram (.only true 1, demoB)).1.nested.length = 2 := by
  exact ⟨rfl, rfl⟩

/-- A program with functions: one is called with a mutable reference, projects it and writes; it calls two functions with shared
references, which are in progress at the same time, and one uses `project_ref`; after they have returned it writes again and
returns; then what was made from its parameter is used, and then the first reference. -/
def demoFunctions : List Act :=
  [.enter, .project (demoCall "project" (fun _ => false)), .write, .borrow none, .enterRef (some 0), .enterRef (some 0),
   .projectRef (some 2) (demoCall "project_ref" (fun _ => false)), .read none, .read (some 3), .leave, .read (some 2), .leave,
   .read (some 1), .write, .leave, .write, .done, .write, .done, .write]

set_option maxRecDepth 20000 in
theorem demoFunctions_permitted : Permitted demoFunctions (.only true 1, demoB) := by
  have hp := demoCall_generated "project" (.inl rfl)
  have hf := demoCall_generated "project_ref" (.inr (.inl rfl))
  have w : ∀ {r : LiveRef} {rs sh cs}, r.isMut = true → Held.CanWrite ⟨r :: rs, sh, cs, []⟩ := fun h => ⟨rfl, _, _, rfl, h⟩
  have d : ∀ {r r' : LiveRef} {rs sh}, Act.Allowed ⟨r :: r' :: rs, sh, [], []⟩ .done :=
    fun {r r' rs sh} => ⟨rfl, by simp, fun _ _ h => by cases h⟩
  exact fun _ => ⟨w rfl, fun _ => ⟨⟨w rfl, hp _⟩, fun _ => ⟨w rfl, fun _ => ⟨rfl, fun _ => ⟨rfl, fun _ => ⟨rfl,
    fun _ => ⟨⟨rfl, hf _⟩, fun _ => ⟨rfl, fun _ => ⟨rfl, fun _ => ⟨.inl (fun h => by cases h), fun _ => ⟨rfl,
    fun _ => ⟨.inl (fun h => by cases h), fun _ => ⟨rfl, fun _ => ⟨w rfl, fun _ => ⟨.inr (fun h => by cases h),
    fun _ => ⟨w rfl, fun _ => ⟨d, fun _ => ⟨w rfl, fun _ => ⟨d, fun _ => ⟨w rfl, trivial⟩⟩⟩⟩⟩⟩⟩⟩⟩⟩⟩⟩⟩⟩⟩⟩⟩⟩⟩⟩

set_option maxRecDepth 20000 in
example : (history demoFunctions (.only true 1, demoB)).2.status = .run ∧
    (history demoFunctions (.only true 1, demoB)).1 = .only true 1 ∧
    (history (demoFunctions.take 9) (.only true 1, demoB)).1.reading.length = 2 ∧
    (history (demoFunctions.take 9) (.only true 1, demoB)).1.calls.length = 1 ∧
    (history (demoFunctions.take 9) (.only true 1, demoB)).2.prot.length = 3 + demoB.prot.length := by
  exact ⟨rfl, rfl, rfl, rfl, rfl⟩

/-- The protection matters: while a function has got a mutable reference, its caller's is not usable. -/
example : (((act .enter (.only true 1, demoB)).2.access wholeByte true none 1).status = .ub) ∧
    ((act .leave (act .enter (.only true 1, demoB))).2.access wholeByte true none 1).status = .run := by
  exact ⟨rfl, rfl⟩

theorem demo_whole {A : AliasModel} {m : Bool} {t : Nat} {σ : B A} (h : Callable demoByte m t σ) : Callable wholeByte m t σ :=
  ⟨h.run, h.valid, h.prot, h.usable⟩

example : AliasRules stacked ∧ Callable wholeByte true 1 demoB := ⟨.stacked, demo_whole (demoB_callable true)⟩
example : ∀ exempt, AliasRules (miri exempt) ∧ Callable wholeByte true 1 (demoMiri exempt) :=
  fun exempt => ⟨.miri exempt, demo_whole (demoMiri_callable exempt true)⟩
example : ∀ how, AliasRules (tree how) ∧ Callable wholeByte true 1 (demoTree how) :=
  fun how => ⟨.tree how, demo_whole (demoTree_callable how true)⟩

/-- It matters which order is allowed: if the outer reference writes while the inner one is still to be used, using the inner
one is undefined behaviour. -/
example : let s := history [.project (demoCall "project" (fun _ => false))] (.only true 1, demoB)
    s.1.nested = [⟨true, 7⟩, ⟨true, 1⟩] ∧
    ((s.2.access wholeByte true none 1).access wholeByte true none 7).status = .ub := by
  exact ⟨rfl, rfl⟩

/-- Likewise if a mutable reference is made while a shared one is still to be used. -/
example : let s := history [.projectRef none (demoCall "project_ref" (fun _ => false))] (.only true 1, demoB)
    s.1 = ⟨[⟨true, 1⟩], [7], [], []⟩ ∧
    ((act .borrowMut s).2.access wholeByte false none 7).status = .ub := by
  exact ⟨rfl, rfl⟩

/-- Destructors that panic during a panic abort the program. -/
example : (history [.change (demoCall "project_replace" (fun _ => true))] (.only true 1, demoB)).2.status = .abort := by
  rfl

end PinProject

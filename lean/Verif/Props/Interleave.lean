import Verif.Props.BorrowCalm
import Verif.Props.Races
import Verif.Spec.Interleave
/-!
# C85: calls of `project_ref` at the same time obey the aliasing rules

Each strand is a run of the strict machine of C58 whose pointers are all shared references. `BorrowShares.lean` says that
the strands do not disturb one another, and `BorrowCalm.lean` that it does not matter which pointers are protected.
-/
namespace PinProject
open Spec

namespace Interleave

/-! ## The steps of one strand -/

/-- The strict machine does these steps (the last one first), reads only, and then has the chain `c`. -/
inductive Ran : List MemEv → Nat → BStack → Prop
  | start : Ran [] 1 [⟨.shared, 0⟩]
  | access {es n c t r} : Ran es n c → c.strictRead [] t = some r → Ran (.access false t :: es) n r
  | make {es n c t r} : Ran es n c → c.strictRead [] t = some r → Ran (.make .shared t n :: es) (n + 1) (⟨.shared, n⟩ :: r)
  | release {es n c t} : Ran es n c → t ∈ c.dropLast.map BItem.tag → Ran (.release t :: es) n c
  | next {es n c} : Ran es n c → Ran es (n + 1) c

theorem Ran.shared {es : List MemEv} {n : Nat} {c : BStack} (h : Ran es n c) : ∀ i ∈ c, i.perm = .shared := by
  induction h with
  | start => intro i hi; rw [List.mem_singleton] at hi; rw [hi]
  | access _ hr ih => exact fun i hi => ih i ((Races.strictRead_sub hr).1 i hi)
  | make _ hr ih =>
    intro i hi
    rcases List.mem_cons.1 hi with rfl | hi
    · rfl
    · exact ih i ((Races.strictRead_sub hr).1 i hi)
  | release _ _ ih => exact ih
  | next _ ih => exact ih

theorem ran_simulates : Simulates traced (fun _ n c es => Ran es n c) where
  access {prot n s s' w t r} h hr := by
    refine ⟨_, rfl, ?_⟩
    cases w with
    | true =>
      rw [show chain.access prot true t s = s.write prot t from rfl, Races.write_shared h.shared] at hr
      cases hr
    | false => exact .access h (strictRead_less hr (by simp))
  retag {prot n s s' p t r} h hr := by
    have hp : p = .shared := by
      cases p <;> first
        | rfl
        | (rw [show chain.access prot _ t s = s.write prot t from rfl, Races.write_shared h.shared] at hr; cases hr)
    subst hp
    have := Ran.make h (strictRead_less (P' := []) (show BStack.strictRead prot t s = some r from hr) (by simp))
    exact ⟨_, rfl, this, this⟩
  next h := .next h
  release {prot n s s' t r} h hr := by
    simp only at hr
    split at hr
    · cases hr
      exact ⟨_, rfl, .release h (by assumption)⟩
    · cases hr

/-- The same, the first step first: what the strict machine can do from `c`. -/
def Runs : BStack → Nat → List MemEv → Prop
  | _, _, [] => True
  | c, n, .access w t :: es => w = false ∧ ∃ r, c.strictRead [] t = some r ∧ Runs r n es
  | c, n, .make p t new :: es => p = .shared ∧ n ≤ new ∧ ∃ r, c.strictRead [] t = some r ∧ Runs (⟨.shared, new⟩ :: r) (new + 1) es
  | c, n, .release t :: es => t ∈ c.dropLast.map BItem.tag ∧ Runs c n es

theorem Runs.less {es : List MemEv} {c : BStack} {n m : Nat} (h : Runs c n es) (hm : m ≤ n) : Runs c m es := by
  induction es generalizing c n m with
  | nil => trivial
  | cons e es ih =>
    cases e with
    | access w t =>
      obtain ⟨h1, r, h2, h3⟩ := h
      exact ⟨h1, r, h2, ih h3 hm⟩
    | make p t new =>
      obtain ⟨h1, h2, r, h3, h4⟩ := h
      exact ⟨h1, Nat.le_trans hm h2, r, h3, h4⟩
    | release t => exact ⟨h.1, ih h.2 hm⟩

theorem Ran.runs {es : List MemEv} {n : Nat} {c : BStack} (h : Ran es n c) :
    ∀ fs, Runs c n fs → Runs [⟨.shared, 0⟩] 1 (es.reverse ++ fs) := by
  induction h with
  | start => exact fun fs h => h
  | access _ hr ih =>
    intro fs hf
    rw [List.reverse_cons, List.append_assoc]
    exact ih _ ⟨rfl, _, hr, hf⟩
  | make _ hr ih =>
    intro fs hf
    rw [List.reverse_cons, List.append_assoc]
    exact ih _ ⟨rfl, Nat.le_refl _, _, hr, hf⟩
  | release _ ht ih =>
    intro fs hf
    rw [List.reverse_cons, List.append_assoc]
    exact ih _ ⟨ht, hf⟩
  | next _ ih => exact fun fs hf => ih fs (hf.less (Nat.le_succ _))

theorem chosen_allowed {fields : List (String × BFVal)} {us : List (Nat × Bool)} {u : PtrUse}
    (h : u ∈ us.filterMap (chosen fields)) : UseAllowed fields u := by
  obtain ⟨⟨k, w⟩, -, hc⟩ := List.mem_filterMap.1 h
  unfold chosen at hc
  simp only at hc
  split at hc
  · rename_i x v hk
    split at hc
    · rename_i m l t hp
      split at hc
      · cases hc
      · rename_i hw
        cases hc
        refine ⟨List.mem_map.2 ⟨(x, v), List.mem_of_getElem? hk, rfl⟩, ?_⟩
        intro m' l' t' hp' hw'
        simp only at hp' hw'
        rw [hp] at hp'
        cases hp'
        subst hw'
        simpa using hw
    · cases hc
  · cases hc

theorem steps_runs (item : Item) (E : Expansion) (h : parseDerive item = .ok E) (hwf : ItemWF item)
    (fn : GFn) (hfn : method E "project_ref" = some fn)
    (variant : Option String) (fs : Fields) (hv : HasVariant item variant fs) (b : Byte) (hb : OneField b fs) (st : Strand) :
    Runs [⟨.shared, 0⟩] 1 (st.steps b fn ⟨variant, labels fs.list⟩) := by
  let σ0 : B traced := { mem := [], next := 1 }
  have hc : Callable b false 0 (Lift.start false 0 σ0) := by
    refine ⟨rfl, ?_, ?_, ?_⟩
    · intro i hi
      rw [show i = ⟨.shared, 0⟩ by simpa [Lift.start, permOf] using hi]
      exact Nat.zero_lt_one
    · intro t ht
      cases ht
    · have hl : ((Lift.start false 0 σ0).live && b.within none) = true := by simp [B.live, Lift.start, σ0, Byte.within]
      unfold B.access
      rw [hl]
      simp [Lift.start, BStack.strictRead, B.set, σ0]
  have hrel : Lift.Rel (fun _ n c es => Ran es n c) [] (Lift.start false 0 σ0) σ0 :=
    ⟨rfl, rfl, rfl, rfl, rfl, fun _ => .start⟩
  obtain ⟨fields, σ', h3, -, h5, -⟩ :=
    borrow_projection item E h hwf false fn hfn variant fs hv b hb 0 0 _ hc st.panics st.tailLeak
  have key := Lift.call ran_simulates b st.panics st.tailLeak fn ⟨variant, labels fs.list⟩ 0 hrel
  rw [h3] at key
  have hrun : σ'.status = .run := (h5 [] (by simp)).1
  rcases key with hu | ⟨e, hr⟩
  · simp only at hu
    rw [hrun] at hu
    cases hu
  · unfold Strand.steps
    generalize hg : bCallFn b st.panics st.tailLeak fn ⟨variant, labels fs.list⟩ 0 σ0 = g at e hr
    obtain ⟨v, τ⟩ := g
    simp only at e hr
    subst e
    simp only
    obtain ⟨h6, -⟩ := h5 (st.uses.filterMap (chosen fields)) (fun u hu => chosen_allowed hu)
    have h7 := (Lift.uses ran_simulates b (st.uses.filterMap (chosen fields)) hr.w).rel (by rw [h6]; simp)
    have h8 := (h7.mem (by simp [B.live, h6])).runs [] trivial
    rw [List.append_nil] at h8
    exact h8

/-! ## Strands take turns -/

/-- The reference all strands have. -/
abbrev base : BItem := ⟨.shared, 0⟩

/-- A chain with other names for the pointers. -/
def ren (ρ : Nat → Nat) (i : BItem) : BItem := ⟨i.perm, ρ i.tag⟩

/-- A read with a chain of shared references that end with `t0`. -/
theorem read_split {t : Nat} {x r : BStack} (h : BStack.strictRead [] t (x ++ [base]) = some r) :
    ∃ a x', x = a ++ x' ∧ r = x' ++ [base] ∧ (∀ i ∈ a, i.tag ≠ t) ∧ ∃ j r', r = j :: r' ∧ j.tag = t := by
  induction x with
  | nil =>
    simp only [List.nil_append, BStack.strictRead] at h
    split at h
    · cases h
      exact ⟨[], [], rfl, rfl, by simp, _, _, rfl, by assumption⟩
    · simp at h
  | cons i x ih =>
    simp only [List.cons_append, BStack.strictRead] at h
    split at h
    · cases h
      exact ⟨[], i :: x, rfl, rfl, by simp, _, _, rfl, by assumption⟩
    · rename_i hi
      simp only [List.not_mem_nil, if_false] at h
      obtain ⟨a, x', h1, h2, h3, h4⟩ := ih h
      refine ⟨i :: a, x', by rw [h1]; rfl, h2, ?_, h4⟩
      intro j hj
      rcases List.mem_cons.1 hj with rfl | hj
      · exact hi
      · exact h3 j hj

/-- .. and the same read with other names. -/
theorem read_ren {P : List Nat} {ρ : Nat → Nat} {t : Nat} {x r : BStack}
    (h : BStack.strictRead [] t (x ++ [base]) = some r)
    (hn : ((x ++ [base]).map (fun i : BItem => ρ i.tag)).Nodup) (hP : ∀ i ∈ x, ρ i.tag ∉ P) :
    ∃ x', (∀ i ∈ x', i ∈ x) ∧ r = x' ++ [base] ∧ ((x' ++ [base]).map (fun i : BItem => ρ i.tag)).Nodup ∧
      ρ t ∈ ((x ++ [base]).map (ren ρ)).map BItem.tag ∧
      chain.access P false (ρ t) ((x ++ [base]).map (ren ρ)) = some ((x' ++ [base]).map (ren ρ)) := by
  obtain ⟨a, x', rfl, rfl, ha, j, r', hj, rfl⟩ := read_split h
  have hmem : j ∈ x' ++ [base] := by rw [hj]; exact List.mem_cons_self
  rw [List.append_assoc, List.map_append, List.nodup_append] at hn
  refine ⟨x', fun i hi => List.mem_append_right _ hi, rfl, hn.2.1, ?_, ?_⟩
  · rw [List.map_map, List.append_assoc]
    exact List.mem_map.2 ⟨j, List.mem_append_right _ hmem, rfl⟩
  · rw [List.append_assoc, List.map_append, chain_skip]
    · rw [hj]
      exact read_head _
    · intro i hi
      obtain ⟨k, hk, rfl⟩ := List.mem_map.1 hi
      refine ⟨?_, hP k (List.mem_append_left _ hk)⟩
      exact hn.2.2 _ (List.mem_map.2 ⟨k, hk, rfl⟩) _ (List.mem_map.2 ⟨j, hmem, rfl⟩)

section
variable {A : AliasModel} {R : List Nat → Nat → BStack → A.St → Prop} {M : List Nat → A.St → Prop}

/-- What is true of one strand. -/
structure StrandOk (R : List Nat → Nat → BStack → A.St → Prop) (P0 : List Nat) (t0 : Nat) (mem : A.St) (next : Nat)
    (made : List Nat) (todo : List MemEv) (ρ : Nat → Nat) (x : BStack) (n : Nat) : Prop where
  runs : Runs (x ++ [base]) n todo
  pos : 0 < n
  own : ∀ i ∈ x, i.perm = .shared ∧ i.tag < n ∧ ρ i.tag ∈ made
  zero : ρ 0 = t0
  nodup : ((x ++ [base]).map (fun i : BItem => ρ i.tag)).Nodup
  rel : R P0 next ((x ++ [base]).map (ren ρ)) mem

structure Inv (R : List Nat → Nat → BStack → A.St → Prop) (M : List Nat → A.St → Prop) (P0 : List Nat) (n0 t0 : Nat)
    (s : Pool A) : Prop where
  next : n0 ≤ s.next
  made : ∀ k ∈ s.made, n0 ≤ k ∧ k < s.next
  calm : M s.made s.mem
  strands : ∀ i, ∃ x n, StrandOk R P0 t0 s.mem s.next s.made (s.todo i) (s.names i) x n

variable {P0 : List Nat} {n0 t0 : Nat}

/-- The chain of a strand, with the global names. -/
theorem ren_base {ρ : Nat → Nat} (h : ρ 0 = t0) (x : BStack) :
    (x ++ [base]).map (ren ρ) = x.map (ren ρ) ++ (⟨.shared, t0⟩ : BItem) :: [] := by
  rw [List.map_append]
  simp [ren, h]

theorem ren_shared {ρ : Nat → Nat} {x : BStack} (h : ∀ i ∈ x, i.perm = .shared) : ∀ i ∈ x.map (ren ρ), i.perm = .shared := by
  intro i hi
  obtain ⟨k, hk, rfl⟩ := List.mem_map.1 hi
  exact h k hk

/-- A read by one strand: it is allowed, and the other strands are as before. -/
theorem read_step (hR : Lift.Allows A R) (hS : Shares A R) (hM : Calm A M) (hP0 : ∀ k ∈ P0, k < n0)
    {s : Pool A} (h : Inv R M P0 n0 t0 s) {prot : List Nat} (hp : Protected P0 s prot) {i : Nat} {x r : BStack} {n t : Nat}
    {todo : List MemEv} (hi : StrandOk R P0 t0 s.mem s.next s.made todo (s.names i) x n)
    (hr : BStack.strictRead [] t (x ++ [base]) = some r) :
    ∃ m x', A.access prot false (s.names i t) s.mem = some m ∧ M s.made m ∧ (∀ k ∈ x', k ∈ x) ∧ r = x' ++ [base] ∧
      ((x' ++ [base]).map (fun k : BItem => s.names i k.tag)).Nodup ∧
      R P0 s.next ((x' ++ [base]).map (ren (s.names i))) m ∧
      ∀ j y k todo', StrandOk R P0 t0 s.mem s.next s.made todo' (s.names j) y k →
        StrandOk R P0 t0 m s.next s.made todo' (s.names j) y k := by
  obtain ⟨x', h1, h2, h3, h4, h5⟩ := read_ren (P := P0) hr hi.nodup
    (fun k hk hin => absurd (hP0 _ hin) (Nat.not_lt.2 (h.made _ (hi.own k hk).2.2).1))
  obtain ⟨m, h6, h7⟩ := hR.simulates.access hi.rel h5
  refine ⟨m, x', ?_, hM.access h.calm h6, h1, h2, h3, h7, ?_⟩
  · rw [← h6]
    exact hM.access_eq h.calm hp.all hp.only
  · intro j y k todo' hj
    refine ⟨hj.runs, hj.pos, hj.own, hj.zero, hj.nodup, ?_⟩
    have e1 := hi.rel
    have e2 := hj.rel
    rw [ren_base hi.zero] at e1 h4
    rw [ren_base hj.zero] at e2 ⊢
    exact hS.read (fun _ h => h) (ren_shared (fun q hq => (hj.own q hq).1)) e1 e2 h4 h6

theorem read_mem {c : BStack} {q : BItem} (h : q ∈ c) : ∃ r, BStack.strictRead [] q.tag c = some r := by
  induction c with
  | nil => cases h
  | cons i c ih =>
    rw [BStack.strictRead]
    split
    · exact ⟨_, rfl⟩
    · rename_i hi
      simp only [List.not_mem_nil, if_false]
      rcases List.mem_cons.1 h with rfl | h
      · exact absurd rfl hi
      · exact ih h

theorem inv_step (hR : Lift.Allows A R) (hS : Shares A R) (hM : Calm A M) (hP0 : ∀ k ∈ P0, k < n0) (ht0 : t0 < n0)
    {s : Pool A} (h : Inv R M P0 n0 t0 s) {prot : List Nat} (hp : Protected P0 s prot) (i : Nat) :
    ∃ s', s.step prot i = some s' ∧ Inv R M P0 n0 t0 s' := by
  obtain ⟨x, n, hi⟩ := h.strands i
  unfold Pool.step
  cases htodo : s.todo i with
  | nil => exact ⟨s, rfl, h⟩
  | cons e rest =>
    have hruns := hi.runs
    rw [htodo] at hruns
    simp only
    cases e with
    | access w t =>
      obtain ⟨rfl, r, hr, hruns⟩ := hruns
      obtain ⟨m, x', h1, h2, h3, rfl, h4, h5, h6⟩ := read_step hR hS hM hP0 h hp hi hr
      simp only [h1, Option.map_some]
      refine ⟨_, rfl, h.next, h.made, h2, fun j => ?_⟩
      by_cases hj : j = i
      · subst hj
        refine ⟨x', n, ?_⟩
        simp only [if_true]
        exact ⟨hruns, hi.pos, fun k hk => hi.own k (h3 k hk), hi.zero, h4, h5⟩
      · obtain ⟨y, k, hy⟩ := h.strands j
        refine ⟨y, k, ?_⟩
        simp only [if_neg hj]
        exact h6 j y k _ hy
    | make p t new =>
      obtain ⟨rfl, hnew, r, hr, hruns⟩ := hruns
      obtain ⟨m0, x', h1, h2, h3, rfl, h4, h5, h6⟩ := read_step hR hS hM hP0 h hp hi hr
      obtain ⟨x'', -, he, -, -, h9⟩ := read_ren (P := P0) hr hi.nodup
        (fun k hk hin => absurd (hP0 _ hin) (Nat.not_lt.2 (h.made _ (hi.own k hk).2.2).1))
      rw [← he] at h9
      -- the read that may be part of it
      obtain ⟨m, hm, hmM, hmv, hmo⟩ : ∃ m, makeAccess A prot .shared (s.names i t) s.next s.mem = some m ∧ M s.made m ∧ A.valid s.next m ∧
          ∀ j y k todo', StrandOk R P0 t0 s.mem s.next s.made todo' (s.names j) y k →
            StrandOk R P0 t0 m s.next s.made todo' (s.names j) y k := by
        unfold makeAccess
        cases ha : A.retagAccess .shared s.next with
        | none => exact ⟨s.mem, rfl, h.calm, hR.valid hi.rel, fun _ _ _ _ h => h⟩
        | some w =>
          cases w with
          | true => exact absurd ha (hS.noWrite _)
          | false => exact ⟨m0, h1, h2, hR.valid h5, h6⟩
      have hnew' : R P0 (s.next + 1) (⟨.shared, s.next⟩ :: (x' ++ [base]).map (ren (s.names i)))
          (A.push .shared (s.names i t) s.next m) := by
        obtain ⟨m', e1, e2, -⟩ := hR.simulates.retag (p := .shared) hi.rel h9
        have : m' = m := by
          refine Option.some.inj (e1.symm.trans (Eq.trans ?_ hm))
          unfold makeAccess
          cases ha : A.retagAccess .shared s.next with
          | none => rfl
          | some w =>
            cases w with
            | true => exact absurd ha (hS.noWrite _)
            | false => exact (hM.access_eq h.calm hp.all hp.only).symm
        rw [← this]
        exact e2
      have hv := hR.valid hnew'
      simp only [hm, Option.map_some]
      refine ⟨_, rfl, Nat.le_succ_of_le h.next, ?_, hM.push hmv hmM, fun j => ?_⟩
      · intro k hk
        rcases List.mem_cons.1 hk with rfl | hk
        · exact ⟨h.next, Nat.lt_succ_self _⟩
        · exact ⟨(h.made k hk).1, Nat.lt_succ_of_lt (h.made k hk).2⟩
      · by_cases hj : j = i
        · subst hj
          refine ⟨⟨.shared, new⟩ :: x', new + 1, ?_⟩
          have h0 : new ≠ 0 := Nat.ne_of_gt (Nat.lt_of_lt_of_le hi.pos hnew)
          have hold : ∀ k ∈ x' ++ [base], k.tag ≠ new := by
            intro k hk
            rcases List.mem_append.1 hk with hk | hk
            · exact Nat.ne_of_lt (Nat.lt_of_lt_of_le (hi.own k (h3 k hk)).2.1 hnew)
            · rw [List.mem_singleton] at hk
              rw [hk]
              exact h0.symm
          have hmap : ∀ {β : Type} (f : BItem → Nat → β),
              (x' ++ [base]).map (fun k : BItem => f k (if j = j ∧ k.tag = new then s.next else s.names j k.tag)) =
              (x' ++ [base]).map (fun k : BItem => f k (s.names j k.tag)) := by
            intro β f
            apply List.map_congr_left
            intro k hk
            rw [if_neg (fun h => hold k hk h.2)]
          refine ⟨?_, Nat.succ_pos _, ?_, ?_, ?_, ?_⟩
          · simp only [if_true]
            exact hruns
          · intro k hk
            rcases List.mem_cons.1 hk with rfl | hk
            · exact ⟨rfl, Nat.lt_succ_self _, by simp⟩
            · have hk' := hi.own k (h3 k hk)
              refine ⟨hk'.1, Nat.lt_of_lt_of_le hk'.2.1 (Nat.le_succ_of_le hnew), ?_⟩
              simp only
              rw [if_neg (fun h => hold k (List.mem_append_left _ hk) h.2)]
              exact List.mem_cons_of_mem _ hk'.2.2
          · simp only
            rw [if_neg (fun h => h0 h.2.symm)]
            exact hi.zero
          · have hm' := hmap (fun _ t => t)
            simp only [true_and] at hm'
            rw [List.cons_append, List.map_cons]
            simp only [true_and, if_true]
            rw [hm']
            rw [List.nodup_cons]
            refine ⟨?_, h4⟩
            intro hin
            obtain ⟨k, hk, hk'⟩ := List.mem_map.1 hin
            rcases List.mem_append.1 hk with hk | hk
            · exact absurd (h.made _ (hi.own k (h3 k hk)).2.2).2 (by rw [hk']; exact Nat.lt_irrefl _)
            · rw [List.mem_singleton] at hk
              rw [hk, show s.names j base.tag = t0 from hi.zero] at hk'
              have := h.next
              omega
          · have hm' := hmap (fun k t => (⟨k.perm, t⟩ : BItem))
            simp only [true_and] at hm'
            rw [List.cons_append, List.map_cons]
            unfold ren
            simp only [true_and, if_true]
            rw [hm']
            exact hnew'
        · obtain ⟨y, k, hy⟩ := h.strands j
          refine ⟨y, k, ?_⟩
          have hy' := hmo j y k _ hy
          have hn : (fun k => if j = i ∧ k = new then s.next else s.names j k) = s.names j := by
            funext k
            rw [if_neg (fun h => hj h.1)]
          simp only [if_neg hj, hn]
          exact ⟨hy'.runs, hy'.pos, fun q hq => ⟨(hy'.own q hq).1, (hy'.own q hq).2.1, List.mem_cons_of_mem _ (hy'.own q hq).2.2⟩,
            hy'.zero, hy'.nodup, hS.push (fun q hq => Nat.lt_of_lt_of_le (hP0 q hq) h.next) hy'.rel hv⟩
    | release t =>
      obtain ⟨ht, hruns⟩ := hruns
      rw [List.dropLast_concat] at ht
      obtain ⟨q, hq, rfl⟩ := List.mem_map.1 ht
      obtain ⟨r, hr⟩ := read_mem (c := x ++ [base]) (List.mem_append_left _ hq)
      obtain ⟨m0, -, h1, -⟩ := read_step hR hS hM hP0 h hp hi hr
      have hD : s.names i q.tag ∈ s.made := (hi.own q hq).2.2
      obtain ⟨m, hm⟩ := hM.release_some (hR.valid hi.rel) h.calm hD h1
      have hm' : A.release (s.names i q.tag :: P0) (s.names i q.tag) s.mem = some m := by
        rw [← hm, hM.release_eq h.calm hD hp.all hp.only]
        refine hM.release_eq h.calm hD (fun k hk => List.mem_cons_of_mem _ hk) ?_
        intro k hk
        rcases List.mem_cons.1 hk with rfl | hk
        · exact .inr hD
        · exact .inl hk
      simp only [hm, Option.map_some]
      have hall : ∀ j y k todo', StrandOk R P0 t0 s.mem s.next s.made todo' (s.names j) y k →
          StrandOk R P0 t0 m s.next s.made todo' (s.names j) y k := by
        intro j y k todo' hj
        refine ⟨hj.runs, hj.pos, hj.own, hj.zero, hj.nodup, ?_⟩
        have e1 := hi.rel
        have e2 := hj.rel
        rw [ren_base hi.zero] at e1
        rw [ren_base hj.zero] at e2 ⊢
        refine hS.release (fun _ h => h) (ren_shared (fun q hq => (hj.own q hq).1))
          (ren_shared (fun q hq => (hi.own q hq).1)) e1 e2 ?_ hm'
        rw [List.map_map]
        exact List.mem_map.2 ⟨q, hq, rfl⟩
      refine ⟨_, rfl, h.next, h.made, hM.release h.calm hD hm, fun j => ?_⟩
      by_cases hj : j = i
      · subst hj
        refine ⟨x, n, ?_⟩
        simp only [if_true]
        exact hall j x n _ ⟨hruns, hi.pos, hi.own, hi.zero, hi.nodup, hi.rel⟩
      · obtain ⟨y, k, hy⟩ := h.strands j
        refine ⟨y, k, ?_⟩
        simp only [if_neg hj]
        exact hall j y k _ hy

theorem inv_start (hR : Lift.Allows A R) (hM : Calm A M) {b : Byte} {σ : B A} (hσ : Callable b false t0 σ)
    {steps : Nat → List MemEv} (hsteps : ∀ i, Runs [base] 1 (steps i)) :
    t0 < σ.next ∧ Inv R M σ.prot σ.next t0 (Pool.start σ t0 steps) := by
  obtain ⟨m, hm⟩ := Lift.allowed hσ.run hσ.usable
  obtain ⟨h1, h2⟩ := hR.starts hσ.valid hm
  refine ⟨h1, Nat.le_refl _, fun k hk => (by cases hk), hM.nil _, fun i => ⟨[], 1, hsteps i, Nat.zero_lt_one, ?_, rfl, ?_, h2⟩⟩
  · intro k hk
    cases hk
  · simp

theorem inv_reached (hR : Lift.Allows A R) (hS : Shares A R) (hM : Calm A M) (hP0 : ∀ k ∈ P0, k < n0) (ht0 : t0 < n0)
    {s0 s : Pool A} (h0 : Inv R M P0 n0 t0 s0) (h : Reached P0 s0 s) : Inv R M P0 n0 t0 s := by
  induction h with
  | start => exact h0
  | step _ hp hs ih =>
    obtain ⟨s', h1, h2⟩ := inv_step hR hS hM hP0 ht0 ih hp _
    rw [h1] at hs
    cases hs
    exact h2

end

end Interleave

/-- **C85** Any number of calls of `project_ref` on the same value, and the uses of their results, happen at the same time, in
any order of their accesses: at no moment is any step undefined behaviour under the aliasing rules, whichever pointers are
protected then; and the reference to the value can still be used. -/
theorem C85_aliasing (item : Item) (E : Expansion) (h : parseDerive item = .ok E) (hwf : ItemWF item)
    (fn : GFn) (hfn : method E "project_ref" = some fn)
    (variant : Option String) (fs : Fields) (hv : HasVariant item variant fs) (b : Byte) (hb : OneField b fs)
    {A : AliasModel} (hA : AliasRules A) (t0 : Nat) (σ : B A) (hσ : Callable b false t0 σ) (strands : Nat → Strand) (s : Pool A)
    (hs : Reached σ.prot (Pool.start σ t0 (fun i => (strands i).steps b fn ⟨variant, labels fs.list⟩)) s) :
    (∀ prot, Protected σ.prot s prot → ∀ i, (s.step prot i).isSome) ∧ (A.access σ.prot false t0 s.mem).isSome := by
  obtain ⟨R, M, hR, hS, hM⟩ := calms hA
  obtain ⟨ht0, h0⟩ := Interleave.inv_start (M := M) hR hM hσ
    (fun i => Interleave.steps_runs item E h hwf fn hfn variant fs hv b hb (strands i))
  have hi := Interleave.inv_reached hR hS hM hσ.prot ht0 h0 hs
  refine ⟨fun prot hp i => ?_, ?_⟩
  · obtain ⟨s', h1, -⟩ := Interleave.inv_step hR hS hM hσ.prot ht0 hi hp i
    rw [h1]
    rfl
  · obtain ⟨x, n, hx⟩ := hi.strands 0
    obtain ⟨r, hr⟩ := Interleave.read_mem (c := x ++ [Interleave.base]) (q := Interleave.base) (by simp)
    obtain ⟨m, -, h1, -⟩ := Interleave.read_step hR hS hM hσ.prot hi ⟨fun _ h => h, fun _ h => .inl h⟩ hx hr
    rw [show s.names 0 Interleave.base.tag = t0 from hx.zero] at h1
    rw [h1]
    rfl

/-- The steps of a call of `project_ref` and of a use of the field `a`. -/
example : ∃ E fn, parseDerive (.struct_ demoReplace) = .ok E ∧ method E "project_ref" = some fn ∧
    (⟨fun _ => false, false, [(0, false)]⟩ : Strand).steps demoByte fn ⟨none, ["a", "b", "c"]⟩ =
      [.make .shared 0 1, .make .shared 1 2, .make .shared 2 3, .make .shared 3 6, .release 1, .access false 6] :=
  ⟨_, _, rfl, rfl, by decide⟩

/-- Two such calls: each has made its first reference, while its parameter is protected; and so `C85_aliasing` applies. -/
example : ∃ E fn, parseDerive (.struct_ demoReplace) = .ok E ∧ method E "project_ref" = some fn ∧
    ∃ s, Reached demoB.prot (Pool.start demoB 1 (fun i => (⟨fun _ => false, false, [(i, false)]⟩ : Strand).steps demoByte fn
        ⟨none, ["a", "b", "c"]⟩)) s ∧
      s.mem = [⟨.shared, 3⟩, ⟨.shared, 2⟩, ⟨.unique, 1⟩, ⟨.unique, 0⟩] ∧ Protected demoB.prot s [2, 3] ∧
      ∀ prot, Protected demoB.prot s prot → ∀ i, (s.step prot i).isSome := by
  refine ⟨_, _, rfl, rfl, ?_⟩
  refine ⟨_, .step (prot := [2]) (i := 1) (.step (prot := []) (i := 0) .start ⟨fun _ h => h, fun _ h => .inl h⟩ rfl)
    ⟨fun _ h => (by cases h), fun _ h => .inr h⟩ rfl, rfl, ⟨fun _ h => (by cases h), ?_⟩, ?_⟩
  · intro k h
    simp only [List.mem_cons, List.not_mem_nil, or_false] at h
    rcases h with rfl | rfl
    · exact .inr (List.mem_cons_of_mem _ List.mem_cons_self)
    · exact .inr List.mem_cons_self
  · refine (C85_aliasing (.struct_ demoReplace) _ rfl demoReplace_wf _ rfl none demoReplace.fields ⟨rfl, rfl⟩ demoByte
      demoByte_one .stacked 1 demoB (demoB_callable false) (fun i => ⟨fun _ => false, false, [(i, false)]⟩) _
      (.step (prot := [2]) (i := 1) (.step (prot := []) (i := 0) .start ⟨fun _ h => h, fun _ h => .inl h⟩ rfl)
        ⟨fun _ h => (by cases h), fun _ h => .inr h⟩ rfl)).1

/-- The rules find violations: with two calls of `project`, what one has made is no longer valid when the other has started. -/
example : ∃ E fn, parseDerive (.struct_ demoReplace) = .ok E ∧ method E "project" = some fn ∧
    ∃ s, Reached demoB.prot (Pool.start demoB 1 (fun i => (⟨fun _ => false, false, [(i, false)]⟩ : Strand).steps demoByte fn
        ⟨none, ["a", "b", "c"]⟩)) s ∧ s.step [] 0 = none := by
  refine ⟨_, _, rfl, rfl, ?_⟩
  exact ⟨_, .step (prot := []) (i := 1) (.step (prot := []) (i := 0) .start ⟨fun _ h => h, fun _ h => .inl h⟩ rfl)
    ⟨fun _ h => h, fun _ h => .inl h⟩ rfl, rfl⟩

end PinProject

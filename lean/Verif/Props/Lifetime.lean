import Verif.Spec.Tree
import Verif.Props.Methods
/-!
# C18: the lifetime of the projection is fresh
-/
namespace PinProject
open Spec

theorem declares_iff (n : Node) (l : String) :
    Declares n l ↔ (∃ lts, n = .binder lts ∧ l ∈ lts) ∨ ∃ c ∈ n.children, Declares c l := by
  constructor
  · rintro ⟨lts, h, hl⟩
    cases h with
    | here => exact .inl ⟨lts, rfl, hl⟩
    | inside hc hw => exact .inr ⟨_, hc, lts, hw, hl⟩
  · rintro (⟨lts, rfl, hl⟩ | ⟨c, hc, lts, hw, hl⟩)
    · exact ⟨lts, .here _, hl⟩
    · exact ⟨lts, .inside hc hw, hl⟩

mutual
/-- `CollectLifetimes` finds exactly the declared lifetimes. -/
theorem Node.mem_binders (l : String) : ∀ n : Node, l ∈ n.binders ↔ Declares n l
  | .tyPath q p => by
    rw [declares_iff]; simp [Node.binders, Node.children, QS.mem_binders l q, Path.mem_binders l p, or_and_right, exists_or]
  | .exprPath q p => by
    rw [declares_iff]; simp [Node.binders, Node.children, QS.mem_binders l q, Path.mem_binders l p, or_and_right, exists_or]
  | .exprStruct q p cs => by
    rw [declares_iff]; simp [Node.binders, Node.children, QS.mem_binders l q, Path.mem_binders l p, mem_nodesBinders l cs, or_and_right, exists_or, or_assoc]
  | .patStruct q p cs => by
    rw [declares_iff]; simp [Node.binders, Node.children, QS.mem_binders l q, Path.mem_binders l p, mem_nodesBinders l cs, or_and_right, exists_or, or_assoc]
  | .patTupleStruct q p cs => by
    rw [declares_iff]; simp [Node.binders, Node.children, QS.mem_binders l q, Path.mem_binders l p, mem_nodesBinders l cs, or_and_right, exists_or, or_assoc]
  | .path p => by
    rw [declares_iff]; simp [Node.binders, Node.children, Path.mem_binders l p]
  | .mac p _ => by
    rw [declares_iff]; simp [Node.binders, Node.children, Path.mem_binders l p]
  | .itemMac p _ => by
    rw [declares_iff]; simp [Node.binders, Node.children, Path.mem_binders l p]
  | .item _ cs => by
    rw [declares_iff]; simp [Node.binders, Node.children, mem_nodesBinders l cs]
  | .other _ cs => by
    rw [declares_iff]; simp [Node.binders, Node.children, mem_nodesBinders l cs]
  | .binder lts => by
    rw [declares_iff]; simp [Node.binders, Node.children]
  | .lifetime _ => by
    rw [declares_iff]; simp [Node.binders, Node.children]
theorem QS.mem_binders (l : String) : ∀ q : QS, l ∈ q.binders ↔ ∃ c ∈ q.children, Declares c l
  | .none => by simp [QS.binders, QS.children]
  | .some t _ => by simp [QS.binders, QS.children, Node.mem_binders l t]
theorem Path.mem_binders (l : String) : ∀ p : Path, l ∈ p.binders ↔ ∃ c ∈ p.children, Declares c l
  | .mk _ segs => by
    rw [Path.binders, Path.children, mem_segsBinders l segs]
    simp only [List.mem_flatMap]
    constructor
    · rintro ⟨s, hs, c, hc, h⟩; exact ⟨c, ⟨s, hs, hc⟩, h⟩
    · rintro ⟨c, ⟨s, hs, hc⟩, h⟩; exact ⟨s, hs, c, hc, h⟩
theorem mem_segsBinders (l : String) : ∀ ss : List Seg,
    l ∈ segsBinders ss ↔ ∃ s ∈ ss, ∃ c ∈ s.args.children, Declares c l
  | [] => by simp [segsBinders]
  | s :: ss => by simp [segsBinders, mem_segsBinders l ss, Seg.mem_binders l s]
theorem Seg.mem_binders (l : String) : ∀ s : Seg, l ∈ s.binders ↔ ∃ c ∈ s.args.children, Declares c l
  | .mk _ a => by simp [Seg.binders, Seg.args, PArgs.mem_binders l a]
theorem PArgs.mem_binders (l : String) : ∀ a : PArgs, l ∈ a.binders ↔ ∃ c ∈ a.children, Declares c l
  | .none => by simp [PArgs.binders, PArgs.children]
  | .angle _ args => by simp [PArgs.binders, PArgs.children, mem_nodesBinders l args]
  | .paren args => by simp [PArgs.binders, PArgs.children, mem_nodesBinders l args]
theorem mem_nodesBinders (l : String) : ∀ ns : List Node, l ∈ nodesBinders ns ↔ ∃ n ∈ ns, Declares n l
  | [] => by simp [nodesBinders]
  | n :: ns => by simp [nodesBinders, Node.mem_binders l n, mem_nodesBinders l ns]
end

theorem mem_declaredLifetimes (g : Generics) (l : String) :
    l ∈ g.declaredLifetimes ↔ GenericsDeclare g l := by
  unfold Generics.declaredLifetimes GenericsDeclare
  rw [List.mem_append, List.mem_flatMap, List.mem_flatMap]
  apply or_congr
  · apply exists_congr
    intro p
    apply and_congr_right
    intro _
    cases p with
    | lifetime n b => simp [GParam.declaredLifetimes, eq_comm]
    | type n bs d => cases d <;> simp [GParam.declaredLifetimes, mem_nodesBinders, Node.mem_binders]
    | const n t d => cases d <;> simp [GParam.declaredLifetimes, Node.mem_binders]
  · cases g.whereClause with
    | none => simp
    | some ps =>
      simp only [Option.getD_some, Option.mem_def, Option.some.injEq, exists_eq_left']
      constructor
      · rintro ⟨w, hw, hl⟩
        cases w with
        | user n => exact ⟨n, hw, (Node.mem_binders l n).1 hl⟩
        | _ => simp [WPred.declaredLifetimes] at hl
      · rintro ⟨n, hn, hl⟩
        exact ⟨_, hn, (Node.mem_binders l n).2 hl⟩

/-! ## The search -/

/-- The result is the start followed by underscores, is no prefix of any of the names, and every
shorter candidate was one. -/
theorem lifetimeLoop_spec (names : List String) (lt : String) :
    ∃ k, (lifetimeLoop names lt).toList = lt.toList ++ List.replicate k '_' ∧
      (∀ n ∈ names, ¬ (lifetimeLoop names lt).toList <+: n.toList) ∧
      ∀ j, j < k → ∃ n ∈ names, lt.toList ++ List.replicate j '_' <+: n.toList := by
  fun_induction lifetimeLoop names lt with
  | case1 lt h ih =>
    obtain ⟨k, h1, h2, h3⟩ := ih
    refine ⟨k + 1, ?_, h2, ?_⟩
    · rw [h1, String.toList_push]
      simp [List.replicate_succ]
    · intro j hj
      cases j with
      | zero =>
        obtain ⟨n, hn, hp⟩ := List.any_eq_true.1 h
        exact ⟨n, hn, by simpa [startsWith, List.isPrefixOf_iff_prefix] using hp⟩
      | succ j =>
        obtain ⟨n, hn, hp⟩ := h3 j (by omega)
        refine ⟨n, hn, ?_⟩
        rw [String.toList_push] at hp
        simpa [List.replicate_succ] using hp
  | case2 lt h =>
    refine ⟨0, by simp, ?_, by simp⟩
    intro n hn hp
    apply h
    rw [List.any_eq_true]
    exact ⟨n, hn, by simpa [startsWith, List.isPrefixOf_iff_prefix] using hp⟩

/-! ## Replacing `Self` declares no lifetime -/

theorem tail_binders (segs : List Seg) (h : (segs.head?.map Seg.binders).getD [] = []) :
    segsBinders segs.tail = segsBinders segs := by
  cases segs with
  | nil => rfl
  | cons s ss => simp at h; simp [segsBinders, h]

theorem renameSingle_binders (segs : List Seg) : segsBinders (renameSingle segs) = segsBinders segs := by
  unfold renameSingle
  split <;> simp [segsBinders, Seg.binders]

theorem turbofish_binders (segs : List Seg) : segsBinders (turbofish segs) = segsBinders segs := by
  fun_induction turbofish segs <;> simp_all [segsBinders, Seg.binders, PArgs.binders]

theorem startsWithSelf_binders {p : Path} (h : startsWithSelf p = true) :
    ∃ i a ss, p = .mk false (.mk i a :: ss) ∧ i = "Self" ∧ a.binders = [] ∧ a.isEmpty := by
  unfold startsWithSelf at h
  split at h
  · rename_i i a ss
    simp only [Bool.and_eq_true, beq_iff_eq] at h
    refine ⟨i, a, ss, rfl, h.1, ?_, h.2⟩
    cases a with
    | none => rfl
    | angle c args => simp [PArgs.isEmpty] at h; simp [PArgs.binders, h.2, nodesBinders]
    | paren args => simp [PArgs.isEmpty] at h
  · simp at h

/-- The receiver type declares no lifetime. -/
structure SelfTy.NoBinder (s : SelfTy) : Prop where
  q : s.q.binders = []
  p : s.p.binders = []

theorem selfToQself_binders {s : SelfTy} (hs : s.NoBinder) (q : QS) (p : Path) (qv : QS) (segs : List Seg)
    (hq : qv.binders = q.binders) (hlen : segs.length = p.segs.length)
    (hsegs : segsBinders segs = p.binders)
    (hhead : (segs.head?.map Seg.binders).getD [] = (p.segs.head?.map Seg.binders).getD []) :
    (selfToQself s q p qv segs).1.binders ++ (selfToQself s q p qv segs).2.binders =
      q.binders ++ p.binders := by
  unfold selfToQself
  split
  · rename_i h
    simp only [Bool.and_eq_true] at h
    obtain ⟨i, a, ss, rfl, rfl, ha, _⟩ := startsWithSelf_binders h.2
    have hq0 : q = .none := by
      cases q with
      | none => rfl
      | some t n => simp [QS.isNone] at h
    subst hq0
    have hh : (segs.head?.map Seg.binders).getD [] = [] := by
      rw [hhead]
      simp [Path.segs, Seg.binders, ha]
    split
    · rename_i hl
      simp only [Path.segs, List.length_cons, Nat.add_eq_right, List.length_eq_zero_iff] at hl
      subst hl
      have := hs.p
      cases hp : s.p with
      | mk l sg =>
        rw [hp] at this
        simp only [Path.binders] at this
        simp [QS.binders, Path.binders, Path.segs, turbofish_binders, this, segsBinders, Seg.binders, ha]
    · simp only [QS.binders, Path.binders, Node.binders, hs.q, hs.p, List.nil_append, renameSingle_binders]
      rw [tail_binders _ hh]
      simpa [Path.binders] using hsegs
  · simp only [Path.binders, renameSingle_binders, hq]
    cases p with
    | mk l sg => simpa [Path.binders] using hsegs

theorem selfToExprPath_binders {s : SelfTy} (hs : s.NoBinder) (p : Path) (segs : List Seg)
    (hsegs : segsBinders segs = p.binders)
    (hhead : (segs.head?.map Seg.binders).getD [] = (p.segs.head?.map Seg.binders).getD []) :
    (selfToExprPath s p segs).binders = p.binders := by
  unfold selfToExprPath
  split
  · rename_i h
    obtain ⟨i, a, ss, rfl, rfl, ha, _⟩ := startsWithSelf_binders h
    have hh : (segs.head?.map Seg.binders).getD [] = [] := by
      rw [hhead]; simp [Path.segs, Seg.binders, ha]
    have hp := hs.p
    cases hpp : s.p with
    | mk l sg =>
      rw [hpp] at hp
      simp only [Path.binders] at hp
      have happ : ∀ a b : List Seg, segsBinders (a ++ b) = segsBinders a ++ segsBinders b := by
        intro a b
        induction a with
        | nil => rfl
        | cons x a ih => simp [segsBinders, ih]
      simp only [Path.binders, Path.segs, happ, turbofish_binders, hp, List.nil_append]
      rw [tail_binders _ hh]
      simpa [Path.binders] using hsegs
  · simp only [Path.binders, renameSingle_binders]
    cases p with
    | mk l sg => simpa [Path.binders] using hsegs

theorem visitSegList_length (s : SelfTy) (ss : List Seg) : (visitSegList s ss).length = ss.length := by
  induction ss with
  | nil => rfl
  | cons x xs ih => simp [visitSegList, ih]

mutual
theorem Node.visit_binders {s : SelfTy} (hs : s.NoBinder) : ∀ n : Node, (n.visit s).binders = n.binders
  | .tyPath q p => by
    rw [Node.visit]
    split
    · rename_i h
      simp only [Bool.and_eq_true] at h
      have hq : q = .none := by
        cases q with
        | none => rfl
        | some t n => simp [QS.isNone] at h
      subst hq
      have : p.binders = [] := by
        unfold Path.isIdent at h
        split at h
        · simp [Path.binders, segsBinders, Seg.binders, PArgs.binders]
        · simp at h
      simp [Node.binders, hs.q, hs.p, QS.binders, this]
    · simp only [Node.binders]
      exact selfToQself_binders hs q p _ _ (QS.visit_binders hs q) (Path.visitSegs_length s p)
        (Path.visitSegs_binders hs p) (Path.visitSegs_head hs p)
  | .exprPath q p => by
    rw [Node.visit]
    simp only [Node.binders]
    exact selfToQself_binders hs q p _ _ (QS.visit_binders hs q) (Path.visitSegs_length s p)
      (Path.visitSegs_binders hs p) (Path.visitSegs_head hs p)
  | .exprStruct q p cs => by
    rw [Node.visit]
    simp only [Node.binders]
    rw [QS.visit_binders hs q, visitNodes_binders hs cs,
      selfToExprPath_binders hs p _ (Path.visitSegs_binders hs p) (Path.visitSegs_head hs p)]
  | .patStruct q p cs => by
    rw [Node.visit]
    simp only [Node.binders]
    rw [QS.visit_binders hs q, visitNodes_binders hs cs,
      selfToExprPath_binders hs p _ (Path.visitSegs_binders hs p) (Path.visitSegs_head hs p)]
  | .patTupleStruct q p cs => by
    rw [Node.visit]
    simp only [Node.binders]
    rw [QS.visit_binders hs q, visitNodes_binders hs cs,
      selfToExprPath_binders hs p _ (Path.visitSegs_binders hs p) (Path.visitSegs_head hs p)]
  | .path p => by
    rw [Node.visit]
    simp only [Node.binders, Path.binders, renameSingle_binders]
    exact Path.visitSegs_binders hs p
  | .mac p _ => by rw [Node.visit]; simp [Node.binders]
  | .itemMac p _ => by rw [Node.visit]; split <;> simp [Node.binders]
  | .item _ cs => by rw [Node.visit]
  | .other _ cs => by rw [Node.visit]; simp only [Node.binders]; exact visitNodes_binders hs cs
  | .binder lts => by rw [Node.visit]
  | .lifetime _ => by rw [Node.visit]
theorem QS.visit_binders {s : SelfTy} (hs : s.NoBinder) : ∀ q : QS, (q.visit s).binders = q.binders
  | .none => by rw [QS.visit]
  | .some t _ => by rw [QS.visit]; simp only [QS.binders]; exact Node.visit_binders hs t
theorem Path.visitSegs_binders {s : SelfTy} (hs : s.NoBinder) :
    ∀ p : Path, segsBinders (p.visitSegs s) = p.binders
  | .mk _ segs => by
    rw [Path.visitSegs]; simp only [Path.binders]; exact visitSegList_binders hs segs
theorem visitSegList_binders {s : SelfTy} (hs : s.NoBinder) :
    ∀ ss : List Seg, segsBinders (visitSegList s ss) = segsBinders ss
  | [] => by rw [visitSegList]
  | x :: xs => by
    rw [visitSegList]; simp only [segsBinders]; rw [Seg.visit_binders hs x, visitSegList_binders hs xs]
theorem Seg.visit_binders {s : SelfTy} (hs : s.NoBinder) : ∀ x : Seg, (x.visit s).binders = x.binders
  | .mk i a => by rw [Seg.visit]; simp only [Seg.binders]; exact PArgs.visit_binders hs a
theorem PArgs.visit_binders {s : SelfTy} (hs : s.NoBinder) : ∀ a : PArgs, (a.visit s).binders = a.binders
  | .none => by rw [PArgs.visit]
  | .angle c args => by rw [PArgs.visit]; simp only [PArgs.binders]; exact visitNodes_binders hs args
  | .paren args => by rw [PArgs.visit]; simp only [PArgs.binders]; exact visitNodes_binders hs args
theorem visitNodes_binders {s : SelfTy} (hs : s.NoBinder) :
    ∀ ns : List Node, nodesBinders (visitNodes s ns) = nodesBinders ns
  | [] => by rw [visitNodes]
  | n :: ns => by
    rw [visitNodes]; simp only [nodesBinders]; rw [Node.visit_binders hs n, visitNodes_binders hs ns]
theorem Path.visitSegs_length (s : SelfTy) : ∀ p : Path, (p.visitSegs s).length = p.segs.length
  | .mk _ segs => by rw [Path.visitSegs]; exact visitSegList_length s segs
theorem Path.visitSegs_head {s : SelfTy} (hs : s.NoBinder) : ∀ p : Path,
    ((p.visitSegs s).head?.map Seg.binders).getD [] = (p.segs.head?.map Seg.binders).getD []
  | .mk _ [] => by rw [Path.visitSegs, visitSegList]; rfl
  | .mk _ (x :: xs) => by
    rw [Path.visitSegs, visitSegList]
    simp only [List.head?_cons, Option.map_some, Option.getD_some, Path.segs]
    exact Seg.visit_binders hs x
end

theorem nodesBinders_args (args : List GArg) : nodesBinders (args.map GArg.node) = [] := by
  induction args with
  | nil => rfl
  | cons a as ih =>
    simp only [List.map_cons, nodesBinders, ih, List.append_nil]
    cases a <;> rfl

theorem mkSelfTy_noBinder (ident : String) (args : List GArg) : (mkSelfTy ident args).NoBinder := by
  refine ⟨rfl, ?_⟩
  simp only [mkSelfTy, Path.binders, segsBinders, Seg.binders]
  split <;> simp [PArgs.binders, nodesBinders_args]

theorem map_visit_binders {s : SelfTy} (hs : s.NoBinder) (ns : List Node) :
    nodesBinders (ns.map (Node.visit s)) = nodesBinders ns := by
  induction ns with
  | nil => rfl
  | cons n ns ih => simp [nodesBinders, ih, Node.visit_binders hs]

theorem declaredLifetimes_visit {s : SelfTy} (hs : s.NoBinder) (g : Generics) :
    (g.visit s).declaredLifetimes = g.declaredLifetimes := by
  unfold Generics.declaredLifetimes Generics.visit
  congr 1
  · simp only [List.flatMap_map]
    congr 1
    funext p
    cases p with
    | lifetime n b => rfl
    | type n bs d => cases d <;> simp [GParam.visit, GParam.declaredLifetimes, map_visit_binders hs, Node.visit_binders hs]
    | const n t d => cases d <;> simp [GParam.visit, GParam.declaredLifetimes, Node.visit_binders hs]
  · cases g.whereClause with
    | none => rfl
    | some ps =>
      simp only [Option.map_some, Option.getD_some, List.flatMap_map]
      congr 1
      funext w
      cases w <;> simp [WPred.visit, WPred.declaredLifetimes, Node.visit_binders hs]

end PinProject

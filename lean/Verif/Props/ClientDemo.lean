import Verif.Props.ClientUnique
/-!
# A program that meets the hypotheses of C39 and C40

`#[pin_project(project_replace)] struct G<'a, T: Tr, U> where U: Copy { #[pin] x: T, y: U }`, instantiated with
a type `T` that is not `Unpin`.
-/
namespace PinProject.ClientDemo
open PinProject Spec

def demoItem : Item := .struct_ (demoGeneric [.ident "project_replace"])

def demoE : Expansion := match parseDerive demoItem with
  | .ok E => E
  | .error _ => default

theorem demoE_ok : parseDerive demoItem = .ok demoE := rfl

def demoDef : Def where
  item := demoItem
  E := demoE
  ok := demoE_ok
  wf := by
    refine ⟨?_, fun e h => by cases h⟩
    rintro va fs ⟨rfl, rfl⟩
    simp [demoGeneric, Fields.WF]
  free := by
    rintro va fs ⟨rfl, rfl⟩ -
    refine ⟨by simp [demoGeneric, Fields.list], ?_⟩
    intro f hf
    cases hf

/-- The impls of the runtime crate do not conflict with those in expansions. -/
theorem coherent_runtime {items : List GItem} {us : List UImpl} {K : Negative} (h : Program.Coherent ⟨items, us⟩ K)
    (hi : ∀ a b ps tr n as ws fs, GItem.traitImpl a b ps tr n as ws fs ∈ items → n ≠ wrapperName ∧ n ≠ alwaysUnpinName)
    (hu : ∀ u ∈ us, u.name ≠ wrapperName ∧ u.name ≠ alwaysUnpinName) :
    Program.Coherent ⟨runtimeItems ++ items, us⟩ K := by
  have hd : MayDrop (runtimeItems ++ items) us K = MayDrop items us K := by
    funext t
    cases t with
    | adt n as =>
      have : implsOf runtimeItems .drop n = [] := by simp [implsOf, runtimeItems, GItem.implOf]
      simp only [MayDrop, implsOf, List.filterMap_append]
      unfold implsOf at this
      rw [this, List.nil_append]
    | _ => rfl
  have hr : reachOf (runtimeItems ++ items) us K = reachOf items us K := by
    funext i
    cases i <;> simp [reachOf, hd]
  unfold Program.Coherent at *
  simp only [hr] at *
  rw [List.filterMap_append, List.append_assoc, List.pairwise_append]
  refine ⟨?_, h, ?_⟩
  · simp [runtimeItems, reachOf, Reach.Overlap, List.filterMap_cons]
  · intro a ha b hb ⟨ht, t, hat, hbt⟩
    have : (a.tr = .unsafeUnpin ∨ a.tr = .unpin) ∧ ∃ n args, t = .adt n args ∧ (n = wrapperName ∨ n = alwaysUnpinName) := by
      simp only [runtimeItems, reachOf, List.filterMap_cons, List.filterMap_nil, List.mem_cons, List.not_mem_nil, or_false] at ha
      rcases ha with rfl | rfl
      · obtain ⟨args, h, -⟩ := hat; exact ⟨.inl rfl, _, args, h, .inl rfl⟩
      · obtain ⟨args, h, -⟩ := hat; exact ⟨.inr rfl, _, args, h, .inr rfl⟩
    obtain ⟨htr, n, args, rfl, hn⟩ := this
    rcases List.mem_append.1 hb with hb | hb
    · obtain ⟨i, him, hib⟩ := List.mem_filterMap.1 hb
      cases i with
      | blanketDrop m =>
        simp only [reachOf, Option.some.injEq] at hib
        subst hib
        rcases htr with h | h <;> rw [h] at ht <;> cases ht
      | traitImpl a' b' ps tr m as ws fs =>
        simp only [reachOf, Option.some.injEq] at hib
        subst hib
        obtain ⟨args', he, -⟩ := hbt
        obtain ⟨rfl, -⟩ := Ty.adt.inj he
        have := hi _ _ _ _ _ _ _ _ him
        rcases hn with h | h
        · exact this.1 h
        · exact this.2 h
      | _ => simp [reachOf] at hib
    · obtain ⟨u, hum, rfl⟩ := List.mem_map.1 hb
      obtain ⟨args', he, -⟩ := hbt
      obtain ⟨rfl, -⟩ := Ty.adt.inj he
      have := hu u hum
      rcases hn with h | h
      · exact this.1 h
      · exact this.2 h

/-- A compiler that never concludes that a bound does not hold. -/
def demoK : Negative := ⟨fun _ _ _ => False, fun _ _ _ => False, fun _ => False⟩

def demoP : Program := ⟨runtimeItems ++ allItems demoE, []⟩

theorem demoK_sound : demoK.Sound demoNames := ⟨fun _ _ _ h => h.elim, fun _ _ _ h => h.elim, fun _ _ _ _ h => h, fun _ _ _ _ h => h, fun _ h => h.elim⟩

def implName : GItem → Option String
  | .traitImpl _ _ _ _ n _ _ _ => some n
  | _ => none

theorem demo_coherent : demoP.Coherent demoK := by
  refine coherent_runtime ?_ ?_ (by simp)
  · rw [coherent_iff demoItem demoE demoE_ok (demoGeneric_scoped _) _ rfl "G" rfl demoNames demoNames_lawful demoK demoK_sound [] (by simp)]
    exact ⟨by simp, by simp [Disjoint]⟩
  · intro a b ps tr n as ws fs hm
    have h : ∀ m ∈ (allItems demoE).filterMap implName, m = "G" := by
      have : (allItems demoE).filterMap implName = ["G", "G", "G", "G"] := rfl
      simp [this]
    have := h n (List.mem_filterMap.2 ⟨_, hm, rfl⟩)
    subst this
    decide

/-- Assumed about unknown types: those called 3 are not `Unpin`, all others are. -/
def demoS : Facts := ⟨fun t => ∀ as, t ≠ .ext 3 as, fun _ => False⟩

noncomputable def demoF : Facts := Classical.choose (demoP.solves_exists demoNames demoS)

theorem demoF_spec : demoP.Solves demoNames demoF ∧ (∀ n as, demoF.unpin (.ext n as) ↔ demoS.unpin (.ext n as)) :=
  have h := Classical.choose_spec (demoP.solves_exists demoNames demoS)
  ⟨h.1, h.2.1⟩

noncomputable def demoU : Universe where
  P := demoP
  N := demoNames
  F := demoF
  K := demoK
  D n := if n = "G" then some demoDef else none
  structural _ := False
  lawful := demoNames_lawful
  solves := demoF_spec.1
  negative := demoK_sound
  coherent := demo_coherent
  name := by
    intro n d h
    split at h
    · cases h; rename_i h; subst h; rfl
    · cases h
  wellScoped := by
    intro n d h
    split at h
    · cases h; exact demoGeneric_scoped _
    · cases h
  names := by
    intro n d A h hA
    split at h
    · cases h
      have : parseArgs (itemAttrs demoDef.item) = .ok { projectReplace := .unnamed } := rfl
      obtain rfl := Except.ok.inj (this.symm.trans hA)
      exact ⟨nofun, nofun⟩
    · cases h
  hosts := by
    intro n d h
    split at h
    · cases h; rename_i h; subst h
      exact hosts_plain "G" demoE [] (by simp)
    · cases h
  foreign := by intro n args h; exact h.elim
  contract := by intro u hu; cases hu

def demoT : Ty := .ext 3 []
def demoTU : Ty := .ext 4 []
def demoTy : Ty := .adt "G" [.lt 0, .ty demoT, .ty demoTU]
def demoX : V := .node 10 demoT none []
def demoY : V := .node 11 demoTU none []
def demoV : V := .node 12 demoTy none [("x", demoX), ("y", demoY)]

theorem demo_notUnpin : ¬ demoU.F.unpin demoT := by
  change ¬ demoF.unpin (.ext 3 [])
  rw [demoF_spec.2]
  intro h
  exact h [] rfl

theorem demo_def : demoU.def? demoTy = some (demoDef, [.lt 0, .ty demoT, .ty demoTU]) := rfl

theorem demo_plainOk (id : Id) (n : Nat) : NodeOk demoU (.node id (.ext n []) none []) :=
  ⟨fun _ _ h => (by cases h), fun h => h.elim, by simp⟩

theorem demo_nodeOk (i j k : Id) : NodeOk demoU (.node i demoTy none [("x", .node j demoT none []), ("y", .node k demoTU none [])]) := by
  refine ⟨?_, fun h => h.elim, by simp⟩
  intro d args h
  rw [demo_def] at h
  cases h
  refine ⟨⟨demoGeneric_instance _ 0 demoT demoTU (by simp [demoT]), trivial⟩, _, ⟨⟨rfl, rfl⟩, rfl⟩, ?_⟩
  rfl

def world (roots : List (Nat × Slot)) (used : List Id) (trace : List PEvent) : World := ⟨fun r => roots.lookup r, used, trace⟩

/-- The reference to the pinned field that `project` gives. -/
theorem demo_projects : Projects demoDef "project" true none [("x", demoX), ("y", demoY)] (["x"], .pinExcl) :=
  ⟨_, fun _ _ => false, false, _, rfl, rfl, by decide⟩

/-- Two values are made, put into a `G`, and the `G` is pinned. -/
theorem demo_pinned : ∃ c, Reachable demoU c ∧ c.todo = [.code []] ∧ c.w.roots 2 = some ⟨true, demoV⟩ ∧ c.w.trace = [] ∧
    (∀ n, c.w.roots (n + 3) = none) ∧ ∀ n, n + 13 ∉ c.w.used := by
  have h0 : Reachable demoU .init := .init
  have h1 := h0.step (.op (gs := []) (by simp [Config.init]) (.build 0 10 demoT none [] rfl (by simp [Config.init]) (by simp) (by simp) (demo_plainOk _ _)))
  have h2 := h1.step (.op (gs := []) (by simp [Config.init]) (.build 1 11 demoTU none [] rfl (by simp) (by simp) (by simp) (demo_plainOk _ _)))
  have h3 := h2.step (.op (gs := []) (by simp [Config.init]) (.build 2 12 demoTy none [("x", 0, demoX), ("y", 1, demoY)] rfl (by simp [Config.init])
    (by simp) (by
      intro x hx
      simp only [List.mem_cons, List.not_mem_nil, or_false] at hx
      rcases hx with rfl | rfl
      · exact ⟨rfl, by simp [busyRoots, Instr.locs]⟩
      · exact ⟨rfl, by simp [busyRoots, Instr.locs]⟩) (demo_nodeOk _ _ _)))
  have h4 := h3.step (.op (gs := []) (by simp [Config.init]) (.pin 2 demoV rfl (by simp [busyRoots, Instr.locs])))
  refine ⟨_, h4, rfl, rfl, rfl, ?_, ?_⟩
  · intro n
    simp [World.setRoot, World.take, Config.init]
  · intro n
    simp [World.setRoot, World.take, Config.init]

/-- Then `project` is called, and the pinned reference to the field is handed out. -/
theorem demo_exposed : ∃ c, Reachable demoU c ∧ c.todo = [.code []] ∧ c.w.roots 2 = some ⟨true, demoV⟩ ∧
    c.w.trace = [.expose 12 demoTy ⟨2, []⟩, .expose 10 demoT ⟨2, ["x"]⟩] ∧ (∀ n, c.w.roots (n + 3) = none) ∧ ∀ n, n + 13 ∉ c.w.used := by
  obtain ⟨⟨w, todo⟩, h, rfl, hr, ht, h3, hused⟩ := demo_pinned
  simp only at hr ht
  have hat : ∀ es, (w.log es).at ⟨2, []⟩ = some demoV := by intro es; unfold World.at; rw [World.log_roots, hr]; rfl
  have hat' : ∀ es, (w.log es).at ⟨2, ["x"]⟩ = some demoX := by intro es; unfold World.at; rw [World.log_roots, hr]; rfl
  have hc : ∀ L, Clear [.code []] L := by intro L i hi N hN; rw [List.mem_singleton] at hi; subst hi; cases hN
  have h1 := h.step (.op (gs := []) (by simp [Config.init]) (.expose ⟨2, []⟩ .pinExcl 12 demoTy none _ (.root hr .refl (hc _)) (.inl rfl) (hat [])))
  have h2 := h1.step (.op (gs := []) (by simp [Config.init]) (.expose ⟨2, ["x"]⟩ .pinExcl 10 demoT none _
    (.root (r := 2) (x := ⟨true, demoV⟩) hr (Deriv.project (t := (["x"], .pinExcl)) .refl (hat _) demo_def demo_projects) (hc _)) (.inl rfl) (hat' _)))
  exact ⟨_, h2, rfl, hr, by simp [ht], h3, hused⟩

/-- C39: the field has been exposed, and is not `Unpin`. -/
example : ∃ c, Reachable demoU c ∧ Exposed c.w 10 demoT ⟨2, ["x"]⟩ ∧ ¬ demoU.F.unpin demoT := by
  obtain ⟨c, h, -, -, ht, -⟩ := demo_exposed
  exact ⟨c, h, by simp [Exposed, ht], demo_notUnpin⟩

/-- C40: then the `G` is dropped; in the last step the destructor of the field is called, in place. -/
example : ∃ c c', Reachable demoU c ∧ CStep demoU c c' ∧ Exposed c.w 10 demoT ⟨2, ["x"]⟩ ∧ ¬ demoU.F.unpin demoT ∧
    ¬ Ended c.w 10 ⟨2, ["x"]⟩ ∧ Ended c'.w 10 ⟨2, ["x"]⟩ := by
  obtain ⟨⟨w, todo⟩, h, rfl, hr, ht, -⟩ := demo_exposed
  simp only at hr ht
  have hat : ∀ es, (w.log es).at ⟨2, []⟩ = some demoV := by intro es; unfold World.at; rw [World.log_roots, hr]; rfl
  have hat' : ∀ es, (w.log es).at ⟨2, ["x"]⟩ = some demoX := by intro es; unfold World.at; rw [World.log_roots, hr]; rfl
  have h1 := h.step (.op (gs := []) (by simp [Config.init]) (.drop 2 ⟨true, demoV⟩ hr (by simp [busyRoots, Instr.locs])))
  have h2 := h1.step (.destroyAnnotated (orc := fun _ _ => false) (tl := false) (hat []) demo_def)
  rw [dropInstrs_eq] at h2
  have h3 := h2.step (.fields (hat _))
  refine ⟨_, _, h3, .destroyPlain (hat' _) (.inl ⟨rfl, fun h => h⟩) (fun h => h), ?_, demo_notUnpin, ?_, ?_⟩
  · simp [Exposed, ht]
  · simp [Ended, ht]
  · exact .inl (List.mem_append_right _ (List.mem_singleton.2 rfl))

/-- Threads: while the `G` is being dropped, another thread makes a value and begins to drop it too; and
its destructor is called before the one of the field. -/
example : ∃ c, Reachable demoU c ∧ (∃ is, c.todo = .code [(⟨3, []⟩, .excl)] :: .fields ⟨3, []⟩ :: .destroy ⟨2, ["x"]⟩ :: is) ∧
    Exposed c.w 10 demoT ⟨2, ["x"]⟩ ∧ ¬ Ended c.w 10 ⟨2, ["x"]⟩ := by
  obtain ⟨⟨w, todo⟩, h, rfl, hr, ht, h3, hused⟩ := demo_exposed
  simp only at hr ht h3 hused
  have h1 := h.step (.op (gs := []) (by simp) (.build (w := w) 3 13 demoTU none [] (h3 0) (hused 0) (by simp) (by simp) (demo_plainOk _ _)))
  obtain ⟨w1, h1, hr1, hr3, ht1⟩ : ∃ w1, Reachable demoU ⟨w1, [.code []]⟩ ∧ w1.roots 2 = some ⟨true, demoV⟩ ∧
      w1.roots 3 = some ⟨false, .node 13 demoTU none []⟩ ∧ w1.trace = w.trace := ⟨_, h1, hr, rfl, rfl⟩
  have hat : ∀ es, (w1.log es).at ⟨2, []⟩ = some demoV := by intro es; unfold World.at; rw [World.log_roots, hr1]; rfl
  have hat3 : ∀ es, (w1.log es).at ⟨3, []⟩ = some (.node 13 demoTU none []) := by
    intro es; unfold World.at; rw [World.log_roots, hr3]; rfl
  have other : ∀ p q, GLoc.Disjoint ⟨3, p⟩ ⟨2, q⟩ := by
    intro p q
    refine ⟨fun h => ?_, fun h => ?_⟩ <;> have := h.root <;> simp at this
  have h2 := h1.step (.op (gs := []) (by simp) (.drop 2 ⟨true, demoV⟩ hr1 (by simp [busyRoots, Instr.locs])))
  have h3 := h2.step (.op (gs := []) (by simp) (.drop 3 ⟨false, .node 13 demoTU none []⟩ hr3 (by simp [busyRoots, Instr.locs])))
  have h4 := h3.step (.sched (pre := [.destroy ⟨3, []⟩, .free 3]) (i := .destroy ⟨2, []⟩) (post := [.free 2, .code []])
    (by simpa [Instr.locs, Clear] using other [] []))
  have h5 := h4.step (.destroyAnnotated (orc := fun _ _ => false) (tl := false) (hat []) demo_def)
  rw [dropInstrs_eq] at h5
  have h6 := h5.step (.fields (hat _))
  have h7 := h6.step (.sched (pre := [.destroy ⟨2, ["x"]⟩, .destroy ⟨2, ["y"]⟩]) (i := .destroy ⟨3, []⟩)
    (post := [.free 3, .free 2, .code []]) (by
      simp only [Instr.locs, Clear, List.mem_singleton, forall_eq, List.mem_cons, List.not_mem_nil, or_false, forall_eq_or_imp]
      exact ⟨Disjoint.symm (other _ _), Disjoint.symm (other _ _)⟩))
  have h8 := h7.step (.destroyPlain (hat3 _) (.inl ⟨rfl, fun h => h⟩) (fun h => h))
  refine ⟨_, h8, ⟨_, rfl⟩, ?_, ?_⟩
  · simp [Exposed, ht1, ht]
  · simp [Ended, ht1, ht]

/-- C54: the `G` is replaced by another one. The old value of `y` has been moved out; it is on its way to a new
variable of the caller. The new value of `y` is on its way into the `G`. -/
example : ∃ c n m, Reachable demoU c ∧ IsAt c 11 (.held n []) ∧ IsAt c 14 (.held m ["y"]) ∧ IsAt c 10 (.mem ⟨2, ["x"]⟩) := by
  obtain ⟨⟨w, todo⟩, h, rfl, hr, ht, h3, hused⟩ := demo_exposed
  simp only at hr ht h3 hused
  have h1 := h.step (.op (gs := []) (by simp) (.build (w := w) 3 13 demoT none [] (h3 0) (hused 0) (by simp) (by simp) (demo_plainOk _ _)))
  have h2 := h1.step (.op (gs := []) (by simp) (.build 4 14 demoTU none [] (h3 1) (by simpa using hused 1) (by simp) (by simp) (demo_plainOk _ _)))
  have h4 := h2.step (.op (gs := []) (by simp) (.build 5 15 demoTy none [("x", 3, .node 13 demoT none []), ("y", 4, .node 14 demoTU none [])]
    (h3 2) (by simpa using hused 2) (by simp) (by
      intro x hx
      simp only [List.mem_cons, List.not_mem_nil, or_false] at hx
      rcases hx with rfl | rfl
      · exact ⟨rfl, by simp [busyRoots, Instr.locs]⟩
      · exact ⟨rfl, by simp [busyRoots, Instr.locs]⟩) (demo_nodeOk _ _ _)))
  obtain ⟨w1, h4, hr1, hr5⟩ : ∃ w1, Reachable demoU ⟨w1, [.code []]⟩ ∧ w1.roots 2 = some ⟨true, demoV⟩ ∧
      w1.roots 5 = some ⟨false, .node 15 demoTy none [("x", .node 13 demoT none []), ("y", .node 14 demoTU none [])]⟩ :=
    ⟨_, h4, hr, rfl⟩
  have hat : w1.at ⟨2, []⟩ = some demoV := by unfold World.at; rw [hr1]; rfl
  have hc : ∀ L, Clear [.code []] L := by intro L i hi N hN; rw [List.mem_singleton] at hi; subst hi; cases hN
  have h5 := h4.step (.op (gs := []) (by simp) (.replace ⟨2, []⟩ 12 demoTy none _ demoDef _ _ 5 15 none _ (fun _ _ => false) false _
    (.root hr1 .refl (hc _)) hat demo_def rfl hr5 (by simp [busyRoots, Instr.locs]) (by decide) rfl (by decide)))
  refine ⟨_, 1, 0, h5, ⟨_, _, _, rfl⟩, ⟨_, _, _, rfl⟩, demoT, none, [], ?_⟩
  have hput : ∀ v : V, ((w1.setRoot 5 none).put ⟨2, []⟩ v).at ⟨2, ["x"]⟩ = v.get ["x"] := by
    intro v
    have he : (w1.setRoot 5 none).at ⟨2, []⟩ = some demoV := by rw [World.setRoot_at_ne _ _ (by decide)]; exact hat
    exact World.put_at_sub _ he v ["x"]
  exact (hput _).trans rfl

end PinProject.ClientDemo

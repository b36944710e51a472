import Verif.Spec.Projection
import Verif.Props.Accept
/-!
# Lemmas about executing the generated functions
-/
namespace PinProject
open Spec

/-! ## Unique bindings -/

theorem toString_nat_inj {a b : Nat} (h : toString a = toString b) : a = b := by
  have h1 : a.repr = b.repr := h
  have h2 : a.repr.toList = b.repr.toList := by rw [h1]
  rw [Nat.toList_repr, Nat.toList_repr] at h2
  have h3 := Nat.ofDigitChars_ten_toDigits (n := a)
  have h4 := Nat.ofDigitChars_ten_toDigits (n := b)
  rw [h2] at h3
  exact h3.symm.trans h4

theorem tuple_binding_inj {i j : Nat} {f g : Field} (hf : f.ident = none) (hg : g.ident = none)
    (h : binding i f = binding j g) : i = j := by
  simp only [binding, hf, hg, Option.getD_none] at h
  apply toString_nat_inj
  have := congrArg String.toList h
  have h2 : (toString i).toList = (toString j).toList := by
    simpa only [String.toList_append, List.append_cancel_left_eq] using this
  exact String.ext h2

/-- The environment of the pattern: each binder refers to the storage of its field. -/
def patEnv (isMut : Bool) (p : Nat) (fs : List Field) : Env :=
  fs.zipIdx.map (fun x => (binding x.2 x.1, some (.fv (.ref isMut ⟨p, some (fieldLabel x.2 x.1)⟩))))

theorem zipIdx_map_nodup {β : Type} (fs : List Field) (i : Nat) (g : Field × Nat → β)
    (h : ∀ x ∈ fs.zipIdx i, ∀ y ∈ fs.zipIdx i, g x = g y → x.2 = y.2) :
    ((fs.zipIdx i).map g).Nodup := by
  induction fs generalizing i with
  | nil => simp
  | cons f fs ih =>
    rw [List.zipIdx_cons, List.map_cons, List.nodup_cons]
    constructor
    · intro hm
      obtain ⟨y, hy, he⟩ := List.mem_map.1 hm
      have := h y (by rw [List.zipIdx_cons]; exact List.mem_cons_of_mem _ hy) (f, i)
        (by rw [List.zipIdx_cons]; exact List.mem_cons_self) he
      have h2 := List.le_snd_of_mem_zipIdx hy
      simp only at this
      omega
    · apply ih
      intro x hx y hy
      apply h <;> rw [List.zipIdx_cons] <;> apply List.mem_cons_of_mem <;> assumption

theorem bindings_nodup {fs : Fields} (h : fs.WF) : (bindings fs.list).Nodup := by
  cases fs with
  | unit => simp [bindings, Fields.list]
  | unnamed fs =>
    apply zipIdx_map_nodup
    intro x hx y hy he
    simp only [Fields.list] at hx hy
    exact tuple_binding_inj (h _ (List.fst_mem_of_mem_zipIdx hx))
      (h _ (List.fst_mem_of_mem_zipIdx hy)) he
  | named fs =>
    have : bindings fs = fs.map (fun f => f.ident.getD "") := by
      simp only [bindings]
      have : fs.zipIdx.map (fun x => binding x.2 x.1) =
          fs.zipIdx.map ((fun f : Field => f.ident.getD "") ∘ Prod.fst) := by
        apply List.map_congr_left
        intro x hx
        have := h.1 x.1 (List.fst_mem_of_mem_zipIdx hx)
        obtain ⟨n, hn⟩ := Option.isSome_iff_exists.1 this
        simp [binding, hn]
      rw [this, ← List.map_map, List.zipIdx_map_fst]
    simp only [Fields.list]
    rw [this]
    have h2 := h.2
    have h3 : fs.map (fun f => f.ident.getD "") = (fs.map (·.ident)).map (·.getD "") := by
      simp [List.map_map, Function.comp_def]
    rw [h3]
    rw [List.nodup_iff_pairwise_ne] at *
    rw [List.pairwise_map]
    refine List.Pairwise.imp_of_mem ?_ h2
    intro a b ha hb hne he
    obtain ⟨f, hf, rfl⟩ := List.mem_map.1 ha
    obtain ⟨g, hg, rfl⟩ := List.mem_map.1 hb
    obtain ⟨n, hn⟩ := Option.isSome_iff_exists.1 (h.1 f hf)
    obtain ⟨k, hk⟩ := Option.isSome_iff_exists.1 (h.1 g hg)
    rw [hn, hk] at he hne
    simp at he
    exact hne (by rw [he])

theorem patEnv_keys (b : Bool) (p : Nat) (fs : List Field) :
    (patEnv b p fs).map Prod.fst = bindings fs := by
  simp [patEnv, bindings, List.map_map, Function.comp_def]

theorem labels_brace (fs : List Field) (h : ∀ f ∈ fs, f.ident.isSome) : labels fs = bindings fs := by
  apply List.map_congr_left
  intro x hx
  obtain ⟨n, hn⟩ := Option.isSome_iff_exists.1 (h x.1 (List.fst_mem_of_mem_zipIdx hx))
  simp [fieldLabel, binding, hn]

theorem patEnv_brace (b : Bool) (p : Nat) (fs : List Field) (h : ∀ f ∈ fs, f.ident.isSome) :
    patEnv b p fs = (bindings fs).map (fun x => (x, some (.fv (.ref b ⟨p, some x⟩)))) := by
  simp only [patEnv, bindings, List.map_map]
  apply List.map_congr_left
  intro x hx
  obtain ⟨n, hn⟩ := Option.isSome_iff_exists.1 (h x.1 (List.fst_mem_of_mem_zipIdx hx))
  simp [fieldLabel, binding, hn]

/-- Matching a value of the type against the generated pattern of its variant. -/
theorem bindPat_eq {fs : Fields} (hwf : fs.WF) {o : Obj} (ho : o.fields.map Prod.fst = labels fs.list)
    (isMut : Bool) (p : Nat) :
    bindPat ⟨o.variant, fs.delim, bindings fs.list⟩ isMut p o = some (patEnv isMut p fs.list) := by
  have hn := bindings_nodup hwf
  unfold bindPat
  simp only [true_and]
  rw [if_pos hn]
  cases fs with
  | unit =>
    have : o.fields = [] := by simpa [labels, Fields.list] using ho
    simp [Fields.delim, this, bindings, patEnv, Fields.list]
  | named fs =>
    refine (if_pos ?_).trans ?_
    · rw [ho, show labels (Fields.named fs).list = bindings (Fields.named fs).list from
        labels_brace fs hwf.1]
      exact ⟨fun _ h => h, fun _ h => h⟩
    · rw [show patEnv isMut p (Fields.named fs).list = _ from patEnv_brace isMut p fs hwf.1]
      rfl
  | unnamed fs =>
    have hl : (bindings fs).length = o.fields.length := by
      have := congrArg List.length ho
      simpa [labels, bindings, Fields.list] using this.symm
    refine (if_pos hl).trans ?_
    congr 1
    simp only [Fields.list] at *
    have : List.zipWith (fun x f => (x, some (Val.fv (FVal.ref isMut ⟨p, some f.1⟩)))) (bindings fs)
        o.fields = List.zipWith (fun x l => (x, some (Val.fv (FVal.ref isMut ⟨p, some l⟩))))
        (bindings fs) (o.fields.map Prod.fst) := by
      rw [List.zipWith_map_right]
    rw [this, ho]
    simp only [bindings, labels, patEnv, List.zipWith_map, List.zipWith_self]

/-! ## Environments -/

theorem lookup_append_of_mem {β : Type} {l : List (String × β)} {k : String} {v : β}
    (hn : (l.map Prod.fst).Nodup) (hm : (k, v) ∈ l) (env : List (String × β)) :
    (l ++ env).lookup k = some v := by
  induction l with
  | nil => simp at hm
  | cons x l ih =>
    rw [List.map_cons, List.nodup_cons] at hn
    rcases List.mem_cons.1 hm with rfl | hm
    · simp
    · have hne : ¬ k = x.1 := by
        rintro rfl
        exact hn.1 (List.mem_map.2 ⟨_, hm, rfl⟩)
      rw [List.cons_append, List.lookup_cons]
      have : (k == x.1) = false := by simpa using hne
      rw [this]
      exact ih hn.2 hm

theorem patEnv_lookup {fs : Fields} (hwf : fs.WF) (b : Bool) (p : Nat) (env : Env)
    {x : Field × Nat} (hx : x ∈ fs.list.zipIdx) :
    ((patEnv b p fs.list).reverse ++ env).lookup (binding x.2 x.1) =
      some (some (.fv (.ref b ⟨p, some (fieldLabel x.2 x.1)⟩))) := by
  apply lookup_append_of_mem
  · rw [List.map_reverse, (List.reverse_perm _).nodup_iff, patEnv_keys]
    exact bindings_nodup hwf
  · rw [List.mem_reverse]
    exact List.mem_map.2 ⟨x, hx, rfl⟩

theorem use_of_lookup {x : String} {env : Env} {v : Val} (h : env.lookup x = some (some v))
    (ho : v.isOwning = false) : env.use x = some (v, env) := by
  induction env with
  | nil => simp at h
  | cons e env ih =>
    obtain ⟨y, w⟩ := e
    rw [List.lookup_cons] at h
    unfold Env.use
    by_cases hy : y = x
    · subst hy
      simp only [beq_self_eq_true, Option.some.injEq] at h
      subst h
      simp [ho]
    · have : (x == y) = false := by simpa using fun h => hy h.symm
      rw [this] at h
      rw [if_neg hy, ih h]
      rfl

/-! ## Projection bodies -/

theorem evalInits_proj {fs : Fields} (hwf : fs.WF) (isMut : Bool) (p : Nat) (env : Env) (m : M) :
    ∀ (l : List Field) (i : Nat), (∀ x ∈ l.zipIdx i, x ∈ fs.list.zipIdx) →
    evalInits m ((patEnv isMut p fs.list).reverse ++ env) fs.delim i ((l.zipIdx i).map projInit) =
      some ((l.zipIdx i).map
        (fun x => (fieldLabel x.2 x.1, fieldRef isMut p (fieldLabel x.2 x.1) x.1))) := by
  intro l
  induction l with
  | nil => intro i _; simp [evalInits]
  | cons f l ih =>
    intro i hsub
    have hx : (f, i) ∈ fs.list.zipIdx := hsub _ (by simp [List.zipIdx_cons])
    have hlk := patEnv_lookup hwf isMut p env hx
    have hg : Env.getRef (binding i f) ((patEnv isMut p fs.list).reverse ++ env) =
        some (isMut, ⟨p, some (fieldLabel i f)⟩) := by
      unfold Env.getRef
      rw [hlk]
    have ih' := ih (i + 1) (fun x hx => hsub x (by rw [List.zipIdx_cons]; exact List.mem_cons_of_mem _ hx))
    rw [List.zipIdx_cons, List.map_cons, List.map_cons]
    unfold evalInits
    rw [ih']
    have hlab : GInit.label fs.delim i (projInit (f, i)) = fieldLabel i f := by
      unfold projInit
      split
      · rfl
      · cases fs with
        | unit => simp [Fields.list] at hx
        | named fs =>
          obtain ⟨n, hn⟩ := Option.isSome_iff_exists.1 (hwf.1 f (List.fst_mem_of_mem_zipIdx hx))
          simp [GInit.label, Fields.delim, binding, fieldLabel, hn]
        | unnamed fs =>
          have hn := hwf f (List.fst_mem_of_mem_zipIdx hx)
          simp [GInit.label, Fields.delim, fieldLabel, hn]
    have hv : evalF m ((patEnv isMut p fs.list).reverse ++ env) (projInit (f, i)).expr =
        some (fieldRef isMut p (fieldLabel i f) f) := by
      unfold projInit fieldRef
      cases hp : Pinned f <;> simp [GInit.expr, evalF, hg]
    simp only [hv, hlab]
    rfl

theorem evalCtor_proj {fs : Fields} (hwf : fs.WF) (isMut : Bool) (p : Nat) (env : Env) (m : M)
    (orc : Oracle) (name : String) (variant : Option String) :
    evalRHS orc ((patEnv isMut p fs.list).reverse ++ env) m
      (.ctor ⟨name, variant, fs.delim, fs.list.zipIdx.map projInit⟩) =
      some (.adt name variant (Spec.fieldRefs isMut p fs), (patEnv isMut p fs.list).reverse ++ env, m) := by
  unfold evalRHS
  simp only
  rw [evalInits_proj hwf isMut p env m fs.list 0 (fun x hx => hx)]
  rfl

/-! ## Dropping locals -/

theorem dropSlots_append (orc : Oracle) (a b : Env) (m : M) :
    dropSlots orc (a ++ b) m = dropSlots orc b (dropSlots orc a m) := by
  induction a generalizing m with
  | nil => rfl
  | cons x a ih =>
    obtain ⟨y, v⟩ := x
    cases v with
    | none => simp only [List.cons_append, dropSlots]; exact ih m
    | some v => simp only [List.cons_append, dropSlots]; exact ih _

theorem dropSlots_refs (orc : Oracle) (e : Env) (m : M)
    (h : ∀ x ∈ e, ∃ b l, x.2 = some (.fv (.ref b l))) : dropSlots orc e m = m := by
  induction e generalizing m with
  | nil => rfl
  | cons x e ih =>
    obtain ⟨y, v⟩ := x
    obtain ⟨b, l, rfl⟩ := h _ List.mem_cons_self
    simp only [dropSlots, dropVal, dropFVal]
    exact ih m (fun x hx => h x (List.mem_cons_of_mem _ hx))

theorem dropSlots_patEnv (orc : Oracle) (b : Bool) (p : Nat) (fs : List Field) (m : M) :
    dropSlots orc (patEnv b p fs).reverse m = m := by
  apply dropSlots_refs
  intro x hx
  rw [List.mem_reverse] at hx
  obtain ⟨y, _, rfl⟩ := List.mem_map.1 hx
  exact ⟨_, _, rfl⟩

end PinProject

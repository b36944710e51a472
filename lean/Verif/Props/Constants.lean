import Verif.Spec.Constants
import Verif.Props.Typing
/-!
# Constants with the name of a field: C81
-/
namespace PinProject
open Spec

/-! ## Names of local variables -/

/-- No local variable has the name of a constant. -/
def KeysFree (V : Values) (Γ : Locals) : Prop := ∀ x ∈ Γ.map Prod.fst, V.Free x

theorem use_keys {V : Values} {Γ Γ' : Locals} {x : String} {t : LTy} (h : Use V Γ x t Γ') :
    Γ'.map Prod.fst = Γ.map Prod.fst := by
  induction h with
  | move => rfl
  | copy => rfl
  | older _ _ ih => rw [List.map_cons, ih, List.map_cons]
  | const => rfl

theorem fexpr_keys {K : Site} {Γ Γ' : Locals} {e : FExpr} {t : LTy} (h : FExprTy K Γ e t Γ') :
    Γ'.map Prod.fst = Γ.map Prod.fst := by
  cases h with
  | bind h => exact use_keys h
  | pinNew _ h => exact use_keys h
  | read _ h => exact use_keys h
  | readPtr _ h => exact use_keys h
  | phantom => rfl

theorem entries_keys {K : Site} {d : Option Delim} {i : Nat} {Γ Γ' : Locals} {es : List GInit}
    {ts : List (String × LTy)} (h : EntriesTy K d i Γ es ts Γ') : Γ'.map Prod.fst = Γ.map Prod.fst := by
  induction h with
  | nil => rfl
  | cons _ h _ ih => rw [ih, fexpr_keys h]

theorem expr_keys {K : Site} {Γ Γ' : Locals} {e : RHS} {t : LTy} (h : ExprTy K Γ e t Γ') :
    Γ'.map Prod.fst = Γ.map Prod.fst := by
  cases h with
  | var h => exact use_keys h
  | getUncheckedMut _ h => exact use_keys h
  | getRef h => exact use_keys h
  | reborrow _ h => exact use_keys h
  | pinNew _ h => exact use_keys h
  | ctor _ _ _ _ h => exact entries_keys h
  | overwriteGuard _ h h' => rw [use_keys h', use_keys h]
  | dropGuard _ h => exact use_keys h
  | dropGuardPtr _ h => exact use_keys h
  | pinnedDropCall _ h => exact use_keys h
  | unit => rfl

theorem KeysFree.of_keys {V : Values} {Γ Γ' : Locals} (h : Γ'.map Prod.fst = Γ.map Prod.fst) (hf : KeysFree V Γ) :
    KeysFree V Γ' := by rw [KeysFree, h]; exact hf

theorem KeysFree.cons {V : Values} {Γ : Locals} {x : String} {t : Option LTy} (hx : V.Free x) (hf : KeysFree V Γ) :
    KeysFree V ((x, t) :: Γ) := by
  intro y hy
  rw [List.map_cons] at hy
  rcases List.mem_cons.1 hy with rfl | hy
  · exact hx
  · exact hf y hy

/-- A name that is not free does not refer to a local variable. -/
theorem use_captured {V : Values} {Γ Γ' : Locals} {x : String} {t : LTy} (hf : KeysFree V Γ) (hx : ¬ V.Free x)
    (h : Use V Γ x t Γ') : ∃ C, (x, C) ∈ V.consts ∧ V.same C t := by
  rcases (look_of_use h).1 with h | ⟨-, h⟩
  · refine absurd (hf x ?_) hx
    clear hf
    induction Γ generalizing Γ' with
    | nil => simp at h
    | cons p Γ ih =>
      obtain ⟨y, s⟩ := p
      by_cases hy : x = y
      · subst hy; simp
      · have hb : (x == y) = false := by simpa using hy
        rw [List.lookup_cons, hb] at h
        obtain ⟨_, h', -⟩ := use_of_look (V := V) h
        rw [List.map_cons]
        exact List.mem_cons_of_mem _ (ih h' h)
  · exact h

/-! ## Patterns -/

theorem namesBind_free_keys {V : Values} {lt : Option String} {b : Bool} {xs bs : List (String × LTy)}
    (h : NamesBind V lt b xs bs) : ∀ y ∈ bs, V.Free y.1 := by
  induction h with
  | nil => simp
  | cons h _ ih =>
    intro y hy
    rcases List.mem_append.1 hy with hy | hy
    · cases h with
      | var h => rw [List.mem_singleton.1 hy]; exact h
      | const => simp at hy
    · exact ih y hy

/-- A name in a pattern is a variable or a constant of the right type. -/
theorem namesBind_cases {V : Values} {lt : Option String} {b : Bool} {xs bs : List (String × LTy)}
    (h : NamesBind V lt b xs bs) :
    ∀ y ∈ xs, V.Free y.1 ∨ ∃ C, (y.1, C) ∈ V.consts ∧ V.same C y.2 ∧ V.single C := by
  induction h with
  | nil => simp
  | cons h _ ih =>
    intro y hy
    rcases List.mem_cons.1 hy with rfl | hy
    · cases h with
      | var h => exact .inl h
      | const h1 h2 h3 => exact .inr ⟨_, h1, h2, h3⟩
    · exact ih y hy

theorem itemVariants_unique {item : Item} (hwf : ItemWF item) {v w : Option String × Fields} (hv : v ∈ itemVariants item)
    (hw : w ∈ itemVariants item) (h : v.1 = w.1) : v = w := by
  cases item with
  | other a => simp [itemVariants] at hv
  | struct_ s =>
    simp only [itemVariants, List.mem_singleton] at hv hw
    rw [hv, hw]
  | enum_ e =>
    have hn := hwf.variants e rfl
    simp only [itemVariants, List.mem_map] at hv hw
    obtain ⟨a, ha, rfl⟩ := hv
    obtain ⟨c, hc, rfl⟩ := hw
    rw [inj_of_map_nodup hn ha hc (by simpa using h)]

theorem patBinds_cases {V : Values} {item : Item} (hwf : ItemWF item) {v : Option String × Fields}
    (hv : v ∈ itemVariants item) {delim : Option Delim} {lt : Option String} {b : Bool} {bs : List (String × LTy)}
    (h : PatBinds V item ⟨v.1, delim, bindings (v.2.visit (itemSelfTy item)).list⟩ lt b bs) :
    (∀ y ∈ bs, V.Free y.1) ∧ ∀ x ∈ (v.2.visit (itemSelfTy item)).list.zipIdx, V.Free (binding x.2 x.1) ∨
      ∃ C, (binding x.2 x.1, C) ∈ V.consts ∧ V.same C (.field x.1.ty) ∧ V.single C := by
  obtain ⟨fs, xs, h1, -, h3, h4, h5, h6⟩ := h
  obtain rfl : v.2 = fs := congrArg Prod.snd (itemVariants_unique hwf hv h1 rfl)
  refine ⟨namesBind_free_keys h5, fun x hx => ?_⟩
  have hwf' := hwf.fields _ _ (hasVariant_of_mem hv)
  suffices (binding x.2 x.1, LTy.field x.1.ty) ∈ xs from namesBind_cases h5 _ this
  simp only at h4
  have hx' := List.mem_zipIdx_iff_getElem?.1 hx
  have hb : (xs.map Prod.fst)[x.2]? = some (binding x.2 x.1) := by
    rw [h4, bindings, List.getElem?_map, List.getElem?_zipIdx, hx']
    simp
  rw [List.getElem?_map, Option.map_eq_some_iff] at hb
  obtain ⟨y, hy, hye⟩ := hb
  have hym := List.mem_of_getElem? hy
  suffices y = (binding x.2 x.1, LTy.field x.1.ty) by rwa [this] at hym
  refine Prod.ext hye ?_
  cases hfs : v.2 with
  | unit => rw [hfs] at hx'; simp [Fields.visit, Fields.list] at hx'
  | named l =>
    rw [hfs] at h6 hx' hwf'
    simp only [Fields.visit, Fields.list, List.getElem?_map, Option.map_eq_some_iff] at hx'
    obtain ⟨f, hf, hfe⟩ := hx'
    obtain ⟨g, hg, hgi, hgt⟩ := h6.2 y hym
    have hfm := List.mem_of_getElem? hf
    obtain ⟨n, hn⟩ := Option.isSome_iff_exists.1 (hwf'.1 _ hfm)
    have : y.1 = n := by rw [hye, ← hfe]; simp [binding, Field.visit, hn]
    rw [this, ← hn] at hgi
    rw [hgt, inj_of_map_nodup hwf'.2 hg hfm hgi, ← hfe]
    rfl
  | unnamed l =>
    rw [hfs] at h6 hx'
    simp only [Fields.visit, Fields.list, List.getElem?_map, Option.map_eq_some_iff] at hx'
    obtain ⟨f, hf, hfe⟩ := hx'
    have := congrArg (·[x.2]?) h6
    simp only [List.getElem?_map, hy, hf, Option.map_some, Option.some.injEq] at this
    rw [this, ← hfe]
    rfl

/-! ## Constructors and guards -/

theorem entries_at {K : Site} {d : Option Delim} {i : Nat} {Γ Γ' : Locals} {es : List GInit} {ts : List (String × LTy)}
    (h : EntriesTy K d i Γ es ts Γ') {j : Nat} {x : GInit} (hx : es[j]? = some x) :
    ∃ l e t Γ1 Γ2, Entry d (i + j) x l e ∧ FExprTy K Γ1 e t Γ2 ∧ ts[j]? = some (l, t) ∧
      Γ1.map Prod.fst = Γ.map Prod.fst := by
  induction h generalizing j with
  | nil => simp at hx
  | @cons i Γ Γ' Γ'' y ys l e t ts h1 h2 h3 ih =>
    cases j with
    | zero =>
      simp only [List.getElem?_cons_zero, Option.some.injEq] at hx
      subst hx
      exact ⟨l, e, t, Γ, Γ', h1, h2, rfl, rfl⟩
    | succ j =>
      simp only [List.getElem?_cons_succ] at hx ⊢
      obtain ⟨l', e', t', Γ1, Γ2, g1, g2, g3, g4⟩ := ih hx
      refine ⟨l', e', t', Γ1, Γ2, ?_, g2, g3, by rw [g4, fexpr_keys h2]⟩
      rw [show i + (j + 1) = i + 1 + j by omega]
      exact g1

/-- The entry for a field in the constructor of a generated type. -/
theorem ctor_at {K : Site} {A : Args} {mode : Mode} {vis : Vis} {ident : String} {g : Generics} {item : Item}
    (hwf : ItemWF item) (hn : (K.defs.map TypeDef.name).Nodup)
    (hd : modeDef A mode vis ident g (preVariants item) ∈ K.defs) {v : Option String × Fields}
    (hv : v ∈ itemVariants item) {Γ Γ' : Locals} {t : LTy} {init : Field × Nat → GInit}
    (h : ExprTy K Γ (.ctor ⟨(modeDef A mode vis ident g (preVariants item)).name, v.1,
      (v.2.visit (itemSelfTy item)).delim, (v.2.visit (itemSelfTy item)).list.zipIdx.map init⟩) t Γ')
    {x : Field × Nat} (hx : x ∈ (v.2.visit (itemSelfTy item)).list.zipIdx) :
    ∃ l e s Γ1 Γ2, Entry (v.2.visit (itemSelfTy item)).delim x.2 (init x) l e ∧ FExprTy K Γ1 e s Γ2 ∧
      Γ1.map Prod.fst = Γ.map Prod.fst ∧
      some s = (modeFields mode (determineLifetimeName "'pin" g) (v.2.visit (itemSelfTy item))).fields[x.2]?.bind
        (fun f => tyOf f.ty) := by
  cases h with
  | @ctor _ _ d gfs ts h1 h2 h3 h4 h5 h6 h7 h8 h9 =>
    obtain rfl := inj_of_map_nodup hn hd h1 h2
    have hx' := List.mem_zipIdx_iff_getElem?.1 hx
    obtain ⟨l, e, s, Γ1, Γ2, g1, g2, g3, g4⟩ := entries_at h5 (j := x.2) (x := init x) (by
      rw [List.getElem?_map, List.getElem?_zipIdx, hx']; simp)
    refine ⟨l, e, s, Γ1, Γ2, by simpa using g1, g2, g4, ?_⟩
    obtain ⟨w, hw, hwe⟩ := List.mem_map.1 h3
    obtain ⟨u, hu, rfl⟩ := List.mem_map.1 hw
    simp only [Prod.mk.injEq] at hwe
    obtain rfl := itemVariants_unique hwf hu hv hwe.1
    rw [hwe.2]
    have := congrArg (·[x.2]?) h7
    simp only [List.getElem?_map, g3, Option.map_some] at this
    cases hg : gfs.fields[x.2]? with
    | none => rw [hg] at this; cases this
    | some f => rw [hg] at this; simpa using this

theorem guards_at {K : Site} {xs : List String} {Γ Γ' : Locals}
    (h : LetsTy K Γ (xs.map (fun x => ("__guard", .dropGuard x))) Γ') (hf : KeysFree K.vals Γ)
    (hg : K.vals.Free "__guard") {x : String} (hx : x ∈ xs) :
    ∃ Γ1 Γ2 t, ExprTy K Γ1 (.dropGuard x) t Γ2 ∧ KeysFree K.vals Γ1 := by
  induction xs generalizing Γ with
  | nil => simp at hx
  | cons y xs ih =>
    cases h with
    | cons h1 h2 =>
      rcases List.mem_cons.1 hx with rfl | hx
      · exact ⟨_, _, _, h1, hf⟩
      · exact ih h2 ((hf.of_keys (expr_keys h1)).cons hg) hx

theorem entry_labelled_expr {d : Option Delim} {i : Nat} {n : Option String} {l : String} {e e' : FExpr}
    (h : Entry d i (.labelled n e') l e) : e = e' := by cases h <;> rfl

theorem entry_bare_expr {d : Option Delim} {i : Nat} {x l : String} {e : FExpr} (h : Entry d i (.bare x) l e) :
    e = .bind x := by cases h <;> rfl

theorem const_unique {V : Values} (hl : V.Lawful) {x : String} {C D : LTy} (h1 : (x, C) ∈ V.consts) (h2 : (x, D) ∈ V.consts) :
    C = D := congrArg Prod.snd (inj_of_map_nodup hl.nodup h1 h2 rfl)

/-- What is left if the name of a field is not free. -/
def Fooled (V : Values) (mode : Mode) (f : Field) : Prop :=
  mode = .replace ∧ Pinned f = true ∧ TrivialRef V (.field f.ty)

/-- One arm. -/
theorem arm_free {K : Site} {V : Values} (hK : K.vals = V) (hl : V.Lawful) {A : Args} {mode : Mode} {vis : Vis}
    {ident : String} {g : Generics} {item : Item} (hwf : ItemWF item) (hn : (K.defs.map TypeDef.name).Nodup)
    (hd : modeDef A mode vis ident g (preVariants item) ∈ K.defs) {v : Option String × Fields}
    (hv : v ∈ itemVariants item) {lt : Option String} {b : Bool} {bs : List (String × LTy)} {Γ Γ' Γ'' : Locals} {t : LTy}
    (hp : PatBinds V item (armOf mode (modeDef A mode vis ident g (preVariants item)).name
      (v.1, v.2.visit (itemSelfTy item))).pat lt b bs)
    (hΓ : KeysFree V Γ)
    (hs : StmtsTy K (asLocals bs ++ Γ) (armOf mode (modeDef A mode vis ident g (preVariants item)).name
      (v.1, v.2.visit (itemSelfTy item))).stmts Γ')
    (he : ExprTy K Γ' (armOf mode (modeDef A mode vis ident g (preVariants item)).name
      (v.1, v.2.visit (itemSelfTy item))).tail t Γ'')
    {x : Field × Nat} (hx : x ∈ (v.2.visit (itemSelfTy item)).list.zipIdx) :
    V.Free (binding x.2 x.1) ∨ Fooled V mode x.1 := by
  obtain ⟨hbs, hcases⟩ := patBinds_cases hwf hv hp
  have hx' := List.mem_zipIdx_iff_getElem?.1 hx
  by_cases hfx : V.Free (binding x.2 x.1)
  · exact .inl hfx
  refine .inr ?_
  obtain ⟨C, hC, hsame, hsingle⟩ := (hcases x hx).resolve_left hfx
  have hΓ1 : KeysFree V (asLocals bs ++ Γ) := by
    intro y hy
    rw [List.map_append] at hy
    rcases List.mem_append.1 hy with hy | hy
    · obtain ⟨p, hp, rfl⟩ := List.mem_map.1 hy
      rw [asLocals, List.mem_reverse] at hp
      obtain ⟨q, hq, rfl⟩ := List.mem_map.1 hp
      exact hbs q hq
    · exact hΓ y hy
  -- what the constant would have to be
  have huse : ∀ {Γ1 Γ2 : Locals} {s : LTy}, KeysFree V Γ1 → Use K.vals Γ1 (binding x.2 x.1) s Γ2 →
      V.same (.field x.1.ty) s := by
    intro Γ1 Γ2 s hk hu
    rw [hK] at hu
    obtain ⟨D, hD, hDs⟩ := use_captured hk hfx hu
    obtain rfl := const_unique hl hC hD
    exact hl.trans (hl.symm hsame) hDs
  have hptr : ∀ u, ¬ V.same (.field x.1.ty) (.ptr u) := fun u h => hl.ptr u (hl.single h (hl.single hsame hsingle))
  have hproj : ∀ {Γ1 Γ2 : Locals} {d : Option Delim} {l : String} {e : FExpr} {s : LTy} {lt : Option String} {b : Bool},
      KeysFree V Γ1 → Entry d x.2 (projInit x) l e → FExprTy K Γ1 e s Γ2 → s = projTy lt b x.1 → False := by
    intro Γ1 Γ2 d l e s lt b hk h1 h2 h3
    unfold projTy at h3
    unfold projInit at h1
    split at h1 <;> rename_i hpin
    · rw [if_pos hpin] at h3
      have : e = .pinNew (binding x.2 x.1) := entry_labelled_expr h1
      subst this
      cases h2 with
      | pinNew _ hu =>
        rw [LTy.pin.inj h3] at hu
        exact hl.acyclic _ _ _ (huse hk hu)
    · rw [if_neg hpin] at h3
      have : e = .bind (binding x.2 x.1) := entry_bare_expr h1
      subst this
      cases h2 with
      | bind hu =>
        rw [h3] at hu
        exact hl.acyclic _ _ _ (huse hk hu)
  cases mode with
  | proj =>
    cases hs
    obtain ⟨l, e, s, Γ1, Γ2, g1, g2, g3, g4⟩ := ctor_at hwf hn hd hv he hx
    refine (hproj (hΓ1.of_keys g3) g1 g2 (lt := some (determineLifetimeName "'pin" g)) (b := true) ?_).elim
    rw [modeFields, List.getElem?_map, hx'] at g4
    refine Option.some.inj (g4.trans ?_)
    simp only [Option.map_some, Option.bind_some, projTy, projField]
    split <;> rfl
  | projRef =>
    cases hs
    obtain ⟨l, e, s, Γ1, Γ2, g1, g2, g3, g4⟩ := ctor_at hwf hn hd hv he hx
    refine (hproj (hΓ1.of_keys g3) g1 g2 (lt := some (determineLifetimeName "'pin" g)) (b := false) ?_).elim
    rw [modeFields, List.getElem?_map, hx'] at g4
    refine Option.some.inj (g4.trans ?_)
    simp only [Option.map_some, Option.bind_some, projTy, projRefField]
    split <;> rfl
  | replace =>
    cases hs with
    | cons hs1 hs2 =>
      cases hs1 with
      | letVar hs1 =>
        cases hs2 with
        | cons hs2 hs3 =>
          cases hs2 with
          | scope hs2 =>
            cases hpin : Pinned x.1 with
            | true =>
              refine ⟨rfl, hpin, hl.single hsame hsingle, ?_⟩
              obtain ⟨Γ1, Γ2, s, h1, h2⟩ := guards_at hs2
                (hK ▸ ((hΓ1.of_keys (expr_keys hs1)).cons (hl.own "__result" (by simp)))) (hK ▸ hl.own "__guard" (by simp))
                (x := binding x.2 x.1) (by
                  rw [List.mem_reverse]
                  exact List.mem_map.2 ⟨x, List.mem_filter.2 ⟨hx, hpin⟩, rfl⟩)
              obtain ⟨s', Γ3, hu, ⟨lt', u, hs', -⟩, -⟩ := guard_use h1
              rw [hK] at h2
              rcases hs' with rfl | rfl
              · exact ⟨lt', u, huse h2 hu⟩
              · exact absurd (huse h2 hu) (hptr u)
            | false =>
              obtain ⟨l, e, s, Γ1, Γ2, g1, g2, g3, g4⟩ := ctor_at hwf hn hd hv hs1 hx
              exfalso
              have h3 : s = .field x.1.ty := by
                rw [modeFields, List.getElem?_map, hx'] at g4
                refine Option.some.inj (g4.trans ?_)
                simp only [Option.map_some, Option.bind_some, projOwnField, hpin]
                rfl
              have : e = .read (binding x.2 x.1) := by
                unfold moveInit at g1
                rw [hpin] at g1
                exact entry_labelled_expr g1
              subst this
              cases g2 with
              | read _ hu =>
                rw [h3] at hu
                exact hl.acyclic _ _ _ (huse (hΓ1.of_keys g3) hu)
              | readPtr _ hu => exact hptr _ (huse (hΓ1.of_keys g3) hu)

/-- The names of the variables before the pattern. -/
theorem head_keys {K : Site} {V : Values} (hl : V.Lawful) (mode : Mode) {Γ Γ' : Locals} (hf : KeysFree V Γ)
    (h : StmtsTy K Γ (modeStmts mode) Γ') : KeysFree V Γ' := by
  cases mode with
  | proj => cases h; exact hf
  | projRef => cases h; exact hf
  | replace =>
    cases h with
    | cons h1 h2 =>
      cases h1 with
      | letPtr h1 =>
        cases h2 with
        | cons h2 h3 =>
          cases h2 with
          | letVar h2 =>
            cases h3
            exact ((((hf.of_keys (expr_keys h1)).cons (hl.own "__self_ptr" (by simp))).of_keys
              (expr_keys h2)).cons (hl.own "__guard" (by simp)))

/-- If a method type checks then the names of fields are free, up to the exception. -/
theorem method_free (item : Item) (E : Expansion) (h : parseDerive item = .ok E) (hwf : ItemWF item)
    (ps : List GParam) (n : String) (as : List GArg) (ws : List WPred) (fns : List GFn)
    (hm : GItem.inherent ps n as ws fns ∈ allItems E) (fn : GFn) (hf : fn ∈ fns)
    (hn : ((typeDefs (allItems E)).map TypeDef.name).Nodup) (V : Values) (hl : V.Lawful)
    (hty : WellTyped ((fnSite item E ps n as ws fn).within V) fn) :
    ∃ mode : Mode, fn.name = mode.fn ∧ ∀ v ∈ itemVariants item, ∀ x ∈ (v.2.visit (itemSelfTy item)).list.zipIdx,
      V.Free (binding x.2 x.1) ∨ Fooled V mode x.1 := by
  obtain ⟨h1, rfl, rfl, rfl, mode, h2, h3, h4, h5, name, args, h6, h7⟩ := inherent_fns item E h ps n as ws fns hm fn hf
  obtain ⟨A, ident, h8, h9, h10, h11, h12, h13⟩ := method_def item E h mode fn h2
  obtain rfl := Option.some.inj (h9.symm.trans h1)
  have hd := typeDefs_all h10
  obtain ⟨rfl, -⟩ := GTy.adt.inj (h6.symm.trans h11)
  refine ⟨mode, h3, fun v hv x hx => ?_⟩
  obtain ⟨-, recv, ps, ret, -, hps, -, -, hb⟩ := hty
  have hstart : KeysFree V (startLocals recv ps) := by
    intro y hy
    rw [startLocals, asLocals, List.map_reverse, List.mem_reverse, List.map_map] at hy
    rcases List.mem_cons.1 hy with rfl | hy
    · exact hl.own "self" (by simp)
    · have : y ∈ ps.map Prod.fst := by simpa using hy
      rw [hps, h5] at this
      split at this
      · rw [List.mem_singleton.1 this]; exact hl.own "__replacement" (by simp)
      · simp at this
  rw [h7, modeBody] at hb
  split at hb
  · rename_i hs
    have : preVariants item = [(v.1, v.2.visit (itemSelfTy item))] := by
      cases item with
      | struct_ s => simp only [itemVariants, List.mem_singleton] at hv; subst hv; rfl
      | enum_ e => cases hs
      | other a => cases hs
    rw [show (preVariants item) = [(v.1, v.2.visit (itemSelfTy item))] from this] at hb
    cases hb with
    | expr hs he =>
      obtain ⟨Γ1, hs1, hs2⟩ := stmts_split hs
      cases hs2 with
      | cons hp hs2 =>
        cases hp with
        | letPat hh _ hp =>
          exact arm_free rfl hl hwf hn hd hv hp ((head_keys hl mode hstart hs1).of_keys (expr_keys hh)) hs2 he hx
  · cases hb with
    | match_ hs1 hh _ harm =>
      obtain ⟨bs, Γ3, Γ4, hp, hs, he⟩ := harm _ (List.mem_map.2 ⟨_, mem_preVariants hv, rfl⟩)
      exact arm_free rfl hl hwf hn hd hv hp ((head_keys hl mode hstart hs1).of_keys (expr_keys hh)) hs he hx

/-! ## C81 -/

theorem patternName_eq (i : Nat) (f : Field) : patternName i f = binding i f := by
  unfold patternName binding
  cases f.ident <;> rfl

theorem fieldsFree_iff (V : Values) (item : Item) : FieldsFree V item ↔ AllFree V item := by
  simp only [FieldsFree, AllFree, bindings, patternName_eq, List.mem_map]
  constructor
  · rintro h v hv _ ⟨x, hx, rfl⟩
    exact h v hv x hx
  · intro h v hv x hx
    exact h v hv _ ⟨x, hx, rfl⟩

theorem mem_zipIdx_visit (item : Item) {fs : Fields} {x : Field × Nat} (hx : x ∈ fs.list.zipIdx) :
    (x.1.visit (itemSelfTy item), x.2) ∈ (fs.visit (itemSelfTy item)).list.zipIdx := by
  rw [list_visit, List.zipIdx_map]
  exact List.mem_map.2 ⟨x, hx, rfl⟩

/-- **C81** Patterns in `project` and `project_ref` are never compared to constants: if a constant, const
parameter, static or unit or tuple struct in scope has the name of a field (or is called `_0`, `_1`, .. like the
variables for tuple fields), then these methods do not compile; and if there is none, they do, and every name
is a new variable. -/
theorem C81_projections (item : Item) (E : Expansion) (h : parseDerive item = .ok E) (hwf : ItemWF item)
    (ps : List GParam) (n : String) (as : List GArg) (ws : List WPred) (fns : List GFn)
    (hm : GItem.inherent ps n as ws fns ∈ allItems E) (fn : GFn) (hf : fn ∈ fns) (hname : fn.name ≠ "project_replace")
    (hn : ((typeDefs (allItems E)).map TypeDef.name).Nodup) (V : Values) (hl : V.Lawful) :
    WellTyped ((fnSite item E ps n as ws fn).within V) fn ↔ FieldsFree V item := by
  constructor
  · intro hty v hv x hx
    obtain ⟨mode, h1, h2⟩ := method_free item E h hwf ps n as ws fns hm fn hf hn V hl hty
    rw [patternName_eq]
    rcases h2 v hv _ (mem_zipIdx_visit item hx) with h3 | ⟨rfl, -⟩
    · exact h3
    · exact absurd h1 hname
  · intro hV
    exact (methods_typed_in item E h hwf ps n as ws fns hm fn hf V ((fieldsFree_iff V item).1 hV)).2
      (fun he => absurd he hname)

/-- **C81** The same for `project_replace`, with one exception: a `#[pin]` field whose type is a mutable
reference that has only one value. If no constant has the name of a field then it compiles under the
same conditions as without constants (C52). -/
theorem C81_replace (item : Item) (E : Expansion) (h : parseDerive item = .ok E) (hwf : ItemWF item)
    (ps : List GParam) (n : String) (as : List GArg) (ws : List WPred) (fns : List GFn)
    (hm : GItem.inherent ps n as ws fns ∈ allItems E) (fn : GFn) (hf : fn ∈ fns) (hname : fn.name = "project_replace")
    (hn : ((typeDefs (allItems E)).map TypeDef.name).Nodup) (V : Values) (hl : V.Lawful) :
    (WellTyped ((fnSite item E ps n as ws fn).within V) fn →
      ∀ v ∈ itemVariants item, ∀ x ∈ v.2.list.zipIdx, V.Free (patternName x.2 x.1) ∨
        (Pinned x.1 = true ∧ TrivialRef V (.field (resolved item x.1.ty)))) ∧
    (FieldsFree V item →
      (WellTyped ((fnSite item E ps n as ws fn).within V) fn ↔ ∀ v ∈ itemVariants item, NamesFree v.2)) := by
  constructor
  · intro hty v hv x hx
    obtain ⟨mode, -, h2⟩ := method_free item E h hwf ps n as ws fns hm fn hf hn V hl hty
    rw [patternName_eq]
    rcases h2 v hv _ (mem_zipIdx_visit item hx) with h3 | ⟨-, h3, h4⟩
    · exact .inl h3
    · exact .inr ⟨h3, h4⟩
  · intro hV
    have := methods_typed_in item E h hwf ps n as ws fns hm fn hf V ((fieldsFree_iff V item).1 hV)
    rw [this]
    exact ⟨fun h => h hname, fun h _ => h⟩

/-- **C81** A struct or enum with a const parameter, constant or static that has the name of a field: no
generated `project` or `project_ref` compiles, for an item that pin-project accepts. -/
theorem C81_rejected (item : Item) (E : Expansion) (h : parseDerive item = .ok E) (hwf : ItemWF item)
    (ps : List GParam) (n : String) (as : List GArg) (ws : List WPred) (fns : List GFn)
    (hm : GItem.inherent ps n as ws fns ∈ allItems E) (fn : GFn) (hf : fn ∈ fns) (hname : fn.name ≠ "project_replace")
    (hn : ((typeDefs (allItems E)).map TypeDef.name).Nodup) (V : Values) (hl : V.Lawful)
    (v : Option String × Fields) (hv : v ∈ itemVariants item) (f : Field) (hff : f ∈ v.2.list) (c : String)
    (hc : f.ident = some c) (hcap : c ∈ V.reserved ∨ c ∈ V.consts.map Prod.fst) :
    ¬ WellTyped ((fnSite item E ps n as ws fn).within V) fn := by
  rw [C81_projections item E h hwf ps n as ws fns hm fn hf hname hn V hl]
  intro hV
  obtain ⟨i, hi, rfl⟩ := List.getElem_of_mem hff
  have := hV v hv (v.2.list[i], i) (List.mem_zipIdx_iff_getElem?.2 (by simp [hi]))
  simp only [patternName, hc] at this
  rcases hcap with hcap | hcap
  · exact this.2 hcap
  · obtain ⟨y, hy, hye⟩ := List.mem_map.1 hcap
    exact this.1 y hy hye

/-! ### Examples -/

/-- `#[pin_project] struct S<const n: usize> { n: u8 }` -/
def constParam : ItemStruct where
  attrs := [pinPrivateAttr []]
  vis := .inherited
  ident := "S"
  generics := { params := [.const "n" (.tyIdent "usize") none] }
  fields := .named [{ ident := some "n", ty := .tyIdent "u8" }]

theorem ref_ne_self (t : LTy) : ∀ lt b, t ≠ .ref lt b t := by
  induction t with
  | ref lt b t ih =>
    intro lt' b' h
    exact ih _ _ (LTy.ref.inj h).2.2
  | _ => intro lt b h; cases h

/-- If no type has two names, the rest of the assumptions is about the names only. -/
theorem lawful_of_eq (cs : List (String × LTy)) (rs : List String) (hn : (cs.map Prod.fst).Nodup)
    (ho : ∀ x ∈ ["self", "__self_ptr", "__guard", "__result", "__replacement"],
      Values.Free ⟨cs, rs, Eq, fun t => t = .unit ∨ ∃ F, t = .field F⟩ x) :
    Values.Lawful ⟨cs, rs, Eq, fun t => t = .unit ∨ ∃ F, t = .field F⟩ where
  nodup := hn
  symm := Eq.symm
  trans := Eq.trans
  acyclic := ref_ne_self
  single := fun h h' => h ▸ h'
  ptr := by simp
  own := ho

/-- pin-project accepts it, but the generated `project` does not compile: the pattern `Self { n, }` would
be the const parameter. -/
example : ∃ E ps as ws fn rest, parseDerive (.struct_ constParam) = .ok E ∧
    GItem.inherent ps "S" as ws (fn :: rest) ∈ allItems E ∧ fn.name = "project" ∧
    let V : Values := ⟨[], ["n"], Eq, fun t => t = .unit ∨ ∃ F, t = .field F⟩
    V.Lawful ∧ ¬ WellTyped ((fnSite (.struct_ constParam) E ps "S" as ws fn).within V) fn ∧
    WellTyped ((fnSite (.struct_ constParam) E ps "S" as ws fn).within .none) fn := by
  have hE : ∃ E, parseDerive (.struct_ constParam) = .ok E ∧ ((typeDefs (allItems E)).map TypeDef.name).Nodup ∧
      ∃ ps as ws fn rest, GItem.inherent ps "S" as ws (fn :: rest) ∈ allItems E ∧ fn.name = "project" :=
    ⟨_, rfl, by decide, _, _, _, _, _, List.mem_of_getElem? (i := 2) rfl, rfl⟩
  obtain ⟨E, hE, hn, ps, as, ws, fn, rest, hm, hname⟩ := hE
  have hl := lawful_of_eq [] ["n"] (by simp) (by simp [Values.Free])
  have hwf : ItemWF (.struct_ constParam) := ⟨by rintro v fs ⟨rfl, rfl⟩; simp [Fields.WF, constParam], by simp⟩
  refine ⟨E, ps, as, ws, fn, rest, hE, hm, hname, hl, ?_, ?_⟩
  · exact C81_rejected _ E hE hwf ps _ as ws _ hm fn List.mem_cons_self (by rw [hname]; decide) hn _ hl
      _ (List.mem_singleton.2 rfl) _ (List.mem_singleton.2 rfl) "n" rfl (.inl (by simp))
  · exact (C52_methods_typed _ E hE hwf ps _ as ws _ hm fn List.mem_cons_self).2
      (fun h => by rw [hname] at h; exact absurd h (by decide))

/-- Every name of a field counts, also those without `#[pin]` and those of constants with the right type. -/
example (E : Expansion) (hE : parseDerive (.struct_ demoReplace) = .ok E) (ps : List GParam) (as : List GArg)
    (ws : List WPred) (fns : List GFn) (hm : GItem.inherent ps "R" as ws fns ∈ allItems E)
    (hn : ((typeDefs (allItems E)).map TypeDef.name).Nodup) (x : String) (hx : x ∈ ["a", "b", "c"]) (F : Node) (fn : GFn)
    (hf : fn ∈ fns) (hname : fn.name = "project_ref") :
    ¬ WellTyped ((fnSite (.struct_ demoReplace) E ps "R" as ws fn).within
      ⟨[(x, .field F)], [], Eq, fun t => t = .unit ∨ ∃ F, t = .field F⟩) fn := by
  have hl := lawful_of_eq [(x, .field F)] [] (by simp) (by
    simp only [List.mem_cons, List.not_mem_nil, or_false] at hx
    rcases hx with rfl | rfl | rfl <;> simp [Values.Free])
  have h := C81_rejected _ E hE demoReplace_wf ps _ as ws _ hm fn hf (by rw [hname]; decide) hn _ hl
      _ (List.mem_singleton.2 rfl)
  simp only [List.mem_cons, List.not_mem_nil, or_false] at hx
  rcases hx with rfl | rfl | rfl
  · exact h _ (List.mem_of_getElem? (i := 0) rfl) "a" rfl (.inr (by simp))
  · exact h _ (List.mem_of_getElem? (i := 1) rfl) "b" rfl (.inr (by simp))
  · exact h _ (List.mem_of_getElem? (i := 2) rfl) "c" rfl (.inr (by simp))

/-- `#[pin_project(project_replace = P)] enum E { V { #[pin] x: T } }` -/
def foolable : ItemEnum where
  attrs := [pinPrivateAttr [.ident "project_replace", .punct '=' false, .ident "P"]]
  vis := .inherited
  ident := "E"
  generics := {}
  variants := [{ ident := "V", fields := .named [{ attrs := [⟨.path { segs := ["pin"] }⟩], ident := some "x", ty := .tyIdent "T" }] }]

/-- All types of fields are `&mut ()`. -/
def allRefs : LTy → LTy
  | .field _ => .ref none true .unit
  | t => t

/-- With `const x: T`. -/
def foolValues : Values :=
  ⟨[("x", .field (.tyIdent "T"))], [], fun s t => allRefs s = allRefs t, fun t => allRefs t = .ref none true .unit⟩

theorem foolValues_lawful : foolValues.Lawful where
  nodup := by simp [foolValues]
  symm := Eq.symm
  trans := Eq.trans
  acyclic := by
    intro t lt b h
    cases t with
    | ref lt' b' t => exact ref_ne_self _ _ _ h
    | _ => cases h
  single := fun h h' => h.symm.trans h'
  ptr := by intro t h; cases h
  own := by simp [foolValues, Values.Free]

theorem fooled_block (K : Site) (hi : K.item = .enum_ foolable) (hu : K.isUnsafe = true) (hv : K.vals = foolValues)
    (d : TypeDef) (hd : d ∈ K.defs) (hn : d.name = "P") (hp : d.params = []) (hw : d.preds = []) (vis : Vis) (r : Root)
    (hvs : (some "V", ⟨some .brace, [⟨vis, some "x", .phantomData r (.user (.tyIdent "T"))⟩]⟩) ∈ d.variants) :
    BlockTy K (startLocals (.pin (.ref none true .self_)) [("__replacement", .self_)]) (.adt "P" [])
      [.letVar "__self_ptr" (some "*mut Self") (.getUncheckedMut "self"),
       .letVar "__guard" none (.overwriteGuard "__self_ptr" "__replacement")]
      (.match_ (.reborrow "__self_ptr") [⟨⟨some "V", some .brace, ["x"]⟩,
        [.letVar "__result" none (.ctor ⟨"P", some "V", some .brace, [.labelled (some "x") .phantom]⟩),
         .scope [("__guard", .dropGuard "x")]], .var "__result"⟩]) := by
  refine .match_ (lt := none) (b := true)
    (.cons (.letPtr (.getUncheckedMut hu (lt := none) (.older (by decide) .move)))
        (.cons (.letVar (.overwriteGuard hu (.copy rfl) (.older (by decide) .move))) .nil))
    (.reborrow hu (.older (by decide) (.copy rfl))) ?_ ?_
  · intro v hv
    rw [hi] at hv
    obtain rfl := List.mem_singleton.1 hv
    exact ⟨_, List.mem_singleton.2 rfl, rfl⟩
  · intro a ha
    obtain rfl := List.mem_singleton.1 ha
    have hc : ("x", LTy.field (.tyIdent "T")) ∈ foolValues.consts := List.mem_singleton.2 rfl
    refine ⟨[], [("__result", some (.adt "P" [])), ("__guard", some (.overwriteGuard .self_)),
      ("__self_ptr", some (.ptr .self_)), ("__replacement", none), ("self", none)], _, ⟨.named [{ attrs := [⟨.path { segs := ["pin"] }⟩], ident := some "x", ty := .tyIdent "T" }],
        [("x", .field (.tyIdent "T"))], by rw [hi]; exact List.mem_singleton.2 rfl, rfl, by simp, rfl,
      by rw [hv]; exact .cons (bs := []) (.const hc rfl rfl) .nil, ?_⟩, ?_, .var .move⟩
    · refine ⟨fun f hf => ⟨"x", List.mem_singleton.2 rfl, by rw [List.mem_singleton.1 hf]⟩,
        fun x hx => ⟨_, List.mem_singleton.2 rfl, by rw [List.mem_singleton.1 hx], ?_⟩⟩
      rw [List.mem_singleton.1 hx, hi]
      rfl
    · have he : ExprTy K (asLocals [] ++ [("__guard", some (.overwriteGuard .self_)), ("__self_ptr", some (.ptr .self_)),
          ("__replacement", none), ("self", none)])
          (.ctor ⟨"P", some "V", some .brace, [.labelled (some "x") .phantom]⟩) (.adt "P" [])
          [("__guard", some (.overwriteGuard .self_)), ("__self_ptr", some (.ptr .self_)),
            ("__replacement", none), ("self", none)] := by
        have := ExprTy.ctor (K := K) (Γ := [("__guard", some (.overwriteGuard .self_)), ("__self_ptr", some (.ptr .self_)),
          ("__replacement", none), ("self", none)])
          (c := ⟨"P", some "V", some .brace, [.labelled (some "x") .phantom]⟩) hd hn.symm hvs rfl
          (.cons .named (.phantom (t := .field (.tyIdent "T"))) .nil) rfl rfl (by rw [hp]; simp) (by rw [hw]; simp)
        rwa [hn, hp] at this
      refine .cons (.letVar he) (.cons (.scope (inner := [("__guard", some (.dropGuard .unit))]) (.cons (.dropGuard (lt := none)
        (t := .unit) hu ?_) .nil) rfl) .nil)
      rw [hv]
      exact .older (by decide) (.older (by decide) (.older (by decide) (.older (by decide) (.older (by decide)
            (.const hc rfl)))))

/-- The exception in `C81_replace` is needed: this `project_replace` compiles. -/
example : ∃ E ps as ws fn, parseDerive (.enum_ foolable) = .ok E ∧
    GItem.inherent ps "E" as ws [fn] ∈ allItems E ∧ fn.name = "project_replace" ∧
    WellTyped ((fnSite (.enum_ foolable) E ps "E" as ws fn).within foolValues) fn ∧ ¬ foolValues.Free "x" := by
  refine ⟨_, _, _, _, _, rfl, List.mem_of_getElem? (i := 1) rfl, rfl, ?_, by simp [foolValues, Values.Free]⟩
  refine ⟨by simp [pinMutSelf], .pin (.ref none true .self_), [("__replacement", .self_)], .adt "P" [], rfl, rfl, rfl, rfl, ?_⟩
  exact fooled_block _ rfl rfl rfl _ (List.mem_of_getElem? (i := 0) rfl) rfl rfl rfl _ _ (List.mem_singleton.2 rfl)

end PinProject

import Verif.Props.ClientMemory
import Verif.Props.Coherence
import Verif.Props.ProjectReplace
import Verif.Props.Drop
/-!
# The generated code, as the client machine sees it
-/
namespace PinProject
open Spec

theorem inj_on_of_nodup_map {α β : Type} {f : α → β} {l : List α} (h : (l.map f).Nodup) {a b : α} (ha : a ∈ l) (hb : b ∈ l)
    (he : f a = f b) : a = b := by
  induction l with
  | nil => cases ha
  | cons x l ih =>
    simp only [List.map_cons, List.nodup_cons, List.mem_map, not_exists, not_and] at h
    rcases List.mem_cons.1 ha with ha' | ha' <;> rcases List.mem_cons.1 hb with hb' | hb'
    · rw [ha', hb']
    · exact (h.1 b hb' (by rw [← he, ha'])).elim
    · exact (h.1 a ha' (by rw [he, hb'])).elim
    · exact ih h.2 ha' hb'

theorem hasVariant_unique {item : Item} (hwf : ItemWF item) {va : Option String} {Fs Gs : Fields}
    (h1 : HasVariant item va Fs) (h2 : HasVariant item va Gs) : Fs = Gs := by
  cases item with
  | struct_ s => rw [h1.2, h2.2]
  | other a => exact h1.elim
  | enum_ e =>
    obtain ⟨v, hv, e1, rfl⟩ := h1
    obtain ⟨u, hu, e2, rfl⟩ := h2
    have he : v.ident = u.ident := Option.some.inj (e1.symm.trans e2)
    have := inj_on_of_nodup_map (hwf.variants e rfl) hv hu he
    rw [this]

theorem def?_adt {U : Universe} {ty : Ty} {d : Def} {args : List TArg} (h : U.def? ty = some (d, args)) :
    ∃ n, ty = .adt n args ∧ U.D n = some d := by
  cases ty with
  | adt n as =>
    simp only [Universe.def?, Option.map_eq_some_iff, Prod.mk.injEq] at h
    obtain ⟨d', hd, rfl, rfl⟩ := h
    exact ⟨n, rfl, hd⟩
  | _ => simp [Universe.def?] at h

theorem structural_def? {U : Universe} {ty : Ty} (h : U.structural ty) : U.def? ty = none := by
  cases hd : U.def? ty with
  | none => rfl
  | some x =>
    obtain ⟨n, rfl, hn⟩ := def?_adt (show U.def? ty = some (x.1, x.2) from hd)
    rw [U.foreign n _ h] at hn
    cases hn

/-- If an annotated type is `Unpin`, so are the types of its `#[pin]` fields. -/
theorem unpin_pinned (U : Universe) {n : String} {d : Def} {args : List TArg} (hn : U.D n = some d)
    (hi : IsInstance d.item U.N args) (hu : U.F.unpin (.adt n args)) :
    ∀ f ∈ itemFields d.item, Pinned f → U.F.unpin (U.N.den (instSubst d.item args) (resolved d.item f.ty)) := by
  obtain ⟨A, hA, -⟩ := (C07_accepted_iff d.item).1 ⟨d.E, d.ok⟩
  cases hm : A.unpinImpl with
  | default =>
    exact (C25_default_unpin d.item d.E d.ok (U.wellScoped n d hn) A hA hm n (U.name n d hn) (U.names n d A hn hA)
      U.P (U.hosts n d hn) U.N U.lawful U.F U.solves args hi).1 hu
  | negative =>
    exact (C26_not_unpin d.item d.E d.ok (U.wellScoped n d hn) A hA hm n (U.name n d hn)
      U.P (U.hosts n d hn) U.N U.lawful U.F U.solves args hi hu).elim
  | unsafe_ =>
    obtain ⟨u, hu1, hu2, hu3, hu4⟩ := (C27_unsafe_unpin d.item d.E d.ok (U.wellScoped n d hn) A hA hm n (U.name n d hn)
      U.P (U.hosts n d hn) U.N U.lawful U.F U.solves args hi).1 hu
    exact U.contract u hu1 hu2 d (by rw [hu3]; exact hn) args hu4

/-! ## The overlap check -/

theorem mayDrop_mono {items items' : List GItem} {user user' : List UImpl} (h1 : items' ⊆ items) (h2 : user' ⊆ user)
    (K : Negative) (t : Ty) (h : MayDrop items' user' K t) : MayDrop items user K t := by
  cases t with
  | adt n as =>
    rcases h with ⟨hd, hm, ha⟩ | ⟨u, hu, h3⟩
    · left
      refine ⟨hd, ?_, ha⟩
      unfold implsOf at *
      rw [List.mem_filterMap] at *
      obtain ⟨i, hi, he⟩ := hm
      exact ⟨i, h1 hi, he⟩
    · exact .inr ⟨u, h2 hu, h3⟩
  | _ => trivial

/-- A part of a program without conflicts has no conflicts. -/
theorem coherent_sub {P : Program} {K : Negative} (h : P.Coherent K) {items : List GItem} {user : List UImpl}
    (h1 : items.Sublist P.items) (h2 : user.Sublist P.user) : Program.Coherent ⟨items, user⟩ K := by
  unfold Program.Coherent at *
  simp only
  have hle : ∀ i a, reachOf items user K i = some a →
      ∃ b, reachOf P.items P.user K i = some b ∧ a.tr = b.tr ∧ ∀ t, a.reach t → b.reach t := by
    intro i a ha
    cases i with
    | blanketDrop n =>
      simp only [reachOf, Option.some.injEq] at ha
      subst ha
      exact ⟨_, rfl, rfl, fun t h => ⟨mayDrop_mono h1.subset h2.subset K t h.1, h.2⟩⟩
    | traitImpl => exact ⟨a, ha, rfl, fun t h => h⟩
    | _ => simp [reachOf] at ha
  have hsub : (items.filterMap (reachOf P.items P.user K) ++ user.map UImpl.reach).Sublist
      (P.items.filterMap (reachOf P.items P.user K) ++ P.user.map UImpl.reach) :=
    (h1.filterMap _).append (h2.map _)
  have hp := h.sublist hsub
  clear h hsub
  have hdom : ∀ (f g : GItem → Option Reach), (∀ i a, f i = some a → ∃ b, g i = some b ∧ a.tr = b.tr ∧ ∀ t, a.reach t → b.reach t) →
      ∀ (l : List GItem) (us : List Reach), (l.filterMap g ++ us).Pairwise (fun a b => ¬ a.Overlap b) →
      (l.filterMap f ++ us).Pairwise (fun a b => ¬ a.Overlap b) := by
    intro f g hfg l us
    induction l with
    | nil => exact id
    | cons i l ih =>
      intro hp
      rw [List.filterMap_cons] at hp ⊢
      cases hf : f i with
      | none =>
        simp only
        cases hg : g i with
        | none => rw [hg] at hp; exact ih hp
        | some b => rw [hg] at hp; exact ih (List.pairwise_cons.1 hp).2
      | some a =>
        obtain ⟨b, hb, h1, h2⟩ := hfg i a hf
        simp only [hb, List.cons_append, List.pairwise_cons] at hp
        simp only [List.cons_append, List.pairwise_cons]
        refine ⟨?_, ih hp.2⟩
        rintro c hc ⟨ht, t, ha, hct⟩
        rcases List.mem_append.1 hc with hc | hc
        · obtain ⟨j, hj, hjc⟩ := List.mem_filterMap.1 hc
          obtain ⟨e, he, e1, e2⟩ := hfg j c hjc
          exact hp.1 e (List.mem_append_left _ (List.mem_filterMap.2 ⟨j, hj, he⟩))
            ⟨h1.symm.trans (ht.trans e1), t, h2 t ha, e2 t hct⟩
        · exact hp.1 c (List.mem_append_right _ hc) ⟨h1.symm.trans ht, t, h2 t ha, hct⟩
  exact hdom _ _ hle _ _ hp

/-- The user cannot implement `Drop` for an annotated type. -/
theorem no_user_drop (U : Universe) {ty : Ty} {d : Def} {args : List TArg} (hd : U.def? ty = some (d, args))
    (hi : IsInstance d.item U.N args ∧ U.N.sized ty) : ¬ U.UserDrop ty := by
  rintro ⟨u, hu, ht, args', rfl, hc⟩
  obtain ⟨n, he, hn⟩ := def?_adt hd
  obtain ⟨h1, rfl⟩ := Ty.adt.inj he
  rw [h1] at hi
  obtain ⟨A, hA, -⟩ := (C07_accepted_iff d.item).1 ⟨d.E, d.ok⟩
  obtain ⟨pre, rest, hit, -⟩ := (U.hosts n d hn).items
  have hco : Program.Coherent ⟨allItems d.E, [u]⟩ U.K := by
    refine coherent_sub U.coherent ?_ (List.singleton_sublist.2 hu)
    rw [hit]
    exact ((List.sublist_append_left _ _).trans (List.sublist_append_right _ _)).trans (List.sublist_append_right _ _)
  have hus : ∀ v ∈ [u], UserImpl d.item U.N n v := by
    intro v hv
    rw [List.mem_singleton] at hv
    subst hv
    exact ⟨h1, by simp [userTraits, ht], args', hi.1, v.sound _ hc, fun _ => hi.2⟩
  have := (C30_drop_rejected_iff d.item d.E d.ok (U.wellScoped n d hn) A hA n (U.name n d hn) U.N U.lawful U.K U.negative
    [u] hus (by simp [Spec.Disjoint]) (by intro v hv hne; rw [List.mem_singleton] at hv; subst hv; exact (hne ht).elim)).1 hco
  exact this u (by simp) ht

/-! ## Fields of a value -/

/-- The `i`-th part of a value of an annotated type. -/
theorem lookup_label {Fs : Fields} (hwf : Fs.WF) {fs : List (String × V)} (hn : fs.map Prod.fst = labels Fs.list)
    {i : Nat} {fld : Field} (hi : Fs.list[i]? = some fld) :
    ∃ c, fs[i]? = some (fieldLabel i fld, c) ∧ fs.lookup (fieldLabel i fld) = some c := by
  have hlab : (labels Fs.list)[i]? = some (fieldLabel i fld) := by
    simp [labels, hi]
  rw [← hn, List.getElem?_map, Option.map_eq_some_iff] at hlab
  obtain ⟨⟨l, c⟩, hc, he⟩ := hlab
  simp only at he
  subst he
  refine ⟨c, hc, ?_⟩
  have hnd : (fs.map Prod.fst).Nodup := by rw [hn]; exact labels_nodup hwf
  obtain ⟨c', hc'⟩ := lookup_isSome (f := fieldLabel i fld) (fs := fs) (List.mem_map.2 ⟨_, List.mem_of_getElem? hc, rfl⟩)
  rw [hc']
  have := inj_on_of_nodup_map hnd (lookup_mem hc') (List.mem_of_getElem? hc) rfl
  simp only [Prod.mk.injEq, true_and] at this
  rw [this]

theorem label_inj {Fs : Fields} (hwf : Fs.WF) {i j : Nat} {f g : Field} (hi : Fs.list[i]? = some f)
    (hj : Fs.list[j]? = some g) (he : fieldLabel i f = fieldLabel j g) : i = j ∧ f = g := by
  have hnd := labels_nodup hwf
  have h1 : (labels Fs.list)[i]? = some (fieldLabel i f) := by simp [labels, hi]
  have h2 : (labels Fs.list)[j]? = some (fieldLabel i f) := by rw [he]; simp [labels, hj]
  have hij : i = j := by
    have hl := (List.getElem?_eq_some_iff.1 h1).1
    exact (List.getElem?_inj hl hnd).1 (h1.trans h2.symm)
  subst hij
  exact ⟨rfl, Option.some.inj (hi.symm.trans hj)⟩

/-- Pinned parts of an `Unpin` value are `Unpin`. -/
theorem pinStep_unpin {U : Universe} {id : Id} {ty : Ty} {va : Option String} {fs : List (String × V)}
    (hok : NodeOk U (.node id ty va fs)) (hu : U.F.unpin ty) {f : String} (hs : PinStep U ty va f)
    {c : V} (hc : fs.lookup f = some c) : U.F.unpin c.ty := by
  rcases hs with ⟨d, args, Fs, i, fld, hd, hv, hi, rfl, hp⟩ | hs
  · obtain ⟨hinst, Gs, hval, hty⟩ := hok.1 d args hd
    obtain rfl := hasVariant_unique d.wf hval.variant hv
    have hn := hval.fields
    rw [flatObj_names] at hn
    obtain ⟨c', h1, h2⟩ := lookup_label (d.wf.fields _ _ hv) hn hi
    obtain rfl := Option.some.inj (hc.symm.trans h2)
    obtain ⟨n, rfl, hD⟩ := def?_adt hd
    have := unpin_pinned U hD hinst.1 hu fld (mem_itemFields hv (List.mem_of_getElem? hi)) hp
    have ht : (fs.map (fun x => x.2.ty))[i]? = some c.ty := by simp [h1]
    rw [hty, List.getElem?_map, hi] at ht
    rw [← Option.some.inj ht]
    exact this
  · exact hok.2.1 hs hu _ (lookup_mem hc)

/-- `Unpin` propagates along pinned paths. -/
theorem pinPath_unpin {U : Universe} {v : V} (hok : v.Ok U) (hu : U.F.unpin v.ty) {q : List String} (hp : v.PinPath U q)
    {u : V} (hg : v.get q = some u) : U.F.unpin u.ty := by
  induction q generalizing v with
  | nil => simp at hg; subst hg; exact hu
  | cons f q ih =>
    cases v with
    | hole t => exact hp.elim
    | node id ty va fs =>
      obtain ⟨h1, c, hc, h2⟩ := hp
      simp only [V.get, hc, Option.bind_some] at hg
      refine ih (hok.get (p := [f]) (by simp [V.get, hc])) ?_ h2 hg
      exact pinStep_unpin hok.nodeOk hu h1 hc

/-! ## Projections -/

/-- What `project` and `project_ref` give: for each field its storage, pinned exactly if the field is. -/
theorem projects_iff {U : Universe} {id : Id} {ty : Ty} {va : Option String} {fs : List (String × V)}
    (hok : NodeOk U (.node id ty va fs)) {d : Def} {args : List TArg} (hd : U.def? ty = some (d, args))
    (b : Bool) (t : List String × Mode)
    (h : Projects d (if b then "project" else "project_ref") b va fs t) :
    ∃ Fs i fld, HasVariant d.item va Fs ∧ fs.map Prod.fst = labels Fs.list ∧ Fs.list[i]? = some fld ∧
      t.1 = [fieldLabel i fld] ∧
      t.2 = (if Pinned fld then (if b then .pinExcl else .pinShr) else (if b then .excl else .shr)) := by
  obtain ⟨fn, orc, tl, v, hfn, hcall, ht⟩ := h
  obtain ⟨hinst, Fs, hval, hty⟩ := hok.1 d args hd
  obtain ⟨name, as, -, hc⟩ := call_projection d.item d.E d.ok d.wf b fn hfn (flatObj 0 va fs) Fs hval 0
    (solo (flatObj 0 va fs)) (by simp [solo]) rfl orc tl
  rw [hc] at hcall
  obtain rfl := Option.some.inj hcall
  simp only [Val.refs, Spec.fieldRefs, List.filterMap_map, List.mem_filterMap, List.mem_map, Function.comp] at ht
  obtain ⟨⟨fld, i⟩, hx, he⟩ := ht
  have hi : Fs.list[i]? = some fld := by
    rw [List.mem_zipIdx_iff_getElem?] at hx
    exact hx
  have hn := hval.fields
  rw [flatObj_names] at hn
  refine ⟨Fs, i, fld, hval.variant, hn, hi, ?_⟩
  simp only [Spec.fieldRef] at he
  cases hp : Pinned fld <;> rw [hp] at he <;> simp [FVal.target] at he <;> subst he <;> cases b <;> simp

/-- Unpinned fields are no pinned parts. -/
theorem pinStep_label {U : Universe} {ty : Ty} {va : Option String} {d : Def} {args : List TArg}
    (hd : U.def? ty = some (d, args)) {Fs : Fields} (hv : HasVariant d.item va Fs) {i : Nat} {fld : Field}
    (hi : Fs.list[i]? = some fld) (hs : PinStep U ty va (fieldLabel i fld)) : Pinned fld = true := by
  rcases hs with ⟨d', args', Gs, j, g, hd', hv', hj, he, hp⟩ | hs
  · rw [hd] at hd'
    obtain ⟨rfl, rfl⟩ := Prod.mk.inj (Option.some.inj hd')
    obtain rfl := hasVariant_unique d.wf hv hv'
    obtain ⟨rfl, rfl⟩ := label_inj (d.wf.fields _ _ hv) hi hj he
    exact hp
  · rw [structural_def? hs] at hd
    cases hd

/-- Types that are neither annotated nor structural have no pinned parts. -/
theorem pinStep_plain {U : Universe} {ty : Ty} {va : Option String} {f : String} (hp : U.Plain ty) :
    ¬ PinStep U ty va f := by
  rintro (⟨d, args, Fs, i, fld, hd, -⟩ | hs)
  · rw [hp.1] at hd; cases hd
  · exact hp.2 hs

/-! ## The generated destructor -/

theorem dropEvents_eq (d : Def) (orc : Oracle) (tl : Bool) (va : Option String) (fs : List (String × V)) :
    dropEvents d orc tl va fs = if (dropFn d.E).isSome then [.pinnedDrop 0] else [] := by
  unfold dropEvents
  rcases dropFn_cases d.item d.E d.ok with h | h
  · simp [h]
  · simp only [h, Option.isSome_some, if_true]
    rw [call_genDrop _ _ _ _ rfl]
    rfl

theorem dropInstrs_eq (d : Def) (orc : Oracle) (tl : Bool) (va : Option String) (fs : List (String × V)) (L : GLoc)
    (tab : List V) (id : Id) (ty : Ty) :
    (dropEvents d orc tl va fs).flatMap (instrsOf L tab id ty) =
      if (dropFn d.E).isSome then [.code [(L, .pinExcl)]] else [] := by
  rw [dropEvents_eq]
  split <;> rfl

/-! ## `project_replace` -/

theorem tableGet_left (fs gs : List (String × V)) {i : Nat} {x : String × V} (h : fs[i]? = some x) :
    tableGet ((fs ++ gs).map Prod.snd) i = x.2 := by
  have hl := (List.getElem?_eq_some_iff.1 h).1
  unfold tableGet
  rw [List.getD_eq_getElem?_getD, List.getElem?_map, List.getElem?_append_left hl, h]
  rfl

theorem tableGet_right (fs gs : List (String × V)) {i : Nat} {x : String × V} (h : gs[i]? = some x) :
    tableGet ((fs ++ gs).map Prod.snd) (fs.length + i) = x.2 := by
  unfold tableGet
  rw [List.getD_eq_getElem?_getD, List.getElem?_map, List.getElem?_append_right (Nat.le_add_right _ _),
    Nat.add_sub_cancel_left, h]
  rfl

theorem flatObj_getElem? (b : Nat) (va : Option String) (fs : List (String × V)) (i : Nat) :
    (flatObj b va fs).fields[i]? = fs[i]?.map (fun f => (f.1, b + i)) := by
  simp [flatObj, List.getElem?_mapIdx]

/-- The new value, put together again from the table. -/
theorem table_new (fs gs : List (String × V)) (va : Option String) :
    (flatObj fs.length va gs).fields.map (fun x => (x.1, tableGet ((fs ++ gs).map Prod.snd) x.2)) = gs := by
  apply List.ext_getElem?
  intro i
  rw [List.getElem?_map, flatObj_getElem?]
  cases h : gs[i]? with
  | none => rfl
  | some x =>
    simp only [Option.map_some, Option.some.injEq]
    rw [tableGet_right fs gs h]

/-- The pairs of a field definition and a part. -/
theorem mem_zip_flat {Fs : Fields} {va : Option String} {fs : List (String × V)} {x : Field × String × Id}
    (h : x ∈ Fs.list.zip (flatObj 0 va fs).fields) :
    Fs.list[x.2.2]? = some x.1 ∧ ∃ v, fs[x.2.2]? = some (x.2.1, v) := by
  obtain ⟨i, hi⟩ := List.mem_iff_getElem?.1 h
  rw [List.getElem?_zip_eq_some, flatObj_getElem?] at hi
  obtain ⟨h1, h2⟩ := hi
  rw [Option.map_eq_some_iff] at h2
  obtain ⟨y, hy, he⟩ := h2
  rw [← he]
  simp only [Nat.zero_add]
  exact ⟨h1, y.2, hy⟩

theorem zip_flat_mem {Fs : Fields} {va : Option String} {fs : List (String × V)} {i : Nat} {f : Field} {y : String × V}
    (h1 : Fs.list[i]? = some f) (h2 : fs[i]? = some y) :
    (f, y.1, i) ∈ Fs.list.zip (flatObj 0 va fs).fields := by
  apply List.mem_iff_getElem?.2
  refine ⟨i, ?_⟩
  rw [List.getElem?_zip_eq_some, flatObj_getElem?, h2]
  exact ⟨h1, by simp⟩

theorem unpinned_nodup {item : Item} {o : Obj} {fs : Fields} (ho : IsValue item o fs)
    (hids : (o.fields.map Prod.snd).Nodup) : ((unpinnedParts fs o).map Prod.snd).Nodup := by
  have hlen : fs.list.length = o.fields.length := by
    have := congrArg List.length ho.fields
    simpa [labels] using this.symm
  have hz : (fs.list.zip o.fields).map (·.2) = o.fields := by
    apply List.map_snd_zip
    omega
  have hsub : (unpinnedParts fs o).Sublist o.fields := by
    have := (List.filter_sublist (p := fun x : Field × (String × Id) => !Pinned x.1)
      (l := fs.list.zip o.fields)).map (·.2)
    rwa [hz] at this
  exact (hsub.map Prod.snd).nodup hids

theorem ownedParts_ids (fs : Fields) (o : Obj) :
    (ownedParts fs o).flatMap (fun f => f.2.ids) = (unpinnedParts fs o).map Prod.snd := by
  unfold ownedParts unpinnedParts
  induction fs.list.zip o.fields with
  | nil => rfl
  | cons x l ih =>
    rw [List.map_cons, List.flatMap_cons, ih, List.filter_cons]
    cases hp : Pinned x.1 <;> simp [FVal.ids]

theorem ownedDrops_elsewhere (fs : Fields) (o : Obj) :
    (ownedDrops fs o).filterMap Event.elsewhere = (unpinnedParts fs o).map Prod.snd := by
  unfold ownedDrops
  induction unpinnedParts fs o with
  | nil => rfl
  | cons x l ih => rw [List.map_cons, List.filterMap_cons, ih]; rfl

theorem pinnedDrops_elsewhere (p : Nat) (fs : Fields) (o : Obj) : (pinnedDrops p fs o).filterMap Event.elsewhere = [] := by
  unfold pinnedDrops
  induction pinnedParts fs o with
  | nil => rfl
  | cons x l ih => rw [List.map_cons, List.filterMap_cons, ih]; rfl

/-- What a call of `project_replace` amounts to in the machine: the pinned parts are destroyed in place, the
others moved out (and discarded, if there was a panic), the new value is stored, and the parts that were
moved out are handed to the caller. -/
theorem replace_facts {U : Universe} {id : Id} {ty : Ty} {va : Option String} {fs : List (String × V)}
    (hok : NodeOk U (.node id ty va fs)) {d : Def} {args : List TArg} (hd : U.def? ty = some (d, args))
    {fn : GFn} (hfn : method d.E "project_replace" = some fn) (L : GLoc) (id' : Id) (va' : Option String)
    (fs' : List (String × V)) (orc : Oracle) (tl : Bool) (res : Option Val × M)
    (hr : callFn orc tl fn (.fv (.pinRef true ⟨0, none⟩)) [.obj (flatObj fs.length va' fs')]
        (solo (flatObj 0 va fs)) = res) (hna : res.2.status ≠ .abort) :
    ∃ (pins : List String) (outs backs : List V),
      res.2.trace.flatMap (instrsOf L ((fs ++ fs').map Prod.snd) id' ty) ++
        (res.1.toList.flatMap Val.ids).map (fun i => .place (tableGet ((fs ++ fs').map Prod.snd) i)) =
      pins.map (fun f => .destroy (L.sub [f])) ++
        (outs.map Instr.discard ++ (.store L (.node id' ty va' fs') :: backs.map Instr.place)) ∧
      (∀ f, PinStep U ty va f → f ∈ pins) ∧ (∀ f ∈ pins, PinStep U ty va f ∧ f ∈ fs.map Prod.fst) ∧
      (∀ v ∈ outs, v ∈ fs.map Prod.snd) ∧ (∀ v ∈ backs, v ∈ fs.map Prod.snd) ∧
      (∀ f, PinStep U ty va f → (punch (movedOut res) fs).lookup f = fs.lookup f) ∧
      backs ++ outs = (movedOut res).map (tableGet ((fs ++ fs').map Prod.snd)) ∧
      (movedOut res).Nodup ∧ (∀ i ∈ movedOut res, i < fs.length) ∧ pins.Nodup ∧
      ∀ i y, fs[i]? = some y → i ∈ movedOut res ∨ y.1 ∈ pins := by
  obtain ⟨hinst, Fs, hval, hty⟩ := hok.1 d args hd
  have hn := hval.fields
  rw [flatObj_names] at hn
  have hwf := d.wf.fields _ _ hval.variant
  have hfree := d.free _ _ hval.variant (by rw [hfn]; rfl)
  obtain ⟨name, as, -, hcall⟩ := call_replace d.item d.E d.ok d.wf fn hfn (flatObj 0 va fs) Fs hval hfree 0
    (flatObj fs.length va' fs') (solo (flatObj 0 va fs)) (by simp [solo]) rfl orc tl
  obtain ⟨rest, htr, hsome, hnone⟩ := C21_pinned_in_place d.item d.E d.ok d.wf fn hfn (flatObj 0 va fs) Fs hval hfree 0
    (flatObj fs.length va' fs') (solo (flatObj 0 va fs)) (by simp [solo]) rfl orc tl res hr hna
  have hres : res.1 = none ∨ res.1 = some (.adt name va (ownedParts Fs (flatObj 0 va fs))) := by
    rw [← hr, hcall, replaceOut_eq]
    split
    · exact .inr rfl
    · exact .inl rfl
  have hst : ∀ f, PinStep U ty va f ↔ ∃ i fld, Fs.list[i]? = some fld ∧ f = fieldLabel i fld ∧ Pinned fld = true := by
    intro f
    constructor
    · rintro (⟨d', args', Gs, j, g, hd', hv', hj, he, hp⟩ | hs)
      · rw [hd] at hd'
        obtain ⟨rfl, rfl⟩ := Prod.mk.inj (Option.some.inj hd')
        obtain rfl := hasVariant_unique d.wf hval.variant hv'
        exact ⟨j, g, hj, he, hp⟩
      · rw [structural_def? hs] at hd; cases hd
    · rintro ⟨i, fld, h1, h2, h3⟩
      exact .inl ⟨d, args, Fs, i, fld, hd, hval.variant, h1, h2, h3⟩
  have hsolo : (solo (flatObj 0 va fs)).trace = [] := rfl
  rw [hsolo, List.nil_append] at htr
  -- the values handed back or discarded
  have hback : ∀ i ∈ (ownedParts Fs (flatObj 0 va fs)).flatMap (fun f => f.2.ids),
      ∃ fld y, Fs.list[i]? = some fld ∧ Pinned fld = false ∧ fs[i]? = some y := by
    intro i hi
    obtain ⟨y, hy, hi⟩ := List.mem_flatMap.1 hi
    simp only [ownedParts, List.mem_map] at hy
    obtain ⟨x, hx, rfl⟩ := hy
    obtain ⟨h1, v, h2⟩ := mem_zip_flat hx
    cases hp : Pinned x.1 <;> simp only [hp, Bool.false_eq_true, if_false, if_true, FVal.ids, List.mem_singleton, List.not_mem_nil] at hi
    subst hi
    exact ⟨x.1, _, h1, hp, h2⟩
  have hdisc : ∀ x ∈ unpinnedParts Fs (flatObj 0 va fs),
      ∃ fld y, Fs.list[x.2]? = some fld ∧ Pinned fld = false ∧ fs[x.2]? = some y := by
    intro x hx
    simp only [unpinnedParts, List.mem_map, List.mem_filter] at hx
    obtain ⟨y, ⟨hy, hp⟩, rfl⟩ := hx
    obtain ⟨h1, v, h2⟩ := mem_zip_flat hy
    exact ⟨y.1, _, h1, by simpa using hp, h2⟩
  have hmoved : ∀ i ∈ movedOut res, ∃ fld y, Fs.list[i]? = some fld ∧ Pinned fld = false ∧ fs[i]? = some y := by
    intro i hi
    unfold movedOut at hi
    rw [List.mem_append] at hi
    rcases hi with hi | hi
    · rcases hres with h | h
      · simp [h] at hi
      · rw [h] at hi
        simp only [Option.toList_some, List.flatMap_cons, List.flatMap_nil, List.append_nil, Val.ids] at hi
        exact hback i hi
    · rw [htr, List.mem_filterMap] at hi
      obtain ⟨e, he, hi⟩ := hi
      simp only [List.mem_append, List.mem_singleton] at he
      rcases he with (he | he) | rfl
      · simp only [pinnedDrops, List.mem_map] at he
        obtain ⟨x, -, rfl⟩ := he
        simp [Event.elsewhere] at hi
      · rcases hres with h | h
        · rw [hnone h] at he
          simp only [ownedDrops, List.mem_map] at he
          obtain ⟨x, hx, rfl⟩ := he
          simp only [Event.elsewhere, Option.some.injEq] at hi
          subst hi
          exact hdisc x hx
        · rw [hsome (by rw [h]; rfl)] at he
          cases he
      · simp [Event.elsewhere] at hi
  have hmoved' : movedOut res = res.1.toList.flatMap Val.ids ++ rest.filterMap Event.elsewhere := by
    unfold movedOut
    rw [htr, List.filterMap_append, List.filterMap_append, pinnedDrops_elsewhere]
    simp [List.filterMap_cons, Event.elsewhere]
  have hrest : rest = [] ∨ rest = ownedDrops Fs (flatObj 0 va fs) := by
    rcases hres with h | h
    · exact .inr (hnone h)
    · exact .inl (hsome (by rw [h]; rfl))
  refine ⟨(pinnedParts Fs (flatObj 0 va fs)).map Prod.fst,
    (rest.filterMap Event.elsewhere).map (tableGet ((fs ++ fs').map Prod.snd)),
    (res.1.toList.flatMap Val.ids).map (fun i => tableGet ((fs ++ fs').map Prod.snd) i), ?_, ?_, ?_, ?_, ?_, ?_, ?_, ?_, ?_, ?_, ?_⟩
  · rw [htr]
    simp only [List.flatMap_append, List.flatMap_cons, List.flatMap_nil, List.append_nil, List.map_map]
    have e1 : (pinnedDrops 0 Fs (flatObj 0 va fs)).flatMap (instrsOf L ((fs ++ fs').map Prod.snd) id' ty) =
        (pinnedParts Fs (flatObj 0 va fs)).map ((fun f => Instr.destroy (L.sub [f])) ∘ Prod.fst) := by
      simp only [pinnedDrops, List.flatMap_map, instrsOf, Option.toList_some]
      rw [← List.map_eq_flatMap]
      rfl
    have e2 : rest.flatMap (instrsOf L ((fs ++ fs').map Prod.snd) id' ty) =
        ((rest.filterMap Event.elsewhere).map (tableGet ((fs ++ fs').map Prod.snd))).map Instr.discard := by
      rcases hrest with rfl | rfl
      · rfl
      · rw [ownedDrops_elsewhere]
        simp only [ownedDrops, List.flatMap_map, instrsOf, List.map_map]
        rw [← List.map_eq_flatMap]
        rfl
    have e3 : instrsOf L ((fs ++ fs').map Prod.snd) id' ty (.write 0 (flatObj fs.length va' fs')) =
        [.store L (.node id' ty va' fs')] := by
      simp only [instrsOf, table_new]
      rfl
    rw [e1, e2, e3]
    simp [List.append_assoc, Function.comp_def]
  · intro f hf
    obtain ⟨i, fld, h1, rfl, h3⟩ := (hst f).1 hf
    obtain ⟨c, hc, -⟩ := lookup_label hwf hn h1
    simp only [pinnedParts, List.mem_map, List.mem_filter]
    exact ⟨_, ⟨_, ⟨zip_flat_mem h1 hc, h3⟩, rfl⟩, rfl⟩
  · intro f hf
    simp only [pinnedParts, List.mem_map, List.mem_filter] at hf
    obtain ⟨_, ⟨x, ⟨hx, hp⟩, rfl⟩, rfl⟩ := hf
    obtain ⟨h1, v, h2⟩ := mem_zip_flat hx
    obtain ⟨c, hc, -⟩ := lookup_label hwf hn h1
    have he := (Prod.mk.inj (Option.some.inj (h2.symm.trans hc))).1
    exact ⟨(hst _).2 ⟨_, _, h1, he, hp⟩, List.mem_map.2 ⟨_, List.mem_of_getElem? h2, rfl⟩⟩
  · intro v hv
    rw [List.mem_map] at hv
    obtain ⟨i, hi, rfl⟩ := hv
    rcases hrest with rfl | rfl
    · cases hi
    · rw [ownedDrops_elsewhere, List.mem_map] at hi
      obtain ⟨x, hx, rfl⟩ := hi
      obtain ⟨fld, y, h1, h2, h3⟩ := hdisc x hx
      rw [tableGet_left _ _ h3]
      exact List.mem_map.2 ⟨y, List.mem_of_getElem? h3, rfl⟩
  · intro v hv
    rw [List.mem_map] at hv
    obtain ⟨i, hi, rfl⟩ := hv
    rcases hres with h | h
    · simp [h] at hi
    · rw [h] at hi
      simp only [Option.toList_some, List.flatMap_cons, List.flatMap_nil, List.append_nil, Val.ids] at hi
      obtain ⟨fld, y, h1, h2, h3⟩ := hback i hi
      rw [tableGet_left _ _ h3]
      exact List.mem_map.2 ⟨y, List.mem_of_getElem? h3, rfl⟩
  · intro f hf
    obtain ⟨i, fld, h1, rfl, h3⟩ := (hst f).1 hf
    obtain ⟨c, hc, hl⟩ := lookup_label hwf hn h1
    have hp : (punch (movedOut res) fs).map Prod.fst = labels Fs.list := by
      rw [← hn]
      unfold punch
      rw [List.mapIdx_eq_zipIdx_map, List.map_map]
      have := congrArg (List.map Prod.fst) (List.zipIdx_map_fst 0 fs)
      rw [List.map_map] at this
      exact this
    obtain ⟨c', hc', hl'⟩ := lookup_label hwf hp h1
    rw [hl, hl']
    have hni : i ∉ movedOut res := by
      intro hi
      obtain ⟨fld', y, g1, g2, g3⟩ := hmoved i hi
      obtain rfl := Option.some.inj (h1.symm.trans g1)
      rw [h3] at g2; cases g2
    unfold punch at hc'
    rw [List.getElem?_mapIdx, hc] at hc'
    simp only [Option.map_some, if_neg hni, Option.some.injEq, Prod.mk.injEq, true_and] at hc'
    rw [hc']
  · rw [hmoved']
    exact List.map_append.symm
  · have hids : ((flatObj 0 va fs).fields.map Prod.snd).Nodup := by
      have : (flatObj 0 va fs).fields.map Prod.snd = List.range fs.length := by
        apply List.ext_getElem?
        intro i
        simp only [flatObj, List.getElem?_map, List.getElem?_mapIdx, Option.map_map, List.getElem?_range, Nat.zero_add]
        by_cases hi : i < fs.length
        · rw [List.getElem?_eq_getElem hi, List.getElem?_range hi]; rfl
        · rw [List.getElem?_eq_none (by omega), List.getElem?_eq_none (by simp; omega)]; rfl
      rw [this]
      exact List.nodup_range
    have hn' : ((unpinnedParts Fs (flatObj 0 va fs)).map Prod.snd).Nodup := unpinned_nodup hval hids
    rw [hmoved']
    rcases hres with h | h
    · rw [h, hnone h, ownedDrops_elsewhere]
      simpa using hn'
    · rw [hsome (by rw [h]; rfl), h]
      simpa [Val.ids, ownedParts_ids] using hn'
  · intro i hi
    obtain ⟨_, y, -, -, h⟩ := hmoved i hi
    exact (List.getElem?_eq_some_iff.1 h).1
  · have hsub : ((pinnedParts Fs (flatObj 0 va fs)).map Prod.fst).Sublist (fs.map Prod.fst) := by
      have h1 := ((List.filter_sublist (p := fun x : Field × (String × Id) => Pinned x.1)
        (l := Fs.list.zip (flatObj 0 va fs).fields)).map (·.2)).map Prod.fst
      have h2 : (Fs.list.zip (flatObj 0 va fs).fields).map (·.2) = (flatObj 0 va fs).fields := by
        apply List.map_snd_zip
        have := congrArg List.length hval.fields
        simp only [labels, List.length_map, List.length_mapIdx, List.length_zipIdx] at this
        omega
      rw [h2, flatObj_names] at h1
      exact h1
    exact hsub.nodup hok.2.2
  · intro i y hy
    have hlen : Fs.list.length = fs.length := by
      have := congrArg List.length hn
      simpa [labels] using this.symm
    have hi : i < Fs.list.length := by rw [hlen]; exact (List.getElem?_eq_some_iff.1 hy).1
    have hfld : Fs.list[i]? = some Fs.list[i] := List.getElem?_eq_getElem hi
    have hz := zip_flat_mem (va := va) hfld hy
    cases hp : Pinned Fs.list[i]
    · left
      have hm : i ∈ (unpinnedParts Fs (flatObj 0 va fs)).map Prod.snd := by
        simp only [unpinnedParts, List.mem_map, List.mem_filter]
        exact ⟨_, ⟨_, ⟨hz, by simp [hp]⟩, rfl⟩, rfl⟩
      rw [hmoved']
      rcases hres with h | h
      · rw [h, hnone h, ownedDrops_elsewhere]
        simpa using hm
      · rw [hsome (by rw [h]; rfl), h]
        simpa [Val.ids, ownedParts_ids] using hm
    · right
      simp only [pinnedParts, List.mem_map, List.mem_filter]
      exact ⟨_, ⟨_, ⟨hz, hp⟩, rfl⟩, rfl⟩

theorem punch_names (mv : List Id) (fs : List (String × V)) : (punch mv fs).map Prod.fst = fs.map Prod.fst := by
  unfold punch
  rw [List.mapIdx_eq_zipIdx_map, List.map_map]
  have := congrArg (List.map Prod.fst) (List.zipIdx_map_fst 0 fs)
  rw [List.map_map] at this
  exact this

theorem punch_types (mv : List Id) (fs : List (String × V)) :
    (punch mv fs).map (fun x => x.2.ty) = fs.map (fun x => x.2.ty) := by
  apply List.ext_getElem?
  intro i
  simp only [punch, List.getElem?_map, List.getElem?_mapIdx, Option.map_map]
  cases fs[i]? with
  | none => rfl
  | some x =>
    simp only [Option.map_some, Function.comp]
    split <;> rfl

theorem punch_mem {mv : List Id} {fs : List (String × V)} {x : String × V} (h : x ∈ punch mv fs) :
    x ∈ fs ∨ ∃ t, x.2 = .hole t := by
  unfold punch at h
  obtain ⟨i, hi, rfl⟩ := List.mem_mapIdx.1 h
  simp only
  split
  · exact .inr ⟨_, rfl⟩
  · exact .inl (List.getElem_mem _)

end PinProject

import Verif.Props.Unpin
/-!
# Conflicts with impls written by the user: C28, C29, C30, C31
-/
namespace PinProject
open Spec

/-- Does the item call `PinnedDrop::drop`? -/
def Spec.callsPinnedDrop : GItem → Prop
  | .traitImpl _ _ _ _ _ _ _ fns => ∃ fn ∈ fns, ∃ x, GStmt.expr (.pinnedDropCall x) ∈ fn.body.stmts
  | _ => False

/-- The four traits a user could try to implement for the annotated type. -/
def Spec.userTraits : List GTrait := [.unpin, .unsafeUnpin, .drop, .pinnedDrop]

/-- Impls a user wrote for the annotated type: of one of the four traits, and such that the
compiler must assume that they cover some instance. A `Drop` impl covers all instances (rustc refuses others);
here one of them has to be `Sized` (see `C30_unsized`). -/
structure Spec.UserImpl (item : Item) (N : Names) (ident : String) (u : UImpl) : Prop where
  name : u.name = ident
  tr : u.tr ∈ userTraits
  covers : ∃ args, IsInstance item N args ∧ u.mayCover args ∧ (u.tr = .drop → N.sized (.adt ident args))

/-- What the documentation allows: `UnsafeUnpin` and `PinnedDrop`, each with its argument. -/
def Spec.Allowed (A : Args) (tr : GTrait) : Prop :=
  (tr = .unsafeUnpin ∧ A.unpinImpl = .unsafe_) ∨ (tr = .pinnedDrop ∧ A.pinnedDrop = true)

/-- No two of the user's own impls conflict. -/
def Spec.Disjoint (us : List UImpl) : Prop := us.Pairwise (fun a b => ¬ a.reach.Overlap b.reach)

/-- The impls generated with the generics of the annotated type. -/
def plainHeader (item : Item) : ImplHeader :=
  { params := (itemParams item).map GParam.noDefault
    args := (itemParams item).map GParam.arg
    preds := itemPreds item }

def ImplHeader.reachFor (h : ImplHeader) (K : Negative) (ident : String) (t : Ty) : Prop :=
  ∃ args, t = .adt ident args ∧ h.MayApply K ident args

theorem plainHeader_may {item : Item} {N : Names} {K : Negative} (hK : K.Sound N) (hsc : WellScoped item)
    (ident : String) {args : List TArg} (hi : IsInstance item N args) :
    (plainHeader item).MayApply K ident args := by
  unfold ImplHeader.MayApply
  simp only [plainHeader]
  rw [match_plain (itemParams_nodup hsc) args (fun σ =>
    (∀ p ∈ (itemParams item).map GParam.noDefault, ∀ b ∈ p.boundsOf, ¬ K.bound σ b.1 b.2) ∧
      ∀ w ∈ itemPreds item, ¬ K.pred σ (.adt ident args) w)]
  refine ⟨by rw [itemParams_length]; exact hi.arity, ?_, ?_⟩
  · intro p hp b hb hk
    obtain ⟨q, hq, rfl⟩ := List.mem_map.1 hp
    rw [noDefault_boundsOf] at hb
    exact hK.bound _ _ _ hk (hi.bounds q hq b hb)
  · intro w hw hk
    obtain ⟨n, rfl⟩ := hsc.source w hw
    exact hK.user _ _ _ hk (hi.preds n hw)

theorem unpinHeader_may {item : Item} {N : Names} (hN : N.Lawful) {K : Negative} (hK : K.Sound N) (hsc : WellScoped item)
    (ident : String) (A : Args) {args : List TArg} (hi : IsInstance item N args) :
    (unpinHeader item ident A).MayApply K ident args := by
  obtain ⟨t, tr, hw⟩ : ∃ t tr, (unpinHeader item ident A).preds = itemPreds item ++ [.bound (.pinnedFieldsOf t) tr] := by
    unfold unpinHeader
    cases A.unpinImpl <;> exact ⟨_, _, rfl⟩
  unfold ImplHeader.MayApply
  rw [hw]
  simp only [unpinHeader]
  rw [match_lt (itemParams_nodup hsc) (freshLt_notin hsc) args (fun σ =>
    (∀ p ∈ (.lifetime (freshLt item) [] :: (itemParams item).map GParam.noDefault : List GParam), ∀ b ∈ p.boundsOf, ¬ K.bound σ b.1 b.2) ∧
      ∀ w ∈ itemPreds item ++ [WPred.bound (.pinnedFieldsOf t) tr], ¬ K.pred σ (.adt ident args) w)]
  refine ⟨by rw [itemParams_length]; exact hi.arity, default, ?_, ?_⟩
  · intro p hp b hb hk
    rcases List.mem_cons.1 hp with rfl | hp
    · cases hb
    · obtain ⟨q, hq, rfl⟩ := List.mem_map.1 hp
      rw [noDefault_boundsOf] at hb
      have := (instance_set hN hsc (instSubst item args) default).1.2 hi.bounds
      exact hK.bound _ _ _ hk (this q hq b hb)
  · intro w hw hk
    rcases List.mem_append.1 hw with hw | hw
    · obtain ⟨n, rfl⟩ := hsc.source w hw
      have := ((instance_set hN hsc (instSubst item args) default).2.1 n hw).2 (hi.preds n hw)
      exact hK.user _ _ _ hk this
    · rw [List.mem_singleton] at hw
      subst hw
      exact hK.foreign _ _ _ _ hk

/-- The impls in the expansion, as the coherence check of a program with the items `its` sees them. -/
theorem reach_in {item : Item} {E : Expansion} (h : parseDerive item = .ok E) (hsc : WellScoped item)
    {A : Args} (hA : parseArgs (itemAttrs item) = .ok A) {ident : String} (hid : itemName item = some ident)
    (its : List GItem) (us : List UImpl) (K : Negative) :
    (allItems E).filterMap (reachOf its us K) =
      [⟨.unpin, (unpinHeader item ident A).reachFor K ident⟩] ++
      (if A.unpinImpl = .unsafe_ then [] else [⟨.unsafeUnpin, (unpinHeader item ident A).reachFor K ident⟩]) ++
      (if A.pinnedDrop then [⟨.drop, (plainHeader item).reachFor K ident⟩] else
        [⟨.mustNotImplDrop (unraw ident ++ "MustNotImplDrop"), fun t => MayDrop its us K t ∧ ¬ K.unsized t⟩,
         ⟨.mustNotImplDrop (unraw ident ++ "MustNotImplDrop"), (plainHeader item).reachFor K ident⟩,
         ⟨.pinnedDrop, (plainHeader item).reachFor K ident⟩]) := by
  obtain ⟨A', ident', attrs, kind, front, h1, h2, h3, h4, -⟩ := expansion_shape item E h
  obtain rfl := Except.ok.inj (hA.symm.trans h1)
  obtain rfl := Option.some.inj (hid.symm.trans h2)
  generalize hI : reachOf its us K = R
  have hR : ∀ i : GItem, i.noImpl = true → R i = none := by
    intro i hi
    rw [← hI]
    cases i <;> first | rfl | cases hi
  have hRt : ∀ a b ps tr n as ws fs, R (.traitImpl a b ps tr n as ws fs) = some ⟨tr, (ImplHeader.mk ps as ws).reachFor K n⟩ := by
    intros; rw [← hI]; rfl
  have hRb : ∀ n, R (.blanketDrop n) = some ⟨.mustNotImplDrop n, fun t => MayDrop its us K t ∧ ¬ K.unsized t⟩ := by
    intros; rw [← hI]; rfl
  have hRs : ∀ a b c d e f, R (.struct_ a b c d e f) = none := fun a b c d e f => hR _ rfl
  have hRd : ∀ n, R (.traitDef n) = none := fun n => hR _ rfl
  obtain ⟨g1, g2, g3, g4, g5, g6, g7⟩ := item_generics hsc.lifetimesFirst A attrs (itemVis item).visit ident kind
  generalize MayDrop its us K = MD at *
  rw [h3, List.filterMap_append, List.filterMap_append]
  rw [show front.filterMap R = [] from List.filterMap_eq_nil_iff.2 (fun i hi => hR i (h4 i hi)), List.nil_append]
  generalize hcx : mkCtx A attrs (itemVis item).visit ident (preGenerics item) kind = cx at *
  have c1 : cx.unpinImpl = A.unpinImpl := by rw [← hcx]; rfl
  have c2 : cx.ident = ident := by rw [← hcx]; rfl
  have c3 : cx.lifetime = freshLt item := by rw [← hcx]; rfl
  have c4 : cx.pinnedDrop = A.pinnedDrop := by rw [← hcx]; rfl
  congr 1
  · simp only [makeUnpinImpl, c1, c2, c3, g1, g2, g3, g4, g5, g7, unpinHeader]
    cases hm : A.unpinImpl <;>
      simp [hRt, hRs]
  · simp only [makeDropImpl, c2, c4, g5, g6, g7, plainHeader]
    cases hm : A.pinnedDrop <;>
      simp [hRt, hRb, hRd]

theorem reach_eq {item : Item} {E : Expansion} (h : parseDerive item = .ok E) (hsc : WellScoped item)
    {A : Args} (hA : parseArgs (itemAttrs item) = .ok A) {ident : String} (hid : itemName item = some ident)
    (us : List UImpl) (K : Negative) :
    (allItems E).filterMap (reachOf (allItems E) us K) =
      [⟨.unpin, (unpinHeader item ident A).reachFor K ident⟩] ++
      (if A.unpinImpl = .unsafe_ then [] else [⟨.unsafeUnpin, (unpinHeader item ident A).reachFor K ident⟩]) ++
      (if A.pinnedDrop then [⟨.drop, (plainHeader item).reachFor K ident⟩] else
        [⟨.mustNotImplDrop (unraw ident ++ "MustNotImplDrop"), fun t => MayDrop (allItems E) us K t ∧ ¬ K.unsized t⟩,
         ⟨.mustNotImplDrop (unraw ident ++ "MustNotImplDrop"), (plainHeader item).reachFor K ident⟩,
         ⟨.pinnedDrop, (plainHeader item).reachFor K ident⟩]) := reach_in h hsc hA hid _ us K

/-- The generated `Drop` impls. -/
theorem drop_header {item : Item} {E : Expansion} (h : parseDerive item = .ok E) (hsc : WellScoped item)
    {A : Args} (hA : parseArgs (itemAttrs item) = .ok A) {ident : String} (hid : itemName item = some ident) :
    implsOf (allItems E) .drop ident = (if A.pinnedDrop then [plainHeader item] else []) ∧
    implsOf (allItems E) .pinnedDrop ident = (if A.pinnedDrop then [] else [plainHeader item]) := by
  obtain ⟨A', ident', attrs, kind, front, h1, h2, h3, h4, -⟩ := expansion_shape item E h
  obtain rfl := Except.ok.inj (hA.symm.trans h1)
  obtain rfl := Option.some.inj (hid.symm.trans h2)
  obtain ⟨g1, g2, g3, g4, g5, g6, g7⟩ := item_generics hsc.lifetimesFirst A attrs (itemVis item).visit ident kind
  obtain ⟨-, -, u3, u4⟩ := unpin_impls hsc A attrs (itemVis item).visit ident kind (pinnedFieldTys item) ident
  rw [h3]
  simp only [implsOf_append, implsOf_front h4, u3, u4, List.nil_append]
  generalize hcx : mkCtx A attrs (itemVis item).visit ident (preGenerics item) kind = cx at *
  have c2 : cx.ident = ident := by rw [← hcx]; rfl
  have c4 : cx.pinnedDrop = A.pinnedDrop := by rw [← hcx]; rfl
  simp only [makeDropImpl, c2, c4, g5, g6, g7, plainHeader]
  cases hm : A.pinnedDrop <;> simp [implsOf, GItem.implOf, List.filterMap_cons]

/-- The expansion together with impls written by the user for the annotated type passes the coherence
check exactly when each of these impls is one the documentation allows, and they do not conflict with
each other. -/
theorem coherent_iff (item : Item) (E : Expansion) (h : parseDerive item = .ok E) (hsc : WellScoped item)
    (A : Args) (hA : parseArgs (itemAttrs item) = .ok A) (ident : String) (hid : itemName item = some ident)
    (N : Names) (hN : N.Lawful) (K : Negative) (hK : K.Sound N)
    (us : List UImpl) (hus : ∀ u ∈ us, UserImpl item N ident u) :
    Program.Coherent ⟨allItems E, us⟩ K ↔ (∀ u ∈ us, Allowed A u.tr) ∧ Disjoint us := by
  unfold Program.Coherent
  simp only
  rw [reach_eq h hsc hA hid us K, List.pairwise_append, List.pairwise_map, ← Disjoint]
  have hdrop := (drop_header h hsc hA hid).1
  have hmay : ∀ args, MayDrop (allItems E) us K (.adt ident args) ↔
      (A.pinnedDrop = true ∧ (plainHeader item).MayApply K ident args) ∨ ∃ u ∈ us, u.tr = .drop ∧ u.mayCover args := by
    intro args
    simp only [MayDrop, hdrop]
    apply or_congr
    · cases A.pinnedDrop <;> simp
    · constructor
      · rintro ⟨u, hu, ht, -, hc⟩; exact ⟨u, hu, ht, hc⟩
      · rintro ⟨u, hu, ht, hc⟩; exact ⟨u, hu, ht, (hus u hu).name, hc⟩
  constructor
  · rintro ⟨hg, hd, hgu⟩
    refine ⟨?_, hd⟩
    intro u hu
    obtain ⟨hn, htr, args, hi, hc, hsz⟩ := hus u hu
    have m1 : (unpinHeader item ident A).reachFor K ident (.adt ident args) := ⟨args, rfl, unpinHeader_may hN hK hsc ident A hi⟩
    have m0 : (plainHeader item).reachFor K ident (.adt ident args) := ⟨args, rfl, plainHeader_may hK hsc ident hi⟩
    have mu : u.reach.reach (.adt ident args) := ⟨args, by rw [hn], hc⟩
    have hno : ∀ R : (Ty → Prop), R (.adt ident args) → ∀ g, g.reach = R → g.tr = u.tr → g ∉
      ([⟨.unpin, (unpinHeader item ident A).reachFor K ident⟩] ++
      (if A.unpinImpl = .unsafe_ then [] else [⟨.unsafeUnpin, (unpinHeader item ident A).reachFor K ident⟩]) ++
      (if A.pinnedDrop then [⟨.drop, (plainHeader item).reachFor K ident⟩] else
        [⟨.mustNotImplDrop (unraw ident ++ "MustNotImplDrop"), fun t => MayDrop (allItems E) us K t ∧ ¬ K.unsized t⟩,
         ⟨.mustNotImplDrop (unraw ident ++ "MustNotImplDrop"), (plainHeader item).reachFor K ident⟩,
         ⟨.pinnedDrop, (plainHeader item).reachFor K ident⟩]) : List Reach) := by
      intro R hR g hgR hgt hmem
      exact hgu g hmem u.reach (List.mem_map_of_mem hu) ⟨hgt, _, by rw [hgR]; exact hR, mu⟩
    simp only [userTraits, List.mem_cons, List.not_mem_nil, or_false] at htr
    rcases htr with ht | ht | ht | ht
    · exact (hno _ m1 ⟨.unpin, (unpinHeader item ident A).reachFor K ident⟩ rfl ht.symm (by simp)).elim
    · by_cases hm : A.unpinImpl = .unsafe_
      · exact .inl ⟨ht, hm⟩
      · exact (hno _ m1 ⟨.unsafeUnpin, (unpinHeader item ident A).reachFor K ident⟩ rfl ht.symm (by simp [hm])).elim
    · cases hm : A.pinnedDrop with
      | true => exact (hno _ m0 ⟨.drop, (plainHeader item).reachFor K ident⟩ rfl ht.symm (by simp [hm])).elim
      | false =>
        exfalso
        rw [hm] at hg
        simp only [Bool.false_eq_true, if_false, List.pairwise_append, List.pairwise_cons] at hg
        refine hg.2.1.1 ⟨_, (plainHeader item).reachFor K ident⟩ (by simp) ⟨rfl, .adt ident args, ?_, m0⟩
        exact ⟨(hmay args).2 (.inr ⟨u, hu, ht, hc⟩), fun hk => hK.unsized _ hk (hsz ht)⟩
    · cases hm : A.pinnedDrop with
      | true => exact .inr ⟨ht, hm⟩
      | false => exact (hno _ m0 ⟨.pinnedDrop, (plainHeader item).reachFor K ident⟩ rfl ht.symm (by simp [hm])).elim
  · rintro ⟨hall, hd⟩
    refine ⟨?_, hd, ?_⟩
    · have hnd : ∀ u ∈ us, u.tr ≠ .drop := by
        intro u hu ht
        rcases hall u hu with ⟨h1, -⟩ | ⟨h1, -⟩ <;> rw [ht] at h1 <;> cases h1
      have hblank : A.pinnedDrop = false → ∀ t, MayDrop (allItems E) us K t → (plainHeader item).reachFor K ident t → False := by
        rintro hm t h1 ⟨args, rfl, -⟩
        rcases (hmay args).1 h1 with ⟨h2, -⟩ | ⟨u, hu, ht, -⟩
        · rw [hm] at h2; cases h2
        · exact hnd u hu ht
      by_cases hm1 : A.unpinImpl = .unsafe_
      · cases hm2 : A.pinnedDrop with
        | true => simp [hm1, Reach.Overlap]
        | false =>
          simp [hm1, Reach.Overlap]
          exact fun t h1 _ h2 => hblank hm2 t h1 h2
      · cases hm2 : A.pinnedDrop with
        | true => simp [hm1, Reach.Overlap]
        | false =>
          simp [hm1, Reach.Overlap]
          exact fun t h1 _ h2 => hblank hm2 t h1 h2
    · intro g hg r hr
      obtain ⟨u, hu, rfl⟩ := List.mem_map.1 hr
      rintro ⟨ht, -⟩
      have ht' : g.tr = u.tr := ht
      rcases hall u hu with ⟨h1, h2⟩ | ⟨h1, h2⟩
      · rw [h1] at ht'
        rw [h2] at hg
        cases hm2 : A.pinnedDrop <;> rw [hm2] at hg <;> simp at hg
        · rcases hg with rfl | rfl | rfl | rfl <;> cases ht'
        · rcases hg with rfl | rfl <;> cases ht'
      · rw [h1] at ht'
        rw [h2] at hg
        by_cases hm1 : A.unpinImpl = .unsafe_
        · simp [hm1] at hg
          rcases hg with rfl | rfl <;> cases ht'
        · simp [hm1] at hg
          rcases hg with rfl | rfl | rfl <;> cases ht'

/-! ## C28 -/

/-- **C28** Whatever the mode, the expansion contains exactly one `Unpin` impl; it is for the annotated
type applied to all its parameters, and the overlap check cannot exclude that it applies to any instance. -/
theorem C28_one_unpin_impl (item : Item) (E : Expansion) (h : parseDerive item = .ok E) (hsc : WellScoped item)
    (ident : String) (hid : itemName item = some ident)
    (N : Names) (hN : N.Lawful) (K : Negative) (hK : K.Sound N) :
    ∃ hd : ImplHeader, (∀ n, implsOf (allItems E) .unpin n = if n = ident then [hd] else []) ∧
      hd.args = (itemParams item).map ownArg ∧
      ∀ args, IsInstance item N args → hd.MayApply K ident args := by
  rw [ownArg_eq]
  obtain ⟨A, ident', attrs, kind, front, h1, h2, h3, h4, -⟩ := expansion_shape item E h
  obtain rfl := Option.some.inj (hid.symm.trans h2)
  refine ⟨unpinHeader item ident A, ?_, rfl, fun args hi => unpinHeader_may hN hK hsc ident A hi⟩
  intro n
  obtain ⟨u1, -, -, -⟩ := unpin_impls hsc A attrs (itemVis item).visit ident kind (pinnedFieldTys item) n
  obtain ⟨d1, -⟩ := drop_impls (mkCtx A attrs (itemVis item).visit ident (preGenerics item) kind) n
  rw [h3]
  simp only [implsOf_append, implsOf_front h4, u1, d1, List.append_nil, List.nil_append]

/-- **C28** So any `Unpin` impl the user writes for the type is rejected. -/
theorem C28_user_unpin_rejected (item : Item) (E : Expansion) (h : parseDerive item = .ok E) (hsc : WellScoped item)
    (ident : String) (hid : itemName item = some ident)
    (N : Names) (hN : N.Lawful) (K : Negative) (hK : K.Sound N)
    (us : List UImpl) (hus : ∀ u ∈ us, UserImpl item N ident u) (u : UImpl) (hu : u ∈ us) (ht : u.tr = .unpin) :
    ¬ Program.Coherent ⟨allItems E, us⟩ K := by
  obtain ⟨A, ident', attrs, kind, front, h1, h2, -⟩ := expansion_shape item E h
  obtain rfl := Option.some.inj (hid.symm.trans h2)
  rw [coherent_iff item E h hsc A h1 ident hid N hN K hK us hus]
  rintro ⟨hall, -⟩
  rcases hall u hu with ⟨h', -⟩ | ⟨h', -⟩ <;> rw [ht] at h' <;> cases h'

/-! ## C29 -/

/-- **C29** Without the argument `UnsafeUnpin`, an `UnsafeUnpin` impl written by the user is rejected. -/
theorem C29_rejected (item : Item) (E : Expansion) (h : parseDerive item = .ok E) (hsc : WellScoped item)
    (A : Args) (hA : parseArgs (itemAttrs item) = .ok A) (hm : A.unpinImpl ≠ .unsafe_)
    (ident : String) (hid : itemName item = some ident)
    (N : Names) (hN : N.Lawful) (K : Negative) (hK : K.Sound N)
    (us : List UImpl) (hus : ∀ u ∈ us, UserImpl item N ident u) (u : UImpl) (hu : u ∈ us) (ht : u.tr = .unsafeUnpin) :
    ¬ Program.Coherent ⟨allItems E, us⟩ K := by
  rw [coherent_iff item E h hsc A hA ident hid N hN K hK us hus]
  rintro ⟨hall, -⟩
  rcases hall u hu with ⟨-, h'⟩ | ⟨h', -⟩
  · exact hm h'
  · rw [ht] at h'; cases h'

/-- **C29** With the argument the expansion contains none, and a user impl is accepted. -/
theorem C29_allowed (item : Item) (E : Expansion) (h : parseDerive item = .ok E) (hsc : WellScoped item)
    (A : Args) (hA : parseArgs (itemAttrs item) = .ok A) (hm : A.unpinImpl = .unsafe_)
    (ident : String) (hid : itemName item = some ident)
    (N : Names) (hN : N.Lawful) (K : Negative) (hK : K.Sound N)
    (u : UImpl) (hu : UserImpl item N ident u) (ht : u.tr = .unsafeUnpin) :
    (∀ n, implsOf (allItems E) .unsafeUnpin n = []) ∧ Program.Coherent ⟨allItems E, [u]⟩ K := by
  constructor
  · intro n
    obtain ⟨A', ident', attrs, kind, front, h1, h2, h3, h4, -⟩ := expansion_shape item E h
    obtain rfl := Option.some.inj (hid.symm.trans h2)
    obtain rfl := Except.ok.inj (hA.symm.trans h1)
    obtain ⟨-, u2, -, -⟩ := unpin_impls hsc A attrs (itemVis item).visit ident kind (pinnedFieldTys item) n
    obtain ⟨-, d2⟩ := drop_impls (mkCtx A attrs (itemVis item).visit ident (preGenerics item) kind) n
    rw [h3]
    simp only [implsOf_append, implsOf_front h4, u2, d2, hm, ne_eq, not_true_eq_false, and_false, if_false, List.append_nil]
  · rw [coherent_iff item E h hsc A hA ident hid N hN K hK [u] (by simpa using hu)]
    exact ⟨by simpa using .inl ⟨ht, hm⟩, by simp [Disjoint]⟩

/-! ## C30 -/

/-- **C30** With or without `PinnedDrop`, and as far as the user's other impls are in order, the program passes
the coherence check iff the user does not implement `Drop`. -/
theorem C30_drop_rejected_iff (item : Item) (E : Expansion) (h : parseDerive item = .ok E) (hsc : WellScoped item)
    (A : Args) (hA : parseArgs (itemAttrs item) = .ok A)
    (ident : String) (hid : itemName item = some ident)
    (N : Names) (hN : N.Lawful) (K : Negative) (hK : K.Sound N)
    (us : List UImpl) (hus : ∀ u ∈ us, UserImpl item N ident u) (hdis : Disjoint us)
    (hother : ∀ u ∈ us, u.tr ≠ .drop → Allowed A u.tr) :
    Program.Coherent ⟨allItems E, us⟩ K ↔ ∀ u ∈ us, u.tr ≠ .drop := by
  rw [coherent_iff item E h hsc A hA ident hid N hN K hK us hus]
  constructor
  · rintro ⟨hall, -⟩ u hu ht
    rcases hall u hu with ⟨h', -⟩ | ⟨h', -⟩ <;> rw [ht] at h' <;> cases h'
  · intro hno
    exact ⟨fun u hu => hother u hu (hno u hu), hdis⟩

/-- **C30** With `PinnedDrop` the expansion itself implements `Drop` for the type, once, so that a user
impl is rejected too. -/
theorem C30_pinned_drop_rejected (item : Item) (E : Expansion) (h : parseDerive item = .ok E) (hsc : WellScoped item)
    (A : Args) (hA : parseArgs (itemAttrs item) = .ok A) (hm : A.pinnedDrop = true)
    (ident : String) (hid : itemName item = some ident)
    (N : Names) (hN : N.Lawful) (K : Negative) (hK : K.Sound N)
    (us : List UImpl) (hus : ∀ u ∈ us, UserImpl item N ident u) :
    (∃ hd, implsOf (allItems E) .drop ident = [hd]) ∧
    ∀ u ∈ us, u.tr = .drop → ¬ Program.Coherent ⟨allItems E, us⟩ K := by
  constructor
  · have := (drop_header h hsc hA hid).1
    rw [hm] at this
    exact ⟨_, this⟩
  · intro u hu ht
    rw [coherent_iff item E h hsc A hA ident hid N hN K hK us hus]
    rintro ⟨hall, -⟩
    rcases hall u hu with ⟨h', -⟩ | ⟨h', -⟩ <;> rw [ht] at h' <;> cases h'

/-- **C30** (exception) For a type that is never `Sized`, like `struct S { #[pin] f: [T] }`, a `Drop` impl written by the
user is accepted: the impl that should conflict with it, `impl<T: Drop> SMustNotImplDrop for T`, is only for
`Sized` types. -/
theorem C30_unsized (item : Item) (E : Expansion) (h : parseDerive item = .ok E) (hsc : WellScoped item)
    (A : Args) (hA : parseArgs (itemAttrs item) = .ok A) (hm : A.pinnedDrop = false)
    (ident : String) (hid : itemName item = some ident) (K : Negative)
    (hun : ∀ args, K.unsized (.adt ident args)) (u : UImpl) (ht : u.tr = .drop) :
    Program.Coherent ⟨allItems E, [u]⟩ K := by
  unfold Program.Coherent
  simp only
  rw [reach_eq h hsc hA hid [u] K, hm]
  have hb : ∀ t, MayDrop (allItems E) [u] K t → ¬ K.unsized t → ¬ (plainHeader item).reachFor K ident t := by
    rintro t - hk ⟨args, rfl, -⟩
    exact hk (hun args)
  by_cases hm1 : A.unpinImpl = .unsafe_
  · simpa [hm1, Reach.Overlap, UImpl.reach, ht] using hb
  · simpa [hm1, Reach.Overlap, UImpl.reach, ht] using hb

/-! ## C31 -/

/-- The program type-checks as far as calls of `PinnedDrop::drop` are concerned: if there is such a
call, every instance of the annotated type implements `PinnedDrop`. -/
def Spec.CallsCovered (item : Item) (ident : String) (N : Names) (F : Facts) (P : Program) : Prop :=
  (∃ i ∈ P.items, callsPinnedDrop i) → ∀ args, IsInstance item N args → P.Implements N F .pinnedDrop ident args

theorem calls_front {l : List GItem} (h : ∀ i ∈ l, i.noImpl = true) : ¬ ∃ i ∈ l, callsPinnedDrop i := by
  rintro ⟨i, hi, hc⟩
  have := h i hi
  cases i <;> first | exact hc | cases this

theorem calls_iff (item : Item) (E : Expansion) (h : parseDerive item = .ok E)
    (A : Args) (hA : parseArgs (itemAttrs item) = .ok A) :
    (∃ i ∈ allItems E, callsPinnedDrop i) ↔ A.pinnedDrop = true := by
  obtain ⟨A', ident', attrs, kind, front, h1, h2, h3, h4, -⟩ := expansion_shape item E h
  obtain rfl := Except.ok.inj (hA.symm.trans h1)
  rw [h3]
  have hu : ¬ ∃ i ∈ makeUnpinImpl (mkCtx A attrs (itemVis item).visit ident' (preGenerics item) kind) (pinnedFieldTys item),
      callsPinnedDrop i := by
    rintro ⟨i, hi, hc⟩
    unfold makeUnpinImpl at hi
    split at hi <;> simp at hi
    · subst hi; simp [callsPinnedDrop] at hc
    · rcases hi with rfl | rfl <;> simp [callsPinnedDrop] at hc
    · rcases hi with rfl | rfl | rfl <;> simp [callsPinnedDrop] at hc
  have hd : (∃ i ∈ makeDropImpl (mkCtx A attrs (itemVis item).visit ident' (preGenerics item) kind), callsPinnedDrop i) ↔
      A.pinnedDrop = true := by
    have e : (mkCtx A attrs (itemVis item).visit ident' (preGenerics item) kind).pinnedDrop = A.pinnedDrop := rfl
    unfold makeDropImpl
    rw [e]
    cases A.pinnedDrop <;> simp [callsPinnedDrop]
  constructor
  · rintro ⟨i, hi, hc⟩
    rcases List.mem_append.1 hi with hi | hi
    · rcases List.mem_append.1 hi with hi | hi
      · exact (calls_front h4 ⟨i, hi, hc⟩).elim
      · exact (hu ⟨i, hi, hc⟩).elim
    · exact hd.1 ⟨i, hi, hc⟩
  · intro hm
    obtain ⟨i, hi, hc⟩ := hd.2 hm
    exact ⟨i, List.mem_append_right _ hi, hc⟩

/-- **C31** Without the argument `PinnedDrop`, a `PinnedDrop` impl written by the user is rejected. -/
theorem C31_rejected (item : Item) (E : Expansion) (h : parseDerive item = .ok E) (hsc : WellScoped item)
    (A : Args) (hA : parseArgs (itemAttrs item) = .ok A) (hm : A.pinnedDrop = false)
    (ident : String) (hid : itemName item = some ident)
    (N : Names) (hN : N.Lawful) (K : Negative) (hK : K.Sound N)
    (us : List UImpl) (hus : ∀ u ∈ us, UserImpl item N ident u) (u : UImpl) (hu : u ∈ us) (ht : u.tr = .pinnedDrop) :
    ¬ Program.Coherent ⟨allItems E, us⟩ K := by
  rw [coherent_iff item E h hsc A hA ident hid N hN K hK us hus]
  rintro ⟨hall, -⟩
  rcases hall u hu with ⟨h', -⟩ | ⟨-, h'⟩
  · rw [ht] at h'; cases h'
  · rw [hm] at h'; cases h'

/-- **C31** With the argument, the program is accepted exactly when the user's `PinnedDrop` impls cover
every instance of the type and do not overlap: the impl is allowed, and it is required. -/
theorem C31_required (item : Item) (E : Expansion) (h : parseDerive item = .ok E) (hsc : WellScoped item)
    (A : Args) (hA : parseArgs (itemAttrs item) = .ok A) (hm : A.pinnedDrop = true)
    (ident : String) (hid : itemName item = some ident)
    (N : Names) (hN : N.Lawful) (K : Negative) (hK : K.Sound N) (F : Facts)
    (us : List UImpl) (hus : ∀ u ∈ us, UserImpl item N ident u) (hpd : ∀ u ∈ us, u.tr = .pinnedDrop) :
    (Program.Coherent ⟨allItems E, us⟩ K ∧ CallsCovered item ident N F ⟨allItems E, us⟩) ↔
      Disjoint us ∧ ∀ args, IsInstance item N args → ∃ u ∈ us, u.covers args := by
  rw [coherent_iff item E h hsc A hA ident hid N hN K hK us hus]
  have hnone := (drop_header h hsc hA hid).2
  rw [hm, if_pos rfl] at hnone
  have hcalls := (calls_iff item E h A hA).2 hm
  have himp : ∀ args, Program.Implements ⟨allItems E, us⟩ N F .pinnedDrop ident args ↔ ∃ u ∈ us, u.covers args := by
    intro args
    simp only [Program.Implements, hnone, List.not_mem_nil, false_and, exists_false, false_or]
    constructor
    · rintro ⟨u, hu, -, -, hc⟩; exact ⟨u, hu, hc⟩
    · rintro ⟨u, hu, hc⟩; exact ⟨u, hu, hpd u hu, (hus u hu).name, hc⟩
  simp only [CallsCovered, hcalls, forall_const, himp]
  constructor
  · rintro ⟨⟨-, hd⟩, hc⟩; exact ⟨hd, hc⟩
  · rintro ⟨hd, hc⟩; exact ⟨⟨fun u hu => .inr ⟨hpd u hu, hm⟩, hd⟩, hc⟩

/-- **C31** Without the argument no impl is required. -/
theorem C31_not_required (item : Item) (E : Expansion) (h : parseDerive item = .ok E)
    (A : Args) (hA : parseArgs (itemAttrs item) = .ok A) (hm : A.pinnedDrop = false)
    (ident : String) (N : Names) (F : Facts) (us : List UImpl) :
    CallsCovered item ident N F ⟨allItems E, us⟩ := by
  intro hc
  rw [calls_iff item E h A hA, hm] at hc
  cases hc

/-! ## The hypotheses can be met -/

/-- A compiler that uses all it knows about user-written predicates. -/
example : Negative.Sound ⟨fun σ _ w => ∃ n, w = .user n ∧ ¬ demoNames.pred σ n, fun σ p n => ¬ demoNames.bound σ p n, fun t => ¬ demoNames.sized t⟩ demoNames := by
  refine ⟨?_, fun _ _ _ h => h, ?_, ?_, fun _ h => h⟩
  · rintro σ t n ⟨m, hm, h⟩
    obtain rfl := WPred.user.inj hm
    exact h
  · rintro σ t s l ⟨m, hm, -⟩; cases hm
  · rintro σ t s tr ⟨m, hm, -⟩; cases hm

/-- `impl<'a, T: Tr> Drop for G<'a, T, PhantomPinned>`. -/
example (tr : GTrait) (ht : tr ∈ userTraits) : UserImpl (.struct_ (demoGeneric [])) demoNames "G"
    { tr, name := "G", covers := fun args => ∃ l t, args = [.lt l, .ty t, .ty .phantomPinned] } :=
  ⟨rfl, ht, _, demoGeneric_instance [] 0 .phantomPinned .phantomPinned (by simp), ⟨_, _, rfl⟩, fun _ => trivial⟩

example : ∃ E A, parseDerive (.struct_ (demoGeneric [.ident "PinnedDrop"])) = .ok E ∧
    parseArgs (itemAttrs (.struct_ (demoGeneric [.ident "PinnedDrop"]))) = .ok A ∧ A.pinnedDrop = true :=
  ⟨_, _, rfl, rfl, rfl⟩

end PinProject

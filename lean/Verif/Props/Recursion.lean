import Verif.Spec.Recursion
import Verif.Props.Unpin
/-!
# Recursive types: C69
-/
namespace PinProject
open Spec

section
variable {P : Program} {N : Names} {S : Facts}

theorem unpinGiven_mono {Y Y' : Ty → Prop} (h : ∀ t, Y t → Y' t) {t : Ty} (ht : UnpinGiven P N S Y t) :
    UnpinGiven P N S Y' t := by
  obtain ⟨X, hX, hx⟩ := ht
  exact ⟨X, fun t hxt => (Facts.le.step (F := ⟨X, Y⟩) (G := ⟨X, Y'⟩) ⟨fun _ h => h, h⟩ P N S).1 t (hX t hxt), hx⟩

/-- Unfolding. -/
theorem unpinGiven_step {Y : Ty → Prop} {t : Ty} :
    UnpinGiven P N S Y t ↔ (P.step N S ⟨UnpinGiven P N S Y, Y⟩).unpin t := by
  have h1 : ∀ t, UnpinGiven P N S Y t → (P.step N S ⟨UnpinGiven P N S Y, Y⟩).unpin t := by
    rintro t ⟨X, hX, hx⟩
    exact (Facts.le.step (F := ⟨X, Y⟩) (G := ⟨UnpinGiven P N S Y, Y⟩) ⟨fun _ h => ⟨X, hX, h⟩, fun _ h => h⟩ P N S).1 t (hX t hx)
  refine ⟨h1 t, fun h => ⟨fun t => (P.step N S ⟨UnpinGiven P N S Y, Y⟩).unpin t, fun t ht => ?_, h⟩⟩
  exact (Facts.le.step (F := ⟨UnpinGiven P N S Y, Y⟩) (G := ⟨_, Y⟩) ⟨h1, fun _ h => h⟩ P N S).1 t ht

theorem unsafeUnpinLeast_step {t : Ty} :
    UnsafeUnpinLeast P N S t ↔ (P.step N S (answers P N S)).unsafeUnpin t := by
  have hle : ∀ Y : Ty → Prop, (∀ t, (P.step N S ⟨UnpinGiven P N S Y, Y⟩).unsafeUnpin t → Y t) →
      ∀ t, (P.step N S (answers P N S)).unsafeUnpin t → (P.step N S ⟨UnpinGiven P N S Y, Y⟩).unsafeUnpin t := by
    intro Y hY t ht
    have hl : ∀ t, UnsafeUnpinLeast P N S t → Y t := fun t h => h Y hY
    exact (Facts.le.step (F := answers P N S) (G := ⟨UnpinGiven P N S Y, Y⟩) ⟨fun _ h => unpinGiven_mono hl h, hl⟩ P N S).2 t ht
  have h2 : ∀ t, (P.step N S (answers P N S)).unsafeUnpin t → UnsafeUnpinLeast P N S t :=
    fun t ht Y hY => hY t (hle Y hY t ht)
  refine ⟨fun h => ?_, h2 t⟩
  refine h (fun t => (P.step N S (answers P N S)).unsafeUnpin t) (fun t ht => ?_)
  exact (Facts.le.step (F := ⟨UnpinGiven P N S _, _⟩) (G := answers P N S)
    ⟨fun _ h => unpinGiven_mono h2 h, h2⟩ P N S).2 t ht

/-- The compiler's answers are a solution of trait resolution, so C25, C26, C27 and everything else about solutions hold
of them. -/
theorem answers_solve (P : Program) (N : Names) (S : Facts) : P.Solves N (answers P N S) := by
  have hu : ∀ t, (answers P N S).unpin t ↔ (P.step N S (answers P N S)).unpin t := fun t => unpinGiven_step
  refine ⟨fun t => ?_, fun t => ?_⟩
  · cases t with
    | ext n as => exact Iff.rfl
    | adt n as =>
      rw [hu]
      simp only [Program.step]
      constructor
      · rintro (⟨-, h⟩ | ⟨h1, h2, h3⟩)
        · exact h
        · refine .inr ⟨h1, ?_⟩
          rw [h2]
          rw [hu]
          exact .inr ⟨h1, h2, h3⟩
      · intro h
        by_cases h1 : P.HasImpl .unpin n
        · exact .inl ⟨.inl h1, h⟩
        · cases hd : P.defOf n with
          | some d => exact .inl ⟨.inr (by simp), h⟩
          | none =>
            have h' : (answers P N S).unpin (.adt n as) := by
              rcases h with ⟨h2, -⟩ | ⟨-, h3⟩
              · exact (h1 h2).elim
              · rw [hd] at h3; exact h3
            rw [hu] at h'
            rcases h' with ⟨h4 | h4, -⟩ | ⟨-, -, h4⟩
            · exact (h1 h4).elim
            · simp [hd] at h4
            · exact .inr ⟨h1, rfl, h4⟩
    | _ => exact hu _
  · cases t with
    | ext n as => exact Iff.rfl
    | _ => exact unsafeUnpinLeast_step

/-- Coinduction: types are `Unpin` if for each of them this follows by at least one rule, assuming it of all of them. -/
theorem unpin_coinduction (X : Ty → Prop)
    (hX : ∀ t, X t → (P.step N S ⟨UnpinFrom P N S X, (answers P N S).unsafeUnpin⟩).unpin t) (t : Ty)
    (ht : UnpinFrom P N S X t) : (answers P N S).unpin t := by
  refine ⟨UnpinFrom P N S X, ?_, ht⟩
  intro t ht
  cases ht with
  | assumed h => exact hX t h
  | known h =>
    refine (Facts.le.step (F := answers P N S) (G := ⟨UnpinFrom P N S X, UnsafeUnpinLeast P N S⟩)
      ⟨fun _ h => .known h, fun _ h => h⟩ P N S).1 t ?_
    exact unpinGiven_step.1 h
  | rule Z hZ h => exact (Facts.le.step (F := ⟨Z, _⟩) (G := ⟨_, _⟩) ⟨hZ, fun _ h => h⟩ P N S).1 t h

/-- **C69** Recursive and mutually recursive types are `Unpin` if the pinned fields of each of them are, where all of them may
be assumed to be `Unpin`, also inside of other types. -/
theorem C69_recursive (P : Program) (N : Names) (hN : N.Lawful) (S : Facts) (X : Ty → Prop)
    (hX : ∀ t, X t → ∃ item ident args, HostsDefault P item ident ∧ t = .adt ident args ∧ IsInstance item N args ∧
      ∀ f ∈ itemFields item, Pinned f → UnpinFrom P N S X (N.den (instSubst item args) (resolved item f.ty)))
    (t : Ty) (ht : X t) : (answers P N S).unpin t := by
  refine unpin_coinduction X ?_ t (.assumed ht)
  intro t ht
  obtain ⟨item, ident, args, ⟨hsc, hid, E, A, h, hA, hm, hok, hP⟩, rfl, hi, hf⟩ := hX t ht
  have hl : args.length = (itemParams item).length := by rw [itemParams_length]; exact hi.arity
  obtain ⟨hhas, hiff⟩ := unpinStep_iff h hsc hA hid hP hN ⟨UnpinFrom P N S X, (answers P N S).unsafeUnpin⟩ args hi
    (.bound (.pinnedFieldsOf (.adt ("__" ++ unraw ident)
      (.lifetime (freshLt item) :: (itemParams item).map GParam.arg))) .unpin) (by simp [unpinHeader, hm])
  refine .inl ⟨.inl hhas, hiff.2 ⟨default, ?_⟩⟩
  simp only [WPred.holds, Facts.holds, Names.denote, helper_args hsc hl]
  have hsol := answers_solve P N S
  obtain ⟨-, hdef, hstep⟩ := helperStep_iff h hsc hA hm hid hok hP hN ⟨UnpinFrom P N S X, (answers P N S).unsafeUnpin⟩
    (fun b t => .known (unpin_ref hsol b t)) (fun a b => .known (unpin_always h hsc hA hid hP hsol a b)) args default
  exact .rule _ (fun _ h => h) (.inl ⟨.inr hdef, hstep.2 hf⟩)

/-- **C69** .. and only then: such a set of types exists whenever an instance is `Unpin`. -/
theorem C69_recursive_iff (P : Program) (N : Names) (hN : N.Lawful) (S : Facts) (item : Item) (ident : String)
    (args : List TArg) (hd : HostsDefault P item ident) (hi : IsInstance item N args) :
    (answers P N S).unpin (.adt ident args) ↔ ∃ X : Ty → Prop, X (.adt ident args) ∧
      ∀ t, X t → ∃ item ident args, HostsDefault P item ident ∧ t = .adt ident args ∧ IsInstance item N args ∧
        ∀ f ∈ itemFields item, Pinned f → UnpinFrom P N S X (N.den (instSubst item args) (resolved item f.ty)) := by
  constructor
  · intro h
    refine ⟨(· = .adt ident args), rfl, ?_⟩
    rintro t rfl
    refine ⟨item, ident, args, hd, rfl, hi, fun f hf hp => .known ?_⟩
    obtain ⟨hsc, hid, E, A, h', hA, hm, hok, hP⟩ := hd
    exact (C25_default_unpin item E h' hsc A hA hm ident hid hok P hP N hN _ (answers_solve P N S) args hi).1 h f hf hp
  · rintro ⟨X, hx, hX⟩
    exact C69_recursive P N hN S X hX _ hx

end

/-! ## A tree -/

/-- `#[pin_project] struct Tree<T> { #[pin] value: T, #[pin] children: Vec<Tree<T>> }` -/
def treeItem : ItemStruct where
  attrs := [pinPrivateAttr []]
  vis := .inherited
  ident := "Tree"
  generics := { params := [.type "T" [] none] }
  fields := .named [
    { attrs := [⟨.path { segs := ["pin"] }⟩], ident := some "value", ty := Node.tyIdent "T" },
    { attrs := [⟨.path { segs := ["pin"] }⟩], ident := some "children", ty := .other "Vec<Tree<T>>" [] }]

/-- `struct Vec<T>(*const T, PhantomData<T>);` -/
def vecDef : GItem := .struct_ [] .pub "Vec" [.type "T" [] none] [] ⟨some .paren,
  [⟨.inherited, none, .ptrMut (.param "T")⟩, ⟨.inherited, none, .phantomData .abs (.param "T")⟩]⟩

def treeNames : Names where
  den σ n := match n with
    | .tyPath .none (.mk false [.mk "T" .none]) => (σ.get "T").asTy
    | .other "Vec<Tree<T>>" [] => .adt "Vec" [.ty (.adt "Tree" [σ.get "T"])]
    | _ => .ext 0 []
  pred _ _ := True
  bound _ _ _ := True

theorem treeNames_lawful : treeNames.Lawful := by
  refine ⟨?_, fun _ _ _ _ _ _ => Iff.rfl, fun _ _ _ _ _ _ _ => Iff.rfl⟩
  intro σ l v n hl _
  have : "T" ≠ l := by rintro rfl; exact absurd hl (by decide)
  unfold treeNames
  simp only
  split <;> simp [Subst.get, Subst.set, this]

theorem treeItem_scoped : WellScoped (.struct_ treeItem) := by
  refine ⟨?_, ?_, ?_, ?_, ?_, ?_⟩
  · refine ⟨[], _, rfl, ?_, ?_⟩
    · intro p hp; cases hp
    · intro p hp n b; obtain rfl := List.mem_singleton.1 hp; exact nofun
  · change (List.map GParam.name [.type "T" [] none]).Nodup
    simp [GParam.name]
  · intro p hp
    obtain rfl := List.mem_singleton.1 hp
    decide
  · intro w hw
    cases hw
  · intro n hn l _ hm
    exfalso
    revert hm
    cases hn with
    | field hf =>
      simp [itemFields, treeItem, Fields.list] at hf
      rcases hf with rfl | rfl <;> exact mentions_leaf rfl (by intro l; exact nofun) (by intro l; exact nofun) (by intro p t; exact ⟨nofun, nofun⟩) l
    | bound hp hb =>
      obtain rfl := List.mem_singleton.1 hp
      cases hb
    | pred hp => cases hp
  · intro ident hid
    obtain rfl := Option.some.inj hid
    change ':' ∉ "Tree".toList ∧ '#' ∉ (noRaw "Tree").toList
    decide

/-- `Tree<T>` is `Unpin` iff `T` is, although the type of `children` contains `Tree<T>`. -/
example : ∃ E, parseDerive (.struct_ treeItem) = .ok E ∧ ∀ (S : Facts) (t : Ty),
    let P : Program := ⟨runtimeItems ++ (allItems E ++ [vecDef]), []⟩
    ((answers P treeNames S).unpin (.adt "Tree" [.ty t]) ↔ (answers P treeNames S).unpin t) := by
  obtain ⟨E, hE, hvec', hno'⟩ : ∃ E, parseDerive (.struct_ treeItem) = .ok E ∧
      (typeDefs (runtimeItems ++ (allItems E ++ [vecDef]))).find? (fun d => d.name == "Vec") = asTypeDef vecDef ∧
      implsOf (runtimeItems ++ (allItems E ++ [vecDef])) .unpin "Vec" = [] := ⟨_, rfl, rfl, rfl⟩
  refine ⟨E, hE, fun S t => ?_⟩
  intro P
  have hP : Hosts "Tree" E P := by
    refine ⟨⟨[], [vecDef], rfl, by simp [Unrelated, implsOf, typeDefs], ?_⟩, fun u hu => by cases hu⟩
    intro n hn
    refine ⟨rfl, rfl, ?_⟩
    intro d hd he
    obtain rfl := List.mem_singleton.1 hd
    subst he
    exact absurd hn (by decide)
  have hd : HostsDefault P (.struct_ treeItem) "Tree" :=
    ⟨treeItem_scoped, rfl, E, _, hE, rfl, rfl, ⟨nofun, nofun⟩, hP⟩
  have hi : IsInstance (.struct_ treeItem) treeNames [.ty t] := ⟨rfl, fun _ _ _ _ => trivial, fun _ _ => trivial⟩
  have hvec : P.defOf "Vec" = some ⟨.pub, "Vec", [.type "T" [] none], [], [(none, ⟨some .paren,
      [⟨.inherited, none, .ptrMut (.param "T")⟩, ⟨.inherited, none, .phantomData .abs (.param "T")⟩]⟩)]⟩ := hvec'
  have hno : ¬ P.HasImpl .unpin "Vec" := by
    rintro (h | ⟨u, hu, -⟩)
    · exact h hno'
    · cases hu
  constructor
  · intro h
    have := (C25_default_unpin _ E hE treeItem_scoped _ rfl rfl "Tree" rfl ⟨nofun, nofun⟩ P hP treeNames treeNames_lawful _
      (answers_solve P treeNames S) _ hi).1 h _ (.head _) rfl
    exact this
  · intro ht
    refine C69_recursive P treeNames treeNames_lawful S (· = .adt "Tree" [.ty t]) ?_ _ rfl
    rintro _ rfl
    refine ⟨_, _, _, hd, rfl, hi, ?_⟩
    intro f hf _
    rcases hf with _ | ⟨_, _ | ⟨_, hf⟩⟩
    · exact .known ht
    · -- `Vec<Tree<T>>`
      refine .rule (UnpinFrom P treeNames S _) (fun _ h => h) (.inl ⟨.inr (by rw [hvec]; rfl), .inr ⟨hno, ?_⟩⟩)
      rw [hvec]
      intro v hv f hf
      obtain rfl := List.mem_singleton.1 hv
      rcases hf with _ | ⟨_, _ | ⟨_, hf⟩⟩
      · exact .known ((answers_solve P treeNames S).unpin _ |>.2 trivial)
      · exact .rule _ (fun _ h => h) (.assumed rfl)
      · cases hf
    · cases hf

end PinProject

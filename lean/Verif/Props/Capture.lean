import Verif.Props.Headers
import Verif.Spec.Capture
/-!
# Names captured by the anonymous scope: C50
-/
namespace PinProject
open Spec

/-- **C50** The names defined in the anonymous scope are `_pin_project` and the names made up by
pin-project. -/
theorem C50_scope_names (item : Item) (E : Expansion) (h : parseDerive item = .ok E) :
    ∃ A ident, parseArgs (itemAttrs item) = .ok A ∧ itemName item = some ident ∧
      (scopeNames E).Perm ("_pin_project" :: madeUp A item (noRaw ident)) := by
  obtain ⟨A, ident, h1, h2, h3⟩ := C44_generated_names item E h
  refine ⟨A, ident, h1, h2, List.Perm.cons _ ?_⟩
  obtain ⟨A', h4, h5⟩ := C17_exposed_names item E h
  obtain rfl := Except.ok.inj (h1.symm.trans h4)
  have h6 : E.exposed.filterMap generatedName = userNames A := by
    have key : ∀ (l : List GItem) (ns : List String), l.map (fun i => (asTypeDef i).map (·.name)) = ns.map some →
        l.filterMap generatedName = ns := by
      intro l
      induction l with
      | nil => intro ns hn; cases ns with
        | nil => rfl
        | cons a l => cases hn
      | cons i l ih =>
        intro ns hn
        cases ns with
        | nil => cases hn
        | cons a ns =>
          simp only [List.map_cons, List.cons.injEq] at hn
          have : generatedName i = some a := by
            cases i <;> first | exact hn.1 | (exfalso; simp [asTypeDef] at hn)
          rw [List.filterMap_cons, this, ih ns hn.2]
    exact key _ _ h5
  rw [generatedNames, allItems, List.filterMap_append, h6] at h3
  exact (List.perm_append_left_iff _).1 h3

/-- **C50** If no type, bound or predicate of the definition refers to a name defined in the anonymous
scope, then what C25 says holds with the types the user meant: an instance is `Unpin` exactly when the types
of its `#[pin]` fields, as seen from the place of the definition (`outer`), are. -/
theorem C50_not_captured (item : Item) (E : Expansion) (h : parseDerive item = .ok E) (hsc : WellScoped item)
    (A : Args) (hA : parseArgs (itemAttrs item) = .ok A) (hm : A.unpinImpl = .default)
    (ident : String) (hid : itemName item = some ident) (hok : NamesOk ident A)
    (P : Program) (hP : Hosts ident E P) (outer inner : Names) (hN : inner.Lawful)
    (hs : SameScope (scopeNames E) outer inner)
    (hfree : ∀ n, Copied item n → ∀ x ∈ scopeNames E, ¬ StartsAt n x)
    (F : Facts) (hF : P.Solves inner F) (args : List TArg) (hi : IsInstance item outer args) :
    F.unpin (.adt ident args) ↔
      ∀ f ∈ itemFields item, Pinned f → F.unpin (outer.den (instSubst item args) (resolved item f.ty)) := by
  rw [C25_default_unpin item E h hsc A hA hm ident hid hok P hP inner hN F hF args ?_]
  · constructor <;> intro h1 f hf hp <;> have := h1 f hf hp
    · rwa [hs.den _ _ (hfree _ (.field hf))] at this
    · rwa [hs.den _ _ (hfree _ (.field hf))]
  · refine ⟨hi.arity, ?_, ?_⟩
    · intro p hp b hb
      exact (hs.bound _ _ _ (hfree _ (.bound hp hb))).2 (hi.bounds p hp b hb)
    · intro n hn
      exact (hs.pred _ _ (hfree _ (.pred hn))).2 (hi.preds n hn)

/-- `struct G<'a, T: Tr, U> where U: Copy { #[pin] x: T, y: U }` refers to no such name. -/
example (E : Expansion) (h : parseDerive (.struct_ (demoGeneric [])) = .ok E) :
    (∀ n, Copied (.struct_ (demoGeneric [])) n → ∀ x ∈ scopeNames E, ¬ StartsAt n x) ∧
    SameScope (scopeNames E) demoNames demoNames := by
  refine ⟨?_, fun _ _ _ => rfl, fun _ _ _ => Iff.rfl, fun _ _ _ _ => Iff.rfl⟩
  have hx : ∀ x ∈ scopeNames E, noRaw x ∉ ["T", "U", "Tr"] := by
    obtain ⟨A, ident, h1, h2, h3⟩ := C50_scope_names _ _ h
    obtain rfl := Option.some.inj h2
    obtain rfl : ({} : Args) = A := Except.ok.inj h1
    intro x hx
    rw [h3.mem_iff] at hx
    revert x
    decide
  have key : ∀ s ∈ ["T", "U", "Tr"], ∀ n, n = Node.tyIdent s ∨ n = Node.path (.mk false [.mk s .none]) →
      ∀ x ∈ scopeNames E, ¬ StartsAt n x := by
    rintro s hs n hn x hxm ⟨m, hw, hm⟩
    have hns : noRaw s = s := (by decide : ∀ s ∈ ["T", "U", "Tr"], noRaw s = s) s hs
    have he : ∀ p, p = Path.mk false [Seg.mk s .none] → ∀ i a rest, p = .mk false (.mk i a :: rest) → noRaw i = noRaw x →
        False := by
      intro p hp i a rest hpe hi
      subst hp
      obtain ⟨h1, -⟩ := List.cons.inj (Path.mk.inj hpe).2
      obtain ⟨rfl, -⟩ := Seg.mk.inj h1
      apply hx x hxm
      rw [← hi, hns]
      exact hs
    rcases hn with rfl | rfl
    · obtain rfl := within_leaf rfl hw
      rcases hm with ⟨p, i, a, rest, hp, hpe, hi⟩ | ⟨p, toks, hp | hp, -⟩
      · rcases hp with hp | ⟨toks, hp | hp⟩
        · exact he p (Option.some.inj hp).symm i a rest hpe hi
        · cases hp
        · cases hp
      · cases hp
      · cases hp
    · obtain rfl := within_leaf rfl hw
      rcases hm with ⟨p, i, a, rest, hp, hpe, hi⟩ | ⟨p, toks, hp | hp, -⟩
      · rcases hp with hp | ⟨toks, hp | hp⟩
        · exact he p (Option.some.inj hp).symm i a rest hpe hi
        · cases hp
        · cases hp
      · cases hp
      · cases hp
  intro n hn
  cases hn with
  | field hf =>
    simp [itemFields, demoGeneric, Fields.list] at hf
    rcases hf with rfl | rfl
    · exact key "T" (by simp) _ (.inl rfl)
    · exact key "U" (by simp) _ (.inl rfl)
  | bound hp hb =>
    simp [itemParams, itemGenerics, demoGeneric, resolvedParam] at hp
    rcases hp with rfl | rfl | rfl
    · cases hb
    · simp [GParam.boundsOf] at hb
      subst hb
      exact key "Tr" (by simp) _ (.inr rfl)
    · simp [GParam.boundsOf] at hb
  | pred hp =>
    have : n = .other "U: Copy" [] := by
      simpa [itemPreds, itemGenerics, demoGeneric, resolvedPred, resolved, Node.visit, visitNodes] using hp
    subst this
    rintro x - ⟨m, hw, hm⟩
    obtain rfl := within_leaf rfl hw
    rcases hm with ⟨p, i, a, rest, hp | ⟨toks, hp | hp⟩, -⟩ | ⟨p, toks, hp | hp, -⟩ <;> cases hp

/-! ## The greatest solution of trait resolution -/

/-- The greatest solution: the one rustc computes for the auto trait `Unpin`. -/
def Program.greatest (P : Program) (N : Names) : Facts where
  unpin t := ∃ G : Facts, (∀ t, G.unpin t → P.unpinStep N G t) ∧ (∀ t, G.unsafeUnpin t → P.unsafeUnpinStep N G t) ∧ G.unpin t
  unsafeUnpin t := ∃ G : Facts, (∀ t, G.unpin t → P.unpinStep N G t) ∧ (∀ t, G.unsafeUnpin t → P.unsafeUnpinStep N G t) ∧
    G.unsafeUnpin t

theorem Facts.le.unsafeUnpinStep {F G : Facts} (h : F.le G) {P : Program} {N : Names} {t : Ty}
    (hF : P.unsafeUnpinStep N F t) : P.unsafeUnpinStep N G t := by
  cases t with
  | ext n as => exact h.2 _ hF
  | adt n as => exact h.implements hF
  | _ => exact hF

theorem Program.le_greatest {P : Program} {N : Names} {G : Facts} (h1 : ∀ t, G.unpin t → P.unpinStep N G t)
    (h2 : ∀ t, G.unsafeUnpin t → P.unsafeUnpinStep N G t) : G.le (P.greatest N) :=
  ⟨fun _ ht => ⟨G, h1, h2, ht⟩, fun _ ht => ⟨G, h1, h2, ht⟩⟩

theorem Program.greatest_solves (P : Program) (N : Names) : P.Solves N (P.greatest N) := by
  have h1 : ∀ t, (P.greatest N).unpin t → P.unpinStep N (P.greatest N) t := by
    rintro t ⟨G, g1, g2, ht⟩
    exact (Program.le_greatest g1 g2).unpinStep (g1 t ht)
  have h2 : ∀ t, (P.greatest N).unsafeUnpin t → P.unsafeUnpinStep N (P.greatest N) t := by
    rintro t ⟨G, g1, g2, ht⟩
    exact (Program.le_greatest g1 g2).unsafeUnpinStep (g2 t ht)
  let G : Facts := ⟨P.unpinStep N (P.greatest N), P.unsafeUnpinStep N (P.greatest N)⟩
  have hle : (P.greatest N).le G := ⟨h1, h2⟩
  have hg := Program.le_greatest (P := P) (N := N) (G := G) (fun t ht => hle.unpinStep ht) (fun t ht => hle.unsafeUnpinStep ht)
  exact ⟨fun t => ⟨h1 t, hg.1 t⟩, fun t => ⟨h2 t, hg.2 t⟩⟩

/-- It is above every solution. -/
theorem Program.greatest_le {P : Program} {N : Names} {F : Facts} (hF : P.Solves N F) : F.le (P.greatest N) :=
  Program.le_greatest (fun t => (hF.unpin t).1) (fun t => (hF.unsafeUnpin t).1)

/-! ## A captured name -/

/-- `#[pin_project(project = P, project_ref = R, project_replace)] struct S { #[pin] f: __SProjectionOwned }` -/
def captureItem : Item := .struct_ {
  attrs := [pinPrivateAttr [.ident "project", .punct '=' false, .ident "P", .punct ',' false,
    .ident "project_ref", .punct '=' false, .ident "R", .punct ',' false, .ident "project_replace"]]
  vis := .inherited
  ident := "S"
  generics := {}
  fields := .named [{ attrs := [⟨.path { segs := ["pin"] }⟩], ident := some "f", ty := .tyIdent "__SProjectionOwned" }] }

def captureArgs : Args := { project := some "P", projectRef := some "R", projectReplace := .unnamed }

/-- What `__SProjectionOwned` means outside and inside the anonymous scope. -/
def captureNames (n : String) : Names where
  den _ t := match t with
    | .tyPath .none (.mk false [.mk s .none]) => if s = "__SProjectionOwned" then .adt n [] else .ext 0 []
    | _ => .ext 0 []
  pred _ _ := True
  bound _ _ _ := True

/-- `struct __SProjectionOwned(PhantomPinned);` in the module of the user. -/
def captureUser : GItem :=
  .struct_ [] .inherited "user::__SProjectionOwned" [] [] ⟨some .paren, [⟨.inherited, none, .phantomPinned⟩]⟩

theorem captureNames_lawful (n : String) : (captureNames n).Lawful :=
  ⟨fun _ _ _ _ _ _ => rfl, fun _ _ _ _ _ _ => Iff.rfl, fun _ _ _ _ _ _ _ => Iff.rfl⟩

theorem capture_same {names : List String} (h : "__SProjectionOwned" ∈ names) (a b : String) :
    SameScope names (captureNames a) (captureNames b) := by
  refine ⟨?_, fun _ _ _ => Iff.rfl, fun _ _ _ _ => Iff.rfl⟩
  intro σ n hn
  unfold captureNames
  dsimp only
  split
  · rename_i s
    rw [if_neg, if_neg] <;>
    · rintro rfl
      exact hn _ h ⟨_, .here _, .inl ⟨_, _, _, _, .inl rfl, rfl, rfl⟩⟩
  · rfl

theorem capture_scoped : WellScoped captureItem := by
  refine ⟨⟨[], [], rfl, nofun, nofun⟩, .nil, nofun, nofun, ?_, ?_⟩
  · intro n hn l _ hm
    exfalso
    revert hm
    cases hn with
    | field hf =>
      simp [itemFields, captureItem, Fields.list] at hf
      subst hf
      exact mentions_leaf rfl (by intro l; exact nofun) (by intro l; exact nofun) (by intro p t; exact ⟨nofun, nofun⟩) l
    | bound hp hb => cases hp
    | pred hp => cases hp
  · intro ident hid
    obtain rfl := Option.some.inj hid
    change ':' ∉ "S".toList ∧ '#' ∉ (noRaw "S").toList
    decide

theorem capture_namesOk : NamesOk "S" captureArgs := by
  constructor <;> decide

def captureE : Expansion := match parseDerive captureItem with
  | .ok E => E
  | .error _ => default

theorem captureE_ok : parseDerive captureItem = .ok captureE := rfl

/-- The runtime crate, the definition above, and the expansion. -/
def captureP : Program := ⟨runtimeItems ++ ([captureUser] ++ (allItems captureE ++ [])), []⟩

theorem capture_defs :
    captureP.defOf "__SProjectionOwned" = some ⟨.inherited, "__SProjectionOwned", [], [], [(none, ⟨some .brace,
      [⟨.inherited, some "f", .phantomData .abs (.user (.tyIdent "__SProjectionOwned"))⟩]⟩)]⟩ ∧
    captureP.defOf "user::__SProjectionOwned" = some ⟨.inherited, "user::__SProjectionOwned", [], [],
      [(none, ⟨some .paren, [⟨.inherited, none, .phantomPinned⟩]⟩)]⟩ := ⟨rfl, rfl⟩

theorem capture_noImpl : ¬ captureP.HasImpl .unpin "__SProjectionOwned" ∧
    ¬ captureP.HasImpl .unpin "user::__SProjectionOwned" := by
  constructor
  all_goals
    rintro (h | ⟨u, hu, -⟩)
    · exact h rfl
    · cases hu

theorem capture_hosts : Hosts "S" captureE captureP := by
  refine ⟨⟨[captureUser], [], rfl, ?_, ?_⟩, nofun⟩
  · intro n hn
    refine ⟨rfl, rfl, ?_⟩
    intro d hd he
    exfalso
    have hd' : d.name = "user::__SProjectionOwned" := by
      have : typeDefs [captureUser] = [⟨.inherited, "user::__SProjectionOwned", [], [],
        [(none, ⟨some .paren, [⟨.inherited, none, .phantomPinned⟩]⟩)]⟩] := rfl
      rw [this, List.mem_singleton] at hd
      rw [hd]
    rw [← he, hd'] at hn
    revert hn
    decide
  · simp [Unrelated, implsOf, typeDefs]

/-- **C50** fails for captured names. Here is a program in which, for the solution of trait resolution
that rustc computes, `S` is `Unpin` although its `#[pin]` field has a type that is not: in the helper
struct, the type of the field is resolved to the generated type of the same name. -/
theorem C50_captured : ∃ (item : Item) (E : Expansion) (A : Args) (ident : String) (P : Program) (outer inner : Names)
    (F : Facts), parseDerive item = .ok E ∧ WellScoped item ∧ parseArgs (itemAttrs item) = .ok A ∧
      A.unpinImpl = .default ∧ itemName item = some ident ∧ NamesOk ident A ∧ Hosts ident E P ∧
      outer.Lawful ∧ inner.Lawful ∧ SameScope (scopeNames E) outer inner ∧
      P.Solves inner F ∧ (∀ G, P.Solves inner G → G.le F) ∧ IsInstance item outer [] ∧
      F.unpin (.adt ident []) ∧
      ∃ f ∈ itemFields item, Pinned f ∧ ¬ F.unpin (outer.den (instSubst item []) (resolved item f.ty)) := by
  have hsolve := Program.greatest_solves captureP (captureNames "__SProjectionOwned")
  have hnames : "__SProjectionOwned" ∈ scopeNames captureE := by
    obtain ⟨A, ident, h1, h2, h3⟩ := C50_scope_names _ _ captureE_ok
    obtain rfl := Option.some.inj h2
    obtain rfl : captureArgs = A := Except.ok.inj h1
    rw [h3.mem_iff]
    decide
  have hinst : ∀ n, IsInstance captureItem (captureNames n) [] := fun n => ⟨rfl, nofun, nofun⟩
  refine ⟨captureItem, captureE, captureArgs, "S", captureP, captureNames "user::__SProjectionOwned",
    captureNames "__SProjectionOwned", _, captureE_ok, capture_scoped, rfl, rfl, rfl, capture_namesOk, capture_hosts,
    captureNames_lawful _, captureNames_lawful _, capture_same hnames _ _, hsolve, fun G hG => Program.greatest_le hG,
    hinst _, ?_, _, List.mem_cons_self .., rfl, ?_⟩
  · rw [C25_default_unpin captureItem captureE captureE_ok capture_scoped captureArgs rfl rfl "S" rfl capture_namesOk _
      capture_hosts _ (captureNames_lawful _) _ hsolve [] (hinst _)]
    intro f hf _
    simp [itemFields, captureItem, Fields.list] at hf
    subst hf
    let T : Ty := .adt "__SProjectionOwned" []
    let G : Facts := ⟨fun t => t = T ∨ t = .phantomData T, fun _ => False⟩
    refine (Program.le_greatest (G := G) ?_ nofun).1 T (.inl rfl)
    rintro t (rfl | rfl)
    · refine .inr ⟨capture_noImpl.1, ?_⟩
      rw [capture_defs.1]
      intro v hv f hf
      obtain rfl := List.mem_singleton.1 hv
      obtain rfl := List.mem_singleton.1 hf
      exact .inr rfl
    · exact .inl rfl
  · intro hu
    rcases (hsolve.unpin (.adt "user::__SProjectionOwned" [])).1 hu with ⟨h, -⟩ | ⟨-, h⟩
    · exact capture_noImpl.2 h
    · rw [capture_defs.2] at h
      exact (hsolve.unpin _).1 (h _ (List.mem_singleton.2 rfl) _ (List.mem_singleton.2 rfl))

end PinProject

# Formal model of pin-project in Lean 4

## What is modelled

pin-project is a procedural macro (`pin-project-internal`) plus a tiny runtime
(`src/lib.rs::__private`).  The model has four layers.

1. **Macro layer** (`Verif/Model/*`): every function of the macro that decides
   something, as a total Lean function over abstract syntax.
   Input: attributes, generics, visibility, fields, variants, token trees.
   Output: an abstract syntax of the *generated Rust code* (`Gen.lean`), not a verdict.
   Panics of the macro (`unwrap`, `unreachable!`) are explicit error values.
2. **Execution layer** (`Verif/Sem/Eval.lean`): an interpreter for the generated Rust
   fragment: places, references, `Pin`, `ptr::read`, guards, scopes, drop order,
   unwinding, double-panic abort. Running the generated bodies gives the behaviour
   of `project`, `project_ref`, `project_replace` and `Drop::drop`.
3. **Trait layer** (`Verif/Sem/Traits.lean`): meaning of the generated impls
   (`Unpin`, `UnsafeUnpin`, `Drop`, `PinnedDrop`, `MustNotImplDrop`), and coherence.
4. **Client layer** (`Verif/Sem/Client.lean`): a state machine of safe client operations
   whose powers come from the generated code of layer 1 and the Unpin rule of layer 3.

`Verif/Spec/*` holds the independent specifications; `Verif/Props/*` holds the
property theorems, one file per area, apart from helper lemmas. Specifications do not use
the model's functions; what they share with the model is the abstract syntax (input items,
token trees, generated items) and a handful of functions of the standard library and `syn`
named under *Trusted base*. The one exception is `resolved` (a type of the definition with
`Self` resolved), which is the visitor of the model; `C38_resolved` and `C38_untouched` say,
independently of it, what it computes.

`Verif/Test/*` are tests (`#guard`): the model's output is printed and compared
with the expansion snapshots in `/repo/tests/expand`, and the errors it reports are compared with those
recorded for the annotated items of `/repo/tests/ui` and `/repo/tests/*.rs`. These are tests of the
model's fidelity and are not offered as proofs.

## Plan per property

| id | modelled | proof |
|----|----------|-------|
| C01-C04 | `Args::parse`, `parse_value`, `Context::new` name check over token lists | soundness and completeness against a declarative grammar; permutation invariance; corollaries |
| C05 | `parse_attribute`, `parse_args`, `Input::parse` | composition theorem over arbitrary attribute lists |
| C06 | `position_exact` | fold invariant, iff against a counting spec |
| C07 | `validate_struct`, `validate_enum`, `parse_derive` | iff theorems |
| C08, C09 | `ensure_not_packed`, Meta list parser | induction on the token list; alignment model |
| C10-C14 | `visit_fields`, `visit_variants`, `parse_struct`, `parse_enum`, `make_proj_impl` + interpreter | induction on fields / variants |
| C15, C43 | `determine_visibility`, visitor on visibilities | case analysis; negation witness for `pub(self)` |
| C16, C17 | `make_proj_impl`, `GenerateTokens` | case analysis over kinds and arguments |
| C18, C19 | `determine_lifetime_name`, `insert_lifetime*` | well-founded search, freshness |
| C20-C23 | `proj_own_body`, guards, unwinding | induction over fields in the interpreter, arbitrary panic oracle |
| C24 | operation histories over the interpreter | invariant by induction on the history (permutation of identities) |
| C25-C29 | `make_unpin_impl` + trait layer | iff for every solution of trait resolution |
| C30-C32 | `make_drop_impl` + trait layer + interpreter | coherence model; induction over fields |
| C33-C36 | `pinned_drop.rs` | iff against a declarative spec; structural induction on syntax trees |
| C37, C38 | `ReplaceReceiver` | structural induction over nested token trees / syntax trees |
| C39, C40 | client machine | invariant by induction over histories |
| C54 | client machine | each step moves identities between roots and pending operations; counted, by induction over histories |
| C60 | client machine; the trace says when lives end and (a destructor that swaps its own value away) begin again (`Spec/Ownership`) | invariant: the memory of a dead value is overwritten or freed before anything pending uses it, except that its own destructor may run |
| C61 | client machine | invariant: a living value is destroyed before its memory is overwritten or freed; counting as for C54 |
| C62 | auto traits as any solution of the usual rules over the generated definitions (`Spec/AutoTraits`) | unfold the definition of the projected type; field types of the three modes; greatest solutions exist |
| C63 | all types of generated items with the parameters in scope (`Spec/TypeSyntax`) | case analysis over all generated items; no arguments only if there are no parameters |
| C64 | grammar of types, parametric in the set of types with a `+` | case analysis over all generated items |
| C65 | the program made of the runtime crate, all expansions and all user impls (`Spec.programOf`), with the overlap check of `Sem/Traits` | reach of every generated impl (`reach_in`), pairwise; sub-programs for the converse; the assumptions of `Universe` one by one |
| C66 | the order of expansion in rustc: attribute macro, then `#[cfg]` / `#[cfg_attr]`, then derive macro (`Spec/Cfg`), for an arbitrary parser and arbitrary predicates | by C05: the attribute macro keeps attributes and body; evaluation of `cfg` commutes with the attributes it adds |
| C67 | the language's rules for the variance of references, `Pin` and `PhantomData` (`Spec/Variance`); the variance of a type written by the user is arbitrary, and bounded only by the parameters it uses | the field types of the projections (C10, C11, C14) and freshness of the lifetime (C18, C53) |
| C68 | the private-in-public check (`Spec/Privacy`): fields, bounds and signatures may only mention what is visible wherever they are; where the user's types are visible is arbitrary | the shape of the generated types (C10, C11, C53) and their visibilities (C15); the hypotheses are that the annotated definition passes and that its visibilities name enclosing modules (E0742), not as `self` (C43) |
| C69 | what the compiler answers (`Spec/Recursion`): cycles of `Unpin` goals are accepted, cycles through `UnsafeUnpin` are not (greatest fixed point inside a least one); these answers are a solution in the sense of C25 to C27 | coinduction up to derivability; one step of resolution for the annotated type and for the helper struct, from C25 |
| C70 | a relation between inputs and messages (`Spec/Errors`), written from the texts of the messages: one case per message | inversion of the parsers and checks; for the argument list induction on the arguments before the fault. The texts that `syn` (not pin-project) produces are those of the model, only their occasion is checked |
| C71 | the token-level parsers once more, over tokens with invisible groups (`Model/Groups`), and the visible tokens (`Spec/Groups`) | each parser returns what the parser for visible tokens returns, and the rest of the tokens corresponds; induction on fuel for the loops |
| C41, C42, C44 | name generation | string lemmas; negation witnesses for the exceptions |
| C45 | paths in generated types | induction over generated items: absolute outside of the anonymous scope |
| C46 | `determine_lifetime_name` and binders in field types | exact condition; witness |
| C47 | `unwrap`, `unreachable!`, `expect` as error values | exact condition for the derive macro; composition with the attribute macro |
| C48, C49 | headers of the generated impls, signatures | case analysis over kinds and arguments |
| C50 | names of the anonymous scope; trait layer with two name environments | equality of denotations; greatest solution of trait resolution as a counterexample |
| C51 | all uses of attributes | commutation of the macro with removal of attributes |
| C52 | all generated functions; typing rules with moves, unsafe, scopes and predicates (Spec/Typing) | derivations by induction on the fields; inversion for the exceptions |
| C53 | all generated types and impls (Spec/WellFormed); which parameters the user's types use is arbitrary | case analysis over all generated items; the new lifetime is fresh; names of helper fields are distinct |
| C55 | all generated types and functions (Spec/Sized); which user types are `Sized` is arbitrary | case analysis over all generated items; exact conditions for the exceptions |
| C56, C57 | where-clauses and references in all generated types and impls (Spec/Bounds) | case analysis over all generated items; `Self: 'pin` gives what the references need |
| C58 | all generated functions, run under the Stacked Borrows and the Tree Borrows rules for one arbitrary byte (`Sem/Borrow`, `Sem/StackedMiri`, `Sem/TreeBorrows`) | symbolic execution under rules stricter than all of them (`chain`), and simulations that lift every run of every function to the real rules (`Props/BorrowLift`, `BorrowStacked`, `BorrowMiri`, `BorrowTree`): a pointer is *ready* if using it removes nothing; making pointers to other fields keeps it ready; the overwrite guard's pointer stays below everything else; a simulation, for every function of the generated language, shows that this machine and that of C10–C32 call the same number of destructors, end in the same way and return the same value (`Props/Erasure`) |
| C72 | programs: any sequence of calls of generated methods, uses, reborrows and ends of references, calls of the program's own functions with references as parameters, that the borrow checker allows (`Spec/BorrowHistory`), on the machine of C58 | invariant: the references form chains that each aliasing model allows to be used (`Props/BorrowHistory`); an operation on one reference is the run of C58 that starts with nothing but this reference, with a frame below it and beside it (`Props/BorrowFrame`); the models allow several chains of shared references side by side (`Props/BorrowShares`); as long as nothing is written it does not matter which shared references are protected (`Props/BorrowCalm`) |
| C73 | the attributes of all generated tokens (`Model/Emit`), against own lists of lints (`Spec/Lints`) | induction over the templates (the same traversal as C75); case analysis over the items for the lints of the projected types |
| C74 | the tokens of all templates (`Model/Emit`), and a scanner that keeps track of the path it reads (`Spec/Tokens`) | each template is a Hoare triple of the scanner; composition over all items |
| C75 | the spans of all tokens of templates (`Model/Emit`); syntax contexts are an arbitrary function of spans (`Spec/Spans`) | traversal of all templates: in one function local variables have one span; for `project_replace` both spans are found |
| C76 | the tokens of the expansion (`Model/Emit`), against a grammar of items, statements, expressions, patterns and types (`Spec/Grammar`) over arbitrary sets of user types, bounds, predicates and defaults | one lemma per template: what it prints is derivable in the grammar; then all items of all expansions; `#[pinned_drop]`: the same, with statements and attributes of the user (`Props/GrammarDrop`) |
| C77 | the tokens of the expansion (`Model/Emit`), a reader of Rust (`Spec/Reader`: a recursive-descent parser with fuel for items, statements, expressions, patterns) and relations that tell which tree means which generated term (`Spec/Meaning`) | for each template: the reader gives a tree in the relation, whatever follows that cannot continue it; user pieces are delimited by balanced brackets and stop tokens; uniqueness by inversion of the relations (`Props/Reader`). For `#[pinned_drop]` the whole text is specified (`Spec/DropText`) and the printed impl is rewritten to it (`Props/DropText`) |
| C78 | the tokens of the expansion with their spans (`Model/Emit`), the words of a definition (`Spec/Provenance`) | resolving `Self` adds no words but those of the type itself; for each template: its tokens are words from the context or have the span given; the context of an accepted definition (`Props/Provenance`) |
| C79 | programs of C72 that also write through shared references (`Spec/Cells`), on the machine of C58, under Miri's Stacked Borrows and Tree Borrows with any treatment of mutable references and the treatment of interior mutability for shared ones | invariant: the chain of C72 for mutable references, and a group of pointers above it that all can write (`Props/CellsFrame`, `Props/CellsRules`: a group of `SharedReadWrite` items, or nodes that differ from the first only by `Cell` nodes); `project_ref` only adds to the group (`projectRef_w`); steps with mutable references are those of C72 |
| C80 | the functions that can fail once more, with the places of their errors (`Model/Locate`): arguments as tokens with arbitrary spans, other pieces of the input by position; a relation between inputs, messages and places (`Spec/Locate`): `Spec/Errors` with places | forgetting the places gives the functions of the other files (`Props/LocateErase`); invariant of the argument loop: the spans held are those of the arguments seen (`Props/LocateArgs`); inversion of the checks as in C70 (`Props/Locate`) |
| C81 | the typing rules of C52 with constants in scope: a name in a pattern is a variable, a constant of the type of the field, or an error; a name without a variable is a constant (`Spec/Typing`, `Spec/Constants`) | the derivations of C52 if all names are free; otherwise inversion: at its use the constant would be a reference to its own type (`Props/Constants`) |
| C82 | the method calls of generated functions; a model of Rust's method lookup: autoderef steps, by value before `&` before `&mut`, inherent before traits, ambiguity (`Spec/Lookup`) | each call is by name and type of `self` one that `Pin` has at the first step; induction on nothing but the shape of bodies (`Props/Lookup`) |
| C83 | the fields of the generated types and the generated `Drop` impls; the rules of drop glue and of the drop check over arbitrary answers for the user's types (`Spec/DropCheck`) | `hasDrop_iff`: the generated `Drop` impls are exactly the one for the annotated type, with `PinnedDrop`; case analysis of the field types of each projection (`Props/DropCheck`) |
| C84 | the generated methods with the types of their `self`; the method lookup of C82 (`Spec/Lookup`) | induction on the list of candidate types: at each, the generated methods add nothing unless the type is the `Pin` in question; there they are found among the inherent methods, before traits (`Props/Calls`) |
| C85 | the generated `project` and `project_ref` on the machine of C58, with memory that records the accesses to a byte; threads and interleavings of their accesses (`Spec/Races`); the steps of calls that take turns, on the aliasing models of C58 (`Spec/Interleave`) | simulation by the strict machine of C58 in which all pointers are shared references, so that only reads are recorded; references to different fields do not share a byte (`Props/Races`). Interleaved calls: an invariant that keeps, for every call, its own chain of shared references related to the common state, with the names each call uses translated to the global ones (`Props/Interleave`) |
| C86 | the expansion, with `#[doc(hidden)]` on impls; what rustdoc shows (`Spec/Docs`) | case analysis on `expansion_shape`; visibilities as in C15 (`Props/Docs`) |
| C87 | two accepted items with the same definition (`Spec/Independence`): which generated items and methods agree | both expansions in closed form, side by side; the configuration about a topic is determined by the arguments about it (`Props/Independence`) |
| C88 | all checks of rustc that are specified for single properties, put together (`Spec/Compiles`); left out: overlapping impls (C54, C65), private types in public interfaces (C68), and names in scope at the attribute that get in the way (C63, C81, C82) | the type definitions of an expansion are listed exactly; each check holds or fails by its own property; the converse shows that each exception is one (`Props/Compiles`) |
| C89 | the tokens of C74 (`Model/Emit`) and a reader of keywords and braces (`Spec/UnsafeCode`) that notes for each token of the user whether it is in an unsafe context; the user's own pieces are taken to be balanced, as `syn` guarantees | all tokens of templates either mean nothing to the reader or come in pairs; bodies of functions contain only names of the user (with C78's conditions on bodies); for `#[pinned_drop]` the tokens found are computed exactly (`Props/UnsafeCode`) |
| C90 | the whole derive stage (`Model/Derive`); renaming of definitions and of generated terms (`Spec/Rename`) | naturality: each function of the derive stage commutes with renaming, by induction over the fields and over the variants, errors included (`Props/Rename`) |
| C91 | the same, with a replacement of the types of fields (`Spec/Retype`) that commutes with the substitution of `Self` | in the same way (`Props/Retype`); with the constant replacement `u8` it says that acceptance does not depend on types |
| C92 | the derive stage; the generated traits, impls and helper struct as a filter on the expansion (`Spec/Support`) | from the closed form of the expansion: these items are a function of the header, the arguments and the pinned types (`Props/Support`) |
| C93 | the derive stage; renaming of types in the arguments and in the generated code (`Spec/Choose`) | both expansions in closed form: a relation between the two contexts, naturality of each part; acceptance from C07 (`Props/Choose`) |
| C94 | the derive stage for the enum and for the struct with the fields of a variant (`Spec/VariantStruct`) | both expansions in closed form, with the same arguments (`Props/VariantStruct`) |
| C95 | the derive stage on two definitions that differ in the name (`Spec/OwnName`) | a definition without `Self` is left alone by the rewriting; then each generated item commutes with the renaming (`Props/OwnName`) |
| C96 | the derive stage on two enums that differ in their variants (`Spec/OtherVariants`) | both expansions in closed form: arms and projected variants are maps over the variants (`Props/OtherVariants`) |
| C97 | chains of calls of generated methods, run by the interpreter, on values inside values (`Spec/Nested`) | induction on the chain, from C10 and C11; places of different fields are different (`Props/Nested`) |
| C98 | drop glue for trees of annotated types (`Sem/DestroyDeep`), with the generated `Drop` impl run by the interpreter; the calls expected are written down from the arguments only (`Spec/DestroyDeep`) | mutual induction on the tree, from the lemma of C32 on the generated impl; calls are at different paths, and paths have different places (`Props/DestroyDeep`) |
| C99 | `visit_token_stream` and `respan` on tokens with spans of an arbitrary type (`Model/ReceiverSpans`) | inductive specification with spans; induction on the tokens; erasing the spans gives C37 (`Props/ReceiverSpans`) |
| C100 | a chain as in C97, then the generated `project_replace`, run by the interpreter | from C97 and C20; whether a chain can be followed depends on the values on the way only (`Props/NestedReplace`) |
| C101 | `ReplaceReceiver` on syntax trees whose names carry spans of an arbitrary type (`Model/TreeSpans`) | mutual induction on the tree, with C99 for macro calls; erasing the spans gives `Node.visit` (`Props/TreeSpans`) |
| C102 | trait resolution (C25, C26), for types nested through `#[pin]` fields; the types reached and the ends are inductive relations (`Spec/NestedUnpin`) | induction on the chain, and on the tree of `#[pin]` fields, with C25 at each step (`Props/NestedUnpin`) |
| C59 | trait impls of the expansion and of `#[pinned_drop]`, against the declarations of the traits (`Spec/Conform`) | case analysis on `expansion_shape`; `attribute_cases` |

## What is modelled, file by file

| file | modelled | not modelled |
|------|----------|--------------|
| `pin-project-internal/src/lib.rs` | the three entry points (485-487, 534-537, 575-577): `Model/Entry`, `Model/PinnedDrop` | documentation |
| `.../pin_project/mod.rs`, `error.rs` | `attribute`, `derive`: errors become `compile_error!`; panics are kept apart; texts of messages (C70) and where they are shown (C80) | |
| `.../pin_project/args.rs` | everything, with the texts of messages (C70) and where they are shown (C80) | |
| `.../pin_project/attribute.rs` | everything, over token trees: attribute parsing, visibility, the look-ahead for `struct`/`enum`, the emitted attributes | the body after the keyword is an opaque token list; its printing and re-parsing by rustc is assumed faithful |
| `.../pin_project/derive.rs` | everything: context, validation, `visit_fields`, `visit_variants`, `make_unpin_impl`, `make_drop_impl`, `make_proj_impl`, `ensure_not_packed`, `GenerateTokens`; the tokens of the templates with their spans (`Model/Emit`) | spans of the user's tokens (arbitrary), doc comments |
| `.../pinned_drop.rs` | everything: validation, expansion, dummy impl after an error; the tokens of the template (`Model/Emit`) | the name of `...`; values in attributes of the receiver (`#[a = self]`) are not rewritten |
| `.../utils.rs` | everything: visitors, lifetimes, visibility, `position_exact` | `respan` is modelled for the tokens of macro calls (C99); in syntax trees (C101) it is an arbitrary function from spans to types; `ParseBufferExt` is inlined |
| `src/lib.rs` | `__private`: `Wrapper`, `PinnedFieldsOf`, `UnsafeUnpin`, `AlwaysUnpin` (`Sem/Traits`), `UnsafeDropInPlaceGuard`, `UnsafeOverwriteGuard` (`Sem/Eval`), `PinnedDrop` | re-exports |
| `tests/`, `examples/`, `tools/` | the snapshots in `tests/expand` are used to test the model (`Test/Snapshots`), and so are the errors recorded in `tests/ui` and the items of the run-pass tests (`Test/Ui`, `Test/UiPlaces`); some run-pass tests are run on the model (`Test/Run`) | the rest |

Reading the code as data starts at `syn`'s syntax trees for items (struct, enum, impl) and at token trees
for macro arguments, attributes and the input of the attribute macro. The parsers of `syn` for items are
not modelled: `parseDerive` takes a parsed item.

## Simplifications

* Identifiers are strings; `r#x` is the string `"r#x"`, and where rustc identifies it with `x` the
  specifications use `noRaw`. Hygiene of local variables is C75;
  elsewhere names are compared as strings, since generated identifiers have call-site spans where they can meet names of the user.
* None-delimited groups (the result of interpolation by `macro_rules!`) are modelled for the token-level parsers in
  `Model/Groups` (C71); everywhere else tokens are the visible ones. A `Type::Group` is `Node.other "group"`.
* Syntax that pin-project does not look into (expressions, patterns, statements, types other than paths)
  is `Node.other` with its children, which are visited as by `syn`'s default visitor.
* The visitor of the model does not visit the receiver type it has just inserted; it is
  proved (`Node.visit_free`) that this makes no difference for receiver types not mentioning `self` or `Self`.
* Attribute paths are not visited (only `self` could change).
* A name-value argument in `#[repr(..)]` is all tokens up to the comma, instead of one expression.
* The values of field types are identities; their destructors are calls with an arbitrary
  outcome (an oracle over the whole past decides whether they panic).
* The generated code is executed by a small interpreter (`Sem/Eval`): moves, drop scopes, order of drops,
  unwinding and double panics follow the Rust reference. References are locations; `Pin` is kept in the value.
* Aliasing (`Sem/Borrow`, C58): Stacked Borrows and Tree Borrows, followed for one arbitrary byte of the value, since
  bytes are independent. Protectors only for `self` of the generated function. Stacked Borrows in two versions: a simple one
  where raw pointers are as strict as mutable references, and the rules of Miri (`Sem/StackedMiri`), with an arbitrary choice of
  the references that are exempt because the type is not `Unpin` or has interior mutability. No two-phase borrows. Tree Borrows: making a reference always
  reads the byte; protectors count from the beginning; how each new reference to a type that may be `!Unpin` or have interior
  mutability is treated is arbitrary. In C58 the caller's uses of the returned references are accesses.
* Programs (C72): for the followed byte, the references a program may still use are a list in which each was made from the next,
  and any number of shared ones made from the first or from one another; this is what the borrow checker allows if all uses of a
  reference are between the uses of the one it was made from. Calls of destructors and `project_replace` have no other effect on
  the references. For a function the user has written, only its parameters that are references to something with the byte in it matter; of these it has one mutable one or any number of shared ones, each is made, protected and released like the parameter of a generated function.
* Places of errors (C80): the errors of `syn` about the form of an attribute of the item (`#[repr(..)]`, a `#[pin..]` attribute), of a `#[pin..]` attribute of a field and of a visibility are shown at a token inside of it; which token is not modelled. A position is that of the tokens the macro is given; what rustc shows for tokens that come from other macros is not modelled.
* Values inside values (C97, C98, C100): the value in a field is at a place of its own, given by an arbitrary function of the place and the field; for the part about different chains it is injective and never gives the place of the whole value.
* Spans of rewritten code (C99, C101): a group has one span; that parsing and printing a type again keeps its tokens and their spans is assumed. That the parameter `__self` has the span of `self` is pinned_drop.rs:199, and enters the statement about hygiene as such.
* Constants (C81): equality of types and the set of types with a single value are parameters with a few laws. Constants called `__self_ptr`, `__guard`, `__result` or `__replacement` (the names of the other variables of generated functions) are excluded. That a pattern may not fail is required of the type of the constant, without looking at the other arms, as each variant has one arm. Functions and local variables of the same name are simply shadowed and need no rule.
* Method lookup (C82, C84): methods that are not visible, deprecated-edition special cases and unsizing are left out; two applicable trait methods count as ambiguous. That the lookup of the compiler is as in `Spec/Lookup` is assumed.
* Threads (C85): the threads are not synchronised with one another, so that any two accesses of different threads, one of them a write, are a data race. Making a mutable reference counts as a write and making a shared one as a read. Fields with interior mutability, whose own methods synchronise, are left out. When the steps of calls are interleaved under the aliasing rules, which of the pointers made so far are protected at a moment is left open: the theorem holds for every choice.
* Drop check (C83): `#[may_dangle]` and types of the user are covered by the arbitrary answers in `DropFacts`. That borrows of values without drop glue end with their last use (non-lexical lifetimes) is a rule of the compiler and assumed.
* Interior mutability (C79): all shared references to the byte are treated as having it, as they point to something with the byte in it. The simple version of Stacked Borrows has no interior mutability and is left out. At the beginning there is a mutable reference. What keeps `RefCell` or `Mutex` from giving out two mutable references at the same time is not modelled; what they give out is used as the reference it comes from.
* Trait resolution (`Sem/Traits`) is the set of its solutions, over ground types. Where the property holds of
  every solution, it is stated so. `Unpin` is an auto trait: without an explicit impl it holds if it holds of
  all fields. Foreign types, user bounds and predicates have arbitrary meanings (`Names`), except that an
  unused lifetime parameter does not matter (`Names.Lawful`). What the compiler answers for cyclic goals (C69) is the
  greatest solution for auto traits inside the least one for others; it is one of these solutions.
* `Universe` and C25-C31 use one meaning of names, the one inside the anonymous scope; C50 relates it to the
  meaning the user sees.
* The overlap check (`Sem/Traits`, C28-C31) is the coherence rule of rustc for the traits involved: two
  impls of a trait conflict if some type might match both; what the check may assume to be false is
  limited by `Negative`, a parameter.
* The client machine (`Sem/Client`, C39, C40, C54, C60, C61) runs safe user code in any number of threads, with re-entrant
  destructors. Roots are owned values or pinned handles (`Pin<Box<_>>`, `pin!`), values are trees; types other
  than annotated and structural ones are opaque and follow the contract of `std::pin`. Threads interleave at any
  point; two pending operations are kept in order only if they concern overlapping memory. Reference counts are
  not tracked: an `Rc` or `Arc` permits less than an owned root. Not modelled: weak memory effects (safe code has no
  data races), `mem::forget` of a borrowed local.

## Findings

Properties of the code that differ from what a user would expect. Each one is proved with a witness.

* C30: the check that the user does not implement `Drop` does not see types that are never `Sized`, because its
  blanket impl is for sized types only (`C30_unsized`). Safe code cannot make values of such a type.
* C55: in the default mode, a type with a lifetime parameter and a pinned last field that is not `Sized` does not
  compile: the helper struct has fields for the lifetimes after the pinned ones.
* C33: `#[pinned_drop]` accepts `impl !PinnedDrop`, `default impl`, `pub fn drop`, `async fn drop`, `fn drop<U>` and `fn drop(.., ...)`, which rustc
  refuses afterwards (`C33_not_only_documented`).
* C35: when the impl is for a type `<T as Trait>::Assoc`, `Self {}` in the method becomes `Trait::Assoc {}`, without
  the `<T as ..>` (`C35_qself_lost`); a variable `__self` of the user catches the uses of `self` (`C35_capture`).
* C36: a macro call in item position makes `#[pinned_drop]` panic instead of reporting an error, and so does `default fn drop`, which
  `parse_quote!` cannot read as a statement (`C36_panics`).
* C38: `Self` is kept in nested items and in macro calls with `fn` (`C38_kept`). Inline format arguments
  (`"{self}"`) are literals, so they are not rewritten either; rustc then reports an error.
* C42: fields called `__result` or `__guard` break `project_replace` (compile error; `C42_counterexample`).
* C43: `pub(self)` becomes `pub(__self)` (compile error; `C43_counterexample`).
* C44: a projection can be given the name of another generated type, or the name of the type as a raw
  identifier (compile error; `C44_counterexample`, `C44_raw_counterexample`).
* C46: `for<'pin>` inside a field type (compile error; `C46_counterexample`).
* C47: `#[derive(__PinProjectInternalDerive)]` by hand with `#[pin()]` panics in `unwrap`.
* C50: a pinned field whose type is called `__<Type>ProjectionOwned` (or like another default name) is
  resolved to the generated type inside the anonymous scope. The struct is then `Unpin` although the field is
  not: safe code can move a pinned `!Unpin` value (`C50_captured`). The names start with two
  underscores, so no one will meet this by accident.
* C71: `#[pinned_drop] impl PinnedDrop for $t` in a `macro_rules!` macro is rejected if `$t` was matched as a type
  (`C71_pinned_drop`); `$t:ident` is accepted.
* C77: as C76; and the user's types, bounds, defaults and predicates are texts with balanced brackets (`Reader.delimited`), which is what a type of Rust is; a tuple field's type does not begin like the rest of a visibility. Types, bounds and predicates inside generated types are compared as texts, not as trees. The pieces of a user's impl (types, statements, attributes' arguments) are printed by `Emit.node` and `Emit.tts` on both sides, which stand for syn's own printing.
* C78: fields are named or not as the kind of struct says, and where-predicates are the user's (`ItemWF`, both are facts about `syn`). Which words of a definition are left out, and where, is C77.
* C76: not for definitions with `pub(self)`, whose expansion has the ungrammatical `pub(__self)` (`C76_pub_self`; C43).
* C75: with `#[pin_project(project_replace = $name)]`-like macros that pass the word `project_replace` itself as a metavariable, `self` in
  the generated method does not resolve (compile error; `C75_replace`).
* A type parameter called like a generated type is shadowed in the same way, but this is always a compile
  error (C63).
* Inside a macro call in a type, `Self(..)` and `Self { .. }` of a generic type become `S<T>(..)`, which lacks the `::` an
  expression needs. This is a compile error, not another meaning.

## Trusted base

* Lean's kernel (4.33.0). The project imports no Mathlib module that is not needed; no axiom is
  added; no `sorry`, `admit`, `native_decide`, `bv_decide`, `implemented_by` or `unsafe`.
* Axioms: every theorem depends on at most `propext`, `Classical.choice` and `Quot.sound`. In detail
  (from `#print axioms`):
  * `propext, Quot.sound`: `C05_duplicated`, `C05_only_carried`, `C36_never_silent`, `C37_rewrites`, `C37_none_left`, `C37_untouched`, `C37_idempotent`, `C37_macro`, `C71_pinned_drop`, `C99_rewrites`, `C99_fn`
  * `propext`: `C47_attribute_never_panics`, `C59_runtime`, `C71_args`, `C97_distinct`, `C98_called`, `C98_leaves`, `C98_flat`
  * `propext`, `Classical.choice`, `Quot.sound`: all other theorems in `MANIFEST.json`.
* That the definitions under `Model` agree with the code. Every definition cites the lines it models. The
  snapshot tests in `Test/Snapshots` compare the printed output of the model with all files of `tests/expand`,
  `Test/Ui` compares its errors with those recorded in `tests/ui` (93 errors, and 203 items that must be accepted),
  `Test/UiPlaces` compares the positions of these errors (92 positions),
  `Test/Run` runs programs from `tests/drop_order.rs`, `tests/pin_project.rs` and `tests/pinned_drop.rs` on the model,
  and `seeded/LOG.jsonl` lists edits to the model and the theorems that fail for them.
* That the definitions under `Sem` agree with Rust (see *Simplifications*).
* That the specifications say what they should. They use these functions of the model, which stand for
  functions of `syn` and `std`: `isIdentWord`, `isModWord`, `keywords` (identifiers), `SPath.isIdent`
  (`Path::is_ident`), `startsWith` (`str::starts_with`), and the accessors of the syntax.
* The Rust compiler, `syn`, `quote` and `proc-macro2`.

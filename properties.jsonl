{"id": "C01", "title": "Argument grammar is exact", "statement": "`#[pin_project(ARGS)]` accepts ARGS if and only if ARGS is a comma separated list (optional trailing comma) of the documented arguments `PinnedDrop`, `UnsafeUnpin`, `!Unpin`, `project = N`, `project_ref = N`, `project_replace`, `project_replace = N`, each kind used at most once, with the exclusion and naming rules respected; the configuration obtained is exactly the one written.", "quantifier": "every token sequence given as macro arguments", "why_tests_cant": "The set of token sequences is infinite; the UI tests list about forty of them and no test can show that no other malformed list slips through.", "anchors": ["pin-project-internal/src/pin_project/args.rs: impl Parse for Args, parse_value"]}
{"id": "C02", "title": "Argument order is irrelevant", "statement": "Reordering the arguments of an accepted `#[pin_project(...)]` never changes whether it is accepted nor the resulting configuration.", "quantifier": "every argument list and every permutation of it", "why_tests_cant": "Needs all permutations of all argument lists.", "anchors": ["pin-project-internal/src/pin_project/args.rs: impl Parse for Args"]}
{"id": "C03", "title": "Mutually exclusive arguments are never accepted together", "statement": "No invocation that is accepted has both `PinnedDrop` and `project_replace`, or both `UnsafeUnpin` and `!Unpin`, in whatever position and with whatever other arguments.", "quantifier": "every token sequence given as macro arguments", "why_tests_cant": "A negative statement over an infinite input space; soundness of project_replace depends on it.", "anchors": ["pin-project-internal/src/pin_project/args.rs: impl Parse for Args (185-208)"]}
{"id": "C04", "title": "User chosen projection type names never clash", "statement": "If a definition is accepted, the names given for `project`, `project_ref` and `project_replace` are pairwise distinct and all different from the name of the annotated type.", "quantifier": "every argument list and every annotated definition", "why_tests_cant": "Quantifies over all names and all combinations.", "anchors": ["pin-project-internal/src/pin_project/args.rs: impl Parse for Args (168-183)", "pin-project-internal/src/pin_project/derive.rs: Context::new (204-210)"]}
{"id": "C05", "title": "Arguments reach the derive stage unchanged", "statement": "The two-stage expansion is transparent: the configuration used to generate code is exactly what parsing the tokens written in `#[pin_project(...)]` gives, whatever other attributes surround the item; and if another macro removes the carried attribute or adds a second one, expansion fails instead of using different arguments.", "quantifier": "every argument token sequence, every list of other attributes on the item", "why_tests_cant": "Quantifies over all attribute lists and all argument tokens.", "anchors": ["pin-project-internal/src/pin_project/attribute.rs: parse_attribute, Input::parse", "pin-project-internal/src/pin_project/args.rs: parse_args"]}
{"id": "C06", "title": "A field is pinned exactly when it carries one plain `#[pin]`", "statement": "A field is structurally pinned iff its attributes contain exactly one attribute with path `pin` and that attribute has no arguments; two `#[pin]`, or `#[pin(...)]`/`#[pin = ...]`, are rejected; every other attribute is irrelevant.", "quantifier": "every attribute list of a field", "why_tests_cant": "All attribute lists of any length and order.", "anchors": ["pin-project-internal/src/utils.rs: SliceExt::position_exact", "pin-project-internal/src/pin_project/derive.rs: visit_fields"]}
{"id": "C07", "title": "Only meaningful items are accepted", "statement": "An accepted item is a struct with at least one field, or an enum with at least one variant, no explicit discriminant, no `#[pin]` on a variant, and at least one field in some variant; anything else is rejected, and these are the only shape reasons for rejection.", "quantifier": "every item (any number of variants, fields, attributes)", "why_tests_cant": "All item shapes.", "anchors": ["pin-project-internal/src/pin_project/derive.rs: validate_struct, validate_enum, parse_derive", "pin-project-internal/src/pin_project/attribute.rs: Input::parse"]}
{"id": "C08", "title": "repr(packed) is always rejected", "statement": "A struct or enum with `packed` in any `#[repr(...)]` attribute (plain, `packed(N)`, name-value; any position; any number of repr attributes) never produces projection code.", "quantifier": "every attribute list, every repr argument list", "why_tests_cant": "An accepted packed struct makes every projection undefined behaviour; the absence over all attribute spellings cannot be tested.", "anchors": ["pin-project-internal/src/pin_project/derive.rs: ensure_not_packed"]}
{"id": "C09", "title": "Hidden packing is caught by the generated field borrows", "statement": "For a struct the expansion contains a checked borrow of every field, so if the compiler lays the struct out with packing N although no repr(packed) was visible to the macro, compilation is refused unless every field is aligned anyway; hence every reference handed out by a projection is aligned.", "quantifier": "every struct, every packing, every assignment of alignments to fields", "why_tests_cant": "All structs and layouts.", "anchors": ["pin-project-internal/src/pin_project/derive.rs: ensure_not_packed (1119-1142)"]}
{"id": "C10", "title": "project() returns the right kind of reference to the right field", "statement": "Calling `project` on a pinned mutable reference to a value returns, for every field, a reference to exactly that field's own storage: `Pin<&mut F>` for `#[pin]` fields, plain `&mut F` for the others, under the same field name / position; it changes no memory and runs no destructor.", "quantifier": "every accepted definition, every value of the type, every active variant", "why_tests_cant": "Definitions have unboundedly many fields and variants.", "anchors": ["pin-project-internal/src/pin_project/derive.rs: visit_fields, parse_struct, parse_enum, make_proj_impl"]}
{"id": "C11", "title": "project_ref() returns the right kind of shared reference to the right field", "statement": "Calling `project_ref` returns `Pin<&F>` for `#[pin]` fields and `&F` for the others, to exactly that field's storage and under the same name; it never yields a mutable reference.", "quantifier": "every accepted definition, every value of the type, every active variant", "why_tests_cant": "Definitions have unboundedly many fields and variants.", "anchors": ["pin-project-internal/src/pin_project/derive.rs: visit_fields, parse_struct, parse_enum, make_proj_impl"]}
{"id": "C12", "title": "The projection of an enum mirrors the active variant", "statement": "For an enum the projected value is the projection variant of the same name as the active variant, and exactly one match arm applies to every possible value.", "quantifier": "every accepted enum, every value", "why_tests_cant": "Unbounded number of variants.", "anchors": ["pin-project-internal/src/pin_project/derive.rs: visit_variants, parse_enum"]}
{"id": "C13", "title": "Field references of one projection never alias", "statement": "The references inside one projected value point to pairwise disjoint fields.", "quantifier": "every accepted definition, every value, every pair of fields", "why_tests_cant": "All pairs of fields of all definitions.", "anchors": ["pin-project-internal/src/pin_project/derive.rs: visit_fields"]}
{"id": "C14", "title": "Projection types mirror the definition", "statement": "The generated projection types have the same variants and the same fields as the annotated type: same names, order and field visibility, with field type `Pin<&'pin mut F>`/`&'pin mut F` (project), `Pin<&'pin F>`/`&'pin F` (project_ref), `PhantomData<F>`/`F` (project_replace); and the value the methods return fits the declared type. (Field visibilities `pub(self)` are the exception named in C43.)", "quantifier": "every accepted definition", "why_tests_cant": "All definitions.", "anchors": ["pin-project-internal/src/pin_project/derive.rs: visit_fields, visit_variants, parse_struct, parse_enum"]}
{"id": "C15", "title": "Projection visibility is never wider than pub(crate)", "statement": "Projection types and methods have the visibility of the annotated type except that `pub` becomes `pub(crate)`; and field visibilities are unchanged. (The one exception is `pub(self)`, see C43.)", "quantifier": "every visibility, every accepted definition", "why_tests_cant": "All visibilities and definitions.", "anchors": ["pin-project-internal/src/utils.rs: determine_visibility", "pin-project-internal/src/pin_project/derive.rs: Context::new, make_proj_impl"]}
{"id": "C16", "title": "Which methods exist", "statement": "On a struct `project` and `project_ref` always exist and `project_replace` exists iff requested; on an enum each method exists iff its projection type was named; an enum with an unnamed `project_replace` is rejected.", "quantifier": "every argument list and every accepted definition", "why_tests_cant": "All combinations with all definitions.", "anchors": ["pin-project-internal/src/pin_project/derive.rs: make_proj_impl, parse_enum"]}
{"id": "C17", "title": "Unnamed projection types cannot be named by the user", "statement": "A projection type is placed outside the anonymous const scope iff the user named it; everything else generated lives inside the anonymous scope, so no other generated item is reachable from user code by name.", "quantifier": "every accepted definition", "why_tests_cant": "All definitions.", "anchors": ["pin-project-internal/src/pin_project/derive.rs: GenerateTokens::extend, GenerateTokens::into_tokens, parse_struct, parse_enum"]}
{"id": "C18", "title": "The projection lifetime is fresh and its search terminates", "statement": "The lifetime added to projection types differs from (indeed is not a prefix of) every lifetime parameter of the annotated type, including `for<'a>` binders inside bounds, and the search for it always terminates.", "quantifier": "every generics list", "why_tests_cant": "Termination and freshness over all lists of names.", "anchors": ["pin-project-internal/src/utils.rs: determine_lifetime_name"]}
{"id": "C19", "title": "Generics of projection types", "statement": "Projection types returned by `project`/`project_ref` take exactly the generic parameters of the annotated type preceded by one new lifetime, and keep all its where-clauses plus `Original<..>: 'pin`; the type returned by `project_replace` takes exactly the original generics.", "quantifier": "every generics list, every accepted definition", "why_tests_cant": "All generics.", "anchors": ["pin-project-internal/src/utils.rs: insert_lifetime, insert_lifetime_and_bound", "pin-project-internal/src/pin_project/derive.rs: Context::new, parse_struct, parse_enum"]}
{"id": "C20", "title": "project_replace moves out the unpinned fields and installs the replacement", "statement": "When no destructor panics, `project_replace(new)` returns a value of the same variant in which every unpinned field is the old field value, moved (its destructor has not run), and every pinned position is PhantomData; afterwards the place holds exactly `new`.", "quantifier": "every accepted definition whose field names are not those excluded by C42 with project_replace, every old value, every replacement (also of another variant)", "why_tests_cant": "All definitions, values and variants.", "anchors": ["pin-project-internal/src/pin_project/derive.rs: proj_own_body, make_proj_impl", "src/lib.rs: UnsafeOverwriteGuard, UnsafeDropInPlaceGuard"]}
{"id": "C21", "title": "project_replace drops the pinned fields in place, once, in declaration order", "statement": "`project_replace` runs the destructor of each old `#[pin]` field exactly once, in place (before the memory is overwritten), in declaration order, and of no other value.", "quantifier": "every accepted definition whose field names are not those excluded by C42, every old value, every replacement", "why_tests_cant": "All definitions, any number of pinned fields.", "anchors": ["pin-project-internal/src/pin_project/derive.rs: proj_own_body", "src/lib.rs: UnsafeDropInPlaceGuard"]}
{"id": "C22", "title": "project_replace is panic safe", "statement": "If the destructor of one pinned field panics, the remaining pinned fields are still dropped exactly once in declaration order, the already extracted unpinned fields are dropped exactly once, the place holds the replacement, and the panic propagates; a second panic aborts the process.", "quantifier": "every accepted definition whose field names are not those excluded by C42, value, replacement and every pattern of panicking destructors, including history dependent ones", "why_tests_cant": "Exponentially many panic patterns over unboundedly many fields.", "anchors": ["pin-project-internal/src/pin_project/derive.rs: proj_own_body, make_proj_impl", "src/lib.rs: UnsafeOverwriteGuard, UnsafeDropInPlaceGuard"]}
{"id": "C23", "title": "project_replace agrees with Pin::set", "statement": "`project_replace(new)` followed by dropping the returned value leaves the same memory as `Pin::set(new)` and destroys exactly the same values the same number of times.", "quantifier": "every accepted definition whose field names are not those excluded by C42, value and replacement", "why_tests_cant": "All definitions and values.", "anchors": ["pin-project-internal/src/pin_project/derive.rs: proj_own_body", "pin-project-internal/src/lib.rs: documentation of project_replace (399-421)"]}
{"id": "C24", "title": "No double drop and no leak across any history", "statement": "Over any sequence of allocations, `project_replace`, `Pin::set` and drops, with any panics, every value ever given to the system is at every point in exactly one of: stored in exactly one live place, handed back to the caller exactly once, or destroyed exactly once (unless the process aborted).", "quantifier": "every sequence of operations of any length, every panic pattern", "why_tests_cant": "Unbounded histories.", "anchors": ["pin-project-internal/src/pin_project/derive.rs: proj_own_body, make_drop_impl", "src/lib.rs: UnsafeOverwriteGuard, UnsafeDropInPlaceGuard"]}
{"id": "C25", "title": "Default Unpin rule", "statement": "Without `!Unpin`/`UnsafeUnpin`, an instantiation of the annotated type is Unpin iff the types of all its `#[pin]` fields (in all variants) are Unpin, its own where-clauses holding; unpinned fields and type parameters used only there are irrelevant.", "quantifier": "every accepted definition, every instantiation (every assignment of Unpin to types)", "why_tests_cant": "All definitions and instantiations.", "anchors": ["pin-project-internal/src/pin_project/derive.rs: make_unpin_impl (759-849)", "src/lib.rs: AlwaysUnpin, PinnedFieldsOf"]}
{"id": "C26", "title": "!Unpin means never Unpin", "statement": "With `!Unpin` no instantiation of the annotated type is Unpin; and with respect to Unpin this is the same as adding a `#[pin] PhantomPinned` field.", "quantifier": "every accepted definition, every instantiation", "why_tests_cant": "All definitions and instantiations.", "anchors": ["pin-project-internal/src/pin_project/derive.rs: make_unpin_impl (720-758)", "src/lib.rs: Wrapper"]}
{"id": "C27", "title": "UnsafeUnpin forwards to the user's unsafe impl", "statement": "With `UnsafeUnpin` an instantiation is Unpin iff the user's `unsafe impl UnsafeUnpin` covers it; in particular never, if there is no such impl.", "quantifier": "every accepted definition, every user impl, every instantiation", "why_tests_cant": "All definitions and instantiations.", "anchors": ["pin-project-internal/src/pin_project/derive.rs: make_unpin_impl (698-719)", "src/lib.rs: Wrapper, UnsafeUnpin"]}
{"id": "C28", "title": "A user written Unpin impl always conflicts", "statement": "Whatever the mode, the expansion contains exactly one Unpin impl and it applies to the fully generic annotated type, so any additional Unpin impl written by the user for that type is rejected by the coherence check.", "quantifier": "every accepted definition, every user impl", "why_tests_cant": "All definitions and impls.", "anchors": ["pin-project-internal/src/pin_project/derive.rs: make_unpin_impl", "src/lib.rs: Wrapper, PinnedFieldsOf"]}
{"id": "C29", "title": "UnsafeUnpin cannot be implemented unless opted in", "statement": "Without the `UnsafeUnpin` argument the expansion contains its own UnsafeUnpin impl for the annotated type, so a user impl is rejected; with the argument it contains none, so a user impl is allowed.", "quantifier": "every accepted definition", "why_tests_cant": "All definitions.", "anchors": ["pin-project-internal/src/pin_project/derive.rs: make_unpin_impl"]}
{"id": "C30", "title": "A user Drop impl is always rejected, and only then", "statement": "Without `PinnedDrop`, the expansion is coherent iff the user does not implement Drop for (a Sized instance of) the type; with `PinnedDrop` the expansion itself implements Drop, so a user Drop impl is a duplicate. The exception: a type that is never Sized, such as a struct whose last field is a slice, is not checked, because the check is a blanket impl with an implicit `T: Sized`.", "quantifier": "every accepted definition, every set of user impls", "why_tests_cant": "All definitions.", "anchors": ["pin-project-internal/src/pin_project/derive.rs: make_drop_impl"]}
{"id": "C31", "title": "PinnedDrop impl requires the argument, and the argument requires the impl", "statement": "Without the `PinnedDrop` argument the expansion contains a PinnedDrop impl so a `#[pinned_drop]` impl is rejected as a duplicate; with it there is none and the generated Drop requires one.", "quantifier": "every accepted definition", "why_tests_cant": "All definitions.", "anchors": ["pin-project-internal/src/pin_project/derive.rs: make_drop_impl"]}
{"id": "C32", "title": "pinned_drop runs exactly once, before the fields", "statement": "Each time a value of a `PinnedDrop` type is destroyed the user's drop code is called exactly once, with a pinned reference to that very value, before any field is dropped, and the fields are then dropped exactly once in declaration order even if the user's code or a field destructor panics.", "quantifier": "every accepted definition with PinnedDrop, every value, every panic pattern", "why_tests_cant": "All definitions, values and panic patterns.", "anchors": ["pin-project-internal/src/pin_project/derive.rs: make_drop_impl (864-885)"]}
{"id": "C33", "title": "pinned_drop accepts exactly the checked impl form", "statement": "`#[pinned_drop]` accepts an impl iff it has no arguments, no second `#[pinned_drop]`, is `impl PinnedDrop for <path type>` or `impl !PinnedDrop for <path type>`, is not unsafe, and has exactly one item: a safe method `drop`, not `default fn`, with the single receiver `[mut] self: [path::]Pin<&mut Self>` returning unit. In particular every impl of the documented form is accepted; `!`, `default impl`, a visibility, qualifiers (`async`, `const`, `extern`), generics and `...` of the method are not looked at and left to rustc.", "quantifier": "every impl block", "why_tests_cant": "All impl blocks; the UI tests sample about thirty.", "anchors": ["pin-project-internal/src/pinned_drop.rs: attribute, validate_impl, validate_sig"]}
{"id": "C34", "title": "pinned_drop expansion cannot be called from safe code", "statement": "After expansion the trait method is `unsafe fn drop`, its body only defines a private inner function holding the user's code and calls it once with `self`; the inner function is shadowed inside the user's code so the user's code cannot call it either.", "quantifier": "every accepted impl block", "why_tests_cant": "All impl blocks and bodies.", "anchors": ["pin-project-internal/src/pinned_drop.rs: expand_impl"]}
{"id": "C35", "title": "pinned_drop expansion leaves no stray self or Self", "statement": "In the user's drop code moved into the inner function, every `self` value becomes the inner parameter `__self` and every `Self` becomes the implementing type; everything else is left as is. The words are left exactly in nested items (which have their own) and in macro calls whose tokens contain `fn`. For an implementing type written `<T as Trait>::Assoc` this holds iff `Self` is not used as a constructor or struct path (there the `<T as ..>` is lost). `__self` is not reserved: a user variable of that name captures.", "quantifier": "every syntax tree of the drop body, any nesting depth", "why_tests_cant": "Unbounded syntax trees.", "anchors": ["pin-project-internal/src/utils.rs: ReplaceReceiver", "pin-project-internal/src/pinned_drop.rs: expand_impl"]}
{"id": "C36", "title": "Rejected pinned_drop never expands silently", "statement": "If `#[pinned_drop]` does not accept the impl, the output contains a compile error, with a dummy PinnedDrop impl for the same type and generics iff the self type is a path; the only exception is that the macro panics (which rustc reports as an error), exactly if the checks reach a macro call in item position or an item without a body before finding anything wrong, or if they find nothing wrong and the method is `default fn drop`.", "quantifier": "every impl block", "why_tests_cant": "All impl blocks.", "anchors": ["pin-project-internal/src/pinned_drop.rs: attribute"]}
{"id": "C37", "title": "Macro token rewriting is precise", "statement": "Rewriting of tokens inside a macro call leaves no `self` or `Self` identifier at any nesting depth, changes nothing else, keeps group structure, leaves streams with neither untouched, and is idempotent.", "quantifier": "every token stream, any nesting depth, every receiver type not itself mentioning self/Self", "why_tests_cant": "Unbounded nested token streams.", "anchors": ["pin-project-internal/src/utils.rs: ReplaceReceiver::visit_token_stream, contains_fn, prepend_underscore_to_self"]}
{"id": "C38", "title": "Self in field types is the annotated type", "statement": "In every field type, bound, default and where-clause copied into the generated code, `Self` is replaced by the annotated type applied to its own parameters and nothing else is changed, so the copy keeps its meaning. `Self` is left in a copy exactly if the original has it in a macro call whose tokens contain `fn`.", "quantifier": "every definition", "why_tests_cant": "All type expressions.", "anchors": ["pin-project-internal/src/utils.rs: ReplaceReceiver", "pin-project-internal/src/pin_project/derive.rs: parse_derive"]}
{"id": "C39", "title": "Pin guarantee for structurally pinned fields", "statement": "For any history of safe operations of any program that uses pin-projected types (building, moving, pinning, projecting at any depth, Pin::get_mut where the type is Unpin, Pin::new, swapping, assigning, Pin::set, project_replace, taking apart, dropping, leaking, and doing all this again inside destructors and in any number of threads), once a value that is not Unpin has been exposed through a pinned reference, it is at every later point still at the same location, or its life has ended there: its destructor has been called there, or project_replace of its own type has taken it apart there.", "quantifier": "every environment of type definitions, every nesting, every history of safe operations of any length, every interleaving of threads", "why_tests_cant": "This is the soundness claim of the crate; it ranges over all client programs.", "anchors": ["pin-project-internal/src/lib.rs: Safety section (84-156)", "pin-project-internal/src/pin_project/derive.rs: visit_fields, make_unpin_impl, proj_own_body"]}
{"id": "C40", "title": "Drop guarantee for structurally pinned fields", "statement": "In any such history no step overwrites, moves out of or deallocates the storage of a pinned value that is not Unpin, unless its life had ended before that step. The life of such a value ends in two ways only: its destructor is called in place, or project_replace is called on it, which is possible only if its type is annotated and has no Drop impl, neither a generated one nor one by the user. (A value that the type's own destructor puts into the place it is destroying does not get another call of that destructor; it counts as ended when it is put there.)", "quantifier": "every environment of type definitions, every history, every interleaving of threads", "why_tests_cant": "Ranges over all client programs and schedules.", "anchors": ["pin-project-internal/src/lib.rs: Safety section, item 3 (134-144)", "pin-project-internal/src/pin_project/derive.rs: proj_own_body"]}
{"id": "C41", "title": "Unique bindings in tuple definitions", "statement": "The names bound for the fields of tuple structs and tuple variants are pairwise distinct and never clash with the helper variables of the generated code, so every generated reference resolves to the intended field.", "quantifier": "every number of fields", "why_tests_cant": "All arities.", "anchors": ["pin-project-internal/src/pin_project/derive.rs: visit_fields (590)"]}
{"id": "C42", "title": "Generated names resolve as intended for named fields", "statement": "For named fields the generated code resolves every field reference to the intended field for every choice of field names. (False in the code for a `#[pin]` field called `__result`, and for some `__guard`, with project_replace: those expansions do not compile; proved with the exact exclusion.)", "quantifier": "every choice of field names", "why_tests_cant": "All names.", "anchors": ["pin-project-internal/src/pin_project/derive.rs: visit_fields, proj_own_body"]}
{"id": "C43", "title": "What happens to restricted visibilities", "statement": "Every visibility other than `pub` is copied verbatim to the methods and the projection types, with exactly one exception: `pub(self)` becomes `pub(__self)` (a defect: the expansion does not compile).", "quantifier": "every visibility", "why_tests_cant": "All visibilities.", "anchors": ["pin-project-internal/src/utils.rs: determine_visibility, ReplaceReceiver::visit_path_mut", "pin-project-internal/src/pin_project/derive.rs: parse_derive"]}
{"id": "C44", "title": "When the names at the generated scope are distinct", "statement": "The projection types, the Unpin helper struct and the drop-check trait generated for one definition have pairwise distinct names, distinct from the annotated type, exactly when the names the user wrote are distinct as identifiers (raw identifiers being their plain form) and none of them is one of the names made up in this expansion (such as `__FooProjectionRef` when project_ref is not named).", "quantifier": "every definition and argument list", "why_tests_cant": "All names.", "anchors": ["pin-project-internal/src/pin_project/derive.rs: Context::new, make_unpin_impl, make_drop_impl"]}
{"id": "C45", "title": "Exposed types use only absolute paths to the crate", "statement": "Projection types placed next to the annotated type refer to `Pin` and `PhantomData` only through the absolute path of the pin_project crate, never through the alias that exists only inside the anonymous const scope, so they resolve in the user's module.", "quantifier": "all accepted items, all user named projection types, all their fields", "why_tests_cant": "has to hold for every shape of field list and every combination of named types", "anchors": ["pin-project-internal/src/pin_project/derive.rs: visit_fields, parse_struct, parse_enum"]}
{"id": "C46", "title": "Lifetimes are not declared twice", "statement": "No type definition in the expansion declares a lifetime parameter again inside itself unless the user's definition does, with exactly one exception: a projection type does so when a field type contains `for<'a>` for the lifetime 'a chosen for the projection (a defect: pin-project looks for used names in the generics only).", "quantifier": "every accepted definition", "why_tests_cant": "All definitions and lifetime names.", "anchors": ["pin-project-internal/src/utils.rs: determine_lifetime_name", "pin-project-internal/src/pin_project/derive.rs: Context::new"]}
{"id": "C47", "title": "The macros do not panic", "statement": "`#[pin_project]` never panics, neither in the attribute nor in the derive macro it leaves behind, whatever other macros do to the item in between as long as they leave the attributes `pin` and `pin_project` alone. The derive macro itself panics exactly when the struct or enum has no `pin_project` attribute and a single attribute `pin`, which is `#[pin()]` or `#[pin(word)]`.", "quantifier": "every argument token stream, every annotated input and every item handed to the derive macro", "why_tests_cant": "All token streams and items.", "anchors": ["pin-project-internal/src/pin_project/mod.rs: attribute, derive", "pin-project-internal/src/pin_project/args.rs: parse_args", "pin-project-internal/src/pin_project/derive.rs: parse_derive"]}
{"id": "C48", "title": "Generated impls cover exactly the annotated type", "statement": "The expansion implements Unpin; UnsafeUnpin unless that was left to the user by the `UnsafeUnpin` argument; Drop if `PinnedDrop` was given, and otherwise a helper trait (which every type implementing Drop also implements) and PinnedDrop; and no other trait. Every impl is for the annotated type applied to its own parameters, with its own bounds and where-clause; only the impls of Unpin and UnsafeUnpin add anything: one lifetime not declared by the type, and one predicate. The impls of UnsafeUnpin are `unsafe`, the others are not.", "quantifier": "every accepted definition: all generics, where-clauses and arguments", "why_tests_cant": "All generics, where-clauses and argument combinations.", "anchors": ["pin-project-internal/src/pin_project/derive.rs: make_unpin_impl, make_drop_impl, make_proj_impl"]}
{"id": "C49", "title": "Method signatures", "statement": "`project` takes self: Pin<&'pin mut Self> and returns the named projection type, `project_ref` takes Pin<&'pin Self>, `project_replace` takes Pin<&mut Self> and a replacement Self and returns the owned projection type; all are safe functions and have no other parameters.", "quantifier": "every accepted definition and every method generated for it", "why_tests_cant": "All definitions and arguments.", "anchors": ["pin-project-internal/src/pin_project/derive.rs: make_proj_impl"]}
{"id": "C50", "title": "Generated names do not capture the user's types", "statement": "The names defined only inside the expansion's anonymous scope are exactly `_pin_project`, the default names of the projection types that the user did not name, the name of the helper struct for pinned fields and that of the helper trait for Drop (as far as these are generated). If no type, bound or predicate of the definition refers to one of these names, an instance is Unpin exactly when the types of its pinned fields, as the user meant them, are. Otherwise this can fail: a pinned field whose type the user named like a default projection type is resolved to the generated type by the Unpin impl, so that the struct is Unpin although its pinned field is not (a defect, for names starting with two underscores).", "quantifier": "every accepted definition and every pair of name environments", "why_tests_cant": "All names and definitions.", "anchors": ["pin-project-internal/src/pin_project/derive.rs: parse_derive, make_unpin_impl, Context::new"]}
{"id": "C51", "title": "Attributes of other macros do not matter", "statement": "Whether an item is accepted, and what is generated for it, does not depend on any attribute other than `#[pin]` (on the item, its variants and fields) and `#[pin_project]` and `#[repr(..)]` on the item: removing all other attributes gives the same result.", "quantifier": "every item with any attributes anywhere", "why_tests_cant": "All attribute lists in all positions.", "anchors": ["pin-project-internal/src/pin_project/derive.rs: parse_derive, ensure_not_packed, visit_fields, validate_enum", "pin-project-internal/src/utils.rs: SliceExt"]}
{"id": "C52", "title": "Generated functions type check", "statement": "Every function in the expansion obeys the typing rules of Rust: calls of unsafe functions are in unsafe code, every variable has the type its use needs and no value that is not Copy is used twice (in particular, no mutable reference to a field ends up in two places), patterns are irrefutable or matches exhaustive, a projection is built from exactly the fields of its variant with values of the declared types and lifetimes, all generic parameters and lifetimes are in scope, and the where-clauses of the projection types are known to hold. The only exception is project_replace for a type with a pinned field named `__result`, or a pinned field other than the last named `__guard`.", "quantifier": "every accepted definition and every generated function", "why_tests_cant": "All definitions: kinds of fields, variants, names, generics, where-clauses, arguments.", "anchors": ["pin-project-internal/src/pin_project/derive.rs: make_proj_impl, make_drop_impl, visit_fields, proj_own_body", "src/lib.rs: UnsafeDropInPlaceGuard, UnsafeOverwriteGuard"]}
{"id": "C53", "title": "Generated types and impls are well-formed", "statement": "If the annotated type is well-formed, so is every type and impl in the expansion: parameter names are distinct (the new lifetime included) with lifetimes first; every name in bounds, where-clauses, field types and impl arguments is declared; every lifetime and type parameter of a type is used in one of its fields; every type and constant parameter of an impl is determined by the type it is for; variant names and field names are distinct. So the macro never makes rustc report errors such as 'parameter is never used' or 'undeclared lifetime' about code the user did not write.", "quantifier": "every accepted definition with any generics, bounds, defaults, where-clauses and fields; every generated type and impl; every notion of which parameters the user's types use", "why_tests_cant": "All parameter lists, names (including names that look like generated ones), modes and combinations of pinned fields.", "anchors": ["pin-project-internal/src/pin_project/derive.rs: make_unpin_impl, make_proj_impl, make_drop_impl, proj_ty definitions in parse_struct and parse_enum, Context::new", "pin-project-internal/src/utils.rs: determine_lifetime_name, insert_lifetime", "src/lib.rs: AlwaysUnpin, Wrapper"]}
{"id": "C54", "title": "No value is ever in two places", "statement": "In any history of safe operations of any program that uses pin-projected types, in any number of threads and inside destructors, a value is never stored in two places at the same time: neither twice in memory, nor in memory and in transit (being assigned, handed back by project_replace, or dropped). In particular project_replace moves the unpinned fields out of the value it replaces and never copies them, also when a destructor panics.", "quantifier": "every environment of type definitions, every nesting of values, every history of safe operations of any length, every interleaving of threads, every place where a destructor panics", "why_tests_cant": "A duplicated value is a double free in some later step of some program; it ranges over all client programs and panic points.", "anchors": ["pin-project-internal/src/pin_project/derive.rs: proj_own_body, visit_fields", "src/lib.rs: __private::UnsafeOverwriteGuard, UnsafeDropInPlaceGuard"]}
{"id": "C55", "title": "Types of unknown size work, with two exceptions", "statement": "The macro accepts structs whose last field is not Sized: every generated type has an unsized field only as the last field of a struct, `project`, `project_ref` and the generated Drop impl never take, return or move anything that is not Sized. The exceptions are exact: `project_replace` compiles iff the type is Sized; and in the default mode the generated helper struct is ill-formed iff the type has a lifetime parameter and its last field is both pinned and not Sized.", "quantifier": "every accepted definition, every notion of which user types are Sized that is stable under adding parameters and predicates", "why_tests_cant": "All definitions; the tests of the project have no pinned unsized field in a type with a lifetime, which is the case that fails.", "anchors": ["pin-project-internal/src/pin_project/derive.rs: make_unpin_impl, proj_own_body, make_proj_impl", "src/lib.rs: __private::Wrapper, AlwaysUnpin", "tests/pin_project.rs: dst"]}
{"id": "C56", "title": "Generated bounds are never trivial", "statement": "Every where-predicate the macro adds to a type or an impl mentions a generic parameter of it (its own lifetime, if need be). So a type without generics that is not Unpin still compiles: the impl of Unpin is just not applicable. A predicate without parameters that does not hold would be a compile error.", "quantifier": "every accepted definition, generic or not, every Unpin mode, every notion of which parameters user types use", "why_tests_cant": "All definitions.", "anchors": ["pin-project-internal/src/pin_project/derive.rs: make_unpin_impl, proj_generics"]}
{"id": "C57", "title": "References in generated declarations are well-formed", "statement": "For every `&'a T` in a generated type it is known that everything in T outlives 'a; the where-clauses of the generated types hold wherever generated code mentions these types: in where-clauses of other types and impls and in the results of methods, where it is written down or implied by the receiver.", "quantifier": "every accepted well-formed definition, every notion of which parameters user types use", "why_tests_cant": "All definitions: any number of lifetimes and type parameters, in any field.", "anchors": ["pin-project-internal/src/pin_project/derive.rs: Context::new (where_clause.push), visit_fields, make_proj_impl"]}
{"id": "C58", "title": "Generated functions obey the aliasing rules", "statement": "project, project_ref, project_replace and the generated Drop::drop cause no undefined behaviour under the Stacked Borrows and the Tree Borrows rules, whichever destructors panic. The references in a projection can be used in any order and any number of times, the mutable ones for writing too; afterwards the caller can use its own reference, and call a method with it, again. These are the executions the other properties are about: the machine that checks the aliasing rules calls the same number of destructors, ends in the same way and returns the same value.", "quantifier": "every accepted definition and variant, both sets of aliasing rules, every byte of the value, every stack or tree of pointers to it in which the caller's reference is usable, every treatment of references to types that are not Unpin or have interior mutability, every sequence of uses, every outcome of destructors", "why_tests_cant": "Miri checks the executions of the tests. This is for all definitions, all orders of uses and all panicking destructors.", "anchors": ["pin-project-internal/src/pin_project/derive.rs: make_proj_impl, proj_own_body, make_drop_impl", "src/lib.rs: UnsafeDropInPlaceGuard, UnsafeOverwriteGuard"]}
{"id": "C59", "title": "Generated impls match the declarations of their traits", "statement": "Every generated trait impl is `unsafe` exactly if its trait is, and defines exactly the functions of the trait with the signatures the trait declares; so does every impl expanded by #[pinned_drop] that has the documented form. Exactly the impls that are not for the user to rely on (UnsafeUnpin, PinnedDrop, and Unpin for !Unpin types) are hidden from the documentation.", "quantifier": "every accepted definition with every combination of arguments; every accepted #[pinned_drop] impl", "why_tests_cant": "All definitions and argument combinations.", "anchors": ["pin-project-internal/src/pin_project/derive.rs: make_unpin_impl, make_drop_impl", "pin-project-internal/src/pinned_drop.rs: expand_impl", "src/lib.rs: UnsafeUnpin, __private::PinnedDrop, Wrapper, AlwaysUnpin"]}
{"id": "C60", "title": "No use and no drop after drop", "statement": "In a safe program, once the life of a value is over (its destructor was called, or project_replace took it apart), no reference to it or to anything that contains it can be had, its destructor is not called again, and it is not taken apart again. The only exception is the value's own destructor while it runs; for an annotated type this needs PinnedDrop, so there is no exception for annotated types without it.", "quantifier": "every safe program with any number of threads using any accepted definitions, every interleaving, every outcome of destructors, every value", "why_tests_cant": "It ranges over all programs, nested destructors and interleavings. The generated code uses ptr::read, ptr::write and drop_in_place, which rustc does not check.", "anchors": ["pin-project-internal/src/pin_project/derive.rs: proj_own_body, make_drop_impl", "src/lib.rs: UnsafeDropInPlaceGuard, UnsafeOverwriteGuard"]}
{"id": "C61", "title": "No value is lost", "statement": "In a safe program every value ever made is still in memory or on its way somewhere, or its destructor was called or project_replace took it apart, or the program gave it up itself (mem::forget, destructuring). When the life of a value is over but that of a part of it is not, the part is still going to be destroyed. When no drop or assignment is going on, no dead value is left in memory.", "quantifier": "every safe program with any number of threads using any accepted definitions, every interleaving, every outcome of destructors, every value", "why_tests_cant": "It ranges over all programs, nested destructors, panics and interleavings.", "anchors": ["pin-project-internal/src/pin_project/derive.rs: proj_own_body, make_drop_impl", "src/lib.rs: UnsafeDropInPlaceGuard, UnsafeOverwriteGuard"]}
{"id": "C62", "title": "Auto traits of the projections", "statement": "The projected types of project and project_ref implement an auto trait (Send, Sync, UnwindSafe, ...) exactly when (pinned or unpinned) references to all fields do; the result of project_replace exactly when all fields do, also the pinned fields, which it does not contain. So the result of project is Send or Sync exactly when all fields are, the result of project_ref is Send exactly when all fields are Sync; the results of project and project_ref are always Unpin.", "quantifier": "every accepted definition, every mode, every instance, every auto trait, every meaning of the user's types and every solution of trait resolution", "why_tests_cant": "All definitions, all instances of their generics and all implementations of auto traits by the user's types.", "anchors": ["pin-project-internal/src/pin_project/derive.rs: visit_fields, parse_struct, parse_enum"]}
{"id": "C63", "title": "A type parameter never silently takes the place of a type", "statement": "If a type parameter of the definition is called like the annotated type, a generated projected type or the helper struct, then no use of that type in generated code means the parameter instead: all such uses have arguments, so that rustc reports an error (E0109) and does not accept a different program.", "quantifier": "every accepted definition, every type in its expansion, every name of type parameters", "why_tests_cant": "All names and definitions.", "anchors": ["pin-project-internal/src/pin_project/derive.rs: make_proj_impl, make_unpin_impl, ensure_not_packed, Context::new"]}
{"id": "C64", "title": "Field types of any syntactic form", "statement": "All types in generated code follow the grammar of types, whatever the syntactic form of the field types: a field type with a + (such as dyn A + B) is put in parentheses below a reference.", "quantifier": "every accepted definition, every type in its expansion, every set of types with a +", "why_tests_cant": "All forms of types.", "anchors": ["pin-project-internal/src/pin_project/derive.rs: visit_fields", "tests/pin_project.rs: dyn_type"]}
{"id": "C65", "title": "Annotated types do not interfere with one another", "statement": "A program may contain any number of annotated types with different names. The generated impls of one never conflict with those of another, with the runtime crate, or with the user's impls for other types: the overlap check passes exactly when every impl of Unpin, UnsafeUnpin, Drop or PinnedDrop that the user wrote for an annotated type is one that the arguments of that type allow, and the user's own impls do not conflict. Every such program satisfies the assumptions of C39, C40, C54, C60 and C61 with all its annotated types at once.", "quantifier": "every list of accepted definitions with different names, every list of user-written impls for these and other types, every meaning of the user's types, every sound negative reasoning of the compiler", "why_tests_cant": "All programs: any number of types, with all combinations of arguments and impls.", "anchors": ["pin-project-internal/src/pin_project/derive.rs: make_unpin_impl, make_drop_impl", "src/lib.rs: __private"]}
{"id": "C66", "title": "Conditional compilation", "statement": "What #[pin_project] generates depends only on its arguments and on the item that is left after conditional compilation: fields and variants disabled by #[cfg] have no influence on acceptance, the projected types, the methods, the Unpin impl or the destructors, and a #[pin] that comes from #[cfg_attr] has the same effect as one written directly. An item that is disabled generates nothing.", "quantifier": "every item with any attributes, every evaluation of cfg predicates, every argument list", "why_tests_cant": "All items and all configurations; a test runs in one configuration.", "anchors": ["pin-project-internal/src/pin_project/attribute.rs: parse_attribute, Input::parse", "pin-project-internal/src/pin_project/derive.rs: parse_derive", "tests/cfg.rs"]}
{"id": "C67", "title": "Variance of the projections", "statement": "The types returned by project_ref and project_replace have, in every parameter of the annotated type, the variance of the annotated type: they are covariant or contravariant in it exactly when the annotated type is. The type returned by project is invariant in every parameter that occurs in a field, pinned or not. The types returned by project and project_ref are covariant, and not contravariant, in the lifetime of the borrow: a projection can be used where one with a shorter borrow is expected, never where a longer one is.", "quantifier": "every accepted and well-formed definition, every assignment of variances to the types the user wrote, every parameter, every method", "why_tests_cant": "Types and their variances are arbitrary; a compile-fail test shows one coercion of one type.", "anchors": ["pin-project-internal/src/pin_project/derive.rs: visit_fields, proj_own_body", "pin-project-internal/src/pin_project/derive.rs: Context::new"]}
{"id": "C68", "title": "No private type in a public interface", "statement": "A public type may have private fields of private types. If the annotated definition passes the compiler's check that no interface mentions a type less visible than itself, then so does everything that is generated: the bounds and fields of the projection types and of the helper struct, the bounds of every impl, and the signatures of the projection methods. In particular the helper struct is as visible as the annotated type, its fields are private, and a method never returns a type that is less visible than the method.", "quantifier": "every accepted definition with any visibilities of the type and its fields, every assignment of visibilities to the types and traits the user mentions, every module in which the definition can be", "why_tests_cant": "All combinations of visibilities of the type, its fields and the types they mention; a test shows that one of them compiles.", "anchors": ["pin-project-internal/src/pin_project/derive.rs: make_unpin_impl (comment on the private-in-public error)", "pin-project-internal/src/utils.rs: determine_visibility", "pin-project-internal/src/pin_project/derive.rs: make_drop_impl, make_proj_impl"]}
{"id": "C69", "title": "Recursive types", "statement": "Whether a recursive or mutually recursive annotated type is Unpin is decided the way the compiler decides it for ordinary types: it is Unpin if all pinned fields of all types in the cycle are, where each of these types may be assumed to be Unpin, also inside of other types such as Vec<Self>. The generated impls never send the question through an ordinary trait, where the compiler would reject the cycle.", "quantifier": "every set of instances of accepted definitions in one program, every meaning of the user's types, every answer for foreign types", "why_tests_cant": "All recursive types with any number of types in the cycle and any types around them.", "anchors": ["pin-project-internal/src/pin_project/derive.rs: make_unpin_impl", "src/lib.rs: __private::PinnedFieldsOf, AlwaysUnpin"]}
{"id": "C70", "title": "What an error message says is true", "statement": "When the attribute or the derive stage of #[pin_project], or #[pinned_drop], rejects its input with a message, the input really has the fault that the message claims: the argument called a duplicate has been given before, the name said to be already used has been used by the argument the message names, `expected X, found Y` is shown where the list ends with Y, the field reported for two #[pin] has two, the method said not to return the unit type does not return it, and so on for every message. For the argument list the message is about the first place where the list goes wrong: everything before it is a sequence of complete, different arguments.", "quantifier": "every argument list (any sequence of tokens), every item and every impl, every message", "why_tests_cant": "The messages are tested with one wrong input each; that a message is never shown for something else is a statement about all wrong inputs, including those with several faults at once.", "anchors": ["pin-project-internal/src/pin_project/args.rs: parse_args, Args::parse, parse_value", "pin-project-internal/src/pin_project/attribute.rs: Input::parse", "pin-project-internal/src/pin_project/derive.rs: Context::new, validate_struct, validate_enum, ensure_not_packed, parse_enum", "pin-project-internal/src/utils.rs: SliceExt::position_exact", "pin-project-internal/src/pinned_drop.rs: validate_impl, validate_sig"]}
{"id": "C71", "title": "Definitions written by macro_rules! macros", "statement": "The arguments of #[pin_project], the look-ahead at the definition it is applied to, and the search for packed in #[repr(..)] give the same result, with the same error messages, whether the tokens are written by hand or come in part from metavariables of a macro_rules! macro, which arrive in invisible groups. An empty $vis is accepted as no visibility. Exception: #[pinned_drop] impl PinnedDrop for $t is rejected if $t was matched as a type.", "quantifier": "every token stream with invisible groups nested in any way, none of them empty (in front of the definition they may be empty)", "why_tests_cant": "There is no bound on the nesting of groups, and any part of the input may be in one.", "anchors": ["pin-project-internal/src/pin_project/args.rs: Args::parse", "pin-project-internal/src/pin_project/attribute.rs: Input::parse", "pin-project-internal/src/pin_project/derive.rs: ensure_not_packed", "pin-project-internal/src/pinned_drop.rs: validate_impl"]}
{"id": "C72", "title": "Programs that use projections obey the aliasing rules", "statement": "A program has one usable reference to a value of an annotated type. It calls generated methods, uses the references they return, makes further references from them, calls generated methods of the types of fields with these, stops using some and returns to the ones they were made from, replaces values, runs destructors and catches their panics, calls functions of its own with references as parameters, which are protected until these return or unwind, any number of times and in any order that the borrow checker allows. Then nothing it does is undefined behaviour under Stacked Borrows or Tree Borrows; unless it is aborted by a destructor that panics during a panic, every reference that the function in progress still has can be used, mutable ones for writing, and when no function is in progress the one it had at the beginning is one of them. project gives a mutable reference, and project_ref a shared one, to the field that contains a byte, if there is one.", "quantifier": "every finite sequence of operations, every nesting depth of projections, every number of shared references, every nesting depth of function calls, every definition for each call, every byte, every choice of panicking destructors, every set of aliasing rules", "why_tests_cant": "Miri checks one execution of one program at a time; there is no bound on the length of programs or on the depth of nesting.", "anchors": ["pin-project-internal/src/pin_project/derive.rs: make_proj_impl, proj_own_body, make_drop_impl", "src/lib.rs: __private::UnsafeDropInPlaceGuard, __private::UnsafeOverwriteGuard"]}
{"id": "C73", "title": "Lints", "statement": "Generated code causes no warnings about how code is written: every generated item is under attributes that silence the lints about this, projected types also those about unused and undocumented code and those that the user's field types may trigger there, generated methods those about unused code. No other lints are silenced anywhere (never one about unsafe code), around the user's code in #[pinned_drop] only three, and in the function that takes references to fields of a struct, references to packed fields are forbidden.", "quantifier": "every struct, enum and impl that is accepted, every lint outside the list", "why_tests_cant": "The lint tests compile a number of examples with the lints of one compiler version; they cannot show that nothing else is silenced for some other definition.", "anchors": ["pin-project-internal/src/pin_project/derive.rs: global_allowed_lints, proj_allowed_lints, GenerateTokens::into_tokens, make_proj_impl, ensure_not_packed", "pin-project-internal/src/pinned_drop.rs: expand_impl"]}
{"id": "C74", "title": "Generated code depends on no names in scope", "statement": "Every word of generated code that is not taken from the user's definition is a keyword, a name that the generated code introduces itself, or part of a path that starts at the crate pin_project and leads to something this crate exports. Nothing is taken from the prelude or from what is in scope at the attribute, and no macro is called: it works with #![no_implicit_prelude] and with any shadowing of names.", "quantifier": "every struct, enum and impl that is accepted, every token of the expansion", "why_tests_cant": "A test can shadow only names that its author thinks of, for one definition.", "anchors": ["pin-project-internal/src/pin_project/derive.rs: all templates", "pin-project-internal/src/pinned_drop.rs: expand_impl", "src/lib.rs: __private"]}
{"id": "C75", "title": "Spans and hygiene", "statement": "Every `unsafe` of the expansion has the call-site span, so that #![forbid(unsafe_code)] of the user does not reject it. Wherever the tokens of the definition and of the attribute come from, the local variables of generated functions refer to their bindings. Exception: in project_replace, `self` and `__replacement` are bound with the span of the argument `project_replace` of the attribute and used with the call-site span, and resolve exactly if both spans have the same syntax context.", "quantifier": "every struct, enum and impl that is accepted, every assignment of syntax contexts to spans, every token", "why_tests_cant": "The tests use macros in a few fixed ways; the claim is about every origin of the tokens.", "anchors": ["pin-project-internal/src/pin_project/derive.rs: make_unpin_impl, make_drop_impl, make_proj_impl", "pin-project-internal/src/pinned_drop.rs: expand_impl"]}
{"id": "C76", "title": "Generated code is syntactically valid", "statement": "What the macro produces parses, whatever the definition: its tokens are a sequence of items of the grammar of Rust, and the pieces taken from the definition (types, bounds, predicates, defaults) stand only where pieces of their kind may stand. In particular `&` and `*` are never followed by a type with bounds, no default is left in the parameters of an impl or function, and no struct expression stands between `match` and `{`. What `#[pinned_drop]` produces parses too: an impl with one function, in which the user's statements, with `self` and `Self` resolved, stand in a function of their own; the qualifiers of the user's function stay in the order the grammar wants when `unsafe` is added. The impl that is added to an error parses too. Exception: `pub(self)` becomes `pub(__self)` (C43), which is no visibility.", "quantifier": "every struct and enum that is accepted by the derive, every impl that is accepted by `#[pinned_drop]`, every assignment of kinds to the user's pieces", "why_tests_cant": "The expansion tests parse a few fixed outputs; a bug in a template for one combination of arguments, generics and kinds of fields shows only for definitions that have this combination.", "anchors": ["pin-project-internal/src/pin_project/derive.rs: all templates", "pin-project-internal/src/utils.rs: determine_lifetime_name, determine_visibility", "pin-project-internal/src/pinned_drop.rs: expand_impl"]}
{"id": "C77", "title": "Generated code says what the generated terms say", "statement": "The tokens that the macro produces, read as Rust by a reader that knows nothing of the macro, are the generated items, functions and expressions that the other properties speak of: every parameter, where-predicate, field, visibility, attribute, `unsafe`, signature, statement, call and match arm is there, in its place, and nothing else is. There is one reading, and it determines the bodies of the functions. What `#[pinned_drop]` produces is, word for word, the user's impl with its attributes, generics and where clause, of the private trait, with an `unsafe fn drop` that only calls the function inside it; that function has the impl's generics, the attributes, qualifiers and result of the user's function, `__self` for `self`, and the user's statements with `self` and `Self` resolved. When it reports an error, the impl it adds has the user's generics without defaults, the user's type and where clause, and an empty `unsafe fn drop`.", "quantifier": "every struct and enum that is accepted by the derive and whose types, bounds and predicates have balanced brackets; every impl given to `#[pinned_drop]` whose functions have qualifiers in the order of the grammar", "why_tests_cant": "Expansion tests compare a few outputs with stored text. Nothing in them tells that the text means what was intended, nor that it does for the definitions that are not among them.", "anchors": ["pin-project-internal/src/pin_project/derive.rs: all templates, GenerateTokens::into_tokens", "pin-project-internal/src/utils.rs: determine_visibility", "pin-project-internal/src/pinned_drop.rs: attribute, expand_impl"]}
{"id": "C78", "title": "Tokens of the expansion come from the definition or carry the span of the macro", "statement": "Every token of the expansion that is attributed to the user (so that lints, hygiene and edition treat it as the user's code) is a word of the definition or of the arguments of the attribute, or a name made from the name of the type; nothing else that the macro writes claims to be the user's. Every other token carries the span of the macro call, or the span of an argument that is really there: `PinnedDrop`, `UnsafeUnpin`, `!Unpin`, `project_replace`. A lifetime that the macro writes is none that the definition declares.", "quantifier": "every struct and enum that is accepted by the derive", "why_tests_cant": "Spans and hygiene show only in diagnostics, lints and name clashes; the UI tests look at the messages for a few definitions.", "anchors": ["pin-project-internal/src/pin_project/derive.rs: all templates, quote_spanned!", "pin-project-internal/src/pin_project/args.rs: span", "pin-project-internal/src/utils.rs: determine_lifetime_name, ReplaceReceiver"]}
{"id": "C79", "title": "Writing through shared projections obeys the aliasing rules", "statement": "A field, or what is in it, has interior mutability (Cell, RefCell, an atomic, Mutex). A program has one usable mutable reference to the value and does what programs do in C72: it projects, makes references, calls functions of its own, replaces values, in any order that the borrow checker allows. Besides, whenever it has a shared reference that `project_ref` has returned, or that was made from one, it may write through it, also while it has others, while functions that have got one of them are in progress, and after they have returned. Then nothing it does is undefined behaviour under Stacked Borrows (as in Miri) or Tree Borrows; unless it is aborted by a destructor that panics during a panic, all shared references stay usable for reading and writing until a mutable reference is used, and mutable references are usable as in C72.", "quantifier": "every finite sequence of operations, every nesting depth of projections and function calls, every number of shared references, every definition for each call, every byte with interior mutability, every choice of panicking destructors, every set of aliasing rules in which shared references to such a byte do not assert that it is constant", "why_tests_cant": "Miri checks one execution of one program at a time; there is no bound on the length of programs or on the number of references in use at the same time.", "anchors": ["pin-project-internal/src/pin_project/derive.rs: make_proj_impl", "src/lib.rs: pin_project (project_ref)"]}
{"id": "C80", "title": "Errors are shown at the offending code", "statement": "When `#[pin_project]` or `#[pinned_drop]` rejects an input, the error is shown at the piece of the input that the message is about: an argument (or its value, or its name and `=`) of `#[pin_project(..)]`; the second one of two equal arguments, attributes or methods; the name that is already taken, at the argument that comes later in the order project, project_ref, project_replace; the argument `packed` of `#[repr(..)]`; the discriminant, the `#[pin]` on a variant, the empty fields, the empty braces; the return type, the parameters, the name or the `unsafe` of `drop`; the token that could not be parsed. Only if there is nothing to point to (the item is missing, or the attribute was removed by another macro) the macro itself is shown.", "quantifier": "every input that is rejected with a message, every assignment of spans to its argument tokens", "why_tests_cant": "The compile-fail tests record 92 positions; the pieces before the fault, the number of attributes, arguments, fields and variants, and the combination of faults are unbounded.", "anchors": ["pin-project-internal/src/error.rs: bail", "pin-project-internal/src/pin_project/args.rs: parse_args, Args::parse", "pin-project-internal/src/pin_project/attribute.rs: Input::parse", "pin-project-internal/src/pin_project/derive.rs: parse_derive, Context::new, parse_struct, parse_enum, ensure_not_packed, validate_struct, validate_enum, visit_fields", "pin-project-internal/src/utils.rs: position_exact, find", "pin-project-internal/src/pinned_drop.rs: validate_impl, validate_sig"]}
{"id": "C81", "title": "Constants with the name of a field are never matched silently", "statement": "The generated methods take a value apart with patterns in which every field is a plain name: its own, or `_0`, `_1`, .. for tuple fields. In Rust such a name is not a new variable if a constant, unit struct, const parameter, static or tuple struct of that name is in scope where the type is defined. If there is one, the generated `project` and `project_ref` do not compile, although the macro accepts the type (for example `struct S<const n: usize> { n: u8 }`); if there is none, every name is a variable and the methods compile. So code that compiles never compares a field to a constant instead of borrowing it. For `project_replace` the same holds, except for a `#[pin]` field whose type is a mutable reference with only one value, such as `&'static mut [u8; 0]`.", "quantifier": "every accepted struct or enum, every generated method, every set of constants and other named values in scope, every notion of equality of types in which no type is a reference to itself", "why_tests_cant": "the names in scope and the types of constants are unbounded; the argument is that a constant of the type of the field can never have the type a reference to the field must have at any of its uses", "anchors": ["pin-project-internal/src/pin_project/derive.rs: visit_fields, proj_own_body, make_proj_impl, parse_struct, visit_variants"]}
{"id": "C82", "title": "Methods of the user are never called by generated code", "statement": "The generated projections call `self.get_unchecked_mut()` and `self.get_ref()` with method syntax. Whatever inherent methods the annotated type has, whatever traits are in scope and whatever the type derefs to, such a call is a call of `Pin::get_unchecked_mut` or `Pin::get_ref`, or does not compile. It does not compile exactly if the annotated type has an inherent method of the same name that takes the same `Pin<&mut Self>` or `Pin<&Self>` (`fn get_ref(self: Pin<&Self>)`); a method `get_ref(&self)` or a trait method is no problem. So safe code cannot make a projection point somewhere else.", "quantifier": "every accepted struct or enum, every generated function, every method call in it, all methods and traits of the user, all deref chains", "why_tests_cant": "the methods and traits in scope and deref chains are unbounded; a hijacked call would compile and only be wrong at run time", "anchors": ["pin-project-internal/src/pin_project/derive.rs: parse_struct, parse_enum, make_proj_impl (self.get_unchecked_mut(), self.get_ref())"]}
{"id": "C83", "title": "Projections do not keep borrows alive, and types stay easy to drop", "statement": "The values returned by project and project_ref have no destructor, whatever the types of the fields: they are not used at the end of their scope, so the borrow ends with their last use, and they can be taken apart by pattern matching. The value returned by project_replace can be taken apart as well; dropping it runs code exactly if a field that is not pinned has a destructor, and then nothing must be alive that need not be for a value of the annotated type. Without PinnedDrop, the attribute changes nothing about dropping the annotated type: no Drop impl appears (so values can still be destructured), and the drop check asks for the same. With PinnedDrop, all parameters must be alive when a value is dropped.", "quantifier": "every accepted struct or enum with any generics, any types of fields with any drop glue and drop check results, any Drop impls of the user for other types", "why_tests_cant": "which types have destructors and what these access depends on all types a field can have", "anchors": ["pin-project-internal/src/pin_project/derive.rs: proj_own_body, make_drop_impl, visit_fields, projected fields (Proj, ProjRef, ProjOwn)"]}
{"id": "C84", "title": "Calls of the generated methods reach them, and no other calls do", "statement": "On a Pin<&mut S>, x.project() and x.project_replace(..) call the generated methods, and so does x.project_ref() on a Pin<&S>, whatever traits with methods of these names are in scope or implemented, and whatever S can be dereferenced to. (If the user defines a method of the same name with the same self in an impl of S, the program is rejected.) All other method calls are resolved as without the attribute: calls of other names, and calls on S, &S, &mut S or on the Pin of another type that dereferences to S.", "quantifier": "every accepted struct or enum, each generated method, all methods and traits of the user, all deref chains", "why_tests_cant": "the methods and traits in scope and deref chains are unbounded; a wrong resolution compiles and calls something else", "anchors": ["pin-project-internal/src/pin_project/derive.rs: make_proj_impl (self: Pin<&mut Self>, self: Pin<&Self>)"]}
{"id": "C85", "title": "No data races, and no violation of the aliasing rules by threads", "statement": "Any number of threads that share a value may call project_ref on it at the same time, as often as they like and without synchronisation, and read through the references they get at any time: there is no data race, and every call returns the references to the fields. The references that project returns may be given to different threads, which read and write through them at the same time, without a data race; those that project_ref returns may even be given to several threads each. Nor is any step of threads that call project_ref on a shared value and read through the results undefined behaviour under the aliasing rules, in whatever order their steps happen; and the reference they share remains usable.", "quantifier": "every accepted struct or enum, every byte of a value, any number of threads and actions, every interleaving of their accesses", "why_tests_cant": "schedules and the number of threads are unbounded, and a data race need not show in a test", "anchors": ["pin-project-internal/src/pin_project/derive.rs: make_proj_impl (get_unchecked_mut, get_ref)", "pin-project-internal/src/pin_project/derive.rs: proj_fields"]}
{"id": "C86", "title": "Public documentation", "statement": "The documentation of a crate shows nothing of the generated code except that an annotated type implements Unpin (not with !Unpin), and with PinnedDrop that it implements Drop: no generated type, no method, no impl of an internal trait. The impl written with #[pinned_drop] is not shown either.", "quantifier": "every accepted struct or enum of any visibility, all arguments; every accepted #[pinned_drop] impl", "why_tests_cant": "documentation is not looked at by tests, and there are unboundedly many definitions and argument lists", "anchors": ["pin-project-internal/src/pin_project/derive.rs: make_unpin_impl, make_drop_impl (#[doc(hidden)])", "pin-project-internal/src/utils.rs: determine_visibility", "pin-project-internal/src/pinned_drop.rs: expand_impl"]}
{"id": "C87", "title": "Arguments are independent of one another", "statement": "Every argument of #[pin_project(..)] is about one thing: project, project_ref and project_replace about one method each and the type it returns, UnsafeUnpin and !Unpin about Unpin, PinnedDrop about Drop. If two versions of an accepted definition differ in their arguments (and other attributes) only, but agree on the arguments about one thing, then what is generated for this thing is the same in both: the method, the definition of the type it returns and whether the user can name it; the impls of Unpin and UnsafeUnpin with their helper type; the impls and checks about Drop. The check for packed structs and the generics of the impl with the methods do not depend on the arguments at all.", "quantifier": "every pair of accepted items with the same definition, every pair of argument lists", "why_tests_cant": "there are many combinations of arguments, each with every definition", "anchors": ["pin-project-internal/src/pin_project/derive.rs: Context::new, parse_struct, parse_enum, make_unpin_impl, make_drop_impl, make_proj_impl", "pin-project-internal/src/pin_project/args.rs: Args"]}
{"id": "C88", "title": "When the generated code compiles", "statement": "If a definition that #[pin_project] accepts compiles without the attribute, then the generated code compiles too: no name is defined twice, visibilities are valid, no lifetime is declared again in its own scope, types and impls are well-formed, references do not outlive what they refer to, sizes are known where they must be, function bodies type check, and impls match their traits. There are exactly these exceptions: a name given by the user for a projection type that differs from another such name or from the annotated type only by r#, or that pin-project makes up itself; pub(self) on the type or, if there are projections, on a field; for<'pin> in the type of a field that is copied to a type with the lifetime 'pin; a type with a lifetime parameter and a pinned unsized last field, with the default Unpin; project_replace on an unsized type; project_replace with a pinned field called __result, or __guard when it is not the last. With none of the arguments about projections, a Sized definition without pub(self) and for<'pin> always compiles.", "quantifier": "every accepted struct and enum that compiles without the attribute, every combination of arguments, everything the compiler may know about the user's types", "why_tests_cant": "tests compile some definitions; no set of tests shows that there is no further definition that fails", "anchors": ["pin-project-internal/src/pin_project/derive.rs: parse_derive, Context::new, make_unpin_impl, make_drop_impl, make_proj_impl, proj_own_body", "pin-project-internal/src/utils.rs: determine_lifetime_name, determine_visibility, ReplaceReceiver"]}
{"id": "C89", "title": "No code of the user in an unsafe context", "statement": "In the code that #[pin_project] generates, all tokens of the user inside unsafe blocks and unsafe functions are single names: of fields, of variants, or of the projected types. No type, expression or macro call that the user wrote is there, so it cannot perform an unsafe operation without writing unsafe. In the expansion of #[pinned_drop], whose drop is an unsafe fn, all statements of the user are in the body of a nested function that is not unsafe; in the unsafe context there are only the attributes and qualifiers of the method, and the self that is passed on. All blocks that the macros open are closed.", "quantifier": "every accepted struct, enum and #[pinned_drop] impl, every combination of arguments", "why_tests_cant": "a test of a program that must not compile shows this for one expression in one place; the property is about every piece of every definition", "anchors": ["pin-project-internal/src/pin_project/derive.rs: make_proj_impl, proj_own_body, make_drop_impl, ensure_not_packed", "pin-project-internal/src/pinned_drop.rs: expand_impl, validate_sig"]}
{"id": "C90", "title": "The names of fields and variants do not matter", "statement": "Rename the fields and the variants of a definition. #[pin_project] accepts the new definition exactly if it accepted the old one, and otherwise reports the same error. The generated code is the old code with the same names renamed, and nothing else changed: no method, impl, bound or type depends on what a field or a variant is called. The renaming must leave alone self, the names that begin with two underscores or with an underscore and a digit, and the indices of tuple fields.", "quantifier": "every item, every combination of arguments, every renaming of fields and of variants", "why_tests_cant": "a test uses particular names; a name that the macro treats specially is found only if it is tried", "anchors": ["pin-project-internal/src/pin_project/derive.rs: parse_struct, parse_enum, visit_variants, visit_fields, proj_own_body, make_unpin_impl, ensure_not_packed"]}
{"id": "C91", "title": "The types of fields are copied and not looked at", "statement": "Replace the types of the fields of a definition by other types, in the same way wherever the same type stands. #[pin_project] accepts the new definition exactly if it accepted the old one, and otherwise reports the same error; in particular acceptance is the same as if all fields had the type u8. The generated code is the old code with the copies of these types replaced: no method, impl, bound, attribute or statement is added, dropped or changed because of the type of a field.", "quantifier": "every item, every combination of arguments, every replacement of types that treats Self and the type it stands for alike", "why_tests_cant": "there are infinitely many types, and a special case for one (a reference, PhantomPinned, a macro call) shows only in a test with this type", "anchors": ["pin-project-internal/src/pin_project/derive.rs: parse_struct, parse_enum, visit_variants, visit_fields, make_unpin_impl, make_drop_impl, make_proj_impl"]}
{"id": "C92", "title": "Fields without #[pin] have no effect on traits", "statement": "Two definitions that agree in attributes, visibility, name and generics, and in the types of the fields with #[pin] in their order, get the same generated traits and the same impls of traits (Unpin, UnsafeUnpin, Drop, PinnedDrop), with the same bounds. So a field without #[pin] has no effect on them, for example a PhantomPinned without #[pin]; neither have the names of fields, their grouping into variants, and whether the type is a struct or an enum. All impls of traits are in the anonymous scope, none is next to the type.", "quantifier": "every two accepted definitions, struct or enum, every combination of arguments", "why_tests_cant": "a test compares two definitions; the property is about every pair that agrees in what matters", "anchors": ["pin-project-internal/src/pin_project/derive.rs: make_unpin_impl, make_drop_impl, visit_fields, visit_variants, parse_struct, parse_enum", "pin-project-internal/src/lib.rs: documentation of !Unpin"]}
{"id": "C93", "title": "The names chosen for the projections do not matter", "statement": "Give other names to the projections in the arguments project, project_ref and project_replace of #[pin_project]. As long as different names remain different from one another and from the name of the type, the macro accepts the new attribute exactly if it accepted the old one. The generated code is the old code with the new names in the place of the old ones, where the projected type is defined, where it is built and where a method returns it, and nothing else changed: no method, impl, bound, lint or visibility depends on which name is chosen.", "quantifier": "every two definitions that differ only in the names given in the arguments, struct or enum, every combination of arguments, every renaming that leaves alone the names that begin with two underscores", "why_tests_cant": "a test uses particular names; a name that the macro treats specially, or a place where the old name is left, is found only if that name and that combination is tried", "anchors": ["pin-project-internal/src/pin_project/derive.rs: Context::new, parse_struct, parse_enum, make_proj_impl, proj_own_body, proj_allowed_lints", "pin-project-internal/src/pin_project/args.rs: Args::parse"]}
{"id": "C94", "title": "A variant of an enum is projected like a struct with the same fields", "statement": "Take an annotated enum and one of its variants, and the struct that has the fields of this variant and is otherwise like the enum (attributes, visibility, name, generics). Each of project, project_ref and project_replace that the enum has is also there for the struct, with the same signature, and does in the arm of the variant what the method of the struct does: it binds the same fields in the same way, builds the same fields in the same way, in this variant of the projected type, and drops the same fields in the same order. The projected types that are named have the same name, visibility, generics and bounds, and the fields of the projected struct are the fields of this variant. If the enum is accepted and the variant has a field, the struct is accepted.", "quantifier": "every enum, every combination of arguments, every variant with at least one field", "why_tests_cant": "a test of enums has some variants and some combination of arguments; structs and enums are expanded by different functions that could differ in one combination", "anchors": ["pin-project-internal/src/pin_project/derive.rs: parse_struct, parse_enum, visit_variants, visit_fields, make_proj_impl"]}
{"id": "C95", "title": "The name of the annotated type does not matter", "statement": "Give an annotated struct or enum another name. It is accepted under the new name exactly when it is accepted under the old one, as long as neither name is chosen for a projection. If its types, bounds, predicates and visibilities do not mention Self or self, the generated code is the same, with the new name in the place of the old one, and the names the macro makes from it (the unnamed projections, the helper struct for Unpin, the trait against Drop) made from the new name in the same way; the types, fields, bounds, methods and impls are otherwise identical.", "quantifier": "every struct and enum, every combination of arguments, every new name, raw or not", "why_tests_cant": "a test uses some names; that no name is treated specially and no generated piece keeps or loses the name is a statement about all of them", "anchors": ["pin-project-internal/src/pin_project/derive.rs: Context::new, parse_struct, parse_enum, make_unpin_impl, make_drop_impl, make_proj_impl", "pin-project-internal/src/utils.rs: ReplaceReceiver"]}
{"id": "C96", "title": "Variants are projected independently of one another", "statement": "Take two annotated enums that differ in their variants only. They have the same methods, with the same signatures, and the same named projected types with the same generics and bounds; a variant that both enums have, at whatever place, is matched, projected and replaced in the same way in both, and has the same projected variant. So adding, removing or reordering variants never changes what happens to the others. Each projected enum, and each match, has exactly one entry per variant. An accepted enum stays accepted if variants are reordered or removed, as long as one with a field remains.", "quantifier": "every pair of enums that differ in their variants, every combination of arguments, every variant", "why_tests_cant": "a test has some list of variants; that no arm is affected by its neighbours must hold for all lists", "anchors": ["pin-project-internal/src/pin_project/derive.rs: parse_enum, visit_variants, visit_fields, make_proj_impl, validate_enum"]}
{"id": "C97", "title": "Projections of projections", "statement": "Let a field of an annotated type have an annotated type again, and so on to any depth. Starting from a pinned reference to a value, one can call project, take a field, call project of its type on it, and so on, exactly if each field taken has #[pin]: pinning is passed on through a chain of projections only where every field on the way is #[pin]. The chain ends with a pinned reference to the value in the last field, of the same kind (mutable for project, shared for project_ref), and leaves memory as it is. Chains from one value that take different fields never end at the same value, however deep.", "quantifier": "every list of annotated types of any length, all values of them, both methods, every memory", "why_tests_cant": "a test nests a few types to a fixed depth", "anchors": ["pin-project-internal/src/pin_project/derive.rs: make_proj_impl, parse_struct, parse_enum, visit_fields"]}
{"id": "C98", "title": "Destruction of values inside values", "statement": "Let fields of an annotated type have annotated types again, and so on to any depth. When a value is destroyed, the user's PinnedDrop::drop of each type that has one is called exactly once on each value of it, in the place where it was pinned, before anything inside that value is destroyed; then the fields are destroyed, each completely, in declaration order. Nothing is destroyed twice or left out. A panic of a destructor or of the user's code does not stop the rest; it propagates, and a second one aborts.", "quantifier": "every tree of annotated types of any depth and width, all values, every memory, every choice of which destructors panic", "why_tests_cant": "a test nests a few types to a fixed depth and makes a few chosen destructors panic", "anchors": ["pin-project-internal/src/pin_project/derive.rs: make_drop_impl", "pin-project-internal/src/pinned_drop.rs: attribute", "src/lib.rs: PinnedDrop"]}
{"id": "C99", "title": "Rewritten tokens keep their places", "statement": "When self and Self are replaced in the tokens of a macro call, every other token keeps its span, at any depth; __self has the span of the self it replaces; the tokens of the type that replaces a Self have the span of that Self, except that what is inside a parenthesised, bracketed or braced group of the type keeps the span it has there. So errors are shown where the user wrote the code, and a self refers to the parameter self of drop exactly if the __self in its place refers to the parameter that is bound instead, whatever macros the tokens come from.", "quantifier": "every token stream of any nesting depth, every receiver type, all spans and every assignment of syntax contexts to spans", "why_tests_cant": "spans are not seen in the output the tests compare; unbounded nested token streams", "anchors": ["pin-project-internal/src/utils.rs: respan, respan_tokens, ReplaceReceiver::visit_token_stream, prepend_underscore_to_self, visit_macro_mut", "pin-project-internal/src/pinned_drop.rs: expand_impl"]}
{"id": "C100", "title": "Replacing a value inside a value", "statement": "Let a chain of project calls lead from a pinned value, through #[pin] fields, to the value of an annotated type inside of it, to any depth. project_replace on it returns the fields without #[pin] of the value inside, destroys its #[pin] fields in place, puts the new value where the old one was, and touches no other place: the values around it and next to it stay. Afterwards every chain that does not go on inside the replaced value can be followed as before and ends at the same value.", "quantifier": "every chain of annotated types of any length, all values, every memory, both projection methods", "why_tests_cant": "a test nests a few types to a fixed depth", "anchors": ["pin-project-internal/src/pin_project/derive.rs: make_proj_impl, proj_own_body, visit_fields"]}
{"id": "C101", "title": "Variables in the body of drop keep their places", "statement": "When the body of drop is moved into an inner function, every variable of the user is used afterwards exactly where it was used before, and __self is used exactly where self was, with the same spans; the only exceptions are macro calls that have fn among their tokens. So, whatever macros the code comes from, a self refers to the parameter of drop exactly if the __self in its place refers to the parameter of the inner function, and no other variable changes its meaning.", "quantifier": "every body of any depth, every receiver type, all spans and every assignment of syntax contexts to spans", "why_tests_cant": "unbounded syntax trees; spans are not seen in the output the tests compare", "anchors": ["pin-project-internal/src/utils.rs: ReplaceReceiver, prepend_underscore_to_self", "pin-project-internal/src/pinned_drop.rs: expand_impl"]}
{"id": "C102", "title": "Unpin of values inside values", "statement": "Let annotated types (without !Unpin and UnsafeUnpin) be nested to any depth through #[pin] fields. If the outer type is Unpin, so is the type of every value reached through #[pin] fields. One value of a type with !Unpin, or one PhantomPinned, reached in this way makes the outer type not Unpin. And only the ends matter: wherever one stops following the #[pin] fields, the outer type is Unpin exactly if the types at which one stopped are.", "quantifier": "every program that contains the expansions, every chain and tree of #[pin] fields of any depth, all generic arguments, every meaning of the user's types and every solution of trait resolution", "why_tests_cant": "a test nests a few types to a fixed depth, with fixed generic arguments", "anchors": ["pin-project-internal/src/pin_project/derive.rs: make_unpin_impl", "src/lib.rs: __private"]}

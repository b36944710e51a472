import Verif.Model.Entry
import Verif.Model.PinnedDrop
/-!
# Comparison with the compile-fail and run-pass tests

The annotated items in /repo/tests/ui and /repo/tests/*.rs. For each, the macros of the model are run on the
item, and the error they report is compared with the one recorded in the `.stderr` file; items without a
recorded error of the macro, and the items of the run-pass tests, must be accepted.

This file is generated from these tests. It tests the model; it proves nothing about it.
Bodies of `drop` are left out. Not included: items behind `cfg`, and items that go through one of the
auxiliary macros of the tests.
-/
namespace PinProject.Ui

/-- `#[pin_project(args)]` on an item with the other attributes `attrs` and the remaining tokens `body`, parsed
by `syn` to `mk`: first the attribute macro, then the derive macro. The result is the error. -/
def pinProject (args : List TT) (attrs : List Attribute) (body : List TT) (mk : List Attribute → Item) :
    Option String :=
  match pinProjectAttribute args { attrs, body } with
  | .compileError m => some m
  | .panicked m => some ("panic: " ++ m)
  | .code i =>
    -- rustc removes the derive attribute
    match pinProjectDerive (mk (i.attrs.filter (fun a => !a.path.isIdent "derive"))) with
    | .compileError m => some m
    | .panicked m => some ("panic: " ++ m)
    | .code _ => none

def pinnedDrop (args : List TT) (i : ItemImpl) : Option String :=
  match pinnedDropAttribute args i with
  | .compileError m _ => some m
  | .panicked m => some ("panic: " ++ m)
  | .expanded _ => none

-- /repo/tests/ui/pin_project/add-pinned-field.rs
#guard (pinProject [] [⟨.path { leading := false, segs := ["add_pinned_field"] }⟩]
    [.ident "struct", .ident "Foo", .group .brace [.punct '#' false, .group .bracket [.ident "pin"], .ident "f", .punct ':' false, .ident "u32", .punct ',' false]]
    (fun as => .struct_ { attrs := as, vis := .inherited, ident := "Foo", generics := { params := [], whereClause := none }, fields := (.named [{ attrs := [⟨.path { leading := false, segs := ["pin"] }⟩], vis := .inherited, ident := (some "f"), ty := .tyPath .none (.mk false [.mk "u32" .none]) }]) })) == none
#guard (pinProject [] [⟨.path { leading := false, segs := ["add_pinned_field"] }⟩]
    [.ident "struct", .ident "Bar", .group .brace [.punct '#' false, .group .bracket [.ident "pin"], .ident "f", .punct ':' false, .ident "u32", .punct ',' false]]
    (fun as => .struct_ { attrs := as, vis := .inherited, ident := "Bar", generics := { params := [], whereClause := none }, fields := (.named [{ attrs := [⟨.path { leading := false, segs := ["pin"] }⟩], vis := .inherited, ident := (some "f"), ty := .tyPath .none (.mk false [.mk "u32" .none]) }]) })) == none

-- /repo/tests/ui/pin_project/conflict-drop.rs
#guard (pinProject [] []
    [.ident "struct", .ident "Foo", .punct '<' false, .ident "T", .punct ',' false, .ident "U", .punct '>' false, .group .brace [.punct '#' false, .group .bracket [.ident "pin"], .ident "f1", .punct ':' false, .ident "T", .punct ',' false, .ident "f2", .punct ':' false, .ident "U", .punct ',' false]]
    (fun as => .struct_ { attrs := as, vis := .inherited, ident := "Foo", generics := { params := [.type "T" [] none, .type "U" [] none], whereClause := none }, fields := (.named [{ attrs := [⟨.path { leading := false, segs := ["pin"] }⟩], vis := .inherited, ident := (some "f1"), ty := .tyPath .none (.mk false [.mk "T" .none]) }, { attrs := [], vis := .inherited, ident := (some "f2"), ty := .tyPath .none (.mk false [.mk "U" .none]) }]) })) == none
#guard (pinProject [.ident "PinnedDrop"] []
    [.ident "struct", .ident "Bar", .punct '<' false, .ident "T", .punct ',' false, .ident "U", .punct '>' false, .group .brace [.punct '#' false, .group .bracket [.ident "pin"], .ident "f1", .punct ':' false, .ident "T", .punct ',' false, .ident "f2", .punct ':' false, .ident "U", .punct ',' false]]
    (fun as => .struct_ { attrs := as, vis := .inherited, ident := "Bar", generics := { params := [.type "T" [] none, .type "U" [] none], whereClause := none }, fields := (.named [{ attrs := [⟨.path { leading := false, segs := ["pin"] }⟩], vis := .inherited, ident := (some "f1"), ty := .tyPath .none (.mk false [.mk "T" .none]) }, { attrs := [], vis := .inherited, ident := (some "f2"), ty := .tyPath .none (.mk false [.mk "U" .none]) }]) })) == none
#guard (pinnedDrop []
    { attrs := [], isUnsafe := false, generics := { params := [.type "T" [] none, .type "U" [] none], whereClause := none }, trait_ := (some (false, (.mk false [.mk "PinnedDrop" .none]))), selfTy := .tyPath .none (.mk false [.mk "Bar" (.angle false [.tyPath .none (.mk false [.mk "T" .none]), .tyPath .none (.mk false [.mk "U" .none])])]), selfToks := [.ident "Bar", .punct '<' false, .ident "T", .punct ',' false, .ident "U", .punct '>' false], items := [.fn { attrs := [], sig := { quals := [], isUnsafe := false, ident := "drop", generics := { params := [], whereClause := none }, inputs := [.receiver false false (.tyPath .none (.mk false [.mk "Pin" (.angle false [.other "&mut" [.tyPath .none (.mk false [.mk "Self" .none])]])]))], output := none }, block := [] }] }) == none

-- /repo/tests/ui/pin_project/conflict-unpin.rs
#guard (pinProject [] []
    [.ident "struct", .ident "Foo", .punct '<' false, .ident "T", .punct ',' false, .ident "U", .punct '>' false, .group .brace [.punct '#' false, .group .bracket [.ident "pin"], .ident "f1", .punct ':' false, .ident "T", .punct ',' false, .ident "f2", .punct ':' false, .ident "U", .punct ',' false]]
    (fun as => .struct_ { attrs := as, vis := .inherited, ident := "Foo", generics := { params := [.type "T" [] none, .type "U" [] none], whereClause := none }, fields := (.named [{ attrs := [⟨.path { leading := false, segs := ["pin"] }⟩], vis := .inherited, ident := (some "f1"), ty := .tyPath .none (.mk false [.mk "T" .none]) }, { attrs := [], vis := .inherited, ident := (some "f2"), ty := .tyPath .none (.mk false [.mk "U" .none]) }]) })) == none
#guard (pinProject [] []
    [.ident "struct", .ident "Bar", .punct '<' false, .ident "T", .punct ',' false, .ident "U", .punct '>' false, .group .brace [.punct '#' false, .group .bracket [.ident "pin"], .ident "f1", .punct ':' false, .ident "T", .punct ',' false, .ident "f2", .punct ':' false, .ident "U", .punct ',' false]]
    (fun as => .struct_ { attrs := as, vis := .inherited, ident := "Bar", generics := { params := [.type "T" [] none, .type "U" [] none], whereClause := none }, fields := (.named [{ attrs := [⟨.path { leading := false, segs := ["pin"] }⟩], vis := .inherited, ident := (some "f1"), ty := .tyPath .none (.mk false [.mk "T" .none]) }, { attrs := [], vis := .inherited, ident := (some "f2"), ty := .tyPath .none (.mk false [.mk "U" .none]) }]) })) == none
#guard (pinProject [] []
    [.ident "struct", .ident "Baz", .punct '<' false, .ident "T", .punct ',' false, .ident "U", .punct '>' false, .group .brace [.punct '#' false, .group .bracket [.ident "pin"], .ident "f1", .punct ':' false, .ident "T", .punct ',' false, .ident "f2", .punct ':' false, .ident "U", .punct ',' false]]
    (fun as => .struct_ { attrs := as, vis := .inherited, ident := "Baz", generics := { params := [.type "T" [] none, .type "U" [] none], whereClause := none }, fields := (.named [{ attrs := [⟨.path { leading := false, segs := ["pin"] }⟩], vis := .inherited, ident := (some "f1"), ty := .tyPath .none (.mk false [.mk "T" .none]) }, { attrs := [], vis := .inherited, ident := (some "f2"), ty := .tyPath .none (.mk false [.mk "U" .none]) }]) })) == none

-- /repo/tests/ui/pin_project/impl-unsafe-unpin.rs
#guard (pinProject [] []
    [.ident "struct", .ident "Foo", .punct '<' false, .ident "T", .punct ',' false, .ident "U", .punct '>' false, .group .brace [.punct '#' false, .group .bracket [.ident "pin"], .ident "f1", .punct ':' false, .ident "T", .punct ',' false, .ident "f2", .punct ':' false, .ident "U", .punct ',' false]]
    (fun as => .struct_ { attrs := as, vis := .inherited, ident := "Foo", generics := { params := [.type "T" [] none, .type "U" [] none], whereClause := none }, fields := (.named [{ attrs := [⟨.path { leading := false, segs := ["pin"] }⟩], vis := .inherited, ident := (some "f1"), ty := .tyPath .none (.mk false [.mk "T" .none]) }, { attrs := [], vis := .inherited, ident := (some "f2"), ty := .tyPath .none (.mk false [.mk "U" .none]) }]) })) == none
#guard (pinProject [] []
    [.ident "struct", .ident "Bar", .punct '<' false, .ident "T", .punct ',' false, .ident "U", .punct '>' false, .group .brace [.punct '#' false, .group .bracket [.ident "pin"], .ident "f1", .punct ':' false, .ident "T", .punct ',' false, .ident "f2", .punct ':' false, .ident "U", .punct ',' false]]
    (fun as => .struct_ { attrs := as, vis := .inherited, ident := "Bar", generics := { params := [.type "T" [] none, .type "U" [] none], whereClause := none }, fields := (.named [{ attrs := [⟨.path { leading := false, segs := ["pin"] }⟩], vis := .inherited, ident := (some "f1"), ty := .tyPath .none (.mk false [.mk "T" .none]) }, { attrs := [], vis := .inherited, ident := (some "f2"), ty := .tyPath .none (.mk false [.mk "U" .none]) }]) })) == none
#guard (pinProject [] []
    [.ident "struct", .ident "Baz", .punct '<' false, .ident "T", .punct ',' false, .ident "U", .punct '>' false, .group .brace [.punct '#' false, .group .bracket [.ident "pin"], .ident "f1", .punct ':' false, .ident "T", .punct ',' false, .ident "f2", .punct ':' false, .ident "U", .punct ',' false]]
    (fun as => .struct_ { attrs := as, vis := .inherited, ident := "Baz", generics := { params := [.type "T" [] none, .type "U" [] none], whereClause := none }, fields := (.named [{ attrs := [⟨.path { leading := false, segs := ["pin"] }⟩], vis := .inherited, ident := (some "f1"), ty := .tyPath .none (.mk false [.mk "T" .none]) }, { attrs := [], vis := .inherited, ident := (some "f2"), ty := .tyPath .none (.mk false [.mk "U" .none]) }]) })) == none

-- /repo/tests/ui/pin_project/import_unnamed.rs
#guard (pinProject [] []
    [.ident "pub", .ident "struct", .ident "Default", .group .paren [.group .paren []], .punct ';' false]
    (fun as => .struct_ { attrs := as, vis := .pub, ident := "Default", generics := { params := [], whereClause := none }, fields := (.unnamed [{ attrs := [], vis := .inherited, ident := none, ty := .other "tuple" [] }]) })) == none
#guard (pinProject [.ident "project_replace"] []
    [.ident "pub", .ident "struct", .ident "Replace", .group .paren [.group .paren []], .punct ';' false]
    (fun as => .struct_ { attrs := as, vis := .pub, ident := "Replace", generics := { params := [], whereClause := none }, fields := (.unnamed [{ attrs := [], vis := .inherited, ident := none, ty := .other "tuple" [] }]) })) == none

-- /repo/tests/ui/pin_project/invalid.rs
#guard (pinProject [] []
    [.ident "struct", .ident "Struct", .group .brace [.punct '#' false, .group .bracket [.ident "pin", .group .paren []], .ident "f", .punct ':' false, .group .paren [], .punct ',' false]]
    (fun as => .struct_ { attrs := as, vis := .inherited, ident := "Struct", generics := { params := [], whereClause := none }, fields := (.named [{ attrs := [⟨.list { leading := false, segs := ["pin"] } .paren []⟩], vis := .inherited, ident := (some "f"), ty := .other "tuple" [] }]) })) == some "unexpected token in attribute"
#guard (pinProject [] []
    [.ident "struct", .ident "TupleStruct", .group .paren [.punct '#' false, .group .bracket [.ident "pin", .group .paren [.ident "foo"]], .group .paren []], .punct ';' false]
    (fun as => .struct_ { attrs := as, vis := .inherited, ident := "TupleStruct", generics := { params := [], whereClause := none }, fields := (.unnamed [{ attrs := [⟨.list { leading := false, segs := ["pin"] } .paren [.ident "foo"]⟩], vis := .inherited, ident := none, ty := .other "tuple" [] }]) })) == some "unexpected token in attribute"
#guard (pinProject [] []
    [.ident "enum", .ident "EnumTuple", .group .brace [.ident "V", .group .paren [.punct '#' false, .group .bracket [.ident "pin", .group .paren [.ident "foo"]], .group .paren []], .punct ',' false]]
    (fun as => .enum_ { attrs := as, vis := .inherited, ident := "EnumTuple", generics := { params := [], whereClause := none }, variants := [{ attrs := [], ident := "V", fields := (.unnamed [{ attrs := [⟨.list { leading := false, segs := ["pin"] } .paren [.ident "foo"]⟩], vis := .inherited, ident := none, ty := .other "tuple" [] }]), discriminant := none }] })) == some "unexpected token in attribute"
#guard (pinProject [] []
    [.ident "enum", .ident "EnumStruct", .group .brace [.ident "V", .group .brace [.punct '#' false, .group .bracket [.ident "pin", .group .paren [.ident "foo"]], .ident "f", .punct ':' false, .group .paren [], .punct ',' false], .punct ',' false]]
    (fun as => .enum_ { attrs := as, vis := .inherited, ident := "EnumStruct", generics := { params := [], whereClause := none }, variants := [{ attrs := [], ident := "V", fields := (.named [{ attrs := [⟨.list { leading := false, segs := ["pin"] } .paren [.ident "foo"]⟩], vis := .inherited, ident := (some "f"), ty := .other "tuple" [] }]), discriminant := none }] })) == some "unexpected token in attribute"
#guard (pinProject [] []
    [.ident "struct", .ident "DuplicateStruct", .group .brace [.punct '#' false, .group .bracket [.ident "pin"], .punct '#' false, .group .bracket [.ident "pin"], .ident "f", .punct ':' false, .group .paren [], .punct ',' false]]
    (fun as => .struct_ { attrs := as, vis := .inherited, ident := "DuplicateStruct", generics := { params := [], whereClause := none }, fields := (.named [{ attrs := [⟨.path { leading := false, segs := ["pin"] }⟩, ⟨.path { leading := false, segs := ["pin"] }⟩], vis := .inherited, ident := (some "f"), ty := .other "tuple" [] }]) })) == some "duplicate #[pin] attribute"
#guard (pinProject [] []
    [.ident "struct", .ident "DuplicateTupleStruct", .group .paren [.punct '#' false, .group .bracket [.ident "pin"], .punct '#' false, .group .bracket [.ident "pin"], .group .paren [], .punct ',' false], .punct ';' false]
    (fun as => .struct_ { attrs := as, vis := .inherited, ident := "DuplicateTupleStruct", generics := { params := [], whereClause := none }, fields := (.unnamed [{ attrs := [⟨.path { leading := false, segs := ["pin"] }⟩, ⟨.path { leading := false, segs := ["pin"] }⟩], vis := .inherited, ident := none, ty := .other "tuple" [] }]) })) == some "duplicate #[pin] attribute"
#guard (pinProject [] []
    [.ident "enum", .ident "DuplicateEnumTuple", .group .brace [.ident "V", .group .paren [.punct '#' false, .group .bracket [.ident "pin"], .punct '#' false, .group .bracket [.ident "pin"], .group .paren [], .punct ',' false], .punct ',' false]]
    (fun as => .enum_ { attrs := as, vis := .inherited, ident := "DuplicateEnumTuple", generics := { params := [], whereClause := none }, variants := [{ attrs := [], ident := "V", fields := (.unnamed [{ attrs := [⟨.path { leading := false, segs := ["pin"] }⟩, ⟨.path { leading := false, segs := ["pin"] }⟩], vis := .inherited, ident := none, ty := .other "tuple" [] }]), discriminant := none }] })) == some "duplicate #[pin] attribute"
#guard (pinProject [] []
    [.ident "enum", .ident "DuplicateEnumStruct", .group .brace [.ident "V", .group .brace [.punct '#' false, .group .bracket [.ident "pin"], .punct '#' false, .group .bracket [.ident "pin"], .ident "f", .punct ':' false, .group .paren [], .punct ',' false], .punct ',' false]]
    (fun as => .enum_ { attrs := as, vis := .inherited, ident := "DuplicateEnumStruct", generics := { params := [], whereClause := none }, variants := [{ attrs := [], ident := "V", fields := (.named [{ attrs := [⟨.path { leading := false, segs := ["pin"] }⟩, ⟨.path { leading := false, segs := ["pin"] }⟩], vis := .inherited, ident := (some "f"), ty := .other "tuple" [] }]), discriminant := none }] })) == some "duplicate #[pin] attribute"
#guard (pinProject [] [⟨.path { leading := false, segs := ["pin"] }⟩]
    [.ident "struct", .ident "Struct", .group .brace [.punct '#' false, .group .bracket [.ident "pin"], .ident "f", .punct ':' false, .group .paren [], .punct ',' false]]
    (fun as => .struct_ { attrs := as, vis := .inherited, ident := "Struct", generics := { params := [], whereClause := none }, fields := (.named [{ attrs := [⟨.path { leading := false, segs := ["pin"] }⟩], vis := .inherited, ident := (some "f"), ty := .other "tuple" [] }]) })) == some "#[pin] attribute may only be used on fields of structs or variants"
#guard (pinProject [] []
    [.ident "enum", .ident "Variant", .group .brace [.punct '#' false, .group .bracket [.ident "pin"], .ident "V", .group .paren [.group .paren []], .punct ',' false]]
    (fun as => .enum_ { attrs := as, vis := .inherited, ident := "Variant", generics := { params := [], whereClause := none }, variants := [{ attrs := [⟨.path { leading := false, segs := ["pin"] }⟩], ident := "V", fields := (.unnamed [{ attrs := [], vis := .inherited, ident := none, ty := .other "tuple" [] }]), discriminant := none }] })) == some "#[pin] attribute may only be used on fields of structs or variants"
#guard (pinProject [] [⟨.path { leading := false, segs := ["pin"] }⟩]
    [.ident "enum", .ident "Enum", .group .brace [.ident "V", .group .paren [.group .paren []], .punct ',' false]]
    (fun as => .enum_ { attrs := as, vis := .inherited, ident := "Enum", generics := { params := [], whereClause := none }, variants := [{ attrs := [], ident := "V", fields := (.unnamed [{ attrs := [], vis := .inherited, ident := none, ty := .other "tuple" [] }]), discriminant := none }] })) == some "#[pin] attribute may only be used on fields of structs or variants"
#guard (pinProject [.ident "Replace"] []
    [.ident "struct", .ident "RemovedReplace", .group .paren [.punct '#' false, .group .bracket [.ident "pin"], .group .paren []], .punct ';' false]
    (fun as => .struct_ { attrs := as, vis := .inherited, ident := "RemovedReplace", generics := { params := [], whereClause := none }, fields := (.unnamed [{ attrs := [⟨.path { leading := false, segs := ["pin"] }⟩], vis := .inherited, ident := none, ty := .other "tuple" [] }]) })) == some "`Replace` argument was removed, use `project_replace` argument instead"
#guard (pinProject [.ident "UnsafeUnpin", .punct ',' true, .punct ',' false] []
    [.ident "struct", .ident "Unexpected1", .group .paren [.punct '#' false, .group .bracket [.ident "pin"], .group .paren []], .punct ';' false]
    (fun as => .struct_ { attrs := as, vis := .inherited, ident := "Unexpected1", generics := { params := [], whereClause := none }, fields := (.unnamed [{ attrs := [⟨.path { leading := false, segs := ["pin"] }⟩], vis := .inherited, ident := none, ty := .other "tuple" [] }]) })) == some "expected identifier"
#guard (pinProject [.ident "Foo"] []
    [.ident "struct", .ident "Unexpected2", .group .paren [.punct '#' false, .group .bracket [.ident "pin"], .group .paren []], .punct ';' false]
    (fun as => .struct_ { attrs := as, vis := .inherited, ident := "Unexpected2", generics := { params := [], whereClause := none }, fields := (.unnamed [{ attrs := [⟨.path { leading := false, segs := ["pin"] }⟩], vis := .inherited, ident := none, ty := .other "tuple" [] }]) })) == some "unexpected argument: Foo"
#guard (pinProject [.punct ',' false, .ident "UnsafeUnpin"] []
    [.ident "struct", .ident "Unexpected3", .group .paren [.punct '#' false, .group .bracket [.ident "pin"], .group .paren []], .punct ';' false]
    (fun as => .struct_ { attrs := as, vis := .inherited, ident := "Unexpected3", generics := { params := [], whereClause := none }, fields := (.unnamed [{ attrs := [⟨.path { leading := false, segs := ["pin"] }⟩], vis := .inherited, ident := none, ty := .other "tuple" [] }]) })) == some "expected identifier"
#guard (pinProject [] []
    [.ident "struct", .ident "Unexpected4", .group .paren [.punct '#' false, .group .bracket [.ident "pin"], .group .paren []], .punct ';' false]
    (fun as => .struct_ { attrs := as, vis := .inherited, ident := "Unexpected4", generics := { params := [], whereClause := none }, fields := (.unnamed [{ attrs := [⟨.path { leading := false, segs := ["pin"] }⟩], vis := .inherited, ident := none, ty := .other "tuple" [] }]) })) == none
#guard (pinProject [.ident "PinnedDrop", .ident "PinnedDrop"] []
    [.ident "struct", .ident "Unexpected5", .group .paren [.punct '#' false, .group .bracket [.ident "pin"], .group .paren []], .punct ';' false]
    (fun as => .struct_ { attrs := as, vis := .inherited, ident := "Unexpected5", generics := { params := [], whereClause := none }, fields := (.unnamed [{ attrs := [⟨.path { leading := false, segs := ["pin"] }⟩], vis := .inherited, ident := none, ty := .other "tuple" [] }]) })) == some "expected `,`"
#guard (pinProject [.ident "PinnedDrop", .punct ',' false, .ident "PinnedDrop"] []
    [.ident "struct", .ident "DuplicatePinnedDrop", .group .paren [.punct '#' false, .group .bracket [.ident "pin"], .group .paren []], .punct ';' false]
    (fun as => .struct_ { attrs := as, vis := .inherited, ident := "DuplicatePinnedDrop", generics := { params := [], whereClause := none }, fields := (.unnamed [{ attrs := [⟨.path { leading := false, segs := ["pin"] }⟩], vis := .inherited, ident := none, ty := .other "tuple" [] }]) })) == some "duplicate `PinnedDrop` argument"
#guard (pinProject [.ident "UnsafeUnpin", .punct ',' false, .ident "UnsafeUnpin"] []
    [.ident "struct", .ident "DuplicateUnsafeUnpin", .group .paren [.punct '#' false, .group .bracket [.ident "pin"], .group .paren []], .punct ';' false]
    (fun as => .struct_ { attrs := as, vis := .inherited, ident := "DuplicateUnsafeUnpin", generics := { params := [], whereClause := none }, fields := (.unnamed [{ attrs := [⟨.path { leading := false, segs := ["pin"] }⟩], vis := .inherited, ident := none, ty := .other "tuple" [] }]) })) == some "duplicate `UnsafeUnpin` argument"
#guard (pinProject [.punct '!' false, .ident "Unpin", .punct ',' false, .punct '!' false, .ident "Unpin"] []
    [.ident "struct", .ident "DuplicateNotUnpin", .group .paren [.punct '#' false, .group .bracket [.ident "pin"], .group .paren []], .punct ';' false]
    (fun as => .struct_ { attrs := as, vis := .inherited, ident := "DuplicateNotUnpin", generics := { params := [], whereClause := none }, fields := (.unnamed [{ attrs := [⟨.path { leading := false, segs := ["pin"] }⟩], vis := .inherited, ident := none, ty := .other "tuple" [] }]) })) == some "duplicate `!Unpin` argument"
#guard (pinProject [.ident "PinnedDrop", .punct ',' false, .ident "UnsafeUnpin", .punct ',' false, .ident "UnsafeUnpin"] []
    [.ident "struct", .ident "Duplicate3", .group .paren [.punct '#' false, .group .bracket [.ident "pin"], .group .paren []], .punct ';' false]
    (fun as => .struct_ { attrs := as, vis := .inherited, ident := "Duplicate3", generics := { params := [], whereClause := none }, fields := (.unnamed [{ attrs := [⟨.path { leading := false, segs := ["pin"] }⟩], vis := .inherited, ident := none, ty := .other "tuple" [] }]) })) == some "duplicate `UnsafeUnpin` argument"
#guard (pinProject [.ident "PinnedDrop", .punct ',' false, .ident "UnsafeUnpin", .punct ',' false, .ident "PinnedDrop", .punct ',' false, .ident "UnsafeUnpin"] []
    [.ident "struct", .ident "Duplicate4", .group .paren [.punct '#' false, .group .bracket [.ident "pin"], .group .paren []], .punct ';' false]
    (fun as => .struct_ { attrs := as, vis := .inherited, ident := "Duplicate4", generics := { params := [], whereClause := none }, fields := (.unnamed [{ attrs := [⟨.path { leading := false, segs := ["pin"] }⟩], vis := .inherited, ident := none, ty := .other "tuple" [] }]) })) == some "duplicate `PinnedDrop` argument"
#guard (pinProject [.ident "project", .punct '=' false, .ident "A", .punct ',' false, .ident "project", .punct '=' false, .ident "B"] []
    [.ident "struct", .ident "DuplicateProject", .group .paren [.punct '#' false, .group .bracket [.ident "pin"], .group .paren []], .punct ';' false]
    (fun as => .struct_ { attrs := as, vis := .inherited, ident := "DuplicateProject", generics := { params := [], whereClause := none }, fields := (.unnamed [{ attrs := [⟨.path { leading := false, segs := ["pin"] }⟩], vis := .inherited, ident := none, ty := .other "tuple" [] }]) })) == some "duplicate `project` argument"
#guard (pinProject [.ident "project", .punct '=' false, .ident "A", .punct ',' false, .ident "project_ref", .punct '=' false, .ident "A", .punct ',' false, .ident "project", .punct '=' false, .ident "B"] []
    [.ident "struct", .ident "DuplicateProject2", .group .paren [.punct '#' false, .group .bracket [.ident "pin"], .group .paren []], .punct ';' false]
    (fun as => .struct_ { attrs := as, vis := .inherited, ident := "DuplicateProject2", generics := { params := [], whereClause := none }, fields := (.unnamed [{ attrs := [⟨.path { leading := false, segs := ["pin"] }⟩], vis := .inherited, ident := none, ty := .other "tuple" [] }]) })) == some "duplicate `project` argument"
#guard (pinProject [.ident "project_ref", .punct '=' false, .ident "A", .punct ',' false, .ident "project_ref", .punct '=' false, .ident "B"] []
    [.ident "struct", .ident "DuplicateProjectRef", .group .paren [.punct '#' false, .group .bracket [.ident "pin"], .group .paren []], .punct ';' false]
    (fun as => .struct_ { attrs := as, vis := .inherited, ident := "DuplicateProjectRef", generics := { params := [], whereClause := none }, fields := (.unnamed [{ attrs := [⟨.path { leading := false, segs := ["pin"] }⟩], vis := .inherited, ident := none, ty := .other "tuple" [] }]) })) == some "duplicate `project_ref` argument"
#guard (pinProject [.ident "project_replace", .punct '=' false, .ident "A", .punct ',' false, .ident "project_replace", .punct '=' false, .ident "B"] []
    [.ident "struct", .ident "DuplicateProjectReplace1", .group .paren [.punct '#' false, .group .bracket [.ident "pin"], .group .paren []], .punct ';' false]
    (fun as => .struct_ { attrs := as, vis := .inherited, ident := "DuplicateProjectReplace1", generics := { params := [], whereClause := none }, fields := (.unnamed [{ attrs := [⟨.path { leading := false, segs := ["pin"] }⟩], vis := .inherited, ident := none, ty := .other "tuple" [] }]) })) == some "duplicate `project_replace` argument"
#guard (pinProject [.ident "project_replace", .punct ',' false, .ident "project_replace", .punct '=' false, .ident "B"] []
    [.ident "struct", .ident "DuplicateProjectReplace2", .group .paren [.punct '#' false, .group .bracket [.ident "pin"], .group .paren []], .punct ';' false]
    (fun as => .struct_ { attrs := as, vis := .inherited, ident := "DuplicateProjectReplace2", generics := { params := [], whereClause := none }, fields := (.unnamed [{ attrs := [⟨.path { leading := false, segs := ["pin"] }⟩], vis := .inherited, ident := none, ty := .other "tuple" [] }]) })) == some "duplicate `project_replace` argument"
#guard (pinProject [.ident "project_replace", .punct '=' false, .ident "A", .punct ',' false, .ident "project_replace"] []
    [.ident "struct", .ident "DuplicateProjectReplace3", .group .paren [.punct '#' false, .group .bracket [.ident "pin"], .group .paren []], .punct ';' false]
    (fun as => .struct_ { attrs := as, vis := .inherited, ident := "DuplicateProjectReplace3", generics := { params := [], whereClause := none }, fields := (.unnamed [{ attrs := [⟨.path { leading := false, segs := ["pin"] }⟩], vis := .inherited, ident := none, ty := .other "tuple" [] }]) })) == some "duplicate `project_replace` argument"
#guard (pinProject [.ident "project_replace", .punct '=' false, .ident "A"] []
    [.ident "struct", .ident "ProjectReplaceWithoutReplace", .group .paren [.punct '#' false, .group .bracket [.ident "pin"], .group .paren []], .punct ';' false]
    (fun as => .struct_ { attrs := as, vis := .inherited, ident := "ProjectReplaceWithoutReplace", generics := { params := [], whereClause := none }, fields := (.unnamed [{ attrs := [⟨.path { leading := false, segs := ["pin"] }⟩], vis := .inherited, ident := none, ty := .other "tuple" [] }]) })) == none
#guard (pinProject [.ident "PinnedDrop", .punct ',' false, .ident "project_replace"] []
    [.ident "struct", .ident "PinnedDropWithProjectReplace1", .group .paren [.punct '#' false, .group .bracket [.ident "pin"], .group .paren []], .punct ';' false]
    (fun as => .struct_ { attrs := as, vis := .inherited, ident := "PinnedDropWithProjectReplace1", generics := { params := [], whereClause := none }, fields := (.unnamed [{ attrs := [⟨.path { leading := false, segs := ["pin"] }⟩], vis := .inherited, ident := none, ty := .other "tuple" [] }]) })) == some "arguments `PinnedDrop` and `project_replace` are mutually exclusive"
#guard (pinProject [.ident "project_replace", .punct ',' false, .ident "UnsafeUnpin", .punct ',' false, .ident "PinnedDrop"] []
    [.ident "struct", .ident "PinnedDropWithProjectReplace2", .group .paren [.punct '#' false, .group .bracket [.ident "pin"], .group .paren []], .punct ';' false]
    (fun as => .struct_ { attrs := as, vis := .inherited, ident := "PinnedDropWithProjectReplace2", generics := { params := [], whereClause := none }, fields := (.unnamed [{ attrs := [⟨.path { leading := false, segs := ["pin"] }⟩], vis := .inherited, ident := none, ty := .other "tuple" [] }]) })) == some "arguments `PinnedDrop` and `project_replace` are mutually exclusive"
#guard (pinProject [.ident "UnsafeUnpin", .punct ',' false, .punct '!' false, .ident "Unpin"] []
    [.ident "struct", .ident "UnsafeUnpinWithNotUnpin1", .group .paren [.punct '#' false, .group .bracket [.ident "pin"], .group .paren []], .punct ';' false]
    (fun as => .struct_ { attrs := as, vis := .inherited, ident := "UnsafeUnpinWithNotUnpin1", generics := { params := [], whereClause := none }, fields := (.unnamed [{ attrs := [⟨.path { leading := false, segs := ["pin"] }⟩], vis := .inherited, ident := none, ty := .other "tuple" [] }]) })) == some "arguments `UnsafeUnpin` and `!Unpin` are mutually exclusive"
#guard (pinProject [.punct '!' false, .ident "Unpin", .punct ',' false, .ident "PinnedDrop", .punct ',' false, .ident "UnsafeUnpin"] []
    [.ident "struct", .ident "UnsafeUnpinWithNotUnpin2", .group .paren [.punct '#' false, .group .bracket [.ident "pin"], .group .paren []], .punct ';' false]
    (fun as => .struct_ { attrs := as, vis := .inherited, ident := "UnsafeUnpinWithNotUnpin2", generics := { params := [], whereClause := none }, fields := (.unnamed [{ attrs := [⟨.path { leading := false, segs := ["pin"] }⟩], vis := .inherited, ident := none, ty := .other "tuple" [] }]) })) == some "arguments `UnsafeUnpin` and `!Unpin` are mutually exclusive"
#guard (pinProject [.punct '!' false] []
    [.ident "struct", .ident "NotUnpin1", .group .paren [.punct '#' false, .group .bracket [.ident "pin"], .group .paren []], .punct ';' false]
    (fun as => .struct_ { attrs := as, vis := .inherited, ident := "NotUnpin1", generics := { params := [], whereClause := none }, fields := (.unnamed [{ attrs := [⟨.path { leading := false, segs := ["pin"] }⟩], vis := .inherited, ident := none, ty := .other "tuple" [] }]) })) == some "expected `!Unpin`, found `!`"
#guard (pinProject [.ident "Unpin"] []
    [.ident "struct", .ident "NotUnpin2", .group .paren [.punct '#' false, .group .bracket [.ident "pin"], .group .paren []], .punct ';' false]
    (fun as => .struct_ { attrs := as, vis := .inherited, ident := "NotUnpin2", generics := { params := [], whereClause := none }, fields := (.unnamed [{ attrs := [⟨.path { leading := false, segs := ["pin"] }⟩], vis := .inherited, ident := none, ty := .other "tuple" [] }]) })) == some "unexpected argument: Unpin"
#guard (pinProject [.ident "project"] []
    [.ident "struct", .ident "Project1", .group .paren [.punct '#' false, .group .bracket [.ident "pin"], .group .paren []], .punct ';' false]
    (fun as => .struct_ { attrs := as, vis := .inherited, ident := "Project1", generics := { params := [], whereClause := none }, fields := (.unnamed [{ attrs := [⟨.path { leading := false, segs := ["pin"] }⟩], vis := .inherited, ident := none, ty := .other "tuple" [] }]) })) == some "expected `project = <identifier>`, found `project`"
#guard (pinProject [.ident "project", .punct '=' false] []
    [.ident "struct", .ident "Project2", .group .paren [.punct '#' false, .group .bracket [.ident "pin"], .group .paren []], .punct ';' false]
    (fun as => .struct_ { attrs := as, vis := .inherited, ident := "Project2", generics := { params := [], whereClause := none }, fields := (.unnamed [{ attrs := [⟨.path { leading := false, segs := ["pin"] }⟩], vis := .inherited, ident := none, ty := .other "tuple" [] }]) })) == some "expected `project = <identifier>`, found `project =`"
#guard (pinProject [.ident "project", .punct '=' false, .punct '!' false] []
    [.ident "struct", .ident "Project3", .group .paren [.punct '#' false, .group .bracket [.ident "pin"], .group .paren []], .punct ';' false]
    (fun as => .struct_ { attrs := as, vis := .inherited, ident := "Project3", generics := { params := [], whereClause := none }, fields := (.unnamed [{ attrs := [⟨.path { leading := false, segs := ["pin"] }⟩], vis := .inherited, ident := none, ty := .other "tuple" [] }]) })) == some "expected identifier"
#guard (pinProject [.ident "project_ref"] []
    [.ident "struct", .ident "ProjectRef1", .group .paren [.punct '#' false, .group .bracket [.ident "pin"], .group .paren []], .punct ';' false]
    (fun as => .struct_ { attrs := as, vis := .inherited, ident := "ProjectRef1", generics := { params := [], whereClause := none }, fields := (.unnamed [{ attrs := [⟨.path { leading := false, segs := ["pin"] }⟩], vis := .inherited, ident := none, ty := .other "tuple" [] }]) })) == some "expected `project_ref = <identifier>`, found `project_ref`"
#guard (pinProject [.ident "project_ref", .punct '=' false] []
    [.ident "struct", .ident "ProjectRef2", .group .paren [.punct '#' false, .group .bracket [.ident "pin"], .group .paren []], .punct ';' false]
    (fun as => .struct_ { attrs := as, vis := .inherited, ident := "ProjectRef2", generics := { params := [], whereClause := none }, fields := (.unnamed [{ attrs := [⟨.path { leading := false, segs := ["pin"] }⟩], vis := .inherited, ident := none, ty := .other "tuple" [] }]) })) == some "expected `project_ref = <identifier>`, found `project_ref =`"
#guard (pinProject [.ident "project_ref", .punct '=' false, .punct '!' false] []
    [.ident "struct", .ident "ProjectRef3", .group .paren [.punct '#' false, .group .bracket [.ident "pin"], .group .paren []], .punct ';' false]
    (fun as => .struct_ { attrs := as, vis := .inherited, ident := "ProjectRef3", generics := { params := [], whereClause := none }, fields := (.unnamed [{ attrs := [⟨.path { leading := false, segs := ["pin"] }⟩], vis := .inherited, ident := none, ty := .other "tuple" [] }]) })) == some "expected identifier"
#guard (pinProject [.ident "project_replace"] []
    [.ident "struct", .ident "ProjectReplace1", .group .paren [.punct '#' false, .group .bracket [.ident "pin"], .group .paren []], .punct ';' false]
    (fun as => .struct_ { attrs := as, vis := .inherited, ident := "ProjectReplace1", generics := { params := [], whereClause := none }, fields := (.unnamed [{ attrs := [⟨.path { leading := false, segs := ["pin"] }⟩], vis := .inherited, ident := none, ty := .other "tuple" [] }]) })) == none
#guard (pinProject [.ident "project_replace", .punct '=' false] []
    [.ident "struct", .ident "ProjectReplace2", .group .paren [.punct '#' false, .group .bracket [.ident "pin"], .group .paren []], .punct ';' false]
    (fun as => .struct_ { attrs := as, vis := .inherited, ident := "ProjectReplace2", generics := { params := [], whereClause := none }, fields := (.unnamed [{ attrs := [⟨.path { leading := false, segs := ["pin"] }⟩], vis := .inherited, ident := none, ty := .other "tuple" [] }]) })) == some "expected `project_replace = <identifier>`, found `project_replace =`"
#guard (pinProject [.ident "project_replace", .punct '=' false, .punct '!' false] []
    [.ident "struct", .ident "ProjectReplace3", .group .paren [.punct '#' false, .group .bracket [.ident "pin"], .group .paren []], .punct ';' false]
    (fun as => .struct_ { attrs := as, vis := .inherited, ident := "ProjectReplace3", generics := { params := [], whereClause := none }, fields := (.unnamed [{ attrs := [⟨.path { leading := false, segs := ["pin"] }⟩], vis := .inherited, ident := none, ty := .other "tuple" [] }]) })) == some "expected identifier"
#guard (pinProject [.ident "project_replace"] []
    [.ident "enum", .ident "ProjectReplaceEnum", .group .brace [.ident "V", .group .paren [.punct '#' false, .group .bracket [.ident "pin"], .group .paren []], .punct ',' false]]
    (fun as => .enum_ { attrs := as, vis := .inherited, ident := "ProjectReplaceEnum", generics := { params := [], whereClause := none }, variants := [{ attrs := [], ident := "V", fields := (.unnamed [{ attrs := [⟨.path { leading := false, segs := ["pin"] }⟩], vis := .inherited, ident := none, ty := .other "tuple" [] }]), discriminant := none }] })) == some "`project_replace` argument requires a value when used on enums"
#guard (pinProject [.ident "project", .punct '=' false, .ident "OrigAndProj"] []
    [.ident "struct", .ident "OrigAndProj", .group .paren [.punct '#' false, .group .bracket [.ident "pin"], .group .paren []], .punct ';' false]
    (fun as => .struct_ { attrs := as, vis := .inherited, ident := "OrigAndProj", generics := { params := [], whereClause := none }, fields := (.unnamed [{ attrs := [⟨.path { leading := false, segs := ["pin"] }⟩], vis := .inherited, ident := none, ty := .other "tuple" [] }]) })) == some "name `OrigAndProj` is the same as the original type name"
#guard (pinProject [.ident "project_ref", .punct '=' false, .ident "OrigAndProjRef"] []
    [.ident "struct", .ident "OrigAndProjRef", .group .paren [.punct '#' false, .group .bracket [.ident "pin"], .group .paren []], .punct ';' false]
    (fun as => .struct_ { attrs := as, vis := .inherited, ident := "OrigAndProjRef", generics := { params := [], whereClause := none }, fields := (.unnamed [{ attrs := [⟨.path { leading := false, segs := ["pin"] }⟩], vis := .inherited, ident := none, ty := .other "tuple" [] }]) })) == some "name `OrigAndProjRef` is the same as the original type name"
#guard (pinProject [.ident "project_replace", .punct '=' false, .ident "OrigAndProjOwn"] []
    [.ident "struct", .ident "OrigAndProjOwn", .group .paren [.punct '#' false, .group .bracket [.ident "pin"], .group .paren []], .punct ';' false]
    (fun as => .struct_ { attrs := as, vis := .inherited, ident := "OrigAndProjOwn", generics := { params := [], whereClause := none }, fields := (.unnamed [{ attrs := [⟨.path { leading := false, segs := ["pin"] }⟩], vis := .inherited, ident := none, ty := .other "tuple" [] }]) })) == some "name `OrigAndProjOwn` is the same as the original type name"
#guard (pinProject [.ident "project", .punct '=' false, .ident "A", .punct ',' false, .ident "project_ref", .punct '=' false, .ident "A"] []
    [.ident "struct", .ident "ProjAndProjRef", .group .paren [.punct '#' false, .group .bracket [.ident "pin"], .group .paren []], .punct ';' false]
    (fun as => .struct_ { attrs := as, vis := .inherited, ident := "ProjAndProjRef", generics := { params := [], whereClause := none }, fields := (.unnamed [{ attrs := [⟨.path { leading := false, segs := ["pin"] }⟩], vis := .inherited, ident := none, ty := .other "tuple" [] }]) })) == some "name `A` is already specified by `project` argument"
#guard (pinProject [.ident "project", .punct '=' false, .ident "A", .punct ',' false, .ident "project_replace", .punct '=' false, .ident "A"] []
    [.ident "struct", .ident "ProjAndProjOwn", .group .paren [.punct '#' false, .group .bracket [.ident "pin"], .group .paren []], .punct ';' false]
    (fun as => .struct_ { attrs := as, vis := .inherited, ident := "ProjAndProjOwn", generics := { params := [], whereClause := none }, fields := (.unnamed [{ attrs := [⟨.path { leading := false, segs := ["pin"] }⟩], vis := .inherited, ident := none, ty := .other "tuple" [] }]) })) == some "name `A` is already specified by `project` argument"
#guard (pinProject [.ident "project_ref", .punct '=' false, .ident "A", .punct ',' false, .ident "project_replace", .punct '=' false, .ident "A"] []
    [.ident "struct", .ident "ProjRefAndProjOwn", .group .paren [.punct '#' false, .group .bracket [.ident "pin"], .group .paren []], .punct ';' false]
    (fun as => .struct_ { attrs := as, vis := .inherited, ident := "ProjRefAndProjOwn", generics := { params := [], whereClause := none }, fields := (.unnamed [{ attrs := [⟨.path { leading := false, segs := ["pin"] }⟩], vis := .inherited, ident := none, ty := .other "tuple" [] }]) })) == some "name `A` is already specified by `project_ref` argument"
#guard (pinProject [] [⟨.path { leading := false, segs := ["pin_project"] }⟩]
    [.ident "struct", .ident "Duplicate", .group .paren [.punct '#' false, .group .bracket [.ident "pin"], .group .paren []], .punct ';' false]
    (fun as => .struct_ { attrs := as, vis := .inherited, ident := "Duplicate", generics := { params := [], whereClause := none }, fields := (.unnamed [{ attrs := [⟨.path { leading := false, segs := ["pin"] }⟩], vis := .inherited, ident := none, ty := .other "tuple" [] }]) })) == some "duplicate #[pin_project] attribute"
#guard (pinProject [] []
    [.ident "struct", .ident "Struct", .group .brace []]
    (fun as => .struct_ { attrs := as, vis := .inherited, ident := "Struct", generics := { params := [], whereClause := none }, fields := (.named []) })) == some "#[pin_project] attribute may not be used on structs with zero fields"
#guard (pinProject [] []
    [.ident "struct", .ident "TupleStruct", .group .paren [], .punct ';' false]
    (fun as => .struct_ { attrs := as, vis := .inherited, ident := "TupleStruct", generics := { params := [], whereClause := none }, fields := (.unnamed []) })) == some "#[pin_project] attribute may not be used on structs with zero fields"
#guard (pinProject [] []
    [.ident "struct", .ident "UnitStruct", .punct ';' false]
    (fun as => .struct_ { attrs := as, vis := .inherited, ident := "UnitStruct", generics := { params := [], whereClause := none }, fields := .unit })) == some "#[pin_project] attribute may not be used on structs with zero fields"
#guard (pinProject [] []
    [.ident "enum", .ident "EnumEmpty", .group .brace []]
    (fun as => .enum_ { attrs := as, vis := .inherited, ident := "EnumEmpty", generics := { params := [], whereClause := none }, variants := [] })) == some "#[pin_project] attribute may not be used on enums without variants"
#guard (pinProject [] []
    [.ident "enum", .ident "EnumDiscriminant", .group .brace [.ident "V", .punct '=' false, .lit "2", .punct ',' false]]
    (fun as => .enum_ { attrs := as, vis := .inherited, ident := "EnumDiscriminant", generics := { params := [], whereClause := none }, variants := [{ attrs := [], ident := "V", fields := .unit, discriminant := (some (.other "expr" [])) }] })) == some "#[pin_project] attribute may not be used on enums with discriminants"
#guard (pinProject [] []
    [.ident "enum", .ident "EnumZeroFields", .group .brace [.ident "Unit", .punct ',' false, .ident "Tuple", .group .paren [], .punct ',' false, .ident "Struct", .group .brace [], .punct ',' false]]
    (fun as => .enum_ { attrs := as, vis := .inherited, ident := "EnumZeroFields", generics := { params := [], whereClause := none }, variants := [{ attrs := [], ident := "Unit", fields := .unit, discriminant := none }, { attrs := [], ident := "Tuple", fields := (.unnamed []), discriminant := none }, { attrs := [], ident := "Struct", fields := (.named []), discriminant := none }] })) == some "#[pin_project] attribute may not be used on enums with zero fields"
#guard (pinProject [] []
    [.ident "union", .ident "Union", .group .brace [.ident "f", .punct ':' false, .group .paren [], .punct ',' false]]
    (fun as => .other as)) == some "#[pin_project] attribute may only be used on structs or enums"
#guard (pinProject [] []
    [.ident "impl", .ident "Impl", .group .brace []]
    (fun as => .other as)) == some "#[pin_project] attribute may only be used on structs or enums"
#guard (pinProject [] [⟨.list { leading := false, segs := ["repr"] } .paren [.ident "packed"]⟩]
    [.ident "struct", .ident "Struct", .group .brace []]
    (fun as => .struct_ { attrs := as, vis := .inherited, ident := "Struct", generics := { params := [], whereClause := none }, fields := (.named []) })) == some "#[pin_project] attribute may not be used on #[repr(packed)] types"
#guard (pinProject [] [⟨.list { leading := false, segs := ["repr"] } .paren [.ident "packed"]⟩]
    [.ident "struct", .ident "TupleStruct", .group .paren [], .punct ';' false]
    (fun as => .struct_ { attrs := as, vis := .inherited, ident := "TupleStruct", generics := { params := [], whereClause := none }, fields := (.unnamed []) })) == some "#[pin_project] attribute may not be used on #[repr(packed)] types"
#guard (pinProject [] [⟨.list { leading := false, segs := ["repr"] } .paren [.ident "packed"]⟩]
    [.ident "struct", .ident "UnitStruct", .punct ';' false]
    (fun as => .struct_ { attrs := as, vis := .inherited, ident := "UnitStruct", generics := { params := [], whereClause := none }, fields := .unit })) == some "#[pin_project] attribute may not be used on #[repr(packed)] types"

-- /repo/tests/ui/pin_project/overlapping_unpin_struct.rs
#guard (pinProject [] []
    [.ident "struct", .ident "S", .punct '<' false, .ident "T", .punct '>' false, .group .brace [.punct '#' false, .group .bracket [.ident "pin"], .ident "f", .punct ':' false, .ident "T", .punct ',' false]]
    (fun as => .struct_ { attrs := as, vis := .inherited, ident := "S", generics := { params := [.type "T" [] none], whereClause := none }, fields := (.named [{ attrs := [⟨.path { leading := false, segs := ["pin"] }⟩], vis := .inherited, ident := (some "f"), ty := .tyPath .none (.mk false [.mk "T" .none]) }]) })) == none

-- /repo/tests/ui/pin_project/override-priv-mod.rs
#guard (pinProject [] []
    [.ident "struct", .ident "S", .group .brace [.punct '#' false, .group .bracket [.ident "pin"], .ident "f", .punct ':' false, .group .paren [.ident "u8", .punct ',' false, .ident "PhantomPinned"], .punct ',' false]]
    (fun as => .struct_ { attrs := as, vis := .inherited, ident := "S", generics := { params := [], whereClause := none }, fields := (.named [{ attrs := [⟨.path { leading := false, segs := ["pin"] }⟩], vis := .inherited, ident := (some "f"), ty := .other "tuple" [.tyPath .none (.mk false [.mk "u8" .none]), .tyPath .none (.mk false [.mk "PhantomPinned" .none])] }]) })) == none

-- /repo/tests/ui/pin_project/packed-enum.rs
#guard (pinProject [] [⟨.list { leading := false, segs := ["repr"] } .paren [.ident "packed"]⟩]
    [.ident "enum", .ident "E2", .group .brace [.ident "V", .group .paren [.group .paren []], .punct ',' false]]
    (fun as => .enum_ { attrs := as, vis := .inherited, ident := "E2", generics := { params := [], whereClause := none }, variants := [{ attrs := [], ident := "V", fields := (.unnamed [{ attrs := [], vis := .inherited, ident := none, ty := .other "tuple" [] }]), discriminant := none }] })) == some "#[repr(packed)] attribute should be applied to a struct or union"
#guard (pinProject [] [⟨.list { leading := false, segs := ["repr"] } .paren [.ident "packed"]⟩]
    [.ident "enum", .ident "E3", .group .brace [.ident "V", .group .paren [.group .paren []], .punct ',' false]]
    (fun as => .enum_ { attrs := as, vis := .inherited, ident := "E3", generics := { params := [], whereClause := none }, variants := [{ attrs := [], ident := "V", fields := (.unnamed [{ attrs := [], vis := .inherited, ident := none, ty := .other "tuple" [] }]), discriminant := none }] })) == some "#[repr(packed)] attribute should be applied to a struct or union"

-- /repo/tests/ui/pin_project/packed-name-value.rs
#guard (pinProject [] [⟨.list { leading := false, segs := ["repr"] } .paren [.ident "packed", .punct '=' false, .lit "\"\""]⟩]
    [.ident "struct", .ident "S2", .group .brace [.ident "f", .punct ':' false, .group .paren [], .punct ',' false]]
    (fun as => .struct_ { attrs := as, vis := .inherited, ident := "S2", generics := { params := [], whereClause := none }, fields := (.named [{ attrs := [], vis := .inherited, ident := (some "f"), ty := .other "tuple" [] }]) })) == some "#[repr(packed)] attribute should not be name-value pair"
#guard (pinProject [] [⟨.list { leading := false, segs := ["repr"] } .paren [.ident "packed", .punct '=' false, .lit "\"\""]⟩]
    [.ident "struct", .ident "S3", .group .brace [.ident "f", .punct ':' false, .group .paren [], .punct ',' false]]
    (fun as => .struct_ { attrs := as, vis := .inherited, ident := "S3", generics := { params := [], whereClause := none }, fields := (.named [{ attrs := [], vis := .inherited, ident := (some "f"), ty := .other "tuple" [] }]) })) == some "#[repr(packed)] attribute should not be name-value pair"

-- /repo/tests/ui/pin_project/packed.rs
#guard (pinProject [] [⟨.list { leading := false, segs := ["repr"] } .paren [.ident "packed", .punct ',' false, .ident "C"]⟩]
    [.ident "struct", .ident "Packed1", .group .brace [.punct '#' false, .group .bracket [.ident "pin"], .ident "f", .punct ':' false, .ident "u8", .punct ',' false]]
    (fun as => .struct_ { attrs := as, vis := .inherited, ident := "Packed1", generics := { params := [], whereClause := none }, fields := (.named [{ attrs := [⟨.path { leading := false, segs := ["pin"] }⟩], vis := .inherited, ident := (some "f"), ty := .tyPath .none (.mk false [.mk "u8" .none]) }]) })) == some "#[pin_project] attribute may not be used on #[repr(packed)] types"
#guard (pinProject [] [⟨.list { leading := false, segs := ["repr"] } .paren [.ident "packed", .punct ',' false, .ident "C"]⟩]
    [.ident "struct", .ident "Packed2", .group .brace [.punct '#' false, .group .bracket [.ident "pin"], .ident "f", .punct ':' false, .ident "u8", .punct ',' false]]
    (fun as => .struct_ { attrs := as, vis := .inherited, ident := "Packed2", generics := { params := [], whereClause := none }, fields := (.named [{ attrs := [⟨.path { leading := false, segs := ["pin"] }⟩], vis := .inherited, ident := (some "f"), ty := .tyPath .none (.mk false [.mk "u8" .none]) }]) })) == some "#[pin_project] attribute may not be used on #[repr(packed)] types"
#guard (pinProject [] [⟨.list { leading := false, segs := ["repr"] } .paren [.ident "packed", .group .paren [.lit "2"]]⟩]
    [.ident "struct", .ident "PackedN1", .group .brace [.punct '#' false, .group .bracket [.ident "pin"], .ident "f", .punct ':' false, .ident "u32", .punct ',' false]]
    (fun as => .struct_ { attrs := as, vis := .inherited, ident := "PackedN1", generics := { params := [], whereClause := none }, fields := (.named [{ attrs := [⟨.path { leading := false, segs := ["pin"] }⟩], vis := .inherited, ident := (some "f"), ty := .tyPath .none (.mk false [.mk "u32" .none]) }]) })) == some "#[pin_project] attribute may not be used on #[repr(packed)] types"
#guard (pinProject [] [⟨.list { leading := false, segs := ["repr"] } .paren [.ident "packed", .group .paren [.lit "2"]]⟩]
    [.ident "struct", .ident "PackedN2", .group .brace [.punct '#' false, .group .bracket [.ident "pin"], .ident "f", .punct ':' false, .ident "u32", .punct ',' false]]
    (fun as => .struct_ { attrs := as, vis := .inherited, ident := "PackedN2", generics := { params := [], whereClause := none }, fields := (.named [{ attrs := [⟨.path { leading := false, segs := ["pin"] }⟩], vis := .inherited, ident := (some "f"), ty := .tyPath .none (.mk false [.mk "u32" .none]) }]) })) == some "#[pin_project] attribute may not be used on #[repr(packed)] types"

-- /repo/tests/ui/pin_project/packed_sneaky-1.rs
#guard (pinnedDrop []
    { attrs := [], isUnsafe := false, generics := { params := [], whereClause := none }, trait_ := (some (false, (.mk false [.mk "PinnedDrop" .none]))), selfTy := .tyPath .none (.mk false [.mk "D" .none]), selfToks := [.ident "D"], items := [.fn { attrs := [], sig := { quals := [], isUnsafe := false, ident := "drop", generics := { params := [], whereClause := none }, inputs := [.receiver false false (.tyPath .none (.mk false [.mk "Pin" (.angle false [.other "&mut" [.tyPath .none (.mk false [.mk "Self" .none])]])]))], output := none }, block := [] }] }) == none

-- /repo/tests/ui/pin_project/packed_sneaky-2.rs
#guard (pinProject [] []
    [.ident "struct", .ident "B", .group .brace [.punct '#' false, .group .bracket [.ident "pin"], .ident "f", .punct ':' false, .ident "u32", .punct ',' false]]
    (fun as => .struct_ { attrs := as, vis := .inherited, ident := "B", generics := { params := [], whereClause := none }, fields := (.named [{ attrs := [⟨.path { leading := false, segs := ["pin"] }⟩], vis := .inherited, ident := (some "f"), ty := .tyPath .none (.mk false [.mk "u32" .none]) }]) })) == none

-- /repo/tests/ui/pin_project/packed_sneaky-3.rs
#guard (pinProject [] []
    [.ident "struct", .ident "S1", .group .brace [.punct '#' false, .group .bracket [.ident "pin"], .ident "f", .punct ':' false, .ident "u32", .punct ',' false]]
    (fun as => .struct_ { attrs := as, vis := .inherited, ident := "S1", generics := { params := [], whereClause := none }, fields := (.named [{ attrs := [⟨.path { leading := false, segs := ["pin"] }⟩], vis := .inherited, ident := (some "f"), ty := .tyPath .none (.mk false [.mk "u32" .none]) }]) })) == none
#guard (pinProject [] []
    [.ident "struct", .ident "S2", .group .brace [.punct '#' false, .group .bracket [.ident "pin"], .ident "f", .punct ':' false, .ident "u32", .punct ',' false]]
    (fun as => .struct_ { attrs := as, vis := .inherited, ident := "S2", generics := { params := [], whereClause := none }, fields := (.named [{ attrs := [⟨.path { leading := false, segs := ["pin"] }⟩], vis := .inherited, ident := (some "f"), ty := .tyPath .none (.mk false [.mk "u32" .none]) }]) })) == none
#guard (pinProject [] []
    [.ident "struct", .ident "S4", .group .brace [.punct '#' false, .group .bracket [.ident "pin"], .ident "f", .punct ':' false, .ident "u32", .punct ',' false]]
    (fun as => .struct_ { attrs := as, vis := .inherited, ident := "S4", generics := { params := [], whereClause := none }, fields := (.named [{ attrs := [⟨.path { leading := false, segs := ["pin"] }⟩], vis := .inherited, ident := (some "f"), ty := .tyPath .none (.mk false [.mk "u32" .none]) }]) })) == none

-- /repo/tests/ui/pin_project/project_replace_unsized.rs
#guard (pinProject [.ident "project_replace"] []
    [.ident "struct", .ident "Struct", .punct '<' false, .ident "T", .punct ':' false, .punct '?' false, .ident "Sized", .punct '>' false, .group .brace [.ident "f", .punct ':' false, .ident "T", .punct ',' false]]
    (fun as => .struct_ { attrs := as, vis := .inherited, ident := "Struct", generics := { params := [.type "T" [.other "?" [.path (.mk false [.mk "Sized" .none])]] none], whereClause := none }, fields := (.named [{ attrs := [], vis := .inherited, ident := (some "f"), ty := .tyPath .none (.mk false [.mk "T" .none]) }]) })) == none
#guard (pinProject [.ident "project_replace"] []
    [.ident "struct", .ident "TupleStruct", .punct '<' false, .ident "T", .punct ':' false, .punct '?' false, .ident "Sized", .punct '>' false, .group .paren [.ident "T"], .punct ';' false]
    (fun as => .struct_ { attrs := as, vis := .inherited, ident := "TupleStruct", generics := { params := [.type "T" [.other "?" [.path (.mk false [.mk "Sized" .none])]] none], whereClause := none }, fields := (.unnamed [{ attrs := [], vis := .inherited, ident := none, ty := .tyPath .none (.mk false [.mk "T" .none]) }]) })) == none

-- /repo/tests/ui/pin_project/project_replace_unsized_fn_params.rs
#guard (pinProject [.ident "project_replace"] []
    [.ident "struct", .ident "Struct", .punct '<' false, .ident "T", .punct ':' false, .punct '?' false, .ident "Sized", .punct '>' false, .group .brace [.ident "f", .punct ':' false, .ident "T", .punct ',' false]]
    (fun as => .struct_ { attrs := as, vis := .inherited, ident := "Struct", generics := { params := [.type "T" [.other "?" [.path (.mk false [.mk "Sized" .none])]] none], whereClause := none }, fields := (.named [{ attrs := [], vis := .inherited, ident := (some "f"), ty := .tyPath .none (.mk false [.mk "T" .none]) }]) })) == none
#guard (pinProject [.ident "project_replace"] []
    [.ident "struct", .ident "TupleStruct", .punct '<' false, .ident "T", .punct ':' false, .punct '?' false, .ident "Sized", .punct '>' false, .group .paren [.ident "T"], .punct ';' false]
    (fun as => .struct_ { attrs := as, vis := .inherited, ident := "TupleStruct", generics := { params := [.type "T" [.other "?" [.path (.mk false [.mk "Sized" .none])]] none], whereClause := none }, fields := (.unnamed [{ attrs := [], vis := .inherited, ident := none, ty := .tyPath .none (.mk false [.mk "T" .none]) }]) })) == none

-- /repo/tests/ui/pin_project/unpin_sneaky.rs
#guard (pinProject [] []
    [.ident "struct", .ident "S", .group .brace [.punct '#' false, .group .bracket [.ident "pin"], .ident "f", .punct ':' false, .ident "u8", .punct ',' false]]
    (fun as => .struct_ { attrs := as, vis := .inherited, ident := "S", generics := { params := [], whereClause := none }, fields := (.named [{ attrs := [⟨.path { leading := false, segs := ["pin"] }⟩], vis := .inherited, ident := (some "f"), ty := .tyPath .none (.mk false [.mk "u8" .none]) }]) })) == none

-- /repo/tests/ui/pin_project/visibility.rs
#guard (pinProject [.ident "project", .punct '=' false, .ident "DProj", .punct ',' false, .ident "project_ref", .punct '=' false, .ident "DProjRef"] []
    [.ident "pub", .ident "struct", .ident "Default", .group .paren [.group .paren []], .punct ';' false]
    (fun as => .struct_ { attrs := as, vis := .pub, ident := "Default", generics := { params := [], whereClause := none }, fields := (.unnamed [{ attrs := [], vis := .inherited, ident := none, ty := .other "tuple" [] }]) })) == none
#guard (pinProject [.ident "project", .punct '=' false, .ident "RProj", .punct ',' false, .ident "project_ref", .punct '=' false, .ident "RProjRef", .punct ',' false, .ident "project_replace", .punct '=' false, .ident "RProjOwn"] []
    [.ident "pub", .ident "struct", .ident "Replace", .group .paren [.group .paren []], .punct ';' false]
    (fun as => .struct_ { attrs := as, vis := .pub, ident := "Replace", generics := { params := [], whereClause := none }, fields := (.unnamed [{ attrs := [], vis := .inherited, ident := none, ty := .other "tuple" [] }]) })) == none
#guard (pinProject [.ident "project", .punct '=' false, .ident "DProj", .punct ',' false, .ident "project_ref", .punct '=' false, .ident "DProjRef"] []
    [.ident "pub", .group .paren [.ident "crate"], .ident "struct", .ident "Default", .group .paren [.group .paren []], .punct ';' false]
    (fun as => .struct_ { attrs := as, vis := (.restricted false { leading := false, segs := ["crate"] }), ident := "Default", generics := { params := [], whereClause := none }, fields := (.unnamed [{ attrs := [], vis := .inherited, ident := none, ty := .other "tuple" [] }]) })) == none
#guard (pinProject [.ident "project", .punct '=' false, .ident "RProj", .punct ',' false, .ident "project_ref", .punct '=' false, .ident "RProjRef", .punct ',' false, .ident "project_replace", .punct '=' false, .ident "RProjOwn"] []
    [.ident "pub", .group .paren [.ident "crate"], .ident "struct", .ident "Replace", .group .paren [.group .paren []], .punct ';' false]
    (fun as => .struct_ { attrs := as, vis := (.restricted false { leading := false, segs := ["crate"] }), ident := "Replace", generics := { params := [], whereClause := none }, fields := (.unnamed [{ attrs := [], vis := .inherited, ident := none, ty := .other "tuple" [] }]) })) == none

-- /repo/tests/ui/pinned_drop/call-drop-inner.rs
#guard (pinProject [.ident "PinnedDrop"] []
    [.ident "struct", .ident "Struct", .group .brace [.ident "f", .punct ':' false, .ident "bool", .punct ',' false]]
    (fun as => .struct_ { attrs := as, vis := .inherited, ident := "Struct", generics := { params := [], whereClause := none }, fields := (.named [{ attrs := [], vis := .inherited, ident := (some "f"), ty := .tyPath .none (.mk false [.mk "bool" .none]) }]) })) == none
#guard (pinnedDrop []
    { attrs := [], isUnsafe := false, generics := { params := [], whereClause := none }, trait_ := (some (false, (.mk false [.mk "PinnedDrop" .none]))), selfTy := .tyPath .none (.mk false [.mk "Struct" .none]), selfToks := [.ident "Struct"], items := [.fn { attrs := [], sig := { quals := [], isUnsafe := false, ident := "drop", generics := { params := [], whereClause := none }, inputs := [.receiver true false (.tyPath .none (.mk false [.mk "Pin" (.angle false [.other "&mut" [.tyPath .none (.mk false [.mk "Self" .none])]])]))], output := none }, block := [] }] }) == none

-- /repo/tests/ui/pinned_drop/conditional-drop-impl.rs
#guard (pinProject [.ident "PinnedDrop"] []
    [.ident "struct", .ident "PinnedDropImpl", .punct '<' false, .ident "T", .punct '>' false, .group .brace [.punct '#' false, .group .bracket [.ident "pin"], .ident "f", .punct ':' false, .ident "T", .punct ',' false]]
    (fun as => .struct_ { attrs := as, vis := .inherited, ident := "PinnedDropImpl", generics := { params := [.type "T" [] none], whereClause := none }, fields := (.named [{ attrs := [⟨.path { leading := false, segs := ["pin"] }⟩], vis := .inherited, ident := (some "f"), ty := .tyPath .none (.mk false [.mk "T" .none]) }]) })) == none
#guard (pinnedDrop []
    { attrs := [], isUnsafe := false, generics := { params := [.type "T" [.path (.mk false [.mk "Unpin" .none])] none], whereClause := none }, trait_ := (some (false, (.mk false [.mk "PinnedDrop" .none]))), selfTy := .tyPath .none (.mk false [.mk "PinnedDropImpl" (.angle false [.tyPath .none (.mk false [.mk "T" .none])])]), selfToks := [.ident "PinnedDropImpl", .punct '<' false, .ident "T", .punct '>' false], items := [.fn { attrs := [], sig := { quals := [], isUnsafe := false, ident := "drop", generics := { params := [], whereClause := none }, inputs := [.receiver false false (.tyPath .none (.mk false [.mk "Pin" (.angle false [.other "&mut" [.tyPath .none (.mk false [.mk "Self" .none])]])]))], output := none }, block := [] }] }) == none

-- /repo/tests/ui/pinned_drop/forget-pinned-drop-impl.rs
#guard (pinProject [.ident "PinnedDrop"] []
    [.ident "struct", .ident "Struct", .group .brace [.punct '#' false, .group .bracket [.ident "pin"], .ident "f", .punct ':' false, .ident "u8", .punct ',' false]]
    (fun as => .struct_ { attrs := as, vis := .inherited, ident := "Struct", generics := { params := [], whereClause := none }, fields := (.named [{ attrs := [⟨.path { leading := false, segs := ["pin"] }⟩], vis := .inherited, ident := (some "f"), ty := .tyPath .none (.mk false [.mk "u8" .none]) }]) })) == none

-- /repo/tests/ui/pinned_drop/invalid.rs
#guard (pinProject [.ident "PinnedDrop"] []
    [.ident "struct", .ident "UnexpectedArg1", .group .paren [.group .paren []], .punct ';' false]
    (fun as => .struct_ { attrs := as, vis := .inherited, ident := "UnexpectedArg1", generics := { params := [], whereClause := none }, fields := (.unnamed [{ attrs := [], vis := .inherited, ident := none, ty := .other "tuple" [] }]) })) == none
#guard (pinnedDrop [.ident "foo"]
    { attrs := [], isUnsafe := false, generics := { params := [], whereClause := none }, trait_ := (some (false, (.mk false [.mk "PinnedDrop" .none]))), selfTy := .tyPath .none (.mk false [.mk "UnexpectedArg1" .none]), selfToks := [.ident "UnexpectedArg1"], items := [.fn { attrs := [], sig := { quals := [], isUnsafe := false, ident := "drop", generics := { params := [], whereClause := none }, inputs := [.receiver false false (.tyPath .none (.mk false [.mk "Pin" (.angle false [.other "&mut" [.tyPath .none (.mk false [.mk "Self" .none])]])]))], output := none }, block := [] }] }) == some "unexpected argument"
#guard (pinProject [.ident "PinnedDrop"] []
    [.ident "struct", .ident "UnexpectedArg2", .group .paren [.group .paren []], .punct ';' false]
    (fun as => .struct_ { attrs := as, vis := .inherited, ident := "UnexpectedArg2", generics := { params := [], whereClause := none }, fields := (.unnamed [{ attrs := [], vis := .inherited, ident := none, ty := .other "tuple" [] }]) })) == none
#guard (pinnedDrop []
    { attrs := [], isUnsafe := false, generics := { params := [], whereClause := none }, trait_ := (some (false, (.mk false [.mk "PinnedDrop" .none]))), selfTy := .tyPath .none (.mk false [.mk "UnexpectedArg2" .none]), selfToks := [.ident "UnexpectedArg2"], items := [.fn { attrs := [], sig := { quals := [], isUnsafe := false, ident := "drop", generics := { params := [], whereClause := none }, inputs := [.receiver false false (.tyPath .none (.mk false [.mk "Pin" (.angle false [.other "&mut" [.tyPath .none (.mk false [.mk "Self" .none])]])]))], output := none }, block := [] }] }) == none
#guard (pinProject [.ident "PinnedDrop"] []
    [.ident "struct", .ident "Duplicate", .group .paren [.group .paren []], .punct ';' false]
    (fun as => .struct_ { attrs := as, vis := .inherited, ident := "Duplicate", generics := { params := [], whereClause := none }, fields := (.unnamed [{ attrs := [], vis := .inherited, ident := none, ty := .other "tuple" [] }]) })) == none
#guard (pinnedDrop []
    { attrs := [⟨.path { leading := false, segs := ["pinned_drop"] }⟩], isUnsafe := false, generics := { params := [], whereClause := none }, trait_ := (some (false, (.mk false [.mk "PinnedDrop" .none]))), selfTy := .tyPath .none (.mk false [.mk "Duplicate" .none]), selfToks := [.ident "Duplicate"], items := [.fn { attrs := [], sig := { quals := [], isUnsafe := false, ident := "drop", generics := { params := [], whereClause := none }, inputs := [.receiver false false (.tyPath .none (.mk false [.mk "Pin" (.angle false [.other "&mut" [.tyPath .none (.mk false [.mk "Self" .none])]])]))], output := none }, block := [] }] }) == some "duplicate #[pinned_drop] attribute"
#guard (pinProject [.ident "PinnedDrop"] []
    [.ident "struct", .ident "TraitImpl", .group .paren [.group .paren []], .punct ';' false]
    (fun as => .struct_ { attrs := as, vis := .inherited, ident := "TraitImpl", generics := { params := [], whereClause := none }, fields := (.unnamed [{ attrs := [], vis := .inherited, ident := none, ty := .other "tuple" [] }]) })) == none
#guard (pinnedDrop []
    { attrs := [], isUnsafe := false, generics := { params := [], whereClause := none }, trait_ := (some (false, (.mk false [.mk "Drop" .none]))), selfTy := .tyPath .none (.mk false [.mk "TraitImpl" .none]), selfToks := [.ident "TraitImpl"], items := [] }) == some "#[pinned_drop] may only be used on implementation for the `PinnedDrop` trait"
#guard (pinProject [.ident "PinnedDrop"] []
    [.ident "struct", .ident "InherentImpl", .group .paren [.group .paren []], .punct ';' false]
    (fun as => .struct_ { attrs := as, vis := .inherited, ident := "InherentImpl", generics := { params := [], whereClause := none }, fields := (.unnamed [{ attrs := [], vis := .inherited, ident := none, ty := .other "tuple" [] }]) })) == none
#guard (pinnedDrop []
    { attrs := [], isUnsafe := false, generics := { params := [], whereClause := none }, trait_ := none, selfTy := .tyPath .none (.mk false [.mk "InherentImpl" .none]), selfToks := [.ident "InherentImpl"], items := [] }) == some "#[pinned_drop] may only be used on implementation for the `PinnedDrop` trait"
#guard (pinProject [.ident "PinnedDrop"] []
    [.ident "struct", .ident "Impl", .group .paren [.group .paren []], .punct ';' false]
    (fun as => .struct_ { attrs := as, vis := .inherited, ident := "Impl", generics := { params := [], whereClause := none }, fields := (.unnamed [{ attrs := [], vis := .inherited, ident := none, ty := .other "tuple" [] }]) })) == none
#guard (pinnedDrop []
    { attrs := [], isUnsafe := true, generics := { params := [], whereClause := none }, trait_ := (some (false, (.mk false [.mk "PinnedDrop" .none]))), selfTy := .tyPath .none (.mk false [.mk "Impl" .none]), selfToks := [.ident "Impl"], items := [.fn { attrs := [], sig := { quals := [], isUnsafe := false, ident := "drop", generics := { params := [], whereClause := none }, inputs := [.receiver false false (.tyPath .none (.mk false [.mk "Pin" (.angle false [.other "&mut" [.tyPath .none (.mk false [.mk "Self" .none])]])]))], output := none }, block := [] }] }) == some "implementing the trait `PinnedDrop` is not unsafe"
#guard (pinProject [.ident "PinnedDrop"] []
    [.ident "struct", .ident "Method", .group .paren [.group .paren []], .punct ';' false]
    (fun as => .struct_ { attrs := as, vis := .inherited, ident := "Method", generics := { params := [], whereClause := none }, fields := (.unnamed [{ attrs := [], vis := .inherited, ident := none, ty := .other "tuple" [] }]) })) == none
#guard (pinnedDrop []
    { attrs := [], isUnsafe := false, generics := { params := [], whereClause := none }, trait_ := (some (false, (.mk false [.mk "PinnedDrop" .none]))), selfTy := .tyPath .none (.mk false [.mk "Method" .none]), selfToks := [.ident "Method"], items := [.fn { attrs := [], sig := { quals := [], isUnsafe := true, ident := "drop", generics := { params := [], whereClause := none }, inputs := [.receiver false false (.tyPath .none (.mk false [.mk "Pin" (.angle false [.other "&mut" [.tyPath .none (.mk false [.mk "Self" .none])]])]))], output := none }, block := [] }] }) == some "implementing the method `drop` is not unsafe"
#guard (pinProject [.ident "PinnedDrop"] []
    [.ident "struct", .ident "Empty", .group .paren [.group .paren []], .punct ';' false]
    (fun as => .struct_ { attrs := as, vis := .inherited, ident := "Empty", generics := { params := [], whereClause := none }, fields := (.unnamed [{ attrs := [], vis := .inherited, ident := none, ty := .other "tuple" [] }]) })) == none
#guard (pinnedDrop []
    { attrs := [], isUnsafe := false, generics := { params := [], whereClause := none }, trait_ := (some (false, (.mk false [.mk "PinnedDrop" .none]))), selfTy := .tyPath .none (.mk false [.mk "Empty" .none]), selfToks := [.ident "Empty"], items := [] }) == some "not all trait items implemented, missing: `drop`"
#guard (pinProject [.ident "PinnedDrop"] []
    [.ident "struct", .ident "Const1", .group .paren [.group .paren []], .punct ';' false]
    (fun as => .struct_ { attrs := as, vis := .inherited, ident := "Const1", generics := { params := [], whereClause := none }, fields := (.unnamed [{ attrs := [], vis := .inherited, ident := none, ty := .other "tuple" [] }]) })) == none
#guard (pinnedDrop []
    { attrs := [], isUnsafe := false, generics := { params := [], whereClause := none }, trait_ := (some (false, (.mk false [.mk "PinnedDrop" .none]))), selfTy := .tyPath .none (.mk false [.mk "Const1" .none]), selfToks := [.ident "Const1"], items := [.const "A", .fn { attrs := [], sig := { quals := [], isUnsafe := false, ident := "drop", generics := { params := [], whereClause := none }, inputs := [.receiver false false (.tyPath .none (.mk false [.mk "Pin" (.angle false [.other "&mut" [.tyPath .none (.mk false [.mk "Self" .none])]])]))], output := none }, block := [] }] }) == some "const `A` is not a member of trait `PinnedDrop`"
#guard (pinProject [.ident "PinnedDrop"] []
    [.ident "struct", .ident "Const2", .group .paren [.group .paren []], .punct ';' false]
    (fun as => .struct_ { attrs := as, vis := .inherited, ident := "Const2", generics := { params := [], whereClause := none }, fields := (.unnamed [{ attrs := [], vis := .inherited, ident := none, ty := .other "tuple" [] }]) })) == none
#guard (pinnedDrop []
    { attrs := [], isUnsafe := false, generics := { params := [], whereClause := none }, trait_ := (some (false, (.mk false [.mk "PinnedDrop" .none]))), selfTy := .tyPath .none (.mk false [.mk "Const2" .none]), selfToks := [.ident "Const2"], items := [.fn { attrs := [], sig := { quals := [], isUnsafe := false, ident := "drop", generics := { params := [], whereClause := none }, inputs := [.receiver false false (.tyPath .none (.mk false [.mk "Pin" (.angle false [.other "&mut" [.tyPath .none (.mk false [.mk "Self" .none])]])]))], output := none }, block := [] }, .const "A"] }) == some "const `A` is not a member of trait `PinnedDrop`"
#guard (pinProject [.ident "PinnedDrop"] []
    [.ident "struct", .ident "Type1", .group .paren [.group .paren []], .punct ';' false]
    (fun as => .struct_ { attrs := as, vis := .inherited, ident := "Type1", generics := { params := [], whereClause := none }, fields := (.unnamed [{ attrs := [], vis := .inherited, ident := none, ty := .other "tuple" [] }]) })) == none
#guard (pinnedDrop []
    { attrs := [], isUnsafe := false, generics := { params := [], whereClause := none }, trait_ := (some (false, (.mk false [.mk "PinnedDrop" .none]))), selfTy := .tyPath .none (.mk false [.mk "Type1" .none]), selfToks := [.ident "Type1"], items := [.type "A", .fn { attrs := [], sig := { quals := [], isUnsafe := false, ident := "drop", generics := { params := [], whereClause := none }, inputs := [.receiver false false (.tyPath .none (.mk false [.mk "Pin" (.angle false [.other "&mut" [.tyPath .none (.mk false [.mk "Self" .none])]])]))], output := none }, block := [] }] }) == some "type `A` is not a member of trait `PinnedDrop`"
#guard (pinProject [.ident "PinnedDrop"] []
    [.ident "struct", .ident "Type2", .group .paren [.group .paren []], .punct ';' false]
    (fun as => .struct_ { attrs := as, vis := .inherited, ident := "Type2", generics := { params := [], whereClause := none }, fields := (.unnamed [{ attrs := [], vis := .inherited, ident := none, ty := .other "tuple" [] }]) })) == none
#guard (pinnedDrop []
    { attrs := [], isUnsafe := false, generics := { params := [], whereClause := none }, trait_ := (some (false, (.mk false [.mk "PinnedDrop" .none]))), selfTy := .tyPath .none (.mk false [.mk "Type2" .none]), selfToks := [.ident "Type2"], items := [.fn { attrs := [], sig := { quals := [], isUnsafe := false, ident := "drop", generics := { params := [], whereClause := none }, inputs := [.receiver false false (.tyPath .none (.mk false [.mk "Pin" (.angle false [.other "&mut" [.tyPath .none (.mk false [.mk "Self" .none])]])]))], output := none }, block := [] }, .type "A"] }) == some "type `A` is not a member of trait `PinnedDrop`"
#guard (pinProject [.ident "PinnedDrop"] []
    [.ident "struct", .ident "Duplicate", .group .paren [.group .paren []], .punct ';' false]
    (fun as => .struct_ { attrs := as, vis := .inherited, ident := "Duplicate", generics := { params := [], whereClause := none }, fields := (.unnamed [{ attrs := [], vis := .inherited, ident := none, ty := .other "tuple" [] }]) })) == none
#guard (pinnedDrop []
    { attrs := [], isUnsafe := false, generics := { params := [], whereClause := none }, trait_ := (some (false, (.mk false [.mk "PinnedDrop" .none]))), selfTy := .tyPath .none (.mk false [.mk "Duplicate" .none]), selfToks := [.ident "Duplicate"], items := [.fn { attrs := [], sig := { quals := [], isUnsafe := false, ident := "drop", generics := { params := [], whereClause := none }, inputs := [.receiver false false (.tyPath .none (.mk false [.mk "Pin" (.angle false [.other "&mut" [.tyPath .none (.mk false [.mk "Self" .none])]])]))], output := none }, block := [] }, .fn { attrs := [], sig := { quals := [], isUnsafe := false, ident := "drop", generics := { params := [], whereClause := none }, inputs := [.receiver false false (.tyPath .none (.mk false [.mk "Pin" (.angle false [.other "&mut" [.tyPath .none (.mk false [.mk "Self" .none])]])]))], output := none }, block := [] }] }) == some "duplicate definitions with name `drop`"
#guard (pinProject [.ident "PinnedDrop"] []
    [.ident "struct", .ident "RetUnit", .group .paren [.group .paren []], .punct ';' false]
    (fun as => .struct_ { attrs := as, vis := .inherited, ident := "RetUnit", generics := { params := [], whereClause := none }, fields := (.unnamed [{ attrs := [], vis := .inherited, ident := none, ty := .other "tuple" [] }]) })) == none
#guard (pinnedDrop []
    { attrs := [], isUnsafe := false, generics := { params := [], whereClause := none }, trait_ := (some (false, (.mk false [.mk "PinnedDrop" .none]))), selfTy := .tyPath .none (.mk false [.mk "RetUnit" .none]), selfToks := [.ident "RetUnit"], items := [.fn { attrs := [], sig := { quals := [], isUnsafe := false, ident := "drop", generics := { params := [], whereClause := none }, inputs := [.receiver false false (.tyPath .none (.mk false [.mk "Pin" (.angle false [.other "&mut" [.tyPath .none (.mk false [.mk "Self" .none])]])]))], output := (some (.other "tuple" [])) }, block := [] }] }) == none
#guard (pinProject [.ident "PinnedDrop"] []
    [.ident "struct", .ident "RetTy", .group .paren [.group .paren []], .punct ';' false]
    (fun as => .struct_ { attrs := as, vis := .inherited, ident := "RetTy", generics := { params := [], whereClause := none }, fields := (.unnamed [{ attrs := [], vis := .inherited, ident := none, ty := .other "tuple" [] }]) })) == none
#guard (pinnedDrop []
    { attrs := [], isUnsafe := false, generics := { params := [], whereClause := none }, trait_ := (some (false, (.mk false [.mk "PinnedDrop" .none]))), selfTy := .tyPath .none (.mk false [.mk "RetTy" .none]), selfToks := [.ident "RetTy"], items := [.fn { attrs := [], sig := { quals := [], isUnsafe := false, ident := "drop", generics := { params := [], whereClause := none }, inputs := [.receiver false false (.tyPath .none (.mk false [.mk "Pin" (.angle false [.other "&mut" [.tyPath .none (.mk false [.mk "Self" .none])]])]))], output := (some (.tyPath .none (.mk false [.mk "Self" .none]))) }, block := [] }] }) == some "method `drop` must return the unit type"
#guard (pinProject [.ident "PinnedDrop"] []
    [.ident "struct", .ident "NoArg", .group .paren [.group .paren []], .punct ';' false]
    (fun as => .struct_ { attrs := as, vis := .inherited, ident := "NoArg", generics := { params := [], whereClause := none }, fields := (.unnamed [{ attrs := [], vis := .inherited, ident := none, ty := .other "tuple" [] }]) })) == none
#guard (pinnedDrop []
    { attrs := [], isUnsafe := false, generics := { params := [], whereClause := none }, trait_ := (some (false, (.mk false [.mk "PinnedDrop" .none]))), selfTy := .tyPath .none (.mk false [.mk "NoArg" .none]), selfToks := [.ident "NoArg"], items := [.fn { attrs := [], sig := { quals := [], isUnsafe := false, ident := "drop", generics := { params := [], whereClause := none }, inputs := [], output := none }, block := [] }] }) == some "method `drop` must take an argument `self: Pin<&mut Self>`"
#guard (pinProject [.ident "PinnedDrop"] []
    [.ident "struct", .ident "MultiArg", .group .paren [.group .paren []], .punct ';' false]
    (fun as => .struct_ { attrs := as, vis := .inherited, ident := "MultiArg", generics := { params := [], whereClause := none }, fields := (.unnamed [{ attrs := [], vis := .inherited, ident := none, ty := .other "tuple" [] }]) })) == none
#guard (pinnedDrop []
    { attrs := [], isUnsafe := false, generics := { params := [], whereClause := none }, trait_ := (some (false, (.mk false [.mk "PinnedDrop" .none]))), selfTy := .tyPath .none (.mk false [.mk "MultiArg" .none]), selfToks := [.ident "MultiArg"], items := [.fn { attrs := [], sig := { quals := [], isUnsafe := false, ident := "drop", generics := { params := [], whereClause := none }, inputs := [.receiver false false (.tyPath .none (.mk false [.mk "Pin" (.angle false [.other "&mut" [.tyPath .none (.mk false [.mk "Self" .none])]])])), .typed (.other "_" []) (.other "tuple" [])], output := none }, block := [] }] }) == some "method `drop` must take an argument `self: Pin<&mut Self>`"
#guard (pinProject [.ident "PinnedDrop"] []
    [.ident "struct", .ident "InvalidArg1", .group .paren [.group .paren []], .punct ';' false]
    (fun as => .struct_ { attrs := as, vis := .inherited, ident := "InvalidArg1", generics := { params := [], whereClause := none }, fields := (.unnamed [{ attrs := [], vis := .inherited, ident := none, ty := .other "tuple" [] }]) })) == none
#guard (pinnedDrop []
    { attrs := [], isUnsafe := false, generics := { params := [], whereClause := none }, trait_ := (some (false, (.mk false [.mk "PinnedDrop" .none]))), selfTy := .tyPath .none (.mk false [.mk "InvalidArg1" .none]), selfToks := [.ident "InvalidArg1"], items := [.fn { attrs := [], sig := { quals := [], isUnsafe := false, ident := "drop", generics := { params := [], whereClause := none }, inputs := [.receiver false true (.other "&mut" [.tyIdent "Self"])], output := none }, block := [] }] }) == some "method `drop` must take an argument `self: Pin<&mut Self>`"
#guard (pinProject [.ident "PinnedDrop"] []
    [.ident "struct", .ident "InvalidArg2", .group .paren [.group .paren []], .punct ';' false]
    (fun as => .struct_ { attrs := as, vis := .inherited, ident := "InvalidArg2", generics := { params := [], whereClause := none }, fields := (.unnamed [{ attrs := [], vis := .inherited, ident := none, ty := .other "tuple" [] }]) })) == none
#guard (pinnedDrop []
    { attrs := [], isUnsafe := false, generics := { params := [], whereClause := none }, trait_ := (some (false, (.mk false [.mk "PinnedDrop" .none]))), selfTy := .tyPath .none (.mk false [.mk "InvalidArg2" .none]), selfToks := [.ident "InvalidArg2"], items := [.fn { attrs := [], sig := { quals := [], isUnsafe := false, ident := "drop", generics := { params := [], whereClause := none }, inputs := [.typed (.other "_" []) (.tyPath .none (.mk false [.mk "Pin" (.angle false [.other "&mut" [.tyPath .none (.mk false [.mk "Self" .none])]])]))], output := none }, block := [] }] }) == some "method `drop` must take an argument `self: Pin<&mut Self>`"
#guard (pinProject [.ident "PinnedDrop"] []
    [.ident "struct", .ident "InvalidArg3", .group .paren [.group .paren []], .punct ';' false]
    (fun as => .struct_ { attrs := as, vis := .inherited, ident := "InvalidArg3", generics := { params := [], whereClause := none }, fields := (.unnamed [{ attrs := [], vis := .inherited, ident := none, ty := .other "tuple" [] }]) })) == none
#guard (pinnedDrop []
    { attrs := [], isUnsafe := false, generics := { params := [], whereClause := none }, trait_ := (some (false, (.mk false [.mk "PinnedDrop" .none]))), selfTy := .tyPath .none (.mk false [.mk "InvalidArg3" .none]), selfToks := [.ident "InvalidArg3"], items := [.fn { attrs := [], sig := { quals := [], isUnsafe := false, ident := "drop", generics := { params := [], whereClause := none }, inputs := [.receiver false false (.tyPath .none (.mk false [.mk "Pin" (.angle false [.other "&" [.tyPath .none (.mk false [.mk "Self" .none])]])]))], output := none }, block := [] }] }) == some "method `drop` must take an argument `self: Pin<&mut Self>`"
#guard (pinProject [.ident "PinnedDrop"] []
    [.ident "struct", .ident "InvalidArg4", .group .paren [.group .paren []], .punct ';' false]
    (fun as => .struct_ { attrs := as, vis := .inherited, ident := "InvalidArg4", generics := { params := [], whereClause := none }, fields := (.unnamed [{ attrs := [], vis := .inherited, ident := none, ty := .other "tuple" [] }]) })) == none
#guard (pinnedDrop []
    { attrs := [], isUnsafe := false, generics := { params := [], whereClause := none }, trait_ := (some (false, (.mk false [.mk "PinnedDrop" .none]))), selfTy := .tyPath .none (.mk false [.mk "InvalidArg4" .none]), selfToks := [.ident "InvalidArg4"], items := [.fn { attrs := [], sig := { quals := [], isUnsafe := false, ident := "drop", generics := { params := [], whereClause := none }, inputs := [.receiver false false (.tyPath .none (.mk false [.mk "Pin" (.angle false [.other "&mut" [.other "tuple" []]])]))], output := none }, block := [] }] }) == some "method `drop` must take an argument `self: Pin<&mut Self>`"
#guard (pinProject [.ident "PinnedDrop"] []
    [.ident "struct", .ident "InvalidName", .group .paren [.group .paren []], .punct ';' false]
    (fun as => .struct_ { attrs := as, vis := .inherited, ident := "InvalidName", generics := { params := [], whereClause := none }, fields := (.unnamed [{ attrs := [], vis := .inherited, ident := none, ty := .other "tuple" [] }]) })) == none
#guard (pinnedDrop []
    { attrs := [], isUnsafe := false, generics := { params := [], whereClause := none }, trait_ := (some (false, (.mk false [.mk "PinnedDrop" .none]))), selfTy := .tyPath .none (.mk false [.mk "InvalidName" .none]), selfToks := [.ident "InvalidName"], items := [.fn { attrs := [], sig := { quals := [], isUnsafe := false, ident := "pinned_drop", generics := { params := [], whereClause := none }, inputs := [.receiver false false (.tyPath .none (.mk false [.mk "Pin" (.angle false [.other "&mut" [.tyPath .none (.mk false [.mk "Self" .none])]])]))], output := none }, block := [] }] }) == some "method `pinned_drop` is not a member of trait `PinnedDrop`"
#guard (pinnedDrop []
    { attrs := [], isUnsafe := false, generics := { params := [], whereClause := none }, trait_ := (some (false, (.mk false [.mk "PinnedDrop" .none]))), selfTy := .other "tuple" [], selfToks := [.group .paren []], items := [.fn { attrs := [], sig := { quals := [], isUnsafe := false, ident := "drop", generics := { params := [], whereClause := none }, inputs := [.receiver false false (.tyPath .none (.mk false [.mk "Pin" (.angle false [.other "&mut" [.tyPath .none (.mk false [.mk "Self" .none])]])]))], output := none }, block := [] }] }) == some "implementing the trait `PinnedDrop` on this type is unsupported"
#guard (pinnedDrop []
    { attrs := [], isUnsafe := false, generics := { params := [], whereClause := none }, trait_ := (some (false, (.mk false [.mk "PinnedDrop" .none]))), selfTy := .other "&mut" [.tyPath .none (.mk false [.mk "A" .none])], selfToks := [.punct '&' false, .ident "mut", .ident "A"], items := [.fn { attrs := [], sig := { quals := [], isUnsafe := false, ident := "drop", generics := { params := [], whereClause := none }, inputs := [.receiver false false (.tyPath .none (.mk false [.mk "Pin" (.angle false [.other "&mut" [.tyPath .none (.mk false [.mk "Self" .none])]])]))], output := none }, block := [] }] }) == some "implementing the trait `PinnedDrop` on this type is unsupported"
#guard (pinnedDrop []
    { attrs := [], isUnsafe := false, generics := { params := [], whereClause := none }, trait_ := (some (false, (.mk false [.mk "PinnedDrop" .none]))), selfTy := .other "slice" [.tyPath .none (.mk false [.mk "A" .none])], selfToks := [.group .bracket [.ident "A"]], items := [.fn { attrs := [], sig := { quals := [], isUnsafe := false, ident := "drop", generics := { params := [], whereClause := none }, inputs := [.receiver false false (.tyPath .none (.mk false [.mk "Pin" (.angle false [.other "&mut" [.tyPath .none (.mk false [.mk "Self" .none])]])]))], output := none }, block := [] }] }) == some "implementing the trait `PinnedDrop` on this type is unsupported"

-- /repo/tests/ui/pinned_drop/pinned-drop-no-attr-arg.rs
#guard (pinProject [] []
    [.ident "struct", .ident "S", .group .brace [.punct '#' false, .group .bracket [.ident "pin"], .ident "f", .punct ':' false, .ident "u8", .punct ',' false]]
    (fun as => .struct_ { attrs := as, vis := .inherited, ident := "S", generics := { params := [], whereClause := none }, fields := (.named [{ attrs := [⟨.path { leading := false, segs := ["pin"] }⟩], vis := .inherited, ident := (some "f"), ty := .tyPath .none (.mk false [.mk "u8" .none]) }]) })) == none
#guard (pinnedDrop []
    { attrs := [], isUnsafe := false, generics := { params := [], whereClause := none }, trait_ := (some (false, (.mk false [.mk "PinnedDrop" .none]))), selfTy := .tyPath .none (.mk false [.mk "S" .none]), selfToks := [.ident "S"], items := [.fn { attrs := [], sig := { quals := [], isUnsafe := false, ident := "drop", generics := { params := [], whereClause := none }, inputs := [.receiver false false (.tyPath .none (.mk false [.mk "Pin" (.angle false [.other "&mut" [.tyPath .none (.mk false [.mk "Self" .none])]])]))], output := none }, block := [] }] }) == none

-- /repo/tests/ui/pinned_drop/self.rs
#guard (pinProject [.ident "PinnedDrop"] []
    [.ident "pub", .ident "struct", .ident "S", .group .brace [.ident "f", .punct ':' false, .group .paren [], .punct ',' false]]
    (fun as => .struct_ { attrs := as, vis := .pub, ident := "S", generics := { params := [], whereClause := none }, fields := (.named [{ attrs := [], vis := .inherited, ident := (some "f"), ty := .other "tuple" [] }]) })) == none
#guard (pinnedDrop []
    { attrs := [], isUnsafe := false, generics := { params := [], whereClause := none }, trait_ := (some (false, (.mk false [.mk "PinnedDrop" .none]))), selfTy := .tyPath .none (.mk false [.mk "S" .none]), selfToks := [.ident "S"], items := [.fn { attrs := [], sig := { quals := [], isUnsafe := false, ident := "drop", generics := { params := [], whereClause := none }, inputs := [.receiver false false (.tyPath .none (.mk false [.mk "Pin" (.angle false [.other "&mut" [.tyPath .none (.mk false [.mk "Self" .none])]])]))], output := none }, block := [] }] }) == none
#guard (pinProject [.ident "PinnedDrop"] []
    [.ident "pub", .ident "struct", .ident "S", .group .brace [.ident "f", .punct ':' false, .group .paren [], .punct ',' false]]
    (fun as => .struct_ { attrs := as, vis := .pub, ident := "S", generics := { params := [], whereClause := none }, fields := (.named [{ attrs := [], vis := .inherited, ident := (some "f"), ty := .other "tuple" [] }]) })) == none
#guard (pinnedDrop []
    { attrs := [], isUnsafe := false, generics := { params := [], whereClause := none }, trait_ := (some (false, (.mk false [.mk "PinnedDrop" .none]))), selfTy := .tyPath .none (.mk false [.mk "S" .none]), selfToks := [.ident "S"], items := [.fn { attrs := [], sig := { quals := [], isUnsafe := false, ident := "drop", generics := { params := [], whereClause := none }, inputs := [.receiver false false (.tyPath .none (.mk false [.mk "Pin" (.angle false [.other "&mut" [.tyPath .none (.mk false [.mk "Self" .none])]])]))], output := none }, block := [] }] }) == none
#guard (pinProject [.ident "PinnedDrop"] []
    [.ident "pub", .ident "enum", .ident "E", .group .brace [.ident "V", .group .brace [.ident "f", .punct ':' false, .group .paren []], .punct ',' false]]
    (fun as => .enum_ { attrs := as, vis := .pub, ident := "E", generics := { params := [], whereClause := none }, variants := [{ attrs := [], ident := "V", fields := (.named [{ attrs := [], vis := .inherited, ident := (some "f"), ty := .other "tuple" [] }]), discriminant := none }] })) == none
#guard (pinnedDrop []
    { attrs := [], isUnsafe := false, generics := { params := [], whereClause := none }, trait_ := (some (false, (.mk false [.mk "PinnedDrop" .none]))), selfTy := .tyPath .none (.mk false [.mk "E" .none]), selfToks := [.ident "E"], items := [.fn { attrs := [], sig := { quals := [], isUnsafe := false, ident := "drop", generics := { params := [], whereClause := none }, inputs := [.receiver false false (.tyPath .none (.mk false [.mk "Pin" (.angle false [.other "&mut" [.tyPath .none (.mk false [.mk "Self" .none])]])]))], output := none }, block := [] }] }) == none

-- /repo/tests/ui/pinned_drop/unsafe-call.rs
#guard (pinProject [.ident "PinnedDrop"] []
    [.ident "struct", .ident "S", .group .brace [.punct '#' false, .group .bracket [.ident "pin"], .ident "f", .punct ':' false, .ident "u8", .punct ',' false]]
    (fun as => .struct_ { attrs := as, vis := .inherited, ident := "S", generics := { params := [], whereClause := none }, fields := (.named [{ attrs := [⟨.path { leading := false, segs := ["pin"] }⟩], vis := .inherited, ident := (some "f"), ty := .tyPath .none (.mk false [.mk "u8" .none]) }]) })) == none
#guard (pinnedDrop []
    { attrs := [], isUnsafe := false, generics := { params := [], whereClause := none }, trait_ := (some (false, (.mk false [.mk "PinnedDrop" .none]))), selfTy := .tyPath .none (.mk false [.mk "S" .none]), selfToks := [.ident "S"], items := [.fn { attrs := [], sig := { quals := [], isUnsafe := false, ident := "drop", generics := { params := [], whereClause := none }, inputs := [.receiver false false (.tyPath .none (.mk false [.mk "Pin" (.angle false [.other "&mut" [.tyPath .none (.mk false [.mk "Self" .none])]])]))], output := none }, block := [] }] }) == none

-- /repo/tests/ui/cfg/unsupported.rs
#guard (pinProject [] []
    [.ident "struct", .ident "S", .group .brace [.punct '#' false, .group .bracket [.ident "cfg", .group .paren [.ident "any", .group .paren []]], .punct '#' false, .group .bracket [.ident "pin"], .ident "f", .punct ':' false, .ident "u8", .punct ',' false]]
    (fun as => .struct_ { attrs := as, vis := .inherited, ident := "S", generics := { params := [], whereClause := none }, fields := (.named []) })) == some "#[pin_project] attribute may not be used on structs with zero fields"

-- /repo/tests/ui/not_unpin/conflict-unpin.rs
#guard (pinProject [.punct '!' false, .ident "Unpin"] []
    [.ident "struct", .ident "Foo", .punct '<' false, .ident "T", .punct ',' false, .ident "U", .punct '>' false, .group .brace [.punct '#' false, .group .bracket [.ident "pin"], .ident "f1", .punct ':' false, .ident "T", .punct ',' false, .ident "f2", .punct ':' false, .ident "U", .punct ',' false]]
    (fun as => .struct_ { attrs := as, vis := .inherited, ident := "Foo", generics := { params := [.type "T" [] none, .type "U" [] none], whereClause := none }, fields := (.named [{ attrs := [⟨.path { leading := false, segs := ["pin"] }⟩], vis := .inherited, ident := (some "f1"), ty := .tyPath .none (.mk false [.mk "T" .none]) }, { attrs := [], vis := .inherited, ident := (some "f2"), ty := .tyPath .none (.mk false [.mk "U" .none]) }]) })) == none
#guard (pinProject [.punct '!' false, .ident "Unpin"] []
    [.ident "struct", .ident "Bar", .punct '<' false, .ident "T", .punct ',' false, .ident "U", .punct '>' false, .group .brace [.punct '#' false, .group .bracket [.ident "pin"], .ident "f1", .punct ':' false, .ident "T", .punct ',' false, .ident "f2", .punct ':' false, .ident "U", .punct ',' false]]
    (fun as => .struct_ { attrs := as, vis := .inherited, ident := "Bar", generics := { params := [.type "T" [] none, .type "U" [] none], whereClause := none }, fields := (.named [{ attrs := [⟨.path { leading := false, segs := ["pin"] }⟩], vis := .inherited, ident := (some "f1"), ty := .tyPath .none (.mk false [.mk "T" .none]) }, { attrs := [], vis := .inherited, ident := (some "f2"), ty := .tyPath .none (.mk false [.mk "U" .none]) }]) })) == none
#guard (pinProject [.punct '!' false, .ident "Unpin"] []
    [.ident "struct", .ident "Baz", .punct '<' false, .ident "T", .punct ',' false, .ident "U", .punct '>' false, .group .brace [.punct '#' false, .group .bracket [.ident "pin"], .ident "f1", .punct ':' false, .ident "T", .punct ',' false, .ident "f2", .punct ':' false, .ident "U", .punct ',' false]]
    (fun as => .struct_ { attrs := as, vis := .inherited, ident := "Baz", generics := { params := [.type "T" [] none, .type "U" [] none], whereClause := none }, fields := (.named [{ attrs := [⟨.path { leading := false, segs := ["pin"] }⟩], vis := .inherited, ident := (some "f1"), ty := .tyPath .none (.mk false [.mk "T" .none]) }, { attrs := [], vis := .inherited, ident := (some "f2"), ty := .tyPath .none (.mk false [.mk "U" .none]) }]) })) == none

-- /repo/tests/ui/not_unpin/impl-unsafe-unpin.rs
#guard (pinProject [.punct '!' false, .ident "Unpin"] []
    [.ident "struct", .ident "Foo", .punct '<' false, .ident "T", .punct ',' false, .ident "U", .punct '>' false, .group .brace [.punct '#' false, .group .bracket [.ident "pin"], .ident "f1", .punct ':' false, .ident "T", .punct ',' false, .ident "f2", .punct ':' false, .ident "U", .punct ',' false]]
    (fun as => .struct_ { attrs := as, vis := .inherited, ident := "Foo", generics := { params := [.type "T" [] none, .type "U" [] none], whereClause := none }, fields := (.named [{ attrs := [⟨.path { leading := false, segs := ["pin"] }⟩], vis := .inherited, ident := (some "f1"), ty := .tyPath .none (.mk false [.mk "T" .none]) }, { attrs := [], vis := .inherited, ident := (some "f2"), ty := .tyPath .none (.mk false [.mk "U" .none]) }]) })) == none
#guard (pinProject [.punct '!' false, .ident "Unpin"] []
    [.ident "struct", .ident "Bar", .punct '<' false, .ident "T", .punct ',' false, .ident "U", .punct '>' false, .group .brace [.punct '#' false, .group .bracket [.ident "pin"], .ident "f1", .punct ':' false, .ident "T", .punct ',' false, .ident "f2", .punct ':' false, .ident "U", .punct ',' false]]
    (fun as => .struct_ { attrs := as, vis := .inherited, ident := "Bar", generics := { params := [.type "T" [] none, .type "U" [] none], whereClause := none }, fields := (.named [{ attrs := [⟨.path { leading := false, segs := ["pin"] }⟩], vis := .inherited, ident := (some "f1"), ty := .tyPath .none (.mk false [.mk "T" .none]) }, { attrs := [], vis := .inherited, ident := (some "f2"), ty := .tyPath .none (.mk false [.mk "U" .none]) }]) })) == none
#guard (pinProject [.punct '!' false, .ident "Unpin"] []
    [.ident "struct", .ident "Baz", .punct '<' false, .ident "T", .punct ',' false, .ident "U", .punct '>' false, .group .brace [.punct '#' false, .group .bracket [.ident "pin"], .ident "f1", .punct ':' false, .ident "T", .punct ',' false, .ident "f2", .punct ':' false, .ident "U", .punct ',' false]]
    (fun as => .struct_ { attrs := as, vis := .inherited, ident := "Baz", generics := { params := [.type "T" [] none, .type "U" [] none], whereClause := none }, fields := (.named [{ attrs := [⟨.path { leading := false, segs := ["pin"] }⟩], vis := .inherited, ident := (some "f1"), ty := .tyPath .none (.mk false [.mk "T" .none]) }, { attrs := [], vis := .inherited, ident := (some "f2"), ty := .tyPath .none (.mk false [.mk "U" .none]) }]) })) == none

-- /repo/tests/ui/unsafe_unpin/conflict-unpin.rs
#guard (pinProject [.ident "UnsafeUnpin"] []
    [.ident "struct", .ident "Foo", .punct '<' false, .ident "T", .punct ',' false, .ident "U", .punct '>' false, .group .brace [.punct '#' false, .group .bracket [.ident "pin"], .ident "f1", .punct ':' false, .ident "T", .punct ',' false, .ident "f2", .punct ':' false, .ident "U", .punct ',' false]]
    (fun as => .struct_ { attrs := as, vis := .inherited, ident := "Foo", generics := { params := [.type "T" [] none, .type "U" [] none], whereClause := none }, fields := (.named [{ attrs := [⟨.path { leading := false, segs := ["pin"] }⟩], vis := .inherited, ident := (some "f1"), ty := .tyPath .none (.mk false [.mk "T" .none]) }, { attrs := [], vis := .inherited, ident := (some "f2"), ty := .tyPath .none (.mk false [.mk "U" .none]) }]) })) == none
#guard (pinProject [.ident "UnsafeUnpin"] []
    [.ident "struct", .ident "Bar", .punct '<' false, .ident "T", .punct ',' false, .ident "U", .punct '>' false, .group .brace [.punct '#' false, .group .bracket [.ident "pin"], .ident "f1", .punct ':' false, .ident "T", .punct ',' false, .ident "f2", .punct ':' false, .ident "U", .punct ',' false]]
    (fun as => .struct_ { attrs := as, vis := .inherited, ident := "Bar", generics := { params := [.type "T" [] none, .type "U" [] none], whereClause := none }, fields := (.named [{ attrs := [⟨.path { leading := false, segs := ["pin"] }⟩], vis := .inherited, ident := (some "f1"), ty := .tyPath .none (.mk false [.mk "T" .none]) }, { attrs := [], vis := .inherited, ident := (some "f2"), ty := .tyPath .none (.mk false [.mk "U" .none]) }]) })) == none
#guard (pinProject [.ident "UnsafeUnpin"] []
    [.ident "struct", .ident "Baz", .punct '<' false, .ident "T", .punct ',' false, .ident "U", .punct '>' false, .group .brace [.punct '#' false, .group .bracket [.ident "pin"], .ident "f1", .punct ':' false, .ident "T", .punct ',' false, .ident "f2", .punct ':' false, .ident "U", .punct ',' false]]
    (fun as => .struct_ { attrs := as, vis := .inherited, ident := "Baz", generics := { params := [.type "T" [] none, .type "U" [] none], whereClause := none }, fields := (.named [{ attrs := [⟨.path { leading := false, segs := ["pin"] }⟩], vis := .inherited, ident := (some "f1"), ty := .tyPath .none (.mk false [.mk "T" .none]) }, { attrs := [], vis := .inherited, ident := (some "f2"), ty := .tyPath .none (.mk false [.mk "U" .none]) }]) })) == none

-- /repo/tests/ui/unstable-features/marker_trait_attr-feature-gate.rs
#guard (pinProject [] []
    [.ident "struct", .ident "Struct", .punct '<' false, .ident "T", .punct '>' false, .group .brace [.punct '#' false, .group .bracket [.ident "pin"], .ident "f", .punct ':' false, .ident "T", .punct ',' false]]
    (fun as => .struct_ { attrs := as, vis := .inherited, ident := "Struct", generics := { params := [.type "T" [] none], whereClause := none }, fields := (.named [{ attrs := [⟨.path { leading := false, segs := ["pin"] }⟩], vis := .inherited, ident := (some "f"), ty := .tyPath .none (.mk false [.mk "T" .none]) }]) })) == none

-- /repo/tests/ui/unstable-features/marker_trait_attr.rs
#guard (pinProject [] []
    [.ident "struct", .ident "Struct", .punct '<' false, .ident "T", .punct '>' false, .group .brace [.punct '#' false, .group .bracket [.ident "pin"], .ident "f", .punct ':' false, .ident "T", .punct ',' false]]
    (fun as => .struct_ { attrs := as, vis := .inherited, ident := "Struct", generics := { params := [.type "T" [] none], whereClause := none }, fields := (.named [{ attrs := [⟨.path { leading := false, segs := ["pin"] }⟩], vis := .inherited, ident := (some "f"), ty := .tyPath .none (.mk false [.mk "T" .none]) }]) })) == none

-- /repo/tests/ui/unstable-features/overlapping_marker_traits-feature-gate.rs
#guard (pinProject [] []
    [.ident "struct", .ident "Struct", .punct '<' false, .ident "T", .punct '>' false, .group .brace [.punct '#' false, .group .bracket [.ident "pin"], .ident "f", .punct ':' false, .ident "T", .punct ',' false]]
    (fun as => .struct_ { attrs := as, vis := .inherited, ident := "Struct", generics := { params := [.type "T" [] none], whereClause := none }, fields := (.named [{ attrs := [⟨.path { leading := false, segs := ["pin"] }⟩], vis := .inherited, ident := (some "f"), ty := .tyPath .none (.mk false [.mk "T" .none]) }]) })) == none

-- /repo/tests/ui/unstable-features/overlapping_marker_traits.rs
#guard (pinProject [] []
    [.ident "struct", .ident "Struct", .punct '<' false, .ident "T", .punct '>' false, .group .brace [.punct '#' false, .group .bracket [.ident "pin"], .ident "f", .punct ':' false, .ident "T", .punct ',' false]]
    (fun as => .struct_ { attrs := as, vis := .inherited, ident := "Struct", generics := { params := [.type "T" [] none], whereClause := none }, fields := (.named [{ attrs := [⟨.path { leading := false, segs := ["pin"] }⟩], vis := .inherited, ident := (some "f"), ty := .tyPath .none (.mk false [.mk "T" .none]) }]) })) == none

-- /repo/tests/drop_order.rs
#guard (pinProject [.ident "project_replace"] []
    [.ident "struct", .ident "StructPinned", .punct '<' true, .punct '\'' true, .ident "a", .punct '>' false, .group .brace [.punct '#' false, .group .bracket [.ident "pin"], .ident "f1", .punct ':' false, .ident "D", .punct '<' true, .punct '\'' true, .ident "a", .punct '>' true, .punct ',' false, .punct '#' false, .group .bracket [.ident "pin"], .ident "f2", .punct ':' false, .ident "D", .punct '<' true, .punct '\'' true, .ident "a", .punct '>' true, .punct ',' false]]
    (fun as => .struct_ { attrs := as, vis := .inherited, ident := "StructPinned", generics := { params := [.lifetime "'a" []], whereClause := none }, fields := (.named [{ attrs := [⟨.path { leading := false, segs := ["pin"] }⟩], vis := .inherited, ident := (some "f1"), ty := .tyPath .none (.mk false [.mk "D" (.angle false [.lifetime "'a"])]) }, { attrs := [⟨.path { leading := false, segs := ["pin"] }⟩], vis := .inherited, ident := (some "f2"), ty := .tyPath .none (.mk false [.mk "D" (.angle false [.lifetime "'a"])]) }]) })) == none
#guard (pinProject [.ident "project_replace"] []
    [.ident "struct", .ident "StructUnpinned", .punct '<' true, .punct '\'' true, .ident "a", .punct '>' false, .group .brace [.ident "f1", .punct ':' false, .ident "D", .punct '<' true, .punct '\'' true, .ident "a", .punct '>' true, .punct ',' false, .ident "f2", .punct ':' false, .ident "D", .punct '<' true, .punct '\'' true, .ident "a", .punct '>' true, .punct ',' false]]
    (fun as => .struct_ { attrs := as, vis := .inherited, ident := "StructUnpinned", generics := { params := [.lifetime "'a" []], whereClause := none }, fields := (.named [{ attrs := [], vis := .inherited, ident := (some "f1"), ty := .tyPath .none (.mk false [.mk "D" (.angle false [.lifetime "'a"])]) }, { attrs := [], vis := .inherited, ident := (some "f2"), ty := .tyPath .none (.mk false [.mk "D" (.angle false [.lifetime "'a"])]) }]) })) == none
#guard (pinProject [.ident "project_replace"] []
    [.ident "struct", .ident "TuplePinned", .punct '<' true, .punct '\'' true, .ident "a", .punct '>' false, .group .paren [.punct '#' false, .group .bracket [.ident "pin"], .ident "D", .punct '<' true, .punct '\'' true, .ident "a", .punct '>' true, .punct ',' false, .punct '#' false, .group .bracket [.ident "pin"], .ident "D", .punct '<' true, .punct '\'' true, .ident "a", .punct '>' false], .punct ';' false]
    (fun as => .struct_ { attrs := as, vis := .inherited, ident := "TuplePinned", generics := { params := [.lifetime "'a" []], whereClause := none }, fields := (.unnamed [{ attrs := [⟨.path { leading := false, segs := ["pin"] }⟩], vis := .inherited, ident := none, ty := .tyPath .none (.mk false [.mk "D" (.angle false [.lifetime "'a"])]) }, { attrs := [⟨.path { leading := false, segs := ["pin"] }⟩], vis := .inherited, ident := none, ty := .tyPath .none (.mk false [.mk "D" (.angle false [.lifetime "'a"])]) }]) })) == none
#guard (pinProject [.ident "project_replace"] []
    [.ident "struct", .ident "TupleUnpinned", .punct '<' true, .punct '\'' true, .ident "a", .punct '>' false, .group .paren [.ident "D", .punct '<' true, .punct '\'' true, .ident "a", .punct '>' true, .punct ',' false, .ident "D", .punct '<' true, .punct '\'' true, .ident "a", .punct '>' false], .punct ';' false]
    (fun as => .struct_ { attrs := as, vis := .inherited, ident := "TupleUnpinned", generics := { params := [.lifetime "'a" []], whereClause := none }, fields := (.unnamed [{ attrs := [], vis := .inherited, ident := none, ty := .tyPath .none (.mk false [.mk "D" (.angle false [.lifetime "'a"])]) }, { attrs := [], vis := .inherited, ident := none, ty := .tyPath .none (.mk false [.mk "D" (.angle false [.lifetime "'a"])]) }]) })) == none
#guard (pinProject [.ident "project_replace", .punct '=' false, .ident "EnumProj"] []
    [.ident "enum", .ident "Enum", .punct '<' true, .punct '\'' true, .ident "a", .punct '>' false, .group .brace [.ident "StructPinned", .group .brace [.punct '#' false, .group .bracket [.ident "pin"], .ident "f1", .punct ':' false, .ident "D", .punct '<' true, .punct '\'' true, .ident "a", .punct '>' true, .punct ',' false, .punct '#' false, .group .bracket [.ident "pin"], .ident "f2", .punct ':' false, .ident "D", .punct '<' true, .punct '\'' true, .ident "a", .punct '>' true, .punct ',' false], .punct ',' false, .ident "StructUnpinned", .group .brace [.ident "f1", .punct ':' false, .ident "D", .punct '<' true, .punct '\'' true, .ident "a", .punct '>' true, .punct ',' false, .ident "f2", .punct ':' false, .ident "D", .punct '<' true, .punct '\'' true, .ident "a", .punct '>' true, .punct ',' false], .punct ',' false, .ident "TuplePinned", .group .paren [.punct '#' false, .group .bracket [.ident "pin"], .ident "D", .punct '<' true, .punct '\'' true, .ident "a", .punct '>' true, .punct ',' false, .punct '#' false, .group .bracket [.ident "pin"], .ident "D", .punct '<' true, .punct '\'' true, .ident "a", .punct '>' false], .punct ',' false, .ident "TupleUnpinned", .group .paren [.ident "D", .punct '<' true, .punct '\'' true, .ident "a", .punct '>' true, .punct ',' false, .ident "D", .punct '<' true, .punct '\'' true, .ident "a", .punct '>' false], .punct ',' false]]
    (fun as => .enum_ { attrs := as, vis := .inherited, ident := "Enum", generics := { params := [.lifetime "'a" []], whereClause := none }, variants := [{ attrs := [], ident := "StructPinned", fields := (.named [{ attrs := [⟨.path { leading := false, segs := ["pin"] }⟩], vis := .inherited, ident := (some "f1"), ty := .tyPath .none (.mk false [.mk "D" (.angle false [.lifetime "'a"])]) }, { attrs := [⟨.path { leading := false, segs := ["pin"] }⟩], vis := .inherited, ident := (some "f2"), ty := .tyPath .none (.mk false [.mk "D" (.angle false [.lifetime "'a"])]) }]), discriminant := none }, { attrs := [], ident := "StructUnpinned", fields := (.named [{ attrs := [], vis := .inherited, ident := (some "f1"), ty := .tyPath .none (.mk false [.mk "D" (.angle false [.lifetime "'a"])]) }, { attrs := [], vis := .inherited, ident := (some "f2"), ty := .tyPath .none (.mk false [.mk "D" (.angle false [.lifetime "'a"])]) }]), discriminant := none }, { attrs := [], ident := "TuplePinned", fields := (.unnamed [{ attrs := [⟨.path { leading := false, segs := ["pin"] }⟩], vis := .inherited, ident := none, ty := .tyPath .none (.mk false [.mk "D" (.angle false [.lifetime "'a"])]) }, { attrs := [⟨.path { leading := false, segs := ["pin"] }⟩], vis := .inherited, ident := none, ty := .tyPath .none (.mk false [.mk "D" (.angle false [.lifetime "'a"])]) }]), discriminant := none }, { attrs := [], ident := "TupleUnpinned", fields := (.unnamed [{ attrs := [], vis := .inherited, ident := none, ty := .tyPath .none (.mk false [.mk "D" (.angle false [.lifetime "'a"])]) }, { attrs := [], vis := .inherited, ident := none, ty := .tyPath .none (.mk false [.mk "D" (.angle false [.lifetime "'a"])]) }]), discriminant := none }] })) == none

-- /repo/tests/pin_project.rs
#guard (pinProject [.ident "project", .punct '=' false, .ident "StructProj", .punct ',' false, .ident "project_ref", .punct '=' false, .ident "StructProjRef", .punct ',' false, .ident "project_replace", .punct '=' false, .ident "StructProjOwn", .punct ',' false] []
    [.ident "struct", .ident "Struct", .punct '<' false, .ident "T", .punct ',' false, .ident "U", .punct '>' false, .group .brace [.punct '#' false, .group .bracket [.ident "pin"], .ident "f1", .punct ':' false, .ident "T", .punct ',' false, .ident "f2", .punct ':' false, .ident "U", .punct ',' false]]
    (fun as => .struct_ { attrs := as, vis := .inherited, ident := "Struct", generics := { params := [.type "T" [] none, .type "U" [] none], whereClause := none }, fields := (.named [{ attrs := [⟨.path { leading := false, segs := ["pin"] }⟩], vis := .inherited, ident := (some "f1"), ty := .tyPath .none (.mk false [.mk "T" .none]) }, { attrs := [], vis := .inherited, ident := (some "f2"), ty := .tyPath .none (.mk false [.mk "U" .none]) }]) })) == none
#guard (pinProject [.ident "project_replace"] []
    [.ident "struct", .ident "TupleStruct", .punct '<' false, .ident "T", .punct ',' false, .ident "U", .punct '>' false, .group .paren [.punct '#' false, .group .bracket [.ident "pin"], .ident "T", .punct ',' false, .ident "U"], .punct ';' false]
    (fun as => .struct_ { attrs := as, vis := .inherited, ident := "TupleStruct", generics := { params := [.type "T" [] none, .type "U" [] none], whereClause := none }, fields := (.unnamed [{ attrs := [⟨.path { leading := false, segs := ["pin"] }⟩], vis := .inherited, ident := none, ty := .tyPath .none (.mk false [.mk "T" .none]) }, { attrs := [], vis := .inherited, ident := none, ty := .tyPath .none (.mk false [.mk "U" .none]) }]) })) == none
#guard (pinProject [.ident "project", .punct '=' false, .ident "EnumProj", .punct ',' false, .ident "project_ref", .punct '=' false, .ident "EnumProjRef", .punct ',' false, .ident "project_replace", .punct '=' false, .ident "EnumProjOwn"] [⟨.list { leading := false, segs := ["derive"] } .paren [.ident "Eq", .punct ',' false, .ident "PartialEq", .punct ',' false, .ident "Debug"]⟩]
    [.ident "enum", .ident "Enum", .punct '<' false, .ident "A", .punct ',' false, .ident "B", .punct ',' false, .ident "C", .punct ',' false, .ident "D", .punct '>' false, .group .brace [.ident "Tuple", .group .paren [.punct '#' false, .group .bracket [.ident "pin"], .ident "A", .punct ',' false, .ident "B"], .punct ',' false, .ident "Struct", .group .brace [.punct '#' false, .group .bracket [.ident "pin"], .ident "f1", .punct ':' false, .ident "C", .punct ',' false, .ident "f2", .punct ':' false, .ident "D", .punct ',' false], .punct ',' false, .ident "Unit", .punct ',' false]]
    (fun as => .enum_ { attrs := as, vis := .inherited, ident := "Enum", generics := { params := [.type "A" [] none, .type "B" [] none, .type "C" [] none, .type "D" [] none], whereClause := none }, variants := [{ attrs := [], ident := "Tuple", fields := (.unnamed [{ attrs := [⟨.path { leading := false, segs := ["pin"] }⟩], vis := .inherited, ident := none, ty := .tyPath .none (.mk false [.mk "A" .none]) }, { attrs := [], vis := .inherited, ident := none, ty := .tyPath .none (.mk false [.mk "B" .none]) }]), discriminant := none }, { attrs := [], ident := "Struct", fields := (.named [{ attrs := [⟨.path { leading := false, segs := ["pin"] }⟩], vis := .inherited, ident := (some "f1"), ty := .tyPath .none (.mk false [.mk "C" .none]) }, { attrs := [], vis := .inherited, ident := (some "f2"), ty := .tyPath .none (.mk false [.mk "D" .none]) }]), discriminant := none }, { attrs := [], ident := "Unit", fields := .unit, discriminant := none }] })) == none
#guard (pinProject [.ident "project", .punct '=' false, .ident "EnumProj", .punct ',' false, .ident "project_ref", .punct '=' false, .ident "EnumProjRef", .punct ',' false, .ident "project_replace", .punct '=' false, .ident "EnumProjOwn"] [⟨.list { leading := false, segs := ["derive"] } .paren [.ident "Eq", .punct ',' false, .ident "PartialEq", .punct ',' false, .ident "Debug"]⟩]
    [.ident "enum", .ident "Enum", .group .brace [.ident "V1", .group .paren [.punct '#' false, .group .bracket [.ident "pin"], .ident "u8"], .punct ',' false, .ident "V2", .group .paren [.ident "bool"], .punct ',' false]]
    (fun as => .enum_ { attrs := as, vis := .inherited, ident := "Enum", generics := { params := [], whereClause := none }, variants := [{ attrs := [], ident := "V1", fields := (.unnamed [{ attrs := [⟨.path { leading := false, segs := ["pin"] }⟩], vis := .inherited, ident := none, ty := .tyPath .none (.mk false [.mk "u8" .none]) }]), discriminant := none }, { attrs := [], ident := "V2", fields := (.unnamed [{ attrs := [], vis := .inherited, ident := none, ty := .tyPath .none (.mk false [.mk "bool" .none]) }]), discriminant := none }] })) == none
#guard (pinProject [] []
    [.ident "struct", .ident "Struct", .punct '<' false, .ident "T", .punct '>' false, .ident "where", .ident "T", .punct ':' false, .ident "Copy", .punct ',' false, .group .brace [.ident "f", .punct ':' false, .ident "T", .punct ',' false]]
    (fun as => .struct_ { attrs := as, vis := .inherited, ident := "Struct", generics := { params := [.type "T" [] none], whereClause := (some [.user (.other ":" [.tyPath .none (.mk false [.mk "T" .none]), .path (.mk false [.mk "Copy" .none])])]) }, fields := (.named [{ attrs := [], vis := .inherited, ident := (some "f"), ty := .tyPath .none (.mk false [.mk "T" .none]) }]) })) == none
#guard (pinProject [] []
    [.ident "struct", .ident "TupleStruct", .punct '<' false, .ident "T", .punct '>' false, .group .paren [.ident "T"], .ident "where", .ident "T", .punct ':' false, .ident "Copy", .punct ';' false]
    (fun as => .struct_ { attrs := as, vis := .inherited, ident := "TupleStruct", generics := { params := [.type "T" [] none], whereClause := (some [.user (.other ":" [.tyPath .none (.mk false [.mk "T" .none]), .path (.mk false [.mk "Copy" .none])])]) }, fields := (.unnamed [{ attrs := [], vis := .inherited, ident := none, ty := .tyPath .none (.mk false [.mk "T" .none]) }]) })) == none
#guard (pinProject [.ident "project", .punct '=' false, .ident "EnumProj", .punct ',' false, .ident "project_ref", .punct '=' false, .ident "EnumProjRef", .punct ',' false, .ident "project_replace", .punct '=' false, .ident "EnumProjOwn"] []
    [.ident "enum", .ident "Enum", .punct '<' false, .ident "T", .punct '>' false, .ident "where", .ident "T", .punct ':' false, .ident "Copy", .punct ',' false, .group .brace [.ident "V", .group .paren [.ident "T"], .punct ',' false]]
    (fun as => .enum_ { attrs := as, vis := .inherited, ident := "Enum", generics := { params := [.type "T" [] none], whereClause := (some [.user (.other ":" [.tyPath .none (.mk false [.mk "T" .none]), .path (.mk false [.mk "Copy" .none])])]) }, variants := [{ attrs := [], ident := "V", fields := (.unnamed [{ attrs := [], vis := .inherited, ident := none, ty := .tyPath .none (.mk false [.mk "T" .none]) }]), discriminant := none }] })) == none
#guard (pinProject [.ident "project_replace"] []
    [.ident "struct", .ident "Struct1", .punct '<' false, .ident "I", .punct '>' false, .ident "where", .ident "I", .punct ':' false, .ident "Iterator", .punct ',' false, .group .brace [.punct '#' false, .group .bracket [.ident "pin"], .ident "f1", .punct ':' false, .ident "I", .punct ',' false, .ident "f2", .punct ':' false, .ident "I", .punct ':' true, .punct ':' false, .ident "Item", .punct ',' false]]
    (fun as => .struct_ { attrs := as, vis := .inherited, ident := "Struct1", generics := { params := [.type "I" [] none], whereClause := (some [.user (.other ":" [.tyPath .none (.mk false [.mk "I" .none]), .path (.mk false [.mk "Iterator" .none])])]) }, fields := (.named [{ attrs := [⟨.path { leading := false, segs := ["pin"] }⟩], vis := .inherited, ident := (some "f1"), ty := .tyPath .none (.mk false [.mk "I" .none]) }, { attrs := [], vis := .inherited, ident := (some "f2"), ty := .tyPath .none (.mk false [.mk "I" .none, .mk "Item" .none]) }]) })) == none
#guard (pinProject [.ident "project_replace"] []
    [.ident "struct", .ident "Struct2", .punct '<' false, .ident "I", .punct ',' false, .ident "J", .punct '>' false, .ident "where", .ident "I", .punct ':' false, .ident "Iterator", .punct '<' false, .ident "Item", .punct '=' false, .ident "J", .punct '>' true, .punct ',' false, .group .brace [.punct '#' false, .group .bracket [.ident "pin"], .ident "f1", .punct ':' false, .ident "I", .punct ',' false, .ident "f2", .punct ':' false, .ident "J", .punct ',' false]]
    (fun as => .struct_ { attrs := as, vis := .inherited, ident := "Struct2", generics := { params := [.type "I" [] none, .type "J" [] none], whereClause := (some [.user (.other ":" [.tyPath .none (.mk false [.mk "I" .none]), .path (.mk false [.mk "Iterator" (.angle false [.other "Item =" [.tyPath .none (.mk false [.mk "J" .none])]])])])]) }, fields := (.named [{ attrs := [⟨.path { leading := false, segs := ["pin"] }⟩], vis := .inherited, ident := (some "f1"), ty := .tyPath .none (.mk false [.mk "I" .none]) }, { attrs := [], vis := .inherited, ident := (some "f2"), ty := .tyPath .none (.mk false [.mk "J" .none]) }]) })) == none
#guard (pinProject [.ident "project_replace"] []
    [.ident "struct", .ident "Struct3", .punct '<' false, .ident "T", .punct '>' false, .ident "where", .ident "T", .punct ':' false, .punct '\'' true, .ident "static", .punct ',' false, .group .brace [.ident "f", .punct ':' false, .ident "T", .punct ',' false]]
    (fun as => .struct_ { attrs := as, vis := .inherited, ident := "Struct3", generics := { params := [.type "T" [] none], whereClause := (some [.user (.other ":" [.tyPath .none (.mk false [.mk "T" .none]), .lifetime "'static"])]) }, fields := (.named [{ attrs := [], vis := .inherited, ident := (some "f"), ty := .tyPath .none (.mk false [.mk "T" .none]) }]) })) == none
#guard (pinProject [.ident "project_replace"] []
    [.ident "struct", .ident "TupleStruct", .punct '<' false, .ident "I", .punct '>' false, .group .paren [.punct '#' false, .group .bracket [.ident "pin"], .ident "I", .punct ',' false, .ident "I", .punct ':' true, .punct ':' false, .ident "Item"], .ident "where", .ident "I", .punct ':' false, .ident "Iterator", .punct ';' false]
    (fun as => .struct_ { attrs := as, vis := .inherited, ident := "TupleStruct", generics := { params := [.type "I" [] none], whereClause := (some [.user (.other ":" [.tyPath .none (.mk false [.mk "I" .none]), .path (.mk false [.mk "Iterator" .none])])]) }, fields := (.unnamed [{ attrs := [⟨.path { leading := false, segs := ["pin"] }⟩], vis := .inherited, ident := none, ty := .tyPath .none (.mk false [.mk "I" .none]) }, { attrs := [], vis := .inherited, ident := none, ty := .tyPath .none (.mk false [.mk "I" .none, .mk "Item" .none]) }]) })) == none
#guard (pinProject [.ident "project", .punct '=' false, .ident "EnumProj", .punct ',' false, .ident "project_ref", .punct '=' false, .ident "EnumProjRef", .punct ',' false, .ident "project_replace", .punct '=' false, .ident "EnumProjOwn"] []
    [.ident "enum", .ident "Enum", .punct '<' false, .ident "I", .punct '>' false, .ident "where", .ident "I", .punct ':' false, .ident "Iterator", .punct ',' false, .group .brace [.ident "V1", .group .paren [.punct '#' false, .group .bracket [.ident "pin"], .ident "I"], .punct ',' false, .ident "V2", .group .paren [.ident "I", .punct ':' true, .punct ':' false, .ident "Item"], .punct ',' false]]
    (fun as => .enum_ { attrs := as, vis := .inherited, ident := "Enum", generics := { params := [.type "I" [] none], whereClause := (some [.user (.other ":" [.tyPath .none (.mk false [.mk "I" .none]), .path (.mk false [.mk "Iterator" .none])])]) }, variants := [{ attrs := [], ident := "V1", fields := (.unnamed [{ attrs := [⟨.path { leading := false, segs := ["pin"] }⟩], vis := .inherited, ident := none, ty := .tyPath .none (.mk false [.mk "I" .none]) }]), discriminant := none }, { attrs := [], ident := "V2", fields := (.unnamed [{ attrs := [], vis := .inherited, ident := none, ty := .tyPath .none (.mk false [.mk "I" .none, .mk "Item" .none]) }]), discriminant := none }] })) == none
#guard (pinProject [.ident "project_replace"] [⟨.list { leading := false, segs := ["derive"] } .paren [.ident "Clone", .punct ',' false, .ident "Copy"]⟩]
    [.ident "struct", .ident "Struct", .punct '<' false, .ident "T", .punct '>' false, .group .brace [.ident "f", .punct ':' false, .ident "T", .punct ',' false]]
    (fun as => .struct_ { attrs := as, vis := .inherited, ident := "Struct", generics := { params := [.type "T" [] none], whereClause := none }, fields := (.named [{ attrs := [], vis := .inherited, ident := (some "f"), ty := .tyPath .none (.mk false [.mk "T" .none]) }]) })) == none
#guard (pinProject [.ident "project_replace"] []
    [.ident "struct", .ident "Struct", .group .brace [.ident "f", .punct ':' false, .ident "NotCopy", .punct ',' false]]
    (fun as => .struct_ { attrs := as, vis := .inherited, ident := "Struct", generics := { params := [], whereClause := none }, fields := (.named [{ attrs := [], vis := .inherited, ident := (some "f"), ty := .tyPath .none (.mk false [.mk "NotCopy" .none]) }]) })) == none
#guard (pinProject [.ident "project", .punct '=' false, .ident "EnumProj", .punct ',' false, .ident "project_ref", .punct '=' false, .ident "EnumProjRef", .punct ',' false, .ident "project_replace", .punct '=' false, .ident "EnumProjOwn"] []
    [.ident "enum", .ident "Enum", .group .brace [.ident "V", .group .paren [.ident "NotCopy"], .punct ',' false]]
    (fun as => .enum_ { attrs := as, vis := .inherited, ident := "Enum", generics := { params := [], whereClause := none }, variants := [{ attrs := [], ident := "V", fields := (.unnamed [{ attrs := [], vis := .inherited, ident := none, ty := .tyPath .none (.mk false [.mk "NotCopy" .none]) }]), discriminant := none }] })) == none
#guard (pinProject [.ident "project_replace"] []
    [.ident "pub", .ident "struct", .ident "Struct1", .punct '<' true, .punct '\'' true, .ident "a", .punct ',' false, .ident "T", .punct ':' false, .punct '?' false, .ident "Sized", .punct '>' false, .group .brace [.ident "f", .punct ':' false, .punct '&' true, .punct '\'' true, .ident "a", .ident "mut", .ident "T", .punct ',' false]]
    (fun as => .struct_ { attrs := as, vis := .pub, ident := "Struct1", generics := { params := [.lifetime "'a" [], .type "T" [.other "?" [.path (.mk false [.mk "Sized" .none])]] none], whereClause := none }, fields := (.named [{ attrs := [], vis := .inherited, ident := (some "f"), ty := .other "&mut" [.lifetime "'a", .tyPath .none (.mk false [.mk "T" .none])] }]) })) == none
#guard (pinProject [.ident "project_replace"] []
    [.ident "pub", .ident "struct", .ident "Struct2", .punct '<' true, .punct '\'' true, .ident "a", .punct ',' false, .ident "T", .punct ':' false, .punct ':' true, .punct ':' false, .ident "core", .punct ':' true, .punct ':' false, .ident "fmt", .punct ':' true, .punct ':' false, .ident "Debug", .punct '>' false, .group .brace [.ident "f", .punct ':' false, .punct '&' true, .punct '\'' true, .ident "a", .ident "mut", .ident "T", .punct ',' false]]
    (fun as => .struct_ { attrs := as, vis := .pub, ident := "Struct2", generics := { params := [.lifetime "'a" [], .type "T" [.path (.mk true [.mk "core" .none, .mk "fmt" .none, .mk "Debug" .none])] none], whereClause := none }, fields := (.named [{ attrs := [], vis := .inherited, ident := (some "f"), ty := .other "&mut" [.lifetime "'a", .tyPath .none (.mk false [.mk "T" .none])] }]) })) == none
#guard (pinProject [.ident "project_replace"] []
    [.ident "pub", .ident "struct", .ident "Struct3", .punct '<' true, .punct '\'' true, .ident "a", .punct ',' false, .ident "T", .punct ':' false, .ident "core", .punct ':' true, .punct ':' false, .ident "fmt", .punct ':' true, .punct ':' false, .ident "Debug", .punct '>' false, .group .brace [.ident "f", .punct ':' false, .punct '&' true, .punct '\'' true, .ident "a", .ident "mut", .ident "T", .punct ',' false]]
    (fun as => .struct_ { attrs := as, vis := .pub, ident := "Struct3", generics := { params := [.lifetime "'a" [], .type "T" [.path (.mk false [.mk "core" .none, .mk "fmt" .none, .mk "Debug" .none])] none], whereClause := none }, fields := (.named [{ attrs := [], vis := .inherited, ident := (some "f"), ty := .other "&mut" [.lifetime "'a", .tyPath .none (.mk false [.mk "T" .none])] }]) })) == none
#guard (pinProject [.ident "project_replace"] []
    [.ident "pub", .ident "struct", .ident "Struct4", .punct '<' true, .punct '\'' true, .ident "a", .punct ',' false, .ident "T", .punct ':' false, .ident "core", .punct ':' true, .punct ':' false, .ident "fmt", .punct ':' true, .punct ':' false, .ident "Debug", .punct '+' false, .ident "core", .punct ':' true, .punct ':' false, .ident "fmt", .punct ':' true, .punct ':' false, .ident "Display", .punct '>' false, .group .brace [.ident "f", .punct ':' false, .punct '&' true, .punct '\'' true, .ident "a", .ident "mut", .ident "T", .punct ',' false]]
    (fun as => .struct_ { attrs := as, vis := .pub, ident := "Struct4", generics := { params := [.lifetime "'a" [], .type "T" [.path (.mk false [.mk "core" .none, .mk "fmt" .none, .mk "Debug" .none]), .path (.mk false [.mk "core" .none, .mk "fmt" .none, .mk "Display" .none])] none], whereClause := none }, fields := (.named [{ attrs := [], vis := .inherited, ident := (some "f"), ty := .other "&mut" [.lifetime "'a", .tyPath .none (.mk false [.mk "T" .none])] }]) })) == none
#guard (pinProject [.ident "project_replace"] []
    [.ident "pub", .ident "struct", .ident "Struct5", .punct '<' true, .punct '\'' true, .ident "a", .punct ',' false, .ident "T", .punct ':' false, .ident "core", .punct ':' true, .punct ':' false, .ident "fmt", .punct ':' true, .punct ':' false, .ident "Debug", .punct '+' false, .punct '?' false, .ident "Sized", .punct '>' false, .group .brace [.ident "f", .punct ':' false, .punct '&' true, .punct '\'' true, .ident "a", .ident "mut", .ident "T", .punct ',' false]]
    (fun as => .struct_ { attrs := as, vis := .pub, ident := "Struct5", generics := { params := [.lifetime "'a" [], .type "T" [.path (.mk false [.mk "core" .none, .mk "fmt" .none, .mk "Debug" .none]), .other "?" [.path (.mk false [.mk "Sized" .none])]] none], whereClause := none }, fields := (.named [{ attrs := [], vis := .inherited, ident := (some "f"), ty := .other "&mut" [.lifetime "'a", .tyPath .none (.mk false [.mk "T" .none])] }]) })) == none
#guard (pinProject [.ident "project_replace"] []
    [.ident "pub", .ident "struct", .ident "Struct6", .punct '<' true, .punct '\'' true, .ident "a", .punct ',' false, .ident "T", .punct ':' false, .ident "core", .punct ':' true, .punct ':' false, .ident "fmt", .punct ':' true, .punct ':' false, .ident "Debug", .punct '=' false, .group .bracket [.ident "u8", .punct ';' false, .lit "16"], .punct '>' false, .group .brace [.ident "f", .punct ':' false, .punct '&' true, .punct '\'' true, .ident "a", .ident "mut", .ident "T", .punct ',' false]]
    (fun as => .struct_ { attrs := as, vis := .pub, ident := "Struct6", generics := { params := [.lifetime "'a" [], .type "T" [.path (.mk false [.mk "core" .none, .mk "fmt" .none, .mk "Debug" .none])] (some (.other "array" [.tyPath .none (.mk false [.mk "u8" .none])]))], whereClause := none }, fields := (.named [{ attrs := [], vis := .inherited, ident := (some "f"), ty := .other "&mut" [.lifetime "'a", .tyPath .none (.mk false [.mk "T" .none])] }]) })) == none
#guard (pinProject [.ident "project_replace"] []
    [.ident "pub", .ident "struct", .ident "Struct7", .punct '<' false, .ident "T", .punct ':' false, .punct '\'' true, .ident "static", .punct '>' false, .group .brace [.ident "f", .punct ':' false, .ident "T", .punct ',' false]]
    (fun as => .struct_ { attrs := as, vis := .pub, ident := "Struct7", generics := { params := [.type "T" [.lifetime "'static"] none], whereClause := none }, fields := (.named [{ attrs := [], vis := .inherited, ident := (some "f"), ty := .tyPath .none (.mk false [.mk "T" .none]) }]) })) == none
#guard (pinProject [.ident "project_replace"] []
    [.ident "pub", .ident "struct", .ident "Struct8", .punct '<' true, .punct '\'' true, .ident "a", .punct ',' false, .punct '\'' true, .ident "b", .punct ':' false, .punct '\'' true, .ident "a", .punct '>' false, .group .brace [.ident "f1", .punct ':' false, .punct '&' true, .punct '\'' true, .ident "a", .ident "u8", .punct ',' false, .ident "f2", .punct ':' false, .punct '&' true, .punct '\'' true, .ident "b", .ident "u8", .punct ',' false]]
    (fun as => .struct_ { attrs := as, vis := .pub, ident := "Struct8", generics := { params := [.lifetime "'a" [], .lifetime "'b" ["'a"]], whereClause := none }, fields := (.named [{ attrs := [], vis := .inherited, ident := (some "f1"), ty := .other "&" [.lifetime "'a", .tyPath .none (.mk false [.mk "u8" .none])] }, { attrs := [], vis := .inherited, ident := (some "f2"), ty := .other "&" [.lifetime "'b", .tyPath .none (.mk false [.mk "u8" .none])] }]) })) == none
#guard (pinProject [.ident "project_replace"] []
    [.ident "pub", .ident "struct", .ident "TupleStruct", .punct '<' true, .punct '\'' true, .ident "a", .punct ',' false, .ident "T", .punct ':' false, .punct '?' false, .ident "Sized", .punct '>' false, .group .paren [.punct '&' true, .punct '\'' true, .ident "a", .ident "mut", .ident "T"], .punct ';' false]
    (fun as => .struct_ { attrs := as, vis := .pub, ident := "TupleStruct", generics := { params := [.lifetime "'a" [], .type "T" [.other "?" [.path (.mk false [.mk "Sized" .none])]] none], whereClause := none }, fields := (.unnamed [{ attrs := [], vis := .inherited, ident := none, ty := .other "&mut" [.lifetime "'a", .tyPath .none (.mk false [.mk "T" .none])] }]) })) == none
#guard (pinProject [.ident "project", .punct '=' false, .ident "EnumProj", .punct ',' false, .ident "project_ref", .punct '=' false, .ident "EnumProjRef", .punct ',' false, .ident "project_replace", .punct '=' false, .ident "EnumProjOwn"] []
    [.ident "enum", .ident "Enum", .punct '<' true, .punct '\'' true, .ident "a", .punct ',' false, .ident "T", .punct ':' false, .punct '?' false, .ident "Sized", .punct '>' false, .group .brace [.ident "V", .group .paren [.punct '&' true, .punct '\'' true, .ident "a", .ident "mut", .ident "T"], .punct ',' false]]
    (fun as => .enum_ { attrs := as, vis := .inherited, ident := "Enum", generics := { params := [.lifetime "'a" [], .type "T" [.other "?" [.path (.mk false [.mk "Sized" .none])]] none], whereClause := none }, variants := [{ attrs := [], ident := "V", fields := (.unnamed [{ attrs := [], vis := .inherited, ident := none, ty := .other "&mut" [.lifetime "'a", .tyPath .none (.mk false [.mk "T" .none])] }]), discriminant := none }] })) == none
#guard (pinProject [.ident "project_replace"] []
    [.ident "pub", .ident "struct", .ident "Struct1", .punct '<' true, .punct '\'' true, .ident "pin", .punct ',' false, .ident "T", .punct '>' false, .group .brace [.punct '#' false, .group .bracket [.ident "pin"], .ident "f", .punct ':' false, .punct '&' true, .punct '\'' true, .ident "pin", .ident "mut", .ident "T", .punct ',' false]]
    (fun as => .struct_ { attrs := as, vis := .pub, ident := "Struct1", generics := { params := [.lifetime "'pin" [], .type "T" [] none], whereClause := none }, fields := (.named [{ attrs := [⟨.path { leading := false, segs := ["pin"] }⟩], vis := .inherited, ident := (some "f"), ty := .other "&mut" [.lifetime "'pin", .tyPath .none (.mk false [.mk "T" .none])] }]) })) == none
#guard (pinProject [.ident "project_replace"] []
    [.ident "pub", .ident "struct", .ident "Struct2", .punct '<' true, .punct '\'' true, .ident "pin", .punct ',' false, .punct '\'' true, .ident "pin_", .punct ',' false, .punct '\'' true, .ident "pin__", .punct '>' false, .group .brace [.punct '#' false, .group .bracket [.ident "pin"], .ident "f", .punct ':' false, .punct '&' true, .punct '\'' true, .ident "pin", .punct '&' true, .punct '\'' true, .ident "pin_", .punct '&' true, .punct '\'' true, .ident "pin__", .group .paren [], .punct ',' false]]
    (fun as => .struct_ { attrs := as, vis := .pub, ident := "Struct2", generics := { params := [.lifetime "'pin" [], .lifetime "'pin_" [], .lifetime "'pin__" []], whereClause := none }, fields := (.named [{ attrs := [⟨.path { leading := false, segs := ["pin"] }⟩], vis := .inherited, ident := (some "f"), ty := .other "&" [.lifetime "'pin", .other "&" [.lifetime "'pin_", .other "&" [.lifetime "'pin__", .other "tuple" []]]] }]) })) == none
#guard (pinProject [.ident "project_replace"] []
    [.ident "pub", .ident "struct", .ident "Hrtb", .punct '<' true, .punct '\'' true, .ident "pin___", .punct ',' false, .ident "T", .punct '>' false, .ident "where", .ident "for", .punct '<' true, .punct '\'' true, .ident "pin", .punct '>' false, .punct '&' true, .punct '\'' true, .ident "pin", .ident "T", .punct ':' false, .ident "Unpin", .punct ',' false, .ident "T", .punct ':' false, .ident "for", .punct '<' true, .punct '\'' true, .ident "pin", .punct '>' false, .ident "Trait", .punct '<' true, .punct '\'' true, .ident "pin", .punct '>' true, .punct ',' false, .ident "for", .punct '<' true, .punct '\'' true, .ident "pin", .punct ',' false, .punct '\'' true, .ident "pin_", .punct ',' false, .punct '\'' true, .ident "pin__", .punct '>' false, .punct '&' true, .punct '\'' true, .ident "pin", .punct '&' true, .punct '\'' true, .ident "pin_", .punct '&' true, .punct '\'' true, .ident "pin__", .ident "T", .punct ':' false, .ident "Unpin", .punct ',' false, .group .brace [.punct '#' false, .group .bracket [.ident "pin"], .ident "f", .punct ':' false, .punct '&' true, .punct '\'' true, .ident "pin___", .ident "mut", .ident "T", .punct ',' false]]
    (fun as => .struct_ { attrs := as, vis := .pub, ident := "Hrtb", generics := { params := [.lifetime "'pin___" [], .type "T" [] none], whereClause := (some [.user (.other ":" [.binder ["'pin"], .other "&" [.lifetime "'pin", .tyPath .none (.mk false [.mk "T" .none])], .path (.mk false [.mk "Unpin" .none])]), .user (.other ":" [.tyPath .none (.mk false [.mk "T" .none]), .binder ["'pin"], .path (.mk false [.mk "Trait" (.angle false [.lifetime "'pin"])])]), .user (.other ":" [.binder ["'pin", "'pin_", "'pin__"], .other "&" [.lifetime "'pin", .other "&" [.lifetime "'pin_", .other "&" [.lifetime "'pin__", .tyPath .none (.mk false [.mk "T" .none])]]], .path (.mk false [.mk "Unpin" .none])])]) }, fields := (.named [{ attrs := [⟨.path { leading := false, segs := ["pin"] }⟩], vis := .inherited, ident := (some "f"), ty := .other "&mut" [.lifetime "'pin___", .tyPath .none (.mk false [.mk "T" .none])] }]) })) == none
#guard (pinProject [.ident "PinnedDrop"] []
    [.ident "pub", .ident "struct", .ident "PinnedDropStruct", .punct '<' true, .punct '\'' true, .ident "pin", .punct '>' false, .group .brace [.punct '#' false, .group .bracket [.ident "pin"], .ident "f", .punct ':' false, .punct '&' true, .punct '\'' true, .ident "pin", .group .paren [], .punct ',' false]]
    (fun as => .struct_ { attrs := as, vis := .pub, ident := "PinnedDropStruct", generics := { params := [.lifetime "'pin" []], whereClause := none }, fields := (.named [{ attrs := [⟨.path { leading := false, segs := ["pin"] }⟩], vis := .inherited, ident := (some "f"), ty := .other "&" [.lifetime "'pin", .other "tuple" []] }]) })) == none
#guard (pinnedDrop []
    { attrs := [], isUnsafe := false, generics := { params := [], whereClause := none }, trait_ := (some (false, (.mk false [.mk "PinnedDrop" .none]))), selfTy := .tyPath .none (.mk false [.mk "PinnedDropStruct" (.angle false [.lifetime "'_"])]), selfToks := [.ident "PinnedDropStruct", .punct '<' true, .punct '\'' true, .ident "_", .punct '>' false], items := [.fn { attrs := [], sig := { quals := [], isUnsafe := false, ident := "drop", generics := { params := [], whereClause := none }, inputs := [.receiver false false (.tyPath .none (.mk false [.mk "Pin" (.angle false [.other "&mut" [.tyPath .none (.mk false [.mk "Self" .none])]])]))], output := none }, block := [] }] }) == none
#guard (pinProject [.ident "UnsafeUnpin"] []
    [.ident "pub", .ident "struct", .ident "UnsafeUnpinStruct", .punct '<' true, .punct '\'' true, .ident "pin", .punct '>' false, .group .brace [.punct '#' false, .group .bracket [.ident "pin"], .ident "f", .punct ':' false, .punct '&' true, .punct '\'' true, .ident "pin", .group .paren [], .punct ',' false]]
    (fun as => .struct_ { attrs := as, vis := .pub, ident := "UnsafeUnpinStruct", generics := { params := [.lifetime "'pin" []], whereClause := none }, fields := (.named [{ attrs := [⟨.path { leading := false, segs := ["pin"] }⟩], vis := .inherited, ident := (some "f"), ty := .other "&" [.lifetime "'pin", .other "tuple" []] }]) })) == none
#guard (pinProject [.punct '!' false, .ident "Unpin"] []
    [.ident "pub", .ident "struct", .ident "NotUnpinStruct", .punct '<' true, .punct '\'' true, .ident "pin", .punct '>' false, .group .brace [.punct '#' false, .group .bracket [.ident "pin"], .ident "f", .punct ':' false, .punct '&' true, .punct '\'' true, .ident "pin", .group .paren [], .punct ',' false]]
    (fun as => .struct_ { attrs := as, vis := .pub, ident := "NotUnpinStruct", generics := { params := [.lifetime "'pin" []], whereClause := none }, fields := (.named [{ attrs := [⟨.path { leading := false, segs := ["pin"] }⟩], vis := .inherited, ident := (some "f"), ty := .other "&" [.lifetime "'pin", .other "tuple" []] }]) })) == none
#guard (pinProject [.ident "PinnedDrop", .punct ',' false, .ident "UnsafeUnpin"] []
    [.ident "pub", .ident "struct", .ident "PinnedDropWithUnsafeUnpin", .punct '<' false, .ident "T", .punct '>' false, .group .brace [.punct '#' false, .group .bracket [.ident "pin"], .ident "f", .punct ':' false, .ident "T", .punct ',' false]]
    (fun as => .struct_ { attrs := as, vis := .pub, ident := "PinnedDropWithUnsafeUnpin", generics := { params := [.type "T" [] none], whereClause := none }, fields := (.named [{ attrs := [⟨.path { leading := false, segs := ["pin"] }⟩], vis := .inherited, ident := (some "f"), ty := .tyPath .none (.mk false [.mk "T" .none]) }]) })) == none
#guard (pinnedDrop []
    { attrs := [], isUnsafe := false, generics := { params := [.type "T" [] none], whereClause := none }, trait_ := (some (false, (.mk false [.mk "PinnedDrop" .none]))), selfTy := .tyPath .none (.mk false [.mk "PinnedDropWithUnsafeUnpin" (.angle false [.tyPath .none (.mk false [.mk "T" .none])])]), selfToks := [.ident "PinnedDropWithUnsafeUnpin", .punct '<' false, .ident "T", .punct '>' false], items := [.fn { attrs := [], sig := { quals := [], isUnsafe := false, ident := "drop", generics := { params := [], whereClause := none }, inputs := [.receiver false false (.tyPath .none (.mk false [.mk "Pin" (.angle false [.other "&mut" [.tyPath .none (.mk false [.mk "Self" .none])]])]))], output := none }, block := [] }] }) == none
#guard (pinProject [.ident "PinnedDrop", .punct ',' false, .punct '!' false, .ident "Unpin"] []
    [.ident "pub", .ident "struct", .ident "PinnedDropWithNotUnpin", .punct '<' false, .ident "T", .punct '>' false, .group .brace [.punct '#' false, .group .bracket [.ident "pin"], .ident "f", .punct ':' false, .ident "T", .punct ',' false]]
    (fun as => .struct_ { attrs := as, vis := .pub, ident := "PinnedDropWithNotUnpin", generics := { params := [.type "T" [] none], whereClause := none }, fields := (.named [{ attrs := [⟨.path { leading := false, segs := ["pin"] }⟩], vis := .inherited, ident := (some "f"), ty := .tyPath .none (.mk false [.mk "T" .none]) }]) })) == none
#guard (pinnedDrop []
    { attrs := [], isUnsafe := false, generics := { params := [.type "T" [] none], whereClause := none }, trait_ := (some (false, (.mk false [.mk "PinnedDrop" .none]))), selfTy := .tyPath .none (.mk false [.mk "PinnedDropWithNotUnpin" (.angle false [.tyPath .none (.mk false [.mk "T" .none])])]), selfToks := [.ident "PinnedDropWithNotUnpin", .punct '<' false, .ident "T", .punct '>' false], items := [.fn { attrs := [], sig := { quals := [], isUnsafe := false, ident := "drop", generics := { params := [], whereClause := none }, inputs := [.receiver false false (.tyPath .none (.mk false [.mk "Pin" (.angle false [.other "&mut" [.tyPath .none (.mk false [.mk "Self" .none])]])]))], output := none }, block := [] }] }) == none
#guard (pinProject [.ident "UnsafeUnpin", .punct ',' false, .ident "project_replace"] []
    [.ident "pub", .ident "struct", .ident "UnsafeUnpinWithReplace", .punct '<' false, .ident "T", .punct '>' false, .group .brace [.punct '#' false, .group .bracket [.ident "pin"], .ident "f", .punct ':' false, .ident "T", .punct ',' false]]
    (fun as => .struct_ { attrs := as, vis := .pub, ident := "UnsafeUnpinWithReplace", generics := { params := [.type "T" [] none], whereClause := none }, fields := (.named [{ attrs := [⟨.path { leading := false, segs := ["pin"] }⟩], vis := .inherited, ident := (some "f"), ty := .tyPath .none (.mk false [.mk "T" .none]) }]) })) == none
#guard (pinProject [.punct '!' false, .ident "Unpin", .punct ',' false, .ident "project_replace"] []
    [.ident "pub", .ident "struct", .ident "NotUnpinWithReplace", .punct '<' false, .ident "T", .punct '>' false, .group .brace [.punct '#' false, .group .bracket [.ident "pin"], .ident "f", .punct ':' false, .ident "T", .punct ',' false]]
    (fun as => .struct_ { attrs := as, vis := .pub, ident := "NotUnpinWithReplace", generics := { params := [.type "T" [] none], whereClause := none }, fields := (.named [{ attrs := [⟨.path { leading := false, segs := ["pin"] }⟩], vis := .inherited, ident := (some "f"), ty := .tyPath .none (.mk false [.mk "T" .none]) }]) })) == none
#guard (pinProject [.ident "project_replace"] []
    [.ident "pub", .ident "struct", .ident "PublicStruct", .punct '<' false, .ident "T", .punct '>' false, .group .brace [.punct '#' false, .group .bracket [.ident "pin"], .ident "inner", .punct ':' false, .ident "PrivateStruct", .punct '<' false, .ident "T", .punct '>' true, .punct ',' false]]
    (fun as => .struct_ { attrs := as, vis := .pub, ident := "PublicStruct", generics := { params := [.type "T" [] none], whereClause := none }, fields := (.named [{ attrs := [⟨.path { leading := false, segs := ["pin"] }⟩], vis := .inherited, ident := (some "inner"), ty := .tyPath .none (.mk false [.mk "PrivateStruct" (.angle false [.tyPath .none (.mk false [.mk "T" .none])])]) }]) })) == none
#guard (pinProject [.ident "project_replace"] []
    [.ident "struct", .ident "Struct1", .punct '<' false, .ident "T", .punct ',' false, .ident "U", .punct '>' false, .group .brace [.punct '#' false, .group .bracket [.ident "pin"], .ident "pinned", .punct ':' false, .ident "T", .punct ',' false, .ident "unpinned", .punct ':' false, .ident "U", .punct ',' false]]
    (fun as => .struct_ { attrs := as, vis := .inherited, ident := "Struct1", generics := { params := [.type "T" [] none, .type "U" [] none], whereClause := none }, fields := (.named [{ attrs := [⟨.path { leading := false, segs := ["pin"] }⟩], vis := .inherited, ident := (some "pinned"), ty := .tyPath .none (.mk false [.mk "T" .none]) }, { attrs := [], vis := .inherited, ident := (some "unpinned"), ty := .tyPath .none (.mk false [.mk "U" .none]) }]) })) == none
#guard (pinProject [.ident "project_replace"] []
    [.ident "struct", .ident "Struct2", .punct '<' true, .punct '\'' true, .ident "a", .punct ',' false, .ident "T", .punct ',' false, .ident "U", .punct '>' false, .group .brace [.punct '#' false, .group .bracket [.ident "pin"], .ident "pinned", .punct ':' false, .punct '&' true, .punct '\'' true, .ident "a", .ident "T", .punct ',' false, .ident "unpinned", .punct ':' false, .ident "U", .punct ',' false]]
    (fun as => .struct_ { attrs := as, vis := .inherited, ident := "Struct2", generics := { params := [.lifetime "'a" [], .type "T" [] none, .type "U" [] none], whereClause := none }, fields := (.named [{ attrs := [⟨.path { leading := false, segs := ["pin"] }⟩], vis := .inherited, ident := (some "pinned"), ty := .other "&" [.lifetime "'a", .tyPath .none (.mk false [.mk "T" .none])] }, { attrs := [], vis := .inherited, ident := (some "unpinned"), ty := .tyPath .none (.mk false [.mk "U" .none]) }]) })) == none
#guard (pinProject [.ident "project", .punct '=' false, .ident "EnumProj", .punct ',' false, .ident "project_ref", .punct '=' false, .ident "EnumProjRef", .punct ',' false, .ident "project_replace", .punct '=' false, .ident "EnumProjOwn"] []
    [.ident "enum", .ident "Enum", .punct '<' false, .ident "T", .punct ',' false, .ident "U", .punct '>' false, .group .brace [.ident "V", .group .brace [.punct '#' false, .group .bracket [.ident "pin"], .ident "pinned", .punct ':' false, .ident "T", .punct ',' false, .ident "unpinned", .punct ':' false, .ident "U", .punct ',' false], .punct ',' false]]
    (fun as => .enum_ { attrs := as, vis := .inherited, ident := "Enum", generics := { params := [.type "T" [] none, .type "U" [] none], whereClause := none }, variants := [{ attrs := [], ident := "V", fields := (.named [{ attrs := [⟨.path { leading := false, segs := ["pin"] }⟩], vis := .inherited, ident := (some "pinned"), ty := .tyPath .none (.mk false [.mk "T" .none]) }, { attrs := [], vis := .inherited, ident := (some "unpinned"), ty := .tyPath .none (.mk false [.mk "U" .none]) }]), discriminant := none }] })) == none
#guard (pinProject [.ident "project_replace"] []
    [.ident "pub", .group .paren [.ident "crate"], .ident "struct", .ident "S", .group .brace [.ident "pub", .ident "f", .punct ':' false, .ident "u8", .punct ',' false]]
    (fun as => .struct_ { attrs := as, vis := (.restricted false { leading := false, segs := ["crate"] }), ident := "S", generics := { params := [], whereClause := none }, fields := (.named [{ attrs := [], vis := .pub, ident := (some "f"), ty := .tyPath .none (.mk false [.mk "u8" .none]) }]) })) == none
#guard (pinProject [.ident "project_replace"] []
    [.ident "pub", .ident "struct", .ident "NoGenerics", .group .brace [.punct '#' false, .group .bracket [.ident "pin"], .ident "f", .punct ':' false, .ident "PhantomPinned", .punct ',' false]]
    (fun as => .struct_ { attrs := as, vis := .pub, ident := "NoGenerics", generics := { params := [], whereClause := none }, fields := (.named [{ attrs := [⟨.path { leading := false, segs := ["pin"] }⟩], vis := .inherited, ident := (some "f"), ty := .tyPath .none (.mk false [.mk "PhantomPinned" .none]) }]) })) == none
#guard (pinProject [] []
    [.ident "struct", .ident "Struct1", .punct '<' false, .ident "T", .punct ':' false, .punct '?' false, .ident "Sized", .punct '>' false, .group .brace [.ident "f", .punct ':' false, .ident "T", .punct ',' false]]
    (fun as => .struct_ { attrs := as, vis := .inherited, ident := "Struct1", generics := { params := [.type "T" [.other "?" [.path (.mk false [.mk "Sized" .none])]] none], whereClause := none }, fields := (.named [{ attrs := [], vis := .inherited, ident := (some "f"), ty := .tyPath .none (.mk false [.mk "T" .none]) }]) })) == none
#guard (pinProject [] []
    [.ident "struct", .ident "Struct2", .punct '<' false, .ident "T", .punct ':' false, .punct '?' false, .ident "Sized", .punct '>' false, .group .brace [.punct '#' false, .group .bracket [.ident "pin"], .ident "f", .punct ':' false, .ident "T", .punct ',' false]]
    (fun as => .struct_ { attrs := as, vis := .inherited, ident := "Struct2", generics := { params := [.type "T" [.other "?" [.path (.mk false [.mk "Sized" .none])]] none], whereClause := none }, fields := (.named [{ attrs := [⟨.path { leading := false, segs := ["pin"] }⟩], vis := .inherited, ident := (some "f"), ty := .tyPath .none (.mk false [.mk "T" .none]) }]) })) == none
#guard (pinProject [] [⟨.list { leading := false, segs := ["allow"] } .paren [.ident "explicit_outlives_requirements"]⟩]
    [.ident "struct", .ident "Struct3", .punct '<' false, .ident "T", .punct '>' false, .ident "where", .ident "T", .punct ':' false, .punct '?' false, .ident "Sized", .punct ',' false, .group .brace [.ident "f", .punct ':' false, .ident "T", .punct ',' false]]
    (fun as => .struct_ { attrs := as, vis := .inherited, ident := "Struct3", generics := { params := [.type "T" [] none], whereClause := (some [.user (.other ":" [.tyPath .none (.mk false [.mk "T" .none]), .other "?" [.path (.mk false [.mk "Sized" .none])]])]) }, fields := (.named [{ attrs := [], vis := .inherited, ident := (some "f"), ty := .tyPath .none (.mk false [.mk "T" .none]) }]) })) == none
#guard (pinProject [] [⟨.list { leading := false, segs := ["allow"] } .paren [.ident "explicit_outlives_requirements"]⟩]
    [.ident "struct", .ident "Struct4", .punct '<' false, .ident "T", .punct '>' false, .ident "where", .ident "T", .punct ':' false, .punct '?' false, .ident "Sized", .punct ',' false, .group .brace [.punct '#' false, .group .bracket [.ident "pin"], .ident "f", .punct ':' false, .ident "T", .punct ',' false]]
    (fun as => .struct_ { attrs := as, vis := .inherited, ident := "Struct4", generics := { params := [.type "T" [] none], whereClause := (some [.user (.other ":" [.tyPath .none (.mk false [.mk "T" .none]), .other "?" [.path (.mk false [.mk "Sized" .none])]])]) }, fields := (.named [{ attrs := [⟨.path { leading := false, segs := ["pin"] }⟩], vis := .inherited, ident := (some "f"), ty := .tyPath .none (.mk false [.mk "T" .none]) }]) })) == none
#guard (pinProject [.ident "UnsafeUnpin"] []
    [.ident "struct", .ident "Struct5", .punct '<' false, .ident "T", .punct ':' false, .punct '?' false, .ident "Sized", .punct '>' false, .group .brace [.ident "f", .punct ':' false, .ident "T", .punct ',' false]]
    (fun as => .struct_ { attrs := as, vis := .inherited, ident := "Struct5", generics := { params := [.type "T" [.other "?" [.path (.mk false [.mk "Sized" .none])]] none], whereClause := none }, fields := (.named [{ attrs := [], vis := .inherited, ident := (some "f"), ty := .tyPath .none (.mk false [.mk "T" .none]) }]) })) == none
#guard (pinProject [.ident "UnsafeUnpin"] []
    [.ident "struct", .ident "Struct6", .punct '<' false, .ident "T", .punct ':' false, .punct '?' false, .ident "Sized", .punct '>' false, .group .brace [.punct '#' false, .group .bracket [.ident "pin"], .ident "f", .punct ':' false, .ident "T", .punct ',' false]]
    (fun as => .struct_ { attrs := as, vis := .inherited, ident := "Struct6", generics := { params := [.type "T" [.other "?" [.path (.mk false [.mk "Sized" .none])]] none], whereClause := none }, fields := (.named [{ attrs := [⟨.path { leading := false, segs := ["pin"] }⟩], vis := .inherited, ident := (some "f"), ty := .tyPath .none (.mk false [.mk "T" .none]) }]) })) == none
#guard (pinProject [.ident "PinnedDrop"] []
    [.ident "struct", .ident "Struct7", .punct '<' false, .ident "T", .punct ':' false, .punct '?' false, .ident "Sized", .punct '>' false, .group .brace [.ident "f", .punct ':' false, .ident "T", .punct ',' false]]
    (fun as => .struct_ { attrs := as, vis := .inherited, ident := "Struct7", generics := { params := [.type "T" [.other "?" [.path (.mk false [.mk "Sized" .none])]] none], whereClause := none }, fields := (.named [{ attrs := [], vis := .inherited, ident := (some "f"), ty := .tyPath .none (.mk false [.mk "T" .none]) }]) })) == none
#guard (pinnedDrop []
    { attrs := [], isUnsafe := false, generics := { params := [.type "T" [.other "?" [.path (.mk false [.mk "Sized" .none])]] none], whereClause := none }, trait_ := (some (false, (.mk false [.mk "PinnedDrop" .none]))), selfTy := .tyPath .none (.mk false [.mk "Struct7" (.angle false [.tyPath .none (.mk false [.mk "T" .none])])]), selfToks := [.ident "Struct7", .punct '<' false, .ident "T", .punct '>' false], items := [.fn { attrs := [], sig := { quals := [], isUnsafe := false, ident := "drop", generics := { params := [], whereClause := none }, inputs := [.receiver false false (.tyPath .none (.mk false [.mk "Pin" (.angle false [.other "&mut" [.tyPath .none (.mk false [.mk "Self" .none])]])]))], output := none }, block := [] }] }) == none
#guard (pinProject [.ident "PinnedDrop"] []
    [.ident "struct", .ident "Struct8", .punct '<' false, .ident "T", .punct ':' false, .punct '?' false, .ident "Sized", .punct '>' false, .group .brace [.punct '#' false, .group .bracket [.ident "pin"], .ident "f", .punct ':' false, .ident "T", .punct ',' false]]
    (fun as => .struct_ { attrs := as, vis := .inherited, ident := "Struct8", generics := { params := [.type "T" [.other "?" [.path (.mk false [.mk "Sized" .none])]] none], whereClause := none }, fields := (.named [{ attrs := [⟨.path { leading := false, segs := ["pin"] }⟩], vis := .inherited, ident := (some "f"), ty := .tyPath .none (.mk false [.mk "T" .none]) }]) })) == none
#guard (pinnedDrop []
    { attrs := [], isUnsafe := false, generics := { params := [.type "T" [.other "?" [.path (.mk false [.mk "Sized" .none])]] none], whereClause := none }, trait_ := (some (false, (.mk false [.mk "PinnedDrop" .none]))), selfTy := .tyPath .none (.mk false [.mk "Struct8" (.angle false [.tyPath .none (.mk false [.mk "T" .none])])]), selfToks := [.ident "Struct8", .punct '<' false, .ident "T", .punct '>' false], items := [.fn { attrs := [], sig := { quals := [], isUnsafe := false, ident := "drop", generics := { params := [], whereClause := none }, inputs := [.receiver false false (.tyPath .none (.mk false [.mk "Pin" (.angle false [.other "&mut" [.tyPath .none (.mk false [.mk "Self" .none])]])]))], output := none }, block := [] }] }) == none
#guard (pinProject [.punct '!' false, .ident "Unpin"] []
    [.ident "struct", .ident "Struct9", .punct '<' false, .ident "T", .punct ':' false, .punct '?' false, .ident "Sized", .punct '>' false, .group .brace [.ident "f", .punct ':' false, .ident "T", .punct ',' false]]
    (fun as => .struct_ { attrs := as, vis := .inherited, ident := "Struct9", generics := { params := [.type "T" [.other "?" [.path (.mk false [.mk "Sized" .none])]] none], whereClause := none }, fields := (.named [{ attrs := [], vis := .inherited, ident := (some "f"), ty := .tyPath .none (.mk false [.mk "T" .none]) }]) })) == none
#guard (pinProject [.punct '!' false, .ident "Unpin"] []
    [.ident "struct", .ident "Struct10", .punct '<' false, .ident "T", .punct ':' false, .punct '?' false, .ident "Sized", .punct '>' false, .group .brace [.punct '#' false, .group .bracket [.ident "pin"], .ident "f", .punct ':' false, .ident "T", .punct ',' false]]
    (fun as => .struct_ { attrs := as, vis := .inherited, ident := "Struct10", generics := { params := [.type "T" [.other "?" [.path (.mk false [.mk "Sized" .none])]] none], whereClause := none }, fields := (.named [{ attrs := [⟨.path { leading := false, segs := ["pin"] }⟩], vis := .inherited, ident := (some "f"), ty := .tyPath .none (.mk false [.mk "T" .none]) }]) })) == none
#guard (pinProject [] []
    [.ident "struct", .ident "Struct11", .punct '<' true, .punct '\'' true, .ident "a", .punct ',' false, .ident "T", .punct ':' false, .punct '?' false, .ident "Sized", .punct ',' false, .ident "U", .punct ':' false, .punct '?' false, .ident "Sized", .punct '>' false, .group .brace [.ident "f1", .punct ':' false, .punct '&' true, .punct '\'' true, .ident "a", .ident "mut", .ident "T", .punct ',' false, .ident "f2", .punct ':' false, .ident "U", .punct ',' false]]
    (fun as => .struct_ { attrs := as, vis := .inherited, ident := "Struct11", generics := { params := [.lifetime "'a" [], .type "T" [.other "?" [.path (.mk false [.mk "Sized" .none])]] none, .type "U" [.other "?" [.path (.mk false [.mk "Sized" .none])]] none], whereClause := none }, fields := (.named [{ attrs := [], vis := .inherited, ident := (some "f1"), ty := .other "&mut" [.lifetime "'a", .tyPath .none (.mk false [.mk "T" .none])] }, { attrs := [], vis := .inherited, ident := (some "f2"), ty := .tyPath .none (.mk false [.mk "U" .none]) }]) })) == none
#guard (pinProject [] []
    [.ident "struct", .ident "TupleStruct1", .punct '<' false, .ident "T", .punct ':' false, .punct '?' false, .ident "Sized", .punct '>' false, .group .paren [.ident "T"], .punct ';' false]
    (fun as => .struct_ { attrs := as, vis := .inherited, ident := "TupleStruct1", generics := { params := [.type "T" [.other "?" [.path (.mk false [.mk "Sized" .none])]] none], whereClause := none }, fields := (.unnamed [{ attrs := [], vis := .inherited, ident := none, ty := .tyPath .none (.mk false [.mk "T" .none]) }]) })) == none
#guard (pinProject [] []
    [.ident "struct", .ident "TupleStruct2", .punct '<' false, .ident "T", .punct ':' false, .punct '?' false, .ident "Sized", .punct '>' false, .group .paren [.punct '#' false, .group .bracket [.ident "pin"], .ident "T"], .punct ';' false]
    (fun as => .struct_ { attrs := as, vis := .inherited, ident := "TupleStruct2", generics := { params := [.type "T" [.other "?" [.path (.mk false [.mk "Sized" .none])]] none], whereClause := none }, fields := (.unnamed [{ attrs := [⟨.path { leading := false, segs := ["pin"] }⟩], vis := .inherited, ident := none, ty := .tyPath .none (.mk false [.mk "T" .none]) }]) })) == none
#guard (pinProject [] [⟨.list { leading := false, segs := ["allow"] } .paren [.ident "explicit_outlives_requirements"]⟩]
    [.ident "struct", .ident "TupleStruct3", .punct '<' false, .ident "T", .punct '>' false, .group .paren [.ident "T"], .ident "where", .ident "T", .punct ':' false, .punct '?' false, .ident "Sized", .punct ';' false]
    (fun as => .struct_ { attrs := as, vis := .inherited, ident := "TupleStruct3", generics := { params := [.type "T" [] none], whereClause := (some [.user (.other ":" [.tyPath .none (.mk false [.mk "T" .none]), .other "?" [.path (.mk false [.mk "Sized" .none])]])]) }, fields := (.unnamed [{ attrs := [], vis := .inherited, ident := none, ty := .tyPath .none (.mk false [.mk "T" .none]) }]) })) == none
#guard (pinProject [] [⟨.list { leading := false, segs := ["allow"] } .paren [.ident "explicit_outlives_requirements"]⟩]
    [.ident "struct", .ident "TupleStruct4", .punct '<' false, .ident "T", .punct '>' false, .group .paren [.punct '#' false, .group .bracket [.ident "pin"], .ident "T"], .ident "where", .ident "T", .punct ':' false, .punct '?' false, .ident "Sized", .punct ';' false]
    (fun as => .struct_ { attrs := as, vis := .inherited, ident := "TupleStruct4", generics := { params := [.type "T" [] none], whereClause := (some [.user (.other ":" [.tyPath .none (.mk false [.mk "T" .none]), .other "?" [.path (.mk false [.mk "Sized" .none])]])]) }, fields := (.unnamed [{ attrs := [⟨.path { leading := false, segs := ["pin"] }⟩], vis := .inherited, ident := none, ty := .tyPath .none (.mk false [.mk "T" .none]) }]) })) == none
#guard (pinProject [.ident "UnsafeUnpin"] []
    [.ident "struct", .ident "TupleStruct5", .punct '<' false, .ident "T", .punct ':' false, .punct '?' false, .ident "Sized", .punct '>' false, .group .paren [.ident "T"], .punct ';' false]
    (fun as => .struct_ { attrs := as, vis := .inherited, ident := "TupleStruct5", generics := { params := [.type "T" [.other "?" [.path (.mk false [.mk "Sized" .none])]] none], whereClause := none }, fields := (.unnamed [{ attrs := [], vis := .inherited, ident := none, ty := .tyPath .none (.mk false [.mk "T" .none]) }]) })) == none
#guard (pinProject [.ident "UnsafeUnpin"] []
    [.ident "struct", .ident "TupleStruct6", .punct '<' false, .ident "T", .punct ':' false, .punct '?' false, .ident "Sized", .punct '>' false, .group .paren [.punct '#' false, .group .bracket [.ident "pin"], .ident "T"], .punct ';' false]
    (fun as => .struct_ { attrs := as, vis := .inherited, ident := "TupleStruct6", generics := { params := [.type "T" [.other "?" [.path (.mk false [.mk "Sized" .none])]] none], whereClause := none }, fields := (.unnamed [{ attrs := [⟨.path { leading := false, segs := ["pin"] }⟩], vis := .inherited, ident := none, ty := .tyPath .none (.mk false [.mk "T" .none]) }]) })) == none
#guard (pinProject [.ident "PinnedDrop"] []
    [.ident "struct", .ident "TupleStruct7", .punct '<' false, .ident "T", .punct ':' false, .punct '?' false, .ident "Sized", .punct '>' false, .group .paren [.ident "T"], .punct ';' false]
    (fun as => .struct_ { attrs := as, vis := .inherited, ident := "TupleStruct7", generics := { params := [.type "T" [.other "?" [.path (.mk false [.mk "Sized" .none])]] none], whereClause := none }, fields := (.unnamed [{ attrs := [], vis := .inherited, ident := none, ty := .tyPath .none (.mk false [.mk "T" .none]) }]) })) == none
#guard (pinnedDrop []
    { attrs := [], isUnsafe := false, generics := { params := [.type "T" [.other "?" [.path (.mk false [.mk "Sized" .none])]] none], whereClause := none }, trait_ := (some (false, (.mk false [.mk "PinnedDrop" .none]))), selfTy := .tyPath .none (.mk false [.mk "TupleStruct7" (.angle false [.tyPath .none (.mk false [.mk "T" .none])])]), selfToks := [.ident "TupleStruct7", .punct '<' false, .ident "T", .punct '>' false], items := [.fn { attrs := [], sig := { quals := [], isUnsafe := false, ident := "drop", generics := { params := [], whereClause := none }, inputs := [.receiver false false (.tyPath .none (.mk false [.mk "Pin" (.angle false [.other "&mut" [.tyPath .none (.mk false [.mk "Self" .none])]])]))], output := none }, block := [] }] }) == none
#guard (pinProject [.ident "PinnedDrop"] []
    [.ident "struct", .ident "TupleStruct8", .punct '<' false, .ident "T", .punct ':' false, .punct '?' false, .ident "Sized", .punct '>' false, .group .paren [.punct '#' false, .group .bracket [.ident "pin"], .ident "T"], .punct ';' false]
    (fun as => .struct_ { attrs := as, vis := .inherited, ident := "TupleStruct8", generics := { params := [.type "T" [.other "?" [.path (.mk false [.mk "Sized" .none])]] none], whereClause := none }, fields := (.unnamed [{ attrs := [⟨.path { leading := false, segs := ["pin"] }⟩], vis := .inherited, ident := none, ty := .tyPath .none (.mk false [.mk "T" .none]) }]) })) == none
#guard (pinnedDrop []
    { attrs := [], isUnsafe := false, generics := { params := [.type "T" [.other "?" [.path (.mk false [.mk "Sized" .none])]] none], whereClause := none }, trait_ := (some (false, (.mk false [.mk "PinnedDrop" .none]))), selfTy := .tyPath .none (.mk false [.mk "TupleStruct8" (.angle false [.tyPath .none (.mk false [.mk "T" .none])])]), selfToks := [.ident "TupleStruct8", .punct '<' false, .ident "T", .punct '>' false], items := [.fn { attrs := [], sig := { quals := [], isUnsafe := false, ident := "drop", generics := { params := [], whereClause := none }, inputs := [.receiver false false (.tyPath .none (.mk false [.mk "Pin" (.angle false [.other "&mut" [.tyPath .none (.mk false [.mk "Self" .none])]])]))], output := none }, block := [] }] }) == none
#guard (pinProject [.punct '!' false, .ident "Unpin"] []
    [.ident "struct", .ident "TupleStruct9", .punct '<' false, .ident "T", .punct ':' false, .punct '?' false, .ident "Sized", .punct '>' false, .group .paren [.ident "T"], .punct ';' false]
    (fun as => .struct_ { attrs := as, vis := .inherited, ident := "TupleStruct9", generics := { params := [.type "T" [.other "?" [.path (.mk false [.mk "Sized" .none])]] none], whereClause := none }, fields := (.unnamed [{ attrs := [], vis := .inherited, ident := none, ty := .tyPath .none (.mk false [.mk "T" .none]) }]) })) == none
#guard (pinProject [.punct '!' false, .ident "Unpin"] []
    [.ident "struct", .ident "TupleStruct10", .punct '<' false, .ident "T", .punct ':' false, .punct '?' false, .ident "Sized", .punct '>' false, .group .paren [.punct '#' false, .group .bracket [.ident "pin"], .ident "T"], .punct ';' false]
    (fun as => .struct_ { attrs := as, vis := .inherited, ident := "TupleStruct10", generics := { params := [.type "T" [.other "?" [.path (.mk false [.mk "Sized" .none])]] none], whereClause := none }, fields := (.unnamed [{ attrs := [⟨.path { leading := false, segs := ["pin"] }⟩], vis := .inherited, ident := none, ty := .tyPath .none (.mk false [.mk "T" .none]) }]) })) == none
#guard (pinProject [] []
    [.ident "struct", .ident "TupleStruct11", .punct '<' true, .punct '\'' true, .ident "a", .punct ',' false, .ident "T", .punct ':' false, .punct '?' false, .ident "Sized", .punct ',' false, .ident "U", .punct ':' false, .punct '?' false, .ident "Sized", .punct '>' false, .group .paren [.punct '&' true, .punct '\'' true, .ident "a", .ident "mut", .ident "T", .punct ',' false, .ident "U"], .punct ';' false]
    (fun as => .struct_ { attrs := as, vis := .inherited, ident := "TupleStruct11", generics := { params := [.lifetime "'a" [], .type "T" [.other "?" [.path (.mk false [.mk "Sized" .none])]] none, .type "U" [.other "?" [.path (.mk false [.mk "Sized" .none])]] none], whereClause := none }, fields := (.unnamed [{ attrs := [], vis := .inherited, ident := none, ty := .other "&mut" [.lifetime "'a", .tyPath .none (.mk false [.mk "T" .none])] }, { attrs := [], vis := .inherited, ident := none, ty := .tyPath .none (.mk false [.mk "U" .none]) }]) })) == none
#guard (pinProject [] []
    [.ident "struct", .ident "Struct1", .group .brace [.ident "f", .punct ':' false, .ident "dyn", .ident "core", .punct ':' true, .punct ':' false, .ident "fmt", .punct ':' true, .punct ':' false, .ident "Debug", .punct ',' false]]
    (fun as => .struct_ { attrs := as, vis := .inherited, ident := "Struct1", generics := { params := [], whereClause := none }, fields := (.named [{ attrs := [], vis := .inherited, ident := (some "f"), ty := .other "dyn" [.path (.mk false [.mk "core" .none, .mk "fmt" .none, .mk "Debug" .none])] }]) })) == none
#guard (pinProject [] []
    [.ident "struct", .ident "Struct2", .group .brace [.punct '#' false, .group .bracket [.ident "pin"], .ident "f", .punct ':' false, .ident "dyn", .ident "core", .punct ':' true, .punct ':' false, .ident "fmt", .punct ':' true, .punct ':' false, .ident "Debug", .punct ',' false]]
    (fun as => .struct_ { attrs := as, vis := .inherited, ident := "Struct2", generics := { params := [], whereClause := none }, fields := (.named [{ attrs := [⟨.path { leading := false, segs := ["pin"] }⟩], vis := .inherited, ident := (some "f"), ty := .other "dyn" [.path (.mk false [.mk "core" .none, .mk "fmt" .none, .mk "Debug" .none])] }]) })) == none
#guard (pinProject [] []
    [.ident "struct", .ident "Struct3", .group .brace [.ident "f", .punct ':' false, .ident "dyn", .ident "core", .punct ':' true, .punct ':' false, .ident "fmt", .punct ':' true, .punct ':' false, .ident "Debug", .punct '+' false, .ident "Send", .punct ',' false]]
    (fun as => .struct_ { attrs := as, vis := .inherited, ident := "Struct3", generics := { params := [], whereClause := none }, fields := (.named [{ attrs := [], vis := .inherited, ident := (some "f"), ty := .other "dyn" [.path (.mk false [.mk "core" .none, .mk "fmt" .none, .mk "Debug" .none]), .path (.mk false [.mk "Send" .none])] }]) })) == none
#guard (pinProject [] []
    [.ident "struct", .ident "Struct4", .group .brace [.punct '#' false, .group .bracket [.ident "pin"], .ident "f", .punct ':' false, .ident "dyn", .ident "core", .punct ':' true, .punct ':' false, .ident "fmt", .punct ':' true, .punct ':' false, .ident "Debug", .punct '+' false, .ident "Send", .punct ',' false]]
    (fun as => .struct_ { attrs := as, vis := .inherited, ident := "Struct4", generics := { params := [], whereClause := none }, fields := (.named [{ attrs := [⟨.path { leading := false, segs := ["pin"] }⟩], vis := .inherited, ident := (some "f"), ty := .other "dyn" [.path (.mk false [.mk "core" .none, .mk "fmt" .none, .mk "Debug" .none]), .path (.mk false [.mk "Send" .none])] }]) })) == none
#guard (pinProject [] []
    [.ident "struct", .ident "TupleStruct1", .group .paren [.ident "dyn", .ident "core", .punct ':' true, .punct ':' false, .ident "fmt", .punct ':' true, .punct ':' false, .ident "Debug"], .punct ';' false]
    (fun as => .struct_ { attrs := as, vis := .inherited, ident := "TupleStruct1", generics := { params := [], whereClause := none }, fields := (.unnamed [{ attrs := [], vis := .inherited, ident := none, ty := .other "dyn" [.path (.mk false [.mk "core" .none, .mk "fmt" .none, .mk "Debug" .none])] }]) })) == none
#guard (pinProject [] []
    [.ident "struct", .ident "TupleStruct2", .group .paren [.punct '#' false, .group .bracket [.ident "pin"], .ident "dyn", .ident "core", .punct ':' true, .punct ':' false, .ident "fmt", .punct ':' true, .punct ':' false, .ident "Debug"], .punct ';' false]
    (fun as => .struct_ { attrs := as, vis := .inherited, ident := "TupleStruct2", generics := { params := [], whereClause := none }, fields := (.unnamed [{ attrs := [⟨.path { leading := false, segs := ["pin"] }⟩], vis := .inherited, ident := none, ty := .other "dyn" [.path (.mk false [.mk "core" .none, .mk "fmt" .none, .mk "Debug" .none])] }]) })) == none
#guard (pinProject [] []
    [.ident "struct", .ident "TupleStruct3", .group .paren [.ident "dyn", .ident "core", .punct ':' true, .punct ':' false, .ident "fmt", .punct ':' true, .punct ':' false, .ident "Debug", .punct '+' false, .ident "Send"], .punct ';' false]
    (fun as => .struct_ { attrs := as, vis := .inherited, ident := "TupleStruct3", generics := { params := [], whereClause := none }, fields := (.unnamed [{ attrs := [], vis := .inherited, ident := none, ty := .other "dyn" [.path (.mk false [.mk "core" .none, .mk "fmt" .none, .mk "Debug" .none]), .path (.mk false [.mk "Send" .none])] }]) })) == none
#guard (pinProject [] []
    [.ident "struct", .ident "TupleStruct4", .group .paren [.punct '#' false, .group .bracket [.ident "pin"], .ident "dyn", .ident "core", .punct ':' true, .punct ':' false, .ident "fmt", .punct ':' true, .punct ':' false, .ident "Debug", .punct '+' false, .ident "Send"], .punct ';' false]
    (fun as => .struct_ { attrs := as, vis := .inherited, ident := "TupleStruct4", generics := { params := [], whereClause := none }, fields := (.unnamed [{ attrs := [⟨.path { leading := false, segs := ["pin"] }⟩], vis := .inherited, ident := none, ty := .other "dyn" [.path (.mk false [.mk "core" .none, .mk "fmt" .none, .mk "Debug" .none]), .path (.mk false [.mk "Send" .none])] }]) })) == none
#guard (pinProject [.ident "project_replace"] [⟨.list { leading := false, segs := ["allow"] } .paren [.ident "clippy", .punct ':' true, .punct ':' false, .ident "type_repetition_in_bounds"]⟩]
    [.ident "pub", .ident "struct", .ident "Generics", .punct '<' false, .ident "T", .punct ':' false, .ident "Trait", .punct '<' false, .ident "Assoc", .punct '=' false, .ident "Self", .punct '>' true, .punct '>' false, .ident "where", .ident "Self", .punct ':' false, .ident "Trait", .punct '<' false, .ident "Assoc", .punct '=' false, .ident "Self", .punct '>' true, .punct ',' false, .punct '<' false, .ident "Self", .ident "as", .ident "Trait", .punct '>' true, .punct ':' true, .punct ':' false, .ident "Assoc", .punct ':' false, .ident "Sized", .punct ',' false, .ident "mac", .punct '!' false, .group .paren [.ident "Self"], .punct ':' false, .ident "Trait", .punct '<' false, .ident "Assoc", .punct '=' false, .ident "mac", .punct '!' false, .group .paren [.ident "Self"], .punct '>' true, .punct ',' false, .group .brace [.ident "_f", .punct ':' false, .ident "T", .punct ',' false]]
    (fun as => .struct_ { attrs := as, vis := .pub, ident := "Generics", generics := { params := [.type "T" [.path (.mk false [.mk "Trait" (.angle false [.other "Assoc =" [.tyPath .none (.mk false [.mk "Self" .none])]])])] none], whereClause := (some [.user (.other ":" [.tyPath .none (.mk false [.mk "Self" .none]), .path (.mk false [.mk "Trait" (.angle false [.other "Assoc =" [.tyPath .none (.mk false [.mk "Self" .none])]])])]), .user (.other ":" [.tyPath (.some (.tyPath .none (.mk false [.mk "Self" .none])) 1) (.mk false [.mk "Trait" .none, .mk "Assoc" .none]), .path (.mk false [.mk "Sized" .none])]), .user (.other ":" [.mac (.mk false [.mk "mac" .none]) [.ident "Self"], .path (.mk false [.mk "Trait" (.angle false [.other "Assoc =" [.mac (.mk false [.mk "mac" .none]) [.ident "Self"]]])])])]) }, fields := (.named [{ attrs := [], vis := .inherited, ident := (some "_f"), ty := .tyPath .none (.mk false [.mk "T" .none]) }]) })) == none
#guard (pinProject [.ident "project_replace"] []
    [.ident "pub", .ident "struct", .ident "Struct", .group .brace [.ident "_f1", .punct ':' false, .ident "Box", .punct '<' false, .ident "Self", .punct '>' true, .punct ',' false, .ident "_f2", .punct ':' false, .ident "Box", .punct '<' true, .punct '<' false, .ident "Self", .ident "as", .ident "Trait", .punct '>' true, .punct ':' true, .punct ':' false, .ident "Assoc", .punct '>' true, .punct ',' false, .ident "_f3", .punct ':' false, .ident "Box", .punct '<' false, .ident "mac", .punct '!' false, .group .paren [.ident "Self"], .punct '>' true, .punct ',' false, .ident "_f4", .punct ':' false, .group .bracket [.group .paren [], .punct ';' false, .ident "Self", .punct ':' true, .punct ':' false, .ident "ASSOC"], .punct ',' false, .ident "_f5", .punct ':' false, .group .bracket [.group .paren [], .punct ';' false, .ident "Self", .punct ':' true, .punct ':' false, .ident "assoc", .group .paren []], .punct ',' false, .ident "_f6", .punct ':' false, .group .bracket [.group .paren [], .punct ';' false, .ident "mac", .punct '!' false, .group .paren [.ident "Self", .punct ':' true, .punct ':' false, .ident "assoc", .group .paren []]], .punct ',' false]]
    (fun as => .struct_ { attrs := as, vis := .pub, ident := "Struct", generics := { params := [], whereClause := none }, fields := (.named [{ attrs := [], vis := .inherited, ident := (some "_f1"), ty := .tyPath .none (.mk false [.mk "Box" (.angle false [.tyPath .none (.mk false [.mk "Self" .none])])]) }, { attrs := [], vis := .inherited, ident := (some "_f2"), ty := .tyPath .none (.mk false [.mk "Box" (.angle false [.tyPath (.some (.tyPath .none (.mk false [.mk "Self" .none])) 1) (.mk false [.mk "Trait" .none, .mk "Assoc" .none])])]) }, { attrs := [], vis := .inherited, ident := (some "_f3"), ty := .tyPath .none (.mk false [.mk "Box" (.angle false [.mac (.mk false [.mk "mac" .none]) [.ident "Self"]])]) }, { attrs := [], vis := .inherited, ident := (some "_f4"), ty := .other "array" [.other "tuple" []] }, { attrs := [], vis := .inherited, ident := (some "_f5"), ty := .other "array" [.other "tuple" []] }, { attrs := [], vis := .inherited, ident := (some "_f6"), ty := .other "array" [.other "tuple" []] }]) })) == none
#guard (pinProject [.ident "project_replace"] []
    [.ident "struct", .ident "Tuple", .group .paren [.ident "Box", .punct '<' false, .ident "Self", .punct '>' true, .punct ',' false, .ident "Box", .punct '<' true, .punct '<' false, .ident "Self", .ident "as", .ident "Trait", .punct '>' true, .punct ':' true, .punct ':' false, .ident "Assoc", .punct '>' true, .punct ',' false, .ident "Box", .punct '<' false, .ident "mac", .punct '!' false, .group .paren [.ident "Self"], .punct '>' true, .punct ',' false, .group .bracket [.group .paren [], .punct ';' false, .ident "Self", .punct ':' true, .punct ':' false, .ident "ASSOC"], .punct ',' false, .group .bracket [.group .paren [], .punct ';' false, .ident "Self", .punct ':' true, .punct ':' false, .ident "assoc", .group .paren []], .punct ',' false, .group .bracket [.group .paren [], .punct ';' false, .ident "mac", .punct '!' false, .group .paren [.ident "Self", .punct ':' true, .punct ':' false, .ident "assoc", .group .paren []]], .punct ',' false], .punct ';' false]
    (fun as => .struct_ { attrs := as, vis := .inherited, ident := "Tuple", generics := { params := [], whereClause := none }, fields := (.unnamed [{ attrs := [], vis := .inherited, ident := none, ty := .tyPath .none (.mk false [.mk "Box" (.angle false [.tyPath .none (.mk false [.mk "Self" .none])])]) }, { attrs := [], vis := .inherited, ident := none, ty := .tyPath .none (.mk false [.mk "Box" (.angle false [.tyPath (.some (.tyPath .none (.mk false [.mk "Self" .none])) 1) (.mk false [.mk "Trait" .none, .mk "Assoc" .none])])]) }, { attrs := [], vis := .inherited, ident := none, ty := .tyPath .none (.mk false [.mk "Box" (.angle false [.mac (.mk false [.mk "mac" .none]) [.ident "Self"]])]) }, { attrs := [], vis := .inherited, ident := none, ty := .other "array" [.other "tuple" []] }, { attrs := [], vis := .inherited, ident := none, ty := .other "array" [.other "tuple" []] }, { attrs := [], vis := .inherited, ident := none, ty := .other "array" [.other "tuple" []] }]) })) == none
#guard (pinProject [.ident "project", .punct '=' false, .ident "EnumProj", .punct ',' false, .ident "project_ref", .punct '=' false, .ident "EnumProjRef", .punct ',' false, .ident "project_replace", .punct '=' false, .ident "EnumProjOwn"] []
    [.ident "enum", .ident "Enum", .group .brace [.ident "Struct", .group .brace [.ident "_f1", .punct ':' false, .ident "Box", .punct '<' false, .ident "Self", .punct '>' true, .punct ',' false, .ident "_f2", .punct ':' false, .ident "Box", .punct '<' true, .punct '<' false, .ident "Self", .ident "as", .ident "Trait", .punct '>' true, .punct ':' true, .punct ':' false, .ident "Assoc", .punct '>' true, .punct ',' false, .ident "_f3", .punct ':' false, .ident "Box", .punct '<' false, .ident "mac", .punct '!' false, .group .paren [.ident "Self"], .punct '>' true, .punct ',' false, .ident "_f4", .punct ':' false, .group .bracket [.group .paren [], .punct ';' false, .ident "Self", .punct ':' true, .punct ':' false, .ident "ASSOC"], .punct ',' false, .ident "_f5", .punct ':' false, .group .bracket [.group .paren [], .punct ';' false, .ident "Self", .punct ':' true, .punct ':' false, .ident "assoc", .group .paren []], .punct ',' false, .ident "_f6", .punct ':' false, .group .bracket [.group .paren [], .punct ';' false, .ident "mac", .punct '!' false, .group .paren [.ident "Self", .punct ':' true, .punct ':' false, .ident "assoc", .group .paren []]], .punct ',' false], .punct ',' false, .ident "Tuple", .group .paren [.ident "Box", .punct '<' false, .ident "Self", .punct '>' true, .punct ',' false, .ident "Box", .punct '<' true, .punct '<' false, .ident "Self", .ident "as", .ident "Trait", .punct '>' true, .punct ':' true, .punct ':' false, .ident "Assoc", .punct '>' true, .punct ',' false, .ident "Box", .punct '<' false, .ident "mac", .punct '!' false, .group .paren [.ident "Self"], .punct '>' true, .punct ',' false, .group .bracket [.group .paren [], .punct ';' false, .ident "Self", .punct ':' true, .punct ':' false, .ident "ASSOC"], .punct ',' false, .group .bracket [.group .paren [], .punct ';' false, .ident "Self", .punct ':' true, .punct ':' false, .ident "assoc", .group .paren []], .punct ',' false, .group .bracket [.group .paren [], .punct ';' false, .ident "mac", .punct '!' false, .group .paren [.ident "Self", .punct ':' true, .punct ':' false, .ident "assoc", .group .paren []]], .punct ',' false], .punct ',' false]]
    (fun as => .enum_ { attrs := as, vis := .inherited, ident := "Enum", generics := { params := [], whereClause := none }, variants := [{ attrs := [], ident := "Struct", fields := (.named [{ attrs := [], vis := .inherited, ident := (some "_f1"), ty := .tyPath .none (.mk false [.mk "Box" (.angle false [.tyPath .none (.mk false [.mk "Self" .none])])]) }, { attrs := [], vis := .inherited, ident := (some "_f2"), ty := .tyPath .none (.mk false [.mk "Box" (.angle false [.tyPath (.some (.tyPath .none (.mk false [.mk "Self" .none])) 1) (.mk false [.mk "Trait" .none, .mk "Assoc" .none])])]) }, { attrs := [], vis := .inherited, ident := (some "_f3"), ty := .tyPath .none (.mk false [.mk "Box" (.angle false [.mac (.mk false [.mk "mac" .none]) [.ident "Self"]])]) }, { attrs := [], vis := .inherited, ident := (some "_f4"), ty := .other "array" [.other "tuple" []] }, { attrs := [], vis := .inherited, ident := (some "_f5"), ty := .other "array" [.other "tuple" []] }, { attrs := [], vis := .inherited, ident := (some "_f6"), ty := .other "array" [.other "tuple" []] }]), discriminant := none }, { attrs := [], ident := "Tuple", fields := (.unnamed [{ attrs := [], vis := .inherited, ident := none, ty := .tyPath .none (.mk false [.mk "Box" (.angle false [.tyPath .none (.mk false [.mk "Self" .none])])]) }, { attrs := [], vis := .inherited, ident := none, ty := .tyPath .none (.mk false [.mk "Box" (.angle false [.tyPath (.some (.tyPath .none (.mk false [.mk "Self" .none])) 1) (.mk false [.mk "Trait" .none, .mk "Assoc" .none])])]) }, { attrs := [], vis := .inherited, ident := none, ty := .tyPath .none (.mk false [.mk "Box" (.angle false [.mac (.mk false [.mk "mac" .none]) [.ident "Self"]])]) }, { attrs := [], vis := .inherited, ident := none, ty := .other "array" [.other "tuple" []] }, { attrs := [], vis := .inherited, ident := none, ty := .other "array" [.other "tuple" []] }, { attrs := [], vis := .inherited, ident := none, ty := .other "array" [.other "tuple" []] }]), discriminant := none }] })) == none
#guard (pinProject [.ident "project_replace"] []
    [.ident "struct", .ident "Struct2", .punct '<' false, .ident "A", .punct ',' false, .ident "B", .punct '>' false, .group .brace [.ident "_f", .punct ':' false, .punct '<' false, .ident "Struct1", .punct '<' false, .ident "A", .punct '>' false, .ident "as", .ident "Trait", .punct '<' false, .ident "B", .punct '>' true, .punct '>' true, .punct ':' true, .punct ':' false, .ident "Y", .punct ',' false]]
    (fun as => .struct_ { attrs := as, vis := .inherited, ident := "Struct2", generics := { params := [.type "A" [] none, .type "B" [] none], whereClause := none }, fields := (.named [{ attrs := [], vis := .inherited, ident := (some "_f"), ty := .tyPath (.some (.tyPath .none (.mk false [.mk "Struct1" (.angle false [.tyPath .none (.mk false [.mk "A" .none])])])) 1) (.mk false [.mk "Trait" (.angle false [.tyPath .none (.mk false [.mk "B" .none])]), .mk "Y" .none]) }]) })) == none
#guard (pinProject [.ident "project_replace"] []
    [.ident "struct", .ident "S", .punct '<' false, .ident "T", .punct ',' false, .ident "U", .punct '>' false, .group .brace [.punct '#' false, .group .bracket [.ident "pin"], .ident "pinned", .punct ':' false, .ident "T", .punct ',' false, .ident "unpinned", .punct ':' false, .ident "U", .punct ',' false]]
    (fun as => .struct_ { attrs := as, vis := .inherited, ident := "S", generics := { params := [.type "T" [] none, .type "U" [] none], whereClause := none }, fields := (.named [{ attrs := [⟨.path { leading := false, segs := ["pin"] }⟩], vis := .inherited, ident := (some "pinned"), ty := .tyPath .none (.mk false [.mk "T" .none]) }, { attrs := [], vis := .inherited, ident := (some "unpinned"), ty := .tyPath .none (.mk false [.mk "U" .none]) }]) })) == none

-- /repo/tests/pinned_drop.rs
#guard (pinProject [.ident "PinnedDrop"] []
    [.ident "struct", .ident "Struct", .punct '<' true, .punct '\'' true, .ident "a", .punct '>' false, .group .brace [.ident "was_dropped", .punct ':' false, .punct '&' true, .punct '\'' true, .ident "a", .ident "mut", .ident "bool", .punct ',' false, .punct '#' false, .group .bracket [.ident "pin"], .ident "field", .punct ':' false, .ident "u8", .punct ',' false]]
    (fun as => .struct_ { attrs := as, vis := .inherited, ident := "Struct", generics := { params := [.lifetime "'a" []], whereClause := none }, fields := (.named [{ attrs := [], vis := .inherited, ident := (some "was_dropped"), ty := .other "&mut" [.lifetime "'a", .tyPath .none (.mk false [.mk "bool" .none])] }, { attrs := [⟨.path { leading := false, segs := ["pin"] }⟩], vis := .inherited, ident := (some "field"), ty := .tyPath .none (.mk false [.mk "u8" .none]) }]) })) == none
#guard (pinnedDrop []
    { attrs := [], isUnsafe := false, generics := { params := [], whereClause := none }, trait_ := (some (false, (.mk false [.mk "PinnedDrop" .none]))), selfTy := .tyPath .none (.mk false [.mk "Struct" (.angle false [.lifetime "'_"])]), selfToks := [.ident "Struct", .punct '<' true, .punct '\'' true, .ident "_", .punct '>' false], items := [.fn { attrs := [], sig := { quals := [], isUnsafe := false, ident := "drop", generics := { params := [], whereClause := none }, inputs := [.receiver false false (.tyPath .none (.mk false [.mk "Pin" (.angle false [.other "&mut" [.tyPath .none (.mk false [.mk "Self" .none])]])]))], output := none }, block := [] }] }) == none
#guard (pinProject [.ident "PinnedDrop"] []
    [.ident "struct", .ident "S", .punct '<' false, .ident "T", .punct '>' false, .group .paren [.ident "T"], .punct ';' false]
    (fun as => .struct_ { attrs := as, vis := .inherited, ident := "S", generics := { params := [.type "T" [] none], whereClause := none }, fields := (.unnamed [{ attrs := [], vis := .inherited, ident := none, ty := .tyPath .none (.mk false [.mk "T" .none]) }]) })) == none
#guard (pinnedDrop []
    { attrs := [], isUnsafe := false, generics := { params := [.type "T" [] none], whereClause := none }, trait_ := (some (false, (.mk false [.mk "PinnedDrop" .none]))), selfTy := .tyPath .none (.mk false [.mk "S" (.angle false [.tyPath .none (.mk false [.mk "T" .none])])]), selfToks := [.ident "S", .punct '<' false, .ident "T", .punct '>' false], items := [.fn { attrs := [], sig := { quals := [], isUnsafe := false, ident := "drop", generics := { params := [], whereClause := none }, inputs := [.receiver true false (.tyPath .none (.mk false [.mk "Pin" (.angle false [.other "&mut" [.tyPath .none (.mk false [.mk "Self" .none])]])]))], output := none }, block := [] }] }) == none
#guard (pinProject [.ident "PinnedDrop"] []
    [.ident "struct", .ident "Struct", .group .brace [.ident "f", .punct ':' false, .group .paren [], .punct ',' false]]
    (fun as => .struct_ { attrs := as, vis := .inherited, ident := "Struct", generics := { params := [], whereClause := none }, fields := (.named [{ attrs := [], vis := .inherited, ident := (some "f"), ty := .other "tuple" [] }]) })) == none
#guard (pinnedDrop []
    { attrs := [], isUnsafe := false, generics := { params := [], whereClause := none }, trait_ := (some (false, (.mk false [.mk "PinnedDrop" .none]))), selfTy := .tyPath .none (.mk false [.mk "Struct" .none]), selfToks := [.ident "Struct"], items := [.fn { attrs := [⟨.list { leading := false, segs := ["allow"] } .paren [.ident "irrefutable_let_patterns"]⟩, ⟨.list { leading := false, segs := ["allow"] } .paren [.ident "clippy", .punct ':' true, .punct ':' false, .ident "match_single_binding"]⟩], sig := { quals := [], isUnsafe := false, ident := "drop", generics := { params := [], whereClause := none }, inputs := [.receiver true false (.tyPath .none (.mk false [.mk "Pin" (.angle false [.other "&mut" [.tyPath .none (.mk false [.mk "Self" .none])]])]))], output := none }, block := [] }] }) == none
#guard (pinProject [.ident "PinnedDrop"] []
    [.ident "struct", .ident "TupleStruct", .group .paren [.group .paren []], .punct ';' false]
    (fun as => .struct_ { attrs := as, vis := .inherited, ident := "TupleStruct", generics := { params := [], whereClause := none }, fields := (.unnamed [{ attrs := [], vis := .inherited, ident := none, ty := .other "tuple" [] }]) })) == none
#guard (pinnedDrop []
    { attrs := [], isUnsafe := false, generics := { params := [], whereClause := none }, trait_ := (some (false, (.mk false [.mk "PinnedDrop" .none]))), selfTy := .tyPath .none (.mk false [.mk "TupleStruct" .none]), selfToks := [.ident "TupleStruct"], items := [.fn { attrs := [⟨.list { leading := false, segs := ["allow"] } .paren [.ident "irrefutable_let_patterns"]⟩], sig := { quals := [], isUnsafe := false, ident := "drop", generics := { params := [], whereClause := none }, inputs := [.receiver true false (.tyPath .none (.mk false [.mk "Pin" (.angle false [.other "&mut" [.tyPath .none (.mk false [.mk "Self" .none])]])]))], output := none }, block := [] }] }) == none
#guard (pinProject [.ident "PinnedDrop", .punct ',' false, .ident "project", .punct '=' false, .ident "EnumProj", .punct ',' false, .ident "project_ref", .punct '=' false, .ident "EnumProjRef"] []
    [.ident "enum", .ident "Enum", .group .brace [.ident "Struct", .group .brace [.ident "f", .punct ':' false, .group .paren []], .punct ',' false, .ident "Tuple", .group .paren [.group .paren []], .punct ',' false, .ident "Unit", .punct ',' false]]
    (fun as => .enum_ { attrs := as, vis := .inherited, ident := "Enum", generics := { params := [], whereClause := none }, variants := [{ attrs := [], ident := "Struct", fields := (.named [{ attrs := [], vis := .inherited, ident := (some "f"), ty := .other "tuple" [] }]), discriminant := none }, { attrs := [], ident := "Tuple", fields := (.unnamed [{ attrs := [], vis := .inherited, ident := none, ty := .other "tuple" [] }]), discriminant := none }, { attrs := [], ident := "Unit", fields := .unit, discriminant := none }] })) == none
#guard (pinnedDrop []
    { attrs := [], isUnsafe := false, generics := { params := [], whereClause := none }, trait_ := (some (false, (.mk false [.mk "PinnedDrop" .none]))), selfTy := .tyPath .none (.mk false [.mk "Enum" .none]), selfToks := [.ident "Enum"], items := [.fn { attrs := [], sig := { quals := [], isUnsafe := false, ident := "drop", generics := { params := [], whereClause := none }, inputs := [.receiver true false (.tyPath .none (.mk false [.mk "Pin" (.angle false [.other "&mut" [.tyPath .none (.mk false [.mk "Self" .none])]])]))], output := none }, block := [] }] }) == none
#guard (pinProject [.ident "PinnedDrop"] []
    [.ident "struct", .ident "S", .group .paren [.group .paren []], .punct ';' false]
    (fun as => .struct_ { attrs := as, vis := .inherited, ident := "S", generics := { params := [], whereClause := none }, fields := (.unnamed [{ attrs := [], vis := .inherited, ident := none, ty := .other "tuple" [] }]) })) == none
#guard (pinnedDrop []
    { attrs := [], isUnsafe := false, generics := { params := [], whereClause := none }, trait_ := (some (false, (.mk false [.mk "PinnedDrop" .none]))), selfTy := .tyPath .none (.mk false [.mk "S" .none]), selfToks := [.ident "S"], items := [.fn { attrs := [], sig := { quals := [], isUnsafe := false, ident := "drop", generics := { params := [], whereClause := none }, inputs := [.receiver false false (.tyPath .none (.mk false [.mk "Pin" (.angle false [.other "&mut" [.tyPath .none (.mk false [.mk "Self" .none])]])]))], output := none }, block := [] }] }) == none
#guard (pinProject [.ident "PinnedDrop"] []
    [.ident "struct", .ident "S", .group .paren [.group .paren []], .punct ';' false]
    (fun as => .struct_ { attrs := as, vis := .inherited, ident := "S", generics := { params := [], whereClause := none }, fields := (.unnamed [{ attrs := [], vis := .inherited, ident := none, ty := .other "tuple" [] }]) })) == none
#guard (pinnedDrop []
    { attrs := [], isUnsafe := false, generics := { params := [], whereClause := none }, trait_ := (some (false, (.mk false [.mk "PinnedDrop" .none]))), selfTy := .tyPath .none (.mk false [.mk "S" .none]), selfToks := [.ident "S"], items := [.fn { attrs := [], sig := { quals := [], isUnsafe := false, ident := "drop", generics := { params := [], whereClause := none }, inputs := [.receiver false false (.tyPath .none (.mk false [.mk "Pin" (.angle false [.other "&mut" [.tyPath .none (.mk false [.mk "Self" .none])]])]))], output := none }, block := [] }] }) == none
#guard (pinProject [.ident "PinnedDrop"] []
    [.ident "struct", .ident "Struct", .group .brace [.ident "f", .punct ':' false, .group .paren [], .punct ',' false]]
    (fun as => .struct_ { attrs := as, vis := .inherited, ident := "Struct", generics := { params := [], whereClause := none }, fields := (.named [{ attrs := [], vis := .inherited, ident := (some "f"), ty := .other "tuple" [] }]) })) == none
#guard (pinnedDrop []
    { attrs := [], isUnsafe := false, generics := { params := [], whereClause := none }, trait_ := (some (false, (.mk false [.mk "PinnedDrop" .none]))), selfTy := .tyPath .none (.mk false [.mk "Struct" .none]), selfToks := [.ident "Struct"], items := [.fn { attrs := [], sig := { quals := [], isUnsafe := false, ident := "drop", generics := { params := [], whereClause := none }, inputs := [.receiver false false (.tyPath .none (.mk false [.mk "Pin" (.angle false [.other "&mut" [.tyPath .none (.mk false [.mk "Self" .none])]])]))], output := none }, block := [] }] }) == none
#guard (pinProject [.ident "PinnedDrop"] []
    [.ident "struct", .ident "Struct", .punct '<' false, .ident "T", .punct ':' false, .ident "Send", .punct '>' false, .ident "where", .ident "mac", .punct '!' false, .group .paren [.ident "Self"], .punct ':' false, .ident "Send", .punct ',' false, .group .brace [.ident "_f", .punct ':' false, .ident "T", .punct ',' false]]
    (fun as => .struct_ { attrs := as, vis := .inherited, ident := "Struct", generics := { params := [.type "T" [.path (.mk false [.mk "Send" .none])] none], whereClause := (some [.user (.other ":" [.mac (.mk false [.mk "mac" .none]) [.ident "Self"], .path (.mk false [.mk "Send" .none])])]) }, fields := (.named [{ attrs := [], vis := .inherited, ident := (some "_f"), ty := .tyPath .none (.mk false [.mk "T" .none]) }]) })) == none
#guard (pinnedDrop []
    { attrs := [], isUnsafe := false, generics := { params := [.type "T" [.path (.mk false [.mk "Send" .none])] none], whereClause := (some [.user (.other ":" [.mac (.mk false [.mk "mac" .none]) [.ident "Self"], .path (.mk false [.mk "Send" .none])])]) }, trait_ := (some (false, (.mk false [.mk "PinnedDrop" .none]))), selfTy := .tyPath .none (.mk false [.mk "Struct" (.angle false [.tyPath .none (.mk false [.mk "T" .none])])]), selfToks := [.ident "Struct", .punct '<' false, .ident "T", .punct '>' false], items := [.fn { attrs := [⟨.list { leading := false, segs := ["allow"] } .paren [.ident "path_statements"]⟩, ⟨.list { leading := false, segs := ["allow"] } .paren [.ident "clippy", .punct ':' true, .punct ':' false, .ident "no_effect"]⟩], sig := { quals := [], isUnsafe := false, ident := "drop", generics := { params := [], whereClause := none }, inputs := [.receiver false false (.tyPath .none (.mk false [.mk "Pin" (.angle false [.other "&mut" [.tyPath .none (.mk false [.mk "Self" .none])]])]))], output := none }, block := [] }] }) == none
#guard (pinProject [.ident "PinnedDrop"] []
    [.ident "struct", .ident "S", .group .paren [.group .paren []], .punct ';' false]
    (fun as => .struct_ { attrs := as, vis := .inherited, ident := "S", generics := { params := [], whereClause := none }, fields := (.unnamed [{ attrs := [], vis := .inherited, ident := none, ty := .other "tuple" [] }]) })) == none
#guard (pinProject [.ident "PinnedDrop"] []
    [.ident "struct", .ident "S", .punct '<' false, .ident "T", .punct ':' false, .ident "Unpin", .punct '>' false, .group .paren [.ident "T"], .punct ';' false]
    (fun as => .struct_ { attrs := as, vis := .inherited, ident := "S", generics := { params := [.type "T" [.path (.mk false [.mk "Unpin" .none])] none], whereClause := none }, fields := (.unnamed [{ attrs := [], vis := .inherited, ident := none, ty := .tyPath .none (.mk false [.mk "T" .none]) }]) })) == none
#guard (pinnedDrop []
    { attrs := [], isUnsafe := false, generics := { params := [.type "T" [.path (.mk false [.mk "Unpin" .none])] none], whereClause := none }, trait_ := (some (false, (.mk false [.mk "PinnedDrop" .none]))), selfTy := .tyPath .none (.mk false [.mk "self" .none, .mk "S" (.angle false [.tyPath .none (.mk false [.mk "T" .none])])]), selfToks := [.ident "self", .punct ':' true, .punct ':' false, .ident "S", .punct '<' false, .ident "T", .punct '>' false], items := [.fn { attrs := [], sig := { quals := [], isUnsafe := false, ident := "drop", generics := { params := [], whereClause := none }, inputs := [.receiver true false (.tyPath .none (.mk false [.mk "Pin" (.angle false [.other "&mut" [.tyPath .none (.mk false [.mk "Self" .none])]])]))], output := none }, block := [] }] }) == none

-- /repo/tests/proper_unpin.rs
#guard (pinProject [] []
    [.ident "struct", .ident "Struct", .punct '<' false, .ident "T", .punct ',' false, .ident "U", .punct '>' false, .group .brace [.punct '#' false, .group .bracket [.ident "pin"], .ident "f1", .punct ':' false, .ident "Inner", .punct '<' false, .ident "T", .punct '>' true, .punct ',' false, .ident "f2", .punct ':' false, .ident "U", .punct ',' false]]
    (fun as => .struct_ { attrs := as, vis := .inherited, ident := "Struct", generics := { params := [.type "T" [] none, .type "U" [] none], whereClause := none }, fields := (.named [{ attrs := [⟨.path { leading := false, segs := ["pin"] }⟩], vis := .inherited, ident := (some "f1"), ty := .tyPath .none (.mk false [.mk "Inner" (.angle false [.tyPath .none (.mk false [.mk "T" .none])])]) }, { attrs := [], vis := .inherited, ident := (some "f2"), ty := .tyPath .none (.mk false [.mk "U" .none]) }]) })) == none
#guard (pinProject [.ident "project", .punct '=' false, .ident "EnumProj", .punct ',' false, .ident "project_ref", .punct '=' false, .ident "EnumProjRef"] []
    [.ident "enum", .ident "Enum", .punct '<' false, .ident "T", .punct ',' false, .ident "U", .punct '>' false, .group .brace [.ident "V1", .group .brace [.punct '#' false, .group .bracket [.ident "pin"], .ident "f1", .punct ':' false, .ident "Inner", .punct '<' false, .ident "T", .punct '>' true, .punct ',' false, .ident "f2", .punct ':' false, .ident "U", .punct ',' false], .punct ',' false]]
    (fun as => .enum_ { attrs := as, vis := .inherited, ident := "Enum", generics := { params := [.type "T" [] none, .type "U" [] none], whereClause := none }, variants := [{ attrs := [], ident := "V1", fields := (.named [{ attrs := [⟨.path { leading := false, segs := ["pin"] }⟩], vis := .inherited, ident := (some "f1"), ty := .tyPath .none (.mk false [.mk "Inner" (.angle false [.tyPath .none (.mk false [.mk "T" .none])])]) }, { attrs := [], vis := .inherited, ident := (some "f2"), ty := .tyPath .none (.mk false [.mk "U" .none]) }]), discriminant := none }] })) == none
#guard (pinProject [] []
    [.ident "struct", .ident "TrivialBounds", .group .brace [.punct '#' false, .group .bracket [.ident "pin"], .ident "f", .punct ':' false, .ident "PhantomPinned", .punct ',' false]]
    (fun as => .struct_ { attrs := as, vis := .inherited, ident := "TrivialBounds", generics := { params := [], whereClause := none }, fields := (.named [{ attrs := [⟨.path { leading := false, segs := ["pin"] }⟩], vis := .inherited, ident := (some "f"), ty := .tyPath .none (.mk false [.mk "PhantomPinned" .none]) }]) })) == none
#guard (pinProject [] []
    [.ident "struct", .ident "PinRef", .punct '<' true, .punct '\'' true, .ident "a", .punct ',' false, .ident "T", .punct ',' false, .ident "U", .punct '>' false, .group .brace [.punct '#' false, .group .bracket [.ident "pin"], .ident "f1", .punct ':' false, .punct '&' true, .punct '\'' true, .ident "a", .ident "mut", .ident "Inner", .punct '<' false, .ident "T", .punct '>' true, .punct ',' false, .ident "f2", .punct ':' false, .ident "U", .punct ',' false]]
    (fun as => .struct_ { attrs := as, vis := .inherited, ident := "PinRef", generics := { params := [.lifetime "'a" [], .type "T" [] none, .type "U" [] none], whereClause := none }, fields := (.named [{ attrs := [⟨.path { leading := false, segs := ["pin"] }⟩], vis := .inherited, ident := (some "f1"), ty := .other "&mut" [.lifetime "'a", .tyPath .none (.mk false [.mk "Inner" (.angle false [.tyPath .none (.mk false [.mk "T" .none])])])] }, { attrs := [], vis := .inherited, ident := (some "f2"), ty := .tyPath .none (.mk false [.mk "U" .none]) }]) })) == none
#guard (pinProject [.punct '!' false, .ident "Unpin"] []
    [.ident "struct", .ident "Struct", .punct '<' false, .ident "T", .punct ',' false, .ident "U", .punct '>' false, .group .brace [.punct '#' false, .group .bracket [.ident "pin"], .ident "inner", .punct ':' false, .ident "Inner", .punct '<' false, .ident "T", .punct '>' true, .punct ',' false, .ident "other", .punct ':' false, .ident "U", .punct ',' false]]
    (fun as => .struct_ { attrs := as, vis := .inherited, ident := "Struct", generics := { params := [.type "T" [] none, .type "U" [] none], whereClause := none }, fields := (.named [{ attrs := [⟨.path { leading := false, segs := ["pin"] }⟩], vis := .inherited, ident := (some "inner"), ty := .tyPath .none (.mk false [.mk "Inner" (.angle false [.tyPath .none (.mk false [.mk "T" .none])])]) }, { attrs := [], vis := .inherited, ident := (some "other"), ty := .tyPath .none (.mk false [.mk "U" .none]) }]) })) == none
#guard (pinProject [.punct '!' false, .ident "Unpin"] []
    [.ident "struct", .ident "TrivialBounds", .group .brace [.punct '#' false, .group .bracket [.ident "pin"], .ident "f", .punct ':' false, .ident "PhantomPinned", .punct ',' false]]
    (fun as => .struct_ { attrs := as, vis := .inherited, ident := "TrivialBounds", generics := { params := [], whereClause := none }, fields := (.named [{ attrs := [⟨.path { leading := false, segs := ["pin"] }⟩], vis := .inherited, ident := (some "f"), ty := .tyPath .none (.mk false [.mk "PhantomPinned" .none]) }]) })) == none
#guard (pinProject [.punct '!' false, .ident "Unpin"] []
    [.ident "struct", .ident "PinRef", .punct '<' true, .punct '\'' true, .ident "a", .punct ',' false, .ident "T", .punct ',' false, .ident "U", .punct '>' false, .group .brace [.punct '#' false, .group .bracket [.ident "pin"], .ident "inner", .punct ':' false, .punct '&' true, .punct '\'' true, .ident "a", .ident "mut", .ident "Inner", .punct '<' false, .ident "T", .punct '>' true, .punct ',' false, .ident "other", .punct ':' false, .ident "U", .punct ',' false]]
    (fun as => .struct_ { attrs := as, vis := .inherited, ident := "PinRef", generics := { params := [.lifetime "'a" [], .type "T" [] none, .type "U" [] none], whereClause := none }, fields := (.named [{ attrs := [⟨.path { leading := false, segs := ["pin"] }⟩], vis := .inherited, ident := (some "inner"), ty := .other "&mut" [.lifetime "'a", .tyPath .none (.mk false [.mk "Inner" (.angle false [.tyPath .none (.mk false [.mk "T" .none])])])] }, { attrs := [], vis := .inherited, ident := (some "other"), ty := .tyPath .none (.mk false [.mk "U" .none]) }]) })) == none

-- /repo/tests/unsafe_unpin.rs
#guard (pinProject [.ident "UnsafeUnpin"] []
    [.ident "struct", .ident "Blah", .punct '<' false, .ident "T", .punct ',' false, .ident "U", .punct '>' false, .group .brace [.ident "f1", .punct ':' false, .ident "U", .punct ',' false, .punct '#' false, .group .bracket [.ident "pin"], .ident "f2", .punct ':' false, .ident "T", .punct ',' false]]
    (fun as => .struct_ { attrs := as, vis := .inherited, ident := "Blah", generics := { params := [.type "T" [] none, .type "U" [] none], whereClause := none }, fields := (.named [{ attrs := [], vis := .inherited, ident := (some "f1"), ty := .tyPath .none (.mk false [.mk "U" .none]) }, { attrs := [⟨.path { leading := false, segs := ["pin"] }⟩], vis := .inherited, ident := (some "f2"), ty := .tyPath .none (.mk false [.mk "T" .none]) }]) })) == none
#guard (pinProject [.ident "UnsafeUnpin"] []
    [.ident "struct", .ident "OverlappingLifetimeNames", .punct '<' true, .punct '\'' true, .ident "pin", .punct ',' false, .ident "T", .punct ',' false, .ident "U", .punct '>' false, .group .brace [.punct '#' false, .group .bracket [.ident "pin"], .ident "f1", .punct ':' false, .ident "U", .punct ',' false, .punct '#' false, .group .bracket [.ident "pin"], .ident "f2", .punct ':' false, .ident "Option", .punct '<' false, .ident "T", .punct '>' true, .punct ',' false, .ident "f3", .punct ':' false, .punct '&' true, .punct '\'' true, .ident "pin", .group .paren [], .punct ',' false]]
    (fun as => .struct_ { attrs := as, vis := .inherited, ident := "OverlappingLifetimeNames", generics := { params := [.lifetime "'pin" [], .type "T" [] none, .type "U" [] none], whereClause := none }, fields := (.named [{ attrs := [⟨.path { leading := false, segs := ["pin"] }⟩], vis := .inherited, ident := (some "f1"), ty := .tyPath .none (.mk false [.mk "U" .none]) }, { attrs := [⟨.path { leading := false, segs := ["pin"] }⟩], vis := .inherited, ident := (some "f2"), ty := .tyPath .none (.mk false [.mk "Option" (.angle false [.tyPath .none (.mk false [.mk "T" .none])])]) }, { attrs := [], vis := .inherited, ident := (some "f3"), ty := .other "&" [.lifetime "'pin", .other "tuple" []] }]) })) == none
#guard (pinProject [.ident "UnsafeUnpin"] []
    [.ident "struct", .ident "NotImplementUnsafeUnpin", .group .brace [.punct '#' false, .group .bracket [.ident "pin"], .ident "f", .punct ':' false, .ident "PhantomPinned", .punct ',' false]]
    (fun as => .struct_ { attrs := as, vis := .inherited, ident := "NotImplementUnsafeUnpin", generics := { params := [], whereClause := none }, fields := (.named [{ attrs := [⟨.path { leading := false, segs := ["pin"] }⟩], vis := .inherited, ident := (some "f"), ty := .tyPath .none (.mk false [.mk "PhantomPinned" .none]) }]) })) == none

end PinProject.Ui

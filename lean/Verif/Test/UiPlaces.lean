import Verif.Model.Locate
/-!
# Comparison with the positions in the compile-fail tests

The annotated items in /repo/tests/ui that the macros reject. For each, the pieces of the item that errors can point to
are listed with their positions in the file: line and column of the beginning and of the end. The position at which the
model reports the error is compared with the one recorded in the `.stderr` file.

This file is generated from these tests. It tests the model; it proves nothing about it. Not included: items behind `cfg`,
and items that go through one of the auxiliary macros of the tests.
-/
namespace PinProject.UiPlaces
open Locate (Shown Place RawPlace DropPlace LErr)

/-- Line and column of the first character, and of the character after the last one. The column 0 at the end means that
the end of the line is not recorded (`.stderr` files show multi-line positions by lines). -/
structure Range where
  l : Nat
  c : Nat
  l' : Nat
  c' : Nat
  deriving Repr

/-- The position of an error. -/
def find {σ : Type} [BEq σ] (call : Range) (places : List (σ × Range)) : Shown σ → Option Range
  | .callSite => some call
  | .range a b => do
    let a ← places.lookup a
    let b ← places.lookup b
    some ⟨a.l, a.c, b.l', b.c'⟩

/-- The piece is known only up to the attribute. -/
def inside : Shown Place → Bool
  | .range (.inAttr _) _ => true
  | .range (.inFieldAttr ..) _ => true
  | _ => false

/-- The error and its position. -/
structure Found where
  msg : String
  range : Option Range
  inside : Bool := false

def pinProject (args : List TT) (attrs : List Attribute) (body : List TT) (mk : List Attribute → Item) (call : Range)
    (raw : List (RawPlace × Range)) (places : List (Place × Range)) : Option Found :=
  match Locate.parseAttribute args { attrs, body } with
  | .error (.bail m s) => some ⟨m, find call raw s, false⟩
  | .error (.panic m) => some ⟨"panic: " ++ m, none, false⟩
  | .ok i =>
    match Locate.checkDerive (mk (i.attrs.filter (fun a => !a.path.isIdent "derive"))) with
    | .error (.bail m s) => some ⟨m, find call places s, inside s⟩
    | .error (.panic m) => some ⟨"panic: " ++ m, none, false⟩
    | .ok _ => none

def pinnedDrop (args : List TT) (i : ItemImpl) (call : Range) (places : List (DropPlace × Range)) : Option Found :=
  match Locate.checkPinnedDrop args i with
  | .error (.bail m s) => some ⟨m, find call places s, false⟩
  | .error (.panic m) => some ⟨"panic: " ++ m, none, false⟩
  | .ok _ => none

/-- The error is the recorded one: with the same position, or inside of the position. -/
def agrees (f : Option Found) (e : Option (String × Range)) : Bool :=
  match f, e with
  | some ⟨m, some r, false⟩, some (m', r') =>
    m == m' && r.l == r'.l && r.c == r'.c && r.l' == r'.l' && (r'.c' == 0 || r.c' == r'.c')
  | some ⟨m, some r, true⟩, some (m', r') => m == m' && r.l == r'.l && r.c ≤ r'.c && r'.c' ≤ r.c'
  | _, _ => false

local infix:50 " == " => agrees

-- /repo/tests/ui/pin_project/invalid.rs
#guard pinProject [] []
    [.ident "struct", .ident "Struct", .group .brace [.punct '#' false, .group .bracket [.ident "pin", .group .paren []], .ident "f", .punct ':' false, .group .paren [], .punct ',' false]]
    (fun as => .struct_ { attrs := as, vis := .inherited, ident := "Struct", generics := { params := [], whereClause := none }, fields := (.named [{ attrs := [⟨.list { leading := false, segs := ["pin"] } .paren []⟩], vis := .inherited, ident := (some "f"), ty := .other "tuple" [] }]) })
    ⟨6, 5, 6, 19⟩
    [(.body, ⟨7, 5, 10, 6⟩)]
    [(.name, ⟨7, 12, 7, 18⟩), (.fields, ⟨7, 19, 10, 6⟩), (.fieldAttr (none) 0 0, ⟨8, 9, 8, 17⟩), (.inFieldAttr (none) 0 0, ⟨8, 9, 8, 17⟩)] == some ("unexpected token in attribute", ⟨8, 14, 8, 15⟩)
#guard pinProject [] []
    [.ident "struct", .ident "TupleStruct", .group .paren [.punct '#' false, .group .bracket [.ident "pin", .group .paren [.ident "foo"]], .group .paren []], .punct ';' false]
    (fun as => .struct_ { attrs := as, vis := .inherited, ident := "TupleStruct", generics := { params := [], whereClause := none }, fields := (.unnamed [{ attrs := [⟨.list { leading := false, segs := ["pin"] } .paren [.ident "foo"]⟩], vis := .inherited, ident := none, ty := .other "tuple" [] }]) })
    ⟨12, 5, 12, 19⟩
    [(.body, ⟨13, 5, 13, 40⟩)]
    [(.name, ⟨13, 12, 13, 23⟩), (.fields, ⟨13, 23, 13, 39⟩), (.fieldAttr (none) 0 0, ⟨13, 24, 13, 35⟩), (.inFieldAttr (none) 0 0, ⟨13, 24, 13, 35⟩)] == some ("unexpected token in attribute", ⟨13, 29, 13, 30⟩)
#guard pinProject [] []
    [.ident "enum", .ident "EnumTuple", .group .brace [.ident "V", .group .paren [.punct '#' false, .group .bracket [.ident "pin", .group .paren [.ident "foo"]], .group .paren []], .punct ',' false]]
    (fun as => .enum_ { attrs := as, vis := .inherited, ident := "EnumTuple", generics := { params := [], whereClause := none }, variants := [{ attrs := [], ident := "V", fields := (.unnamed [{ attrs := [⟨.list { leading := false, segs := ["pin"] } .paren [.ident "foo"]⟩], vis := .inherited, ident := none, ty := .other "tuple" [] }]), discriminant := none }] })
    ⟨15, 5, 15, 19⟩
    [(.body, ⟨16, 5, 18, 6⟩)]
    [(.braces, ⟨16, 20, 18, 6⟩), (.variants, ⟨17, 9, 17, 27⟩), (.fieldAttr (some 0) 0 0, ⟨17, 11, 17, 22⟩), (.inFieldAttr (some 0) 0 0, ⟨17, 11, 17, 22⟩)] == some ("unexpected token in attribute", ⟨17, 16, 17, 17⟩)
#guard pinProject [] []
    [.ident "enum", .ident "EnumStruct", .group .brace [.ident "V", .group .brace [.punct '#' false, .group .bracket [.ident "pin", .group .paren [.ident "foo"]], .ident "f", .punct ':' false, .group .paren [], .punct ',' false], .punct ',' false]]
    (fun as => .enum_ { attrs := as, vis := .inherited, ident := "EnumStruct", generics := { params := [], whereClause := none }, variants := [{ attrs := [], ident := "V", fields := (.named [{ attrs := [⟨.list { leading := false, segs := ["pin"] } .paren [.ident "foo"]⟩], vis := .inherited, ident := (some "f"), ty := .other "tuple" [] }]), discriminant := none }] })
    ⟨20, 5, 20, 19⟩
    [(.body, ⟨21, 5, 26, 6⟩)]
    [(.braces, ⟨21, 21, 26, 6⟩), (.variants, ⟨22, 9, 25, 11⟩), (.fieldAttr (some 0) 0 0, ⟨23, 13, 23, 24⟩), (.inFieldAttr (some 0) 0 0, ⟨23, 13, 23, 24⟩)] == some ("unexpected token in attribute", ⟨23, 18, 23, 19⟩)
#guard pinProject [] []
    [.ident "struct", .ident "DuplicateStruct", .group .brace [.punct '#' false, .group .bracket [.ident "pin"], .punct '#' false, .group .bracket [.ident "pin"], .ident "f", .punct ':' false, .group .paren [], .punct ',' false]]
    (fun as => .struct_ { attrs := as, vis := .inherited, ident := "DuplicateStruct", generics := { params := [], whereClause := none }, fields := (.named [{ attrs := [⟨.path { leading := false, segs := ["pin"] }⟩, ⟨.path { leading := false, segs := ["pin"] }⟩], vis := .inherited, ident := (some "f"), ty := .other "tuple" [] }]) })
    ⟨32, 5, 32, 19⟩
    [(.body, ⟨33, 5, 37, 6⟩)]
    [(.name, ⟨33, 12, 33, 27⟩), (.fields, ⟨33, 28, 37, 6⟩), (.fieldAttr (none) 0 0, ⟨34, 9, 34, 15⟩), (.inFieldAttr (none) 0 0, ⟨34, 9, 34, 15⟩), (.fieldAttr (none) 0 1, ⟨35, 9, 35, 15⟩), (.inFieldAttr (none) 0 1, ⟨35, 9, 35, 15⟩)] == some ("duplicate #[pin] attribute", ⟨35, 9, 35, 15⟩)
#guard pinProject [] []
    [.ident "struct", .ident "DuplicateTupleStruct", .group .paren [.punct '#' false, .group .bracket [.ident "pin"], .punct '#' false, .group .bracket [.ident "pin"], .group .paren [], .punct ',' false], .punct ';' false]
    (fun as => .struct_ { attrs := as, vis := .inherited, ident := "DuplicateTupleStruct", generics := { params := [], whereClause := none }, fields := (.unnamed [{ attrs := [⟨.path { leading := false, segs := ["pin"] }⟩, ⟨.path { leading := false, segs := ["pin"] }⟩], vis := .inherited, ident := none, ty := .other "tuple" [] }]) })
    ⟨39, 5, 39, 19⟩
    [(.body, ⟨40, 5, 45, 7⟩)]
    [(.name, ⟨40, 12, 40, 32⟩), (.fields, ⟨40, 32, 45, 6⟩), (.fieldAttr (none) 0 0, ⟨41, 9, 41, 15⟩), (.inFieldAttr (none) 0 0, ⟨41, 9, 41, 15⟩), (.fieldAttr (none) 0 1, ⟨42, 9, 42, 15⟩), (.inFieldAttr (none) 0 1, ⟨42, 9, 42, 15⟩)] == some ("duplicate #[pin] attribute", ⟨42, 9, 42, 15⟩)
#guard pinProject [] []
    [.ident "enum", .ident "DuplicateEnumTuple", .group .brace [.ident "V", .group .paren [.punct '#' false, .group .bracket [.ident "pin"], .punct '#' false, .group .bracket [.ident "pin"], .group .paren [], .punct ',' false], .punct ',' false]]
    (fun as => .enum_ { attrs := as, vis := .inherited, ident := "DuplicateEnumTuple", generics := { params := [], whereClause := none }, variants := [{ attrs := [], ident := "V", fields := (.unnamed [{ attrs := [⟨.path { leading := false, segs := ["pin"] }⟩, ⟨.path { leading := false, segs := ["pin"] }⟩], vis := .inherited, ident := none, ty := .other "tuple" [] }]), discriminant := none }] })
    ⟨47, 5, 47, 19⟩
    [(.body, ⟨48, 5, 55, 6⟩)]
    [(.braces, ⟨48, 29, 55, 6⟩), (.variants, ⟨49, 9, 54, 11⟩), (.fieldAttr (some 0) 0 0, ⟨50, 13, 50, 19⟩), (.inFieldAttr (some 0) 0 0, ⟨50, 13, 50, 19⟩), (.fieldAttr (some 0) 0 1, ⟨51, 13, 51, 19⟩), (.inFieldAttr (some 0) 0 1, ⟨51, 13, 51, 19⟩)] == some ("duplicate #[pin] attribute", ⟨51, 13, 51, 19⟩)
#guard pinProject [] []
    [.ident "enum", .ident "DuplicateEnumStruct", .group .brace [.ident "V", .group .brace [.punct '#' false, .group .bracket [.ident "pin"], .punct '#' false, .group .bracket [.ident "pin"], .ident "f", .punct ':' false, .group .paren [], .punct ',' false], .punct ',' false]]
    (fun as => .enum_ { attrs := as, vis := .inherited, ident := "DuplicateEnumStruct", generics := { params := [], whereClause := none }, variants := [{ attrs := [], ident := "V", fields := (.named [{ attrs := [⟨.path { leading := false, segs := ["pin"] }⟩, ⟨.path { leading := false, segs := ["pin"] }⟩], vis := .inherited, ident := (some "f"), ty := .other "tuple" [] }]), discriminant := none }] })
    ⟨57, 5, 57, 19⟩
    [(.body, ⟨58, 5, 64, 6⟩)]
    [(.braces, ⟨58, 30, 64, 6⟩), (.variants, ⟨59, 9, 63, 11⟩), (.fieldAttr (some 0) 0 0, ⟨60, 13, 60, 19⟩), (.inFieldAttr (some 0) 0 0, ⟨60, 13, 60, 19⟩), (.fieldAttr (some 0) 0 1, ⟨61, 13, 61, 19⟩), (.inFieldAttr (some 0) 0 1, ⟨61, 13, 61, 19⟩)] == some ("duplicate #[pin] attribute", ⟨61, 13, 61, 19⟩)
#guard pinProject [] [⟨.path { leading := false, segs := ["pin"] }⟩]
    [.ident "struct", .ident "Struct", .group .brace [.punct '#' false, .group .bracket [.ident "pin"], .ident "f", .punct ':' false, .group .paren [], .punct ',' false]]
    (fun as => .struct_ { attrs := as, vis := .inherited, ident := "Struct", generics := { params := [], whereClause := none }, fields := (.named [{ attrs := [⟨.path { leading := false, segs := ["pin"] }⟩], vis := .inherited, ident := (some "f"), ty := .other "tuple" [] }]) })
    ⟨70, 5, 70, 19⟩
    [(.body, ⟨72, 5, 75, 6⟩), (.attr 0, ⟨71, 5, 71, 11⟩)]
    [(.name, ⟨72, 12, 72, 18⟩), (.fields, ⟨72, 19, 75, 6⟩), (.fieldAttr (none) 0 0, ⟨73, 9, 73, 15⟩), (.inFieldAttr (none) 0 0, ⟨73, 9, 73, 15⟩), (.attr 0, ⟨71, 5, 71, 11⟩), (.inAttr 0, ⟨71, 5, 71, 11⟩)] == some ("#[pin] attribute may only be used on fields of structs or variants", ⟨71, 5, 71, 11⟩)
#guard pinProject [] []
    [.ident "enum", .ident "Variant", .group .brace [.punct '#' false, .group .bracket [.ident "pin"], .ident "V", .group .paren [.group .paren []], .punct ',' false]]
    (fun as => .enum_ { attrs := as, vis := .inherited, ident := "Variant", generics := { params := [], whereClause := none }, variants := [{ attrs := [⟨.path { leading := false, segs := ["pin"] }⟩], ident := "V", fields := (.unnamed [{ attrs := [], vis := .inherited, ident := none, ty := .other "tuple" [] }]), discriminant := none }] })
    ⟨77, 5, 77, 19⟩
    [(.body, ⟨78, 5, 81, 6⟩)]
    [(.braces, ⟨78, 18, 81, 6⟩), (.variants, ⟨79, 9, 80, 15⟩), (.variantAttr 0 0, ⟨79, 9, 79, 15⟩)] == some ("#[pin] attribute may only be used on fields of structs or variants", ⟨79, 9, 79, 15⟩)
#guard pinProject [] [⟨.path { leading := false, segs := ["pin"] }⟩]
    [.ident "enum", .ident "Enum", .group .brace [.ident "V", .group .paren [.group .paren []], .punct ',' false]]
    (fun as => .enum_ { attrs := as, vis := .inherited, ident := "Enum", generics := { params := [], whereClause := none }, variants := [{ attrs := [], ident := "V", fields := (.unnamed [{ attrs := [], vis := .inherited, ident := none, ty := .other "tuple" [] }]), discriminant := none }] })
    ⟨83, 5, 83, 19⟩
    [(.body, ⟨85, 5, 87, 6⟩), (.attr 0, ⟨84, 5, 84, 11⟩)]
    [(.braces, ⟨85, 15, 87, 6⟩), (.variants, ⟨86, 9, 86, 15⟩), (.attr 0, ⟨84, 5, 84, 11⟩), (.inAttr 0, ⟨84, 5, 84, 11⟩)] == some ("#[pin] attribute may only be used on fields of structs or variants", ⟨84, 5, 84, 11⟩)
#guard pinProject [.ident "Replace"] []
    [.ident "struct", .ident "RemovedReplace", .group .paren [.punct '#' false, .group .bracket [.ident "pin"], .group .paren []], .punct ';' false]
    (fun as => .struct_ { attrs := as, vis := .inherited, ident := "RemovedReplace", generics := { params := [], whereClause := none }, fields := (.unnamed [{ attrs := [⟨.path { leading := false, segs := ["pin"] }⟩], vis := .inherited, ident := none, ty := .other "tuple" [] }]) })
    ⟨93, 5, 93, 28⟩
    [(.body, ⟨94, 5, 94, 38⟩)]
    [(.name, ⟨94, 12, 94, 26⟩), (.fields, ⟨94, 26, 94, 37⟩), (.fieldAttr (none) 0 0, ⟨94, 27, 94, 33⟩), (.inFieldAttr (none) 0 0, ⟨94, 27, 94, 33⟩), (.arg 0, ⟨93, 19, 93, 26⟩)] == some ("`Replace` argument was removed, use `project_replace` argument instead", ⟨93, 19, 93, 26⟩)
#guard pinProject [.ident "UnsafeUnpin", .punct ',' true, .punct ',' false] []
    [.ident "struct", .ident "Unexpected1", .group .paren [.punct '#' false, .group .bracket [.ident "pin"], .group .paren []], .punct ';' false]
    (fun as => .struct_ { attrs := as, vis := .inherited, ident := "Unexpected1", generics := { params := [], whereClause := none }, fields := (.unnamed [{ attrs := [⟨.path { leading := false, segs := ["pin"] }⟩], vis := .inherited, ident := none, ty := .other "tuple" [] }]) })
    ⟨96, 5, 96, 34⟩
    [(.body, ⟨97, 5, 97, 35⟩)]
    [(.name, ⟨97, 12, 97, 23⟩), (.fields, ⟨97, 23, 97, 34⟩), (.fieldAttr (none) 0 0, ⟨97, 24, 97, 30⟩), (.inFieldAttr (none) 0 0, ⟨97, 24, 97, 30⟩), (.arg 0, ⟨96, 19, 96, 30⟩), (.arg 1, ⟨96, 30, 96, 31⟩), (.arg 2, ⟨96, 31, 96, 32⟩)] == some ("expected identifier", ⟨96, 31, 96, 32⟩)
#guard pinProject [.ident "Foo"] []
    [.ident "struct", .ident "Unexpected2", .group .paren [.punct '#' false, .group .bracket [.ident "pin"], .group .paren []], .punct ';' false]
    (fun as => .struct_ { attrs := as, vis := .inherited, ident := "Unexpected2", generics := { params := [], whereClause := none }, fields := (.unnamed [{ attrs := [⟨.path { leading := false, segs := ["pin"] }⟩], vis := .inherited, ident := none, ty := .other "tuple" [] }]) })
    ⟨99, 5, 99, 24⟩
    [(.body, ⟨100, 5, 100, 35⟩)]
    [(.name, ⟨100, 12, 100, 23⟩), (.fields, ⟨100, 23, 100, 34⟩), (.fieldAttr (none) 0 0, ⟨100, 24, 100, 30⟩), (.inFieldAttr (none) 0 0, ⟨100, 24, 100, 30⟩), (.arg 0, ⟨99, 19, 99, 22⟩)] == some ("unexpected argument: Foo", ⟨99, 19, 99, 22⟩)
#guard pinProject [.punct ',' false, .ident "UnsafeUnpin"] []
    [.ident "struct", .ident "Unexpected3", .group .paren [.punct '#' false, .group .bracket [.ident "pin"], .group .paren []], .punct ';' false]
    (fun as => .struct_ { attrs := as, vis := .inherited, ident := "Unexpected3", generics := { params := [], whereClause := none }, fields := (.unnamed [{ attrs := [⟨.path { leading := false, segs := ["pin"] }⟩], vis := .inherited, ident := none, ty := .other "tuple" [] }]) })
    ⟨102, 5, 102, 33⟩
    [(.body, ⟨103, 5, 103, 35⟩)]
    [(.name, ⟨103, 12, 103, 23⟩), (.fields, ⟨103, 23, 103, 34⟩), (.fieldAttr (none) 0 0, ⟨103, 24, 103, 30⟩), (.inFieldAttr (none) 0 0, ⟨103, 24, 103, 30⟩), (.arg 0, ⟨102, 19, 102, 20⟩), (.arg 1, ⟨102, 20, 102, 31⟩)] == some ("expected identifier", ⟨102, 19, 102, 20⟩)
#guard pinProject [.ident "PinnedDrop", .ident "PinnedDrop"] []
    [.ident "struct", .ident "Unexpected5", .group .paren [.punct '#' false, .group .bracket [.ident "pin"], .group .paren []], .punct ';' false]
    (fun as => .struct_ { attrs := as, vis := .inherited, ident := "Unexpected5", generics := { params := [], whereClause := none }, fields := (.unnamed [{ attrs := [⟨.path { leading := false, segs := ["pin"] }⟩], vis := .inherited, ident := none, ty := .other "tuple" [] }]) })
    ⟨108, 5, 108, 42⟩
    [(.body, ⟨109, 5, 109, 35⟩)]
    [(.name, ⟨109, 12, 109, 23⟩), (.fields, ⟨109, 23, 109, 34⟩), (.fieldAttr (none) 0 0, ⟨109, 24, 109, 30⟩), (.inFieldAttr (none) 0 0, ⟨109, 24, 109, 30⟩), (.arg 0, ⟨108, 19, 108, 29⟩), (.arg 1, ⟨108, 30, 108, 40⟩)] == some ("expected `,`", ⟨108, 30, 108, 40⟩)
#guard pinProject [.ident "PinnedDrop", .punct ',' false, .ident "PinnedDrop"] []
    [.ident "struct", .ident "DuplicatePinnedDrop", .group .paren [.punct '#' false, .group .bracket [.ident "pin"], .group .paren []], .punct ';' false]
    (fun as => .struct_ { attrs := as, vis := .inherited, ident := "DuplicatePinnedDrop", generics := { params := [], whereClause := none }, fields := (.unnamed [{ attrs := [⟨.path { leading := false, segs := ["pin"] }⟩], vis := .inherited, ident := none, ty := .other "tuple" [] }]) })
    ⟨111, 5, 111, 43⟩
    [(.body, ⟨112, 5, 112, 43⟩)]
    [(.name, ⟨112, 12, 112, 31⟩), (.fields, ⟨112, 31, 112, 42⟩), (.fieldAttr (none) 0 0, ⟨112, 32, 112, 38⟩), (.inFieldAttr (none) 0 0, ⟨112, 32, 112, 38⟩), (.arg 0, ⟨111, 19, 111, 29⟩), (.arg 1, ⟨111, 29, 111, 30⟩), (.arg 2, ⟨111, 31, 111, 41⟩)] == some ("duplicate `PinnedDrop` argument", ⟨111, 31, 111, 41⟩)
#guard pinProject [.ident "UnsafeUnpin", .punct ',' false, .ident "UnsafeUnpin"] []
    [.ident "struct", .ident "DuplicateUnsafeUnpin", .group .paren [.punct '#' false, .group .bracket [.ident "pin"], .group .paren []], .punct ';' false]
    (fun as => .struct_ { attrs := as, vis := .inherited, ident := "DuplicateUnsafeUnpin", generics := { params := [], whereClause := none }, fields := (.unnamed [{ attrs := [⟨.path { leading := false, segs := ["pin"] }⟩], vis := .inherited, ident := none, ty := .other "tuple" [] }]) })
    ⟨114, 5, 114, 45⟩
    [(.body, ⟨115, 5, 115, 44⟩)]
    [(.name, ⟨115, 12, 115, 32⟩), (.fields, ⟨115, 32, 115, 43⟩), (.fieldAttr (none) 0 0, ⟨115, 33, 115, 39⟩), (.inFieldAttr (none) 0 0, ⟨115, 33, 115, 39⟩), (.arg 0, ⟨114, 19, 114, 30⟩), (.arg 1, ⟨114, 30, 114, 31⟩), (.arg 2, ⟨114, 32, 114, 43⟩)] == some ("duplicate `UnsafeUnpin` argument", ⟨114, 32, 114, 43⟩)
#guard pinProject [.punct '!' false, .ident "Unpin", .punct ',' false, .punct '!' false, .ident "Unpin"] []
    [.ident "struct", .ident "DuplicateNotUnpin", .group .paren [.punct '#' false, .group .bracket [.ident "pin"], .group .paren []], .punct ';' false]
    (fun as => .struct_ { attrs := as, vis := .inherited, ident := "DuplicateNotUnpin", generics := { params := [], whereClause := none }, fields := (.unnamed [{ attrs := [⟨.path { leading := false, segs := ["pin"] }⟩], vis := .inherited, ident := none, ty := .other "tuple" [] }]) })
    ⟨117, 5, 117, 35⟩
    [(.body, ⟨118, 5, 118, 41⟩)]
    [(.name, ⟨118, 12, 118, 29⟩), (.fields, ⟨118, 29, 118, 40⟩), (.fieldAttr (none) 0 0, ⟨118, 30, 118, 36⟩), (.inFieldAttr (none) 0 0, ⟨118, 30, 118, 36⟩), (.arg 0, ⟨117, 19, 117, 20⟩), (.arg 1, ⟨117, 20, 117, 25⟩), (.arg 2, ⟨117, 25, 117, 26⟩), (.arg 3, ⟨117, 27, 117, 28⟩), (.arg 4, ⟨117, 28, 117, 33⟩)] == some ("duplicate `!Unpin` argument", ⟨117, 27, 117, 33⟩)
#guard pinProject [.ident "PinnedDrop", .punct ',' false, .ident "UnsafeUnpin", .punct ',' false, .ident "UnsafeUnpin"] []
    [.ident "struct", .ident "Duplicate3", .group .paren [.punct '#' false, .group .bracket [.ident "pin"], .group .paren []], .punct ';' false]
    (fun as => .struct_ { attrs := as, vis := .inherited, ident := "Duplicate3", generics := { params := [], whereClause := none }, fields := (.unnamed [{ attrs := [⟨.path { leading := false, segs := ["pin"] }⟩], vis := .inherited, ident := none, ty := .other "tuple" [] }]) })
    ⟨120, 5, 120, 57⟩
    [(.body, ⟨121, 5, 121, 34⟩)]
    [(.name, ⟨121, 12, 121, 22⟩), (.fields, ⟨121, 22, 121, 33⟩), (.fieldAttr (none) 0 0, ⟨121, 23, 121, 29⟩), (.inFieldAttr (none) 0 0, ⟨121, 23, 121, 29⟩), (.arg 0, ⟨120, 19, 120, 29⟩), (.arg 1, ⟨120, 29, 120, 30⟩), (.arg 2, ⟨120, 31, 120, 42⟩), (.arg 3, ⟨120, 42, 120, 43⟩), (.arg 4, ⟨120, 44, 120, 55⟩)] == some ("duplicate `UnsafeUnpin` argument", ⟨120, 44, 120, 55⟩)
#guard pinProject [.ident "PinnedDrop", .punct ',' false, .ident "UnsafeUnpin", .punct ',' false, .ident "PinnedDrop", .punct ',' false, .ident "UnsafeUnpin"] []
    [.ident "struct", .ident "Duplicate4", .group .paren [.punct '#' false, .group .bracket [.ident "pin"], .group .paren []], .punct ';' false]
    (fun as => .struct_ { attrs := as, vis := .inherited, ident := "Duplicate4", generics := { params := [], whereClause := none }, fields := (.unnamed [{ attrs := [⟨.path { leading := false, segs := ["pin"] }⟩], vis := .inherited, ident := none, ty := .other "tuple" [] }]) })
    ⟨123, 5, 123, 69⟩
    [(.body, ⟨124, 5, 124, 34⟩)]
    [(.name, ⟨124, 12, 124, 22⟩), (.fields, ⟨124, 22, 124, 33⟩), (.fieldAttr (none) 0 0, ⟨124, 23, 124, 29⟩), (.inFieldAttr (none) 0 0, ⟨124, 23, 124, 29⟩), (.arg 0, ⟨123, 19, 123, 29⟩), (.arg 1, ⟨123, 29, 123, 30⟩), (.arg 2, ⟨123, 31, 123, 42⟩), (.arg 3, ⟨123, 42, 123, 43⟩), (.arg 4, ⟨123, 44, 123, 54⟩), (.arg 5, ⟨123, 54, 123, 55⟩), (.arg 6, ⟨123, 56, 123, 67⟩)] == some ("duplicate `PinnedDrop` argument", ⟨123, 44, 123, 54⟩)
#guard pinProject [.ident "project", .punct '=' false, .ident "A", .punct ',' false, .ident "project", .punct '=' false, .ident "B"] []
    [.ident "struct", .ident "DuplicateProject", .group .paren [.punct '#' false, .group .bracket [.ident "pin"], .group .paren []], .punct ';' false]
    (fun as => .struct_ { attrs := as, vis := .inherited, ident := "DuplicateProject", generics := { params := [], whereClause := none }, fields := (.unnamed [{ attrs := [⟨.path { leading := false, segs := ["pin"] }⟩], vis := .inherited, ident := none, ty := .other "tuple" [] }]) })
    ⟨126, 5, 126, 45⟩
    [(.body, ⟨127, 5, 127, 40⟩)]
    [(.name, ⟨127, 12, 127, 28⟩), (.fields, ⟨127, 28, 127, 39⟩), (.fieldAttr (none) 0 0, ⟨127, 29, 127, 35⟩), (.inFieldAttr (none) 0 0, ⟨127, 29, 127, 35⟩), (.arg 0, ⟨126, 19, 126, 26⟩), (.arg 1, ⟨126, 27, 126, 28⟩), (.arg 2, ⟨126, 29, 126, 30⟩), (.arg 3, ⟨126, 30, 126, 31⟩), (.arg 4, ⟨126, 32, 126, 39⟩), (.arg 5, ⟨126, 40, 126, 41⟩), (.arg 6, ⟨126, 42, 126, 43⟩)] == some ("duplicate `project` argument", ⟨126, 32, 126, 43⟩)
#guard pinProject [.ident "project", .punct '=' false, .ident "A", .punct ',' false, .ident "project_ref", .punct '=' false, .ident "A", .punct ',' false, .ident "project", .punct '=' false, .ident "B"] []
    [.ident "struct", .ident "DuplicateProject2", .group .paren [.punct '#' false, .group .bracket [.ident "pin"], .group .paren []], .punct ';' false]
    (fun as => .struct_ { attrs := as, vis := .inherited, ident := "DuplicateProject2", generics := { params := [], whereClause := none }, fields := (.unnamed [{ attrs := [⟨.path { leading := false, segs := ["pin"] }⟩], vis := .inherited, ident := none, ty := .other "tuple" [] }]) })
    ⟨129, 5, 129, 62⟩
    [(.body, ⟨130, 5, 130, 41⟩)]
    [(.name, ⟨130, 12, 130, 29⟩), (.fields, ⟨130, 29, 130, 40⟩), (.fieldAttr (none) 0 0, ⟨130, 30, 130, 36⟩), (.inFieldAttr (none) 0 0, ⟨130, 30, 130, 36⟩), (.arg 0, ⟨129, 19, 129, 26⟩), (.arg 1, ⟨129, 27, 129, 28⟩), (.arg 2, ⟨129, 29, 129, 30⟩), (.arg 3, ⟨129, 30, 129, 31⟩), (.arg 4, ⟨129, 32, 129, 43⟩), (.arg 5, ⟨129, 44, 129, 45⟩), (.arg 6, ⟨129, 46, 129, 47⟩), (.arg 7, ⟨129, 47, 129, 48⟩), (.arg 8, ⟨129, 49, 129, 56⟩), (.arg 9, ⟨129, 57, 129, 58⟩), (.arg 10, ⟨129, 59, 129, 60⟩)] == some ("duplicate `project` argument", ⟨129, 49, 129, 60⟩)
#guard pinProject [.ident "project_ref", .punct '=' false, .ident "A", .punct ',' false, .ident "project_ref", .punct '=' false, .ident "B"] []
    [.ident "struct", .ident "DuplicateProjectRef", .group .paren [.punct '#' false, .group .bracket [.ident "pin"], .group .paren []], .punct ';' false]
    (fun as => .struct_ { attrs := as, vis := .inherited, ident := "DuplicateProjectRef", generics := { params := [], whereClause := none }, fields := (.unnamed [{ attrs := [⟨.path { leading := false, segs := ["pin"] }⟩], vis := .inherited, ident := none, ty := .other "tuple" [] }]) })
    ⟨132, 5, 132, 53⟩
    [(.body, ⟨133, 5, 133, 43⟩)]
    [(.name, ⟨133, 12, 133, 31⟩), (.fields, ⟨133, 31, 133, 42⟩), (.fieldAttr (none) 0 0, ⟨133, 32, 133, 38⟩), (.inFieldAttr (none) 0 0, ⟨133, 32, 133, 38⟩), (.arg 0, ⟨132, 19, 132, 30⟩), (.arg 1, ⟨132, 31, 132, 32⟩), (.arg 2, ⟨132, 33, 132, 34⟩), (.arg 3, ⟨132, 34, 132, 35⟩), (.arg 4, ⟨132, 36, 132, 47⟩), (.arg 5, ⟨132, 48, 132, 49⟩), (.arg 6, ⟨132, 50, 132, 51⟩)] == some ("duplicate `project_ref` argument", ⟨132, 36, 132, 51⟩)
#guard pinProject [.ident "project_replace", .punct '=' false, .ident "A", .punct ',' false, .ident "project_replace", .punct '=' false, .ident "B"] []
    [.ident "struct", .ident "DuplicateProjectReplace1", .group .paren [.punct '#' false, .group .bracket [.ident "pin"], .group .paren []], .punct ';' false]
    (fun as => .struct_ { attrs := as, vis := .inherited, ident := "DuplicateProjectReplace1", generics := { params := [], whereClause := none }, fields := (.unnamed [{ attrs := [⟨.path { leading := false, segs := ["pin"] }⟩], vis := .inherited, ident := none, ty := .other "tuple" [] }]) })
    ⟨135, 5, 135, 61⟩
    [(.body, ⟨136, 5, 136, 48⟩)]
    [(.name, ⟨136, 12, 136, 36⟩), (.fields, ⟨136, 36, 136, 47⟩), (.fieldAttr (none) 0 0, ⟨136, 37, 136, 43⟩), (.inFieldAttr (none) 0 0, ⟨136, 37, 136, 43⟩), (.arg 0, ⟨135, 19, 135, 34⟩), (.arg 1, ⟨135, 35, 135, 36⟩), (.arg 2, ⟨135, 37, 135, 38⟩), (.arg 3, ⟨135, 38, 135, 39⟩), (.arg 4, ⟨135, 40, 135, 55⟩), (.arg 5, ⟨135, 56, 135, 57⟩), (.arg 6, ⟨135, 58, 135, 59⟩)] == some ("duplicate `project_replace` argument", ⟨135, 40, 135, 59⟩)
#guard pinProject [.ident "project_replace", .punct ',' false, .ident "project_replace", .punct '=' false, .ident "B"] []
    [.ident "struct", .ident "DuplicateProjectReplace2", .group .paren [.punct '#' false, .group .bracket [.ident "pin"], .group .paren []], .punct ';' false]
    (fun as => .struct_ { attrs := as, vis := .inherited, ident := "DuplicateProjectReplace2", generics := { params := [], whereClause := none }, fields := (.unnamed [{ attrs := [⟨.path { leading := false, segs := ["pin"] }⟩], vis := .inherited, ident := none, ty := .other "tuple" [] }]) })
    ⟨138, 5, 138, 57⟩
    [(.body, ⟨139, 5, 139, 48⟩)]
    [(.name, ⟨139, 12, 139, 36⟩), (.fields, ⟨139, 36, 139, 47⟩), (.fieldAttr (none) 0 0, ⟨139, 37, 139, 43⟩), (.inFieldAttr (none) 0 0, ⟨139, 37, 139, 43⟩), (.arg 0, ⟨138, 19, 138, 34⟩), (.arg 1, ⟨138, 34, 138, 35⟩), (.arg 2, ⟨138, 36, 138, 51⟩), (.arg 3, ⟨138, 52, 138, 53⟩), (.arg 4, ⟨138, 54, 138, 55⟩)] == some ("duplicate `project_replace` argument", ⟨138, 36, 138, 55⟩)
#guard pinProject [.ident "project_replace", .punct '=' false, .ident "A", .punct ',' false, .ident "project_replace"] []
    [.ident "struct", .ident "DuplicateProjectReplace3", .group .paren [.punct '#' false, .group .bracket [.ident "pin"], .group .paren []], .punct ';' false]
    (fun as => .struct_ { attrs := as, vis := .inherited, ident := "DuplicateProjectReplace3", generics := { params := [], whereClause := none }, fields := (.unnamed [{ attrs := [⟨.path { leading := false, segs := ["pin"] }⟩], vis := .inherited, ident := none, ty := .other "tuple" [] }]) })
    ⟨141, 5, 141, 57⟩
    [(.body, ⟨142, 5, 142, 48⟩)]
    [(.name, ⟨142, 12, 142, 36⟩), (.fields, ⟨142, 36, 142, 47⟩), (.fieldAttr (none) 0 0, ⟨142, 37, 142, 43⟩), (.inFieldAttr (none) 0 0, ⟨142, 37, 142, 43⟩), (.arg 0, ⟨141, 19, 141, 34⟩), (.arg 1, ⟨141, 35, 141, 36⟩), (.arg 2, ⟨141, 37, 141, 38⟩), (.arg 3, ⟨141, 38, 141, 39⟩), (.arg 4, ⟨141, 40, 141, 55⟩)] == some ("duplicate `project_replace` argument", ⟨141, 40, 141, 55⟩)
#guard pinProject [.ident "PinnedDrop", .punct ',' false, .ident "project_replace"] []
    [.ident "struct", .ident "PinnedDropWithProjectReplace1", .group .paren [.punct '#' false, .group .bracket [.ident "pin"], .group .paren []], .punct ';' false]
    (fun as => .struct_ { attrs := as, vis := .inherited, ident := "PinnedDropWithProjectReplace1", generics := { params := [], whereClause := none }, fields := (.unnamed [{ attrs := [⟨.path { leading := false, segs := ["pin"] }⟩], vis := .inherited, ident := none, ty := .other "tuple" [] }]) })
    ⟨147, 5, 147, 48⟩
    [(.body, ⟨148, 5, 148, 53⟩)]
    [(.name, ⟨148, 12, 148, 41⟩), (.fields, ⟨148, 41, 148, 52⟩), (.fieldAttr (none) 0 0, ⟨148, 42, 148, 48⟩), (.inFieldAttr (none) 0 0, ⟨148, 42, 148, 48⟩), (.arg 0, ⟨147, 19, 147, 29⟩), (.arg 1, ⟨147, 29, 147, 30⟩), (.arg 2, ⟨147, 31, 147, 46⟩)] == some ("arguments `PinnedDrop` and `project_replace` are mutually exclusive", ⟨147, 19, 147, 29⟩)
#guard pinProject [.ident "project_replace", .punct ',' false, .ident "UnsafeUnpin", .punct ',' false, .ident "PinnedDrop"] []
    [.ident "struct", .ident "PinnedDropWithProjectReplace2", .group .paren [.punct '#' false, .group .bracket [.ident "pin"], .group .paren []], .punct ';' false]
    (fun as => .struct_ { attrs := as, vis := .inherited, ident := "PinnedDropWithProjectReplace2", generics := { params := [], whereClause := none }, fields := (.unnamed [{ attrs := [⟨.path { leading := false, segs := ["pin"] }⟩], vis := .inherited, ident := none, ty := .other "tuple" [] }]) })
    ⟨150, 5, 150, 61⟩
    [(.body, ⟨151, 5, 151, 53⟩)]
    [(.name, ⟨151, 12, 151, 41⟩), (.fields, ⟨151, 41, 151, 52⟩), (.fieldAttr (none) 0 0, ⟨151, 42, 151, 48⟩), (.inFieldAttr (none) 0 0, ⟨151, 42, 151, 48⟩), (.arg 0, ⟨150, 19, 150, 34⟩), (.arg 1, ⟨150, 34, 150, 35⟩), (.arg 2, ⟨150, 36, 150, 47⟩), (.arg 3, ⟨150, 47, 150, 48⟩), (.arg 4, ⟨150, 49, 150, 59⟩)] == some ("arguments `PinnedDrop` and `project_replace` are mutually exclusive", ⟨150, 49, 150, 59⟩)
#guard pinProject [.ident "UnsafeUnpin", .punct ',' false, .punct '!' false, .ident "Unpin"] []
    [.ident "struct", .ident "UnsafeUnpinWithNotUnpin1", .group .paren [.punct '#' false, .group .bracket [.ident "pin"], .group .paren []], .punct ';' false]
    (fun as => .struct_ { attrs := as, vis := .inherited, ident := "UnsafeUnpinWithNotUnpin1", generics := { params := [], whereClause := none }, fields := (.unnamed [{ attrs := [⟨.path { leading := false, segs := ["pin"] }⟩], vis := .inherited, ident := none, ty := .other "tuple" [] }]) })
    ⟨153, 5, 153, 40⟩
    [(.body, ⟨154, 5, 154, 48⟩)]
    [(.name, ⟨154, 12, 154, 36⟩), (.fields, ⟨154, 36, 154, 47⟩), (.fieldAttr (none) 0 0, ⟨154, 37, 154, 43⟩), (.inFieldAttr (none) 0 0, ⟨154, 37, 154, 43⟩), (.arg 0, ⟨153, 19, 153, 30⟩), (.arg 1, ⟨153, 30, 153, 31⟩), (.arg 2, ⟨153, 32, 153, 33⟩), (.arg 3, ⟨153, 33, 153, 38⟩)] == some ("arguments `UnsafeUnpin` and `!Unpin` are mutually exclusive", ⟨153, 19, 153, 30⟩)
#guard pinProject [.punct '!' false, .ident "Unpin", .punct ',' false, .ident "PinnedDrop", .punct ',' false, .ident "UnsafeUnpin"] []
    [.ident "struct", .ident "UnsafeUnpinWithNotUnpin2", .group .paren [.punct '#' false, .group .bracket [.ident "pin"], .group .paren []], .punct ';' false]
    (fun as => .struct_ { attrs := as, vis := .inherited, ident := "UnsafeUnpinWithNotUnpin2", generics := { params := [], whereClause := none }, fields := (.unnamed [{ attrs := [⟨.path { leading := false, segs := ["pin"] }⟩], vis := .inherited, ident := none, ty := .other "tuple" [] }]) })
    ⟨156, 5, 156, 52⟩
    [(.body, ⟨157, 5, 157, 48⟩)]
    [(.name, ⟨157, 12, 157, 36⟩), (.fields, ⟨157, 36, 157, 47⟩), (.fieldAttr (none) 0 0, ⟨157, 37, 157, 43⟩), (.inFieldAttr (none) 0 0, ⟨157, 37, 157, 43⟩), (.arg 0, ⟨156, 19, 156, 20⟩), (.arg 1, ⟨156, 20, 156, 25⟩), (.arg 2, ⟨156, 25, 156, 26⟩), (.arg 3, ⟨156, 27, 156, 37⟩), (.arg 4, ⟨156, 37, 156, 38⟩), (.arg 5, ⟨156, 39, 156, 50⟩)] == some ("arguments `UnsafeUnpin` and `!Unpin` are mutually exclusive", ⟨156, 39, 156, 50⟩)
#guard pinProject [.punct '!' false] []
    [.ident "struct", .ident "NotUnpin1", .group .paren [.punct '#' false, .group .bracket [.ident "pin"], .group .paren []], .punct ';' false]
    (fun as => .struct_ { attrs := as, vis := .inherited, ident := "NotUnpin1", generics := { params := [], whereClause := none }, fields := (.unnamed [{ attrs := [⟨.path { leading := false, segs := ["pin"] }⟩], vis := .inherited, ident := none, ty := .other "tuple" [] }]) })
    ⟨159, 5, 159, 22⟩
    [(.body, ⟨160, 5, 160, 33⟩)]
    [(.name, ⟨160, 12, 160, 21⟩), (.fields, ⟨160, 21, 160, 32⟩), (.fieldAttr (none) 0 0, ⟨160, 22, 160, 28⟩), (.inFieldAttr (none) 0 0, ⟨160, 22, 160, 28⟩), (.arg 0, ⟨159, 19, 159, 20⟩)] == some ("expected `!Unpin`, found `!`", ⟨159, 19, 159, 20⟩)
#guard pinProject [.ident "Unpin"] []
    [.ident "struct", .ident "NotUnpin2", .group .paren [.punct '#' false, .group .bracket [.ident "pin"], .group .paren []], .punct ';' false]
    (fun as => .struct_ { attrs := as, vis := .inherited, ident := "NotUnpin2", generics := { params := [], whereClause := none }, fields := (.unnamed [{ attrs := [⟨.path { leading := false, segs := ["pin"] }⟩], vis := .inherited, ident := none, ty := .other "tuple" [] }]) })
    ⟨162, 5, 162, 26⟩
    [(.body, ⟨163, 5, 163, 33⟩)]
    [(.name, ⟨163, 12, 163, 21⟩), (.fields, ⟨163, 21, 163, 32⟩), (.fieldAttr (none) 0 0, ⟨163, 22, 163, 28⟩), (.inFieldAttr (none) 0 0, ⟨163, 22, 163, 28⟩), (.arg 0, ⟨162, 19, 162, 24⟩)] == some ("unexpected argument: Unpin", ⟨162, 19, 162, 24⟩)
#guard pinProject [.ident "project"] []
    [.ident "struct", .ident "Project1", .group .paren [.punct '#' false, .group .bracket [.ident "pin"], .group .paren []], .punct ';' false]
    (fun as => .struct_ { attrs := as, vis := .inherited, ident := "Project1", generics := { params := [], whereClause := none }, fields := (.unnamed [{ attrs := [⟨.path { leading := false, segs := ["pin"] }⟩], vis := .inherited, ident := none, ty := .other "tuple" [] }]) })
    ⟨165, 5, 165, 28⟩
    [(.body, ⟨166, 5, 166, 32⟩)]
    [(.name, ⟨166, 12, 166, 20⟩), (.fields, ⟨166, 20, 166, 31⟩), (.fieldAttr (none) 0 0, ⟨166, 21, 166, 27⟩), (.inFieldAttr (none) 0 0, ⟨166, 21, 166, 27⟩), (.arg 0, ⟨165, 19, 165, 26⟩)] == some ("expected `project = <identifier>`, found `project`", ⟨165, 19, 165, 26⟩)
#guard pinProject [.ident "project", .punct '=' false] []
    [.ident "struct", .ident "Project2", .group .paren [.punct '#' false, .group .bracket [.ident "pin"], .group .paren []], .punct ';' false]
    (fun as => .struct_ { attrs := as, vis := .inherited, ident := "Project2", generics := { params := [], whereClause := none }, fields := (.unnamed [{ attrs := [⟨.path { leading := false, segs := ["pin"] }⟩], vis := .inherited, ident := none, ty := .other "tuple" [] }]) })
    ⟨168, 5, 168, 31⟩
    [(.body, ⟨169, 5, 169, 32⟩)]
    [(.name, ⟨169, 12, 169, 20⟩), (.fields, ⟨169, 20, 169, 31⟩), (.fieldAttr (none) 0 0, ⟨169, 21, 169, 27⟩), (.inFieldAttr (none) 0 0, ⟨169, 21, 169, 27⟩), (.arg 0, ⟨168, 19, 168, 26⟩), (.arg 1, ⟨168, 27, 168, 28⟩)] == some ("expected `project = <identifier>`, found `project =`", ⟨168, 19, 168, 28⟩)
#guard pinProject [.ident "project", .punct '=' false, .punct '!' false] []
    [.ident "struct", .ident "Project3", .group .paren [.punct '#' false, .group .bracket [.ident "pin"], .group .paren []], .punct ';' false]
    (fun as => .struct_ { attrs := as, vis := .inherited, ident := "Project3", generics := { params := [], whereClause := none }, fields := (.unnamed [{ attrs := [⟨.path { leading := false, segs := ["pin"] }⟩], vis := .inherited, ident := none, ty := .other "tuple" [] }]) })
    ⟨171, 5, 171, 32⟩
    [(.body, ⟨172, 5, 172, 32⟩)]
    [(.name, ⟨172, 12, 172, 20⟩), (.fields, ⟨172, 20, 172, 31⟩), (.fieldAttr (none) 0 0, ⟨172, 21, 172, 27⟩), (.inFieldAttr (none) 0 0, ⟨172, 21, 172, 27⟩), (.arg 0, ⟨171, 19, 171, 26⟩), (.arg 1, ⟨171, 27, 171, 28⟩), (.arg 2, ⟨171, 29, 171, 30⟩)] == some ("expected identifier", ⟨171, 29, 171, 30⟩)
#guard pinProject [.ident "project_ref"] []
    [.ident "struct", .ident "ProjectRef1", .group .paren [.punct '#' false, .group .bracket [.ident "pin"], .group .paren []], .punct ';' false]
    (fun as => .struct_ { attrs := as, vis := .inherited, ident := "ProjectRef1", generics := { params := [], whereClause := none }, fields := (.unnamed [{ attrs := [⟨.path { leading := false, segs := ["pin"] }⟩], vis := .inherited, ident := none, ty := .other "tuple" [] }]) })
    ⟨174, 5, 174, 32⟩
    [(.body, ⟨175, 5, 175, 35⟩)]
    [(.name, ⟨175, 12, 175, 23⟩), (.fields, ⟨175, 23, 175, 34⟩), (.fieldAttr (none) 0 0, ⟨175, 24, 175, 30⟩), (.inFieldAttr (none) 0 0, ⟨175, 24, 175, 30⟩), (.arg 0, ⟨174, 19, 174, 30⟩)] == some ("expected `project_ref = <identifier>`, found `project_ref`", ⟨174, 19, 174, 30⟩)
#guard pinProject [.ident "project_ref", .punct '=' false] []
    [.ident "struct", .ident "ProjectRef2", .group .paren [.punct '#' false, .group .bracket [.ident "pin"], .group .paren []], .punct ';' false]
    (fun as => .struct_ { attrs := as, vis := .inherited, ident := "ProjectRef2", generics := { params := [], whereClause := none }, fields := (.unnamed [{ attrs := [⟨.path { leading := false, segs := ["pin"] }⟩], vis := .inherited, ident := none, ty := .other "tuple" [] }]) })
    ⟨177, 5, 177, 35⟩
    [(.body, ⟨178, 5, 178, 35⟩)]
    [(.name, ⟨178, 12, 178, 23⟩), (.fields, ⟨178, 23, 178, 34⟩), (.fieldAttr (none) 0 0, ⟨178, 24, 178, 30⟩), (.inFieldAttr (none) 0 0, ⟨178, 24, 178, 30⟩), (.arg 0, ⟨177, 19, 177, 30⟩), (.arg 1, ⟨177, 31, 177, 32⟩)] == some ("expected `project_ref = <identifier>`, found `project_ref =`", ⟨177, 19, 177, 32⟩)
#guard pinProject [.ident "project_ref", .punct '=' false, .punct '!' false] []
    [.ident "struct", .ident "ProjectRef3", .group .paren [.punct '#' false, .group .bracket [.ident "pin"], .group .paren []], .punct ';' false]
    (fun as => .struct_ { attrs := as, vis := .inherited, ident := "ProjectRef3", generics := { params := [], whereClause := none }, fields := (.unnamed [{ attrs := [⟨.path { leading := false, segs := ["pin"] }⟩], vis := .inherited, ident := none, ty := .other "tuple" [] }]) })
    ⟨180, 5, 180, 36⟩
    [(.body, ⟨181, 5, 181, 35⟩)]
    [(.name, ⟨181, 12, 181, 23⟩), (.fields, ⟨181, 23, 181, 34⟩), (.fieldAttr (none) 0 0, ⟨181, 24, 181, 30⟩), (.inFieldAttr (none) 0 0, ⟨181, 24, 181, 30⟩), (.arg 0, ⟨180, 19, 180, 30⟩), (.arg 1, ⟨180, 31, 180, 32⟩), (.arg 2, ⟨180, 33, 180, 34⟩)] == some ("expected identifier", ⟨180, 33, 180, 34⟩)
#guard pinProject [.ident "project_replace", .punct '=' false] []
    [.ident "struct", .ident "ProjectReplace2", .group .paren [.punct '#' false, .group .bracket [.ident "pin"], .group .paren []], .punct ';' false]
    (fun as => .struct_ { attrs := as, vis := .inherited, ident := "ProjectReplace2", generics := { params := [], whereClause := none }, fields := (.unnamed [{ attrs := [⟨.path { leading := false, segs := ["pin"] }⟩], vis := .inherited, ident := none, ty := .other "tuple" [] }]) })
    ⟨186, 5, 186, 39⟩
    [(.body, ⟨187, 5, 187, 39⟩)]
    [(.name, ⟨187, 12, 187, 27⟩), (.fields, ⟨187, 27, 187, 38⟩), (.fieldAttr (none) 0 0, ⟨187, 28, 187, 34⟩), (.inFieldAttr (none) 0 0, ⟨187, 28, 187, 34⟩), (.arg 0, ⟨186, 19, 186, 34⟩), (.arg 1, ⟨186, 35, 186, 36⟩)] == some ("expected `project_replace = <identifier>`, found `project_replace =`", ⟨186, 19, 186, 36⟩)
#guard pinProject [.ident "project_replace", .punct '=' false, .punct '!' false] []
    [.ident "struct", .ident "ProjectReplace3", .group .paren [.punct '#' false, .group .bracket [.ident "pin"], .group .paren []], .punct ';' false]
    (fun as => .struct_ { attrs := as, vis := .inherited, ident := "ProjectReplace3", generics := { params := [], whereClause := none }, fields := (.unnamed [{ attrs := [⟨.path { leading := false, segs := ["pin"] }⟩], vis := .inherited, ident := none, ty := .other "tuple" [] }]) })
    ⟨189, 5, 189, 40⟩
    [(.body, ⟨190, 5, 190, 39⟩)]
    [(.name, ⟨190, 12, 190, 27⟩), (.fields, ⟨190, 27, 190, 38⟩), (.fieldAttr (none) 0 0, ⟨190, 28, 190, 34⟩), (.inFieldAttr (none) 0 0, ⟨190, 28, 190, 34⟩), (.arg 0, ⟨189, 19, 189, 34⟩), (.arg 1, ⟨189, 35, 189, 36⟩), (.arg 2, ⟨189, 37, 189, 38⟩)] == some ("expected identifier", ⟨189, 37, 189, 38⟩)
#guard pinProject [.ident "project_replace"] []
    [.ident "enum", .ident "ProjectReplaceEnum", .group .brace [.ident "V", .group .paren [.punct '#' false, .group .bracket [.ident "pin"], .group .paren []], .punct ',' false]]
    (fun as => .enum_ { attrs := as, vis := .inherited, ident := "ProjectReplaceEnum", generics := { params := [], whereClause := none }, variants := [{ attrs := [], ident := "V", fields := (.unnamed [{ attrs := [⟨.path { leading := false, segs := ["pin"] }⟩], vis := .inherited, ident := none, ty := .other "tuple" [] }]), discriminant := none }] })
    ⟨192, 5, 192, 36⟩
    [(.body, ⟨193, 5, 195, 6⟩)]
    [(.braces, ⟨193, 29, 195, 6⟩), (.variants, ⟨194, 9, 194, 22⟩), (.fieldAttr (some 0) 0 0, ⟨194, 11, 194, 17⟩), (.inFieldAttr (some 0) 0 0, ⟨194, 11, 194, 17⟩), (.arg 0, ⟨192, 19, 192, 34⟩)] == some ("`project_replace` argument requires a value when used on enums", ⟨192, 19, 192, 34⟩)
#guard pinProject [.ident "project", .punct '=' false, .ident "OrigAndProj"] []
    [.ident "struct", .ident "OrigAndProj", .group .paren [.punct '#' false, .group .bracket [.ident "pin"], .group .paren []], .punct ';' false]
    (fun as => .struct_ { attrs := as, vis := .inherited, ident := "OrigAndProj", generics := { params := [], whereClause := none }, fields := (.unnamed [{ attrs := [⟨.path { leading := false, segs := ["pin"] }⟩], vis := .inherited, ident := none, ty := .other "tuple" [] }]) })
    ⟨201, 5, 201, 42⟩
    [(.body, ⟨202, 5, 202, 35⟩)]
    [(.name, ⟨202, 12, 202, 23⟩), (.fields, ⟨202, 23, 202, 34⟩), (.fieldAttr (none) 0 0, ⟨202, 24, 202, 30⟩), (.inFieldAttr (none) 0 0, ⟨202, 24, 202, 30⟩), (.arg 0, ⟨201, 19, 201, 26⟩), (.arg 1, ⟨201, 27, 201, 28⟩), (.arg 2, ⟨201, 29, 201, 40⟩)] == some ("name `OrigAndProj` is the same as the original type name", ⟨201, 29, 201, 40⟩)
#guard pinProject [.ident "project_ref", .punct '=' false, .ident "OrigAndProjRef"] []
    [.ident "struct", .ident "OrigAndProjRef", .group .paren [.punct '#' false, .group .bracket [.ident "pin"], .group .paren []], .punct ';' false]
    (fun as => .struct_ { attrs := as, vis := .inherited, ident := "OrigAndProjRef", generics := { params := [], whereClause := none }, fields := (.unnamed [{ attrs := [⟨.path { leading := false, segs := ["pin"] }⟩], vis := .inherited, ident := none, ty := .other "tuple" [] }]) })
    ⟨204, 5, 204, 49⟩
    [(.body, ⟨205, 5, 205, 38⟩)]
    [(.name, ⟨205, 12, 205, 26⟩), (.fields, ⟨205, 26, 205, 37⟩), (.fieldAttr (none) 0 0, ⟨205, 27, 205, 33⟩), (.inFieldAttr (none) 0 0, ⟨205, 27, 205, 33⟩), (.arg 0, ⟨204, 19, 204, 30⟩), (.arg 1, ⟨204, 31, 204, 32⟩), (.arg 2, ⟨204, 33, 204, 47⟩)] == some ("name `OrigAndProjRef` is the same as the original type name", ⟨204, 33, 204, 47⟩)
#guard pinProject [.ident "project_replace", .punct '=' false, .ident "OrigAndProjOwn"] []
    [.ident "struct", .ident "OrigAndProjOwn", .group .paren [.punct '#' false, .group .bracket [.ident "pin"], .group .paren []], .punct ';' false]
    (fun as => .struct_ { attrs := as, vis := .inherited, ident := "OrigAndProjOwn", generics := { params := [], whereClause := none }, fields := (.unnamed [{ attrs := [⟨.path { leading := false, segs := ["pin"] }⟩], vis := .inherited, ident := none, ty := .other "tuple" [] }]) })
    ⟨207, 5, 207, 53⟩
    [(.body, ⟨208, 5, 208, 38⟩)]
    [(.name, ⟨208, 12, 208, 26⟩), (.fields, ⟨208, 26, 208, 37⟩), (.fieldAttr (none) 0 0, ⟨208, 27, 208, 33⟩), (.inFieldAttr (none) 0 0, ⟨208, 27, 208, 33⟩), (.arg 0, ⟨207, 19, 207, 34⟩), (.arg 1, ⟨207, 35, 207, 36⟩), (.arg 2, ⟨207, 37, 207, 51⟩)] == some ("name `OrigAndProjOwn` is the same as the original type name", ⟨207, 37, 207, 51⟩)
#guard pinProject [.ident "project", .punct '=' false, .ident "A", .punct ',' false, .ident "project_ref", .punct '=' false, .ident "A"] []
    [.ident "struct", .ident "ProjAndProjRef", .group .paren [.punct '#' false, .group .bracket [.ident "pin"], .group .paren []], .punct ';' false]
    (fun as => .struct_ { attrs := as, vis := .inherited, ident := "ProjAndProjRef", generics := { params := [], whereClause := none }, fields := (.unnamed [{ attrs := [⟨.path { leading := false, segs := ["pin"] }⟩], vis := .inherited, ident := none, ty := .other "tuple" [] }]) })
    ⟨210, 5, 210, 49⟩
    [(.body, ⟨211, 5, 211, 38⟩)]
    [(.name, ⟨211, 12, 211, 26⟩), (.fields, ⟨211, 26, 211, 37⟩), (.fieldAttr (none) 0 0, ⟨211, 27, 211, 33⟩), (.inFieldAttr (none) 0 0, ⟨211, 27, 211, 33⟩), (.arg 0, ⟨210, 19, 210, 26⟩), (.arg 1, ⟨210, 27, 210, 28⟩), (.arg 2, ⟨210, 29, 210, 30⟩), (.arg 3, ⟨210, 30, 210, 31⟩), (.arg 4, ⟨210, 32, 210, 43⟩), (.arg 5, ⟨210, 44, 210, 45⟩), (.arg 6, ⟨210, 46, 210, 47⟩)] == some ("name `A` is already specified by `project` argument", ⟨210, 46, 210, 47⟩)
#guard pinProject [.ident "project", .punct '=' false, .ident "A", .punct ',' false, .ident "project_replace", .punct '=' false, .ident "A"] []
    [.ident "struct", .ident "ProjAndProjOwn", .group .paren [.punct '#' false, .group .bracket [.ident "pin"], .group .paren []], .punct ';' false]
    (fun as => .struct_ { attrs := as, vis := .inherited, ident := "ProjAndProjOwn", generics := { params := [], whereClause := none }, fields := (.unnamed [{ attrs := [⟨.path { leading := false, segs := ["pin"] }⟩], vis := .inherited, ident := none, ty := .other "tuple" [] }]) })
    ⟨213, 5, 213, 53⟩
    [(.body, ⟨214, 5, 214, 38⟩)]
    [(.name, ⟨214, 12, 214, 26⟩), (.fields, ⟨214, 26, 214, 37⟩), (.fieldAttr (none) 0 0, ⟨214, 27, 214, 33⟩), (.inFieldAttr (none) 0 0, ⟨214, 27, 214, 33⟩), (.arg 0, ⟨213, 19, 213, 26⟩), (.arg 1, ⟨213, 27, 213, 28⟩), (.arg 2, ⟨213, 29, 213, 30⟩), (.arg 3, ⟨213, 30, 213, 31⟩), (.arg 4, ⟨213, 32, 213, 47⟩), (.arg 5, ⟨213, 48, 213, 49⟩), (.arg 6, ⟨213, 50, 213, 51⟩)] == some ("name `A` is already specified by `project` argument", ⟨213, 50, 213, 51⟩)
#guard pinProject [.ident "project_ref", .punct '=' false, .ident "A", .punct ',' false, .ident "project_replace", .punct '=' false, .ident "A"] []
    [.ident "struct", .ident "ProjRefAndProjOwn", .group .paren [.punct '#' false, .group .bracket [.ident "pin"], .group .paren []], .punct ';' false]
    (fun as => .struct_ { attrs := as, vis := .inherited, ident := "ProjRefAndProjOwn", generics := { params := [], whereClause := none }, fields := (.unnamed [{ attrs := [⟨.path { leading := false, segs := ["pin"] }⟩], vis := .inherited, ident := none, ty := .other "tuple" [] }]) })
    ⟨216, 5, 216, 57⟩
    [(.body, ⟨217, 5, 217, 41⟩)]
    [(.name, ⟨217, 12, 217, 29⟩), (.fields, ⟨217, 29, 217, 40⟩), (.fieldAttr (none) 0 0, ⟨217, 30, 217, 36⟩), (.inFieldAttr (none) 0 0, ⟨217, 30, 217, 36⟩), (.arg 0, ⟨216, 19, 216, 30⟩), (.arg 1, ⟨216, 31, 216, 32⟩), (.arg 2, ⟨216, 33, 216, 34⟩), (.arg 3, ⟨216, 34, 216, 35⟩), (.arg 4, ⟨216, 36, 216, 51⟩), (.arg 5, ⟨216, 52, 216, 53⟩), (.arg 6, ⟨216, 54, 216, 55⟩)] == some ("name `A` is already specified by `project_ref` argument", ⟨216, 54, 216, 55⟩)
#guard pinProject [] [⟨.path { leading := false, segs := ["pin_project"] }⟩]
    [.ident "struct", .ident "Duplicate", .group .paren [.punct '#' false, .group .bracket [.ident "pin"], .group .paren []], .punct ';' false]
    (fun as => .struct_ { attrs := as, vis := .inherited, ident := "Duplicate", generics := { params := [], whereClause := none }, fields := (.unnamed [{ attrs := [⟨.path { leading := false, segs := ["pin"] }⟩], vis := .inherited, ident := none, ty := .other "tuple" [] }]) })
    ⟨223, 5, 223, 19⟩
    [(.body, ⟨225, 5, 225, 33⟩), (.attr 0, ⟨224, 5, 224, 19⟩)]
    [(.name, ⟨225, 12, 225, 21⟩), (.fields, ⟨225, 21, 225, 32⟩), (.fieldAttr (none) 0 0, ⟨225, 22, 225, 28⟩), (.inFieldAttr (none) 0 0, ⟨225, 22, 225, 28⟩), (.attr 0, ⟨224, 5, 224, 19⟩), (.inAttr 0, ⟨224, 5, 224, 19⟩)] == some ("duplicate #[pin_project] attribute", ⟨224, 5, 224, 19⟩)
#guard pinProject [] []
    [.ident "struct", .ident "Struct", .group .brace []]
    (fun as => .struct_ { attrs := as, vis := .inherited, ident := "Struct", generics := { params := [], whereClause := none }, fields := (.named []) })
    ⟨231, 5, 231, 19⟩
    [(.body, ⟨232, 5, 232, 21⟩)]
    [(.name, ⟨232, 12, 232, 18⟩), (.fields, ⟨232, 19, 232, 21⟩)] == some ("#[pin_project] attribute may not be used on structs with zero fields", ⟨232, 19, 232, 21⟩)
#guard pinProject [] []
    [.ident "struct", .ident "TupleStruct", .group .paren [], .punct ';' false]
    (fun as => .struct_ { attrs := as, vis := .inherited, ident := "TupleStruct", generics := { params := [], whereClause := none }, fields := (.unnamed []) })
    ⟨234, 5, 234, 19⟩
    [(.body, ⟨235, 5, 235, 26⟩)]
    [(.name, ⟨235, 12, 235, 23⟩), (.fields, ⟨235, 23, 235, 25⟩)] == some ("#[pin_project] attribute may not be used on structs with zero fields", ⟨235, 23, 235, 25⟩)
#guard pinProject [] []
    [.ident "struct", .ident "UnitStruct", .punct ';' false]
    (fun as => .struct_ { attrs := as, vis := .inherited, ident := "UnitStruct", generics := { params := [], whereClause := none }, fields := .unit })
    ⟨237, 5, 237, 19⟩
    [(.body, ⟨238, 5, 238, 23⟩)]
    [(.name, ⟨238, 12, 238, 22⟩)] == some ("#[pin_project] attribute may not be used on structs with zero fields", ⟨238, 12, 238, 22⟩)
#guard pinProject [] []
    [.ident "enum", .ident "EnumEmpty", .group .brace []]
    (fun as => .enum_ { attrs := as, vis := .inherited, ident := "EnumEmpty", generics := { params := [], whereClause := none }, variants := [] })
    ⟨240, 5, 240, 19⟩
    [(.body, ⟨241, 5, 241, 22⟩)]
    [(.braces, ⟨241, 20, 241, 22⟩)] == some ("#[pin_project] attribute may not be used on enums without variants", ⟨241, 20, 241, 22⟩)
#guard pinProject [] []
    [.ident "enum", .ident "EnumDiscriminant", .group .brace [.ident "V", .punct '=' false, .lit "2", .punct ',' false]]
    (fun as => .enum_ { attrs := as, vis := .inherited, ident := "EnumDiscriminant", generics := { params := [], whereClause := none }, variants := [{ attrs := [], ident := "V", fields := .unit, discriminant := (some (.other "expr" [])) }] })
    ⟨243, 5, 243, 19⟩
    [(.body, ⟨244, 5, 246, 6⟩)]
    [(.braces, ⟨244, 27, 246, 6⟩), (.variants, ⟨245, 9, 245, 15⟩), (.discriminant 0, ⟨245, 13, 245, 14⟩)] == some ("#[pin_project] attribute may not be used on enums with discriminants", ⟨245, 13, 245, 14⟩)
#guard pinProject [] []
    [.ident "enum", .ident "EnumZeroFields", .group .brace [.ident "Unit", .punct ',' false, .ident "Tuple", .group .paren [], .punct ',' false, .ident "Struct", .group .brace [], .punct ',' false]]
    (fun as => .enum_ { attrs := as, vis := .inherited, ident := "EnumZeroFields", generics := { params := [], whereClause := none }, variants := [{ attrs := [], ident := "Unit", fields := .unit, discriminant := none }, { attrs := [], ident := "Tuple", fields := (.unnamed []), discriminant := none }, { attrs := [], ident := "Struct", fields := (.named []), discriminant := none }] })
    ⟨248, 5, 248, 19⟩
    [(.body, ⟨249, 5, 253, 6⟩)]
    [(.braces, ⟨249, 25, 253, 6⟩), (.variants, ⟨250, 9, 252, 19⟩)] == some ("#[pin_project] attribute may not be used on enums with zero fields", ⟨250, 9, 252, 0⟩)
#guard pinProject [] []
    [.ident "union", .ident "Union", .group .brace [.ident "f", .punct ':' false, .group .paren [], .punct ',' false]]
    (fun as => .other as)
    ⟨255, 5, 255, 19⟩
    [(.body, ⟨256, 5, 259, 6⟩)]
    [] == some ("#[pin_project] attribute may only be used on structs or enums", ⟨256, 5, 259, 0⟩)
#guard pinProject [] []
    [.ident "impl", .ident "Impl", .group .brace []]
    (fun as => .other as)
    ⟨261, 5, 261, 19⟩
    [(.body, ⟨262, 5, 262, 17⟩)]
    [] == some ("#[pin_project] attribute may only be used on structs or enums", ⟨262, 5, 262, 17⟩)
#guard pinProject [] [⟨.list { leading := false, segs := ["repr"] } .paren [.ident "packed"]⟩]
    [.ident "struct", .ident "Struct", .group .brace []]
    (fun as => .struct_ { attrs := as, vis := .inherited, ident := "Struct", generics := { params := [], whereClause := none }, fields := (.named []) })
    ⟨269, 5, 269, 19⟩
    [(.body, ⟨271, 5, 271, 21⟩), (.attr 0, ⟨270, 5, 270, 20⟩)]
    [(.name, ⟨271, 12, 271, 18⟩), (.fields, ⟨271, 19, 271, 21⟩), (.attr 0, ⟨270, 5, 270, 20⟩), (.inAttr 0, ⟨270, 5, 270, 20⟩), (.repr 0 0, ⟨270, 12, 270, 18⟩)] == some ("#[pin_project] attribute may not be used on #[repr(packed)] types", ⟨270, 12, 270, 18⟩)
#guard pinProject [] [⟨.list { leading := false, segs := ["repr"] } .paren [.ident "packed"]⟩]
    [.ident "struct", .ident "TupleStruct", .group .paren [], .punct ';' false]
    (fun as => .struct_ { attrs := as, vis := .inherited, ident := "TupleStruct", generics := { params := [], whereClause := none }, fields := (.unnamed []) })
    ⟨273, 5, 273, 19⟩
    [(.body, ⟨275, 5, 275, 26⟩), (.attr 0, ⟨274, 5, 274, 20⟩)]
    [(.name, ⟨275, 12, 275, 23⟩), (.fields, ⟨275, 23, 275, 25⟩), (.attr 0, ⟨274, 5, 274, 20⟩), (.inAttr 0, ⟨274, 5, 274, 20⟩), (.repr 0 0, ⟨274, 12, 274, 18⟩)] == some ("#[pin_project] attribute may not be used on #[repr(packed)] types", ⟨274, 12, 274, 18⟩)
#guard pinProject [] [⟨.list { leading := false, segs := ["repr"] } .paren [.ident "packed"]⟩]
    [.ident "struct", .ident "UnitStruct", .punct ';' false]
    (fun as => .struct_ { attrs := as, vis := .inherited, ident := "UnitStruct", generics := { params := [], whereClause := none }, fields := .unit })
    ⟨277, 5, 277, 19⟩
    [(.body, ⟨279, 5, 279, 23⟩), (.attr 0, ⟨278, 5, 278, 20⟩)]
    [(.name, ⟨279, 12, 279, 22⟩), (.attr 0, ⟨278, 5, 278, 20⟩), (.inAttr 0, ⟨278, 5, 278, 20⟩), (.repr 0 0, ⟨278, 12, 278, 18⟩)] == some ("#[pin_project] attribute may not be used on #[repr(packed)] types", ⟨278, 12, 278, 18⟩)

-- /repo/tests/ui/pin_project/packed-enum.rs
#guard pinProject [] [⟨.list { leading := false, segs := ["repr"] } .paren [.ident "packed"]⟩]
    [.ident "enum", .ident "E2", .group .brace [.ident "V", .group .paren [.group .paren []], .punct ',' false]]
    (fun as => .enum_ { attrs := as, vis := .inherited, ident := "E2", generics := { params := [], whereClause := none }, variants := [{ attrs := [], ident := "V", fields := (.unnamed [{ attrs := [], vis := .inherited, ident := none, ty := .other "tuple" [] }]), discriminant := none }] })
    ⟨14, 1, 14, 15⟩
    [(.body, ⟨16, 1, 18, 2⟩), (.attr 0, ⟨15, 1, 15, 16⟩)]
    [(.braces, ⟨16, 9, 18, 2⟩), (.variants, ⟨17, 5, 17, 11⟩), (.attr 0, ⟨15, 1, 15, 16⟩), (.inAttr 0, ⟨15, 1, 15, 16⟩), (.repr 0 0, ⟨15, 8, 15, 14⟩)] == some ("#[repr(packed)] attribute should be applied to a struct or union", ⟨15, 8, 15, 14⟩)
#guard pinProject [] [⟨.list { leading := false, segs := ["repr"] } .paren [.ident "packed"]⟩]
    [.ident "enum", .ident "E3", .group .brace [.ident "V", .group .paren [.group .paren []], .punct ',' false]]
    (fun as => .enum_ { attrs := as, vis := .inherited, ident := "E3", generics := { params := [], whereClause := none }, variants := [{ attrs := [], ident := "V", fields := (.unnamed [{ attrs := [], vis := .inherited, ident := none, ty := .other "tuple" [] }]), discriminant := none }] })
    ⟨21, 1, 21, 15⟩
    [(.body, ⟨22, 1, 24, 2⟩), (.attr 0, ⟨20, 1, 20, 16⟩)]
    [(.braces, ⟨22, 9, 24, 2⟩), (.variants, ⟨23, 5, 23, 11⟩), (.attr 0, ⟨20, 1, 20, 16⟩), (.inAttr 0, ⟨20, 1, 20, 16⟩), (.repr 0 0, ⟨20, 8, 20, 14⟩)] == some ("#[repr(packed)] attribute should be applied to a struct or union", ⟨20, 8, 20, 14⟩)

-- /repo/tests/ui/pin_project/packed-name-value.rs
#guard pinProject [] [⟨.list { leading := false, segs := ["repr"] } .paren [.ident "packed", .punct '=' false, .lit "\"\""]⟩]
    [.ident "struct", .ident "S2", .group .brace [.ident "f", .punct ':' false, .group .paren [], .punct ',' false]]
    (fun as => .struct_ { attrs := as, vis := .inherited, ident := "S2", generics := { params := [], whereClause := none }, fields := (.named [{ attrs := [], vis := .inherited, ident := (some "f"), ty := .other "tuple" [] }]) })
    ⟨17, 1, 17, 15⟩
    [(.body, ⟨19, 1, 21, 2⟩), (.attr 0, ⟨18, 1, 18, 21⟩)]
    [(.name, ⟨19, 8, 19, 10⟩), (.fields, ⟨19, 11, 21, 2⟩), (.attr 0, ⟨18, 1, 18, 21⟩), (.inAttr 0, ⟨18, 1, 18, 21⟩), (.repr 0 0, ⟨18, 8, 18, 19⟩)] == some ("#[repr(packed)] attribute should not be name-value pair", ⟨18, 8, 18, 19⟩)
#guard pinProject [] [⟨.list { leading := false, segs := ["repr"] } .paren [.ident "packed", .punct '=' false, .lit "\"\""]⟩]
    [.ident "struct", .ident "S3", .group .brace [.ident "f", .punct ':' false, .group .paren [], .punct ',' false]]
    (fun as => .struct_ { attrs := as, vis := .inherited, ident := "S3", generics := { params := [], whereClause := none }, fields := (.named [{ attrs := [], vis := .inherited, ident := (some "f"), ty := .other "tuple" [] }]) })
    ⟨24, 1, 24, 15⟩
    [(.body, ⟨25, 1, 27, 2⟩), (.attr 0, ⟨23, 1, 23, 21⟩)]
    [(.name, ⟨25, 8, 25, 10⟩), (.fields, ⟨25, 11, 27, 2⟩), (.attr 0, ⟨23, 1, 23, 21⟩), (.inAttr 0, ⟨23, 1, 23, 21⟩), (.repr 0 0, ⟨23, 8, 23, 19⟩)] == some ("#[repr(packed)] attribute should not be name-value pair", ⟨23, 8, 23, 19⟩)

-- /repo/tests/ui/pin_project/packed.rs
#guard pinProject [] [⟨.list { leading := false, segs := ["repr"] } .paren [.ident "packed", .punct ',' false, .ident "C"]⟩]
    [.ident "struct", .ident "Packed1", .group .brace [.punct '#' false, .group .bracket [.ident "pin"], .ident "f", .punct ':' false, .ident "u8", .punct ',' false]]
    (fun as => .struct_ { attrs := as, vis := .inherited, ident := "Packed1", generics := { params := [], whereClause := none }, fields := (.named [{ attrs := [⟨.path { leading := false, segs := ["pin"] }⟩], vis := .inherited, ident := (some "f"), ty := .tyPath .none (.mk false [.mk "u8" .none]) }]) })
    ⟨5, 1, 5, 15⟩
    [(.body, ⟨7, 1, 10, 2⟩), (.attr 0, ⟨6, 1, 6, 19⟩)]
    [(.name, ⟨7, 8, 7, 15⟩), (.fields, ⟨7, 16, 10, 2⟩), (.fieldAttr (none) 0 0, ⟨8, 5, 8, 11⟩), (.inFieldAttr (none) 0 0, ⟨8, 5, 8, 11⟩), (.attr 0, ⟨6, 1, 6, 19⟩), (.inAttr 0, ⟨6, 1, 6, 19⟩), (.repr 0 0, ⟨6, 8, 6, 14⟩), (.repr 0 1, ⟨6, 16, 6, 17⟩)] == some ("#[pin_project] attribute may not be used on #[repr(packed)] types", ⟨6, 8, 6, 14⟩)
#guard pinProject [] [⟨.list { leading := false, segs := ["repr"] } .paren [.ident "packed", .punct ',' false, .ident "C"]⟩]
    [.ident "struct", .ident "Packed2", .group .brace [.punct '#' false, .group .bracket [.ident "pin"], .ident "f", .punct ':' false, .ident "u8", .punct ',' false]]
    (fun as => .struct_ { attrs := as, vis := .inherited, ident := "Packed2", generics := { params := [], whereClause := none }, fields := (.named [{ attrs := [⟨.path { leading := false, segs := ["pin"] }⟩], vis := .inherited, ident := (some "f"), ty := .tyPath .none (.mk false [.mk "u8" .none]) }]) })
    ⟨14, 1, 14, 15⟩
    [(.body, ⟨15, 1, 18, 2⟩), (.attr 0, ⟨13, 1, 13, 19⟩)]
    [(.name, ⟨15, 8, 15, 15⟩), (.fields, ⟨15, 16, 18, 2⟩), (.fieldAttr (none) 0 0, ⟨16, 5, 16, 11⟩), (.inFieldAttr (none) 0 0, ⟨16, 5, 16, 11⟩), (.attr 0, ⟨13, 1, 13, 19⟩), (.inAttr 0, ⟨13, 1, 13, 19⟩), (.repr 0 0, ⟨13, 8, 13, 14⟩), (.repr 0 1, ⟨13, 16, 13, 17⟩)] == some ("#[pin_project] attribute may not be used on #[repr(packed)] types", ⟨13, 8, 13, 14⟩)
#guard pinProject [] [⟨.list { leading := false, segs := ["repr"] } .paren [.ident "packed", .group .paren [.lit "2"]]⟩]
    [.ident "struct", .ident "PackedN1", .group .brace [.punct '#' false, .group .bracket [.ident "pin"], .ident "f", .punct ':' false, .ident "u32", .punct ',' false]]
    (fun as => .struct_ { attrs := as, vis := .inherited, ident := "PackedN1", generics := { params := [], whereClause := none }, fields := (.named [{ attrs := [⟨.path { leading := false, segs := ["pin"] }⟩], vis := .inherited, ident := (some "f"), ty := .tyPath .none (.mk false [.mk "u32" .none]) }]) })
    ⟨20, 1, 20, 15⟩
    [(.body, ⟨22, 1, 25, 2⟩), (.attr 0, ⟨21, 1, 21, 19⟩)]
    [(.name, ⟨22, 8, 22, 16⟩), (.fields, ⟨22, 17, 25, 2⟩), (.fieldAttr (none) 0 0, ⟨23, 5, 23, 11⟩), (.inFieldAttr (none) 0 0, ⟨23, 5, 23, 11⟩), (.attr 0, ⟨21, 1, 21, 19⟩), (.inAttr 0, ⟨21, 1, 21, 19⟩), (.repr 0 0, ⟨21, 8, 21, 17⟩)] == some ("#[pin_project] attribute may not be used on #[repr(packed)] types", ⟨21, 8, 21, 17⟩)
#guard pinProject [] [⟨.list { leading := false, segs := ["repr"] } .paren [.ident "packed", .group .paren [.lit "2"]]⟩]
    [.ident "struct", .ident "PackedN2", .group .brace [.punct '#' false, .group .bracket [.ident "pin"], .ident "f", .punct ':' false, .ident "u32", .punct ',' false]]
    (fun as => .struct_ { attrs := as, vis := .inherited, ident := "PackedN2", generics := { params := [], whereClause := none }, fields := (.named [{ attrs := [⟨.path { leading := false, segs := ["pin"] }⟩], vis := .inherited, ident := (some "f"), ty := .tyPath .none (.mk false [.mk "u32" .none]) }]) })
    ⟨29, 1, 29, 15⟩
    [(.body, ⟨30, 1, 33, 2⟩), (.attr 0, ⟨28, 1, 28, 19⟩)]
    [(.name, ⟨30, 8, 30, 16⟩), (.fields, ⟨30, 17, 33, 2⟩), (.fieldAttr (none) 0 0, ⟨31, 5, 31, 11⟩), (.inFieldAttr (none) 0 0, ⟨31, 5, 31, 11⟩), (.attr 0, ⟨28, 1, 28, 19⟩), (.inAttr 0, ⟨28, 1, 28, 19⟩), (.repr 0 0, ⟨28, 8, 28, 17⟩)] == some ("#[pin_project] attribute may not be used on #[repr(packed)] types", ⟨28, 8, 28, 17⟩)

-- /repo/tests/ui/pinned_drop/invalid.rs
#guard pinnedDrop [.ident "foo"]
    { attrs := [], isUnsafe := false, generics := { params := [], whereClause := none }, trait_ := (some (false, (.mk false [.mk "PinnedDrop" .none]))), selfTy := .tyPath .none (.mk false [.mk "UnexpectedArg1" .none]), selfToks := [.ident "UnexpectedArg1"], items := [.fn { attrs := [], sig := { quals := [], isUnsafe := false, ident := "drop", generics := { params := [], whereClause := none }, inputs := [.receiver false false (.tyPath .none (.mk false [.mk "Pin" (.angle false [.other "&mut" [.tyPath .none (.mk false [.mk "Self" .none])]])]))], output := none }, block := [] }] }
    ⟨11, 5, 11, 24⟩
    [(.args, ⟨11, 19, 11, 22⟩), (.traitPath, ⟨12, 10, 12, 20⟩), (.selfTy, ⟨12, 25, 12, 39⟩), (.item, ⟨12, 5, 14, 6⟩), (.name 0, ⟨13, 12, 13, 16⟩), (.parens 0, ⟨13, 16, 13, 38⟩), (.params 0, ⟨13, 17, 13, 37⟩), (.param 0, ⟨13, 17, 13, 37⟩), (.member 0, ⟨13, 9, 13, 41⟩)] == some ("unexpected argument", ⟨11, 19, 11, 22⟩)
#guard pinnedDrop []
    { attrs := [⟨.path { leading := false, segs := ["pinned_drop"] }⟩], isUnsafe := false, generics := { params := [], whereClause := none }, trait_ := (some (false, (.mk false [.mk "PinnedDrop" .none]))), selfTy := .tyPath .none (.mk false [.mk "Duplicate" .none]), selfToks := [.ident "Duplicate"], items := [.fn { attrs := [], sig := { quals := [], isUnsafe := false, ident := "drop", generics := { params := [], whereClause := none }, inputs := [.receiver false false (.tyPath .none (.mk false [.mk "Pin" (.angle false [.other "&mut" [.tyPath .none (.mk false [.mk "Self" .none])]])]))], output := none }, block := [] }] }
    ⟨31, 5, 31, 19⟩
    [(.attr 0, ⟨32, 5, 32, 19⟩), (.traitPath, ⟨33, 10, 33, 20⟩), (.selfTy, ⟨33, 25, 33, 34⟩), (.item, ⟨32, 5, 35, 6⟩), (.name 0, ⟨34, 12, 34, 16⟩), (.parens 0, ⟨34, 16, 34, 38⟩), (.params 0, ⟨34, 17, 34, 37⟩), (.param 0, ⟨34, 17, 34, 37⟩), (.member 0, ⟨34, 9, 34, 41⟩)] == some ("duplicate #[pinned_drop] attribute", ⟨32, 5, 32, 19⟩)
#guard pinnedDrop []
    { attrs := [], isUnsafe := false, generics := { params := [], whereClause := none }, trait_ := (some (false, (.mk false [.mk "Drop" .none]))), selfTy := .tyPath .none (.mk false [.mk "TraitImpl" .none]), selfToks := [.ident "TraitImpl"], items := [] }
    ⟨44, 5, 44, 19⟩
    [(.traitPath, ⟨45, 10, 45, 14⟩), (.selfTy, ⟨45, 19, 45, 28⟩), (.item, ⟨45, 5, 45, 31⟩)] == some ("#[pinned_drop] may only be used on implementation for the `PinnedDrop` trait", ⟨45, 10, 45, 14⟩)
#guard pinnedDrop []
    { attrs := [], isUnsafe := false, generics := { params := [], whereClause := none }, trait_ := none, selfTy := .tyPath .none (.mk false [.mk "InherentImpl" .none]), selfToks := [.ident "InherentImpl"], items := [] }
    ⟨50, 5, 50, 19⟩
    [(.selfTy, ⟨51, 10, 51, 22⟩), (.item, ⟨51, 5, 51, 25⟩)] == some ("#[pinned_drop] may only be used on implementation for the `PinnedDrop` trait", ⟨51, 10, 51, 22⟩)
#guard pinnedDrop []
    { attrs := [], isUnsafe := true, generics := { params := [], whereClause := none }, trait_ := (some (false, (.mk false [.mk "PinnedDrop" .none]))), selfTy := .tyPath .none (.mk false [.mk "Impl" .none]), selfToks := [.ident "Impl"], items := [.fn { attrs := [], sig := { quals := [], isUnsafe := false, ident := "drop", generics := { params := [], whereClause := none }, inputs := [.receiver false false (.tyPath .none (.mk false [.mk "Pin" (.angle false [.other "&mut" [.tyPath .none (.mk false [.mk "Self" .none])]])]))], output := none }, block := [] }] }
    ⟨63, 5, 63, 19⟩
    [(.unsafe_, ⟨64, 5, 64, 11⟩), (.traitPath, ⟨64, 17, 64, 27⟩), (.selfTy, ⟨64, 32, 64, 36⟩), (.item, ⟨64, 5, 67, 6⟩), (.name 0, ⟨66, 12, 66, 16⟩), (.parens 0, ⟨66, 16, 66, 38⟩), (.params 0, ⟨66, 17, 66, 37⟩), (.param 0, ⟨66, 17, 66, 37⟩), (.member 0, ⟨66, 9, 66, 41⟩)] == some ("implementing the trait `PinnedDrop` is not unsafe", ⟨64, 5, 64, 11⟩)
#guard pinnedDrop []
    { attrs := [], isUnsafe := false, generics := { params := [], whereClause := none }, trait_ := (some (false, (.mk false [.mk "PinnedDrop" .none]))), selfTy := .tyPath .none (.mk false [.mk "Method" .none]), selfToks := [.ident "Method"], items := [.fn { attrs := [], sig := { quals := [], isUnsafe := true, ident := "drop", generics := { params := [], whereClause := none }, inputs := [.receiver false false (.tyPath .none (.mk false [.mk "Pin" (.angle false [.other "&mut" [.tyPath .none (.mk false [.mk "Self" .none])]])]))], output := none }, block := [] }] }
    ⟨72, 5, 72, 19⟩
    [(.traitPath, ⟨73, 10, 73, 20⟩), (.selfTy, ⟨73, 25, 73, 31⟩), (.item, ⟨73, 5, 75, 6⟩), (.unsafeFn 0, ⟨74, 9, 74, 15⟩), (.name 0, ⟨74, 19, 74, 23⟩), (.parens 0, ⟨74, 23, 74, 45⟩), (.params 0, ⟨74, 24, 74, 44⟩), (.param 0, ⟨74, 24, 74, 44⟩), (.member 0, ⟨74, 9, 74, 48⟩)] == some ("implementing the method `drop` is not unsafe", ⟨74, 9, 74, 15⟩)
#guard pinnedDrop []
    { attrs := [], isUnsafe := false, generics := { params := [], whereClause := none }, trait_ := (some (false, (.mk false [.mk "PinnedDrop" .none]))), selfTy := .tyPath .none (.mk false [.mk "Empty" .none]), selfToks := [.ident "Empty"], items := [] }
    ⟨84, 5, 84, 19⟩
    [(.traitPath, ⟨85, 10, 85, 20⟩), (.selfTy, ⟨85, 25, 85, 30⟩), (.item, ⟨85, 5, 85, 33⟩)] == some ("not all trait items implemented, missing: `drop`", ⟨85, 5, 85, 33⟩)
#guard pinnedDrop []
    { attrs := [], isUnsafe := false, generics := { params := [], whereClause := none }, trait_ := (some (false, (.mk false [.mk "PinnedDrop" .none]))), selfTy := .tyPath .none (.mk false [.mk "Const1" .none]), selfToks := [.ident "Const1"], items := [.const "A", .fn { attrs := [], sig := { quals := [], isUnsafe := false, ident := "drop", generics := { params := [], whereClause := none }, inputs := [.receiver false false (.tyPath .none (.mk false [.mk "Pin" (.angle false [.other "&mut" [.tyPath .none (.mk false [.mk "Self" .none])]])]))], output := none }, block := [] }] }
    ⟨90, 5, 90, 19⟩
    [(.traitPath, ⟨91, 10, 91, 20⟩), (.selfTy, ⟨91, 25, 91, 31⟩), (.item, ⟨91, 5, 94, 6⟩), (.member 0, ⟨92, 9, 92, 25⟩), (.name 1, ⟨93, 12, 93, 16⟩), (.parens 1, ⟨93, 16, 93, 38⟩), (.params 1, ⟨93, 17, 93, 37⟩), (.param 1, ⟨93, 17, 93, 37⟩), (.member 1, ⟨93, 9, 93, 41⟩)] == some ("const `A` is not a member of trait `PinnedDrop`", ⟨92, 9, 92, 25⟩)
#guard pinnedDrop []
    { attrs := [], isUnsafe := false, generics := { params := [], whereClause := none }, trait_ := (some (false, (.mk false [.mk "PinnedDrop" .none]))), selfTy := .tyPath .none (.mk false [.mk "Const2" .none]), selfToks := [.ident "Const2"], items := [.fn { attrs := [], sig := { quals := [], isUnsafe := false, ident := "drop", generics := { params := [], whereClause := none }, inputs := [.receiver false false (.tyPath .none (.mk false [.mk "Pin" (.angle false [.other "&mut" [.tyPath .none (.mk false [.mk "Self" .none])]])]))], output := none }, block := [] }, .const "A"] }
    ⟨99, 5, 99, 19⟩
    [(.traitPath, ⟨100, 10, 100, 20⟩), (.selfTy, ⟨100, 25, 100, 31⟩), (.item, ⟨100, 5, 103, 6⟩), (.name 0, ⟨101, 12, 101, 16⟩), (.parens 0, ⟨101, 16, 101, 38⟩), (.params 0, ⟨101, 17, 101, 37⟩), (.param 0, ⟨101, 17, 101, 37⟩), (.member 0, ⟨101, 9, 101, 41⟩), (.member 1, ⟨102, 9, 102, 25⟩)] == some ("const `A` is not a member of trait `PinnedDrop`", ⟨102, 9, 102, 25⟩)
#guard pinnedDrop []
    { attrs := [], isUnsafe := false, generics := { params := [], whereClause := none }, trait_ := (some (false, (.mk false [.mk "PinnedDrop" .none]))), selfTy := .tyPath .none (.mk false [.mk "Type1" .none]), selfToks := [.ident "Type1"], items := [.type "A", .fn { attrs := [], sig := { quals := [], isUnsafe := false, ident := "drop", generics := { params := [], whereClause := none }, inputs := [.receiver false false (.tyPath .none (.mk false [.mk "Pin" (.angle false [.other "&mut" [.tyPath .none (.mk false [.mk "Self" .none])]])]))], output := none }, block := [] }] }
    ⟨108, 5, 108, 19⟩
    [(.traitPath, ⟨109, 10, 109, 20⟩), (.selfTy, ⟨109, 25, 109, 30⟩), (.item, ⟨109, 5, 112, 6⟩), (.member 0, ⟨110, 9, 110, 21⟩), (.name 1, ⟨111, 12, 111, 16⟩), (.parens 1, ⟨111, 16, 111, 38⟩), (.params 1, ⟨111, 17, 111, 37⟩), (.param 1, ⟨111, 17, 111, 37⟩), (.member 1, ⟨111, 9, 111, 41⟩)] == some ("type `A` is not a member of trait `PinnedDrop`", ⟨110, 9, 110, 21⟩)
#guard pinnedDrop []
    { attrs := [], isUnsafe := false, generics := { params := [], whereClause := none }, trait_ := (some (false, (.mk false [.mk "PinnedDrop" .none]))), selfTy := .tyPath .none (.mk false [.mk "Type2" .none]), selfToks := [.ident "Type2"], items := [.fn { attrs := [], sig := { quals := [], isUnsafe := false, ident := "drop", generics := { params := [], whereClause := none }, inputs := [.receiver false false (.tyPath .none (.mk false [.mk "Pin" (.angle false [.other "&mut" [.tyPath .none (.mk false [.mk "Self" .none])]])]))], output := none }, block := [] }, .type "A"] }
    ⟨117, 5, 117, 19⟩
    [(.traitPath, ⟨118, 10, 118, 20⟩), (.selfTy, ⟨118, 25, 118, 30⟩), (.item, ⟨118, 5, 121, 6⟩), (.name 0, ⟨119, 12, 119, 16⟩), (.parens 0, ⟨119, 16, 119, 38⟩), (.params 0, ⟨119, 17, 119, 37⟩), (.param 0, ⟨119, 17, 119, 37⟩), (.member 0, ⟨119, 9, 119, 41⟩), (.member 1, ⟨120, 9, 120, 21⟩)] == some ("type `A` is not a member of trait `PinnedDrop`", ⟨120, 9, 120, 21⟩)
#guard pinnedDrop []
    { attrs := [], isUnsafe := false, generics := { params := [], whereClause := none }, trait_ := (some (false, (.mk false [.mk "PinnedDrop" .none]))), selfTy := .tyPath .none (.mk false [.mk "Duplicate" .none]), selfToks := [.ident "Duplicate"], items := [.fn { attrs := [], sig := { quals := [], isUnsafe := false, ident := "drop", generics := { params := [], whereClause := none }, inputs := [.receiver false false (.tyPath .none (.mk false [.mk "Pin" (.angle false [.other "&mut" [.tyPath .none (.mk false [.mk "Self" .none])]])]))], output := none }, block := [] }, .fn { attrs := [], sig := { quals := [], isUnsafe := false, ident := "drop", generics := { params := [], whereClause := none }, inputs := [.receiver false false (.tyPath .none (.mk false [.mk "Pin" (.angle false [.other "&mut" [.tyPath .none (.mk false [.mk "Self" .none])]])]))], output := none }, block := [] }] }
    ⟨126, 5, 126, 19⟩
    [(.traitPath, ⟨127, 10, 127, 20⟩), (.selfTy, ⟨127, 25, 127, 34⟩), (.item, ⟨127, 5, 130, 6⟩), (.name 0, ⟨128, 12, 128, 16⟩), (.parens 0, ⟨128, 16, 128, 38⟩), (.params 0, ⟨128, 17, 128, 37⟩), (.param 0, ⟨128, 17, 128, 37⟩), (.member 0, ⟨128, 9, 128, 41⟩), (.name 1, ⟨129, 12, 129, 16⟩), (.parens 1, ⟨129, 16, 129, 38⟩), (.params 1, ⟨129, 17, 129, 37⟩), (.param 1, ⟨129, 17, 129, 37⟩), (.member 1, ⟨129, 9, 129, 41⟩)] == some ("duplicate definitions with name `drop`", ⟨129, 9, 129, 41⟩)
#guard pinnedDrop []
    { attrs := [], isUnsafe := false, generics := { params := [], whereClause := none }, trait_ := (some (false, (.mk false [.mk "PinnedDrop" .none]))), selfTy := .tyPath .none (.mk false [.mk "RetTy" .none]), selfToks := [.ident "RetTy"], items := [.fn { attrs := [], sig := { quals := [], isUnsafe := false, ident := "drop", generics := { params := [], whereClause := none }, inputs := [.receiver false false (.tyPath .none (.mk false [.mk "Pin" (.angle false [.other "&mut" [.tyPath .none (.mk false [.mk "Self" .none])]])]))], output := (some (.tyPath .none (.mk false [.mk "Self" .none]))) }, block := [] }] }
    ⟨149, 5, 149, 19⟩
    [(.traitPath, ⟨150, 10, 150, 20⟩), (.selfTy, ⟨150, 25, 150, 30⟩), (.item, ⟨150, 5, 152, 6⟩), (.name 0, ⟨151, 12, 151, 16⟩), (.parens 0, ⟨151, 16, 151, 38⟩), (.params 0, ⟨151, 17, 151, 37⟩), (.param 0, ⟨151, 17, 151, 37⟩), (.output 0, ⟨151, 42, 151, 46⟩), (.member 0, ⟨151, 9, 151, 49⟩)] == some ("method `drop` must return the unit type", ⟨151, 42, 151, 46⟩)
#guard pinnedDrop []
    { attrs := [], isUnsafe := false, generics := { params := [], whereClause := none }, trait_ := (some (false, (.mk false [.mk "PinnedDrop" .none]))), selfTy := .tyPath .none (.mk false [.mk "NoArg" .none]), selfToks := [.ident "NoArg"], items := [.fn { attrs := [], sig := { quals := [], isUnsafe := false, ident := "drop", generics := { params := [], whereClause := none }, inputs := [], output := none }, block := [] }] }
    ⟨157, 5, 157, 19⟩
    [(.traitPath, ⟨158, 10, 158, 20⟩), (.selfTy, ⟨158, 25, 158, 30⟩), (.item, ⟨158, 5, 160, 6⟩), (.name 0, ⟨159, 12, 159, 16⟩), (.parens 0, ⟨159, 16, 159, 18⟩), (.member 0, ⟨159, 9, 159, 21⟩)] == some ("method `drop` must take an argument `self: Pin<&mut Self>`", ⟨159, 16, 159, 18⟩)
#guard pinnedDrop []
    { attrs := [], isUnsafe := false, generics := { params := [], whereClause := none }, trait_ := (some (false, (.mk false [.mk "PinnedDrop" .none]))), selfTy := .tyPath .none (.mk false [.mk "MultiArg" .none]), selfToks := [.ident "MultiArg"], items := [.fn { attrs := [], sig := { quals := [], isUnsafe := false, ident := "drop", generics := { params := [], whereClause := none }, inputs := [.receiver false false (.tyPath .none (.mk false [.mk "Pin" (.angle false [.other "&mut" [.tyPath .none (.mk false [.mk "Self" .none])]])])), .typed (.other "_" []) (.other "tuple" [])], output := none }, block := [] }] }
    ⟨165, 5, 165, 19⟩
    [(.traitPath, ⟨166, 10, 166, 20⟩), (.selfTy, ⟨166, 25, 166, 33⟩), (.item, ⟨166, 5, 168, 6⟩), (.name 0, ⟨167, 12, 167, 16⟩), (.parens 0, ⟨167, 16, 167, 45⟩), (.params 0, ⟨167, 17, 167, 44⟩), (.param 0, ⟨167, 17, 167, 37⟩), (.member 0, ⟨167, 9, 167, 48⟩)] == some ("method `drop` must take an argument `self: Pin<&mut Self>`", ⟨167, 17, 167, 44⟩)
#guard pinnedDrop []
    { attrs := [], isUnsafe := false, generics := { params := [], whereClause := none }, trait_ := (some (false, (.mk false [.mk "PinnedDrop" .none]))), selfTy := .tyPath .none (.mk false [.mk "InvalidArg1" .none]), selfToks := [.ident "InvalidArg1"], items := [.fn { attrs := [], sig := { quals := [], isUnsafe := false, ident := "drop", generics := { params := [], whereClause := none }, inputs := [.receiver false true (.other "&mut" [.tyIdent "Self"])], output := none }, block := [] }] }
    ⟨173, 5, 173, 19⟩
    [(.traitPath, ⟨174, 10, 174, 20⟩), (.selfTy, ⟨174, 25, 174, 36⟩), (.item, ⟨174, 5, 176, 6⟩), (.name 0, ⟨175, 12, 175, 16⟩), (.parens 0, ⟨175, 16, 175, 27⟩), (.params 0, ⟨175, 17, 175, 26⟩), (.param 0, ⟨175, 17, 175, 26⟩), (.member 0, ⟨175, 9, 175, 30⟩)] == some ("method `drop` must take an argument `self: Pin<&mut Self>`", ⟨175, 17, 175, 26⟩)
#guard pinnedDrop []
    { attrs := [], isUnsafe := false, generics := { params := [], whereClause := none }, trait_ := (some (false, (.mk false [.mk "PinnedDrop" .none]))), selfTy := .tyPath .none (.mk false [.mk "InvalidArg2" .none]), selfToks := [.ident "InvalidArg2"], items := [.fn { attrs := [], sig := { quals := [], isUnsafe := false, ident := "drop", generics := { params := [], whereClause := none }, inputs := [.typed (.other "_" []) (.tyPath .none (.mk false [.mk "Pin" (.angle false [.other "&mut" [.tyPath .none (.mk false [.mk "Self" .none])]])]))], output := none }, block := [] }] }
    ⟨181, 5, 181, 19⟩
    [(.traitPath, ⟨182, 10, 182, 20⟩), (.selfTy, ⟨182, 25, 182, 36⟩), (.item, ⟨182, 5, 184, 6⟩), (.name 0, ⟨183, 12, 183, 16⟩), (.parens 0, ⟨183, 16, 183, 35⟩), (.params 0, ⟨183, 17, 183, 34⟩), (.param 0, ⟨183, 17, 183, 34⟩), (.member 0, ⟨183, 9, 183, 38⟩)] == some ("method `drop` must take an argument `self: Pin<&mut Self>`", ⟨183, 17, 183, 34⟩)
#guard pinnedDrop []
    { attrs := [], isUnsafe := false, generics := { params := [], whereClause := none }, trait_ := (some (false, (.mk false [.mk "PinnedDrop" .none]))), selfTy := .tyPath .none (.mk false [.mk "InvalidArg3" .none]), selfToks := [.ident "InvalidArg3"], items := [.fn { attrs := [], sig := { quals := [], isUnsafe := false, ident := "drop", generics := { params := [], whereClause := none }, inputs := [.receiver false false (.tyPath .none (.mk false [.mk "Pin" (.angle false [.other "&" [.tyPath .none (.mk false [.mk "Self" .none])]])]))], output := none }, block := [] }] }
    ⟨189, 5, 189, 19⟩
    [(.traitPath, ⟨190, 10, 190, 20⟩), (.selfTy, ⟨190, 25, 190, 36⟩), (.item, ⟨190, 5, 192, 6⟩), (.name 0, ⟨191, 12, 191, 16⟩), (.parens 0, ⟨191, 16, 191, 34⟩), (.params 0, ⟨191, 17, 191, 33⟩), (.param 0, ⟨191, 17, 191, 33⟩), (.member 0, ⟨191, 9, 191, 37⟩)] == some ("method `drop` must take an argument `self: Pin<&mut Self>`", ⟨191, 17, 191, 33⟩)
#guard pinnedDrop []
    { attrs := [], isUnsafe := false, generics := { params := [], whereClause := none }, trait_ := (some (false, (.mk false [.mk "PinnedDrop" .none]))), selfTy := .tyPath .none (.mk false [.mk "InvalidArg4" .none]), selfToks := [.ident "InvalidArg4"], items := [.fn { attrs := [], sig := { quals := [], isUnsafe := false, ident := "drop", generics := { params := [], whereClause := none }, inputs := [.receiver false false (.tyPath .none (.mk false [.mk "Pin" (.angle false [.other "&mut" [.other "tuple" []]])]))], output := none }, block := [] }] }
    ⟨197, 5, 197, 19⟩
    [(.traitPath, ⟨198, 10, 198, 20⟩), (.selfTy, ⟨198, 25, 198, 36⟩), (.item, ⟨198, 5, 200, 6⟩), (.name 0, ⟨199, 12, 199, 16⟩), (.parens 0, ⟨199, 16, 199, 36⟩), (.params 0, ⟨199, 17, 199, 35⟩), (.param 0, ⟨199, 17, 199, 35⟩), (.member 0, ⟨199, 9, 199, 39⟩)] == some ("method `drop` must take an argument `self: Pin<&mut Self>`", ⟨199, 17, 199, 35⟩)
#guard pinnedDrop []
    { attrs := [], isUnsafe := false, generics := { params := [], whereClause := none }, trait_ := (some (false, (.mk false [.mk "PinnedDrop" .none]))), selfTy := .tyPath .none (.mk false [.mk "InvalidName" .none]), selfToks := [.ident "InvalidName"], items := [.fn { attrs := [], sig := { quals := [], isUnsafe := false, ident := "pinned_drop", generics := { params := [], whereClause := none }, inputs := [.receiver false false (.tyPath .none (.mk false [.mk "Pin" (.angle false [.other "&mut" [.tyPath .none (.mk false [.mk "Self" .none])]])]))], output := none }, block := [] }] }
    ⟨205, 5, 205, 19⟩
    [(.traitPath, ⟨206, 10, 206, 20⟩), (.selfTy, ⟨206, 25, 206, 36⟩), (.item, ⟨206, 5, 208, 6⟩), (.name 0, ⟨207, 12, 207, 23⟩), (.parens 0, ⟨207, 23, 207, 45⟩), (.params 0, ⟨207, 24, 207, 44⟩), (.param 0, ⟨207, 24, 207, 44⟩), (.member 0, ⟨207, 9, 207, 48⟩)] == some ("method `pinned_drop` is not a member of trait `PinnedDrop`", ⟨207, 12, 207, 23⟩)
#guard pinnedDrop []
    { attrs := [], isUnsafe := false, generics := { params := [], whereClause := none }, trait_ := (some (false, (.mk false [.mk "PinnedDrop" .none]))), selfTy := .other "tuple" [], selfToks := [.group .paren []], items := [.fn { attrs := [], sig := { quals := [], isUnsafe := false, ident := "drop", generics := { params := [], whereClause := none }, inputs := [.receiver false false (.tyPath .none (.mk false [.mk "Pin" (.angle false [.other "&mut" [.tyPath .none (.mk false [.mk "Self" .none])]])]))], output := none }, block := [] }] }
    ⟨214, 5, 214, 19⟩
    [(.traitPath, ⟨215, 10, 215, 20⟩), (.selfTy, ⟨215, 25, 215, 27⟩), (.item, ⟨215, 5, 218, 6⟩), (.name 0, ⟨217, 12, 217, 16⟩), (.parens 0, ⟨217, 16, 217, 38⟩), (.params 0, ⟨217, 17, 217, 37⟩), (.param 0, ⟨217, 17, 217, 37⟩), (.member 0, ⟨217, 9, 217, 41⟩)] == some ("implementing the trait `PinnedDrop` on this type is unsupported", ⟨215, 25, 215, 27⟩)
#guard pinnedDrop []
    { attrs := [], isUnsafe := false, generics := { params := [], whereClause := none }, trait_ := (some (false, (.mk false [.mk "PinnedDrop" .none]))), selfTy := .other "&mut" [.tyPath .none (.mk false [.mk "A" .none])], selfToks := [.punct '&' false, .ident "mut", .ident "A"], items := [.fn { attrs := [], sig := { quals := [], isUnsafe := false, ident := "drop", generics := { params := [], whereClause := none }, inputs := [.receiver false false (.tyPath .none (.mk false [.mk "Pin" (.angle false [.other "&mut" [.tyPath .none (.mk false [.mk "Self" .none])]])]))], output := none }, block := [] }] }
    ⟨220, 5, 220, 19⟩
    [(.traitPath, ⟨221, 10, 221, 20⟩), (.selfTy, ⟨221, 25, 221, 31⟩), (.item, ⟨221, 5, 224, 6⟩), (.name 0, ⟨223, 12, 223, 16⟩), (.parens 0, ⟨223, 16, 223, 38⟩), (.params 0, ⟨223, 17, 223, 37⟩), (.param 0, ⟨223, 17, 223, 37⟩), (.member 0, ⟨223, 9, 223, 41⟩)] == some ("implementing the trait `PinnedDrop` on this type is unsupported", ⟨221, 25, 221, 31⟩)
#guard pinnedDrop []
    { attrs := [], isUnsafe := false, generics := { params := [], whereClause := none }, trait_ := (some (false, (.mk false [.mk "PinnedDrop" .none]))), selfTy := .other "slice" [.tyPath .none (.mk false [.mk "A" .none])], selfToks := [.group .bracket [.ident "A"]], items := [.fn { attrs := [], sig := { quals := [], isUnsafe := false, ident := "drop", generics := { params := [], whereClause := none }, inputs := [.receiver false false (.tyPath .none (.mk false [.mk "Pin" (.angle false [.other "&mut" [.tyPath .none (.mk false [.mk "Self" .none])]])]))], output := none }, block := [] }] }
    ⟨226, 5, 226, 19⟩
    [(.traitPath, ⟨227, 10, 227, 20⟩), (.selfTy, ⟨227, 25, 227, 28⟩), (.item, ⟨227, 5, 230, 6⟩), (.name 0, ⟨229, 12, 229, 16⟩), (.parens 0, ⟨229, 16, 229, 38⟩), (.params 0, ⟨229, 17, 229, 37⟩), (.param 0, ⟨229, 17, 229, 37⟩), (.member 0, ⟨229, 9, 229, 41⟩)] == some ("implementing the trait `PinnedDrop` on this type is unsupported", ⟨227, 25, 227, 28⟩)

-- /repo/tests/ui/cfg/unsupported.rs
#guard pinProject [] []
    [.ident "struct", .ident "S", .group .brace [.punct '#' false, .group .bracket [.ident "cfg", .group .paren [.ident "any", .group .paren []]], .punct '#' false, .group .bracket [.ident "pin"], .ident "f", .punct ':' false, .ident "u8", .punct ',' false]]
    (fun as => .struct_ { attrs := as, vis := .inherited, ident := "S", generics := { params := [], whereClause := none }, fields := (.named []) })
    ⟨5, 1, 5, 15⟩
    [(.body, ⟨6, 1, 11, 2⟩)]
    [(.name, ⟨6, 8, 6, 9⟩), (.fields, ⟨6, 10, 11, 2⟩)] == some ("#[pin_project] attribute may not be used on structs with zero fields", ⟨6, 10, 11, 0⟩)

end PinProject.UiPlaces

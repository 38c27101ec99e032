# A machine-checked model of `enumset` in Lean 4

Source: `/repo` (crate `enumset` 1.1.5 with `enumset_derive` 0.10.0), read as text.  Lean project:
`lean/` (core Lean only, no Mathlib module is imported).  Properties: `properties.jsonl`; which theorem
proves which property: `MANIFEST.json`; wrong programs the theorems were tried on:
`seeded/LOG.jsonl`.

## 1. How the code is modelled

* **Outcomes.**  A Rust computation returns `Res α = ok a | panic p | ub | diverge`.  Index out of
  bounds, `expect`, `panic!`, and (with overflow checks) arithmetic and shift overflow are `panic`;
  `unreachable_unchecked` on a reached path and an invalid transmute are `ub`; a `while`/`for` loop
  over an iterator that uses up its fuel is `diverge`.  A theorem that says an operation is `ok …`
  therefore also says that it does not panic, overflow, index out of bounds, cause UB or loop.
* **Build modes.**  `Platform` = width of `usize` (16, 32, 64) + `overflowChecks`.  Every `+ - * <<` on
  a machine integer goes through `addW/subW/mulW/shl1`, which panic or wrap.  All theorems quantify
  over all platforms; `C42_build_modes` says both modes give the same results.
* **Integers.**  Words are `BitVec w`.  `u32`/`usize` quantities used as indices or counts are `Nat`
  below the type's bound, `as` casts reduce mod 2^width.
* **`&mut self`** becomes "returns the new value".  **Loops** `for i in a..b` are folds over the index
  list in the `Res` monad with checked indexing; loops over iterators carry fuel, and the theorems
  show that the fuel is never used up.
* **Traits.**  `EnumSetTypeRepr` (repr/mod.rs) is a Lean class with the same members; its instances are
  `Prim w pal` (macro `prim!`) and `ArrayRepr N`.  `EnumSetTypePrivate` is a structure `EnumSetType`,
  produced by the model of the derive macro.  `set.rs` is modelled generically over it.
* **Derive.**  The macro is a function `derive : DeriveInput → Except DeriveErr EnumSetType`.  The
  discriminants rustc assigns are modelled separately (`rustcDiscriminants`): that the macro's
  discriminants are the compiler's is a theorem, not an assumption.
* **Serde.**  Twice: by value (`Serde.lean`: the data handed over; the stream of fallible items read)
  and call by call against an arbitrary serializer or sequence access (`SerdeIO.lean`).  That generated
  code type-checks is a decidable predicate of the macro's choices (`Serde.compiles`).

Every definition cites the lines it models and says how it simplifies them.

## 2. Modules

| module (`Verif/…`) | content |
|---|---|
| `Rust` | the fragment of Rust: outcomes, arithmetic in both build modes, loops, indexing, bit intrinsics |
| `Repr`, `Primitive`, `ArrayRepr` | `repr/mod.rs`, `repr/primitive.rs`, `repr/array.rs` |
| `Set` | `traits.rs`, `set.rs`, and the operators the derive macro generates for the enum itself |
| `IterStd` | provided methods of `Iterator`, `DoubleEndedIterator`, `ExactSizeIterator` (from `core`) |
| `Derive` | `enumset_derive/src/lib.rs`: parsing, validation, choice of storage, generated items |
| `MacroEnv` | the macro with its features, `crate_name` and its own panics |
| `EnumLayout` | `enum_from_u32` with the arms that reinterpret an integer as the enum |
| `UserInto` | the operators with an operand of a type of the caller (state, panics in the conversion) |
| `UserIter` | `Extend`, `FromIterator`, `Sum` over an arbitrary iterator of the caller (state, panics, endless) |
| `Macros` | `macros.rs`: arms of the macros, expansion, evaluation |
| `Serde`, `SerdeIO` | generated serde code |
| `Safe` | which sets safe code can build (one constructor per safe public function) |
| `Machine`, `Program` | histories of commands, and interactive programs, run on the model |
| `Spec`, `SpecWords`, `SpecMachine`, `SpecProgram`, `SpecSerde`, `SpecDiag`, `SpecRustc`, `SpecUserIter`, `SpecInt`, `SpecStorage`, `SpecSrc`, `SpecGen`, `SpecMac`, `SpecSerdeRun`, `SpecText` | the specification: what an enum's discriminants, storage and format are; what a set of variants is; the same histories on mathematical sets; what can be wrong with an enum |
| `Bits`, `Lawful*`, `Derive{Lemmas,Accepts,Iff}`, `WF`, `*Lemmas`, `MachineRefine` | lemmas |
| `Props/*` | the property theorems `Cnn_…` with their examples |
| `Tests/RepoTests`, `Tests/DocTests` | the tests and documentation examples of `/repo` (`tests/*.rs`, trybuild, doc comments) transcribed and evaluated on the model; tests, not proofs |

A reader who wants to know what is claimed needs `Props/*`, the `Spec*` files and the signatures in
`Set`, `Serde`, `SerdeIO`, `Derive`; the lemma files can be skipped.

The source text as data: `Src/Syntax` (abstract syntax), `Src/Sem` (interpreter), `Src/*Rs` (generated),
`Src/Link`, `Src/Lemmas`, `Props/Src*`; for the derive macro also `Src/Quote` (`quote!`), `Src/Macro`
(libraries and linker), `Src/Syn` (what `syn` hands over), `Src/Gen` (what the macro returns),
`Src/GenProg` (that as a program), `Props/SrcGen*`; for `macros.rs` `Src/MacroRules` (`macro_rules!`),
`Src/UserProg`, `Props/SrcRules*`; for serde `Src/SerdeLib`, `Props/SrcSerde*`; all histories `Props/SrcText`; see section 3.

### How the proofs are organised

`bit r i` is the i-th bit of the "single large integer" of the documentation.  `LawfulRepr` lists what
each trait function does to `bit`; it is proved once for `Prim` (all five instantiations) and once for
`ArrayRepr N`.  `WF T` collects what `set.rs` relies on about a derived type; `wf_of_derive` proves it
for every output of the derive model.  Everything in `set.rs` is proved from these two.

### Specification vocabulary

* `Members s A`: `contains` answers `A v` for each variant `v`.
* `Safe s`: `s` can be built by safe code.
* `Fits T`: every bit position of the storage is representable in `usize`.  Automatic on 32- and 64-bit
  targets and for integer storage (`C44_fits`, `C44_fits_int`).  On 16-bit targets it excludes enums
  with a discriminant whose bit position overflows `usize`, for which C44 proves aliasing; rustc lets
  such an enum through only with an explicit wide `#[repr]` (`C44_fits_default`).
* `Acceptable inp`: the input the macro should accept (C30 proves that it accepts exactly those).
* `storageOf inp`, `formatOf inp`: which storage and serialization format the attributes ask for.

## 3. Trusted base

* The Lean 4.33.0 kernel.
* Axioms: every theorem depends on at most `propext`, `Classical.choice`, `Quot.sound`.  No axioms are
  added; there is no `sorry`, `native_decide`, `bv_decide`, `implemented_by`.
* That the model is faithful to the source.  The code was never run.  For `repr/primitive.rs`,
  `repr/array.rs`, `set.rs`, `macros.rs` and the derive macro (with and without serde) this is proved
  relative to an interpreter (C66, C67, C68, C70, C71, C72, C73, C74, C75, C76, C77, C78, next section); for the rest it is by reading.  The
  repository's own tests, transcribed by hand, pass on the model (`Tests/RepoTests.lean`).
* That `Rust.lean` is faithful to Rust (integer semantics, `trailing_zeros`, `count_ones`,
  `leading_zeros`, array indexing, derived `PartialOrd`/`Hash` on tuple structs), and `IterStd.lean` to
  `core::iter`.
* That rustc assigns discriminants as in `rustcDiscriminants` (previous + 1, start 0), rejects repeated
  or unrepresentable ones, and that `transmute` between a fieldless enum and an integer of its size
  is the discriminant.  The arms of `enum_from_u32` that reinterpret a number as the enum are modelled
  as undefined behaviour, which is the worst they can be; C15 proves them unreachable, and `C15_exact`
  that on the bits of the storage this is what they are.  The rejections are written down in `SpecRustc.lean` and are needed only for
  C55 and `C44_fits_default`.
* That `syn`/`darling` hand the macro the syntax tree as described at `DeriveInput`.

### The source text as data

The source files are Lean data of the types of `Src/Syntax.lean` (`Src/PrimitiveRs.lean`, `Src/ArrayRs.lean`,
`Src/SetRs.lean`, `Src/MacrosRs.lean`, `Src/DeriveRs.lean`).  These files are written by a script
(`tools/rs2lean.py`), but the script is not trusted: `Src/Text/*.lean` holds the text of the source files, line by
line, `Src/Lex.lean` and `Src/Parse.lean` are a lexer and a parser in Lean, and C76 proves that the text parses
to this data (evaluated by the kernel; `Src/Same.lean` compares the terms; `Src/Text/DeriveToks.lean` has the tokens
of the derive macro, so that they are read once and not for each of the eight settings of its features:
`deriveToks_eq` proves that they are those of the text).  `tools/generate.sh` rewrites all these files.  `Src/Sem.lean` is an interpreter for the fragment of Rust the files
are written in; it knows integers, arrays, options, structs, loops, closures, `&mut` arguments and what
`derive` does for structs, and nothing about enum sets.  `Src/Link.lean` makes a program of the files: a call of `P.call k ty f caller
consts args` runs the text of the function `f` of the type `ty`, with calls between functions at most
`k` deep.  C66, C67 and C68 prove for every function of `primitive.rs`, `array.rs` and `set.rs` that the
text, run by the interpreter, has the outcome (value, new values of `&mut` arguments, or which panic) of
the function of the model, for all arguments.

`set.rs` is generic in the enum type `T`.  Its functions call those of `T::Repr`, which a program maps to
an integer type or to `ArrayRepr` (`Prog.alias`, `Prog.params`), and the items the derive macro
generates for `T`, which are functions of the surroundings (`Prog.base`).  `C68_storage_prim`,
`C68_storage_array` and `C68_enum_items` establish what the theorems on `set.rs` assume about them, and
`C68_derived` that every enum the macro accepts has such a program.  Values of the enum, formatters,
hashers and serializers are values the interpreter knows nothing about (`Val.host`).  Where `core` supplies
an implementation for all types (`Into` from `From`, `IntoIterator` for iterators) `Src/Link.lean` has it
(`blanket`).  C69 runs programs of such calls and compares what they print with the same programs on
mathematical sets (`SpecSrc.lean`); its statement mentions no function of the model.  Not covered: the value of a `&mut` argument after a panic (the outcome is the panic), except of `self` in `extend` (C75).

The derive macro is treated in the same way.  `Src/DeriveRs.lean` holds the functions of
`enumset_derive/src/lib.rs` and the content of its `quote!`s, parsed as Rust with the interpolations as
holes; `Src/Quote.lean` says what interpolation and repetition do; `Src/Macro.lean` holds the functions of
`std`, `syn`, `proc_macro2` and `darling` that the macro calls.  C70 proves that the functions on
`EnumSetInfo` do what the model does, and C71 that running `derive_enum_set_type_0` on any item
(`SynInput`, `Src/Syn.lean`) returns the diagnostic of the model or the code `genTok` (`Src/Gen.lean`).
All of this is for every setting of the macro's features `serde`, `std_deprecation_warning` and `proc-macro-crate`
and every answer of `proc_macro_crate::crate_name` (`class Host`).  `Ident::new` panics on strings that are no
identifiers (which these are is a parameter); `C71_total` says exactly when that happens, `NamesOk` is the condition
under which it does not.
C78 is about the function the compiler calls, `derive_enum_set_type`: it expands to the errors of `syn` or of
`darling` when there are any (what they answer is part of the input, `parse_macro_input!` is the `match` it stands
for), to `compile_error!` with the message of the first problem of the item (the `Problem` of C54), or to the
code C72 to C77 are about.

The code the macro returns is data of the same kind as the source files, so it can be run.
`Src/GenProg.lean` links it with the three files and with what rustc knows about the enum (`EnumDef`: names,
discriminants, size, and what reading a number as a value of the enum gives).  `C72_items` proves that this
program is one to which C68 and C69 apply and that all generated functions are those of the model;
`C72_history` that the text of the macro, run on an item, returns code with which every history of calls of
the crate's and of the generated functions answers as mathematical sets do (`SpecGen.lean`).  Neither the
model nor any of its functions occurs in that statement: it is about the parsed text of the repository.

The macros of `macros.rs` are `macro_rules!` definitions; `Src/MacrosRs.lean` holds their arms and
`Src/MacroRules.lean` says which arm a list of tokens selects and what the expansion is (all threads of
rustc's matcher are followed, an ambiguity is an error, a path never backtracks).  `C73_list`,
`C73_enum_set`, `C73_complement` give the expansion of every list of tokens, `C73_accepts` says which
compile, `C73_value` what the expansion evaluates to, and `C73_history` is `C72_history` with calls of
the macros among the commands (`SpecMac.lean`).  Simplifications: a `path` fragment is one token; the
variables a macro binds get names no user variable has (that is what hygiene does); `$crate::` is
dropped, so that `EnumSet` is the type of the crate.

Everything above holds for the macro built with and without the feature `serde` (`Platform.serde`).  With it, the code that the macro returns also has the serde functions; they are run against a `SerdeLib`
(`Src/SerdeLib.lean`): an arbitrary serializer and deserializer, any call of which may fail.  `C74_history`
is `C72_history` with `serialize` and `deserialize` among the commands (`SpecSerdeRun.lean`), and
`C74_round_trip` says that what a set is serialized as means that set.  Simplifications: the states, results
and errors of serializers are values of the interpreter; `deserialize_seq` and `deserialize_map` fail with an error
that may mention what `expecting` of the visitor writes (`C77_expecting`), or call the visitor once and return what
it returns, except that they may change an error and may fail after the visitor returned a set.  Panics of
serializers and deserializers are not covered.

`C75_history` brings the two ends together: the histories of `SpecMachine.lean` (C01), run on the text
(`SpecText.lean`), answer what mathematical sets answer.  The histories include formatting, hashing and serde; for
these the text is run with a formatter, a hasher, a serializer and a deserializer that keep what they are given and
yield given data (`histLib`).  `Src/SerdeLib.lean` says what `hash` of an integer, of an array and of a derived
struct calls.  Simplification: the `fmt` of the enum is one function, `Debug` or `Display`, of the caller.  The interpreter keeps no
variables after a panic; what a set is after an iterator of the caller panicked in `extend` is what the iterator sees in
the variable `self` at that moment (`userNext`).

Trusted besides the parser and the interpreter: `Src/Quote.lean`, `Src/Macro.lean`, `Src/Syn.lean`,
`Src/GenProg.lean`, `Src/MacroRules.lean`, `Src/UserProg.lean`, `Src/SerdeLib.lean`.
Simplifications: where the code of the macro is run (C72 to C77) the enum is called `T`, while C70, C71 and C78 are about
enums of any name; spans of tokens are not kept; a `for` in the templates calls
`into_iter` explicitly; paths (`#enumset`, `#core`, `#internal`) in the templates are dropped, so that hygiene is not covered.

What this leaves to trust, for these files: that `Src/Text/*.lean` holds the text (`tools/text2lean.py` copies the
lines; that can be seen by comparing the files), that the lexer and the parser read Rust (what the parser leaves out
is listed at the top of `Src/Parse.lean`; three tables there supply what is not in the text: the types of 15 `let`s that
rustc infers, names for functions of the same name in different impls, and which of these two calls refer to), and
that the interpreter follows Rust.  Deviations of the interpreter are listed at the top of `Src/Sem.lean`.  The interpreter uses the
same definitions of integer overflow, shifts and casts as the model (`Rust.lean`).

### Not modelled

* Parsing of the attribute syntax itself (`darling`), the source text behind a span (a span is "the
  i-th variant" and the like), and how rustc prints errors; name resolution in the generated code
  (hygiene); which strings are identifiers (a parameter in C63 and C70 to C78); generics rejection is modelled as a
  flag.
* Type checking, except where the generated serde code may be ill-typed (`Serde.compiles`).
* Feature gates (`serde`, `alloc`, `std`): all features are taken as on, except in C63 and C70 to C78 (features of
  the macro) and C54 (`std_deprecation_warning`).
* Memory layout beyond "the bytes of `EnumSet` are those of its storage" (C27); alignment, ABI.
* Compile-time evaluation limits of const macros; drop, threads, unwinding (a panic is a final
  outcome except in `Machine`, where it is caught and the set keeps its value at the time).
* A user's own `Debug`/`Display`/`Serialize`/`Deserialize`/`Hasher` implementation is a parameter.
  Formatters, serializers and deserializers may fail at every call; that they panic is not modelled
  separately, since the code applies `?` to every such call, so that a panic ends it exactly as an
  error does.
* Running time.
* `enumset_test_no_std`, `enumset_test_trybuild`.

## 4. Results

Everything in `properties.jsonl` has at least one theorem; see `MANIFEST.json`.  Five properties are
`partial`, each because the code contradicts the full statement; the negation is proved beside the
partial theorem:

* **C28** (nothing observable depends on the storage): false for `to_vec`, whose length is the number of
  words of the storage, for the direction of `cmp`, and for deserialization of words
  (`C28_words_fails`).  `C28_history_partial` has all answers up to these; `C28_portable` is exact for
  histories without these calls.
* **C36/C40** (`serialize_deny_unknown` is enforced): with array storage, or the array format, the
  generated deserializer is ill-typed, so that the program does not compile.  `C40_compiles` says
  exactly when it does; where it compiles, the option is enforced.
* **C39/C42** (deserialization never panics): the array deserializer calls `from_array`, which panics on
  unknown bits (lib.rs:583-585), so malformed data panics instead of giving an error.  `C39_panics`
  says exactly when.

### Findings about the code

1. Array deserialization panics on unknown bits (C39, C42, C50, C52).
2. `serialize_deny_unknown` does not compile with the array format, nor with an integer format and array
   storage; with default options, that is every enum with a discriminant ≥ 64 (C36, C40).
3. The array serializer's trimming loop is off by one: one zero word after the last non-zero word is
   kept when the storage has one; the empty set is `[0]` (C50).  Reading is not affected.
4. The array deserializer silently drops words beyond the storage, also non-zero ones (C50); after a
   `None` before the array is full it keeps calling `next_element` (C49).  Whether given words are
   accepted therefore depends on `repr` (C28).
5. `Ord` of array storage is lexicographic from the low word, not the numeric order of the "single
   large integer" (C10): `{0} > {64}`.
6. With 16-bit `usize`, array storage of more than 1023 words aliases bits (C44).  rustc accepts such an
   enum only with an explicit `#[repr]` of at least 32 bits, or `u16`/`usize` (C44_fits_default).
7. `u128` storage is never chosen automatically: 65 to 128 bits get `[u64; 2]` (C31).
8. `bit_width()` of an enum without variants is 1, although the documentation says one more than the
   largest discriminant (C32).
9. Map deserialization keeps a variant that appears with `true` and later with `false` (C37).
10. The documentation of `try_as_*` says "panics"; they return `None` (C18).
11. `enum_set!()` expands to an unqualified `EnumSet::empty()`, which needs `EnumSet` in scope; the
    documentation examples of `enum_set_difference!` and `enum_set_symmetric_difference!` are swapped.
12. `enum_set!(A ||)` is rejected because `||` is one token, while `enum_set!(A | |)` is accepted;
    `enum_set_union!(A,,)` is accepted (C47).
13. The documentation says the serialization options may be used with no effect without the `serde`
    feature; but an unknown or too small `serialize_repr` is rejected regardless (C58).
14. On a set with a stray bit (an `unsafe` constructor misused) only iteration is undefined; all other
    operations are defined and keep or count the stray bits, except that `enum_set_difference!` drops
    them while the operator `-` keeps them (C62).
15. A `crate_name` that is not an identifier (a path such as `a::b`, the empty string) makes the macro
    panic instead of reporting an error at the attribute, and hides all other problems (C63).
16. The identifiers in the templates of the derive macro are resolved where the enum is (`quote!`), so
    names of the templates shadow the enum: an enum called `O` (operators), `S`, `D`, `A` (serde) or
    `Visitor` (serde as list, map or array) does not compile.  (By reading; hygiene is not modelled.)

## 5. Wrong programs

`seeded/LOG.jsonl` has one line per wrong program: the definition of the model that was edited (in a
scratch copy), the edit, the claim it contradicts, the property theorems that no longer hold, and what
was tightened.  A theorem counts as failed if its proof, or a lemma it needs, no longer checks and the
proof depends on it; proofs that break are replaced by `sorry` and the property theorems that then
depend on `sorryAx` are listed.

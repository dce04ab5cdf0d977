# Formal model of magiclen/validators: design

The subject is the pair of crates `validators` (0.26.1) and `validators-derive` (0.26.2) in `/repo`.
The derive macro turns `#[validator(...)]` on a struct into parsing and validating
functions.  The model describes what those generated functions compute, for every
configuration the macro accepts, and what configurations the macro accepts.
Nothing is executed: the link between code and model is the file-and-line citation on
every definition, and the model passes the project's own tests (section 3).

## 1. Layout

| Directory | Contents |
|---|---|
| `lean/Verif/Model/` | the model: total computable functions, each citing the code |
| `lean/Verif/Spec/`  | small specifications, written without the model's helpers |
| `lean/Verif/Proof/` | helper lemmas and the fixtures of the examples (`Ldh`: a simple IDNA conversion, `AttrFixture`: a small `syn`) |
| `lean/Verif/Conformance/` | the project's own tests and the examples of its manual, run on the model (below) |
| `lean/Verif/Props/` | the property theorems, one file per area, each with an `example` showing that its hypotheses are met by a concrete case |

`MANIFEST.json` maps property ids to theorem names.  `properties.jsonl` holds the
English statements.  `seeded/LOG.jsonl` records the wrong programs tried.

Theorems are named `Cnn_...`.  The suffix `_partial` marks a theorem that proves part of a
property; `_violated` (and a few with a telling name, see section 5) marks the proof that the
property is false of the code.

## 2. Conventions of the model

* A Rust `Result` with possible panic is `Out ε α` with constructors `ok`, `err`, `panic`.
  Index out of range, slice out of range or not on a character boundary, `unwrap` of
  `None`, `unreachable!()` and (debug-build) arithmetic overflow are `panic`.
* A Rust `&[u8]` is `List UInt8`.  A Rust `&str` is `List UInt8` for validators that scan
  bytes; claims that need UTF-8 validity are about `strBytes cs`, the UTF-8 encoding of
  a `List Char` (Lean's `Char` is exactly a Unicode scalar value).  For `line` and
  `text`, which scan `chars()`, a `&str` is a `List Char`.
* Bounded integers are `Int`/`Nat` together with the bounds of their type.  Casts are
  modelled where the code casts.  Lengths and indices are `Nat`: a string has fewer than
  `isize::MAX` bytes, so sums of a few lengths do not overflow `usize`.
* A macro option becomes an ordinary argument of the model function; `quote!` branches
  become `match` on that argument.
* The generated range checks are an expression language (`Model/Range.lean`) with names, scoping
  and evaluation: the code generator is a function into it, and a check *compiles* when
  every name it uses is bound (C18).  Theorems on ranges are about `compile … = some chk`.
* Calls into other crates become either a concrete model (see section 3) or a parameter.
  Parameters are universally quantified in theorems; any assumption about one is an explicit
  hypothesis.

## 3. Trusted base

* Lean 4.33.0's kernel.
* Axioms: each theorem depends on a subset of `propext`, `Classical.choice`, `Quot.sound`; section 6
  has the list.  No axiom is added, there is no `sorry`, `native_decide` or `bv_decide`.
* The reading of the Rust code recorded in the citations.  It is tested, not proved:
  `lean/Verif/Conformance/` holds the project's own tests (26 of the 31 files of `validators/tests`)
  and the examples of its manual, translated by `tools/conformance.py` (`python3 tools/conformance.py /repo
  lean/Verif/Conformance`).  Each item goes through the model of the macro, its plan through the model of the
  generated code, and every string through `validate_str` (where the test does, `parse_str`); the expected answer
  is the test's own expression over the constants `V_..`, which come from their model.  All agree.  The five
  files left out (`json`, `regex`, `semver`, `semver_req`, `url`) only test the answer of a library.  What libraries
  answer on the strings of the tests is listed in `Harness.lean`.  These theorems are tests and no claim rests on them.
* Rust's guarantee for shared references: a `&str` or `&[u8]` that the caller's `as_ref` has returned does not change while
  the generated code uses it (C87; a type with `unsafe` code could break it).
* Concrete models of code outside `/repo`, written from knowledge of these libraries
  because their source is not available here:
  - `data_encoding::{BASE64, BASE64_NOPAD, BASE64URL, ..., BASE32, ...}.decode`: per-block
    decoding, trailing bits must be zero, a padded decoder decodes each block on its own
    (so a padded block may occur in the middle);
  - `core::net::{Ipv4Addr, Ipv6Addr}::from_str` (`Model/StdIp.lean`, with the 15-byte limit of IPv4
    texts) and their `Display`, `is_private` and the other address predicates, `Ipv6Addr::to_ipv4`;
  - `core::num`: `FromStr` of integers, `Display` of integers, `{:x}`/`{:X}` formatting;
  - `f32` and `f64` (C83): IEEE 754 bit patterns, comparison, `FromStr` (`core::num::dec2flt`, correctly rounded) and
    `as`; the payload of a NaN is not kept, and exponents are not cut off at 65536 as in `core` (this only
    matters for texts with more than 65536 digits);
  - `char::is_whitespace` (Unicode White_Space), `len_utf8`, `str::trim*`, `rfind`;
  - `str_utils::StartsWithIgnoreAsciiCase` and the other prefix functions used by `email`;
  - serde's `Visitor` defaults (`visit_i8` forwards to `visit_i64`, `visit_char` to `visit_str`, ...), the
    `Deserialize` of `String`, `u128` and `Option`, and serde_json as a format: it calls
    `visit_u64` for non-negative integers, `visit_i64` for negative ones, `visit_f64` for others,
    and writes non-finite floats as `null`; `byte-unit` and `phonenumber` serialize as assumed in the
    statements of C50.
* Parameters (anything may be substituted):
  - IDNA `domain_to_ascii_cow` with STD3 rules: any partial function.  Where a theorem needs more it
    assumes `IdnaLaws` (the result is made of lower-case letters, digits, `-` and `.`; converting
    again changes nothing; no empty result; a final dot can be dropped) or, in C55, `Keeps` (three
    names are left alone), or, in C89, `Strict` (names it accepts have letters, digits, `-`, `.` and non-ASCII only), or, in C91, that
    it accepts no text with `@` or `:`.  `Proof/Ldh.lean` has a conversion that satisfies them;
  - `url::Url::parse`: any library whose http, https and ftp URLs have a host (`Spec/Url.lean`);
    `UrlLaws` in C50 (its `Display` parses back);
  - `phonenumber::parse`/`is_valid`, `regex`, `semver`, `serde_json::from_str`, float `FromStr` (except in C83), byte-unit
    parsing: any functions;
  - floats, except in C83: any linear order for the values other than NaN (`-0.0` and `0.0` identified), NaN
    compares with nothing.  Bounds written in an attribute are never NaN (they may be infinite: C70);
  - `syn`: what each kind of `parse_args` reads of a token stream (`Model/Attr.lean`, `Syn`).
* For C77: Cargo's feature resolution (the least set closed under the `[features]` tables, with `dep:x`,
  `x?/y` and `x/y`); which feature of `byte-unit`, `url`, `semver` and `serde` the types and impls used
  stand behind (`existsWhen` of `bitType` ... `mapSerde`); that the deriving crate has
  `use validators::prelude::*`.  The list of items and uses was extracted by a script that is not
  part of this repository, and read over; names without a `cfg`, method resolution and types
  are not checked.  A crate that turns features of `validators-derive` on by itself is not considered.

### Not modelled

The words of the messages of the macro (their parts are: `Model/Diag.lean`) and spans, the types of
struct fields beyond what the macro reads of them, bounds and `where` clauses of generic items (only their parameters, for C79),
asynchronous parts of the Rocket adapters (only the delegation is modelled), memory
representation and performance.

## 4. Plan per property

| Id | Modelled | Proof |
|---|---|---|
| C01 | base-N scanner, parametric in alphabet, block size and padding positions; three instances | equivalence with a grammar by analysing the last block; any length by list induction |
| C02 | the same | from C01, a table fact for all 256 bytes |
| C03 | the four entry points of each kind | unfolding |
| C04 | the padding cases of the scanner | case analysis against the grammar |
| C05 | data-encoding decode; RFC 4648 encode in the specification | induction on blocks, bit lists |
| C06, C07 | the same and the decoding validators | block induction; negations by witness |
| C08, C11 | uuid and mac scanners for every separator option | list destructuring by length, base-16 value lemmas by induction |
| C09, C12 | the same with every index a possible panic | the same; a panicking witness for mac |
| C10, C13 | `to_*_string` | base-16 printing lemmas; negation for every value |
| C14, C15 | range expressions, their generator and evaluation | case analysis on the generator, order lemmas |
| C16 | integer `FromStr` and `Display` | digit induction |
| C17 | the conversion chain between widths, on 16, 32 and 64 bit targets | case analysis with `omega` |
| C18 | scoping of the generated code | decision of closedness for each generator; negation by witness |
| C19–C21 | range expressions for sizes, floats, lengths | the lemmas of C14 |
| C22 | byte automaton of `boolean` | case analysis on the length, table facts on bytes |
| C23–C25 | all templates of line/text | loop invariants by induction on the character list |
| C26, C27 | address predicates | arithmetic, bit masks as div/mod |
| C28–C30 | std IP parser; ipv4/ipv6/ip validators with slicing | parser lemmas by induction; uniqueness of readings |
| C31 | std IP printer | printing is a text of the grammar, then C28–C30 |
| C32, C33 | ports, slices at the last `:` and `]` | from the exact outcomes |
| C34, C35, C58 | domain validator, IDNA as parameter | case analysis on the path, slicing lemmas |
| C36 | `QualifyDomain` | case analysis on the last byte |
| C37, C38 | host validator | the same, with C28–C30 |
| C39 | errors of the network validators | from the exact outcomes |
| C40–C45, C60–C62 | the email parser, byte by byte, with checked subtraction, debug and release builds | loop invariants for the four scanners, then an exact outcome (C62) from which the others follow; negations by witness |
| C46 | url validators over a parameter | unfolding |
| C47 | phone validator over a parameter | list induction, permutation |
| C48 | regex, semver, json, url wrappers | unfolding; integer bounds of JSON numbers |
| C49 | serde deserializers as an event (what the format calls) answered by the visitor | case analysis on the event |
| C50 | serializers as tokens, formats as functions from tokens to deserializers, JSON as an instance | composition of the outcome theorems |
| C51 | a deserializer body is a computation that can call itself; running it needs fuel | induction on fuel |
| C52 | Rocket and `validators::Result` adapters | unfolding, case analysis on the event |
| C53 | the parameter loop with its state, every reader, every attribute | characterisation of the loop by induction, then one iff per attribute; permutation invariance from the iff |
| C54 | the same, with the range and length checks; the validators of C14, C21, C23 for non-emptiness | from C53 and the exact languages; negation by witness |
| C55 | the conflict checks of the handlers; the validators of C20, C58, C62 | a witness per option combination (finite table over all combinations), exact outcomes for the converse |
| C56, C57 | separator errors and injectivity of uuid/mac | from the case analysis of C08 and C11 |
| C59 | domain, host, email outcomes | from C58, C37, C62; negations by witness |
| C63 | `derive_input_handler`: the attribute loop and the dispatch | induction on the attribute list |
| C64 | the field checks of all handlers; what their constructors fill and their methods read | one iff per shape (permutation of distinct names), finite table over all option combinations; negation by witness |
| C65 | the item shown by each shape error | from C64: the item shown is the one filled; negations by witness |
| C66 | the option of each validator as the argument of a function; `Spec/Options.lean` | from the exact outcome theorems (C01, C08, C11, C20, C28-C30, C37, C46, C58, C62); negations by witness |
| C67 | two configurations of the same function; `Spec/Widen.lean` | from the exact outcome theorems (C16, C17, C19-C21, C23, C24); negation by witness |
| C68 | two models side by side; `Spec/Agree.lean` | base64: the tables commute with the exchange, by induction over blocks; others from C28-C30, C37, C58, C23, C24, C46 |
| C69 | pairs of texts; `Spec/CaseFold.lean` | the languages of C08, C11, C22, C28-C30, C37, C46, C58, C62 are closed under case changes, by induction on the grammars; negation by witness |
| C70 | the whole macro of C53, C63, C64; writing a bound as a literal | no reader of a parameter panics, by cases and induction on the loops; negation by witness |
| C71 | the plan of C63–C65 put together with the models of all validators (`Model/Generated.lean`) | case analysis on the plan, from C53, C63, C64 and the language theorem of each validator |
| C72 | the readers of C53 again, with the parts of their messages (`Model/Diag.lean`) | the first refused parameter of the loop, then the reader of that parameter; erasing the messages gives C53 |
| C73 | `line`, `text` with the `usize` addition `max + 1` (`Model/LineMax.lean`) | the early exits never fire below the maximum, by induction on the string; at the end of the range by computation |
| C74 | `Display` of the error types and `IntoResponse` (`Model/Errors.lean`), on top of the whole path from the attribute (C71) | per validator from the theorems about its errors (C04, C06, C14, C19-C21, C25, C39, C46, C56, C61); the specification says what each text claims |
| C75 | the composition of the `expecting` texts in the handlers (`Model/Expect.lean`), as lists of pieces, on top of C71 | the vocabulary of each text, then per validator from what its options allow; completeness from injectivity of the texts |
| C76 | the impls of `Deserialize`, `FromFormField` and `FromParam` put together with the attribute (`Model/Integrations.lean`), on top of C49, C54 and C71 | per validator, the visitor of C49 agrees with the meaning of C71 on each kind of data |
| C77 | both `[features]` tables as rules, all items under a `cfg` with their `cfg`s, all uses of such items with the `cfg`s around them (`Model/Features.lean`, extracted from the sources by a script and read over); Cargo's resolution is the least set closed under the rules (`Spec/Features.lean`) | a closure of each guard under the rules, on bit masks, is proved sound for every request; the kernel then evaluates it for each of the finitely many uses |
| C78 | `Display` and `From` of `Host` (`Model/Host.lean`), the `host` and `email` validators as for C37 and C62 | from C37's exact description of what a text is read as; the three kinds of text exclude each other; IPv6 texts have two colons, names and IPv4 texts none |
| C79 | the headers and item names of all generated `impl` blocks (`Model/Surface.lean`), on top of `derive` | the blocks are reduced to finitely many lists by showing that the branches agree in headers and names, each list is checked by the kernel; the options come from C71_written; the lists of the manual and the trait declarations are in `Spec/Surface.lean`, those of `serde` and Rocket are assumptions; induction over the parameters for generic items |
| C80 | the traits `ValidateSignedInteger`, `ValidateUnsignedInteger`, `ValidateNumber`, `ValidateBytes`, `ValidateChar`, `ValidateBoolean`, `ValidateJsonValue` with their provided methods, the overrides that each handler writes, and `From`/`FromStr` for `validators::Result` (`Model/Traits.lean`) | all methods of a trait are shown equal to the one of 128 bits on the values of their type (casts are the identity there), then to one answer per content; the accepted contents from C06, C16, C18, C19, C22, C48 and C71; the laws of the libraries are `Spec.Traits.Lawful` |
| C81 | the constants that the feature `test` adds, with names, types and values, and the functions of their types (`Model/Constants.lean`); literals are kept as number and suffix, not as tokens | each constant is related to the parameter of the attribute by the relations of C53 and C71 (`Spec.Constants.Shows`); what holds of the accepted strings follows from C71; that the constants determine the code, by injectivity of the conversions |
| C82 | the order in which the `HashSet` of countries gives its elements is a parameter of the macro (`Attr.Order`: any permutation) | `derive` with one order is `derive` with another, followed by a permutation of the countries (`derive_map`, by naturality of the loop over the parameters); the behaviour by C47 |
| C83 | floats as bit patterns (`Model/Float.lean`): comparison, `FromStr`, `as` between `f32` and `f64`; the generated tests over them | a homomorphism from the bits to the extended rationals carries C18 and C20 over (`check_eq`); `FromStr` and `as` are round-to-nearest (`ofRatio_rounds`), which is unique and monotone; the grammar of texts by inversion; the attribute by C53 (`Props/FloatAttr.lean`) |
| C84 | nothing new; the checks of each validator as a list in `Spec/Order.lean`, those of `email` in `Spec/EmailOrder.lean`, those of `line`, `text`, the base-N texts, `uuid` and `mac_address` in `Spec/TextOrder.lean` | case analysis on the checks, one after the other; for the addresses from the exact conditions of the errors (`Props/IpErrors.lean`) |
| C85 | nothing new; the bound as a function of the options, and the options without one, in `Spec/Longest.lean` | lengths of the texts of the specification; from the specification of what is accepted (C71) |
| C86 | nothing new; control and printable characters, the options it is about and the exceptions in `Spec/Control.lean` | from the specification of what is accepted (C71, C62), character by character; negation by witnesses |
| C87 | the bodies of the generic functions as programs with calls of the caller's `AsRef`, `Into` and `len`, which have a state, may panic and may answer differently each time (`Model/Input.lean`); `Once` and `Never` in `Spec/Input.lean` | each body is a call followed by code without calls (`Once`); outcome by C71_entry_points; UTF-8 by C02 |
| C88 | nothing new; a reader of URLs after RFC 3986 in `Spec/Uri.lean` | the authority strings have no delimiters (characters of addresses and of IDNA results), and the reader cuts at delimiters; exceptions from C58 |
| C89 | nothing new; a reader of mail addresses after RFC 5322 in `Spec/Mailbox.lean` | the parts of an accepted string from C62, and what the reader does at each of them |
| C90 | nothing new | the printers are cut back into their pieces: at fixed lengths (uuid, mac), at the first or last delimiter (ports, brackets, comments), at the first quotation mark that is not escaped (emails) |
| C91 | nothing new | from the exact characterisations of `email`, `host`, `ipv4` and `ipv6` (C62, C37, C28, C29) and the greatest lengths of addresses (C83) |
| C92 | nothing new | the lists of checks of C84 for two strings with a common beginning agree up to a check that finds something in both |
| C93 | nothing new | two runs of the parsers with different conversions are compared step by step; they can only differ at the call of the conversion |
| C94 | nothing new | a text is built for each value (digits in groups, an encoding, a numeral, units of 2^-k as a decimal with exponent, an address with a port, a name or an address after a local part) and read by the exact theorem of the validator; the bounds of the other direction come from the same theorems |
| C95 | nothing new | a numeral is a decimal text; from the exact languages C16 and C83; small integers as shifted bit patterns |
| C96 | nothing new | lengths of digits, segments and groups; for email the two sides of `Denotes` (C62) and the limits of C42 |
| C97 | an inductive relation: some network validator with this `local` option returns this host | the exact theorem of each validator for the locality, C66 for the other direction |
| C98 | nothing new | the decoders distribute over whole blocks; the language of C01 cut at a block boundary; sizes and cleanliness of appended strings |
| C99 | nothing new | from the exact language of emails (C62): its conditions with and without the comments |
| C100 | two `Libs` that differ in `checked` and `ptr` only | the places that read the two flags, lifted through `bind`; C17 and C80 for the methods of `isize`, `usize`; C73 below the largest maximum |
| C101 | nothing new | `Display` of `Ipv6Addr` against RFC 5952: digits by induction, the run of zeros from all 256 patterns of zero segments |
| C102 | nothing new | every digit string is zeros and the digits of its value (induction on the last digit); then C16, C28–C30, C37, C58 |

No property is outside the model completely; the parts listed under "Not modelled" are
named in the notes of `MANIFEST.json`.

## 5. Disagreements found (property false of the code)

Each is proved as a negation with a concrete witness (or for every value), next to the theorem
for the part that does hold.

* C06: with padding, the same bytes have several accepted texts (`QQ==QQ==` and `QUE=`).
* C07: `validate_*` of the decoding validators accepts texts that `parse_*` rejects
  (`A`, non-zero trailing bits) and, with padding, rejects texts that `parse_*` accepts
  (`QQ==QQ==`).
* C10, C13: `to_uuid_string` / `to_mac_address_string` print the separator byte as a decimal
  number (`format!("{separator}", separator = 58u8)`), so with a separator no printed value
  can be parsed back.
* C12: `mac_address` with `separator(Allow)` slices out of range, e.g. on `00:00:00:00:`.
* C18: `unsigned_integer` with a two-sided `Outside` range refers to the unbound name `i`;
  `length` with `min == max` refers to the unbound name `length`.
* C24: with `trimmed_min`, leading white space is not checked, so a `line` may start with a
  line feed.
* C25: with a maximum in characters, the trimmed length is computed on a truncated
  prefix, so `TooShort` may be reported for a string that is only too long.
* C35: an IPv4 `domain` with a port stores `addr:port` as the domain and prints the port twice.
* C38: a name that IDNA maps to one with a final dot, or to an IPv4 text, does not survive
  (conditional on such a mapping, which UTS 46 has for U+3002 and full-width digits).
* C39: `host` reports `AtLeastTwoLabelsDisallow` for a lone `[` (not a host at all) and for IPv6 addresses.
* C40: `64 - local_part_length` underflows in the email parser when overflow checks are on.
* C41: anything after the comment that follows the domain part is ignored.
* C42: the 64-byte limit is tested by `p == 64` / `p == 63` only on some bytes and can be jumped over.
* C44: `to_email_string` drops quotation marks it should keep; and the written form may exceed the limits.
* C45: a blank after a backslash keeps the escape open.
* C50: signed integers that are not negative (JSON), integers beyond 64 bits (JSON), non-finite
  numbers, decoded base-N values, uuid and mac with separators, phone with several countries and
  `json` do not survive serialize/deserialize.
* C51: `Deserialize` of `url`, `semver` and `semver_req` calls itself for ever.
* C54: the `..` syntax of ranges (feature `full`) does not check the order of bounds; an excluded
  maximum that is the least value of the type is not refused either.
* C55: `number` refuses `nan(Must)` with `Inside` although NaN passes every range, and does not refuse
  `nan(Disallow)` with a range that no number satisfies.
* C59: `email` accepts `a@127.0.0.1` as a domain whatever the `ip` and `local` options; `domain` and `host`
  accept what IDNA turns into an IPv4 text (conditional on the mapping).
* C60: an unquoted local part may end with a dot.
* C64: `http_url` and `http_ftp_url` only count two named fields, so a struct with other names is accepted and the
  generated code does not fit it.
* C65: the struct shown for `unsigned_integer` has signed types (following it leads to the same error again), for
  `byte` a `Bit`, for `phone` with at most one country a `String`; on an enum or union `domain` and `email` show a struct that ignores the options.
  With several countries `phone` shows the right type, spelled `std::collection::HashMap` (the module is `collections`): whether a path
  that is shown resolves is outside the model.
* C66: `base64_decoded(padding(Must))` accepts `QQ==QUJD` and `padding(Allow)` refuses it: `Allow` chooses the decoder by the
  last byte. With no restricting option `domain` stores `10.0.0.1` for `10.0.0.1:80`; with `local(Must)`, `ipv4(Must)` or
  `at_least_two_labels(Must)` it stores `10.0.0.1:80`.
* C67: dropping `trimmed_min = 1` from `line` makes it refuse `"\na"`, which it accepted: with `trimmed_min` the leading white space
  is skipped without looking for control characters. Proved otherwise, and for all other ranges.
* C69: `email` compares the tag of an IPv6 literal as it is written: `a@[IPv6:::1]` is accepted, `a@[ipv6:::1]` is refused (RFC 5321
  tags are not case-sensitive).
* C70: `number(range(Inside(max = 1e999)))` makes the macro panic: `"1e999".parse::<f64>()` is infinity, and `quote` writes bounds with
  `Literal::f64_suffixed`, which panics unless the number is finite (documented by `proc_macro`; assumed, as these crates are not here).
* C71: no new disagreement, but it inherits C07, C12, C18, C24, C40 and C73.
* C72: `line(char_length(min = 1), byte_length(max = 3))` is refused with "you are trying to reset the `byte_length` parameter", which is
  given only once: the two parameters share the flag `length_is_set` (`utf8_attribute.rs`).
* C73: `line(char_length(max = 18446744073709551615))` generates `s.chars().take(18446744073709551615usize + 1)`. Where rustc does
  not refuse the overflow, every string panics (overflow checks on) or every string is accepted, also `"\n"` (checks off).
* C74 inherits C73: with `line(char_length(min = 1, max = 18446744073709551615))`, without overflow checks, `"a"` is refused with
  "line is too short".
* C75: the text of `text` says "a line" (`text/mod.rs` L781, copied from `line`); "an ASCII email" accepts `(é)a@b.com` and `a@é.com`;
  "at-least-two-labels" accepts `localhost`; "a number in 1..=5" accepts NaN; with `range(Outside())`, "not in .." accepts everything. The
  texts do not mention `at_least_two_labels(Disallow)` of a `domain` with `ipv4(Disallow)` or `ipv4(Must)` (`domain/mod.rs` L998-1026 has
  no branch for it), `comment` and `local` of an `email`, whether lengths are in characters or bytes, or the range of a `byte`.
* C76: no new violation; it carries C51 (endless), C73, C12 and C40 to the derived impls.
* C77: `json` does not turn `std` on, yet the generated impl of `ToJsonString` names `String` without a path
  (`validators-derive/src/validator_handlers/json/mod.rs` L219, L223; everywhere else the generated code writes
  `validators_prelude::String`): deriving in a `#![no_std]` crate with features `derive` and `json` does not compile
  (`C77_violated_json`). The others that need the standard library are listed in `C77_generated_exactly` and turn `std` on.
* C78: as for C38 and C59, a `Host` that is a name may end with a dot, and then its text is refused (`C78_violated_dot`), or be
  the text of an IPv4 address, and then it prints like this address: the `email` validator reads `a@127.0.0.1` and
  `a@[127.0.0.1]` as different hosts with equal texts (`C78_violated_alike`). No other hosts print alike (`C78_alike`).
* C79: the manual lists `ValidateLength` for `line` and `text`, which implement `ValidateString` instead, and `CollectionLength` for
  `length`, which does not implement it (`C79_violated_manual`). The macro never reads `ast.generics`: it accepts a generic item, but
  writes the type without arguments in every header, so the output does not compile, or is for the default instance only
  (`C79_violated_generic`, `C79_compiles`).
* C80: `parse_f64` of a `number` validator on an `f32` casts the number to `f32` first, so that it accepts an `f64` outside its range that
  rounds to one inside, and keeps another number than the one given (`C80_rounds`, `C80_violated`).
* C81: `regex` has no constant, so a test cannot tell from the constants what it accepts (`C81_violated_regex`). Without a range, `V_RANGE`
  of `bit` and `byte` is `Inside` without bounds, where all others have `Unlimited`; this says the same and is part of `Shows`.
* C82: `phone` keeps its countries in a `HashSet`, so the generated code is not reproducible: for two or more countries the constant
  `V_COUNTRIES`, the text that `serde` shows and the order of the generated statements change from one compilation to the next
  (`C82_violated_order`, for every such item). What the program accepts and returns does not (`C82_parse`).
* C83: `number` rounds before it compares. With the maximum 1 the text `1.00000000000000000001` is accepted; with the exclusive
  maximum 1 the text `0.99999999999999999999` is refused as too large; a validator over `f32` accepts an `f64` above its maximum
  (`C83_violated`). Inclusive ranges refuse no number that lies in them (`C83_inside_accepted_partial`).
* C86: an `email` with `comment(Allow)` accepts any text without `)` as a comment, also line breaks, and `to_email_string` writes it back:
  `a@b.com(\r\nBcc: c@d.com\r\n)` is accepted and, put in a mail header, begins another header (`C86_violated_email`). `line` with
  `trimmed_min` keeps a leading line feed (`C86_violated_line`, C24).
* C88: the authority string of a `domain` accepted as an IPv4 address with a port has the port twice (C35), so a URL with it has `80:80` in the
  place of the port (`C88_violated_domain`).
* C89: `((x)a@good.com(y))eve@evil.com` is accepted as `a@good.com`; comments do not nest and what follows the last one is ignored (C41). By RFC 5322
  it is an address at `evil.com` (`C89_violated_nested`). A blank after a backslash (C45) does the same without nested comments
  (`C89_violated_blank`), also to what `to_email_string` writes (`C89_violated_written`). Under `comment(Disallow)` the written form of `" a "@x.yy`
  is read as the mailbox `a` (`C89_violated_disallow`).
* C90: `to_uri_authority_string` writes `８.8.8.8` (a name that IDNA converts) as it writes the address `8.8.8.8` (`C90_violated_host`), and `x.yy.` as
  it writes `x.yy` (`C90_violated_domain`).
* C92: `byte_length(max = 2)` with `trimmed_min` reads to the end of a string of any length before it reports an error, and the end decides which
  one (`C92_violated`); all other combinations stop after the maximum.
* C96: an email of 316 bytes with a quoted local part is written in 322 bytes (`C96_quoted`), and one with a long local part beyond ASCII in
  326 (`C96_long`), more than the 320 that are accepted: an IPv6 address is written longer than it was read, and the check counts two bytes less.
* C100: debug and release builds answer differently for the emails of C40 (`C100_violated_checks`), and `line(char_length(max = 4294967295))`
  refuses a line break on a machine with pointers of 64 bits and accepts it on one with 32, in release builds (`C100_violated_machines`).

Behaviour that no property rules out but that a user may not expect, visible in the exact outcomes:
ports may have a sign and leading zeros (`:+080`); `non_ascii(Disallow)` does not concern comments
and the domain; NaN passes `Inside` unless `nan(Disallow)`; an `f32` validator rounds an `f64`
before it checks the range; a phone number has to be valid for every listed country it parses for;
`byte` reads only `u128` from formats that are not human readable; the `..` syntax cannot take negative
literals.

## 6. Axioms per theorem

From `#print axioms` for every theorem in `MANIFEST.json` (names without `Verif.Props.`).

* None: `Boolean.C22_bool`, `Line.C23_validate_agrees`, `Serde.C51_violated`.
* Only `propext`: `BaseN.C04_empty`, `Range.C18_signed_closed_partial`, `Range.C18_number_closed_partial`, `Range.C18_size_closed_partial`, `Range.C18_violated`, `Range.C20_nan`, `Boolean.C22_validate`, `Boolean.C22_int`, `Line.C24_violated`, `Line.C25_violated`, `Phone.C47_validate`, `Wrapper.C48_json_other`, `Serde.C49_base`, `Serde.C49_number`, `Serde.C49_byte`, `Serde.C49_inner`, `Serde.C49_bit`, `Serde.C49_read`, `SerdeBack.C50_numbers`, `SerdeBack.C50_byte`, `SerdeBack.C50_inner`, `SerdeBack.C50_json_keeps`, `SerdeBack.C50_json_numbers_partial`, `SerdeBack.C50_json_numbers32_partial`, `Serde.C51_number_finishes`, `Serde.C52_result_texts`, `Serde.C52_result_number`, `Serde.C52_result_read`, `Attr.C53_separators`, `Derive.C63_not_set_up`, `Derive.C63_request_or_faulty`, `Derive.C65_domain_violated`, `Diag.C72_same_choice`, `LineMax.C73_validate_agrees`, `LineMax.C73_panics`, `Errors.C74_distinct`, `Errors.C74_whose_words`, `Surface.C79_width`, `Traits.C80_result`, `Constants.C81_typed`, `Constants.C81_functions`, `Order.C84_one_error`, `Input.C87_is_empty`.
* Only `propext`, `Quot.sound`: `BaseN.C03_entry_points_agree`, `Range.C16_validate`, `Range.C18_unsigned_closed_iff_partial`, `Range.C18_length_closed_iff_partial`, `Range.C20_text`, `Wrapper.C48_regex`, `Wrapper.C48_library`, `Serde.C49_json`, `SerdeBack.C50_base`, `SerdeBack.C50_json_json_violated`, `Serde.C52_result_agrees`, `Serde.C52_rocket`, `Serde.C52_conversions`, `AttrBounds.C55_number_refused`, `Derive.C63_accepts`, `Derive.C63_ignores_others`, `Derive.C63_repeated`, `Derive.C63_faulty`, `Derive.C64_integers`, `Derive.C64_floats`, `Derive.C64_http_partial`, `Derive.C65_can_follow`, `Derive.C65_unsigned_violated`, `Derive.C65_type_violated`, `Widen.C67_text_violated`, `Diag.C72_same_outcome`, `Diag.C72_available`, `Diag.C72_choice`, `LineMax.C73_below`, `LineMax.C73_wraps`, `LineMax.C73_violated`, `Errors.C74_response`, `Features.C77_library`, `Features.C77_macro`, `Features.C77_generated`, `Features.C77_generated_exactly`, `Features.C77_std_partial`, `Features.C77_aligned`, `Features.C77_variants`, `Features.C77_compile_error`, `Features.C77_default`, `Features.C77_alone`, `Surface.C79_compiles`, `Surface.C79_violated_generic`, `Reproducible.C82_derive`, `Reproducible.C82_messages`, `Reproducible.C82_interface_partial`.
* `propext`, `Classical.choice`, `Quot.sound`: the other 517 theorems.

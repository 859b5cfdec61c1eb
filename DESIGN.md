# asn1-rs: formal model and proofs (design)

Subject: `rusticata/asn1-rs` as found in `/repo` (read as text only, never built).
Tool: Lean 4.33.0. Everything lives in `lean/Verif`.

## 1. Trusted base

* Lean's kernel.
* Axioms: at most `propext`, `Classical.choice`, `Quot.sound` (Lean's standard ones).
  `Verif/Axioms.lean` fails to build if a property theorem depends on anything else.
  No axiom is added; there is no `sorry`, `admit`, `native_decide` or `bv_decide`.
* The correspondence between the Rust text and the Lean model. Each model definition cites
  the file and lines it transcribes and says where it simplifies.
* The specification files (`Verif/Spec/*.lean`), which are short and independent of the model.

## 2. How the code is modelled

| Rust | Lean |
|------|------|
| `u8`, `&[u8]`, `Vec<u8>`, `Cow<[u8]>` | `UInt8`, `List UInt8` |
| `Input { data, span }` | `structure Input` with `data`, `start`, `stop` |
| `u32` tag, `usize` length | `Nat` (with explicit `% 2^32` / `2^64` where the code can wrap) |
| machine integers of N bytes | `Nat` / `Int` plus the width `N` (every width at once) |
| `nom::IResult<Input, T, BerError<Input>>` | `Except PErr (Input × T)` |
| `nom::Err::Incomplete(Needed)` | `PErr.incomplete n` |
| `nom::Err::Error(BerError{input, inner})` | `PErr.error input inner` |
| panic (`assert!`, slice index, ...) | `PErr.panic` – an explicit outcome |
| loop that does not terminate | `PErr.diverge` – explicit outcome when the fuel (the input length) is exhausted |
| traits `BerParser`, `DerParser`, `ToBer`, `DynTagged` | records of functions (dictionaries) |
| `W: Write` | `Wr`: a program that calls `write_all` and looks at the answer, run against any writer |

`usize` is taken to be 64 bits wide, except in `Model/Width`, which has the decoders for `w` bits
(C134), and in `Model/SizedEncoder`, which has the encoders with the additions of `usize` of any
width (C138). Elsewhere `lhs + rhs` on `usize` lengths is modelled on `Nat`
(no wrap-around): a length sum above 2^64 can only come from shared or zero-sized values.
The logging/trace wrappers (`trace_input`, `trace_generic`, `log_error!`) are the identity
without the `debug` feature and are dropped. `Err::convert` is the identity on the model's
single error type.

The feature `datetime` calls the `time` crate, which is not in /repo: `Model/Calendar` models the
functions called from their documentation (version 0.3, without `large-dates`), so C70 is relative to
that model.

Texts are lists of `Char` (`Model/Text`). The UTF-8 and UTF-16 decoders of Rust's standard library,
which is not in /repo, are modelled from their documentation (Unicode tables 3-5 and 3-7); that they
invert Lean's encoder `String.utf8EncodeChar`, respectively the UTF-16 of the specification, is proved.

`f64` is modelled from IEEE 754 (`Model/Float`): exact numbers `±n * 2^e`, rounding to nearest even,
gradual underflow, infinities and one NaN. Decimal conversions (`str::parse::<f64>`, `Display`, `powi` of
a base other than 2) are the parameters of `FloatLib`: theorems hold for all of them, or state what they
assume (`ReadsBack` in `Spec/Real`, `Honest` in `Spec/Decimal`, which a library in `Props/RealDecimal` meets). Overflow of integer arithmetic in REAL is a panic, as in debug builds.

`num-bigint` (feature `bigint`) is not in /repo: `BigInt` is `Int`, `BigUint` is `Nat`, and
`BigInt::from_signed_bytes_be` is modelled after the published source (`Model/BigInt`).

Not modelled: `Display`/`Debug` output (except of OIDs, times and errors), lifetimes (which octets of the input a value refers to is C104), memory allocation
failure, procedural-macro expansion itself (the code *generated* for containers is modelled
where stated, and so is how the macros read attributes, from what `syn` makes of the tokens: C111, C112, C117; which attributes a macro sees is taken from a comment in the code). Of
examples/dump-der.rs: arguments, files, PEM, colours and the texts of the lines.

## 3. Module plan

Mathlib (rational numbers, `linarith`) is used in `Proofs/DecimalRat` and `Props/RealDecimal` only.

* `Verif/Base/*` – byte and bit lemmas, big-endian numbers.
* `Verif/Model/*` – transcription of the code, one file per Rust file or group.
* `Verif/Spec/*` – independent specifications (X.690 grammar, two's complement, ...).
* `Verif/Proofs/*` – helper lemmas.
* `Verif/Props/*` – the property theorems, each with an `example` showing that its
  hypotheses are met by a concrete non-trivial case.
* `Verif/Tests/*` – the project's own tests, transcribed and evaluated on the model by the kernel. They are
  tests of the *transcription* (the tests pass on the real code, so a definition of the model that disagrees with
  one is wrong), not proofs, and no claim rests on them. Transcribed: `tests/ber.rs`, `tests/der.rs`,
  `tests/to_der.rs`, the other files of `tests` that look at values, `tests/run-pass`, the unit tests in `src`,
  `impl/tests/test_oid.rs` and the examples in the documentation that assert something. No test disagrees with the
  model. Left out: assertions about types only (`assert_traits_*`, lifetimes) and `Debug` texts.

## 4. Properties

For each property: what is modelled, how it is proved. A property that the code violates is
recorded as a negation with a concrete witness next to a `_partial` theorem that states the
strongest version proved.

| id | model | proof idea |
|----|-------|------------|
| C01 | header writer and parser | base-128 and base-256 digit inversion; case split on tag/length form |
| C02 | header writer and parser, spec of header grammar | any accepted header with the same fields has at least as many digits |
| C03 | header parser, grammar in `Spec/Header` | inversion of the parser (soundness), construction (completeness); truncation of 5-septet tags is a recorded deviation |
| C04 | `parse_ber_any`, `parse_der_any`, spans | invariant "suffix with advanced span" threaded through header, skip loop and content extraction |
| C05 | same | induction on depth and fuel |
| C06 | same | monotonicity of `Incomplete` under short extension |
| C07 | same | corollary of C05 (success on a prefix would give a shorter remainder) |
| C08 | same | panic/diverge unreachable: induction on depth and fuel, each loop turn consumes a byte |
| C09 | same | induction on the nesting depth |
| C10 | `Header::parse_der`, DER content | inversion |
| C11 | both parsers and the typed content parsers | inversion |
| C12, C13 | integer codecs, any byte width | big-endian digit lemmas, sign extension |
| C14 | integer encoders | spec `twosValue`, minimality predicate |
| C15 | integer decoders | spec `twosValue`; sign-extended negatives are rejected by the code (recorded) |
| C16 | DER checks | injectivity of minimal two's complement |
| C17 | `Integer` | byte-level |
| C18 | `ber_length_length`, `ber_total_length`, all codecs | length lemmas; wrong for contents of 2^24 bytes and more (negation with witness + partial) |
| C19 | `Boolean`, `bool` | case analysis; `from_der` on an empty content panics (negation with witness) |
| C20 | `Null`, `()` | case analysis |
| C21 | `Enumerated` | from integers |
| C22 | `OctetString`, `&[u8]` | from header round-trip |
| C23 | `parse_ber_segmented` | induction on the segment tree |
| C24 | `BitString` as list of bits | chunking lemma |
| C25, C26, C27 | `Oid` | base-128 inversion; prefix-freeness |
| C28, C29 | tagged values/parsers, `ToBer` default methods | generic over a codec satisfying the round-trip law |
| C30 - C34 | `Vec`, `SequenceOf`, `SetOf`, `BTreeSet`/`HashSet`, arrays, tuples, raw `Sequence`/`Set`, the indefinite-length wrapper | induction on the list, generic over the element codec; sets are any implementation of finite sets (`SetImpl`) with two instances; the arity of tuples is a list of component types, so every macro instance at once |
| C35, C36 | optional parsers | case analysis |
| C37 | iterators | induction on content length |
| C38 | `FromDer`/`DerParser` paths | case analysis; deviations recorded |
| C39 | `Any` encoder | from C01/C04 |
| C40, C43 | `from_bytes` of times, text grammar in `Spec/Time` | inversion of the digit decoders; both directions |
| C41, C42 | encoders of times | what is written is a text of the grammar; milliseconds are the recorded deviation |
| C44 | restricted strings | per-alphabet; generic over the charset predicate |
| C45, C46 | BMP/Universal strings | list of code units/points; the code's inverted `constructed` test breaks the empty string (negation), UniversalString header length wrong for non-ASCII (negation) |
| C47 | error enums | case analysis |
| C48 | header equality | not transitive: negation with witness; reflexive/symmetric part proved |
| C49 | `Length` | algebra |
| C50 | `Wr` programs run against any writer | every encoder is `Strict` (stops at the first error); closure under bind and the type constructors |
| C51 | typed decoders | violated (tag number only): negation with witness |
| C52 | all round-tripping codecs | corollary of the round-trips |
| C53 | special REAL values, also as `f64` | case analysis |
| C54 | generated `content_len` and `write_content`, generic over the list of fields | list induction; exact count; violated for IMPLICIT fields near length-form boundaries |
| C55 | generated CHOICE code | generic over the list of variants and their types; induction on the list |
| C56 | generic parsers | equivalence with the element grammar of `Spec/Ber` |
| C57 | `Oid::to_id_string`, `FromStr` | decimal digit inversion, splitting at dots |
| C58 | `oid!`, from the text of its tokens to the text of the array (`Model/Macros`) | both encoders give the unique minimal sub-identifiers; the text splits uniquely, induction on it |
| C59 | `int!` | violated for 0 and leading octets from 128: exact characterization |
| C60 | `ExactSizeIterator` of OIDs | violated for a third arc below 128: exact characterization |
| C61 | typed decoders | panic/diverge unreachable, per content parser |
| C62 | EXPLICIT values | from the prefix lemma of the inner decoder (`Local`) |
| C63 | run-time tagged parsers | inversion; the missing checks are recorded as deviations |
| C64 | byte-slice decoders | the error conversions never yield `Incomplete`; `from_der` of EXPLICIT tags is the recorded deviation |
| C65 | typed parsers of every modelled type | a simulation `Sim` between two runs on inputs with the same first bytes (`Proofs/LocalTypes`), closed under every parser combinator |
| C66 | raw `Sequence`/`Set` (content plus the `Cow` variant), `AnySequence` | `Encodes` of any content; objects read back one by one (`Objs`) |
| C67 | `*_and_then` | inversion of the binds; the `unreachable!()` is an explicit panic, shown unreachable |
| C68 | DER decoders of times | from the grammar of C40/C43; unchecked rules recorded as deviations |
| C69 | derived `Ord` | lexicographic; against the day count of `Spec/Calendar` |
| C70 | `to_datetime`, `utc_adjusted_datetime`, `timestamp`, and a model of the functions of the `time` crate they call | day count by induction on the years; leap years agree in the two windows |
| C71 | `as_any_str`, `as_any_string` | case split on the tag; same UTF-8 decoder as the typed parsers |
| C72 | `decode_real` | inversion; bytes folded with shifts against `twos` and `beNat` |
| C73 | `ber_write_content` of REAL | loop invariants of `drop_floating_point` and of the normalization; two's complement of the exponent |
| C74 | `Real::new` | each turn of the loop multiplies by ten: the leading bit moves by at least three places, so the loop ends; exact on integers |
| C75 | `Real::f64` | rounding a rounded number again after multiplication by a power of two is rounding once (`round_scale`), and rounding gives the nearest number (`round_is_nearest`) |
| C76 | generated `from_ber_content`/`from_der_content`, generic over the list of fields | inversion of each kind of field, then list induction |
| C77 | the same with the generated encoders | each field comes back from where the previous one ended |
| C78 | the same with fields of type `Option`; calls of `DynTagged::tag` get fuel | the encoder has not returned for any fuel; what is written for absent fields |
| C79 | generated code of `#[derive(Enumerated)]` and the numbering of the variants | from C21; the position of a number in a list without repetitions |
| C80 | generated code of aliases | inversion of one bind |
| C81 | generated `TryFrom<Any>`, `FromDer`, `check_constraints`, generic over the list of fields | as C76 and C77 on byte slices; agreement by moving the input to another position (`Local`) |
| C82 | `Spec.Built`: an inductive family of the parser pairs a user can make from the crate | one invariant (`Fine`) closed under every type constructor, then mutual induction |
| C83 | `Spec.Value`: an inductive family of values with encoder and both parsers of their type | one invariant (`Sound`) closed under every type constructor, then mutual induction |
| C84 | `Spec.Encodable`: an inductive family of encoders with a value | one invariant (`Orderly`: stops at the first error of the writer, no panic) closed under every type constructor, then mutual induction |
| C85 | `anyInto`: the conversion methods of `Any`, generic over the parser of the type | the content parsers do not depend on the tag; round trip from C15 |
| C86 | `anyOptional` over `TryFrom<&Any>` | no content parser returns `UnexpectedTag` (`Quiet`), type by type |
| C87 | `anyIterElements` | from C37 |
| C88 | `headerBerContent`, `headerDerContent` | from the exact description of contents (C04, C09) |
| C89 | `pdvContent`, `pdvP`, `pdvCheck` | inversion of the binds, from C29, C35 and C44 |
| C90 | `utcDisplay`, `genDisplay`, `dateTimeDisplay` (Model/TimeText) | the text without separators is a text of C40/C43, by the exact description of the decoders; injectivity from the reading back |
| C91 | `BitString.new`, `isSet`, `eqv` | position of a bit in the list of all bits; bytes are determined by bits and zero padding |
| C92 | `endOfContentBer` | from the exact description of headers (C01) |
| C93 | `parseBerAsInput`, `parseDerAsInput` | it is the parser of the type whose content parser returns its arguments |
| C94 | `traceInput`, `traceBytes`, `hexDump` and the traced functions (Model/Debug) | every content parser returns a suffix: induction over the type and over the iterations |
| C95 | `Integer.asBigint`, `asBiguint`, `fromConstArray`, `fromSignedBytesBe` | invariant of the carry: bytes and complement add up to a power of 256 |
| C96 | `F64.toF32`, `f32P`, `f32ToBer` (Model/Float32) | rounding by cases on the last place; the numbers of the format are multiples of the same power of two; f32 is a mapped f64 |
| C97 | `Header.toStatic`, `RawSeq.toStatic`; `Shared.toStatic` for every other type, derived ones included (`Model/ToStatic`) | content parsers do not look at the raw header (Strong); mutual induction on values |
| C98 | `AnySet`, `HashImpl` (any hasher, any order of iteration) | components are at increasing positions, so never equal; `C66_any_sequence_*` |
| C99 | `aliasTryFrom`, `aliasFromDer`, `aliasAnyFromDer`, `aliasCheck` (Model/Derive) | by cases on the steps; the missing check is the only difference |
| C100 | `GParser` and the parsers over it, `GSlice` and the decoders over it (Model/CustomError): the parsers of Model/Typed, Tagged, Containers, Derive with an arbitrary error type | `Retyped` relates a type definition without and with the attributes; mutual induction shows that the outcomes correspond, for every relation between errors that the conversions preserve |
| C101 | `Header.with…`, `Any.withClass`, `Any.withTag` (Model/Builders) | unfolding; the identifier octets determine class, form and tag number (`ident_determines`), so stale ones differ |
| C102 | `refToBer`, `refOptionToVec`, `toDerLen` (Model/Builders) | the reference passes on the required methods; deviations computed from `optionTag` and the header length |
| C103 | iterating over arbitrary octets of an OID | octets split into groups (`Spec.Groups`), the loop of `next` on each |
| C104 | references into the input | Model/Sharing: the decoders again, with the variant of the `Cow` and the range of the input a reference points to. Same values, remaining inputs and errors as the other decoders (homomorphism of the segmented parser); borrowed exactly for primitive objects; the position of the range from the header grammar. |
| C105 | `Tagged`/`DynTagged` of every type with an encoder (`Model/DynTagged`: two tables, with citations), used by IMPLICIT tags, CHOICE and aliases | the octets of an encoding are split into identifier and rest; replacing the identifier leaves the rest; induction on the table. Deviation theorems for the four types that do not declare that they are constructed |
| C106 | decode, encode, decode (`Spec/TwoWay`: the types with encoder and parsers, the conditions on decoded values) | induction on the type: every decoded value meets the conditions under which encodings come back (`Spec.Value` of C83); for an untagged CHOICE the tag of the encoding selects the same variant. For sets (`C106_sets`): the values written are those of the set, in some order, and a set does not depend on the order of insertion; `Spec/TwoWayUpTo` has such sets at any place, with the equality of the type, and the induction gives an equal value. Deviations are computed |
| C107 | a part of an accepted object | an error of a parser is kept when bytes are appended, or the bytes end within a tag (`Firm`, by induction on the loops); with C06 and the locality of the parsers. Deviation: the loop over the octets of a tag number, at any depth |
| C108 | a reader with a buffer (`Spec/Stream.feed`, a program that takes the parsing function as a parameter) | `feed (read x) y = read (x ++ y)` by induction on the buffer, from the stability of all three answers; induction on the pieces |
| C109 | a reader that asks for as many bytes as `Incomplete` says (`Spec/Stream.readOne`) | invariant: the bytes read are part of the object; C06 bounds what is asked for |
| C110 | `Spec/DerTree`: objects that are DER at every level; values made of parts (`Composed`), without the decoders | induction on `Composed`: the content of a value with the constructed flag is a list of such objects; the walk by induction on the way down, with C37 |
| C111 | `Model/Attributes`: the loop over the attributes of a field, the arguments of a tag, which parser is generated. `Spec/Attributes`: which attributes are admissible and what they say, without the loop | induction on the list from its end; uniqueness of what is said; permutations of lists without repetition; C83 for the round trip |
| C112 | the same for the attributes of a type and of the variants of a CHOICE; which implementations are generated | induction on the lists from their end; C55 for the numbers |
| C113 | `Spec/Place`: a part of an input with its span. Errors already carry their input in the model | a predicate on results preserved by every combinator, with the lemmas on remainders (C82); induction over the types built and over the iteration |
| C114 | `Spec/Weight`: what the values of a type hold, for each type of `Spec/Built` | a bound on contents and on reads preserved by every combinator; loop invariant over the iterators; induction over the types built |
| C115 | `Model/Work`, `Model/WorkTyped`: versions of the reading functions returning the number of headers read; `Spec/WorkTyped`: the types as data, with their parsers, counting parsers, bound and number of objects | two bytes paid for each header read: invariant of the skipping loop by induction over the depth, of the iterators over the steps; mutual induction over the types; every built type has such a description |
| C116 | `Spec/Canonical`: the canonical form of a type, by X.690 headers and concatenation only | by induction over the type: what is decoded is encoded as one object of the form, and an object of the form read by the parser has the identifier and the content the encoder gives |
| C117 | `Model/CheckDerive`: the attributes of a type and what each macro generates | by induction over the attributes; an identifier matches a pattern exactly if it is the name of one of the macros (for plain names) |
| C118 | `Spec/Order`: octet strings compared as in X.690 11.6 | comparison of two encodings of one type reduced to their lengths and contents; parsers cut the content into pieces which can be permuted |
| C119 | `Spec/Form`: the lists of the types with primitive and with constructed values | the content parser fails before it looks at the content; the same for every way to read an object |
| C120 | `Spec/Fault`: the faults of a content, one per line, and the decoders of each kind | every content parser is split into its checks; case analysis on the octets; a content has at most one fault |
| C121 | `Spec/Refusal`: mutual relations `Fails` (at an input), `Refuses` (an object), for items, components, fields, variants | one direction by induction on how the type is built (`Built.rec`), the other by induction on the refusal (`Fails.rec`) |
| C122 | `Spec/Decimal`: nearest decimal numbers, `Honest` | relative errors over the rationals (Mathlib): every number in the range has one of the format within 2^-53; at most 270 turns of the loop; errors add up; exact cases by uniqueness of the odd part |
| C123 | `Spec/Message`: faults of times, BIT STRING and REAL, with their messages | both directions, function by function; the digits in front of a text are split off |
| C124 | `Spec/OptionItems`: elements read one after the other up to a rest | the list of `Option<T>` is compared item by item with the list of `T`; lengths of present values never come, by `C35_option_tag_diverges` |
| C125 | `Model/Equality`: `==` of `f64`, `Real`, lists; `Spec/Equality`: the types with an encoder and an equality, nested | induction over the nesting: equal values cannot be told apart by the three functions of the encoder; decoded values by the uniqueness of minimal contents and of rounding |
| C126 | `Model/Messages`: the texts of all error types and of `Input` and `Class`; `Spec/Messages`: decimal numbers, what a text mentions | the variant is recognised from the beginning of the text; fields end in a character that cannot occur in them |
| C127 | `Model/Checks`: `check_constraints` of every type, nested in any way; `Spec/Checks`: the constraints of an object | induction on the type; with the results on the contents of the parsers for `parse_der` |
| C128 | `Input.cuts`, `position`, `iterIndices` (Model/Edits); `Spec/Edits`: positions by counting, windows of the buffer | induction on the history |
| C129 | `BitString.sets`, `seqEdits`, `setEdits` (Model/Edits); `Spec/Edits`: changed lists of bits, `SetHistory` | induction on the history; C24, C66, C91 for the encodings |
| C130 | `Spec/Forms`: the same object with other length octets, `LikeObject`, inductive; the types in it, `TreeType` | induction on the pair of encodings: both are read, with contents related in the same way; induction on the type, with the relation as the invariant of every loop |
| C131 | `Spec/Versions`: the fields of two structs joined, `fieldsThen`; a newer version, `Newer`, inductive; variants joined | from the exact acceptance of structs, CHOICE, ENUMERATED and integers (C76, C81, C55, C79, C15), induction on the fields |
| C132 | the encoders joined, `encThen` | what the fields write is joined, induction on the fields; then as C77 |
| C133 | `Spec/SetOrder`: `FirstTags`, the tags of the first objects of an input; `TaggedBy` | from C76, induction on the fields; tags of the first objects are unique |
| C134 | `Model/Width`, `Model/WidthSlice`: the functions that depend on the width of `usize`, for `w` bits; `Spec/Width`, `Spec/WidthSlice`: `Compiled`, a decoder and the same one for `w` bits | the header parsers differ on lengths from 2^w only; then what follows is too short; induction on depth, fuel and the type |
| C135 | `Model/EncodeWork`: the encoders again, returning the number of calls of `ber_content_len` too; `Spec/EncodeWork`: `Counting`, an encoder, the one that counts, depth, tagged fields inside each other, parts of a value | erasing the counts gives the encoders back; induction on the type, with a predicate on all results of a program that writes; exact counts for structs inside each other |
| C136 | `Spec/Recursive`: `SelfType`, the texts of types in which the type itself occurs, as functions of its parser; `selfCalls`, the parser cut off after n calls within each other | two parsers that agree on contents below n bytes are turned by the text into parsers that agree below n + 2 bytes; so the cut-off parsers agree with each other and with any solution, and what holds of all of them (C82's closure under the type constructors) holds of the solution; for two types that contain each other (`Props/RecursiveMutual`) the text of one is put into the text of the other |
| C137 | `Spec/RecursiveValue`: `Descends`, the text of an encoder that looks at smaller values only; a struct with a `Vec` of itself, and a CHOICE with IMPLICIT tags two variants of which are a `Vec` of it; `Spec/RecursiveMutualValue`: two structs, each with a `Vec` of the other | recursion on the size of the value; `Value` (C83) extended by named types, and induction on the value |
| C138 | `Model/SizedEncoder`: the encoders once more, with the additions of `usize` of any width, checked or wrapping | simulation by the encoders with unbounded numbers, under a bound on the value, or up to a panic; sums modulo `2^bits` by induction |
| C139 | `Model/DumpDer`: the program examples/dump-der.rs after the input is read, as the list of what it prints | induction on the fuel (more than the content octets) for objects and on the iterator for items; what is printed is compared as a set with an inductive relation between objects, and its order by the offsets |
| C140 | `Spec/Twins`: a relation between two objects for each type, nothing new is modelled | induction on the structure of the type (mutual: types, tuples, fields, variants), from the characterisations of what each content parser accepts; universal types by the uniqueness of the content (C116) |
| C141 | `Spec/Language`: the octets of each type and the value they denote, nothing new is modelled | both directions by induction on the structure of the type (mutual: types, tuples, fields, variants), from the characterisations of what each content parser and the generic object parser accept |
| C142 | `Spec/SelfLanguage`: the equation of a language, its unfoldings, and inductive rules for trees; nothing new is modelled | the unfoldings of the parser (C136) have the unfoldings of the language (C141), and agree with the parser on contents shorter than twice their number; uniqueness by starting the unfolding from a parser chosen for the other solution |
| C143 | `Spec/SelfSlice`: the texts of `TryFrom<Any>` and `FromDer` in which the type occurs; the functions of `Model/Derive`, `Model/Containers` and `Model/Tagged` as they are | agreement on fewer than n octets gives agreement on fewer than n + 2, by induction on the text; from this existence, uniqueness, depth and safety as in C136, also for two types that contain each other (`Spec/MutualSlice`); the octets of trees (`Spec/SelfSliceLanguage`) and the comparison by induction on the rules |

{"id": "C01", "title": "Header round-trip", "statement": "Encoding a header (class, constructed flag, tag number, length) with the BER/DER header writer and parsing the bytes back, followed by any other bytes, returns exactly the same class, flag, tag and length, and leaves exactly the following bytes.", "quantifier": "every class, constructed flag, 32-bit tag number, every 64-bit definite length or (constructed only) indefinite length, and every trailing byte string", "why_tests_cant": "2^32 tags times 2^64 lengths times all suffixes; tests sample a few boundary values", "anchors": ["src/header.rs:parse_header", "src/to_ber/encoder.rs:BerEncoder::write_tag_generic", "src/to_ber/encoder.rs:BerEncoder::write_length", "src/to_ber.rs:ToBer::ber_write_header"]}
{"id": "C02", "title": "Header encoding is minimal", "statement": "The header the encoder writes is the shortest one: no other byte string that the header parser accepts with the same class, flag, tag and definite length is shorter, and high tag numbers carry no leading zero septet and long lengths no leading zero byte.", "quantifier": "every class, flag, 32-bit tag, 64-bit length, and every alternative byte string the parser accepts", "why_tests_cant": "needs a universal comparison against all alternative encodings", "anchors": ["src/to_ber/encoder.rs:BerEncoder::write_tag_generic", "src/to_ber/encoder.rs:BerEncoder::write_length", "src/header.rs:parse_header"]}
{"id": "C03", "title": "Header parser follows X.690 identifier and length octets", "statement": "When the header parser succeeds, the bytes it consumed are exactly one identifier group and one length group in the sense of X.690 8.1.2/8.1.3 denoting the returned class, flag, tag and length, and conversely any such groups within the supported limits are accepted.", "quantifier": "every byte string", "why_tests_cant": "soundness and completeness against a grammar ranges over all inputs", "anchors": ["src/header.rs:parse_header", "src/header.rs:bytes_to_u64_g"]}
{"id": "C04", "title": "Parsing splits the input exactly", "statement": "When parsing a generic object succeeds in BER or DER, the header bytes, the content bytes, the end-of-content marker (indefinite form only) and the unconsumed bytes, concatenated in this order, are the original input; the spans of content and remainder are the true byte offsets.", "quantifier": "every byte string, every starting offset", "why_tests_cant": "tests check remainders on a handful of inputs; indefinite nesting gives unboundedly many shapes", "anchors": ["src/asn1_types/any.rs:parse_ber_any", "src/asn1_types/any.rs:parse_der_any", "src/ber/parser.rs:BerMode::get_object_content", "src/input.rs:Input::take", "src/input.rs:Input::take_from"]}
{"id": "C05", "title": "Success is stable under extension", "statement": "If parsing an object (BER or DER) succeeds on some bytes, then parsing the same bytes with anything appended gives the same object and the same remainder with the appended bytes at its end.", "quantifier": "every byte string on which parsing succeeds and every appended byte string", "why_tests_cant": "streaming use relies on it for all inputs and all continuations", "anchors": ["src/asn1_types/any.rs:parse_ber_any", "src/asn1_types/any.rs:parse_der_any", "src/ber/parser.rs:ber_skip_object_content"]}
{"id": "C06", "title": "Incomplete is truthful", "statement": "When generic DER or BER parsing reports Incomplete with a needed count n, then n is at least one and no continuation shorter than n bytes can make parsing succeed or change the verdict to an object.", "quantifier": "every byte string reported incomplete and every short continuation", "why_tests_cant": "requires all continuations, not samples", "anchors": ["src/input.rs:Input::slice_index", "src/header.rs:parse_header", "src/asn1_types/any.rs:parse_der_any", "src/ber/parser.rs:ber_skip_object_content"]}
{"id": "C07", "title": "A truncated encoding is never accepted", "statement": "Dropping one or more final bytes from the bytes consumed by a successful parse makes the parse fail: no proper prefix of an encoding is accepted as an object.", "quantifier": "every byte string accepted by generic BER/DER parsing and every proper prefix of its consumed part", "why_tests_cant": "every cut point of every input", "anchors": ["src/asn1_types/any.rs:parse_ber_any", "src/asn1_types/any.rs:parse_der_any"]}
{"id": "C08", "title": "Generic parsing never panics and always terminates", "statement": "Parsing a header or a generic object, BER or DER, from any bytes returns a value, Incomplete or an error: no slice index is out of range, no assertion fails, and the end-of-content loop ends after a number of steps bounded by the input length.", "quantifier": "every byte string", "why_tests_cant": "absence of panics and divergence is a statement about all inputs", "anchors": ["src/header.rs:parse_header", "src/ber/parser.rs:BerMode::get_object_content", "src/ber/parser.rs:ber_skip_object_content"]}
{"id": "C09", "title": "Nesting limit is exact", "statement": "Indefinite-length nesting is bounded: an object made of k nested indefinite-length sequences is accepted by generic BER parsing when k is below the documented limit of 50 and rejected with BerMaxDepth otherwise.", "quantifier": "every nesting depth k", "why_tests_cant": "unbounded family of inputs; tests pick one or two depths", "anchors": ["src/ber/parser.rs:MAX_RECURSION", "src/ber/parser.rs:ber_skip_object_content"]}
{"id": "C10", "title": "DER rejects indefinite lengths", "statement": "Generic DER parsing never returns an object of indefinite length, the content returned has exactly the number of bytes announced in the header, and an indefinite-length header is answered by the IndefiniteLength DER constraint error.", "quantifier": "every byte string", "why_tests_cant": "all inputs", "anchors": ["src/header.rs:Header::parse_der", "src/asn1_types/any.rs:parse_der_any", "src/ber/parser.rs:DerMode::get_object_content"]}
{"id": "C11", "title": "DER is a subset of BER", "statement": "Whatever generic DER parsing accepts, generic BER parsing accepts with the same header, content and remainder; for INTEGER, BOOLEAN, NULL, ENUMERATED, OCTET STRING, OBJECT IDENTIFIER and time types a value accepted by the DER parser is the value the BER parser returns.", "quantifier": "every byte string", "why_tests_cant": "all inputs of two different code paths", "anchors": ["src/asn1_types/any.rs:parse_der_any", "src/asn1_types/any.rs:parse_ber_any", "src/from_der.rs:DerParser::parse_der", "src/from_ber.rs:BerParser::parse_ber"]}
{"id": "C12", "title": "Unsigned integer round-trip", "statement": "Encoding an unsigned machine integer (u8 to u128, usize) in DER and decoding it with the same type, through either the trait-object path or the parser path, returns the same number and the following bytes.", "quantifier": "every value of every width, every trailing bytes", "why_tests_cant": "2^128 values", "anchors": ["src/asn1_types/integer.rs:impl_uint", "src/asn1_types/integer.rs:Integer::from_const_array", "src/asn1_types/integer.rs:decode_array_uint", "src/asn1_types/integer.rs:trim_slice"]}
{"id": "C13", "title": "Signed integer round-trip", "statement": "Encoding a signed machine integer (i8 to i128, isize) in DER and decoding it with the same type returns the same number and the following bytes.", "quantifier": "every value of every width, every trailing bytes", "why_tests_cant": "2^128 values", "anchors": ["src/asn1_types/integer.rs:impl_int", "src/asn1_types/integer.rs:Integer::from_const_array_negative", "src/asn1_types/integer.rs:decode_array_int"]}
{"id": "C14", "title": "Integer encoding is the minimal two's complement", "statement": "The content bytes written for a machine integer are its two's-complement big-endian representation, and are minimal: the first nine bits are not all equal.", "quantifier": "every value of every width", "why_tests_cant": "all values", "anchors": ["src/asn1_types/integer.rs:Integer::from_const_array", "src/asn1_types/integer.rs:Integer::from_const_array_negative"]}
{"id": "C15", "title": "Integer decoding is correct and range-checked", "statement": "Decoding integer content to a machine type returns exactly the two's-complement value of the content; if that value is outside the range of the type an error is returned instead of a wrapped value, and if the DER-canonical content denotes a value within range decoding succeeds.", "quantifier": "every content byte string and every width", "why_tests_cant": "all content strings of all lengths", "anchors": ["src/asn1_types/integer.rs:decode_array_uint", "src/asn1_types/integer.rs:decode_array_int", "src/asn1_types/integer.rs:trim_slice"]}
{"id": "C16", "title": "DER integers are canonical", "statement": "Two contents accepted by the DER INTEGER parser that denote the same number are identical, and re-encoding the decoded machine integer reproduces the accepted bytes.", "quantifier": "every pair of contents accepted by DER parsing", "why_tests_cant": "uniqueness over all pairs", "anchors": ["src/asn1_types/integer.rs:check_der_int_constraints", "src/asn1_types/integer.rs:check_der_int_constraints_input"]}
{"id": "C17", "title": "Big Integer keeps bytes and converts faithfully", "statement": "The arbitrary-size INTEGER returned by parsing holds exactly the content bytes, re-encodes to the same content, and its conversions to machine integers agree with the two's-complement value or fail; converting a machine integer to INTEGER and back is the identity.", "quantifier": "every content and every machine integer", "why_tests_cant": "all values and lengths", "anchors": ["src/asn1_types/integer.rs:Integer", "src/asn1_types/integer.rs:impl_from_to"]}
{"id": "C18", "title": "Announced length equals written bytes", "statement": "For every encodable value the announced content length equals the number of content bytes written, the announced total length equals the size of the full encoding, and the byte count returned by the encoder equals the bytes actually written.", "quantifier": "every value of every encodable type modelled, every content size", "why_tests_cant": "sizes are unbounded; boundaries at 2^7, 2^8, 2^16, 2^24, 2^32", "anchors": ["src/to_ber.rs:ber_length_length", "src/to_ber.rs:ber_total_length", "src/to_ber.rs:ToBer::ber_total_len", "src/to_ber.rs:ToBer::ber_encode"]}
{"id": "C19", "title": "BOOLEAN semantics and round-trip", "statement": "BER decoding of BOOLEAN maps 0x00 to false and every other byte to true; DER accepts only 0x00 and 0xff; content of any other size is an error; encoding then decoding returns the same truth value; decoding never panics.", "quantifier": "every header and content", "why_tests_cant": "all inputs", "anchors": ["src/asn1_types/boolean.rs:Boolean", "src/asn1_types/boolean.rs:check_constraints"]}
{"id": "C20", "title": "NULL has exactly one encoding", "statement": "NULL is accepted exactly when its content is empty and primitive, and is always encoded as 05 00.", "quantifier": "every byte string", "why_tests_cant": "all inputs", "anchors": ["src/asn1_types/null.rs:Null"]}
{"id": "C21", "title": "ENUMERATED round-trip and range", "statement": "Every 32-bit ENUMERATED value encodes and decodes to itself in BER and DER; contents outside 0..2^32 are errors.", "quantifier": "every 32-bit value and every content", "why_tests_cant": "2^32 values and all contents", "anchors": ["src/asn1_types/enumerated.rs:Enumerated"]}
{"id": "C22", "title": "OCTET STRING round-trip", "statement": "Any byte string encoded as OCTET STRING decodes, in BER and DER, to the same bytes and leaves the following bytes.", "quantifier": "every byte string and trailing bytes", "why_tests_cant": "unbounded strings", "anchors": ["src/asn1_types/octetstring.rs:OctetString"]}
{"id": "C23", "title": "Segmented strings are concatenated in order", "statement": "A constructed OCTET STRING made of primitive or nested constructed segments (definite or indefinite, depth within the limit) decodes to the concatenation of the segments' contents in order; a segment of a different tag is an error.", "quantifier": "every tree of segments within the recursion limit", "why_tests_cant": "unbounded trees", "anchors": ["src/ber/appendable.rs:parse_ber_segmented", "src/asn1_types/octetstring.rs:OctetString::from_ber_content"]}
{"id": "C24", "title": "BIT STRING round-trip", "statement": "A BIT STRING of any number of bits encodes to a content whose first byte is the number of unused bits (0..7) and decodes to the same sequence of bits; contents with unused count above 7, or no bytes to take them from, are errors.", "quantifier": "every bit sequence and every content", "why_tests_cant": "unbounded", "anchors": ["src/asn1_types/bitstring.rs:BitString"]}
{"id": "C25", "title": "OBJECT IDENTIFIER arcs round-trip", "statement": "Building an OID from arcs (first arc 0..2, second below 40) and iterating over its sub-identifiers gives back the same arcs.", "quantifier": "every arc list accepted", "why_tests_cant": "unbounded lists of 64-bit arcs", "anchors": ["src/asn1_types/oid.rs:Oid::from", "src/asn1_types/oid.rs:Oid::iter", "src/asn1_types/oid.rs:encode_relative"]}
{"id": "C26", "title": "Relative OID arcs round-trip", "statement": "Building a relative OID from any non-empty list of arcs and iterating over it gives back the same arcs; distinct arc lists give distinct encodings.", "quantifier": "every non-empty list of arcs", "why_tests_cant": "unbounded lists of 64-bit arcs", "anchors": ["src/asn1_types/oid.rs:Oid::from_relative", "src/asn1_types/oid.rs:SubIdentifierIterator::next"]}
{"id": "C27", "title": "OID prefix test is arc-prefix", "statement": "`starts_with` between two OIDs holds exactly when the arc list of one is a prefix of the arc list of the other.", "quantifier": "every pair of OIDs built from arcs", "why_tests_cant": "all pairs", "anchors": ["src/asn1_types/oid.rs:Oid::starts_with"]}
{"id": "C28", "title": "EXPLICIT tagging round-trip", "statement": "Wrapping any encodable value in an EXPLICIT tag and decoding with the same class and tag returns the value and the trailing bytes; decoding with another class, another tag or a primitive wrapper is an error.", "quantifier": "every value with a working codec, every class, every tag", "why_tests_cant": "all types, tags and sizes", "anchors": ["src/asn1_types/tagged/explicit.rs:TaggedValue", "src/to_ber.rs:ToBer::ber_encode_tagged_explicit", "src/asn1_types/tagged/parser.rs:TaggedParser"]}
{"id": "C29", "title": "IMPLICIT tagging round-trip", "statement": "Wrapping any encodable value in an IMPLICIT tag and decoding with the same class and tag returns the value and the trailing bytes; decoding with another class or tag is an error.", "quantifier": "every value with a working codec, every class, every tag", "why_tests_cant": "all types, tags and sizes", "anchors": ["src/asn1_types/tagged/implicit.rs:TaggedValue", "src/to_ber.rs:ToBer::ber_encode_tagged_implicit"]}
{"id": "C30", "title": "SEQUENCE OF round-trip", "statement": "Encoding a list of values as SEQUENCE OF (Vec, SequenceOf) and decoding returns the same list in the same order, for any element type whose own codec round-trips.", "quantifier": "every list of any length of any element type with a working codec", "why_tests_cant": "unbounded lists, nested containers", "anchors": ["src/asn1_types/sequence/vec.rs", "src/asn1_types/sequence/sequence_of.rs:SequenceOf", "src/asn1_types/iterator.rs:AnyIterator::try_parse_collect"]}
{"id": "C31", "title": "SET OF round-trip", "statement": "Encoding a collection as SET OF and decoding returns the same elements (same order for SetOf, same set for BTreeSet/HashSet).", "quantifier": "every collection of any element type with a working codec", "why_tests_cant": "unbounded collections", "anchors": ["src/asn1_types/set/set_of.rs:SetOf", "src/asn1_types/set/btreeset.rs", "src/asn1_types/set/hashset.rs"]}
{"id": "C32", "title": "Indefinite-length SEQUENCE OF round-trip", "statement": "Encoding a list with the indefinite-length wrapper and decoding it in BER returns the same list, and the DER parser rejects the encoding.", "quantifier": "every list of any element type with a working codec", "why_tests_cant": "unbounded lists", "anchors": ["src/to_ber/constructed_indefinite.rs:IndefiniteVec", "src/ber/parser.rs:ber_skip_object_content"]}
{"id": "C33", "title": "Fixed-size array round-trip and size check", "statement": "An array of N elements encodes and decodes to itself; decoding a sequence whose number of elements differs from N is an InvalidLength error.", "quantifier": "every N, every sequence", "why_tests_cant": "all sizes", "anchors": ["src/asn1_types/sequence/array.rs"]}
{"id": "C34", "title": "Heterogeneous sequence (tuple) decoding", "statement": "Decoding a tuple reads the components from the content strictly in order; concatenated component encodings inside a SEQUENCE decode to the tuple of the values.", "quantifier": "every tuple of values with working codecs", "why_tests_cant": "all values", "anchors": ["src/asn1_types/sequence/tuple.rs"]}
{"id": "C35", "title": "OPTIONAL never consumes on absence", "statement": "Decoding an optional element on empty input or on an object with a different tag returns None and consumes nothing; on an object with the right tag it behaves as the plain decoder wrapped in Some.", "quantifier": "every element type and every byte string", "why_tests_cant": "all inputs", "anchors": ["src/asn1_types/optional.rs", "src/from_ber.rs:BerParser::parse_ber_optional", "src/from_der.rs:DerParser::parse_der_optional"]}
{"id": "C36", "title": "Optional tagged parser", "statement": "The optional tagged parser returns None without consuming anything on empty input or on a different tag number, an UnexpectedClass error when the tag number matches and the class differs, and otherwise applies the supplied function to the parsed object.", "quantifier": "every class, tag, continuation function and byte string", "why_tests_cant": "all inputs", "anchors": ["src/asn1_types/tagged/optional.rs:OptTaggedParser"]}
{"id": "C37", "title": "Iterators stop and fuse", "statement": "Iterating over the objects of a content yields at most as many items as half the content length plus one, each success consumes its bytes exactly, after the first error the iterator only returns None, and a full successful iteration covers the content entirely.", "quantifier": "every content", "why_tests_cant": "all contents and histories of next() calls", "anchors": ["src/asn1_types/iterator.rs:AnyIterator", "src/asn1_types/sequence/iterator.rs:SequenceIterator"]}
{"id": "C38", "title": "Trait-object and parser APIs agree", "statement": "For types implementing both, from_der and parse_der (respectively from_ber and parse_ber) accept the same inputs and return the same value.", "quantifier": "every byte string and each type", "why_tests_cant": "two code paths over all inputs", "anchors": ["src/from_der.rs:FromDer", "src/from_der.rs:DerParser::parse_der", "src/from_ber.rs:FromBer", "src/from_ber.rs:BerParser::parse_ber"]}
{"id": "C39", "title": "Generic object re-encoding", "statement": "Re-encoding a parsed generic object and parsing the result gives the same class, flag, tag and content with a definite length; when the input was DER-minimal the re-encoding is the consumed bytes.", "quantifier": "every byte string", "why_tests_cant": "all inputs", "anchors": ["src/asn1_types/any.rs:ToBer for Any", "src/asn1_types/any.rs:parse_ber_any"]}
{"id": "C40", "title": "UTCTime decoding ranges", "statement": "Every accepted UTCTime has two-digit year, month at most 12, day at most 31, hour below 24, minute and second below 60; any string of the form YYMMDDhhmmssZ with such components is accepted with exactly these components.", "quantifier": "every content", "why_tests_cant": "all strings", "anchors": ["src/asn1_types/utctime.rs:UtcTime::from_bytes", "src/datetime.rs:decode_decimal"]}
{"id": "C41", "title": "UTCTime round-trip", "statement": "Encoding a UTCTime with in-range components and UTC zone and decoding it returns the same components.", "quantifier": "every in-range date-time", "why_tests_cant": "all date-times", "anchors": ["src/asn1_types/utctime.rs:ToBer", "src/asn1_types/utctime.rs:UtcTime::from_bytes"]}
{"id": "C42", "title": "GeneralizedTime round-trip", "statement": "Encoding a GeneralizedTime with in-range components (with or without milliseconds) and UTC zone and decoding it returns the same components.", "quantifier": "every in-range date-time", "why_tests_cant": "all date-times", "anchors": ["src/asn1_types/generalizedtime.rs:ToBer", "src/asn1_types/generalizedtime.rs:GeneralizedTime::from_bytes"]}
{"id": "C43", "title": "GeneralizedTime decoding ranges and precision", "statement": "Every accepted GeneralizedTime has in-range components, and the fraction .d, .dd, .ddd is read as 100d, 10dd, ddd milliseconds.", "quantifier": "every content", "why_tests_cant": "all strings", "anchors": ["src/asn1_types/generalizedtime.rs:GeneralizedTime::from_bytes"]}
{"id": "C44", "title": "Restricted strings only hold allowed characters", "statement": "A restricted character string returned by parsing (Numeric, Printable, IA5, Visible, Teletex, Videotex, General, Graphic, ObjectDescriptor) contains only characters of its alphabet, in primitive and segmented form, and every string over the alphabet is accepted and round-trips.", "quantifier": "every content", "why_tests_cant": "all strings", "anchors": ["src/asn1_types/strings.rs:asn1_string", "src/asn1_types/strings/printablestring.rs", "src/asn1_types/strings/numericstring.rs"]}
{"id": "C45", "title": "BMPString round-trip", "statement": "A text encoded as BMPString decodes to the same text.", "quantifier": "every text", "why_tests_cant": "all texts", "anchors": ["src/asn1_types/strings/bmpstring.rs:BmpString"]}
{"id": "C46", "title": "UniversalString round-trip", "statement": "A text encoded as UniversalString decodes to the same text.", "quantifier": "every text", "why_tests_cant": "all texts", "anchors": ["src/asn1_types/strings/universalstring.rs:UniversalString"]}
{"id": "C47", "title": "Error conversions lose nothing", "statement": "Converting an error between the plain and the located error types and back is the identity, and flattening a nom error preserves the needed count or the error kind.", "quantifier": "every error value", "why_tests_cant": "all error values", "anchors": ["src/error.rs:From<Error> for InnerError", "src/error.rs:From<InnerError> for Error", "src/error.rs:Error::from_nom_berr"]}
{"id": "C48", "title": "Header equality and hashing", "statement": "Header equality is an equivalence relation compatible with hashing.", "quantifier": "all triples of headers", "why_tests_cant": "all triples", "anchors": ["src/header.rs:PartialEq for Header", "src/header.rs:Hash for Header"]}
{"id": "C49", "title": "Length arithmetic", "statement": "Adding lengths is associative and commutative with unit 0, indefinite absorbs, and the sum over a list is indefinite iff some element is.", "quantifier": "all lists of lengths", "why_tests_cant": "all lists", "anchors": ["src/length.rs:Add", "src/length.rs:Sum"]}
{"id": "C50", "title": "Failing writer leaves a prefix", "statement": "When the output writer fails at any point, the encoder returns an error and the bytes accepted by the writer form a prefix of the complete encoding; when the writer never fails the full encoding is written.", "quantifier": "every value, every writer behaviour and every failure point", "why_tests_cant": "crash points of arbitrary writers", "anchors": ["src/to_ber.rs:ToBer::ber_encode", "src/to_ber/encoder.rs:BerEncoder"]}
{"id": "C51", "title": "Class check on universal types", "statement": "The typed decoders for universal types reject objects whose class is not universal.", "quantifier": "every byte string and type", "why_tests_cant": "all inputs", "anchors": ["src/from_ber.rs:BerParser::parse_ber", "src/from_der.rs:DerParser::parse_der", "src/tag.rs:DynTagged::accept_tag"]}
{"id": "C52", "title": "Encodings are injective", "statement": "Two different values of the same type never have the same DER encoding, and no encoding is a proper prefix of another one.", "quantifier": "all pairs of values of each round-tripping type", "why_tests_cant": "all pairs", "anchors": ["src/to_der.rs:ToDer::to_der_vec"]}
{"id": "C53", "title": "REAL special values and zero", "statement": "REAL zero, plus and minus infinity and NaN have the X.690 encodings and decode to themselves; every other special content is an error.", "quantifier": "every content with the special-value form", "why_tests_cant": "all contents", "anchors": ["src/asn1_types/real.rs:decode_real", "src/asn1_types/real.rs:ToBer for Real"]}
{"id": "C54", "title": "Derived SEQUENCE content length", "statement": "For a derived SEQUENCE whose fields are plain, EXPLICIT- or IMPLICIT-tagged, the length written in the header is the number of content bytes.", "quantifier": "every list of fields and all field sizes", "why_tests_cant": "sizes around 2^7, 2^8, 2^16", "anchors": ["derive/src/container.rs:gen_tober_content_len"]}
{"id": "C55", "title": "CHOICE dispatch", "statement": "A derived CHOICE decodes to the variant whose tag is the tag of the object; encoding a variant and decoding returns the same variant and payload.", "quantifier": "every variant and payload, tagged and untagged", "why_tests_cant": "all values", "anchors": ["derive/src/choice.rs"]}
{"id": "C56", "title": "Generic BER/DER grammar", "statement": "Generic BER parsing succeeds on an input exactly when the input starts with a complete element of the BER grammar (definite length, or constructed indefinite length closed by an end-of-contents element, nested at most 49 deep), and what it leaves is what follows that element; generic DER parsing succeeds exactly on definite-length elements.", "quantifier": "every byte string", "why_tests_cant": "soundness and completeness against an unbounded recursive grammar", "anchors": ["src/asn1_types/any.rs:parse_ber_any", "src/asn1_types/any.rs:parse_der_any", "src/ber/parser.rs:BerMode::get_object_content"]}
{"id": "C57", "title": "OID text round-trip", "statement": "The text of an OID built from arcs is the dotted decimal text of the arcs; reading it back gives the same OID; dotted decimal text of any 64-bit numbers reads as the OID of these numbers.", "quantifier": "every arc list and every dotted decimal text", "why_tests_cant": "unbounded lists, numbers of any number of digits", "anchors": ["src/asn1_types/oid.rs:Oid::to_id_string", "src/asn1_types/oid.rs:FromStr for Oid"]}
{"id": "C58", "title": "Compile-time OIDs agree with run-time OIDs", "statement": "The octets produced by the oid! macro for a list of numbers are the octets the run-time constructors produce for the same numbers, absolute and relative; which texts of the macro are accepted, and the compile-time error of each other text.", "quantifier": "every list of numbers, every text of the macro's argument", "why_tests_cant": "two independent encoders over unbounded inputs", "anchors": ["impl/src/lib.rs:encode_oid", "impl/src/lib.rs:encode_base128", "src/asn1_types/oid.rs:Oid::from"]}
{"id": "C59", "title": "Compile-time integers denote their value", "statement": "The octets produced by the int! macro are the DER content of the INTEGER value given.", "quantifier": "every 64-bit number", "why_tests_cant": "all numbers", "anchors": ["impl/src/lib.rs:encode_int", "src/asn1_types/integer.rs:int"]}
{"id": "C60", "title": "Announced number of OID sub-identifiers", "statement": "The length announced by the iterator over the sub-identifiers of an OID is the number of items it yields.", "quantifier": "every OID built from arcs", "why_tests_cant": "all arc lists", "anchors": ["src/asn1_types/oid.rs:SubIdentifierIterator::len"]}
{"id": "C61", "title": "Typed decoders never panic and always terminate", "statement": "For every universal type, from_ber, from_der, parse_ber and parse_der return a value, Incomplete or an error on any input.", "quantifier": "every byte string, every type", "why_tests_cant": "absence of panics is a statement about all inputs", "anchors": ["src/from_ber.rs", "src/from_der.rs", "src/asn1_types"]}
{"id": "C62", "title": "Bytes after the inner value of an EXPLICIT wrapper are skipped", "statement": "Decoding an EXPLICIT tagged value whose content has more bytes after the inner object gives the same inner value as without those bytes; the extra bytes are neither reported nor returned with the remainder.", "quantifier": "every class, tag, inner value and trailing byte string", "why_tests_cant": "all trailing contents", "anchors": ["src/asn1_types/tagged/explicit.rs:TaggedValue"]}
{"id": "C63", "title": "Run-time tagged parsers accept exactly the class and tag they are given", "statement": "TaggedParser::parse_ber/parse_der, TaggedParserBuilder, parse_der_tagged_explicit/implicit and Any::from_*_and_then succeed only on objects of the requested class and tag, and read back what the tagged encoders write.", "quantifier": "every class, tag, inner parser and input", "why_tests_cant": "all pairs of requested and found tags, all inputs", "anchors": ["src/asn1_types/tagged/parser.rs", "src/asn1_types/tagged/builder.rs", "src/asn1_types/tagged/helpers.rs"]}
{"id": "C64", "title": "Incomplete tells about the outermost object", "statement": "from_ber and from_der of a typed value answer Incomplete exactly when the outermost object is truncated, with the same number of missing bytes as the generic parser; a truncated object inside a complete one is an error, so a reader that waits for more input never waits in vain.", "quantifier": "every type, every byte string", "why_tests_cant": "all inputs, all nestings", "anchors": ["src/from_ber.rs", "src/from_der.rs", "src/error.rs:Error::from_nom_berr", "src/asn1_types/tagged/explicit.rs"]}
{"id": "C65", "title": "Typed decoding depends only on the bytes consumed", "statement": "If a typed parser accepts an input, it consumes at least one byte, and on any other input that begins with the consumed bytes, wherever it lies in a buffer, it returns the same value and consumes the same bytes; in particular appending bytes after a valid object never changes the value decoded.", "quantifier": "every universal type, tag wrapper and container, every input and every continuation", "why_tests_cant": "all inputs and all following bytes", "anchors": ["src/ber/parser.rs", "src/from_ber.rs", "src/asn1_types/sequence/vec.rs", "src/asn1_types/set/set_of.rs", "src/asn1_types/tagged"]}
{"id": "C66", "title": "Raw and generic SEQUENCE and SET keep their content", "statement": "A raw Sequence or Set with any content, and an AnySequence of any generic objects, encode with the right lengths and come back from BER and DER decoding with the same content, objects and order; decoding the content as a list of items succeeds exactly when it splits without remainder into items; from_iter_to_der writes the encodings of the items one after the other; to_static changes nothing.", "quantifier": "every content, every list of objects, every item type", "why_tests_cant": "all contents and lists", "anchors": ["src/asn1_types/sequence.rs", "src/asn1_types/set.rs", "src/asn1_types/sequence/any_sequence.rs"]}
{"id": "C67", "title": "and_then helpers return what the function returns and what follows the object", "statement": "from_ber_and_then, from_der_and_then, parse_ber_and_then and parse_der_and_then of Sequence and Set succeed exactly when such an object is found and the function succeeds on its content; the remainder is what follows the object, whatever the function left of the content; they never panic of themselves.", "quantifier": "every input and every function", "why_tests_cant": "all inputs, all callbacks", "anchors": ["src/asn1_types/sequence.rs:Sequence::from_der_and_then", "src/asn1_types/sequence.rs:Sequence::parse_der_and_then", "src/asn1_types/set.rs"]}
{"id": "C68", "title": "Times accepted by DER are canonical", "statement": "Each UTCTime or GeneralizedTime value is accepted by the DER decoders in one form only (seconds present, Z, no trailing zeros in the fraction), so that re-encoding an accepted DER time gives the bytes that were read.", "quantifier": "every content", "why_tests_cant": "all contents", "anchors": ["src/asn1_types/utctime.rs", "src/asn1_types/generalizedtime.rs"]}
{"id": "C69", "title": "Comparison of times", "statement": "Comparison of UTCTime, GeneralizedTime and ASN1DateTime values is a total order consistent with equality, and is the chronological order.", "quantifier": "every pair of times", "why_tests_cant": "all pairs", "anchors": ["src/datetime.rs:ASN1DateTime", "src/asn1_types/utctime.rs:UtcTime", "src/asn1_types/generalizedtime.rs:GeneralizedTime"]}
{"id": "C70", "title": "Conversion of times to calendar dates", "statement": "to_datetime and utc_datetime succeed exactly on times that exist in the calendar, with the same components and offset; utc_adjusted_datetime maps the years 50-99 to 1950-1999 and 0-49 to 2000-2049 and changes nothing else; timestamp is the number of seconds since 1970-01-01 00:00 UTC.", "quantifier": "every time", "why_tests_cant": "all dates, including leap days and century years", "anchors": ["src/datetime.rs:ASN1DateTime::to_datetime", "src/asn1_types/utctime.rs:UtcTime::utc_adjusted_datetime", "src/asn1_types/utctime.rs:UtcTime::timestamp"]}
{"id": "C71", "title": "Text of a generic string object", "statement": "as_any_str and as_any_string of a generic object return a text exactly when the object is a character string, and the same text as the decoder of that string type.", "quantifier": "every object", "why_tests_cant": "all tags and contents", "anchors": ["src/asn1_types/any.rs:Any::as_any_str", "src/asn1_types/any.rs:Any::as_any_string"]}
{"id": "C72", "title": "REAL: accepted contents and their values", "statement": "Decoding a REAL accepts exactly the contents that X.690 8.5 allows (zero, special values, binary and decimal forms), and a binary content sign, N, F, base B, E gives the value sign * N * 2^F * B^E.", "quantifier": "every input, every exponent, mantissa, base and scale factor", "why_tests_cant": "all contents", "anchors": ["src/asn1_types/real.rs:decode_real", "src/asn1_types/real.rs:BerParser for Real"]}
{"id": "C73", "title": "REAL with a binary mantissa: round trip and canonical form", "statement": "Encoding a REAL of base 2 and decoding it gives the same number, and with encoding base 2 the content is the only one that DER allows.", "quantifier": "every mantissa, exponent and encoding base", "why_tests_cant": "all numbers, including exponents at the limits of one, two and three octets", "anchors": ["src/asn1_types/real.rs:ToBer for Real", "src/asn1_types/real.rs:drop_floating_point"]}
{"id": "C74", "title": "REAL from f64: normal form and decimal round trip", "statement": "Real::new ends on every f64, keeps an integer value exactly, and gives a mantissa that is an integer and no multiple of ten; encoding the result and decoding it gives the same value; decimal integers decode to their value.", "quantifier": "every f64", "why_tests_cant": "all 2^64 bit patterns", "anchors": ["src/asn1_types/real.rs:Real::new", "src/asn1_types/real.rs:normalize_base10", "src/asn1_types/real/f64.rs"]}
{"id": "C75", "title": "f64 decoding of binary REAL is exact", "statement": "When a binary REAL content denotes a number that an f64 can represent, decoding it as f64 gives that number.", "quantifier": "every binary content whose value is representable", "why_tests_cant": "all contents, including subnormal numbers", "anchors": ["src/asn1_types/real.rs:Real::f64", "src/asn1_types/real/f64.rs"]}
{"id": "C76", "title": "Derived SEQUENCE and SET: accepted encodings", "statement": "The derived decoders accept exactly a constructed object with the tag of the type whose content starts with the encodings of the fields in order, where each field is plain, EXPLICIT or IMPLICIT, and an optional or default field may be missing; the values are those of the fields.", "quantifier": "every list of fields, every input, BER and DER", "why_tests_cant": "all inputs and field lists", "anchors": ["derive/src/container.rs:gen_berparser", "derive/src/container.rs:gen_berparser", "derive/src/asn1_type.rs"]}
{"id": "C77", "title": "Derived SEQUENCE and SET: round trip", "statement": "Encoding a derived struct and decoding it with BER or DER gives the same field values and consumes exactly the encoding.", "quantifier": "every list of fields, all field values, anything after the encoding", "why_tests_cant": "all values and sizes", "anchors": ["derive/src/container.rs:gen_tober", "derive/src/container.rs:gen_berparser"]}
{"id": "C78", "title": "Derived structs with fields of type Option", "statement": "Encoding a derived struct with optional fields writes exactly the present ones, and decoding gives back which were present.", "quantifier": "every list of fields, every subset of present fields", "why_tests_cant": "all subsets and sizes", "anchors": ["derive/src/container.rs:gen_tober_content_len", "src/asn1_types/optional.rs:DynTagged for Option"]}
{"id": "C79", "title": "Derived ENUMERATED", "statement": "The variants of a derived enumeration are numbered as in Rust (the given number, or one more than the previous one, from 0); decoding accepts exactly a primitive object with tag 10 whose content is the number of a variant and gives that variant; encoding a variant and decoding it gives it back.", "quantifier": "every list of variants with different numbers below 2^32, every input, BER and DER", "why_tests_cant": "all variant lists and all inputs", "anchors": ["derive/src/enumerated.rs:parse_enum_variants", "derive/src/enumerated.rs:derive_enumerated_parser", "derive/src/enumerated.rs:derive_enumerated_encode"]}
{"id": "C80", "title": "Derived alias", "statement": "A derived alias accepts exactly what its inner type accepts, gives the same value, and is encoded as its inner type.", "quantifier": "every inner type, every input and value", "why_tests_cant": "all inner types and inputs", "anchors": ["derive/src/alias.rs", "derive/src/container.rs:from_datastruct"]}
{"id": "C81", "title": "Derived SEQUENCE and SET: the byte-slice API", "statement": "from_ber and from_der of a derived struct accept exactly the objects with the tag of the type whose content starts with the fields in order; they agree with parse_ber and parse_der; what the encoder writes comes back; and check_constraints accepts what satisfies the DER constraints of every field.", "quantifier": "every list of fields, all bytes, all field values", "why_tests_cant": "all inputs, values and field lists", "anchors": ["derive/src/container.rs:gen_tryfrom", "derive/src/container.rs:gen_fromder", "derive/src/container.rs:gen_checkconstraints"]}
{"id": "C82", "title": "Types nested in any way: no panic, only the bytes consumed, DER within BER", "statement": "For every type made from the universal types with Vec, SequenceOf, SetOf, sets, arrays, tuples, raw Sequence and Set, tagging and the derive macros, nested in any way: the parsers return on every input (REAL apart, whose parser can panic, see C61); the outcome depends only on the bytes consumed; and what the DER parser accepts the BER parser accepts with the same value and remainder.", "quantifier": "every built type of finite nesting, every input", "why_tests_cant": "the types are unbounded in depth and shape and so are the inputs", "anchors": ["derive/src/container.rs:gen_berparser", "src/asn1_types/sequence/vec.rs", "src/asn1_types/tagged/explicit.rs", "src/asn1_types/tagged/implicit.rs", "src/asn1_types/choice.rs", "src/from_ber.rs:BerParser", "src/from_der.rs:DerParser"]}
{"id": "C83", "title": "Values of types nested in any way: lengths, round trip, no encoding is a prefix of another", "statement": "For every value of a type made from the universal types with Vec, SequenceOf, SetOf, sets, arrays, raw Sequence and Set, tagging and the derive macros, nested in any way: the encoding is one object with the announced class, flag, tag and length; parse_ber and parse_der give the value back whatever follows; and no encoding is a proper prefix of the encoding of another value of the type.", "quantifier": "every built type of finite nesting, every value of it, every remainder", "why_tests_cant": "the types are unbounded in depth and shape and so are the values", "anchors": ["src/to_ber.rs:ToBer", "src/to_der.rs:ToDer", "derive/src/container.rs:gen_tober", "derive/src/choice.rs", "src/asn1_types/sequence/vec.rs", "src/asn1_types/tagged/explicit.rs", "src/asn1_types/tagged/implicit.rs"]}
{"id": "C84", "title": "Encoding does not panic", "statement": "For every value of a type made from the types of the crate with its containers, tagging and derive macros, nested in any way, ber_encode, to_ber_vec and the other writing methods return a result or an error, whatever the writer does; they do not panic.", "quantifier": "every built type of finite nesting, every value whose lengths fit usize (REAL: values that are not of base 2, or as in C73), every writer", "why_tests_cant": "the types, the values and the answers of the writer are unbounded", "anchors": ["src/to_ber/encoder.rs:write_tag_generic", "src/to_ber/encoder.rs:write_length", "src/to_ber.rs:ToBer", "derive/src/container.rs:gen_tober_write_content", "src/asn1_types/integer.rs:from_const_array", "src/asn1_types/sequence.rs:from_iter_to_der"]}
{"id": "C85", "title": "Conversions of a generic object return what the type would return", "statement": "Given an object read as Any: the conversion methods (any.u8(), any.as_bool(), any.oid(), any.utf8string(), ...) return what try_from of that type returns when the object has the type's tag; the object read from the encoding of a value converts back to the value; no conversion panics but that to REAL, which panics on the contents for which Real::from_ber does. The conversions do not look at the tag number or the class: an INTEGER converts to a BOOLEAN. relative_oid checks the tag number and takes the content as it is.", "quantifier": "all types with a conversion, all objects, all values", "why_tests_cant": "the objects are arbitrary; tests convert a few objects of the right type", "anchors": ["src/asn1_types/any.rs:impl_any_into", "src/asn1_types/any.rs:impl_any_as", "src/asn1_types/any.rs:relative_oid", "src/asn1_types/any.rs:as_relative_oid"]}
{"id": "C86", "title": "as_optional tells an absent object from a malformed one", "statement": "Any::as_optional returns Some(v) exactly when try_from returns v; for a type whose content is not made of further typed objects it returns None exactly when the tag of the object is not one the type accepts, and an error when the tag is right and the content is not. For containers, None may also mean that an object inside has an unexpected tag.", "quantifier": "all objects; all universal types but REAL", "why_tests_cant": "that no content parser ever reports an unexpected tag is a statement about all contents of all types", "anchors": ["src/asn1_types/any.rs:as_optional"]}
{"id": "C87", "title": "iter_elements goes over the objects of the content", "statement": "Collecting Any::iter_elements yields exactly the objects that follow one another in the content of the object, and fails if the content is not made of objects. It does the same in DER mode: it yields all BER objects, among them the DER objects.", "quantifier": "all objects", "why_tests_cant": "the number of elements is unbounded", "anchors": ["src/asn1_types/any.rs:iter_elements", "src/asn1_types/iterator.rs: AnyIterator"]}
{"id": "C88", "title": "Reading a header and then its content is reading an object", "statement": "Header::parse_der followed by parse_der_content accepts exactly the inputs of Any::parse_der, with the same content and remaining input. Header::parse_ber followed by parse_ber_content accepts only inputs of Any::parse_ber, with the same content and remaining input; it accepts all objects of definite length, and objects of indefinite length up to seven levels, where Any::parse_ber goes to forty-nine.", "quantifier": "all inputs", "why_tests_cant": "inputs and nestings are unbounded", "anchors": ["src/header.rs:parse_ber_content", "src/header.rs:parse_der_content", "src/asn1_types/any.rs:parse_ber_content", "src/asn1_types/any.rs:parse_der_content"]}
{"id": "C89", "title": "EMBEDDED PDV: what is accepted", "statement": "parse_ber, parse_der, from_ber and from_der of EmbeddedPdv accept exactly the objects with tag number 11 whose content starts with an object [0] holding two OBJECT IDENTIFIERs [0] and [1], an optional ASCII text [1] of definite length and a primitive object [2], and return these parts. They do not panic, and DER is within BER. The encodings X.680 defines, with the CHOICE in an explicit tag, are refused by all of them, and only the alternative syntaxes is ever returned.", "quantifier": "all inputs", "why_tests_cant": "inputs are unbounded; that an alternative is never returned cannot be tested", "anchors": ["src/asn1_types/embedded_pdv.rs:EmbeddedPdv", "src/asn1_types/embedded_pdv.rs:from_ber_content", "src/asn1_types/embedded_pdv.rs:check_constraints"]}
{"id": "C90", "title": "Times print as the date they denote", "statement": "to_string of a GeneralizedTime or UtcTime that was decoded gives YYYY-MM-DD hh:mm:ss followed by the fraction and the time zone, does not panic, and without its separators it is decoded as the same time; different decoded times have different texts. to_string of an ASN1DateTime is the content written for the GeneralizedTime. Deviations: 1 to 99 milliseconds are printed without leading zeros (.05 is printed .50); an offset of less than an hour to the east is printed as to the west; ASN1DateTime prints Z whatever the time zone.", "quantifier": "all decoded times; all ASN1DateTime values for the panic and the written content", "why_tests_cant": "the texts are many; a test prints a few times and compares with literals, and the crate's tests discard the text", "anchors": ["src/asn1_types/utctime.rs:Display for UtcTime", "src/asn1_types/generalizedtime.rs:Display for GeneralizedTime", "src/datetime.rs:Display for ASN1DateTime"]}
{"id": "C91", "title": "The bits of a BIT STRING are the bits given", "statement": "BitString::new(unused, bytes) panics exactly if unused is more than 7 or not less than the number of bits; otherwise is_set(k) is the bit of weight 2^(7 - k mod 8) of byte k / 8, and false for unused bits and beyond; for a BitString made from a bit slice, is_set(k) is bit k. Two BitStrings are equal exactly if they have the same length and is_set is the same everywhere. Equal BitStrings have the same encoding, if they were made from bits or read by from_der.", "quantifier": "all byte strings, all numbers of unused bits, all bit numbers, all lists of bits", "why_tests_cant": "tests look at a few bits of a few strings; lengths are unbounded", "anchors": ["src/asn1_types/bitstring.rs:BitString::new", "src/asn1_types/bitstring.rs:is_set", "src/asn1_types/bitstring.rs:as_bitslice", "src/asn1_types/bitstring.rs:PartialEq"]}
{"id": "C92", "title": "End-of-contents octets are recognised", "statement": "EndOfContent::parse_ber and from_ber accept 00 00 whatever follows, consume just these bytes, and refuse every object with a content or with another tag number. They also accept other classes, the constructed bit and long forms of the length 0, which X.690 does not.", "quantifier": "all inputs", "why_tests_cant": "inputs are unbounded", "anchors": ["src/asn1_types/end_of_content.rs:from_ber_content"]}
{"id": "C93", "title": "parse_*_as_input returns the header and the content of the object", "statement": "parse_ber_as_input (parse_der_as_input) of a type succeeds exactly if Any::parse_ber (Any::parse_der) does and the type accepts the tag number, and returns the same header, content and remaining bytes. parse_ber is parse_ber_as_input followed by from_ber_content, errors included; parse_der succeeds exactly if parse_der_as_input and from_der_content do, with the same result. Neither panics, whatever the type.", "quantifier": "all types, all inputs", "why_tests_cant": "types and inputs are unbounded", "anchors": ["src/from_ber.rs:parse_ber_as_input", "src/from_der.rs:parse_der_as_input"]}
{"id": "C94", "title": "The feature debug changes no result", "statement": "With the feature debug (and debug assertions), parse_ber and parse_der of every type built from the crate's types return what they return without it: the remainder of every traced call is a suffix of its input, at its position, so that the assertion and the subtractions in the tracing code never fail. The same holds for Header, Any, Option<T>, parse_ber_as_input, parse_der_as_input and the byte-slice functions of the containers. The dump logged on an error is the first 16 bytes in hexadecimal.", "quantifier": "all inputs, all nestings of types", "why_tests_cant": "types and inputs are unbounded, and the assertion is only compiled with the feature", "anchors": ["src/debug.rs:trace_input", "src/debug.rs:trace", "src/debug.rs:log_error_hex_dump", "src/from_ber.rs:parse_ber", "src/from_der.rs:parse_der", "src/asn1_types/optional.rs:parse_ber"]}
{"id": "C95", "title": "Integers of any size convert to the number they denote", "statement": "as_bigint of an Integer is the two's-complement value of its bytes; as_biguint is that value, or the error IntegerNegative exactly if it is negative. Every whole number is the value of exactly one content that DER accepts, so Integers read by the DER parser are equal exactly if their values are. Conversions from and to machine integers agree with it: from_uN and from_iN keep the value, as_uN succeeds exactly if the value is in range, as_iN only if it is, and exactly then for contents that DER accepts. from_const_array gives the shortest content of the unsigned number given and panics exactly for an empty array. Deviations: Integers read from BER with the same value may be unequal; as_iN refuses negative numbers in range that are written longer than needed.", "quantifier": "all byte strings, all whole numbers, all widths of machine integers", "why_tests_cant": "integers are unbounded; tests convert a few", "anchors": ["src/asn1_types/integer.rs:as_bigint", "src/asn1_types/integer.rs:as_biguint", "src/asn1_types/integer.rs:from_const_array", "src/asn1_types/integer.rs:PartialEq"]}
{"id": "C96", "title": "REAL as f32 is REAL as f64, rounded", "statement": "parse_ber, parse_der, from_ber and from_der of f32 accept what those of f64 accept and return the same number rounded to the nearest f32, ties to even, infinite from halfway above the largest one; numbers of f32 are unchanged. So a binary REAL whose value is a number of f32 is read as that number, including subnormal ones. Infinities, NaN and zero decode to themselves (the sign of zero is lost); other numbers do if Rust formats and parses decimals faithfully and computes powers of ten to 26 bits. The decoders agree with each other and with the writers as for f64, and panic on the same inputs. Deviation: because of the intermediate f64, a number between two of f32 is not always read as the nearer one.", "quantifier": "all inputs, all numbers", "why_tests_cant": "there are 2^32 numbers of f32 and infinitely many REAL encodings", "anchors": ["src/asn1_types/real/f32.rs:from_ber_content", "src/asn1_types/real/f32.rs:ber_write_content", "src/asn1_types/real.rs:f32", "src/asn1_types/real.rs:From<f32> for Real"]}
{"id": "C97", "title": "Copies by to_static are the same values", "statement": "to_static of a Header keeps class, constructed flag, tag number, length and raw tag; only raw_header is lost. The copy is equal to the header, has the same hash and encoding, and every type decodes a content with it as with the header. to_static of a Sequence or Set keeps the content, the encoding and the items; parse_into and into_der_sequence_of_ref refuse the copy (LifetimeError), but accept what was decoded. The same for Option, Vec, Box, references, strings, machine integers and types with derived ToStatic: the copy has the same variant and equal fields, and no part of it refers to the input.", "quantifier": "all headers, all contents, all types built from the crate's types", "why_tests_cant": "headers, contents and types are unbounded", "anchors": ["src/tostatic.rs:ToStatic", "derive/src/tostatic.rs:derive_tostatic", "src/header.rs:to_static", "src/asn1_types/sequence.rs:to_static", "src/asn1_types/set.rs:to_static"]}
{"id": "C98", "title": "Sets of generic objects", "statement": "AnySet decodes exactly the SETs whose content splits into objects, BER and DER, and the set has one element for each component; insert adds an object unless an equal one is found, which is then kept, and tells which; afterwards it can be found and removed; remove takes away one equal element, and only that; a set encodes with the right lengths and decodes to the same objects in some order. This holds for every hasher and iteration order. The documentation says that elements are unique: objects that are equal but for their position in the input are different elements, and equal objects may have different hashes.", "quantifier": "all inputs, all sets of objects, all hashers and iteration orders", "why_tests_cant": "sets and inputs are unbounded, and the order changes from run to run", "anchors": ["src/asn1_types/set/any_set.rs:AnySet", "src/asn1_types/any.rs:Any"]}
{"id": "C99", "title": "Derived aliases in the byte-slice API", "statement": "from_ber of a struct A(T) with derive(BerAlias) or derive(DerAlias) is from_ber of T: same inputs, same value, same rest, same errors. from_der accepts what from_der of T accepts, with the same value and rest, and check_constraints of A says of an object accepted whether from_der of T accepts it; it does not panic if the conversion of T from an object does not. An alias of Any is the object. Deviation: from_der of A does not check the DER constraints of T, so an alias of bool accepts 01 01 42, which bool::from_der refuses.", "quantifier": "all byte strings, all inner types", "why_tests_cant": "inputs and types are unbounded; tests decode a few valid values", "anchors": ["derive/src/alias.rs:derive_ber_alias", "derive/src/alias.rs:derive_der_alias", "derive/src/container.rs:gen_tryfrom", "derive/src/container.rs:gen_fromder", "derive/src/container.rs:gen_checkconstraints"]}
{"id": "C100", "title": "Own error types change the errors only", "statement": "A struct, CHOICE, ENUMERATED or alias derived with #[error(E)] and #[map_err(f)], nested in any way with tags, options, lists, sets, arrays and tuples, accepts the same inputs as the one derived without these attributes, with the same value and rest, and answers Incomplete on the same inputs with the same number, whatever f and the conversions into E do. Its error is the error of the first field that fails, passed through that field's function; if all conversions amount to one function of the crate's error, it is the image of that error. The same holds for the byte-slice API.", "quantifier": "all byte strings, all error types, all map_err functions and conversions, all nestings of types", "why_tests_cant": "error types, functions and inputs are unbounded; tests use one error type and a few inputs", "anchors": ["derive/src/container.rs:get_field_berparser", "derive/src/container.rs:get_field_parser", "derive/src/choice.rs:derive_choice_parser", "derive/src/enumerated.rs:derive_enumerated_parser", "derive/src/alias.rs:derive_alias_parser", "src/from_ber.rs:BerParser", "src/from_der.rs:DerParser"]}
{"id": "C101", "title": "Editing headers and generic objects", "statement": "Each with_... method of a Header sets one field and leaves the others; is_universal and its relatives tell the class. A generic object that was decoded and then given another class and tag number encodes to bytes that decode to an object with that class and tag number and the old form and content. Deviation: the edited object keeps the identifier octets it was read with (raw_tag), so its header is not equal to that of the object its own encoding decodes to.", "quantifier": "all headers, all objects decoded from any bytes, all classes and tag numbers", "why_tests_cant": "headers and objects are unbounded; tests edit one", "anchors": ["src/header.rs:with_tag", "src/header.rs:with_class", "src/header.rs:with_length", "src/asn1_types/any.rs:with_tag", "src/asn1_types/any.rs:with_class"]}
{"id": "C102", "title": "References and deprecated encoding helpers", "statement": "Encoding a reference to a value is encoding the value: same bytes, lengths, errors of the writer, and the same with EXPLICIT and IMPLICIT tags. to_der_vec_raw is to_der_vec. Deviations: a reference to an absent Option encodes to 00 00 although the Option encodes to nothing, and encoding a reference to a present one never returns; to_der_len, documented as the length with the header, is the length of the content.", "quantifier": "all values of all types, all writers", "why_tests_cant": "types and values are unbounded", "anchors": ["src/to_ber.rs:ToBer", "src/to_der.rs:ToDer", "src/to_der.rs:to_der_len", "src/to_der.rs:to_der_vec_raw", "src/asn1_types/optional.rs:ber_encode"]}
{"id": "C103", "title": "Iterating over the arcs of any OBJECT IDENTIFIER content", "statement": "Iterating over the arcs of an Oid ends and never panics, whatever its content octets (the decoders do not check that they are well formed). One number is yielded per group of octets ended by an octet below 128 (a last group cut short counts too), in order, after the two arcs of the first octet of an absolute OID; iter and iter_bigint yield the same numbers whenever iter does not answer None; every content has a text.", "quantifier": "every octet string, absolute or relative", "why_tests_cant": "contents come from the network; a test tries a few malformed ones", "anchors": ["src/asn1_types/oid.rs: SubIdentifierIterator, iter, iter_bigint, to_id_string"]}
{"id": "C104", "title": "Decoded values refer to the input they were decoded from", "statement": "An OCTET STRING or restricted character string decoded from a primitive object refers to the content octets of that object in the caller's buffer (as_cow is borrowed, as_raw_str is Some and gives exactly that range), and owns its bytes if and only if the object is constructed; under DER it always refers to the buffer. An INTEGER (as_raw_slice), OBJECT IDENTIFIER, Sequence and Set, and the types &[u8] and &str, always refer to it. The range begins right after the identifier and length octets, and for definite lengths ends where the remaining input begins. The values, remaining inputs and errors are those of the other claims.", "quantifier": "every input and position, every header form, all string types, the five ways to decode (parse_ber, parse_der, from_ber, from_der, TryFrom<Any>)", "why_tests_cant": "Tests look at the values; which bytes of which buffer a reference points to, for every nesting of segments, is not visible to assert_eq.", "anchors": ["src/asn1_types/octetstring.rs: OctetString::as_cow, Appendable::append", "src/asn1_types/strings.rs: as_raw_str, from_ber_content", "src/asn1_types/integer.rs: as_raw_slice", "src/asn1_types/sequence.rs: as_raw_slice", "src/asn1_types/set.rs: as_raw_slice", "src/asn1_types/oid.rs: into_cow", "src/asn1_types/strings/str.rs"]}
{"id": "C105", "title": "An IMPLICIT tag changes the tag and nothing else", "statement": "The class, form (primitive or constructed) and tag number that a type reports through DynTagged are those its encoder writes. Hence an encoder that replaces the tag of a value - `TaggedImplicit`, a derived CHOICE with or without IMPLICIT tagging, a struct field with `tag_implicit` - writes the same form, length and content octets as the encoder of the type alone, with other class and tag number, and the result can be read back.", "quantifier": "every type of the crate that has an encoder and every derived type, every value, every class and tag number", "why_tests_cant": "The form is taken from one of two independent sources (`CONSTRUCTED` of the type, or its encoder), type by type; a test of one type with one tag says nothing of the others, and the derived types are unbounded.", "anchors": ["src/tag.rs: Tagged, DynTagged", "src/asn1_types/tagged/implicit.rs: DynTagged, ToBer", "derive/src/choice.rs: class, constructed, tag", "derive/src/alias.rs: derive_alias_dyntagged", "derive/src/container.rs: gen_tagged", "src/asn1_types/set/set_of.rs: Tagged for SetOf", "src/asn1_types/sequence/any_sequence.rs: Tagged for AnySequence", "src/asn1_types/set/any_set.rs: Tagged for AnySet", "src/to_ber.rs: ber_encode_tagged_implicit"]}
{"id": "C106", "title": "What was decoded can be encoded again and decodes to the same value", "statement": "For every type built from the universal types and the type constructors of the crate, nested in any way: if an input of any form (segmented strings, indefinite or non-minimal lengths, missing default fields) was decoded by parse_ber or parse_der as a value, then encoding this value succeeds, and parse_ber and parse_der decode the encoding, whatever follows it, as the same value. So two inputs have the same value exactly if re-encoding gives the same bytes. Not so for times with an offset (encoded as UTC), Integer with redundant bytes read with BER rules (refused by parse_der), the empty BMPString in a constructed object, UniversalStrings that are not ASCII, and structs as in C54 and C78.", "quantifier": "all nested types, all inputs they accept with BER or DER rules, all following bytes", "why_tests_cant": "a proxy or a signer relies on it for inputs chosen by others; tests re-encode a few values they encoded themselves", "anchors": ["src/from_ber.rs: BerParser", "src/from_der.rs: DerParser", "src/to_ber.rs: ToBer", "derive/src/container.rs", "derive/src/choice.rs", "src/asn1_types/utctime.rs", "src/asn1_types/generalizedtime.rs"]}
{"id": "C107", "title": "Part of an object is answered with Incomplete", "statement": "If an input starts with an object accepted by the parsing function of some type (parse_ber or parse_der), then for every part of this object, from its start on, the same function answers Incomplete and asks for at least one and at most as many bytes as are missing, so that a caller can wait for the rest. Not so if the part ends within the identifier octets of an object with a tag number of 31 or more (the object itself or one in an indefinite-length encoding): then the answer is the error InvalidTag.", "quantifier": "all types, both rules, all accepted inputs, all positions of the cut", "why_tests_cant": "the number of ways to cut all objects is unbounded, and a cut at one unfortunate place is not found by tests that cut at a few places", "anchors": ["src/header.rs: parse_header", "src/ber/parser.rs: ber_get_content, ber_skip_object_content", "src/from_ber.rs: BerParser::parse_ber", "src/from_der.rs: DerParser::parse_der"]}
{"id": "C108", "title": "The pieces in which a stream arrives make no difference", "statement": "A program that appends arriving bytes to a buffer and takes objects out of it as long as the parsing function returns one (parse_ber, parse_der, from_ber or from_der of any type), and stops at an error, gets the same objects, the same error and keeps the same bytes, whatever the sizes of the pieces. So values encoded one after the other come out in order. Not so if a piece ends within the identifier octets of an object with a tag number of 31 or more.", "quantifier": "all streams, all ways to divide them into pieces, all types, both rules", "why_tests_cant": "network code meets any division of a stream; tests read from complete buffers", "anchors": ["src/header.rs: parse_header", "src/ber/parser.rs: ber_get_content, ber_skip_object_content", "src/from_ber.rs: BerParser::parse_ber, FromBer", "src/from_der.rs: DerParser::parse_der, FromDer"]}
{"id": "C109", "title": "Reading as many bytes as Incomplete asks for reads exactly one object", "statement": "A program that starts with no bytes, and whenever the decoder answers Incomplete(n) reads n more bytes (or fewer, as read may return), ends with the object at the start of the stream after having read exactly the bytes of this object; if the stream ends before, it has read all of it. This holds for Any and for from_ber and from_der of the types whose constraints do not ask for more. Not so for objects with tag numbers of 31 or more, which can never be read in this way, and for parse_ber and from_der of types that pass on the Incomplete of an object cut short within a complete one: then the stream is read to its end.", "quantifier": "all streams, all behaviours of read, all types with from_ber or from_der", "why_tests_cant": "reading too much would take bytes of the next message or block for ever; tests use complete buffers", "anchors": ["src/header.rs: parse_header", "src/ber/parser.rs: ber_skip_object_content", "src/from_ber.rs: wrap_ber_parser, FromBer", "src/from_der.rs: FromDer", "src/asn1_types/tagged/explicit.rs"]}
{"id": "C110", "title": "What the encoders write is well-formed DER at every level", "statement": "The encoding of a value of any type made with the type constructors of the crate (vectors, sets, arrays, EXPLICIT and IMPLICIT tags, derived structs, enums and aliases, nested in any way) consists of objects with the shortest identifier octets and the shortest definite lengths that count exactly the bytes that follow, and the content of every constructed object, at every depth, consists of such objects and of nothing else. So a reader that knows nothing of the types can go down into it everywhere without meeting an error.", "quantifier": "all values of all types made with the type constructors, nested to any depth, with contents below 2^24 bytes", "why_tests_cant": "the nesting is unbounded, and one wrong length or flag deep inside makes the whole unreadable for other software although it may still be read by the same library", "anchors": ["src/to_ber.rs: ToBer::to_ber_vec, ber_encode", "src/to_der.rs: ToDer", "src/to_ber/generic.rs: BerGenericEncoder", "derive/src/container.rs: gen_tober", "derive/src/choice.rs: derive_choice_encode", "src/asn1_types/tagged/explicit.rs", "src/asn1_types/tagged/implicit.rs", "src/asn1_types/iterator.rs: AnyIterator"]}
{"id": "C111", "title": "The attributes of a derived field mean what the documentation says", "statement": "A derive macro accepts the attributes written on a field exactly when those it knows have the right arguments and there is at most one tag; the field is then tagged, optional, defaulted, given a parser or an error mapping as they say, in whatever order they are written, and attributes it does not know change nothing. A tag without a class is context-specific, its number is below 65536. The generated parsers and encoder use the same tag, so what the encoder writes is read back.", "quantifier": "all lists of attributes, with any arguments, on any field; all structs of such fields and their values", "why_tests_cant": "attributes combine freely: an order or a combination that is read differently changes the wire format of one type only, which no test of the library uses", "anchors": ["derive/src/container.rs: FieldInfo, parse_tag_args, get_field_berparser, gen_tober_content_len, gen_tober_write_content", "doc/DERIVE.md"]}
{"id": "C112", "title": "The attributes of a derived type decide which implementations exist", "statement": "With `asn1(parse = \"…\", encode = \"…\")` on a type, exactly the listed parsers and encoders are generated, all four if nothing is said, none for an empty list, the last item of a name counting, and none twice; anything else in `asn1(…)` is refused. A CHOICE is tagged as the last of `tagged_explicit` and `tagged_implicit` says, and its variants get the number in their `tag` attribute or the one after the variant before; a type with the same number twice is refused. The error type is that of the last `error` attribute.", "quantifier": "all lists of attributes on a type, all lists of attributes on the variants of an enum", "why_tests_cant": "the combinations are unbounded, and a missing or doubled implementation shows only in the crate that uses it", "anchors": ["derive/src/options.rs: Options::from_struct", "derive/src/asn1_type.rs: parse_multi", "derive/src/choice.rs: parse_tag_variants, get_variant_tag", "derive/src/sequence.rs: DeriveSequence::to_tokens", "doc/DERIVE.md"]}
{"id": "C113", "title": "An error says where in the input it is", "statement": "When `parse_ber` or `parse_der` returns an error, the input it carries (`BerError::input`, documented as the error location) is a part of the input that was given, and its span says which part, however deeply the failing object is nested. A header that cannot be read and an object with an unexpected tag are reported where the object starts. For a collection the location is in the first item that is not accepted: its start if no object can be read there, otherwise within its content.", "quantifier": "all types built from the universal types with the type constructors and derive macros of the crate, nested in any way; all inputs with a correct span", "why_tests_cant": "the location goes through every level of nesting and every slicing on the way; tests compare a few error kinds and hardly ever the location", "anchors": ["src/error.rs: BerError::input, BerError::nom_err_input", "src/input.rs: Input::take, Input::take_from", "src/asn1_types/iterator.rs: AnyIterator", "src/from_ber.rs: BerParser::parse_ber", "src/from_der.rs: DerParser::parse_der", "src/asn1_types/sequence/iterator.rs: SequenceIteratorInput"]}
{"id": "C114", "title": "A decoded value holds no more than was read", "statement": "What a decoded value holds (one for each item of its collections, one for each byte of its strings, big integers, object identifiers and untyped contents, at any depth) is at most one and a half times the number of bytes `parse_ber` or `parse_der` has read for it; the half is due to BMPString, whose characters can take three bytes in UTF-8 for two in the input. A `Vec<T>` has at most half as many items as bytes were read. So a length field, nesting or segmentation cannot make a small input decode into a large value.", "quantifier": "all types built from the universal types with the type constructors and derive macros of the crate, nested in any way (defaults holding nothing); all inputs", "why_tests_cant": "amplification needs an unforeseen combination of nesting, segmentation and lengths; tests decode a few small values", "anchors": ["src/ber/parser.rs: ber_get_content", "src/ber/appendable.rs: parse_ber_segmented", "src/asn1_types/iterator.rs: AnyIterator::try_parse_collect", "src/asn1_types/strings/bmpstring.rs: BmpString", "src/asn1_types/bitstring.rs: BitString::append", "src/from_ber.rs: BerParser::parse_ber", "src/from_der.rs: DerParser::parse_der"]}
{"id": "C115", "title": "Decoding reads headers in proportion to the input", "statement": "Reading an object with `Any::parse_ber` reads at most one header for every two bytes given, and one more that may fail: the headers nested in it at any depth are each read once. `parse_ber` and `parse_der` of a type read, whether they succeed or fail, at most a number of headers per two bytes which depends on the type only: one, one more for each list, set, tuple, struct, CHOICE and EXPLICIT tag nested in it, two more for each field of a struct that may be missing, and five for a string that may be segmented. To decode a value at least one header is read for each object it consists of. So neither deep nesting of indefinite lengths nor segmentation makes decoding quadratic.", "quantifier": "all inputs, well-formed or not; all types built from the universal types with lists, arrays, tuples, sets, tags and derived structs, CHOICEs, ENUMERATEDs and aliases, nested in any way; BER and DER", "why_tests_cant": "a blow-up needs an adversarial combination of nesting and lengths, and shows as slowness rather than as a wrong result", "anchors": ["src/ber/parser.rs: ber_skip_object_content", "src/ber/parser.rs: ber_get_content", "src/ber/appendable.rs: parse_ber_segmented", "src/asn1_types/iterator.rs: AnyIterator::try_parse_collect", "src/asn1_types/sequence/vec.rs: Vec", "src/asn1_types/tagged/explicit.rs: TaggedValue", "src/from_ber.rs: BerParser::parse_ber"]}
{"id": "C116", "title": "Decoding and encoding restores canonical DER", "statement": "If the bytes that `parse_der` consumed are in canonical form (at every level the shortest identifier and length octets, the class, flag and tag the type announces, nothing after the last part, times without offset and fraction, every DEFAULT field present), then encoding the value gives back exactly these bytes; and if they are in any other form, it gives other bytes. The encoding is always in canonical form, and a value has only one such form.", "quantifier": "all inputs of fewer than 2^64 bytes; all types built from the universal types and Any with Vec, SequenceOf, SetOf, arrays, raw sequences, EXPLICIT and IMPLICIT tags, derived structs, CHOICE, ENUMERATED and aliases, nested in any way; all values decoded", "why_tests_cant": "re-encoding a signed structure must restore the signed bytes: one value at one depth for which it does not is a failed signature, and tests try few values of few types", "anchors": ["src/from_der.rs: DerParser::parse_der", "src/to_der.rs: ToDer", "src/ber/parser.rs: ber_get_content", "src/header.rs: Header", "src/asn1_types/integer.rs: Integer", "src/asn1_types/sequence/vec.rs: Vec", "src/asn1_types/tagged/explicit.rs: TaggedValue", "src/asn1_types/tagged/implicit.rs: TaggedValue"]}
{"id": "C117", "title": "Several derive macros on one type implement its tag once", "statement": "The macros that derive one parser or decoder each (BerSequence, DerSequence, BerSet, DerSet and the BerParser… and DerParser… macros) implement the tag of the type exactly once, by the last of them, if each is in a derive attribute of its own, whatever their number and order and whatever else is derived. Every other implementation is generated once for each macro it belongs to, however the macros are distributed over attributes.", "quantifier": "all lists of attributes on a type, with any macros of this crate and of others, in any order and grouping; all options", "why_tests_cant": "a missing or doubled implementation shows only when a crate with that very combination is compiled", "anchors": ["derive/src/check_derive.rs: check_lastderive_fromber, PATTERNS", "derive/src/sequence.rs: derive_ber_container, derive_der_container, derive_berparser_container", "derive/src/alias.rs: derive_ber_alias, derive_berparser_alias", "derive/src/choice.rs: derive_berparser_choice_container", "derive/src/lib.rs: decl_derive"]}
{"id": "C118", "title": "The components of a SET OF are in the order of DER", "statement": "The DER encoding of a SET OF has the encodings of its components in ascending order, as X.690 11.6 requires: a BTreeSet of unsigned integers is written so, and SetOf, BTreeSet and HashSet in general write the components in the order in which the collection yields them. The DER parsers do not look at the order: with the components in any other order an accepted encoding is accepted too, and gives the same set.", "quantifier": "all sets of elements of any type whose parser depends on the bytes it consumes only; all permutations of the components; for the order written, all sets of unsigned integers of 1 to 16 bytes", "why_tests_cant": "the order of values and the order of their encodings agree on small examples and differ on others; a signature over a set depends on it", "anchors": ["src/asn1_types/set/btreeset.rs: BTreeSet", "src/asn1_types/set/hashset.rs: HashSet", "src/asn1_types/set/set_of.rs: SetOf", "src/asn1_types/integer.rs: Integer"]}
{"id": "C119", "title": "An object in the wrong form is refused, and the error says so", "statement": "A value of BOOLEAN, INTEGER, ENUMERATED, NULL, OBJECT IDENTIFIER, REAL, of the times and, in DER, of a string is primitive: an object with the tag of such a type that is constructed is refused, whatever its content, and the error is ConstructUnexpected (Unsupported for the times in BER, LifetimeError for borrowed strings in BER) and points at the content. A SEQUENCE, SET, EXPLICIT tag, derived struct or derived CHOICE is constructed: a primitive object is refused with ConstructExpected. An IMPLICIT tag keeps the form of the type under it. The conversions from Any, from_der and the DER checks report the same; an object with another tag is refused for its tag.", "quantifier": "all objects, with any content; all types of the list, with any parameters, item types and fields; BER and DER", "why_tests_cant": "a parser that forgets to look at the form works on all valid input; the difference shows only for malformed objects of each single type", "anchors": ["src/header.rs: assert_primitive, assert_constructed, assert_primitive_input, assert_constructed_input", "src/from_ber.rs: BerParser", "src/from_der.rs: DerParser", "src/asn1_types/sequence/vec.rs: from_ber_content", "src/asn1_types/tagged/explicit.rs: from_ber_content", "src/asn1_types/tagged/implicit.rs: from_ber_content", "src/asn1_types/oid.rs: from_ber_relative, from_der_relative"]}
{"id": "C120", "title": "The error names what is wrong with the content", "statement": "A primitive object that has the tag of a type is refused exactly if its content has a fault, each content has at most one, and the error is the one that stands for it: InvalidLength for a BOOLEAN that is not one octet, a NULL that is not empty, an empty INTEGER (BER), object identifier, BIT STRING, BMPString or UniversalString, and for unused bits that are not there; the DER constraints InvalidBoolean, IntegerEmpty, IntegerLeadingZeroes, IntegerLeadingFF, MissingTimeZone for octets that only BER allows; IntegerNegative for a negative number where an unsigned one is wanted, IntegerTooLarge for a number that does not fit; StringInvalidCharset for octets that are not a text over the characters of the type; InvalidValue for a count of unused bits over 7 or a text that is not a time. The conversion from Any reports the same.", "quantifier": "all objects with any content; all primitive universal types (integers of every width, all strings, derived enumerations with any discriminants); BER and DER", "why_tests_cant": "there is an error for each of infinitely many malformed contents, and several checks that could come first", "anchors": ["src/error.rs: InnerError, DerConstraint", "src/asn1_types/integer.rs: check_der_int_constraints, decode_array_uint, decode_array_int", "src/asn1_types/boolean.rs: from_der_content", "src/asn1_types/bitstring.rs: from_ber_content", "src/asn1_types/generalizedtime.rs: from_der_content", "src/asn1_types/utctime.rs: from_ber_content", "src/asn1_types/strings.rs: asn1_string", "src/asn1_types/real.rs: decode_real"]}
{"id": "C121", "title": "The error of a part is the error of the whole", "statement": "When decoding fails, the error and its position are those of the first thing in the input that is not accepted: in a SEQUENCE, SET, list or tuple the first part that is refused, in an optional or defaulted field the field only if its tag announces it, in a CHOICE the variant that the tag selects, under an EXPLICIT or IMPLICIT tag the value in it. A composed type has no errors of its own but those about its header (tag, class, constructed bit), about the number of items of an array, and about a tag that no variant has. So a fault deep inside is reported as the very error the innermost type gives.", "quantifier": "all types built from the universal types by lists, sets, arrays, tuples, tags, derived structs, choices, enumerations and aliases, to any depth; all inputs; BER and DER", "why_tests_cant": "the nesting is unbounded, and which of several faults is met first depends on every part before", "anchors": ["src/asn1_types/sequence/vec.rs: from_ber_content", "src/asn1_types/sequence/tuple.rs: from_ber_content", "src/asn1_types/tagged/explicit.rs: from_ber_content", "src/asn1_types/tagged/implicit.rs: from_ber_content", "src/asn1_types/optional.rs: parse_ber", "derive/src/container.rs: get_field_berparser", "derive/src/choice.rs: derive_choice", "src/asn1_types/iterator.rs: try_parse_collect"]}
{"id": "C122", "title": "Floating-point numbers through REAL", "statement": "If Rust's library formats and reads decimal numbers to the nearest f64 and computes powers of ten to 40 bits, then encoding a floating-point number as REAL and decoding the bytes through any of the four APIs gives back: every finite f32 other than zero unchanged, subnormal ones included; every f64 that is an integer of up to 53 bits unchanged; every f64 from 2^-800 to 2^800 in magnitude with the same sign and a relative error of at most 2^-38. The REAL made from n / 2^k is the exact decimal number and decodes to itself if its digits n * 5^k have up to 53 bits. Other f64 and REAL values do change: 0.3 comes back as 0.30000000000000004, the smallest positive f64 as zero, and the REAL of 2675.7807436963367 with another last digit.", "quantifier": "all numbers of the formats; all libraries with the stated precision", "why_tests_cant": "there are 2^64 numbers, the loop of Real::new rounds up to 270 times, and the effect depends on the library only through its precision", "anchors": ["src/asn1_types/real.rs: new, f64, f32, ber_write_content", "src/asn1_types/real/f64.rs: from_ber_content", "src/asn1_types/real/f32.rs: from_ber_content"]}
{"id": "C123", "title": "The message of an invalid value says what is wrong", "statement": "The text that goes with InvalidValue names the first fault of the content. For UTCTime and GeneralizedTime (from_bytes and the decoders): too short for the date and the minutes, an octet that is not a digit, nothing after the minutes, a component out of range, a fraction without digits or with more than four digits or with another character, no time zone. For BIT STRING: a count of unused bits over 7. For REAL (Real, f64, f32): no octets for the number, a reserved base, a number of more than eight octets, an unknown special value, a decimal form 0, a text that is not a number. There are no other errors than these, InvalidLength, StringInvalidCharset and the DER constraints on GeneralizedTime, each for the contents named, and from_bytes reads every text without fault.", "quantifier": "all objects of these types with any content, BER and DER; all byte strings for from_bytes; all libraries reading floating-point texts", "why_tests_cant": "each message stands for an unbounded set of contents, and which one comes first depends on all octets before it", "anchors": ["src/asn1_types/utctime.rs: from_bytes", "src/asn1_types/generalizedtime.rs: from_bytes", "src/datetime.rs: decode_decimal", "src/asn1_types/bitstring.rs: from_ber_content", "src/asn1_types/real.rs: decode_real"]}
{"id": "C124", "title": "Optional values inside lists and tagged values", "statement": "Option<T> can be the element of Vec, SequenceOf, SetOf, arrays and sets, and the content of a tagged value. A list of Option<T> decodes exactly as the list of T, with every element present (no element of a list can be absent), and encodes as the list of the values present; TaggedExplicit and TaggedImplicit of Option<T> decode to an absent value only from an object without content, and a present value comes back as written.", "quantifier": "all element types, all lists of optional values, all inputs, BER and DER, all class and tag numbers", "why_tests_cant": "ranges over all element types and contents; some of the calls do not return at all, which a test cannot establish", "anchors": ["src/asn1_types/optional.rs: FromBer, FromDer, BerParser, DerParser, ToBer, ToDer, DynTagged", "src/asn1_types/sequence/vec.rs: Vec<T>", "src/asn1_types/iterator.rs: try_parse_collect", "src/asn1_types/tagged/explicit.rs: TaggedExplicit", "src/asn1_types/tagged/implicit.rs: TaggedImplicit"]}
{"id": "C125", "title": "Equality of values", "statement": "Equality (`==`) of the types of the crate and of derived types nested in any way is reflexive and symmetric, and equal values encode to the same bytes. For decoded values equality means what a user expects: two Integers, Booleans, Oids, Any objects, Reals are equal exactly if they are the same number, truth value, arcs, object.", "quantifier": "all pairs of values of all types built from the crate's types; all pairs of inputs from which values are decoded", "why_tests_cant": "ranges over all pairs of values and all nestings of types; a test compares a few pairs", "anchors": ["src/asn1_types/any.rs: Any", "src/header.rs: PartialEq for Header", "src/asn1_types/integer.rs: Integer", "src/asn1_types/boolean.rs: Boolean", "src/asn1_types/oid.rs: Oid", "src/asn1_types/real.rs: Real", "src/asn1_types/bitstring.rs: BitString", "src/asn1_types/set/hashset.rs: HashSet"]}
{"id": "C126", "title": "The text of an error", "statement": "The text (`Display`) of an error tells what happened: two different errors of type Error have different texts, an InnerError and the Error made from it have the same text, the text of a BerError contains the place of the error in decimal, a wrong tag or class is reported with what was expected and what was found, and the errors of the encoders have different texts.", "quantifier": "all errors: all tags, messages, lengths, places and kinds", "why_tests_cant": "the texts depend on numbers and messages that are unbounded; a test prints a few of them", "anchors": ["src/error.rs: Error, InnerError, BerError, DerConstraint, SerializeError", "src/input.rs: Display for Input", "src/class.rs: Display for Class"]}
{"id": "C127", "title": "The DER constraints of an object", "statement": "check_constraints of a type accepts exactly the objects that satisfy the constraints of the type: for an INTEGER the primitive form and the shortest content, for a BIT STRING zeros in the unused bits, for strings the primitive form, for containers, tags, aliases and structs the constraints of the objects inside; it returns on every object; and an object accepted by parse_der or from_der of the type satisfies them.", "quantifier": "all types nested to any depth, all objects", "why_tests_cant": "nesting and contents are unbounded; a test checks a few objects of a few types", "anchors": ["src/from_der.rs: CheckDerConstraints", "src/asn1_types/tagged/explicit.rs: check_constraints", "src/asn1_types/tagged/implicit.rs: check_constraints", "src/asn1_types/bitstring.rs: check_constraints", "src/asn1_types/boolean.rs: check_constraints", "derive/src/container.rs: gen_checkconstraints"]}
{"id": "C128", "title": "Cutting an input", "statement": "After any history of take, take_from and take_split on an input made from a buffer, the input is exactly the part of the buffer that its span says; a cut panics exactly if it goes beyond the end of what is left; inputs cut from one buffer are equal exactly if their spans are; slice_index and position tell in advance where a cut is possible.", "quantifier": "all buffers, all histories of cuts, all predicates on bytes", "why_tests_cant": "histories are unbounded; a test makes two cuts of one buffer", "anchors": ["src/input.rs: Input::take, take_from, take_split, slice_index, position, iter_indices"]}
{"id": "C129", "title": "Histories of changes", "statement": "A bit string changed bit by bit through as_mut_bitslice has the old bits with the changes, keeps its length and unused bits, and is read back from its encoding as these bits; a sequence of generic objects after any history of push, pop and iter_mut is read back as the objects left; a set of generic objects after any history of insert and remove has the members, and has given the answers, of a mathematical set.", "quantifier": "all values, all histories of operations, all hashers", "why_tests_cant": "histories are unbounded; tests do a few operations", "anchors": ["src/asn1_types/bitstring.rs: as_mut_bitslice", "src/asn1_types/sequence/any_sequence.rs: push, pop, iter_mut", "src/asn1_types/set/any_set.rs: insert, remove, iter"]}
{"id": "C130", "title": "The form of the lengths makes no difference (BER)", "statement": "Two encodings that differ only in the form of their length octets, at any level (short, long, with leading zeros, definite or indefinite), are read by parse_ber and from_ber as the same value: one is accepted exactly if the other one is, whatever follows, and both are consumed entirely. So every value that parse_der reads is read by parse_ber in every form.", "quantifier": "all pairs of encodings of the same object with at most 49 nested indefinite lengths, all types made of the library's types, all bytes that follow", "why_tests_cant": "there are infinitely many forms of each encoding; the tests read a few objects with an indefinite length", "anchors": ["src/ber/parser.rs: ber_skip_object_content, ber_get_content", "src/asn1_types/any.rs: Any (BerParser)", "src/header.rs: Header::parse_ber", "src/length.rs: Length", "src/from_ber.rs: BerParser::parse_ber, FromBer::from_ber"]}
{"id": "C131", "title": "Older and newer versions of a type read each other's objects", "statement": "What a derived struct with more fields at the end accepts, the struct without them accepts too, with the same values of its fields and the same rest of the input. What the older struct reads from an object whose content ends with its fields, a newer version (fields made optional or given a default, optional and default fields added at the end) reads too, with the same values and the added fields absent or default; in BER, if the fields have definite lengths. An added field that is not optional makes it refuse. A CHOICE or ENUMERATED with more variants at the end reads the older objects as the same variants, and the objects it reads as new variants are refused by the older one, for a CHOICE with UnexpectedTag. A wider integer type reads the same number.", "quantifier": "all lists of fields and variants of any types, all tags, all inputs; parse_ber, parse_der, from_ber, from_der", "why_tests_cant": "a test fixes two versions of one type and a few objects", "anchors": ["derive/src/container.rs: derive_ber_sequence_content, derive_berparser_sequence_content", "derive/src/choice.rs: derive_choice_parser", "derive/src/enumerated.rs: derive_enumerated", "src/asn1_types/integer.rs: impl_int, impl_uint"]}
{"id": "C132", "title": "What one version of a struct writes, the other one reads", "statement": "The encoding of a derived struct is read by a newer version with optional and default fields added at the end, with these absent or default; and the encoding of a newer struct is read by the older one without the last fields. The values of the common fields come back.", "quantifier": "all lists of fields, all values that fit, whatever follows the encoding; parse_ber and parse_der", "why_tests_cant": "needs encoders and decoders of two types, for all values", "anchors": ["derive/src/container.rs: gen_tober, derive_berparser_sequence_content", "src/to_ber.rs: ToBer::to_ber_vec"]}
{"id": "C133", "title": "The order of the components of a SET", "statement": "The components of a derived SET are accepted in any order in BER, and are read and written in the order of their tags in DER (X.690 8.11, 10.3). The code reads and writes them in the order of declaration: an accepted object has its components in this order, and an object whose components come in another order is refused by both decoders.", "quantifier": "all structs whose fields are required and untagged, of any types with one tag; all inputs; parse_ber and parse_der", "why_tests_cant": "the number of orders grows as the factorial of the number of fields", "anchors": ["derive/src/container.rs: derive_berparser_sequence_content, gen_tober", "derive/src/lib.rs: BerParserSet, DerParserSet, ToDerSet"]}
{"id": "C134", "title": "Targets with a narrower usize accept the same objects", "statement": "Compiled for a target whose usize has fewer than 64 bits, the decoders give the same answers as with 64 bits on every input that fits in memory: types without OPTIONAL fields accept the same objects with the same values, and where the error differs it is InvalidLength. With OPTIONAL or DEFAULT fields the answer is the same or InvalidLength; an object of another type announcing a length that does not fit, where an OPTIONAL field is looked for, is passed over with 64 bits and refused otherwise.", "quantifier": "all widths from 8 bits; all inputs shorter than the address space; parse_ber and parse_der of every type built from the plain types, strings, Any, Vec, arrays, SetOf, sets, tagged values, structs, CHOICE and enumerations, and from_ber and from_der of the plain types", "why_tests_cant": "the tests run on one target, and lengths of 2^32 bytes do not occur in them", "anchors": ["src/header.rs: parse_header", "src/ber/parser.rs: ber_skip_object_content", "src/from_ber.rs: BerParser::parse_ber", "src/from_der.rs: DerParser::parse_der", "src/asn1_types/optional.rs: Option::parse_ber"]}
{"id": "C135", "title": "Encoding computes lengths a bounded number of times", "statement": "To encode a value, the length of each of its parts (the values it consists of) is computed at most once for every level of nesting of its type: the calls of the methods that compute lengths number at most the depth of the type times the number of parts, and computing the length of a value takes at most one call for each part. Structs with fields tagged by an attribute compute the length of such a field twice for each struct around it, so for them the calls double with each level.", "quantifier": "all types built from the universal types by Vec, SequenceOf, SetOf, sets, arrays, IndefiniteVec, AnySet, tagged values, aliases, derived structs and CHOICEs, at any depth; all values; all writers", "why_tests_cant": "the tests do not count calls, and values in them are nested one or two levels", "anchors": ["src/to_ber.rs: ToBer::ber_encode, ber_encode_tagged_explicit, ber_length_constructed_items", "src/to_der.rs: ToDer::der_encode", "derive/src/container.rs: gen_tober_content_len, gen_tober_write_content", "derive/src/choice.rs: choice_gen_tober_content_len"]}
{"id": "C136", "title": "Types that contain themselves", "statement": "A user may define a type in terms of itself (a struct with a Vec of itself, a CHOICE with a SET OF itself). Its definition determines its parsers. parse_ber and parse_der of it return on every input, do not panic and do not loop, depend only on the bytes consumed, and what parse_der accepts parse_ber accepts with the same value. Reading n bytes makes at most n/2 calls of the parser within each other; there is no other limit on the depth of nesting.", "quantifier": "all types defined in terms of themselves, every occurrence within another object, by Vec, SequenceOf, SetOf, sets, arrays, tuples, tagged values, aliases, derived structs and CHOICEs, around any types built from the universal types; all inputs", "why_tests_cant": "the tests have no type that contains itself; inputs can be nested to any depth, and what holds of a type is shown by recursion on the input", "anchors": ["src/from_ber.rs: BerParser::parse_ber", "src/from_der.rs: DerParser::parse_der", "src/asn1_types/sequence/vec.rs: from_ber_content, from_der_content", "src/asn1_types/iterator.rs: AnyIterator::try_parse_collect", "derive/src/container.rs: gen_berparser", "derive/src/choice.rs: derive_choice_parser"]}
{"id": "C137", "title": "Values of types that contain themselves", "statement": "The definition of a type in terms of itself determines its encoder. A value of such a type, nested to any depth, is written as one object with the lengths announced, and comes back through parse_ber and parse_der as the same value, whatever follows.", "quantifier": "all definitions of an encoder in terms of itself on smaller values; all values of the struct { label: u32, twigs: Vec<itself> } with fewer than 2^24 bytes of content, of any depth and any number of items", "why_tests_cant": "the tests have no type that contains itself", "anchors": ["src/to_ber.rs: ToBer::ber_encode", "src/asn1_types/sequence/vec.rs: ber_write_content, from_ber_content, from_der_content", "derive/src/container.rs: gen_tober, gen_berparser"]}
{"id": "C138", "title": "Lengths that do not fit usize", "statement": "Encoders compute lengths as sums of usize. As long as the sums fit, neither the width of usize nor the build mode matters: lengths, bytes and results are the same. If they do not fit, no wrong length is announced: the encoding fails.", "quantifier": "all types made of the universal types by the type constructors of the crate, nested in any way; all values; all widths of usize; builds with and without overflow checks; all writers", "why_tests_cant": "the values are larger than the address space: they consist of zero-sized or shared parts", "anchors": ["src/length.rs: Add, AddAssign, Sum", "src/to_ber.rs: ber_total_length, ber_length_constructed_items, ber_encode", "derive/src/container.rs: gen_tober"]}
{"id": "C139", "title": "What dump-der shows of a file", "statement": "The program dump-der prints, for every input, each object in it and each object inside of another (SEQUENCE and SET, explicit tags, OCTET STRING and BIT STRING whose content is an object), once and in order, with level, offset, length, header and value, and reports octets that are not an object and octets after the object. It ends, and does not panic. Offsets are those at which the objects begin.", "quantifier": "all inputs and all combinations of the options that say what to print", "why_tests_cant": "objects can be nested in any way and to any depth; every universal type inside of every other is another path", "anchors": ["examples/dump-der.rs: print_der, print_der_any, print_hex_dump", "src/asn1_types/iterator.rs: AnyIterator"]}
{"id": "C140", "title": "What DER decoding does not tell apart", "statement": "If parse_der returns the same value for two inputs, the octets it has consumed differ only in ways that are listed: the form of identifier and length octets; the class of a universal type; the tag of an OID (that of RELATIVE-OID is taken too); octets at the end of a struct, a tuple or an EXPLICIT tag; a field with its DEFAULT value written or left out; the order and number of the members of a BTreeSet or HashSet; the contents of a time, BMPString or REAL that is not in the canonical form. So the same universal value (but for these) has the same content octets, the items of lists correspond one to one and in order, and OPTIONAL fields are missing in both or in none.", "quantifier": "all pairs of inputs of any length and position, all types nested in any way from universal types, Any, Vec, SequenceOf, SetOf, BTreeSet, HashSet, arrays, raw sequences, EXPLICIT and IMPLICIT tags, tuples, derived structs, CHOICEs, enumerations and aliases", "why_tests_cant": "a signature is checked over octets, a program acts on values: whether two inputs give the same value is a statement on all pairs of inputs", "anchors": ["src/from_der.rs: DerParser", "src/header.rs: Header", "src/asn1_types/oid.rs: Oid", "derive/src/container.rs: Container"]}
{"id": "C141", "title": "Which octets a type accepts, and which value they denote", "statement": "For a type nested in any way, parse_ber and parse_der return the value w and leave rest if and only if the input is one object that denotes w, followed by rest. What an object denotes is given by a separate table over its identifier octets, length octets (in BER also the indefinite form, at most 49 levels deep) and content: per universal type, item by item for lists and sets, field by field for structs and tuples (OPTIONAL and DEFAULT fields are missing exactly if nothing is left or another tag number comes next), the first variant selected for CHOICEs. Hence no octets denote two values, and no object that denotes a value is the beginning of another.", "quantifier": "all inputs of any length and position, both rule sets, all types nested in any way from universal types, Vec, SequenceOf, SetOf, BTreeSet, HashSet, arrays, raw sequences, EXPLICIT and IMPLICIT tags, tuples, derived structs (with custom fields), CHOICEs, enumerations, aliases and types of the user with a given language", "why_tests_cant": "a test shows that some inputs are accepted or refused; that nothing else is, for each of infinitely many types, is a statement on all inputs", "anchors": ["src/from_ber.rs: BerParser", "src/from_der.rs: DerParser", "derive/src/container.rs: Container", "derive/src/choice.rs: derive_choice"]}
{"id": "C142", "title": "The octets of types that contain themselves", "statement": "For a type whose text contains the type itself, each time within another object: parse_ber and parse_der return the value w and leave rest if and only if the input is one object that denotes w, followed by rest, where what an object denotes satisfies the equation read off the text of the type. That equation has exactly one solution in which no octets denote two values; for an object with n octets of content it is reached by putting the text into itself n/2 + 1 times, and more times change nothing. For trees (a struct with a label and a list of itself) the solution is given by the evident inductive rules.", "quantifier": "all inputs of any length and depth of nesting, both rule sets, all texts of self-containing types built from the types of C141; the inductive rules for one type of trees", "why_tests_cant": "depth of nesting is unbounded, and that nothing else is accepted and no other reading fits the equation are statements on all inputs and all readings", "anchors": ["src/from_ber.rs: BerParser", "src/from_der.rs: DerParser", "derive/src/container.rs: Container", "derive/src/choice.rs: derive_choice"]}
{"id": "C143", "title": "Types that contain themselves in the byte-slice API", "statement": "A type whose text contains the type itself, each time within another object, has exactly one TryFrom<Any> (and so one from_ber) and one from_der that satisfy its derived definition. They make no more nested calls than half the number of octets (plus one), return on every input without panic or endless loop if the other types do, and consume something of what they accept. For trees (a struct with a label and a list of itself) it is stated exactly which octets they accept, and which value these denote; they accept whatever parse_ber and parse_der accept, however deep, with the same value and the same remainder; and what to_der_vec writes for a tree comes back. Two types that contain each other have one pair of such functions of each kind, which return on every input.", "quantifier": "all inputs of any length and depth of nesting; all texts of types built with Vec, SequenceOf, SetOf, set collections, EXPLICIT and IMPLICIT tags, derived structs with required, OPTIONAL and DEFAULT fields, aliases and any other types; the comparison of the two APIs for one type of trees", "why_tests_cant": "depth of nesting is unbounded, and a function defined in terms of itself could be undetermined or could loop on an input no test contains", "anchors": ["derive/src/container.rs: Container", "src/asn1_types/sequence/iterator.rs: SequenceIterator", "src/asn1_types/sequence/vec.rs: Vec", "src/asn1_types/tagged/explicit.rs: TaggedValue", "src/asn1_types/tagged/implicit.rs: TaggedValue"]}

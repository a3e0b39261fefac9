{"id": "C01", "title": "Scalar encodings round-trip", "statement": "Every u8/i8/u16/i16/u32/i32/u64/i64, every f32/f64 bit pattern (NaN payloads and signed zeros included) and every GUID, once written little-endian and read back at any offset, yields the same value and leaves the reader exactly behind the written bytes.", "quantifier": "all values of every scalar width, all following bytes, all stream positions", "why_tests_cant": "2^64 / 2^128 values times every continuation; tests sample a handful", "anchors": ["src/cursor_ext.rs: read_guid, write_guid", "src/properties/int_property.rs: impl_int_property!"]}
{"id": "C02", "title": "Strings round-trip", "statement": "write_string followed by read_string returns the same string and consumes exactly what was written, for every Rust string (ASCII or not, including astral-plane characters and embedded NULs) whose encoding is within the format's length limit.", "quantifier": "all Unicode strings within the limit, all following bytes", "why_tests_cant": "unbounded set of strings, two encodings, surrogate pairs", "anchors": ["src/cursor_ext.rs: read_string, write_string"]}
{"id": "C03", "title": "The string length limit is exact", "statement": "A string that write_string accepted can be read back if and only if its encoded length (bytes when ASCII, UTF-16 units otherwise, terminator included) is at most 131072; above that read_string reports InvalidString with exactly the stored length and the string's start position.", "quantifier": "all strings below 2^31 units", "why_tests_cant": "boundary behaviour for strings of >128 KiB in both encodings cannot be enumerated", "anchors": ["src/cursor_ext.rs: read_fstring, write_string"]}
{"id": "C04", "title": "Null and empty strings are distinguished", "statement": "write_fstring/read_fstring preserves the difference between None and Some(\"\"), and round-trips every Option<String> within the limit; read_string rejects a null string.", "quantifier": "all optional strings", "why_tests_cant": "quantifies over all strings", "anchors": ["src/cursor_ext.rs: read_fstring, write_fstring, read_string"]}
{"id": "C05", "title": "Decoded strings are validated", "statement": "For every byte sequence, if read_fstring succeeds then the length field was in range, exactly the announced number of bytes was consumed, the terminator was zero, and the payload is exactly the strict UTF-8 (positive length) or UTF-16 (negative length) encoding of the returned text; on every input it returns Ok or Err and never panics.", "quantifier": "all byte sequences", "why_tests_cant": "arbitrary adversarial input bytes", "anchors": ["src/cursor_ext.rs: read_fstring"]}
{"id": "C06", "title": "Reported byte counts are the bytes written", "statement": "The usize every write function returns equals the number of bytes it put in the writer.", "quantifier": "all strings, texts, properties and headers", "why_tests_cant": "depends on every value shape", "anchors": ["src/cursor_ext.rs: write_string", "src/properties/mod.rs: impl_write!", "src/lib.rs: GvasHeader::write"]}
{"id": "C07", "title": "Booleans are strict", "statement": "read_bool and read_b32 accept exactly the encodings 0 and 1, return the value that was written, and report InvalidBoolean with the offending value for every other input.", "quantifier": "all bytes / all 32-bit words", "why_tests_cant": "2^32 words", "anchors": ["src/cursor_ext.rs: read_bool, read_b32, write_bool, write_b32"]}
{"id": "C08", "title": "8-bit enums are strict", "statement": "For each serialized enum (text history type, format argument type, rounding mode, date-time style, transform type, Palworld compression) every variant round-trips, and every byte that is not a discriminant is rejected with InvalidEnumValue.", "quantifier": "all variants and all 256 byte values of each enum", "why_tests_cant": "exhaustive over each enum and all stream continuations", "anchors": ["src/cursor_ext.rs: read_enum, write_enum", "src/properties/text_property.rs", "src/game_version.rs"]}
{"id": "C09", "title": "GUID conversions are bijections", "statement": "Guid <-> [u32;4], Guid <-> u128 and Guid <-> [u8;16] are mutually inverse, agree with each other, and is_zero holds exactly for the all-zero GUID.", "quantifier": "all 2^128 GUIDs", "why_tests_cant": "2^128 values", "anchors": ["src/types.rs: Guid::from_u32, to_u32, from_u128, to_u128, is_zero"]}
{"id": "C10", "title": "GUID text round-trips", "statement": "Parsing the displayed form of a GUID gives the same GUID, also when it is lower-cased, has its dashes removed, is wrapped in braces or surrounded by spaces; distinct GUIDs display differently.", "quantifier": "all 2^128 GUIDs and all these spellings", "why_tests_cant": "2^128 values", "anchors": ["src/types.rs: Display for Guid, FromStr for Guid"]}
{"id": "C11", "title": "GUID parsing is total and strict", "statement": "Guid::from_str never panics, and accepts only \"0\" or exactly 32 hexadecimal digits (modulo dashes, surrounding white space and one pair of braces).", "quantifier": "all strings", "why_tests_cant": "arbitrary user or JSON supplied text", "anchors": ["src/types.rs: FromStr for Guid"]}
{"id": "C12", "title": "Headers round-trip", "statement": "Writing a valid header (version 2 or 3) and reading it back yields the same header, including order and values of all custom versions, and leaves the reader right behind it.", "quantifier": "all valid headers with any number of custom versions", "why_tests_cant": "unbounded maps and strings", "anchors": ["src/lib.rs: GvasHeader::read, GvasHeader::write", "src/engine_version.rs", "src/custom_version.rs"]}
{"id": "C13", "title": "Header acceptance is exact", "statement": "On any bytes GvasHeader::read never panics, and it succeeds only on magic GVAS, save version 2 or 3, package version 0x205..=0x20D, UE5 version 1000..=1009 (version 3 only) and custom version format 3; any other value in these fields is reported as InvalidHeader.", "quantifier": "all byte sequences", "why_tests_cant": "2^32 values per field and all continuations", "anchors": ["src/lib.rs: GvasHeader::read", "src/ord_ext.rs: between"]}
{"id": "C14", "title": "Accepted headers are stable", "statement": "Every header that read accepts can be written again, and reading the result returns an equal header.", "quantifier": "all byte sequences accepted as a header", "why_tests_cant": "quantifies over all accepted inputs", "anchors": ["src/lib.rs: GvasHeader::read, GvasHeader::write"]}
{"id": "C15", "title": "Properties round-trip", "statement": "For every property type and every well-formed value, at any nesting depth, writing it with its header and reading it back (type name, then Property::new) returns an equal property (bit-exact floats), consumes exactly the written bytes and restores the path stack.", "quantifier": "all well-formed property trees of any depth, all custom versions, hints and following bytes", "why_tests_cant": "unbounded recursive data", "anchors": ["src/properties/mod.rs: Property::new, impl_read_header!, impl_write!", "src/properties/*.rs"]}
{"id": "C16", "title": "Headerless elements round-trip", "statement": "The elements of arrays, sets and maps, which are stored without headers, are recovered exactly from the container's type names, counts, declared length and the hints.", "quantifier": "all well-formed element lists of any length", "why_tests_cant": "unbounded lists; length-derived decoding", "anchors": ["src/properties/array_property.rs", "src/properties/set_property.rs", "src/properties/map_property.rs"]}
{"id": "C17", "title": "Files round-trip", "statement": "GvasFile::write followed by GvasFile::read_with_hints returns an equal file for every well-formed file in the default container.", "quantifier": "all well-formed files", "why_tests_cant": "unbounded data", "anchors": ["src/lib.rs: GvasFile::read_with_hints, GvasFile::write"]}
{"id": "C18", "title": "Palworld files round-trip", "statement": "The same holds for the Palworld container with no, single and double zlib compression, given that zlib decompression inverts compression.", "quantifier": "all well-formed files, all three compression types, all initial output positions", "why_tests_cant": "unbounded data", "anchors": ["src/lib.rs: GvasFile::read_with_hints, GvasFile::write", "src/game_version.rs"]}
{"id": "C19", "title": "Read-write-read is stable", "statement": "Every byte sequence that read accepts yields a file that write accepts, and reading that output (with the same hints) returns an equal file: a tool that loads and saves never changes what it will load next time.", "quantifier": "all byte sequences accepted by read, all hints", "why_tests_cant": "all accepted inputs", "anchors": ["src/lib.rs: GvasFile::read_with_hints, GvasFile::write"]}
{"id": "C20", "title": "Serialization is injective", "statement": "Two different well-formed files (or properties under the same path and versions) never serialize to the same bytes.", "quantifier": "all pairs of well-formed values", "why_tests_cant": "pairs of unbounded values", "anchors": ["src/lib.rs: GvasFile::write", "src/properties/mod.rs: PropertyTrait::write"]}
{"id": "C21", "title": "Own output is reproduced byte for byte", "statement": "Reading a file this library wrote from a well-formed value and writing it again reproduces the identical bytes.", "quantifier": "all well-formed files", "why_tests_cant": "unbounded data", "anchors": ["src/lib.rs: GvasFile::read_with_hints, GvasFile::write"]}
{"id": "C22", "title": "Read-write is byte-exact", "statement": "For every accepted default-container input, writing what was read reproduces the input bytes.", "quantifier": "all accepted byte sequences", "why_tests_cant": "all inputs", "anchors": ["src/lib.rs: GvasFile::read_with_hints, GvasFile::write", "src/cursor_ext.rs"]}
{"id": "C23", "title": "Truncation is detected", "statement": "If a save is read successfully and its content ends at byte k, then no proper prefix shorter than k is accepted: a truncated save never reads as a (different) valid one.", "quantifier": "all accepted inputs and all cut points", "why_tests_cant": "every cut point of every file", "anchors": ["src/lib.rs: GvasFile::read_with_hints"]}
{"id": "C24", "title": "Trailing data is ignored", "statement": "Appending any bytes to an accepted save does not change the result; more generally appended bytes never change an outcome other than unexpected end of file.", "quantifier": "all inputs and all suffixes", "why_tests_cant": "all suffixes", "anchors": ["src/lib.rs: GvasFile::read_with_hints"]}
{"id": "C25", "title": "Reading terminates", "statement": "Reading finishes on every finite input: nesting depth and number of loop iterations over names are bounded by the input length.", "quantifier": "all byte sequences", "why_tests_cant": "divergence cannot be observed by a finite test", "anchors": ["src/lib.rs: GvasFile::read_with_hints", "src/properties/struct_property.rs: read_custom"]}
{"id": "C26", "title": "Reading never panics", "statement": "On arbitrary bytes, reading returns Ok or Err and never panics.", "quantifier": "all byte sequences, all hints, both build profiles", "why_tests_cant": "adversarial inputs", "anchors": ["src/properties/int_property.rs", "src/properties/unknown_property.rs", "src/properties/text_property.rs", "src/properties/array_property.rs", "src/properties/struct_property.rs: insert_property"]}
{"id": "C27", "title": "MissingHint names the missing key", "statement": "If reading fails with MissingHint for a path, then the given hints have no entry for that path; conversely a headerless struct without a hint always fails that way, and supplying a hint under exactly the reported path removes that failure.", "quantifier": "all inputs and hint tables", "why_tests_cant": "all inputs and hint tables", "anchors": ["src/properties/mod.rs: Property::new"]}
{"id": "C28", "title": "Extra hints are harmless", "statement": "Adding hint entries never changes a successful read, nor any outcome other than MissingHint.", "quantifier": "all inputs, all hint tables and extensions", "why_tests_cant": "all pairs of hint tables", "anchors": ["src/properties/mod.rs: Property::new", "src/lib.rs: read_with_hints"]}
{"id": "C29", "title": "The path stack is restored", "statement": "Property::new leaves options.properties_stack exactly as it found it, whether it returns Ok, Err or unwinds.", "quantifier": "all inputs, types, depths and outcomes", "why_tests_cant": "every error point at every depth", "anchors": ["src/scoped_stack_entry.rs", "src/properties/mod.rs: Property::new", "src/properties/map_property.rs: read_body", "src/properties/struct_property.rs: read_custom"]}
{"id": "C30", "title": "A hint path denotes one location", "statement": "Different positions in the property tree have different hint paths.", "quantifier": "all stacks of names", "why_tests_cant": "all pairs of paths", "anchors": ["src/properties/mod.rs: Property::new (join)"]}
{"id": "C31", "title": "Declared lengths are enforced", "statement": "A property with a length header is accepted only if its body occupies exactly the declared number of bytes; otherwise InvalidValueSize (or another error) is returned.", "quantifier": "all inputs and all property types with a header", "why_tests_cant": "all inputs", "anchors": ["src/properties/mod.rs: impl_read_header!", "src/properties/int_property.rs: check_size!", "src/properties/struct_property.rs: read_header"]}
{"id": "C32", "title": "Large-world-coordinate gating", "statement": "Vector, Vector2D, Rotator and Quat structs are read with 64-bit components exactly when the file's UE5-release custom version is at least LargeWorldCoordinates and with 32-bit ones otherwise, and write refuses (with an error, not a panic) any value of the other width.", "quantifier": "all custom version tables and values", "why_tests_cant": "all version numbers", "anchors": ["src/properties/struct_property.rs: read_vector, write_body", "src/properties/mod.rs: supports_version"]}
{"id": "C33", "title": "Texts round-trip", "statement": "FText values with any nesting of histories and format arguments round-trip for every version table under which they are representable.", "quantifier": "all well-formed texts of any depth, all version tables", "why_tests_cant": "unbounded recursive data", "anchors": ["src/properties/text_property.rs: FText::read, FText::write"]}
{"id": "C34", "title": "Text writing fails only on integer width mismatch", "statement": "Writing a text panics exactly when it contains a format argument whose integer width does not match the file's 64-bit-argument support; otherwise it succeeds.", "quantifier": "all texts, all version tables", "why_tests_cant": "unbounded recursive data", "anchors": ["src/properties/text_property.rs: FormatArgumentValue::write"]}
{"id": "C35", "title": "Array construction loses nothing", "statement": "ArrayProperty::new keeps the type name and every element in order whichever compact representation it picks, and fails only for struct metadata on a non-struct array or a non-struct element in a struct array.", "quantifier": "all type names, metadata and element lists", "why_tests_cant": "unbounded lists", "anchors": ["src/properties/array_property.rs: ArrayProperty::new"]}
{"id": "C36", "title": "Map construction loses nothing", "statement": "MapProperty::new keeps key type, value type, allocation flags and every entry in order whichever compact representation it picks.", "quantifier": "all type names, flags and maps with distinct keys", "why_tests_cant": "unbounded maps", "anchors": ["src/properties/map_property.rs: MapProperty::new"]}
{"id": "C37", "title": "Duplicate keys: last value wins at the first position", "statement": "When a file repeats a key in a map, in the custom version table or among top-level properties, the result holds the last value at the position of the first occurrence, and the number of entries equals the number of distinct keys.", "quantifier": "all sequences of entries", "why_tests_cant": "all duplicate patterns", "anchors": ["src/types.rs: HashableIndexMap", "src/properties/map_property.rs: read_body", "src/lib.rs"]}
{"id": "C38", "title": "Repeated struct fields are kept", "statement": "Fields of a custom struct that share a name are all kept, in order, and each is written back; with debug assertions a repetition without matching array index panics instead of being accepted.", "quantifier": "all sequences of fields", "why_tests_cant": "all repetition patterns", "anchors": ["src/properties/struct_property.rs: insert_property, read_custom"]}
{"id": "C39", "title": "Top-level reading loses no property", "statement": "Every property stored at the top level of a save is present in the returned file.", "quantifier": "all accepted inputs", "why_tests_cant": "all inputs", "anchors": ["src/lib.rs: GvasFile::read_with_hints"]}
{"id": "C40", "title": "Unknown property types are preserved verbatim", "statement": "A property whose type the library does not know, stored with a plain header, is kept as raw bytes and written back byte-identically.", "quantifier": "all unknown type names and payloads", "why_tests_cant": "all names and payloads", "anchors": ["src/properties/unknown_property.rs"]}
{"id": "C41", "title": "A failed write leaves the output untouched", "statement": "If GvasFile::write fails because a value cannot be serialized, nothing has been written to the output.", "quantifier": "all files, outputs and positions", "why_tests_cant": "all failing values", "anchors": ["src/lib.rs: GvasFile::write"]}
{"id": "C42", "title": "Palworld framing is correct", "statement": "A Palworld file starts with the decompressed length, the number of bytes after the second field, the magic PlZ and the compression type; bytes before the initial position are untouched and the stream ends positioned at the end of the file.", "quantifier": "all files, compression types and initial positions", "why_tests_cant": "all values and positions", "anchors": ["src/lib.rs: GvasFile::write"]}
{"id": "C43", "title": "Palworld lengths on reading", "statement": "The stored compressed length never influences reading; a decompressed length larger than the payload is an error (none/zlib), and with double compression it is not used.", "quantifier": "all inputs and both length fields", "why_tests_cant": "2^64 field values times all inputs", "anchors": ["src/lib.rs: GvasFile::read_with_hints"]}
{"id": "C44", "title": "Ok means every byte was delivered", "statement": "If a write function returns Ok, all bytes of the encoding reached the writer, even if the writer performs short writes.", "quantifier": "all writers (including short-writing and bounded ones) and values", "why_tests_cant": "writer behaviours cannot be enumerated", "anchors": ["src/cursor_ext.rs: write_string"]}
{"id": "C45", "title": "Equal maps hash equally", "statement": "Two HashableIndexMaps that compare equal feed the hasher the same data.", "quantifier": "all pairs of maps", "why_tests_cant": "all pairs", "anchors": ["src/types.rs: HashableIndexMap"]}
{"id": "C46", "title": "Custom version checks", "statement": "supports_version is true exactly when the table's entry for the type's GUID (0 when absent) is at least the required number; it is antitone in the requirement and ignores other entries.", "quantifier": "all tables and requirements", "why_tests_cant": "all tables", "anchors": ["src/properties/mod.rs: get_custom_version, supports_version", "src/custom_version.rs"]}
{"id": "C47", "title": "Engine version mapping", "statement": "get_version maps 4.0-4.27 and 5.0-5.2 to their own distinct constants and everything else to UNKNOWN, regardless of patch, changelist and branch.", "quantifier": "all 2^32 (major, minor) pairs", "why_tests_cant": "2^32 pairs", "anchors": ["src/engine_version.rs: get_version"]}
{"id": "C48", "title": "Map keys are kept apart", "statement": "Two map entries with different key bytes remain two entries after reading.", "quantifier": "all key types and key pairs", "why_tests_cant": "all pairs of keys, including float NaNs and signed zeros", "anchors": ["src/properties/map_property.rs: read_body", "src/types.rs: HashableIndexMap"]}
{"id": "C49", "title": "Property layout", "statement": "A property written with a header consists of its type name, the exact byte length of the body, the array index, the type specific header strings, a zero byte, and the body that headerless writing produces.", "quantifier": "all properties", "why_tests_cant": "all values", "anchors": ["src/properties/mod.rs: impl_write!"]}
{"id": "C50", "title": "Output size is bounded by input size", "statement": "The number of properties a successful read returns is bounded by a linear function of the input length.", "quantifier": "all accepted inputs", "why_tests_cant": "all inputs", "anchors": ["src/properties/array_property.rs: read_body", "src/properties/unknown_property.rs: read_with_length"]}
{"id": "C51", "title": "Error positions lie inside the input", "statement": "Every position reported in a deserialization error is a position between the start and the end of the input.", "quantifier": "all failing inputs", "why_tests_cant": "all inputs", "anchors": ["src/error.rs", "src/cursor_ext.rs", "src/properties/mod.rs"]}
{"id": "C52", "title": "What write accepts, read accepts", "statement": "Every property or file that write accepts can be read back to an equal value.", "quantifier": "all values, well-formed or not", "why_tests_cant": "all values", "anchors": ["src/lib.rs: GvasFile::write", "src/properties/struct_property.rs"]}
{"id": "C53", "title": "JSON round-trip", "statement": "Serializing a file with serde to a JSON value and deserializing it returns an equal file.", "quantifier": "all files", "why_tests_cant": "unbounded data, untagged enums", "anchors": ["src/properties/*.rs: serde attributes", "src/types.rs"]}
{"id": "C54", "title": "Debug and release builds agree", "statement": "A build with debug assertions and overflow checks returns exactly what a release build returns on every input, unless it panics; so everything a debug build accepts, a release build accepts with the same result.", "quantifier": "all byte sequences and hint tables", "why_tests_cant": "Tests run in one profile on a few files; agreement has to hold for every input, including those where arithmetic wraps in release builds.", "anchors": ["src/properties/struct_property.rs:184-199", "src/properties/int_property.rs:210", "src/properties/set_property.rs:67-79"]}
{"id": "C55", "title": "Which properties can be written", "statement": "Writing a property succeeds exactly when every vector, rotator and quaternion in it, at any depth, has the component width the custom versions ask for, no bare struct value stands where a header is needed, and every integer argument of a text has the width the versions ask for. If only the structs are at fault an error is returned, if only the texts are at fault the writer panics.", "quantifier": "all property trees, all custom versions, with and without header", "why_tests_cant": "unbounded trees; the offending value can be at any depth", "anchors": ["src/properties/struct_property.rs: write_body", "src/properties/text_property.rs: FormatArgumentValue::write", "src/properties/mod.rs: PropertyTrait::write"]}
{"id": "C56", "title": "Different files have different JSON", "statement": "Two files whose floats are all finite and whose JSON values are equal are equal.", "quantifier": "all pairs of files", "why_tests_cant": "a collision between two representations (untagged enums, flattened fields, omitted defaults) can be anywhere in an unbounded space of pairs", "anchors": ["src/properties/*.rs: serde attributes", "src/types.rs:190-208", "src/lib.rs:331-343"]}
{"id": "C57", "title": "Saving through JSON", "statement": "If a save is read, converted to JSON, read back from JSON and written, the bytes are the same as when it is written directly, and reading them returns the same file.", "quantifier": "all accepted saves below 2 GiB with finite floats", "why_tests_cant": "unbounded inputs", "anchors": ["src/lib.rs:331-343", "src/properties/*.rs: serde attributes"]}
{"id": "C58", "title": "Files read from JSON are stable", "statement": "Whatever JSON is accepted, the file read from it has no repeated keys in any of its maps, and converting it to JSON and back returns the same file.", "quantifier": "all JSON values", "why_tests_cant": "arbitrary JSON, including hand written values the serializer never produces", "anchors": ["src/types.rs:222-361", "src/properties/*.rs: serde attributes"]}
{"id": "C59", "title": "Editing a save is local", "statement": "The contents of a save are its header, its properties one after the other and an end mark, and the bytes of a property depend only on its name, its value and the custom versions. Replacing some properties changes only the bytes of these; the edited save is read back as edited.", "quantifier": "all files, all replaced stretches of properties, all replacements", "why_tests_cant": "a length or a version recorded elsewhere could go stale for some combination of old and new values only", "anchors": ["src/lib.rs:517-570 GvasFile::write", "src/properties/mod.rs Property::write"]}
{"id": "C60", "title": "The two containers are never confused", "statement": "No byte sequence is accepted both as an ordinary and as a Palworld save: what is accepted as one is refused as the other with an error about the header.", "quantifier": "all byte sequences, hints and builds", "why_tests_cant": "a collision of two magic numbers at different offsets could need a particular length field or version number", "anchors": ["src/lib.rs:404-433 GvasFile::read_with_hints", "src/lib.rs:170-260 GvasHeader::read"]}
{"id": "C61", "title": "The header can be read alone", "statement": "Reading only the header of a save returns the header which reading the whole save returns, and where it fails reading the save fails with the same error.", "quantifier": "all byte sequences", "why_tests_cant": "unbounded inputs", "anchors": ["src/lib.rs GvasHeader::read", "src/lib.rs:436-491"]}
{"id": "C62", "title": "How a stream delivers its bytes does not matter", "statement": "Reading a file from a stream that delivers its bytes in pieces of any size, with any interruptions, returns what reading the same bytes at once returns. A stream that fails is never taken for one that ended: an ordinary save is refused with an I/O error however complete the bytes before the failure were, and a Palworld save is refused with it or treated as the bytes before the failure determine.", "quantifier": "all schedules of answers of a stream, all buffer sizes, all containers, hints and builds", "why_tests_cant": "the schedules of short reads and interruptions cannot be enumerated", "anchors": ["src/lib.rs:404-456 GvasFile::read_with_hints"]}
{"id": "C63", "title": "Ok means the whole file is in the output", "statement": "If the output has room for a limited number of bytes, write returns Ok only if the whole file was stored; otherwise it returns an error, the output holds the part for which there was room, and nothing before the initial position changed.", "quantifier": "all files, containers, limits, positions and previous contents", "why_tests_cant": "the limit can strike at every byte of every file", "anchors": ["src/lib.rs:517-570 GvasFile::write"]}
{"id": "C64", "title": "Equality of files and properties means what it should", "statement": "== on properties and files is reflexive, symmetric and transitive (NaNs included). Two properties whose maps are in the same order are equal exactly if they hold the same data up to NaNs and the sign of zeros; maps, struct fields, custom versions and the properties of a file are compared regardless of order, sets and arrays in order.", "quantifier": "all properties and files", "why_tests_cant": "ranges over all pairs and triples of nested values", "anchors": ["src/lib.rs:114-146 GvasHeader", "src/lib.rs:330-343 GvasFile", "src/properties/mod.rs:494-548 Property", "src/types.rs:246-257 HashableIndexMap"]}
{"id": "C65", "title": "Equal files are saved as the same bytes", "statement": "If two files are equal (==), writing them produces the same bytes.", "quantifier": "all pairs of files", "why_tests_cant": "ranges over all pairs of equal files", "anchors": ["src/lib.rs:330-343 GvasFile", "src/lib.rs:517-570 GvasFile::write"]}
{"id": "C66", "title": "Supplying hints one by one comes to an end", "statement": "If parsing fails for want of a hint and the hint is supplied, the next missing hint is reported at least four bytes further on in the data. So supplying one hint per attempt succeeds in getting past all missing hints after at most one attempt for every four bytes of the data, and ends with the outcome that supplying all of them at once has.", "quantifier": "all byte sequences, all hint tables, all answers", "why_tests_cant": "ranges over all inputs and all sequences of hint tables", "anchors": ["src/lib.rs:24-58", "src/properties/struct_property.rs:127-154", "src/properties/mod.rs:587-600"]}
{"id": "C67", "title": "Nesting is limited by the size of a save only", "statement": "The values in a save of n bytes are nested less than n/2 levels deep, counting properties, structs in struct arrays and texts. There is no other limit: for every d whose text fits the 32 bit sizes there is an accepted save of 6d+102 bytes nested d+2 levels deep, so the reader, which recurses once per level, can be made to recurse as deep as the size of the input allows.", "quantifier": "all inputs, all hints, both build profiles; all depths up to the 32 bit sizes", "why_tests_cant": "Tests try a few nestings; a bound for all inputs and the absence of any limit need an argument over all depths.", "anchors": ["src/properties/text_property.rs:115-120", "src/properties/text_property.rs:299-498", "src/properties/mod.rs:552-623", "src/properties/struct_property.rs:378-389"]}
{"id": "C68", "title": "Values deep inside a save can be changed in place", "statement": "If two properties (or files) differ in one place only, at any depth, their encodings differ only there: the bytes behind the place are the same, and in front of it only stored lengths differ, each by as much as the encodings of the two values do in length, so nothing differs there if they are equally long. So overwriting the bytes of a number, switch or string inside a save (not in a map key), be it a property, an element of a compact array or map, a struct of a fixed layout or a part of a text, delegate or field path, by an encoding of the same length gives bytes which are read as the file with this one value changed.", "quantifier": "all properties and files, all places at any depth, all old and new values, all custom versions", "why_tests_cant": "Tests compare a few edited files; that no value can influence bytes elsewhere needs an argument over all contexts.", "anchors": ["src/properties/mod.rs:316-375", "src/properties/struct_property.rs:235-369", "src/properties/array_property.rs:366-479", "src/properties/map_property.rs:500-672", "src/properties/set_property.rs:93-106", "src/lib.rs:517-533"]}
{"id": "C69", "title": "The accepted saves are exactly those of a grammar", "statement": "There is a grammar of the save format (which bytes stand for which header, text, struct, property and collection, given custom versions, hints, path and debug mode) such that data is accepted with a header and properties if and only if the grammar derives it with them, single properties likewise; the grammar is unambiguous, and everything written of a well-formed file is in it.", "quantifier": "all byte sequences, headers, property lists, hints, debug modes; all properties with and without header at every position and path", "why_tests_cant": "Tests read some files; that nothing else is accepted, and nothing of the format rejected, at any nesting, is a statement about all inputs.", "anchors": ["src/properties/mod.rs:552-623", "src/properties/struct_property.rs:198-449", "src/properties/array_property.rs:280-364", "src/properties/map_property.rs:441-489", "src/properties/set_property.rs:38-86", "src/properties/text_property.rs:90-560", "src/lib.rs:439-512"]}
{"id": "C70", "title": "Numbers in JSON become the nearest floats", "statement": "Reading a JSON number into a single or double precision field gives the representable value nearest to it, ties going to the even one and too large values to infinity, for whole numbers and for fractions alike; widening a single to a double keeps its value exactly.", "quantifier": "all whole numbers up to 2^64 in size (JSON numbers beyond the integer types arrive as doubles), all finite doubles, all finite singles", "why_tests_cant": "Rounding goes wrong only on ties, on subnormals and at the overflow threshold, out of 2^64 inputs.", "anchors": ["src/properties/int_property.rs:330-331", "src/properties/struct_types.rs:1-178"]}
{"id": "C71", "title": "Numbers and bytes in JSON are read exactly or refused", "statement": "An integer field accepts exactly the whole numbers its type holds and keeps the value; a byte array accepts exactly text with two hexadecimal digits of either case per byte.", "quantifier": "all JSON values, all eight integer types, all byte sequences", "why_tests_cant": "Off-by-one bounds and leftover digits show on single inputs only.", "anchors": ["src/properties/int_property.rs:318-331", "src/properties/array_property.rs:26-110"]}
{"id": "C72", "title": "The memory that reading asks for in advance", "statement": "An accepted save makes the reader ask in advance (with_capacity, vec![0; n]) for room for no more items than it has bytes, elements of unknown type aside; any input makes it ask for less than 2^32 items at a time and at most 2^30 for each byte and 2^32 more in all; and rejected input of a few bytes does make it ask for room for 2^32 - 1 custom versions, array elements or bytes.", "quantifier": "all byte sequences, hints, debug modes, codecs", "why_tests_cant": "A hostile count costs four bytes; which inputs make the reader ask for how much is a statement about all inputs, including those that are rejected.", "anchors": ["src/lib.rs:223-228", "src/lib.rs:433-456", "src/properties/array_property.rs:304-305", "src/properties/map_property.rs:466-468", "src/properties/set_property.rs:62-65", "src/properties/unknown_property.rs:30", "src/properties/text_property.rs:334-372", "src/properties/delegate_property.rs:106-114", "src/properties/field_path_property.rs:33-46", "src/properties/struct_property.rs:393-400", "src/cursor_ext.rs:57-98"]}
{"id": "C73", "title": "The accessors and text constructors fit what is read", "statement": "A property read with a header under a type name is got by the accessor named for that type and by no other, one read under another name by get_unknown; the same without header, except that struct values have no accessor. From every property exactly one accessor gets something, except from struct values without header; of the struct values themselves five kinds have no accessor and the others exactly one. Every get_*_mut refers to exactly what get_* shows. A text made by new_base is read back as made; one made by new_none too, except that its string is lost under versions that know nothing of such strings.", "quantifier": "all properties, inputs, hints, versions, texts", "why_tests_cant": "25 + 10 pairs of accessors over all properties and all inputs; which accessor fits depends on what the reader returned", "anchors": ["src/properties/mod.rs:404-432", "src/properties/mod.rs:625-657", "src/properties/struct_property.rs:505-534", "src/properties/text_property.rs:82-111"]}
{"id": "C74", "title": "The message of an error tells the error", "statement": "Whenever reading fails with an error, the error has a message, and two failed reads with the same message failed with the same error, with the same details at the same position. The message is the text given for the error in the source, with the details of the error filled in where it says: texts as they are, numbers in decimal, positions in hexadecimal with the prefix 0x.", "quantifier": "all pairs of byte sequences, hints and build profiles", "why_tests_cant": "pairs of arbitrary failing inputs; messages embed arbitrary text (paths, reasons)", "anchors": ["src/error.rs:8-50", "src/error.rs:87-129"]}
{"id": "C75", "title": "The text of an engine version determines it", "statement": "Two engine versions with the same Display text are equal, whatever the branch names. The text is major.minor.patch-changelist+++branch, with the numbers in decimal.", "quantifier": "all pairs of engine versions", "why_tests_cant": "branch names are arbitrary strings that may contain the separators", "anchors": ["src/engine_version.rs:25-33"]}
{"id": "C76", "title": "Later engine versions have later object versions", "statement": "In VERSION_MAPPINGS every engine version occurs once, and a later engine version has a larger object version.", "quantifier": "all pairs of entries of the tables", "why_tests_cant": "nothing reads the tables inside the crate, so no test exercises them", "anchors": ["src/custom_version.rs:59-72", "src/custom_version.rs:242-269"]}
{"id": "C77", "title": "Exactly one JSON layout is read and written", "statement": "A file is read from JSON if and only if the JSON has the layout of that file: the field and variant names of every kind of value, which fields may be missing and what that means, which of several fitting alternatives is taken, where an array may stand for an object or an index for a name, and the ranges of numbers. The JSON written for a file with finite floats and distinct keys has the layout of that file, and the fields written are exactly those of the kind of value without the absent and zero ones.", "quantifier": "all JSON values, all files, any nesting", "why_tests_cant": "a round trip test passes when reader and writer change together; JSON values are unbounded in nesting and size", "anchors": ["src/lib.rs:114-146", "src/lib.rs:330-343", "src/engine_version.rs:10-23", "src/properties/mod.rs:488-548", "src/properties/array_property.rs:29-90", "src/properties/map_property.rs:24-96", "src/properties/struct_property.rs:38-50", "src/properties/struct_property.rs:53-86", "src/properties/text_property.rs:65-74", "src/properties/text_property.rs:174-294", "src/properties/text_property.rs:881-899"]}
{"id": "C78", "title": "Strings are stored in the Unicode encodings", "statement": "A string is read from bytes if and only if they are: four zero bytes (absent), or the number of bytes with the zero at the end, UTF-8 in its shortest form and a zero byte, or minus the number of words with the zero at the end, little-endian UTF-16 and a zero word, in at most 131072 units. ASCII strings are written in bytes and all others in words. No bytes begin with two strings.", "quantifier": "all byte sequences, all strings", "why_tests_cant": "all sequences of code points in both encodings, including overlong forms and lone surrogates; a round trip does not notice a consistent change of encoding", "anchors": ["src/cursor_ext.rs:55-98", "src/cursor_ext.rs:145-177"]}
{"id": "C79", "title": "What is written of every value", "statement": "What is written of a property, with and without header, and of the contents of a file is exactly the form that a grammar of written values gives it: strings in bytes if they are ASCII and in words otherwise, sizes and counts those of what follows, compact collections as the elements they stand for, the values of a field in a row each behind its name, the name None and four zero bytes at the end. Every value has at most one form, and a value without a form is refused.", "quantifier": "all properties, all files, all custom versions; also values that reading never returns", "why_tests_cant": "all trees of values including ill-formed ones; a round trip only shows that reader and writer agree", "anchors": ["src/properties/mod.rs:316-375", "src/properties/array_property.rs:366-479", "src/properties/map_property.rs:500-672", "src/properties/struct_property.rs:235-369", "src/properties/text_property.rs:502-712", "src/lib.rs:269-314", "src/lib.rs:517-533"]}
{"id": "C80", "title": "Equal files are saved alike", "statement": "If two properties or two files are equal by == and one can be written, so can the other, in the same number of bytes and with the same count returned. One of two equal files is representable exactly if the other is, and if a file can be saved and read back, saving an equal one instead and reading that back gives a file equal to the first.", "quantifier": "all pairs of equal properties and files whose maps have no key twice, all custom versions, debug flags and hints", "why_tests_cant": "ranges over all pairs of equal nested values, with every map in any order and zeros and NaNs of any bits", "anchors": ["src/lib.rs:114-146", "src/lib.rs:330-343", "src/lib.rs:517-533", "src/properties/mod.rs:494-548", "src/types.rs:246-257"]}
{"id": "C81", "title": "What the constructors build is saved and loaded", "statement": "A property built by any of the crate's constructors or conversions (numbers, flags, bytes, enums, strings, names, objects, texts, delegates, field paths, sets, arrays, maps, every struct type) from arguments that fit the format can be written with a header and is read back from what was written, and the accessor then gives the arguments: each component in its place, a name with array index 0, an array or set with the same elements, a map with every key once, where it came first, with the value given last. The conversions of GUIDs to and from words and numbers are inverse to one another.", "quantifier": "all constructor arguments that fit the format, all custom versions, debug flags, hints and stacks", "why_tests_cant": "ranges over all arguments, with lists of elements and of entries of any length and depth", "anchors": ["src/properties/int_property.rs:42-47", "src/properties/str_property.rs:21-40", "src/properties/name_property.rs:27-47", "src/properties/delegate_property.rs:24-30", "src/properties/field_path_property.rs:24-30", "src/properties/array_property.rs:106-254", "src/properties/map_property.rs:101-366", "src/properties/struct_types.rs:63-74", "src/types.rs:15-104", "src/types.rs:273-275"]}
{"id": "C82", "title": "The texts of values tell the values", "statement": "The debug text of an integer or boolean property tells its type and its value, the debug text of a GUID tells the GUID, and the display text of a struct value of a known type tells every component: integers themselves, floats as far as their own texts do.", "quantifier": "all integer and boolean properties, all GUIDs, all struct values of the built-in types, all float formatters whose texts have no space", "why_tests_cant": "injectivity over all pairs of values", "anchors": ["src/properties/int_property.rs:63-67", "src/properties/int_property.rs:133-137", "src/properties/int_property.rs:296-300", "src/types.rs:106-111", "src/properties/struct_types.rs:76-84"]}
{"id": "C83", "title": "What an error says is true of the input", "statement": "When reading fails with an error, the error describes the input: the value it reports stands at the position it reports (or right before it, as the crate does for booleans, enum values and string terminators) and is one the format does not allow there; a reported size differs from the stored one, a reported type name is not a known one and is stored in the input, a reported path has no hint, text that is reported not to be UTF-8 or UTF-16 is not the encoding of any string, a header message names the number at its place in the header and that number is not supported. The end of the input is reported only when everything has been consumed. The frame of a Palworld save is refused exactly when it is short, has other letters than PlZ or an unknown kind of compression, and is reported so.", "quantifier": "all inputs, all hints, debug and release, both containers, all stream positions", "why_tests_cant": "a test compares one error with one input; here every error on every input is checked against the bytes, including values and positions in nested properties", "anchors": ["src/error.rs:8-50", "src/error.rs:87-129", "src/cursor_ext.rs:48-142", "src/lib.rs:170-249", "src/lib.rs:418-456", "src/properties/mod.rs:151-275", "src/properties/mod.rs:587-622", "src/properties/int_property.rs:18-29", "src/properties/array_property.rs:287-336", "src/properties/set_property.rs:45-49", "src/properties/map_property.rs:448-452", "src/properties/struct_property.rs:116-154"]}
{"id": "C84", "title": "What a panic says is true of the input", "statement": "Where reading a save panics, the input contains the reason the panic message names, right before the position reached: a separator byte that is not zero, an array of structs whose inner type is not StructProperty, a nonzero array index of an unknown property, a negative count, the byte for a gender argument, a text generator or a raw text. In debug builds only, it is a struct field whose name occurred before (or a name with a nonzero index), or a declared length that is zero or smaller than the elements counted need. Frames and payloads of Palworld saves never panic.", "quantifier": "all inputs, hint tables, builds and codecs", "why_tests_cant": "A test shows one panic for one input. Here every panic for every input is traced to the bytes that cause it.", "anchors": ["src/properties/array_property.rs:314", "src/properties/array_property.rs:338-346", "src/properties/int_property.rs:111", "src/properties/int_property.rs:190-210", "src/properties/int_property.rs:290", "src/properties/set_property.rs:66-71", "src/properties/struct_property.rs:184-199", "src/properties/text_property.rs:335-366", "src/properties/text_property.rs:496", "src/properties/text_property.rs:782", "src/properties/unknown_property.rs:46-53"]}
{"id": "C85", "title": "Reading looks at no byte it does not consume", "statement": "The outcome of reading, be it success, an error or a panic, and the state it leaves depend only on the bytes up to the position reached: whatever follows these bytes, the outcome is the same and what follows is left unread. Seen while a save arrives: with fewer bytes than are consumed in the end the outcome is an unexpected end of file, with as many or more it is the final one.", "quantifier": "all inputs, all continuations and all lengths of prefixes, all hints, debug and release; whole saves and single properties", "why_tests_cant": "the continuations of an input are infinitely many, and failures (unlike successes) are rarely tested with anything behind them", "anchors": ["src/cursor_ext.rs:48-142", "src/lib.rs:355-456", "src/properties/mod.rs:552-623"]}
{"id": "C86", "title": "Compressed saves are zlib streams of their contents", "statement": "A Palworld frame around any zlib stream (RFC 1950, RFC 1951) of some contents, whichever program compressed it, reads as the contents do, and one around a stream of a stream likewise, whatever follows the streams; a file written with any compressor that emits zlib streams reads back with any decompressor that decodes them. A stream determines its data and its own end, every sequence of bytes has a stream, and a decoder accepts exactly the inputs that start with one.", "quantifier": "all contents, all zlib streams of them (stored, fixed and dynamic blocks in any combination), all bytes behind the stream, all decompressors that decode every stream, all inputs of the decoder", "why_tests_cant": "each save has infinitely many compressed forms and the tests contain two files from one compressor", "anchors": ["src/lib.rs:418-456", "src/lib.rs:535-566", "src/game_version.rs:12-30"]}
{"id": "C87", "title": "Loading JSON never panics", "statement": "Deserializing a file from a JSON value returns a file or an error and never panics, whatever the value is.", "quantifier": "all JSON values", "why_tests_cant": "the texts that make the GUID parser panic, the places where it is called and what is looked at before them form an unbounded space, and the tests load well-formed documents only", "anchors": ["src/types.rs:167-208", "src/lib.rs:115-146", "src/lib.rs:331-343", "src/properties/struct_property.rs:39-86", "src/properties/array_property.rs:70-89"]}
{"id": "C88", "title": "A file saved as JSON text is loaded as it was", "statement": "serde_json::to_string of a file followed by serde_json::from_str returns an equal file; text is accepted if and only if it is JSON, and the value is the one it stands for.", "quantifier": "all files, all texts, all choices of digits for floats", "why_tests_cant": "texts and files form an unbounded space; the tests save and load a dozen files, none nested deep and none with a float that two roundings change (one in some hundred million)", "anchors": ["tests/serde_tests/serde_json_round_trip.rs:5-13", "src/properties/mod.rs:487-560", "src/properties/int_property.rs:330", "src/types.rs:20-46", "Cargo.toml:29"]}
{"id": "C89", "title": "JSON text loaded directly gives what it gives by way of a value", "statement": "serde_json::from_str::<GvasFile> accepts text if and only if it is an array or an object whose fields are JSON nested at most 126 deep and whose other entries have the form of JSON, and the fields can be read. Text in which no name is repeated and that is loaded by way of a serde_json::Value is loaded the same directly; the text of every saved file is, so it is loaded as it was under the same conditions. Repeated fields are refused, other entries of the outermost object do not matter, and of two values for one struct the first counts instead of the last.", "quantifier": "all texts, all files, all choices of digits for floats", "why_tests_cant": "the tests load text that the crate has saved, in which no name is repeated and no entry is unknown; texts and files form an unbounded space", "anchors": ["tests/serde_tests/serde_json_round_trip.rs:10-11", "src/lib.rs:331-343", "src/lib.rs:115-146", "src/properties/struct_property.rs:39-52", "src/properties/mod.rs:487-560"]}
{"id": "C90", "title": "How many steps reading takes", "statement": "Whatever the input, accepted or not, reading takes at most four steps for each byte and eight more, and one for each element of unknown type that an array or set announces (at most 2^30 + 4 for each byte and 2^32 + 8 more in all); each property of an accepted save takes at least one. The elements of unknown type cannot be left out: a save of 96 bytes that is accepted takes any number of steps up to 2^32.", "quantifier": "all byte sequences, hints, debug modes", "why_tests_cant": "that no input of a given length keeps the reader busy for longer is a statement about all inputs, including those that are rejected", "anchors": ["src/lib.rs:404-491", "src/properties/mod.rs:552-623", "src/properties/array_property.rs:298-359", "src/properties/set_property.rs:56-86", "src/properties/unknown_property.rs:25-57", "src/properties/struct_property.rs:378-389", "src/cursor_ext.rs:48-98"]}
{"id": "C91", "title": "Damage inside a save is reported", "statement": "When reading the header or the contents of a property inside a save fails, at any depth, reading the save fails with the same error: nothing is skipped, tried again or replaced. Every property of an accepted save is at such a place. So changing the size in the header of any one property of an accepted save makes it rejected with an InvalidValueSize that names both sizes, except for byte properties and properties of unknown type and arrays and sets of them; in builds with overflow checks, sets with elements and a size below 8 panic instead. A nonzero array index is rejected whatever follows, except in names. So is any byte but zero at the end of the header of a property, with an InvalidTerminator that names the byte and its position, or a panic by numbers, bools, byte properties and properties of unknown type. The exceptions are real: the size of a byte property can be changed without effect, and that of an unknown property so that the save is accepted with other contents.", "quantifier": "all byte sequences, hints, debug modes, properties at any depth, replaced sizes and indices, and whatever follows", "why_tests_cant": "a test damages some header of some save; the claim is about every header at every depth and every wrong value, and about no reader in between recovering from a failure", "anchors": ["src/properties/mod.rs:151-275", "src/properties/mod.rs:552-623", "src/properties/struct_property.rs:116-154", "src/properties/struct_property.rs:378-389", "src/properties/array_property.rs:298-359", "src/properties/set_property.rs:38-86", "src/properties/map_property.rs:459-489", "src/properties/int_property.rs:18-60", "src/properties/int_property.rs:187-218", "src/properties/unknown_property.rs:25-57", "src/lib.rs:457-490"]}
{"id": "C92", "title": "What saving copies and holds", "statement": "Saving writes the body of every property with a header to a buffer of its own first and copies it behind the header. Counting every byte written to a buffer or to the destination, saving a property of n bytes writes at least n, at most (2d+1)n for nesting depth d, and at most n^2/100 + 2n bytes; the destination and the buffers together never hold more than 2n bytes at a time. The same holds for the buffer a whole file is written to. The bounds are reached: there are values of every size 36+50k for which at least n^2/100 bytes are written, saves that are loaded and for which saving again writes at least n^2/130, and properties for which 2n-14 bytes are held. So saving takes time that is quadratic in the size for nested saves, and memory that is linear.", "quantifier": "all properties and files, with and without header, all custom versions", "why_tests_cant": "a test shows the cost for one file; the bounds are for all of them, and that the quadratic growth has no end is a statement about infinitely many", "anchors": ["src/properties/mod.rs:316-375", "src/properties/array_property.rs:449-464", "src/properties/int_property.rs:233-245", "src/properties/unknown_property.rs:71-79", "src/lib.rs:517-536"]}
{"id": "C93", "title": "How much a compressed save can grow", "statement": "Data is at most 1032 times as long as any zlib stream of it less six bytes, and a decompressor that stops early gives out no more than 1032 times what it has read. So the save in a Palworld file is at most 1, 1032 or 1032*1032 = 1065024 times as long as what follows the frame header, for no compression, one and two. If it is compressed at most once it is exactly as long as the frame states; if it is compressed twice the stated length limits nothing, and no smaller factor will do: around every save of up to 65000 bytes there is for each j a Palworld file that is j + 72 bytes longer, states a length of zero, has at least 1065024*j bytes to decompress, and is read as the save is.", "quantifier": "all zlib streams and payloads, all codecs that give out only what they have decoded (bounds) or decode every zlib stream (lower bounds), all saves and all j", "why_tests_cant": "a test shows the growth of the files it has; that no file can grow more, and that files reach the factor however large they are, are statements about all of them", "anchors": ["src/lib.rs:418-456"]}
{"id": "C94", "title": "Editing one place of the JSON changes one place of the save", "statement": "A property at any depth of a file is one part of the file's JSON, reached by a JSON pointer, and one piece of its JSON text. Replacing that part by the JSON of another property, or one number, switch or string in it, an element of a list, a component of a struct or a part of a text by another, and loading the result gives the file with that property or value in its place; saving it changes the bytes of that property or value only, and stored lengths in front of it, by as much as its size changes.", "quantifier": "all files with finite floats, all places in them outside map keys, all properties put there that have finite floats and can be written", "why_tests_cant": "a test edits the files it has in the places it names; that no edit anywhere reaches other bytes is a statement about all of them", "anchors": ["src/lib.rs:331-343", "src/properties/mod.rs:489-548", "src/types.rs:349-361"]}
{"id": "C95", "title": "A cut off or extended save never reads as another one", "statement": "If an input is read as a file, then every input that is a beginning of it or begins with it is read as the same file, or is refused with an unexpected end of file or a decompression failure. This holds for the default container and for Palworld files of all compressions, with any decompressors that give out nothing but what they have decoded, even if the two inputs are read with different ones; so no two such decompressors read one input as different files.", "quantifier": "all inputs that are read, all beginnings and extensions of them, all faithful decompressors, hints, start positions, both containers and all compressions", "why_tests_cant": "a cut off stream may still decompress, partly, to bytes that parse; a test cuts a few files in a few places with the one decompressor it has", "anchors": ["src/lib.rs:404-497"]}
{"id": "C96", "title": "The layout of JSON text does not matter", "statement": "Two JSON texts that differ only in the space outside of strings stand for the same value and are loaded as the same file, by way of a Value and directly. The text of to_string_pretty is the text of to_string laid out: a new line behind every opening bracket and comma and in front of every closing bracket, indented by two spaces for each bracket around it, and a space behind every colon, with nothing changed inside of strings and between empty brackets; without its space it is that text again. So a file saved this way is loaded exactly as from to_string.", "quantifier": "all JSON texts, all files, all choices of digits for floats", "why_tests_cant": "the tests compare the pretty texts of 79 values and six files and never load the other layout of the same value", "anchors": ["tests/serde_tests/serde_json_template.rs:43-58", "tests/serde_tests/serde_json_round_trip.rs:10-11"]}
{"id": "C97", "title": "Properties by themselves go through JSON text", "statement": "A property is loaded from text by itself (from_str::<Property>) if and only if the text is JSON nested at most 127 deep from which it can be read; space outside of strings does not matter, and where no name is repeated the result is the same directly and by way of a Value. Both texts of a saved property (to_string and to_string_pretty) are loaded alike, and as the property that was saved if and only if all its floats are finite, it is nested at most 127 deep and rounding its f32 numbers twice does no harm. A file whose JSON is nested at most 127 deep is loaded as it was if and only if each of its properties is by itself; 42 structs in each other can be loaded by themselves but not in a file. A property with two types is refused, as is one with a repeated field unless it goes by way of a Value.", "quantifier": "all texts, all properties, all choices of digits for floats", "why_tests_cant": "the tests do this for 79 small properties with the text the crate itself gives", "anchors": ["tests/serde_tests/serde_json_template.rs:43-58", "src/properties/mod.rs:487-548"]}
{"id": "C98", "title": "What a failed save says is true of the file", "statement": "Saving a file or a property fails if and only if there is something in it that its custom versions do not allow: coordinates of the other width, an integer argument of a text of the other width, or a struct without name where a header is needed. The failure is that of the first such thing in the order in which it would be stored: an error naming the kind of coordinates and what to use instead, or a panic naming the kind of argument. Nothing that was read is at fault with the versions it was read with, and with other versions it is saved exactly if these do not change a width, or there is nothing in the file that has it.", "quantifier": "all files, properties, custom versions, outputs, containers, and all inputs that are read", "why_tests_cant": "The faults may be anywhere in a tree of any depth and in any number and order; tests cover a few versions and a few values at fault, one at a time.", "anchors": ["src/properties/struct_property.rs:27-35", "src/properties/struct_property.rs:220-369", "src/properties/text_property.rs:788-855", "src/lib.rs:518-560"]}
{"id": "C99", "title": "Which hints a save needs is in the file", "statement": "A file determines a list of paths, one for each struct that is an element of a set or a key or value of a map, with the type name of those with a fixed layout. A save is read as the file that was saved with exactly those hint tables that have, for each path of the list, that name, or any name not of a fixed layout if there is none. Any hints with which something was read are such a table, so structs at the same path are of the same kind, and a table made from the file alone reads its save again. If one is missing and those before it in the order of storage fit, reading asks for exactly that one, and supplying them one by one takes at most as many rounds as the list has missing ones.", "quantifier": "all representable files, all hint tables, all inputs that are read, both containers", "why_tests_cant": "Tests supply the right hints for a handful of files; that no other table works, and that every suitable one does, is about all tables.", "anchors": ["src/properties/mod.rs:439", "src/properties/mod.rs:583-605", "src/properties/struct_property.rs:108-260", "src/scoped_stack_entry.rs", "src/lib.rs:24-58"]}
{"id": "C100", "title": "The contents of a save under another header", "statement": "Of the header in front of them, the properties of a save depend on the answers to three questions about its custom versions only: are culture invariant strings stored, are integer arguments of texts wide, are coordinates wide. Two valid headers can stand for each other in front of all contents if and only if they give the same answers. What was read can be represented with another header if and only if that is valid, saving with it succeeds, and it stores culture invariant strings or there are none. Saved under versions that store them, everything comes back unchanged; under others, everything comes back but these strings, which are dropped without error, unless keys of a map differed in nothing else: then an entry is lost.", "quantifier": "all headers, all bytes behind them, all saves and all headers to save them with", "why_tests_cant": "the tests save with the header that was read; a change of versions is a choice among infinitely many tables, and that nothing else in a header matters is a statement about all contents", "anchors": ["src/properties/text_property.rs:299-330", "src/properties/text_property.rs:502-540", "src/properties/text_property.rs:735-855", "src/properties/struct_property.rs:393-503", "src/custom_version.rs:208", "src/properties/text_property.rs:756-790", "src/lib.rs:419-533"]}
{"id": "C101", "title": "What a map takes for the same key", "statement": "Two keys of a map are one entry, that is, feed the hasher the same data and are equal, exactly if they hold the same data in the same order up to the bits of NaNs and the sign of zeros, provided that the maps inside them have keys without maps, or a single entry. For keys without maps inside, the hashed data alone decide. Beyond this there are equal keys in different orders that are hashed alike, since a map does not feed its number of entries.", "quantifier": "all pairs of keys, all sequences of entries filled into a map", "why_tests_cant": "the tests have keys of a few types; that hashing and equality fit together is a statement about all pairs of values nested to any depth, and the pair for which they do not is three maps deep", "anchors": ["src/types.rs:220-257", "src/properties/mod.rs:494", "src/properties/map_property.rs:24", "src/properties/map_property.rs:459-480", "src/properties/struct_property.rs:53-86"]}
{"id": "C102", "title": "The order of JSON entries", "statement": "A file whose floats are finite is loaded from its JSON with the entries of all objects, at any depth, in any order, through a serde_json Value, without one, and from text, and what is loaded is equal to the file and saved in as many bytes; a property without maps comes back the same. This holds for a Value that sorts (serde_json without preserve_order, which the crate asks for only in its tests), provided that the keys of maps with several entries have no maps in them; there is a save with a map keyed by structs that loses an entry when its JSON is sorted.", "quantifier": "all files with finite floats whose maps have keys without maps or a single entry, all reorderings of their JSON at every depth", "why_tests_cant": "the tests compare one fixed text per sample, and are built with the feature that keeps the order; the reorderings of a nested value are many, and the entry that is lost needs two keys that differ in order only", "anchors": ["Cargo.toml:28-29", "src/lib.rs:331-343", "src/properties/mod.rs:489-548", "src/properties/struct_property.rs:41-50", "src/properties/array_property.rs:30-90", "src/properties/map_property.rs:25-96", "src/types.rs:349-390"]}
{"id": "C103", "title": "JSON entries that mean nothing", "statement": "Entries with names that mean nothing where they stand may be added to the JSON of a file or property at any depth without changing what is loaded, or that nothing is: through a serde_json Value, without one, and from text. So a file with finite floats is still loaded exactly from its annotated JSON. The lists of names that do mean something are complete and none of them is superfluous. Not so in objects with a single entry (structs in arrays, StructPropertyValue, text arguments, the game version), which are refused with one more, and maps, in which every entry counts.", "quantifier": "all JSON values, all numbers of additional entries with arbitrary contents, at all depths", "why_tests_cant": "the tests only load JSON that the crate wrote; a flattened enum takes the first entry with a name it knows, so which additions are harmless depends on the type of the property and on whatever is beside it", "anchors": ["src/lib.rs:115-146", "src/lib.rs:331-343", "src/engine_version.rs:11-23", "src/game_version.rs:18-39", "src/properties/mod.rs:489-548", "src/properties/struct_property.rs:41-86", "src/properties/array_property.rs:30-90", "src/properties/map_property.rs:25-96", "src/properties/text_property.rs:27-74", "src/properties/text_property.rs:175-294", "src/properties/text_property.rs:735-751", "src/properties/int_property.rs:141-157"]}
{"id": "C104", "title": "The debug text of a value tells the value", "statement": "Two files, or two properties, have the same Debug text ({:?} or {:#?}) just when they are the same up to the payloads of NaNs: no two values that differ otherwise, at any depth, in any string, number, variant, order of entries or header field, are shown alike, whatever the strings in them contain. So what can be told from one style can be told from the other, files without odd NaNs that are shown alike are the same file, and properties shown alike are one key of a map. The text, on one line or indented on many, is one that the declarations of the crate give: every struct and variant is shown by its name with all its fields by theirs in order, each with a text of its type.", "quantifier": "all files and properties of all depths, all strings, both styles, any choice of core of characters to escape, and any texts of floats that have no separators in them and tell floats other than NaNs apart", "why_tests_cant": "tests compare values by assert_eq, whose messages are these texts, and never compare texts; that no string content can imitate structure and no two variants are shown alike is a statement about all pairs of values", "anchors": ["src/lib.rs:20", "src/lib.rs:58", "src/lib.rs:114-146", "src/lib.rs:330-343", "src/types.rs:106-111", "src/types.rs:221-223", "src/engine_version.rs:10-23", "src/game_version.rs:17-39", "src/properties/mod.rs:488-548", "src/properties/int_property.rs:63-67", "src/properties/int_property.rs:133-157", "src/properties/int_property.rs:296-300", "src/properties/array_property.rs:28-90", "src/properties/map_property.rs:23-96", "src/properties/struct_property.rs:37-86", "src/properties/struct_types.rs:54-178", "src/properties/text_property.rs:64-74", "src/properties/text_property.rs:173-294", "src/properties/text_property.rs:733-751", "src/properties/text_property.rs:858-899", "src/properties/text_property.rs:939-966", "src/properties/delegate_property.rs:12-20", "src/properties/delegate_property.rs:91-96", "src/properties/field_path_property.rs:13-20"]}
{"id": "C105", "title": "Where in a stream a save or property lies does not matter", "statement": "Reading the same bytes from a reader that stands further along a stream gives the same property, header or save contents, or the same error with its position moved by the distance, or the same panic, and the reader ends that much further along. So bytes that are a property by themselves are that property at every position and before any other bytes. A whole file is read alike at every position of the stream, error positions included, because they count from the beginning of the contents; the only trace of the position is in the error about an unknown Palworld compression type, which has the position in the stream.", "quantifier": "all bytes, positions, distances, property types, hints, path stacks, builds, game versions and decompressors", "why_tests_cant": "every test reads from a fresh cursor at position 0; a size check that compared an absolute position, or an error that mixed two origins, would pass them all", "anchors": ["src/lib.rs:404-491", "src/error.rs:55-90", "src/cursor_ext.rs:48-142", "src/properties/mod.rs:151-275", "src/properties/struct_property.rs:116-154", "src/properties/array_property.rs:298-359"]}
{"id": "C106", "title": "The contents of a Palworld save are read like an ordinary save", "statement": "A frame around contents (plain, compressed or compressed twice) is read exactly as the contents alone are read as an ordinary save: the same header and properties, the same error with the same position, or the same panic, whatever hints and build; only the game version of the file differs. Every input is such a frame, or is refused with one error about its frame or its payload that depends on neither hints nor build. So an input is accepted as a Palworld save exactly if it is a frame around bytes of the grammar of saves.", "quantifier": "all byte sequences, codecs, hint tables, builds and start positions", "why_tests_cant": "the tests read a few Palworld saves, each with one set of hints; that nothing about the container leaks into how the contents are read is a statement about all contents", "anchors": ["src/lib.rs:404-491", "src/game_version.rs:18-60"]}
{"id": "C107", "title": "Elements can be added and removed deep inside a save", "statement": "If two properties (or files) differ, at any depth, in a stretch of the elements of one array, set, map, tag container, list of delegates, field path or list of text arguments only, be there more or fewer of them or none, then their encodings differ only in the bytes of these elements, in the count of the elements, and in lengths stored in front of them, each by as much as the stretches differ in size. The same holds for the fields of a struct and the values of one field, which are not counted. Making the edit in the JSON of the file does the same. A file in which elements have been taken out, moved or repeated, entries of maps and arguments of texts copied under new names, or numbers, switches and strings of a compact list replaced by any others, is saved without error and read back as it is.", "quantifier": "all files and properties, all lists at any depth, all stretches taken out and put in, all custom versions; for reading back: all representable files, below 4 GiB", "why_tests_cant": "tests add elements to the lists they have; that a list of any length at any depth influences nothing but its bytes, its count and the lengths around it needs an argument over all contexts", "anchors": ["src/properties/array_property.rs:366-479", "src/properties/map_property.rs:500-672", "src/properties/set_property.rs:93-106", "src/properties/struct_property.rs:235-369", "src/properties/delegate_property.rs:117-135", "src/properties/field_path_property.rs:49-66", "src/properties/text_property.rs:545-600"]}
{"id": "C108", "title": "A save can be moved to another container", "statement": "A file that was read from any container, with its game version set to any other one, is saved without error; read back from there it has the same header and properties. Loaded there and set back to its own game version it is the file it was, and is saved with the same bytes. For every file the saves in the different containers differ in frame and compression only: behind the 12 bytes of the frame are the bytes of the ordinary save, as they are, compressed, or compressed twice.", "quantifier": "all byte sequences accepted by read, all containers, hint tables, builds, start positions and initial outputs; reading back: contents below 4 GiB, and zlib decompression inverts compression", "why_tests_cant": "the tests load and save each file in its own container; the conversion is offered by a public field and has to work for all contents", "anchors": ["src/lib.rs:332-343", "src/lib.rs:408-436", "src/lib.rs:517-570"]}
{"id": "C109", "title": "Where reading leaves the stream: saves in a row", "statement": "Reading an ordinary save takes everything the stream has, whatever the outcome, so that a further read from the same stream ends with an unexpected end of input even if another save followed. Reading an uncompressed Palworld save takes the frame and exactly the announced number of bytes, whatever the contents are read to, and the stream is left right behind them. So any number of files written one after the other to one output as uncompressed Palworld saves are loaded one after the other from one stream, however it delivers its bytes, and what follows the last one is left untouched.", "quantifier": "all streams without read errors, however they are split and interrupted, all bytes behind the saves, all lists of representable uncompressed Palworld files with contents below 4 GiB, all outputs written at their end, hint tables and builds", "why_tests_cant": "the tests read one save from a cursor that ends with it; the state of the stream after the call and further saves behind it are never looked at", "anchors": ["src/lib.rs:404-491", "src/lib.rs:517-570"]}
{"id": "C110", "title": "Saves can be taken apart and put together", "statement": "Properties taken from any number of saves that were read, and whose custom versions all give the same answers to the three questions of C100, can be put together in any order behind the header of one of them, as long as their names differ: the file is saved without error, its contents are the header, the bytes each property had in the save it came from, and the end mark, and it is read back as it was put together. In particular the properties of a save can be put in any order: the file is equal to the one that was read, takes as many bytes, and is read back in the new order.", "quantifier": "all saves accepted by read, in either container, all selections and orders of their properties with distinct names, hint tables, builds and outputs; for reading back: contents below 4 GiB and a zlib that decompresses what it compressed", "why_tests_cant": "the tests write back what they read; that properties do not depend on their neighbours has to hold for every selection from all saves", "anchors": ["src/lib.rs:404-491", "src/lib.rs:517-570"]}
{"id": "C111", "title": "Values can be copied from any place of a save to any place of another", "statement": "Let two saves, whose custom versions give the same answers to the three questions of C100, be loaded (from either container, with any hints; they may be the same save). If a value found in the first, at any depth, is put in place of a value in the second, at any depth, the file is saved without error, and read back as it is if the hints suit the structs it has now. The value need not be of the kind of the one it replaces where properties have a header; it must only have the same array index there. In arrays, sets and maps it must be of the same type. The bytes of the value are those it had in the first save, and besides, only lengths stored in front of it change. A value without structs in sets and map entries can be copied without a look at the hints. Copying in the JSON of the files does the same, for finite floats. The custom versions of the saves may also differ in any way, if those of the second save keep the value: it is written under them without error, and they know culture invariant strings or it has none. This is necessary, too: a save with the value in it is never read with versions that do not keep it.", "quantifier": "all pairs of accepted inputs, all containers and hint tables, all places and values in them; contents written below 4 GiB", "why_tests_cant": "tests edit known saves; that what has been read in one context is valid in every other one, at any path and depth, needs an argument over all values and contexts", "anchors": ["src/properties/mod.rs:552-657", "src/properties/struct_property.rs:235-369", "src/properties/array_property.rs:366-479", "src/properties/map_property.rs:500-672", "src/properties/set_property.rs:93-106", "src/lib.rs:404-491"]}
{"id": "C112", "title": "Elements, entries and fields from any save can be added anywhere", "statement": "Let a save be loaded, from either container and with any hints. In any array, set, map or struct of it, at any depth, elements, entries and fields can be added, left out, moved and repeated, and the added ones can be values found at any depth of any loaded saves, if the custom versions keep them in the sense of C111. They must be of the type the list is of, fields must stand at the position of their array index and have names that can be stored, keys must stay different, and arrays and sets must stay uniform where a single choice of width is made for all elements. The file is then saved without error, and read back as it is if the hints suit the structs it has now. The same can be done in the JSON of the save, if its floats are finite: putting the JSON of the new list in the place of the old one and loading the result gives that file.", "quantifier": "all accepted inputs, all containers and hint tables, all lists at all depths, all values found in any number of other accepted inputs; contents written below 4 GiB", "why_tests_cant": "tests edit known saves; that lists assembled from parts of any saves, at any path and depth, are valid needs an argument over all values and contexts", "anchors": ["src/properties/mod.rs:552-657", "src/properties/struct_property.rs:235-369", "src/properties/array_property.rs:366-479", "src/properties/map_property.rs:500-672", "src/properties/set_property.rs:93-106", "src/lib.rs:404-491"]}

# Formal model of localcc/gvas in Lean 4

## Trusted base

* The Lean 4.33.0 kernel. Theorems depend at most on the standard axioms `propext`,
  `Classical.choice` and `Quot.sound`; `AXIOMS.md` lists the axioms of every theorem in
  `MANIFEST.json`. No own axioms, no `sorry`, no `native_decide`, no `bv_decide`. `decide +kernel`
  (evaluation by the kernel) is used for concrete examples, witnesses of negations and finite
  facts such as the bytes of a constant.
* That the definitions under `lean/Verif/Model` transcribe the cited Rust lines. Nothing is
  extracted; every definition carries the file and lines it transcribes. As a check of the
  transcription (not a proof) `conformance/run.py` runs the model on the saves and JSON texts of the
  repository's test-suite: see `conformance/results.txt`. All 21 saves tried (all but the largest)
  are read, written back byte for byte and survive JSON; the six expected JSON documents and all 79
  JSON snippets of the tests agree (the largest, 15 MB when unpacked, was run apart
  with a faster `take` in a scratch copy and behaves alike). `conformance/json_check.py` compares the
  model of JSON text with Python's `json` on random texts and loads the JSON texts of the test-suite. `conformance/pretty_check.py`
  compares the pretty text of 79 properties and six saves with the texts that the tests expect: they
  agree character by character, floats as numbers. `lean/Verif/Check/*` has the
  expectations of the tests on errors, strings, GUIDs, properties, JSON snippets and four saves as
  kernel-checked examples. `Check/Basic` and `Check/Errors` are written by hand, the other three are
  translated from the Rust source of the tests by `conformance/checks.py`. These are tests of the
  model, not claims for all inputs. The Rust code itself was never built or run.
* That the small specifications (`lean/Verif/Spec`, and definitions in namespace `Gvas.Spec` beside
  the theorems) say what the English properties say.

## Layout

* `Verif/Model/*`: the model. `Verif/Spec/*`: specifications. `Verif/Lemmas/*`: helper lemmas.
  `Verif/Props/*`: the theorems named in `MANIFEST.json`, each with an example beside it.
* `Verif/Check/*`: expectations of the crate's tests, put to the model (tests, not proofs).
* `seeded/LOG.jsonl`: wrong programs tried against the theorems.
* `conformance/`: runs of the model on the test assets.

## What is modelled

* `src/cursor_ext.rs` (all readers and writers of scalars, strings, booleans, enums),
  `src/lib.rs` (headers, files, both containers, with and without hints), `src/properties/*`
  (reading and writing every property type, with and without header), `src/types.rs` (Guid, its
  text form, map equality and hashing), `src/engine_version.rs`, `src/custom_version.rs`,
  `src/object_version.rs` (version gates), `src/game_version.rs`, the constructors
  `ArrayProperty::new`, `MapProperty::new`, and the serde representation as JSON values.
* A readable stream is a list of bytes with a position; `Model/Stream.lean` justifies this for
  streams that deliver their bytes piecemeal (C62). `stream_position` is the modelled position.
* Readers return `ok`, `err` (with the crate's error constructors and their payloads), `panic`
  (assert, `unimplemented!`, overflow, capacity overflow) or `fuel`, an artefact of modelling
  recursion by fuel that is proved impossible (C25). The state (remaining bytes, position, path
  stack) is kept on every outcome.
* Debug assertions and overflow checks are a boolean of the environment (C54).
* Writers return the bytes and, separately, the reported count (C06). Outputs that fill up or write
  short: C44, C63.
* What saving copies and holds in buffers is metered (`Model/Spool`, C92) by the length of the
  buffers; their spare capacity is not modelled.
* `usize` is 64 bit. What memory is asked for in advance is recorded (`Model/Meter`, C72); that a
  request can be refused is not modelled, except that `Vec::with_capacity` of a negative count cast
  to `usize` panics.
* f32/f64 are their bit patterns; equality of map keys is `OrderedFloat`'s (all NaNs equal,
  +0 = -0).
* `IndexMap` is an association list with distinct keys; the hash is idealised as the sequence of
  hashed data (no collisions). Lookups hash the key, except in a map of one entry, where indexmap
  2.12.0 or later (`Cargo.toml` 19) compares the key by `==` alone; `==` on maps follows it.
  In the data of a key (`Model/Key`), a map inside it also has its number of entries, which the
  library does not hash (`Model/Hash`). C101: this makes no difference unless a key holds a map with
  several entries whose keys hold maps; then indexmap may take two equal keys in different orders for
  one where the model keeps both.
* zlib is an abstract codec. Where its laws are needed they are a hypothesis, `Spec.Lawful` (a
  finished encoder's output decodes to the input and the decoder stops there). C86 reduces it to the
  documents: `Spec/Zlib` says what a zlib stream is (RFC 1950, RFC 1951), `Model/Zlib` is a decoder
  proved to accept exactly these streams, and every encoder that emits streams with every decoder
  that decodes them is `Lawful`. That flate2 is such a pair is trusted; what it does with inputs
  that are not streams is left open.
* Round trips are limited to contents below 4 GiB, because sizes are stored in 32 bits; that the
  limit is needed is `C19_huge_not_reread`.

Of texts, the `Debug` impls written by hand for integers, booleans and GUIDs and the `Display` of
the struct types are modelled, with the texts of floats as parameters (they are core's). The derived
`Debug` impls are modelled as the calls they make, with core's builders for `{:?}` and `{:#?}` (C104);
that core's texts of floats have no separators in them and tell floats other than NaNs apart is a
hypothesis of C104. Which characters core escapes as not printable, and whether
`OrderedFloat` prints its name around the float in it, is left open there.

serde and serde_json are not in the sandbox. What they accept for the derived impls (arrays for
structs, indices for names inside buffered values, `{"Name": null}` for a variant without content)
is modelled from knowledge of their sources and is part of what is trusted in C53, C58 and C77.
JSON text (C88) is modelled with serde_json's parser and writer, with a grammar of RFC 8259 beside it;
loading it by way of a value (C88) and directly (C89) differ in what is done with repeated names and
with unknown entries. The digits of floats are a parameter (they are ryu's), of which only correct rounding is assumed.
`Model/Json` counts a panic of the GUID parser as a refusal; `Model/JsonLoad` keeps panics and with
them the order in which serde looks at entries and variants, and C87 relates the two.

Not modelled: stack overflow by deep recursion (how deep it goes is
C67), timing and concurrency (there is none), and Rust's rules for the raw pointer in
`src/scoped_stack_entry.rs` (what is pushed and popped through it is modelled, C29).


## Properties

For each: how it is modelled and proved, then the outcome. `partial` means that the property as
stated is false of the code (a theorem with a witness proves the negation) or proved with a
restriction that is named; every theorem with the suffix `_partial` says in its comment what is
missing.

* **C01 Scalar encodings round-trip** (proved) - `leBytes`/`leNat` for every width; inverse lemmas by induction on the width, lifted to the reader. *Outcome*: all widths, every value, any following bytes and position.
  Theorems: `C01_scalars_roundtrip`, `C01_scalars_little_endian`.
* **C02 Strings round-trip** (proved) - `writeString`/`readString` over Lean `String`; own strict UTF-8/UTF-16 codecs with proved inverses. *Outcome*: every string whose stored length is within the limit.
  Theorems: `C02_strings_roundtrip`.
* **C03 The string length limit is exact** (proved) - iff theorem on the reader applied to the written bytes, both directions, with the exact error. *Outcome*: both sides of the limit.
  Theorems: `C03_too_long_rejected`, `C03_limit_exact`.
* **C04 Null and empty strings are distinguished** (proved) - same for `Option String`.
  Theorems: `C04_null_vs_empty`.
* **C05 Decoded strings are validated** (proved) - inversion theorem of `readFString` against a small independent encoding relation; panic freedom.
  Theorems: `C05_decoded_strings_valid`, `C05_valid_strings_accepted`, `C05_strings_never_panic`.
* **C06 Reported byte counts are the bytes written** (partial) - writers return bytes and the reported count separately. False (ASCII strings): negation with witness, `_partial` for the cases where it holds. *Outcome*: False as stated: negations proved for strings, properties and headers. Proved instead: by how much the count of every property and every header is off (Spec.countOver: characters of ASCII strings count twice, the type name of a name property not at all, a number of gameplay tags as itself instead of four bytes); it is right for null and non-ASCII strings and for bodies without strings.
  Theorems: `C06_ascii_count_wrong`, `C06_counts_wrong`, `C06_wide_count_partial`, `C06_scalar_body_partial`, `C06_property_count_partial`, `C06_header_count_partial`.
* **C07 Booleans are strict** (proved) - decision theorem over all bytes/words.
  Theorems: `C07_read_bool`, `C07_read_b32`, `C07_bools_roundtrip`.
* **C08 8-bit enums are strict** (proved) - per enum: round trip and rejection for all bytes and continuations. *Outcome*: every enum read through read_enum.
  Theorems: `C08_enums_strict`.
* **C09 GUID conversions are bijections** (proved) - Guid as 16 bytes, conversions through `leNat`.
  Theorems: `C09_guid_conversions`, `C09_guid_representations_agree`, `C09_is_zero`.
* **C10 GUID text round-trips** (proved) - Display and FromStr modelled on characters/bytes.
  Theorems: `C10_guid_spellings`, `C10_guid_display_roundtrip`, `C10_guid_display_injective`.
* **C100 The contents of a save under another header** (proved) - Props/Moved.lean: reading and writing depend on the versions through three Booleans (Lemmas/Strip.lean); texts are mapped inside properties (Spec/Strip.lean) to say what is left of them.
  Theorems: `C100_reading`, `C100_writing`, `C100_body_moves`, `C100_exactly`, `C100_dropped`, `C100_representable`, `C100_kept`, `C100_lost`, `C100_entry_lost`.
* **C101 What a map takes for the same key** (proved) - Model/Hash.lean: the data as they are fed and the test as indexmap does it; Lemmas/Hashed.lean: among equal trees with distinct keys the data tell where every part ends. *Outcome*: Shows how far the key test of the model (sameKey) is that of the library; the hash is idealised to the data fed to it.
  Theorems: `C101_found`, `C101_exact`, `C101_hash_decides`, `C101_filled`, `C101_beyond`.
* **C102 The order of JSON entries** (proved) - Spec/Reordered.lean: reordering at every depth and sorting; Lemmas/Reordered*.lean: every reader finds its entries by name, and maps are filled in the order found, which equality does not see. *Outcome*: Only for JSON that is a reordering of what the crate writes: entries that are added may be taken for a flattened variant, where the first one counts.
  Theorems: `C102_value`, `C102_direct`, `C102_property`, `C102_text`, `C102_sorting`, `C102_sorted`, `C102_saves`, `C102_entry_lost`, `C102_save_shrinks`.
* **C103 JSON entries that mean nothing** (proved) - Spec/MoreEntries.lean: the names that mean something per kind of object and one addition at any depth; Lemmas/MoreEntries*.lean: every reader only looks at its names, and contexts. *Outcome*: The additions are relative to an object whose tag is known; entries named like the tag are not additions.
  Theorems: `C103_value`, `C103_direct`, `C103_property`, `C103_saved`, `C103_text`, `C103_one_entry`, `C103_struct_value`, `C103_words_needed`, `C103_text_words_needed`, `C103_header_words_needed`.
* **C104 The debug text of a value tells the value** (proved) - Model/DebugTree.lean: the calls of the derived Debug impls as a tree, and core's builders that print it; Lemmas/DebugText.lean: the text of a tree is a prefix code in any context; Lemmas/DebugTree.lean, DebugTell.lean: the trees of values have plain names and tell values up to NaNs. *Outcome*: The texts of floats and the set of escaped characters are core's and are parameters; what is assumed of float texts is the structure TellFloats, which is shown to be inhabited.
  Theorems: `C104_file`, `C104_property`, `C104_styles`, `C104_no_nan`, `C104_one_key`, `C104_number`, `C104_guid`, `C104_declared`, `C104_property_declared`.
* **C105 Where in a stream a save or property lies does not matter** (proved) - Lemmas/Shift.lean: a pass over all readers relating a run with a run at a moved position; Props/Shift.lean: the statements, with the frame of Palworld saves unrolled. *Outcome*: Positions are natural numbers: the wrapping of u64 positions near 2^64 is outside the model.
  Theorems: `C105_property`, `C105_header`, `C105_contents`, `C105_embedded`, `C105_file`.
* **C106 The contents of a Palworld save are read like an ordinary save** (proved) - Props/Framed.lean: from the exact account of frame and payload errors (C83) and the grammar (C69). *Outcome*: The codec is arbitrary here; which bytes a zlib decoder gives is C86. With it the claims on missing hints, extra hints, builds and panics are also stated for files in either container (C26, C27, C28, C54).
  Theorems: `C106_contents`, `C106_frame_or_fault`, `C106_accepts_iff`.
* **C107 Elements can be added and removed deep inside a save** (proved) - Spec/Stretch.lean lists the stretches with their bytes; Lemmas/Stretch.lean writes each list as a loop; Props/Stretch.lean puts it into files with C68. *Outcome*: For reading back, taking out elements may not change the kind of list on reading: an array of namespaced bytes keeps one, a map with null keys keeps one.
  Theorems: `C107_elements`, `C107_fields`, `C107_file_elements`, `C107_file_fields`, `C107_through_json`, `C107_fields_through_json`, `C107_relisted_representable`, `C107_relisted_reads_back`.
* **C108 A save can be moved to another container** (proved) - Props/Converted.lean combines what is accepted (C19) with the round trips of both containers (C17, C18) and the frames (C42). *Outcome*: The size limit is that of C19.
  Theorems: `C108_converted`, `C108_there_and_back`, `C108_same_contents`.
* **C109 Where reading leaves the stream: saves in a row** (proved) - Model/Stream.lean gives with the outcome the stream that is left (readOn); Props/InARow.lean follows it through read_to_end and read_exact for any way of delivery, and by induction through a list of saves. *Outcome*: Compressed Palworld saves are left out: how far the decompressor reads ahead in the stream is a matter of the library.
  Theorems: `C109_ordinary_takes_all`, `C109_nothing_behind_ordinary`, `C109_plain_leaves_rest`, `C109_in_a_row`.
* **C11 GUID parsing is total and strict** (partial) - False (`+f` digits, non-ASCII text slices off a char boundary): witnesses; `_partial`: never panics on ASCII, accepted text characterised exactly. *Outcome*: False as stated: off-boundary slices panic and a plus sign is accepted in place of the first digit of a pair; both negations proved with witnesses. Proved beside them: the restricted claims for ASCII text and text without plus signs, and exactly which text is accepted as which GUID and which text panics.
  Theorems: `C11_parse_can_panic`, `C11_parse_accepts_plus`, `C11_parse_strict_partial`, `C11_parse_total_partial`, `C11_parse_exact_partial`.
* **C110 Saves can be taken apart and put together** (proved) - Props/Mixed.lean: what is accepted is representable (C19), representability is a matter of each property with the custom versions, and contents are concatenations (C59); equality by C64 and C80. *Outcome*: The size limit is that of C19. A property may need the hint for its own path, so all saves are read with the same hints.
  Theorems: `C110_put_together`, `C110_same_bytes`, `C110_any_order`.
* **C111 Values can be copied from any place of a save to any place of another** (proved) - Props/Copied.lean with Lemmas/Copy.lean: being representable depends on the place only through the hints (Lemmas/Hints, now for two paths), so a value from an accepted save can stand in any place whose hints suit; the bytes by C68. *Outcome*: The size limit is that of C19. A value may be taken out of the key of a map, but not put there, as keys must stay different. What happens if the hints do not suit is C99.
  Theorems: `C111_copied`, `C111_no_hints`, `C111_any_versions`, `C111_same_answers_keep`, `C111_versions_needed`, `C111_through_json`.
* **C112 Elements, entries and fields from any save can be added anywhere** (proved) - Props/Merged.lean with Spec/Merge.lean and Lemmas/Merge.lean: each added value can stand in the place because it can stand where it was found (Lemmas/Copy), and the conditions of a list are on its elements one by one, apart from those in Merged. *Outcome*: The size limit is that of C19. Values added to maps must not be such that the size of an enclosing property decides how they are read (SizeFree); the conditions on mixed and empty lists are those under which C15 reads a list back.
  Theorems: `C112_merged`, `C112_through_json`.
* **C12 Headers round-trip** (proved) - header reader/writer; header validity is an independent predicate.
  Theorems: `C12_headers_roundtrip`.
* **C13 Header acceptance is exact** (proved) - inversion of the header reader. *Outcome*: exact characterisation of the accepted bytes.
  Theorems: `C13_accepts_iff`, `C13_never_panics`, `C13_rejects`.
* **C14 Accepted headers are stable** (proved) - read => valid header, then C12.
  Theorems: `C14_accepted_headers_stable`.
* **C15 Properties round-trip** (proved) - main round-trip theorem by induction on fuel, well-formedness predicate `wfH` independent of the reader. *Outcome*: for properties that take less than 4 GiB (sizes are stored in 32 bits).
  Theorems: `C15_properties_roundtrip`.
* **C16 Headerless elements round-trip** (proved) - same induction, headerless part `wfB`. *Outcome*: for containers that take less than 4 GiB.
  Theorems: `C16_element`, `C16_array`, `C16_set`, `C16_map`.
* **C17 Files round-trip** (proved) - C12 + C15 + the top-level loop. *Outcome*: for files each of whose properties takes less than 4 GiB (their sizes are stored in 32 bits; the whole file may be larger).
  Theorems: `C17_files_roundtrip`, `C17_large_files`, `C17_large_example`.
* **C18 Palworld files round-trip** (proved) - the same over an output sink with positions; zlib is an abstract codec with the inverse law as hypothesis. *Outcome*: for files of less than 4 GiB, assuming zlib inflate inverts deflate (Spec.Lawful).
  Theorems: `C18_palworld_roundtrip`.
* **C19 Read-write-read is stable** (partial) - theorem `accepted => well-formed` by induction on fuel (`Lemmas/Accept*.lean`), then C17. *Outcome*: Everything read accepts is written (no size limit) and reread to the same file, if the contents written take less than 4 GiB; inputs under 2 GiB always meet this since writing at most doubles the size. In the default container only each property has to stay below 4 GiB, not the whole. The unrestricted claim is false: an accepted array of 2^29 UTF-8 strings is rewritten as UTF-16 with a length that wraps its 32-bit header, and the output is refused.
  Theorems: `C19_reread_partial`, `C19_default_reread_partial`, `C19_large_reread_partial`, `C19_at_most_doubles`, `C19_huge_not_reread`.
* **C20 Serialization is injective** (proved) - corollary of C15/C17. *Outcome*: for sizes below 4 GiB.
  Theorems: `C20_properties_injective`, `C20_contents_injective`, `C20_files_injective`, `C20_large_contents_injective`.
* **C21 Own output is reproduced byte for byte** (proved) - corollary of C17. *Outcome*: for files of less than 4 GiB.
  Theorems: `C21_own_output_reproduced`, `C21_large_reproduced`.
* **C22 Read-write is byte-exact** (partial) - from C19 and C21: the normal form is reached after one save. *Outcome*: The byte-for-byte claim is false (an accepted UTF-8 string that fits in ASCII or duplicate names are rewritten differently, witness proved). Proved instead: without any limit, an input is reproduced if and only if it is a save and has the one form of C79; if no property takes 4 GiB, the second save equals the first; below 2 GiB the input is reproduced if and only if it is itself the output of a write; a Palworld file is reproduced if and only if it is the frame the library would write around contents that are a save in their one form.
  Theorems: `C22_canonical_partial`, `C22_second_save_partial`, `C22_large_second_save_partial`, `C22_reproduced_iff_partial`, `C22_palworld_partial`, `C22_not_every_input`.
* **C23 Truncation is detected** (proved) - prefix-stability closure lemma for every reader (`Lemmas/Closed.lean`). *Outcome*: default container and uncompressed Palworld payloads; for compressed payloads see C95.
  Theorems: `C23_truncation_detected`, `C23_file_truncation_detected`, `C23_palworld_truncation_detected`.
* **C24 Trailing data is ignored** (proved) - the same closure lemma. *Outcome*: compressed Palworld payloads: given that the decompressor stops at the end of its stream.
  Theorems: `C24_trailing_ignored`, `C24_file_trailing_ignored`, `C24_palworld_trailing_ignored`.
* **C25 Reading terminates** (proved) - fuel sufficiency: with fuel greater than the input length no reader runs out of fuel.
  Theorems: `C25_reading_terminates`, `C25_fuel_irrelevant`, `C25_property_terminates`, `C25_file_terminates`.
* **C26 Reading never panics** (partial) - closure lemma over every reader: each panic is one of a list of messages; witnesses for each. *Outcome*: False as stated: negation proved with witnesses for every panic; the list of panics is complete.
  Theorems: `C26_reading_can_panic`, `C26_more_panics`, `C26_panics_known_partial`, `C26_file_panics_known_partial`.
* **C27 MissingHint names the missing key** (proved) - closure lemma about MissingHint.
  Theorems: `C27_missing_hint_is_missing`, `C27_no_hint_fails`, `C27_supplied_hint_helps`, `C27_path_text`, `C27_file`.
* **C28 Extra hints are harmless** (proved) - closure lemma relating two hint tables.
  Theorems: `C28_extra_hints_harmless`, `C28_file_extra_hints_harmless`, `C28_file_outcomes`.
* **C29 The path stack is restored** (proved) - closure lemma, state is kept on errors in the model monad.
  Theorems: `C29_stack_restored`.
* **C30 A hint path denotes one location** (partial) - False with dots in names: witness; `_partial` for dot-free components. *Outcome*: False for names that contain a dot: two saves with structs at different places consult the same path. Proved for names without dots; exact in general: places share a path iff their names have the same pieces between dots.
  Theorems: `C30_paths_differ_partial`, `C30_shared_iff_partial`, `C30_shared_path`.
* **C31 Declared lengths are enforced** (partial) - inversion lemmas; false for ByteProperty: witness; `_partial` others. *Outcome*: False for ByteProperty, whose declared length only chooses between byte and name (witness, and the exact rule proved). Proved for every other type with a header.
  Theorems: `C31_lengths_enforced_partial`, `C31_byte_length_ignored`, `C31_byte_layout_partial`.
* **C32 Large-world-coordinate gating** (proved) - decision theorem.
  Theorems: `C32_read_width`, `C32_write_width`.
* **C33 Texts round-trip** (proved) - mutual induction on texts via fuel. *Outcome*: exactly these texts can be stored; of others, culture invariant strings are lost without error under old versions.
  Theorems: `C33_texts_roundtrip`, `C33_exactly`, `C33_what_is_kept`.
* **C34 Text writing fails only on integer width mismatch** (proved) - structural induction on texts.
  Theorems: `C34_write_ok_iff`.
* **C35 Array construction loses nothing** (proved) - case analysis + list induction.
  Theorems: `C35_array_new_keeps`, `C35_array_new_fails_iff`, `C35_array_new_total`, `C35_representation`.
* **C36 Map construction loses nothing** (proved) - same with distinct keys.
  Theorems: `C36_map_new_keeps`, `C36_representation`.
* **C37 Duplicate keys: last value wins at the first position** (proved) - induction over insertions against an independent spec of lookup/position.
  Theorems: `C37_map_duplicates`, `C37_top_duplicates`, `C37_arguments_duplicates`, `C37_custom_versions_duplicates`, `C37_count`, `C37_unique`.
* **C38 Repeated struct fields are kept** (proved) - induction over insertions.
  Theorems: `C38_fields_kept`, `C38_fields_accepted`, `C38_fields_written`.
* **C39 Top-level reading loses no property** (partial) - False: witness; `_partial`: when names are distinct. *Outcome*: False if a save stores a name twice at the top level (witness: the first value is lost). Proved: all names are kept, and the properties are exactly those stored if and only if no name is stored twice.
  Theorems: `C39_top_level_kept_partial`, `C39_value_lost`.
* **C40 Unknown property types are preserved verbatim** (proved) - direct.
  Theorems: `C40_unknown_preserved`, `C40_unknown_accepted`.
* **C41 A failed write leaves the output untouched** (proved) - sink model: serialization happens before the first sink operation.
  Theorems: `C41_failed_write_untouched`, `C41_fails_iff`.
* **C42 Palworld framing is correct** (proved) - sink model.
  Theorems: `C42_palworld_frame`, `C42_default_frame`, `C42_before_untouched`.
* **C43 Palworld lengths on reading** (proved) - sink model/reader.
  Theorems: `C43_compressed_length_ignored`, `C43_decompressed_length_too_large`, `C43_decompressed_length_cuts`, `C43_twice_ignores_length`.
* **C44 Ok means every byte was delivered** (partial) - bounded-sink model; false: witness; `_partial` for writers that never write short. *Outcome*: False as stated for ASCII strings on short writers: negation proved. Exact: when Ok is returned, and when a string reported written has been delivered (other strings: always).
  Theorems: `C44_ok_but_not_delivered`, `C44_delivered_partial`, `C44_ascii_ok_iff_partial`, `C44_delivered_iff_partial`.
* **C45 Equal maps hash equally** (partial) - False: witness; `_partial`: same-order maps. *Outcome*: False as stated: negation proved. Exact: equal maps feed the same data iff their keys are in the same order.
  Theorems: `C45_equal_maps_hash_differently`, `C45_same_order_partial`, `C45_feed_iff_partial`.
* **C46 Custom version checks** (proved) - decision theorem.
  Theorems: `C46_supports_iff`, `C46_antitone`, `C46_ignores_others`, `C46_gates`.
* **C47 Engine version mapping** (proved) - decision theorem over all UInt16 pairs.
  Theorems: `C47_get_version`, `C47_distinct`.
* **C48 Map keys are kept apart** (partial) - False (float zeros, NaNs): witness; `_partial` for float-free keys. *Outcome*: False for float keys that differ in the sign of zero or the bits of a NaN, and for one string stored in two encodings (witnesses proved). Proved: which keys are one, and that for key types without floats exactly equal keys are merged.
  Theorems: `C48_same_key_iff`, `C48_keys_kept_partial`, `C48_zeros_merge`, `C48_spellings_merge`.
* **C49 Property layout** (proved) - layout theorem. *Outcome*: booleans have their own layout.
  Theorems: `C49_layout`, `C49_bool_layout`.
* **C50 Output size is bounded by input size** (proved) - weight of a property tree against the bytes consumed (`Spec/Weight.lean`), induction on fuel. *Outcome*: The linear bound has a factor of 2^30 properties per byte, because unknown array elements may take no bytes (96 bytes can hold 2^32 properties, proved); without those there is at most one property per byte.
  Theorems: `C50_linear`, `C50_nonempty`, `C50_amplification`.
* **C51 Error positions lie inside the input** (proved) - closure lemma. *Outcome*: positions inside compressed Palworld saves refer to the decompressed data.
  Theorems: `C51_error_positions_inside`, `C51_error_positions_read`, `C51_frame_positions_inside`.
* **C52 What write accepts, read accepts** (partial) - well-formedness predicate characterises exactly what reads back equal. *Outcome*: False for every constructible value (witness proved). With every property below 4 GiB, exactly the values meeting the well-formedness predicate are read back equal.
  Theorems: `C52_property_readable_iff_partial`, `C52_file_readable_iff_partial`, `C52_large_file_readable_iff_partial`, `C52_not_every_value`.
* **C53 JSON round-trip** (partial) - JSON values as a tree (`Model/Json.lean`), encoder and decoder per type from the serde attributes; inverse by structural induction; f32 values pass through f64 (`Model/Float.lean`, IEEE conversions, proved inverse). *Outcome*: Exact outcome for every file: read back unchanged if all floats are finite, refused otherwise. The property is false for files with infinities or NaNs (C53_nonfinite_lost), which is what is missing. JSON values, not JSON text; serde's derive rules are modelled from the attributes.
  Theorems: `C53_json_roundtrip_partial`, `C53_saves_partial`, `C53_nonfinite_lost`.
* **C54 Debug and release builds agree** (proved) - closure lemma relating two environments that differ in `debug`.
  Theorems: `C54_debug_agrees_with_release`, `C54_release_accepts`, `C54_profiles_differ`, `C54_files`.
* **C55 Which properties can be written** (proved) - independent predicate `Spec.Writable` by structural recursion; both directions by structural induction.
  Theorems: `C55_write_ok_iff`, `C55_write_error`, `C55_write_panic`.
* **C56 Different files have different JSON** (proved) - corollary of C53. *Outcome*: The finiteness in the statement is needed: both infinities become null.
  Theorems: `C56_json_injective`, `C56_infinities_collide`.
* **C57 Saving through JSON** (proved) - C19 (accepted files are well-formed) with C53.
  Theorems: `C57_save_through_json`.
* **C58 Files read from JSON are stable** (partial) - decoder inversion: every accepted JSON yields distinct keys; then C53. *Outcome*: Keys are distinct for all accepted JSON; stability holds exactly for files with finite floats. False otherwise: a finite number beyond the 32 bit range is read as infinity (C58_overflow).
  Theorems: `C58_json_stable_partial`, `C58_overflow`.
* **C59 Editing a save is local** (proved) - `GvasFile.encode` as the concatenation of independently stored properties (`Spec.Stored`, `Spec.Pairs`). *Outcome*: Reading back below 4 GiB, as in C17.
  Theorems: `C59_save_is_concatenation`, `C59_edit_is_local`, `C59_edit_reads_back`.
* **C60 The two containers are never confused** (proved) - arithmetic on the magic numbers and version ranges with C13.
  Theorems: `C60_default_is_not_palworld`, `C60_palworld_is_not_default`.
* **C61 The header can be read alone** (proved) - inversion of the file reader.
  Theorems: `C61_header_alone`.
* **C62 How a stream delivers its bytes does not matter** (proved) - `Model/Stream.lean`: a stream is a list of answers; the loops of `read_exact` and `read_to_end` by well-founded recursion; induction on what the stream has left. *Outcome*: C62_failure_in_frame and C62_failure_in_payload say which of the two it is for Palworld saves, except for compressed ones. A zlib decoder is taken to read its input to the end before it decodes.
  Theorems: `C62_delivery_irrelevant`, `C62_failure_reported`, `C62_failure_in_frame`, `C62_failure_in_payload`.
* **C63 Ok means the whole file is in the output** (partial) - `Model/Limited.lean`: an output with a limit; exact contents after each stage. *Outcome*: False for ZlibTwice: the outer encoder is finished by its destructor, which ignores errors, so write returns Ok for a truncated payload (C63_truncated_but_ok, C63_lost_save). Holds for the other three containers.
  Theorems: `C63_enough_room`, `C63_full_reported_partial`, `C63_ok_complete_partial`, `C63_truncated_but_ok`, `C63_lost_save`.
* **C64 Equality of files and properties means what it should** (proved) - `Model/Equality.lean` turns a value into the tree of what the derived `PartialEq` compares; trees are compared as indexmap does. Mutual induction on trees; matching of entries for reordering. *Outcome*: MapsDistinct and FileMaps hold for every Rust value (its maps are IndexMaps). C64_equal_not_same_key records that equal structs with fields in different orders are nevertheless two keys of one map. indexmap finds the key of a map with a single entry without hashing: C64_single_entry; C64_one_more_entry shows that therefore equal maps may differ once the same entry is added to both.
  Theorems: `C64_equivalence`, `C64_equivalence_files`, `C64_same_order`, `C64_maps`, `C64_single_entry`, `C64_one_more_entry`, `C64_structs`, `C64_sets`, `C64_files`, `C64_equal_not_same_key`.
* **C65 Equal files are saved as the same bytes** (partial) - from C64: equal trees with keys in the same order (`Spec.keysOf`) are identical; a tree determines the normalised value. *Outcome*: False: equality ignores the order of map entries and the sign of zeros, writing does not (witnesses C65_order_matters, C65_zero_sign). Proved for files whose maps are in the same order and that have no NaNs or negative zeros; exact: equal well-formed files have the same contents iff they are identical.
  Theorems: `C65_same_order_partial`, `C65_same_bytes_partial`, `C65_same_contents_iff_partial`, `C65_order_matters`, `C65_zero_sign`.
* **C66 Supplying hints one by one comes to an end** (proved) - Instance of the Closed framework relating a run that misses a hint to one that has it, with the position of the next miss. *Outcome*: C66_progress compares two runs whose hint tables extend each other; C66_bounded_rounds is for any growing sequence of tables that follows the reports; C66_one_by_one is for the documented procedure with an arbitrary function giving the answers, and identifies its final outcome; C66_files is for whole files in either container.
  Theorems: `C66_progress`, `C66_bounded_rounds`, `C66_one_by_one`, `C66_files`.
* **C67 Nesting is limited by the size of a save only** (proved) - `Spec.depth` over all types of values; induction over the writers gives bytes per level; a family of saves by C17's lemmas for the other direction. *Outcome*: bound through the size of what is written (at least four bytes per level) and C19_at_most_doubles; witnesses by the round trip of nested transformations. Stack overflow itself is not modelled.
  Theorems: `C67_depth_bounded`, `C67_every_depth`.
* **C68 Values deep inside a save can be changed in place** (proved) - A one-place relation `Spec.Differ`; every writer puts a piece whose size alone influences the bytes in front (`Fits`), composed along the relation; representability is kept by exchanging like values, then C17's lemmas. *Outcome*: places are properties inside arrays, sets, structs, struct arrays and maps, and the values that are not properties: elements of compact arrays, values of compact maps, structs of a fixed layout, the tags of tag containers, and all parts of texts (at any depth, except argument names), delegates and field paths.
  Theorems: `C68_edit_is_local`, `C68_file_edit_is_local`, `C68_patch_in_place`, `C68_element_is_local`, `C68_file_element_is_local`, `C68_patch_element`.
* **C69 The accepted saves are exactly those of a grammar** (proved) - Soundness: each reader `Gives` only what its grammar rule says, by induction on the fuel.  Completeness: by structural recursion over derivations, each derived byte string is read with enough fuel (`Eventually`), and C25 removes the fuel. *Outcome*: the grammar is in Spec/Grammar.lean, as mutually inductive relations between bytes and values, without reader, position or fuel.
  Theorems: `C69_accepts_iff`, `C69_property_iff`, `C69_bare_iff`, `C69_unambiguous`, `C69_one_meaning`, `C69_written_saves`.
* **C70 Numbers in JSON become the nearest floats** (proved) - Magnitudes are monotone in the bits, neighbours differ by one unit, so comparing remainder with half a unit decides the distance. *Outcome*: nearest is specified in Spec/Nearest.lean by distances of magnitudes, not by shifting; the conversion itself is serde_json's and the as operator's, modelled.
  Theorems: `C70_int_to_f32`, `C70_int_to_f64`, `C70_f64_to_f32`, `C70_f32_to_f64_exact`.
* **C71 Numbers and bytes in JSON are read exactly or refused** (proved) - Case analysis on the JSON value; the sixteen digits by cases. *Outcome*: added after two wrong readers survived all round-trip theorems, which only see JSON the crate itself wrote.
  Theorems: `C71_unsigned`, `C71_signed`, `C71_bytes`.
* **C72 The memory that reading asks for in advance** (proved) - `Cost d m m'`: m is m' with requests, closed under sequencing and loops; each element of a loop takes at least one byte more than it asks for. *Outcome*: the readers are modelled a second time with a record of requests (Model/Meter.lean) and shown to be the same readers; the requests of C72_greedy amount to hundreds of gigabytes for elements of the size of Property, so a file of 35 bytes can abort the process.
  Theorems: `C72_recorded_faithfully`, `C72_accepted`, `C72_bound`, `C72_greedy`.
* **C73 The accessors and text constructors fit what is read** (proved) - A mutable reference is modelled as the value seen and the function that stores another; C73_read_* follow from the postcondition of the readers used for C69. *Outcome*: the exceptions are in the code: Property::StructPropertyValue has no accessor, nor have Vector2F, Vector2D, Timespan, LinearColor and GameplayTagContainer values.
  Theorems: `C73_read_with_header`, `C73_read_bare`, `C73_exactly_one`, `C73_struct_values`, `C73_lenses`, `C73_struct_lenses`, `C73_new_none`, `C73_new_base`.
* **C74 The message of an error tells the error** (proved) - The fixed beginnings are such that none begins another; numbers are delimited by characters that no number contains; positions are taken from the end of the message. *Outcome*: of errors built by hand it does not hold: C74_made_up_errors has two missing hints with one message.
  Theorems: `C74_messages`, `C74_message_tells_error`, `C74_texts`.
* **C75 The text of an engine version determines it** (proved) - Numbers end at the first character that is no digit.
  Theorems: `C75_engine_version_text`, `C75_engine_version_letters`.
* **C76 Later engine versions have later object versions** (partial) - The whole (finite) table is compared pair by pair in the kernel. *Outcome*: false: LatestVersion is VersionPlusOne + 1 (Unreal has - 1), so VER_UE4_AUTOMATIC_VERSION has 42 and VER_UE4_AUTOMATIC_VERSION_PLUS_ONE 41; it holds of all other pairs (4.18 and 4.27 have no entry, and the UE5 table is empty); C76_numbers has the numbers themselves, counted in the declaration.
  Theorems: `C76_false`, `C76_table_partial`, `C76_numbers`.
* **C77 Exactly one JSON layout is read and written** (proved) - The layout is a relation between JSON and values, written without the readers; every reader is shown to compute its relation, by induction on the nesting bound, and the bound is shown to be none. *Outcome*: of the JSON model, which includes serde's alternative spellings (arrays for structs and tagged values, indices for names in buffered values).
  Theorems: `C77_accepted`, `C77_written`, `C77_any_nesting`, `C77_fields_written`.
* **C78 Strings are stored in the Unicode encodings** (proved) - The encodings are relations between code points and numbers as in the tables of the Unicode standard; the encoders of the model are shown to have this form and the form to be unique.
  Theorems: `C78_strings_read`, `C78_strings_written`, `C78_one_meaning`.
* **C79 What is written of every value** (proved) - The grammar of written values is a family of inductive relations in Spec/Written.lean without limits or conditions on values. Induction over values shows that what is written follows it, induction over derivations that all of it is written.
  Theorems: `C79_property_written`, `C79_bare_written`, `C79_contents_written`, `C79_one_form`.
* **C80 Equal files are saved alike** (proved) - Induction over pairs of equal values shows that both writers fail or both write as many bytes; rearranging the entries of a map rearranges what is written of them. The conditions of a representable file mention only what equality keeps.
  Theorems: `C80_properties`, `C80_files`, `C80_representable`, `C80_interchangeable`.
* **C81 What the constructors build is saved and loaded** (proved) - Each constructor gives a value of the well-formed kind of C15, whose round trip is then used; arrays and maps go through what C35 says of the choice of the compact forms, and each compact form is shown well-formed from its elements.
  Theorems: `C81_scalars`, `C81_strings`, `C81_structs`, `C81_array`, `C81_struct_array`, `C81_set`, `C81_map`, `C81_guids`.
* **C82 The texts of values tell the values** (proved) - Decimal numbers contain no letter and no space, so the text can be cut at the first letter, or at each space. *Outcome*: The text of a float is core's and is a parameter; the type of a struct is not told (DateTime and Timespan are shown alike), which is why the theorem fixes it.
  Theorems: `C82_numbers`, `C82_guids`, `C82_structs`, `C82_number_texts`, `C82_guid_text`, `C82_struct_texts`.
* **C83 What an error says is true of the input** (proved) - A triple carries the bytes before the reader, so that positions and earlier strings can be pointed at; it is closed under all combinators, and each leaf that fails is checked. *Outcome*: The inner payload of the UTF errors (core's) is not modelled. Of the missing-hint path only that it has no hint is said here; what it is, is C27.
  Theorems: `C83_errors_describe`, `C83_eof_at_end`, `C83_file`, `C83_frame`, `C83_palworld`.
* **C84 What a panic says is true of the input** (proved) - Add a panic arm to the triple of C83 and carry declared lengths and names of fields along. *Outcome*: Spec.Blames spells out the fact for each message (positions, numbers and strings in the input). Samples show every cause.
  Theorems: `C84_panics_describe`, `C84_file`, `C84_palworld`.
* **C85 Reading looks at no byte it does not consume** (proved) - Another instance of Closed: where a reader runs into the end but would not with more input, it consumes more than there was. *Outcome*: C23 and C24 say half of this for successes; here failures and panics are included and the state is exact.
  Theorems: `C85_no_lookahead`, `C85_threshold`, `C85_property`, `C85_file`.
* **C86 Compressed saves are zlib streams of their contents** (proved) - A decoder and a relation on bit strings for each construct, shown to describe each other (Exact), including canonical Huffman codes, overlapping copies and Adler-32; then containers over any codec that decodes the relation. *Outcome*: The decoder is a model of the format, not of flate2's code; it was compared with zlib on the compressed save in /repo and on changed streams (conformance/zlib_check.py).
  Theorems: `C86_decode_iff`, `C86_decode_fails_iff`, `C86_stream_unique`, `C86_stream_exists`, `C86_lawful`, `C86_zlibCodec`, `C86_zlib_frame`, `C86_zlib_twice_frame`, `C86_other_decoder`.
* **C87 Loading JSON never panics** (partial) - A second model of deserialization with panics and the order of visits; it agrees with the first or panics, and a panic is traced to its text. *Outcome*: False: a text of 32 bytes that is cut inside a character makes the loader panic wherever a GUID is expected (C87_struct_panics, C87_version_panics), even where it is not needed (C87_unused_text). Proved: every panic comes from such a text in such a place, documents without one (in particular all saved by the crate) give a file or an error, and the outcome is then that of GvasFile.ofJson.
  Theorems: `C87_panics_explained_partial`, `C87_no_panic_partial`, `C87_outcomes_partial`, `C87_saved_partial`, `C87_saved_outcome_partial`, `C87_ascii_partial`, `C87_struct_panics`, `C87_version_panics`, `C87_error_first`, `C87_unused_text`, `C87_first_decides`, `C87_half_pair`, `C87_long_set`.
* **C88 A file saved as JSON text is loaded as it was** (partial) - A grammar of JSON, a parser proved sound and complete for it, a writer, and correct rounding of decimals with integers. *Outcome*: Text is accepted exactly if it is a document of RFC 8259 (own grammar) nested at most 127 deep. The round trip is false: files nested deeper are saved but refused (C88_deep_refused), and the f32 0x15AE43FD, saved with its shortest digits 7.038531e-26, is loaded as 0x15AE43FE, as it is rounded to f64 first (C88_float_changes; properties are buffered for their tag). Both happen to saves of a few KB that are read (C88_save_refused, C88_save_changes). Proved exactly: a file is loaded from its text as it was if and only if its floats are finite, it is nested at most 127 deep and this double rounding keeps its floats; with exact digits it always keeps them. Loading is by way of a Value here (directly: C89), serde_json is modelled from knowledge of its sources, and the texts of floats are a parameter.
  Theorems: `C88_text_accepted`, `C88_text_unambiguous`, `C88_repeated_names`, `C88_same_value`, `C88_text_roundtrip_partial`, `C88_text_iff_partial`, `C88_saves_partial`, `C88_deep_refused`, `C88_save_refused`, `C88_save_changes`, `C88_exact_digits`, `C88_float_changes`.
* **C89 JSON text loaded directly gives what it gives by way of a value** (proved) - The readers of Model/Json are generic in how a field is looked up; text gives the look-up that refuses repeated names. A parser for the outermost object that skips what is no field, proved sound and complete for a grammar. *Outcome*: Derived visitors refuse repeated fields and tags, flattened variants take the first match and unknown entries of the outermost object are skipped without limits on nesting and numbers; all this is serde's and serde_json's behaviour, modelled from knowledge of their sources.
  Theorems: `C89_text_accepted`, `C89_document`, `C89_other_entries`, `C89_no_repeats`, `C89_as_by_value`, `C89_same`, `C89_saved`, `C89_saved_iff`, `C89_saves`, `C89_repeated_refused`, `C89_repeated`, `C89_unknown`, `C89_first_or_last`.
* **C90 How many steps reading takes** (proved) - The metered readers of C72 also count steps. An upper bound with credit for bytes consumed, goal-directed through all readers, and a lower bound by the number of properties. *Outcome*: A step is a part of a reader without a loop over a count (M.lift in Model/Meter): reading a few fields, a buffer or a string, a check, or rearranging what has been read. Hashing, sorting out of duplicates and growing of vectors are not counted, nor is unpacking Palworld containers.
  Theorems: `C90_linear`, `C90_length`, `C90_below`, `C90_slow`.
* **C91 Damage inside a save is reported** (proved) - A relation from the grammar for incomplete bytes (Spec/Inside), a reader lemma that a failure is passed on at each level, induction over the depth; then each header check once for a single property. *Outcome*: Spec/Inside describes the beginning of a save up to the header of a property in it, at any depth; sizes stored there are not compared with anything, since what they count is not complete yet. C91_wrong_length gives the place in the save, that the property stands there by the grammar, and the exact error with its position.
  Theorems: `C91_no_recovery`, `C91_save_no_recovery`, `C91_stands`, `C91_wrong_length`, `C91_wrong_index`, `C91_wrong_index_types`, `C91_wrong_end`, `C91_ends`, `C91_unnoticed`.
* **C92 What saving copies and holds** (proved) - metered writer; by induction each buffer goes with at least 50 bytes of headers, so that the bytes written are at most n^2/100 + 2n; towers of arrays and structs for the lower bounds *Outcome*: the metered writers (Model/Spool.lean) are shown to write the same bytes and fail in the same way as the writers. Buffers are counted by their length; the spare capacity of a growing Vec, and what zlib holds for Palworld saves, are not modelled.
  Theorems: `C92_same_property`, `C92_same_file`, `C92_property`, `C92_file`, `C92_room_reached`, `C92_square_reached`, `C92_slow_saves`.
* **C93 How much a compressed save can grow** (proved) - a token of at least two bits adds at most 258 bytes; for the lower bound a block with one-bit codes for the longest copy and its distance, laid out so that its bytes are zeros and can be compressed the same way again *Outcome*: flate2 itself is not modelled: the bounds are for every codec that gives out nothing but what the bits it has read stand for (Spec.Zlib.Faithful), the lower bounds for every codec that decodes the streams of RFC 1950/1951 (Spec.Decodes); the decoder of C86 is both. What decompressors hold besides their output is not modelled.
  Theorems: `C93_stream`, `C93_yields`, `C93_stream_yields`, `C93_file`, `C93_read`, `C93_stated`, `C93_zlibCodec`, `C93_zeros`, `C93_factor_reached`, `C93_bomb`, `C93_file_factor_reached`.
* **C94 Editing one place of the JSON changes one place of the save** (proved) - induction over the place: JSON and its text are composed from those of the parts; then C53, C89 and C68 *Outcome*: Places are those of C68: struct fields, elements of arrays and sets, and values of maps, at any depth. Values that are not properties (elements of compact lists and maps, components of structs, parts of texts, delegates and field paths) are edited in their own place in the JSON too, with the pointer given; where there is no such place (bytes of byte arrays, which are one string, and parts of texts that are left out of the JSON) the JSON of the property around them is replaced. Map keys are excluded from the edits, as a changed key may meet another one (C37). The edit of text needs the conditions of C88 for loading text: at most 127 deep and f32 numbers that survive being rounded twice.
  Theorems: `C94_place_in_json`, `C94_place_in_text`, `C94_edit_through_json`, `C94_edit_through_text`, `C94_value_through_json`, `C94_element_through_json`, `C94_part_in_json`, `C94_part_through_json`.
* **C95 A cut off or extended save never reads as another one** (proved) - DEFLATE is deterministic: of two outputs for the same bits seen to different lengths one begins the other; twice for streams in streams; then C24 *Outcome*: The decompressor may stop early without reporting it, as flate2 does at the end of its input; nothing is assumed about the checksum. What it may give out is said with RFC 1951 alone, in Spec/Inflate.lean.
  Theorems: `C95_yields`, `C95_contents`, `C95_same_or_refused`, `C95_decompressors_agree`.
* **C96 The layout of JSON text does not matter** (proved) - a filter that drops space outside of strings and one that lays text out, both on characters only; induction over the grammar of RFC 8259 and over what is serialized *Outcome*: serde_json's PrettyFormatter is modelled from knowledge of its sources; the model's text equals all expected texts of the test-suite (conformance).
  Theorems: `C96_squeezed`, `C96_space_means_nothing`, `C96_space_loaded_alike`, `C96_pretty_layout`, `C96_pretty_loaded_alike`, `C96_pretty_iff`.
* **C97 Properties by themselves go through JSON text** (proved) - the grammar of RFC 8259 decides what is read; the lemmas on files (C53, C88, C89, C96) hold for each property *Outcome*: serde and serde_json are modelled from knowledge of their sources. The texts of floats are any that meet FloatsOf, see C88.
  Theorems: `C97_text_accepted`, `C97_document`, `C97_document_value`, `C97_same`, `C97_space`, `C97_value_roundtrip`, `C97_saved_alike`, `C97_saved_iff`, `C97_file_by_property`, `C97_type_twice`, `C97_repeated`, `C97_alone_only`.
* **C98 What a failed save says is true of the file** (proved) - By mutual induction over values: the outcome of writing is that of the first demand in the list that is not met. *Outcome*: Spec/Faults lists what a file asks for in storage order, with the messages written out. This completes C55, which leaves open what happens when structs and texts are both at fault.
  Theorems: `C98_property`, `C98_file`, `C98_read_fits`, `C98_other_versions`.
* **C99 Which hints a save needs is in the file** (proved) - By mutual induction over values: whether a representable value is representable with other hints depends on the list of needs only; then the exact condition of C52, and C28 for what is reported. *Outcome*: Spec/Hints lists the needs of a file by recursion over it. Zlib enters C99_file_iff through Spec.Lawful.
  Theorems: `C99_necessary`, `C99_needed_iff`, `C99_no_needs`, `C99_missing`, `C99_first_missing`, `C99_first_asked`, `C99_file_first_missing`, `C99_rounds`, `C99_one_kind`, `C99_hints_from_file`, `C99_names_free`, `C99_file_necessary`, `C99_file_iff`.

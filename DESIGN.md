# Formal model of bytebeamio/mqttbytes in Lean 4

## 1. What is modelled, and how

| /repo | model |
|---|---|
| `bytes` crate operations used (`put_u8/u16/u32`, `extend_from_slice`, `advance`, `split_to`, `get_u8/u16/u32`, index assignment) | `Verif/Model/Base.lean`: a state+error monad `M` over `List UInt8`; out-of-range operations are an explicit `panic` outcome |
| `src/lib.rs` | `Verif/Model/Lib.lean` |
| `src/topic.rs` | `Verif/Model/Topic.lean` |
| `src/v4/*.rs` | `Verif/Model/V4.lean` |
| `src/v5/*.rs` | `Verif/Model/V5*.lean` |
| wire format of MQTT 3.1.1 / 5 (independent specification) | `Verif/Spec/*.lean` |
| helper lemmas | `Verif/Proof/*.lean` |
| property theorems (one section per property id) | `Verif/Props/*.lean` |

Modelling decisions

* `u8/u16/u32` are `UInt8/UInt16/UInt32` with wrap-around; `bytes.len() as u16` is the truncating `UInt16.ofNat`.
* `usize` is `Nat`. Subtractions that could underflow go through `usub`, which panics; the cursor additions of
  the v5 property loops go through `uadd`, which panics at 2^32 (smallest supported `usize`).
  Other `usize` additions (sums of lengths of in-memory objects in `len()`) are unbounded; `Model/Usize` and
  `Model/UsizeWrite` repeat lengths and writers with W-bit additions, checked and wrapping, and C96 proves when the two agree (always, unless the packet has 2^W bytes or more). `Model/UsizeFrame` does the same for framing and `read` (C109: they agree for W ≥ 32).
* `String` is Lean's `String`, which in this version *is* a byte array with a proof of UTF-8 validity, as in Rust.
  `String::from_utf8` is `String.fromUTF8?`.
* `Bytes`/`BytesMut` are `List UInt8`: sharing, capacity and allocation failure are not modelled.
* `&mut` arguments: the monad `M` threads the buffer and keeps its value on error, because `write` mutates
  the caller's buffer before failing and `read` consumes a frame before failing.
* `while` loops take fuel; running out of fuel is the explicit outcome `diverge`. Termination is the theorem that
  `diverge` never happens.
* A panic is the explicit outcome `panic`.
* Derived `Debug` (`Model/Debug`): which characters `str` escapes besides the six special ones is a table of the standard
  library; it is a parameter about which nothing is assumed.
* Standard error: the one printing statement, `dbg!` of v5 `Unsubscribe::read`, is in `Model/Trace`, not in the main
  model of `v5::read` (C103 relates the two). What `dbg!` prints for the place in the source is a parameter.
* Not modelled: memory layout, allocation, performance, the `v5` cargo feature (unused by the code).

### Modules

| module | content |
|---|---|
| `Model/Base` | `Res` (ok / err / panic / diverge), the monad `M`, `bytes`-crate operations |
| `Model/Lib` | `src/lib.rs`: framing, length bytes, string fields, QoS, packet type |
| `Model/Topic` | `src/topic.rs` |
| `Model/V4` | all of `src/v4/`: types, constructors, `len`, `read`, `write`, dispatch |
| `Model/V5Base`, `V5Connect`, `V5Packets` | all of `src/v5/` |
| `Model/V5Shared` | no code of its own: the text common to the four ack files (puback, pubrec, pubrel, pubcomp) and to the six `{reason_string, user_properties}` property sets, (Proof/V5Shared proves by `rfl` that each file's functions, modelled one by one in `V5Packets`, are instances of it) |
| `Model/Fmt` | hand-written `Debug`/`Display` texts, `Debug` of `Error`, order of `QoS` and of `FixedHeader` |
| `Model/Debug` | derived `Debug` of all types, and of `str`, `Bytes`, `Vec`, `Option` |
| `Model/DebugPretty` | the same in the alternate form `{:#?}` |
| `Model/Trace` | `v5::read` with what it prints to standard error |
| `Model/Release` | the code with `usize` arithmetic, as it behaves in release builds |
| `Model/Usize` | the `len` functions on W-bit integers, checked (debug) and wrapping (release) |
| `Model/UsizeWrite` | the writers on W-bit integers, debug and release |
| `Model/UsizeFrame` | framing and `read` on W-bit integers, debug and release |
| `Spec/Wire` | variable byte integers, `u8/u16`, strings, frames |
| `Spec/V4`, `Spec/V5` | `encode` (what the standard says a packet's bytes are), `WF`, `Denotes` (which packet a frame denotes), property tables |
| `Spec/Errors`, `Spec/ErrorsV5` | which error a frame is rejected with: the first thing wrong in reading order |
| `Spec/Client` | the client loop: read until "more bytes needed", append a chunk, continue |
| `Spec/Len`, `Spec/Direct` | what "len predicts write" and "panics exactly when" mean |
| `Spec/DirectLength` | readers called directly with a header whose length need not match the body |
| `Spec/Flags` | the flag bits of CONNECT, PUBLISH and SUBSCRIBE, bit by bit |
| `Spec/Vocabulary` | the errors each entry point can report |
| `Spec/Written` | result and bytes of writing any packet, also refused and over-long ones |
| `Spec/Demand` | the client that reads exactly as many bytes as it was asked for |
| `Spec/Skim` | the client that reads on after a bad packet |
| `Spec/Schedule` | a client under any schedule of arrivals and calls with changing limits |
| `Spec/Repeat` | which v5 properties may repeat; "same if the last one wins" |
| `Spec/Std` | MQTT 5.0 and 3.1.1 control packets described from the standards alone (own packet type, property table 2-4, own encoder, validity), and what the library should report for each |
| `Spec/Relay` | when two control packets say the same |
| `Spec/Steps` | when a loop ends within a number of turns |
| `Spec/Queue` | a program using one buffer, and the same with a plain queue |
| `Spec/Topic` | levels of a topic, level-by-level matching relation |
| `Spec/Cross` | what each version's decoder makes of the other version's packets |
| `Spec/Patch` | an encoded packet with its identifier or its flags overwritten |
| `Spec/Chain` | a packet handed on along a chain of relays |
| `Spec/Torn` | what an incomplete frame does to the bytes that follow it |
| `Spec/Essence` | what the bytes of a packet tell, and what they do not |
| `Spec/Route` | the routing decision of a broker built on `matches`, and the copies it passes on |
| `Spec/Overlap` | the common part of two filters, level by level |
| `Spec/Size` | the number of bytes of a packet, from its fields |
| `Spec/Terms` | small notions used in the statements of C73, C101, C102, C110, C111 |
| `Spec/Dual` | a server for both versions that looks at the protocol level |
| `Spec/Codes` | numbers of packet types and properties; what "faithful table" means |
| `Proof/*` | lemmas |
| `Props/*` | the property theorems, named `Cnn_...` |
| `Tests/RepoTests` | every unit test of /repo transcribed and checked against the model (evidence for faithfulness, not a proof) |
| `Tests/Witness` | theorems with several hypotheses applied to concrete packets (besides the examples next to the theorems) |

The specification modules use the *data types* of the model (packets, enums) but none of its functions.

## 2. Plan per property

All properties in `properties.jsonl` are expressible in the model.
Full list with the theorem names is in `MANIFEST.json`; the plan:

* C01-C06 framing: induction on the stream / on the number of length bytes, `omega` for base-128 arithmetic.
* C07, C08 totality: a compositional `Good` predicate on `M`-programs (never `panic`/`diverge`, buffer never grows,
  which errors), the loops by induction on fuel.
* C09-C12 consumption: unfold `read`; for v5 InsufficientBytes the exact truth (two cases) is proved.
* C13, C14 chunking: induction over the chunk list from C05/C09/C11 about the abstract client of `Spec/Client`.
* C15-C24, C32-C40 round trips: for each packet two theorems against the independent wire specification:
  `write p buf = (ok n, buf ++ encode p)` and `read (encode p ++ rest) = (ok p, rest)`.
  v5 property sections: one generic lemma about the property loop, instantiated per property set.
* C25-C27, C58: a compositional analysis of writers (`Chunk`), all packets, also not well-formed ones.
* C28-C31, C57, C60: inversion: reader succeeded iff the bytes denote the packet.
* C61, C62: the same for errors: the reader failed with e iff the bytes are rejected for e (grammar of failures).
* C41, C42, C52: generic property-loop lemmas; `Reaches` says that the reader gets to a section.
* C43: exhaustive over the finite tables (kernel `decide` over all 256 bytes, so the whole domain).
* C44-C49, C59: induction over levels against an inductive matching relation.
* C50, C51, C53-C56: direct.
* C63: from the analysis of writers on arbitrary packets (`write_cases`) and `len = body length`.
* C64: `Good` lemmas with an arbitrary header; v4 UNSUBSCRIBE's loop by induction, against the inductive `Overruns`.
* C65: from the exact acceptance grammar (C31, C60), packet by packet; sections by sub-permutation of properties.
* C66: from the exact characterisation of `check`'s outcomes (ok / InsufficientBytes / malformed / limit).
* C67: the client is an inductive relation (`Spec/Demand`), independent of the decoder; runs constructed byte by byte over
  the length bytes, uniqueness by induction on the run.
* C68: from the exact acceptance grammars of the two decoders (C31, C60) and the exact write theorems.
* C69: soundness by transitivity (C48); completeness by constructing, for a filter that is not matched, topics that are
  instances of it ('+' replaced by a level that does not occur in the other filter, '#' by 0, 1 or 2 such levels).
* C70: induction over the packets, from the round trips C15/C16 and the wait behaviour of the frame check; the client is
  `Spec/Client`'s.
* C71: the frame check asks for more bytes only while the header is incomplete or the announced length is within the limit.
* C72: `Spec/Repeat` says which properties MQTT lets repeat; congruence of the "reached" relation of the property loops.
* C73, C74: the per-function lemmas behind C31/C60 (acceptance) and C61/C62 (errors), stated about the public functions
  themselves with an arbitrary header (`Spec/Direct`).
* C75, C76: `Model/Fmt`; decoding the text from the right (the last field contains no blank) or at the first parenthesis.
* C77: the whole domain by cases.
* C78: induction over the frames; the resuming client is the inductive relation `Spec/Skim`; per frame C31/C61 and C60/C62.
* C79, C80, C81: `Spec/Std` describes control packets as the standards do (own data type, table 2-4 as one list, encoder, `Valid`), independently of the crate's values; `result` lists what the decoder makes of each, `say` which control packet a value stands for. C79/C80 from the acceptance and rejection characterisations (C60-C62, C31), C81 from the writers' exact output (C24, C40).
- **C82** relay: `Spec/Relay` says when two control packets of the standard (`Spec/Std`) have the same content (`Same`, properties up to `SameById`; v4: `dropEmpty`). Proved from C79/C80 (what is read), the property sets keeping every property of a conforming list (`Proof/Relay`), and C81 (what is written). Exceptions: CONNACK without properties, second hop of a PUBLISH with several subscription identifiers.
- **C83** release builds: `Model/Release` is the decoding code again with wrapping arithmetic (`wsub`, `wadd` modulo 2^W). Proved by a simulation (`Proof/Release`): wherever the debug model does not panic the two agree; with C07, C08, C64 it never does in `read`. Underflow in a direct `Unsubscribe::read`: the wrapped counter exceeds the bytes left, so the bytes run out.
- **C84** truncated packets: from the exact outcome of `check` (C03) with stability under appended bytes (C04, C05): any other answer on the prefix would have to persist on the whole frame. Encoder part by the exact bytes written (C21 ff).
- **C85** bounded work: the model's loops carry a cut-off counter; `Spec/Steps.EndsWithin` says the cut-off at one test per byte is never noticed and any later cut-off gives the same result. Proved by induction on the counter plus the consumption bounds of C07, C08.
- **C86** shared buffer: `Spec/Queue` gives the program on the buffer (`useBuffer`) and on a plain queue (`useQueue`). Proved by refinement: the abstraction is the concatenation of the encodings of the queue; induction over the schedule with C02, C27, C28, C58 for writes and the round trips for reads.
- **C87** C87: reading from the exact acceptance and rejection grammars (C31, C60, C61, C62), which mention the first byte only through type and flags; writing: everything after the first byte is a buffer-independent writer.
- **C88** C88: buffer-independence is closed under sequencing; shown for every primitive and writer, by induction for the loops.
- **C89** C89: the loop equals an inductive relation on level lists (induction on the filter); the laws by induction on the common prefix.
- **C90** `Spec/DirectLength.lean` gives, per reader, relations over (first byte, announced length, body) for results and errors; proved exact by inverting the model's readers (topics by induction on the loop).
- **C91** Spec/Written.lean defines result and bytes from the wire format alone; Proof/WriteAll.lean shows write = written for each packet type (property chunks carry an `emits` field describing torn writes); Props/WriteExact.lean states it and derives the exact error conditions.
- **C92** From C91 a successful write is one frame whose length bytes are right; C78 reads frames independently; C61/C62 give the unique outcome of each frame.
- **C93** Spec/Vocabulary.lean lists the errors; one direction from the exact rejection grammar (C61, C62, C91), the other by giving an input for each listed error, parametric in its payload.
- **C94** Spec/Unicode.lean states tables 3-6 and 3-7 byte by byte; Lean's UTF-8 is proved equal to it row by row, so that its agreement with Rust's table is no longer assumed; the rest from the exact acceptance and rejection grammars (C31, C60-C62).
- **C95** antisymmetry of the matching relation (C89) by induction on levels; then C69 in both directions.
- **C96** the `len` functions once more with checked W-bit additions (Model/Usize); each equals `lit` of the unbounded one because sums of naturals only grow; then the length lemmas of C01/C02/C88. The writers on these lengths (Model/UsizeWrite) are equal to the unbounded ones by congruence, writer by writer.
- **C97** `partial_cmp` as three nested comparisons; monotonicity of the number of length bytes.
- **C98** if: round trips (C17-C23, C32-C39); only if: whatever is read is well-formed (C29, C57), and the bytes written are one frame (C91), so that the frame denotes the packet. A v5 PUBLISH is also decided by counting (`C98_v5_publish_counted_iff`): the cursor's over-count of subscription identifiers against the bytes that follow.
- **C99** Induction on the buffer length; C03 decides whether a frame is complete, C78's per-frame outcome gives each step; determinism by inversion of the call history.
- **C100** derived Debug modelled in Model/Debug (struct, tuple, Option, Vec, pair, str escapes, Bytes escapes); a text is 'clean' if value and rest can be read off text ++ rest; clean is closed under all the constructions; escapes are a prefix code; per type by composition.
- **C101** field texts occur in struct texts; unescaped characters are printed as they are.
- **C102** Model/DebugPretty: the derived Debug of every type in alternate mode (PadAdapter indentation, one entry per line). Proof: indentation can be undone (unpad), entries end with a comma and a line end, so every text can be read back. Theorems C102_error, C102_v4, C102_v5, C102_v4_packet, C102_v5_packet, C102_properties, C102_password.
- **C103** Model/Trace: the reader once more in a monad that also collects printed lines; dbg! panics if standard error does not work. Relation to the main model by running the first three steps (header, identifier, print); accepted packets through C60; streams by induction on Spec/Output.FeedT; the reader called directly (`C103_v5_direct_output`) from its first three steps.
- **C104** from the exact characterisations of check (C03, C61): a length field has at most four bytes, so two such streams have the same header and bodies of equal length.
- **C105** from the exact acceptance grammars (C31, C60): substitute the field in the grammar's decomposition of the body.
- **C106** from the exact effect of write (C91): the announced length does not depend on these fields, and the identifier occupies two bytes.
- **C107** exact writers (C91) compose with the exact acceptance and rejection grammars of the other version (C31, C60, C61, C62); one case per packet type; relation in Spec/Cross.lean.
- **C108** from C89 (matches on arbitrary strings); for existence the wildcards are filled in with a word of the wanted length.
- **C109** Model/UsizeFrame: framing once more on W-bit numbers with checked or wrapping operations; loop invariant len < 2^shift; read as a whole with C83.
- **C110** Props/TopicParts: induction over the levels; C110_concat by appending level lists.
- **C111** Props/SizeLimit: every successful write is one frame with minimal length (C92); arithmetic on the size of the length field; C66, C06.
- **C112** Spec/Chain (Hop, Hops), Props/Chain: induction over the chain; one hop from C32's analysis, a beginning of the canonical property list is canonical, the longest readable beginning is kept by every hop.
- **C113** Spec/Torn, Props/Torn: exact bytes of every failed write (C91), framing (C03, C09, C10); the forged message is the encoding of another packet.
- **C114** Props/Stripped: the exact effect of the absolute flags index (C91) rewritten as a denotation of the frame without will and login (C03 grammar).
- **C115** Spec/Essence says what the bytes tell; Proof/Essence and Essence5 cancel the fields of the encodings one after the other (fixed-size integers, length-prefixed strings, property sections, option bytes); Props/SameBytes combines with the exact effect of write (C91).
- **C116** Spec/Route builds the decision and the copies from the library's functions; Props/Route combines the exact description of matches (C47, C89), the description of what is decoded (read_ok_iff, C57, C65) and the round trips (read_encode); in v5 the copy arrives iff it is written so that it reads back (C98).
- **C117** Spec/Overlap defines the common part of two lists of levels as a relation. Props/Overlap proves by induction over it that it is matched by exactly what both match (from C89's exact description of matches), that it exists whenever a topic matches both, that it is a valid filter, and with C108 that it matches a topic name.
- **C118** Spec/Size counts the bytes from the fields alone; Props/Size proves the counts equal to the lengths of the encodings, field by field and property by property, uses the exact effect of write (C91), and computes the range of the size function; each size that occurs is taken by a PUBLISH.
- **C119** An enumeration of candidate filters by recursion on the levels; proved without repetition, of that length, and equal to the set of valid matching filters through C89 (exact behaviour of matches) and the exact behaviour of valid_filter.
- **C120** Spec/Dual defines the look and the server; Props/Dual uses the exact acceptance theorems C31 and C60 (the body of every accepted CONNECT starts with the protocol name and level), C79/C80 for peers, the round trips for the crate's clients, C03 for waiting.
- **C121** Spec/Received is the table (`received`), with `cut` for the counting of subscription identifiers and `upTo` for the client that stops. Props/Received combines the exact writer (C91), the exact decoders (C31/C60 for what is accepted, C61/C62 for what is refused) and the essence of C115; streams by induction over the packets and chunk independence (`feed_chunks`).
- **C122** Spec/Pieces lists the texts and byte strings of a packet field by field and says what it means that they lie in a byte string one after the other without overlap (`Inside`, `Among`). Props/Pieces proves it from the exact acceptance theorems C31 and C60; for properties from `PropSet.sub` (the decoded set is part of the properties read).
- **C123** Spec/Schedule: events and `Scheduled`, the outcomes of a schedule (with `Skim`, `RawFrame`, `Outcome` of C99). Props/Schedule: each call takes a frame or nothing (C03, C09/C10); by induction over the schedule the consumed frames' outcomes followed by those of reading the rest are the outcomes of reading everything at once; agreement from the determinacy of the latter (C99).
- **C124** Props/TopicUnion: the topic with a fresh level for every '+' is matched by a filter only if the filter covers (`any_of_fill`); a filter p/# stands for all p/+/.../+; a filter that matches more levels than it has ends in '#' and goes on matching (`any_longer`). On strings by the exact description of `matches` (C89).
- **C125** Spec/Agree, Props/Agree: one call takes a frame or nothing, by C09/C10; a frame has one outcome in each version (C78); if both grammars (C31, C60) accept a body, prefixes and packet ids can be cancelled. The schedule by induction.
- **C126** Spec/Strict, Props/Strict: the frame's bytes are compared with the encoding (C24) part by part: first byte, variable byte integer (C01), body by the grammar of C31.
- **C127** Spec/Strict5, Proof/Strict5, Props/Strict5: the grammar of C60 with a strict grammar of property sections; a list in the order of its table is the list of the set it becomes, and the other way round.
- **C128** Spec/Gateway (when two packets say the same), Props/Gateway: what a reader returns fits and is meaningful (C57's grammar), the counterpart's body is compared with the frame's body field by field; C17/C41 round trips of the other version.
- **C129** Props/PatchProps: exact writing (C91) of two property lists that differ in one property of fixed size; whether a property list is torn, fits or reads back does not depend on that value (induction on the list); C98.
- **C130** Spec/WillPublish (the message), Props/WillPublish: what is read fits (C57); the properties of the message are among those of the will, so that they fit, read back and are not longer; C17/C35 round trips.
- **C131** Spec/Answer (which packet answers which), Props/Answer: induction on the filters for the number of codes; field lengths of the request's grammar; round trips of the answers.
- **C132** Spec/Tag (the packet with one more user property), Props/Tag: inserting one property into the property list of each packet keeps it fitting, not empty and readable; then the round trip C34.
- **C133** Spec/Split (parts and mergers), Props/Split: lengths of sublists and appended lists, then the round trip.
- **C134** Spec/Mount (names below a mount point, packets), Props/Mount: the levels of `m/t` are those of m and t; induction on the levels of m; length of the moved packets, then the round trip.

## 3. Trusted base

* Lean's kernel.
* Axioms: each theorem depends on a subset of `propext`, `Classical.choice`, `Quot.sound`, and on nothing else
  (no own axioms, no `native_decide`, no `bv_decide`, no unfinished proofs). By `#print axioms`, of the 471 theorems
  listed in MANIFEST.json, these need fewer than all three; the others depend on all three:
  * no axiom at all: C94_w_points
  * only `propext`: C109_header_release, C109_sixteen_bits, C120_version_stable, C128_there_and_back, C133_v4_answers, C133_v5_answers, C43_packet_type, C50_length_prefix_wraps, C54_v4_login_validate, C56_v4_subscribe_builder, C56_v4_subscribe_new_many, C56_v5_subscribe_builder, C67_client_deterministic, C72_drop_duplicate, C76_subscribe_debug_ambiguous, C77_qos_order
  * only `propext`, `Quot.sound`: C106_v4_flags, C106_v4_pkid, C109_length, C115_v4_overlong_collides, C120_version_place, C121_v4_essence_write, C24_v4_connect_wire_format, C24_v4_wire_format, C25_v4_connect_count, C25_v4_write_count, C26_v4_append_only, C26_v4_connect_exact, C26_v4_connect_overwrites, C26_v4_connect_write, C26_v5_connect_overwrites, C27_v4_torn_publish, C27_v5_torn_publish, C28_v4_write_pkid, C40_v5_connack_none, C42_readable_of_one, C43_qos, C43_v4_connect_return, C43_v4_subscribe_reason, C43_v5_connect_return, C43_v5_disconnect_reason, C43_v5_property, C43_v5_puback_reason, C43_v5_pubcomp_reason, C43_v5_pubrec_reason, C43_v5_pubrel_reason, C43_v5_subscribe_reason, C43_v5_unsuback_reason, C56_v4_publish_new_pkid, C63_v4_filter_len, C63_v5_filter_len, C63_v5_properties_len, C68_same_wire, C79_v5_property_tables, C85_write_length, C87_v4_write_flags, C87_v5_write_flags, C88_v4_write_uniform, C88_v5_write_uniform, C91_overlong, C91_v4_connect_exact, C91_v4_connect_into, C91_v4_write_exact, C96_release_witness, C96_v4, C96_v4_release, C96_v4_write, C96_v4_write_panic, C96_v4_written
* The faithfulness of the model to /repo, definition by definition, as cited in each definition's comment.
* The reading of the `bytes` crate's and `std`'s documented behaviour in `Model/Base` and `Model/Topic`
  (`str::split`, `char_indices`-free slicing `topic[..1]`, `Iterator` methods).
* `String::from_utf8` accepting exactly the byte strings of Unicode's table 3-7, as documented (that the model's
  `fromUtf8` does is C94).
* Every `match` on integers, `as` cast and wrap-around is modelled with fixed-width `UIntN`; `usize` as said in 1.

Modelled: `src/lib.rs`, `src/topic.rs`, all of `src/v4/` and `src/v5/` except what is listed as not modelled in 1.

## 4. Disagreements between the code and the intuitive properties

Where the code does not do what a user would expect, the property is stated as what the code does (positive part as
an exact characterisation, plus a proved witness of the deviation).

| id | deviation (all proved) |
|---|---|
| C12, C14 | `v5::read` can return InsufficientBytes(1) *after* consuming a complete frame |
| C15, C26 | `Connect::write` (v4, v5) writes its flags at an absolute buffer index: corrupts a non-empty buffer |
| C25 | `Connect::write` returns the remaining length, not the bytes written |
| C27 | failed writes leave a torn packet in the buffer |
| C32, C42, C52 | v5 subscription identifiers are counted one byte too many: properties leak into the payload |
| C33, C121 | v5 CONNECT with protocol level 4 is written with property sections, read without; its client identifier comes back empty |
| C34, C40 | v5 CONNACK without properties lacks the property length byte and cannot be read |
| C37, C56 | v5 `UnsubAck::new` cannot be read back |
| C39, C40 | v5 DISCONNECT without properties cannot be read; with an empty property set its reason code is not written |
| C42 | the last property of a section may extend beyond the declared section length |
| C47 | `matches` panics when the topic starts with a non-ASCII character |
| C49 | `$`-topics match no filter at all, not even their own |
| C50 | fields longer than 65535 bytes are written with a truncated length |
| C64 | v4 `Unsubscribe::read` underflows when given a header that does not match the bytes (not reachable through `v4::read`) |
| C68 | `v4::read` accepts a v5 CONNECT but reports an empty client id |
| C69 | `matches("#", "+/#")` is false although every topic matching the one matches the other |
| C72 | v5: a single-valued property that occurs twice (a protocol error in MQTT 5) is accepted, the last one wins |
| C79, C80 | a password that is not UTF-8 (legal binary data) is refused in both versions; AUTH is not supported |
| C82 | relaying a v5 PUBLISH with several subscription identifiers twice loses one; a relayed CONNACK without properties is unreadable |
| C83 | the underflow of C64 is a panic in debug builds only; in release builds an error |
| C57 | hence some decoded v5 packets do not survive re-encoding |
| C94 | strings containing U+0000, which MQTT forbids, are accepted |
| C108 | `valid_filter` accepts dead filters such as "a+/b", which no topic name matches |
| C109 | with a 16-bit `usize` an announced length of 65536 is framed as 0 |
| C96 | packets of 2^W bytes or more (W-bit `usize`): lengths overflow, a panic in debug builds, wrap-around in release builds |
| C101, C102 | the Debug text of a CONNECT packet contains the password |
| C103 | decoding a v5 UNSUBSCRIBE prints to standard error, and panics if that fails |

| C117 | no overlap test: `a/+` and `+/b` overlap in `a/b`, but `matches` is false in both orders |
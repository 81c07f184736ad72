{"id": "C01", "title": "Remaining-length encoding round-trips through framing", "statement": "For every body length n up to 268435455, the length bytes a packet writer emits after the first byte are the minimal 1-4 byte MQTT variable byte integer of n, and `check` on a stream starting with such a header reports exactly n as remaining length (frame length = 1 + number of length bytes + n).", "quantifier": "all n in 0..=268435455, all first bytes, all continuations of the stream", "why_tests_cant": "2^28 lengths times all continuations; boundaries 127/128, 16383/16384, 2097151/2097152 only sample it", "anchors": ["src/lib.rs: write_remaining_length, len_len, length, check, FixedHeader::frame_length"]}
{"id": "C02", "title": "Oversized packets are refused by every writer, and only those", "statement": "Whenever the remaining length of a packet exceeds 268435455 (or, v5, a subscription identifier does), the writer returns PayloadTooLong - or PacketIdZero if the packet is also a QoS>0 publish with pkid 0 - and a writer never returns PayloadTooLong for a packet that fits.", "quantifier": "all packets of all types, v4 and v5", "why_tests_cant": "needs 256 MB packets of every shape; the boundary depends on sums of arbitrary field lengths", "anchors": ["src/lib.rs: write_remaining_length", "src/v4/*.rs: write", "src/v5/*.rs: write"]}
{"id": "C03", "title": "check accepts exactly the streams that start with a complete frame", "statement": "`check(stream,max)` succeeds iff the stream starts with a byte, a 1-4 byte variable byte integer with value n <= max, and at least n further bytes; it then reports that byte, that header length and n. Every other stream gives an error, and which error is determined by the stream: too short, malformed length, limit exceeded.", "quantifier": "all byte streams, all max_packet_size", "why_tests_cant": "infinite set of streams", "anchors": ["src/lib.rs: check, parse_fixed_header, length"]}
{"id": "C04", "title": "InsufficientBytes(n) is a sound lower bound", "statement": "If `check` returns InsufficientBytes(n) then n >= 1 and appending any fewer than n bytes still returns InsufficientBytes, so waiting for n bytes never over-waits past a decodable packet.", "quantifier": "all streams, all suffixes, all limits", "why_tests_cant": "quantifies over every partial stream and every continuation", "anchors": ["src/lib.rs: check, parse_fixed_header, length, Error::InsufficientBytes"]}
{"id": "C05", "title": "Framing verdicts are stable when more bytes arrive", "statement": "If `check` on a stream returns a fixed header, MalformedRemainingLength or PayloadSizeLimitExceeded, then it returns the same verdict on every extension of the stream.", "quantifier": "all streams, all extensions, all limits", "why_tests_cant": "quantifies over every continuation", "anchors": ["src/lib.rs: check"]}
{"id": "C06", "title": "Size limit is enforced before payload arrives", "statement": "`read` never returns a packet whose remaining length exceeds max_size; as soon as the fixed header of such a packet is present (payload absent) it reports PayloadSizeLimitExceeded and leaves the stream untouched.", "quantifier": "all streams, all limits, v4 and v5", "why_tests_cant": "all attacker-chosen headers", "anchors": ["src/lib.rs: check", "src/v4/mod.rs: read", "src/v5/mod.rs: read"]}
{"id": "C07", "title": "v4 decoding never panics and always terminates", "statement": "`v4::read` on any byte stream with any size limit returns Ok or Err: no slice/advance/split out of range, no integer underflow, no endless loop.", "quantifier": "all byte streams, all limits", "why_tests_cant": "fuzzing samples; the claim is about every malformed frame", "anchors": ["src/v4/mod.rs: read", "src/v4/*.rs: *::read", "src/lib.rs: read_mqtt_bytes, read_mqtt_string, read_u8, read_u16"]}
{"id": "C08", "title": "v5 decoding never panics and always terminates", "statement": "`v5::read` on any byte stream with any size limit returns Ok or Err: no slice/advance out of range, no integer overflow or underflow (on >=32-bit usize), and the property loops terminate even when the declared property length lies.", "quantifier": "all byte streams, all limits", "why_tests_cant": "fuzzing samples; property lists are unbounded", "anchors": ["src/v5/mod.rs: read", "src/v5/*.rs: *::read, *Properties::read, *Properties::extract"]}
{"id": "C09", "title": "v4 read consumes exactly one frame or nothing, independent of what follows", "statement": "If framing succeeds, `v4::read` removes exactly frame_length bytes (also when the content is bad) and its result depends only on those bytes; if framing fails it removes nothing.", "quantifier": "all streams, all trailing bytes, all limits", "why_tests_cant": "every frame times every following data", "anchors": ["src/v4/mod.rs: read"]}
{"id": "C10", "title": "v5 read consumes exactly one frame or nothing, independent of what follows", "statement": "Same as C09 for `v5::read`.", "quantifier": "all streams, all trailing bytes, all limits", "why_tests_cant": "every frame times every following data", "anchors": ["src/v5/mod.rs: read"]}
{"id": "C11", "title": "v4: InsufficientBytes means nothing was consumed", "statement": "When `v4::read` returns InsufficientBytes the stream is unchanged and really does not hold a complete frame, so the caller can append bytes and retry without losing data.", "quantifier": "all streams, all limits", "why_tests_cant": "all partial frames", "anchors": ["src/v4/mod.rs: read", "src/lib.rs: check"]}
{"id": "C12", "title": "v5: what InsufficientBytes means for the stream", "statement": "When `v5::read` returns InsufficientBytes(n), either the stream is unchanged and really holds no complete frame within the limit, or n = 1 and exactly one complete frame was removed; so waiting for more bytes is right iff the stream is unchanged. (The naive claim `nothing was consumed` is false: a CONNACK frame without property length is removed and InsufficientBytes(1) returned.)", "quantifier": "all streams, all limits", "why_tests_cant": "all partial frames and all complete frames with truncated property lengths", "anchors": ["src/v5/mod.rs: read", "src/lib.rs: length", "src/v5/*.rs: extract"]}
{"id": "C13", "title": "v4 decoding is independent of how the network splits the stream", "statement": "Feeding a byte stream in any chunks and calling `v4::read` until InsufficientBytes after each chunk yields the same packets, the same final error and the same leftover as feeding it all at once.", "quantifier": "all streams, all partitions into chunks, all limits", "why_tests_cant": "exponentially many partitions of unbounded streams", "anchors": ["src/v4/mod.rs: read", "src/lib.rs: check", "tests/smoke.rs"]}
{"id": "C14", "title": "v5 decoding is independent of how the network splits the stream", "statement": "A client that appends each chunk and calls `v5::read` until it reports InsufficientBytes with the buffer unchanged gets, for every way of splitting the bytes into chunks, the same packets, the same final error and the same leftover, and there is exactly one such outcome. (For a client that waits on every InsufficientBytes this is false: witness proved.)", "quantifier": "all streams, all partitions, all limits", "why_tests_cant": "exponentially many partitions of unbounded streams", "anchors": ["src/v5/mod.rs: read", "src/lib.rs: check, length"]}
{"id": "C15", "title": "v4: packets written back to back are read back in order", "statement": "Writing any sequence of well-formed v4 packets, each to its own buffer, and reading the concatenation until it is empty returns exactly that sequence with nothing left over; the same holds for one shared buffer if CONNECT occurs only first. (With a CONNECT written later into the shared buffer it is false: witness proved.)", "quantifier": "all finite sequences of well-formed packets", "why_tests_cant": "unbounded sequences, all packet contents", "anchors": ["src/v4/mod.rs: read", "src/v4/*.rs: write"]}
{"id": "C16", "title": "v5: packets written back to back are read back in order", "statement": "As C15 for v5, for sequences of well-formed packets that individually read back (C32-C34, C39 say which do not: CONNACK without properties, DISCONNECT without properties, CONNECT with protocol level 4, PUBLISH with many subscription identifiers).", "quantifier": "all finite sequences of well-formed packets", "why_tests_cant": "unbounded sequences, all packet contents", "anchors": ["src/v5/mod.rs: read", "src/v5/*.rs: write"]}
{"id": "C17", "title": "v4 PUBLISH round-trips", "statement": "Every v4 Publish with topic at most 65535 bytes, a non-zero pkid exactly when QoS>0, and fitting the size limit is decoded back unchanged from its written bytes.", "quantifier": "all dup/qos/retain/topic/pkid/payload", "why_tests_cant": "unbounded field contents (strings, payloads, lists); tests fix one sample each", "anchors": ["src/v4/publish.rs: Publish::read, Publish::write, Publish::len"]}
{"id": "C18", "title": "v4 CONNECT round-trips", "statement": "Every v4 Connect (any keep alive, client id, clean flag, optional will, optional login that is not entirely empty) written to an empty buffer is decoded back unchanged.", "quantifier": "all Connect values with string fields <= 65535 bytes", "why_tests_cant": "unbounded field contents (strings, payloads, lists); tests fix one sample each", "anchors": ["src/v4/connect.rs: Connect, LastWill, Login"]}
{"id": "C19", "title": "v4 CONNACK round-trips", "statement": "Every v4 ConnAck is decoded back unchanged.", "quantifier": "all session flags and return codes, all following bytes", "why_tests_cant": "unbounded field contents (strings, payloads, lists); tests fix one sample each", "anchors": ["src/v4/connack.rs"]}
{"id": "C20", "title": "v4 PUBACK, PUBREC, PUBREL, PUBCOMP, UNSUBACK round-trip", "statement": "Each of these packets with any pkid is decoded back unchanged, as the same packet kind.", "quantifier": "all 65536 packet ids, five packet kinds, all following bytes", "why_tests_cant": "unbounded field contents (strings, payloads, lists); tests fix one sample each", "anchors": ["src/v4/puback.rs", "src/v4/pubrec.rs", "src/v4/pubrel.rs", "src/v4/pubcomp.rs", "src/v4/unsuback.rs"]}
{"id": "C21", "title": "v4 SUBSCRIBE and UNSUBSCRIBE round-trip", "statement": "Every v4 Subscribe with at least one filter, and every Unsubscribe with any number of topics, is decoded back unchanged (same filters, same order); a Subscribe without filters is written but every read of it fails with EmptySubscription.", "quantifier": "all filter lists of any length", "why_tests_cant": "unbounded field contents (strings, payloads, lists); tests fix one sample each", "anchors": ["src/v4/subscribe.rs", "src/v4/unsubscribe.rs"]}
{"id": "C22", "title": "v4 SUBACK round-trips", "statement": "Every v4 SubAck with at least one return code is decoded back unchanged.", "quantifier": "all return code lists of any length", "why_tests_cant": "unbounded field contents (strings, payloads, lists); tests fix one sample each", "anchors": ["src/v4/suback.rs"]}
{"id": "C23", "title": "PINGREQ, PINGRESP and v4 DISCONNECT round-trip", "statement": "The bytes written for PingReq, PingResp (v4, v5) and Disconnect (v4) are read back as that packet whatever follows in the stream.", "quantifier": "all following bytes, all limits", "why_tests_cant": "all following bytes", "anchors": ["src/v4/ping.rs", "src/v4/disconnect.rs", "src/v5/ping.rs", "src/v4/mod.rs: read", "src/v5/mod.rs: read"]}
{"id": "C24", "title": "v4 writers emit the MQTT 3.1.1 wire format", "statement": "For every well-formed v4 packet the emitted bytes are exactly those MQTT 3.1.1 prescribes: type and flag bits, minimal remaining length equal to the body size, big-endian integers, length-prefixed UTF-8, fields in order.", "quantifier": "all well-formed v4 packets", "why_tests_cant": "a symmetric bug in reader and writer passes round-trip tests; samples cover few shapes", "anchors": ["src/v4/*.rs: write, len"]}
{"id": "C25", "title": "What write returns", "statement": "Every successful write of a packet other than CONNECT returns exactly the number of bytes it added to the buffer. A successful CONNECT write returns its remaining length, i.e. 1 + (1 to 4) less than the number of bytes added.", "quantifier": "all packets v4 and v5", "why_tests_cant": "sizes depend on all field lengths", "anchors": ["src/v4/*.rs: write", "src/v5/*.rs: write"]}
{"id": "C26", "title": "write only appends (CONNECT: except one byte at a fixed index)", "statement": "A write of a packet other than CONNECT, successful or not, leaves all bytes already in the buffer unchanged. A CONNECT write appends its encoding but puts the connect flags at an index counted from the start of the buffer (8 + number of length bytes, at most 12) instead of from the start of the packet: so it is right for an empty buffer, and overwrites an old byte whenever the buffer held more bytes than that index.", "quantifier": "all packets, all prior buffer contents", "why_tests_cant": "all prior buffer contents", "anchors": ["src/v4/*.rs: write", "src/v5/*.rs: write"]}
{"id": "C27", "title": "What a failed write leaves behind", "statement": "If write returns an error the old content of the buffer is intact but at least one byte of the torn packet has been appended - always, for every packet kind - so a caller must truncate the buffer to its old length.", "quantifier": "all packets, all buffers", "why_tests_cant": "all packets that fail", "anchors": ["src/v4/*.rs: write", "src/v5/*.rs: write"]}
{"id": "C28", "title": "Packet id 0 is never accepted for QoS 1/2 publishes", "statement": "No publish with QoS>0 and pkid 0 is ever successfully written or read (v4, v5), and a QoS 0 publish is always read with pkid 0.", "quantifier": "all publishes and all byte streams", "why_tests_cant": "all streams", "anchors": ["src/v4/publish.rs", "src/v5/publish.rs"]}
{"id": "C29", "title": "v4 decoded packets can always be re-encoded without loss", "statement": "Any packet obtained from `v4::read` can be written again successfully and the written bytes decode to the same packet (decoding yields only well-formed packets).", "quantifier": "all byte streams accepted by v4::read", "why_tests_cant": "all accepted streams, including non-canonical encodings", "anchors": ["src/v4/mod.rs: read", "src/v4/*.rs"]}
{"id": "C30", "title": "Encoding is injective", "statement": "Two different well-formed v4 packets never have the same bytes, and no encoding is a proper prefix of another's; the same for the well-formed v5 packets that read back.", "quantifier": "all pairs of well-formed packets", "why_tests_cant": "pairs of unbounded packets", "anchors": ["src/v4/*.rs: write"]}
{"id": "C31", "title": "v4 accepted frames are exactly the MQTT 3.1.1 frames (with listed tolerances)", "statement": "`v4::read` returns packet p iff the stream starts with a first byte of p's type, a 1-4 byte remaining length equal to the body size and within the limit, and a body that denotes p by the MQTT 3.1.1 grammar, where the only tolerances are: non-minimal remaining length, ignored reserved flag bits, bytes after the last field of CONNECT/CONNACK/PUBACK/PUBREC/PUBREL/PUBCOMP/PINGREQ/PINGRESP/DISCONNECT, ignored upper bits of subscription options, announced but empty user name and password counting as no login. What follows the frame is left.", "quantifier": "all accepted streams", "why_tests_cant": "all accepted streams", "anchors": ["src/v4/mod.rs: read", "src/v4/*.rs: read"]}
{"id": "C32", "title": "v5 PUBLISH round-trips", "statement": "Every well-formed v5 Publish is written to any buffer and is read back unchanged iff its subscription identifiers do not make the decoder stop early: with a content type, fewer than 3 + length of the content type identifiers; without, at most 1 + (encoded size of the last identifier) identifiers (so up to two are always safe). Otherwise it is read, without error, as a publish that lacks some of the last properties and has their bytes in front of the payload.", "quantifier": "all publishes including property combinations", "why_tests_cant": "unbounded field contents (strings, payloads, lists); tests fix one sample each", "anchors": ["src/v5/publish.rs: PublishProperties::extract, write, len"]}
{"id": "C33", "title": "v5 CONNECT round-trips", "statement": "Every well-formed v5 Connect (properties, will with properties, login not entirely empty) written to an empty buffer is read back unchanged iff its protocol level is 5 or everything after the keep alive is empty.", "quantifier": "all Connect values with string fields <= 65535 bytes", "why_tests_cant": "unbounded field contents (strings, payloads, lists); tests fix one sample each", "anchors": ["src/v5/connect.rs"]}
{"id": "C34", "title": "v5 CONNACK round-trips", "statement": "Every v5 ConnAck with a non-empty property set is decoded back unchanged; with an empty set it is decoded with none; without properties the written bytes make `v5::read` remove the frame and return InsufficientBytes(1).", "quantifier": "all ConnAck values", "why_tests_cant": "unbounded field contents (strings, payloads, lists); tests fix one sample each", "anchors": ["src/v5/connack.rs"]}
{"id": "C35", "title": "v5 PUBACK, PUBREC, PUBREL, PUBCOMP round-trip", "statement": "Every such packet with any pkid, any reason and properties (if present, a non-empty set with every field encodable, the packet fitting 268435455 bytes) is decoded back unchanged.", "quantifier": "all values", "why_tests_cant": "unbounded field contents (strings, payloads, lists); tests fix one sample each", "anchors": ["src/v5/puback.rs", "src/v5/pubrec.rs", "src/v5/pubrel.rs", "src/v5/pubcomp.rs"]}
{"id": "C36", "title": "v5 SUBSCRIBE round-trips", "statement": "Every v5 Subscribe (any number of filters with all options, subscription identifier, user properties; paths and property fields of at most 65535 bytes, a property set that is present not empty, the packet fitting 268435455 bytes) is decoded back unchanged.", "quantifier": "all filter lists and properties", "why_tests_cant": "unbounded field contents (strings, payloads, lists); tests fix one sample each", "anchors": ["src/v5/subscribe.rs"]}
{"id": "C37", "title": "v5 SUBACK and UNSUBACK round-trip", "statement": "Every v5 SubAck/UnsubAck with at least one code is decoded back unchanged; with no code (also UnsubAck::new) it is written but reading it fails with MalformedPacket.", "quantifier": "all code lists and properties", "why_tests_cant": "unbounded field contents (strings, payloads, lists); tests fix one sample each", "anchors": ["src/v5/suback.rs", "src/v5/unsuback.rs"]}
{"id": "C38", "title": "v5 UNSUBSCRIBE round-trips", "statement": "Every v5 Unsubscribe (any number of filters; filters and property fields of at most 65535 bytes, a property set that is present not empty, the packet fitting 268435455 bytes) is decoded back unchanged.", "quantifier": "all filter lists and user properties", "why_tests_cant": "unbounded field contents (strings, payloads, lists); tests fix one sample each", "anchors": ["src/v5/unsubscribe.rs"]}
{"id": "C39", "title": "v5 DISCONNECT round-trips", "statement": "Every v5 Disconnect with a non-empty property set is decoded back unchanged. With normal reason and no properties, or with an empty property set, it is written as E0 00, which `v5::read` refuses with PayloadRequired; with another reason and no properties `v5::read` removes the frame and returns InsufficientBytes(1).", "quantifier": "all reason codes and properties", "why_tests_cant": "unbounded field contents (strings, payloads, lists); tests fix one sample each", "anchors": ["src/v5/disconnect.rs", "src/v5/mod.rs: read"]}
{"id": "C40", "title": "v5 writers emit the MQTT 5 wire format", "statement": "For every well-formed v5 packet the emitted bytes are exactly the MQTT 5 layout: type/flags, minimal remaining length equal to body size, property length equal to the size of the property section, each property as id followed by its value, fields in order (CONNECT: into an empty buffer). Exceptions, exactly: CONNACK without properties lacks the property length byte, DISCONNECT with an empty property set lacks its reason code.", "quantifier": "all well-formed v5 packets", "why_tests_cant": "a symmetric bug in reader and writer passes round-trip tests", "anchors": ["src/v5/*.rs: write, len"]}
{"id": "C41", "title": "v5 property sections reject foreign properties", "statement": "A property section containing, at the position the decoder reaches, an identifier that is unknown or not allowed for that packet type makes the read fail with InvalidPropertyType of that identifier.", "quantifier": "all packets, all 256 identifiers, all positions after any valid properties", "why_tests_cant": "combinations of unbounded property lists", "anchors": ["src/v5/mod.rs: property", "src/v5/*.rs: extract/read"]}
{"id": "C42", "title": "v5 property sections: where they end", "statement": "A frame whose sections have exactly their declared length and that has at most one subscription identifier per section (more generally, is not miscounted) is decoded as the packet it denotes by the standard. In general the decoder stops after the first property at which its count (bytes, plus one extra per subscription identifier) reaches the declared length: without subscription identifiers it never takes fewer bytes than declared, and takes exactly the declared number iff that ends at a property boundary. (So a lying length lets the last property swallow following fields, and three identifiers can leave property bytes in the payload: witnesses proved.)", "quantifier": "all property sections", "why_tests_cant": "all malformed sections", "anchors": ["src/v5/*.rs: extract/read"]}
{"id": "C43", "title": "Reason/return code tables are faithful", "statement": "For every code type (v4/v5 connect return, subscribe reason, puback..pubcomp, unsuback, disconnect, qos, property id, packet type) the byte-to-value mapping accepts exactly the listed bytes and is the inverse of the value-to-byte mapping.", "quantifier": "all 256 bytes, all enum values of 13 tables", "why_tests_cant": "tests never cover all tables", "anchors": ["src/v5/connack.rs: connect_return", "src/v5/*.rs: reason", "src/v5/disconnect.rs: TryFrom<u8>", "src/lib.rs: qos, packet_type"]}
{"id": "C44", "title": "Topic matching implements MQTT wildcard semantics", "statement": "For every valid filter and wildcard-free topic not starting with '$', whenever matches(topic,filter) returns, it is true iff the filter matches level by level: a literal level matches itself, '+' matches exactly one level, a final '#' matches any number of remaining levels including none.", "quantifier": "all topics and filters of any depth", "why_tests_cant": "unbounded depth and alphabet", "anchors": ["src/topic.rs: matches"]}
{"id": "C45", "title": "valid_filter accepts exactly filters with '#' alone in the last level", "statement": "valid_filter(f) is true iff f is non-empty and '#' occurs at most as the whole last level.", "quantifier": "all strings", "why_tests_cant": "all strings", "anchors": ["src/topic.rs: valid_filter"]}
{"id": "C46", "title": "valid_topic and has_wildcards are exact and complementary", "statement": "valid_topic(t) is true iff t contains neither '+' nor '#', and has_wildcards is its negation.", "quantifier": "all strings", "why_tests_cant": "all strings", "anchors": ["src/topic.rs: valid_topic, has_wildcards"]}
{"id": "C47", "title": "When topic matching panics", "statement": "matches(topic, filter) returns a boolean for all strings except those whose topic starts with a non-ASCII character, for which it always panics.", "quantifier": "all pairs of strings", "why_tests_cant": "all Unicode strings", "anchors": ["src/topic.rs: matches"]}
{"id": "C48", "title": "Filter-to-filter matching is sound", "statement": "If matches(f1,f2) and matches(t,f1) then matches(t,f2): a subscription covered by another never receives a topic the other does not.", "quantifier": "all topics and filters", "why_tests_cant": "triples of unbounded strings", "anchors": ["src/topic.rs: matches"]}
{"id": "C49", "title": "'$' topics are isolated from wildcards", "statement": "A topic starting with '$' matches no filter at all: in particular none that starts with a wildcard, but (against MQTT 4.7.2) not its own literal filter either.", "quantifier": "all topics and filters", "why_tests_cant": "all strings", "anchors": ["src/topic.rs: matches"]}
{"id": "C50", "title": "Over-long strings: what is written", "statement": "A string or binary field longer than 65535 bytes is never refused: its two-byte length holds the length modulo 65536 and all its bytes follow. So (as long as the whole packet fits) the write succeeds, and e.g. a QoS 0 v4 publish with a topic of 65536 bytes is read, without error, as a publish to the empty topic whose payload starts with the topic.", "quantifier": "all packets with over-long fields", "why_tests_cant": "field lengths are unbounded", "anchors": ["src/lib.rs: write_mqtt_bytes, write_mqtt_string"]}
{"id": "C51", "title": "Strings read from the wire are valid UTF-8 and bounded", "statement": "Every string in a decoded packet is exactly the bytes of its field, is valid UTF-8 and at most 65535 bytes; a field that is not valid UTF-8 makes the read fail with TopicNotUtf8, and a length prefix that exceeds the frame gives BoundaryCrossed.", "quantifier": "all frames", "why_tests_cant": "all byte strings", "anchors": ["src/lib.rs: read_mqtt_string, read_mqtt_bytes"]}
{"id": "C52", "title": "v5 property order does not matter", "statement": "Reordering the properties inside a section (keeping the relative order of repeated ones) does not change the outcome of the read - the same packet or the same error - for all frames with exact section lengths that are not miscounted (at most one subscription identifier, or more generally as in C42). With three subscription identifiers order does matter (witness proved).", "quantifier": "all property lists and permutations", "why_tests_cant": "factorially many orders", "anchors": ["src/v5/*.rs: extract/read"]}
{"id": "C53", "title": "Unknown packet types are skipped whole", "statement": "A complete frame of reserved type 0 or 15 makes read return InvalidPacketType with that type and removes exactly the frame.", "quantifier": "all frames, v4 and v5", "why_tests_cant": "all frames", "anchors": ["src/lib.rs: FixedHeader::packet_type", "src/v4/mod.rs: read", "src/v5/mod.rs: read"]}
{"id": "C54", "title": "v4 Login::validate compares both fields", "statement": "Login::validate(u,p) is true iff username = u and password = p.", "quantifier": "all strings", "why_tests_cant": "all strings", "anchors": ["src/v4/connect.rs: Login::validate"]}
{"id": "C55", "title": "Inconsistent will flags are rejected", "statement": "A v4 or v5 CONNECT with will flag 0 but will QoS or will retain bits set is rejected with IncorrectPacketFormat; one with will flag 1 and will QoS 3 is rejected with InvalidQoS(3), whatever follows the (well-formed) fields up to the will message; exactly the frame is consumed. v5 decoding does the same with CONNECT packets of protocol level 4.", "quantifier": "all connect packets", "why_tests_cant": "all flag bytes with all payloads", "anchors": ["src/v4/connect.rs: LastWill::read", "src/v5/connect.rs: LastWill::read"]}
{"id": "C56", "title": "Packet builders produce writable packets with documented defaults", "statement": "Publish::new/from_bytes, Subscribe::new/new_many/add, the v5 filter setters, Unsubscribe::new, Connect::new/set_login, ConnAck::new, PubAck::new ...: once written (with the packet id set where QoS demands one), the peer decodes exactly the given arguments and the documented defaults; v4 Subscribe::new_many rejects exactly the empty list and otherwise preserves order; a QoS>0 Publish::new or from_bytes without a packet id cannot be written; an Unsubscribe::new without one is decoded with 0; filters made by v4 SubscribeFilter::new are decoded with their path and QoS. LastWill::new, Login::new and SubAck::new carry exactly their arguments; v5 Subscribe::new_many accepts (and the server decodes) any list, even the empty one; ConnAckProperties::new is decoded as no properties. v5 exceptions: what ConnAck::new, UnsubAck::new and Disconnect::new write is not accepted by v5::read; the v5 constructors whose bare result is not readable (ConnAck::new, UnsubAck::new, Disconnect::new) decode to exactly their arguments and defaults once a property section (and, for UnsubAck, reasons) is filled in.", "quantifier": "all arguments", "why_tests_cant": "all arguments", "anchors": ["src/v4/*.rs: new*", "src/v5/*.rs: new*"]}
{"id": "C57", "title": "When v5 decoded packets can be re-encoded without loss", "statement": "Any packet obtained from `v5::read` has only encodable fields, and its body is at most 4 bytes longer than the bytes it was read from (the sharp bound is C65); unless that makes it outgrow 268435455 it can be written, and the written bytes decode to the same packet iff it is not one of: CONNACK without properties, DISCONNECT without properties, CONNECT with level 4 and something after the keep alive, PUBLISH with miscounted subscription identifiers.", "quantifier": "all streams accepted by v5::read", "why_tests_cant": "all accepted streams", "anchors": ["src/v5/mod.rs: read", "src/v5/*.rs"]}
{"id": "C58", "title": "Writers never panic or loop", "statement": "Writing any v4 or v5 packet into any buffer returns Ok or Err.", "quantifier": "all packets (well-formed or not) of all types, all buffers", "why_tests_cant": "infinite set of packets and buffer states", "anchors": ["src/v4/*.rs: write", "src/v5/*.rs: write", "src/lib.rs: write_remaining_length"]}
{"id": "C59", "title": "A topic matches itself and '#'", "statement": "Every non-empty wildcard-free topic that starts with an ASCII character other than '$' matches itself as filter, and matches '#'.", "quantifier": "all such strings", "why_tests_cant": "infinite set of strings", "anchors": ["src/topic.rs: matches"]}
{"id": "C60", "title": "v5 accepted frames are exactly the MQTT 5 frames (with listed deviations)", "statement": "`v5::read` returns packet p iff the stream starts with a first byte of p's type, a 1-4 byte remaining length equal to the body size and within the limit, and a body that denotes p by the MQTT 5 grammar with the tolerances and deviations listed in the specification (property sections as in C42). What follows the frame is left.", "quantifier": "all streams, all limits, all packets", "why_tests_cant": "infinite set of streams; acceptance depends on nested variable-length sections", "anchors": ["src/v5/mod.rs: read", "src/v5/*.rs: read, extract_properties"]}
{"id": "C61", "title": "v4 rejection is exact: which error, for which stream", "statement": "`v4::read` reports error e iff either the stream does not start with a complete frame within the size limit for the reason e (nothing is removed), or it starts with a complete frame whose first byte and body are rejected for the reason e (exactly that frame is removed); the reasons are the first thing wrong in field order (missing bytes, length beyond the frame, invalid UTF-8, unknown code, reserved QoS 3, packet id zero, wrong protocol, no filters, ...). Every frame denotes exactly one packet or has exactly one reason, never both.", "quantifier": "all byte streams, all limits, all errors", "why_tests_cant": "infinitely many malformed streams; a test can only show the error of a sample", "anchors": ["src/v4/mod.rs: read", "src/v4/*.rs: read", "src/lib.rs: check, read_mqtt_bytes, read_mqtt_string, read_u8, read_u16"]}
{"id": "C62", "title": "v5 rejection is exact: which error, for which stream", "statement": "`v5::read` reports error e iff either the stream does not start with a complete frame within the size limit for the reason e (nothing is removed), or it starts with a complete frame whose first byte and body are rejected for the reason e (exactly that frame is removed); the reasons are the first thing wrong in the body in reading order (missing field, string crossing the end, invalid UTF-8, unknown code, unknown or forbidden property, ...). Every frame is accepted as exactly one packet or rejected for exactly one reason.", "quantifier": "all byte streams, limits and errors", "why_tests_cant": "an equivalence over all byte strings and error values", "anchors": ["src/v5/mod.rs: read", "src/v5/*.rs: read, extract", "src/lib.rs: check, property"]}
{"id": "C63", "title": "len() predicts write()", "statement": "For every packet type with a public `len()` (v4 and v5 Connect, Publish, Subscribe, SubAck, v5 Unsubscribe, UnsubAck) and every packet, whatever is already in the buffer: if len() exceeds 268435455, write() fails with PayloadTooLong; if write() succeeds, exactly len() bytes follow the fixed header, and the fixed header is one byte plus len() as variable byte integer. The property sets' `len()` is the size of their encoded properties; `SubscribeFilter::len` is the size of one filter.", "quantifier": "all packets (also with over-long fields and packet id 0), all buffers", "why_tests_cant": "an equation over all packets; len and write are separate code that must stay in step in every combination of optional fields", "anchors": ["src/v4/{connect,publish,subscribe,suback}.rs: len, write", "src/v5/*.rs: len, write"]}
{"id": "C64", "title": "Packet readers called directly: exact panic conditions", "statement": "Each packet's own `read(fixed_header, bytes)` and each property set's `extract(bytes)` returns a packet or an error, never loops, and panics exactly when: bytes is shorter than the header length given (Publish: and the QoS bits are not 3; v4 UnsubAck: and the remaining length given is 2); v4 Unsubscribe also panics when the remaining length given is less than 2 or ends inside a topic filter it has read. `extract` never panics. v5 `Disconnect::read` accepts an empty DISCONNECT.", "quantifier": "all fixed headers (consistent with the bytes or not), all byte strings of any length", "why_tests_cant": "all byte strings and all headers; the non-panicking claim is universal", "anchors": ["src/v4/*.rs: read", "src/v5/*.rs: read, extract", "src/lib.rs: FixedHeader::new"]}
{"id": "C65", "title": "A decoded packet is not larger than its bytes", "statement": "The v4 encoding of a packet which `v4::read` returned is not longer than the bytes consumed for it, and its remaining length is within the size limit given. For v5 the body of a decoded packet is at most 4 bytes longer than the frame body it came from (a bound that is attained), and not longer at all when the property sections have their declared length and it is not a CONNECT of level 4. So decoding cannot amplify the size of untrusted input.", "quantifier": "all byte streams and limits", "why_tests_cant": "a bound over all inputs, including malformed and non-minimally encoded ones", "anchors": ["src/v4/mod.rs: read", "src/v5/mod.rs: read", "src/v5/*.rs: extract"]}
{"id": "C66", "title": "The size limit only gates", "statement": "Raising the size limit given to read() from m to m' changes its outcome (result and remaining stream) only for streams whose fixed header announces more than m bytes; there the outcome with m is PayloadSizeLimitExceeded with the announced length and an untouched stream. So what is accepted with one limit is accepted as the same packet with every larger one.", "quantifier": "all byte streams, all pairs of limits, both versions", "why_tests_cant": "relates two runs over all streams and limits", "anchors": ["src/lib.rs: check", "src/v4/mod.rs: read", "src/v5/mod.rs: read"]}
{"id": "C67", "title": "A blocking client that fetches what InsufficientBytes asks for", "statement": "A client that starts with an empty buffer, calls read(), and on InsufficientBytes(n) fetches exactly n bytes more, never fetches a byte beyond the frame, terminates after at most six calls (length bytes + 1, + 1 if the body is not empty), and gets the result read() gives on that frame alone, with nothing left in the buffer. Over-limit and malformed headers are reported having fetched only the header. The run is unique.", "quantifier": "all networks (infinite continuations of any frame), all frames, all limits, both versions", "why_tests_cant": "a property of an interaction over all streams and packet sizes", "anchors": ["src/lib.rs: check, parse_fixed_header", "src/v4/mod.rs: read", "src/v5/mod.rs: read"]}
{"id": "C68", "title": "Packets of one version read by the other", "statement": "If v4::read accepts a CONNECT written by the v5 codec, it yields a CONNECT with the right protocol version, keep alive and clean-session flag (so a broker can detect v5), but an empty client id when there are no properties, will or login and the client id is shorter than 256 bytes. If v5::read accepts a protocol-V4 CONNECT written by the v4 codec, it has the right version, keep alive, clean flag and client id and no properties; without a will it always accepts it and reads every field. Publish acknowledgements with Success and no properties, pings and plain DISCONNECT are the same bytes in both versions.", "quantifier": "all CONNECT packets whose fields fit, all packet ids, all limits and trailing bytes", "why_tests_cant": "ranges over all field values", "anchors": ["src/v4/connect.rs: Connect::read", "src/v5/connect.rs: Connect::read", "src/v5/puback.rs: PubAck::write", "src/v5/disconnect.rs: Disconnect::write"]}
{"id": "C69", "title": "Comparing two filters decides whether one subscription covers the other", "statement": "For valid filters f1, f2 (f1 using '+' only as a whole level and starting with an ASCII character other than '$'): every topic that matches f1 also matches f2 if and only if matches(f1, f2), with exactly one exception: '+/#' covers '#' but matches('#','+/#') is false.", "quantifier": "all pairs of filters, and for each all topics", "why_tests_cant": "an equivalence with a universally quantified side over unbounded strings", "anchors": ["src/topic.rs: matches"]}
{"id": "C70", "title": "End to end: sender, network, client", "statement": "Write any list of well-formed packets (version 5: of those that read back at all, C98) one after another into one stream; let any prefix of that stream reach a client in any chunks. The client delivers exactly the packets that arrived completely, in order and equal to the ones sent, reports no error, keeps exactly the bytes of the incomplete packet buffered, and when everything has arrived it has delivered everything and its buffer is empty.", "quantifier": "all lists of well-formed packets, all splits of the stream into chunks, all arrival prefixes, all size limits that admit the packets", "why_tests_cant": "ranges over all packet histories and all network schedules", "anchors": ["src/v4/mod.rs: read", "src/v5/mod.rs: read", "src/v4/*: write", "src/v5/*: write", "src/lib.rs: check"]}
{"id": "C71", "title": "A client's buffer is bounded by the size limit", "statement": "However the peer behaves, after the client has processed what it received without an error at most max_size + 4 bytes remain buffered, and whenever read asks for n more bytes (leaving the buffer alone), the buffered bytes plus n are at most max_size + 5.", "quantifier": "all byte streams, all chunkings, all limits", "why_tests_cant": "a bound over all adversarial peers", "anchors": ["src/lib.rs: check, length", "src/v4/mod.rs: read", "src/v5/mod.rs: read"]}
{"id": "C72", "title": "Repeated v5 properties: the last one wins", "statement": "v5::read accepts a packet whose property section repeats a single-valued property (a protocol error in MQTT 5): it yields the same packet as any section in which every repeatable property has the same occurrences in the same order and every other property has the same last occurrence. (Both sections must be ones in which the reader's miscount of subscription identifiers, C32, does no harm.) Removing an earlier duplicate never changes the packet.", "quantifier": "all frames and all pairs of property sections", "why_tests_cant": "ranges over all property lists", "anchors": ["src/v5/*: extract", "src/v5/connect.rs: ConnectProperties::extract, WillProperties::extract", "src/v5/publish.rs: PublishProperties::extract"]}
{"id": "C73", "title": "Property sections parsed directly", "statement": "The extract function of each v5 property set, called on any buffer, returns a set and leaves a rest exactly when the buffer is a property section denoting that set followed by that rest, and fails with exactly the error of the first thing wrong in reading order; it always does one of the two.", "quantifier": "all buffers up to the protocol's maximum length, all eight property tables", "why_tests_cant": "an exact characterisation over all byte strings", "anchors": ["src/v5/*: extract", "src/v5/connect.rs: ConnectProperties::read, WillProperties::read"]}
{"id": "C74", "title": "Packets' own read functions, exactly", "statement": "Calling a packet type's own read with a header of the right fixed length returns a packet exactly when the body denotes it and fails exactly with the error of the first thing wrong in the body. All but UNSUBSCRIBE/UNSUBACK (v4), the four publish acknowledgements and DISCONNECT (v5) ignore the remaining length in the header, all but v5 DISCONNECT ignore the packet type in it, and only PUBLISH and v5 DISCONNECT look at the flags.", "quantifier": "all headers, all bodies up to the protocol's maximum", "why_tests_cant": "an exact characterisation over all headers and bodies", "anchors": ["src/v4/*: read", "src/v5/*: read"]}
{"id": "C75", "title": "Different errors have different texts", "statement": "The Debug and Display texts of two errors are equal only if the errors are equal, so an error can be told from its logged text, including its argument.", "quantifier": "all pairs of errors, with all argument values", "why_tests_cant": "ranges over all pairs of errors with unbounded arguments", "anchors": ["src/lib.rs: Error, impl Display for Error"]}
{"id": "C76", "title": "What the Debug texts of PUBLISH and of subscription filters reveal", "statement": "The Debug text of a PUBLISH is the same for two packets exactly when topic, QoS, retain flag and packet id are the same and the payloads have the same size: payload contents, dup flag and properties are never shown. The Debug text of a subscription filter determines the filter. That of a SUBSCRIBE always determines the packet id, and, if no path contains a comma, the filters and their order (v5 properties are never shown); with commas in paths it does not determine the filters.", "quantifier": "all pairs of packets", "why_tests_cant": "non-interference and injectivity over all strings", "anchors": ["src/v4/publish.rs: Debug for Publish", "src/v5/publish.rs: Debug for Publish", "src/v4/subscribe.rs: Debug for SubscribeFilter", "src/v5/subscribe.rs: Debug for SubscribeFilter"]}
{"id": "C77", "title": "QoS levels compare like their wire numbers", "statement": "partial_cmp of two QoS values is that of their numbers on the wire, and <, <=, >, >= hold exactly when they hold for these numbers; a <= b and b <= a hold together only for equal levels.", "quantifier": "all pairs of QoS levels (the whole domain)", "why_tests_cant": "relates the declaration order to the wire encoding for the whole domain", "anchors": ["src/lib.rs: QoS"]}
{"id": "C78", "title": "A bad packet does not affect its neighbours", "statement": "On a stream of complete frames, good and bad, a client that reads on after errors gets exactly one outcome per frame, in order, each determined by that frame alone: the packet the frame denotes or the error it is rejected with; nothing is left in the buffer.", "quantifier": "all sequences of frames within the size limit", "why_tests_cant": "ranges over all sequences of arbitrary frames", "anchors": ["src/v4/mod.rs: read", "src/v5/mod.rs: read"]}
{"id": "C79", "title": "MQTT 5 peers: what is made of every conforming packet", "statement": "Whatever control packet a conforming MQTT 5 peer sends (properties of table 2-4 in any order, optional reason codes and property lengths left out, binary passwords, AUTH), v5::read returns the packet it means and removes exactly its bytes, except: a CONNECT whose password is not UTF-8, a DISCONNECT without reason code or property length and AUTH are refused, each with a definite error; a PUBLISH with several subscription identifiers may be split at the wrong place, its last properties becoming payload.", "quantifier": "all conforming MQTT 5 control packets, all size limits that admit them, all following bytes", "why_tests_cant": "ranges over everything a conforming peer may send", "anchors": ["src/v5/mod.rs: read", "src/v5/*.rs: read and properties extract functions"]}
{"id": "C80", "title": "MQTT 3.1.1 peers: what is made of every conforming packet", "statement": "Whatever control packet a conforming MQTT 3.1.1 peer sends, v4::read returns the packet it means and removes exactly its bytes; the only exception is a CONNECT whose password is not UTF-8, which is refused.", "quantifier": "all conforming MQTT 3.1.1 control packets, all size limits that admit them, all following bytes", "why_tests_cant": "ranges over everything a conforming peer may send", "anchors": ["src/v4/mod.rs: read", "src/v4/*.rs: read"]}
{"id": "C81", "title": "What is sent is conforming", "statement": "The bytes written for a well-formed packet value are those of a conforming control packet with the same content; a v5 CONNACK without properties, a v5 CONNECT with protocol level 4 and a v4 CONNECT with protocol level 5 produce bytes that no conforming packet of that version has.", "quantifier": "all well-formed packet values of both versions", "why_tests_cant": "ranges over all packet values", "anchors": ["src/v4/*.rs: write", "src/v5/*.rs: write"]}
{"id": "C82", "title": "A relay passes conforming packets on unchanged in meaning", "statement": "If a conforming control packet is read and the resulting packet value is written again into an empty buffer, the emitted bytes are again a conforming control packet that says the same: MQTT 3.1.1: byte for byte the same, except that a present but empty user name or password is left out; MQTT 5: same content, every property kept with its value and with the order among properties of one identifier, not longer. Exceptions are exact: MQTT 5 CONNACK without properties is re-emitted in a non-conforming form, and a PUBLISH with several subscription identifiers may be misread at the next hop.", "quantifier": "every conforming packet of both versions, every property order and multiplicity, every size limit that admits it, every following stream", "why_tests_cant": "Ranges over all property lists in all orders, all texts and payloads; tests only relay a few fixed packets", "anchors": ["src/v4/mod.rs: read", "src/v5/mod.rs: read", "src/v4/*.rs: write", "src/v5/*.rs: read, write"]}
{"id": "C83", "title": "Release builds behave like debug builds", "statement": "Decoding contains usize additions and subtractions that panic on overflow in debug builds and wrap around in release builds. For every stream and size limit v4::read and v5::read return the same result and leave the same buffer in both kinds of build, for usize of 32 or more bits. v4 Unsubscribe::read called directly with a mismatching header, which panics by underflow in debug builds, returns an error (never a packet, never a panic) in release builds, and agrees everywhere else. The v5 packet readers called directly agree for every header and every bytes.", "quantifier": "every byte stream, every limit, every usize width of at least 32 bits; for direct calls every header and buffer", "why_tests_cant": "Tests run in one build profile on one platform and cannot show that no input reaches a wrapping operation", "anchors": ["src/v4/unsubscribe.rs: Unsubscribe::read", "src/v5/*.rs: property loops", "src/v4/mod.rs: read", "src/v5/mod.rs: read"]}
{"id": "C84", "title": "A truncated packet is never taken for anything else", "statement": "Cut a complete control packet within the size limit at any point before its end: both decoders report that more bytes are needed, ask for at least one and for at most as many as are actually missing, and leave the buffer untouched, whatever the packet contains. In particular this holds for every proper prefix of the bytes of every packet that is written successfully, whatever its fields.", "quantifier": "every frame (first byte, length encoding, body), every cut point, every limit that admits the body; every successfully written packet of both versions", "why_tests_cant": "Ranges over all packets and all cut points; tests cut a few samples", "anchors": ["src/lib.rs: check, parse_fixed_header", "src/v4/mod.rs: read", "src/v5/mod.rs: read", "src/v4/*.rs: write", "src/v5/*.rs: write"]}
{"id": "C85", "title": "Decoding and encoding work is bounded by the bytes at hand", "statement": "Every loop of the decoders (topic filters, return codes, property sections of every packet type) takes at most one turn per byte left in the buffer, whatever the bytes and whatever section length they announce; writing a length takes at most four turns. No announced length can make the decoder loop longer than the data.", "quantifier": "every byte string, every announced length, every decoding loop of both versions", "why_tests_cant": "An adversarial announced length or byte string could always be the one not tried; only an induction covers all", "anchors": ["src/v4/subscribe.rs, suback.rs, unsubscribe.rs: read", "src/v5/*.rs: extract, read", "src/lib.rs: write_remaining_length"]}
{"id": "C86", "title": "A buffer shared by a producer and a consumer is a FIFO queue of packets", "statement": "A program writes packets into one buffer and reads packets from the same buffer in any interleaving, cutting the buffer back to its previous length whenever a write returns an error. Then it sees exactly what it would see with a first-in-first-out queue of packets: accepted writes enter the queue, refused writes change nothing, reads return the oldest packet, a read from an empty queue asks for more bytes, nothing is lost, duplicated or reordered, and the buffer always holds exactly the encodings of the waiting packets. CONNECT must be written into an empty buffer; MQTT 5: packets of the kinds that read back (C32-C39).", "quantifier": "every finite schedule of writes and reads, every packet including refused ones, every size limit that admits the accepted packets", "why_tests_cant": "Ranges over all interleavings and packet histories; a test runs a few schedules", "anchors": ["src/v4/mod.rs: read", "src/v5/mod.rs: read", "src/v4/*.rs: write", "src/v5/*.rs: write"]}
{"id": "C87", "title": "The flag bits of the first byte", "statement": "Setting DUP or RETAIN of a PUBLISH changes only the first byte of what is written, nothing else and not the outcome. When reading, a stream whose first byte is replaced by another of the same packet type (and QoS, for PUBLISH) gives the same packet, with DUP and RETAIN of the new first byte if it is a PUBLISH, or the same error, and leaves the same rest: reserved bits are ignored, except in v5 DISCONNECT, whose first byte must not change.", "quantifier": "all PUBLISH packets, flag values and buffers; all byte streams, limits and pairs of first bytes of one type", "why_tests_cant": "relates two runs on every packet and every stream, including malformed ones", "anchors": ["src/v4/publish.rs: write, read", "src/v5/publish.rs: write, read", "src/v4/mod.rs: read", "src/v5/mod.rs: read", "src/v5/disconnect.rs: read"]}
{"id": "C88", "title": "What a writer appends depends on the packet only", "statement": "For every packet other than CONNECT, including those that are refused or cannot be encoded properly, the bytes `write` appends and the value it returns are the same whatever the buffer holds. For CONNECT this fails (C26).", "quantifier": "all packets except CONNECT, all buffer contents", "why_tests_cant": "all buffer contents, all packets including over-long ones", "anchors": ["src/v4/*.rs: write", "src/v5/*.rs: write", "src/lib.rs: write_remaining_length"]}
{"id": "C89", "title": "matches on arbitrary strings; generalising a filter loses nothing", "statement": "For any two strings, valid or not, `matches(topic, filter)` is true iff the topic starts neither with '$' nor a non-ASCII character and the levels match, where everything after a level '#' of the filter is ignored and a level '#' of the topic is matched by '#' only. Hence replacing a level (other than '#') of a filter by '+', or any last levels by '#', loses no message, and a common non-wildcard first level in front of topic and filter changes nothing.", "quantifier": "all pairs of strings", "why_tests_cant": "all strings of any length and number of levels, including invalid filters", "anchors": ["src/topic.rs: matches"]}
{"id": "C90", "title": "Readers that look at the announced length, for every announced length", "statement": "The packets whose own read consults the remaining length of the FixedHeader it is given return and fail exactly as follows for EVERY header: v5 PubAck/PubRec/PubRel/PubComp::read with announced length 2 take only the packet identifier (reason Success, whatever follows), with 0, 1 or 3 a packet identifier and a reason code (no properties), with 4 or more also a property section - failing for a missing identifier, a missing or unknown code, or a bad section; v5 Disconnect::read checks type (InvalidPacketType) and reserved bits (MalformedPacket) first, takes announced length 0 as a normal disconnection and otherwise reason code and properties; v4 Unsubscribe::read returns topics exactly when identifier and leading topics make up the announced length, ignoring what follows, and fails for a malformed string before that; v4 UnsubAck::read refuses every announced length but 2.", "quantifier": "every header (first byte, header length, announced remaining length, matching the body or not) and every body up to 268435455 bytes", "why_tests_cant": "announced length and body vary independently: an unbounded product of lengths and byte strings", "anchors": ["src/v5/puback.rs PubAck::read", "src/v5/pubrec.rs PubRec::read", "src/v5/pubrel.rs PubRel::read", "src/v5/pubcomp.rs PubComp::read", "src/v5/disconnect.rs Disconnect::read", "src/v4/unsubscribe.rs Unsubscribe::read", "src/v4/unsuback.rs UnsubAck::read"]}
{"id": "C91", "title": "Exact effect of write for every packet", "statement": "For every v4 and v5 packet - well-formed, refused, or with fields too long for their two-byte length - and every buffer, write returns one given result and appends one given byte string: nothing else in the buffer changes (CONNECT excepted, whose exact effect on any buffer is also given). The remaining length is checked first (PayloadTooLong, leaving only the first byte), then the packet identifier of a QoS>0 publish (PacketIdZero, leaving header and topic), then subscription identifiers above 268435455 (PayloadTooLong, leaving everything before the value); those are the only errors. Over-long strings are written with their length modulo 65536 followed by all their bytes.", "quantifier": "all packets of all types without any well-formedness condition, all prior buffer contents", "why_tests_cant": "an unbounded family of packets including those of hundreds of megabytes and their failure points", "anchors": ["src/lib.rs: write_remaining_length, write_mqtt_bytes, write_mqtt_string", "src/v4/*.rs: write", "src/v5/*.rs: write"]}
{"id": "C92", "title": "A badly encoded packet damages only itself", "statement": "Any sequence of packets each of which was written successfully - also packets with over-long strings, or ones the reader does not accept - is read back as exactly as many outcomes (packets or errors, determined uniquely) with nothing left over, and exactly those packets of the sequence that are well-formed (v5: and not among the listed unreadable ones, see C98) are read back unchanged, whatever their neighbours are.", "quantifier": "all sequences of packets without well-formedness condition, all size limits of at least 268435455", "why_tests_cant": "unbounded sequences mixing arbitrary packets, including fields of any length", "anchors": ["src/lib.rs: write_mqtt_bytes, check", "src/v4/mod.rs: read", "src/v5/mod.rs: read", "src/v4/*.rs: write", "src/v5/*.rs: write"]}
{"id": "C93", "title": "The errors each entry point can report, exactly", "statement": "For check, v4::read, v5::read and the v4 and v5 writers, an error value is reported for some input if and only if it is in a given list - including which byte or size the error carries: e.g. v5::read never reports EmptySubscription, PayloadSizeIncorrect, SubscriptionIdZero, NotConnect, UnexpectedConnect, InvalidReason or PayloadTooLong; InvalidQoS always carries 3, InvalidPacketType 0 or 15, InvalidPropertyType anything but 38, InsufficientBytes 1 to 268435455; writers report only PayloadTooLong and PacketIdZero. With a given size limit, the errors that leave the buffer as it was are exactly: MalformedRemainingLength, PayloadSizeLimitExceeded(n) with limit < n <= 268435455, and InsufficientBytes(n) with n = 1, n = 2 or n up to the limit (at most 268435455).", "quantifier": "all error values (with all payloads) on one side, all byte streams, limits and packets on the other", "why_tests_cant": "that an error is never reported is a statement about all inputs", "anchors": ["src/lib.rs: Error, check", "src/v4/mod.rs: read", "src/v5/mod.rs: read", "src/v4/*.rs", "src/v5/*.rs"]}
{"id": "C94", "title": "Which bytes are text: exactly Unicode's well-formed UTF-8", "statement": "A string field is accepted iff its bytes are well-formed UTF-8 in the sense of Unicode's table 3-7 (no overlong forms, no surrogates, nothing above 10FFFF), and the string obtained has exactly the code points of table 3-6: every sequence of scalar values, U+0000 included although MQTT forbids it, has exactly one accepted encoding. A PUBLISH with any topic bytes is accepted with that topic or refused as TopicNotUtf8, the frame being consumed; and TopicNotUtf8 is reported only for a frame holding a two-byte length followed by that many ill-formed bytes.", "quantifier": "all byte strings used as string fields, all streams and limits", "why_tests_cant": "all byte strings of up to 65535 bytes; that the error has no other cause is a statement about all streams", "anchors": ["src/lib.rs: read_mqtt_string, Error::TopicNotUtf8", "src/v4/publish.rs: read", "src/v5/publish.rs: read", "src/v4/mod.rs: read", "src/v5/mod.rs: read"]}
{"id": "C95", "title": "A filter is determined by the topics it matches", "statement": "Two valid filters that match each other are equal. Two valid filters ('+' used only as a whole level, first character ASCII and not '$') match exactly the same topics if and only if they are equal or one is '#' and the other '+/#': so no two different filters, but those, are interchangeable as subscriptions.", "quantifier": "all pairs of filters, and for each all topics", "why_tests_cant": "that two filters differ on some topic, for every pair of different filters, is a statement about unboundedly many strings", "anchors": ["src/topic.rs: matches, valid_filter"]}
{"id": "C96", "title": "Writers on machine integers: overflow only for packets too long to write", "statement": "On a machine whose usize has W bits, in a build with overflow checks, the length computation at the start of every `write` (with all its intermediate sums) yields exactly the number of body bytes the packet is announced with, if that number is below 2^W, and panics otherwise; v5 DISCONNECT without a body yields 2. For W at least 28 it therefore panics only for packets that are too long to be written anyway. The whole of `write`, in debug and in release builds, behaves for W at least 29 as with unbounded integers (C91) whenever the announced length is below 2^W; if it is not, debug builds panic, and release builds announce (v4) the length modulo 2^W, so that a PUBLISH with 2^W-2 bytes of payload is written successfully as a packet of length zero.", "quantifier": "all v4 and v5 packets, of any size; all word sizes W; debug and release builds; any buffer written to", "why_tests_cant": "the packets concerned have more than 2^32 or 2^64 bytes; and that no intermediate sum is larger than the final one is a statement about all packets", "anchors": ["src/v4/*.rs: len, write", "src/v5/*.rs: len, write", "src/lib.rs: len_len"]}
{"id": "C97", "title": "Frame headers are totally ordered, within a packet type by size", "statement": "Comparing two FixedHeaders always gives an answer: equal iff they are the same header, antisymmetric and transitive. For the headers `check` reports for two frames with the same first byte and minimal length bytes (as every writer emits them) the comparison is that of the remaining lengths, and that of the whole frame lengths; with padded length bytes it is not (witness).", "quantifier": "all triples of headers; all pairs of frames with equal first byte, all following bytes, all limits", "why_tests_cant": "the comparison must agree with the sizes for all pairs of lengths up to 268435455, across the boundaries where the number of length bytes changes", "anchors": ["src/lib.rs: FixedHeader (derived PartialOrd), check"]}
{"id": "C98", "title": "Exactly which packets survive writing and reading", "statement": "A v4 packet that is written into an empty buffer and read back, with any limit and whatever follows, comes back unchanged exactly if its text and binary fields have at most 65535 bytes, a PUBLISH has a packet id exactly when its QoS is not 0, SUBSCRIBE and SUBACK are not empty, a login is not entirely empty, and it is not too long to be written. A v5 packet: exactly if the like holds (SUBSCRIBE may be empty, UNSUBACK not; a present property set is not empty; subscription identifiers encodable) and it is none of CONNACK or DISCONNECT without properties, CONNECT with level 4 and something after the keep alive, PUBLISH with miscounted subscription identifiers (C32). The last exception in detail: somewhere in the list of subscription identifiers at least as many of them come before as bytes (of identifiers and of the content type, written last) come after; it never occurs with at most two identifiers, and without content type and with one-byte identifiers always from three on.", "quantifier": "all v4 and v5 packets without any condition; all limits; all following bytes", "why_tests_cant": "the 'only if' part says that no other packet is ever reproduced, and the 'if' part that none of the infinitely many others is lost", "anchors": ["src/v4/mod.rs: read, Packet", "src/v5/mod.rs: read", "src/v4/*.rs: write", "src/v5/*.rs: write"]}
{"id": "C99", "title": "Any buffer whatsoever is read in exactly one way", "statement": "Whatever bytes a buffer holds, a client that calls read until a call consumes nothing always gets to that point, with one definite list of outcomes and one definite rest: the buffer is cut into frames from the left, each frame gives one outcome determined by that frame alone (the packet it denotes or the error it is rejected with), and the rest does not start with a complete frame within the limit. There is at most one outcome per two bytes.", "quantifier": "all byte strings (garbage included), all size limits, both versions", "why_tests_cant": "holds for every byte string of every length; garbage cannot be enumerated", "anchors": ["src/v4/mod.rs: read", "src/v5/mod.rs: read", "src/lib.rs: check"]}
{"id": "C100", "title": "Derived Debug texts determine the value", "statement": "`format!(\"{:?}\", x)` yields different texts for different values: of every v4 and v5 packet type with a derived Debug (all but PUBLISH and SUBSCRIBE), of the v5 property structs and of FixedHeader. The text of a `Packet` enum determines it up to what the hand-written texts of PUBLISH and SUBSCRIBE leave open (C76). This holds whatever table of escaped characters the standard library uses.", "quantifier": "all pairs of values of these types; every table of escaped characters", "why_tests_cant": "Unambiguity is a statement about all pairs of packets with arbitrary strings and bytes in them, quotes, braces and separators included", "anchors": ["src/v4/*.rs: derive(Debug)", "src/v5/*.rs: derive(Debug)", "src/lib.rs: FixedHeader"]}
{"id": "C101", "title": "Debug texts of CONNECT reveal the password", "statement": "The Debug text of a CONNECT packet with a login (v4 and v5) always contains the password in quoted form, and contains it letter by letter if it consists of characters that are printed as they are; two v4 CONNECT packets with different logins never have the same text. (A user must not log packets with {:?}; compare C76, where PUBLISH payloads never show.)", "quantifier": "all CONNECT packets with any login; every table of escaped characters", "why_tests_cant": "It is a statement about the text of every such packet, whatever the other fields contain", "anchors": ["src/v4/connect.rs: Connect, Login derive(Debug)", "src/v5/connect.rs: Connect, Login derive(Debug)"]}
{"id": "C102", "title": "Pretty Debug texts determine the value too", "statement": "`format!(\"{:#?}\", x)` (the multi-line form, also used by `dbg!`) yields different texts for different values of every error, of every v4 and v5 packet type with a derived Debug, of the v5 property structs and of FixedHeader; the pretty texts of two `Packet`s are equal exactly if their plain texts are, also for PUBLISH and SUBSCRIBE, whose hand-written texts are only indented - even if topics contain line breaks. The pretty text of a CONNECT with a login shows the password as well.", "quantifier": "all pairs of values of these types; every table of escaped characters", "why_tests_cant": "unboundedly many values nested in Option, Vec and structs; that indentation and line breaks inside strings never make two values look alike is a statement about all pairs", "anchors": ["src/lib.rs Error, FixedHeader", "src/v4/*.rs and src/v5/*.rs derive(Debug)", "src/v4/publish.rs impl fmt::Debug", "src/v4/subscribe.rs impl fmt::Debug"]}
{"id": "C103", "title": "What v5 decoding prints to standard error", "statement": "v5::read prints exactly one line to standard error, showing the packet identifier, for every complete UNSUBSCRIBE frame within the size limit that is long enough to have an identifier (also if it then rejects the frame), and prints nothing in all other cases; printing does not change any result. A client that feeds a stream in chunks prints one line per delivered UNSUBSCRIBE, in order and once each, however the stream is cut, and at most one more line, for the frame the stream fails on. If standard error cannot be written, v5::read panics on exactly these frames (elsewhere it never panics). The same holds when v5 Unsubscribe::read is called directly on a caller-supplied header: one line exactly when two bytes follow the fixed header.", "quantifier": "for every byte stream, every size limit, every way of cutting it into chunks, working or broken standard error", "why_tests_cant": "a test sees the output of one stream with a working standard error; the claim that only UNSUBSCRIBE frames print, once each, and the panic with broken standard error, concern all streams", "anchors": ["src/v5/unsubscribe.rs: Unsubscribe::read (dbg!)", "src/v5/mod.rs: read"]}
{"id": "C104", "title": "Framing looks at the length and the first five bytes only", "statement": "The verdict of check depends only on the length of the stream and on its first five bytes (on its first k+1 bytes if the length field has k bytes); so do the answers of v4::read and v5::read while a frame is incomplete or refused by its header, and these leave the buffer as it is. Once the length field has arrived, the number in InsufficientBytes(n) is exact: after k < n further bytes it is n-k, after n or more the frame is accepted by check. So waiting for a large packet in small pieces costs a constant per piece.", "quantifier": "for every two streams of equal length that agree on the first five bytes, every size limit, every continuation", "why_tests_cant": "independence of all the bytes that are not looked at is a statement about pairs of arbitrary streams", "anchors": ["src/lib.rs: check, parse_fixed_header, length", "src/v4/mod.rs: read", "src/v5/mod.rs: read"]}
{"id": "C105", "title": "Topics, payloads and will messages are opaque", "statement": "v4 and v5: the body of every accepted PUBLISH frame is its topic (with length), some bytes, its payload; put any other text of at most 65535 bytes in the place of the topic and any other bytes in the place of the payload (adjusting the remaining length) and read accepts the frame and returns the same packet with just these two fields replaced. Likewise topic and message of the will in every accepted CONNECT. So no byte of the application's data (wildcards, NUL, bytes that look like MQTT packets) influences how a packet is decoded.", "quantifier": "for every accepted stream, every replacement topic and payload (or will topic and message), every encoding of the new remaining length, every limit that admits it, every rest of the stream", "why_tests_cant": "independence of arbitrary payload contents and lengths in every accepted frame, including frames no writer produces", "anchors": ["src/v4/publish.rs: Publish::read", "src/v5/publish.rs: Publish::read, PublishProperties::extract", "src/v4/connect.rs: LastWill::read", "src/v5/connect.rs: LastWill::read"]}
{"id": "C106", "title": "Retransmission: flags and packet identifier can be patched in the encoded packet", "statement": "v4 and v5: writing the same PUBLISH with other duplicate and retain flags gives the same result and the same bytes except for bits 3 and 0 of the first byte, whether the packet is accepted or refused. Writing an accepted packet that carries a packet identifier (PUBLISH with QoS 1 or 2, PUBACK, PUBREC, PUBREL, PUBCOMP, SUBSCRIBE, SUBACK, UNSUBSCRIBE, UNSUBACK) with any other nonzero identifier is accepted too, returns the same count and gives the same bytes except for the two bytes of the identifier, which stay in place.", "quantifier": "for every PUBLISH and every combination of flags; for every accepted packet that carries an identifier and every nonzero identifier; into every buffer", "why_tests_cant": "compares the encodings of all packets that differ in these fields only", "anchors": ["src/v4/publish.rs: Publish::write", "src/v5/publish.rs: Publish::write", "src/v4, src/v5: write of puback, pubrec, pubrel, pubcomp, subscribe, suback, unsubscribe, unsuback"]}
{"id": "C107", "title": "What each codec makes of the other version's packets", "statement": "Every packet accepted by a v5 writer, given to v4::read (with a size limit that admits it), is consumed exactly and answered as follows: CONNECT: an error or a CONNECT with the same version, keep alive and clean flag; CONNACK: success as success, every v5 refusal as InvalidConnectReturnCode of its code; PUBLISH: accepted with the same flags, topic, packet identifier, and a payload that is the encoded property section followed by the payload; PUBACK, PUBREC, PUBREL, PUBCOMP: accepted, the reason code lost; UNSUBACK: PayloadSizeIncorrect; PINGREQ, PINGRESP, DISCONNECT accepted; SUBSCRIBE, SUBACK, UNSUBSCRIBE: an error or the same type and packet identifier, a SUBACK with more codes (one more than filters without properties, each shifted by one). Conversely a packet accepted by a v4 writer, given to v5::read: CONNACK never accepted (InsufficientBytes 1 for success); PUBLISH: an error or the same flags, topic and packet identifier with a start of the payload taken for properties (none left for an empty payload: InsufficientBytes 1); acknowledgements accepted as Success; UNSUBACK InsufficientBytes 1; DISCONNECT PayloadRequired; SUBSCRIBE, SUBACK, UNSUBSCRIBE: an error or the same type and packet identifier.", "quantifier": "for every packet of either version its writer accepts (topic and, for CONNECT, client id at most 65535 bytes), every limit that admits it, every rest of the stream", "why_tests_cant": "ranges over all packets of both versions with all property sets and payloads; it is what a peer using the wrong module observes", "anchors": ["src/v4/mod.rs: read", "src/v5/mod.rs: read", "src/v4/publish.rs: Publish::read", "src/v5/publish.rs: Publish::read", "src/v4/suback.rs: SubAck::read", "src/v5/suback.rs: SubAck::read", "src/v4/connack.rs: ConnAck::read", "src/v5/connack.rs: ConnAck::read"]}
{"id": "C108", "title": "Which topics a filter selects: none, one, or unboundedly many", "statement": "A filter without a level \"+\" or \"#\" matches exactly the topic equal to it (and nothing at all if it starts with '$' or a character outside ASCII). A filter accepted by valid_filter is matched by some non-empty topic name exactly if it does not start with '$' or a character outside ASCII and has no '+' inside a longer level; the others, such as \"a+/b\" or \"$SYS/#\", are accepted by valid_filter but dead. A filter with wildcards that is not dead matches topic names of unbounded length.", "quantifier": "every string as topic, every filter, every bound on the length", "why_tests_cant": "'matches nothing', 'matches nothing else' and 'matches arbitrarily long ones' quantify over all strings", "anchors": ["src/topic.rs: matches, valid_filter, has_wildcards"]}
{"id": "C109", "title": "Framing and reading on machine integers", "statement": "On every machine whose usize has at least 29 bits, in debug and in release builds, check and the decoding of every variable byte integer compute what they compute on unbounded numbers: no addition, subtraction or shift overflows, and the frame length of every header returned is a usize. With at least 32 bits the same holds for v4::read and v5::read as a whole. A header built by hand with FixedHeader::new panics (debug) exactly if remaining_len_len is the largest usize, its frame_length exactly if the total is not a usize; in release builds the total wraps around. With 16 bits framing is wrong: an announced length of 65536 is taken for 0.", "quantifier": "every stream, limit, width of usize, build mode, hand-built header", "why_tests_cant": "overflow depends on all streams and on the width of the platform's integers", "anchors": ["src/lib.rs: check, parse_fixed_header, length, FixedHeader::new, FixedHeader::frame_length", "src/v4/mod.rs: read", "src/v5/mod.rs: read"]}
{"id": "C110", "title": "Matching works level by level", "statement": "`matches` uses level names only to compare them: if the levels of topic and filter are renamed one to one and the wildcards left alone, the answer is the same (neither topic starting with '$' or a non-ASCII character). If topic and filter are cut at the same level, the filter's first part having no '#', they match iff both parts match (parts of the topic not starting with '$' or a non-ASCII character). A filter without a '#' level matches only topics with as many levels as it has; one whose first '#' is level n+1 only topics with at least n levels.", "quantifier": "every topic, filter, renaming of levels, place to cut", "why_tests_cant": "ranges over all strings and all renamings; brokers that intern level names or descend a subscription tree rely on it", "anchors": ["src/topic.rs: matches"]}
{"id": "C111", "title": "The size limit and MQTT 5's Maximum Packet Size", "statement": "The limit given to check/read counts the bytes after the fixed header, a Maximum Packet Size M counts the whole packet. A packet admitted with limit m has at most m+5 bytes in total (attained). With limit M no complete packet of at most M bytes is refused for its size. With the limit limitFor(M) (M less the size of the fixed header, see theorem) a written packet of at most M bytes is treated like with any larger limit, and every written packet of more than M bytes is refused with PayloadSizeLimitExceeded, the stream untouched.", "quantifier": "every packet that can be written, bytes after it, M >= 2, stream", "why_tests_cant": "ranges over all packet sizes including those where the remaining length grows by a byte", "anchors": ["src/lib.rs: check, FixedHeader::frame_length", "src/v4/mod.rs: read", "src/v5/mod.rs: read"]}
{"id": "C112", "title": "Packets sent along a chain of relays", "statement": "Relays read a packet and write it to an empty buffer for the next relay. v4: whatever was once received passes through any chain unchanged (limits permitting). v5: a packet that survives one hop survives any chain; CONNACK and DISCONNECT without properties stop at the first relay; a PUBLISH changes only in that some of its last properties (in writing order) become the beginning of its payload, properties and payload together being conserved byte by byte; properties that are counted right are never lost; after as many relays as it has properties less one, exactly the longest beginning of its properties that is counted right is left and nothing changes any more (five one-byte subscription identifiers: two are left after three relays).", "quantifier": "every packet, every chain length, every list of size limits admitting the packet", "why_tests_cant": "unbounded chains; the number of hops until the packet settles depends on the packet", "anchors": ["src/v5/publish.rs: PublishProperties::extract, Publish::write", "src/v5/mod.rs: read", "src/v4/mod.rs: read"]}
{"id": "C113", "title": "A sender that goes on after a failed write", "statement": "If write fails and the sender nevertheless appends further packets to the same buffer, the receiver is damaged in exactly these ways. A packet that is too long leaves only its first byte; the receiver takes the following byte (if below 128) for a length and loses that many bytes. A PUBLISH refused for packet identifier 0 leaves header and topic; the receiver waits for as many further bytes as the payload (v5: property section and payload) had and consumes exactly these, and if they spell a nonzero identifier (v5: and a property section) it delivers, without any error, a message under this topic whose identifier and payload are bytes of the following packets. A v5 PUBLISH or SUBSCRIBE with a subscription identifier above 268435455 also leaves an incomplete frame that swallows what follows.", "quantifier": "every packet, every buffer, all bytes that follow, every size limit admitting the frame", "why_tests_cant": "ranges over all refused packets and all continuations", "anchors": ["src/v4/publish.rs: Publish::write", "src/v5/publish.rs: Publish::write, PublishProperties::write", "src/v5/subscribe.rs: SubscribeProperties::write", "src/lib.rs: write_remaining_length, check"]}
{"id": "C114", "title": "CONNECT appended to a non-empty buffer loses will and credentials", "statement": "Connect::write into a buffer that already extends past offset 8 plus the size of the length field: it returns Ok, it changes exactly one byte of the earlier contents (the one at that offset, to the connect flags), and the frame it appends is read, whatever follows and for every size limit admitting the frame, without error as a CONNECT that equals the original except that last will and login are absent. In version 5 the properties of the CONNECT itself arrive.", "quantifier": "every v4 CONNECT whose client id and frame fit; every v5 CONNECT whose client id and own properties are encodable and whose frame fits; every earlier buffer content beyond the offset; all bytes that follow", "why_tests_cant": "ranges over all CONNECT packets, all earlier buffer contents and all continuations", "anchors": ["src/v4/connect.rs: Connect::write", "src/v5/connect.rs: Connect::write", "src/v4/mod.rs: read", "src/v5/mod.rs: read"]}
{"id": "C115", "title": "Exactly which packets share their bytes", "statement": "Take two packets that are written successfully and whose length-prefixed fields fit. The bytes of the one followed by anything equal the bytes of the other followed by anything exactly if the continuations are equal and the packets agree in everything except: an entirely empty login counts as no login, the packet identifier of a QoS 0 PUBLISH does not count; and in version 5 an empty property set counts as an absent one in CONNECT, will, PUBLISH, SUBSCRIBE, SUBACK, UNSUBSCRIBE and UNSUBACK, and a DISCONNECT with an empty property set counts as a normal DISCONNECT without properties whatever its reason code. That common essence is also what a receiver gets whenever it is a readable packet. Without the condition on fields the claim fails: a topic whose tail is a multiple of 65536 bytes long is written like the shorter topic with the tail at the front of what follows.", "quantifier": "all pairs of v4 packets and all pairs of v5 packets, all continuations", "why_tests_cant": "ranges over all pairs of packets of every type and all property sets", "anchors": ["src/v4/mod.rs: Packet::write", "src/v5/mod.rs: Packet::write", "src/lib.rs: write_mqtt_bytes", "src/v5/disconnect.rs: Disconnect::write"]}
{"id": "C116", "title": "A broker that routes what it reads", "statement": "Take a SUBSCRIBE and a PUBLISH that were decoded, and a broker that tries the filters in order with matches. The decision panics exactly if there is a filter and the topic starts with a character outside ASCII; otherwise it is positive exactly if one of the filters matches the topic level by level and the topic does not start with '$'. Every copy of the PUBLISH with a QoS not above the original one and a packet identifier exactly where it is needed is written successfully and decoded by any subscriber, with the same topic and payload: in 3.1.1 under the same size limit; in 5.0 under a limit four bytes larger and with the same properties, exactly if the reader does not miscount its subscription identifiers (C98; never with at most two); from 3.1.1 to 5.0 under a limit one byte larger; from 5.0 to 3.1.1 under the same limit, without its properties. So one publisher can make such a broker panic as soon as there is one subscriber.", "quantifier": "all byte sequences decoded as SUBSCRIBE and as PUBLISH, all size limits, all granted QoS levels, packet identifiers and retain flags, all lists of filters", "why_tests_cant": "ranges over all pairs of decoded packets and composes decoding, matching and encoding", "anchors": ["src/topic.rs: matches", "src/v4/mod.rs: read", "src/v5/mod.rs: read", "src/v4/publish.rs: Publish::write", "src/v5/publish.rs: Publish::write"]}
{"id": "C117", "title": "When two subscriptions overlap", "statement": "Two filters accepted by valid_filter both match some topic name exactly if each matches some topic name and their levels agree up to wildcards ('+' with anything, '#' with any rest, other levels with themselves) on more than the empty string. The topics that both match are then exactly the topics matched by one other filter that valid_filter accepts: taking the common part level by level. Comparing the two filters with matches in either order proves an overlap (if the compared filter matches a topic name at all), and for a filter without wildcards it decides it; for two filters with wildcards it can miss one: a/+ and +/b overlap in a/b, and matches says false both ways.", "quantifier": "all pairs of filters and all topics; the description of the common part holds for arbitrary strings", "why_tests_cant": "existence of a common topic ranges over all topics, the equality of the selected sets over all topics and all pairs of filters", "anchors": ["src/topic.rs: matches", "src/topic.rs: valid_filter"]}
{"id": "C118", "title": "How many bytes a packet takes, and which sizes occur", "statement": "If write into an empty buffer succeeds, the number of bytes written is a fixed sum over the packet's fields: one byte, one to four bytes of length, two bytes before each string or binary field, two for a packet identifier, one per code, and in 5.0 each property with its identifier and each section with its length (deviations: no section in a CONNACK without properties, nothing at all of a DISCONNECT with an empty property set). The sizes that occur are exactly: in 3.1.1 2 and everything from 4 to 268435460, in 5.0 everything from 2 to 268435460, in both except 130, 16387 and 2097156, where the length field grows by a byte.", "quantifier": "all packets of both versions; all numbers of bytes", "why_tests_cant": "ranges over all packets, and that a size does not occur is a statement about all of them", "anchors": ["src/lib.rs: write_remaining_length", "src/v4/mod.rs: Packet::write", "src/v5/mod.rs: Packet", "src/v5/publish.rs: PublishProperties::len"]}
{"id": "C119", "title": "How many filters match a topic", "statement": "For every topic name with n levels that does not begin with $ or a non-ASCII character, there are exactly 3*2^n - 1 different strings that valid_filter accepts and that match it, so a broker or client that looks up subscriptions by enumerating candidate filters needs that many lookups and no more.", "quantifier": "all topic names, of any number of levels; all filter strings", "why_tests_cant": "ranges over all topics, and that no other filter matches is a statement about all strings", "anchors": ["src/topic.rs: matches", "src/topic.rs: valid_filter"]}
{"id": "C120", "title": "A server for both versions that looks at the protocol level first", "statement": "A server that looks at the seventh byte after the fixed header of the first packet and calls v4::read if it is 4 and v5::read if it is 5 gives the CONNECT of every conforming MQTT 3.1.1 or 5 peer to the right decoder, with the outcome of C79/C80, and gets every CONNECT of the crate's own clients of either version unchanged; a CONNECT it gets from either decoder is of that decoder's version. Bytes that arrive later do not change the level found, and the server waits only while it has at most eleven bytes and no complete packet. (Without the look, calling either read consumes the CONNECT and may misread it: C68, C107.)", "quantifier": "all streams, all conforming CONNECT packets of both versions, all size limits that admit them, all following bytes", "why_tests_cant": "ranges over all byte streams and all CONNECT packets of two protocol versions", "anchors": ["src/v4/connect.rs: Connect::read", "src/v5/connect.rs: Connect::read", "src/v4/mod.rs: read", "src/v5/mod.rs: read"]}
{"id": "C121", "title": "What comes back of every packet that was written", "statement": "For every packet that Packet::write accepts and whose length-prefixed fields fit (a v5 CONNECT with protocol V5), well-formed or not, reading its bytes has one outcome, given by a short table. v4: a SUBSCRIBE without filters is refused with EmptySubscription, a SUBACK without codes with MalformedPacket; everything else comes back as written except that an entirely empty login comes back as none and the packet identifier of a QoS 0 PUBLISH as 0. v5: a CONNACK without a property set is refused with InsufficientBytes(1), a SUBACK or UNSUBACK without codes with MalformedPacket, a DISCONNECT without properties with PayloadRequired or InsufficientBytes(1); a property set without properties comes back as none; of a PUBLISH the properties that the decoder does not get to, because it counts each subscription identifier one byte too long, come back as the start of the payload; everything else comes back as for v4. So a receiver that reads on after errors gets exactly these outcomes of a whole stream of written packets, one for one, and a client that stops at the first error gets them up to the first refused packet, however the network splits the stream. A v5 CONNECT with protocol level 4 without properties, will and login, and with a client identifier of less than 256 bytes, comes back with an empty client identifier. What the receiver does not see makes no difference to the writer either: writing the packet with and without it has the same result and adds the same bytes, into every buffer, also when the packet is refused.", "quantifier": "all packets that are written successfully with fields of at most 65535 bytes, all lists of them, all splittings into chunks, all size limits that admit them, all following bytes; the last part: all packets and all buffers", "why_tests_cant": "ranges over all packets, all streams of packets and all ways a network can split them", "anchors": ["src/v4/mod.rs: Packet::write, read", "src/v5/mod.rs: Packet::write, read", "src/v5/publish.rs: PublishProperties::read, write", "src/v5/connack.rs: ConnAck::read, write", "src/v5/disconnect.rs: Disconnect::read, write", "src/v4/subscribe.rs: Subscribe::read, write", "src/v4/suback.rs: SubAck::read, write"]}
{"id": "C122", "title": "Texts and payloads of a decoded packet are pieces of its own frame", "statement": "Whatever bytes v4::read or v5::read is given, if it returns a packet then every text and byte string in it (client identifier, topics, filters, user name, password, will message, payload, and in 5.0 the strings and binary data of all properties) is, byte for byte, a contiguous part of the bytes that call took from the buffer; they do not overlap, in 3.1.1 they occur in the order of the fields, in 5.0 up to the order of the properties, and together they are not longer than what was taken. So no data of a packet can come from a neighbouring packet, from an earlier read, or from nowhere.", "quantifier": "all byte streams, all size limits, all packets read", "why_tests_cant": "ranges over all byte streams", "anchors": ["src/lib.rs: read_mqtt_bytes, read_mqtt_string", "src/v4/mod.rs: read", "src/v5/mod.rs: read", "src/v5/publish.rs: PublishProperties::read", "src/v5/connect.rs: ConnectProperties::read, LastWill::read, Login::read"]}
{"id": "C123", "title": "Whatever the schedule, the same packets", "statement": "Bytes arrive in chunks at any moments, and the client calls read at any moments, each call with a size limit of its own (too small, too large, changing). The outcomes of the calls that took something from the buffer, and what is left in it, are determined by the schedule alone: the bytes received are cut into frames from the left, each call takes nothing or exactly one of them, one that is within a limit used; its outcome is the packet it denotes or the error it is rejected with. Two clients that were sent the same bytes have seen the same outcomes except that one may be ahead of the other, and if neither is ahead their buffers are equal. A client that in the end calls often enough has nothing within its limit left and, without a limit, has seen exactly what reading everything at once gives.", "quantifier": "all finite schedules of arrivals and calls, all limits, all bytes (garbage included), both versions", "why_tests_cant": "schedules and histories of limits are unbounded", "anchors": ["src/v4/mod.rs: read", "src/v5/mod.rs: read", "src/lib.rs: check"]}
{"id": "C124", "title": "When a set of subscriptions covers another subscription", "statement": "Take a valid filter (each '+' a level of its own, first character ASCII and not '$') and any list of filters. If the filter has no '#', then every topic that matches it matches one of the list exactly if a single filter of the list covers it, and matches(filter, that one) says so. If it ends in '#', every topic that matches it matches one of the list exactly if this holds for the finitely many filters with 0, 1, ..., N levels '+' in place of the '#', N so large that the result has more levels than any filter of the list; a list can then cover what none of its filters covers ('a/#' by 'a', 'a/+' and 'a/+/+/#').", "quantifier": "all filters, all lists of filters (arbitrary strings), and for each all topics", "why_tests_cant": "an equivalence with a universally quantified side over unbounded strings, for lists of any length", "anchors": ["src/topic.rs: matches"]}
{"id": "C125", "title": "The readers of both versions on the same bytes", "statement": "v4::read and v5::read, called on the same buffer with the same limit, take exactly the same bytes off it. If one takes none, neither does the other, and both give the same error. If both give a packet, the two packets are of the same type and agree: CONNECT in protocol, keep alive, clean session, presence, QoS and retain of the will, and for protocol level 4 also in the client id and without a will in the login; CONNACK in session present, and both report success; PUBLISH in dup, QoS, retain, topic and packet id, the 3.1.1 payload being some non-empty property bytes followed by the 5.0 payload; the acknowledgements, SUBSCRIBE, UNSUBSCRIBE and SUBACK in the packet id, the 5.0 SUBACK having fewer return codes; no bytes are an UNSUBACK of both versions. So for any schedule of arrivals and calls a 3.1.1 and a 5.0 client have the same number of outcomes, pairwise agreeing, and the same bytes left. And a server that chooses the reader anew for every call still cuts the bytes as if it had used one version throughout, each outcome being the one the chosen version gives in its place.", "quantifier": "all buffers, all size limits, all schedules of arrivals and calls", "why_tests_cant": "relates two decoders on every buffer and every schedule", "anchors": ["src/v4/mod.rs: read", "src/v5/mod.rs: read", "src/lib.rs: check"]}
{"id": "C126", "title": "When reading and writing again gives the same bytes (3.1.1)", "statement": "If v4::read takes a frame for a packet, writing that packet into an empty buffer gives the very bytes of the frame exactly if the frame says the packet and nothing else: the low four bits of the first byte are those the standard prescribes, the remaining length is encoded with as few bytes as possible, no reserved bit of the CONNECT flags, CONNACK flags or subscription options is set, no bytes follow the packet in its frame, and CONNECT announces no empty user name or password. Every packet v4::read returns has exactly one such frame: it is what the writer writes, it is read as the packet again, and no frame read as the packet is shorter. These frames are exactly those that some packet value (length-prefixed fields of at most 65535 bytes) is written as.", "quantifier": "all frames within any size limit, whatever follows them, all packets v4::read returns for them", "why_tests_cant": "an equivalence over all accepted frames, including every encoding the reader tolerates", "anchors": ["src/v4/mod.rs: read", "src/v4/connect.rs: Connect::write", "src/v4/subscribe.rs: Subscribe::write"]}
{"id": "C127", "title": "When reading and writing again gives the same bytes (5.0)", "statement": "If v5::read takes a frame for a packet, writing that packet into an empty buffer gives the very bytes of the frame exactly if the frame says the packet and nothing else: the low four bits of the first byte are those the standard prescribes; the remaining length, property lengths and subscription identifiers are in their shortest encoding; each property length is the exact number of bytes of the properties, which come in the order of the Rust struct's fields, none twice that must not be; no reserved bit of the CONNECT flags, CONNACK flags or subscription options is set; no bytes follow the packet in its frame; CONNECT announces no empty user name or password; a PUBACK, PUBREC, PUBREL or PUBCOMP without properties has no property length, and no reason code if it is 0. A CONNACK or DISCONNECT without properties never comes out the same, and a CONNECT of level 4 only if all bytes after the keep alive are 0. For every packet at most one such frame is read as it.", "quantifier": "all frames within any size limit, whatever follows them, all packets v5::read returns for them", "why_tests_cant": "an equivalence over all accepted frames, including every encoding and property order the reader tolerates", "anchors": ["src/v5/mod.rs: read", "src/v5/connect.rs: ConnectProperties::write", "src/v5/publish.rs: PublishProperties::write", "src/v5/puback.rs: PubAck::write"]}
{"id": "C128", "title": "A gateway between MQTT 5.0 and MQTT 3.1.1", "statement": "Every packet v5::read returns has a 3.1.1 counterpart that says the same as far as 3.1.1 has words for it, and every such counterpart, except a SUBSCRIBE without filters, can be written with the 3.1.1 writers, is never longer than the 5.0 frame it was read from, and is read back by v4::read as it is under the same size limit, whatever follows. Every packet v4::read returns has a 5.0 counterpart of level 5 without properties (CONNACK and DISCONNECT with an empty reason string, without which v5::read refuses them); every such counterpart can be written, unless its body would exceed 268435455 bytes, is longer by no more than the bytes 5.0 adds and three more of length field, and v5::read reads it back as it is under a size limit raised by the bytes 5.0 adds. A packet that goes up and comes down again is the one that left, up to the protocol level of CONNECT and the code of a refusal in CONNACK.", "quantifier": "all streams and size limits, all packets either reader returns for them, all counterparts, whatever follows the written packet", "why_tests_cant": "the bound on the size and the acceptance by the other reader must hold for every packet that can arrive, in every tolerated encoding", "anchors": ["src/v4/mod.rs: read", "src/v5/mod.rs: read", "src/v4/connect.rs: Connect::write", "src/v5/connect.rs: Connect::write", "src/v5/suback.rs: SubAck::write"]}
{"id": "C129", "title": "Ageing a message: expiry interval and topic alias can be patched in the encoded PUBLISH", "statement": "v5: if a PUBLISH with a message expiry interval is accepted by write, then writing it with any other interval is accepted too, into any buffer, returns the same count and gives the same bytes except for the four bytes behind the property's identifier, which stay in place; and if v5::read returns the packet for its bytes, under whatever size limit and whatever follows, it returns the packet with the other interval for the patched bytes, consuming as much. The same holds for the two bytes of a topic alias.", "quantifier": "all PUBLISH packets with the property, all other values, all buffers, size limits and following bytes", "why_tests_cant": "the place of the property and the acceptance of the patched packet must hold for every topic, every combination of other properties and every value", "anchors": ["src/v5/publish.rs: Publish::write, PublishProperties::write, PublishProperties::extract", "src/v5/mod.rs: read"]}
{"id": "C130", "title": "The will of every client can be published", "statement": "If v4::read or v5::read returns a CONNECT with a will, the PUBLISH with the will's topic, message, QoS and retain flag and a packet identifier that fits the QoS (5.0: with the will's properties except the delay interval, and without properties if nothing else is set) is accepted by write, takes fewer bytes than the CONNECT took, and is read back by the same reader as it is under the same size limit, whatever follows.", "quantifier": "all streams and size limits, all CONNECT packets with a will read from them, all packet identifiers, whatever follows the PUBLISH", "why_tests_cant": "it must hold for every will that can arrive, in every encoding the reader tolerates", "anchors": ["src/v4/connect.rs: LastWill::read", "src/v5/connect.rs: LastWill::read, WillProperties::read", "src/v4/publish.rs: Publish::write", "src/v5/publish.rs: Publish::write, PublishProperties::write"]}
{"id": "C131", "title": "Every request can be answered", "statement": "For every CONNECT, PUBLISH with QoS 1 or 2, PUBREC, PUBREL, SUBSCRIBE, UNSUBSCRIBE and PINGREQ that v4::read or v5::read returns, every answer (CONNACK; PUBACK, PUBREC, PUBREL, PUBCOMP and UNSUBACK with the same packet identifier; SUBACK with the same packet identifier and one code per filter; PINGRESP; in 5.0 one code per filter in UNSUBACK too, and no properties but an empty reason string in CONNACK) is accepted by write and read back by the same reader as it is, whatever follows. In 3.1.1 it is never longer than the request was and passes the same size limit; in 5.0 it is no longer than the request was or takes at most five bytes, and passes the same limit if that is at least three. Exceptions: a 5.0 SUBSCRIBE or UNSUBSCRIBE without filters, whose answer without codes would be refused.", "quantifier": "all streams and size limits, all requests read from them, all answers with any codes, whatever follows the answer", "why_tests_cant": "it must hold for every request that can arrive, with any number of filters, and every combination of codes", "anchors": ["src/v4/mod.rs: read", "src/v5/mod.rs: read", "src/v4/suback.rs: SubAck::write", "src/v5/suback.rs: SubAck::write", "src/v5/unsuback.rs: UnsubAck::write"]}
{"id": "C132", "title": "A user property can be added to every packet that was read", "statement": "For every MQTT 5.0 packet whose texts and properties fit their length fields and that has no property set in which nothing is set (so are all packets that read returns, C57), a user property with any key and value of at most 65535 bytes each can be put behind the user properties the packet has, making a property set if it has none: unless the body would grow beyond 268435455 bytes (it grows by at most 10 bytes and the two texts), write accepts the packet, and the same reader returns it as it is, whatever follows, with every size limit that allows that growth. Exceptions to the reading: a CONNECT of level 4, and a PUBLISH that does not come back without the user property either (C57).", "quantifier": "all 5.0 packets that can be written, all keys and values, all size limits, whatever follows", "why_tests_cant": "it must hold for every packet, with and without properties, with every combination of other properties and all lengths of both texts", "anchors": ["src/v5/mod.rs: read", "src/v5/publish.rs: PublishProperties::write, PublishProperties::extract", "src/v5/connect.rs: ConnectProperties::write", "src/v5/connack.rs: ConnAckProperties::write", "src/v5/puback.rs: PubAck::write", "src/v5/disconnect.rs: Disconnect::write"]}
{"id": "C133", "title": "Subscription requests and their answers can be split and merged", "statement": "For every SUBSCRIBE, SUBACK or UNSUBSCRIBE (in 5.0 UNSUBACK too) that can be written: the packet with some of its filters or codes only (at least one), in their order, with any packet identifier and the same properties, can be written too, takes no more bytes, and is read back as it is with every size limit that allows the first. For two such packets of one kind (in 3.1.1 also UNSUBACK): the packet with the filters or codes of both, with any packet identifier and the properties of the first, is written and read back as it is, unless its body becomes too long; the two bodies together, less two bytes (three in 5.0), bound it. The merged answers to two requests answer the merged request.", "quantifier": "all packets that can be written, all selections of their filters, all pairs, all packet identifiers, all size limits, whatever follows", "why_tests_cant": "it must hold for every number of filters, every selection and all lengths", "anchors": ["src/v4/subscribe.rs: Subscribe::write, Subscribe::read", "src/v4/unsubscribe.rs: Unsubscribe::write", "src/v4/suback.rs: SubAck::write", "src/v5/subscribe.rs: Subscribe::write", "src/v5/unsubscribe.rs: Unsubscribe::write", "src/v5/suback.rs: SubAck::write", "src/v5/unsuback.rs: UnsubAck::write"]}
{"id": "C134", "title": "Mount points: moving all names of a client below a topic", "statement": "Let m be a topic name without wildcards that starts with neither '$' nor a non-ASCII character. `m/t` is a valid topic iff t is, and (t not empty) a valid filter iff t is. `matches(m/t, m/f)` equals `matches(t, f)` for every t that starts with neither; for every t it never panics, and is true iff the levels of t and f match. It is false for `matches(m/t, m'/f)` if the levels of neither mount point begin with those of the other. `matches(s, m/#)` is true iff s is m or some m/t. Every packet that can be written (in 5.0: and comes back, except a CONNECT of level 4) can be written with the topic of its will, its topic or all its filters below m, and is read back as it is, unless a name outgrows 65535 bytes or the body, which grows by the length of m and one per name, outgrows 268435455 bytes or the size limit. (5.0 response topics are left as they are.)", "quantifier": "all mount points, topics, filters, packets that can be written, size limits, whatever follows", "why_tests_cant": "it must hold for all strings and for every packet with any number of names", "anchors": ["src/topic.rs: matches, valid_topic, valid_filter", "src/v4/mod.rs: read", "src/v5/mod.rs: read", "src/v4/subscribe.rs: Subscribe::write", "src/v5/subscribe.rs: Subscribe::write"]}

{"id": "C01", "title": "DIS header round trip", "statement": "Serialising a PDU header whose status matches its version and type and parsing the 12 octets back (with arbitrary bytes following) returns the same version, exercise id, type, family, timestamp, length and PDU status, and leaves exactly the following bytes unconsumed. The two padding bits/octets are always written as zero.", "quantifier": "every header (all field values, versions 1-7), every trailing byte string", "why_tests_cant": "2^88 headers times every continuation; tests sample three headers", "anchors": ["dis-rs/src/common/writer.rs: impl Serialize for PduHeader", "dis-rs/src/common/parser.rs: pdu_header"]}
{"id": "C02", "title": "PDU status octet round trip", "statement": "For each of the 256 PDU type numbers, writing a v7 PDU status record whose indicators are exactly those defined for that type and reading the octet back gives the same record; conversely, reading any octet and writing it back preserves exactly the bits defined for that type and zeroes the others.", "quantifier": "every PDU type number, every status octet and every well-formed status record", "why_tests_cant": "256x256 combinations of type and octet; the tests cover a handful of types", "anchors": ["dis-rs/src/v7/parser.rs: parse_pdu_status_fields", "dis-rs/src/v7/writer.rs: serialize_pdu_status"]}
{"id": "C03", "title": "Common record round trips", "statement": "Every shared DIS record (simulation address, entity id, event id, entity type, vectors, locations, orientations, munition descriptors, clock time, fixed datum, beam data, supply quantity) is recovered unchanged by its parser from what its writer produced, whatever bytes follow, and the writer's return value is the number of bytes it appended.", "quantifier": "every record value (all field bit patterns, including NaN floats), every continuation", "why_tests_cant": "the value domains are 2^32..2^192 large", "anchors": ["dis-rs/src/common/parser.rs", "dis-rs/src/common/writer.rs"]}
{"id": "C04", "title": "Variable parameter records", "statement": "A variable parameter of every kind (articulated, attached, separation, entity type, entity association, unspecified) occupies 16 bytes on the wire and parses back to itself. (The separation record violates this: the writer emits 16 bytes, the parser reads 15; the theorem is proved for the other kinds and the violation is proved too.)", "quantifier": "every variable parameter record, every continuation", "why_tests_cant": "2^120 records per kind; existing tests only cover articulated and attached parts", "anchors": ["dis-rs/src/common/parser.rs: variable_parameter, separation", "dis-rs/src/common/writer.rs: impl Serialize for VariableParameter"]}
{"id": "C05", "title": "Variable datum round trip and padding", "statement": "A variable datum is written as id, length in bits, data and zero padding up to an 8-octet boundary, and is parsed back to itself. (Violated by the writer for every data length that is not a multiple of 8 octets, because it pads by 8x the number of padding bits; proved for multiples of 8 and refuted otherwise.)", "quantifier": "every datum value of any length, every continuation", "why_tests_cant": "lengths are unbounded; the bug is invisible for lengths that are multiples of 8", "anchors": ["dis-rs/src/common/writer.rs: impl Serialize for VariableDatum", "dis-rs/src/common/parser.rs: variable_datum"]}
{"id": "C06", "title": "Padding arithmetic", "statement": "Padding a record of n octets to a multiple of k yields a record length that is the least multiple of k not below n, with padding = record length - n < k.", "quantifier": "every length n and every alignment k > 0", "why_tests_cant": "unbounded naturals", "anchors": ["dis-rs/src/common/model.rs: length_padded_to_num"]}
{"id": "C07", "title": "Record sets and record specifications", "statement": "Record specification records (count, sets with id, serial, equal sized records, 8-octet padding) parse back to what was written and the returned byte count is the number of bytes written, as long as sizes fit their 16-bit fields.", "quantifier": "every list of record sets, every number and size of records", "why_tests_cant": "nested unbounded lists", "anchors": ["dis-rs/src/common/parser.rs: record_specification, record_set", "dis-rs/src/common/writer.rs: impl Serialize for RecordSpecification, RecordSet"]}
{"id": "C08", "title": "Entity information / collision PDUs round trip", "statement": "Every well-formed Entity State, Entity State Update, Collision, Collision-Elastic and Attribute PDU parses back to itself from its serialised form, with the bytes that follow untouched.", "quantifier": "every PDU value satisfying a stated well-formedness predicate (list lengths fit their count fields), every continuation", "why_tests_cant": "unbounded lists of variable parameters and records", "anchors": ["dis-rs/src/common/entity_state", "dis-rs/src/common/entity_state_update", "dis-rs/src/common/collision", "dis-rs/src/common/collision_elastic", "dis-rs/src/common/attribute"]}
{"id": "C09", "title": "Warfare PDUs round trip", "statement": "Every well-formed Fire and Detonation PDU parses back to itself. (Violated for detonations with a non-munition explosion descriptor: the parser reads two bytes fewer than the writer writes.)", "quantifier": "every Fire / Detonation PDU, every continuation", "why_tests_cant": "the failing variant is selected by one status field value", "anchors": ["dis-rs/src/common/fire", "dis-rs/src/common/detonation", "dis-rs/src/common/parser.rs: descriptor_record_fti, descriptor_record_dti"]}
{"id": "C10", "title": "Simulation management PDUs round trip", "statement": "Every well-formed Create/Remove Entity, Start/Resume, Stop/Freeze, Acknowledge, Action Request/Response, Data Query, Set Data, Data, Event Report and Comment PDU parses back to itself. (Comment drops fixed datums; proved for comments without fixed datums, and the loss is proved.)", "quantifier": "every PDU value, all datum lists, every continuation", "why_tests_cant": "unbounded datum lists", "anchors": ["dis-rs/src/common/create_entity", "dis-rs/src/common/action_request", "dis-rs/src/common/data_query", "dis-rs/src/common/comment"]}
{"id": "C11", "title": "Reliable simulation management PDUs round trip", "statement": "The same for the -R (reliable) variants including Record-R, Set Record-R and Record Query-R. (Action Response-R violates it: it is parsed as Action Response.)", "quantifier": "every PDU value, every continuation", "why_tests_cant": "unbounded lists; variant confusion is only seen if the parsed variant is compared", "anchors": ["dis-rs/src/common/action_response_r", "dis-rs/src/common/record_r", "dis-rs/src/common/set_record_r", "dis-rs/src/common/record_query_r"]}
{"id": "C12", "title": "Logistics PDUs round trip", "statement": "Every well-formed Service Request, Resupply Offer/Received/Cancel and Repair Complete/Response PDU parses back to itself.", "quantifier": "every PDU value, every continuation", "why_tests_cant": "unbounded supply lists", "anchors": ["dis-rs/src/common/service_request", "dis-rs/src/common/resupply_offer", "dis-rs/src/common/repair_complete"]}
{"id": "C13", "title": "Distributed emission PDUs round trip", "statement": "Every well-formed Electromagnetic Emission, Designator, IFF, Underwater Acoustic and Supplemental Emission PDU parses back to itself, including nested systems, beams and track/jam lists.", "quantifier": "every PDU value with list lengths fitting their count fields, every continuation", "why_tests_cant": "three levels of nested lists", "anchors": ["dis-rs/src/common/electromagnetic_emission", "dis-rs/src/common/designator", "dis-rs/src/common/iff", "dis-rs/src/common/underwater_acoustic", "dis-rs/src/common/sees"]}
{"id": "C14", "title": "Radio PDUs round trip", "statement": "Every well-formed Transmitter, Signal and Receiver PDU parses back to itself. (Signal payloads whose size is not a multiple of four leave their padding unconsumed.)", "quantifier": "every PDU value, every payload, every continuation", "why_tests_cant": "payload sizes are unbounded; the alignment bug only shows with a following PDU", "anchors": ["dis-rs/src/common/transmitter", "dis-rs/src/common/signal", "dis-rs/src/common/receiver"]}
{"id": "C15", "title": "Entity management PDUs round trip", "statement": "Every well-formed Aggregate State, IsGroupOf, IsPartOf and Transfer Ownership PDU parses back to itself.", "quantifier": "every PDU value, every continuation", "why_tests_cant": "nested lists and per-category records", "anchors": ["dis-rs/src/common/aggregate_state", "dis-rs/src/common/is_group_of", "dis-rs/src/common/is_part_of", "dis-rs/src/common/transfer_ownership"]}
{"id": "C16", "title": "Advertised length equals bytes written", "statement": "For every PDU finalised with Pdu::finalize_from_parts, the header's length field, pdu_length() and the value returned by serialize are all equal to the number of bytes appended to the buffer. (Fire, Detonation and Service Request violate it; both directions are proved.)", "quantifier": "every PDU body, every header", "why_tests_cant": "each PDU type computes three lengths independently, over unbounded lists", "anchors": ["dis-rs/src/common/model.rs: Pdu::finalize_from_parts, PduBody::body_length", "dis-rs/src/common/*/model.rs: body_length", "dis-rs/src/common/writer.rs: Pdu::serialize"]}
{"id": "C17", "title": "A packet of concatenated PDUs parses to exactly those PDUs", "statement": "Concatenating the serialisations of any non-empty list of well-formed PDUs and calling parse returns that list in order.", "quantifier": "every finite list of PDUs of every type", "why_tests_cant": "unbounded sequences; an off-by-one in any body parser only shows in the next PDU", "anchors": ["dis-rs/src/common/mod.rs: parse", "dis-rs/src/common/parser.rs: parse_multiple_pdu, pdu"]}
{"id": "C18", "title": "Parsing arbitrary bytes never panics", "statement": "parse on any byte string returns a value or an error. (Violated by Signal PDUs with short payloads of class 2/3 (slice out of range) and by record sets whose size product overflows u16 in checked builds; proved for all inputs that avoid these, and both violations are proved by witness.)", "quantifier": "every byte string", "why_tests_cant": "all byte strings of all lengths; fuzzing only samples", "anchors": ["dis-rs/src/common/parser.rs: pdu", "dis-rs/src/common/signal/parser.rs", "dis-rs/src/common/parser.rs: record_set"]}
{"id": "C19", "title": "Parsing is deterministic in the consumed prefix", "statement": "If parsing one PDU from some bytes succeeds, the result depends only on the bytes consumed: any other continuation gives the same PDU and leaves exactly that continuation.", "quantifier": "every input on which the parser succeeds and every replacement continuation", "why_tests_cant": "relates two runs over all continuations", "anchors": ["dis-rs/src/common/parser.rs: pdu, pdu_body"]}
{"id": "C20", "title": "Truncated PDUs are rejected", "statement": "No strict prefix of a serialised PDU parses as a PDU: the parser reports an error rather than returning a partial PDU.", "quantifier": "every well-formed PDU and every strict prefix", "why_tests_cant": "quantifies over every cut point of every PDU", "anchors": ["dis-rs/src/common/parser.rs: pdu"]}
{"id": "C21", "title": "parse returns at least one PDU or an error, and makes progress", "statement": "A successful parse returns a non-empty list; inputs shorter than a header give an error; every PDU returned accounts for at least 12 bytes, so at most len/12 PDUs are returned.", "quantifier": "every byte string", "why_tests_cant": "all byte strings", "anchors": ["dis-rs/src/common/parser.rs: parse_multiple_pdu"]}
{"id": "C22", "title": "Version filters", "statement": "parse_v6 (parse_v7) returns exactly the PDUs parse returns whose version is 6 (7), in the same order, and fails exactly when parse fails.", "quantifier": "every byte string", "why_tests_cant": "all inputs", "anchors": ["dis-rs/src/common/mod.rs: parse_v6, parse_v7"]}
{"id": "C23", "title": "Version independence of body parsing for foreign types", "statement": "A PDU whose type is unsupported is returned as Other, carrying exactly the body bytes indicated by its length field.", "quantifier": "every unsupported type number and every body", "why_tests_cant": "all type numbers and bodies", "anchors": ["dis-rs/src/common/parser.rs: pdu_body", "dis-rs/src/common/other/parser.rs"]}
{"id": "C24", "title": "Buffer capacity check", "statement": "serialize fails with InsufficientBufferSize and writes nothing exactly when the PDU's length exceeds the buffer capacity; otherwise it appends the PDU after the existing contents.", "quantifier": "every PDU, every buffer capacity and content", "why_tests_cant": "all pairs of PDU sizes and capacities", "anchors": ["dis-rs/src/common/writer.rs: Pdu::serialize"]}
{"id": "C25", "title": "Enumerations preserve raw values", "statement": "Converting any raw wire value to a SISO enumeration and back returns the same raw value, and converting a canonical enumeration value to raw and back is the identity, for every enumeration produced by the generator.", "quantifier": "every generated enumeration table and every raw value", "why_tests_cant": "the generator is run on thousands of tables; raw domains up to 2^32", "anchors": ["dis-rs/src/../build.rs"]}
{"id": "C26", "title": "Bit fields preserve flags", "statement": "For every generated bit-field record, converting a record whose fields fit their widths to its integer and back yields the same record, and fields never overlap.", "quantifier": "every layout the generator accepts and every record value", "why_tests_cant": "2^32 values per bit field and every layout", "anchors": ["dis-rs/src/../build.rs"]}
{"id": "C27", "title": "DIS timestamp conversion", "statement": "Converting a 32-bit timestamp to DisTimeStamp and back is lossless: the least significant bit selects absolute time and the other 31 bits are the units past the hour.", "quantifier": "every 32-bit timestamp", "why_tests_cant": "2^32 values", "anchors": ["dis-rs/src/common/model.rs: DisTimeStamp"]}
{"id": "C28", "title": "Entity type strings", "statement": "Formatting an entity type as text and parsing it back yields the same entity type; strings with a wrong number of parts or out-of-range numbers are rejected.", "quantifier": "every entity type value, every string", "why_tests_cant": "2^64 entity types and all strings", "anchors": ["dis-rs/src/common/model.rs: EntityType FromStr/Display"]}
{"id": "C29", "title": "C-DIS variable-length unsigned integers", "statement": "UVINT8/16/32 values written to a bit stream read back unchanged with exactly the following bits left, and the encoder picks the smallest of the four sizes that fits.", "quantifier": "every value in range, every following bit string", "why_tests_cant": "2^32 values, every continuation", "anchors": ["cdis-assemble/src/types/model.rs: UVINT8, UVINT16, UVINT32", "cdis-assemble/src/types/parser.rs", "cdis-assemble/src/types/writer.rs"]}
{"id": "C30", "title": "C-DIS variable-length signed integers", "statement": "SVINT12/13/14/16/24 values in range round trip and use the minimal size. (SVINT24 violates it below -1048576 because its 24-bit minimum is positive.)", "quantifier": "every value in range, every following bit string", "why_tests_cant": "2^24 values; the bug affects only the widest negative range", "anchors": ["cdis-assemble/src/types/model.rs: SVINT*", "cdis-assemble/src/types/parser.rs"]}
{"id": "C31", "title": "C-DIS record length equals bits written", "statement": "The record length every C-DIS record reports equals the number of bits its writer emits, so PDU lengths are right.", "quantifier": "every record value", "why_tests_cant": "each record computes its length separately; all values", "anchors": ["cdis-assemble/src/records/model.rs: CdisRecord::record_length", "cdis-assemble/src/records/writer.rs"]}
{"id": "C32", "title": "C-DIS header round trip", "statement": "A C-DIS header round-trips through its 58+ bit form with the documented widths.", "quantifier": "every header with fields in range, every continuation", "why_tests_cant": "all headers", "anchors": ["cdis-assemble/src/records/parser.rs: cdis_header", "cdis-assemble/src/records/writer.rs"]}
{"id": "C33", "title": "C-DIS record round trips", "statement": "Entity ids, entity types, entity coordinates, linear velocities, orientations, angular velocities, beam data and datum records round trip through the bit stream. (BeamData violates it: azimuth centre is written four times; world coordinates are rescaled by a wrong constant.)", "quantifier": "every record value in range, every continuation", "why_tests_cant": "all values", "anchors": ["cdis-assemble/src/records/parser.rs", "cdis-assemble/src/records/writer.rs"]}
{"id": "C34", "title": "C-DIS entity marking", "statement": "An entity marking of up to 11 characters survives encoding and leaves what follows it intact. (Violated: 'X'/'Y' and lower-case letters in the 5-bit code; a text with a character outside ASCII takes bits of whatever follows. Proved: what arrives of every ASCII text, what every other text swallows, and exactly which texts arrive unchanged.)", "quantifier": "every marking string", "why_tests_cant": "all strings of length up to 11 over ASCII", "anchors": ["cdis-assemble/src/records/codec.rs", "cdis-assemble/src/records/model.rs: CdisEntityMarking"]}
{"id": "C35", "title": "C-DIS PDU round trip with fields-present flags", "statement": "Every optional field is written exactly when its fields-present bit is set, so C-DIS PDUs parse back to themselves. (Entity State obeys it; Fire/Detonation/Designator violate it when only one of a paired field is present.)", "quantifier": "every PDU value and every combination of optional fields", "why_tests_cant": "2^13 flag combinations times all field values", "anchors": ["cdis-assemble/src/entity_state", "cdis-assemble/src/fire", "cdis-assemble/src/detonation", "cdis-assemble/src/designator", "cdis-assemble/src/collision"]}
{"id": "C36", "title": "Concatenated C-DIS PDUs parse to exactly those PDUs", "statement": "parse of the bit concatenation of C-DIS PDUs returns them in order and ignores the final padding bits.", "quantifier": "every list of PDUs", "why_tests_cant": "unbounded sequences of bit-unaligned PDUs", "anchors": ["cdis-assemble/src/lib.rs: parse", "cdis-assemble/src/parser.rs"]}
{"id": "C37", "title": "Partial updates are sent only while a full update is fresh", "statement": "In partial-update mode an Entity State, Designator, Transmitter (per radio), IFF or Electromagnetic Emission PDU is sent as a partial update exactly when a full update for the same subject was sent before and is not older than the configured heartbeat period times the multiplier; a full update carries every field a partial one omits.", "quantifier": "every finite history of encode calls, every clock reading, every heartbeat setting", "why_tests_cant": "unbounded histories and arbitrary clocks", "anchors": ["cdis-assemble/src/entity_state/codec.rs", "cdis-assemble/src/designator/codec.rs", "cdis-assemble/src/transmitter/codec.rs", "cdis-assemble/src/iff/codec.rs", "cdis-assemble/src/electromagnetic_emission/codec.rs", "cdis-assemble/src/codec.rs"]}
{"id": "C38", "title": "Decoder reconstruction from partial updates", "statement": "After any history of updates, decoding a partial update fills the omitted fields from the latest full update of the same subject, so that what the receiver sees is the current PDU with those fields as of the last full update. (The marking is taken from the first full update, an IFF system id is never restored, and emission beams that first appear in a partial update are decoded as zeros: proved as violations.)", "quantifier": "every finite history of encode and decode calls and clock readings", "why_tests_cant": "unbounded histories; needs two full updates with different markings", "anchors": ["cdis-assemble/src/entity_state/codec.rs: Codec::decode", "cdis-assemble/src/codec.rs"]}
{"id": "C39", "title": "Codec state is isolated per entity", "statement": "Encoding or decoding a PDU for one entity never changes the state kept for, nor the result produced for, other entities.", "quantifier": "every history and every pair of distinct entities", "why_tests_cant": "unbounded histories", "anchors": ["cdis-assemble/src/codec.rs: CodecStateEncoder..."]}
{"id": "C40", "title": "Full-update mode is stateless", "statement": "In full-update mode the encoding of a PDU does not depend on anything encoded before nor on the time, everything sent is self-contained, and decoding it gives the same result in every mode and decoder state. (The decoder completes Designator PDUs from its state even in full-update mode.)", "quantifier": "every history, every clock, every decoder state", "why_tests_cant": "unbounded histories", "anchors": ["cdis-assemble/src/codec.rs: CdisBody::encode, decode"]}
{"id": "C41", "title": "C-DIS quantisation error bounds", "statement": "Velocities, accelerations, angles, angular velocities, coordinates, beam angles, sweep, frequencies, pulse widths, forces and parameter values encoded to C-DIS and decoded again, in the f32/f64 arithmetic of the code, differ from the original by at most about one quantisation step (stated numerically for each kind) within the representable range, and saturate outside it. (Violated for coordinates between 328 m and 32767 m, frequencies above 13 GHz, small articulation angles, world locations sent over the wire, the pole, locations deeper than 10.5 km below sea level, the centre of the Earth and a region about it; each violation is proved.)", "quantifier": "every finite floating point value in range, every non-finite value where stated", "why_tests_cant": "continuous domains with floating point rounding", "anchors": ["cdis-assemble/src/records/codec.rs", "cdis-assemble/src/records/model.rs", "cdis-assemble/src/types/model.rs"]}
{"id": "C42", "title": "Gateway encoder accounting", "statement": "Encoding a datagram in the DIS to C-DIS direction reports its size, then for every PDU in it, in order, either received and encoded events (types C-DIS carries) or a rejected event, then the size of the datagram put out; the datagram put out is the C-DIS encoding of exactly the carried PDUs and a C-DIS reader gets exactly those back. (The output buffer is not cleared between packets: when announced lengths exceed the bits written, PDUs of an earlier packet are delivered a second time; proved.)", "quantifier": "every datagram, every encoder state, every earlier buffer content", "why_tests_cant": "unbounded batches and histories", "anchors": ["cdis-gateway/src/codec.rs: Encoder"]}
{"id": "C43", "title": "Gateway decoder accounting", "statement": "The C-DIS to DIS decoder forwards every PDU of a type C-DIS carries. (Violated for every packet and every run: the filter is inverted, so exactly the carried PDUs are dropped and the others are forwarded as bare 12 octet headers; the gateway never puts a PDU with contents on the DIS network.)", "quantifier": "every datagram, every decoder state, every run of the gateway", "why_tests_cant": "unbounded batches and runs", "anchors": ["cdis-gateway/src/codec.rs: Decoder::decode_pdus"]}
{"id": "C44", "title": "Gateway statistics", "statement": "After any sequence of events and timer ticks the statistics equal the totals over that sequence (packets, octets, rejected and unimplemented PDUs, counts and octets per PDU type), the latest aggregate is the totals between the last two ticks, and the compression rate is the ratio of the octets.", "quantifier": "every finite history of events and ticks", "why_tests_cant": "unbounded histories", "anchors": ["cdis-gateway/src/stats.rs"]}
{"id": "C45", "title": "Gateway configuration", "statement": "A configuration is accepted exactly when its strings name documented modes and addresses, everything else is rejected with the error naming the setting, and the codec runs with the configured mode, optimization, multiplier and heartbeat periods with the documented defaults for those left out. (The configured remote address is ignored, and a malformed interface panics: violations proved.)", "quantifier": "every configuration record, all strings", "why_tests_cant": "all strings and option combinations", "anchors": ["cdis-gateway/src/config.rs", "cdis-gateway/src/main.rs"]}
{"id": "C46", "title": "Gateway event channel", "statement": "A slow statistics consumer never stops the data path. (Violated: the bounded event channel is used with try_send().expect. Proved: with no socket failure and no Quit command, an event that finds 50 unread events is the only cause of a codec panic, so nothing panics as long as the consumer keeps up; and a single datagram of 25 Acknowledge PDUs can end the gateway.)", "quantifier": "every interleaving of the readers, codecs, writers and the statistics task, every input", "why_tests_cant": "schedule dependent", "anchors": ["cdis-gateway/src/codec.rs", "cdis-gateway/src/main.rs"]}
{"id": "C47", "title": "Reading C-DIS input is total and prefix-determined", "statement": "C-DIS parse on any octets returns a list of PDUs or an error and never panics; it fails exactly when the first PDU fails; each PDU read is determined by the bits it consumed; each PDU accounts for at least 63 bits.", "quantifier": "every octet string and every continuation", "why_tests_cant": "all inputs; relates runs on different continuations", "anchors": ["cdis-assemble/src/parsing.rs: parse, cdis_pdu, cdis_body", "cdis-assemble/src/lib.rs"]}
{"id": "C48", "title": "The gateway delivers in order under every schedule", "statement": "In every state the gateway can reach, whatever the interleaving of its tasks, the socket failures and the commands: the datagrams sent on a side are, in order and one for one, the results of the codec for the first datagrams received on the other; the events that reached the statistics are the first events for them; and at most 43 datagrams per direction and 50 events are held in memory.", "quantifier": "every reachable state of the concurrent system: all schedules, failures, inputs", "why_tests_cant": "exponentially many interleavings of seven tasks with bounded channels", "anchors": ["cdis-gateway/src/main.rs", "cdis-gateway/src/codec.rs"]}
{"id": "C49", "title": "Left to itself the gateway comes to rest with everything delivered", "statement": "The gateway cannot work forever without new input; from every reachable state with all tasks alive every schedule comes to rest, and then either a codec has panicked or every datagram received has been sent on and the statistics have counted it exactly.", "quantifier": "every reachable state, every schedule", "why_tests_cant": "liveness over all schedules", "anchors": ["cdis-gateway/src/main.rs", "cdis-gateway/src/codec.rs", "cdis-gateway/src/stats.rs"]}
{"id": "C50", "title": "PDU fields are where IEEE 1278.1 puts them", "statement": "In the octets serialize writes for a PDU of any of the 53 kinds, every field, every count, every element of every list and every padding octet are where IEEE 1278.1 puts them and big-endian, including the records of variable size. (Violated by variable datums that do not fill 64-bit words, the activity word and the emitter system length of Underwater Acoustic, Mode S transponder data and Record-R.)", "quantifier": "every PDU of every kind, all field values and list lengths", "why_tests_cant": "round trips within the library cannot see a layout both reader and writer get wrong; all values", "anchors": ["dis-rs/src/common/*/writer.rs", "dis-rs/src/*/writer.rs"]}
{"id": "C51", "title": "Framing: announced lengths, the header readers and parse", "statement": "parse_header and parse_multiple_header cut any input at the announced lengths: the result is the header of every piece, or an error that says what is missing. parse takes its lengths from the contents: for a type with a parser the announced length plays no part, so both readers see the same PDUs when announced lengths are right, and different ones when not (a PDU announcing another as its own is one for the one reader and two for the other; every twelve zero octets behind a packet are one more PDU for parse). Both deviations are proved.", "quantifier": "every octet string, every packet of well formed PDUs, every announced length", "why_tests_cant": "all inputs and list lengths", "anchors": ["dis-rs/src/common/parser.rs: parse_multiple_header, parse_header, skip_body", "dis-rs/src/lib.rs"]}
{"id": "C52", "title": "What a PDU keeps on its way through C-DIS", "statement": "Encoding a DIS PDU to C-DIS and decoding it again, in full-update mode, keeps every field of every supported kind except the named ones, each of which becomes a stated function of its own old value: quantised vectors, locations, orientations and scalars (fractions dropped; masses to a gram up to 65.5 kg and to a kilogram above), the padding of variable parameters of unknown type, fields C-DIS does not carry for the dead reckoning algorithm. Header: exercise and status are kept, the version becomes 7, the length is recomputed. (A transmit power above 255 becomes 255, a negative mass 4295 tonnes, a range outside u32 becomes 0: violated, each a theorem.)", "quantifier": "every PDU of every kind C-DIS supports, all field values, all codec options", "why_tests_cant": "all field values; which fields are dropped is a property of the whole input space", "anchors": ["cdis-assemble/src/codec.rs: CdisPdu::encode, CdisPdu::decode", "cdis-assemble/src/*/codec.rs: encode, decode", "cdis-assemble/src/records/codec.rs"]}
{"id": "C53", "title": "Timestamps through C-DIS", "statement": "A timestamp that goes through C-DIS comes back with its absolute/relative flag and the same time to within the C-DIS resolution. (Violated: the conversion factor is about 1.08 instead of 64 because u32::MAX/2 and the 25 bit scale are confused, so the 26 bits of the wire field hold only the first 60.57 seconds of an hour; times after that come back as one of the first 60.58 seconds. Proved: the first minute comes back within 37 units; without the wire the whole hour does up to rounding.)", "quantifier": "every 32 bit timestamp, every header", "why_tests_cant": "2^32 timestamps and floating point rounding", "anchors": ["cdis-assemble/src/records/model.rs: CdisTimeStamp, dis_to_cdis_u32_timestamp, cdis_to_dis_u32_timestamp", "cdis-assemble/src/records/codec.rs: CdisHeader::encode", "cdis-assemble/src/records/writer.rs: CdisHeader"]}
{"id": "C54", "title": "Relaying a PDU keeps it", "statement": "A PDU of protocol version 1 to 7 read from any octets the library accepts, stray bits and all, and written again, is read by the receiver as the same PDU except for the header padding; it takes as many octets as before (Comment PDUs may shrink, their fixed datums being dropped), so a correct length field stays correct; for all but twelve kinds the octets are those that came in with some meaningless bits cleared; and from the first hop on nothing changes any more. The exceptions are listed kind by kind: values the reader accepts and the writer cannot write back (separation parameters, explosion descriptors, datum records not filling their octets, records lengths, undetermined IFF interrogators, markings that are not text, version 8 and later).", "quantifier": "every input, every PDU read from it, every number of hops, every packet", "why_tests_cant": "all octet strings, including those no writer produces", "anchors": ["dis-rs/src/mod.rs: parse", "dis-rs/src/parser.rs: pdu, pdu_header, pdu_body", "dis-rs/src/common/writer.rs", "dis-rs/src/*/parser.rs, */writer.rs"]}
{"id": "C55", "title": "Appearance and capabilities follow the entity type", "statement": "The appearance word of an Entity State PDU read from any input is given the bit record of the kind and domain of that PDU's own entity type (five platform domains, munition, life form, environmental, cultural feature, supply, radio, expendable, sensor/emitter; unspecified otherwise) and keeps exactly the bits of that record, all bits when unspecified; capabilities likewise in version 7, except that entities of kind Other lose them, and as four land-platform flags in every other version. Writing version 6 writes exactly the flags the class has. Members of groups get land or air appearances by the group's category, silent entities of aggregates by their entity type.", "quantifier": "every input, every Entity State, Is Group Of and Aggregate State PDU read from it; every entity type and word", "why_tests_cant": "2^16 kind/domain pairs times 2^32 words in any PDU", "anchors": ["dis-rs/src/entity_state/model.rs: EntityAppearance::from_bytes", "dis-rs/src/entity_state/parser.rs", "dis-rs/src/entity_state/compatibility.rs", "dis-rs/src/v7/entity_state/mod.rs: entity_capabilities_from_bytes", "dis-rs/src/v6/entity_state/", "dis-rs/src/is_group_of/parser.rs", "dis-rs/src/aggregate_state/parser.rs"]}
{"id": "C56", "title": "The web page shows what the gateway did", "statement": "For every history of events and timer ticks, the panels of the gateway's web page show, under each caption, what it says: packets and octets per socket in total and in the last full second, PDUs taken up per PDU type, PDUs rejected, PDUs of unimplemented types, the compression rate as the percentage of octets put out (to within 2^-50), and the number of PDUs encoded. Whenever a browser connects and however the tasks interleave, each frame it is sent shows the statistics as they were at some earlier moment, moments never run backwards, nothing is skipped while it is at most 64 frames behind, once it has caught up all four panels show the last emission, and after Quit it is sent nothing. (Violated for the number of PDUs encoded: the page subtracts the rejected PDUs, which were never counted among those taken up.)", "quantifier": "every history of events, ticks and receives; every moment of connection", "why_tests_cant": "all histories and interleavings; 64-bit counters and a lossy broadcast channel", "anchors": ["cdis-gateway/src/site.rs: CodecStatsValues::from, SocketStatsValues::from, sse_handler", "cdis-gateway/src/stats.rs: run_stats", "cdis-gateway/templates/codec_stats.html", "cdis-gateway/templates/socket_stats.html"]}
{"id": "C57", "title": "A PDU that C-DIS can carry arrives", "statement": "For each of the 22 kinds C-DIS carries a condition on the PDU says when its values fit the C-DIS fields (entity types, counts, texts, ranges of angles and accelerations, ...). Any sequence of such PDUs, encoded by an encoder in any state (in full-update mode if the kind has a history), written as one packet of C-DIS octets, read back from these octets and decoded by a decoder in any state and mode, arrives as the same number of PDUs, in order, each of the same kind and exercise, with every field as sent except the named ones, which are stated functions of their own value; nine simulation-management kinds arrive unchanged. (Violated: latitudes arrive as a 17th and longitudes as a 9th of what was sent; and a Designator PDU whose dead reckoning algorithm has no acceleration leaves four bits in front of the next PDU of the packet and loses its algorithm.)", "quantifier": "every sequence of PDUs, every encoder and decoder state and every mode", "why_tests_cant": "composes the encoder, writer, reader and decoder over unbounded packets that are not octet aligned inside", "anchors": ["cdis-assemble/src/codec.rs", "cdis-assemble/src/parsing.rs: parse", "cdis-assemble/src/writing.rs", "cdis-assemble/src/records/codec.rs"]}
{"id": "C58", "title": "Who a PDU is from and to", "statement": "For every octet string a PDU is read from, originator() is the identifier of the entity that issues the PDU and receiver() the identifier of the one it addresses, as they stand in the octets at the positions IEEE 1278.1 gives for that PDU type; both are absent for types that carry none and for unknown types. What a well-formed PDU reports is what is written. Through the C-DIS gateway originators and receivers are unchanged.", "quantifier": "every octet string; every well-formed PDU of every type; every packet C-DIS can carry, every encoder and decoder state", "why_tests_cant": "52 kinds times all octet strings; the accessors are not covered by any test in the repository", "anchors": ["dis-rs/src/common/mod.rs: Interaction", "dis-rs/src/common/model.rs: originator, receiver", "dis-rs/src/common/*/model.rs: impl Interaction"]}
{"id": "C59", "title": "Markings as text", "statement": "A string makes an entity marking exactly when it has at most 11 octets and an aggregate marking exactly when it has at most 31; a marking made from a string, of any script, written and read back, is the string without the characters at its end that are neither letters nor digits, so it is unchanged exactly when it is empty or ends in a letter or digit; the octets that follow are untouched.", "quantifier": "every string, every continuation of the input", "why_tests_cant": "all strings of up to 31 characters; which characters survive depends on the whole tail of the string", "anchors": ["dis-rs/src/common/entity_state/model.rs: FromStr for EntityMarking", "dis-rs/src/common/aggregate_state/model.rs: FromStr for AggregateMarking", "dis-rs/src/common/parser.rs: sanitize_marking", "dis-rs/src/common/entity_state/writer.rs", "dis-rs/src/common/aggregate_state/writer.rs"]}
{"id": "C60", "title": "Geocentric and geodetic coordinates", "statement": "geodetic_lla_to_ecef gives the point at the given altitude along the normal of the WGS-84 ellipsoid with the given latitude and longitude. ecef_to_geodetic_lla inverts it: from the geocentric coordinates of a point with altitude between -100 km and a million km it finds the longitude exactly, the latitude to 6e-12 radians and the altitude to 0.03 mm, and converting any point at least 6300 km from the centre there and back moves no coordinate by more than 0.1 mm + 6e-12 of its distance from the centre. It takes the arc sine and arc cosine only of numbers in their domain 300 km or more from the centre (within 36 km there is a whole region where it does not, and returns NaN).", "quantifier": "all latitudes, longitudes and altitudes in the range, and all points at least 6300 km and at most a million km from the centre (real arithmetic)", "why_tests_cant": "the inverse is a series truncated after two terms with one step of improvement; a test compares a few points, and says nothing about the worst case over the globe or at the switch between the two series.", "anchors": ["dis-rs/src/utils.rs: ecef_to_geodetic_lla, geodetic_lla_to_ecef, EcefToGeoConstants"]}
{"id": "C61", "title": "Partial updates over a network that loses, repeats and reorders", "statement": "An encoder in partial-update mode is fed Entity States (and PDUs of kinds without a history), each result is sent as a datagram, and the network delivers any of the datagrams, any number of times, in any order. The receiver hands over exactly one PDU per datagram delivered: a full update as it was sent, rounded; a partial update as it was sent, except for force, type, location, orientation and appearance, which are those of the last full update of that entity delivered before, and the marking, which is that of the first one (fixed defaults if none was delivered). Once a full update has arrived, an entity whose omitted fields do not change is shown as in full-update mode whatever is lost later; a full update delivered late replaces a newer one.", "quantifier": "every sequence of PDUs with every clock, every selection, repetition and order of delivery", "why_tests_cant": "network schedules are unbounded; tests use a lossless in-order pipe", "anchors": ["cdis-assemble/src/entity_state/codec.rs: encode_entity_state_body_and_update_state, decode_entity_state_body_and_update_state", "cdis-assemble/src/codec.rs: CdisPdu::encode, CdisPdu::decode", "cdis-assemble/src/lib.rs: parse"]}
{"id": "C62", "title": "What chains of builder calls put on the wire", "statement": "Whatever builder calls are made on a PDU status, in whatever order and for whatever PDU type, a receiver reads exactly the indicators that type has, each with the value given last (0 if none was given), provided every value fits its bits. Any chain of calls on a new header gives the type named last and its family, the last timestamp and status and 12 more than the last body length; it fails exactly for body lengths above 65523 in a build with overflow checks. Record sets built by any chain of calls, with records of one length, are read back as built. with_capabilities_flags gives a version 6 reader exactly the flags, whatever the entity type. (Proved deviations: an indicator value that does not fit spills into its neighbour; a record set with records of different lengths is never read back.)", "quantifier": "every finite sequence of builder calls, every PDU type, every value", "why_tests_cant": "the calls interact in unbounded chains and with the PDU type chosen elsewhere", "anchors": ["dis-rs/src/v7/model.rs: PduStatus", "dis-rs/src/v7/builder.rs", "dis-rs/src/common/model.rs: PduHeader, RecordSet", "dis-rs/src/common/entity_state/builder.rs: with_capabilities_flags"]}
{"id": "C63", "title": "Partial updates of designators, radios and IFF systems over a lossy network", "statement": "The same network with Designators, Transmitters and IFF PDUs too, in partial-update mode: the receiver hands over one PDU per datagram delivered; complete updates as they were sent, rounded; what a partial update leaves out - name, code, power, wavelength and spot of a designator; type, antenna location, frequency, bandwidth, power and modulation of a radio; identification of an IFF system - as in the last complete update of that designator, radio or IFF system delivered before. Once a complete update has arrived, a system whose omitted data do not change is shown as in full-update mode whatever is lost. (Violated: a partial Transmitter update puts the antenna at the centre of the entity; a partial IFF update always loses the system identification, and its layer 3 is not read: default Mode 5 data are shown and the unread bits are taken for another PDU.)", "quantifier": "every sequence of PDUs with every clock, every selection, repetition and order of delivery", "why_tests_cant": "network schedules and histories are unbounded; tests use single PDUs with an empty history", "anchors": ["cdis-assemble/src/designator/codec.rs", "cdis-assemble/src/transmitter/codec.rs", "cdis-assemble/src/iff/codec.rs", "cdis-assemble/src/iff/parser.rs: iff_body, iff_layer_3, mode_5_basic_data", "cdis-assemble/src/codec.rs: CdisPdu::encode, CdisPdu::decode"]}
{"id": "C64", "title": "Writing a PDU comes to an end", "statement": "serialize either reports that the buffer is too small or writes the PDU and returns; in particular a PDU that was received, or decoded from C-DIS, can be written again. (Violated by Entity State and Aggregate State PDUs whose marking has more octets than its field: the number of padding octets is computed by a subtraction that underflows, which panics in a checked build and otherwise writes padding until memory is exhausted. Such markings come from the network: an octet that is not UTF-8 is read as a character of three octets, and C-DIS carries markings of up to 15 characters. Proved: exactly which PDUs, which received octets and which C-DIS PDUs are affected.)", "quantifier": "every PDU, buffer and capacity; every octet string a PDU is read from; every C-DIS PDU and decoder state", "why_tests_cant": "all octet strings; no test in the repository has a marking outside ASCII", "anchors": ["dis-rs/src/common/entity_state/writer.rs: EntityMarking", "dis-rs/src/common/aggregate_state/writer.rs: AggregateMarking", "dis-rs/src/common/parser.rs: sanitize_marking", "dis-rs/src/common/writer.rs: Pdu::serialize", "cdis-assemble/src/records/codec.rs: CdisEntityMarking"]}
{"id": "C65", "title": "No datagram ends the gateway", "statement": "Whatever arrives on the DIS side, the codec encodes it or rejects it and the gateway goes on. (Violated: C-DIS markings are cut to 11 octets without regard to characters, and the codec panics when octet 11 lies inside one. An eight-bit letter in a received marking has three octets once read, so a well-formed Entity State PDU with the marking TRES AMIG\u00d3S in ISO 8859-1 ends any gateway in full-update mode. Proved: exactly which PDUs make the encoder panic, that apart from the panics of C18 nothing else in a datagram does, because the output for 1500 octets always fits the encoder's buffer, that a gateway which received no such datagram stays up, and that such a datagram ends it on every schedule.)", "quantifier": "every datagram, every encoder state and clock, every schedule of the gateway", "why_tests_cant": "all octet strings and schedules", "anchors": ["cdis-assemble/src/records/model.rs: CdisEntityMarking::new", "cdis-assemble/src/entity_state/codec.rs", "cdis-gateway/src/codec.rs: Encoder", "cdis-gateway/src/main.rs", "dis-rs/src/common/parser.rs: sanitize_marking"]}
{"id": "C66", "title": "A second gateway takes nothing away", "statement": "What a PDU has lost when it leaves a C-DIS gateway pair it has lost; a second pair, or any number of them in series, hands on what came out of the first. (Violated. Proved: the fields for which it holds - velocities, accelerations, powers, ranges, beam angles, encoding schemes and every field kept as it is - and exactly which fields decide whether a PDU that left one gateway leaves a second unchanged; for eleven kinds of PDU any number of gateways after the first change nothing but the timestamp. Orientations, angular velocities, antenna angles and offsets in centimetres move by at most one step towards zero per gateway, and do so for up to six gateways in a row; timestamps, masses and bandwidths creep too (by at most 37 units, one gram and about one step of the mantissa per gateway); an offset that was sent in metres is cut to 327.67 m by the second gateway; the sixth parameter of an IFF PDU is in the place of the first after one gateway and gone after two; latitude and longitude are divided by more than 16 and 8 at each gateway.)", "quantifier": "every PDU that C-DIS can carry, every number of gateways in series, every state of their encoders and decoders", "why_tests_cant": "unboundedly many gateways; whether a number comes back as it is depends on two or four floating point roundings", "anchors": ["cdis-assemble/src/records/codec.rs", "cdis-assemble/src/collision/codec.rs", "cdis-assemble/src/iff/codec.rs", "cdis-assemble/src/transmitter/codec.rs"]}
{"id": "C67", "title": "C-DIS makes PDUs no longer", "statement": "A PDU that was read and is encoded to C-DIS takes no more octets on the C-DIS side than it took on the DIS side, and so does a whole datagram through the gateway. (Violated: an Electromagnetic Emission PDU whose tracks name more than 36 different simulation addresses may grow, because every address goes into a table that only 31 of them can be looked up in; an IFF PDU grows when its system type is neither transponder nor interrogator but carries layer 3 or 4, because basic data are made up. Proved for every other PDU in every mode and every state of the encoder; Entity State PDUs shrink by at least 44 octets, partial updates by at least 81; Electromagnetic Emission PDUs sent as partial updates never grow.)", "quantifier": "every PDU and datagram that can be read, every encoder mode, history and time", "why_tests_cant": "The ratio depends on all counts, flags and variable-length integers at once; tests measure a few PDUs.", "anchors": ["cdis-assemble/src/codec.rs: CdisPdu::encode", "cdis-assemble/src/records/model.rs: record_length", "cdis-assemble/src/electromagnetic_emission/model.rs: record_length", "cdis-assemble/src/iff/model.rs: record_length", "cdis-gateway/src/codec.rs: encode_buffer"]}
{"id": "C68", "title": "Full updates neither too often nor too seldom", "statement": "In partial-update mode, whatever is sent and when: with every PDU of an entity (emitter, designator, radio, IFF system) a full update of it has been sent that is not older than its heartbeat period times the multiplier; no two full updates of it are closer together than that; so n + 1 of them take at least n such periods. Only differences of times matter: the same PDUs at any later time are encoded the same.", "quantifier": "every history of PDUs and times, every subject, all heartbeat settings, every clock offset", "why_tests_cant": "The bounds concern all pairs of moments in arbitrarily long histories and the rounding of the clock's 32-bit arithmetic.", "anchors": ["cdis-assemble/src/codec.rs: EncoderState, CodecOptions", "cdis-assemble/src/entity_state/codec.rs: evaluate_timeout_for_entity_type", "cdis-assemble/src/designator/codec.rs: evaluate_timeout_for_designator", "cdis-assemble/src/transmitter/codec.rs: evaluate_timeout_for_transmitter", "cdis-assemble/src/iff/codec.rs: evaluate_timeout_for_iff", "cdis-assemble/src/electromagnetic_emission/codec.rs: evaluate_timeout_for_ee"]}
{"id": "C69", "title": "What the codec remembers is bounded", "statement": "An encoder or decoder that runs for ever forgets entities that are gone. (Violated: nothing is ever forgotten, neither after any time nor when the entity is removed; encoders in full-update mode keep entries that are never used. Proved: exactly what an encoder and a decoder hold after any history, one entry per subject ever encoded - respectively fully updated - and that for every n up to 2^48 there is a history after which n entries of entities not heard of for up to n hours are held for ever.)", "quantifier": "every history of PDUs and times, both modes, any number of entities", "why_tests_cant": "A leak shows after days; the exact contents concern all histories.", "anchors": ["cdis-assemble/src/codec.rs: EncoderState, DecoderState", "cdis-assemble/src/entity_state/codec.rs: encode_entity_state_body_and_update_state", "cdis-assemble/src/designator/codec.rs: encode_designator_body_and_update_state"]}
{"id": "C70", "title": "Restarting an encoder or a decoder", "statement": "In partial update mode an encoder or a decoder may be replaced by a fresh one at any time. After a restart of the encoder, a decoder that goes on hands over every PDU as a fresh decoder would: nothing of what it remembers of the time before shows. After a restart of the decoder, once a heartbeat window (interval times multiplier) has passed, it hands over every PDU of an entity state, emission, designator or transmitter as the old decoder would have. More generally, from a full update of a subject on, any two decoders hand over the same for it, whatever they had received before. (Violated by the marking of entities: a decoder keeps the marking of the first full update it ever received for an entity id, so that after a restart of the encoder partial updates come out with the marking of another entity. All else holds.)", "quantifier": "all histories, all restart positions, all decoder states, all subjects, all environments", "why_tests_cant": "the restart can come at any point of any history, and what is remembered is a function of all that came before", "anchors": ["cdis-assemble/src/entity_state/codec.rs: encode, decode", "cdis-assemble/src/codec.rs: EncoderState, DecoderState", "cdis-assemble/src/designator/codec.rs", "cdis-assemble/src/transmitter/codec.rs", "cdis-assemble/src/electromagnetic_emission/codec.rs", "cdis-assemble/src/iff/codec.rs"]}
{"id": "C71", "title": "How old and how far off a position is", "statement": "Encoder and decoder joined directly. In partial update mode the location and orientation handed over for an entity are those (to the precision of C-DIS) of a report of the same entity that is at most one heartbeat window old, the last one for which a full update went out; so an entity near the surface of the Earth that moves at most v m/s along every axis is handed over within 14 m plus v times the window of where it is. In full update mode it is always within 14 m. Between two full updates the location handed over stands still, however fast the entity moves: the velocity is not used to carry it on.", "quantifier": "all histories, all clocks that do not run backwards, all settings of the heartbeats, all speeds, all locations near the surface, all environments that compute the geodetic conversion to the stated precision", "why_tests_cant": "the age depends on the whole history and the clock, and the distance on every location on Earth", "anchors": ["cdis-assemble/src/entity_state/codec.rs: encode, decode", "cdis-assemble/src/codec.rs: EncoderState, DecoderState, CodecOptions", "cdis-assemble/src/records/codec.rs: encode_world_coordinates, decode_world_coordinates"]}
{"id": "C72", "title": "No two PDUs look alike on the wire", "statement": "The octets that serialize writes for a PDU are never a prefix of those for another, whatever follows, and the octets of a datagram determine the list of PDUs in it; likewise the bits of C-DIS PDUs and the octets of C-DIS datagrams, up to the rounding of world coordinates. (Violated in C-DIS by Electromagnetic Emission PDUs that differ only in emitter numbers, which are not written; in DIS two markings that differ in trailing spaces are written alike.)", "quantifier": "all pairs of well-formed PDUs and lists of PDUs, of all supported kinds and sizes", "why_tests_cant": "the claim is about all pairs of PDUs", "anchors": ["dis-rs/src/common/model.rs: Pdu::serialize", "dis-rs/src/common/parser.rs: parse_pdu", "cdis-assemble/src/lib.rs: SerializeCdisPdu", "cdis-assemble/src/parsing.rs: parse"]}
{"id": "C73", "title": "Encoders and decoders with different settings", "statement": "Of the settings of a decoder only the update mode matters: heartbeats, multiplier and optimisation may differ from those of the encoder. An encoder that optimises for bandwidth sends exactly what one that optimises for completeness sends, without the entity capabilities, and a decoder hands over the same without them. A decoder in either mode serves an encoder in full-update mode. (Violated by an encoder in partial-update mode with a decoder in full-update mode: every entity state between two full updates is handed over at the centre of the Earth, without force, type and marking. Designator PDUs do not mind.)", "quantifier": "all histories, clocks, settings, encoder and decoder states", "why_tests_cant": "the settings range over all heartbeats and the effect of a mismatch depends on the history", "anchors": ["cdis-assemble/src/codec.rs: CodecOptions, CodecUpdateMode, CodecOptimizeMode", "cdis-assemble/src/entity_state/codec.rs: encode_entity_capabilities, decode", "cdis-assemble/src/designator/codec.rs: decode"]}
{"id": "C74", "title": "The gateway's sockets", "statement": "A gateway receives what is sent to its configured endpoints and sends what it makes to the configured remote addresses; it does not process its own datagrams, so that what comes from elsewhere is passed on once and the gateway comes to rest when nothing more comes; every socket setting (remote address, mode, time to live, blocking of own datagrams) has its documented effect.", "quantifier": "all configurations, hosts, senders, datagrams and all orders in which the tasks run", "why_tests_cant": "the addresses are not under the control of a test and an endless echo has no last step to assert on; the unit tests open no socket", "anchors": ["cdis-gateway/src/main.rs: create_udp_socket, reader_socket, writer_socket, encoder, decoder", "cdis-gateway/src/config.rs: UdpEndpoint::try_from"]}
{"id": "C75", "title": "Names of all kinds over C-DIS", "statement": "An entity is seen by every receiver on a C-DIS link whatever its name is: a full update of it can be read, whatever comes before and after it, and what arrives of the name has as many characters as were sent, at most eleven; characters that C-DIS has no code for are replaced, and nothing but the name suffers.", "quantifier": "all Entity States, all names (any characters of Unicode), all settings, times and histories, all losses, repetitions and reorderings", "why_tests_cant": "names are unbounded in kind and what goes wrong depends on all characters together, on what follows in the datagram and on the update mode; the unit tests use two ASCII markings", "anchors": ["cdis-assemble/src/records/model.rs: CdisEntityMarking::new, encoding", "cdis-assemble/src/records/parser.rs: entity_marking", "cdis-assemble/src/records/writer.rs: CdisEntityMarking::serialize", "cdis-assemble/src/codec.rs: encode_entity_state_body, decode_entity_state_body"]}
{"id": "C76", "title": "Simulations of version 6", "statement": "A PDU of DIS version 6 (or older) is read as the PDU of version 7 with the same octets after the header is, with no PDU status; the version 6 record of capabilities, and the absence of variable transmitter parameters, are the only differences. A gateway makes of a datagram of version 6 what it makes of the same PDUs in version 7, and a simulation of version 6 on the other side can hear them.", "quantifier": "all octets, versions 1 to 6, all PDU types; all settings, times and states of the gateway; all datagrams", "why_tests_cant": "the unit tests read one Entity State PDU of version 6; the claim compares every sequence of octets with its double in the other version, valid or not", "anchors": ["dis-rs/src/common/parser.rs: parse_multiple_header, pdu_body, parse_v6", "dis-rs/src/common/entity_state/parser.rs: entity_state_body", "dis-rs/src/common/transmitter/parser.rs: transmitter_body", "dis-rs/src/v6/entity_state/parser.rs", "dis-rs/src/common/entity_state/compatibility.rs", "cdis-assemble/src/records/codec.rs: CdisHeader encode, decode"]}
{"id": "C77", "title": "Exercises do not mix", "statement": "Several exercises can share a link (the header of every PDU names its exercise, and numbers are unique within an exercise only): what a pair of gateways hands over for one exercise is what it would hand over if the others were not there.", "quantifier": "all histories of PDUs of all kinds and exercises, all times, all settings of the encoder and of the decoder", "why_tests_cant": "the history of one exercise is interleaved with that of others in ways without bound; the unit tests use one exercise", "anchors": ["cdis-assemble/src/codec.rs: EncoderState, DecoderState", "cdis-assemble/src/entity_state/codec.rs: encode_entity_state_body_and_update_state, decode_entity_state_body_and_update_state", "cdis-assemble/src/transmitter/codec.rs", "cdis-assemble/src/designator/codec.rs", "cdis-assemble/src/iff/codec.rs", "cdis-assemble/src/electromagnetic_emission/codec.rs"]}
{"id": "C78", "title": "Many gateways on a link", "statement": "A gateway that hears several others hands over, of what each of them sends, what it would hand over if that one were alone on the link, in whatever way their datagrams are interleaved; and an entity that passes from one gateway to another, and back, is always handed over as the gateway says that speaks for it.", "quantifier": "any number of senders, all histories, all interleavings of their datagrams (schedules), all modes; for Entity States all losses, repetitions and reorderings", "why_tests_cant": "the decoder has one history for all senders, and the interleavings are unbounded; the unit tests have one encoder and one decoder", "anchors": ["cdis-assemble/src/codec.rs: DecoderState", "cdis-assemble/src/entity_state/codec.rs: decode_entity_state_body_and_update_state", "cdis-gateway/src/codec.rs: Decoder"]}
{"id": "C79", "title": "What is sent fits into a datagram", "statement": "Everything that the gateway sends, on either side, fits into a UDP datagram (65507 octets), so that no send is refused for its length; and the gateway at the other end reads all of it (it reads 1500 octets of a datagram). The same holds of the DIS PDUs that a program makes with the library of a C-DIS datagram.", "quantifier": "all datagrams received, of any content and length, all modes and states of the codec, all schedules of the gateway's tasks; all times", "why_tests_cant": "a refused send ends the writer's task and with it the flow; the sizes depend on everything the datagram may contain, and the unit tests send nothing", "anchors": ["cdis-gateway/src/main.rs: writer_socket, READER_SOCKET_BUFFER_SIZE_BYTES", "cdis-gateway/src/codec.rs: Encoder::writing, Decoder::writing", "cdis-assemble/src/records/codec.rs", "dis-rs/src/common/model.rs: VariableDatum", "cdis-assemble/src/electromagnetic_emission/codec.rs"]}
{"id": "C80", "title": "The time that a timestamp stands for", "statement": "A timestamp made of a number of seconds past the hour stands for that time: its units are those of the documented scale (2^31 - 1 units an hour in DIS, 2^25 - 1 in C-DIS) and its nanoseconds are those of the seconds; and a timestamp made of units, as every receiver makes it, shows the nanoseconds past the hour of those units. A timestamp that is sent shows its receiver the time that it shows its sender.", "quantifier": "all numbers of seconds, all units of 32 bits, both formats", "why_tests_cant": "two float conversions with rounding, over 2^32 values; the unit tests look at the scale bit only", "anchors": ["dis-rs/src/common/model.rs: DisTimeStamp", "dis-rs/src/constants.rs: NANOSECONDS_PER_TIME_UNIT", "cdis-assemble/src/records/model.rs: CdisTimeStamp", "cdis-assemble/src/constants.rs: NANOSECONDS_PER_TIME_UNIT"]}
{"id": "C81", "title": "What has been read in C-DIS can be written again", "statement": "A C-DIS PDU that has been read, from any bits and of any sender, can be written again, and what is written is read as the same PDU; so a PDU that is read and written any number of times in a row (as by relays) arrives as it was.", "quantifier": "all bits that are read as a PDU of any type, all numbers of relays", "why_tests_cant": "the writer must accept every value the reader can produce, and invert it: for every bit pattern of every field, and after any number of repetitions; the unit tests read one written example per record", "anchors": ["cdis-assemble/src/parser.rs: parse_cdis_pdu", "cdis-assemble/src/writing.rs: SerializeCdis for CdisPdu", "cdis-assemble/src/records/parser.rs: parse_world_coordinates, WORLD_COORDINATES_LAT_SCALE", "cdis-assemble/src/records/writer.rs: WorldCoordinates", "cdis-assemble/src/records/model.rs: CdisVariableParameter, CdisEntityMarking"]}
{"id": "C82", "title": "What the decoder hands over can be read by the simulations", "statement": "Whatever C-DIS PDUs a gateway receives, the DIS PDUs that its decoder hands over can be read by the simulations as the PDUs they are meant to be, and each one ends where the next one begins.", "quantifier": "all streams of C-DIS PDUs read from any bits, in any order and of any senders; all options of the decoder; any octets after a PDU", "why_tests_cant": "the conversion must meet the conditions of the DIS reader for every value that the C-DIS reader produces and every history of the decoder; the unit tests convert single PDUs and do not read back what comes out", "anchors": ["cdis-assemble/src/codec.rs: decode", "cdis-assemble/src/entity_state/codec.rs: decode", "cdis-assemble/src/fire/codec.rs, detonation/codec.rs, transmitter/codec.rs, signal/codec.rs, set_data/codec.rs", "dis-rs/src/common/parser.rs: parse_pdu", "dis-rs/src/common/writer.rs: Serialize for Pdu"]}

# Formal model of zlubsen/dis-rs in Lean 4 — design

## Trusted base
* **Kernel and axioms.** Lean 4.33.0's kernel checks every theorem. The theorems depend on no axioms other than the three standard ones, `propext`, `Quot.sound` and `Classical.choice` (`AXIOMS.md` lists what each theorem of the manifest depends on; many need fewer). No axioms are added; no compiled evaluation is used. `decide` / `decide +kernel` is used only for closed facts: concrete witnesses, and finite domains that are exhausted (256 × 256 status octets, alphabets).
* **Model = code.** The Rust code is not run here. The tie between code and model is reading: every definition of the model carries a comment with the file and lines it models, and says where it simplifies. As further evidence, `Verif/Conformance` repeats about 220 of the repository's 228 unit tests on the model (the octets copied from the tests by a script, the expected values from their assertions, floats as binary32/64 bit patterns), evaluated by the kernel: these are tests of the model against the behaviour the authors recorded, not proofs, and no claim of the manifest rests on them. Left out are the tests of a test-only float type (`types/parser.rs`), the parsing of `Other` bodies with an originator, and one IFF conversion.
* **SISO-REF-010.** The XML from which `dis-rs/build.rs` generates the enumerations is not in the repository. The generator's scheme is modelled for arbitrary tables (C25, C26). PDU models keep the canonical raw integer in the place of an enumeration value. The discriminants that drive control flow (PDU type numbers, record type numbers, attach/articulate kinds, protocol versions) come from SISO-REF-010 and the repository's tests. Masks of bit-field enumerations are parameters of the model (`Env`), so the theorems hold for whatever the tables say.
* **Libraries.** nom's combinators, `bytes::BytesMut`, `f32/f64` arithmetic, tokio channels and tasks are modelled by their documented behaviour (below). Their implementations are trusted.

## What is modelled
| Part of /repo | Model |
|---|---|
| `dis-rs/src/common/parser.rs`, `writer.rs`, `model.rs`, header, PDU status, all record kinds | `Verif/Dis/Header`, `Records` (with `*Lemmas`, `*Wf`) |
| `dis-rs/src/common/<pdu>/{parser,writer,model}.rs` for all 54 bodies (53 kinds and Other) | `Verif/Dis/EntityInfo`, `Warfare`, `Siman`, `SimanR`, `Logistics`, `Emission`, `Iff`, `Radio`, `EntityMgmt`, `Body`, `Lengths` |
| `dis-rs/src/lib.rs`, `common/mod.rs`: parse, parse_v6, parse_v7, serialize, finalize | `Verif/Dis/Pdu` |
| `dis-rs/build.rs` (enumeration and bit-field generator) | `Verif/Dis/Enums` |
| entity type text, timestamps | `Verif/Dis/Text` |
| `cdis-assemble/src/types`, `records`, all PDU modules' model/parser/writer | `Verif/Cdis/*` |
| `cdis-assemble/src/codec.rs`, `records/codec.rs`, `*/codec.rs` (encoder/decoder with state) | `Verif/Codec/*` |
| `cdis-gateway/src/codec.rs`, `stats.rs`, `config.rs`, `main.rs` (tasks, channels) | `Verif/Gateway/*` |

## What is not modelled
* HTTP, HTML layout and the static pages of the gateway's web site (the figures of its panels and the feed of a browser are modelled in `Gateway/Site`), logging, serde/TOML decoding, command line parsing, real sockets (a socket is a source of arbitrary datagrams that may fail at any time) and real time (clock readings are arbitrary).
* The geodetic conversion (dis-rs/src/utils.rs, in f64) is modelled over the real numbers (`Dis/Geodesy`, C60). The codec model takes the f64 conversion as a parameter; C41_position and C38_absent_location_violated assume of it that it is close to the real one (`Computes`).
* Builders (`with_*`) that only set the field they name (the others are in `Dis/Builders`) and `Display` of most types; the v6 module beyond what `common` uses; capacity growth of buffers (memory exhaustion).
* The `futures`/tokio scheduler: any interleaving is allowed. A task step is one await-to-await section.

## Modelling conventions
* **Octets** are `UInt8`, a `BytesMut` writer is the list of octets it appends; the `u16` it returns is a separate function. A nom parser is `List tok → Res`, `Res = ok value rest | err | panic`; `panic` stands for Rust panics (slices out of range, unwrap, overflow in checked builds: a parameter `checked` of the environment selects the build).
* **C-DIS bit streams** are `List Bool`, most significant bit first, with the same parser type.
* **Floats** on the DIS side are bit patterns (the code only copies bits). In the codecs they are IEEE binary32/64 with exact rational values and round-to-nearest-even (`Core/Ieee`).
* **Lengths** computed with `u16` or `as` casts are modelled with the cast wherever truncation can be observed.
* **Strings**: where the code uses `String` for wire data the model has its octets; UTF-8 is only considered where it matters.
* **Maps** (`HashMap`) are functions from keys to options, since the code never iterates over them observably.

## Specifications and statements
Each theorem file under `Verif/Props` begins with the specification vocabulary used in its statements (`RoundTrips`, `Accounts`, `lastFull`, …), independent of the functions it is about. Theorems are named `Cxx_…`; those ending in `_violated` / `_violates` / `_lost` … prove that the code breaks the property, `_partial` marks theorems that exclude something. `_witness` theorems and examples show that hypotheses can be met.

## Mutation testing
`seeded/LOG.jsonl` records the edits made to scratch copies of the model and which theorems failed.

## Plan per property
* **C01 DIS header round trip** (proved) — `Dis/Header`: reader and writer modelled separately over octet lists; round trip by rewriting with read-after-write lemmas of the primitives; the twelve octets are also spelled out field by field (C01_header_wire).
* **C02 PDU status octet round trip** (proved) — `Dis/Header`: status octet reader and writer as functions of the type number. Specification: a table (which indicators each type defines, and at which bits). Proved for all 256 types and all 256 octets: the domain is finite and exhausted, by kernel evaluation over the whole of it.
* **C03 Common record round trips** (proved) — `Dis/Records`: one reader/writer pair per record, rewriting.
* **C04 Variable parameter records** (partial) — Per kind rewriting; the separation record is refuted for every record (the reader takes an octet less than the writer wrote).
* **C05 Variable datum round trip and padding** (partial) — Exact result for every datum; equality with the specification exactly for aligned data.
* **C06 Padding arithmetic** (proved) — Arithmetic; specification: least multiple.
* **C07 Record sets and record specifications** (proved) — Induction over the lists of sets and records.
* **C08 Entity information / collision PDUs round trip** (partial) — One module section per PDU body in `Dis/*`; reader and writer modelled separately, `Wf` states the ranges of count fields; round trip by rewriting, induction for lists. What the code violates is refuted in `Props/BodyBugs` (and `Props/Exact*`).
* **C09 Warfare PDUs round trip** (partial) — One module section per PDU body in `Dis/*`; reader and writer modelled separately, `Wf` states the ranges of count fields; round trip by rewriting, induction for lists. What the code violates is refuted in `Props/BodyBugs` (and `Props/Exact*`).
* **C10 Simulation management PDUs round trip** (partial) — One module section per PDU body in `Dis/*`; reader and writer modelled separately, `Wf` states the ranges of count fields; round trip by rewriting, induction for lists. What the code violates is refuted in `Props/BodyBugs` (and `Props/Exact*`).
* **C11 Reliable simulation management PDUs round trip** (partial) — One module section per PDU body in `Dis/*`; reader and writer modelled separately, `Wf` states the ranges of count fields; round trip by rewriting, induction for lists. What the code violates is refuted in `Props/BodyBugs` (and `Props/Exact*`).
* **C12 Logistics PDUs round trip** (proved) — One module section per PDU body in `Dis/*`; reader and writer modelled separately, `Wf` states the ranges of count fields; round trip by rewriting, induction for lists. What the code violates is refuted in `Props/BodyBugs` (and `Props/Exact*`).
* **C13 Distributed emission PDUs round trip** (partial) — One module section per PDU body in `Dis/*`; reader and writer modelled separately, `Wf` states the ranges of count fields; round trip by rewriting, induction for lists. What the code violates is refuted in `Props/BodyBugs` (and `Props/Exact*`).
* **C14 Radio PDUs round trip** (partial) — One module section per PDU body in `Dis/*`; reader and writer modelled separately, `Wf` states the ranges of count fields; round trip by rewriting, induction for lists. What the code violates is refuted in `Props/BodyBugs` (and `Props/Exact*`).
* **C15 Entity management PDUs round trip** (proved) — One module section per PDU body in `Dis/*`; reader and writer modelled separately, `Wf` states the ranges of count fields; round trip by rewriting, induction for lists. What the code violates is refuted in `Props/BodyBugs` (and `Props/Exact*`).
* **C16 Advertised length equals bytes written** (partial) — `body_length`, `pdu_length` and the returned counts are modelled as the three independent computations they are; exact difference per kind.
* **C17 A packet of concatenated PDUs parses to exactly those PDUs** (proved) — Induction over the list of PDUs using the round trip of each body and prefix determinacy.
* **C18 Parsing arbitrary bytes never panics** (partial) — Panics are an outcome of the parser monad (slice out of range, unwrap, overflow in checked builds); exact set of panicking inputs for release builds, and (`Props/Panics`, readers of fixed size `Fixed`) for checked builds.
* **C19 Parsing is deterministic in the consumed prefix** (proved) — A closure property (`Stable`) of all parser combinators, proved once per combinator, then for every parser.
* **C20 Truncated PDUs are rejected** (proved) — From C19 and the round trip.
* **C21 parse returns at least one PDU or an error, and makes progress** (proved) — A progress property of parsers, induction on the packet.
* **C22 Version filters** (proved) — From the model of the filters; end to end with C17.
* **C23 Version independence of body parsing for foreign types** (proved) — Case split on the type number.
* **C24 Buffer capacity check** (proved) — The buffer is modelled as contents and capacity.
* **C25 Enumerations preserve raw values** (proved) — `build.rs` generator modelled as a function from tables to conversion functions; tables are arbitrary.
* **C26 Bit fields preserve flags** (proved) — Same for bit fields: layouts are arbitrary.
* **C27 DIS timestamp conversion** (proved) — Bit arithmetic on UInt32.
* **C28 Entity type strings** (proved) — String model: decimal printing and parsing of naturals, splitting.
* **C29 C-DIS variable-length unsigned integers** (proved) — `Cdis/VarInt`, bit streams are `List Bool`; size classes.
* **C30 C-DIS variable-length signed integers** (partial) — Same for two's complement.
* **C31 C-DIS record length equals bits written** (partial) — `lenBits` (record_length) against the length of the bit list written; per record and body.
* **C32 C-DIS header round trip** (proved) — Rewriting over bit lists.
* **C33 C-DIS record round trips** (partial) — Per record.
* **C34 C-DIS entity marking** (partial) — Alphabet tables exhausted, induction on strings; `Props/CdisMarking`: the exact set of texts that survive.
* **C35 C-DIS PDU round trip with fields-present flags** (partial) — Every body of `Cdis/*`; the fields-present word as a function of the options; the shift caused by a marking outside ASCII is proved for every otherwise well-formed Entity State PDU.
* **C36 Concatenated C-DIS PDUs parse to exactly those PDUs** (partial) — Induction on packets; bits to octets by `packBits`.
* **C37 Partial updates are sent only while a full update is fresh** (proved) — `Codec/*`: encoder and decoder state maps, histories as lists of (time, PDU); induction on histories with a specification that looks back in the history (`lastFull`).
* **C38 Decoder reconstruction from partial updates** (partial) — Same, plus the composed encoder/decoder pipeline.
* **C39 Codec state is isolated per entity** (proved) — Projection of histories to a subject.
* **C40 Full-update mode is stateless** (proved) — Case split over bodies; induction on histories.
* **C41 C-DIS quantisation error bounds** (partial) — `Core/Ieee*`: a model of binary32/binary64 with exact rational values and rounding to nearest even (all operations used: add, sub, mul, div, round, casts); error bounds by rational arithmetic.
* **C42 Gateway encoder accounting** (partial) — `Gateway/Codec`: the codec tasks' packet functions including the persistent buffer.
* **C43 Gateway decoder accounting** (partial) — Same.
* **C44 Gateway statistics** (proved) — `Gateway/Stats`: event fold; specification: totals by filtering the history.
* **C45 Gateway configuration** (partial) — `Gateway/Config`: TOML structure already decoded (serde is not modelled); strings arbitrary.
* **C46 Gateway event channel** (partial) — `Gateway/System`: small-step transition system of reader, codec and writer tasks for both directions, statistics task, bounded channels (capacity 20 and 50), socket failures and Quit; violations as executions.
* **C47 Reading C-DIS input is total and prefix-determined** (proved) — Combinator closure as for C19, over bits.
* **C48 The gateway delivers in order under every schedule** (proved) — Inductive invariant over all reachable states of the system of C46.
* **C49 Left to itself the gateway comes to rest with everything delivered** (proved) — Well-founded measure for termination, case analysis for deadlock freedom.
* **C50 PDU fields are where IEEE 1278.1 puts them** (partial) — `Props/Wire`: an independent table of offsets per kind, compared with the octets of `Pdu.ser` by computation in the kernel (symbolic values). `Props/Wire2`: the octets from the first record of variable size to the end of the PDU, against a second small specification (`oDatum`, `oRecordSet`, `oLayer3`, ...), with exact conditions where the code pads differently. The positions of bits inside the IFF, spread-spectrum and crypto words are the tables `X.layout` (first field at the top bit, as the code documents them): the text of the standard is not in the sandbox, so the numbering of bits inside a word is taken from the code and only its octet offsets are checked against the standard.
* **C51 Framing: announced lengths, the header readers and parse** (proved) — `Dis/Scan` models the header readers; `Props/Framing` has the specification `Frames`/`HeaderOf` (cutting at announced lengths) and proves the readers equal to it by induction on the input.
* **C52 What a PDU keeps on its way through C-DIS** (proved) — `Props/CodecLossless` states encode-then-decode of each kind as a record update of the named fields; `Props/CodecScalars` gives the scalar conversions their meaning (`Whole q n`: n is q without its fraction) using the IEEE model, and the header.
* **C53 Timestamps through C-DIS** (partial) — `Props/CodecTime`: the scaled units are bounded by the rounding lemmas of `Codec/Quant`; the wire field is taken mod 2^26 as the writer does.
* **C54 Relaying a PDU keeps it** (proved) — A program logic for readers (`Core/Takes`: which octets were taken and what the value guarantees) with an instance per record and body (`Dis/Reads*`); `Props/Relay` combines them with the round trips of C08 to C15.
* **C55 Appearance and capabilities follow the entity type** (proved) — `Props/Classes`: the table of kinds and domains is stated as a relation; the words are located in the input with the logic of `Core/Takes`; the version 6 flags are compared bit by bit.
* **C56 The web page shows what the gateway did** (partial) — `Gateway/Site` models the conversion of the counters to figures, the templates as captions with their figures, and the broadcast channel with its lag rule as a step function; `Props/GatewaySite` proves the figures from the totals of C44 and the feed by invariants over every history. The text of numbers (`ByteSize`, `{:.2}`) is a parameter.
* **C57 A PDU that C-DIS can carry arrives** (partial) — `Props/Through` to `Through8`: `Arrives` composes encoder, writer, reader and decoder of one PDU for every encoder and decoder state; per kind the C-DIS body is shown well-formed from `FitsWire` (ranges through the rounding lemmas of `Codec/Quant`), read back by C35 and decoded by C52; packets by induction over the bit concatenation. `Through9`: two emissions that differ in their emitter numbers are sent as the same octets.
* **C58 Who a PDU is from and to** (partial) — `Dis/Interaction` models the Interaction trait of every body. `Props/Interaction`: tables of the octet positions of issuer and addressee per PDU type from IEEE 1278.1; a `Yields` logic (input octets vs. value) applied to all 52 body readers; Electromagnetic Emission by tracking counts and offsets of the first system, beam and track. Writing by the round trips, the gateway by C57. Four types violate it.
* **C59 Markings as text** (proved) — `Props/Marking`: `Stripped` specifies the string without its trailing non-alphanumerics and is shown unique; the readers are run on what the writers produce from `FromStr`; `Props/MarkingText` does the same for every text, over the model of `String::from_utf8_lossy` of C64.
* **C60 Geocentric and geodetic coordinates** (proved) — `Dis/Geodesy` models utils.rs over Mathlib's real numbers, expression by expression. `IsGeodetic` states what geodetic coordinates are (a point of the ellipsoid, its normal, an altitude along it). `Dis/GeodesyApprox` expands both branches of the first approximation to second order in e² with explicit remainders (|s/sin φ − 1| ≤ 10⁻⁵); `Dis/GeodesyNewton` bounds the step of improvement by the mean value theorem; `Dis/GeodesyPlanar` puts them together in a quadrant; `Props/Geodesy` adds signs, longitude, the poles, existence of geodetic coordinates by the intermediate value theorem and the way there and back.
* **C61 Partial updates over a network that loses, repeats and reorders** (proved) — `Props/Lossy`: `receive` reads every datagram as a packet and decodes it; `shown` specifies what is handed over from the datagrams delivered before, without mentioning decoder state. Per datagram: the encoding of a fitting Entity State, full or partial, is well-formed and read back (C35), and decodes to `shown` whenever the decoder's map holds what `fullUpdates` of the datagrams so far say; induction over the delivery.
* **C62 What chains of builder calls put on the wire** (proved) — `Dis/Builders` models the calls as lists applied left to right. `lastGiven` and `recordsGiven` specify what a chain gives without the model. The status octet of any status equals that of its projection to the indicators of the PDU type, to which the round trip of C02 applies; header and record sets by induction on the chain from the right, with C07 for reading; capabilities by the record round trip.
* **C63 Partial updates of designators, radios and IFF systems over a lossy network** (partial) — `Props/Lossy2`: as C61 with three more parts of the decoder state; `shownAll` extends `shown`. The invariant `RecallsAll` says that each map holds what the last complete update delivered said. For IFF layer 3 the unread bits are computed from the writer: the reader run on the written bits with an unknown system type.
* **C64 Writing a PDU comes to an end** (partial) — `Dis/Utf8` models String::from_utf8_lossy of the Rust standard library (the maximal-subpart rule) and sanitize_marking; `Dis/Write` models the writers of the two markings with wrapping usize arithmetic, as a partial function. `Props/Writing`: padding computed by cases; the position of the marking in the octets read by running the readers of all earlier fields (`Fixed`); for decoders an invariant on the markings kept. char::is_alphanumeric outside ASCII is a parameter.
* **C65 No datagram ends the gateway** (partial) — `Props/GatewayCrash`: `Cut` says that a text has more than 11 octets and no prefix of exactly 11; String::truncate is shown to panic exactly then. The datagram level by C42_panic_iff, the positions by the readers (as in C64), the system level by C49: a gateway at rest that has not ended has delivered everything, which it can not have. `Props/GatewaySizes`: the output for a datagram of at most 1500 octets never fills the 89600-bit buffer, because every PDU is written in at most 59 bits per octet it was read from (`Cdis/Sizes`: at most so many bits for each C-DIS record, for arbitrary field values; `Dis/Weights`: at least so many octets for each DIS record read); the buffer keeps its size.
* **C66 A second gateway takes nothing away** (partial) — `Props/Hops`: `Gateways env o k p q` chains `Arrives` (C57) k times. That a field survives a second passage is a statement about f32: decode after encode after decode. `Codec/Again` shows that a tenth of a whole number, rounded, times ten, rounded, is that number (the quotient has a remainder of at least a tenth of a unit in the last place, or ties to even), and that for the other factors dividing and multiplying again is within 0.006 of a step, so that rounding returns the code and truncation returns it or the next one towards zero (`Creeps`), by induction for any number of gateways. `Still` lists the fields whose second passage is not settled by that; `C66_again_iff` is by cases over the kinds. Violations by evaluation in the kernel; `Props/Drift` bounds the fields that do change again: timestamps and masses by induction, numbers with a decimal exponent by compounding the error of one gateway (`drifts`: (q + c)((1 + e)^k - 1)). Locations by induction from C57's per-gateway error under the assumption (`Inverse`) that the two conversions undo each other to a microradian.
* **C67 C-DIS makes PDUs no longer** (partial) — `Cdis/Sizes2`: for each C-DIS record an upper bound on the bits written and announced that mentions the counts and variable-length parts that are there (the flags and variable-length integers taken at their widest); `Dis/Weights2`: for each DIS record read exactly how many octets at least were consumed, by the reader's own steps. `Props/Compression`: the two are compared kind by kind; for Electromagnetic Emission the tables of fundamental parameters, beams and addresses are sums over deduplicated sorted lists, bounded by sums over the emitters, beams and tracks. `Compressible` is the condition under which the comparison goes through; just outside it the violations are evaluated in the kernel.
* **C68 Full updates neither too often nor too seldom** (proved) — `Props/Rate`: `Subject` (of C39) names what full and partial updates are of; the decision to send a full update (C37, five kinds) is restated once for all subjects, with the times rounded as `as_secs_f32` rounds them (`C37_window`). The rate is by induction on the number of full updates. That only differences of times matter is a simulation: the state with all times shifted, step by step. `Props/RateGateway` carries the limits to the whole gateway: by C48 what is sent are the results for the first datagrams received, and those are, put together, one run of the encoder over `carriedHistory`.
* **C69 What the codec remembers is bounded** (partial) — `Props/Memory`: the maps of EncoderState and DecoderState are functions to Option; holding an entry is `isSome`. One step adds the subject of the PDU or nothing (by cases over the kinds and modes), whole histories by induction.
* **C70 Restarting an encoder or a decoder** (partial) — Model: `encStream`/`decStream` from the empty state for the part after the restart. Specification: `unmarkPdu` (a PDU without its marking), `flagged`, `GoodFor`, `AboutAt` of C68. Proof: a relation `Agree k` between decoder states (equal about subject `k` except for the marking) is kept by every PDU and established by a full update of `k`; C68_fresh gives a full update within the window, `full_decision` one since the restart of the encoder.
* **C71 How old and how far off a position is** (proved) — Specification: `LocatedAt`, `NearSurface`, `Speed` (`Props/Tracking`), `Forward`, `GoodFor`, `FullAt` (C68). Proof: C38_end_to_end_entity_state says which report is shown, C68_fresh how old it can be, C41_position how far off one conversion is; the rest is the triangle inequality. `Computes env` (the precision of the geodetic conversion, C60) is met by an environment (`computes_exists`).
* **C72 No two PDUs look alike on the wire** (partial) — From the round trips (C08-C15, C17, C35, C36) with arbitrary octets after the PDU: a parser is a function, so octets that are the writing of two PDUs force them to be equal (`Props/Unique`).
* **C73 Encoders and decoders with different settings** (partial) — Specification: `leaner`, `incapable` (`Props/Settings`), `oneShot`, `esFields`, `noEsFields` (C38). Proof: by cases over the bodies for one step, by induction over the history for streams.
* **C74 The gateway's sockets** (partial) — Model: `Gateway/Socket.lean` (`createUdpSocket`, `accepts`, `Echo` = the encoder and decoder tasks of a gateway whose sockets hear themselves). Trusted specification of UDP sockets on Linux: `Os`, `Sock.name`, `Sock.source`, `Sock.hears`, `Os.resolve`. Proof: by cases over modes and addresses; the echo by an invariant over all steps (what the decoder sends is `Hollow`, the encoder answers that with an empty datagram).
* **C75 Names of all kinds over C-DIS** (partial) — Model: the codec (`esEnc`, `esDec`, `pduEnc`, `pduDec`), the C-DIS marking record and the packet reader of C36. Specification: `Named` (an Entity State that C-DIS can carry but for its name), `shownName`, `heard`, `renamed`, `shown` (C61). Proof: the reader of an Entity State up to the marking (`entityState_upto_marking`) joined with C34_arrives and C34_swallows; the network by induction over the datagrams with the invariant of C61.
* **C76 Simulations of version 6** (partial) — Model: the DIS reader (`pdu`, `parseBody`, `PduHeader.parse`, `EntityState.parse`, `Transmitter.parse`), the gateway encoder (`encodeBuffer`) and the codec. Specification: `framed` (the octets of a PDU around its version), `oldHeader`, `grown` (the PDU of version 7 that says the same: version, PDU status zero, capabilities of the kind of entity), `Old`. Proof: the readers are compared step by step (`andThen_eq`), the header on its twelve octets, the bodies because only Entity State and Transmitter look at the version and only Fire and Detonation at the status (whose indicators are zero in both); the gateway by induction over the datagram with the relation `Twin` (same octets on the wire, although the status differs as a record).
* **C77 Exercises do not mix** (partial) — Model: the codec with its histories (`encStream`, `decStream`), for the violation also the packet reader and the network of C61. Specification: `handedOver` (encoder and decoder, both just started), `ofExercise`, `Apart` (no subject of the exercise is a subject of another). Proof: induction over the history with two runs, one of all PDUs and one of those of the exercise, whose states agree about the subjects of the exercise (`pair_alone`, from the steps of C39 and from `subject_kept`); in full-update mode from C40; the violation from C61_network, with the first PDU a full update and the second, within the heartbeat, a partial one.
* **C78 Many gateways on a link** (partial) — Model: `encStream`, `decStream`, the packet reader and the network of C61. Specification: the interleaving is the list `heard` of C-DIS PDUs with their senders; `OwnSubjects`, `saidBy`, `handedOver` (C77). Proof: induction over the list with two decoders that agree about the subjects of the sender (`decoder_alone`, from the steps of C39); `subject_kept` carries the hypothesis from the DIS PDUs to the C-DIS PDUs; `receive_carried` of C61 is about datagrams of any encoders already.
* **C79 What is sent fits into a datagram** (partial) — Model: `Gateway/Codec.lean` (the buffers and what is written into them) and `Gateway/System.lean` (the tasks). Specification: `longestDatagram` (65535 less the headers of IP and UDP) and `readerBuffer` (main.rs:31). Proof: what is written ends within the buffer, whose length every call keeps; the decoder puts out twelve octets for each PDU it has read, and a PDU takes at least 63 bits (C47); both are carried to whole runs by C48. The witnesses are computed: a track takes 8 octets in DIS and up to 78 bits in C-DIS, and the writer of variable datums pads with 64 times the octets needed (C05).
* **C80 The time that a timestamp stands for** (partial) — Model: `Codec/Times.lean` (the constants and the conversions as f32 operations, `round32` after each). Specification: `Clock.documented`, `Clock.nanoseconds`, `Clock.units` (`Props/Times`), exact rationals. Proof: the error of each rounding is bounded (`round32_bound`), so that the product and quotient are near the exact ones for all 2^32 values, and `as u32` truncates or saturates.
* **C81 What has been read in C-DIS can be written again** (partial) — Model: the C-DIS reader and writer (`CdisPdu.parse`, `CdisPdu.ser`). Specification: `writable` (what keeps a body from being written), `plain`, `locations`, `CdisRelayed` (written and read k times), `Shrunk`. Proof: a program logic for the reader (`Gives`, Cdis/Gives) shows that whatever any parser returns fits the fields of the writer (`Wf`), with one instance per record; C35 does the rest. For the locations: the rounding error of f32 (`rnd_err`), the truncation of `as i32`, and the scales 17.19 and 8.91 that the reader divides by and the writer does not multiply with, so that every relay divides by more than 8.
* **C82 What the decoder hands over can be read by the simulations** (partial) — Model: the C-DIS reader, the decoder with its history (`decStream`), the DIS writer and reader. Specification: `readFromBits`, `presentable`, `steady`, `neverRead` (`Props/Onward`). Proof: bounds on whatever the C-DIS reader returns (`PduRead`, in the logic of C81) are carried through the conversion of each body to the conditions of the DIS round trip (`Pdu.Wf`), with the invariant that the entities remembered are well-formed (`Remembers`) by induction over the stream. The violations: whatever the DIS reader returns is well-formed (`Takes`), and what is handed over is not.

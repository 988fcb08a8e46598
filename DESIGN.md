# go-pfcp: formal model and proofs

Subject: `wmnsk/go-pfcp` in `/repo`, read as text only (nothing was built or run). Model and proofs: Lean 4 in `lean/`
(`lake build`; only core Lean is imported).

| directory | contents |
|---|---|
| `Verif/Go.lean`, `Time.lean`, `Utils.lean` | Go semantics (outcomes, slices with capacity, big-endian integers, wall clock), `internal/utils` |
| `Verif/IE` | `ie.go`, `ie_grouped.go`: elements, decoder, encoder, grouped elements, editing, decoding against a changing configuration |
| `Verif/Config` | the grouped-type configuration: histories, and interleavings of goroutines |
| `Verif/Message` | `header.go`, `message.go` and the 23 message files: table + interpreter |
| `Verif/Text` | digit strings, PLMN identities, domain names |
| `Verif/Fields` | the structured (`...Fields`) codecs, one transliteration each |
| `Verif/Acc` | the value accessors: table + interpreter |
| `Verif/Ctor` | the element constructors and read-back |
| `Verif/Flag` | the flag functions (`Has...`, `Is...`): table + interpreter, flag constructors |

Files named `*Props*.lean` contain the property theorems, `Spec.lean`/`Home.lean` the independent specifications, the others
model and helper lemmas.

## 1. How the Go code is modelled

* **Outcomes.** A Go call is a value of `Res α`: `ok a`, `err e` (a returned error) or `panic`
  (index/slice out of range, nil dereference). "Never panics" is therefore a theorem, not an
  assumption. Loops whose termination is not structural take fuel; running out of fuel yields
  `panic`, so a no-panic theorem also proves termination.
* **Bytes.** `[]byte` is `List UInt8`; `uint8/16/32/64` are Lean's fixed width integers, so every
  truncation and wrap-around of the code is present. `int` (64 bit) is `Nat`/`Int`: the sizes
  involved cannot overflow it.
* **Slices with capacity.** Decoded payloads are sub-slices of the caller's datagram, and Go lets
  `b[i:j]` reach up to the *capacity*. Structured decoders and accessors take a `Slice` = visible bytes + spare
  bytes behind them, so reading past the end shows up as over-reading or panic exactly as in Go.
* **nil.** `*IE` arguments that may be nil are `Option IE`; `net.IP`, `net.HardwareAddr` fields are
  `Option`. `nil` and empty `[]byte` payloads are identified (the code never distinguishes them).
* **Global configuration.** `IsGrouped` consults a replaceable package-level function and a map.
  Decoder and encoder take the predicate `g : IEType → Bool` as a parameter, theorems hold for every
  `g`; the configuration itself is a state machine over call histories and, for concurrency, over
  interleavings of lock/unlock/read/write steps.
* **Tables.** The 23 message files, the 276 value accessors, the 157 flag functions and the regular constructors are
  instances of a few templates. Each is modelled as a table transcribed from the source (every row cites file and lines) and
  one interpreter. Theorems are proved about the interpreter for every row; facts about the whole table are
  decided by the kernel (`decide +kernel`) over all rows, which is exhaustive, not a sample.
* **Specifications.** What a property demands is written down separately from the code's tables: the flag layout from TS 29.244
  (`Flag/Spec.lean`), the element type an accessor stands for from its name (`Acc/Home.lean`), the encodings by plain list
  functions (`IE/Spec.lean`), the message fields (`Message/Spec.lean`).

## 2. Trusted base

* Lean 4.33.0 kernel; axioms used: at most `propext`, `Classical.choice`, `Quot.sound`. AXIOMS.md lists them for every
  theorem in MANIFEST.json. No own axioms, no `sorry`, no `native_decide`, no `bv_decide`.
* The reading of the Go source: every definition cites file and lines. The tables were transcribed by scripts that refuse
  what they do not recognise, and checked against the source by reading; nothing comes from the compiler. The Go semantics used
  (slicing, `copy`, integer conversion, `encoding/binary`) is in `Verif/Go.lean`.
* Simplifications, all noted at the definitions: addresses are bytes (`net.ParseIP` and address printing are outside; where a
  constructor takes an address text, the model takes the parsed address, `none` for unparsable text); `time.Time` is an
  instant in nanoseconds, `time.Duration` nanoseconds; conversion of a duration to seconds through `float64` is a parameter of
  which only exactness on whole seconds is assumed (`SecondsOK`); error values are kept by kind, not by text; the Go memory
  model is sequential consistency with races detected as conflicting accesses.
* Not modelled: logging, `fmt`/`String()` output, memory exhaustion, the `examples/` program, UDP.

## 3. The properties

For each property: what is modelled, how it is proved, and the outcome. `_partial` theorems state their extra hypothesis; `_violated` theorems are proved negations with witnesses (section 4). The exact theorem names are in MANIFEST.json, the axioms of each in AXIOMS.md.

### C01 — IE encode/decode round trip (proved)

*Modelled.* `Parse`, `UnmarshalBinary`, `Marshal`, `MarshalTo`, `MarshalLen` (`ie/ie.go`) on arbitrary trees, for any set of grouped types.

*How.* Well-formedness and the encoding are plain recursive functions (`IE/Spec.lean`); mutual structural induction over the tree, with arbitrary bytes following the element.

*Outcome.* Any well-formed element tree, any nesting depth, any grouped-type configuration; also with trailing bytes.

*Theorems.* `C01_ie_roundtrip`, `C01_layout`.

### C02 — IE decode/encode is lossless (proved)

*Modelled.* As C01.

*How.* Strong induction on the input length: whatever the decoder returns, its encoding is the prefix consumed.

*Outcome.* For every accepted input and every configuration.

*Theorems.* `C02_parse_marshal`.

### C03 — IE decoding is total (proved)

*Modelled.* As C01; fuel exhaustion is a panic.

*How.* Strong induction on the input length.

*Outcome.* No panic and termination (the model counts running out of fuel as a panic) for all inputs and configurations.

*Theorems.* `C03_parse_total`.

### C04 — IE sequences decode compositionally (proved)

*Modelled.* `ParseMultiIEs` and `MarshalMultiIEs`.

*How.* Induction on the list, and on the input length for the converse.

*Outcome.* Both directions.

*Theorems.* `C04_parseMulti_concat`, `C04_parseMulti_lossless`.

### C05 — Encoded size is exact and writes stay inside it (partial)

*Modelled.* `MarshalTo` as writes into a buffer at an offset, with the buffer's spare capacity.

*How.* Refinement of the writer to the plain encoding by induction on the tree.

*Outcome.* Exactness and containment proved for all buffers at least MarshalLen long (C05_marshal_exact). For shorter buffers the code panics or writes past the end into spare capacity: C05_short_buffer_violated. Success on a short buffer always is an overrun (C05_success); the three outcomes for plain elements exactly: C05_short_exact.

*Theorems.* `C05_success`, `C05_short_exact`, `C05_marshal_exact`, `C05_short_buffer_violated`.

### C06 — Decoded tree is no larger than its input (proved)

*Modelled.* The trees returned by the decoder.

*How.* Strong induction on the input length with count and depth measures.

*Outcome.* Number of elements <= len/4, depth likewise.

*Theorems.* `C06_tree_bound`.

### C07 — Grouped constructors keep children, payload and length in step (proved)

*Modelled.* `newGroupedIE`, `NewGroupedIE`, `ValueAsGrouped`, `SetLength`.

*How.* Corollaries of C01 and C04 after an induction over the child list.

*Outcome.* For all child lists incl. nil entries; length equality needs the payload to fit 16 bits (otherwise see C10_length_violated).

*Theorems.* `C07_decoded`, `C07_newGrouped`, `C07_newGrouped_roundtrip`.

### C08 — Add, Remove and FindByType behave like a list (partial)

*Modelled.* `Add`, `Remove`, `FindByType` (`ie_grouped.go`).

*How.* Refinement to a plain list, by induction on the history of operations.

*Outcome.* Proved for every history of edits with non-nil arguments; Add with a nil element panics: C08_add_nil_violated. Exactly when: C08_add_panics.

*Theorems.* `C08_add_panics`, `C08_edits`, `C08_edits_roundtrip`, `C08_find`, `C08_not_grouped`, `C08_add_nil_violated`.

### C09 — An element cut short is rejected (partial)

*Modelled.* `UnmarshalBinary`.

*How.* Case analysis on where the cut is; negation by witness at the one bad cut.

*Outcome.* False as stated: an element whose header is the very end of the buffer is accepted although it declares payload (C09_truncated_violated). Every other truncation is rejected (C09_truncated_partial, C09_short_header). Exactly when: C09_truncated_exact.

*Theorems.* `C09_truncated_exact`, `C09_truncated_violated`, `C09_truncated_partial`, `C09_short_header`.

### C10 — Length field never disagrees with the payload (partial)

*Modelled.* `New`, `NewVendorSpecificIE`, `newGroupedIE`.

*How.* Arithmetic modulo 65536; negation by witness.

*Outcome.* False for payloads over 65535 bytes, the length wraps (C10_length_violated); true otherwise (C10_new_partial). Decoded back precisely when the size fits: C10_exact, C10_new_exact, C10_grouped_exact.

*Theorems.* `C10_exact`, `C10_new_exact`, `C10_grouped_exact`, `C10_new_partial`, `C10_length_violated`.

### C11 — Grouped-type configuration follows the documented rule for every history (proved)

*Modelled.* `AddGroupedIEType`, `SetIsGroupedFun`, `IsGrouped` as a state machine.

*How.* Induction on the history; comparison with a declarative rule.

*Outcome.* All histories of configuration calls with non-nil functions; a nil function makes every query panic (C11_nil_function_panics).

*Theorems.* `C11_grouped_rule`, `C11_order_irrelevant`, `C11_add_after_set`, `C11_nil_function_panics`.

### C12 — Concurrent configuration and decoding is race free (partial)

*Modelled.* Goroutines as lists of lock, unlock, read and write steps; the machine interleaves them arbitrarily (`Config/Concurrent.lean`).

*How.* An invariant over all reachable states for any number of goroutines; negation by an explicit schedule. For the equivalence a schedule is built for every such program by running single goroutines alone (`Config/RaceExact.lean`).

*Outcome.* The type table is never accessed by two goroutines at once (C12_table_race_free), for any number of goroutines. The function variable is read without the lock, so IsGrouped races with SetIsGroupedFun (C12_function_race_violated); no race when nobody calls SetIsGroupedFun (C12_function_race_partial). Exactly which programs have a race is C12_function_race_iff.

*Theorems.* `C12_table_race_free`, `C12_function_race_violated`, `C12_function_race_partial`, `C12_function_race_iff`.

### C13 — Re-encoding survives a configuration change (partial)

*Modelled.* Decoding under one set of grouped types, encoding under another.

*How.* Induction on the tree; negation by witness.

*Outcome.* False (C13_config_change_violated); true when no type in the tree changes classification (C13_config_change_partial). Exactly when: C13_exact; what is encoded never grows (C13_never_longer), and taking types out of the grouped set changes nothing (C13_ungroup).

*Theorems.* `C13_exact`, `C13_never_longer`, `C13_ungroup`, `C13_config_change_violated`, `C13_config_change_partial`.

### C14 — Header round trip (proved)

*Modelled.* `message/header.go` encoder and decoder.

*How.* Case analysis on the S flag, arithmetic on fixed-width integers.

*Outcome.* All headers with 24-bit sequence number, and exactly those: C14_exact gives the result for every header, C14_iff the condition.

*Theorems.* `C14_exact`, `C14_iff`, `C14_header_roundtrip`, `C14_sequence_truncated`.

### C15 — Header decoding is total and lossless (proved)

*Modelled.* `ParseHeader`, `UnmarshalBinary`.

*How.* Case analysis on the length; exact set of accepted inputs.

*Outcome.* All byte strings; also the exact set of accepted inputs.

*Theorems.* `C15_header_total_lossless`, `C15_header_accepts`.

### C16 — Header setters do what they say (partial)

*Modelled.* `SetSEID`, `SetMP`, `SetSequenceNumber`, `NewHeader`, `NewHeaderNodeRelated`, `NewHeaderSessionRelated`.

*How.* Bit-level lemmas for all octets; negation for every header.

*Outcome.* SetSEID, SetSequenceNumber proved. SetMP sets the FO flag and never MP, for every header (C16_setMP_violated); the priority value itself is readable (C16_setMP_partial). The constructor stores the priority unshifted (C16_constructor_priority_violated). Exact: C16_setMP_exact, C16_setMP_iff, C16_constructor_priority_iff, C16_constructor_flags_exact (unmasked arguments spill into other flags), C16_constructor_flags_iff.

*Theorems.* `C16_setMP_exact`, `C16_setMP_iff`, `C16_constructor_priority_iff`, `C16_constructor_flags_exact`, `C16_constructor_flags_iff`, `C16_wrappers`, `C16_setSEID`, `C16_setSequenceNumber`, `C16_setMP_violated`, `C16_setMP_partial`, `C16_constructor_priority_violated`, `C16_constructor_priority_partial`, `C16_constructor_flags`.

### C17 — The header length field delimits the message (partial)

*Modelled.* `Header.UnmarshalBinary`.

*How.* The decoder's result is shown not to depend on the length field; witnesses; for datagrams of several complete messages the exact (wrong) result is derived: the later messages become unknown elements of the first.

*Outcome.* False: the length field is ignored on decode, proved for every input (C17_length_ignored) with witnesses (C17_length_violated); true when the field is right (C17_length_partial) and only then (C17_length_iff, C17_message_iff). C17_bundle_violated: for every datagram of several complete messages the first is returned with the others as unknown elements.

*Theorems.* `C17_bundle_violated`, `C17_bundle_default`, `C17_length_ignored`, `C17_length_violated`, `C17_length_partial`, `C17_length_iff`, `C17_message_iff`.

### C18 — Message decoding is total (proved)

*Modelled.* `message.Parse`, all `UnmarshalBinary` (table + interpreter).

*How.* Induction over the element list, from C03 and C15.

*Outcome.* No panic, termination, and the exact set of accepted datagrams, for every configuration.

*Theorems.* `C18_parse_total`, `C18_parse_accepts`.

### C19 — Message type dispatch (proved)

*Modelled.* The dispatch in `message.Parse`, `MessageType`, `MessageTypeName`, the constructors.

*How.* All 256 octets decided; constructors generically.

*Outcome.* All 256 type octets, all constructors and arguments.

*Theorems.* `C19_dispatch`, `C19_constructor`, `C19_generic`.

### C20 — Message round trip for every message kind (proved)

*Modelled.* The 23 message kinds and `Generic`.

*How.* Generic theorem over any well-formed field table (filing after flattening is the identity), table well-formedness decided.

*Outcome.* All 23 kinds and Generic, any number of elements, any configuration.

*Theorems.* `C20_exact`, `C20_message_roundtrip`.

### C21 — No element is lost or misfiled when decoding a message (partial)

*Modelled.* As C20.

*How.* The filing loop is refined to filters of the element list.

*Outcome.* Proved for every accepted datagram whose payload is not exactly one byte long (C21_filing describes that case too); a one-byte payload is silently discarded: C21_one_byte_violated.

*Theorems.* `C21_filing`, `C21_one_byte_violated`.

### C22 — Decode-encode-decode is stable (partial)

*Modelled.* As C20.

*How.* C21 and C20 combined; negation by witness. The exact condition: a decoded element is either closed or a bare header; if the second decode gives the same message, no octets and hence no elements are lost, and then no bare header can stand before another element.

*Outcome.* Re-encoding always succeeds (C22_reencode). The second decode can differ when the datagram ended in a truncated element (C22_stability_violated); it is the same otherwise (C22_stability_partial). Exact condition: C22_stability_iff.

*Theorems.* `C22_reencode`, `C22_stability_violated`, `C22_stability_partial`, `C22_stability_iff`.

### C23 — Encoded messages carry a correct length (proved)

*Modelled.* `Marshal`, `MarshalLen`, `SetLength` of all messages.

*How.* Generic over the table, induction over the fields.

*Outcome.* All messages of their Go type without nil in repeated fields; every constructor result.

*Theorems.* `C23_marshal_length`, `C23_marshalTo`, `C23_constructor_length`.

### C24 — Constructors file elements like the decoder (proved)

*Modelled.* The message constructors (`New...(…, ies ...*IE)`).

*How.* The constructor loop and the decoder loop are refined to the same filing function.

*Outcome.* All 13 kinds with list constructors.

*Theorems.* `C24_constructor_like_decoder`.

### C25 — Nil elements are skipped (partial)

*Modelled.* Constructors, `MarshalLen` and `Marshal` with nil elements.

*How.* Generic over the table; panics by witness for each kind.

*Outcome.* Encoding skips nil (C25_encode_skips_nil). 16 constructors and Generic panic on nil (C25_constructor_nil_violated, C25_generic_nil_violated); the other seven ignore it (C25_constructor_nil_partial). Exact: C25_constructor_iff, C25_encode_iff (a nil in a repeated field makes encoding panic).

*Theorems.* `C25_encode_iff`, `C25_constructor_iff`, `C25_encode_skips_nil`, `C25_constructor_nil_violated`, `C25_generic_nil_violated`, `C25_constructor_nil_partial`.

### C26 — Encoding does not disturb the message (proved)

*Modelled.* `Marshal` as a state change of the message.

*How.* Idempotence of the state change.

*Outcome.* All messages; idempotence gives any number of calls.

*Theorems.* `C26_marshal_idempotent`.

### C27 — Unknown elements and messages pass through (partial)

*Modelled.* As C20, and `Generic`.

*How.* C02, C04 and C21.

*Outcome.* Proved for every accepted datagram (C27_unknown_elements, C27_passthrough) except bodies of exactly one byte, which are dropped (C27_one_byte_violated).

*Theorems.* `C27_unknown_elements`, `C27_passthrough`, `C27_one_byte_violated`.

### C28 — Message names and request flags are consistent (partial)

*Modelled.* `MessageTypeName`, `IsRequest`-style predicates.

*How.* Decided over all kinds.

*Outcome.* IsRequest proved for all kinds. Two response kinds carry another kind's name (C28_names_violated); all others have the right one (C28_names_partial). Exact: C28_names_iff, C28_suffix_iff.

*Theorems.* `C28_names_iff`, `C28_suffix_iff`, `C28_isRequest`, `C28_names_violated`, `C28_names_partial`.

### C29 — Scalar elements round trip (partial)

*Modelled.* 117 one-argument constructors of `ie/*.go` as a table (element type, coding) and their namesake accessors; the irregular ones one by one.

*How.* One theorem per coding, for every constructor with that coding and every value, through the wire with arbitrary trailing bytes.

*Outcome.* 117 one-argument constructors (integers of 1, 2, 4, 8 octets, texts, names, octet lists, durations), through the wire with any trailing bytes; one-octet values restricted to the bits of the field. Durations in seconds assume that the float64 conversion is exact on whole seconds (SecondsOK). Two irregular codings are covered one by one: C29_packet_count, and C29_usage_reports_partial for counts below 2^15 (C29_usage_reports_violated otherwise).

*Theorems.* 17, see MANIFEST.json; for instance `C29_packet_count`, `C29_usage_reports_partial`, `C29_usage_reports_violated`, `C29_default`.

### C30 — Flag elements report the flags they were built with (partial)

*Modelled.* 157 flag functions (table + interpreter), 12 flag constructors, `NewDownlinkDataServiceInformation`, `NewDroppedDLTrafficThreshold`.

*How.* The code's table is compared with an independent layout table from TS 29.244; bit lemmas for all octets.

*Outcome.* 157 flag functions. Each reads the bit that TS 29.244 gives it (independent table flagLayout) for every payload, setting one flag changes no other answer, an absent octet means no, and the 12 flag constructors plus two with values are read back through the wire for all arguments. Excluded because the code is wrong: DL Flow Level Marking and IP Version (both functions swapped), HasIPv6 on UE IP Address (looks at CHV4), arguments above 1 spill into other flags; each has a _violated theorem.

*Theorems.* 17, see MANIFEST.json; for instance `C30_layout_partial`, `C30_short_partial`, `C30_once`, `C30_independent_partial`.

### C31 — Digit strings survive swapped-nibble coding (proved)

*Modelled.* `internal/utils` swapped-nibble coding of digit strings.

*How.* Induction on the string; `C31_exact` (`Fields/Keep5.lean`) says which strings come back with the cut.

*Outcome.* All byte strings. Even-length strings decoded with the cut flag lose their last digit (C31_even_cut), which is what the flag asks for.

*Theorems.* `C31_exact`, `C31_octets_iff`, `C31_ends`, `C31_even`, `C31_odd`, `C31_refuses`, `C31_bytes`, `C31_layout`, `C31_digits`, `C31_even_cut`.

### C32 — PLMN identities round trip (proved)

*Modelled.* `EncodePLMN`, `DecodePLMN`.

*How.* All digits, by arithmetic on nibbles; `C32_exact` (`Fields/Keep5.lean`): which pairs of strings come back, an iff; `C32_octets` (`Fields/Lossless2.lean`): every three octets come back, from injectivity of the decoder.

*Outcome.* All three-digit country codes and two- or three-digit network codes; codes that are too short panic (C32_short_panics). C32_octets: every identity of three octets comes back from its digits.

*Theorems.* `C32_exact`, `C32_octets`, `C32_ends`, `C32_two`, `C32_three`, `C32_total`, `C32_short_panics`.

### C33 — Domain names round trip (proved)

*Modelled.* `EncodeFQDN`, `DecodeFQDN`.

*How.* Induction on the label list; fuel for the decoder loop. `Text/Names.lean` and `Text/Names2.lean` have the iff statements from the names and from the octets.

*Outcome.* Labels of fewer than 256 octets; longer ones wrap (C33_long_label_violated), and C33_round_trip_iff shows that no name with a longer label survives. C33_decode_exact: the result for any octet string; C33_octets_iff: which octet strings come back.

*Theorems.* `C33_decode_exact`, `C33_decode_shorter`, `C33_round_trip_iff`, `C33_octets_iff`, `C33_distinct`, `C33_round_trip`, `C33_layout`, `C33_decode`, `C33_total`, `C33_encode_total`, `C33_long_label_violated`.

### C34 — 24-bit and 40-bit integers round trip (proved)

*Modelled.* `Uint24To32`, `Uint32To24`, `Uint40To64`, `Uint64To40`, `ParseECI`.

*How.* Arithmetic.

*Outcome.* All integers and all byte strings.

*Theorems.* `C34_uint24`, `C34_uint24_id`, `C34_uint24_bytes`, `C34_uint40`, `C34_uint40_id`, `C34_uint40_bytes`, `C34_eci`.

### C35 — Timers do not silently change duration (partial)

*Modelled.* `NewTimer` and the other timer elements, `Timer()` and its siblings.

*How.* Euclidean division over the five units; exact read-back value for every duration.

*Outcome.* First half proved: read back unchanged if and only if representable or infinite (C35_unchanged); indivisible durations become infinite (C35_infinite). Second half false: 66 s is read back as 2 s (C35_shorter_violated); exactly the durations of 32 or more of their largest unit are (C35_shorter_iff). C35_exact gives the value for every duration.

*Theorems.* `C35_exact`, `C35_timers`, `C35_unchanged`, `C35_infinite`, `C35_shorter_violated`, `C35_octet`, `C35_spare_units_violated`, `C35_shorter_iff`.

### C36 — Timestamps round trip within the 32-bit era (proved)

*Modelled.* The timestamp constructors and `valueAs3GPPTimestamp`.

*How.* Integer arithmetic modulo 2^32.

*Outcome.* Every timestamp element and every whole second that fits 32 bits counted from 1970; C36_exact also describes fractions and the instants outside, which wrap (C36_wraps_violated).

*Theorems.* `C36_exact`, `C36_round_trip`, `C36_wraps_violated`.

### C37 — Accessors refuse foreign elements (partial)

*Modelled.* 276 value accessors and 157 flag functions (table + interpreter).

*How.* Generic over the table, plus a decided comparison with the independent `Acc.home`/`Flag.home`.

*Outcome.* 276 accessors, all types, payloads and configurations. 33 accessors test the length first and answer EOF for short foreign elements (C37_short_foreign_violated); C37_foreign_partial covers them when the payload is long enough, C37_foreign the other 243 without condition. The 157 flag functions answer no on every foreign element (C37_flags, C37_flags_plain). All answers to foreign elements exactly: C37_exact.

*Theorems.* `C37_flags`, `C37_flags_home`, `C37_flags_plain`, `C37_exact`, `C37_foreign_partial`, `C37_foreign`, `C37_short_foreign_violated`, `C37_short_foreign_exists_violated`, `C37_home`, `C37_foreign_plain_partial`.

### C38 — Accessors on grouped elements return the first matching child's value (partial)

*Modelled.* As C37, with the nested search for the first child.

*How.* Unfolding of the interpreter (fuel independence proved first), provenance by strong induction on the payload length.

*Outcome.* 276 accessors and all grouped types that each searches, any payload. Three deviations: accessors that test the length first (C38_short_group_violated), NetworkInstance on PDI (C38_pdi_network_instance_violated), identifiers on Update MAR (C38_update_mar_violated). For the flag functions without exception (C38_flags). All answers to grouped elements exactly: C38_exact; the leading length check never costs a value (C38_short_costs_nothing).

*Theorems.* 15, see MANIFEST.json; for instance `C38_found`, `C38_flags_grouped`, `C38_flags`, `C38_flags_searched`.

### C39 — Accessors never panic on received elements (partial)

*Modelled.* As C37, with the bytes behind the payload in memory as a parameter.

*How.* Per-leaf safety lemmas, strong induction on the payload length; each remaining function with panicking bytes.

*Outcome.* Proved for 260 of 276 accessors with any bytes behind the payload (C39_safe); each of the other 16 panics on some received element (C39_panics_violated). Flag functions: 147 of 157 never panic (C39_flags), the other ten do (C39_flags_violated). The accessors that combine others (rates, S-NSSAI parts, gates, identifiers, names, n-th F-TEID) are covered by C39_rates … C39_local_fteid. A panic always comes from an element of a home type (C39_provenance); the inputs that panic are given exactly for each of the 16 accessors and for the flag functions (C39_..._exact, C39_flags_exact).

*Theorems.* 30, see MANIFEST.json; for instance `C39_rates`, `C39_outer_header_removal`, `C39_snssai`, `C39_identifiers`.

### C40 — Structured values round trip (partial)

*Modelled.* The 35 structured codecs (`New...Fields`, `MarshalTo`, `UnmarshalBinary`), written in an offset monad that follows the Go statements.

*How.* Per codec: run decoder on encoder output, case analysis on the flags.

*Outcome.* Stated and proved per structured element, for every value and any trailing bytes; the elements covered are the names after C40_. _partial theorems exclude the values named in their hypothesis, which the _violated theorem beside them shows do not round trip. All 35 structured codecs are covered.

*Theorems.* 55, see MANIFEST.json; for instance `C40_Volume_partial`, `C40_Volume_violated`, `C40_VolumeMeasurement_partial`, `C40_VolumeMeasurement_violated`.

### C41 — Structured decoders never panic (partial)

*Modelled.* As C40.

*How.* Per codec: no step of the decoder can panic after its length checks; witnesses otherwise.

*Outcome.* Per structured element, for every slice and capacity; all 35 structured codecs are covered, and the elements built from several values (C52_access_availability … C52_tsn_bridge). For those that break it, _violated gives the inputs and _partial what holds. Exact conditions: C41_..._exact, C41_TraceInformation_partial, C41_MACAddresses_violated.

*Theorems.* 40, see MANIFEST.json; for instance `C41_SourceIPAddress_exact`, `C41_RemoteGTPUPeer_exact`, `C41_UserPlaneIPResourceInformation_exact`, `C41_OuterHeaderCreation_exact`.

### C42 — Structured decoders depend only on the bytes given (partial)

*Modelled.* As C40, decoder on a slice with spare capacity.

*How.* Per codec: each read is inside the visible bytes; witnesses otherwise.

*Outcome.* Per structured element, for every slice and capacity; all 35 structured codecs are covered, and the elements built from several values (C52_access_availability … C52_tsn_bridge). For those that break it, _violated gives the inputs and _partial what holds.

*Theorems.* 29, see MANIFEST.json; for instance `C42_Volume`, `C42_VolumeMeasurement`, `C42_NumberOfUEIPAddresses`, `C42_Delays`.

### C43 — Structured encoders never fail on constructed values (partial)

*Modelled.* The constructors of the structured elements, and `Marshal` of every value of their Go structs.

*How.* Per codec; witnesses otherwise. Verif/Fields/Outcome.lean reduces an encoder writing into a fresh buffer to arithmetic on lengths and offsets (`W.Shape`); with that `C43_X_exact` (Verif/Fields/Ends.lean) says for every value of X whether encoding it succeeds, returns an error or crashes, and `C43_X_ctor_exact` the same for the arguments of the constructor.

*Outcome.* Proved per structured element for all arguments; _violated theorems give arguments for which the constructor yields nil or panics. All 35 structured codecs are covered. The _exact theorems say for every value, also those no constructor returns, how encoding it ends.

*Theorems.* 71, see MANIFEST.json; for instance `C43_IP46_exact`, `C43_FSEID_exact`, `C43_FTEID_exact`, `C43_MPTCPAddressInformation_exact`.

### C44 — Exactly which byte strings are element sequences (proved)

*Modelled.* `ParseMultiIEs`.

*How.* A declarative grammar of element sequences, equivalence by induction on the input length.

*Outcome.* Exact characterisation of the accepted language of ParseMultiIEs.

*Theorems.* `C44_accepted_language`, `C44_complete_iff_wf`.

### C45 — Decoding into a used message equals decoding into a fresh one (partial)

*Modelled.* `UnmarshalBinary` on a used message and on a used element.

*How.* The decoder as a state change; filing the elements commutes with laying them over what was there (`fileAll_onto`, `Slot.onto`).

*Outcome.* False: stale fields survive (C45_reuse_violated, C45_element_violated). True for a zero value, and for the header always (C45_reuse_partial). Exact: what is left in a used message (C45_exact) and in a used element (C45_element_exact), and when that equals a fresh decode (C45_iff, C45_element_iff).

*Theorems.* `C45_reuse_violated`, `C45_reuse_partial`, `C45_exact`, `C45_iff`, `C45_element_exact`, `C45_element_fresh`, `C45_element_iff`, `C45_element_violated`.

### C46 — Each message field holds the element the standard puts there (partial)

*Modelled.* The field tables against the table of TS 29.244 (`Message/Spec.lean`).

*How.* Decided over all fields.

*Outcome.* False for two fields of the session modification response (C46_field_type_violated); proved for all other fields (C46_field_type_partial, exact in C46_field_type_iff).

*Theorems.* `C46_field_type_iff`, `C46_field_type_violated`, `C46_field_type_partial`.

### C47 — What grouped constructors nest, the decoder un-nests (proved)

*Modelled.* The default grouped types and the list of group constructors.

*How.* Decided, for the whole 16-bit type space.

*Outcome.* Whole 16-bit type space; the list of constructors is transcribed from the source.

*Theorems.* `C47_grouped_constructors`.

### C48 — Configuration calls and queries always return (proved)

*Modelled.* As C12.

*How.* Progress invariant and a strictly decreasing measure.

*Outcome.* Any number of goroutines and calls; progress plus a strictly decreasing measure.

*Theorems.* `C48_no_deadlock`, `C48_terminates`.

### C49 — Registrations are atomic (proved)

*Modelled.* As C12.

*How.* Invariant relating the table to the registrations completed.

*Outcome.* Any number of goroutines and types, every interleaving.

*Theorems.* `C49_atomic_registration`, `C49_finished_are_calls`.

### C50 — Decoding while the configuration changes (partial)

*Modelled.* The decoder with each configuration lookup as a separate step (`IE/Live.lean`).

*How.* Witness schedules; induction over the decoder for registrations only.

*Outcome.* False: installing a function during a decode can make it panic (C50_decode_while_setting_violated), and even a registration can give a result of no configuration (C50_one_configuration_violated). With registrations only there is never a panic (C50_decode_while_registering_partial), and changes of any kind that concern none of the types occurring in the octets, at any depth, are not noticed (C50_unconcerned_partial, C50_registering_others_partial); C50_no_change ties the model to the ordinary decoder.

*Theorems.* `C50_unconcerned_partial`, `C50_registering_others_partial`, `C50_decode_while_registering_partial`, `C50_no_change`, `C50_decode_while_setting_violated`, `C50_one_configuration_violated`.

### C51 — Constructed messages carry the header they were asked for (proved)

*Modelled.* The message constructors' header part, `SEID()`, `Sequence()`.

*How.* Generic over the table.

*Outcome.* For every message kind and all arguments; for the generic message the header given is kept.

*Theorems.* `C51_session`, `C51_node`, `C51_generic`, `C51_seid`.

### C52 — Structured elements have the documented octet layout (partial)

*Modelled.* As C40.

*How.* Per codec: the encoder's output equals the octets written from the specification.

*Outcome.* Proved per structured element for all values, with the bytes spelled out; all 35 structured codecs are covered, and the elements built from several values (C52_access_availability … C52_tsn_bridge).

*Theorems.* 46, see MANIFEST.json; for instance `C52_Volume`, `C52_VolumeMeasurement`, `C52_NumberOfUEIPAddresses`, `C52_Delays`.

### C53 — Decoding loses nothing it consumed (partial)

*Modelled.* As C40.

*How.* Per codec: decoder output re-encoded equals the bytes consumed; witnesses otherwise. `Verif/Fields/Lossless.lean`, `Lossless2.lean`, `Lossless3.lean` and `Lossless4.lean` say for the lossy codecs exactly which accepted octets come back.

*Outcome.* Proved per structured element for every slice; _violated theorems give accepted inputs whose decoded value does not re-encode to the bytes consumed. All 35 structured codecs are covered; the _exact theorems say for each lossy one precisely which accepted octets come back, except RemoteGTPUPeer with an empty destination interface before a network instance, or with the spare fifth bit, an address and a destination interface but no network instance, and PFDContents with lists that are not decoded to their ends.

*Theorems.* 56, see MANIFEST.json; for instance `C53_DLFlowLevelMarking_exact`, `C53_PacketRate_exact`, `C53_PacketRateStatus_exact`, `C53_PMFAddressInformation_exact`.

### C54 — What is put into a grouped element can be taken out again (proved)

*Modelled.* Table of the grouped constructors (generated from the sources, Verif/Ctor/Group.lean) over `newGrouped`; the accessor that belongs to each is given separately by name (GroupSpec).

*How.* Table lemmas by complete evaluation, the rest from C07/C01 for arbitrary child lists and from the accessor semantics.

*Outcome.* 92 grouped constructors, lists of children of any length, with nil arguments and any well-formed nesting; C54_distinct names the pairs of constructors that share a type. Too long lists never come back (C54_too_long_violated), which the statement allows for.

*Theorems.* `C54_default`, `C54_type`, `C54_distinct`, `C54_children`, `C54_value`, `C54_too_long_violated`.

### C55 — Elements with several values round trip (partial)

*Modelled.* The constructors and accessors of Verif/Ctor/Multi.lean, one by one.

*How.* One theorem per element: layout, then `new_wire` for the wire, then the accessor on the decoded element. C55_kinds and C38_typed show that the untyped accessor table returns values of the declared Go types.

*Outcome.* All arguments through the wire with any trailing bytes, except where the code does something else, each with a theorem: gate values above 3 spill into the other gate (C55_gate_status_violated), identifiers of unknown failed rule types are dropped, forwarding policy identifiers above 255 octets, NF instance identifiers of fewer than 16 octets (panic, or memory behind them is sent), bridge addresses of other lengths than 6 and 8, node texts that are no addresses, FQ-CSID without identifiers, CSIDs (never returned at all), the thresholds of Dropped DL Traffic Threshold (never returned), Downlink Data Service Information with only one of its two values (PPI returns the QFI, QFI panics), TEIDRI on an empty element (panic). The parsing of textual IP addresses (net.ParseIP) is a parameter.

*Theorems.* 40, see MANIFEST.json; for instance `C55_default`, `C55_access_availability`, `C55_gate_status_partial`, `C55_gate_status_violated`.

### C56 — The n-th F-TEID is the n-th F-TEID (proved)

*Modelled.* `LocalFTEIDN` and its loop.

*How.* Induction on the child list; combined with C54_children.

*Outcome.* All children lists, positions and configurations; C56_found joins it with the constructor and the wire.

*Theorems.* `C56_nth`, `C56_foreign`, `C56_found`.

### C57 — Names of network instances and APNs (partial)

*Modelled.* `NetworkInstanceFQDN`, `NetworkInstanceHeuristic`, `MustAPNDNN` over the accessor table and `DecodeFQDN`.

*How.* From C33 (names); for text, the first length octet exceeds the payload.

*Outcome.* Names: proved, also for MustAPNDNN. Text: NetworkInstance always, NetworkInstanceHeuristic if the first character code is not below the length (C57_text_partial); otherwise text is mistaken for a name (C57_heuristic_violated). Exact: C57_text_iff, C57_name_iff. On a group, NetworkInstanceFQDN decodes the payload of the group (C57_grouped_violated).

*Theorems.* `C57_name`, `C57_text_partial`, `C57_heuristic_violated`, `C57_grouped_violated`, `C57_must_apn`, `C57_must_apn_foreign`, `C57_heuristic_eq`, `C57_text_iff`, `C57_name_iff`.

### C58 — The Apply Action validator is exact (proved)

*Modelled.* `ValidateApplyAction` with Go's short-circuit evaluation over the flag function model.

*How.* The flag functions are replaced by the bits they report (C30), then all combinations of the ten bits.

*Outcome.* All payloads; the condition is stated on bit positions, independently of the flag functions.

*Theorems.* `C58_exact`, `C58_foreign`, `C58_wire`.

### C59 — Structured elements survive the wire from constructor to accessor (partial)

*Modelled.* The 35 constructors of structured elements as functions of their arguments (`Verif/Ctor/Struct.lean`), over the field codecs of C40 and the accessors of C38.

*How.* `Carries` states type, wire and accessor result in one; each theorem combines the codec's `C40_*`/`C53_*` theorem with the element round trip C01 and the accessor's table entry. `C59_inside` lifts it into a grouped element.

*Outcome.* For the arguments for which the property holds; `C59_volume_violated`, `C59_nil_violated`, `C59_ue_ip_address_violated`, `C59_outer_header_creation_violated`, `C59_user_id_violated`, `C59_redirect_information_violated`, `C59_mac_addresses_violated` and `C59_pfd_contents_violated` show arguments for which it fails.

*Theorems.* 37, see MANIFEST.json; for instance `C59_default`, `C59_volume_partial`, `C59_volume_violated`, `C59_volume_measurement_partial`.

### C60 — Generic constructors and readers agree for every type (proved)

*Modelled.* `NewUint*IE`, `NewStringIE`, `NewFQDNIE`, `NewVendorSpecificIE`, `ValueAs*` for an arbitrary type.

*How.* C01 and C10 for the wire, big-endian inverse, C33 for names; totality by cases on the length check.

*Outcome.* All types and values; texts and names as long as they fit the 16-bit length (longer ones: `C10_length_violated`), labels shorter than 256 octets.

*Theorems.* `C60_uint8`, `C60_uint16`, `C60_uint32`, `C60_uint64`, `C60_string`, `C60_fqdn`, `C60_vendor`, `C60_refuse`, `C60_total`, `C60_grouped`.

### C61 — Logger calls are atomic, race free and return (partial)

*Modelled.* Goroutines as lists of calls, each call expanded to its lock, access and unlock statements; `*log.Logger` by identity (`Verif/Log/Model.lean`). The inside of `log.Logger` and its writer are not modelled.

*How.* Inductive invariant over all interleavings: number of goroutines past the lock, data equal to the sequential run of the finished calls plus the one pending, program order; a strictly decreasing cost for termination; a stuck invariant for `EnableLogging`.

*Outcome.* Race freedom, linearizability and program order for all programs; that all calls return only for programs without `EnableLogging`: it locks the mutex twice, so it never returns and everything that logs hangs from then on (`C61_enable_violated`, `C61_enable_stuck_violated`); `DisableLogging` silences the logger object itself (`C61_reinstall_violated`).

*Theorems.* `C61_race_free`, `C61_no_fatal`, `C61_linearizable`, `C61_program_order`, `C61_disabled`, `C61_installed_partial`, `C61_reinstall_violated`, `C61_enable_violated`, `C61_enable_stuck_violated`, `C61_enable_reached`, `C61_no_deadlock_partial`, `C61_terminates`.

### C62 — Names of element types (proved)

*Modelled.* The generated text, index table and `String` function; texts as bytes, the text cut into pieces for the kernel.

*How.* The text is the concatenation of the identifiers and the index the running sum of their lengths (whole tables evaluated by the kernel), then a lemma on slices of concatenations; decimal numerals are injective.

*Outcome.* All types.

*Theorems.* `C62_named`, `C62_numbered`, `C62_total`, `C62_injective`.

### C63 — Editing an element inside a group (partial)

*Modelled.* A path of `FindByType` calls followed by `Add`/`Remove`; the children are pointers, so the enclosing elements see the edit in `ChildIEs` only (`Verif/IE/Nested.lean`). Elements shared between groups are not modelled.

*How.* Induction on the path; an edit that keeps the encoded size changes nothing; what the decoder returns always has the payload equal to the encoded children (`parse_Skel`).

*Outcome.* With the repair from the inside out, for all depths; the edit alone leaves length and payload of every enclosing element stale, so the encoding is corrupt whenever the edit changes anything (`C63_nested_violated`, an equivalence; `C63_grow_violated`, `C63_shrink_violated`).

*Theorems.* `C63_nested_violated`, `C63_repair_partial`, `C63_edit_found`, `C63_grow_violated`, `C63_shrink_violated`.

### C64 — Flags of the field structures (proved)

*Modelled.* The pairs of methods as a table (`Verif/Flag/Struct.lean`), the bits of the specification as a second one.

*How.* Both tables compared entry by entry, then bit arithmetic for all octets; induction on the sequence of calls.

*Outcome.* All pairs of methods.

*Theorems.* `C64_layout`, `C64_once`, `C64_set`, `C64_set_bits`, `C64_history`.

### C65 — Values are found in the groups that carry them (partial)

*Modelled.* `Verif/Acc/Groups.lean` holds a table by group (83 groups, 464 pairs) collected from the case labels by a script of its own, and a table of the children looked for where these are not the element of the same name.

*How.* Whole-table kernel checks compare it with the accessor model, and C37_exact/C38_exact turn this into the answers.

*Outcome.* C65_groups, C65_searched, C65_reads: the exact answer of every accessor to every type, from a table by group collected independently of the model. C65_siblings_partial: pairs of groups with the same contents give the same answers except to the accessors listed in unlike; C65_siblings_violated: those do refuse one of the two (e.g. SDFFilter on an Update PDR). C65_missed_violated: 23 pairs of group and value, 15 of them built by the project's own tests, that the accessor refuses. C65_pdi_packet_filter_violated: Ethertype and EthernetFilterProperties do not see the packet filter in a PDI. C65_flag_groups, C65_flag_searched: flag functions look into exactly the groups of the accessor of their element, or, 38 of them, into none (C65_flat_flags_violated).

*Theorems.* `C65_groups`, `C65_searched`, `C65_reads`, `C65_created_traffic_endpoint`, `C65_siblings_partial`, `C65_siblings_violated`, `C65_missed_violated`, `C65_pdi_packet_filter_violated`, `C65_flag_groups`, `C65_flag_searched`, `C65_flat_flags_violated`.

### C66 — Decoded elements do not depend on the receive buffer (partial)

*Modelled.* `Mem/Model.lean`: byte arrays, pointer arrays and structs with addresses; `Payload` is a window of a byte array.

*How.* `decode` (`Mem/Lemmas.lean`) by induction over the fuel: the heap decoder is the value decoder, and reading its result again in any heap that kept structs and lists gives `over`, the same tree over the bytes now in the buffer.

*Outcome.* False of the code: the payload is a window of the buffer (the comments of ie.Parse and ie.ParseMultiIEs say so; those of ie.New and message.Parse do not). C66_decode: decoding in memory refines decoding of values. C66_reuse_exact, C66_unchanged_iff: what the element is after the buffer changed, exactly. C66_reuse_violated: every element with a payload can be changed by the next datagram; C66_group_violated: children and payload then disagree. C66_shape_partial: type, length, enterprise number and types of the children are safe.

*Theorems.* `C66_decode`, `C66_reuse_exact`, `C66_unchanged_iff`, `C66_reuse_violated`, `C66_shape_partial`, `C66_group_violated`, `C66_new`.

### C67 — Calls leave other people's memory alone (partial)

*Modelled.* The same memory model; `extra` is the arbitrary amount of room that `append` leaves; stack overflow is running out of any depth `n`.

*How.* Invariant `Inv` (slices inside arrays, no two structs share a pointer array) is kept by every call; every struct but the one edited is `Kept`; histories by induction (`reach_back` shows that what an element reaches does not grow). `Add`: views of structs from which the edited one cannot be reached are kept, and a view of a cyclic structure does not exist (`acyclic`).

*Outcome.* All histories of library calls (C67_no_writes, C67_others), with refinement of Add, Remove and newGroupedIE (C67_add, C67_remove, C67_group). C67_add_exact: Add returns unless a new child is the element or contains it (C67_self_violated). Outside the library's own calls: copies of the struct (C67_copy_violated) and lists appended to by the caller (C67_list_violated) share an array with room.

*Theorems.* `C67_no_writes`, `C67_others`, `C67_add`, `C67_remove`, `C67_group`, `C67_add_exact`, `C67_copy_violated`, `C67_list_violated`, `C67_self_violated`.

### C68 — Reading an element a message does not carry is an error (partial)

*Modelled.* `Msg.get` followed by an accessor call; a nil pointer as receiver panics (every accessor but `LocalFTEIDN` with a count below 1 first reads a field of its receiver or calls a method that does).

*How.* From C21's normal form of decoding: the field holds the last element of its type.

*Outcome.* False: for every message kind an eight-octet datagram decodes into a message on which every field panics (C68_field_violated). Exactly (C68_field_exact): the accessor runs on the last element of the field's type in the body, and panics if there is none. When there is one, the outcome is the accessor's (C68_field_partial, with C39).

*Theorems.* `C68_field_exact`, `C68_field_violated`, `C68_field_partial`.

### C69 — The heartbeat example programs interoperate and survive (partial)

*Modelled.* `examples/heartbeat/hb-server/main.go` and `hb-client/main.go`: one step per datagram of the server, the loop over all datagrams; the client's loop.

*How.* Rewriting with C68, the accessor table and the normal forms of constructor, encoder and decoder; the loop by induction.

*Outcome.* Exact behaviour of both programs for every datagram (C69_server_exact, C69_client_exact). The server is stopped by a request without a time stamp and by nothing else (C69_server_crash_iff, C69_survives_iff, C69_server_survives_violated); it always answers with sequence number 1 (C69_sequence_iff); the client takes any sequence number (C69_client_sequence_violated). The two do understand each other (C69_exchange_partial). Sockets are the sequence of datagrams read; time runs out by that sequence ending.

*Theorems.* `C69_response_exact`, `C69_request_exact`, `C69_server_exact`, `C69_server_crash_iff`, `C69_server_reply_iff`, `C69_server_never_fatal`, `C69_survives_iff`, `C69_server_survives_violated`, `C69_sequence_iff`, `C69_client_exact`, `C69_client_sequence_violated`, `C69_exchange_partial`.

### C70 — The version in the header is respected (partial)

*Modelled.* `Header.Version`, `ParseHeader`, `message.Parse`.

*How.* The normal form of the decoder reads only the S bit of the flags.

*Outcome.* False: Version() is constantly 1 (C70_version_iff) and every version is decoded (C70_version_violated), with no other effect than the flags (C70_version_ignored, C70_message_ignored).

*Theorems.* `C70_version_iff`, `C70_version_violated`, `C70_version_ignored`, `C70_message_ignored`.

### C71 — MarshalTo of a structured value respects the caller's buffer (partial)

*Modelled.* The writers of all structured values (`marshalW`), run on arbitrary slices: contents, length and capacity. `Fields/Buffer.lean` has rules for composing guarded and unguarded writes (`Exact`, `Loose`, `Mixed`).

*How.* Compositional: each write is characterised on every buffer, sequences by the rules; the skipped octets are tracked as the old contents of the buffer.

*Outcome.* Thirteen structures meet the statement (C71_*_bounded; PMFAddressInformation with addresses set): no crash on any buffer, success exactly from MarshalLen() octets on, the encoding in front and the rest untouched. The others are given exactly: unguarded writers succeed on every long enough buffer (C71_*_fits) and crash on the shorter ones named (C71_*_crash), some after writing behind the slice (C71_Tag_overrun, C71_DLFlowLevelMarking_overrun); four writers skip octets, which keep what the buffer held (C71_SDFFilter_exact, C71_PFDContents_exact, C71_OuterHeaderCreation_exact, C71_PMFAddressInformation_exact). False in general: C71_crash_violated, C71_overrun_violated, C71_stale_violated. 27 models cover the 35 MarshalTo methods of structured values.

*Theorems.* 47, see MANIFEST.json; for instance `C71_IP46_bounded`, `C71_FSEID_bounded`, `C71_FTEID_bounded`, `C71_MPTCPAddressInformation_bounded`.

### C72 — MarshalTo of a message respects the caller's buffer (partial)

*Modelled.* `Header.MarshalTo` and the `MarshalTo` of all messages on slices with arbitrary length and capacity.

*How.* Every step before the last either panics or keeps the size of the buffer; the last is one overwrite of the backing array.

*Outcome.* Exact on every buffer, for headers (C72_header_exact) and messages of all kinds (C72_message_exact). With MarshalLen() octets the statement holds (C72_header_fits, C72_message_fits). False otherwise: a shorter buffer never gives an error; it crashes (C72_crash_violated) or, with capacity behind the slice and room for the header in it, overwrites what follows and reports success (C72_overrun_violated, for every message with a body).

*Theorems.* `C72_header_exact`, `C72_header_fits`, `C72_message_exact`, `C72_message_fits`, `C72_overrun_violated`, `C72_crash_violated`.

### C73 — A message can be encoded by several goroutines at once (partial)

*Modelled.* `Message/Race.lean`: `Marshal` as a tree of accesses to `Header.Payload`, its array and `Header.Length`, any number of goroutines, schedules as lists of goroutine numbers.

*How.* Composition of runs of one goroutine (`Gets`) for the counterexamples, which are given for all messages; induction over the schedule for what holds.

*Outcome.* Holds under every schedule for goroutines encoding different messages, elements shared or not (C73_separate_partial); for one call at a time (C73_alone_partial); and for one call among goroutines that only read (C73_only_writer_partial). False for the same message, for every message: two calls can both succeed with one returning a body of zeros (C73_zeros_violated), one can get an error (C73_error_violated) or panic (C73_panic_violated), and both can be about to write the payload (C73_race_violated). One step is one access to a shared variable or one element written.

*Theorems.* `C73_alone_partial`, `C73_only_writer_partial`, `C73_separate_partial`, `C73_zeros_violated`, `C73_error_violated`, `C73_panic_violated`, `C73_make_violated`, `C73_race_violated`.

### C74 — Decoding into a used structured value equals decoding into a new one (partial)

*Modelled.* `into old`, per structure, is `parseP` with the fields of the used value in place of zero values, in the decoders' own order; `copy` into an existing slice is `overCopy`; PFD contents check the old length.

*How.* `P.Over` relates two readers step by step: same failures, same offsets, related values. The exact theorems follow by running both readers in parallel; re-encoding by cases on the flag bits.

*Outcome.* False: fields that the new flags do not announce keep their old values (C74_stale_violated); encoded again these show in addresses, F-SEIDs, multicast and MAC addresses, tags and outer headers (C74_addresses_violated and others); MAC addresses and additional PFD texts collect (C74_MACAddresses_violated); PFD contents are refused because of an old length (C74_PFDContents_violated). Exact for every structure: which fields come from the octets and which from the old value (C74_*_exact); the copied MAC addresses, trace and tag contents are excluded there and given octet by octet in C74_*_copied. The sixteen encoders that go by the flags give the same octets (C74_*_reencode). What a failed decode leaves behind is not modelled.

*Theorems.* 59, see MANIFEST.json; for instance `C74_Volume_exact`, `C74_VolumeMeasurement_exact`, `C74_NumberOfUEIPAddresses_exact`, `C74_Delays_exact`.

### C75 — A failed decode leaves the receiver alone (partial)

*Modelled.* `Message/Failed.lean`: the three decoders assignment by assignment (`St`), with the receiver at the moment of return; messages whose header pointer may be nil (`MsgP`). The filing loop, which cannot fail, is taken as one assignment.

*How.* `C75_*_outcome` ties them to the decoders used elsewhere; normal forms and case analysis for the rest.

*Outcome.* False: an element keeps the new type and length with the old value (C75_element_violated), a group loses its children (C75_group_violated), a header mixes both (C75_header_violated), a message loses its header so that every later use panics (C75_unusable_violated), or is encoded under the header of the refused datagram (C75_mixed_violated). Proved: exactly what is left of an element, a header and a message (C75_*_exact, C75_headerless); the fields of a message are never half decoded; a decode never panics (C75_total); a failed decode does not show in the next one, for every kind but the unknown ones (C75_retry), for which it shows only when the next datagram has no elements (C75_retry_generic). Structured values are not covered.

*Theorems.* 17, see MANIFEST.json; for instance `C75_element_outcome`, `C75_element_exact`, `C75_element_violated`, `C75_group_violated`.

### C76 — The order of elements of different types does not matter (partial)

*Modelled.* `Message/Order.lean`: `Reorder`, exchanging neighbours of different types; `Shuffled`, the same inside groups, to any depth.

*How.* Fields collect the elements of their type (C21), which a reordering keeps; an accessor that looks for one type finds the head of those. Which accessors look for more is a check of the whole accessor table.

*Outcome.* Proved for messages (C76_fields, C76_accepted), list constructors (C76_constructor), flag functions (C76_flags), and all accessors in all groups but nine combinations, one level (C76_groups_partial) and at every depth (C76_deep_partial). If also the unknown elements keep their order, both messages are encoded into the same octets (C76_canonical). False for the nine: FTEID of a PDI and FARID, Priority, URRID, Weight of a Create or Update MAR look for two types of children and read whichever comes first (C76_either_violated; C76_pdi_violated: the F-TEID of the redundant transmission parameters). C76_reorder_iff: what a reordering is.

*Theorems.* `C76_reorder_iff`, `C76_fields`, `C76_accepted`, `C76_canonical`, `C76_constructor`, `C76_groups_partial`, `C76_flags`, `C76_deep_partial`, `C76_either_violated`, `C76_pdi_violated`.

### C77 — A repeated element is read the same way everywhere (partial)

*Modelled.* The decoder of messages and the accessors as before.

*How.* From the normal forms of C21 and C38.

*Outcome.* False: in every kind of message, every field for a single element gets the last one of its type, and encoding drops the others (C77_messages, C77_repeated_violated), whereas accessors and FindByType read the first child of a group (C77_groups, C77_find). No difference if no type occurs twice (C77_once_partial); for messages exactly if the first and the last one have the same value (C77_messages_iff).

*Theorems.* `C77_groups`, `C77_find`, `C77_messages`, `C77_repeated_violated`, `C77_messages_iff`, `C77_once_partial`.

### C78 — Decoding work is proportional to the datagram (partial)

*Modelled.* `IE/Cost.lean`, `Message/Cost.lean`: the decoder with its calls counted, the count being kept on failure.

*How.* One induction on fuel for bounds and exact counts together; sum of depths ≤ triangular number of the number of elements ≤ that of a quarter of the length. Nested groups reach it.

*Outcome.* False: ParseMultiIEs measures every element it has decoded, and MarshalLen walks the tree below it, so an element is visited once for every group around it (C78_exact: the sum of the depths). A Session Establishment Request of 65,504 octets that message.Parse accepts under the default configuration costs 134,029,378 calls of MarshalLen, each taking the read lock of the grouped table (C78_datagram_violated; C78_attained: the same at every size). Proved: UnmarshalBinary is called at most once per four octets (C78_calls); MarshalLen at most N(N+1)/2 times for N whole groups of four octets, whatever the outcome (C78_lens_partial, C78_message_bound_partial), and at most D/4 times per octet when nesting is at most D deep (C78_shallow). C78_counted: the counted decoder is the decoder; C78_message: nothing else is counted in messages.

*Theorems.* `C78_counted`, `C78_calls`, `C78_lens_partial`, `C78_exact`, `C78_shallow`, `C78_message`, `C78_message_bound_partial`, `C78_attained`, `C78_datagram_violated`.

### C79 — Encoding work is proportional to the message (partial)

*Modelled.* `IE/Cost.lean`, `Message/Cost.lean`: the encoders with their calls counted.

*How.* Mutual induction on the tree; for messages, along the fields of their kind.

*Outcome.* False for the same reason: MarshalTo measures every child it has written. Exact counts for every element (C79_exact) and every message without nil pointers in its lists (C79_message); sending on the message of C78 costs 134,062,122 calls of MarshalLen (C79_message_violated; C79_attained). Proved: at most n calls of MarshalTo and n(n+1)/2+1 of MarshalLen for n elements (C79_lens_partial); proportional when nesting is bounded (C79_shallow, C79_message_shallow). C79_counted: the counted encoders are the encoders.

*Theorems.* `C79_counted`, `C79_exact`, `C79_lens_partial`, `C79_shallow`, `C79_message`, `C79_message_shallow`, `C79_attained`, `C79_message_violated`.

### C80 — Structured field values survive encoding and decoding (partial)

*Modelled.* `Fields/Keep1.lean` to `Keep6.lean`, over the codecs of C40 and C41.

*How.* Necessity: the value is a decoder result, so it has the lengths its flags announce and the encoder writes its closed form; sufficiency: closed forms of encoder and decoder; then the decoded value is compared with the original field by field.

*Outcome.* False: for most structs there are values that do not survive, so the property is replaced by exact conditions, one theorem per struct (an iff over every value of the struct). They name each loss: a VID of 256 or more, a multicast address of ‘any’, a network instance in User Plane IP Resource Information, an IPv6 prefix length that differs from the prefix delegation length, a fifth flag bit with an address in Remote GTP-U Peer, an empty flow description with nothing behind it, fields that the flags do not announce, announced fields that are absent, MAC addresses in PMF Address Information, tags in Outer Header Creation and a port beside them, events, interfaces and address in Trace Information, an even number of digits in User ID, a second redirect address that is not the first one shifted by two octets. No value at all of MAC Addresses Detected or Removed survives (C80_MACAddresses_violated). For PFD Contents the iff is under the hypothesis that stored list lengths are right.

*Theorems.* 29, see MANIFEST.json; for instance `C80_Volume`, `C80_VolumeMeasurement`, `C80_NumberOfUEIPAddresses`, `C80_Delays`.

### C81 — Elements a receiver does not look for have no effect on what it reads (proved)

*Modelled.* `Message/Unknown.lean`, over the accessors of C37 and C38 and the filing of C21.

*How.* Accessors look for the first child of certain types, so children of other types drop out of the search; depth by induction; the length check at the start of some accessors is harmless because the child is shorter than its group. That the library knows no type without a name is checked over the tables.

*Outcome.* The value is the same, and so is whether there is a panic; which error is reported may change (C81_error_kind).

*Theorems.* `C81_groups`, `C81_flags`, `C81_deep`, `C81_deep_flags`, `C81_fields`, `C81_fields_deep`, `C81_accepted`, `C81_unnamed`, `C81_receiver`, `C81_error_kind`, `C81_which`, `C81_which_flags`.

### C82 — An edit of a message changes only its own octets (proved)

*Modelled.* `Message/Frame.lean`, over the closed form of Marshal (C22).

*How.* Both encodings are written in closed form and compared part by part.

*Outcome.* SetMP sets the FO flag where the documentation says MP (C16); the theorem says which octets change.

*Theorems.* `C82_sequence`, `C82_seid`, `C82_seid_new`, `C82_priority`, `C82_leftovers`, `C82_field`, `C82_extra`, `C82_length`.

### C83 — What a fields constructor returns survives encoding and decoding (partial)

*Modelled.* `Fields/Built.lean`, over C80.

*How.* C80 says of every value whether it survives; the value the constructor returns is put into that condition, which is then simplified to one on the arguments.

*Outcome.* False for most constructors, so that each has an exact condition on its arguments instead (an iff over all arguments). Constructors that drop what the flags do not announce lose nothing (volumes, packet rates); those that store all arguments (packet delays, number of UE IP addresses, F-TEID, VLAN tags) return values that do not survive unless the flags agree with them; a 16-octet form of an IPv4 address does not survive where the constructor stores it as given, but does where it converts it.

*Theorems.* 29, see MANIFEST.json; for instance `C83_Volume`, `C83_VolumeMeasurement`, `C83_NumberOfUEIPAddresses`, `C83_Delays`.

### C84 — A message cut short is rejected (partial)

*Modelled.* `Message/Cut.lean`, over C09, C15 and C20.

*How.* Induction over the elements: a cut at or beyond the end of the first element passes to the rest; a cut inside it is refused by C09 unless only the payload is missing. The header is peeled off by C15.

*Outcome.* False: a message cut between two elements, behind the header of an element, or one octet behind its own header is accepted, with the elements that arrived. Which prefixes are accepted and to what they are decoded is stated exactly, everything else is refused with an error, and comparing the length in the decoded header with the number of octets received finds every cut (for messages whose length fits the length field).

*Theorems.* `C84_exact`, `C84_refused`, `C84_violated`, `C84_detected`, `C84_whole`.

### C85 — The parser of one message kind refuses messages of another (partial)

*Modelled.* `Message/Typed.lean`.

*How.* The normal form of `message.Parse` holds for every kind in place of the one the octet selects; which octet belongs to which kind is checked over all 256.

*Outcome.* False: each parser accepts exactly what message.Parse accepts, whatever the type octet, and files the elements as messages of its kind; it returns what message.Parse returns exactly if the octet belongs to the kind. Comparing MessageType with the kind finds all other cases; an accepted foreign message is sent on with its foreign type octet.

*Theorems.* `C85_violated`, `C85_exact`, `C85_detected`, `C85_sent_on`.

### C86 — The S flag agrees with the message kind (partial)

*Modelled.* `Message/Typed.lean`, over C15.

*How.* The header round trip holds for either value of the flag, and nothing after it looks at it.

*Outcome.* False: the S flag is not compared with the kind; every header with any well-formed elements is accepted. What the caller can rely on instead is proved: HasSEID is the flag received, SEID() the octets 5 to 12 if it is set and zero otherwise.

*Theorems.* `C86_accepted`, `C86_violated`, `C86_detected`.

### C87 — The encoding is unambiguous (partial)

*Modelled.* `Message/Unique.lean`, over C01, C04 and C20.

*How.* From the round trips; for single elements by comparing octet by octet, without any condition on them.

*Outcome.* True of single elements, whatever they hold, as an exact condition; true of sequences and messages of well-formed elements. False of sequences of elements with a wrong length field, which constructors return only for contents beyond 65535 octets but which users can make by assigning to Length or Payload.

*Theorems.* `C87_element`, `C87_prefix_free`, `C87_sequence`, `C87_violated`, `C87_message`.

### C88 — A constructed message arrives as it was constructed (partial)

*Modelled.* `Message/Arrive.lean`, over C20, C21 and C24.

*How.* C20 is made exact first (over messages with the fields of their kind and well-formed elements); then the constructed message is put into the condition. The parameters of the constructors are written out from their signatures.

*Outcome.* True of every constructor that sorts a list of elements, for sequence numbers of 24 bits. False of those that take elements one by one if an argument is not of the type of its field or an extra element is (it then arrives in another field or among the extra ones), of Generic with a type octet assigned to another kind, and of sequence numbers beyond 24 bits; the condition is exact in each case.

*Theorems.* `C88_constructors`, `C88_list`, `C88_arguments`, `C88_generic`, `C88_violated`.

### C89 — Values can be overwritten in place (proved)

*Modelled.* `Message/Patch.lean`, over C01, C15, C20 and C21.

*How.* A mask says which octets are structure; by induction over the element, octets that agree with it on the mask are the encoding of an element of the same shape, which C01 decodes. Fields are filled by type only, and types are structure.

*Outcome.* For single elements in both directions; for messages of every kind.

*Theorems.* `C89_element`, `C89_element_back`, `C89_message`.

### C90 — A printed header tells which header it is (partial)

*Modelled.* `Message/Print.lean`.

*How.* The verbs of package fmt are modelled (decimal and hexadecimal digits, padding, prefix, nothing for an empty slice); digits are read back by their value, and a part ends at the first comma or brace because no part contains one.

*Outcome.* The version is printed as 1 whatever it is, and the spare bits are not printed (C90_violated, for every header). Exactly these five bits are lost (C90_exact).

*Theorems.* `C90_exact`, `C90_violated`, `C90_partial`.

### C91 — A received message is not changed by the next datagram (partial)

*Modelled.* `Mem/Message.lean` (messages in memory) and `Mem/MessageProps.lean`, over the memory model of C66.

*How.* Decoding in memory is shown to denote what the decoder on values gives, at any later time, with the bytes then in the buffer: filing goes by the types of the pointed-to structs, which are not in the buffer.

*Outcome.* False for every message that carries values (C91_violated): elements and header payload are windows into the buffer. Exactly which parts change is C91_exact; what stays is C91_kept_partial; decoding from a copy is C91_copied_partial.

*Theorems.* `C91_decode`, `C91_exact`, `C91_kept_partial`, `C91_violated`, `C91_copied_partial`.

### C92 — A relay sends the octets it received (partial)

*Modelled.* `Message/Relay.lean` (place of an element in a message, sequences ordered by place) and `Message/RelayProps.lean`.

*How.* Octets and elements determine each other here although bare headers make the encoding ambiguous in general: filing keeps the elements of each type in order, and each element starts with its type. A sequence is left as it is by filing exactly if it is ordered by place and repeats nothing.

*Outcome.* False (C92_relay_violated): elements are put in the order of the struct fields, all but the last of a repeated single element are lost, and the length field is recomputed. Exactly when the octets are kept is C92_relay_iff; what holds of every datagram is C92_relay_partial; it always holds of what the library encoded itself (C92_own_messages) and of what was already relayed once, if its elements are complete (C92_settles).

*Theorems.* `C92_relay_iff`, `C92_relay_violated`, `C92_relay_partial`, `C92_own_messages`, `C92_settles`.

### C93 — ErrUnexpectedEOF means that octets are missing (partial)

*Modelled.* `IE/More.lean` (the inputs that cannot be completed, how every byte string begins, what the decoder does with each beginning) and `Message/MoreProps.lean`.

*How.* Hopeless input stays hopeless when octets are added and is refused; any other is completed explicitly, by filling up the header or the contents of the last element.

*Outcome.* The first half is false (C93_unexpected_eof_violated): a child longer than its complete group gives io.ErrUnexpectedEOF whatever follows, and so does a vendor-specific header cut before its enterprise id. Exactly which inputs cannot be completed is C93_hopeless_iff and, for datagrams, C93_datagram_iff; what holds of the first half is C93_unexpected_eof_partial. The second half holds (C93_invalid_length, C93_datagram_invalid_length), and there are no other errors (C93_two_errors).

*Theorems.* `C93_hopeless_iff`, `C93_two_errors`, `C93_invalid_length`, `C93_unexpected_eof_violated`, `C93_unexpected_eof_partial`, `C93_datagram_iff`, `C93_datagram_invalid_length`.

### C94 — Registering a grouped type affects only elements of that type (partial)

*Modelled.* `IE/Register.lean` (results of the decoder as a relation, elements within a result, results without the children of some types) and `Message/RegisterProps.lean`.

*How.* The relation is shown equal to the decoder for every configuration; the rest is induction over it, with the documented rule of C11 for the calls.

*Outcome.* The second half holds (C94_children_only, C94_other_types, C94_message, and for the calls C94_registration_partial). The first is false (C94_registration_violated): registering a type whose payload is not a sequence of elements makes every message that carries it undecodable. Exactly what is still accepted is C94_still_accepted_iff and C94_message_accepted_iff; exactly when two configurations give the same result is C94_same_result_iff.

*Theorems.* `C94_children_only`, `C94_still_accepted_iff`, `C94_same_result_iff`, `C94_other_types`, `C94_registration_violated`, `C94_registration_partial`, `C94_message`, `C94_message_accepted_iff`.

## 4. Where code and property disagree

Each item is a theorem in Lean about the model, named first; file references are to `/repo`.

* `C05_short_buffer_violated`: The guard of C05 is needed: with a buffer too short for the payload the call panics, or, when the buffer has spare capacity, reports success after writing behind the buffer's end.
* `C08_add_nil_violated`: A nil argument to `Add` on a grouped element panics, although constructors skip nil.
* `C08_add_panics`: C08, exact: `Add` panics precisely when the element is grouped and an argument is nil.
* `C09_truncated_violated`: C09 is false: a bare header announcing one byte of payload, at the end of the input, decodes to an element whose length field is 1 and whose payload is empty.
* `C10_length_violated`: C10 is false for payloads of 65536 bytes: the length field wraps to 0 and the decoder sees an empty element followed by garbage.
* `C11_nil_function_panics`: Outside the rule: installing a nil function makes every later query, hence every decode, panic.
* `C12_function_race_violated`: C12 (b), violated: `IsGrouped` reads the installed function without taking the lock, so one goroutine decoding while another calls `SetIsGroupedFun` is a data race.
* `C13_config_change_violated`: C13 is false: an element decoded while its type was not grouped loses its payload when encoded after the type was registered as grouped.
* `C16_constructor_priority_violated`: C16 (d), violated: the priority given to the constructor is not what `MP` returns; the argument is stored unshifted.
* `C16_setMP_violated`: C16 (c), violated: `SetMP` is documented to set the MP flag; it sets the FO flag instead and leaves MP unset, for every header on which MP was unset.
* `C17_bundle_violated`: C17 is false for datagrams that carry several messages: whatever complete messages follow the first one, `message.Parse` returns the first message with each of the others as an unknown element whose type is made of the flags and the message type.
* `C17_length_violated`: C17, concrete: a header announcing 4 bytes (no body) in front of a 5-byte body is accepted with the body, and one announcing 0xffff bytes is accepted as well.
* `C21_one_byte_violated`: C21, violated at one point: a body of exactly one byte is not an element and is not an error either; the byte disappears (the same byte as part of a longer body would be an error).
* `C22_stability_violated`: C22 (b), violated: decoding the re-encoded message can lose an element. A release request whose body is an unknown element followed by a bare node id header (announcing five bytes that are not there) is accepted; re-encoding puts the node id first and decoding that swallows the other element.
* `C25_constructor_nil_violated`: C25 (b), violated: a nil element makes the constructor panic for every kind whose constructor takes a list, and for heartbeats, PFD management responses and generic messages.
* `C25_generic_nil_violated`: C25 (b), violated for both constructors of generic messages: they panic on a nil element.
* `C27_one_byte_violated`: C27, violated at one point: a one-byte body is dropped.
* `C28_names_violated`: C28 (b), violated: two pairs of kinds share a name, and an update response, which is not a request, is called "Association Update Request".
* `C29_usage_reports_violated`: A larger number loses its top bit.
* `C30_argument_violated`: An argument other than 0 and 1 (the parameters are integers) sets flags of other parameters: volume 2 sets the event flag.
* `C30_dl_flow_level_marking_violated`: The two functions for DL Flow Level Marking have changed places: an element with only the traffic class reports only a service class indicator (/repo/ie/dl-flow-level-marking.go:33-57; the structure decoder of the same file reads the bits as specified).
* `C30_ip_version_violated`: `NewIPVersion` and the functions `HasIPv4`, `HasIPv6` disagree for all arguments that differ (/repo/ie/ip-version.go).
* `C30_ue_ip_address_violated`: An element that asks the UP function to allocate an IPv6 address (V6 and CHV6 set, no address in it) is reported to have one.
* `C32_short_panics`: The constructor panics on a network code that is neither two nor at least three digits.
* `C33_long_label_violated`: Labels longer than that are not representable, and the encoder does not refuse them.
* `C35_shorter_violated`: The second half of C35 fails: a duration of 32 or more units that has no larger unit is read back as a shorter finite one, for instance 64 seconds as 0 and 66 seconds as 2 seconds, in every timer element.
* `C35_spare_units_violated`: The comment in /repo/ie/timer.go:26 says that other units are multiples of 1 minute; they are read as 0.
* `C36_wraps_violated`: Outside of that range another instant is read back, without an error: 1969 becomes 2106 and 2106 becomes 1970.
* `C37_short_foreign_exists_violated`: None of them has a case for every type, so the previous theorem is about foreign elements as well.
* `C37_short_foreign_violated`: Each accessor of the list answers "unexpected EOF" to a foreign element with an empty payload.
* `C38_pdi_network_instance_violated`: The search in a PDI for a network instance never finds anything: /repo/ie/network-instance.go compares the type of the PDI itself instead of the child.
* `C38_short_group_violated`: A grouped element shorter than the length an accessor checks first is answered with "unexpected EOF" instead of "not found": an empty Create URR has no time threshold, but the answer is an EOF.
* `C38_update_mar_violated`: The search in an Update MAR for values of the access forwarding action information ignores the two "update" variants, although the accessors handle them (/repo/ie/far-id.go:106-117 and the same in priority.go, urr-id.go, weight.go).
* `C39_flags_violated`: So the property is false of each function of the list: these bytes decode, and the function panics.
* `C39_panics_violated`: So the property is false of each accessor of the list, and the list is exact.
* `C40_FTEID_nil_violated`: Without that hypothesis: with both address flags set and a nil IPv4 address, the decoder takes the first octets of the IPv6 address for the IPv4 address.
* `C40_HeaderEnrichment_violated`: C40 is false for a name of 256 octets: the name comes back empty.
* `C40_IP46_violated`: C40 is false when both addresses are nil: the encoder's output is refused by the decoder.
* `C40_IPMulticastAddress_violated`: C40 is false for "any": its one-octet encoding is refused by the decoder.
* `C40_MACAddress_violated`: C40 is false without addresses: the encoding of no address is refused by the decoder.
* `C40_MACAddresses_violated`: C40 is false: every decoded value has one address more than it counts, and no tags, so that nothing that `NewMACAddressesDetected` encodes is decoded to the value it was made from.
* `C40_OuterHeaderCreation_low_violated`: C40 is false for bits 6 and 7 of the description: no element is decoded to a value with one of them.
* `C40_OuterHeaderCreation_violated`: C40 is false for tags: no element whatsoever is decoded to a value with a tag other than zero.
* `C40_PFDContents_list_violated`: C40 is false: an empty text at the end of a list is lost.
* `C40_PFDContents_violated`: C40 is false: two single texts are refused, unless the second is longer than the first by four octets or more; here a flow description and a URL.
* `C40_PMFAddressInformation_violated`: C40 is false: no element is decoded to a value with a MAC address.
* `C40_PacketRateStatus_violated`: Outside that range the time comes back different: every instant from 2192 on is read as the same one.
* `C40_RedirectInformation_single_violated`: An element that ends after the first address (which the specification allows) is refused unless that is empty.
* `C40_RedirectInformation_violated`: C40 is false: given one address that is not empty, a second, non-empty one is read back.
* `C40_SDFFilter_ttc_violated`: A three-octet traffic class is cut, a one-octet one padded.
* `C40_SDFFilter_violated`: C40 is false for an empty filter.
* `C40_SourceIPAddress_violated`: C40 is false when both addresses are nil: the encoding is refused by the decoder.
* `C40_Tag_violated`: C40 is false for every other VID of 12 bits: a different one comes back.
* `C40_TraceInformation_violated`: C40 is false: no element is decoded to a value with events, interfaces or an address.
* `C40_UEIPAddress_unparsable_violated`: An unparsable IPv4 address string is encoded as 0.0.0.0, and comes back as such.
* `C40_UEIPAddress_violated`: C40 with both is false: whatever the arguments, the prefix length comes back as the delegation size.
* `C40_UserID_violated`: C40 is false for every digit string of even, non-zero length (all telephone numbers of 12 digits, IMEISVs of 16): it comes back without its last digit. Stated for the MSISDN.
* `C40_UserPlaneIPResourceInformation_violated`: C40 is false with a network instance: nothing that announces one is ever decoded.
* `C40_VolumeMeasurement_violated`: C40 without that hypothesis is false: what the constructor returns for flags 0 is refused by the decoder.
* `C40_Volume_violated`: C40 without that hypothesis is false: what the constructor returns for flags 0 is refused by the decoder.
* `C41_MACAddresses_violated`: C41 is false: it panics exactly on the payloads that end behind the address too many.
* `C41_OuterHeaderCreation_violated`: C41 is false: bit 6 or 7 in the second octet and three more octets.
* `C41_PFDContents_violated`: C41 is false: if the first text is declared longer than the payload, the decoder panics (without spare capacity).
* `C41_RemoteGTPUPeer_violated`: C41 is false: a destination interface of length 0 at the end.
* `C41_SDFFilter_violated`: C41 is false: a flow description longer than the element, at the end of the buffer.
* `C41_SourceIPAddress_violated`: C41 is false: a mask prefix length announced but missing at the very end makes the decoder panic.
* `C41_TraceInformation_violated`: C41 is false: a payload of exactly six octets is one that panics.
* `C41_UserPlaneIPResourceInformation_violated`: C41 is false: a source interface announced but missing.
* `C42_PFDContents_violated`: C42 is false: a flow description declared longer than the payload is read from the memory behind it.
* `C42_SDFFilter_violated`: C42 is false: whenever only a flow description is announced and its length exceeds the element, the decoder takes the missing octets from the buffer behind the element.
* `C43_DLFlowLevelMarking_violated`: C43 is false: with neither flag set the encoder asks for two octets of a one-octet buffer.
* `C43_IPMulticastAddress_violated`: C43 is false for two start addresses and one end: the constructor returns nil.
* `C43_MACAddress_violated`: C43 is false for a shorter one: the constructor panics.
* `C43_MACAddresses_violated`: C43 is false: without one of the tags the constructor panics, whatever the addresses.
* `C43_PFDContents_violated`: C43 is false: a list of one text of 65534 octets or more makes the constructor panic.
* `C43_PacketRate_violated`: C43 is false: with neither direction announced the encoder fails.
* `C43_RedirectInformation_violated`: C43 is false: without addresses the constructor panics.
* `C43_RemoteGTPUPeer_violated`: C43 is false: no flags give an error, and a set bit 5 makes the constructor panic.
* `C43_TraceInformation_violated`: C43 is false: whatever the other arguments, a country code with a character that is no digit gives no element, and a one-digit network code panics.
* `C43_UserID_violated`: C43 is false: whenever an announced IMSI contains something else than a hexadecimal digit, the constructor panics.
* `C43_UserPlaneIPResourceInformation_violated`: C43 is false: no flags give an error.
* `C45_element_violated`: C45 is false for elements as well: the bare header of a Node ID decoded into an element that held a Cause gives a Node ID with the value of the Cause; encoding it gives five octets with the length field 0.
* `C45_reuse_violated`: C45 is false: `UnmarshalBinary` on a message that already holds elements keeps those the new datagram does not mention, and appends to the lists.
* `C46_field_type_violated`: C46 is false for two fields of the session modification response: the decoder leaves types 264 and 200 in the extra list and files 252 and 195 instead, although the library defines constants named "... within session modification response" for 264 and 200.
* `C50_decode_while_setting_violated`: C50 fails when functions are installed while decoding: a received datagram can make the decoder panic.
* `C50_one_configuration_violated`: C50 fails even when types are only registered: the decoded list can be one that no configuration that was ever in force gives. Here the child of the new grouped type is returned twice, once in the payload of its parent and once after it.
* `C52_OuterHeaderCreation_violated`: C52 is false for a port number with a tag: the tag overwrites the port, two zero octets follow.
* `C53_DLFlowLevelMarking_violated`: C53 is false: a single zero octet is accepted, but what comes out cannot be encoded again.
* `C53_MACAddresses_violated`: C53 is false: re-encoding whatever was decoded panics.
* `C53_OuterHeaderCreation_violated`: C53 is false: the tag of an accepted element is re-encoded as zero.
* `C53_PFDContents_violated`: C53 is false: the spare octet is cleared, and a list with an empty text at its end moves what follows it.
* `C53_PMFAddressInformation_violated`: C53 is false: the MAC addresses are re-encoded as zeros.
* `C53_PacketRateStatus_violated`: C53 is false: a validity time after 2192 is re-encoded as one in 2192.
* `C53_PacketRate_violated`: C53 is false: two zero octets are accepted, but what comes out cannot be encoded again.
* `C53_RedirectInformation_violated`: C53 is false for every accepted element with a non-empty address that ends where a decoder would expect it to end: the re-encoding is longer than the element.
* `C53_RemoteGTPUPeer_violated`: C53 is false: only the first octet of the destination interface is kept; and with length 0 re-encoding panics.
* `C53_SDFFilter_violated`: C53 is false: the spare octet is lost.
* `C53_Tag_violated`: C53 is false: an upper VID half is lost.
* `C53_TraceInformation_violated`: C53 is false: an element with an IPv4 address is re-encoded with the address 0.0.0.0.
* `C53_UEIPAddress_violated`: C53 is false with both a prefix delegation and a prefix length: the second is re-encoded as the first.
* `C53_UserID_violated`: C53 is false in general: two digits without filler.
* `C53_UserPlaneIPResourceInformation_violated`: C53 is false: the spare bits beside the source interface are lost, and a value without fields is not encoded.
* `C54_too_long_violated`: What is too long is lost: with children of more than 65535 octets together, the length field wraps around and the encoded element, decoded, is not the one that was made.
* `C55_csids_violated`: Whatever element is received, `CSIDs` never returns an identifier: its loop condition is the wrong way round.
* `C55_downlink_data_service_information_violated`: C55: with the paging policy indicator alone, `PPI` works and `QFI` panics; with the QoS flow identifier alone, `PPI` returns the QoS flow identifier and `QFI` panics (/repo/ie/qfi.go:19-24, downlink-data-service-information.go:71-80).
* `C55_dropped_dl_traffic_threshold_violated`: C55: the thresholds cannot be read back; the accessor returns the flags octet whatever they are.
* `C55_failed_rule_violated`: For a type of rule that does not exist, the identifier is dropped and read as 0.
* `C55_forwarding_policy_violated`: Longer ones never are, and no error is reported.
* `C55_fqcsid_violated`: Without an identifier, the address is sent but cannot be read.
* `C55_gate_status_violated`: Larger values are not cut off but spill: a downlink value 4 closes the uplink gate.
* `C55_nf_instance_panics`: The constructor panics exactly if the slice it is given has no 16 octets of capacity.
* `C55_nf_instance_violated`: If it is shorter but has the capacity, what happens to be behind it in memory is sent.
* `C55_node_id_violated`: A text that is no IPv4 address does not make the constructor fail: node 0.0.0.0 is sent.
* `C55_teidri_panics`: An element without payload, which the decoder accepts, makes `TEIDRI` panic.
* `C55_tsn_bridge_violated`: Addresses of another length are sent, but reading them fails or gives another address.
* `C57_grouped_violated`: In forwarding parameters the name is not found: what is decoded as a name is the payload of the parent element, not of the network instance in it.
* `C57_heuristic_violated`: Other text is mistaken for a name: a digit and 48 letters, which is also a label of 48 octets, loses its first character.
* `C59_mac_addresses_violated`: Lists of MAC addresses never come back as they were given: an address made of other octets is added.
* `C59_nil_violated`: Without any direction announced, both constructors return nil.
* `C59_outer_header_creation_violated`: Tags that are announced never come back: the accessor reads 0 for them.
* `C59_pfd_contents_violated`: A flow description and a URL that is not longer by at least four octets: the element is made and sent, but the receiver cannot read it.
* `C59_redirect_information_violated`: With a single address, something is read as the second one.
* `C59_ue_ip_address_violated`: With both announced, the prefix length read is the delegation size.
* `C59_user_id_violated`: An even number of digits: the last one is lost on the way.
* `C59_volume_violated`: With no volume announced, the element cannot be read.
* `C61_enable_stuck_violated`: C61 (h), violated: from the moment `EnableLogging` has locked the mutex, in every continuation nothing is printed, no logger is installed and no call of any goroutine returns; `message.Parse` on a message of unknown type, which logs, hangs.
* `C61_enable_violated`: C61 (g), violated: `EnableLogging` locks a mutex that it has locked already. In no execution of any program does a call of it ever return.
* `C61_reinstall_violated`: `DisableLogging` silences the logger itself, so that installing it again does not bring the messages back.
* `C63_grow_violated`: Create PDR holding PDI holding Source Interface; a Network Instance is added to the PDI found in it. The PDI then announces more bytes than the Create PDR around it: the encoding is rejected.
* `C63_nested_violated`: C63 is false, for every group, every path and every edit: editing an element found inside a well-formed group leaves the enclosing element's length and payload as they were. The encoding is decoded back to the element exactly when the edit changed nothing; otherwise the length field of the encoding does not count its bytes.
* `C63_shrink_violated`: The other way round: removing an element from a group found inside another makes the outer group swallow what follows it in the message.
* `C65_flat_flags_violated`: C65: the functions listed answer no for every group, whatever it contains.
* `C65_missed_violated`: C65: whatever is in such a group, the accessor refuses it.
* `C65_pdi_packet_filter_violated`: C65: the Ethernet type and the filter properties are looked for in the PDI itself, while the other values of an Ethernet packet filter (C-TAG, S-TAG, MAC address, filter identifier) are looked for in the packet filter in the PDI: what is in the packet filter is not found (/repo/ie/ethertype.go:17-27, ethernet-filter-properties.go:17-27).
* `C65_siblings_violated`: C65: the accessors listed work on one group of the pair and refuse the other.
* `C66_group_violated`: After the reuse a grouped element can contradict itself: its payload no longer decodes to its children. Here a Create FAR holding a FAR ID, after the buffer was filled with a Create FAR holding a BAR ID.
* `C66_reuse_violated`: C66 is false: whatever element with a payload is decoded from the start of a receive buffer, the next datagram of that size can change it.
* `C67_copy_violated`: C67 (g), violated for copies of the struct: `j := *i; i.Add(a); j.Add(b)` leaves `i` with the child `b` instead of `a`, while its payload still is the encoding with `a`.
* `C67_list_violated`: C67 (h), violated for lists handed out by `ValueAsGrouped` (/repo/ie/ie.go:455): the caller appends an element of type 58 to the list, then adds one of type 57 to the group; the caller's list now ends in the one of type 57.
* `C67_self_violated`: C67 (i), violated for `i.Add(i)`: the program dies, whatever the stack.
* `C68_field_violated`: C68 is false: for every kind of message there is a datagram that decodes without error and leaves every field of the message empty, so that reading any of them panics.
* `C69_client_sequence_violated`: C69 is false: the client takes a response with any sequence number, and any instant, for the answer to its request (whose sequence number is 1).
* `C69_server_survives_violated`: C69 is false: eight octets from anyone stop the server, whatever is registered and whatever memory holds.
* `C70_version_violated`: C70 is false: for each of the eight versions there is a datagram that is decoded as a header of that version.
* `C71_crash_violated`: C71 is false: a short slice may crash the program.
* `C71_overrun_violated`: C71 is false: a short slice is not always reported. Two octets of a three-octet array: success, and the third octet, not part of the slice, is overwritten.
* `C71_stale_violated`: C71 is false: what lands in a buffer used before may differ from what `Marshal` returns.
* `C72_crash_violated`: and every message crashes on a buffer without that room.
* `C72_overrun_violated`: Not C72: for every message that carries anything at all there is a buffer that is too short for it where `MarshalTo` reports success having changed memory behind the slice,
* `C73_error_violated`: Not C73: for every message with an element there is a schedule under which the second goroutine succeeds and the first gets an error, because the payload is nil when it writes its first element,
* `C73_make_violated`: and for every message with an element one under which `make` is asked for a negative size and panics, because the second goroutine has put its array in place between two of the readings of the payload's length.
* `C73_panic_violated`: and for every message with two elements one under which it panics.
* `C73_race_violated`: Not C73: in terms of the Go memory model, two goroutines encoding the same message race, for every message: both can be about to write the payload.
* `C73_zeros_violated`: Not C73: for every message and every two goroutines calling `Marshal` on it, there is a schedule under which both report success and the first has a message of the right size whose body is all zeros: the array that the second has just put in place.
* `C74_FSEID_violated`: The same with an F-SEID: the stale address is not written, but room is left for it.
* `C74_IPMulticastAddress_violated`: The same with a multicast address.
* `C74_MACAddress_violated`: The same with a MAC address.
* `C74_MACAddresses_violated`: Decoding twice into the same value collects the addresses of both.
* `C74_OuterHeaderCreation_violated`: The same with an outer header creation whose first octet has the bit of a C-TAG, which the decoder does not read: the encoder writes the one that was there.
* `C74_PFDContents_violated`: Not the same outcome: contents that decode into a new value are refused by a value that has held a longer text.
* `C74_PMFAddressInformation_violated`: The MAC addresses of PMF address information are kept only in a value that has some: a decode into a new value loses them, a decode into a used value has those on the wire.
* `C74_Tag_violated`: The same with a tag: the stale priority is written.
* `C74_TraceInformation_violated`: The same with trace information.
* `C74_addresses_violated`: Not the same octets again: an IPv4 address decoded into a value that had an IPv6 address is encoded with both behind flags that announce only the first.
* `C74_stale_violated`: Not the same value: a quota with only an uplink volume, decoded into a value that had a total volume, still shows the total volume.
* `C75_element_violated`: C75 is false for elements: a Cause into which five octets of a longer Source Interface were decoded is a Source Interface whose length field announces nine octets and whose value is that of the Cause; its encoding is refused by the decoder.
* `C75_group_violated`: C75 is false for grouped elements: the children are gone.
* `C75_header_violated`: C75 is false for headers: a header into which too few octets were decoded has their type, flags and length.
* `C75_mixed_violated`: C75 a Heartbeat Request that has been given a damaged Association Setup Request is encoded as an Association Setup Request with the elements of the Heartbeat Request.
* `C75_retry_generic_violated`: The failed decode shows in a message of unknown type when the next datagram has no elements.
* `C75_unusable_violated`: C75 is false for messages: whatever the message was, after a datagram of fewer than eight octets it cannot be encoded or read any more; every attempt panics.
* `C76_either_violated`: Not C76, for each of those accessors: with a child of each of two types, the accessor reads the one that comes first, so that the two orders give the answers of the two children.
* `C76_pdi_violated`: A packet detection information whose redundant transmission parameters come first: `FTEID` answers with theirs.
* `C77_repeated_violated`: Not C77, for every kind of message and every field for a single element: of two elements of its type the field gets the second, and encoding the message again drops the first.
* `C80_MACAddresses_violated`: C80 is false throughout: no value comes back, since the encoder panics on everything the decoder returns.
* `C80_violated`: C80 is false: a VLAN tag with every field announced and in its range does not come back.
* `C83_MACAddresses_violated`: C83 is false throughout: no value comes back.
* `C83_violated`: C83 is false: three delays, the third not announced by the flags, do not come back.
* `C84_violated`: C84 is false: whatever the message, it may lose all its elements on the way without anyone noticing.
* `C85_violated`: C85 is false: the parser of any kind accepts exactly what `message.Parse` accepts, whatever the type octet says, and refuses the rest with the same error.
* `C86_violated`: C86 is false for every kind: there is an accepted message of a session kind without a session id, and one of a node kind with.
* `C87_violated`: C87 without the length field being right is false: a sequence of one element has the encoding of a sequence of two.
* `C88_violated`: C88 is false: an association release request built with a recovery time stamp where the node id belongs does not arrive as such, and neither does a generic message of type 1.
* `C90_violated`: C90 fails: every header prints like one of another version, so a peer that speaks another version looks in the log as if it spoke version 1.
* `C91_violated`: C91 fails for every message: let the next datagram received into the same buffer have the inverse octets; then in the message received before, every octet of every value, in every field and at every depth, is now another one.
* `C92_relay_violated`: C92, violated: three accepted datagrams that come out differently. The first has its elements in another order and they are exchanged, the second repeats an element and the first of the two is lost, the third announces no body and the length field is put right.
* `C93_unexpected_eof_violated`: C93 is false as stated: io.ErrUnexpectedEOF is also the answer to a complete group whose last child announces more than the group has, and nothing that follows changes it.
* `C94_registration_violated`: C94 is false as stated: after PDR ID was registered as grouped, the PDR ID element (and with it every message that carries one) is refused.

Two further observations, not stated as violations: `IsAllocatedByCPFunction` is true when bit 8 of the URR ID is 1, while TS 29.244 8.2.54
gives 0 that meaning (`C30_urr_allocation` states what the code does); even-length digit strings decoded with the cut flag lose their last
digit (`C31_even_cut`), which is what the flag asks for but not what its callers want (`C40_UserID_violated`).

## 5. Seeded bugs

`seeded/LOG.jsonl` has one line per wrong program tried in a scratch copy: the definition edited, the edit, the claim it breaks, the
theorems that failed and any that were tightened.

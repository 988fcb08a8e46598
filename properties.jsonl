{"id": "C01", "title": "IE encode/decode round trip", "statement": "Encoding any well-formed information element (declared length right, payload of a grouped element equal to its encoded children, enterprise id only on vendor types, total size at most 65535) with Marshal and decoding the bytes with ie.Parse gives back the same element, with the same type, length, enterprise id, payload and the whole tree of children.", "quantifier": "every element tree of every depth, width and content, and every choice of which types are grouped", "why_tests_cant": "the tree space is unbounded; tests sample flat elements with fixed payloads", "anchors": ["ie/ie.go:IE.Marshal", "ie/ie.go:IE.MarshalTo", "ie/ie.go:Parse", "ie/ie.go:IE.UnmarshalBinary"]}
{"id": "C02", "title": "IE decode/encode is lossless", "statement": "Whenever ie.Parse accepts a byte string, Marshal on the result succeeds and reproduces exactly the first MarshalLen bytes of the input.", "quantifier": "every byte string, including malformed, truncated and adversarial ones", "why_tests_cant": "all byte strings cannot be enumerated, and the interesting ones are those nobody writes a test for", "anchors": ["ie/ie.go:Parse", "ie/ie.go:IE.Marshal", "ie/ie.go:IE.MarshalLen"]}
{"id": "C03", "title": "IE decoding is total", "statement": "ie.Parse and ie.ParseMultiIEs return a value or an error on every input: they never panic and never loop forever, however the grouped types are configured.", "quantifier": "every byte string and every grouped-type configuration", "why_tests_cant": "fuzzing samples inputs; absence of panics and termination need all of them", "anchors": ["ie/ie.go:Parse", "ie/ie.go:ParseMultiIEs", "ie/ie.go:IE.UnmarshalBinary"]}
{"id": "C04", "title": "IE sequences decode compositionally", "statement": "ParseMultiIEs on the concatenation of the encodings of well-formed elements returns exactly those elements in order; and whenever ParseMultiIEs accepts an input, concatenating the encodings of its results gives the input back with no byte lost, added or moved.", "quantifier": "every list of elements of any length; every byte string", "why_tests_cant": "needs induction on the number of elements", "anchors": ["ie/ie.go:ParseMultiIEs"]}
{"id": "C05", "title": "Encoded size is exact and writes stay inside it", "statement": "For every element, Marshal succeeds and returns exactly MarshalLen bytes; MarshalTo into any buffer at least that long succeeds, writes those same bytes at the front and leaves every later byte of the buffer untouched.", "quantifier": "every element tree and every destination buffer of sufficient size", "why_tests_cant": "unit tests use exactly sized buffers and a few elements", "anchors": ["ie/ie.go:IE.MarshalLen", "ie/ie.go:IE.MarshalTo", "ie/ie.go:IE.Marshal"]}
{"id": "C06", "title": "Decoded tree is no larger than its input", "statement": "The number of elements (at all nesting levels) created by decoding a byte string is at most a quarter of its length in bytes, and the nesting depth is bounded the same way, so a small datagram cannot make the decoder allocate an unbounded tree.", "quantifier": "every byte string", "why_tests_cant": "a bound over all inputs", "anchors": ["ie/ie.go:ParseMultiIEs", "ie/ie.go:IE.UnmarshalBinary"]}
{"id": "C07", "title": "Grouped constructors keep children, payload and length in step", "statement": "For every list of child elements (nil entries allowed) building a grouped element keeps exactly the non-nil children in order, its payload is the concatenation of their encodings, its length field is the payload size (as long as it fits 16 bits), and asking for its children by re-parsing the payload returns the same children.", "quantifier": "every list of well-formed children with nil entries anywhere", "why_tests_cant": "unbounded lists and nesting", "anchors": ["ie/ie.go:NewGroupedIE", "ie/ie.go:NewVendorSpecificGroupedIE", "ie/ie.go:newGroupedIE", "ie/ie.go:IE.ValueAsGrouped"]}
{"id": "C08", "title": "Add, Remove and FindByType behave like a list", "statement": "After any history of Add and Remove calls on a grouped element, its children are those the same history gives on a plain list (append; drop every entry of the type), the payload is the concatenation of their encodings, the length field matches, FindByType returns the first child of the type or a not-found error, and the result still encodes and decodes back to itself.", "quantifier": "every finite sequence of Add/Remove/FindByType operations with arbitrary elements", "why_tests_cant": "histories are unbounded; tests try one or two calls", "anchors": ["ie/ie_grouped.go:IE.Add", "ie/ie_grouped.go:IE.Remove", "ie/ie_grouped.go:IE.FindByType"]}
{"id": "C09", "title": "An element cut short is rejected", "statement": "If an element declares more payload than there are bytes left, decoding fails rather than returning an element with missing payload.", "quantifier": "every byte string whose first element is truncated at any point", "why_tests_cant": "all cut points of all elements", "anchors": ["ie/ie.go:IE.UnmarshalBinary"]}
{"id": "C10", "title": "Length field never disagrees with the payload", "statement": "An element built by any constructor carries a length field equal to the number of bytes after the 4-byte element header, so that the peer decodes it correctly.", "quantifier": "every payload size", "why_tests_cant": "sizes above 65535 are not exercised by tests", "anchors": ["ie/ie.go:New", "ie/ie.go:NewVendorSpecificIE", "ie/ie.go:IE.SetLength"]}
{"id": "C11", "title": "Grouped-type configuration follows the documented rule for every history", "statement": "After any sequence of AddGroupedIEType and SetIsGroupedFun calls, an element counts as grouped exactly when the last installed function says so or, if none was installed, when its type is one of the defaults or has been added; adding types is idempotent and order-independent.", "quantifier": "every sequence of configuration calls", "why_tests_cant": "histories are unbounded", "anchors": ["ie/ie_grouped.go:AddGroupedIEType", "ie/ie_grouped.go:SetIsGroupedFun", "ie/ie_grouped.go:IE.IsGrouped"]}
{"id": "C12", "title": "Concurrent configuration and decoding is race free", "statement": "With any number of goroutines calling AddGroupedIEType, SetIsGroupedFun and decoding at once, no schedule lets one goroutine access the shared configuration while another one writes it.", "quantifier": "every number of goroutines and every interleaving of their steps", "why_tests_cant": "a race detector only sees the schedules that happened", "anchors": ["ie/ie_grouped.go:AddGroupedIEType", "ie/ie_grouped.go:SetIsGroupedFun", "ie/ie_grouped.go:IE.IsGrouped"]}
{"id": "C13", "title": "Re-encoding survives a configuration change", "statement": "An element decoded under one grouped-type configuration encodes to the same bytes after more types were registered as grouped.", "quantifier": "every element and every pair of configurations", "why_tests_cant": "needs a configuration change between decode and encode, over all elements", "anchors": ["ie/ie_grouped.go:AddGroupedIEType", "ie/ie.go:IE.MarshalTo"]}
{"id": "C14", "title": "Header round trip", "statement": "Encoding any PFCP header (24-bit sequence number, session id zero unless the S flag is set) and decoding it gives back the same flags, type, length, session id, sequence number, priority and payload.", "quantifier": "every header value and payload", "why_tests_cant": "2^120 headers times all payloads", "anchors": ["message/header.go:Header.MarshalTo", "message/header.go:Header.UnmarshalBinary"]}
{"id": "C15", "title": "Header decoding is total and lossless", "statement": "ParseHeader returns a header or an error on every byte string without panicking, and encoding the decoded header gives the input bytes back.", "quantifier": "every byte string", "why_tests_cant": "all inputs", "anchors": ["message/header.go:ParseHeader", "message/header.go:Header.UnmarshalBinary", "message/header.go:Header.Marshal"]}
{"id": "C16", "title": "Header setters do what they say", "statement": "SetSEID makes the S flag and session id visible and changes no other flag; SetMP makes the MP flag and the 4-bit priority visible and changes no other flag; SetSequenceNumber changes only the sequence number; and these survive encoding.", "quantifier": "every header and every argument", "why_tests_cant": "all header states", "anchors": ["message/header.go:Header.SetSEID", "message/header.go:Header.SetMP", "message/header.go:Header.SetSequenceNumber", "message/header.go:Header.MP"]}
{"id": "C17", "title": "The header length field delimits the message", "statement": "Decoding a message takes exactly the bytes its header length announces: bytes after it are not interpreted as part of the message and a length beyond the datagram is an error.", "quantifier": "every datagram", "why_tests_cant": "all length/size combinations", "anchors": ["message/header.go:Header.UnmarshalBinary", "message/message.go:Parse"]}
{"id": "C18", "title": "Message decoding is total", "statement": "message.Parse returns a message or an error on every byte string: it never panics and always terminates.", "quantifier": "every byte string, every message type octet, every grouped-type configuration", "why_tests_cant": "fuzzing samples inputs", "anchors": ["message/message.go:Parse", "message/*.go:UnmarshalBinary"]}
{"id": "C19", "title": "Message type dispatch", "statement": "message.Parse returns the message kind assigned to the type octet (the generic kind for any unassigned value), MessageType reports that octet, and every kind built by its constructor carries its own type octet, so constructor and dispatcher agree.", "quantifier": "every byte string and every constructor argument", "why_tests_cant": "all 256 type octets with all bodies", "anchors": ["message/message.go:Parse", "message/*.go:New*", "message/*.go:MessageType"]}
{"id": "C20", "title": "Message round trip for every message kind", "statement": "For each of the 23 message kinds and the generic one, encoding any well-formed message (each field holding an element of the type that field stands for, other elements in the extra list, sizes within 16 bits) and decoding it with message.Parse gives back the same kind with the same header fields and the same element in every field, including repeated ones in order.", "quantifier": "every message of every kind with any number of elements", "why_tests_cant": "tests check one instance per kind; the number of combinations of present/absent/repeated fields is unbounded", "anchors": ["message/*.go:MarshalTo", "message/*.go:UnmarshalBinary", "message/message.go:Parse"]}
{"id": "C21", "title": "No element is lost or misfiled when decoding a message", "statement": "Every element decoded from a message body ends up in the field for its type or in the extra list, in order of appearance; a repeatable field collects all of them, a single field holds the last one, and nothing else appears anywhere.", "quantifier": "every message body of every kind", "why_tests_cant": "all bodies, with repetition and unknown elements", "anchors": ["message/*.go:UnmarshalBinary"]}
{"id": "C22", "title": "Decode-encode-decode is stable", "statement": "If message.Parse accepts a datagram, encoding the result succeeds and decoding that encoding gives the same message again (same header apart from the recomputed length, same elements in every field).", "quantifier": "every accepted datagram", "why_tests_cant": "all accepted inputs", "anchors": ["message/message.go:Parse", "message/*.go:MarshalTo"]}
{"id": "C23", "title": "Encoded messages carry a correct length", "statement": "Marshal of any message returns exactly MarshalLen bytes and octets 3-4 hold that size minus 4 (for messages that fit 16 bits); constructors set the same Length.", "quantifier": "every message of every kind", "why_tests_cant": "all messages", "anchors": ["message/*.go:MarshalLen", "message/*.go:SetLength", "message/*.go:MarshalTo"]}
{"id": "C24", "title": "Constructors file elements like the decoder", "statement": "Building a message from a list of elements gives the same fields as decoding a message whose body is that list, for each kind whose constructor takes a list of arbitrary elements.", "quantifier": "every list of elements", "why_tests_cant": "all lists", "anchors": ["message/*.go:New*", "message/*.go:UnmarshalBinary"]}
{"id": "C25", "title": "Nil elements are skipped", "statement": "A nil element among the elements passed to a message constructor is ignored: construction, MarshalLen and Marshal behave as if it was absent and do not panic.", "quantifier": "every list of elements with nils anywhere, every kind", "why_tests_cant": "all positions and kinds", "anchors": ["message/*.go:New*", "message/*.go:SetLength", "message/*.go:MarshalTo", "message/*.go:MarshalLen"]}
{"id": "C26", "title": "Encoding does not disturb the message", "statement": "Marshal can be called any number of times, interleaved with MarshalLen, and always returns the same bytes; it changes nothing but the header's cached payload and length.", "quantifier": "every message and every number of calls", "why_tests_cant": "histories of calls", "anchors": ["message/*.go:MarshalTo", "message/generic.go:Generic.MarshalTo"]}
{"id": "C27", "title": "Unknown elements and messages pass through", "statement": "Elements of unknown or vendor-specific types in any message, and messages of unknown type, survive decode and re-encode byte for byte.", "quantifier": "every unknown type number and payload", "why_tests_cant": "all type numbers and payloads", "anchors": ["message/generic.go:Generic.UnmarshalBinary", "message/*.go:UnmarshalBinary"]}
{"id": "C28", "title": "Message names and request flags are consistent", "statement": "Distinct message kinds have distinct names, and a kind reports IsRequest exactly when its name ends in Request.", "quantifier": "all message kinds", "why_tests_cant": "finite, but stated over the whole table rather than a sample", "anchors": ["message/*.go:MessageTypeName", "message/*.go:IsRequest"]}
{"id": "C29", "title": "Scalar elements round trip", "statement": "For every element whose value is a single integer or a raw string, building it from a value, encoding, decoding and reading it back yields that value (restricted to the documented width of the field).", "quantifier": "every scalar element kind and every value", "why_tests_cant": "2^64 values per kind", "anchors": ["ie/ie.go:newUint8ValIE", "ie/ie.go:newUint16ValIE", "ie/ie.go:newUint32ValIE", "ie/ie.go:newUint64ValIE", "ie/ie.go:IE.ValueAsUint8", "ie/ie.go:IE.ValueAsUint16", "ie/ie.go:IE.ValueAsUint32", "ie/ie.go:IE.ValueAsUint64"]}
{"id": "C30", "title": "Flag elements report the flags they were built with", "statement": "For flag elements built from individual flags, each Has-accessor reports exactly the flag that was set, independently of the others.", "quantifier": "every combination of flags of every flag element", "why_tests_cant": "combinations across all elements", "anchors": ["ie/apply-action.go", "ie/report-type.go", "ie/ip-version.go", "ie/dl-flow-level-marking.go", "ie/misc.go"]}
{"id": "C31", "title": "Digit strings survive swapped-nibble coding", "statement": "Encoding a string of hexadecimal digits in swapped-nibble form and decoding it returns the same (lower-case) digits, for even and odd lengths, and the encoder rejects anything that is not a digit string.", "quantifier": "every digit string of every length", "why_tests_cant": "unbounded strings", "anchors": ["internal/utils/utils.go:StrToSwappedBytes", "internal/utils/utils.go:SwappedBytesToStr"]}
{"id": "C32", "title": "PLMN identities round trip", "statement": "Encoding any three-digit country code and two- or three-digit network code gives three bytes that decode to the same codes.", "quantifier": "all country and network codes", "why_tests_cant": "one million combinations, tests try two", "anchors": ["internal/utils/utils.go:EncodePLMN", "internal/utils/utils.go:DecodePLMN"]}
{"id": "C33", "title": "Domain names round trip", "statement": "Encoding a dotted name whose labels are at most 255 bytes as length-prefixed labels and decoding it returns the same name, and decoding never reads outside its input.", "quantifier": "every name of any number of labels; every byte string for decoding", "why_tests_cant": "unbounded names", "anchors": ["internal/utils/utils.go:EncodeFQDN", "internal/utils/utils.go:DecodeFQDN"]}
{"id": "C34", "title": "24-bit and 40-bit integers round trip", "statement": "Packing an integer below 2^24 into three bytes (2^40 into five) and unpacking it is the identity, larger values lose exactly their high bits, and unpacking then packing three (five) bytes is the identity.", "quantifier": "every integer and byte triple/quintuple", "why_tests_cant": "2^40 values", "anchors": ["internal/utils/utils.go:Uint24To32", "internal/utils/utils.go:Uint32To24", "internal/utils/utils.go:Uint40To64", "internal/utils/utils.go:Uint64To40", "message/misc.go"]}
{"id": "C35", "title": "Timers do not silently change duration", "statement": "A duration placed in a timer element is read back unchanged whenever it is representable in one of the timer units, and otherwise is not read back as a shorter finite duration.", "quantifier": "every duration and every timer octet", "why_tests_cant": "all durations", "anchors": ["ie/timer.go:NewTimer", "ie/timer.go:IE.Timer", "ie/dl-buffering-duration.go", "ie/graceful-release-period.go"]}
{"id": "C36", "title": "Timestamps round trip within the 32-bit era", "statement": "A time (whole seconds) stored in a timestamp element is read back equal when it lies in the range the 32-bit seconds counter can represent from 1970 on.", "quantifier": "every instant", "why_tests_cant": "2^32 instants", "anchors": ["ie/ie.go:IE.valueAs3GPPTimestamp", "ie/recovery-time-stamp.go", "ie/event-time-stamp.go"]}
{"id": "C37", "title": "Accessors refuse foreign elements", "statement": "Calling a value accessor on an element whose type it does not handle returns an invalid-type error carrying that type, whatever the payload.", "quantifier": "every accessor, every other type number and every payload", "why_tests_cant": "65536 types times about 170 accessors times all payloads", "anchors": ["ie/*.go"]}
{"id": "C38", "title": "Accessors on grouped elements return the first matching child's value", "statement": "Calling a value accessor on a grouped element that may contain it returns exactly what the same accessor returns on the first child of a handled type, returns a not-found error when there is no such child, and returns the decoder's error when the payload does not decode.", "quantifier": "every accessor, every grouped element and all payloads at any nesting", "why_tests_cant": "unbounded nesting and payloads", "anchors": ["ie/*.go"]}
{"id": "C39", "title": "Accessors never panic on received elements", "statement": "For every element obtained by decoding bytes, every value accessor returns a value or an error.", "quantifier": "every accessor and every byte string", "why_tests_cant": "all inputs for all accessors", "anchors": ["ie/*.go"]}
{"id": "C40", "title": "Structured values round trip", "statement": "For each structured element, encoding a value built by its constructor and decoding it gives the same value, and decoding ignores extra trailing bytes.", "quantifier": "every combination of flags and contents of each structured element", "why_tests_cant": "flag combinations times contents", "anchors": ["ie/volume-quota.go", "ie/volume-threshold.go", "ie/volume-measurement.go", "ie/ue-ip-address.go", "ie/f-seid.go", "ie/f-teid.go", "ie/user-id.go"]}
{"id": "C41", "title": "Structured decoders never panic", "statement": "Each exported ParseXxxFields function returns a value or an error on every byte slice.", "quantifier": "every byte slice, whatever its spare capacity", "why_tests_cant": "all inputs", "anchors": ["ie/*.go:Parse*Fields"]}
{"id": "C42", "title": "Structured decoders depend only on the bytes given", "statement": "The result of each exported ParseXxxFields function depends only on the bytes of the slice passed, never on bytes that lie after it in the underlying buffer.", "quantifier": "every byte slice and every content of the memory behind it", "why_tests_cant": "two-run property over all inputs and capacities", "anchors": ["ie/*.go:Parse*Fields"]}
{"id": "C43", "title": "Structured encoders never fail on constructed values", "statement": "For each structured element the constructor returns a usable (non-nil) element for all argument values it documents, and never panics.", "quantifier": "every argument combination", "why_tests_cant": "all combinations", "anchors": ["ie/*.go:New*"]}
{"id": "C44", "title": "Exactly which byte strings are element sequences", "statement": "ParseMultiIEs accepts a byte string exactly when it is a sequence of complete elements (each header followed by all the payload it declares, the payload of grouped elements being itself such a sequence), except that any such sequence may end in a bare header whose payload is missing; and if nothing is missing, the result is exactly the well-formed elements encoding to the input.", "quantifier": "every byte string and grouped-type configuration", "why_tests_cant": "exact characterisation of an infinite language", "anchors": ["ie/ie.go:ParseMultiIEs", "ie/ie.go:UnmarshalBinary"]}
{"id": "C45", "title": "Decoding into a used message equals decoding into a fresh one", "statement": "UnmarshalBinary on a message or element that was decoded into before leaves it exactly as decoding the same bytes into a fresh value would: nothing of the earlier message remains.", "quantifier": "every message kind, every previous state and every datagram", "why_tests_cant": "all pairs of previous state and input", "anchors": ["message/*.go:UnmarshalBinary", "ie/ie.go:UnmarshalBinary"]}
{"id": "C46", "title": "Each message field holds the element the standard puts there", "statement": "For each message kind, each named field is filled from the element type TS 29.244 assigns to it in that message, and from no other.", "quantifier": "every field of every message kind and every type number", "why_tests_cant": "the type number ranges over all 65536 values for each field", "anchors": ["message/*.go:UnmarshalBinary", "ie/ie.go"]}
{"id": "C47", "title": "What grouped constructors nest, the decoder un-nests", "statement": "By default an element type is treated as grouped by the decoder exactly when the package exports a constructor that builds it from child elements.", "quantifier": "every one of the 65536 element types", "why_tests_cant": "all types; a type missing from the table only shows as lost children", "anchors": ["ie/ie_grouped.go", "ie/*.go:New* calling newGroupedIE"]}
{"id": "C48", "title": "Configuration calls and queries always return", "statement": "However many goroutines call AddGroupedIEType, SetIsGroupedFun, IsGrouped and the decoders at once, none of them ever waits for ever: there is no deadlock, and every schedule finishes.", "quantifier": "every number of goroutines, every program of calls, every interleaving", "why_tests_cant": "all interleavings of unboundedly many goroutines", "anchors": ["ie/ie_grouped.go"]}
{"id": "C49", "title": "Registrations are atomic", "statement": "An AddGroupedIEType call that registers several types is seen by every lookup of a type either entirely or not at all: at each lookup the set of grouped types is exactly the defaults plus all types of the registration calls completed so far.", "quantifier": "every number of goroutines, every interleaving", "why_tests_cant": "all interleavings", "anchors": ["ie/ie_grouped.go"]}
{"id": "C50", "title": "Decoding while the configuration changes", "statement": "A decode that runs while other goroutines call AddGroupedIEType or SetIsGroupedFun never panics, and its result is the one some configuration in force during the call gives.", "quantifier": "every byte string and every timing of the configuration calls", "why_tests_cant": "the decoder asks about the type many times; a test would have to hit the gap between two questions", "anchors": ["ie/ie.go:ParseMultiIEs", "ie/ie.go:MarshalLen", "ie/ie_grouped.go"]}
{"id": "C51", "title": "Constructed messages carry the header they were asked for", "statement": "A message returned by a constructor has the type of its kind, version 1, the sequence number given, and for session messages the S flag, the SEID and the MP and FO flags and priority given; node messages never carry a SEID; SEID() is the header SEID exactly if the S flag is set and 0 otherwise.", "quantifier": "every message kind and every combination of constructor arguments", "why_tests_cant": "unbounded combinations of header arguments for each kind", "anchors": ["message/*.go:New*", "message/header.go"]}
{"id": "C52", "title": "Structured elements have the documented octet layout", "statement": "The encoding of a structured element value is, octet by octet, what TS 29.244 clause 8.2 shows for it: flags octet first, then exactly the fields announced by the flags, in the documented order, width and byte order.", "quantifier": "every value of every structured element", "why_tests_cant": "byte layouts over all field values and flag combinations", "anchors": ["ie/*.go:MarshalTo"]}
{"id": "C53", "title": "Decoding loses nothing it consumed", "statement": "If a structured decoder accepts a byte string, re-encoding the decoded value succeeds and gives back a prefix of that byte string: no announced field is dropped, misread or invented.", "quantifier": "every byte string and every structured element", "why_tests_cant": "all byte strings", "anchors": ["ie/*.go:UnmarshalBinary", "ie/*.go:MarshalTo"]}
{"id": "C54", "title": "What is put into a grouped element can be taken out again", "statement": "An element made by a grouped constructor (NewCreatePDR, NewPDI, ...) has the type of that name, and after encoding and decoding, the accessor of the same name returns exactly the child elements given, in order and without the nil ones. A value read through the group is the value of the first child of the type looked for. Only children whose encodings exceed 65535 octets together are lost.", "quantifier": "every grouped constructor, every list of well-formed children of any depth (nil ones included), all trailing bytes", "why_tests_cant": "any number, nesting and order of children", "anchors": ["ie/*.go:New*", "ie/ie.go:newGroupedIE", "ie/ie.go:ParseMultiIEs"]}
{"id": "C55", "title": "Elements with several values round trip", "statement": "For every element that is built from several values without a Fields structure (access availability, gate status, MBR, GBR, S-NSSAI, outer header removal, multiplier, failed rule, flow information, forwarding policy, UE IP address pool identity, NF instance, TSN bridge, time quota mechanism, UP function features, node ID, FQ-CSID, TEID range indication), what was given to the constructor is read back with the accessors after encoding and decoding, whatever follows on the wire.", "quantifier": "every argument of every such constructor, all trailing bytes", "why_tests_cant": "products of value ranges (40-bit rates, addresses, names, lists) times trailing bytes", "anchors": ["ie/gate-status.go", "ie/mbr.go", "ie/gbr.go", "ie/s-nssai.go", "ie/multiplier.go", "ie/failed-rule-id.go", "ie/flow-information.go", "ie/forwarding-policy.go", "ie/ue-ip-address-pool-identity.go", "ie/nf-instance-id.go", "ie/tsn-bridge-id.go", "ie/time-quota-mechanism.go", "ie/up-function-features.go", "ie/node-id.go", "ie/fq-csid.go"]}
{"id": "C56", "title": "The n-th F-TEID is the n-th F-TEID", "statement": "LocalFTEIDN(n) on a created traffic endpoint returns the value of the n-th F-TEID among the children, counted from 1 and whatever is between them; ErrIENotFound if there are fewer or n is not positive; InvalidTypeError on any other element.", "quantifier": "every n, every number and order of children, before and after the wire", "why_tests_cant": "any number of children in any order", "anchors": ["ie/created-traffic-endpoint.go:LocalFTEIDN"]}
{"id": "C57", "title": "Names of network instances and APNs", "statement": "A network instance or APN/DNN built from a domain name is returned as that name, and a network instance built from plain text as that text; NetworkInstanceHeuristic finds out which of the two it is.", "quantifier": "every name with labels shorter than 256 octets, every text", "why_tests_cant": "all texts and all names", "anchors": ["ie/network-instance.go", "ie/apn-dnn.go"]}
{"id": "C58", "title": "The Apply Action validator is exact", "statement": "ValidateApplyAction accepts an Apply Action element exactly if its flags satisfy TS 29.244 clause 8.2.26 (one and only one of DROP, FORW, BUFF, IPMA, IPMD; NOCP and BDPN only with BUFF; DUPL only with DROP, FORW, BUFF or NOCP; DFRT only with FORW; DDPN only with DROP or BUFF), reports every other one as ErrMalformed and any other element as InvalidTypeError; it never panics.", "quantifier": "every element and every payload of any length", "why_tests_cant": "all flag combinations, any payload length", "anchors": ["ie/apply-action.go:ValidateApplyAction"]}
{"id": "C59", "title": "Structured elements survive the wire from constructor to accessor", "statement": "For every constructor that takes the fields of a structure (F-SEID, F-TEID, UE IP address, volume and packet rate elements, SDF filter, user ID, redirect information, PFD contents, PMF address information and the others), the element it builds has the type named, is decoded to itself from its encoding whatever follows, and its accessor returns a structure with the fields that were given, the flags telling which are present.", "quantifier": "every argument of each of these constructors and all trailing bytes", "why_tests_cant": "products of flags, addresses, names and 64-bit counters times trailing bytes; the accessors decode the payload afresh", "anchors": ["ie/f-seid.go:NewFSEID", "ie/f-teid.go:NewFTEID", "ie/ue-ip-address.go:NewUEIPAddress", "ie/volume-*.go", "ie/sdf-filter.go", "ie/user-id.go", "ie/redirect-information.go", "ie/pfd-contents.go", "ie/pmf-address-information.go"]}
{"id": "C60", "title": "Generic constructors and readers agree for every type", "statement": "A number, text or domain name stored with NewUint8IE, NewUint16IE, NewUint32IE, NewUint64IE, NewStringIE or NewFQDNIE under any type that is not grouped, vendor-specific types included, is read back by the ValueAs reader of the same kind after encoding and decoding; a vendor-specific element keeps its enterprise number and value; grouped elements are refused, short values reported, and no reader reads outside the payload. ValueAsGrouped reads a vendor-specific payload made of elements and refuses plain 3GPP types.", "quantifier": "all types, values, payloads, enterprise numbers and trailing bytes", "why_tests_cant": "65536 types times 64-bit values times payloads", "anchors": ["ie/ie.go:NewUint8IE", "ie/ie.go:NewFQDNIE", "ie/ie.go:NewVendorSpecificIE", "ie/ie.go:ValueAsUint8", "ie/ie.go:ValueAsFQDN", "ie/ie.go:ValueAsGrouped"]}
{"id": "C61", "title": "Logger calls are atomic, race free and return", "statement": "However goroutines interleave SetLogger, EnableLogging, DisableLogging and Logf (which message.Parse calls on messages of unknown type): there is no data race on the installed logger, the mutex is only unlocked while locked, the effect is that of running the calls one after the other in an order that agrees with each goroutine's, every call returns, a disabled logger prints nothing and an installed one prints what is logged.", "quantifier": "every number of goroutines, every sequence of calls, every interleaving", "why_tests_cant": "schedules cannot be enumerated by tests, and a test of EnableLogging would hang", "anchors": ["internal/logger/logger.go:SetLogger", "internal/logger/logger.go:EnableLogging", "internal/logger/logger.go:DisableLogging", "internal/logger/logger.go:Logf", "logger.go"]}
{"id": "C62", "title": "Names of element types", "statement": "IEType.String gives the identifier of the constant for every type that has one, IEType(n) for every other type; it never fails, and different types have different names.", "quantifier": "all 65536 types", "why_tests_cant": "the offsets in the generated table are only right or wrong together; all types and all pairs of types", "anchors": ["ie/ietype_string.go:String", "ie/ie.go:IEType"]}
{"id": "C63", "title": "Editing an element inside a group", "statement": "The elements found in a group are the group's own: after FindByType and Add or Remove on what was found, at any depth, the enclosing elements show the edit, encode with a length that counts their bytes, and decode back to themselves; calling Add without arguments on the enclosing elements from the inside out brings payload and length up to date.", "quantifier": "all well-formed groups, paths of any depth, edits and resulting sizes", "why_tests_cant": "depth, position and size of the edit are unbounded", "anchors": ["ie/ie_grouped.go:Add", "ie/ie_grouped.go:Remove", "ie/ie_grouped.go:FindByType", "ie/ie.go:MarshalTo"]}
{"id": "C64", "title": "Flags of the field structures", "statement": "HasX of a field structure reads the bit TS 29.244 assigns to the flag; SetXFlag makes HasX true and changes no other flag and no other bit; after any sequence of setters exactly the flags set before or by the sequence are reported.", "quantifier": "all 79 pairs of methods on 23 structures, all flag octets, all sequences of calls", "why_tests_cant": "all orders and repetitions of setters", "anchors": ["ie/f-teid.go:SetChFlag", "ie/f-teid.go:HasCh", "ie/volume-measurement.go:SetTOVOLFlag", "ie/pfd-contents.go:SetADNPFlag"]}
{"id": "C65", "title": "Values are found in the groups that carry them", "statement": "An accessor or flag function called on a grouped element that carries its value finds the value: for every pair of a group and an accessor it is fixed whether the group is looked into and for which children; groups that carry the same values (create and update, the two accesses, the usage reports) are read alike, and no group that carries a value is refused.", "quantifier": "all accessors, all flag functions, all 65536 types, all contents of groups", "why_tests_cant": "464 pairs of accessor and group times all contents; the tests only try pairs that work", "anchors": ["ie/*.go: case labels of the accessors", "ie/sdf-filter.go:SDFFilter", "ie/ethertype.go:Ethertype", "ie/qfi.go:QFI"]}
{"id": "C66", "title": "Decoded elements do not depend on the receive buffer", "statement": "An element decoded from a buffer keeps its value when the buffer is used for the next datagram, and so does an element made from a byte slice when the caller writes into that slice.", "quantifier": "all buffers, elements, nestings and later contents of the buffer", "why_tests_cant": "all pairs of datagrams; the tests decode once and never reuse the buffer", "anchors": ["ie/ie.go:UnmarshalBinary", "ie/ie.go:ParseMultiIEs", "ie/ie.go:New", "ie/ie.go:NewVendorSpecificIE"]}
{"id": "C67", "title": "Calls leave other people's memory alone", "statement": "No sequence of Parse, New, newGroupedIE, Add and Remove writes into a byte array that existed before, and an element that no Add or Remove of the sequence edits, in itself or inside, reads the same afterwards, although elements share children and arrays; Add, Remove and newGroupedIE on shared memory do what they do on values, however the run-time system grows arrays, and Add returns for every argument.", "quantifier": "all heaps, all histories of calls, all shapes of sharing, all growth policies of append", "why_tests_cant": "histories and sharing are unbounded and the capacity of a slice is up to the run-time system", "anchors": ["ie/ie_grouped.go:Add", "ie/ie_grouped.go:Remove", "ie/ie.go:newGroupedIE", "ie/ie.go:ParseMultiIEs", "ie/ie.go:ValueAsGrouped"]}
{"id": "C68", "title": "Reading an element a message does not carry is an error", "statement": "After a datagram has been decoded, calling an accessor on any pointer field of the message returns the value or an error: a mandatory element that the sender left out is reported, not a crash.", "quantifier": "all datagrams, message kinds, fields and accessors", "why_tests_cant": "which fields are missing is up to the sender; tests build complete messages", "anchors": ["message/message.go:Parse", "message/heartbeat-request.go:UnmarshalBinary", "ie/recovery-time-stamp.go:RecoveryTimeStamp", "examples/heartbeat/hb-server/main.go"]}
{"id": "C69", "title": "The heartbeat example programs interoperate and survive", "statement": "The example server answers every heartbeat request with a response carrying the request's sequence number and its own time, ignores everything else and never ends; the example client accepts only the response to its request, reads the server's time from it, and never crashes.", "quantifier": "all datagrams, sequences of datagrams, clock values", "why_tests_cant": "a server's input is whatever arrives on its port, for as long as it runs", "anchors": ["examples/heartbeat/hb-server/main.go", "examples/heartbeat/hb-client/main.go", "message/heartbeat-response.go:NewHeartbeatResponse", "ie/recovery-time-stamp.go:NewRecoveryTimeStamp"]}
{"id": "C70", "title": "The version in the header is respected", "statement": "Version() is the version in the header, and a header of a version other than 1 is not decoded as version 1.", "quantifier": "all headers and datagrams", "why_tests_cant": "eight versions times all datagrams; the fixtures are all version 1", "anchors": ["message/header.go:Version", "message/header.go:UnmarshalBinary", "message/message.go:Parse"]}
{"id": "C71", "title": "MarshalTo of a structured value respects the caller's buffer", "statement": "MarshalTo of a structured field value into a buffer the caller supplies never crashes; it succeeds exactly when the buffer holds MarshalLen() octets, then writes the encoding to its beginning, every octet of it, and leaves all others, including those behind the slice, as they were.", "quantifier": "all values, all buffers (contents, lengths and capacities)", "why_tests_cant": "tests call MarshalTo through Marshal, with a zeroed buffer of exactly the right size; used, longer and shorter buffers are not tried", "anchors": ["ie/source-ip-address.go:MarshalTo", "ie/trace-information.go:MarshalTo", "ie/redirect-information.go:MarshalTo", "ie/sdf-filter.go:MarshalTo", "ie/pfd-contents.go:MarshalTo", "ie/outer-header-creation.go:MarshalTo", "ie/pmf-address-information.go:MarshalTo", "ie/c-tag.go:MarshalTo", "ie/dl-flow-level-marking.go:MarshalTo", "ie/f-teid.go:MarshalTo", "ie/f-seid.go:MarshalTo", "ie/volume-threshold.go:MarshalTo"]}
{"id": "C72", "title": "MarshalTo of a message respects the caller's buffer", "statement": "MarshalTo of a header or message into a buffer the caller supplies never crashes; it succeeds exactly when the buffer holds MarshalLen() octets, then writes the encoding to its beginning and leaves everything else, including memory behind the slice, as it was.", "quantifier": "all headers, messages of all kinds, buffers (contents, lengths and capacities)", "why_tests_cant": "tests call MarshalTo through Marshal, with a buffer of exactly the right size", "anchors": ["message/header.go:MarshalTo", "message/header.go:MarshalLen", "message/heartbeat-request.go:MarshalTo", "message/session-establishment-request.go:MarshalTo"]}
{"id": "C73", "title": "A message can be encoded by several goroutines at once", "statement": "Calls of Marshal from different goroutines do not disturb each other: each returns the encoding of its message, whether the messages are different (possibly sharing elements) or the same.", "quantifier": "all messages, numbers of goroutines and schedules", "why_tests_cant": "a test sees a few schedules, and the race detector only the accesses of those", "anchors": ["message/heartbeat-request.go:Marshal", "message/heartbeat-request.go:MarshalTo", "message/heartbeat-request.go:MarshalLen", "message/header.go:SetLength", "message/header.go:MarshalTo", "message/header.go:MarshalLen", "ie/ie.go:MarshalTo"]}
{"id": "C74", "title": "Decoding into a used structured value equals decoding into a new one", "statement": "UnmarshalBinary of a XxxFields value gives the result of a decode into a new value whatever the value held before: the same outcome, the same fields, and the same octets when encoded again.", "quantifier": "for all structured types, all old values and all byte slices", "why_tests_cant": "A test decodes into a new value (ParseXxxFields); what is left over shows only for particular pairs of an old value and new flags, and there are as many pairs as values.", "anchors": ["ie/volume-quota.go:128-161", "ie/f-seid.go:96-124", "ie/pfd-contents.go:241-371", "ie/mac-address-detected.go:107-145", "ie/pmf-address-information.go:135-184", "ie/alternative-smf-ip-address.go:93-118"]}
{"id": "C75", "title": "A failed decode leaves the receiver alone", "statement": "When UnmarshalBinary of an element, a header or a message reports an error, the receiver is what it was before the call: it can still be encoded and read, and the next decode into it is not affected.", "quantifier": "all receivers of all kinds and all byte strings that are refused, and all byte strings decoded next", "why_tests_cant": "tests drop the receiver after an error; what is left depends on where among all byte strings the decoder gave up", "anchors": ["ie/ie.go:514-556", "message/header.go:103-138", "message/heartbeat-request.go:91-118", "message/generic.go:91-106"]}
{"id": "C76", "title": "The order of elements of different types does not matter", "statement": "Two messages whose elements differ only in how elements of different types are arranged are decoded into the same fields, and accessors answer the same for two groups whose children differ only in that way, at any depth.", "quantifier": "all messages of all kinds, all groups and accessors, all arrangements", "why_tests_cant": "a test fixes one arrangement of the elements; there are exponentially many, and which accessor is sensitive to them depends on the table of types it looks for", "anchors": ["message/session-establishment-request.go:281-348", "ie/f-teid.go:27-110", "ie/far-id.go:14-165"]}
{"id": "C77", "title": "A repeated element is read the same way everywhere", "statement": "When an element of which one is expected comes twice, the first one counts, in a message as in a group.", "quantifier": "all messages of all kinds with a field for a single element, all groups, all elements", "why_tests_cant": "tests send each element once", "anchors": ["message/heartbeat-request.go:91-118", "message/association-setup-request.go:198-260", "ie/ie_grouped.go:185-196", "ie/far-id.go:14-165"]}
{"id": "C78", "title": "Decoding work is proportional to the datagram", "statement": "Decoding a datagram, accepted or not, takes a number of calls of UnmarshalBinary and MarshalLen that is at most proportional to its length.", "quantifier": "all datagrams, all outcomes, all configurations of grouped types", "why_tests_cant": "a test measures some inputs; the bound is over all inputs, and the inputs that break it are nested deeper than any real message", "anchors": ["ie/ie.go:496-511", "ie/ie.go:514-556", "ie/ie.go:598-612", "ie/ie_grouped.go:99-104", "message/message.go:60-122"]}
{"id": "C79", "title": "Encoding work is proportional to the message", "statement": "Encoding an element or a message takes a number of calls of MarshalTo and MarshalLen that is at most proportional to the number of its elements.", "quantifier": "all elements, all messages, all configurations of grouped types", "why_tests_cant": "a benchmark measures some messages; the bound is over all of them", "anchors": ["ie/ie.go:559-565", "ie/ie.go:568-595", "ie/ie.go:598-612", "message/association-release-request.go:37-79"]}
{"id": "C80", "title": "Structured field values survive encoding and decoding", "statement": "Encoding a structured field value and decoding the result gives the same value.", "quantifier": "all values of the Go structs, also those that no constructor returns and no decoder yields", "why_tests_cant": "a round-trip test tries the values someone thought of; which values survive is a statement about every one of them, and those that do not survive are the ones nobody tries", "anchors": ["ie/volume-measurement.go:53-61", "ie/f-teid.go:122-128", "ie/ue-ip-address.go:180-186", "ie/sdf-filter.go:74-82", "ie/remote-gtp-u-peer.go:108-116", "ie/c-tag.go:85-90", "ie/mac-address.go:62-68", "ie/user-plane-ip-resource-information.go:71-78"]}
{"id": "C81", "title": "Elements a receiver does not look for have no effect on what it reads", "statement": "Adding elements of types that the receiver does not know (of later releases or of vendors) to a message, or to groups in it at any depth, changes neither which elements the fields of the decoded message hold nor any value that an accessor reads from them.", "quantifier": "all messages of all kinds, all accessors and flag functions, all groups, any number of added elements at any place and depth", "why_tests_cant": "a test adds one unknown element at one place; that no accessor and no message type is disturbed by any of them at any place is a statement about all inputs", "anchors": ["message/session-establishment-request.go:281-348", "ie/f-teid.go:27-110", "ie/source-interface.go:22-62", "ie/ie.go:496-511"]}
{"id": "C82", "title": "An edit of a message changes only its own octets", "statement": "Changing the sequence number, the session id or the priority of a message, assigning to one of its fields or adding to its extra elements changes in the encoding only the octets of what was edited, and the length.", "quantifier": "all messages of all kinds without nil entries, all edits", "why_tests_cant": "a test compares one encoding before and after; that no other octet moves is a statement about all messages and all edits", "anchors": ["message/header.go:75-91", "message/header.go:176-204", "message/association-release-response.go:37-79", "message/generic.go:142-145"]}
{"id": "C83", "title": "What a fields constructor returns survives encoding and decoding", "statement": "Encoding the value that a constructor of structured fields (NewXxxFields) returns and decoding the result gives the same value.", "quantifier": "all constructors of structured fields, all their arguments", "why_tests_cant": "a round-trip test tries a few arguments, mostly those where flags and arguments agree; for which arguments a value survives is a statement about all of them", "anchors": ["ie/volume-quota.go:70-86", "ie/volume-measurement.go:64-92", "ie/number-of-ue-ip-addresses.go:58-64", "ie/packet-delay-thresholds.go:59-66", "ie/f-teid.go:131-139", "ie/ue-ip-address.go:189-209", "ie/remote-gtp-u-peer.go:119-141", "ie/sdf-filter.go:85-114", "ie/header-enrichment.go:74-82", "ie/user-id.go:52-90"]}
{"id": "C84", "title": "A message cut short is rejected", "statement": "Of the encoding of a message, no proper prefix is accepted by Parse: a datagram that lost its end on the way is reported, not taken for a shorter message.", "quantifier": "all well-formed messages, all numbers of octets that arrived, all configurations", "why_tests_cant": "there is one prefix per octet of every message; which of them are accepted depends on where the elements lie", "anchors": ["message/message.go:59-139", "message/header.go:93-138", "ie/ie.go:495-556", "message/session-establishment-request.go:280-300"]}
{"id": "C85", "title": "The parser of one message kind refuses messages of another", "statement": "ParseHeartbeatRequest, ParseSessionEstablishmentRequest and the other parsers of one kind accept only messages whose type octet is that of the kind, and return for them what message.Parse returns.", "quantifier": "all 24 parsers, all byte strings, all configurations", "why_tests_cant": "a test of each parser feeds it messages of its own kind", "anchors": ["message/heartbeat-request.go:81-88", "message/session-establishment-request.go:271-278", "message/session-establishment-request.go:280-300", "message/generic.go:81-88", "message/message.go:59-122"]}
{"id": "C86", "title": "The S flag agrees with the message kind", "statement": "A message of a session kind is accepted only with a session id, one of a node kind only without (TS 29.244 clause 7.2.2.4).", "quantifier": "all byte strings, all message kinds, all configurations", "why_tests_cant": "tests decode messages written correctly; that nothing else is accepted is a statement about all byte strings", "anchors": ["message/header.go:103-138", "message/header.go:61-63", "message/header.go:168-173", "message/message.go:59-122"]}
{"id": "C87", "title": "The encoding is unambiguous", "statement": "Two different elements, sequences of elements or messages never have the same encoding, and the encoding of an element is never the beginning of the encoding of another.", "quantifier": "all pairs of elements, of sequences and of messages, all configurations", "why_tests_cant": "a test compares few encodings; that no two of infinitely many values collide can only be proved", "anchors": ["ie/ie.go:568-610", "ie/ie.go:495-511", "message/session-establishment-request.go:107-268", "message/header.go:75-91"]}
{"id": "C88", "title": "A constructed message arrives as it was constructed", "statement": "Encoding the message a constructor returns and decoding it gives the same message: the same kind, the same elements in the same fields, the same extra elements, the same header.", "quantifier": "all constructors of messages, all their arguments of well-formed elements, all configurations", "why_tests_cant": "a round-trip test builds each message in the usual way; for which arguments it arrives changed is a statement about all of them", "anchors": ["message/heartbeat-request.go:20-34", "message/association-release-request.go:19-32", "message/session-set-deletion-request.go:20-34", "message/session-establishment-request.go:47-104", "message/generic.go:20-47", "message/message.go:59-122"]}
{"id": "C89", "title": "Values can be overwritten in place", "statement": "If in the octets of a message only the session id, the sequence number, the priority and values of elements are overwritten (at any depth, as a gateway does that rewrites addresses or identifiers in place, or as damage on the way does), the message is still accepted, is of the same kind, and holds in every field the same elements in the same order up to those values.", "quantifier": "all well-formed messages, all ways of overwriting any of those octets, all configurations", "why_tests_cant": "there are 2^8 ways to overwrite each octet of each message, and the claim is about all combinations", "anchors": ["ie/ie.go:495-556", "message/header.go:103-138", "message/message.go:59-122", "message/session-establishment-request.go:280-400"]}
{"id": "C90", "title": "A printed header tells which header it is", "statement": "Header.String shows what is in the header: two headers that print alike are the same header, so that the version, flags, session id and sequence number of a datagram can be read off the log.", "quantifier": "all headers", "why_tests_cant": "there are 2^8 first octets for each of the other contents; the claim compares every pair of headers", "anchors": ["message/header.go:159-161", "message/header.go:207-218"]}
{"id": "C91", "title": "A received message is not changed by the next datagram", "statement": "A message that was decoded from a receive buffer keeps its contents when the next datagram is received into the same buffer, as a server does that reads all datagrams into one buffer.", "quantifier": "all datagrams, all buffers and places in them, everything that is received or written later, all configurations", "why_tests_cant": "the values that change depend on the contents of a later datagram; a test that decodes one message, or several from buffers of their own, cannot see it", "anchors": ["message/message.go:60-122", "message/header.go:113-137", "message/association-release-response.go:91-118", "message/generic.go:91-106", "ie/ie.go:514-556"]}
{"id": "C92", "title": "A relay sends the octets it received", "statement": "A program that decodes a datagram with message.Parse and encodes the message it got sends exactly the octets it received.", "quantifier": "all accepted datagrams of all kinds, all configurations", "why_tests_cant": "whether it holds depends on the order and number of all elements of the datagram; tests relay datagrams the library itself has encoded, for which it always holds", "anchors": ["message/message.go:60-122", "message/association-release-response.go:37-118", "message/association-setup-request.go:215-240", "message/header.go:73-137", "message/generic.go:50-106"]}
{"id": "C93", "title": "ErrUnexpectedEOF means that octets are missing", "statement": "When decoding elements or a datagram fails with io.ErrUnexpectedEOF, more octets can make it succeed; when it fails with ErrInvalidLength, no continuation does. A program reading from a stream decides by the error whether to wait for more.", "quantifier": "all byte strings, all continuations, all configurations", "why_tests_cant": "one would have to try every continuation of every input; tests check that some error is returned", "anchors": ["ie/ie.go:495-556", "message/message.go:59-139", "message/header.go:93-138"]}
{"id": "C94", "title": "Registering a grouped type affects only elements of that type", "statement": "A call of AddGroupedIEType never makes the decoder refuse what it accepted before, and changes nothing in what it returns but the children of elements of the registered types.", "quantifier": "all byte strings and datagrams, all configurations and histories of configuration calls, all sets of registered types", "why_tests_cant": "a test registers one type and decodes one input; which inputs are affected depends on every element at every depth", "anchors": ["ie/ie_grouped.go:99-150", "ie/ie.go:495-556", "message/message.go:59-139"]}

{
 "claims": [
  {
   "property": "C01",
   "status": "proved",
   "theorems": [
    "Pfcp.C01_ie_roundtrip",
    "Pfcp.C01_layout"
   ],
   "note": "Any well-formed element tree, any nesting depth, any grouped-type configuration; also with trailing bytes."
  },
  {
   "property": "C02",
   "status": "proved",
   "theorems": [
    "Pfcp.C02_parse_marshal"
   ],
   "note": "For every accepted input and every configuration."
  },
  {
   "property": "C03",
   "status": "proved",
   "theorems": [
    "Pfcp.C03_parse_total"
   ],
   "note": "No panic and termination (the model counts running out of fuel as a panic) for all inputs and configurations."
  },
  {
   "property": "C04",
   "status": "proved",
   "theorems": [
    "Pfcp.C04_parseMulti_concat",
    "Pfcp.C04_parseMulti_lossless"
   ],
   "note": "Both directions."
  },
  {
   "property": "C05",
   "status": "partial",
   "theorems": [
    "Pfcp.C05_success",
    "Pfcp.C05_short_exact",
    "Pfcp.C05_marshal_exact",
    "Pfcp.C05_short_buffer_violated"
   ],
   "note": "Exactness and containment proved for all buffers at least MarshalLen long (C05_marshal_exact). For shorter buffers the code panics or writes past the end into spare capacity: C05_short_buffer_violated. Success on a short buffer always is an overrun (C05_success); the three outcomes for plain elements exactly: C05_short_exact."
  },
  {
   "property": "C06",
   "status": "proved",
   "theorems": [
    "Pfcp.C06_tree_bound"
   ],
   "note": "Number of elements <= len/4, depth likewise."
  },
  {
   "property": "C07",
   "status": "proved",
   "theorems": [
    "Pfcp.C07_decoded",
    "Pfcp.C07_newGrouped",
    "Pfcp.C07_newGrouped_roundtrip"
   ],
   "note": "For all child lists incl. nil entries; length equality needs the payload to fit 16 bits (otherwise see C10_length_violated)."
  },
  {
   "property": "C08",
   "status": "partial",
   "theorems": [
    "Pfcp.C08_add_panics",
    "Pfcp.C08_edits",
    "Pfcp.C08_edits_roundtrip",
    "Pfcp.C08_find",
    "Pfcp.C08_not_grouped",
    "Pfcp.C08_add_nil_violated"
   ],
   "note": "Proved for every history of edits with non-nil arguments; Add with a nil element panics: C08_add_nil_violated. Exactly when: C08_add_panics."
  },
  {
   "property": "C09",
   "status": "partial",
   "theorems": [
    "Pfcp.C09_truncated_exact",
    "Pfcp.C09_truncated_violated",
    "Pfcp.C09_truncated_partial",
    "Pfcp.C09_short_header"
   ],
   "note": "False as stated: an element whose header is the very end of the buffer is accepted although it declares payload (C09_truncated_violated). Every other truncation is rejected (C09_truncated_partial, C09_short_header). Exactly when: C09_truncated_exact."
  },
  {
   "property": "C10",
   "status": "partial",
   "theorems": [
    "Pfcp.C10_exact",
    "Pfcp.C10_new_exact",
    "Pfcp.C10_grouped_exact",
    "Pfcp.C10_new_partial",
    "Pfcp.C10_length_violated"
   ],
   "note": "False for payloads over 65535 bytes, the length wraps (C10_length_violated); true otherwise (C10_new_partial). Decoded back precisely when the size fits: C10_exact, C10_new_exact, C10_grouped_exact."
  },
  {
   "property": "C11",
   "status": "proved",
   "theorems": [
    "Pfcp.Config.C11_grouped_rule",
    "Pfcp.Config.C11_order_irrelevant",
    "Pfcp.Config.C11_add_after_set",
    "Pfcp.Config.C11_nil_function_panics"
   ],
   "note": "All histories of configuration calls with non-nil functions; a nil function makes every query panic (C11_nil_function_panics)."
  },
  {
   "property": "C12",
   "status": "partial",
   "theorems": [
    "Pfcp.Concurrent.C12_table_race_free",
    "Pfcp.Concurrent.C12_function_race_violated",
    "Pfcp.Concurrent.C12_function_race_partial",
    "Pfcp.Concurrent.C12_function_race_iff"
   ],
   "note": "The type table is never accessed by two goroutines at once (C12_table_race_free), for any number of goroutines. The function variable is read without the lock, so IsGrouped races with SetIsGroupedFun (C12_function_race_violated); no race when nobody calls SetIsGroupedFun (C12_function_race_partial). Exactly which programs have a race is C12_function_race_iff."
  },
  {
   "property": "C13",
   "status": "partial",
   "theorems": [
    "Pfcp.C13_exact",
    "Pfcp.C13_never_longer",
    "Pfcp.C13_ungroup",
    "Pfcp.C13_config_change_violated",
    "Pfcp.C13_config_change_partial"
   ],
   "note": "False (C13_config_change_violated); true when no type in the tree changes classification (C13_config_change_partial). Exactly when: C13_exact; what is encoded never grows (C13_never_longer), and taking types out of the grouped set changes nothing (C13_ungroup)."
  },
  {
   "property": "C14",
   "status": "proved",
   "theorems": [
    "Pfcp.Header.C14_exact",
    "Pfcp.Header.C14_iff",
    "Pfcp.Header.C14_header_roundtrip",
    "Pfcp.Header.C14_sequence_truncated"
   ],
   "note": "All headers with 24-bit sequence number, and exactly those: C14_exact gives the result for every header, C14_iff the condition."
  },
  {
   "property": "C15",
   "status": "proved",
   "theorems": [
    "Pfcp.Header.C15_header_total_lossless",
    "Pfcp.Header.C15_header_accepts"
   ],
   "note": "All byte strings; also the exact set of accepted inputs."
  },
  {
   "property": "C16",
   "status": "partial",
   "theorems": [
    "Pfcp.Header.C16_setMP_exact",
    "Pfcp.Header.C16_setMP_iff",
    "Pfcp.Header.C16_constructor_priority_iff",
    "Pfcp.Header.C16_constructor_flags_exact",
    "Pfcp.Header.C16_constructor_flags_iff",
    "Pfcp.Header.C16_wrappers",
    "Pfcp.Header.C16_setSEID",
    "Pfcp.Header.C16_setSequenceNumber",
    "Pfcp.Header.C16_setMP_violated",
    "Pfcp.Header.C16_setMP_partial",
    "Pfcp.Header.C16_constructor_priority_violated",
    "Pfcp.Header.C16_constructor_priority_partial",
    "Pfcp.Header.C16_constructor_flags"
   ],
   "note": "SetSEID, SetSequenceNumber proved. SetMP sets the FO flag and never MP, for every header (C16_setMP_violated); the priority value itself is readable (C16_setMP_partial). The constructor stores the priority unshifted (C16_constructor_priority_violated). Exact: C16_setMP_exact, C16_setMP_iff, C16_constructor_priority_iff, C16_constructor_flags_exact (unmasked arguments spill into other flags), C16_constructor_flags_iff."
  },
  {
   "property": "C17",
   "status": "partial",
   "theorems": [
    "Pfcp.Msg.C17_bundle_violated",
    "Pfcp.Msg.C17_bundle_default",
    "Pfcp.Header.C17_length_ignored",
    "Pfcp.Header.C17_length_violated",
    "Pfcp.Header.C17_length_partial",
    "Pfcp.Header.C17_length_iff",
    "Pfcp.Msg.C17_message_iff"
   ],
   "note": "False: the length field is ignored on decode, proved for every input (C17_length_ignored) with witnesses (C17_length_violated); true when the field is right (C17_length_partial) and only then (C17_length_iff, C17_message_iff). C17_bundle_violated: for every datagram of several complete messages the first is returned with the others as unknown elements."
  },
  {
   "property": "C18",
   "status": "proved",
   "theorems": [
    "Pfcp.Msg.C18_parse_total",
    "Pfcp.Msg.C18_parse_accepts"
   ],
   "note": "No panic, termination, and the exact set of accepted datagrams, for every configuration."
  },
  {
   "property": "C19",
   "status": "proved",
   "theorems": [
    "Pfcp.Msg.C19_dispatch",
    "Pfcp.Msg.C19_constructor",
    "Pfcp.Msg.C19_generic"
   ],
   "note": "All 256 type octets, all constructors and arguments."
  },
  {
   "property": "C20",
   "status": "proved",
   "theorems": [
    "Pfcp.Msg.C20_exact",
    "Pfcp.Msg.C20_message_roundtrip"
   ],
   "note": "All 23 kinds and Generic, any number of elements, any configuration."
  },
  {
   "property": "C21",
   "status": "partial",
   "theorems": [
    "Pfcp.Msg.C21_filing",
    "Pfcp.Msg.C21_one_byte_violated"
   ],
   "note": "Proved for every accepted datagram whose payload is not exactly one byte long (C21_filing describes that case too); a one-byte payload is silently discarded: C21_one_byte_violated."
  },
  {
   "property": "C22",
   "status": "partial",
   "theorems": [
    "Pfcp.Msg.C22_reencode",
    "Pfcp.Msg.C22_stability_violated",
    "Pfcp.Msg.C22_stability_partial",
    "Pfcp.Msg.C22_stability_iff"
   ],
   "note": "Re-encoding always succeeds (C22_reencode). The second decode can differ when the datagram ended in a truncated element (C22_stability_violated); it is the same otherwise (C22_stability_partial). Exact condition: C22_stability_iff."
  },
  {
   "property": "C23",
   "status": "proved",
   "theorems": [
    "Pfcp.Msg.C23_marshal_length",
    "Pfcp.Msg.C23_marshalTo",
    "Pfcp.Msg.C23_constructor_length"
   ],
   "note": "All messages of their Go type without nil in repeated fields; every constructor result."
  },
  {
   "property": "C24",
   "status": "proved",
   "theorems": [
    "Pfcp.Msg.C24_constructor_like_decoder"
   ],
   "note": "All 13 kinds with list constructors."
  },
  {
   "property": "C25",
   "status": "partial",
   "theorems": [
    "Pfcp.Msg.C25_encode_iff",
    "Pfcp.Msg.C25_constructor_iff",
    "Pfcp.Msg.C25_encode_skips_nil",
    "Pfcp.Msg.C25_constructor_nil_violated",
    "Pfcp.Msg.C25_generic_nil_violated",
    "Pfcp.Msg.C25_constructor_nil_partial"
   ],
   "note": "Encoding skips nil (C25_encode_skips_nil). 16 constructors and Generic panic on nil (C25_constructor_nil_violated, C25_generic_nil_violated); the other seven ignore it (C25_constructor_nil_partial). Exact: C25_constructor_iff, C25_encode_iff (a nil in a repeated field makes encoding panic)."
  },
  {
   "property": "C26",
   "status": "proved",
   "theorems": [
    "Pfcp.Msg.C26_marshal_idempotent"
   ],
   "note": "All messages; idempotence gives any number of calls."
  },
  {
   "property": "C27",
   "status": "partial",
   "theorems": [
    "Pfcp.Msg.C27_unknown_elements",
    "Pfcp.Msg.C27_passthrough",
    "Pfcp.Msg.C27_one_byte_violated"
   ],
   "note": "Proved for every accepted datagram (C27_unknown_elements, C27_passthrough) except bodies of exactly one byte, which are dropped (C27_one_byte_violated)."
  },
  {
   "property": "C28",
   "status": "partial",
   "theorems": [
    "Pfcp.Msg.C28_names_iff",
    "Pfcp.Msg.C28_suffix_iff",
    "Pfcp.Msg.C28_isRequest",
    "Pfcp.Msg.C28_names_violated",
    "Pfcp.Msg.C28_names_partial"
   ],
   "note": "IsRequest proved for all kinds. Two response kinds carry another kind's name (C28_names_violated); all others have the right one (C28_names_partial). Exact: C28_names_iff, C28_suffix_iff."
  },
  {
   "property": "C29",
   "status": "partial",
   "theorems": [
    "Pfcp.C29_packet_count",
    "Pfcp.C29_usage_reports_partial",
    "Pfcp.C29_usage_reports_violated",
    "Pfcp.C29_default",
    "Pfcp.C29_type",
    "Pfcp.C29_uint8",
    "Pfcp.C29_uint16",
    "Pfcp.C29_uint32",
    "Pfcp.C29_string",
    "Pfcp.C29_domain",
    "Pfcp.C29_octets",
    "Pfcp.C29_seconds",
    "Pfcp.C29_milliseconds",
    "Pfcp.C29_nanoseconds",
    "Pfcp.C29_notification_delay",
    "Pfcp.C29_integers",
    "Pfcp.C29_coverage"
   ],
   "note": "117 one-argument constructors (integers of 1, 2, 4, 8 octets, texts, names, octet lists, durations), through the wire with any trailing bytes; one-octet values restricted to the bits of the field. Durations in seconds assume that the float64 conversion is exact on whole seconds (SecondsOK). Two irregular codings are covered one by one: C29_packet_count, and C29_usage_reports_partial for counts below 2^15 (C29_usage_reports_violated otherwise)."
  },
  {
   "property": "C30",
   "status": "partial",
   "theorems": [
    "Pfcp.C30_layout_partial",
    "Pfcp.C30_short_partial",
    "Pfcp.C30_once",
    "Pfcp.C30_independent_partial",
    "Pfcp.C30_constructor_partial",
    "Pfcp.C30_constructor_default",
    "Pfcp.C30_downlink_data_service_information",
    "Pfcp.C30_dropped_dl_traffic_threshold",
    "Pfcp.C30_dl_flow_level_marking_violated",
    "Pfcp.C30_ip_version_violated",
    "Pfcp.C30_ue_ip_address_partial",
    "Pfcp.C30_ue_ip_address_violated",
    "Pfcp.C30_urr_allocation",
    "Pfcp.C30_argument_violated",
    "Pfcp.C30_fseid",
    "Pfcp.C30_fteid",
    "Pfcp.C30_outer_header_creation"
   ],
   "note": "157 flag functions. Each reads the bit that TS 29.244 gives it (independent table flagLayout) for every payload, setting one flag changes no other answer, an absent octet means no, and the 12 flag constructors plus two with values are read back through the wire for all arguments. Excluded because the code is wrong: DL Flow Level Marking and IP Version (both functions swapped), HasIPv6 on UE IP Address (looks at CHV4), arguments above 1 spill into other flags; each has a _violated theorem."
  },
  {
   "property": "C31",
   "status": "proved",
   "theorems": [
    "Pfcp.Text.C31_exact",
    "Pfcp.Fields.C31_octets_iff",
    "Pfcp.Text.C31_ends",
    "Pfcp.Text.C31_even",
    "Pfcp.Text.C31_odd",
    "Pfcp.Text.C31_refuses",
    "Pfcp.Text.C31_bytes",
    "Pfcp.Text.C31_layout",
    "Pfcp.Text.C31_digits",
    "Pfcp.Text.C31_even_cut"
   ],
   "note": "All byte strings. Even-length strings decoded with the cut flag lose their last digit (C31_even_cut), which is what the flag asks for."
  },
  {
   "property": "C32",
   "status": "proved",
   "theorems": [
    "Pfcp.Text.C32_exact",
    "Pfcp.Text.C32_octets",
    "Pfcp.Text.C32_ends",
    "Pfcp.Text.C32_two",
    "Pfcp.Text.C32_three",
    "Pfcp.Text.C32_total",
    "Pfcp.Text.C32_short_panics"
   ],
   "note": "All three-digit country codes and two- or three-digit network codes; codes that are too short panic (C32_short_panics). C32_octets: every identity of three octets comes back from its digits."
  },
  {
   "property": "C33",
   "status": "proved",
   "theorems": [
    "Pfcp.Text.C33_decode_exact",
    "Pfcp.Text.C33_decode_shorter",
    "Pfcp.Text.C33_round_trip_iff",
    "Pfcp.Text.C33_octets_iff",
    "Pfcp.Text.C33_distinct",
    "Pfcp.Text.C33_round_trip",
    "Pfcp.Text.C33_layout",
    "Pfcp.Text.C33_decode",
    "Pfcp.Text.C33_total",
    "Pfcp.Text.C33_encode_total",
    "Pfcp.Text.C33_long_label_violated"
   ],
   "note": "Labels of fewer than 256 octets; longer ones wrap (C33_long_label_violated), and C33_round_trip_iff shows that no name with a longer label survives. C33_decode_exact: the result for any octet string; C33_octets_iff: which octet strings come back."
  },
  {
   "property": "C34",
   "status": "proved",
   "theorems": [
    "Pfcp.C34_uint24",
    "Pfcp.C34_uint24_id",
    "Pfcp.C34_uint24_bytes",
    "Pfcp.C34_uint40",
    "Pfcp.C34_uint40_id",
    "Pfcp.C34_uint40_bytes",
    "Pfcp.Text.C34_eci"
   ],
   "note": "All integers and all byte strings."
  },
  {
   "property": "C35",
   "status": "partial",
   "theorems": [
    "Pfcp.C35_exact",
    "Pfcp.C35_timers",
    "Pfcp.C35_unchanged",
    "Pfcp.C35_infinite",
    "Pfcp.C35_shorter_violated",
    "Pfcp.C35_octet",
    "Pfcp.C35_spare_units_violated",
    "Pfcp.C35_shorter_iff"
   ],
   "note": "First half proved: read back unchanged if and only if representable or infinite (C35_unchanged); indivisible durations become infinite (C35_infinite). Second half false: 66 s is read back as 2 s (C35_shorter_violated); exactly the durations of 32 or more of their largest unit are (C35_shorter_iff). C35_exact gives the value for every duration."
  },
  {
   "property": "C36",
   "status": "proved",
   "theorems": [
    "Pfcp.C36_exact",
    "Pfcp.C36_round_trip",
    "Pfcp.C36_wraps_violated"
   ],
   "note": "Every timestamp element and every whole second that fits 32 bits counted from 1970; C36_exact also describes fractions and the instants outside, which wrap (C36_wraps_violated)."
  },
  {
   "property": "C37",
   "status": "partial",
   "theorems": [
    "Pfcp.C37_flags",
    "Pfcp.C37_flags_home",
    "Pfcp.C37_flags_plain",
    "Pfcp.C37_exact",
    "Pfcp.C37_foreign_partial",
    "Pfcp.C37_foreign",
    "Pfcp.C37_short_foreign_violated",
    "Pfcp.C37_short_foreign_exists_violated",
    "Pfcp.C37_home",
    "Pfcp.C37_foreign_plain_partial"
   ],
   "note": "276 accessors, all types, payloads and configurations. 33 accessors test the length first and answer EOF for short foreign elements (C37_short_foreign_violated); C37_foreign_partial covers them when the payload is long enough, C37_foreign the other 243 without condition. The 157 flag functions answer no on every foreign element (C37_flags, C37_flags_plain). All answers to foreign elements exactly: C37_exact."
  },
  {
   "property": "C38",
   "status": "partial",
   "theorems": [
    "Pfcp.C38_found",
    "Pfcp.C38_flags_grouped",
    "Pfcp.C38_flags",
    "Pfcp.C38_flags_searched",
    "Pfcp.C38_typed",
    "Pfcp.C38_exact",
    "Pfcp.C38_short_costs_nothing",
    "Pfcp.C38_grouped_partial",
    "Pfcp.C38_grouped",
    "Pfcp.C38_searched",
    "Pfcp.C38_provenance",
    "Pfcp.C38_constructed",
    "Pfcp.C38_pdi_network_instance_violated",
    "Pfcp.C38_update_mar_violated",
    "Pfcp.C38_short_group_violated"
   ],
   "note": "276 accessors and all grouped types that each searches, any payload. Three deviations: accessors that test the length first (C38_short_group_violated), NetworkInstance on PDI (C38_pdi_network_instance_violated), identifiers on Update MAR (C38_update_mar_violated). For the flag functions without exception (C38_flags). All answers to grouped elements exactly: C38_exact; the leading length check never costs a value (C38_short_costs_nothing)."
  },
  {
   "property": "C39",
   "status": "partial",
   "theorems": [
    "Pfcp.C39_rates",
    "Pfcp.C39_outer_header_removal",
    "Pfcp.C39_snssai",
    "Pfcp.C39_identifiers",
    "Pfcp.C39_gates",
    "Pfcp.C39_access_availability",
    "Pfcp.C39_names",
    "Pfcp.C39_local_fteid",
    "Pfcp.C39_flags_exact",
    "Pfcp.C39_flags",
    "Pfcp.C39_flags_violated",
    "Pfcp.C39_provenance",
    "Pfcp.C39_SourceIPAddress_exact",
    "Pfcp.C39_RemoteGTPUPeer_exact",
    "Pfcp.C39_UserPlaneIPResourceInformation_exact",
    "Pfcp.C39_OuterHeaderCreation_exact",
    "Pfcp.C39_SDFFilter_exact",
    "Pfcp.C39_PFDContents_exact",
    "Pfcp.C39_MACAddresses_exact",
    "Pfcp.C39_tags_exact",
    "Pfcp.C39_TraceInformation_exact",
    "Pfcp.C39_DLBufferingSuggestedPacketCount_exact",
    "Pfcp.C39_QFI_exact",
    "Pfcp.C39_SubsequentTimeQuota_exact",
    "Pfcp.C39_FlowDescription_exact",
    "Pfcp.C39_FlowDescription_value",
    "Pfcp.C39_payload_min",
    "Pfcp.C39_CSIDs_exact",
    "Pfcp.C39_safe",
    "Pfcp.C39_panics_violated"
   ],
   "note": "Proved for 260 of 276 accessors with any bytes behind the payload (C39_safe); each of the other 16 panics on some received element (C39_panics_violated). Flag functions: 147 of 157 never panic (C39_flags), the other ten do (C39_flags_violated). The accessors that combine others (rates, S-NSSAI parts, gates, identifiers, names, n-th F-TEID) are covered by C39_rates \u2026 C39_local_fteid. A panic always comes from an element of a home type (C39_provenance); the inputs that panic are given exactly for each of the 16 accessors and for the flag functions (C39_..._exact, C39_flags_exact)."
  },
  {
   "property": "C40",
   "status": "partial",
   "theorems": [
    "Pfcp.Fields.C40_Volume_partial",
    "Pfcp.Fields.C40_Volume_violated",
    "Pfcp.Fields.C40_VolumeMeasurement_partial",
    "Pfcp.Fields.C40_VolumeMeasurement_violated",
    "Pfcp.Fields.C40_NumberOfUEIPAddresses",
    "Pfcp.Fields.C40_Delays",
    "Pfcp.Fields.C40_DLFlowLevelMarking_partial",
    "Pfcp.Fields.C40_PacketRate_partial",
    "Pfcp.Fields.C40_PacketRateStatus_partial",
    "Pfcp.Fields.C40_PacketRateStatus_violated",
    "Pfcp.Fields.C40_IP46_partial",
    "Pfcp.Fields.C40_IP46_violated",
    "Pfcp.Fields.C40_FSEID",
    "Pfcp.Fields.C40_FTEID",
    "Pfcp.Fields.C40_FTEID_nil_violated",
    "Pfcp.Fields.C40_MPTCPAddressInformation",
    "Pfcp.Fields.C40_UELinkSpecificIPAddress",
    "Pfcp.Fields.C40_SourceIPAddress_partial",
    "Pfcp.Fields.C40_SourceIPAddress_violated",
    "Pfcp.Fields.C40_UEIPAddress_partial",
    "Pfcp.Fields.C40_UEIPAddress_violated",
    "Pfcp.Fields.C40_UEIPAddress_unparsable_violated",
    "Pfcp.Fields.C40_RemoteGTPUPeer_partial",
    "Pfcp.Fields.C40_IPMulticastAddress_partial",
    "Pfcp.Fields.C40_IPMulticastAddress_violated",
    "Pfcp.Fields.C40_UserPlaneIPResourceInformation_partial",
    "Pfcp.Fields.C40_UserPlaneIPResourceInformation_violated",
    "Pfcp.Fields.C40_HeaderEnrichment_partial",
    "Pfcp.Fields.C40_HeaderEnrichment_violated",
    "Pfcp.Fields.C40_Tag_partial",
    "Pfcp.Fields.C40_Tag_violated",
    "Pfcp.Fields.C40_MACAddress_partial",
    "Pfcp.Fields.C40_MACAddress_violated",
    "Pfcp.Fields.C40_SDFFilter_partial",
    "Pfcp.Fields.C40_SDFFilter_violated",
    "Pfcp.Fields.C40_SDFFilter_ttc_violated",
    "Pfcp.Fields.C40_OuterHeaderCreation_partial",
    "Pfcp.Fields.C40_OuterHeaderCreation_violated",
    "Pfcp.Fields.C40_OuterHeaderCreation_low_violated",
    "Pfcp.Fields.C40_PMFAddressInformation_partial",
    "Pfcp.Fields.C40_PMFAddressInformation_violated",
    "Pfcp.Fields.C40_RedirectInformation_partial",
    "Pfcp.Fields.C40_RedirectInformation_violated",
    "Pfcp.Fields.C40_RedirectInformation_single_violated",
    "Pfcp.Fields.C40_UserID_partial",
    "Pfcp.Fields.C40_UserID_violated",
    "Pfcp.Fields.C40_TraceInformation_partial",
    "Pfcp.Fields.C40_TraceInformation_violated",
    "Pfcp.Fields.C40_MACAddresses_violated",
    "Pfcp.Fields.C40_MACAddresses_partial",
    "Pfcp.Fields.C40_PFDContents_partial",
    "Pfcp.Fields.C40_PFDContents_single_partial",
    "Pfcp.Fields.C40_PFDContents_lists_partial",
    "Pfcp.Fields.C40_PFDContents_violated",
    "Pfcp.Fields.C40_PFDContents_list_violated"
   ],
   "note": "Stated and proved per structured element, for every value and any trailing bytes; the elements covered are the names after C40_. _partial theorems exclude the values named in their hypothesis, which the _violated theorem beside them shows do not round trip. All 35 structured codecs are covered."
  },
  {
   "property": "C41",
   "status": "partial",
   "theorems": [
    "Pfcp.Fields.C41_SourceIPAddress_exact",
    "Pfcp.Fields.C41_RemoteGTPUPeer_exact",
    "Pfcp.Fields.C41_UserPlaneIPResourceInformation_exact",
    "Pfcp.Fields.C41_OuterHeaderCreation_exact",
    "Pfcp.Fields.C41_SDFFilter_exact",
    "Pfcp.Fields.C41_PFDContents_exact",
    "Pfcp.Fields.C41_Volume",
    "Pfcp.Fields.C41_VolumeMeasurement",
    "Pfcp.Fields.C41_NumberOfUEIPAddresses",
    "Pfcp.Fields.C41_Delays",
    "Pfcp.Fields.C41_DLFlowLevelMarking",
    "Pfcp.Fields.C41_PacketRate",
    "Pfcp.Fields.C41_PacketRateStatus",
    "Pfcp.Fields.C41_IP46",
    "Pfcp.Fields.C41_FSEID",
    "Pfcp.Fields.C41_FTEID",
    "Pfcp.Fields.C41_MPTCPAddressInformation",
    "Pfcp.Fields.C41_UELinkSpecificIPAddress",
    "Pfcp.Fields.C41_SourceIPAddress_violated",
    "Pfcp.Fields.C41_SourceIPAddress_partial",
    "Pfcp.Fields.C41_UEIPAddress",
    "Pfcp.Fields.C41_RemoteGTPUPeer_violated",
    "Pfcp.Fields.C41_IPMulticastAddress",
    "Pfcp.Fields.C41_UserPlaneIPResourceInformation_violated",
    "Pfcp.Fields.C41_HeaderEnrichment",
    "Pfcp.Fields.C41_Tag",
    "Pfcp.Fields.C41_MACAddress",
    "Pfcp.Fields.C41_SDFFilter_violated",
    "Pfcp.Fields.C41_SDFFilter_partial",
    "Pfcp.Fields.C41_OuterHeaderCreation_violated",
    "Pfcp.Fields.C41_OuterHeaderCreation_partial",
    "Pfcp.Fields.C41_PMFAddressInformation",
    "Pfcp.Fields.C41_RedirectInformation",
    "Pfcp.Fields.C41_UserID",
    "Pfcp.Fields.C41_TraceInformation_violated",
    "Pfcp.Fields.C41_TraceInformation_partial",
    "Pfcp.Fields.C41_MACAddresses_violated",
    "Pfcp.Fields.C41_MACAddresses_partial",
    "Pfcp.Fields.C41_PFDContents_violated",
    "Pfcp.Fields.C41_PFDContents_partial"
   ],
   "note": "Per structured element, for every slice and capacity; all 35 structured codecs are covered, and the elements built from several values (C52_access_availability \u2026 C52_tsn_bridge). For those that break it, _violated gives the inputs and _partial what holds. Exact conditions: C41_..._exact, C41_TraceInformation_partial, C41_MACAddresses_violated."
  },
  {
   "property": "C42",
   "status": "partial",
   "theorems": [
    "Pfcp.Fields.C42_Volume",
    "Pfcp.Fields.C42_VolumeMeasurement",
    "Pfcp.Fields.C42_NumberOfUEIPAddresses",
    "Pfcp.Fields.C42_Delays",
    "Pfcp.Fields.C42_DLFlowLevelMarking",
    "Pfcp.Fields.C42_PacketRate",
    "Pfcp.Fields.C42_PacketRateStatus",
    "Pfcp.Fields.C42_IP46",
    "Pfcp.Fields.C42_FSEID",
    "Pfcp.Fields.C42_FTEID",
    "Pfcp.Fields.C42_MPTCPAddressInformation",
    "Pfcp.Fields.C42_UELinkSpecificIPAddress",
    "Pfcp.Fields.C42_SourceIPAddress",
    "Pfcp.Fields.C42_UEIPAddress",
    "Pfcp.Fields.C42_RemoteGTPUPeer",
    "Pfcp.Fields.C42_IPMulticastAddress",
    "Pfcp.Fields.C42_UserPlaneIPResourceInformation",
    "Pfcp.Fields.C42_HeaderEnrichment",
    "Pfcp.Fields.C42_Tag",
    "Pfcp.Fields.C42_MACAddress",
    "Pfcp.Fields.C42_SDFFilter_violated",
    "Pfcp.Fields.C42_SDFFilter_partial",
    "Pfcp.Fields.C42_OuterHeaderCreation",
    "Pfcp.Fields.C42_PMFAddressInformation",
    "Pfcp.Fields.C42_RedirectInformation",
    "Pfcp.Fields.C42_UserID",
    "Pfcp.Fields.C42_TraceInformation",
    "Pfcp.Fields.C42_MACAddresses",
    "Pfcp.Fields.C42_PFDContents_violated"
   ],
   "note": "Per structured element, for every slice and capacity; all 35 structured codecs are covered, and the elements built from several values (C52_access_availability \u2026 C52_tsn_bridge). For those that break it, _violated gives the inputs and _partial what holds."
  },
  {
   "property": "C43",
   "status": "partial",
   "theorems": [
    "Pfcp.Fields.C43_IP46_exact",
    "Pfcp.Fields.C43_FSEID_exact",
    "Pfcp.Fields.C43_FTEID_exact",
    "Pfcp.Fields.C43_MPTCPAddressInformation_exact",
    "Pfcp.Fields.C43_UELinkSpecificIPAddress_exact",
    "Pfcp.Fields.C43_SourceIPAddress_exact",
    "Pfcp.Fields.C43_UEIPAddress_exact",
    "Pfcp.Fields.C43_Tag_exact",
    "Pfcp.Fields.C43_SDFFilter_exact",
    "Pfcp.Fields.C43_OuterHeaderCreation_exact",
    "Pfcp.Fields.C43_PMFAddressInformation_exact",
    "Pfcp.Fields.C43_RedirectInformation_exact",
    "Pfcp.Fields.C43_RedirectInformation_ctor_exact",
    "Pfcp.Fields.C43_Volume_exact",
    "Pfcp.Fields.C43_VolumeMeasurement_exact",
    "Pfcp.Fields.C43_NumberOfUEIPAddresses_exact",
    "Pfcp.Fields.C43_Delays_exact",
    "Pfcp.Fields.C43_PacketRateStatus_exact",
    "Pfcp.Fields.C43_DLFlowLevelMarking_exact",
    "Pfcp.Fields.C43_PacketRate_exact",
    "Pfcp.Fields.C43_RemoteGTPUPeer_exact",
    "Pfcp.Fields.C43_RemoteGTPUPeer_ctor_exact",
    "Pfcp.Fields.C43_IPMulticastAddress_exact",
    "Pfcp.Fields.C43_IPMulticastAddress_ctor_exact",
    "Pfcp.Fields.C43_UserPlaneIPResourceInformation_exact",
    "Pfcp.Fields.C43_HeaderEnrichment_exact",
    "Pfcp.Fields.C43_MACAddress_exact",
    "Pfcp.Fields.C43_MACAddress_ctor_exact",
    "Pfcp.Fields.C43_UserID_exact",
    "Pfcp.Fields.C43_UserID_ctor_exact",
    "Pfcp.Fields.C43_TraceInformation_exact",
    "Pfcp.Fields.C43_MACAddresses_exact",
    "Pfcp.Fields.C43_Volume",
    "Pfcp.Fields.C43_VolumeMeasurement",
    "Pfcp.Fields.C43_NumberOfUEIPAddresses",
    "Pfcp.Fields.C43_Delays",
    "Pfcp.Fields.C43_DLFlowLevelMarking_partial",
    "Pfcp.Fields.C43_DLFlowLevelMarking_violated",
    "Pfcp.Fields.C43_PacketRate_partial",
    "Pfcp.Fields.C43_PacketRate_violated",
    "Pfcp.Fields.C43_PacketRateStatus",
    "Pfcp.Fields.C43_IP46",
    "Pfcp.Fields.C43_FSEID",
    "Pfcp.Fields.C43_FTEID",
    "Pfcp.Fields.C43_MPTCPAddressInformation",
    "Pfcp.Fields.C43_UELinkSpecificIPAddress",
    "Pfcp.Fields.C43_SourceIPAddress",
    "Pfcp.Fields.C43_UEIPAddress",
    "Pfcp.Fields.C43_RemoteGTPUPeer_violated",
    "Pfcp.Fields.C43_RemoteGTPUPeer_partial",
    "Pfcp.Fields.C43_IPMulticastAddress_partial",
    "Pfcp.Fields.C43_IPMulticastAddress_violated",
    "Pfcp.Fields.C43_UserPlaneIPResourceInformation_violated",
    "Pfcp.Fields.C43_UserPlaneIPResourceInformation_partial",
    "Pfcp.Fields.C43_HeaderEnrichment",
    "Pfcp.Fields.C43_Tag",
    "Pfcp.Fields.C43_MACAddress_partial",
    "Pfcp.Fields.C43_MACAddress_violated",
    "Pfcp.Fields.C43_SDFFilter_partial",
    "Pfcp.Fields.C43_OuterHeaderCreation",
    "Pfcp.Fields.C43_PMFAddressInformation",
    "Pfcp.Fields.C43_RedirectInformation_partial",
    "Pfcp.Fields.C43_RedirectInformation_violated",
    "Pfcp.Fields.C43_UserID_partial",
    "Pfcp.Fields.C43_UserID_violated",
    "Pfcp.Fields.C43_TraceInformation_partial",
    "Pfcp.Fields.C43_TraceInformation_violated",
    "Pfcp.Fields.C43_MACAddresses_partial",
    "Pfcp.Fields.C43_MACAddresses_violated",
    "Pfcp.Fields.C43_PFDContents_partial",
    "Pfcp.Fields.C43_PFDContents_violated"
   ],
   "note": "Proved per structured element for all arguments; _violated theorems give arguments for which the constructor yields nil or panics. All 35 structured codecs are covered. The _exact theorems say for every value, also those no constructor returns, how encoding it ends."
  },
  {
   "property": "C44",
   "status": "proved",
   "theorems": [
    "Pfcp.C44_accepted_language",
    "Pfcp.C44_complete_iff_wf"
   ],
   "note": "Exact characterisation of the accepted language of ParseMultiIEs."
  },
  {
   "property": "C45",
   "status": "partial",
   "theorems": [
    "Pfcp.Msg.C45_reuse_violated",
    "Pfcp.Msg.C45_reuse_partial",
    "Pfcp.Msg.C45_exact",
    "Pfcp.Msg.C45_iff",
    "Pfcp.C45_element_exact",
    "Pfcp.C45_element_fresh",
    "Pfcp.C45_element_iff",
    "Pfcp.C45_element_violated"
   ],
   "note": "False: stale fields survive (C45_reuse_violated, C45_element_violated). True for a zero value, and for the header always (C45_reuse_partial). Exact: what is left in a used message (C45_exact) and in a used element (C45_element_exact), and when that equals a fresh decode (C45_iff, C45_element_iff)."
  },
  {
   "property": "C46",
   "status": "partial",
   "theorems": [
    "Pfcp.Msg.C46_field_type_iff",
    "Pfcp.Msg.C46_field_type_violated",
    "Pfcp.Msg.C46_field_type_partial"
   ],
   "note": "False for two fields of the session modification response (C46_field_type_violated); proved for all other fields (C46_field_type_partial, exact in C46_field_type_iff)."
  },
  {
   "property": "C47",
   "status": "proved",
   "theorems": [
    "Pfcp.Config.C47_grouped_constructors"
   ],
   "note": "Whole 16-bit type space; the list of constructors is transcribed from the source."
  },
  {
   "property": "C48",
   "status": "proved",
   "theorems": [
    "Pfcp.Concurrent.C48_no_deadlock",
    "Pfcp.Concurrent.C48_terminates"
   ],
   "note": "Any number of goroutines and calls; progress plus a strictly decreasing measure."
  },
  {
   "property": "C49",
   "status": "proved",
   "theorems": [
    "Pfcp.Concurrent.C49_atomic_registration",
    "Pfcp.Concurrent.C49_finished_are_calls"
   ],
   "note": "Any number of goroutines and types, every interleaving."
  },
  {
   "property": "C50",
   "status": "partial",
   "theorems": [
    "Pfcp.Live.C50_unconcerned_partial",
    "Pfcp.Live.C50_registering_others_partial",
    "Pfcp.Live.C50_decode_while_registering_partial",
    "Pfcp.Live.C50_no_change",
    "Pfcp.Live.C50_decode_while_setting_violated",
    "Pfcp.Live.C50_one_configuration_violated"
   ],
   "note": "False: installing a function during a decode can make it panic (C50_decode_while_setting_violated), and even a registration can give a result of no configuration (C50_one_configuration_violated). With registrations only there is never a panic (C50_decode_while_registering_partial), and changes of any kind that concern none of the types occurring in the octets, at any depth, are not noticed (C50_unconcerned_partial, C50_registering_others_partial); C50_no_change ties the model to the ordinary decoder."
  },
  {
   "property": "C51",
   "status": "proved",
   "theorems": [
    "Pfcp.Msg.C51_session",
    "Pfcp.Msg.C51_node",
    "Pfcp.Msg.C51_generic",
    "Pfcp.Msg.C51_seid"
   ],
   "note": "For every message kind and all arguments; for the generic message the header given is kept."
  },
  {
   "property": "C52",
   "status": "partial",
   "theorems": [
    "Pfcp.Fields.C52_Volume",
    "Pfcp.Fields.C52_VolumeMeasurement",
    "Pfcp.Fields.C52_NumberOfUEIPAddresses",
    "Pfcp.Fields.C52_Delays",
    "Pfcp.Fields.C52_DLFlowLevelMarking_partial",
    "Pfcp.Fields.C52_PacketRate_partial",
    "Pfcp.Fields.C52_PacketRateStatus",
    "Pfcp.Fields.C52_IP46",
    "Pfcp.Fields.C52_FSEID",
    "Pfcp.Fields.C52_FTEID",
    "Pfcp.Fields.C52_MPTCPAddressInformation",
    "Pfcp.Fields.C52_UELinkSpecificIPAddress",
    "Pfcp.Fields.C52_SourceIPAddress",
    "Pfcp.Fields.C52_UEIPAddress",
    "Pfcp.Fields.C52_RemoteGTPUPeer",
    "Pfcp.Fields.C52_IPMulticastAddress",
    "Pfcp.Fields.C52_UserPlaneIPResourceInformation",
    "Pfcp.Fields.C52_HeaderEnrichment",
    "Pfcp.Fields.C52_Tag",
    "Pfcp.Fields.C52_MACAddress",
    "Pfcp.Fields.C52_SDFFilter",
    "Pfcp.Fields.C52_OuterHeaderCreation_partial",
    "Pfcp.Fields.C52_OuterHeaderCreation_violated",
    "Pfcp.Fields.C52_PMFAddressInformation",
    "Pfcp.Fields.C52_RedirectInformation",
    "Pfcp.Fields.C52_UserID",
    "Pfcp.Fields.C52_TraceInformation",
    "Pfcp.Fields.C52_MACAddresses",
    "Pfcp.Fields.C52_PFDContents",
    "Pfcp.C52_access_availability",
    "Pfcp.C52_gate_status",
    "Pfcp.C52_usage_reports",
    "Pfcp.C52_packet_count",
    "Pfcp.C52_failed_rule",
    "Pfcp.C52_flow_information",
    "Pfcp.C52_forwarding_policy",
    "Pfcp.C52_pool_identity",
    "Pfcp.C52_rates",
    "Pfcp.C52_multiplier",
    "Pfcp.C52_outer_header_removal",
    "Pfcp.C52_snssai",
    "Pfcp.C52_fqcsid",
    "Pfcp.C52_time_quota",
    "Pfcp.C52_tsn_bridge",
    "Pfcp.C52_dropped_dl_traffic_threshold",
    "Pfcp.C52_downlink_data_service_information"
   ],
   "note": "Proved per structured element for all values, with the bytes spelled out; all 35 structured codecs are covered, and the elements built from several values (C52_access_availability \u2026 C52_tsn_bridge)."
  },
  {
   "property": "C53",
   "status": "partial",
   "theorems": [
    "Pfcp.Fields.C53_DLFlowLevelMarking_exact",
    "Pfcp.Fields.C53_PacketRate_exact",
    "Pfcp.Fields.C53_PacketRateStatus_exact",
    "Pfcp.Fields.C53_PMFAddressInformation_exact",
    "Pfcp.Fields.C53_Tag_exact",
    "Pfcp.Fields.C53_Tag_form_exact",
    "Pfcp.Fields.C53_RedirectInformation_exact",
    "Pfcp.Fields.C53_UserID_exact",
    "Pfcp.Fields.C53_UEIPAddress_exact",
    "Pfcp.Fields.C53_UserPlaneIPResourceInformation_exact",
    "Pfcp.Fields.C53_OuterHeaderCreation_exact",
    "Pfcp.Fields.C53_SDFFilter_exact",
    "Pfcp.Fields.C53_TraceInformation_exact",
    "Pfcp.Fields.C53_PFDContents_exact",
    "Pfcp.Fields.C53_RemoteGTPUPeer_exact",
    "Pfcp.Fields.C53_RemoteGTPUPeer_lost",
    "Pfcp.Fields.C53_Volume",
    "Pfcp.Fields.C53_VolumeMeasurement",
    "Pfcp.Fields.C53_NumberOfUEIPAddresses",
    "Pfcp.Fields.C53_Delays",
    "Pfcp.Fields.C53_DLFlowLevelMarking_partial",
    "Pfcp.Fields.C53_DLFlowLevelMarking_violated",
    "Pfcp.Fields.C53_PacketRate_partial",
    "Pfcp.Fields.C53_PacketRate_violated",
    "Pfcp.Fields.C53_PacketRateStatus_partial",
    "Pfcp.Fields.C53_PacketRateStatus_violated",
    "Pfcp.Fields.C53_IP46",
    "Pfcp.Fields.C53_FSEID",
    "Pfcp.Fields.C53_FTEID",
    "Pfcp.Fields.C53_MPTCPAddressInformation",
    "Pfcp.Fields.C53_UELinkSpecificIPAddress",
    "Pfcp.Fields.C53_SourceIPAddress",
    "Pfcp.Fields.C53_UEIPAddress_partial",
    "Pfcp.Fields.C53_UEIPAddress_violated",
    "Pfcp.Fields.C53_RemoteGTPUPeer_violated",
    "Pfcp.Fields.C53_RemoteGTPUPeer_partial",
    "Pfcp.Fields.C53_IPMulticastAddress",
    "Pfcp.Fields.C53_UserPlaneIPResourceInformation_violated",
    "Pfcp.Fields.C53_UserPlaneIPResourceInformation_partial",
    "Pfcp.Fields.C53_HeaderEnrichment",
    "Pfcp.Fields.C53_Tag_violated",
    "Pfcp.Fields.C53_Tag_partial",
    "Pfcp.Fields.C53_MACAddress",
    "Pfcp.Fields.C53_SDFFilter_violated",
    "Pfcp.Fields.C53_OuterHeaderCreation_violated",
    "Pfcp.Fields.C53_OuterHeaderCreation_partial",
    "Pfcp.Fields.C53_PMFAddressInformation_violated",
    "Pfcp.Fields.C53_PMFAddressInformation_partial",
    "Pfcp.Fields.C53_RedirectInformation_violated",
    "Pfcp.Fields.C53_UserID_partial",
    "Pfcp.Fields.C53_UserID_form_partial",
    "Pfcp.Fields.C53_UserID_violated",
    "Pfcp.Fields.C53_TraceInformation_violated",
    "Pfcp.Fields.C53_MACAddresses_violated",
    "Pfcp.Fields.C53_PFDContents_partial",
    "Pfcp.Fields.C53_PFDContents_violated"
   ],
   "note": "Proved per structured element for every slice; _violated theorems give accepted inputs whose decoded value does not re-encode to the bytes consumed. All 35 structured codecs are covered; the _exact theorems say for each lossy one precisely which accepted octets come back, except RemoteGTPUPeer with an empty destination interface before a network instance, or with the spare fifth bit, an address and a destination interface but no network instance, and PFDContents with lists that are not decoded to their ends."
  },
  {
   "property": "C54",
   "status": "proved",
   "theorems": [
    "Pfcp.C54_default",
    "Pfcp.C54_type",
    "Pfcp.C54_distinct",
    "Pfcp.C54_children",
    "Pfcp.C54_value",
    "Pfcp.C54_too_long_violated"
   ],
   "note": "92 grouped constructors, lists of children of any length, with nil arguments and any well-formed nesting; C54_distinct names the pairs of constructors that share a type. Too long lists never come back (C54_too_long_violated), which the statement allows for."
  },
  {
   "property": "C55",
   "status": "partial",
   "theorems": [
    "Pfcp.C55_default",
    "Pfcp.C55_access_availability",
    "Pfcp.C55_gate_status_partial",
    "Pfcp.C55_gate_status_violated",
    "Pfcp.C55_outer_header_removal",
    "Pfcp.C55_snssai",
    "Pfcp.C55_mbr",
    "Pfcp.C55_gbr",
    "Pfcp.C55_multiplier",
    "Pfcp.C55_failed_rule",
    "Pfcp.C55_failed_rule_violated",
    "Pfcp.C55_flow_information",
    "Pfcp.C55_forwarding_policy_exact",
    "Pfcp.C55_forwarding_policy_partial",
    "Pfcp.C55_forwarding_policy_violated",
    "Pfcp.C55_pool_identity",
    "Pfcp.C55_nf_instance_partial",
    "Pfcp.C55_nf_instance_panics",
    "Pfcp.C55_nf_instance_violated",
    "Pfcp.C55_tsn_bridge_partial",
    "Pfcp.C55_tsn_bridge_violated",
    "Pfcp.C55_time_quota",
    "Pfcp.C55_up_features",
    "Pfcp.C55_up_features_flags",
    "Pfcp.C55_node_id_ipv4_partial",
    "Pfcp.C55_node_id_ipv6_partial",
    "Pfcp.C55_node_id_name",
    "Pfcp.C55_node_id_none",
    "Pfcp.C55_node_id_heuristic",
    "Pfcp.C55_node_id_violated",
    "Pfcp.C55_csids_violated",
    "Pfcp.C55_fqcsid_partial",
    "Pfcp.C55_fqcsid_violated",
    "Pfcp.C55_teidri",
    "Pfcp.C55_teidri_foreign",
    "Pfcp.C55_teidri_panics",
    "Pfcp.C55_kinds",
    "Pfcp.C55_downlink_data_service_information_partial",
    "Pfcp.C55_downlink_data_service_information_violated",
    "Pfcp.C55_dropped_dl_traffic_threshold_violated"
   ],
   "note": "All arguments through the wire with any trailing bytes, except where the code does something else, each with a theorem: gate values above 3 spill into the other gate (C55_gate_status_violated), identifiers of unknown failed rule types are dropped, forwarding policy identifiers above 255 octets, NF instance identifiers of fewer than 16 octets (panic, or memory behind them is sent), bridge addresses of other lengths than 6 and 8, node texts that are no addresses, FQ-CSID without identifiers, CSIDs (never returned at all), the thresholds of Dropped DL Traffic Threshold (never returned), Downlink Data Service Information with only one of its two values (PPI returns the QFI, QFI panics), TEIDRI on an empty element (panic). The parsing of textual IP addresses (net.ParseIP) is a parameter."
  },
  {
   "property": "C56",
   "status": "proved",
   "theorems": [
    "Pfcp.C56_nth",
    "Pfcp.C56_foreign",
    "Pfcp.C56_found"
   ],
   "note": "All children lists, positions and configurations; C56_found joins it with the constructor and the wire."
  },
  {
   "property": "C57",
   "status": "partial",
   "theorems": [
    "Pfcp.C57_name",
    "Pfcp.C57_text_partial",
    "Pfcp.C57_heuristic_violated",
    "Pfcp.C57_grouped_violated",
    "Pfcp.C57_must_apn",
    "Pfcp.C57_must_apn_foreign",
    "Pfcp.C57_heuristic_eq",
    "Pfcp.C57_text_iff",
    "Pfcp.C57_name_iff"
   ],
   "note": "Names: proved, also for MustAPNDNN. Text: NetworkInstance always, NetworkInstanceHeuristic if the first character code is not below the length (C57_text_partial); otherwise text is mistaken for a name (C57_heuristic_violated). Exact: C57_text_iff, C57_name_iff. On a group, NetworkInstanceFQDN decodes the payload of the group (C57_grouped_violated)."
  },
  {
   "property": "C58",
   "status": "proved",
   "theorems": [
    "Pfcp.C58_exact",
    "Pfcp.C58_foreign",
    "Pfcp.C58_wire"
   ],
   "note": "All payloads; the condition is stated on bit positions, independently of the flag functions."
  },
  {
   "property": "C59",
   "status": "partial",
   "theorems": [
    "Pfcp.C59_default",
    "Pfcp.C59_volume_partial",
    "Pfcp.C59_volume_violated",
    "Pfcp.C59_volume_measurement_partial",
    "Pfcp.C59_number_of_ue_ip_addresses",
    "Pfcp.C59_delays",
    "Pfcp.C59_dl_flow_level_marking_partial",
    "Pfcp.C59_packet_rate_partial",
    "Pfcp.C59_nil_violated",
    "Pfcp.C59_packet_rate_status_partial",
    "Pfcp.C59_tag_partial",
    "Pfcp.C59_ip46_partial",
    "Pfcp.C59_fseid",
    "Pfcp.C59_fteid",
    "Pfcp.C59_mptcp_address_information",
    "Pfcp.C59_ue_link_specific_ip_address",
    "Pfcp.C59_source_ip_address_partial",
    "Pfcp.C59_ue_ip_address_partial",
    "Pfcp.C59_ue_ip_address_violated",
    "Pfcp.C59_remote_gtpu_peer_partial",
    "Pfcp.C59_ip_multicast_address_partial",
    "Pfcp.C59_user_plane_ip_resource_information_partial",
    "Pfcp.C59_outer_header_creation_partial",
    "Pfcp.C59_outer_header_creation_violated",
    "Pfcp.C59_pmf_address_information_partial",
    "Pfcp.C59_header_enrichment_partial",
    "Pfcp.C59_mac_address_partial",
    "Pfcp.C59_sdf_filter_partial",
    "Pfcp.C59_user_id_partial",
    "Pfcp.C59_redirect_information_partial",
    "Pfcp.C59_redirect_information_violated",
    "Pfcp.C59_trace_information_partial",
    "Pfcp.C59_mac_addresses_violated",
    "Pfcp.C59_pfd_contents_partial",
    "Pfcp.C59_pfd_contents_violated",
    "Pfcp.C59_user_id_violated",
    "Pfcp.C59_inside"
   ],
   "note": "For the arguments for which the property holds; `C59_volume_violated`, `C59_nil_violated`, `C59_ue_ip_address_violated`, `C59_outer_header_creation_violated`, `C59_user_id_violated`, `C59_redirect_information_violated`, `C59_mac_addresses_violated` and `C59_pfd_contents_violated` show arguments for which it fails."
  },
  {
   "property": "C60",
   "status": "proved",
   "theorems": [
    "Pfcp.C60_uint8",
    "Pfcp.C60_uint16",
    "Pfcp.C60_uint32",
    "Pfcp.C60_uint64",
    "Pfcp.C60_string",
    "Pfcp.C60_fqdn",
    "Pfcp.C60_vendor",
    "Pfcp.C60_refuse",
    "Pfcp.C60_total",
    "Pfcp.C60_grouped"
   ],
   "note": "All types and values; texts and names as long as they fit the 16-bit length (longer ones: `C10_length_violated`), labels shorter than 256 octets."
  },
  {
   "property": "C61",
   "status": "partial",
   "theorems": [
    "Pfcp.Log.C61_race_free",
    "Pfcp.Log.C61_no_fatal",
    "Pfcp.Log.C61_linearizable",
    "Pfcp.Log.C61_program_order",
    "Pfcp.Log.C61_disabled",
    "Pfcp.Log.C61_installed_partial",
    "Pfcp.Log.C61_reinstall_violated",
    "Pfcp.Log.C61_enable_violated",
    "Pfcp.Log.C61_enable_stuck_violated",
    "Pfcp.Log.C61_enable_reached",
    "Pfcp.Log.C61_no_deadlock_partial",
    "Pfcp.Log.C61_terminates"
   ],
   "note": "Race freedom, linearizability and program order for all programs; that all calls return only for programs without `EnableLogging`: it locks the mutex twice, so it never returns and everything that logs hangs from then on (`C61_enable_violated`, `C61_enable_stuck_violated`); `DisableLogging` silences the logger object itself (`C61_reinstall_violated`)."
  },
  {
   "property": "C62",
   "status": "proved",
   "theorems": [
    "Pfcp.TypeName.C62_named",
    "Pfcp.TypeName.C62_numbered",
    "Pfcp.TypeName.C62_total",
    "Pfcp.TypeName.C62_injective"
   ],
   "note": "All types."
  },
  {
   "property": "C63",
   "status": "partial",
   "theorems": [
    "Pfcp.C63_nested_violated",
    "Pfcp.C63_repair_partial",
    "Pfcp.C63_edit_found",
    "Pfcp.C63_grow_violated",
    "Pfcp.C63_shrink_violated"
   ],
   "note": "With the repair from the inside out, for all depths; the edit alone leaves length and payload of every enclosing element stale, so the encoding is corrupt whenever the edit changes anything (`C63_nested_violated`, an equivalence; `C63_grow_violated`, `C63_shrink_violated`)."
  },
  {
   "property": "C64",
   "status": "proved",
   "theorems": [
    "Pfcp.C64_layout",
    "Pfcp.C64_once",
    "Pfcp.C64_set",
    "Pfcp.C64_set_bits",
    "Pfcp.C64_history"
   ],
   "note": "All pairs of methods."
  },
  {
   "property": "C65",
   "status": "partial",
   "theorems": [
    "Pfcp.C65_groups",
    "Pfcp.C65_searched",
    "Pfcp.C65_reads",
    "Pfcp.C65_created_traffic_endpoint",
    "Pfcp.C65_siblings_partial",
    "Pfcp.C65_siblings_violated",
    "Pfcp.C65_missed_violated",
    "Pfcp.C65_pdi_packet_filter_violated",
    "Pfcp.C65_flag_groups",
    "Pfcp.C65_flag_searched",
    "Pfcp.C65_flat_flags_violated"
   ],
   "note": "C65_groups, C65_searched, C65_reads: the exact answer of every accessor to every type, from a table by group collected independently of the model. C65_siblings_partial: pairs of groups with the same contents give the same answers except to the accessors listed in unlike; C65_siblings_violated: those do refuse one of the two (e.g. SDFFilter on an Update PDR). C65_missed_violated: 23 pairs of group and value, 15 of them built by the project's own tests, that the accessor refuses. C65_pdi_packet_filter_violated: Ethertype and EthernetFilterProperties do not see the packet filter in a PDI. C65_flag_groups, C65_flag_searched: flag functions look into exactly the groups of the accessor of their element, or, 38 of them, into none (C65_flat_flags_violated)."
  },
  {
   "property": "C66",
   "status": "partial",
   "theorems": [
    "Pfcp.Mem.C66_decode",
    "Pfcp.Mem.C66_reuse_exact",
    "Pfcp.Mem.C66_unchanged_iff",
    "Pfcp.Mem.C66_reuse_violated",
    "Pfcp.Mem.C66_shape_partial",
    "Pfcp.Mem.C66_group_violated",
    "Pfcp.Mem.C66_new"
   ],
   "note": "False of the code: the payload is a window of the buffer (the comments of ie.Parse and ie.ParseMultiIEs say so; those of ie.New and message.Parse do not). C66_decode: decoding in memory refines decoding of values. C66_reuse_exact, C66_unchanged_iff: what the element is after the buffer changed, exactly. C66_reuse_violated: every element with a payload can be changed by the next datagram; C66_group_violated: children and payload then disagree. C66_shape_partial: type, length, enterprise number and types of the children are safe."
  },
  {
   "property": "C67",
   "status": "partial",
   "theorems": [
    "Pfcp.Mem.C67_no_writes",
    "Pfcp.Mem.C67_others",
    "Pfcp.Mem.C67_add",
    "Pfcp.Mem.C67_remove",
    "Pfcp.Mem.C67_group",
    "Pfcp.Mem.C67_add_exact",
    "Pfcp.Mem.C67_copy_violated",
    "Pfcp.Mem.C67_list_violated",
    "Pfcp.Mem.C67_self_violated"
   ],
   "note": "All histories of library calls (C67_no_writes, C67_others), with refinement of Add, Remove and newGroupedIE (C67_add, C67_remove, C67_group). C67_add_exact: Add returns unless a new child is the element or contains it (C67_self_violated). Outside the library's own calls: copies of the struct (C67_copy_violated) and lists appended to by the caller (C67_list_violated) share an array with room."
  },
  {
   "property": "C68",
   "status": "partial",
   "theorems": [
    "Pfcp.Example.C68_field_exact",
    "Pfcp.Example.C68_field_violated",
    "Pfcp.Example.C68_field_partial"
   ],
   "note": "False: for every message kind an eight-octet datagram decodes into a message on which every field panics (C68_field_violated). Exactly (C68_field_exact): the accessor runs on the last element of the field's type in the body, and panics if there is none. When there is one, the outcome is the accessor's (C68_field_partial, with C39)."
  },
  {
   "property": "C69",
   "status": "partial",
   "theorems": [
    "Pfcp.Example.C69_response_exact",
    "Pfcp.Example.C69_request_exact",
    "Pfcp.Example.C69_server_exact",
    "Pfcp.Example.C69_server_crash_iff",
    "Pfcp.Example.C69_server_reply_iff",
    "Pfcp.Example.C69_server_never_fatal",
    "Pfcp.Example.C69_survives_iff",
    "Pfcp.Example.C69_server_survives_violated",
    "Pfcp.Example.C69_sequence_iff",
    "Pfcp.Example.C69_client_exact",
    "Pfcp.Example.C69_client_sequence_violated",
    "Pfcp.Example.C69_exchange_partial"
   ],
   "note": "Exact behaviour of both programs for every datagram (C69_server_exact, C69_client_exact). The server is stopped by a request without a time stamp and by nothing else (C69_server_crash_iff, C69_survives_iff, C69_server_survives_violated); it always answers with sequence number 1 (C69_sequence_iff); the client takes any sequence number (C69_client_sequence_violated). The two do understand each other (C69_exchange_partial). Sockets are the sequence of datagrams read; time runs out by that sequence ending."
  },
  {
   "property": "C70",
   "status": "partial",
   "theorems": [
    "Pfcp.Header.C70_version_iff",
    "Pfcp.Header.C70_version_violated",
    "Pfcp.Header.C70_version_ignored",
    "Pfcp.Msg.C70_message_ignored"
   ],
   "note": "False: Version() is constantly 1 (C70_version_iff) and every version is decoded (C70_version_violated), with no other effect than the flags (C70_version_ignored, C70_message_ignored)."
  },
  {
   "property": "C71",
   "status": "partial",
   "theorems": [
    "Pfcp.Fields.C71_IP46_bounded",
    "Pfcp.Fields.C71_FSEID_bounded",
    "Pfcp.Fields.C71_FTEID_bounded",
    "Pfcp.Fields.C71_MPTCPAddressInformation_bounded",
    "Pfcp.Fields.C71_UELinkSpecificIPAddress_bounded",
    "Pfcp.Fields.C71_IPMulticastAddress_bounded",
    "Pfcp.Fields.C71_Volume_bounded",
    "Pfcp.Fields.C71_VolumeMeasurement_bounded",
    "Pfcp.Fields.C71_NumberOfUEIPAddresses_bounded",
    "Pfcp.Fields.C71_Delays_bounded",
    "Pfcp.Fields.C71_PacketRateStatus_bounded",
    "Pfcp.Fields.C71_MACAddress_bounded",
    "Pfcp.Fields.C71_PMFAddressInformation_bounded",
    "Pfcp.Fields.C71_UEIPAddress_fits",
    "Pfcp.Fields.C71_UEIPAddress_crash",
    "Pfcp.Fields.C71_RemoteGTPUPeer_fits",
    "Pfcp.Fields.C71_RemoteGTPUPeer_crash",
    "Pfcp.Fields.C71_UserPlaneIPResourceInformation_fits",
    "Pfcp.Fields.C71_UserPlaneIPResourceInformation_crash",
    "Pfcp.Fields.C71_DLFlowLevelMarking_fits",
    "Pfcp.Fields.C71_DLFlowLevelMarking_crash",
    "Pfcp.Fields.C71_PacketRate_fits",
    "Pfcp.Fields.C71_PacketRate_crash",
    "Pfcp.Fields.C71_HeaderEnrichment_fits",
    "Pfcp.Fields.C71_HeaderEnrichment_crash",
    "Pfcp.Fields.C71_Tag_fits",
    "Pfcp.Fields.C71_Tag_crash",
    "Pfcp.Fields.C71_MACAddresses_fits",
    "Pfcp.Fields.C71_MACAddresses_crash",
    "Pfcp.Fields.C71_UserID_fits",
    "Pfcp.Fields.C71_UserID_crash",
    "Pfcp.Fields.C71_SourceIPAddress_fits",
    "Pfcp.Fields.C71_SourceIPAddress_crash",
    "Pfcp.Fields.C71_TraceInformation_fits",
    "Pfcp.Fields.C71_TraceInformation_crash",
    "Pfcp.Fields.C71_RedirectInformation_fits",
    "Pfcp.Fields.C71_RedirectInformation_crash",
    "Pfcp.Fields.C71_SDFFilter_exact",
    "Pfcp.Fields.C71_SDFFilter_crash",
    "Pfcp.Fields.C71_PFDContents_exact",
    "Pfcp.Fields.C71_OuterHeaderCreation_exact",
    "Pfcp.Fields.C71_PMFAddressInformation_exact",
    "Pfcp.Fields.C71_Tag_overrun",
    "Pfcp.Fields.C71_DLFlowLevelMarking_overrun",
    "Pfcp.Fields.C71_overrun_violated",
    "Pfcp.Fields.C71_crash_violated",
    "Pfcp.Fields.C71_stale_violated"
   ],
   "note": "Thirteen structures meet the statement (C71_*_bounded; PMFAddressInformation with addresses set): no crash on any buffer, success exactly from MarshalLen() octets on, the encoding in front and the rest untouched. The others are given exactly: unguarded writers succeed on every long enough buffer (C71_*_fits) and crash on the shorter ones named (C71_*_crash), some after writing behind the slice (C71_Tag_overrun, C71_DLFlowLevelMarking_overrun); four writers skip octets, which keep what the buffer held (C71_SDFFilter_exact, C71_PFDContents_exact, C71_OuterHeaderCreation_exact, C71_PMFAddressInformation_exact). False in general: C71_crash_violated, C71_overrun_violated, C71_stale_violated. 27 models cover the 35 MarshalTo methods of structured values."
  },
  {
   "property": "C72",
   "status": "partial",
   "theorems": [
    "Pfcp.C72_header_exact",
    "Pfcp.C72_header_fits",
    "Pfcp.Msg.C72_message_exact",
    "Pfcp.Msg.C72_message_fits",
    "Pfcp.Msg.C72_overrun_violated",
    "Pfcp.Msg.C72_crash_violated"
   ],
   "note": "Exact on every buffer, for headers (C72_header_exact) and messages of all kinds (C72_message_exact). With MarshalLen() octets the statement holds (C72_header_fits, C72_message_fits). False otherwise: a shorter buffer never gives an error; it crashes (C72_crash_violated) or, with capacity behind the slice and room for the header in it, overwrites what follows and reports success (C72_overrun_violated, for every message with a body)."
  },
  {
   "property": "C73",
   "status": "partial",
   "theorems": [
    "Pfcp.Race.C73_alone_partial",
    "Pfcp.Race.C73_only_writer_partial",
    "Pfcp.Race.C73_separate_partial",
    "Pfcp.Race.C73_zeros_violated",
    "Pfcp.Race.C73_error_violated",
    "Pfcp.Race.C73_panic_violated",
    "Pfcp.Race.C73_make_violated",
    "Pfcp.Race.C73_race_violated"
   ],
   "note": "Holds under every schedule for goroutines encoding different messages, elements shared or not (C73_separate_partial); for one call at a time (C73_alone_partial); and for one call among goroutines that only read (C73_only_writer_partial). False for the same message, for every message: two calls can both succeed with one returning a body of zeros (C73_zeros_violated), one can get an error (C73_error_violated) or panic (C73_panic_violated), and both can be about to write the payload (C73_race_violated). One step is one access to a shared variable or one element written."
  },
  {
   "property": "C74",
   "status": "partial",
   "theorems": [
    "Pfcp.Fields.C74_Volume_exact",
    "Pfcp.Fields.C74_VolumeMeasurement_exact",
    "Pfcp.Fields.C74_NumberOfUEIPAddresses_exact",
    "Pfcp.Fields.C74_Delays_exact",
    "Pfcp.Fields.C74_DLFlowLevelMarking_exact",
    "Pfcp.Fields.C74_PacketRate_exact",
    "Pfcp.Fields.C74_PacketRateStatus_exact",
    "Pfcp.Fields.C74_IP46_exact",
    "Pfcp.Fields.C74_FSEID_exact",
    "Pfcp.Fields.C74_FTEID_exact",
    "Pfcp.Fields.C74_MPTCPAddressInformation_exact",
    "Pfcp.Fields.C74_UELinkSpecificIPAddress_exact",
    "Pfcp.Fields.C74_SourceIPAddress_exact",
    "Pfcp.Fields.C74_UEIPAddress_exact",
    "Pfcp.Fields.C74_RemoteGTPUPeer_exact",
    "Pfcp.Fields.C74_IPMulticastAddress_exact",
    "Pfcp.Fields.C74_UserPlaneIPResourceInformation_exact",
    "Pfcp.Fields.C74_MACAddress_exact",
    "Pfcp.Fields.C74_Tag_exact",
    "Pfcp.Fields.C74_SDFFilter_exact",
    "Pfcp.Fields.C74_UserID_exact",
    "Pfcp.Fields.C74_HeaderEnrichment_exact",
    "Pfcp.Fields.C74_OuterHeaderCreation_exact",
    "Pfcp.Fields.C74_PMFAddressInformation_exact",
    "Pfcp.Fields.C74_RedirectInformation_exact",
    "Pfcp.Fields.C74_TraceInformation_exact",
    "Pfcp.Fields.C74_MACAddresses_exact",
    "Pfcp.Fields.C74_PMFAddressInformation_copied",
    "Pfcp.Fields.C74_TraceInformation_copied",
    "Pfcp.Fields.C74_MACAddresses_copied",
    "Pfcp.Fields.C74_PFDContents_partial",
    "Pfcp.Fields.C74_PFDContents_exact",
    "Pfcp.Fields.C74_Volume_reencode",
    "Pfcp.Fields.C74_VolumeMeasurement_reencode",
    "Pfcp.Fields.C74_NumberOfUEIPAddresses_reencode",
    "Pfcp.Fields.C74_Delays_reencode",
    "Pfcp.Fields.C74_DLFlowLevelMarking_reencode",
    "Pfcp.Fields.C74_PacketRate_reencode",
    "Pfcp.Fields.C74_PacketRateStatus_reencode",
    "Pfcp.Fields.C74_FTEID_reencode",
    "Pfcp.Fields.C74_MPTCPAddressInformation_reencode",
    "Pfcp.Fields.C74_UELinkSpecificIPAddress_reencode",
    "Pfcp.Fields.C74_SourceIPAddress_reencode",
    "Pfcp.Fields.C74_UEIPAddress_reencode",
    "Pfcp.Fields.C74_RemoteGTPUPeer_reencode",
    "Pfcp.Fields.C74_UserPlaneIPResourceInformation_reencode",
    "Pfcp.Fields.C74_SDFFilter_reencode",
    "Pfcp.Fields.C74_UserID_reencode",
    "Pfcp.Fields.C74_stale_violated",
    "Pfcp.Fields.C74_addresses_violated",
    "Pfcp.Fields.C74_FSEID_violated",
    "Pfcp.Fields.C74_IPMulticastAddress_violated",
    "Pfcp.Fields.C74_MACAddress_violated",
    "Pfcp.Fields.C74_Tag_violated",
    "Pfcp.Fields.C74_OuterHeaderCreation_violated",
    "Pfcp.Fields.C74_MACAddresses_violated",
    "Pfcp.Fields.C74_PMFAddressInformation_violated",
    "Pfcp.Fields.C74_TraceInformation_violated",
    "Pfcp.Fields.C74_PFDContents_violated"
   ],
   "note": "False: fields that the new flags do not announce keep their old values (C74_stale_violated); encoded again these show in addresses, F-SEIDs, multicast and MAC addresses, tags and outer headers (C74_addresses_violated and others); MAC addresses and additional PFD texts collect (C74_MACAddresses_violated); PFD contents are refused because of an old length (C74_PFDContents_violated). Exact for every structure: which fields come from the octets and which from the old value (C74_*_exact); the copied MAC addresses, trace and tag contents are excluded there and given octet by octet in C74_*_copied. The sixteen encoders that go by the flags give the same octets (C74_*_reencode). What a failed decode leaves behind is not modelled."
  },
  {
   "property": "C75",
   "status": "partial",
   "theorems": [
    "Pfcp.C75_element_outcome",
    "Pfcp.C75_element_exact",
    "Pfcp.C75_element_violated",
    "Pfcp.C75_group_violated",
    "Pfcp.C75_header_outcome",
    "Pfcp.C75_header_exact",
    "Pfcp.C75_header_used",
    "Pfcp.C75_header_violated",
    "Pfcp.MsgP.C75_message_outcome",
    "Pfcp.MsgP.C75_total",
    "Pfcp.MsgP.C75_message_exact",
    "Pfcp.MsgP.C75_headerless",
    "Pfcp.MsgP.C75_unusable_violated",
    "Pfcp.MsgP.C75_mixed_violated",
    "Pfcp.MsgP.C75_retry",
    "Pfcp.MsgP.C75_retry_generic",
    "Pfcp.MsgP.C75_retry_generic_violated"
   ],
   "note": "False: an element keeps the new type and length with the old value (C75_element_violated), a group loses its children (C75_group_violated), a header mixes both (C75_header_violated), a message loses its header so that every later use panics (C75_unusable_violated), or is encoded under the header of the refused datagram (C75_mixed_violated). Proved: exactly what is left of an element, a header and a message (C75_*_exact, C75_headerless); the fields of a message are never half decoded; a decode never panics (C75_total); a failed decode does not show in the next one, for every kind but the unknown ones (C75_retry), for which it shows only when the next datagram has no elements (C75_retry_generic). Structured values are not covered."
  },
  {
   "property": "C76",
   "status": "partial",
   "theorems": [
    "Pfcp.C76_reorder_iff",
    "Pfcp.Msg.C76_fields",
    "Pfcp.Msg.C76_accepted",
    "Pfcp.Msg.C76_canonical",
    "Pfcp.Msg.C76_constructor",
    "Pfcp.C76_groups_partial",
    "Pfcp.C76_flags",
    "Pfcp.C76_deep_partial",
    "Pfcp.C76_either_violated",
    "Pfcp.C76_pdi_violated"
   ],
   "note": "Proved for messages (C76_fields, C76_accepted), list constructors (C76_constructor), flag functions (C76_flags), and all accessors in all groups but nine combinations, one level (C76_groups_partial) and at every depth (C76_deep_partial). If also the unknown elements keep their order, both messages are encoded into the same octets (C76_canonical). False for the nine: FTEID of a PDI and FARID, Priority, URRID, Weight of a Create or Update MAR look for two types of children and read whichever comes first (C76_either_violated; C76_pdi_violated: the F-TEID of the redundant transmission parameters). C76_reorder_iff: what a reordering is."
  },
  {
   "property": "C77",
   "status": "partial",
   "theorems": [
    "Pfcp.C77_groups",
    "Pfcp.C77_find",
    "Pfcp.Msg.C77_messages",
    "Pfcp.Msg.C77_repeated_violated",
    "Pfcp.Msg.C77_messages_iff",
    "Pfcp.Msg.C77_once_partial"
   ],
   "note": "False: in every kind of message, every field for a single element gets the last one of its type, and encoding drops the others (C77_messages, C77_repeated_violated), whereas accessors and FindByType read the first child of a group (C77_groups, C77_find). No difference if no type occurs twice (C77_once_partial); for messages exactly if the first and the last one have the same value (C77_messages_iff)."
  },
  {
   "property": "C78",
   "status": "partial",
   "theorems": [
    "Pfcp.C78_counted",
    "Pfcp.C78_calls",
    "Pfcp.C78_lens_partial",
    "Pfcp.C78_exact",
    "Pfcp.C78_shallow",
    "Pfcp.Msg.C78_message",
    "Pfcp.Msg.C78_message_bound_partial",
    "Pfcp.C78_attained",
    "Pfcp.Msg.C78_datagram_violated"
   ],
   "note": "False: ParseMultiIEs measures every element it has decoded, and MarshalLen walks the tree below it, so an element is visited once for every group around it (C78_exact: the sum of the depths). A Session Establishment Request of 65,504 octets that message.Parse accepts under the default configuration costs 134,029,378 calls of MarshalLen, each taking the read lock of the grouped table (C78_datagram_violated; C78_attained: the same at every size). Proved: UnmarshalBinary is called at most once per four octets (C78_calls); MarshalLen at most N(N+1)/2 times for N whole groups of four octets, whatever the outcome (C78_lens_partial, C78_message_bound_partial), and at most D/4 times per octet when nesting is at most D deep (C78_shallow). C78_counted: the counted decoder is the decoder; C78_message: nothing else is counted in messages."
  },
  {
   "property": "C79",
   "status": "partial",
   "theorems": [
    "Pfcp.C79_counted",
    "Pfcp.C79_exact",
    "Pfcp.C79_lens_partial",
    "Pfcp.C79_shallow",
    "Pfcp.Msg.C79_message",
    "Pfcp.Msg.C79_message_shallow",
    "Pfcp.C79_attained",
    "Pfcp.Msg.C79_message_violated"
   ],
   "note": "False for the same reason: MarshalTo measures every child it has written. Exact counts for every element (C79_exact) and every message without nil pointers in its lists (C79_message); sending on the message of C78 costs 134,062,122 calls of MarshalLen (C79_message_violated; C79_attained). Proved: at most n calls of MarshalTo and n(n+1)/2+1 of MarshalLen for n elements (C79_lens_partial); proportional when nesting is bounded (C79_shallow, C79_message_shallow). C79_counted: the counted encoders are the encoders."
  },
  {
   "property": "C80",
   "status": "partial",
   "theorems": [
    "Pfcp.Fields.C80_Volume",
    "Pfcp.Fields.C80_VolumeMeasurement",
    "Pfcp.Fields.C80_NumberOfUEIPAddresses",
    "Pfcp.Fields.C80_Delays",
    "Pfcp.Fields.C80_DLFlowLevelMarking",
    "Pfcp.Fields.C80_PacketRate",
    "Pfcp.Fields.C80_PacketRateStatus",
    "Pfcp.Fields.C80_IP46",
    "Pfcp.Fields.C80_FSEID",
    "Pfcp.Fields.C80_MPTCPAddressInformation",
    "Pfcp.Fields.C80_UELinkSpecificIPAddress",
    "Pfcp.Fields.C80_SourceIPAddress",
    "Pfcp.Fields.C80_FTEID",
    "Pfcp.Fields.C80_UEIPAddress",
    "Pfcp.Fields.C80_IPMulticastAddress",
    "Pfcp.Fields.C80_UserPlaneIPResourceInformation",
    "Pfcp.Fields.C80_HeaderEnrichment",
    "Pfcp.Fields.C80_Tag",
    "Pfcp.Fields.C80_violated",
    "Pfcp.Fields.C80_MACAddress",
    "Pfcp.Fields.C80_SDFFilter",
    "Pfcp.Fields.C80_RemoteGTPUPeer",
    "Pfcp.Fields.C80_PMFAddressInformation",
    "Pfcp.Fields.C80_RedirectInformation",
    "Pfcp.Fields.C80_MACAddresses_violated",
    "Pfcp.Fields.C80_OuterHeaderCreation",
    "Pfcp.Fields.C80_UserID",
    "Pfcp.Fields.C80_TraceInformation",
    "Pfcp.Fields.C80_PFDContents_partial"
   ],
   "note": "False: for most structs there are values that do not survive, so the property is replaced by exact conditions, one theorem per struct (an iff over every value of the struct). They name each loss: a VID of 256 or more, a multicast address of \u2018any\u2019, a network instance in User Plane IP Resource Information, an IPv6 prefix length that differs from the prefix delegation length, a fifth flag bit with an address in Remote GTP-U Peer, an empty flow description with nothing behind it, fields that the flags do not announce, announced fields that are absent, MAC addresses in PMF Address Information, tags in Outer Header Creation and a port beside them, events, interfaces and address in Trace Information, an even number of digits in User ID, a second redirect address that is not the first one shifted by two octets. No value at all of MAC Addresses Detected or Removed survives (C80_MACAddresses_violated). For PFD Contents the iff is under the hypothesis that stored list lengths are right."
  },
  {
   "property": "C81",
   "status": "proved",
   "theorems": [
    "Pfcp.C81_groups",
    "Pfcp.C81_flags",
    "Pfcp.C81_deep",
    "Pfcp.C81_deep_flags",
    "Pfcp.Msg.C81_fields",
    "Pfcp.Msg.C81_fields_deep",
    "Pfcp.Msg.C81_accepted",
    "Pfcp.C81_unnamed",
    "Pfcp.C81_receiver",
    "Pfcp.C81_error_kind",
    "Pfcp.C81_which",
    "Pfcp.C81_which_flags"
   ],
   "note": "The value is the same, and so is whether there is a panic; which error is reported may change (C81_error_kind)."
  },
  {
   "property": "C82",
   "status": "proved",
   "theorems": [
    "Pfcp.Msg.C82_sequence",
    "Pfcp.Msg.C82_seid",
    "Pfcp.Msg.C82_seid_new",
    "Pfcp.Msg.C82_priority",
    "Pfcp.Msg.C82_leftovers",
    "Pfcp.Msg.C82_field",
    "Pfcp.Msg.C82_extra",
    "Pfcp.Msg.C82_length"
   ],
   "note": "SetMP sets the FO flag where the documentation says MP (C16); the theorem says which octets change."
  },
  {
   "property": "C83",
   "status": "partial",
   "theorems": [
    "Pfcp.Fields.C83_Volume",
    "Pfcp.Fields.C83_VolumeMeasurement",
    "Pfcp.Fields.C83_NumberOfUEIPAddresses",
    "Pfcp.Fields.C83_Delays",
    "Pfcp.Fields.C83_DLFlowLevelMarking",
    "Pfcp.Fields.C83_PacketRate",
    "Pfcp.Fields.C83_PacketRateStatus",
    "Pfcp.Fields.C83_IP46",
    "Pfcp.Fields.C83_FSEID",
    "Pfcp.Fields.C83_MPTCPAddressInformation",
    "Pfcp.Fields.C83_UELinkSpecificIPAddress",
    "Pfcp.Fields.C83_SourceIPAddress",
    "Pfcp.Fields.C83_FTEID",
    "Pfcp.Fields.C83_UEIPAddress",
    "Pfcp.Fields.C83_IPMulticastAddress",
    "Pfcp.Fields.C83_UserPlaneIPResourceInformation",
    "Pfcp.Fields.C83_RemoteGTPUPeer",
    "Pfcp.Fields.C83_PMFAddressInformation",
    "Pfcp.Fields.C83_MACAddress",
    "Pfcp.Fields.C83_OuterHeaderCreation",
    "Pfcp.Fields.C83_HeaderEnrichment",
    "Pfcp.Fields.C83_Tag",
    "Pfcp.Fields.C83_SDFFilter",
    "Pfcp.Fields.C83_RedirectInformation",
    "Pfcp.Fields.C83_UserID",
    "Pfcp.Fields.C83_TraceInformation",
    "Pfcp.Fields.C83_MACAddresses_violated",
    "Pfcp.Fields.C83_PFDContents",
    "Pfcp.Fields.C83_violated"
   ],
   "note": "False for most constructors, so that each has an exact condition on its arguments instead (an iff over all arguments). Constructors that drop what the flags do not announce lose nothing (volumes, packet rates); those that store all arguments (packet delays, number of UE IP addresses, F-TEID, VLAN tags) return values that do not survive unless the flags agree with them; a 16-octet form of an IPv4 address does not survive where the constructor stores it as given, but does where it converts it."
  },
  {
   "property": "C84",
   "status": "partial",
   "theorems": [
    "Pfcp.Msg.C84_exact",
    "Pfcp.Msg.C84_refused",
    "Pfcp.Msg.C84_violated",
    "Pfcp.Msg.C84_detected",
    "Pfcp.Msg.C84_whole"
   ],
   "note": "False: a message cut between two elements, behind the header of an element, or one octet behind its own header is accepted, with the elements that arrived. Which prefixes are accepted and to what they are decoded is stated exactly, everything else is refused with an error, and comparing the length in the decoded header with the number of octets received finds every cut (for messages whose length fits the length field)."
  },
  {
   "property": "C85",
   "status": "partial",
   "theorems": [
    "Pfcp.Msg.C85_violated",
    "Pfcp.Msg.C85_exact",
    "Pfcp.Msg.C85_detected",
    "Pfcp.Msg.C85_sent_on"
   ],
   "note": "False: each parser accepts exactly what message.Parse accepts, whatever the type octet, and files the elements as messages of its kind; it returns what message.Parse returns exactly if the octet belongs to the kind. Comparing MessageType with the kind finds all other cases; an accepted foreign message is sent on with its foreign type octet."
  },
  {
   "property": "C86",
   "status": "partial",
   "theorems": [
    "Pfcp.Msg.C86_accepted",
    "Pfcp.Msg.C86_violated",
    "Pfcp.Msg.C86_detected"
   ],
   "note": "False: the S flag is not compared with the kind; every header with any well-formed elements is accepted. What the caller can rely on instead is proved: HasSEID is the flag received, SEID() the octets 5 to 12 if it is set and zero otherwise."
  },
  {
   "property": "C87",
   "status": "partial",
   "theorems": [
    "Pfcp.C87_element",
    "Pfcp.C87_prefix_free",
    "Pfcp.C87_sequence",
    "Pfcp.C87_violated",
    "Pfcp.Msg.C87_message"
   ],
   "note": "True of single elements, whatever they hold, as an exact condition; true of sequences and messages of well-formed elements. False of sequences of elements with a wrong length field, which constructors return only for contents beyond 65535 octets but which users can make by assigning to Length or Payload."
  },
  {
   "property": "C88",
   "status": "partial",
   "theorems": [
    "Pfcp.Msg.C88_constructors",
    "Pfcp.Msg.C88_list",
    "Pfcp.Msg.C88_arguments",
    "Pfcp.Msg.C88_generic",
    "Pfcp.Msg.C88_violated"
   ],
   "note": "True of every constructor that sorts a list of elements, for sequence numbers of 24 bits. False of those that take elements one by one if an argument is not of the type of its field or an extra element is (it then arrives in another field or among the extra ones), of Generic with a type octet assigned to another kind, and of sequence numbers beyond 24 bits; the condition is exact in each case."
  },
  {
   "property": "C89",
   "status": "proved",
   "theorems": [
    "Pfcp.C89_element",
    "Pfcp.C89_element_back",
    "Pfcp.Msg.C89_message"
   ],
   "note": "For single elements in both directions; for messages of every kind."
  },
  {
   "property": "C90",
   "status": "partial",
   "theorems": [
    "Pfcp.Header.C90_exact",
    "Pfcp.Header.C90_violated",
    "Pfcp.Header.C90_partial"
   ],
   "note": "The version is printed as 1 whatever it is, and the spare bits are not printed (C90_violated, for every header). Exactly these five bits are lost (C90_exact)."
  },
  {
   "property": "C91",
   "status": "partial",
   "theorems": [
    "Pfcp.Mem.C91_decode",
    "Pfcp.Mem.C91_exact",
    "Pfcp.Mem.C91_kept_partial",
    "Pfcp.Mem.C91_violated",
    "Pfcp.Mem.C91_copied_partial"
   ],
   "note": "False for every message that carries values (C91_violated): elements and header payload are windows into the buffer. Exactly which parts change is C91_exact; what stays is C91_kept_partial; decoding from a copy is C91_copied_partial."
  },
  {
   "property": "C92",
   "status": "partial",
   "theorems": [
    "Pfcp.Msg.C92_relay_iff",
    "Pfcp.Msg.C92_relay_violated",
    "Pfcp.Msg.C92_relay_partial",
    "Pfcp.Msg.C92_own_messages",
    "Pfcp.Msg.C92_settles"
   ],
   "note": "False (C92_relay_violated): elements are put in the order of the struct fields, all but the last of a repeated single element are lost, and the length field is recomputed. Exactly when the octets are kept is C92_relay_iff; what holds of every datagram is C92_relay_partial; it always holds of what the library encoded itself (C92_own_messages) and of what was already relayed once, if its elements are complete (C92_settles)."
  },
  {
   "property": "C93",
   "status": "partial",
   "theorems": [
    "Pfcp.C93_hopeless_iff",
    "Pfcp.C93_two_errors",
    "Pfcp.C93_invalid_length",
    "Pfcp.C93_unexpected_eof_violated",
    "Pfcp.C93_unexpected_eof_partial",
    "Pfcp.Msg.C93_datagram_iff",
    "Pfcp.Msg.C93_datagram_invalid_length"
   ],
   "note": "The first half is false (C93_unexpected_eof_violated): a child longer than its complete group gives io.ErrUnexpectedEOF whatever follows, and so does a vendor-specific header cut before its enterprise id. Exactly which inputs cannot be completed is C93_hopeless_iff and, for datagrams, C93_datagram_iff; what holds of the first half is C93_unexpected_eof_partial. The second half holds (C93_invalid_length, C93_datagram_invalid_length), and there are no other errors (C93_two_errors)."
  },
  {
   "property": "C94",
   "status": "partial",
   "theorems": [
    "Pfcp.C94_children_only",
    "Pfcp.C94_still_accepted_iff",
    "Pfcp.C94_same_result_iff",
    "Pfcp.C94_other_types",
    "Pfcp.C94_registration_violated",
    "Pfcp.C94_registration_partial",
    "Pfcp.Msg.C94_message",
    "Pfcp.Msg.C94_message_accepted_iff"
   ],
   "note": "The second half holds (C94_children_only, C94_other_types, C94_message, and for the calls C94_registration_partial). The first is false (C94_registration_violated): registering a type whose payload is not a sequence of elements makes every message that carries it undecodable. Exactly what is still accepted is C94_still_accepted_iff and C94_message_accepted_iff; exactly when two configurations give the same result is C94_same_result_iff."
  }
 ]
}

# Axioms of the manifest theorems

Output of `#print axioms` for every theorem named in MANIFEST.json, grouped.

## (none): 6 theorems

`Pfcp.Msg.C28_names_violated`, `Pfcp.Msg.C28_names_partial`, `Pfcp.C30_constructor_default`, `Pfcp.Text.C31_digits`, `Pfcp.Msg.C46_field_type_violated`, `Pfcp.Header.C70_version_iff`

## propext: 16 theorems

`Pfcp.Config.C11_nil_function_panics`, `Pfcp.Concurrent.C12_function_race_violated`, `Pfcp.Msg.C28_isRequest`, `Pfcp.Text.C33_long_label_violated`, `Pfcp.Fields.C40_HeaderEnrichment_violated`, `Pfcp.Fields.C43_RedirectInformation_violated`, `Pfcp.Fields.C43_MACAddresses_violated`, `Pfcp.Config.C47_grouped_constructors`, `Pfcp.C60_refuse`, `Pfcp.Log.C61_disabled`, `Pfcp.Log.C61_installed_partial`, `Pfcp.Log.C61_reinstall_violated`, `Pfcp.Fields.C74_HeaderEnrichment_exact`, `Pfcp.Fields.C74_RedirectInformation_exact`, `Pfcp.Fields.C74_MACAddresses_exact`, `Pfcp.Fields.C74_MACAddresses_violated`

## Quot.sound, propext: 289 theorems

`Pfcp.C05_success`, `Pfcp.C05_marshal_exact`, `Pfcp.C05_short_buffer_violated`, `Pfcp.C07_newGrouped`, `Pfcp.C08_add_panics`, `Pfcp.C08_edits`, `Pfcp.C08_not_grouped`, `Pfcp.C08_add_nil_violated`, `Pfcp.C09_truncated_violated`, `Pfcp.C10_new_partial`, `Pfcp.Config.C11_grouped_rule`, `Pfcp.Config.C11_order_irrelevant`, `Pfcp.Config.C11_add_after_set`, `Pfcp.C13_config_change_violated`, `Pfcp.C13_config_change_partial`, `Pfcp.Header.C14_sequence_truncated`, `Pfcp.Header.C16_setMP_exact`, `Pfcp.Header.C16_setMP_iff`, `Pfcp.Header.C16_constructor_priority_iff`, `Pfcp.Header.C16_constructor_flags_exact`, `Pfcp.Header.C16_constructor_flags_iff`, `Pfcp.Header.C16_wrappers`, `Pfcp.Header.C16_setMP_violated`, `Pfcp.Header.C16_setMP_partial`, `Pfcp.Header.C16_constructor_priority_violated`, `Pfcp.Header.C16_constructor_priority_partial`, `Pfcp.Header.C16_constructor_flags`, `Pfcp.Header.C17_length_violated`, `Pfcp.Msg.C19_generic`, `Pfcp.Msg.C22_stability_violated`, `Pfcp.Msg.C23_marshalTo`, `Pfcp.Msg.C25_encode_skips_nil`, `Pfcp.Msg.C25_generic_nil_violated`, `Pfcp.Msg.C26_marshal_idempotent`, `Pfcp.C29_default`, `Pfcp.C29_type`, `Pfcp.C29_coverage`, `Pfcp.C30_once`, `Pfcp.C30_dl_flow_level_marking_violated`, `Pfcp.C30_ue_ip_address_partial`, `Pfcp.C30_ue_ip_address_violated`, `Pfcp.C30_urr_allocation`, `Pfcp.Text.C31_exact`, `Pfcp.Fields.C31_octets_iff`, `Pfcp.Text.C31_even`, `Pfcp.Text.C31_odd`, `Pfcp.Text.C31_refuses`, `Pfcp.Text.C31_bytes`, `Pfcp.Text.C31_even_cut`, `Pfcp.Text.C32_exact`, `Pfcp.Text.C32_octets`, `Pfcp.Text.C32_two`, `Pfcp.Text.C32_three`, `Pfcp.Text.C32_total`, `Pfcp.Text.C32_short_panics`, `Pfcp.Text.C34_eci`, `Pfcp.C35_timers`, `Pfcp.C35_octet`, `Pfcp.C35_spare_units_violated`, `Pfcp.C37_flags_home`, `Pfcp.C37_home`, `Pfcp.C38_flags_grouped`, `Pfcp.C38_flags_searched`, `Pfcp.C38_searched`, `Pfcp.C39_flags_violated`, `Pfcp.C39_panics_violated`, `Pfcp.Fields.C40_IP46_violated`, `Pfcp.Fields.C40_FTEID_nil_violated`, `Pfcp.Fields.C40_SourceIPAddress_violated`, `Pfcp.Fields.C40_UEIPAddress_unparsable_violated`, `Pfcp.Fields.C40_IPMulticastAddress_violated`, `Pfcp.Fields.C40_UserPlaneIPResourceInformation_violated`, `Pfcp.Fields.C40_MACAddress_violated`, `Pfcp.Fields.C40_SDFFilter_violated`, `Pfcp.Fields.C40_SDFFilter_ttc_violated`, `Pfcp.Fields.C40_OuterHeaderCreation_violated`, `Pfcp.Fields.C41_SourceIPAddress_violated`, `Pfcp.Fields.C41_RemoteGTPUPeer_violated`, `Pfcp.Fields.C41_UserPlaneIPResourceInformation_violated`, `Pfcp.Fields.C41_SDFFilter_violated`, `Pfcp.Fields.C43_IP46_exact`, `Pfcp.Fields.C43_FSEID_exact`, `Pfcp.Fields.C43_FTEID_exact`, `Pfcp.Fields.C43_MPTCPAddressInformation_exact`, `Pfcp.Fields.C43_UELinkSpecificIPAddress_exact`, `Pfcp.Fields.C43_SourceIPAddress_exact`, `Pfcp.Fields.C43_UEIPAddress_exact`, `Pfcp.Fields.C43_Tag_exact`, `Pfcp.Fields.C43_SDFFilter_exact`, `Pfcp.Fields.C43_OuterHeaderCreation_exact`, `Pfcp.Fields.C43_PMFAddressInformation_exact`, `Pfcp.Fields.C43_RedirectInformation_exact`, `Pfcp.Fields.C43_RedirectInformation_ctor_exact`, `Pfcp.Fields.C43_Volume_exact`, `Pfcp.Fields.C43_VolumeMeasurement_exact`, `Pfcp.Fields.C43_NumberOfUEIPAddresses_exact`, `Pfcp.Fields.C43_Delays_exact`, `Pfcp.Fields.C43_PacketRateStatus_exact`, `Pfcp.Fields.C43_DLFlowLevelMarking_exact`, `Pfcp.Fields.C43_PacketRate_exact`, `Pfcp.Fields.C43_RemoteGTPUPeer_exact`, `Pfcp.Fields.C43_RemoteGTPUPeer_ctor_exact`, `Pfcp.Fields.C43_IPMulticastAddress_exact`, `Pfcp.Fields.C43_UserPlaneIPResourceInformation_exact`, `Pfcp.Fields.C43_HeaderEnrichment_exact`, `Pfcp.Fields.C43_MACAddress_exact`, `Pfcp.Fields.C43_MACAddress_ctor_exact`, `Pfcp.Fields.C43_MACAddresses_exact`, `Pfcp.Fields.C43_DLFlowLevelMarking_violated`, `Pfcp.Fields.C43_PacketRate_violated`, `Pfcp.Fields.C43_RemoteGTPUPeer_violated`, `Pfcp.Fields.C43_IPMulticastAddress_violated`, `Pfcp.Fields.C43_UserPlaneIPResourceInformation_violated`, `Pfcp.Fields.C43_MACAddress_violated`, `Pfcp.Fields.C43_UserID_violated`, `Pfcp.Fields.C43_TraceInformation_violated`, `Pfcp.Msg.C45_reuse_violated`, `Pfcp.Msg.C45_reuse_partial`, `Pfcp.Msg.C45_exact`, `Pfcp.Msg.C45_iff`, `Pfcp.C45_element_violated`, `Pfcp.Concurrent.C48_terminates`, `Pfcp.Concurrent.C49_finished_are_calls`, `Pfcp.Live.C50_unconcerned_partial`, `Pfcp.Live.C50_registering_others_partial`, `Pfcp.Live.C50_no_change`, `Pfcp.Live.C50_decode_while_setting_violated`, `Pfcp.Live.C50_one_configuration_violated`, `Pfcp.Msg.C51_generic`, `Pfcp.Msg.C51_seid`, `Pfcp.C52_access_availability`, `Pfcp.C52_gate_status`, `Pfcp.C52_usage_reports`, `Pfcp.C52_packet_count`, `Pfcp.C52_failed_rule`, `Pfcp.C52_flow_information`, `Pfcp.C52_forwarding_policy`, `Pfcp.C52_pool_identity`, `Pfcp.C52_rates`, `Pfcp.C52_multiplier`, `Pfcp.C52_outer_header_removal`, `Pfcp.C52_snssai`, `Pfcp.C52_fqcsid`, `Pfcp.C52_time_quota`, `Pfcp.C52_tsn_bridge`, `Pfcp.C52_dropped_dl_traffic_threshold`, `Pfcp.C52_downlink_data_service_information`, `Pfcp.Fields.C53_RemoteGTPUPeer_lost`, `Pfcp.Fields.C53_DLFlowLevelMarking_violated`, `Pfcp.Fields.C53_PacketRate_violated`, `Pfcp.Fields.C53_PacketRateStatus_violated`, `Pfcp.Fields.C53_UEIPAddress_violated`, `Pfcp.Fields.C53_RemoteGTPUPeer_violated`, `Pfcp.Fields.C53_UserPlaneIPResourceInformation_violated`, `Pfcp.Fields.C53_Tag_violated`, `Pfcp.Fields.C53_SDFFilter_violated`, `Pfcp.Fields.C53_OuterHeaderCreation_violated`, `Pfcp.Fields.C53_PMFAddressInformation_violated`, `Pfcp.Fields.C53_UserID_violated`, `Pfcp.Fields.C53_TraceInformation_violated`, `Pfcp.Fields.C53_PFDContents_violated`, `Pfcp.C54_default`, `Pfcp.C54_type`, `Pfcp.C54_distinct`, `Pfcp.C55_default`, `Pfcp.C55_nf_instance_violated`, `Pfcp.C55_node_id_none`, `Pfcp.C55_node_id_heuristic`, `Pfcp.C55_teidri`, `Pfcp.C55_teidri_foreign`, `Pfcp.C56_nth`, `Pfcp.C56_foreign`, `Pfcp.C57_grouped_violated`, `Pfcp.C58_foreign`, `Pfcp.C59_default`, `Pfcp.C59_nil_violated`, `Pfcp.Log.C61_enable_reached`, `Pfcp.Log.C61_terminates`, `Pfcp.TypeName.C62_named`, `Pfcp.C63_edit_found`, `Pfcp.C64_layout`, `Pfcp.C64_once`, `Pfcp.C65_groups`, `Pfcp.C65_searched`, `Pfcp.C65_flag_groups`, `Pfcp.C65_flag_searched`, `Pfcp.Mem.C66_shape_partial`, `Pfcp.Mem.C66_group_violated`, `Pfcp.Mem.C66_new`, `Pfcp.Mem.C67_no_writes`, `Pfcp.Mem.C67_others`, `Pfcp.Mem.C67_add`, `Pfcp.Mem.C67_remove`, `Pfcp.Mem.C67_group`, `Pfcp.Mem.C67_copy_violated`, `Pfcp.Mem.C67_list_violated`, `Pfcp.Header.C70_version_violated`, `Pfcp.Fields.C71_overrun_violated`, `Pfcp.Fields.C71_crash_violated`, `Pfcp.Fields.C71_stale_violated`, `Pfcp.C72_header_fits`, `Pfcp.Msg.C72_message_fits`, `Pfcp.Race.C73_alone_partial`, `Pfcp.Race.C73_only_writer_partial`, `Pfcp.Race.C73_separate_partial`, `Pfcp.Race.C73_zeros_violated`, `Pfcp.Race.C73_error_violated`, `Pfcp.Race.C73_panic_violated`, `Pfcp.Race.C73_make_violated`, `Pfcp.Race.C73_race_violated`, `Pfcp.Fields.C74_Volume_exact`, `Pfcp.Fields.C74_VolumeMeasurement_exact`, `Pfcp.Fields.C74_NumberOfUEIPAddresses_exact`, `Pfcp.Fields.C74_Delays_exact`, `Pfcp.Fields.C74_DLFlowLevelMarking_exact`, `Pfcp.Fields.C74_PacketRate_exact`, `Pfcp.Fields.C74_PacketRateStatus_exact`, `Pfcp.Fields.C74_IP46_exact`, `Pfcp.Fields.C74_FSEID_exact`, `Pfcp.Fields.C74_FTEID_exact`, `Pfcp.Fields.C74_MPTCPAddressInformation_exact`, `Pfcp.Fields.C74_UELinkSpecificIPAddress_exact`, `Pfcp.Fields.C74_SourceIPAddress_exact`, `Pfcp.Fields.C74_UEIPAddress_exact`, `Pfcp.Fields.C74_RemoteGTPUPeer_exact`, `Pfcp.Fields.C74_IPMulticastAddress_exact`, `Pfcp.Fields.C74_UserPlaneIPResourceInformation_exact`, `Pfcp.Fields.C74_MACAddress_exact`, `Pfcp.Fields.C74_Tag_exact`, `Pfcp.Fields.C74_SDFFilter_exact`, `Pfcp.Fields.C74_UserID_exact`, `Pfcp.Fields.C74_OuterHeaderCreation_exact`, `Pfcp.Fields.C74_PMFAddressInformation_exact`, `Pfcp.Fields.C74_TraceInformation_exact`, `Pfcp.Fields.C74_PFDContents_partial`, `Pfcp.Fields.C74_PFDContents_exact`, `Pfcp.Fields.C74_Volume_reencode`, `Pfcp.Fields.C74_VolumeMeasurement_reencode`, `Pfcp.Fields.C74_NumberOfUEIPAddresses_reencode`, `Pfcp.Fields.C74_Delays_reencode`, `Pfcp.Fields.C74_DLFlowLevelMarking_reencode`, `Pfcp.Fields.C74_PacketRate_reencode`, `Pfcp.Fields.C74_PacketRateStatus_reencode`, `Pfcp.Fields.C74_FTEID_reencode`, `Pfcp.Fields.C74_MPTCPAddressInformation_reencode`, `Pfcp.Fields.C74_UELinkSpecificIPAddress_reencode`, `Pfcp.Fields.C74_SourceIPAddress_reencode`, `Pfcp.Fields.C74_UEIPAddress_reencode`, `Pfcp.Fields.C74_RemoteGTPUPeer_reencode`, `Pfcp.Fields.C74_UserPlaneIPResourceInformation_reencode`, `Pfcp.Fields.C74_SDFFilter_reencode`, `Pfcp.Fields.C74_UserID_reencode`, `Pfcp.Fields.C74_stale_violated`, `Pfcp.Fields.C74_addresses_violated`, `Pfcp.Fields.C74_FSEID_violated`, `Pfcp.Fields.C74_IPMulticastAddress_violated`, `Pfcp.Fields.C74_MACAddress_violated`, `Pfcp.Fields.C74_Tag_violated`, `Pfcp.Fields.C74_OuterHeaderCreation_violated`, `Pfcp.Fields.C74_PMFAddressInformation_violated`, `Pfcp.Fields.C74_TraceInformation_violated`, `Pfcp.Fields.C74_PFDContents_violated`, `Pfcp.C75_element_outcome`, `Pfcp.C75_element_violated`, `Pfcp.C75_group_violated`, `Pfcp.C75_header_violated`, `Pfcp.MsgP.C75_message_outcome`, `Pfcp.MsgP.C75_message_exact`, `Pfcp.MsgP.C75_mixed_violated`, `Pfcp.MsgP.C75_retry_generic_violated`, `Pfcp.C76_pdi_violated`, `Pfcp.C78_counted`, `Pfcp.C79_counted`, `Pfcp.C81_unnamed`, `Pfcp.C81_error_kind`, `Pfcp.C81_which`, `Pfcp.C81_which_flags`, `Pfcp.Msg.C82_sequence`, `Pfcp.Msg.C82_seid`, `Pfcp.Msg.C82_seid_new`, `Pfcp.Msg.C82_priority`, `Pfcp.Msg.C82_leftovers`, `Pfcp.Msg.C82_field`, `Pfcp.Msg.C82_extra`, `Pfcp.Msg.C82_length`, `Pfcp.C87_violated`, `Pfcp.Msg.C88_constructors`, `Pfcp.C89_element_back`, `Pfcp.Msg.C92_relay_violated`

## Classical.choice, Quot.sound, propext: 730 theorems

`Pfcp.C01_ie_roundtrip`, `Pfcp.C01_layout`, `Pfcp.C02_parse_marshal`, `Pfcp.C03_parse_total`, `Pfcp.C04_parseMulti_concat`, `Pfcp.C04_parseMulti_lossless`, `Pfcp.C05_short_exact`, `Pfcp.C06_tree_bound`, `Pfcp.C07_decoded`, `Pfcp.C07_newGrouped_roundtrip`, `Pfcp.C08_edits_roundtrip`, `Pfcp.C08_find`, `Pfcp.C09_truncated_exact`, `Pfcp.C09_truncated_partial`, `Pfcp.C09_short_header`, `Pfcp.C10_exact`, `Pfcp.C10_new_exact`, `Pfcp.C10_grouped_exact`, `Pfcp.C10_length_violated`, `Pfcp.Concurrent.C12_table_race_free`, `Pfcp.Concurrent.C12_function_race_partial`, `Pfcp.Concurrent.C12_function_race_iff`, `Pfcp.C13_exact`, `Pfcp.C13_never_longer`, `Pfcp.C13_ungroup`, `Pfcp.Header.C14_exact`, `Pfcp.Header.C14_iff`, `Pfcp.Header.C14_header_roundtrip`, `Pfcp.Header.C15_header_total_lossless`, `Pfcp.Header.C15_header_accepts`, `Pfcp.Header.C16_setSEID`, `Pfcp.Header.C16_setSequenceNumber`, `Pfcp.Msg.C17_bundle_violated`, `Pfcp.Msg.C17_bundle_default`, `Pfcp.Header.C17_length_ignored`, `Pfcp.Header.C17_length_partial`, `Pfcp.Header.C17_length_iff`, `Pfcp.Msg.C17_message_iff`, `Pfcp.Msg.C18_parse_total`, `Pfcp.Msg.C18_parse_accepts`, `Pfcp.Msg.C19_dispatch`, `Pfcp.Msg.C19_constructor`, `Pfcp.Msg.C20_exact`, `Pfcp.Msg.C20_message_roundtrip`, `Pfcp.Msg.C21_filing`, `Pfcp.Msg.C21_one_byte_violated`, `Pfcp.Msg.C22_reencode`, `Pfcp.Msg.C22_stability_partial`, `Pfcp.Msg.C22_stability_iff`, `Pfcp.Msg.C23_marshal_length`, `Pfcp.Msg.C23_constructor_length`, `Pfcp.Msg.C24_constructor_like_decoder`, `Pfcp.Msg.C25_encode_iff`, `Pfcp.Msg.C25_constructor_iff`, `Pfcp.Msg.C25_constructor_nil_violated`, `Pfcp.Msg.C25_constructor_nil_partial`, `Pfcp.Msg.C27_unknown_elements`, `Pfcp.Msg.C27_passthrough`, `Pfcp.Msg.C27_one_byte_violated`, `Pfcp.Msg.C28_names_iff`, `Pfcp.Msg.C28_suffix_iff`, `Pfcp.C29_packet_count`, `Pfcp.C29_usage_reports_partial`, `Pfcp.C29_usage_reports_violated`, `Pfcp.C29_uint8`, `Pfcp.C29_uint16`, `Pfcp.C29_uint32`, `Pfcp.C29_string`, `Pfcp.C29_domain`, `Pfcp.C29_octets`, `Pfcp.C29_seconds`, `Pfcp.C29_milliseconds`, `Pfcp.C29_nanoseconds`, `Pfcp.C29_notification_delay`, `Pfcp.C29_integers`, `Pfcp.C30_layout_partial`, `Pfcp.C30_short_partial`, `Pfcp.C30_independent_partial`, `Pfcp.C30_constructor_partial`, `Pfcp.C30_downlink_data_service_information`, `Pfcp.C30_dropped_dl_traffic_threshold`, `Pfcp.C30_ip_version_violated`, `Pfcp.C30_argument_violated`, `Pfcp.C30_fseid`, `Pfcp.C30_fteid`, `Pfcp.C30_outer_header_creation`, `Pfcp.Text.C31_ends`, `Pfcp.Text.C31_layout`, `Pfcp.Text.C32_ends`, `Pfcp.Text.C33_decode_exact`, `Pfcp.Text.C33_decode_shorter`, `Pfcp.Text.C33_round_trip_iff`, `Pfcp.Text.C33_octets_iff`, `Pfcp.Text.C33_distinct`, `Pfcp.Text.C33_round_trip`, `Pfcp.Text.C33_layout`, `Pfcp.Text.C33_decode`, `Pfcp.Text.C33_total`, `Pfcp.Text.C33_encode_total`, `Pfcp.C34_uint24`, `Pfcp.C34_uint24_id`, `Pfcp.C34_uint24_bytes`, `Pfcp.C34_uint40`, `Pfcp.C34_uint40_id`, `Pfcp.C34_uint40_bytes`, `Pfcp.C35_exact`, `Pfcp.C35_unchanged`, `Pfcp.C35_infinite`, `Pfcp.C35_shorter_violated`, `Pfcp.C35_shorter_iff`, `Pfcp.C36_exact`, `Pfcp.C36_round_trip`, `Pfcp.C36_wraps_violated`, `Pfcp.C37_flags`, `Pfcp.C37_flags_plain`, `Pfcp.C37_exact`, `Pfcp.C37_foreign_partial`, `Pfcp.C37_foreign`, `Pfcp.C37_short_foreign_violated`, `Pfcp.C37_short_foreign_exists_violated`, `Pfcp.C37_foreign_plain_partial`, `Pfcp.C38_found`, `Pfcp.C38_flags`, `Pfcp.C38_typed`, `Pfcp.C38_exact`, `Pfcp.C38_short_costs_nothing`, `Pfcp.C38_grouped_partial`, `Pfcp.C38_grouped`, `Pfcp.C38_provenance`, `Pfcp.C38_constructed`, `Pfcp.C38_pdi_network_instance_violated`, `Pfcp.C38_update_mar_violated`, `Pfcp.C38_short_group_violated`, `Pfcp.C39_rates`, `Pfcp.C39_outer_header_removal`, `Pfcp.C39_snssai`, `Pfcp.C39_identifiers`, `Pfcp.C39_gates`, `Pfcp.C39_access_availability`, `Pfcp.C39_names`, `Pfcp.C39_local_fteid`, `Pfcp.C39_flags_exact`, `Pfcp.C39_flags`, `Pfcp.C39_provenance`, `Pfcp.C39_SourceIPAddress_exact`, `Pfcp.C39_RemoteGTPUPeer_exact`, `Pfcp.C39_UserPlaneIPResourceInformation_exact`, `Pfcp.C39_OuterHeaderCreation_exact`, `Pfcp.C39_SDFFilter_exact`, `Pfcp.C39_PFDContents_exact`, `Pfcp.C39_MACAddresses_exact`, `Pfcp.C39_tags_exact`, `Pfcp.C39_TraceInformation_exact`, `Pfcp.C39_DLBufferingSuggestedPacketCount_exact`, `Pfcp.C39_QFI_exact`, `Pfcp.C39_SubsequentTimeQuota_exact`, `Pfcp.C39_FlowDescription_exact`, `Pfcp.C39_FlowDescription_value`, `Pfcp.C39_payload_min`, `Pfcp.C39_CSIDs_exact`, `Pfcp.C39_safe`, `Pfcp.Fields.C40_Volume_partial`, `Pfcp.Fields.C40_Volume_violated`, `Pfcp.Fields.C40_VolumeMeasurement_partial`, `Pfcp.Fields.C40_VolumeMeasurement_violated`, `Pfcp.Fields.C40_NumberOfUEIPAddresses`, `Pfcp.Fields.C40_Delays`, `Pfcp.Fields.C40_DLFlowLevelMarking_partial`, `Pfcp.Fields.C40_PacketRate_partial`, `Pfcp.Fields.C40_PacketRateStatus_partial`, `Pfcp.Fields.C40_PacketRateStatus_violated`, `Pfcp.Fields.C40_IP46_partial`, `Pfcp.Fields.C40_FSEID`, `Pfcp.Fields.C40_FTEID`, `Pfcp.Fields.C40_MPTCPAddressInformation`, `Pfcp.Fields.C40_UELinkSpecificIPAddress`, `Pfcp.Fields.C40_SourceIPAddress_partial`, `Pfcp.Fields.C40_UEIPAddress_partial`, `Pfcp.Fields.C40_UEIPAddress_violated`, `Pfcp.Fields.C40_RemoteGTPUPeer_partial`, `Pfcp.Fields.C40_IPMulticastAddress_partial`, `Pfcp.Fields.C40_UserPlaneIPResourceInformation_partial`, `Pfcp.Fields.C40_HeaderEnrichment_partial`, `Pfcp.Fields.C40_Tag_partial`, `Pfcp.Fields.C40_Tag_violated`, `Pfcp.Fields.C40_MACAddress_partial`, `Pfcp.Fields.C40_SDFFilter_partial`, `Pfcp.Fields.C40_OuterHeaderCreation_partial`, `Pfcp.Fields.C40_OuterHeaderCreation_low_violated`, `Pfcp.Fields.C40_PMFAddressInformation_partial`, `Pfcp.Fields.C40_PMFAddressInformation_violated`, `Pfcp.Fields.C40_RedirectInformation_partial`, `Pfcp.Fields.C40_RedirectInformation_violated`, `Pfcp.Fields.C40_RedirectInformation_single_violated`, `Pfcp.Fields.C40_UserID_partial`, `Pfcp.Fields.C40_UserID_violated`, `Pfcp.Fields.C40_TraceInformation_partial`, `Pfcp.Fields.C40_TraceInformation_violated`, `Pfcp.Fields.C40_MACAddresses_violated`, `Pfcp.Fields.C40_MACAddresses_partial`, `Pfcp.Fields.C40_PFDContents_partial`, `Pfcp.Fields.C40_PFDContents_single_partial`, `Pfcp.Fields.C40_PFDContents_lists_partial`, `Pfcp.Fields.C40_PFDContents_violated`, `Pfcp.Fields.C40_PFDContents_list_violated`, `Pfcp.Fields.C41_SourceIPAddress_exact`, `Pfcp.Fields.C41_RemoteGTPUPeer_exact`, `Pfcp.Fields.C41_UserPlaneIPResourceInformation_exact`, `Pfcp.Fields.C41_OuterHeaderCreation_exact`, `Pfcp.Fields.C41_SDFFilter_exact`, `Pfcp.Fields.C41_PFDContents_exact`, `Pfcp.Fields.C41_Volume`, `Pfcp.Fields.C41_VolumeMeasurement`, `Pfcp.Fields.C41_NumberOfUEIPAddresses`, `Pfcp.Fields.C41_Delays`, `Pfcp.Fields.C41_DLFlowLevelMarking`, `Pfcp.Fields.C41_PacketRate`, `Pfcp.Fields.C41_PacketRateStatus`, `Pfcp.Fields.C41_IP46`, `Pfcp.Fields.C41_FSEID`, `Pfcp.Fields.C41_FTEID`, `Pfcp.Fields.C41_MPTCPAddressInformation`, `Pfcp.Fields.C41_UELinkSpecificIPAddress`, `Pfcp.Fields.C41_SourceIPAddress_partial`, `Pfcp.Fields.C41_UEIPAddress`, `Pfcp.Fields.C41_IPMulticastAddress`, `Pfcp.Fields.C41_HeaderEnrichment`, `Pfcp.Fields.C41_Tag`, `Pfcp.Fields.C41_MACAddress`, `Pfcp.Fields.C41_SDFFilter_partial`, `Pfcp.Fields.C41_OuterHeaderCreation_violated`, `Pfcp.Fields.C41_OuterHeaderCreation_partial`, `Pfcp.Fields.C41_PMFAddressInformation`, `Pfcp.Fields.C41_RedirectInformation`, `Pfcp.Fields.C41_UserID`, `Pfcp.Fields.C41_TraceInformation_violated`, `Pfcp.Fields.C41_TraceInformation_partial`, `Pfcp.Fields.C41_MACAddresses_violated`, `Pfcp.Fields.C41_MACAddresses_partial`, `Pfcp.Fields.C41_PFDContents_violated`, `Pfcp.Fields.C41_PFDContents_partial`, `Pfcp.Fields.C42_Volume`, `Pfcp.Fields.C42_VolumeMeasurement`, `Pfcp.Fields.C42_NumberOfUEIPAddresses`, `Pfcp.Fields.C42_Delays`, `Pfcp.Fields.C42_DLFlowLevelMarking`, `Pfcp.Fields.C42_PacketRate`, `Pfcp.Fields.C42_PacketRateStatus`, `Pfcp.Fields.C42_IP46`, `Pfcp.Fields.C42_FSEID`, `Pfcp.Fields.C42_FTEID`, `Pfcp.Fields.C42_MPTCPAddressInformation`, `Pfcp.Fields.C42_UELinkSpecificIPAddress`, `Pfcp.Fields.C42_SourceIPAddress`, `Pfcp.Fields.C42_UEIPAddress`, `Pfcp.Fields.C42_RemoteGTPUPeer`, `Pfcp.Fields.C42_IPMulticastAddress`, `Pfcp.Fields.C42_UserPlaneIPResourceInformation`, `Pfcp.Fields.C42_HeaderEnrichment`, `Pfcp.Fields.C42_Tag`, `Pfcp.Fields.C42_MACAddress`, `Pfcp.Fields.C42_SDFFilter_violated`, `Pfcp.Fields.C42_SDFFilter_partial`, `Pfcp.Fields.C42_OuterHeaderCreation`, `Pfcp.Fields.C42_PMFAddressInformation`, `Pfcp.Fields.C42_RedirectInformation`, `Pfcp.Fields.C42_UserID`, `Pfcp.Fields.C42_TraceInformation`, `Pfcp.Fields.C42_MACAddresses`, `Pfcp.Fields.C42_PFDContents_violated`, `Pfcp.Fields.C43_IPMulticastAddress_ctor_exact`, `Pfcp.Fields.C43_UserID_exact`, `Pfcp.Fields.C43_UserID_ctor_exact`, `Pfcp.Fields.C43_TraceInformation_exact`, `Pfcp.Fields.C43_Volume`, `Pfcp.Fields.C43_VolumeMeasurement`, `Pfcp.Fields.C43_NumberOfUEIPAddresses`, `Pfcp.Fields.C43_Delays`, `Pfcp.Fields.C43_DLFlowLevelMarking_partial`, `Pfcp.Fields.C43_PacketRate_partial`, `Pfcp.Fields.C43_PacketRateStatus`, `Pfcp.Fields.C43_IP46`, `Pfcp.Fields.C43_FSEID`, `Pfcp.Fields.C43_FTEID`, `Pfcp.Fields.C43_MPTCPAddressInformation`, `Pfcp.Fields.C43_UELinkSpecificIPAddress`, `Pfcp.Fields.C43_SourceIPAddress`, `Pfcp.Fields.C43_UEIPAddress`, `Pfcp.Fields.C43_RemoteGTPUPeer_partial`, `Pfcp.Fields.C43_IPMulticastAddress_partial`, `Pfcp.Fields.C43_UserPlaneIPResourceInformation_partial`, `Pfcp.Fields.C43_HeaderEnrichment`, `Pfcp.Fields.C43_Tag`, `Pfcp.Fields.C43_MACAddress_partial`, `Pfcp.Fields.C43_SDFFilter_partial`, `Pfcp.Fields.C43_OuterHeaderCreation`, `Pfcp.Fields.C43_PMFAddressInformation`, `Pfcp.Fields.C43_RedirectInformation_partial`, `Pfcp.Fields.C43_UserID_partial`, `Pfcp.Fields.C43_TraceInformation_partial`, `Pfcp.Fields.C43_MACAddresses_partial`, `Pfcp.Fields.C43_PFDContents_partial`, `Pfcp.Fields.C43_PFDContents_violated`, `Pfcp.C44_accepted_language`, `Pfcp.C44_complete_iff_wf`, `Pfcp.C45_element_exact`, `Pfcp.C45_element_fresh`, `Pfcp.C45_element_iff`, `Pfcp.Msg.C46_field_type_iff`, `Pfcp.Msg.C46_field_type_partial`, `Pfcp.Concurrent.C48_no_deadlock`, `Pfcp.Concurrent.C49_atomic_registration`, `Pfcp.Live.C50_decode_while_registering_partial`, `Pfcp.Msg.C51_session`, `Pfcp.Msg.C51_node`, `Pfcp.Fields.C52_Volume`, `Pfcp.Fields.C52_VolumeMeasurement`, `Pfcp.Fields.C52_NumberOfUEIPAddresses`, `Pfcp.Fields.C52_Delays`, `Pfcp.Fields.C52_DLFlowLevelMarking_partial`, `Pfcp.Fields.C52_PacketRate_partial`, `Pfcp.Fields.C52_PacketRateStatus`, `Pfcp.Fields.C52_IP46`, `Pfcp.Fields.C52_FSEID`, `Pfcp.Fields.C52_FTEID`, `Pfcp.Fields.C52_MPTCPAddressInformation`, `Pfcp.Fields.C52_UELinkSpecificIPAddress`, `Pfcp.Fields.C52_SourceIPAddress`, `Pfcp.Fields.C52_UEIPAddress`, `Pfcp.Fields.C52_RemoteGTPUPeer`, `Pfcp.Fields.C52_IPMulticastAddress`, `Pfcp.Fields.C52_UserPlaneIPResourceInformation`, `Pfcp.Fields.C52_HeaderEnrichment`, `Pfcp.Fields.C52_Tag`, `Pfcp.Fields.C52_MACAddress`, `Pfcp.Fields.C52_SDFFilter`, `Pfcp.Fields.C52_OuterHeaderCreation_partial`, `Pfcp.Fields.C52_OuterHeaderCreation_violated`, `Pfcp.Fields.C52_PMFAddressInformation`, `Pfcp.Fields.C52_RedirectInformation`, `Pfcp.Fields.C52_UserID`, `Pfcp.Fields.C52_TraceInformation`, `Pfcp.Fields.C52_MACAddresses`, `Pfcp.Fields.C52_PFDContents`, `Pfcp.Fields.C53_DLFlowLevelMarking_exact`, `Pfcp.Fields.C53_PacketRate_exact`, `Pfcp.Fields.C53_PacketRateStatus_exact`, `Pfcp.Fields.C53_PMFAddressInformation_exact`, `Pfcp.Fields.C53_Tag_exact`, `Pfcp.Fields.C53_Tag_form_exact`, `Pfcp.Fields.C53_RedirectInformation_exact`, `Pfcp.Fields.C53_UserID_exact`, `Pfcp.Fields.C53_UEIPAddress_exact`, `Pfcp.Fields.C53_UserPlaneIPResourceInformation_exact`, `Pfcp.Fields.C53_OuterHeaderCreation_exact`, `Pfcp.Fields.C53_SDFFilter_exact`, `Pfcp.Fields.C53_TraceInformation_exact`, `Pfcp.Fields.C53_PFDContents_exact`, `Pfcp.Fields.C53_RemoteGTPUPeer_exact`, `Pfcp.Fields.C53_Volume`, `Pfcp.Fields.C53_VolumeMeasurement`, `Pfcp.Fields.C53_NumberOfUEIPAddresses`, `Pfcp.Fields.C53_Delays`, `Pfcp.Fields.C53_DLFlowLevelMarking_partial`, `Pfcp.Fields.C53_PacketRate_partial`, `Pfcp.Fields.C53_PacketRateStatus_partial`, `Pfcp.Fields.C53_IP46`, `Pfcp.Fields.C53_FSEID`, `Pfcp.Fields.C53_FTEID`, `Pfcp.Fields.C53_MPTCPAddressInformation`, `Pfcp.Fields.C53_UELinkSpecificIPAddress`, `Pfcp.Fields.C53_SourceIPAddress`, `Pfcp.Fields.C53_UEIPAddress_partial`, `Pfcp.Fields.C53_RemoteGTPUPeer_partial`, `Pfcp.Fields.C53_IPMulticastAddress`, `Pfcp.Fields.C53_UserPlaneIPResourceInformation_partial`, `Pfcp.Fields.C53_HeaderEnrichment`, `Pfcp.Fields.C53_Tag_partial`, `Pfcp.Fields.C53_MACAddress`, `Pfcp.Fields.C53_OuterHeaderCreation_partial`, `Pfcp.Fields.C53_PMFAddressInformation_partial`, `Pfcp.Fields.C53_RedirectInformation_violated`, `Pfcp.Fields.C53_UserID_partial`, `Pfcp.Fields.C53_UserID_form_partial`, `Pfcp.Fields.C53_MACAddresses_violated`, `Pfcp.Fields.C53_PFDContents_partial`, `Pfcp.C54_children`, `Pfcp.C54_value`, `Pfcp.C54_too_long_violated`, `Pfcp.C55_access_availability`, `Pfcp.C55_gate_status_partial`, `Pfcp.C55_gate_status_violated`, `Pfcp.C55_outer_header_removal`, `Pfcp.C55_snssai`, `Pfcp.C55_mbr`, `Pfcp.C55_gbr`, `Pfcp.C55_multiplier`, `Pfcp.C55_failed_rule`, `Pfcp.C55_failed_rule_violated`, `Pfcp.C55_flow_information`, `Pfcp.C55_forwarding_policy_exact`, `Pfcp.C55_forwarding_policy_partial`, `Pfcp.C55_forwarding_policy_violated`, `Pfcp.C55_pool_identity`, `Pfcp.C55_nf_instance_partial`, `Pfcp.C55_nf_instance_panics`, `Pfcp.C55_tsn_bridge_partial`, `Pfcp.C55_tsn_bridge_violated`, `Pfcp.C55_time_quota`, `Pfcp.C55_up_features`, `Pfcp.C55_up_features_flags`, `Pfcp.C55_node_id_ipv4_partial`, `Pfcp.C55_node_id_ipv6_partial`, `Pfcp.C55_node_id_name`, `Pfcp.C55_node_id_violated`, `Pfcp.C55_csids_violated`, `Pfcp.C55_fqcsid_partial`, `Pfcp.C55_fqcsid_violated`, `Pfcp.C55_teidri_panics`, `Pfcp.C55_kinds`, `Pfcp.C55_downlink_data_service_information_partial`, `Pfcp.C55_downlink_data_service_information_violated`, `Pfcp.C55_dropped_dl_traffic_threshold_violated`, `Pfcp.C56_found`, `Pfcp.C57_name`, `Pfcp.C57_text_partial`, `Pfcp.C57_heuristic_violated`, `Pfcp.C57_must_apn`, `Pfcp.C57_must_apn_foreign`, `Pfcp.C57_heuristic_eq`, `Pfcp.C57_text_iff`, `Pfcp.C57_name_iff`, `Pfcp.C58_exact`, `Pfcp.C58_wire`, `Pfcp.C59_volume_partial`, `Pfcp.C59_volume_violated`, `Pfcp.C59_volume_measurement_partial`, `Pfcp.C59_number_of_ue_ip_addresses`, `Pfcp.C59_delays`, `Pfcp.C59_dl_flow_level_marking_partial`, `Pfcp.C59_packet_rate_partial`, `Pfcp.C59_packet_rate_status_partial`, `Pfcp.C59_tag_partial`, `Pfcp.C59_ip46_partial`, `Pfcp.C59_fseid`, `Pfcp.C59_fteid`, `Pfcp.C59_mptcp_address_information`, `Pfcp.C59_ue_link_specific_ip_address`, `Pfcp.C59_source_ip_address_partial`, `Pfcp.C59_ue_ip_address_partial`, `Pfcp.C59_ue_ip_address_violated`, `Pfcp.C59_remote_gtpu_peer_partial`, `Pfcp.C59_ip_multicast_address_partial`, `Pfcp.C59_user_plane_ip_resource_information_partial`, `Pfcp.C59_outer_header_creation_partial`, `Pfcp.C59_outer_header_creation_violated`, `Pfcp.C59_pmf_address_information_partial`, `Pfcp.C59_header_enrichment_partial`, `Pfcp.C59_mac_address_partial`, `Pfcp.C59_sdf_filter_partial`, `Pfcp.C59_user_id_partial`, `Pfcp.C59_redirect_information_partial`, `Pfcp.C59_redirect_information_violated`, `Pfcp.C59_trace_information_partial`, `Pfcp.C59_mac_addresses_violated`, `Pfcp.C59_pfd_contents_partial`, `Pfcp.C59_pfd_contents_violated`, `Pfcp.C59_user_id_violated`, `Pfcp.C59_inside`, `Pfcp.C60_uint8`, `Pfcp.C60_uint16`, `Pfcp.C60_uint32`, `Pfcp.C60_uint64`, `Pfcp.C60_string`, `Pfcp.C60_fqdn`, `Pfcp.C60_vendor`, `Pfcp.C60_total`, `Pfcp.C60_grouped`, `Pfcp.Log.C61_race_free`, `Pfcp.Log.C61_no_fatal`, `Pfcp.Log.C61_linearizable`, `Pfcp.Log.C61_program_order`, `Pfcp.Log.C61_enable_violated`, `Pfcp.Log.C61_enable_stuck_violated`, `Pfcp.Log.C61_no_deadlock_partial`, `Pfcp.TypeName.C62_numbered`, `Pfcp.TypeName.C62_total`, `Pfcp.TypeName.C62_injective`, `Pfcp.C63_nested_violated`, `Pfcp.C63_repair_partial`, `Pfcp.C63_grow_violated`, `Pfcp.C63_shrink_violated`, `Pfcp.C64_set`, `Pfcp.C64_set_bits`, `Pfcp.C64_history`, `Pfcp.C65_reads`, `Pfcp.C65_created_traffic_endpoint`, `Pfcp.C65_siblings_partial`, `Pfcp.C65_siblings_violated`, `Pfcp.C65_missed_violated`, `Pfcp.C65_pdi_packet_filter_violated`, `Pfcp.C65_flat_flags_violated`, `Pfcp.Mem.C66_decode`, `Pfcp.Mem.C66_reuse_exact`, `Pfcp.Mem.C66_unchanged_iff`, `Pfcp.Mem.C66_reuse_violated`, `Pfcp.Mem.C67_add_exact`, `Pfcp.Mem.C67_self_violated`, `Pfcp.Example.C68_field_exact`, `Pfcp.Example.C68_field_violated`, `Pfcp.Example.C68_field_partial`, `Pfcp.Example.C69_response_exact`, `Pfcp.Example.C69_request_exact`, `Pfcp.Example.C69_server_exact`, `Pfcp.Example.C69_server_crash_iff`, `Pfcp.Example.C69_server_reply_iff`, `Pfcp.Example.C69_server_never_fatal`, `Pfcp.Example.C69_survives_iff`, `Pfcp.Example.C69_server_survives_violated`, `Pfcp.Example.C69_sequence_iff`, `Pfcp.Example.C69_client_exact`, `Pfcp.Example.C69_client_sequence_violated`, `Pfcp.Example.C69_exchange_partial`, `Pfcp.Header.C70_version_ignored`, `Pfcp.Msg.C70_message_ignored`, `Pfcp.Fields.C71_IP46_bounded`, `Pfcp.Fields.C71_FSEID_bounded`, `Pfcp.Fields.C71_FTEID_bounded`, `Pfcp.Fields.C71_MPTCPAddressInformation_bounded`, `Pfcp.Fields.C71_UELinkSpecificIPAddress_bounded`, `Pfcp.Fields.C71_IPMulticastAddress_bounded`, `Pfcp.Fields.C71_Volume_bounded`, `Pfcp.Fields.C71_VolumeMeasurement_bounded`, `Pfcp.Fields.C71_NumberOfUEIPAddresses_bounded`, `Pfcp.Fields.C71_Delays_bounded`, `Pfcp.Fields.C71_PacketRateStatus_bounded`, `Pfcp.Fields.C71_MACAddress_bounded`, `Pfcp.Fields.C71_PMFAddressInformation_bounded`, `Pfcp.Fields.C71_UEIPAddress_fits`, `Pfcp.Fields.C71_UEIPAddress_crash`, `Pfcp.Fields.C71_RemoteGTPUPeer_fits`, `Pfcp.Fields.C71_RemoteGTPUPeer_crash`, `Pfcp.Fields.C71_UserPlaneIPResourceInformation_fits`, `Pfcp.Fields.C71_UserPlaneIPResourceInformation_crash`, `Pfcp.Fields.C71_DLFlowLevelMarking_fits`, `Pfcp.Fields.C71_DLFlowLevelMarking_crash`, `Pfcp.Fields.C71_PacketRate_fits`, `Pfcp.Fields.C71_PacketRate_crash`, `Pfcp.Fields.C71_HeaderEnrichment_fits`, `Pfcp.Fields.C71_HeaderEnrichment_crash`, `Pfcp.Fields.C71_Tag_fits`, `Pfcp.Fields.C71_Tag_crash`, `Pfcp.Fields.C71_MACAddresses_fits`, `Pfcp.Fields.C71_MACAddresses_crash`, `Pfcp.Fields.C71_UserID_fits`, `Pfcp.Fields.C71_UserID_crash`, `Pfcp.Fields.C71_SourceIPAddress_fits`, `Pfcp.Fields.C71_SourceIPAddress_crash`, `Pfcp.Fields.C71_TraceInformation_fits`, `Pfcp.Fields.C71_TraceInformation_crash`, `Pfcp.Fields.C71_RedirectInformation_fits`, `Pfcp.Fields.C71_RedirectInformation_crash`, `Pfcp.Fields.C71_SDFFilter_exact`, `Pfcp.Fields.C71_SDFFilter_crash`, `Pfcp.Fields.C71_PFDContents_exact`, `Pfcp.Fields.C71_OuterHeaderCreation_exact`, `Pfcp.Fields.C71_PMFAddressInformation_exact`, `Pfcp.Fields.C71_Tag_overrun`, `Pfcp.Fields.C71_DLFlowLevelMarking_overrun`, `Pfcp.C72_header_exact`, `Pfcp.Msg.C72_message_exact`, `Pfcp.Msg.C72_overrun_violated`, `Pfcp.Msg.C72_crash_violated`, `Pfcp.Fields.C74_PMFAddressInformation_copied`, `Pfcp.Fields.C74_TraceInformation_copied`, `Pfcp.Fields.C74_MACAddresses_copied`, `Pfcp.C75_element_exact`, `Pfcp.C75_header_outcome`, `Pfcp.C75_header_exact`, `Pfcp.C75_header_used`, `Pfcp.MsgP.C75_total`, `Pfcp.MsgP.C75_headerless`, `Pfcp.MsgP.C75_unusable_violated`, `Pfcp.MsgP.C75_retry`, `Pfcp.MsgP.C75_retry_generic`, `Pfcp.C76_reorder_iff`, `Pfcp.Msg.C76_fields`, `Pfcp.Msg.C76_accepted`, `Pfcp.Msg.C76_canonical`, `Pfcp.Msg.C76_constructor`, `Pfcp.C76_groups_partial`, `Pfcp.C76_flags`, `Pfcp.C76_deep_partial`, `Pfcp.C76_either_violated`, `Pfcp.C77_groups`, `Pfcp.C77_find`, `Pfcp.Msg.C77_messages`, `Pfcp.Msg.C77_repeated_violated`, `Pfcp.Msg.C77_messages_iff`, `Pfcp.Msg.C77_once_partial`, `Pfcp.C78_calls`, `Pfcp.C78_lens_partial`, `Pfcp.C78_exact`, `Pfcp.C78_shallow`, `Pfcp.Msg.C78_message`, `Pfcp.Msg.C78_message_bound_partial`, `Pfcp.C78_attained`, `Pfcp.Msg.C78_datagram_violated`, `Pfcp.C79_exact`, `Pfcp.C79_lens_partial`, `Pfcp.C79_shallow`, `Pfcp.Msg.C79_message`, `Pfcp.Msg.C79_message_shallow`, `Pfcp.C79_attained`, `Pfcp.Msg.C79_message_violated`, `Pfcp.Fields.C80_Volume`, `Pfcp.Fields.C80_VolumeMeasurement`, `Pfcp.Fields.C80_NumberOfUEIPAddresses`, `Pfcp.Fields.C80_Delays`, `Pfcp.Fields.C80_DLFlowLevelMarking`, `Pfcp.Fields.C80_PacketRate`, `Pfcp.Fields.C80_PacketRateStatus`, `Pfcp.Fields.C80_IP46`, `Pfcp.Fields.C80_FSEID`, `Pfcp.Fields.C80_MPTCPAddressInformation`, `Pfcp.Fields.C80_UELinkSpecificIPAddress`, `Pfcp.Fields.C80_SourceIPAddress`, `Pfcp.Fields.C80_FTEID`, `Pfcp.Fields.C80_UEIPAddress`, `Pfcp.Fields.C80_IPMulticastAddress`, `Pfcp.Fields.C80_UserPlaneIPResourceInformation`, `Pfcp.Fields.C80_HeaderEnrichment`, `Pfcp.Fields.C80_Tag`, `Pfcp.Fields.C80_violated`, `Pfcp.Fields.C80_MACAddress`, `Pfcp.Fields.C80_SDFFilter`, `Pfcp.Fields.C80_RemoteGTPUPeer`, `Pfcp.Fields.C80_PMFAddressInformation`, `Pfcp.Fields.C80_RedirectInformation`, `Pfcp.Fields.C80_MACAddresses_violated`, `Pfcp.Fields.C80_OuterHeaderCreation`, `Pfcp.Fields.C80_UserID`, `Pfcp.Fields.C80_TraceInformation`, `Pfcp.Fields.C80_PFDContents_partial`, `Pfcp.C81_groups`, `Pfcp.C81_flags`, `Pfcp.C81_deep`, `Pfcp.C81_deep_flags`, `Pfcp.Msg.C81_fields`, `Pfcp.Msg.C81_fields_deep`, `Pfcp.Msg.C81_accepted`, `Pfcp.C81_receiver`, `Pfcp.Fields.C83_Volume`, `Pfcp.Fields.C83_VolumeMeasurement`, `Pfcp.Fields.C83_NumberOfUEIPAddresses`, `Pfcp.Fields.C83_Delays`, `Pfcp.Fields.C83_DLFlowLevelMarking`, `Pfcp.Fields.C83_PacketRate`, `Pfcp.Fields.C83_PacketRateStatus`, `Pfcp.Fields.C83_IP46`, `Pfcp.Fields.C83_FSEID`, `Pfcp.Fields.C83_MPTCPAddressInformation`, `Pfcp.Fields.C83_UELinkSpecificIPAddress`, `Pfcp.Fields.C83_SourceIPAddress`, `Pfcp.Fields.C83_FTEID`, `Pfcp.Fields.C83_UEIPAddress`, `Pfcp.Fields.C83_IPMulticastAddress`, `Pfcp.Fields.C83_UserPlaneIPResourceInformation`, `Pfcp.Fields.C83_RemoteGTPUPeer`, `Pfcp.Fields.C83_PMFAddressInformation`, `Pfcp.Fields.C83_MACAddress`, `Pfcp.Fields.C83_OuterHeaderCreation`, `Pfcp.Fields.C83_HeaderEnrichment`, `Pfcp.Fields.C83_Tag`, `Pfcp.Fields.C83_SDFFilter`, `Pfcp.Fields.C83_RedirectInformation`, `Pfcp.Fields.C83_UserID`, `Pfcp.Fields.C83_TraceInformation`, `Pfcp.Fields.C83_MACAddresses_violated`, `Pfcp.Fields.C83_PFDContents`, `Pfcp.Fields.C83_violated`, `Pfcp.Msg.C84_exact`, `Pfcp.Msg.C84_refused`, `Pfcp.Msg.C84_violated`, `Pfcp.Msg.C84_detected`, `Pfcp.Msg.C84_whole`, `Pfcp.Msg.C85_violated`, `Pfcp.Msg.C85_exact`, `Pfcp.Msg.C85_detected`, `Pfcp.Msg.C85_sent_on`, `Pfcp.Msg.C86_accepted`, `Pfcp.Msg.C86_violated`, `Pfcp.Msg.C86_detected`, `Pfcp.C87_element`, `Pfcp.C87_prefix_free`, `Pfcp.C87_sequence`, `Pfcp.Msg.C87_message`, `Pfcp.Msg.C88_list`, `Pfcp.Msg.C88_arguments`, `Pfcp.Msg.C88_generic`, `Pfcp.Msg.C88_violated`, `Pfcp.C89_element`, `Pfcp.Msg.C89_message`, `Pfcp.Header.C90_exact`, `Pfcp.Header.C90_violated`, `Pfcp.Header.C90_partial`, `Pfcp.Mem.C91_decode`, `Pfcp.Mem.C91_exact`, `Pfcp.Mem.C91_kept_partial`, `Pfcp.Mem.C91_violated`, `Pfcp.Mem.C91_copied_partial`, `Pfcp.Msg.C92_relay_iff`, `Pfcp.Msg.C92_relay_partial`, `Pfcp.Msg.C92_own_messages`, `Pfcp.Msg.C92_settles`, `Pfcp.C93_hopeless_iff`, `Pfcp.C93_two_errors`, `Pfcp.C93_invalid_length`, `Pfcp.C93_unexpected_eof_violated`, `Pfcp.C93_unexpected_eof_partial`, `Pfcp.Msg.C93_datagram_iff`, `Pfcp.Msg.C93_datagram_invalid_length`, `Pfcp.C94_children_only`, `Pfcp.C94_still_accepted_iff`, `Pfcp.C94_same_result_iff`, `Pfcp.C94_other_types`, `Pfcp.C94_registration_violated`, `Pfcp.C94_registration_partial`, `Pfcp.Msg.C94_message`, `Pfcp.Msg.C94_message_accepted_iff`

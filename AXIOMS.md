# Axioms the theorems of MANIFEST.json depend on

Output of `#print axioms`, grouped. All names are in the namespace `Verif.Props`.

## Classical.choice, Quot.sound, propext (558 theorems)

`C01_header_reads_wire`, `C01_header_round_trip`, `C01_header_wire`, `C02_octet_round_trip`, `C02_read_wf`, `C02_status_round_trip`, `C04_variable_parameter_round_trip_partial`, `C06_padding`, `C07_record_set_aligned`, `C07_record_set_read`, `C08_attribute_padding_kept`, `C08_attribute_round_trip_partial`, `C08_collisionElastic_round_trip`, `C08_collision_round_trip`, `C08_entityStateUpdate_round_trip_partial`, `C08_entityState_round_trip_partial`, `C09_detonation_round_trip_partial`, `C09_detonation_v6_partial`, `C09_fire_round_trip`, `C09_fire_v6`, `C10_acknowledge_round_trip`, `C10_actionRequest_round_trip_partial`, `C10_actionResponse_round_trip_partial`, `C10_comment_round_trip_partial`, `C10_createEntity_round_trip`, `C10_dataQuery_round_trip`, `C10_data_round_trip_partial`, `C10_eventReport_round_trip_partial`, `C10_removeEntity_round_trip`, `C10_setData_round_trip_partial`, `C10_startResume_round_trip`, `C10_stopFreeze_round_trip`, `C11_acknowledgeR_round_trip`, `C11_actionRequestR_round_trip_partial`, `C11_actionResponseR_misread`, `C11_actionResponseR_violates`, `C11_commentR_round_trip_partial`, `C11_createEntityR_round_trip`, `C11_dataQueryR_round_trip`, `C11_dataR_round_trip_partial`, `C11_eventReportR_round_trip_partial`, `C11_recordQueryR_round_trip`, `C11_recordR_round_trip`, `C11_removeEntityR_round_trip`, `C11_setDataR_round_trip_partial`, `C11_setRecordR_round_trip`, `C11_startResumeR_round_trip`, `C11_stopFreezeR_round_trip`, `C12_repairComplete_round_trip`, `C12_repairResponse_round_trip`, `C12_resupplyCancel_round_trip`, `C12_resupplyOffer_round_trip`, `C12_resupplyReceived_round_trip`, `C12_serviceRequest_round_trip`, `C13_designator_round_trip`, `C13_electromagneticEmission_round_trip`, `C13_iff_round_trip_partial`, `C13_sees_round_trip`, `C13_underwaterAcoustic_round_trip_partial`, `C14_receiver_round_trip`, `C14_signal_general`, `C14_signal_round_trip_partial`, `C14_signal_unaligned_violates`, `C14_transmitter_round_trip`, `C15_aggregateState_round_trip_partial`, `C15_isGroupOf_round_trip`, `C15_isPartOf_round_trip`, `C15_silent_systems_aligned`, `C15_transferOwnership_round_trip`, `C17_packet_round_trip`, `C17_prefix`, `C18_aggregate_panics`, `C18_checked_panic_iff`, `C18_panic_iff`, `C18_record_set_panics`, `C18_signal_panics`, `C20_truncated`, `C20_truncated_packet`, `C21_progress`, `C22_packet`, `C22_version_filters`, `C23_body_of_type`, `C23_foreign_type`, `C25_crossref_lost`, `C25_named_value`, `C25_variant_round_trip`, `C26_fields_independent`, `C26_record_round_trip`, `C26_word_round_trip`, `C28_aggregate_display_parse`, `C28_display_injective`, `C28_display_parse`, `C29_uvint16_minimal`, `C29_uvint16_round_trip`, `C29_uvint32_minimal`, `C29_uvint32_round_trip`, `C29_uvint8_round_trip`, `C30_svint12_minimal`, `C30_svint12_round_trip`, `C30_svint13_minimal`, `C30_svint13_round_trip`, `C30_svint14_minimal`, `C30_svint14_round_trip`, `C30_svint16_minimal`, `C30_svint16_round_trip`, `C30_svint24_centre_of_earth`, `C30_svint24_minimal`, `C30_svint24_round_trip_partial`, `C30_svint24_violated`, `C31_body_length`, `C31_checked_records`, `C31_exact_bodies`, `C31_finalize`, `C31_never_right`, `C31_signal_pdu_violated`, `C32_header_round_trip`, `C32_length_overflow`, `C33_angular_velocity_round_trip`, `C33_beam_antenna_pattern_round_trip`, `C33_beam_data_violated`, `C33_clock_time_round_trip`, `C33_entity_coordinates_round_trip`, `C33_entity_id_round_trip`, `C33_entity_type_round_trip`, `C33_fixed_datum_round_trip`, `C33_iff_data_record_round_trip`, `C33_linear_acceleration_round_trip`, `C33_modulation_type_round_trip`, `C33_orientation_round_trip`, `C33_system_id_round_trip`, `C33_uncompressed`, `C33_uncompressed_articulated_violated`, `C33_variable_datum_round_trip`, `C33_variable_parameter_round_trip`, `C33_world_coordinates_arrive`, `C33_world_coordinates_violated`, `C34_arrives`, `C34_five_bit_round_trip`, `C34_letters_arrive`, `C34_six_bit_round_trip`, `C34_swallows`, `C34_unchanged_iff`, `C34_violated`, `C35_body_round_trip`, `C35_collision_type_violated`, `C35_designator_grouped`, `C35_designator_violated`, `C35_detonation_paired`, `C35_detonation_violated`, `C35_emission_read`, `C35_entity_state_flags`, `C35_entity_state_round_trip`, `C35_fire_paired`, `C35_fire_violated`, `C35_marking_shifts`, `C35_pdu_round_trip`, `C35_transmitter_grouped`, `C35_transmitter_violated`, `C35_transmitter_without_parameters_violated`, `C35_unchanged`, `C35_witness`, `C36_concatenation`, `C36_length_ignored`, `C36_long_padding_violated`, `C36_octets`, `C36_parse_iff`, `C36_truncated`, `C36_unsupported_body_violated`, `C36_witness`, `C37_designator`, `C37_emission`, `C37_entity_state`, `C37_iff`, `C37_transmitter`, `C37_window`, `C37_window_defaults`, `C38_absent_location_violated`, `C38_change_is_delayed`, `C38_designator`, `C38_emission`, `C38_emission_full`, `C38_end_to_end_designator`, `C38_end_to_end_emission`, `C38_end_to_end_entity_state`, `C38_end_to_end_iff`, `C38_end_to_end_transmitter`, `C38_entity_state`, `C38_iff`, `C38_iff_lost`, `C38_marking_stale`, `C38_new_beam_lost`, `C38_self_contained`, `C38_transmitter`, `C39_decoder`, `C39_encoder`, `C39_stateless`, `C39_stateless_decoder`, `C40_decode`, `C40_decode_full_mode`, `C40_encode`, `C40_encode_body`, `C40_encode_history`, `C40_encode_self_contained`, `C40_full_mode_end_to_end`, `C41_angular_velocity`, `C41_angular_velocity_coarse`, `C41_beam`, `C41_beam_angle`, `C41_beam_coarse`, `C41_centre_iff`, `C41_coordinates`, `C41_coordinates_clipped`, `C41_coordinates_metres`, `C41_decimal_defects`, `C41_explosive_force`, `C41_frequency`, `C41_frequency_overflow`, `C41_interior_violated`, `C41_linear`, `C41_linear_saturates`, `C41_linear_truncates`, `C41_linear_vector`, `C41_orientation`, `C41_orientation_nonfinite`, `C41_orientation_record`, `C41_parameter_value`, `C41_position`, `C41_position_wire_violated`, `C41_pulse_width`, `C41_sweep`, `C41_transmit_frequency`, `C41_underground_violated`, `C41_world`, `C41_world_centre`, `C41_world_pole`, `C41_world_wire`, `C41_world_wire_high`, `C42_accounts`, `C42_buffer_size`, `C42_counts`, `C42_delivered`, `C42_delivered_exact`, `C42_ghost_example_violated`, `C42_ghost_violated`, `C42_output`, `C42_packet`, `C42_panic_iff`, `C42_witness`, `C42_written`, `C43_drops_violated`, `C43_filter_inverted_violated`, `C43_gateway_violated`, `C43_nothing_arrives_violated`, `C43_packet_violated`, `C43_witness`, `C44_codec_totals`, `C44_compression`, `C44_compression_stays`, `C44_conservation`, `C44_interval`, `C44_per_type`, `C44_socket_totals`, `C44_sums`, `C44_witness`, `C45_address_violated`, `C45_bad_interface_panics_violated`, `C45_config`, `C45_endpoint`, `C45_errors`, `C45_heartbeats`, `C45_optimization`, `C45_udp_mode`, `C45_update_mode`, `C45_witness`, `C46_acknowledges_violated`, `C46_decoder_safe`, `C46_events_per_packet`, `C46_keeps_up`, `C46_only_overload`, `C46_overload_violated`, `C46_quit_violated`, `C47_error_iff`, `C47_no_panic`, `C47_prefix`, `C47_progress`, `C47_short`, `C48_bounded`, `C48_in_order`, `C49_drains`, `C49_quiet_delivered`, `C49_statistics`, `C49_terminates`, `C49_witness`, `C50_iff_rest`, `C50_mode_s_violated`, `C51_header_scan`, `C51_padding_is_read_as_pdus`, `C51_readers_agree`, `C51_wrong_length_violated`, `C52_collision`, `C52_crypto_key`, `C52_designator`, `C52_detonation`, `C52_entity_state`, `C52_fire`, `C52_header`, `C52_iff`, `C52_mass_grams`, `C52_mass_kilograms`, `C52_mass_negative_violated`, `C52_parameters`, `C52_parameters_violated`, `C52_range`, `C52_received_power`, `C52_receiver`, `C52_signal`, `C52_siman`, `C52_siman_rest`, `C52_transmit_power`, `C52_transmit_power_violated`, `C52_transmitter`, `C52_whole`, `C52_whole_out_of_range_violated`, `C53_codec`, `C53_first_minute_partial`, `C53_later_violated`, `C53_on_the_wire`, `C53_scale_violated`, `C54_length_field`, `C54_octets`, `C54_packet`, `C54_relay`, `C54_second_hop`, `C54_size`, `C55_capabilities_written_v6`, `C55_entity_state_appearance`, `C55_entity_state_capabilities`, `C55_entity_state_capabilities_v6`, `C55_group_members`, `C55_silent_entities`, `C56_after_quit`, `C56_encoded_example_violated`, `C56_encoded_partial`, `C56_encoded_shown`, `C56_encoded_violated`, `C56_nothing_left_out`, `C56_rate`, `C56_rate_start`, `C56_refused`, `C56_sockets`, `C56_sockets_per_second`, `C56_true_and_in_order`, `C56_types`, `C56_up_to_date`, `C56_witness`, `C57_designator_violated`, `C57_emission_violated`, `C57_kind`, `C57_location_violated`, `C57_packet`, `C57_pdu`, `C57_siman`, `C58_aggregate_violated`, `C58_read_partial`, `C58_receiver_violated`, `C58_swapped_violated`, `C58_through`, `C58_written_partial`, `C59_aggregate_text`, `C59_text`, `C59_text_unchanged_iff`, `C60_defined`, `C60_equator`, `C60_geodetic`, `C60_geodetic_exists`, `C60_interior_violated`, `C60_round_trip`, `C60_there_and_back`, `C61_first_lost`, `C61_last_delivered`, `C61_network`, `C61_settled`, `C62_header`, `C62_mixed_lengths_lost`, `C62_status`, `C63_designator_settled`, `C63_iff_layers_violated`, `C63_iff_phantom_violated`, `C63_iff_system_violated`, `C63_network`, `C63_transmitter_antenna_violated`, `C63_transmitter_settled`, `C64_decoded_iff`, `C64_decoded_stream`, `C64_decoded_violated`, `C64_decoded_witness`, `C64_eight_bit`, `C64_received_iff`, `C64_returns_iff`, `C64_text`, `C64_violated`, `C65_buffer_suffices`, `C65_datagram_panics`, `C65_eight_bit`, `C65_encode_panics_iff`, `C65_ends`, `C65_fatal_ends`, `C65_full_mode`, `C65_gateway_violated`, `C65_only_fatal`, `C65_panics_iff`, `C65_stays_up`, `C65_survives`, `C65_violated`, `C66_again_iff`, `C66_angular_velocity`, `C66_angular_velocity_violated`, `C66_bandwidth`, `C66_bandwidth_violated`, `C66_beam`, `C66_centimetres`, `C66_centimetres_violated`, `C66_chain`, `C66_collision`, `C66_explosive_force`, `C66_location_violated`, `C66_mass`, `C66_mass_kilograms`, `C66_mass_violated`, `C66_no_drift`, `C66_offset_violated`, `C66_orientation`, `C66_orientation_violated`, `C66_parameter_value`, `C66_pattern`, `C66_power`, `C66_range`, `C66_steps`, `C66_time`, `C66_time_violated`, `C66_tx_frequency`, `C66_tx_power`, `C66_velocity`, `C66_whole`, `C67_datagram`, `C67_emission_partial_update`, `C67_emission_violated`, `C67_gateway_violated`, `C67_iff_violated`, `C67_never_longer`, `C67_state`, `C68_apart`, `C68_defaults`, `C68_differences`, `C68_fresh`, `C68_gateway`, `C68_gateway_witness`, `C68_next`, `C68_rate`, `C68_witness`, `C69_decoder`, `C69_encoder`, `C69_entries`, `C69_violated`, `C70_decoder_restart`, `C70_encoder_restart`, `C70_marking_violated`, `C70_resync`, `C70_window_needed`, `C70_witness`, `C71_age`, `C71_distance`, `C71_full_mode`, `C71_lag`, `C71_witness`, `C72_cdis`, `C72_cdis_datagram`, `C72_datagram`, `C72_dis`, `C72_emitters_violated`, `C73_decoder`, `C73_designators`, `C73_dr_other_violated`, `C73_dr_other_witness`, `C73_example`, `C73_modes_violated`, `C73_optimize`, `C73_optimize_decoded`, `C74_echo_violated`, `C74_multicast_violated`, `C74_nobody_violated`, `C74_restless_violated`, `C74_sample`, `C74_settings_violated`, `C74_witness`, `C75_ascii`, `C75_ghost_violated`, `C75_lost_violated`, `C75_network`, `C75_silent_violated`, `C75_witness`, `C75_wrong_violated`, `C76_arrives`, `C76_capabilities_violated`, `C76_deaf_violated`, `C76_gateway`, `C76_through`, `C76_witness`, `C77_apart`, `C77_full`, `C77_mixed_violated`, `C77_witness`, `C78_alone`, `C78_link`, `C78_network`, `C78_shared_violated`, `C78_witness`, `C79_decoder`, `C79_encoder`, `C79_gateway`, `C79_library_violated`, `C79_read_whole_partial`, `C79_read_whole_violated`, `C80_consistent_partial`, `C80_from_seconds_nanoseconds_violated`, `C80_from_seconds_same_violated`, `C80_from_seconds_total`, `C80_from_seconds_units`, `C80_from_seconds_violated`, `C80_nanoseconds_saturate`, `C80_nanoseconds_small`, `C80_nanoseconds_violated`, `C81_again_partial`, `C81_altitude_violated`, `C81_chain_partial`, `C81_exact_chain_partial`, `C81_exact_partial`, `C81_location_violated`, `C81_locations_lost_violated`, `C81_marking_violated`, `C81_transmitter_violated`, `C81_witness`, `C82_datagram_partial`, `C82_datagram_witness`, `C82_datum_violated`, `C82_detonation_violated`, `C82_fire_violated`, `C82_iff_violated`, `C82_iff_witness`, `C82_modulation_violated`, `C82_other_violated`, `C82_other_witness`, `C82_padding_violated`, `C82_readable_partial`, `C82_reckoning_violated`, `C82_signal_violated`, `C82_undefined_partial`, `C82_witness`

## Quot.sound, propext (168 theorems)

`C01_missing_status`, `C01_padding_lost`, `C03_records_keep_every_bit`, `C03_records_round_trip`, `C04_separation_counterexample`, `C04_separation_misread`, `C04_variable_parameter_size`, `C05_unaligned_violates`, `C05_variable_datum_general`, `C05_variable_datum_round_trip_partial`, `C05_wire_length`, `C07_overflow_panics`, `C07_record_specification_round_trip`, `C08_attribute_violates`, `C08_separation_violates`, `C08_update_appearance_untyped`, `C08_update_typed_violates`, `C09_explosion_misread`, `C09_explosion_violates`, `C10_comment_fixed_datums_lost`, `C10_unaligned_violates`, `C13_apa_lost`, `C13_apa_pdu_violates`, `C13_apa_violates`, `C14_transmitter_empty_modulation_violates`, `C14_transmitter_v6_violates`, `C16_count_violated`, `C16_exact`, `C16_large_datum_violated`, `C16_length_violated`, `C16_lengths_agree_partial`, `C18_datagram_partial`, `C18_total_partial`, `C18_transmitter_panics`, `C19_packet`, `C19_prefix_determined`, `C24_capacity`, `C24_fire_overruns`, `C25_raw_round_trip`, `C25_read_canonical`, `C27_from_seconds_wrong`, `C27_meaning`, `C27_raw_round_trip`, `C27_timestamp_round_trip`, `C28_accepts_iff`, `C29_uvint16_read_range`, `C29_uvint32_read_range`, `C29_uvint8_minimal`, `C29_uvint8_read_range`, `C31_beam_data_partial`, `C31_fixed_records`, `C31_layer3_length`, `C31_records`, `C32_header_layout`, `C32_header_needs_63_bits`, `C32_header_size`, `C32_witness`, `C35_action_flags`, `C35_comment_flags`, `C35_data_flags`, `C35_data_query_flags`, `C35_designator_flags`, `C35_detonation_flags`, `C35_fire_flags`, `C35_iff_flags`, `C35_signal_flags`, `C35_transmitter_flags`, `C50_acknowledgeR_layout`, `C50_acknowledge_layout`, `C50_acoustic_length_violated`, `C50_actionRequestR_datums`, `C50_actionRequestR_layout`, `C50_actionRequest_datums`, `C50_actionRequest_layout`, `C50_actionResponseR_datums`, `C50_actionResponseR_layout`, `C50_actionResponse_datums`, `C50_actionResponse_layout`, `C50_aggregateState_layout`, `C50_aggregateState_rest`, `C50_attribute_layout`, `C50_attribute_records`, `C50_collisionElastic_layout`, `C50_collision_layout`, `C50_commentR_datums`, `C50_commentR_layout`, `C50_comment_datums`, `C50_comment_layout`, `C50_createEntityR_layout`, `C50_createEntity_layout`, `C50_dataQueryR_layout`, `C50_dataQueryR_rest`, `C50_dataQuery_layout`, `C50_dataQuery_rest`, `C50_dataR_datums`, `C50_dataR_layout`, `C50_data_datums`, `C50_data_layout`, `C50_designator_layout`, `C50_detonation_layout`, `C50_detonation_rest`, `C50_electromagneticEmission_layout`, `C50_emission_systems`, `C50_entityStateUpdate_layout`, `C50_entityStateUpdate_rest`, `C50_entityState_layout`, `C50_entityState_rest`, `C50_eventReportR_datums`, `C50_eventReportR_layout`, `C50_eventReport_datums`, `C50_eventReport_layout`, `C50_fire_layout`, `C50_fire_rest`, `C50_header_layout`, `C50_iff_layout`, `C50_isGroupOf_layout`, `C50_isGroupOf_rest`, `C50_isPartOf_layout`, `C50_propulsion_octet`, `C50_receiver_layout`, `C50_recordQueryR_layout`, `C50_recordR_layout`, `C50_recordR_records`, `C50_removeEntityR_layout`, `C50_removeEntity_layout`, `C50_repairComplete_layout`, `C50_repairResponse_layout`, `C50_resupplyCancel_layout`, `C50_resupplyOffer_layout`, `C50_resupplyReceived_layout`, `C50_sees_layout`, `C50_sees_rest`, `C50_serviceRequest_layout`, `C50_setDataR_datums`, `C50_setDataR_layout`, `C50_setData_datums`, `C50_setData_layout`, `C50_setRecordR_layout`, `C50_setRecordR_records`, `C50_signal_data`, `C50_signal_layout`, `C50_signal_rest`, `C50_signal_scheme`, `C50_startResumeR_layout`, `C50_startResume_layout`, `C50_stopFreezeR_layout`, `C50_stopFreeze_layout`, `C50_transferOwnership_layout`, `C50_transferOwnership_records`, `C50_transmitter_layout`, `C50_transmitter_rest`, `C50_underwaterAcoustic_layout`, `C50_underwaterAcoustic_rest`, `C51_header`, `C51_parse_ignores_length`, `C52_modulation`, `C54_version_8`, `C59_aggregate_marking`, `C59_entity_marking`, `C59_unchanged_iff`, `C62_capabilities`, `C62_record_sets`, `C62_status_spill`, `C64_result`, `C72_space_violated`, `C76_entity_state`, `C76_same`, `C76_transmitter`

## none (5 theorems)

`C03_entity_id_wire`, `C03_entity_type_wire`, `C45_options`, `C66_iff_violated`, `C66_other`

## propext (18 theorems)

`C13_mode_s_forced`, `C13_mode_s_violates`, `C23_which_types`, `C26_wide_flag_lost`, `C27_units_per_hour_wrong`, `C31_beam_data_violated`, `C33_unspecified_parameter_violated`, `C35_emitter_number_violated`, `C35_emitter_system_violated`, `C59_accepted`, `C66_fire_descriptor`, `C66_scheme`, `C74_broadcast_violated`, `C74_multicast6_violated`, `C74_own_violated`, `C74_specific`, `C81_parameter_violated`, `C81_unknown_parameter_violated`

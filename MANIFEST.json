{
 "claims": [
  {
   "property": "C01",
   "status": "proved",
   "theorems": [
    "Verif.Props.C01_header_reads_wire",
    "Verif.Props.C01_header_round_trip",
    "Verif.Props.C01_header_wire",
    "Verif.Props.C01_missing_status",
    "Verif.Props.C01_padding_lost"
   ],
   "note": "Headers of every version; also the exact wire octets. Padding and the missing-status case are separate theorems."
  },
  {
   "property": "C02",
   "status": "proved",
   "theorems": [
    "Verif.Props.C02_octet_round_trip",
    "Verif.Props.C02_read_wf",
    "Verif.Props.C02_status_round_trip"
   ],
   "note": "Both directions for every PDU type and octet."
  },
  {
   "property": "C03",
   "status": "proved",
   "theorems": [
    "Verif.Props.C03_entity_id_wire",
    "Verif.Props.C03_entity_type_wire",
    "Verif.Props.C03_records_keep_every_bit",
    "Verif.Props.C03_records_round_trip"
   ],
   "note": "Round trip and lossless reading of every fixed-size record."
  },
  {
   "property": "C04",
   "status": "partial",
   "theorems": [
    "Verif.Props.C04_separation_counterexample",
    "Verif.Props.C04_separation_misread",
    "Verif.Props.C04_variable_parameter_round_trip_partial",
    "Verif.Props.C04_variable_parameter_size"
   ],
   "note": "Proved for all kinds except Separation, for which the property is refuted (reader takes 14 octets, writer writes 15)."
  },
  {
   "property": "C05",
   "status": "partial",
   "theorems": [
    "Verif.Props.C05_unaligned_violates",
    "Verif.Props.C05_variable_datum_general",
    "Verif.Props.C05_variable_datum_round_trip_partial",
    "Verif.Props.C05_wire_length"
   ],
   "note": "Proved for datums that fill 8-octet words; in general the exact result (extra padding octets left over) is proved and the property refuted."
  },
  {
   "property": "C06",
   "status": "proved",
   "theorems": [
    "Verif.Props.C06_padding"
   ],
   "note": ""
  },
  {
   "property": "C07",
   "status": "proved",
   "theorems": [
    "Verif.Props.C07_overflow_panics",
    "Verif.Props.C07_record_set_aligned",
    "Verif.Props.C07_record_set_read",
    "Verif.Props.C07_record_specification_round_trip"
   ],
   "note": ""
  },
  {
   "property": "C08",
   "status": "partial",
   "theorems": [
    "Verif.Props.C08_attribute_padding_kept",
    "Verif.Props.C08_attribute_round_trip_partial",
    "Verif.Props.C08_attribute_violates",
    "Verif.Props.C08_collisionElastic_round_trip",
    "Verif.Props.C08_collision_round_trip",
    "Verif.Props.C08_entityStateUpdate_round_trip_partial",
    "Verif.Props.C08_entityState_round_trip_partial",
    "Verif.Props.C08_separation_violates",
    "Verif.Props.C08_update_appearance_untyped",
    "Verif.Props.C08_update_typed_violates"
   ],
   "note": "All bodies proved; exclusions (separation records, typed appearance in Entity State Update, attribute records that need padding) are refuted separately."
  },
  {
   "property": "C09",
   "status": "partial",
   "theorems": [
    "Verif.Props.C09_detonation_round_trip_partial",
    "Verif.Props.C09_detonation_v6_partial",
    "Verif.Props.C09_explosion_misread",
    "Verif.Props.C09_explosion_violates",
    "Verif.Props.C09_fire_round_trip",
    "Verif.Props.C09_fire_v6"
   ],
   "note": "Explosion descriptors are excluded and refuted."
  },
  {
   "property": "C10",
   "status": "partial",
   "theorems": [
    "Verif.Props.C10_acknowledge_round_trip",
    "Verif.Props.C10_actionRequest_round_trip_partial",
    "Verif.Props.C10_actionResponse_round_trip_partial",
    "Verif.Props.C10_comment_fixed_datums_lost",
    "Verif.Props.C10_comment_round_trip_partial",
    "Verif.Props.C10_createEntity_round_trip",
    "Verif.Props.C10_dataQuery_round_trip",
    "Verif.Props.C10_data_round_trip_partial",
    "Verif.Props.C10_eventReport_round_trip_partial",
    "Verif.Props.C10_removeEntity_round_trip",
    "Verif.Props.C10_setData_round_trip_partial",
    "Verif.Props.C10_startResume_round_trip",
    "Verif.Props.C10_stopFreeze_round_trip",
    "Verif.Props.C10_unaligned_violates"
   ],
   "note": "Variable datums must fill 8-octet words (otherwise refuted)."
  },
  {
   "property": "C11",
   "status": "partial",
   "theorems": [
    "Verif.Props.C11_acknowledgeR_round_trip",
    "Verif.Props.C11_actionRequestR_round_trip_partial",
    "Verif.Props.C11_actionResponseR_misread",
    "Verif.Props.C11_actionResponseR_violates",
    "Verif.Props.C11_commentR_round_trip_partial",
    "Verif.Props.C11_createEntityR_round_trip",
    "Verif.Props.C11_dataQueryR_round_trip",
    "Verif.Props.C11_dataR_round_trip_partial",
    "Verif.Props.C11_eventReportR_round_trip_partial",
    "Verif.Props.C11_recordQueryR_round_trip",
    "Verif.Props.C11_recordR_round_trip",
    "Verif.Props.C11_removeEntityR_round_trip",
    "Verif.Props.C11_setDataR_round_trip_partial",
    "Verif.Props.C11_setRecordR_round_trip",
    "Verif.Props.C11_startResumeR_round_trip",
    "Verif.Props.C11_stopFreezeR_round_trip"
   ],
   "note": "Action Response-R is refuted for every body; others proved for aligned datums."
  },
  {
   "property": "C12",
   "status": "proved",
   "theorems": [
    "Verif.Props.C12_repairComplete_round_trip",
    "Verif.Props.C12_repairResponse_round_trip",
    "Verif.Props.C12_resupplyCancel_round_trip",
    "Verif.Props.C12_resupplyOffer_round_trip",
    "Verif.Props.C12_resupplyReceived_round_trip",
    "Verif.Props.C12_serviceRequest_round_trip"
   ],
   "note": ""
  },
  {
   "property": "C13",
   "status": "partial",
   "theorems": [
    "Verif.Props.C13_apa_lost",
    "Verif.Props.C13_apa_pdu_violates",
    "Verif.Props.C13_apa_violates",
    "Verif.Props.C13_designator_round_trip",
    "Verif.Props.C13_electromagneticEmission_round_trip",
    "Verif.Props.C13_iff_round_trip_partial",
    "Verif.Props.C13_mode_s_forced",
    "Verif.Props.C13_mode_s_violates",
    "Verif.Props.C13_sees_round_trip",
    "Verif.Props.C13_underwaterAcoustic_round_trip_partial"
   ],
   "note": "APA records and three Mode S flags are refuted; everything else is proved."
  },
  {
   "property": "C14",
   "status": "partial",
   "theorems": [
    "Verif.Props.C14_receiver_round_trip",
    "Verif.Props.C14_signal_general",
    "Verif.Props.C14_signal_round_trip_partial",
    "Verif.Props.C14_signal_unaligned_violates",
    "Verif.Props.C14_transmitter_empty_modulation_violates",
    "Verif.Props.C14_transmitter_round_trip",
    "Verif.Props.C14_transmitter_v6_violates"
   ],
   "note": "Unaligned Signal payloads, v6 transmitter parameters and empty modulation are refuted; the rest is proved."
  },
  {
   "property": "C15",
   "status": "proved",
   "theorems": [
    "Verif.Props.C15_aggregateState_round_trip_partial",
    "Verif.Props.C15_isGroupOf_round_trip",
    "Verif.Props.C15_isPartOf_round_trip",
    "Verif.Props.C15_silent_systems_aligned",
    "Verif.Props.C15_transferOwnership_round_trip"
   ],
   "note": ""
  },
  {
   "property": "C16",
   "status": "partial",
   "theorems": [
    "Verif.Props.C16_count_violated",
    "Verif.Props.C16_exact",
    "Verif.Props.C16_large_datum_violated",
    "Verif.Props.C16_length_violated",
    "Verif.Props.C16_lengths_agree_partial"
   ],
   "note": "Datums of more than 65535 bits wrap (refuted). Exact accounting for all kinds; equality for all but fifteen kinds, for which violation is proved for every body."
  },
  {
   "property": "C17",
   "status": "proved",
   "theorems": [
    "Verif.Props.C17_packet_round_trip",
    "Verif.Props.C17_prefix"
   ],
   "note": ""
  },
  {
   "property": "C18",
   "status": "partial",
   "theorems": [
    "Verif.Props.C18_aggregate_panics",
    "Verif.Props.C18_checked_panic_iff",
    "Verif.Props.C18_datagram_partial",
    "Verif.Props.C18_panic_iff",
    "Verif.Props.C18_record_set_panics",
    "Verif.Props.C18_signal_panics",
    "Verif.Props.C18_total_partial",
    "Verif.Props.C18_transmitter_panics"
   ],
   "note": "False as stated; the exact set of panicking inputs is characterised both for release builds (C18_panic_iff) and for builds with overflow checks (C18_checked_panic_iff, inputs of any size)."
  },
  {
   "property": "C19",
   "status": "proved",
   "theorems": [
    "Verif.Props.C19_packet",
    "Verif.Props.C19_prefix_determined"
   ],
   "note": ""
  },
  {
   "property": "C20",
   "status": "proved",
   "theorems": [
    "Verif.Props.C20_truncated",
    "Verif.Props.C20_truncated_packet"
   ],
   "note": ""
  },
  {
   "property": "C21",
   "status": "proved",
   "theorems": [
    "Verif.Props.C21_progress"
   ],
   "note": ""
  },
  {
   "property": "C22",
   "status": "proved",
   "theorems": [
    "Verif.Props.C22_packet",
    "Verif.Props.C22_version_filters"
   ],
   "note": ""
  },
  {
   "property": "C23",
   "status": "proved",
   "theorems": [
    "Verif.Props.C23_body_of_type",
    "Verif.Props.C23_foreign_type",
    "Verif.Props.C23_which_types"
   ],
   "note": ""
  },
  {
   "property": "C24",
   "status": "proved",
   "theorems": [
    "Verif.Props.C24_capacity",
    "Verif.Props.C24_fire_overruns"
   ],
   "note": ""
  },
  {
   "property": "C25",
   "status": "proved",
   "theorems": [
    "Verif.Props.C25_crossref_lost",
    "Verif.Props.C25_named_value",
    "Verif.Props.C25_raw_round_trip",
    "Verif.Props.C25_read_canonical",
    "Verif.Props.C25_variant_round_trip"
   ],
   "note": "For every table without cross references; cross references are refuted."
  },
  {
   "property": "C26",
   "status": "proved",
   "theorems": [
    "Verif.Props.C26_fields_independent",
    "Verif.Props.C26_record_round_trip",
    "Verif.Props.C26_wide_flag_lost",
    "Verif.Props.C26_word_round_trip"
   ],
   "note": "For every valid table."
  },
  {
   "property": "C27",
   "status": "proved",
   "theorems": [
    "Verif.Props.C27_from_seconds_wrong",
    "Verif.Props.C27_meaning",
    "Verif.Props.C27_raw_round_trip",
    "Verif.Props.C27_timestamp_round_trip",
    "Verif.Props.C27_units_per_hour_wrong"
   ],
   "note": "Raw conversion; the time scale constant is refuted."
  },
  {
   "property": "C28",
   "status": "proved",
   "theorems": [
    "Verif.Props.C28_accepts_iff",
    "Verif.Props.C28_aggregate_display_parse",
    "Verif.Props.C28_display_injective",
    "Verif.Props.C28_display_parse"
   ],
   "note": ""
  },
  {
   "property": "C29",
   "status": "proved",
   "theorems": [
    "Verif.Props.C29_uvint16_minimal",
    "Verif.Props.C29_uvint16_read_range",
    "Verif.Props.C29_uvint16_round_trip",
    "Verif.Props.C29_uvint32_minimal",
    "Verif.Props.C29_uvint32_read_range",
    "Verif.Props.C29_uvint32_round_trip",
    "Verif.Props.C29_uvint8_minimal",
    "Verif.Props.C29_uvint8_read_range",
    "Verif.Props.C29_uvint8_round_trip"
   ],
   "note": "Round trip, minimal size and read range for the three unsigned kinds."
  },
  {
   "property": "C30",
   "status": "partial",
   "theorems": [
    "Verif.Props.C30_svint12_minimal",
    "Verif.Props.C30_svint12_round_trip",
    "Verif.Props.C30_svint13_minimal",
    "Verif.Props.C30_svint13_round_trip",
    "Verif.Props.C30_svint14_minimal",
    "Verif.Props.C30_svint14_round_trip",
    "Verif.Props.C30_svint16_minimal",
    "Verif.Props.C30_svint16_round_trip",
    "Verif.Props.C30_svint24_centre_of_earth",
    "Verif.Props.C30_svint24_minimal",
    "Verif.Props.C30_svint24_round_trip_partial",
    "Verif.Props.C30_svint24_violated"
   ],
   "note": "Proved for all kinds except SVINT24 below -1048576, where the property is refuted for every value."
  },
  {
   "property": "C31",
   "status": "partial",
   "theorems": [
    "Verif.Props.C31_beam_data_partial",
    "Verif.Props.C31_beam_data_violated",
    "Verif.Props.C31_body_length",
    "Verif.Props.C31_checked_records",
    "Verif.Props.C31_exact_bodies",
    "Verif.Props.C31_finalize",
    "Verif.Props.C31_fixed_records",
    "Verif.Props.C31_layer3_length",
    "Verif.Props.C31_never_right",
    "Verif.Props.C31_records",
    "Verif.Props.C31_signal_pdu_violated"
   ],
   "note": "Exact accounting for every body (C31_body_length); equality exactly when nothing is left unwritten; refuted for BeamData and for Signal."
  },
  {
   "property": "C32",
   "status": "proved",
   "theorems": [
    "Verif.Props.C32_header_layout",
    "Verif.Props.C32_header_needs_63_bits",
    "Verif.Props.C32_header_round_trip",
    "Verif.Props.C32_header_size",
    "Verif.Props.C32_length_overflow",
    "Verif.Props.C32_witness"
   ],
   "note": ""
  },
  {
   "property": "C33",
   "status": "partial",
   "theorems": [
    "Verif.Props.C33_angular_velocity_round_trip",
    "Verif.Props.C33_beam_antenna_pattern_round_trip",
    "Verif.Props.C33_beam_data_violated",
    "Verif.Props.C33_clock_time_round_trip",
    "Verif.Props.C33_entity_coordinates_round_trip",
    "Verif.Props.C33_entity_id_round_trip",
    "Verif.Props.C33_entity_type_round_trip",
    "Verif.Props.C33_fixed_datum_round_trip",
    "Verif.Props.C33_iff_data_record_round_trip",
    "Verif.Props.C33_linear_acceleration_round_trip",
    "Verif.Props.C33_modulation_type_round_trip",
    "Verif.Props.C33_orientation_round_trip",
    "Verif.Props.C33_system_id_round_trip",
    "Verif.Props.C33_uncompressed",
    "Verif.Props.C33_uncompressed_articulated_violated",
    "Verif.Props.C33_unspecified_parameter_violated",
    "Verif.Props.C33_variable_datum_round_trip",
    "Verif.Props.C33_variable_parameter_round_trip",
    "Verif.Props.C33_world_coordinates_arrive",
    "Verif.Props.C33_world_coordinates_violated"
   ],
   "note": "Variable parameters sent uncompressed: all kinds read as sent except the articulated part (refuted: its value and the rest of the record are left unread). BeamData, world coordinates and unspecified variable parameters are refuted; all other records proved."
  },
  {
   "property": "C34",
   "status": "partial",
   "theorems": [
    "Verif.Props.C34_arrives",
    "Verif.Props.C34_five_bit_round_trip",
    "Verif.Props.C34_letters_arrive",
    "Verif.Props.C34_six_bit_round_trip",
    "Verif.Props.C34_swallows",
    "Verif.Props.C34_unchanged_iff",
    "Verif.Props.C34_violated"
   ],
   "note": "C34_unchanged_iff says exactly which texts survive, C34_arrives what becomes of every ASCII text, C34_swallows what every other text does to the bits that follow; the property as stated is refuted."
  },
  {
   "property": "C35",
   "status": "partial",
   "theorems": [
    "Verif.Props.C35_action_flags",
    "Verif.Props.C35_body_round_trip",
    "Verif.Props.C35_collision_type_violated",
    "Verif.Props.C35_comment_flags",
    "Verif.Props.C35_data_flags",
    "Verif.Props.C35_data_query_flags",
    "Verif.Props.C35_designator_flags",
    "Verif.Props.C35_designator_grouped",
    "Verif.Props.C35_designator_violated",
    "Verif.Props.C35_detonation_flags",
    "Verif.Props.C35_detonation_paired",
    "Verif.Props.C35_detonation_violated",
    "Verif.Props.C35_emission_read",
    "Verif.Props.C35_emitter_number_violated",
    "Verif.Props.C35_emitter_system_violated",
    "Verif.Props.C35_entity_state_flags",
    "Verif.Props.C35_entity_state_round_trip",
    "Verif.Props.C35_fire_flags",
    "Verif.Props.C35_fire_paired",
    "Verif.Props.C35_fire_violated",
    "Verif.Props.C35_iff_flags",
    "Verif.Props.C35_marking_shifts",
    "Verif.Props.C35_pdu_round_trip",
    "Verif.Props.C35_signal_flags",
    "Verif.Props.C35_transmitter_flags",
    "Verif.Props.C35_transmitter_grouped",
    "Verif.Props.C35_transmitter_violated",
    "Verif.Props.C35_transmitter_without_parameters_violated",
    "Verif.Props.C35_unchanged",
    "Verif.Props.C35_witness"
   ],
   "note": "The field flags that are sent are characterised in terms of the fields. Every body round trips up to the stated canonical form; the paired-field and Transmitter losses, and the shift caused by every marking outside ASCII, are refuted separately."
  },
  {
   "property": "C36",
   "status": "partial",
   "theorems": [
    "Verif.Props.C36_concatenation",
    "Verif.Props.C36_length_ignored",
    "Verif.Props.C36_long_padding_violated",
    "Verif.Props.C36_octets",
    "Verif.Props.C36_parse_iff",
    "Verif.Props.C36_truncated",
    "Verif.Props.C36_unsupported_body_violated",
    "Verif.Props.C36_witness"
   ],
   "note": "Proved for supported bodies; padding of eight or more bits and unsupported bodies are refuted."
  },
  {
   "property": "C37",
   "status": "proved",
   "theorems": [
    "Verif.Props.C37_designator",
    "Verif.Props.C37_emission",
    "Verif.Props.C37_entity_state",
    "Verif.Props.C37_iff",
    "Verif.Props.C37_transmitter",
    "Verif.Props.C37_window",
    "Verif.Props.C37_window_defaults"
   ],
   "note": "Five stateful PDU kinds, all histories, clocks and heartbeat settings."
  },
  {
   "property": "C38",
   "status": "partial",
   "theorems": [
    "Verif.Props.C38_absent_location_violated",
    "Verif.Props.C38_change_is_delayed",
    "Verif.Props.C38_designator",
    "Verif.Props.C38_emission",
    "Verif.Props.C38_emission_full",
    "Verif.Props.C38_end_to_end_designator",
    "Verif.Props.C38_end_to_end_emission",
    "Verif.Props.C38_end_to_end_entity_state",
    "Verif.Props.C38_end_to_end_iff",
    "Verif.Props.C38_end_to_end_transmitter",
    "Verif.Props.C38_entity_state",
    "Verif.Props.C38_iff",
    "Verif.Props.C38_iff_lost",
    "Verif.Props.C38_marking_stale",
    "Verif.Props.C38_new_beam_lost",
    "Verif.Props.C38_self_contained",
    "Verif.Props.C38_transmitter"
   ],
   "note": "Exact reconstruction for every history; the parts of the property the code violates (marking, IFF system id, new beams) are refuted by _stale/_lost theorems."
  },
  {
   "property": "C39",
   "status": "proved",
   "theorems": [
    "Verif.Props.C39_decoder",
    "Verif.Props.C39_encoder",
    "Verif.Props.C39_stateless",
    "Verif.Props.C39_stateless_decoder"
   ],
   "note": ""
  },
  {
   "property": "C40",
   "status": "proved",
   "theorems": [
    "Verif.Props.C40_decode",
    "Verif.Props.C40_decode_full_mode",
    "Verif.Props.C40_encode",
    "Verif.Props.C40_encode_body",
    "Verif.Props.C40_encode_history",
    "Verif.Props.C40_encode_self_contained",
    "Verif.Props.C40_full_mode_end_to_end"
   ],
   "note": "Encoder: all kinds. Decoder: designators are completed from the state even in full-update mode, stated in C40_decode_full_mode."
  },
  {
   "property": "C41",
   "status": "partial",
   "theorems": [
    "Verif.Props.C41_angular_velocity",
    "Verif.Props.C41_angular_velocity_coarse",
    "Verif.Props.C41_beam",
    "Verif.Props.C41_beam_angle",
    "Verif.Props.C41_beam_coarse",
    "Verif.Props.C41_centre_iff",
    "Verif.Props.C41_coordinates",
    "Verif.Props.C41_coordinates_clipped",
    "Verif.Props.C41_coordinates_metres",
    "Verif.Props.C41_decimal_defects",
    "Verif.Props.C41_explosive_force",
    "Verif.Props.C41_frequency",
    "Verif.Props.C41_frequency_overflow",
    "Verif.Props.C41_interior_violated",
    "Verif.Props.C41_linear",
    "Verif.Props.C41_linear_saturates",
    "Verif.Props.C41_linear_truncates",
    "Verif.Props.C41_linear_vector",
    "Verif.Props.C41_orientation",
    "Verif.Props.C41_orientation_nonfinite",
    "Verif.Props.C41_orientation_record",
    "Verif.Props.C41_parameter_value",
    "Verif.Props.C41_position",
    "Verif.Props.C41_position_wire_violated",
    "Verif.Props.C41_pulse_width",
    "Verif.Props.C41_sweep",
    "Verif.Props.C41_transmit_frequency",
    "Verif.Props.C41_underground_violated",
    "Verif.Props.C41_world",
    "Verif.Props.C41_world_centre",
    "Verif.Props.C41_world_pole",
    "Verif.Props.C41_world_wire",
    "Verif.Props.C41_world_wire_high"
   ],
   "note": "Bounds proved in the IEEE arithmetic of the code for all values in the stated ranges; defects refuted. The f64 geodetic conversion is a parameter; C41_position assumes only that it agrees with the real conversion (modelled and proved correct in C60) to 1e-9 rad and 1 mm, and proves a location within 14 m after encoding and decoding; over the wire the latitude is damaged (C41_position_wire_violated)."
  },
  {
   "property": "C42",
   "status": "partial",
   "theorems": [
    "Verif.Props.C42_accounts",
    "Verif.Props.C42_buffer_size",
    "Verif.Props.C42_counts",
    "Verif.Props.C42_delivered",
    "Verif.Props.C42_delivered_exact",
    "Verif.Props.C42_ghost_example_violated",
    "Verif.Props.C42_ghost_violated",
    "Verif.Props.C42_output",
    "Verif.Props.C42_packet",
    "Verif.Props.C42_panic_iff",
    "Verif.Props.C42_witness",
    "Verif.Props.C42_written"
   ],
   "note": "Accounting exact for every packet; delivery proved unless announced lengths exceed the bits written by 63 or more, where the stale-buffer violation is proved."
  },
  {
   "property": "C43",
   "status": "partial",
   "theorems": [
    "Verif.Props.C43_drops_violated",
    "Verif.Props.C43_filter_inverted_violated",
    "Verif.Props.C43_gateway_violated",
    "Verif.Props.C43_nothing_arrives_violated",
    "Verif.Props.C43_packet_violated",
    "Verif.Props.C43_witness"
   ],
   "note": "The property is false of the code: refuted for every packet and every run."
  },
  {
   "property": "C44",
   "status": "proved",
   "theorems": [
    "Verif.Props.C44_codec_totals",
    "Verif.Props.C44_compression",
    "Verif.Props.C44_compression_stays",
    "Verif.Props.C44_conservation",
    "Verif.Props.C44_interval",
    "Verif.Props.C44_per_type",
    "Verif.Props.C44_socket_totals",
    "Verif.Props.C44_sums",
    "Verif.Props.C44_witness"
   ],
   "note": ""
  },
  {
   "property": "C45",
   "status": "partial",
   "theorems": [
    "Verif.Props.C45_address_violated",
    "Verif.Props.C45_bad_interface_panics_violated",
    "Verif.Props.C45_config",
    "Verif.Props.C45_endpoint",
    "Verif.Props.C45_errors",
    "Verif.Props.C45_heartbeats",
    "Verif.Props.C45_optimization",
    "Verif.Props.C45_options",
    "Verif.Props.C45_udp_mode",
    "Verif.Props.C45_update_mode",
    "Verif.Props.C45_witness"
   ],
   "note": "Exact acceptance and defaults proved; address handling and malformed interfaces are refuted."
  },
  {
   "property": "C46",
   "status": "partial",
   "theorems": [
    "Verif.Props.C46_acknowledges_violated",
    "Verif.Props.C46_decoder_safe",
    "Verif.Props.C46_events_per_packet",
    "Verif.Props.C46_keeps_up",
    "Verif.Props.C46_only_overload",
    "Verif.Props.C46_overload_violated",
    "Verif.Props.C46_quit_violated"
   ],
   "note": "False as stated; the exact condition under which it holds is proved, and violations exhibited."
  },
  {
   "property": "C47",
   "status": "proved",
   "theorems": [
    "Verif.Props.C47_error_iff",
    "Verif.Props.C47_no_panic",
    "Verif.Props.C47_prefix",
    "Verif.Props.C47_progress",
    "Verif.Props.C47_short"
   ],
   "note": ""
  },
  {
   "property": "C48",
   "status": "proved",
   "theorems": [
    "Verif.Props.C48_bounded",
    "Verif.Props.C48_in_order"
   ],
   "note": "Transition system of all tasks with bounded channels; invariant by induction on reachability."
  },
  {
   "property": "C49",
   "status": "proved",
   "theorems": [
    "Verif.Props.C49_drains",
    "Verif.Props.C49_quiet_delivered",
    "Verif.Props.C49_statistics",
    "Verif.Props.C49_terminates",
    "Verif.Props.C49_witness"
   ],
   "note": "Well-founded measure on own steps and a deadlock-freedom argument."
  },
  {
   "property": "C50",
   "status": "partial",
   "theorems": [
    "Verif.Props.C50_acknowledgeR_layout",
    "Verif.Props.C50_acknowledge_layout",
    "Verif.Props.C50_acoustic_length_violated",
    "Verif.Props.C50_actionRequestR_datums",
    "Verif.Props.C50_actionRequestR_layout",
    "Verif.Props.C50_actionRequest_datums",
    "Verif.Props.C50_actionRequest_layout",
    "Verif.Props.C50_actionResponseR_datums",
    "Verif.Props.C50_actionResponseR_layout",
    "Verif.Props.C50_actionResponse_datums",
    "Verif.Props.C50_actionResponse_layout",
    "Verif.Props.C50_aggregateState_layout",
    "Verif.Props.C50_aggregateState_rest",
    "Verif.Props.C50_attribute_layout",
    "Verif.Props.C50_attribute_records",
    "Verif.Props.C50_collisionElastic_layout",
    "Verif.Props.C50_collision_layout",
    "Verif.Props.C50_commentR_datums",
    "Verif.Props.C50_commentR_layout",
    "Verif.Props.C50_comment_datums",
    "Verif.Props.C50_comment_layout",
    "Verif.Props.C50_createEntityR_layout",
    "Verif.Props.C50_createEntity_layout",
    "Verif.Props.C50_dataQueryR_layout",
    "Verif.Props.C50_dataQueryR_rest",
    "Verif.Props.C50_dataQuery_layout",
    "Verif.Props.C50_dataQuery_rest",
    "Verif.Props.C50_dataR_datums",
    "Verif.Props.C50_dataR_layout",
    "Verif.Props.C50_data_datums",
    "Verif.Props.C50_data_layout",
    "Verif.Props.C50_designator_layout",
    "Verif.Props.C50_detonation_layout",
    "Verif.Props.C50_detonation_rest",
    "Verif.Props.C50_electromagneticEmission_layout",
    "Verif.Props.C50_emission_systems",
    "Verif.Props.C50_entityStateUpdate_layout",
    "Verif.Props.C50_entityStateUpdate_rest",
    "Verif.Props.C50_entityState_layout",
    "Verif.Props.C50_entityState_rest",
    "Verif.Props.C50_eventReportR_datums",
    "Verif.Props.C50_eventReportR_layout",
    "Verif.Props.C50_eventReport_datums",
    "Verif.Props.C50_eventReport_layout",
    "Verif.Props.C50_fire_layout",
    "Verif.Props.C50_fire_rest",
    "Verif.Props.C50_header_layout",
    "Verif.Props.C50_iff_layout",
    "Verif.Props.C50_iff_rest",
    "Verif.Props.C50_isGroupOf_layout",
    "Verif.Props.C50_isGroupOf_rest",
    "Verif.Props.C50_isPartOf_layout",
    "Verif.Props.C50_mode_s_violated",
    "Verif.Props.C50_propulsion_octet",
    "Verif.Props.C50_receiver_layout",
    "Verif.Props.C50_recordQueryR_layout",
    "Verif.Props.C50_recordR_layout",
    "Verif.Props.C50_recordR_records",
    "Verif.Props.C50_removeEntityR_layout",
    "Verif.Props.C50_removeEntity_layout",
    "Verif.Props.C50_repairComplete_layout",
    "Verif.Props.C50_repairResponse_layout",
    "Verif.Props.C50_resupplyCancel_layout",
    "Verif.Props.C50_resupplyOffer_layout",
    "Verif.Props.C50_resupplyReceived_layout",
    "Verif.Props.C50_sees_layout",
    "Verif.Props.C50_sees_rest",
    "Verif.Props.C50_serviceRequest_layout",
    "Verif.Props.C50_setDataR_datums",
    "Verif.Props.C50_setDataR_layout",
    "Verif.Props.C50_setData_datums",
    "Verif.Props.C50_setData_layout",
    "Verif.Props.C50_setRecordR_layout",
    "Verif.Props.C50_setRecordR_records",
    "Verif.Props.C50_signal_data",
    "Verif.Props.C50_signal_layout",
    "Verif.Props.C50_signal_rest",
    "Verif.Props.C50_signal_scheme",
    "Verif.Props.C50_startResumeR_layout",
    "Verif.Props.C50_startResume_layout",
    "Verif.Props.C50_stopFreezeR_layout",
    "Verif.Props.C50_stopFreeze_layout",
    "Verif.Props.C50_transferOwnership_layout",
    "Verif.Props.C50_transferOwnership_records",
    "Verif.Props.C50_transmitter_layout",
    "Verif.Props.C50_transmitter_rest",
    "Verif.Props.C50_underwaterAcoustic_layout",
    "Verif.Props.C50_underwaterAcoustic_rest"
   ],
   "note": "Every octet of every kind: fixed fields, counts, list elements and (Wire2) the records of variable size, compared with a separate specification of the octets. Partial because the code deviates from the standard, each deviation with its own theorem: variable datums that do not fill 64-bit words (C50_*_datums are exact iff statements: padding 64 times too long), the acoustic passive-activity word, the acoustic emitter system length in octets (C50_acoustic_length_violated), Mode S transponder data 3 octets short (C50_mode_s_violated), Record-R."
  },
  {
   "property": "C51",
   "status": "proved",
   "theorems": [
    "Verif.Props.C51_header",
    "Verif.Props.C51_header_scan",
    "Verif.Props.C51_padding_is_read_as_pdus",
    "Verif.Props.C51_parse_ignores_length",
    "Verif.Props.C51_readers_agree",
    "Verif.Props.C51_wrong_length_violated"
   ],
   "note": "The two deviations of parse from framing by announced lengths are theorems of their own."
  },
  {
   "property": "C52",
   "status": "proved",
   "theorems": [
    "Verif.Props.C52_collision",
    "Verif.Props.C52_crypto_key",
    "Verif.Props.C52_designator",
    "Verif.Props.C52_detonation",
    "Verif.Props.C52_entity_state",
    "Verif.Props.C52_fire",
    "Verif.Props.C52_header",
    "Verif.Props.C52_iff",
    "Verif.Props.C52_mass_grams",
    "Verif.Props.C52_mass_kilograms",
    "Verif.Props.C52_mass_negative_violated",
    "Verif.Props.C52_modulation",
    "Verif.Props.C52_parameters",
    "Verif.Props.C52_parameters_violated",
    "Verif.Props.C52_range",
    "Verif.Props.C52_received_power",
    "Verif.Props.C52_receiver",
    "Verif.Props.C52_signal",
    "Verif.Props.C52_siman",
    "Verif.Props.C52_siman_rest",
    "Verif.Props.C52_transmit_power",
    "Verif.Props.C52_transmit_power_violated",
    "Verif.Props.C52_transmitter",
    "Verif.Props.C52_whole",
    "Verif.Props.C52_whole_out_of_range_violated"
   ],
   "note": "One theorem per kind (simulation management kinds in two groups; emission is C38_emission_full), the header, and bounds for the scalars (those of vectors, angles and frequencies are C41). The claims the code violates are stated as theorems with the suffix _violated."
  },
  {
   "property": "C53",
   "status": "partial",
   "theorems": [
    "Verif.Props.C53_codec",
    "Verif.Props.C53_first_minute_partial",
    "Verif.Props.C53_later_violated",
    "Verif.Props.C53_on_the_wire",
    "Verif.Props.C53_scale_violated"
   ],
   "note": "Holds for the first 60.57 seconds of the hour only; proved violated for all later timestamps."
  },
  {
   "property": "C54",
   "status": "proved",
   "theorems": [
    "Verif.Props.C54_length_field",
    "Verif.Props.C54_octets",
    "Verif.Props.C54_packet",
    "Verif.Props.C54_relay",
    "Verif.Props.C54_second_hop",
    "Verif.Props.C54_size",
    "Verif.Props.C54_version_8"
   ],
   "note": "The conditions (Relayable) are those under which the round trips C08 to C15 hold; nothing is required of 28 of the 52 kinds. Octet-for-octet for all but twelve kinds, size only for ten, size bound for the two Comment kinds."
  },
  {
   "property": "C55",
   "status": "proved",
   "theorems": [
    "Verif.Props.C55_capabilities_written_v6",
    "Verif.Props.C55_entity_state_appearance",
    "Verif.Props.C55_entity_state_capabilities",
    "Verif.Props.C55_entity_state_capabilities_v6",
    "Verif.Props.C55_group_members",
    "Verif.Props.C55_silent_entities"
   ],
   "note": "The masks of the records (which bits have fields) come from the SISO XML and are parameters of the model; the selection of the record is proved for all entity types."
  },
  {
   "property": "C56",
   "status": "partial",
   "theorems": [
    "Verif.Props.C56_after_quit",
    "Verif.Props.C56_encoded_example_violated",
    "Verif.Props.C56_encoded_partial",
    "Verif.Props.C56_encoded_shown",
    "Verif.Props.C56_encoded_violated",
    "Verif.Props.C56_nothing_left_out",
    "Verif.Props.C56_rate",
    "Verif.Props.C56_rate_start",
    "Verif.Props.C56_refused",
    "Verif.Props.C56_sockets",
    "Verif.Props.C56_sockets_per_second",
    "Verif.Props.C56_true_and_in_order",
    "Verif.Props.C56_types",
    "Verif.Props.C56_up_to_date",
    "Verif.Props.C56_witness"
   ],
   "note": "Everything but the number of PDUs encoded, which is proved too low by the number of PDUs rejected (C56_encoded_violated, with a running example); C56_encoded_partial: right while nothing has been rejected."
  },
  {
   "property": "C57",
   "status": "partial",
   "theorems": [
    "Verif.Props.C57_designator_violated",
    "Verif.Props.C57_emission_violated",
    "Verif.Props.C57_kind",
    "Verif.Props.C57_location_violated",
    "Verif.Props.C57_packet",
    "Verif.Props.C57_pdu",
    "Verif.Props.C57_siman"
   ],
   "note": "Proved for whole packets of PDUs that fit (C57_packet; the conditions are FitsWire, met by an example packet of 17 PDUs). For Electromagnetic Emission only without emitter systems: with one the property is violated for every PDU (C57_emission_violated: another PDU is sent as the very same octets). Violated by locations (C57_location_violated) and Designators with an algorithm without acceleration (C57_designator_violated)."
  },
  {
   "property": "C58",
   "status": "partial",
   "theorems": [
    "Verif.Props.C58_aggregate_violated",
    "Verif.Props.C58_read_partial",
    "Verif.Props.C58_receiver_violated",
    "Verif.Props.C58_swapped_violated",
    "Verif.Props.C58_through",
    "Verif.Props.C58_written_partial"
   ],
   "note": "Holds for all types except four: Resupply Offer and Repair Response report the two the wrong way round, Receiver reports the transmitter as originator, Aggregate State reports none (refuted for every input)."
  },
  {
   "property": "C59",
   "status": "proved",
   "theorems": [
    "Verif.Props.C59_accepted",
    "Verif.Props.C59_aggregate_marking",
    "Verif.Props.C59_aggregate_text",
    "Verif.Props.C59_entity_marking",
    "Verif.Props.C59_text",
    "Verif.Props.C59_text_unchanged_iff",
    "Verif.Props.C59_unchanged_iff"
   ],
   "note": "All strings; which characters are letters or digits (char::is_alphanumeric) is a parameter of the model, the UTF-8 decoder is modelled."
  },
  {
   "property": "C60",
   "status": "proved",
   "theorems": [
    "Verif.Props.C60_defined",
    "Verif.Props.C60_equator",
    "Verif.Props.C60_geodetic",
    "Verif.Props.C60_geodetic_exists",
    "Verif.Props.C60_interior_violated",
    "Verif.Props.C60_round_trip",
    "Verif.Props.C60_there_and_back"
   ],
   "note": "In real arithmetic with the exact decimal constants of the code: f64 rounding (about a nanometre) and signed zeros are not modelled. NaN: C60_defined shows that the arc functions stay in their domain 300 km or more from the centre; C60_interior_violated gives a region within 36 km of the centre where they do not (outside the range of the other claims), and C41_interior_violated what the codec makes of it."
  },
  {
   "property": "C61",
   "status": "proved",
   "theorems": [
    "Verif.Props.C61_first_lost",
    "Verif.Props.C61_last_delivered",
    "Verif.Props.C61_network",
    "Verif.Props.C61_settled"
   ],
   "note": "Entity State and the kinds without a history; conditions on the PDUs are those of C57 (EntityFits, PduFits). One PDU per datagram, as the gateway produces for single-PDU datagrams."
  },
  {
   "property": "C62",
   "status": "proved",
   "theorems": [
    "Verif.Props.C62_capabilities",
    "Verif.Props.C62_header",
    "Verif.Props.C62_mixed_lengths_lost",
    "Verif.Props.C62_record_sets",
    "Verif.Props.C62_status",
    "Verif.Props.C62_status_spill"
   ],
   "note": "Conditions: values fit their indicator bits; records of a set have one length. Where these end: C62_status_spill, C62_mixed_lengths_lost. Builders that only set the field they name are not modelled."
  },
  {
   "property": "C63",
   "status": "partial",
   "theorems": [
    "Verif.Props.C63_designator_settled",
    "Verif.Props.C63_iff_layers_violated",
    "Verif.Props.C63_iff_phantom_violated",
    "Verif.Props.C63_iff_system_violated",
    "Verif.Props.C63_network",
    "Verif.Props.C63_transmitter_antenna_violated",
    "Verif.Props.C63_transmitter_settled"
   ],
   "note": "Proved for every schedule: exactly what is handed over (C63_network; IFF without layers 3 and 4, Electromagnetic Emission excluded), settled designators and radios. Violated, with refutations: relative antenna location of partial Transmitters, system identification of partial IFF PDUs, IFF layer 3 in partial updates (misread, phantom PDU)."
  },
  {
   "property": "C64",
   "status": "partial",
   "theorems": [
    "Verif.Props.C64_decoded_iff",
    "Verif.Props.C64_decoded_stream",
    "Verif.Props.C64_decoded_violated",
    "Verif.Props.C64_decoded_witness",
    "Verif.Props.C64_eight_bit",
    "Verif.Props.C64_received_iff",
    "Verif.Props.C64_result",
    "Verif.Props.C64_returns_iff",
    "Verif.Props.C64_text",
    "Verif.Props.C64_violated"
   ],
   "note": "C64_returns_iff says exactly when serialize does not return; C64_received_iff and C64_decoded_iff which received PDUs that concerns; it never concerns fields that are UTF-8 text (C64_text), and concerns a field of ISO 8859-1 text exactly when there are more than half as many letters outside ASCII as padding octets (C64_eight_bit). Refuted by a received PDU (C64_violated) and by every C-DIS PDU with a marking of 12 to 15 characters (C64_decoded_violated)."
  },
  {
   "property": "C65",
   "status": "partial",
   "theorems": [
    "Verif.Props.C65_buffer_suffices",
    "Verif.Props.C65_datagram_panics",
    "Verif.Props.C65_eight_bit",
    "Verif.Props.C65_encode_panics_iff",
    "Verif.Props.C65_ends",
    "Verif.Props.C65_fatal_ends",
    "Verif.Props.C65_full_mode",
    "Verif.Props.C65_gateway_violated",
    "Verif.Props.C65_only_fatal",
    "Verif.Props.C65_panics_iff",
    "Verif.Props.C65_stays_up",
    "Verif.Props.C65_survives",
    "Verif.Props.C65_violated"
   ],
   "note": "C65_encode_panics_iff: exactly when encoding a PDU panics. C65_violated: a datagram of 176 octets on which every encoder in full-update mode panics; C65_ends, C65_gateway_violated: it ends the gateway on every schedule. C65_buffer_suffices, C65_panics_iff, C65_only_fatal: exactly which datagrams do (in full-update mode), and that nothing else does in any mode; C65_survives, C65_stays_up, C65_fatal_ends: the same for whole runs of the gateway."
  },
  {
   "property": "C66",
   "status": "partial",
   "theorems": [
    "Verif.Props.C66_again_iff",
    "Verif.Props.C66_angular_velocity",
    "Verif.Props.C66_angular_velocity_violated",
    "Verif.Props.C66_bandwidth",
    "Verif.Props.C66_bandwidth_violated",
    "Verif.Props.C66_beam",
    "Verif.Props.C66_centimetres",
    "Verif.Props.C66_centimetres_violated",
    "Verif.Props.C66_chain",
    "Verif.Props.C66_collision",
    "Verif.Props.C66_explosive_force",
    "Verif.Props.C66_fire_descriptor",
    "Verif.Props.C66_iff_violated",
    "Verif.Props.C66_location_violated",
    "Verif.Props.C66_mass",
    "Verif.Props.C66_mass_kilograms",
    "Verif.Props.C66_mass_violated",
    "Verif.Props.C66_no_drift",
    "Verif.Props.C66_offset_violated",
    "Verif.Props.C66_orientation",
    "Verif.Props.C66_orientation_violated",
    "Verif.Props.C66_other",
    "Verif.Props.C66_parameter_value",
    "Verif.Props.C66_pattern",
    "Verif.Props.C66_power",
    "Verif.Props.C66_range",
    "Verif.Props.C66_scheme",
    "Verif.Props.C66_steps",
    "Verif.Props.C66_time",
    "Verif.Props.C66_time_violated",
    "Verif.Props.C66_tx_frequency",
    "Verif.Props.C66_tx_power",
    "Verif.Props.C66_velocity",
    "Verif.Props.C66_whole"
   ],
   "note": "C66_again_iff: a PDU that left one gateway leaves a second unchanged exactly when the fields named in Still do; C66_chain, C66_no_drift: any number of gateways in series. C66_velocity, C66_whole, C66_range, C66_power, C66_tx_power, C66_beam, C66_scheme, C66_fire_descriptor, C66_other: fields that never change again. C66_orientation, C66_angular_velocity, C66_pattern, C66_centimetres: those that move at most one step towards zero per gateway. The _violated theorems: they do, and so do timestamps, masses and bandwidths; offsets in metres, IFF parameters and locations are damaged at each gateway. C66_time, C66_mass, C66_bandwidth, C66_tx_frequency, C66_explosive_force: how far those can drift over any number of gateways (37 units of time, a gram, about a step of the mantissa for each); C66_mass_kilograms, C66_parameter_value: these stop. C66_steps: whole PDUs over any number of gateways whatever changes, C66_collision an instance. Missing: what the code violates."
  },
  {
   "property": "C67",
   "status": "partial",
   "theorems": [
    "Verif.Props.C67_datagram",
    "Verif.Props.C67_emission_partial_update",
    "Verif.Props.C67_emission_violated",
    "Verif.Props.C67_gateway_violated",
    "Verif.Props.C67_iff_violated",
    "Verif.Props.C67_never_longer",
    "Verif.Props.C67_state"
   ],
   "note": "C67_never_longer: every PDU read that is Compressible, in every mode and state, written and announced octets; C67_datagram: whole datagrams through the gateway; C67_state: by how much Entity State PDUs shrink; C67_emission_partial_update: emission partial updates, unconditionally. Partial because the code violates the rest: C67_emission_violated (736 octets become 742), C67_gateway_violated (the same through the gateway), C67_iff_violated (72 become 73)."
  },
  {
   "property": "C68",
   "status": "proved",
   "theorems": [
    "Verif.Props.C68_apart",
    "Verif.Props.C68_defaults",
    "Verif.Props.C68_differences",
    "Verif.Props.C68_fresh",
    "Verif.Props.C68_gateway",
    "Verif.Props.C68_gateway_witness",
    "Verif.Props.C68_next",
    "Verif.Props.C68_rate",
    "Verif.Props.C68_witness"
   ],
   "note": "C68_fresh: at every moment the last full update is young enough; C68_apart, C68_rate: not too many of them; C68_next: when the next one comes; C68_defaults: in nanoseconds for the default settings; C68_differences: only time differences matter. C68_gateway: in every reachable state of the concurrent gateway, what has been sent is made of the PDUs that one encoder makes of the first datagrams received, and these limits hold of it; C68_gateway_witness: a run with full and partial updates."
  },
  {
   "property": "C69",
   "status": "partial",
   "theorems": [
    "Verif.Props.C69_decoder",
    "Verif.Props.C69_encoder",
    "Verif.Props.C69_entries",
    "Verif.Props.C69_violated"
   ],
   "note": "C69_encoder, C69_entries, C69_decoder: exactly what is remembered. The bound itself is refuted by C69_violated, in either mode."
  },
  {
   "property": "C70",
   "status": "partial",
   "theorems": [
    "Verif.Props.C70_decoder_restart",
    "Verif.Props.C70_encoder_restart",
    "Verif.Props.C70_marking_violated",
    "Verif.Props.C70_resync",
    "Verif.Props.C70_window_needed",
    "Verif.Props.C70_witness"
   ],
   "note": "Proved for everything but markings: C70_resync (any two decoder states, from a full update on), C70_decoder_restart (any position of any history, after one heartbeat window), C70_encoder_restart (any two histories, all subjects including IFF and bodies without a history). Missing because the code violates it: the marking, C70_marking_violated; IFF is excluded from the decoder restart because its decoder never stores anything (C38_iff_lost). C70_window_needed shows that the window is needed; C70_witness that the hypotheses are met."
  },
  {
   "property": "C71",
   "status": "proved",
   "theorems": [
    "Verif.Props.C71_age",
    "Verif.Props.C71_distance",
    "Verif.Props.C71_full_mode",
    "Verif.Props.C71_lag",
    "Verif.Props.C71_witness"
   ],
   "note": "C71_age: every history and clock; C71_distance: the bound in metres; C71_full_mode; C71_lag: that it stands still (and so is off by what the entity has moved, up to 14 m). C71_witness: a flight that meets all hypotheses, handed over 3 km from where it is. Without the wire: what the wire does to locations is C41_position_wire_violated."
  },
  {
   "property": "C72",
   "status": "partial",
   "theorems": [
    "Verif.Props.C72_cdis",
    "Verif.Props.C72_cdis_datagram",
    "Verif.Props.C72_datagram",
    "Verif.Props.C72_dis",
    "Verif.Props.C72_emitters_violated",
    "Verif.Props.C72_space_violated"
   ],
   "note": "C72_dis, C72_datagram, C72_cdis, C72_cdis_datagram: every pair (of lists) of well-formed PDUs (Pdu.Wf: without separation records and the other kinds of C04-C16 that are not read back). Missing because the code violates it: C72_emitters_violated, C72_space_violated."
  },
  {
   "property": "C73",
   "status": "partial",
   "theorems": [
    "Verif.Props.C73_decoder",
    "Verif.Props.C73_designators",
    "Verif.Props.C73_dr_other_violated",
    "Verif.Props.C73_dr_other_witness",
    "Verif.Props.C73_example",
    "Verif.Props.C73_modes_violated",
    "Verif.Props.C73_optimize",
    "Verif.Props.C73_optimize_decoded"
   ],
   "note": "C73_decoder, C73_optimize, C73_optimize_decoded, C73_designators for every history, state and clock; an encoder in full-update mode with any decoder is C40_full_mode_end_to_end. The mismatch of modes violates the property: C73_modes_violated says exactly what is handed over; C73_example shows both directions. The documentation also says that bandwidth optimisation keeps the other dead reckoning parameters back: C73_dr_other_violated."
  },
  {
   "property": "C74",
   "status": "partial",
   "theorems": [
    "Verif.Props.C74_broadcast_violated",
    "Verif.Props.C74_echo_violated",
    "Verif.Props.C74_multicast6_violated",
    "Verif.Props.C74_multicast_violated",
    "Verif.Props.C74_nobody_violated",
    "Verif.Props.C74_own_violated",
    "Verif.Props.C74_restless_violated",
    "Verif.Props.C74_sample",
    "Verif.Props.C74_settings_violated",
    "Verif.Props.C74_specific",
    "Verif.Props.C74_witness"
   ],
   "note": "C74_specific: with a specific interface address in unicast or broadcast mode everything sent to it is received, everything of other senders is passed on and nothing of its own. The rest is violated by the code: C74_nobody_violated (no datagram leaves the host), C74_own_violated (interface 0.0.0.0: own datagrams are processed), C74_echo_violated and C74_restless_violated (such a gateway keeps every datagram going for ever), C74_broadcast_violated (broadcasts are not received), C74_multicast_violated (every IPv4 multicast configuration panics), C74_multicast6_violated, C74_settings_violated; C74_sample is the configuration that comes with the gateway. What UDP sockets do is a trusted specification (Os, Sock.source, Sock.hears)."
  },
  {
   "property": "C75",
   "status": "partial",
   "theorems": [
    "Verif.Props.C75_ascii",
    "Verif.Props.C75_ghost_violated",
    "Verif.Props.C75_lost_violated",
    "Verif.Props.C75_network",
    "Verif.Props.C75_silent_violated",
    "Verif.Props.C75_witness",
    "Verif.Props.C75_wrong_violated"
   ],
   "note": "C75_ascii: any name in ASCII, of any length, arrives with every character that has no code replaced, and nothing else is touched; C75_network: what a receiver hands over over a network that loses, repeats and reorders, for entities with names of both kinds among each other. Names outside ASCII violate the property: C75_wrong_violated (no receiver reads as many characters as were sent), C75_lost_violated (nothing in the datagram can be read), C75_silent_violated (in full-update mode the entity is never heard of), C75_ghost_violated (in partial-update mode it is shown with no force, of no type and at the centre of the Earth). C75_witness has entities of both kinds."
  },
  {
   "property": "C76",
   "status": "partial",
   "theorems": [
    "Verif.Props.C76_arrives",
    "Verif.Props.C76_capabilities_violated",
    "Verif.Props.C76_deaf_violated",
    "Verif.Props.C76_entity_state",
    "Verif.Props.C76_gateway",
    "Verif.Props.C76_same",
    "Verif.Props.C76_through",
    "Verif.Props.C76_transmitter",
    "Verif.Props.C76_witness"
   ],
   "note": "C76_same, C76_transmitter, C76_entity_state: for any octets, PDUs of any type (also truncated or nonsensical ones) of version 1 to 6 against their doubles of version 7, Entity States up to the capabilities; C76_gateway, C76_arrives, C76_through: whole datagrams through a gateway. The rest is violated by the code: C76_capabilities_violated (the capabilities of anything that is not a land platform are read as those of a land platform) and C76_deaf_violated (everything a gateway says is of version 7, so parse_v6 on the other side drops it all)."
  },
  {
   "property": "C77",
   "status": "partial",
   "theorems": [
    "Verif.Props.C77_apart",
    "Verif.Props.C77_full",
    "Verif.Props.C77_mixed_violated",
    "Verif.Props.C77_witness"
   ],
   "note": "C77_full: any histories in full-update mode; C77_apart: any modes, if no number is used in two exercises. Otherwise the code violates it: C77_mixed_violated (an entity of one exercise is handed over with the force, type, location, orientation, appearance and name of the entity of another exercise that has the same number)."
  },
  {
   "property": "C78",
   "status": "partial",
   "theorems": [
    "Verif.Props.C78_alone",
    "Verif.Props.C78_link",
    "Verif.Props.C78_network",
    "Verif.Props.C78_shared_violated",
    "Verif.Props.C78_witness"
   ],
   "note": "C78_alone: any C-DIS PDUs of any number of senders in any interleaving, in any mode and from any state of the decoder; C78_link: with the encoders of the senders, if each speaks for entities of its own; C78_network: Entity States, whoever speaks for whom, over any network. The rest is violated by the code: C78_shared_violated (an entity that was away at another gateway is handed over with the fields of that gateway when the first one goes on with partial updates)."
  },
  {
   "property": "C79",
   "status": "partial",
   "theorems": [
    "Verif.Props.C79_decoder",
    "Verif.Props.C79_encoder",
    "Verif.Props.C79_gateway",
    "Verif.Props.C79_library_violated",
    "Verif.Props.C79_read_whole_partial",
    "Verif.Props.C79_read_whole_violated"
   ],
   "note": "C79_encoder, C79_decoder: what one call of the encoder or decoder puts out, for any datagram, state and mode, has at most 11200 octets (C-DIS), at most 12 for every 63 bits received (DIS). C79_gateway: in every reachable state of the concurrent gateway, everything sent fits into a UDP datagram. C79_read_whole_partial: of datagrams whose PDUs C-DIS makes no longer (C67: all but some Electromagnetic Emission and IFF PDUs) the other gateway reads everything. The rest is violated by the code: C79_read_whole_violated (a well-formed Electromagnetic Emission PDU of 1500 octets becomes 1507, the last seven of which the other gateway does not read), C79_library_violated (a C-DIS datagram of at most 1063 octets is decoded by the library to a PDU of 68582 octets, which announces 2432)."
  },
  {
   "property": "C80",
   "status": "partial",
   "theorems": [
    "Verif.Props.C80_consistent_partial",
    "Verif.Props.C80_from_seconds_nanoseconds_violated",
    "Verif.Props.C80_from_seconds_same_violated",
    "Verif.Props.C80_from_seconds_total",
    "Verif.Props.C80_from_seconds_units",
    "Verif.Props.C80_from_seconds_violated",
    "Verif.Props.C80_nanoseconds_saturate",
    "Verif.Props.C80_nanoseconds_small",
    "Verif.Props.C80_nanoseconds_violated"
   ],
   "note": "C80_from_seconds_total: a timestamp can be made of any number of seconds within the hour. C80_consistent_partial: sender and receiver are shown the same time, to within one unit of what the code takes for the scale. The rest is violated by the code, because 2 ^ 31 is an exclusive or in Rust, seconds are multiplied by 10^6 and the nanoseconds of an hour do not fit a u32: C80_from_seconds_nanoseconds_violated (a thousand times too few), C80_from_seconds_units and C80_from_seconds_violated (the units are those of an hour of 28 or 26 units, at least 9000 too few for each second), C80_from_seconds_same_violated (the first two minutes of the hour all get the timestamp of the hour), C80_nanoseconds_saturate (every timestamp of 34 units or more shows 4.294967295 seconds), C80_nanoseconds_small, C80_nanoseconds_violated (what is shown is off by at least a tenth of a second)."
  },
  {
   "property": "C81",
   "status": "partial",
   "theorems": [
    "Verif.Props.C81_again_partial",
    "Verif.Props.C81_altitude_violated",
    "Verif.Props.C81_chain_partial",
    "Verif.Props.C81_exact_chain_partial",
    "Verif.Props.C81_exact_partial",
    "Verif.Props.C81_location_violated",
    "Verif.Props.C81_locations_lost_violated",
    "Verif.Props.C81_marking_violated",
    "Verif.Props.C81_parameter_violated",
    "Verif.Props.C81_transmitter_violated",
    "Verif.Props.C81_unknown_parameter_violated",
    "Verif.Props.C81_witness"
   ],
   "note": "C81_again_partial: from any bits whatsoever; writable names exactly what is excluded (the rest of the reader's results fit the writer's fields: that is what is proved, for all 23 bodies). C81_exact_partial, C81_exact_chain_partial: unchanged, any number of times, if there is no location, beam or IFF layer. C81_chain_partial: the others are read every time too. The rest is violated by the code: C81_location_violated (every location but 0/0 changes), C81_locations_lost_violated (after eleven relays all locations are at 0/0), C81_altitude_violated, C81_marking_violated (Y becomes 9), C81_parameter_violated and C81_unknown_parameter_violated (uncompressed and unknown variable parameters), C81_transmitter_violated (no variable transmitter parameters). Also excluded without a refutation of their own here: emitter systems (C35_emitter_system_violated), variable datums of 2048 octets, layers 3 and 4 of IFF systems of no known kind."
  },
  {
   "property": "C82",
   "status": "partial",
   "theorems": [
    "Verif.Props.C82_datagram_partial",
    "Verif.Props.C82_datagram_witness",
    "Verif.Props.C82_datum_violated",
    "Verif.Props.C82_detonation_violated",
    "Verif.Props.C82_fire_violated",
    "Verif.Props.C82_iff_violated",
    "Verif.Props.C82_iff_witness",
    "Verif.Props.C82_modulation_violated",
    "Verif.Props.C82_other_violated",
    "Verif.Props.C82_other_witness",
    "Verif.Props.C82_padding_violated",
    "Verif.Props.C82_readable_partial",
    "Verif.Props.C82_reckoning_violated",
    "Verif.Props.C82_signal_violated",
    "Verif.Props.C82_undefined_partial",
    "Verif.Props.C82_witness"
   ],
   "note": "C82_readable_partial: any stream of C-DIS PDUs read from any bits, any options; each DIS PDU whose C-DIS PDU is presentable is read as it is, with any octets after it; C82_datagram_partial: whole datagrams after any history. Markings that DIS cannot carry and types without an appearance are excluded for the whole stream, because the decoder remembers them. All kinds with a C-DIS body are covered, and the types that DIS does not define (C82_undefined_partial). The rest is violated by the code: C82_modulation_violated (a transmitter that comes without modulation parameters), C82_reckoning_violated (dead reckoning without its other parameters), C82_fire_violated, C82_detonation_violated (descriptors not of the announced kind), C82_signal_violated (two of four encoding classes), C82_other_violated (the 50 types that DIS defines and C-DIS does not carry): in each case no octets at all are read as the PDU; C82_padding_violated (octets of radio data are left in front of the next PDU), C82_datum_violated (the same for datums, an example), C82_iff_violated (the same for Mode 5 data of a system of neither kind, an example)."
  }
 ]
}
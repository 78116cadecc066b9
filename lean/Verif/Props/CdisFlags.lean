import Verif.Props.CdisPdu
/-! # C35: the flags as written

The first bits of a body say which optional fields follow.  For the fields that share a flag the writer sets it only if all of them are
there; the fields themselves it writes one by one (which is why a body with one of two such fields cannot be read, C35_fire_violated). -/
namespace Verif.Props
open Verif Verif.Cdis

theorem take_flags (n v : Nat) (r : Cdis.Bits) : (wU n v ++ r).take n = (List.range n).reverse.map fun k => v.testBit k := by
  rw [← wU_eq_of_testBit, List.take_append_of_le_length (by simp), List.take_of_length_le (by simp)]

/-- spells the flags out -/
macro "flags_written" f:ident : tactic => `(tactic|
  (rw [take_flags]
   simp only [List.range_succ, List.range_zero, List.reverse_cons, List.reverse_nil, List.nil_append,
     List.cons_append, List.map_cons, List.map_nil]
   simp only [← has_bit]
   unfold $f
   simp only [List.cons.injEq, and_true]
   refine_lift ?_
   repeat' apply And.intro
   all_goals flag_bits))

theorem C35_fire_flags (v : Fire) : v.ser.take 4 = [v.fire_mission_index.isSome,
    v.descriptor_warhead.isSome && v.descriptor_fuze.isSome, v.descriptor_quantity.isSome && v.descriptor_rate.isSome,
    v.range.isSome] := by
  simp only [Fire.ser, List.append_assoc]
  flags_written Fire.fp

theorem C35_detonation_flags (v : Detonation) : v.ser.take 4 = [v.descriptor_warhead.isSome && v.descriptor_fuze.isSome,
    v.descriptor_quantity.isSome && v.descriptor_rate.isSome,
    v.descriptor_explosive_material.isSome && v.descriptor_explosive_force.isSome, !v.variable_parameters.isEmpty] := by
  simp only [Detonation.ser, List.append_assoc]
  flags_written Detonation.fp

theorem C35_designator_flags (v : Designator) : v.ser.take 4 =
    [v.designated_entity_id.isSome && v.spot_wrt_designated_entity.isSome,
     v.code_name.isSome && v.designator_code.isSome && v.designator_power.isSome && v.designator_wavelength.isSome,
     v.designator_spot_location.isSome, v.dr_algorithm.isSome && v.dr_entity_linear_acceleration.isSome] := by
  simp only [Designator.ser, List.append_assoc]
  flags_written Designator.fp
  all_goals rfl

theorem C35_transmitter_flags (v : Transmitter) : v.ser.take 8 =
    [v.radio_type.isSome, !v.variable_transmitter_parameters.isEmpty, v.antenna_location.isSome, v.relative_antenna_location.isSome,
     v.antenna_pattern_type.isSome && v.antenna_pattern.isSome,
     v.frequency.isSome && v.transmit_frequency_bandwidth.isSome && v.power.isSome && v.modulation_type.isSome,
     v.crypto_system.isSome && v.crypto_key_id.isSome, !v.modulation_parameters.isEmpty] := by
  simp only [Transmitter.ser, List.append_assoc]
  flags_written Transmitter.fp
  all_goals rfl

theorem C35_signal_flags (v : Signal) : v.ser.take 2 = [v.sample_rate.isSome, v.samples.isSome] := by
  simp only [Signal.ser, List.append_assoc]
  flags_written Signal.fp

theorem C35_iff_flags (v : Iff) : v.ser.take 12 = [v.event_id.isSome, v.relative_antenna_location.isSome, v.system_id.isSome,
    v.system_specific_data.isSome, v.operational.data_field_1.isSome, v.operational.data_field_2.isSome,
    v.operational.parameter_1.isSome, v.operational.parameter_2.isSome, v.operational.parameter_3.isSome,
    v.operational.parameter_4.isSome, v.operational.parameter_5.isSome, v.operational.parameter_6.isSome] := by
  simp only [Iff.ser, List.append_assoc]
  flags_written Iff.fp

theorem C35_data_query_flags (v : DataQuery) : v.ser.take 2 = [!v.fixed_datum_ids.isEmpty, !v.variable_datum_ids.isEmpty] := by
  simp only [DataQuery.ser, List.append_assoc]
  flags_written DataQuery.fp

theorem C35_action_flags (v : Action) : v.ser.take 2 = [!v.datums.fixed.isEmpty, !v.datums.var.isEmpty] := by
  simp only [Action.ser, List.append_assoc]
  flags_written Datums.fp
theorem C35_data_flags (v : DataBody) : v.ser.take 2 = [!v.datums.fixed.isEmpty, !v.datums.var.isEmpty] := by
  simp only [DataBody.ser, List.append_assoc]
  flags_written Datums.fp
theorem C35_comment_flags (v : Comment) : v.ser.take 2 = [!v.datums.fixed.isEmpty, !v.datums.var.isEmpty] := by
  simp only [Comment.ser, List.append_assoc]
  flags_written Datums.fp

end Verif.Props

import Verif.Cdis.Pdu
import Verif.Gateway.Codec

/-!
# The unit tests of the reading and writing of cdis-assemble, run on the model

These are tests, not proofs: each `example` repeats one `#[test]` of the repository (named above it, with its octets copied by a
script) and evaluates the model on it in Lean's kernel.
-/

namespace Verif.Conformance
open Verif.P Verif.Cdis

/-- the bits of octets, in the order the reader takes them -/
def bitsOf (l : List Nat) : Bits := l.flatMap (wU 8)
/-- bits written at the front of a buffer of zeros, compared with the first octets of the buffer -/
def inBuffer (bits : Bits) (octets : List Nat) : Bool :=
  decide ((bits ++ List.replicate (8 * octets.length - bits.length) false).take (8 * octets.length) = bitsOf octets)
/-- what a reader makes of the bits -/
def reads {α : Type} [DecidableEq α] (p : BitP α) (octets : List Nat) (v : α) : Bool :=
  match p.run (bitsOf octets) with
  | .ok a _ => decide (a = v)
  | _ => false

/-- cdis-assemble/src/types/parser.rs:109 `parse_uvint8_bit_flag_zero` -/
example : reads rUV8 [0b00001000] 1 = true := by decide +kernel

/-- cdis-assemble/src/types/parser.rs:118 `parse_uvint8_bit_flag_one` -/
example : reads rUV8 [0b11000000, 0b10000000] 129 = true := by decide +kernel

/-- cdis-assemble/src/types/parser.rs:127 `parse_uvint16_bit_flag_zero` -/
example : reads rUV16 [0b00000000, 0b01000000] 1 = true := by decide +kernel

/-- cdis-assemble/src/types/parser.rs:136 `parse_uvint16_bit_flag_three` -/
example : reads rUV16 [0b11011111, 0b11111111, 0b11000000] 32767 = true := by decide +kernel

/-- cdis-assemble/src/types/parser.rs:145 `parse_uvint32_bit_flag_zero` -/
example : reads rUV32 [0b00000000, 0b01000000] 1 = true := by decide +kernel

/-- cdis-assemble/src/types/parser.rs:154 `parse_uvint32_bit_flag_three` -/
example : reads rUV32 [0b11100000, 0b00000000, 0b00000000, 0b00000000, 0b01000000] 2147483649 = true := by decide +kernel

/-- cdis-assemble/src/types/parser.rs:163 `parse_svint12_bit_flag_zero_positive` -/
example : reads sv12.parse [0b00001000] 1 = true := by decide +kernel

/-- cdis-assemble/src/types/parser.rs:172 `parse_svint12_bit_flag_zero_negative` -/
example : reads sv12.parse [0b00100000] (-4) = true := by decide +kernel

/-- cdis-assemble/src/types/parser.rs:181 `parse_svint12_bit_flag_three_positive` -/
example : reads sv12.parse [0b11010000, 0b00000100] 1025 = true := by decide +kernel

/-- cdis-assemble/src/types/parser.rs:190 `parse_svint12_bit_flag_three_negative` -/
example : reads sv12.parse [0b11100000, 0b00000100] (-2047) = true := by decide +kernel

/-- cdis-assemble/src/types/writer.rs:122 `serialize_uvint8_bit_flag_zero` -/
example : inBuffer (wUV8 1) [0b00001000] = true := by decide +kernel

/-- cdis-assemble/src/types/writer.rs:133 `serialize_uvint8_bit_flag_one` -/
example : inBuffer (wUV8 129) [0b11000000, 0b10000000] = true := by decide +kernel

/-- cdis-assemble/src/types/writer.rs:144 `serialize_uvint16_bit_flag_zero` -/
example : inBuffer (wUV16 1) [0b00000000, 0b01000000] = true := by decide +kernel

/-- cdis-assemble/src/types/writer.rs:155 `serialize_uvint16_bit_flag_three` -/
example : inBuffer (wUV16 32767) [0b11011111, 0b11111111, 0b11000000] = true := by decide +kernel

/-- cdis-assemble/src/types/writer.rs:166 `serialize_svint12_bit_flag_zero_positive` -/
example : inBuffer (sv12.ser 1) [0b00001000] = true := by decide +kernel

/-- cdis-assemble/src/types/writer.rs:177 `serialize_svint12_bit_flag_zero_negative` -/
example : inBuffer (sv12.ser (-3)) [0b00101000] = true := by decide +kernel

/-- cdis-assemble/src/types/writer.rs:188 `serialize_svint12_bit_flag_three_positive` -/
example : inBuffer (sv12.ser 2047) [0b11011111, 0b11111100] = true := by decide +kernel

/-- cdis-assemble/src/types/writer.rs:199 `serialize_svint12_bit_flag_three_negative` -/
example : inBuffer (sv12.ser (-2047)) [0b11100000, 0b00000100] = true := by decide +kernel

/-- cdis-assemble/src/types/writer.rs:210 `serialize_cdis_float_one_and_one` -/
example : (ParameterValueFloat.ser ⟨1, 1, none⟩).length = 18 ∧ inBuffer (ParameterValueFloat.ser ⟨1, 1, none⟩) [0b00000000, 0b00000010, 0b01000000] = true := by decide +kernel

/-- cdis-assemble/src/parsing.rs:168 `take_signed_positive_min` -/
example : reads (rS 3) [0b00000000] 0 = true := by decide +kernel

/-- cdis-assemble/src/parsing.rs:176 `take_signed_positive_max` -/
example : reads (rS 3) [0b01100000] 3 = true := by decide +kernel

/-- cdis-assemble/src/parsing.rs:184 `take_signed_negative_min` -/
example : reads (rS 3) [0b10000000] (-4) = true := by decide +kernel

/-- cdis-assemble/src/parsing.rs:192 `take_signed_negative_max` -/
example : reads (rS 3) [0b11100000] (-1) = true := by decide +kernel

/-- cdis-assemble/src/parsing.rs:200 `field_present_u8_true` -/
example : has 0b00000010 0x2 = true := by decide +kernel

/-- cdis-assemble/src/parsing.rs:208 `field_present_u32_true` -/
example : has 0x02004010 0x10 = true := by decide +kernel

/-- cdis-assemble/src/parsing.rs:251 `field_present_u32_false` -/
example : has 0x02004010 0x01 = false := by decide +kernel

/-- cdis-assemble/src/parsing.rs:259 `field_present_u8_false` -/
example : has 0b00000100 0x2 = false := by decide +kernel

/-- cdis-assemble/src/parsing.rs:216 `parse_when_present_entity_id` -/
example : reads (rWhen (has 0b00000001 0x01) EntityId.parse) [0b00000000, 0b01000000, 0b00010000, 0b00000100] (some ⟨1, 1, 1⟩) = true := by decide +kernel

/-- cdis-assemble/src/parsing.rs:236 `parse_when_present_entity_id_not_present` -/
example : reads (rWhen (has 0b00010000 0x01) EntityId.parse) [0b00000000, 0b01000000, 0b00010000, 0b00000100] none = true := by decide +kernel

/-- cdis-assemble/src/writing.rs:124 `write_value_unsigned_zero` -/
example : (wU 6 0).length = 6 ∧ inBuffer (wU 6 0) [0x00] = true := by decide +kernel

/-- cdis-assemble/src/writing.rs:133 `write_value_unsigned_positive` -/
example : (wU 6 15).length = 6 ∧ inBuffer (wU 6 15) [0x3C] = true := by decide +kernel

/-- cdis-assemble/src/writing.rs:142 `write_value_signed_negative` -/
example : (wS 16 (-32768)).length = 16 ∧ inBuffer (wS 16 (-32768)) [0x80, 0x00] = true := by decide +kernel

/-- cdis-assemble/src/writing.rs:151 `write_value_signed_zero` -/
example : (wS 16 0).length = 16 ∧ inBuffer (wS 16 0) [0x00, 0x00] = true := by decide +kernel

/-- cdis-assemble/src/writing.rs:160 `write_value_signed_negative_positive` -/
example : (wS 16 32767).length = 16 ∧ inBuffer (wS 16 32767) [0x7F, 0xFF] = true := by decide +kernel

/-- cdis-assemble/src/writing.rs:169 `write_value_signed_full_bit_size` -/
example : (wS 16 (-1)).length = 16 ∧ inBuffer (wS 16 (-1)) [0xFF, 0xFF] = true := by decide +kernel

/-- cdis-assemble/src/records/parser.rs:532 `parse_cdis_header` -/
example : (match CdisHeader.parse.run (bitsOf [0b01001110, 0b00000010, 0b00000000, 0b00000000, 0b00000000, 0b00000000, 0b00000000, 0b00000000]) with
    | .ok h _ => decide (h.protocol_version = 1 ∧ h.exercise_id = 7 ∧ h.pdu_type = 1 ∧ h.timestamp = 0 ∧ h.length = 0)
    | _ => false) = true := by decide +kernel

/-- cdis-assemble/src/records/writer.rs:291 `serialize_marking_five_bit_encoding` -/
example : (Marking.new "ABCDE".toList).all (fun m => inBuffer m.ser [0b01010000, 0b01000100, 0b00110010, 0b00010100]) = true ∧ (Marking.new "ABCDE".toList).isSome = true := by decide +kernel

/-- cdis-assemble/src/records/writer.rs:302 `serialize_marking_six_bit_encoding` -/
example : (Marking.new "AAJJ".toList).all (fun m => inBuffer m.ser [0b01001000, 0b00100000, 0b10010100, 0b01010000]) = true ∧ (Marking.new "AAJJ".toList).isSome = true := by decide +kernel

/-- cdis-assemble/src/records/writer.rs:313 `serialize_cdis_header` -/
example : (CdisHeader.ser ⟨1, 7, 1, 0, 0, {}⟩).length = (CdisHeader.lenBits ⟨1, 7, 1, 0, 0, {}⟩) ∧
    inBuffer (CdisHeader.ser ⟨1, 7, 1, 0, 0, {}⟩) [0b01001110, 0b00000010, 0b00000000, 0b00000000, 0b00000000, 0b00000000, 0b00000000, 0b00000000] = true := by decide +kernel

/-- cdis-assemble/src/records/model.rs:1190 `cdis_char_encodings_five_bits` -/
example : ['\x00', 'A', '9', '*', 'a', '['].map CharEnc.five.codeOf = [0, 1, 31, 63, 63, 63] ∧
    [0, 1, 31, 63, 10].map CharEnc.five.charOf = ['\x00', 'A', '9', '*', 'L'] := by decide +kernel

/-- cdis-assemble/src/records/model.rs:1206 `cdis_char_encodings_six_bits` -/
example : ['\x00', 'A', 'a', '1', '$', '*', '['].map CharEnc.six.codeOf = [0, 1, 63, 31, 62, 63, 41] ∧
    [0, 1, 31, 58, 63].map CharEnc.six.charOf = ['\x00', 'A', '1', '\\', '*'] := by decide +kernel

/-- cdis-assemble/src/records/model.rs:1223 `cdis_marking_from_string_five_bits` -/
example : Marking.new "ABCDE".toList = some ⟨.five, "ABCDE".toList⟩ := by decide +kernel

/-- cdis-assemble/src/records/model.rs:1232 `cdis_marking_from_string_six_bits` -/
example : Marking.new "ABCDEJ".toList = some ⟨.six, "ABCDEJ".toList⟩ := by decide +kernel

/-- cdis-assemble/src/records/model.rs:1241 `cdis_marking_from_string_truncate` -/
example : Marking.new "ABCDEFGHIJKL".toList = some ⟨.six, "ABCDEFGHIJK".toList⟩ := by decide +kernel

/-- cdis-assemble/src/records/model.rs:1251 `cdis_marking_from_vec_u8_five_bit_codes` -/
example : [1, 2, 3, 4, 5].map CharEnc.five.charOf = "ABCDE".toList := by decide +kernel

/-- cdis-assemble/src/records/model.rs:1260 `cdis_marking_from_vec_u8_six_bit_codes` -/
example : [10, 11, 12, 13, 14].map CharEnc.six.charOf = "JKLMN".toList := by decide +kernel

/-- cdis-assemble/src/lib.rs:337 `ensure_supported_pdus` -/
example : (List.range 256).filter (fun t => Gateway.isImplemented t) = [1, 2, 3, 4, 11, 12, 13, 14, 15, 16, 17, 18, 19, 20, 21, 22, 23, 24, 25, 26, 27, 28] := by decide +kernel

/-- cdis-assemble/src/lib.rs:416 `validate_implemented_pdus` -/
example : [1, 2, 3, 4, 11, 12, 13, 14, 15, 16, 17, 18, 19, 20, 21, 22, 23, 24, 25, 26, 27, 28].all (fun t => Gateway.isImplemented t) = true := by decide +kernel

/-- cdis-assemble/src/collision/parser.rs:47 `parse_collision` -/
example : (match Collision.parse.run (bitsOf [0b00000000, 0b00010000, 0b00000100, 0b00000001, 0b00000000, 0b10000000, 0b00100000, 0b00001000, 0b00000001, 0b00000000,
    0b01000000, 0b00110000, 0b00000010, 0b00000000, 0b10000000, 0b00100011, 0b00100000, 0b00000010, 0b00000000, 0b10000000,
    0b00100000]) with
    | .ok v rest => decide (v = ⟨0, 0, ⟨1, 1, 1⟩, ⟨2, 2, 2⟩, ⟨1, 1, 3⟩, 0, ⟨1, 1, 1⟩, 100, ⟨1, 1, 1⟩⟩ ∧ rest.length = 8 - 3)
    | _ => false) = true := by decide +kernel

/-- cdis-assemble/src/collision/writer.rs:42 `serialize_collision` -/
example : (Collision.ser ⟨0, 0, ⟨1, 1, 1⟩, ⟨2, 2, 2⟩, ⟨1, 1, 3⟩, 0, ⟨1, 1, 1⟩, 100, ⟨1, 1, 1⟩⟩).length = Collision.lenBits ⟨0, 0, ⟨1, 1, 1⟩, ⟨2, 2, 2⟩, ⟨1, 1, 3⟩, 0, ⟨1, 1, 1⟩, 100, ⟨1, 1, 1⟩⟩ ∧
    inBuffer (Collision.ser ⟨0, 0, ⟨1, 1, 1⟩, ⟨2, 2, 2⟩, ⟨1, 1, 3⟩, 0, ⟨1, 1, 1⟩, 100, ⟨1, 1, 1⟩⟩) [0b00000000, 0b00010000, 0b00000100, 0b00000001, 0b00000000, 0b10000000, 0b00100000, 0b00001000, 0b00000001, 0b00000000,
    0b01000000, 0b00110000, 0b00000010, 0b00000000, 0b10000000, 0b00100011, 0b00100000, 0b00000010, 0b00000000, 0b10000000,
    0b00100000] = true := by decide +kernel

/-- cdis-assemble/src/designator/parser.rs:72 `parse_designator_no_fields_present` -/
example : (match Designator.parse.run (bitsOf [0b00000000, 0b00000000, 0b10000000, 0b00100000, 0b00001000]) with
    | .ok v rest => decide (rest.length = 8 - 5 ∧ v = ⟨0, 0, false, ⟨1, 1, 1⟩, none, none, none, none, none, none, none, none, none⟩)
    | _ => false) = true := by decide +kernel

/-- cdis-assemble/src/detonation/parser.rs:81 `parse_detonation_no_fields_present` -/
example : (match Detonation.parse.run (bitsOf [0b00001000, 0b00000001, 0b00000000, 0b01000000, 0b00010000, 0b00001000, 0b00000010, 0b00000000, 0b10000000, 0b00010000,
    0b00000100, 0b00000010, 0b00000000, 0b01000000, 0b00010000, 0b00001100, 0b00000001, 0b00000000, 0b01000000, 0b00010000,
    0b00000000, 0b00000000, 0b00000000, 0b00000000, 0b00000000, 0b00000000, 0b00000000, 0b00000000, 0b00000000, 0b00001001,
    0b00010000, 0b00000000, 0b00000000, 0b00000000, 0b00000000, 0b00000000, 0b00000000, 0b00000000, 0b00101000]) with
    | .ok v rest => decide (v = ⟨1, 0, ⟨1, 1, 1⟩, ⟨2, 2, 2⟩, ⟨1, 1, 2⟩, ⟨1, 1, 3⟩, ⟨1, 1, 1⟩, ⟨0, 0, 1⟩, ⟨2, 2, 0, 0, 0, 0, 0⟩, none, none, none, none, none, none, ⟨0, 0, 0⟩, 5, []⟩ ∧ rest.length = 8 - 5)
    | _ => false) = true := by decide +kernel

/-- cdis-assemble/src/detonation/writer.rs:59 `serialize_detonation_no_fields_present` -/
example : (Detonation.ser ⟨1, 0, ⟨1, 1, 1⟩, ⟨2, 2, 2⟩, ⟨1, 1, 2⟩, ⟨1, 1, 3⟩, ⟨1, 1, 1⟩, ⟨0, 0, 1⟩, ⟨2, 2, 0, 0, 0, 0, 0⟩, none, none, none, none, none, none, ⟨0, 0, 0⟩, 5, []⟩).length = Detonation.lenBits ⟨1, 0, ⟨1, 1, 1⟩, ⟨2, 2, 2⟩, ⟨1, 1, 2⟩, ⟨1, 1, 3⟩, ⟨1, 1, 1⟩, ⟨0, 0, 1⟩, ⟨2, 2, 0, 0, 0, 0, 0⟩, none, none, none, none, none, none, ⟨0, 0, 0⟩, 5, []⟩ ∧
    inBuffer (Detonation.ser ⟨1, 0, ⟨1, 1, 1⟩, ⟨2, 2, 2⟩, ⟨1, 1, 2⟩, ⟨1, 1, 3⟩, ⟨1, 1, 1⟩, ⟨0, 0, 1⟩, ⟨2, 2, 0, 0, 0, 0, 0⟩, none, none, none, none, none, none, ⟨0, 0, 0⟩, 5, []⟩) [0b00001000, 0b00000001, 0b00000000, 0b01000000, 0b00010000, 0b00001000, 0b00000010, 0b00000000, 0b10000000, 0b00010000,
    0b00000100, 0b00000010, 0b00000000, 0b01000000, 0b00010000, 0b00001100, 0b00000001, 0b00000000, 0b01000000, 0b00010000,
    0b00000000, 0b00000000, 0b00000000, 0b00000000, 0b00000000, 0b00000000, 0b00000000, 0b00000000, 0b00000000, 0b00001001,
    0b00010000, 0b00000000, 0b00000000, 0b00000000, 0b00000000, 0b00000000, 0b00000000, 0b00000000, 0b00101000] = true := by decide +kernel

/-- cdis-assemble/src/entity_state/parser.rs:97 `parse_entity_state_no_fields_present` -/
example : (match EntityState.parse.run (bitsOf [0b00000000, 0b00000100, 0b00000001, 0b10000000, 0b01100000, 0b00011000, 0b00000000]) with
    | .ok v rest => decide (rest.length = 8 - 1 ∧ v.units = 1 ∧ v.entity_id = ⟨3, 3, 3⟩ ∧ v.full_update_flag = false)
    | _ => false) = true := by decide +kernel

/-- cdis-assemble/src/entity_state/writer.rs:66 `serialize_entity_state_no_fields_present` -/
example : (match Marking.new "TEST".toList with
    | some m =>
      let v : EntityState := ⟨1, false, ⟨10, 10, 10⟩, some 1, some ⟨1, 2, 1, 1, 1, 1, 1⟩, none, some ⟨5, 5, -5⟩, some ⟨52, 5, 1000⟩,
        some ⟨4, 3, 2⟩, none, 2, none, none, none, some m, some 0xABC00000, []⟩
      decide (v.ser.length = v.lenBits) && inBuffer v.ser [0b10101110, 0b00011100, 0b00000101, 0b00000001, 0b01000000]
    | none => false) = true := by decide +kernel

/-- cdis-assemble/src/fire/parser.rs:67 `parse_fire_no_fields_present` -/
example : (match Fire.parse.run (bitsOf [0b00001000, 0b00000010, 0b00000000, 0b10000000, 0b00100000, 0b00010000, 0b00000100, 0b00000001, 0b00000000, 0b00100000,
    0b00001000, 0b00000100, 0b00000000, 0b10000000, 0b00100000, 0b00011000, 0b00000000, 0b00000000, 0b00000000, 0b00000000,
    0b00000000, 0b00000000, 0b00000000, 0b00000000, 0b00000000, 0b00000100, 0b10001000, 0b00000000, 0b00000000, 0b00000000,
    0b00000000, 0b00001000, 0b00000010, 0b00000000, 0b10000000]) with
    | .ok v rest => decide (v = ⟨1, ⟨1, 1, 1⟩, ⟨2, 2, 2⟩, ⟨1, 1, 2⟩, ⟨1, 1, 3⟩, none, ⟨0, 0, 1⟩, ⟨2, 2, 0, 0, 0, 0, 0⟩, none, none, none, none, ⟨1, 1, 1⟩, none⟩ ∧ rest.length = 8 - 1)
    | _ => false) = true := by decide +kernel

/-- cdis-assemble/src/fire/writer.rs:46 `serialize_fire_no_fields_present` -/
example : (Fire.ser ⟨1, ⟨1, 1, 1⟩, ⟨2, 2, 2⟩, ⟨1, 1, 2⟩, ⟨1, 1, 3⟩, none, ⟨0, 0, 1⟩, ⟨2, 2, 0, 0, 0, 0, 0⟩, none, none, none, none, ⟨1, 1, 1⟩, none⟩).length = Fire.lenBits ⟨1, ⟨1, 1, 1⟩, ⟨2, 2, 2⟩, ⟨1, 1, 2⟩, ⟨1, 1, 3⟩, none, ⟨0, 0, 1⟩, ⟨2, 2, 0, 0, 0, 0, 0⟩, none, none, none, none, ⟨1, 1, 1⟩, none⟩ ∧
    inBuffer (Fire.ser ⟨1, ⟨1, 1, 1⟩, ⟨2, 2, 2⟩, ⟨1, 1, 2⟩, ⟨1, 1, 3⟩, none, ⟨0, 0, 1⟩, ⟨2, 2, 0, 0, 0, 0, 0⟩, none, none, none, none, ⟨1, 1, 1⟩, none⟩) [0b00001000, 0b00000010, 0b00000000, 0b10000000, 0b00100000, 0b00010000, 0b00000100, 0b00000001, 0b00000000, 0b00100000,
    0b00001000, 0b00000100, 0b00000000, 0b10000000, 0b00100000, 0b00011000, 0b00000000, 0b00000000, 0b00000000, 0b00000000,
    0b00000000, 0b00000000, 0b00000000, 0b00000000, 0b00000000, 0b00000100, 0b10001000, 0b00000000, 0b00000000, 0b00000000,
    0b00000000, 0b00001000, 0b00000010, 0b00000000, 0b10000000] = true := by decide +kernel

end Verif.Conformance

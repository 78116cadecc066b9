import Verif.Dis.Scan
import Verif.Dis.Text
import Verif.Dis.Builders
import Verif.Dis.Write
import Verif.Core.Ieee
import Verif.Props.Bodies

/-!
# The unit tests of dis-rs, run on the model

These are tests, not proofs of any property: each `example` repeats one `#[test]` of the repository (named in the comment above it,
with its octets copied by a script) and evaluates the model on it in Lean's kernel.  They are evidence that the model is the
program; the theorems are elsewhere.  Enumerations are written as their numbers; the meaning of the bits of an appearance record
(an external SISO table, see DESIGN.md) is compared only as the 32-bit word and the class.
-/

namespace Verif.Conformance
open Verif.P Verif.Dis Verif.Props

/-- the octets of a text -/
def text (s : String) : Bytes := s.toUTF8.toList
/-- the number nearest to a decimal literal, `f64` -/
def lit64 (q : Rat) : UInt64 := UInt64.ofNat (Fl.toBits F64 (F64.round q))
/-- the number nearest to a decimal literal, `f32` -/
def lit32 (q : Rat) : UInt32 := UInt32.ofNat (Fl.toBits F32 (F32.round q))

/-- dis-rs/src/common/parser.rs:763 `parse_header` -/
example : (match parseHeader [0x06, 0x01, 0x01, 0x01, 0x4e, 0xea, 0x3b, 0x60, 0x00, 0x0c, 0x00, 0x00] with
    | .ok h => decide (h.protocol_version = 6 ∧ h.exercise_id = 1 ∧ h.pdu_type = 1 ∧ h.protocol_family = 1 ∧ h.time_stamp = 1323973472 ∧ h.pdu_length = 12)
    | _ => false) = true := by decide +kernel

/-- dis-rs/src/common/parser.rs:778 `parse_header_too_short` -/
example : (match parseHeader [0x06, 0x01, 0x01, 0x01, 0x4e, 0xea, 0x3b, 0x60, 0x00, 0x60] with
    | .error e => decide (e = .insufficientHeaderLength 10)
    | _ => false) = true := by decide +kernel

/-- dis-rs/src/common/parser.rs:788 `parse_header_unspecified_version` -/
example : (match parseHeader [0x1f, 0x01, 0x01, 0x01, 0x4e, 0xea, 0x3b, 0x60, 0x00, 0x0c, 0x00, 0x00] with
    | .ok h => decide (h.protocol_version = 31 ∧ h.exercise_id = 1 ∧ h.pdu_type = 1 ∧ h.protocol_family = 1 ∧ h.time_stamp = 1323973472 ∧ h.pdu_length = 12)
    | _ => false) = true := by decide +kernel

/-- dis-rs/src/common/parser.rs:803 `parse_header_body_too_short` -/
example : (match parseHeader [0x06, 0x01, 0x01, 0x01, 0x4e, 0xea, 0x3b, 0x60, 0x00, 0xd0, 0x00, 0x00, 0x01, 0xf4] with
    | .error e => decide (e = .insufficientPduLength (208 - 12) 2)
    | _ => false) = true := by decide +kernel

/-- dis-rs/src/common/parser.rs:815 `parse_multiple_headers` -/
example : (match parseMultipleHeader [0x06, 0x01, 0x01, 0x01, 0x4e, 0xea, 0x3b, 0x60, 0x00, 0x0c, 0x00, 0x00, 0x06, 0x01, 0x01, 0x01,
    0x4e, 0xea, 0x3b, 0x60, 0x00, 0x0c, 0x00, 0x00] with
    | .ok hs => decide (hs.length = 2)
    | _ => false) = true := by decide +kernel

/-- dis-rs/src/common/parser.rs:826 `parse_multiple_headers_1st_too_short` -/
example : (match parseMultipleHeader [0x06, 0x01, 0x01, 0x01, 0x4e, 0xea, 0x3b, 0x60, 0x00, 0x0c, 0x00, 0x06, 0x01, 0x01, 0x01, 0x4e,
    0xea, 0x3b, 0x60, 0x00, 0x0c, 0x00, 0x00] with
    | .ok hs => decide (hs.length = 1 ∧ hs.all (fun h => h.padding ≠ 0))
    | _ => false) = true := by decide +kernel

/-- dis-rs/src/common/parser.rs:840 `parse_multiple_headers_too_short` -/
example : (match parseMultipleHeader [0x06, 0x01, 0x01, 0x01, 0x4e, 0xea, 0x3b, 0x60, 0x00, 0x60, 0x00] with
    | .error e => decide (e = .insufficientHeaderLength 11)
    | _ => false) = true := by decide +kernel

/-- dis-rs/src/common/parser.rs:851 `skip_body_total_length_cannot_contain_a_header` -/
example : (match (P.take (2 - 12) : BP Bytes).run [0x00, 0x00] with
    | .ok skipped input => decide (input = [0, 0] ∧ skipped = [])
    | _ => false) = true := by decide +kernel

/-- dis-rs/src/common/entity_state/parser.rs:199 `parse_pdu_entity_state` -/
example : (match (pdu sampleEnv).run [0x06, 0x01, 0x01, 0x01, 0x4e, 0xea, 0x3b, 0x60, 0x00, 0xd0, 0x00, 0x00, 0x01, 0xf4, 0x03, 0x84,
    0x00, 0x0e, 0x01, 0x04, 0x01, 0x02, 0x00, 0x99, 0x32, 0x04, 0x04, 0x00, 0x01, 0x02, 0x00, 0x99,
    0x32, 0x04, 0x04, 0x00, 0x80, 0x00, 0x00, 0x00, 0x00, 0x00, 0x00, 0x00, 0x00, 0x00, 0x00, 0x00,
    0x41, 0x50, 0xc4, 0x1a, 0xde, 0xa4, 0xbe, 0xcc, 0x41, 0x50, 0xc9, 0xfa, 0x13, 0x3c, 0xf0, 0x5d,
    0x41, 0x35, 0x79, 0x16, 0x9e, 0x7a, 0x16, 0x78, 0xbf, 0x3e, 0xdd, 0xfa, 0x3e, 0x2e, 0x36, 0xdd,
    0x3f, 0xe6, 0x27, 0xc9, 0x00, 0x40, 0x00, 0x00, 0x04, 0x00, 0x00, 0x00, 0x00, 0x00, 0x00, 0x00,
    0x00, 0x00, 0x00, 0x00, 0x00, 0x00, 0x00, 0x00, 0x80, 0x00, 0x00, 0x00, 0x00, 0x00, 0x00, 0x00,
    0x00, 0x00, 0x00, 0x00, 0x80, 0x00, 0x00, 0x00, 0x00, 0x00, 0x00, 0x00, 0x00, 0x00, 0x00, 0x00,
    0x01, 0x45, 0x59, 0x45, 0x20, 0x31, 0x30, 0x20, 0x20, 0x20, 0x20, 0x20, 0x00, 0x00, 0x00, 0x00,
    0x00, 0x00, 0x00, 0x00, 0x00, 0x00, 0x0c, 0x01, 0x3f, 0x80, 0x00, 0x00, 0x00, 0x00, 0x00, 0x00,
    0x00, 0x00, 0x00, 0x00, 0x00, 0x00, 0x10, 0x0b, 0x00, 0x00, 0x00, 0x00, 0x00, 0x00, 0x00, 0x00,
    0x00, 0x00, 0x00, 0x00, 0x00, 0x00, 0x10, 0x0c, 0x00, 0x00, 0x00, 0x00, 0x00, 0x00, 0x00, 0x00,
    0x00, 0x00, 0x00, 0x00, 0x00, 0x00, 0x11, 0x4d, 0x00, 0x00, 0x00, 0x00, 0x00, 0x00, 0x00, 0x00] with
    | .ok ⟨h, .entityState p⟩ _ => decide (
        h.pdu_type = 1 ∧ h.pdu_length = 208 ∧
        p.entity_id = ⟨⟨500, 900⟩, 14⟩ ∧ p.force_id = 1 ∧ p.variable_parameters.length = 4 ∧
        p.entity_type = ⟨1, 2, 153, 50, 4, 4, 0⟩ ∧
        p.entity_appearance.cls = .airPlatform ∧ p.entity_appearance.raw = 0x00400000 ∧
        p.dead_reckoning_parameters.algorithm = 4 ∧ p.entity_marking.marking_string = text "EYE 10" ∧
        p.entity_capabilities.toV6 = ⟨false, false, false, false⟩ ∧
        p.variable_parameters.head? = some (.articulated ⟨0, 0, 1, 3072, lit32 1⟩))
    | _ => false) = true := by decide +kernel

/-- dis-rs/src/common/entity_state/parser.rs:281 `parse_entity_location` -/
example : (match Location.parse.run [0x41, 0x50, 0xc4, 0x1a, 0xde, 0xa4, 0xbe, 0xcc, 0x41, 0x50, 0xc9, 0xfa, 0x13, 0x3c, 0xf0, 0x5d,
    0x41, 0x35, 0x79, 0x16, 0x9e, 0x7a, 0x16, 0x78] with
    | .ok l r => decide (r = [] ∧ l = ⟨lit64 4395115.478805255, lit64 4401128.300594416, lit64 1407254.6190504115⟩)
    | _ => false) = true := by decide +kernel

/-- dis-rs/src/common/entity_state/parser.rs:295 `parse_marking_ascii` -/
example : (match (EntityMarking.parse sampleEnv).run [0x01, 0x45, 0x59, 0x45, 0x20, 0x31, 0x30, 0x20, 0x20, 0x20, 0x20, 0x20] with
    | .ok m r => decide (r = [] ∧ m = ⟨1, text "EYE 10"⟩)
    | _ => false) = true := by decide +kernel

/-- dis-rs/src/common/entity_state/parser.rs:308 `parse_marking_trailing_control_chars` -/
example : (match (EntityMarking.parse sampleEnv).run [0x01, 0x45, 0x59, 0x45, 0x20, 0x31, 0x30, 0x00, 0x00, 0x00, 0x00, 0x00] with
    | .ok m r => decide (r = [] ∧ m = ⟨1, text "EYE 10"⟩)
    | _ => false) = true := by decide +kernel

/-- dis-rs/src/common/entity_state/parser.rs:321 `parse_appearance_none` -/
example : (match (EntityAppearance.parse sampleEnv ⟨1, 2, 0, 0, 0, 0, 0⟩).run [0x00, 0x00, 0x00, 0x00] with
    | .ok a r => decide (r = [] ∧ a = ⟨.airPlatform, 0⟩)
    | _ => false) = true := by decide +kernel

/-- dis-rs/src/common/entity_state/parser.rs:346 `parse_appearance_emitting_engine_smoke` -/
example : (match (EntityAppearance.parse sampleEnv ⟨1, 2, 0, 0, 0, 0, 0⟩).run [0x06, 0x00, 0x00, 0x00] with
    | .ok a r => decide (r = [] ∧ a = ⟨.airPlatform, 0x06000000⟩)
    | _ => false) = true := by decide +kernel

/-- dis-rs/src/common/entity_state/parser.rs:364 `parse_entity_capabilities_none` -/
example : (match CapabilitiesV6.parse.run [0x00, 0x00, 0x00, 0x00] with
    | .ok c r => decide (r = [] ∧ c = ⟨false, false, false, false⟩)
    | _ => false) = true := by decide +kernel

/-- dis-rs/src/common/entity_state/parser.rs:379 `parse_articulated_parameter_gun1_azimuth` -/
example : (match VariableParameter.parse.run [0x00, 0x00, 0x00, 0x00, 0x00, 0x00, 0x10, 0x0b, 0x00, 0x00, 0x00, 0x00, 0x00, 0x00, 0x00, 0x00] with
    | .ok (.articulated p) r => decide (r = [] ∧ p.change_indicator = 0 ∧ p.attachment_id = 0 ∧ p.type_class = 4096 ∧ p.type_metric = 11)
    | _ => false) = true := by decide +kernel

/-- dis-rs/src/common/entity_state/parser.rs:403 `parse_articulated_parameter_landing_gear_down` -/
example : (match VariableParameter.parse.run [0x00, 0x00, 0x00, 0x00, 0x00, 0x00, 0x0c, 0x01, 0x3f, 0x80, 0x00, 0x00, 0x00, 0x00, 0x00, 0x00] with
    | .ok (.articulated p) r => decide (r = [] ∧ p = ⟨0, 0, 1, 3072, lit32 1⟩)
    | _ => false) = true := by decide +kernel

/-- dis-rs/src/common/entity_state/writer.rs:148 `entity_marking` -/
example : EntityMarking.ser ⟨1, text "EYE 10"⟩ = [0x01, 0x45, 0x59, 0x45, 0x20, 0x31, 0x30, 0x20, 0x20, 0x20, 0x20, 0x20] := by decide +kernel

/-- dis-rs/src/common/entity_state/writer.rs:162 `articulated_part` -/
example : VariableParameter.ser (.articulated ⟨0, 0, 1, 3072, lit32 1⟩) = [0x00, 0x00, 0x00, 0x00, 0x00, 0x00, 0x0c, 0x01, 0x3f, 0x80, 0x00, 0x00, 0x00, 0x00, 0x00, 0x00] := by decide +kernel

/-- dis-rs/src/common/entity_state/writer.rs:181 `entity_state_pdu` -/
example : (Pdu.finalizeFromParts (.new_v6 1 1) (.entityState
      { entity_id := ⟨⟨500, 900⟩, 14⟩
        force_id := 1
        entity_type := ⟨1, 2, 153, 50, 4, 4, 0⟩
        alternative_entity_type := ⟨1, 2, 153, 50, 4, 4, 0⟩
        entity_linear_velocity := ⟨0, 0, 0⟩
        entity_location := ⟨0, 0, 0⟩
        entity_orientation := ⟨0, 0, 0⟩
        entity_appearance := ⟨.airPlatform, 0x04000000⟩
        dead_reckoning_parameters := ⟨4, .none (List.replicate 15 0), ⟨0, 0, 0⟩, ⟨0, 0, 0⟩⟩
        entity_marking := ⟨1, text "EYE 10"⟩
        entity_capabilities := .ofV6 ⟨false, false, false, false⟩
        variable_parameters := [.articulated ⟨0, 0, 1, 3072, lit32 1⟩, .articulated ⟨0, 0, 11, 4096, lit32 2⟩,
          .articulated ⟨0, 0, 12, 4096, lit32 3⟩, .articulated ⟨0, 0, 13, 4416, lit32 4⟩] }) 0).ser =
    [0x06, 0x01, 0x01, 0x01, 0x00, 0x00, 0x00, 0x00, 0x00, 0xd0, 0x00, 0x00, 0x01, 0xf4, 0x03, 0x84,
    0x00, 0x0e, 0x01, 0x04, 0x01, 0x02, 0x00, 0x99, 0x32, 0x04, 0x04, 0x00, 0x01, 0x02, 0x00, 0x99,
    0x32, 0x04, 0x04, 0x00, 0x00, 0x00, 0x00, 0x00, 0x00, 0x00, 0x00, 0x00, 0x00, 0x00, 0x00, 0x00,
    0x00, 0x00, 0x00, 0x00, 0x00, 0x00, 0x00, 0x00, 0x00, 0x00, 0x00, 0x00, 0x00, 0x00, 0x00, 0x00,
    0x00, 0x00, 0x00, 0x00, 0x00, 0x00, 0x00, 0x00, 0x00, 0x00, 0x00, 0x00, 0x00, 0x00, 0x00, 0x00,
    0x00, 0x00, 0x00, 0x00, 0x04, 0x00, 0x00, 0x00, 0x04, 0x00, 0x00, 0x00, 0x00, 0x00, 0x00, 0x00,
    0x00, 0x00, 0x00, 0x00, 0x00, 0x00, 0x00, 0x00, 0x00, 0x00, 0x00, 0x00, 0x00, 0x00, 0x00, 0x00,
    0x00, 0x00, 0x00, 0x00, 0x00, 0x00, 0x00, 0x00, 0x00, 0x00, 0x00, 0x00, 0x00, 0x00, 0x00, 0x00,
    0x01, 0x45, 0x59, 0x45, 0x20, 0x31, 0x30, 0x20, 0x20, 0x20, 0x20, 0x20, 0x00, 0x00, 0x00, 0x00,
    0x00, 0x00, 0x00, 0x00, 0x00, 0x00, 0x0c, 0x01, 0x3f, 0x80, 0x00, 0x00, 0x00, 0x00, 0x00, 0x00,
    0x00, 0x00, 0x00, 0x00, 0x00, 0x00, 0x10, 0x0b, 0x40, 0x00, 0x00, 0x00, 0x00, 0x00, 0x00, 0x00,
    0x00, 0x00, 0x00, 0x00, 0x00, 0x00, 0x10, 0x0c, 0x40, 0x40, 0x00, 0x00, 0x00, 0x00, 0x00, 0x00,
    0x00, 0x00, 0x00, 0x00, 0x00, 0x00, 0x11, 0x4d, 0x40, 0x80, 0x00, 0x00, 0x00, 0x00, 0x00, 0x00] := by decide +kernel

/-- dis-rs/src/common/writer.rs:401 `serialize_header` -/
example : ((PduHeader.new_v6 1 1).calls true [.with_time_stamp 10, .with_length 0]).map PduHeader.ser =
    some [0x06, 0x01, 0x01, 0x01, 0x00, 0x00, 0x00, 0x0a, 0x00, 0x0c, 0x00, 0x00] := by decide +kernel

/-- dis-rs/src/common/writer.rs:414 `serialize_header_v7_no_status` -/
example : ((PduHeader.new_v7 1 1).calls true [.with_time_stamp 10, .with_length 0]).map PduHeader.ser =
    some [0x07, 0x01, 0x01, 0x01, 0x00, 0x00, 0x00, 0x0a, 0x00, 0x0c, 0x00, 0x00] := by decide +kernel

/-- dis-rs/src/common/writer.rs:427 `serialize_header_v7_with_status` -/
example : ((PduHeader.new_v7 1 1).calls true [.with_time_stamp 10, .with_length 0,
      .with_pdu_status (PduStatus.built [.with_lvc_indicator 1])]).map PduHeader.ser =
    some [0x07, 0x01, 0x01, 0x01, 0x00, 0x00, 0x00, 0x0a, 0x00, 0x0c, 0x02, 0x00] := by decide +kernel

/-- dis-rs/src/common/other/parser.rs:130 `parse_other_body` -/
example : (match ((PduHeader.new_v6 1 0).calls true [.with_time_stamp 0, .with_length 10]).map fun h => (Other.parse h.pdu_length).run [0x01, 0x00, 0x00, 0x00, 0x00, 0x00, 0x00, 0x00, 0x00, 0x00] with
    | some (.ok p r) => decide (r = [] ∧ p.body.length = 10 ∧ p.body.head? = some 1)
    | _ => false) = true := by decide +kernel

/-- dis-rs/src/common/other/writer.rs:23 `serialize_other_pdu` -/
example : (match (Pdu.finalizeFromParts (.new_v6 1 0) (.other ⟨none, none, [1, 2, 3]⟩) 10).serialize [] 15 with
    | .ok (buf, wire_size) => decide (wire_size = 15 ∧ buf = [0x06, 0x01, 0x00, 0x00, 0x00, 0x00, 0x00, 0x0a, 0x00, 0x0f, 0x00, 0x00, 0x01, 0x02, 0x03])
    | _ => false) = true := by decide +kernel

/-- dis-rs/src/common/electromagnetic_emission/parser.rs:131 `parse_pdu_emission_basic` -/
example : (match (pdu sampleEnv).run [0x06, 0x01, 0x17, 0x06, 0xaa, 0x58, 0xbe, 0xc1, 0x00, 0x30, 0x00, 0x00, 0x01, 0xf4, 0x2b, 0x67,
    0x00, 0x27, 0x01, 0xf4, 0x2b, 0x67, 0x01, 0xd2, 0x00, 0x01, 0x00, 0x00, 0x05, 0x00, 0x00, 0x00,
    0x4d, 0x58, 0x02, 0x01, 0x00, 0x00, 0x00, 0x00, 0x00, 0x00, 0x00, 0x00, 0x41, 0x70, 0x00, 0x00] with
    | .ok ⟨h, .electromagneticEmission p⟩ _ => decide (
        h.pdu_type = 23 ∧ h.pdu_length = 48 ∧ p.emitting_entity_id = ⟨⟨500, 11111⟩, 39⟩ ∧
        p.emitter_systems.map (fun e => (e.name, e.function, e.number, e.location)) = [(19800, 2, 1, ⟨0, 0, lit32 15⟩)])
    | _ => false) = true := by decide +kernel

/-- dis-rs/src/common/electromagnetic_emission/parser.rs:159 `parse_pdu_emission_with_tracks` -/
example : (match (pdu sampleEnv).run [0x06, 0x01, 0x17, 0x06, 0xb4, 0x97, 0xa2, 0xe3, 0x00, 0xe4, 0x00, 0x00, 0x01, 0xf4, 0x2b, 0x67,
    0x00, 0x3e, 0x01, 0xf4, 0x2b, 0x67, 0x02, 0x41, 0x00, 0x01, 0x00, 0x00, 0x32, 0x03, 0x00, 0x00,
    0x7d, 0xaf, 0x01, 0x01, 0x00, 0x00, 0x00, 0x00, 0x00, 0x00, 0x00, 0x00, 0x40, 0xa0, 0x00, 0x00,
    0x0f, 0x02, 0x00, 0x7a, 0x4f, 0xb2, 0xd0, 0x5e, 0x00, 0x00, 0x00, 0x00, 0x42, 0xf0, 0x00, 0x00,
    0x00, 0x00, 0x00, 0x00, 0x00, 0x00, 0x00, 0x00, 0x3e, 0x05, 0xd5, 0xff, 0x3c, 0x0e, 0xfa, 0x35,
    0x3f, 0x30, 0x95, 0x12, 0x3c, 0x0e, 0xfa, 0x35, 0x00, 0x00, 0x00, 0x00, 0x07, 0x01, 0x00, 0x00,
    0x00, 0x00, 0x00, 0x00, 0x01, 0xf4, 0x2b, 0x67, 0x00, 0x47, 0x00, 0x00, 0x0f, 0x01, 0x00, 0x64,
    0x4f, 0xb2, 0xd0, 0x5e, 0x00, 0x00, 0x00, 0x00, 0x42, 0xf0, 0x00, 0x00, 0x45, 0x9c, 0x40, 0x00,
    0x42, 0x48, 0x00, 0x00, 0x3e, 0x05, 0xd6, 0x14, 0x3c, 0x0e, 0xfa, 0x35, 0x3f, 0x30, 0x95, 0x54,
    0x3c, 0x0e, 0xfa, 0x35, 0x00, 0x00, 0x00, 0x00, 0x04, 0x01, 0x00, 0x00, 0x00, 0x00, 0x00, 0x00,
    0x01, 0xf4, 0x2b, 0x67, 0x00, 0x47, 0x00, 0x00, 0x0f, 0x03, 0x00, 0xd4, 0x4f, 0xb2, 0xd0, 0x5e,
    0x00, 0x00, 0x00, 0x00, 0x42, 0xf0, 0x00, 0x00, 0x43, 0xbb, 0x8c, 0x01, 0x40, 0xa0, 0x00, 0x00,
    0x3e, 0x05, 0xd6, 0x14, 0x3c, 0x0e, 0xfa, 0x35, 0x3f, 0x30, 0x95, 0x54, 0x3c, 0x0e, 0xfa, 0x35,
    0x00, 0x00, 0x00, 0x00, 0x06, 0x01, 0x00, 0x00, 0x00, 0x00, 0x00, 0x00, 0x01, 0xf4, 0x2b, 0x67,
    0x00, 0x47, 0x00, 0x00] with
    | .ok ⟨h, .electromagneticEmission p⟩ _ => decide (
        h.pdu_type = 23 ∧ h.pdu_length = 228 ∧ p.emitting_entity_id = ⟨⟨500, 11111⟩, 62⟩ ∧
        p.emitter_systems.map (fun e => (e.name, e.function, e.number, e.location, e.beams.length)) = [(32175, 1, 1, ⟨0, 0, lit32 5⟩, 3)] ∧
        (p.emitter_systems.flatMap (·.beams)).head?.any (fun b => decide (b.number = 2 ∧ b.parameter_index = 122 ∧
          b.beam_function = 7 ∧ b.high_density_track_jam = 0 ∧ b.track_jam_data = [⟨⟨⟨500, 11111⟩, 71⟩, 0, 0⟩])))
    | _ => false) = true := by decide +kernel

/-- dis-rs/src/common/electromagnetic_emission/writer.rs:103 `write_pdu_emission_with_tracks` -/
example : (match (Pdu.finalizeFromParts (.new_v6 1 23) (.electromagneticEmission
      ⟨⟨⟨500, 11111⟩, 62⟩, ⟨⟨500, 11111⟩, 577⟩, 0, [⟨32175, 1, 1, ⟨0, 0, lit32 5⟩,
        [⟨2, 122, ⟨lit32 6000000000, 0, 0x42f00000, 0, 0⟩, ⟨0x3e05d5ff, 0x3c0efa35, 0x3f309512, 0x3c0efa35, 0⟩, 7, 0, 0, ⟨0, 0, 0, 0⟩, [⟨⟨⟨500, 11111⟩, 71⟩, 0, 0⟩]⟩,
         ⟨1, 100, ⟨lit32 6000000000, 0, 0x42f00000, 0x459c4000, 0x42480000⟩, ⟨0x3e05d614, 0x3c0efa35, 0x3f309554, 0x3c0efa35, 0⟩, 4, 0, 0, ⟨0, 0, 0, 0⟩, [⟨⟨⟨500, 11111⟩, 71⟩, 0, 0⟩]⟩,
         ⟨3, 212, ⟨lit32 6000000000, 0, 0x42f00000, 0x43bb8c01, 0x40a00000⟩, ⟨0x3e05d614, 0x3c0efa35, 0x3f309554, 0x3c0efa35, 0⟩, 6, 0, 0, ⟨0, 0, 0, 0⟩, [⟨⟨⟨500, 11111⟩, 71⟩, 0, 0⟩]⟩]⟩]⟩) 0).serialize [] 228 with
    | .ok (buf, len) => decide (len = 228 ∧ buf = [0x06, 0x01, 0x17, 0x06, 0x00, 0x00, 0x00, 0x00, 0x00, 0xe4, 0x00, 0x00, 0x01, 0xf4, 0x2b, 0x67,
    0x00, 0x3e, 0x01, 0xf4, 0x2b, 0x67, 0x02, 0x41, 0x00, 0x01, 0x00, 0x00, 0x32, 0x03, 0x00, 0x00,
    0x7d, 0xaf, 0x01, 0x01, 0x00, 0x00, 0x00, 0x00, 0x00, 0x00, 0x00, 0x00, 0x40, 0xa0, 0x00, 0x00,
    0x0f, 0x02, 0x00, 0x7a, 0x4f, 0xb2, 0xd0, 0x5e, 0x00, 0x00, 0x00, 0x00, 0x42, 0xf0, 0x00, 0x00,
    0x00, 0x00, 0x00, 0x00, 0x00, 0x00, 0x00, 0x00, 0x3e, 0x05, 0xd5, 0xff, 0x3c, 0x0e, 0xfa, 0x35,
    0x3f, 0x30, 0x95, 0x12, 0x3c, 0x0e, 0xfa, 0x35, 0x00, 0x00, 0x00, 0x00, 0x07, 0x01, 0x00, 0x00,
    0x00, 0x00, 0x00, 0x00, 0x01, 0xf4, 0x2b, 0x67, 0x00, 0x47, 0x00, 0x00, 0x0f, 0x01, 0x00, 0x64,
    0x4f, 0xb2, 0xd0, 0x5e, 0x00, 0x00, 0x00, 0x00, 0x42, 0xf0, 0x00, 0x00, 0x45, 0x9c, 0x40, 0x00,
    0x42, 0x48, 0x00, 0x00, 0x3e, 0x05, 0xd6, 0x14, 0x3c, 0x0e, 0xfa, 0x35, 0x3f, 0x30, 0x95, 0x54,
    0x3c, 0x0e, 0xfa, 0x35, 0x00, 0x00, 0x00, 0x00, 0x04, 0x01, 0x00, 0x00, 0x00, 0x00, 0x00, 0x00,
    0x01, 0xf4, 0x2b, 0x67, 0x00, 0x47, 0x00, 0x00, 0x0f, 0x03, 0x00, 0xd4, 0x4f, 0xb2, 0xd0, 0x5e,
    0x00, 0x00, 0x00, 0x00, 0x42, 0xf0, 0x00, 0x00, 0x43, 0xbb, 0x8c, 0x01, 0x40, 0xa0, 0x00, 0x00,
    0x3e, 0x05, 0xd6, 0x14, 0x3c, 0x0e, 0xfa, 0x35, 0x3f, 0x30, 0x95, 0x54, 0x3c, 0x0e, 0xfa, 0x35,
    0x00, 0x00, 0x00, 0x00, 0x06, 0x01, 0x00, 0x00, 0x00, 0x00, 0x00, 0x00, 0x01, 0xf4, 0x2b, 0x67,
    0x00, 0x47, 0x00, 0x00])
    | _ => false) = true := by decide +kernel

/-- dis-rs/src/common/model.rs:1648 `entity_type_display` -/
example : EntityType.display ⟨0, 1, 2, 3, 4, 5, 6⟩ = "0:1:2:3:4:5:6".toList := by decide +kernel

/-- dis-rs/src/common/model.rs:1653 `entity_type_from_str` -/
example : EntityType.fromStr "0:1:2:3:4:5:6".toList = some ⟨0, 1, 2, 3, 4, 5, 6⟩ ∧
    EntityType.fromStr "0,1,2,3,4,5,6".toList = none ∧ EntityType.fromStr "0:1:2:3:4:5:six".toList = none := by decide +kernel

/-- dis-rs/src/common/model.rs:1666 `entity_type_try_from_str` -/
example : EntityType.fromStr "0:1:2:3:4:5:6".toList = some ⟨0, 1, 2, 3, 4, 5, 6⟩ ∧
    EntityType.fromStr "0,1,2,3,4,5,6".toList = none ∧ EntityType.fromStr "0:1:2:3:4:5:six".toList = none := by decide +kernel

/-- dis-rs/src/common/model.rs:1679 `entity_type_try_from_string` -/
example : EntityType.fromStr "0:1:2:3:4:5:6".toList = some ⟨0, 1, 2, 3, 4, 5, 6⟩ ∧
    EntityType.fromStr "0,1,2,3,4,5,6".toList = none ∧ EntityType.fromStr "0:1:2:3:4:5:six".toList = none := by decide +kernel

/-- the PDU of dis-rs/tests/pdu.rs -/
def signalPdu : Pdu := ⟨.new_v7 1 26, .signal ⟨⟨⟨0, 0⟩, 0⟩, 0, .encodedAudio 0 100, 0, 0, 0, [1, 2, 3, 4]⟩⟩

/-- dis-rs/tests/pdu.rs:6 `test_pdu` -/
example : (match signalPdu.serialize [] signalPdu.pduLength.toNat with
    | .ok (buf, _) => (match Dis.parse sampleEnv buf with
      | .ok [⟨_, .signal s⟩] => decide (s.data = [1, 2, 3, 4])
      | _ => false)
    | _ => false) = true := by decide +kernel

/-- dis-rs/tests/pdu.rs:37 `test_two_pdus` -/
example : (match signalPdu.serialize [] signalPdu.pduLength.toNat with
    | .ok (buf, _) => (match Dis.parse sampleEnv (buf ++ buf) with
      | .ok [_, ⟨_, .signal s⟩] => decide (s.data = [1, 2, 3, 4])
      | _ => false)
    | _ => false) = true := by decide +kernel

/-- dis-rs/tests/pdu.rs:73 `test_insufficient_buffer_capacity` -/
example : (match signalPdu.serialize [] 20 with
    | .error e => decide (e = (signalPdu.pduLength, 20))
    | _ => false) = true := by decide +kernel

end Verif.Conformance

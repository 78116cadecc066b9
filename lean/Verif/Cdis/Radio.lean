import Verif.Cdis.Warfare

/-! # C-DIS Designator, Transmitter, Signal and Receiver bodies -/

namespace Verif.Cdis
open Verif.P

/-- An optional field read under a condition that holds exactly when it is present. -/
theorem rWhen_if {α : Type} {p : BitP α} {w : α → Bits} {q : α → Prop}
    (hp : ∀ x, q x → ∀ r, p.run (w x ++ r) = .ok x r) {c : Bool} {o : Option α} (hc : o.isSome = c) (h : OptAll q o)
    (r : Bits) : (rWhen c p).run (wOpt w o ++ r) = .ok o r := by
  rw [← hc]; exact rWhen_run hp o h r

/-! ## Receiver -/

/-- receiver/model.rs:7-14 -/
structure Receiver where
  radio_reference_id : EntityId
  radio_number : Nat
  receiver_state : Nat
  received_power : Int
  transmitter_radio_reference_id : EntityId
  transmitter_radio_number : Nat
  deriving Repr, DecidableEq
/-- receiver/writer.rs:6-21 -/
def Receiver.ser (v : Receiver) : Bits :=
  v.radio_reference_id.ser ++ wUV16 v.radio_number ++ wU 2 v.receiver_state ++ wS 9 v.received_power
    ++ v.transmitter_radio_reference_id.ser ++ wUV16 v.transmitter_radio_number
/-- receiver/parser.rs:11-31 -/
def Receiver.parse : BitP Receiver := do
  let radio_reference_id ← EntityId.parse
  let radio_number ← rUV16
  let receiver_state ← rU 2
  let received_power ← rS 9
  let transmitter_radio_reference_id ← EntityId.parse
  let transmitter_radio_number ← rUV16
  pure ⟨radio_reference_id, radio_number, receiver_state, received_power, transmitter_radio_reference_id,
    transmitter_radio_number⟩
/-- receiver/model.rs:25-32 -/
def Receiver.lenBits (v : Receiver) : Nat :=
  11 + v.radio_reference_id.lenBits + uv16.lenBits v.radio_number + v.transmitter_radio_reference_id.lenBits
    + uv16.lenBits v.transmitter_radio_number
def Receiver.Wf (v : Receiver) : Prop :=
  v.radio_reference_id.Wf ∧ v.radio_number < 65536 ∧ v.receiver_state < 2 ^ 2 ∧ InS 9 v.received_power
  ∧ v.transmitter_radio_reference_id.Wf ∧ v.transmitter_radio_number < 65536
instance (v : Receiver) : Decidable v.Wf := inferInstanceAs (Decidable (_ ∧ _))
theorem Receiver.run {v : Receiver} (h : v.Wf) (r : Bits) : Receiver.parse.run (v.ser ++ r) = .ok v r := by
  obtain ⟨h1, h2, h3, h4, h5, h6⟩ := h
  simp only [Receiver.parse, Receiver.ser, List.append_assoc, rt, *]
theorem Receiver.length_ser (v : Receiver) : v.ser.length = v.lenBits := by
  simp only [Receiver.ser, Receiver.lenBits, len, length_wS _ (by decide : 0 < 9)]
  omega
instance : P.Stable Receiver.parse := by unfold Receiver.parse; parser_ok
instance : P.Safe Receiver.parse := by unfold Receiver.parse; parser_ok

/-! ## Signal -/

/-- records/model.rs:302-306 `EncodingScheme`: the class (2 bits; in every variant the class is stored) and the type or
number of messages.  The variant is determined by the class: the parser chooses it so. -/
structure EncodingScheme where
  encoding_class : Nat
  value : Nat
  deriving Repr, DecidableEq
/-- records/writer.rs:256-277: the type is cut to eight bits. -/
def EncodingScheme.ser (v : EncodingScheme) : Bits := wU 2 v.encoding_class ++ wUV8 (v.value % 256)
/-- records/parser.rs:467-497 -/
def EncodingScheme.parse : BitP EncodingScheme := do
  let encoding_class ← rU 2
  let value ← rUV8
  pure ⟨encoding_class, value⟩
/-- records/model.rs:317-332 -/
def EncodingScheme.lenBits (v : EncodingScheme) : Nat := 2 + lUV8 (v.value % 256)
def EncodingScheme.Wf (v : EncodingScheme) : Prop := v.encoding_class < 2 ^ 2 ∧ v.value < 256
instance (v : EncodingScheme) : Decidable v.Wf := inferInstanceAs (Decidable (_ ∧ _))
theorem EncodingScheme.run {v : EncodingScheme} (h : v.Wf) (r : Bits) :
    EncodingScheme.parse.run (v.ser ++ r) = .ok v r := by
  obtain ⟨h1, h2⟩ := h
  simp only [EncodingScheme.parse, EncodingScheme.ser, List.append_assoc, rt, Nat.mod_eq_of_lt h2, *]
theorem EncodingScheme.length_ser (v : EncodingScheme) : v.ser.length = v.lenBits := by
  simp only [EncodingScheme.ser, EncodingScheme.lenBits, len]
instance : P.Stable EncodingScheme.parse := by unfold EncodingScheme.parse; parser_ok
instance : P.Safe EncodingScheme.parse := by unfold EncodingScheme.parse; parser_ok

/-- signal/model.rs:8-16 -/
structure Signal where
  radio_reference_id : EntityId
  radio_number : Nat
  encoding_scheme : EncodingScheme
  tdl_type : Nat
  sample_rate : Option Nat
  samples : Option Nat
  data : List Nat
  deriving Repr, DecidableEq
/-- signal/model.rs:23-26, 54-59 -/
def Signal.fp (v : Signal) : Nat := flag v.sample_rate.isSome (bit 1) ||| flag v.samples.isSome (bit 0)
/-- signal/writer.rs:6-29 -/
def Signal.ser (v : Signal) : Bits :=
  wU 2 v.fp ++ v.radio_reference_id.ser ++ wUV16 v.radio_number ++ v.encoding_scheme.ser ++ wU 8 v.tdl_type
    ++ wOpt wUV32 v.sample_rate ++ wU 14 (v.data.length * 8) ++ wOpt wUV16 v.samples ++ v.data.flatMap (wU 8)
/-- signal/parser.rs:12-42 -/
def Signal.parse : BitP Signal := do
  let fp ← rU 2
  let radio_reference_id ← EntityId.parse
  let radio_number ← rUV16
  let encoding_scheme ← EncodingScheme.parse
  let tdl_type ← rU 8
  let sample_rate ← rWhen (has fp (bit 1)) rUV32
  let data_length ← rU 14
  let samples ← rWhen (has fp (bit 0)) rUV16
  let data ← P.count (rU 8) (data_length / 8)
  pure ⟨radio_reference_id, radio_number, encoding_scheme, tdl_type, sample_rate, samples, data⟩
/-- signal/model.rs:28-37: the constant 24 already contains the two bits of the encoding class, which
`encoding_scheme.record_length()` counts again. -/
def Signal.lenBits (v : Signal) : Nat :=
  2 + 24 + v.radio_reference_id.lenBits + uv16.lenBits v.radio_number + v.encoding_scheme.lenBits
    + lOpt uv32.lenBits v.sample_rate + lOpt uv16.lenBits v.samples + v.data.length * 8
def Signal.Wf (v : Signal) : Prop :=
  v.radio_reference_id.Wf ∧ v.radio_number < 65536 ∧ v.encoding_scheme.Wf ∧ v.tdl_type < 2 ^ 8
  ∧ OptAll (· < 4294967296) v.sample_rate ∧ OptAll (· < 65536) v.samples ∧ v.data.length < 2048
  ∧ ∀ b ∈ v.data, b < 2 ^ 8
theorem Signal.fp_lt (v : Signal) : v.fp < 2 ^ 2 := by unfold Signal.fp; flag_bound
theorem Signal.run {v : Signal} (h : v.Wf) (r : Bits) : Signal.parse.run (v.ser ++ r) = .ok v r := by
  obtain ⟨h1, h2, h3, h4, h5, h6, h7, h8⟩ := h
  have hf := v.fp_lt
  have f1 : has v.fp (bit 1) = v.sample_rate.isSome := by unfold Signal.fp; flag_bits
  have f0 : has v.fp (bit 0) = v.samples.isSome := by unfold Signal.fp; flag_bits
  have e : v.data.length * 8 < 2 ^ 14 := by omega
  simp only [Signal.parse, Signal.ser, List.append_assoc, rt, hf, f1, f0, h1, h2, h4, h5, h6, e,
    EncodingScheme.run h3, run_octets h8 (v.data.length * 8 / 8) (by omega)]
/-- The announced length is two bits more than what is written. -/
theorem Signal.length_excess (v : Signal) : v.ser.length + 2 = v.lenBits := by
  simp only [Signal.ser, Signal.lenBits, len, EncodingScheme.length_ser, length_flatMap_wU]
  omega
instance : P.Stable Signal.parse := by unfold Signal.parse; parser_ok
instance : P.Safe Signal.parse := by unfold Signal.parse; parser_ok

/-! ## Designator -/

/-- designator/model.rs:8-21, 69-72 (units) -/
structure Designator where
  units_location : Nat
  units_altitude : Nat
  full_update_flag : Bool
  designating_entity_id : EntityId
  code_name : Option Nat
  designated_entity_id : Option EntityId
  designator_code : Option Nat
  designator_power : Option Nat
  designator_wavelength : Option Nat
  spot_wrt_designated_entity : Option Vec3
  designator_spot_location : Option WorldCoordinates
  dr_algorithm : Option Nat
  dr_entity_linear_acceleration : Option Vec3
  deriving Repr, DecidableEq
/-- designator/model.rs:29 -/
def Designator.hasEntity (v : Designator) : Bool :=
  v.designated_entity_id.isSome && v.spot_wrt_designated_entity.isSome
/-- designator/model.rs:32 -/
def Designator.hasDetails (v : Designator) : Bool :=
  v.code_name.isSome && v.designator_code.isSome && v.designator_power.isSome && v.designator_wavelength.isSome
/-- designator/model.rs:35 -/
def Designator.hasDr (v : Designator) : Bool := v.dr_algorithm.isSome && v.dr_entity_linear_acceleration.isSome
/-- designator/model.rs:28-36, bits of 85-92 -/
def Designator.fp (v : Designator) : Nat :=
  flag v.hasEntity (bit 3) ||| flag v.hasDetails (bit 2) ||| flag v.designator_spot_location.isSome (bit 1)
    ||| flag v.hasDr (bit 0)
/-- designator/writer.rs:7-33 -/
def Designator.ser (v : Designator) : Bits :=
  (wU 4 v.fp ++ wU 1 v.units_location ++ wU 1 v.units_altitude ++ wU 1 v.full_update_flag.toNat
    ++ v.designating_entity_id.ser)
  ++ (wOpt (wU 16) v.code_name ++ wOpt EntityId.ser v.designated_entity_id ++ wOpt wUV16 v.designator_code
    ++ wOpt wUV32 v.designator_power ++ wOpt wUV32 v.designator_wavelength)
  ++ (wOpt (Vec3.ser sv16) v.spot_wrt_designated_entity ++ wOpt WorldCoordinates.ser v.designator_spot_location
    ++ wOpt (wU 4) v.dr_algorithm ++ wOpt (Vec3.ser sv14) v.dr_entity_linear_acceleration)
/-- designator/parser.rs:12-61 -/
def Designator.parse : BitP Designator := do
  let fp ← rU 4
  let units ← rU 2
  let full ← rU 1
  let designating_entity_id ← EntityId.parse
  let code_name ← rWhen (has fp (bit 2)) (rU 16)
  let designated_entity_id ← rWhen (has fp (bit 3)) EntityId.parse
  let designator_code ← rWhen (has fp (bit 2)) rUV16
  let designator_power ← rWhen (has fp (bit 2)) rUV32
  let designator_wavelength ← rWhen (has fp (bit 2)) rUV32
  let spot_wrt_designated_entity ← rWhen (has fp (bit 3)) (Vec3.parse sv16)
  let designator_spot_location ← rWhen (has fp (bit 1)) WorldCoordinates.parse
  let dr_algorithm ← rWhen (has fp (bit 0)) (rU 4)
  let dr_entity_linear_acceleration ← rWhen (has fp (bit 0)) (Vec3.parse sv14)
  pure ⟨(units &&& 2) >>> 1, units &&& 1, full != 0, designating_entity_id, code_name, designated_entity_id,
    designator_code, designator_power, designator_wavelength, spot_wrt_designated_entity, designator_spot_location,
    dr_algorithm, dr_entity_linear_acceleration⟩
/-- designator/model.rs:38-51 -/
def Designator.lenBits (v : Designator) : Nat :=
  4 + 3 + v.designating_entity_id.lenBits + lOpt (fun _ => 16) v.code_name
    + lOpt EntityId.lenBits v.designated_entity_id + lOpt uv16.lenBits v.designator_code
    + lOpt uv32.lenBits v.designator_power + lOpt uv32.lenBits v.designator_wavelength
    + lOpt (Vec3.lenBits sv16) v.spot_wrt_designated_entity + lOpt WorldCoordinates.lenBits v.designator_spot_location
    + lOpt (fun _ => 4) v.dr_algorithm + lOpt (Vec3.lenBits sv14) v.dr_entity_linear_acceleration
/-- Every field fits. -/
def Designator.Fits (v : Designator) : Prop :=
  v.units_location < 2 ∧ v.units_altitude < 2 ∧ v.designating_entity_id.Wf ∧ OptAll (· < 2 ^ 16) v.code_name
  ∧ OptAll EntityId.Wf v.designated_entity_id ∧ OptAll (· < 65536) v.designator_code
  ∧ OptAll (· < 4294967296) v.designator_power ∧ OptAll (· < 4294967296) v.designator_wavelength
  ∧ OptAll (Vec3.In 16) v.spot_wrt_designated_entity ∧ OptAll WorldCoordinates.Fits v.designator_spot_location
  ∧ OptAll (· < 2 ^ 4) v.dr_algorithm ∧ OptAll (Vec3.In 14) v.dr_entity_linear_acceleration
/-- The fields that share a presence flag are present together. -/
def Designator.Grouped (v : Designator) : Prop :=
  v.designated_entity_id.isSome = v.spot_wrt_designated_entity.isSome
  ∧ (v.code_name.isSome = v.designator_code.isSome ∧ v.code_name.isSome = v.designator_power.isSome
    ∧ v.code_name.isSome = v.designator_wavelength.isSome)
  ∧ v.dr_algorithm.isSome = v.dr_entity_linear_acceleration.isSome
def Designator.Wf (v : Designator) : Prop := v.Fits ∧ v.Grouped
/-- What arrives. -/
def Designator.wire (v : Designator) : Designator :=
  { v with designator_spot_location := v.designator_spot_location.map WorldCoordinates.wire }
theorem Designator.fp_lt (v : Designator) : v.fp < 2 ^ 4 := by unfold Designator.fp; flag_bound
theorem Designator.run {v : Designator} (h : v.Wf) (r : Bits) : Designator.parse.run (v.ser ++ r) = .ok v.wire r := by
  obtain ⟨⟨u1, u2, h1, h2, h3, h4, h5, h6, h7, h8, h9, h10⟩, ⟨e1, ⟨e2, e3, e4⟩, e5⟩⟩ := h
  have hf := v.fp_lt
  have f3 : has v.fp (bit 3) = v.hasEntity := by unfold Designator.fp; flag_bits
  have f2 : has v.fp (bit 2) = v.hasDetails := by unfold Designator.fp; flag_bits
  have f1 : has v.fp (bit 1) = v.designator_spot_location.isSome := by unfold Designator.fp; flag_bits
  have f0 : has v.fp (bit 0) = v.hasDr := by unfold Designator.fp; flag_bits
  have a1 : v.designated_entity_id.isSome = v.hasEntity := by simp [Designator.hasEntity, ← e1]
  have a2 : v.spot_wrt_designated_entity.isSome = v.hasEntity := by simp [Designator.hasEntity, ← e1]
  have b1 : v.code_name.isSome = v.hasDetails := by simp [Designator.hasDetails, ← e2, ← e3, ← e4]
  have b2 : v.designator_code.isSome = v.hasDetails := by rw [← e2, b1]
  have b3 : v.designator_power.isSome = v.hasDetails := by rw [← e3, b1]
  have b4 : v.designator_wavelength.isSome = v.hasDetails := by rw [← e4, b1]
  have c1 : v.dr_algorithm.isSome = v.hasDr := by simp [Designator.hasDr, ← e5]
  have c2 : v.dr_entity_linear_acceleration.isSome = v.hasDr := by simp [Designator.hasDr, ← e5]
  simp only [Designator.parse, Designator.ser, List.append_assoc, rt, hf, f3, f2, f1, f0, h1, h8, toNat_lt_pow, toNat_bne,
    rU2_run _ _ u1 u2, units_hi u1 u2, units_lo u1 u2, Designator.wire,
    rWhen_if (fun x h r => rU_run 16 x r h) b1 h2, rWhen_if (fun x h r => EntityId.run h r) a1 h3,
    rWhen_if (fun x h r => rUV16_run x r h) b2 h4, rWhen_if (fun x h r => rUV32_run x r h) b3 h5,
    rWhen_if (fun x h r => rUV32_run x r h) b4 h6, rWhen_if (fun x h r => Vec3.run16 h r) a2 h7,
    rWhen_if (fun x h r => rU_run 4 x r h) c1 h9, rWhen_if (fun x h r => Vec3.run14 h r) c2 h10]
theorem Designator.length_ser (v : Designator) : v.ser.length = v.lenBits := by
  simp only [Designator.ser, Designator.lenBits, len]
  omega
instance : P.Stable Designator.parse := by unfold Designator.parse; parser_ok
instance : P.Safe Designator.parse := by unfold Designator.parse; parser_ok

/-! ## Transmitter -/

/-- records/model.rs:237-247 `BeamAntennaPattern` -/
structure BeamAntennaPattern where
  psi : Int
  theta : Int
  phi : Int
  az_beamwidth : Int
  el_beamwidth : Int
  reference_system : Nat
  e_z : Int
  e_x : Int
  phase : Int
  deriving Repr, DecidableEq
/-- transmitter/writer.rs:85-101 -/
def BeamAntennaPattern.ser (v : BeamAntennaPattern) : Bits :=
  wS 13 v.psi ++ wS 13 v.theta ++ wS 13 v.phi ++ wS 13 v.az_beamwidth ++ wS 13 v.el_beamwidth ++ wU 2 v.reference_system
    ++ wS 16 v.e_z ++ wS 16 v.e_x ++ wS 13 v.phase
/-- records/parser.rs:499-522 -/
def BeamAntennaPattern.parse : BitP BeamAntennaPattern := do
  let psi ← rS 13
  let theta ← rS 13
  let phi ← rS 13
  let az_beamwidth ← rS 13
  let el_beamwidth ← rS 13
  let reference_system ← rU 2
  let e_z ← rS 16
  let e_x ← rS 16
  let phase ← rS 13
  pure ⟨psi, theta, phi, az_beamwidth, el_beamwidth, reference_system, e_z, e_x, phase⟩
def BeamAntennaPattern.Wf (v : BeamAntennaPattern) : Prop :=
  InS 13 v.psi ∧ InS 13 v.theta ∧ InS 13 v.phi ∧ InS 13 v.az_beamwidth ∧ InS 13 v.el_beamwidth
  ∧ v.reference_system < 2 ^ 2 ∧ InS 16 v.e_z ∧ InS 16 v.e_x ∧ InS 13 v.phase
instance (v : BeamAntennaPattern) : Decidable v.Wf := inferInstanceAs (Decidable (_ ∧ _))
theorem BeamAntennaPattern.run {v : BeamAntennaPattern} (h : v.Wf) (r : Bits) :
    BeamAntennaPattern.parse.run (v.ser ++ r) = .ok v r := by
  obtain ⟨h1, h2, h3, h4, h5, h6, h7, h8, h9⟩ := h
  simp only [BeamAntennaPattern.parse, BeamAntennaPattern.ser, List.append_assoc, rt, *]
/-- records/model.rs:249-253: the record length 112 is right. -/
theorem BeamAntennaPattern.length_ser (v : BeamAntennaPattern) : v.ser.length = 112 := by
  simp only [BeamAntennaPattern.ser, List.length_append, length_wS _ (by decide : 0 < 13),
    length_wS _ (by decide : 0 < 16), length_wU]
instance : P.Stable BeamAntennaPattern.parse := by unfold BeamAntennaPattern.parse; parser_ok
instance : P.Safe BeamAntennaPattern.parse := by unfold BeamAntennaPattern.parse; parser_ok

/-- The unsigned decimal floats: `TransmitterFrequencyFloat` (transmitter/model.rs:121-173, 24 and 4 bits),
`TransmitFrequencyBandwidthFloat` (175-227, 17 and 4 bits) and `FrequencyFloat` (records/model.rs:1270-1330, 17 and 4
bits). -/
structure DecFloat where
  mantissa : Nat
  exponent : Nat
  deriving Repr, DecidableEq
/-- transmitter/model.rs:167-172, 221-226; records/model.rs:1322-1328 -/
def DecFloat.ser (m : Nat) (v : DecFloat) : Bits := wU m v.mantissa ++ wU 4 v.exponent
/-- transmitter/model.rs:157-165, 211-219; records/model.rs:1311-1319 -/
def DecFloat.parse (m : Nat) : BitP DecFloat := do
  let mantissa ← rU m
  let exponent ← rU 4
  pure ⟨mantissa, exponent⟩
def DecFloat.Wf (m : Nat) (v : DecFloat) : Prop := v.mantissa < 2 ^ m ∧ v.exponent < 2 ^ 4
instance (m : Nat) (v : DecFloat) : Decidable (v.Wf m) := inferInstanceAs (Decidable (_ ∧ _))
theorem DecFloat.run {m : Nat} {v : DecFloat} (h : v.Wf m) (r : Bits) : (DecFloat.parse m).run (v.ser m ++ r) = .ok v r := by
  obtain ⟨h1, h2⟩ := h
  simp only [DecFloat.parse, DecFloat.ser, List.append_assoc, rt, *]
theorem DecFloat.length_ser (m : Nat) (v : DecFloat) : (v.ser m).length = m + 4 := by
  simp only [DecFloat.ser, len]
instance (m : Nat) : P.Stable (DecFloat.parse m) := by unfold DecFloat.parse; parser_ok
instance (m : Nat) : P.Safe (DecFloat.parse m) := by unfold DecFloat.parse; parser_ok

/-- transmitter/model.rs:230-235 `ModulationType` -/
structure ModulationType where
  spread_spectrum : Nat
  major_modulation : Nat
  detail : Nat
  radio_system : Nat
  deriving Repr, DecidableEq
/-- transmitter/writer.rs:51-57 -/
def ModulationType.ser (v : ModulationType) : Bits :=
  wU 4 v.spread_spectrum ++ wU 4 v.major_modulation ++ wU 4 v.detail ++ wU 4 v.radio_system
/-- transmitter/parser.rs:57-69 -/
def ModulationType.parse : BitP ModulationType := do
  let spread_spectrum ← rU 4
  let major_modulation ← rU 4
  let detail ← rU 4
  let radio_system ← rU 4
  pure ⟨spread_spectrum, major_modulation, detail, radio_system⟩
def ModulationType.Wf (v : ModulationType) : Prop :=
  v.spread_spectrum < 2 ^ 4 ∧ v.major_modulation < 2 ^ 4 ∧ v.detail < 2 ^ 4 ∧ v.radio_system < 2 ^ 4
instance (v : ModulationType) : Decidable v.Wf := inferInstanceAs (Decidable (_ ∧ _))
theorem ModulationType.run {v : ModulationType} (h : v.Wf) (r : Bits) :
    ModulationType.parse.run (v.ser ++ r) = .ok v r := by
  obtain ⟨h1, h2, h3, h4⟩ := h
  simp only [ModulationType.parse, ModulationType.ser, List.append_assoc, rt, *]
theorem ModulationType.length_ser (v : ModulationType) : v.ser.length = 16 := by
  simp only [ModulationType.ser, len]
instance : P.Stable ModulationType.parse := by unfold ModulationType.parse; parser_ok
instance : P.Safe ModulationType.parse := by unfold ModulationType.parse; parser_ok

/-- dis-rs `VariableTransmitterParameter` (record type and fields) -/
structure VTP where
  record_type : Nat
  fields : List Nat
  deriving Repr, DecidableEq
/-- transmitter/writer.rs:103-113 -/
def VTP.ser (v : VTP) : Bits := wU 32 v.record_type ++ wU 16 (v.fields.length + 6) ++ v.fields.flatMap (wU 8)
/-- transmitter/parser.rs:127-138 -/
def VTP.parse : BitP VTP := do
  let record_type ← rU 32
  let record_length ← rU 16
  let fields ← P.count (rU 8) (record_length - 6)
  pure ⟨record_type, fields⟩
def VTP.lenBits (v : VTP) : Nat := 48 + v.fields.length * 8
def VTP.Wf (v : VTP) : Prop := v.record_type < 2 ^ 32 ∧ v.fields.length + 6 < 2 ^ 16 ∧ ∀ b ∈ v.fields, b < 2 ^ 8
instance (v : VTP) : Decidable v.Wf := inferInstanceAs (Decidable (_ ∧ _))
theorem VTP.run {v : VTP} (h : v.Wf) (r : Bits) : VTP.parse.run (v.ser ++ r) = .ok v r := by
  obtain ⟨h1, h2, h3⟩ := h
  simp only [VTP.parse, VTP.ser, List.append_assoc, rt, h1, h2, run_octets h3 (v.fields.length + 6 - 6) (by omega)]
theorem VTP.length_ser (v : VTP) : v.ser.length = v.lenBits := by
  simp only [VTP.ser, VTP.lenBits, len, length_flatMap_wU]
instance : P.Stable VTP.parse := by unfold VTP.parse; parser_ok
instance : P.Safe VTP.parse := by unfold VTP.parse; parser_ok

/-- transmitter/model.rs:13-33, 104-107 (units) -/
structure Transmitter where
  units_altitude : Nat
  units_relative : Nat
  full_update_flag : Bool
  radio_reference_id : EntityId
  radio_number : Nat
  radio_type : Option EntityType
  transmit_state : Nat
  input_source : Nat
  antenna_location : Option WorldCoordinates
  relative_antenna_location : Option Vec3
  antenna_pattern_type : Option Nat
  frequency : Option DecFloat
  transmit_frequency_bandwidth : Option DecFloat
  power : Option Nat
  modulation_type : Option ModulationType
  crypto_system : Option Nat
  crypto_key_id : Option Nat
  modulation_parameters : List Nat
  antenna_pattern : Option BeamAntennaPattern
  variable_transmitter_parameters : List VTP
  deriving Repr, DecidableEq
/-- transmitter/model.rs:45 -/
def Transmitter.hasPattern (v : Transmitter) : Bool := v.antenna_pattern_type.isSome && v.antenna_pattern.isSome
/-- transmitter/model.rs:46-49 -/
def Transmitter.hasDetails (v : Transmitter) : Bool :=
  v.frequency.isSome && v.transmit_frequency_bandwidth.isSome && v.power.isSome && v.modulation_type.isSome
/-- transmitter/model.rs:50 -/
def Transmitter.hasCrypto (v : Transmitter) : Bool := v.crypto_system.isSome && v.crypto_key_id.isSome
/-- transmitter/model.rs:40-52, bits of 90-101 -/
def Transmitter.fp (v : Transmitter) : Nat :=
  flag v.radio_type.isSome (bit 7) ||| flag (!v.variable_transmitter_parameters.isEmpty) (bit 6)
    ||| flag v.antenna_location.isSome (bit 5) ||| flag v.relative_antenna_location.isSome (bit 4)
    ||| flag v.hasPattern (bit 3) ||| flag v.hasDetails (bit 2) ||| flag v.hasCrypto (bit 1)
    ||| flag (!v.modulation_parameters.isEmpty) (bit 0)
/-- transmitter/writer.rs:68-72 -/
def wModParams (l : List Nat) : Bits := if l.isEmpty then [] else wU 8 l.length ++ l.flatMap (wU 8)
/-- transmitter/parser.rs:78-87 -/
def rModParams (c : Bool) : BitP (List Nat) := do
  let n ← rWhen c (rU 8)
  if c then P.count (rU 8) (n.getD 0) else pure []
instance (c : Bool) : P.Stable (rModParams c) := by unfold rModParams; parser_ok
instance (c : Bool) : P.Safe (rModParams c) := by unfold rModParams; parser_ok
theorem rModParams_run {l : List Nat} (hl : l.length < 256) (h : ∀ b ∈ l, b < 2 ^ 8) (r : Bits) :
    (rModParams !l.isEmpty).run (wModParams l ++ r) = .ok l r := by
  cases l with
  | nil => simp [rModParams, rWhen, wModParams]
  | cons x xs =>
    simp only [List.isEmpty_cons, Bool.not_false, rModParams, rWhen, wModParams, Bool.false_eq_true, if_false, if_true,
      List.append_assoc, rt, rU_run 8 _ _ hl, Option.getD_some, run_octets h _ rfl]
/-- transmitter/writer.rs:9-83: the count of variable transmitter parameters is left out when there are none. -/
def Transmitter.ser (v : Transmitter) : Bits :=
  (wU 8 v.fp ++ wU 1 v.units_altitude ++ wU 1 v.units_relative ++ wU 1 v.full_update_flag.toNat
    ++ v.radio_reference_id.ser ++ wUV16 v.radio_number)
  ++ (wOpt EntityType.ser v.radio_type ++ wU 2 v.transmit_state ++ wUV8 v.input_source
    ++ wCountOpt v.variable_transmitter_parameters ++ wOpt WorldCoordinates.ser v.antenna_location
    ++ wOpt (Vec3.ser sv16) v.relative_antenna_location)
  ++ (wOpt (wU 3) v.antenna_pattern_type ++ wOpt (fun _ => wU 10 112) v.antenna_pattern
    ++ wOpt (DecFloat.ser 24) v.frequency ++ wOpt (DecFloat.ser 17) v.transmit_frequency_bandwidth
    ++ wOpt (wU 8) v.power ++ wOpt ModulationType.ser v.modulation_type)
  ++ (wOpt (wU 4) v.crypto_system ++ wOpt (wU 16) v.crypto_key_id ++ wModParams v.modulation_parameters
    ++ wOpt BeamAntennaPattern.ser v.antenna_pattern ++ v.variable_transmitter_parameters.flatMap VTP.ser)
/-- transmitter/parser.rs:14-125: the count of variable transmitter parameters is always read. -/
def Transmitter.parse : BitP Transmitter := do
  let fp ← rU 8
  let units ← rU 2
  let full ← rU 1
  let radio_reference_id ← EntityId.parse
  let radio_number ← rUV16
  let radio_type ← rWhen (has fp (bit 7)) EntityType.parse
  let transmit_state ← rU 2
  let input_source ← rUV8
  let n ← rUV8
  let antenna_location ← rWhen (has fp (bit 5)) WorldCoordinates.parse
  let relative_antenna_location ← rWhen (has fp (bit 4)) (Vec3.parse sv16)
  let antenna_pattern_type ← rWhen (has fp (bit 3)) (rU 3)
  let _ ← rWhen (has fp (bit 3)) (rU 10)
  let frequency ← rWhen (has fp (bit 2)) (DecFloat.parse 24)
  let bandwidth ← rWhen (has fp (bit 2)) (DecFloat.parse 17)
  let power ← rWhen (has fp (bit 2)) (rU 8)
  let modulation_type ← rWhen (has fp (bit 2)) ModulationType.parse
  let crypto_system ← rWhen (has fp (bit 1)) (rU 4)
  let crypto_key_id ← rWhen (has fp (bit 1)) (rU 16)
  let modulation_parameters ← rModParams (has fp (bit 0))
  let antenna_pattern ← rWhen (has fp (bit 3)) BeamAntennaPattern.parse
  let vtps ← if has fp (bit 6) then P.count VTP.parse n else pure []
  pure ⟨(units &&& 2) >>> 1, units &&& 1, full != 0, radio_reference_id, radio_number, radio_type, transmit_state,
    input_source, antenna_location, relative_antenna_location, antenna_pattern_type, frequency, bandwidth, power,
    modulation_type, crypto_system, crypto_key_id, modulation_parameters, antenna_pattern, vtps⟩
/-- transmitter/model.rs:54-75: the constant 62 counts the antenna pattern type and length, the power, the crypto fields
and the length of the modulation parameters whether they are present or not. -/
def Transmitter.lenBits (v : Transmitter) : Nat :=
  62 + v.radio_reference_id.lenBits + uv16.lenBits v.radio_number + lOpt EntityType.lenBits v.radio_type
    + lUV8 v.input_source + countOptBits v.variable_transmitter_parameters
    + lOpt WorldCoordinates.lenBits v.antenna_location + lOpt (Vec3.lenBits sv16) v.relative_antenna_location
    + lOpt (fun _ => 28) v.frequency + lOpt (fun _ => 21) v.transmit_frequency_bandwidth
    + lOpt (fun _ => 16) v.modulation_type + v.modulation_parameters.length * 8 + lOpt (fun _ => 112) v.antenna_pattern
    + (v.variable_transmitter_parameters.map VTP.lenBits).sum
/-- Every field fits. -/
def Transmitter.Fits (v : Transmitter) : Prop :=
  v.units_altitude < 2 ∧ v.units_relative < 2 ∧ v.radio_reference_id.Wf ∧ v.radio_number < 65536
  ∧ OptAll EntityType.Wf v.radio_type ∧ v.transmit_state < 2 ^ 2 ∧ v.input_source < 256
  ∧ OptAll WorldCoordinates.Fits v.antenna_location ∧ OptAll (Vec3.In 16) v.relative_antenna_location
  ∧ OptAll (· < 2 ^ 3) v.antenna_pattern_type ∧ OptAll (DecFloat.Wf 24) v.frequency
  ∧ OptAll (DecFloat.Wf 17) v.transmit_frequency_bandwidth ∧ OptAll (· < 2 ^ 8) v.power
  ∧ OptAll ModulationType.Wf v.modulation_type ∧ OptAll (· < 2 ^ 4) v.crypto_system
  ∧ OptAll (· < 2 ^ 16) v.crypto_key_id ∧ v.modulation_parameters.length < 256
  ∧ (∀ b ∈ v.modulation_parameters, b < 2 ^ 8) ∧ OptAll BeamAntennaPattern.Wf v.antenna_pattern
  ∧ v.variable_transmitter_parameters.length < 256 ∧ ∀ p ∈ v.variable_transmitter_parameters, p.Wf
/-- The fields that share a presence flag are present together. -/
def Transmitter.Grouped (v : Transmitter) : Prop :=
  v.antenna_pattern_type.isSome = v.antenna_pattern.isSome
  ∧ (v.frequency.isSome = v.transmit_frequency_bandwidth.isSome ∧ v.frequency.isSome = v.power.isSome
    ∧ v.frequency.isSome = v.modulation_type.isSome)
  ∧ v.crypto_system.isSome = v.crypto_key_id.isSome
/-- The transmitters that are read back: there must be a variable transmitter parameter. -/
def Transmitter.Wf (v : Transmitter) : Prop := v.Fits ∧ v.Grouped ∧ v.variable_transmitter_parameters ≠ []
/-- What arrives. -/
def Transmitter.wire (v : Transmitter) : Transmitter :=
  { v with antenna_location := v.antenna_location.map WorldCoordinates.wire }

theorem Transmitter.fp_lt (v : Transmitter) : v.fp < 2 ^ 8 := by unfold Transmitter.fp; flag_bound
theorem rPatLen_run {α : Type} {c : Bool} {o : Option α} (h : o.isSome = c) (r : Bits) :
    (rWhen c (rU 10)).run (wOpt (fun _ => wU 10 112) o ++ r) = .ok (o.map fun _ => 112) r := by
  rw [← h]
  cases o with
  | none => simp [rWhen, wOpt]
  | some x => simp only [Option.isSome_some, rWhen, wOpt, if_true, rt, rU_run 10 112 _ (by decide), Option.map_some]
theorem Transmitter.run {v : Transmitter} (h : v.Wf) (r : Bits) : Transmitter.parse.run (v.ser ++ r) = .ok v.wire r := by
  obtain ⟨⟨u1, u2, h1, h2, h3, h4, h5, h6, h7, h8, h9, h10, h11, h12, h13, h14, h15, h16, h17, h18, h19⟩,
    ⟨e1, ⟨e2, e3, e4⟩, e5⟩, hv⟩ := h
  have hf := v.fp_lt
  have f7 : has v.fp (bit 7) = v.radio_type.isSome := by unfold Transmitter.fp; flag_bits
  have f6 : has v.fp (bit 6) = !v.variable_transmitter_parameters.isEmpty := by unfold Transmitter.fp; flag_bits
  have f5 : has v.fp (bit 5) = v.antenna_location.isSome := by unfold Transmitter.fp; flag_bits
  have f4 : has v.fp (bit 4) = v.relative_antenna_location.isSome := by unfold Transmitter.fp; flag_bits
  have f3 : has v.fp (bit 3) = v.hasPattern := by unfold Transmitter.fp; flag_bits
  have f2 : has v.fp (bit 2) = v.hasDetails := by unfold Transmitter.fp; flag_bits
  have f1 : has v.fp (bit 1) = v.hasCrypto := by unfold Transmitter.fp; flag_bits
  have f0 : has v.fp (bit 0) = !v.modulation_parameters.isEmpty := by unfold Transmitter.fp; flag_bits
  have a1 : v.antenna_pattern_type.isSome = v.hasPattern := by simp [Transmitter.hasPattern, ← e1]
  have a2 : v.antenna_pattern.isSome = v.hasPattern := by rw [← e1, a1]
  have b1 : v.frequency.isSome = v.hasDetails := by simp [Transmitter.hasDetails, ← e2, ← e3, ← e4]
  have b2 : v.transmit_frequency_bandwidth.isSome = v.hasDetails := by rw [← e2, b1]
  have b3 : v.power.isSome = v.hasDetails := by rw [← e3, b1]
  have b4 : v.modulation_type.isSome = v.hasDetails := by rw [← e4, b1]
  have c1 : v.crypto_system.isSome = v.hasCrypto := by simp [Transmitter.hasCrypto, ← e5]
  have c2 : v.crypto_key_id.isSome = v.hasCrypto := by rw [← e5, c1]
  have hc : wCountOpt v.variable_transmitter_parameters = wUV8 v.variable_transmitter_parameters.length := by
    unfold wCountOpt wCount8; rw [if_neg (by simp [hv]), Nat.mod_eq_of_lt h18]
  have hi : (!v.variable_transmitter_parameters.isEmpty) = true := by simp [hv]
  simp only [Transmitter.parse, Transmitter.ser, List.append_assoc, rt, hf, f7, f6, f5, f4, f3, f2, f1, f0, hc, hi,
    if_true, h1, h2, h3, h4, h5, h6, h7, h18, toNat_lt_pow, toNat_bne, rU2_run _ _ u1 u2, units_hi u1 u2,
    units_lo u1 u2, Transmitter.wire, rWhen_if (fun x h r => rU_run 3 x r h) a1 h8, rPatLen_run a2,
    rWhen_if (fun x h r => DecFloat.run h r) b1 h9, rWhen_if (fun x h r => DecFloat.run h r) b2 h10,
    rWhen_if (fun x h r => rU_run 8 x r h) b3 h11, rWhen_if (fun x h r => ModulationType.run h r) b4 h12,
    rWhen_if (fun x h r => rU_run 4 x r h) c1 h13, rWhen_if (fun x h r => rU_run 16 x r h) c2 h14,
    rModParams_run h15 h16, rWhen_if (fun x h r => BeamAntennaPattern.run h r) a2 h17,
    run_count v.variable_transmitter_parameters _ fun x hx r => VTP.run (h19 x hx) r]
theorem length_wModParams (l : List Nat) :
    (wModParams l).length + (if l.isEmpty then 8 else 0) = 8 + l.length * 8 := by
  cases l with
  | nil => simp [wModParams]
  | cons x xs =>
    simp only [wModParams, List.isEmpty_cons, Bool.false_eq_true, if_false, List.length_append, length_wU,
      length_flatMap_wU, Nat.add_zero]
theorem lOpt_const {α : Type} (n : Nat) (o : Option α) : lOpt (fun _ => n) o + (if o.isSome then 0 else n) = n := by
  cases o <;> simp [lOpt]
/-- The bits announced but not written: 3 and 10 for an absent pattern, 8 for an absent power, 4 and 16 for absent crypto
fields and 8 for empty modulation parameters. -/
theorem Transmitter.length_excess (v : Transmitter) :
    v.ser.length + ((if v.antenna_pattern_type.isSome then 0 else 3) + (if v.antenna_pattern.isSome then 0 else 10)
      + (if v.power.isSome then 0 else 8) + (if v.crypto_system.isSome then 0 else 4)
      + (if v.crypto_key_id.isSome then 0 else 16) + (if v.modulation_parameters.isEmpty then 8 else 0)) = v.lenBits := by
  have m := length_wModParams v.modulation_parameters
  have a1 := lOpt_const 3 v.antenna_pattern_type
  have a2 := lOpt_const 10 v.antenna_pattern
  have a3 := lOpt_const 8 v.power
  have a4 := lOpt_const 4 v.crypto_system
  have a5 := lOpt_const 16 v.crypto_key_id
  simp only [Transmitter.ser, Transmitter.lenBits, len, length_wCountOpt,
    length_wOpt (w := fun _ : BeamAntennaPattern => wU 10 112) (l := fun _ => 10) (fun x => length_wU 10 112),
    length_wOpt (fun x => BeamAntennaPattern.length_ser x), length_wOpt (fun x => DecFloat.length_ser 24 x),
    length_wOpt (fun x => DecFloat.length_ser 17 x), length_wOpt (fun x => ModulationType.length_ser x),
    length_flatMap_sum (l := VTP.lenBits) (q := fun _ => True) (fun x _ => VTP.length_ser x)
      v.variable_transmitter_parameters (fun _ _ => trivial), Nat.reduceAdd]
  omega
instance : P.Stable Transmitter.parse := by unfold Transmitter.parse; parser_ok
instance : P.Safe Transmitter.parse := by unfold Transmitter.parse; parser_ok

end Verif.Cdis

import Verif.Cdis.Emission
import Verif.Dis.EntityInfoLemmas

/-! # C-DIS IFF body (cdis-assemble/src/iff/{model,parser,writer}.rs)

The packed octets and words (`SystemStatus`, `ChangeOptionsRecord`, `Mode5TransponderStatus`, ...) are modelled by the
number they are written as; `InformationLayers` is a number below 128 because its conversion from an octet drops the
top bit (dis-rs/src/common/iff/model.rs:483-503). -/

namespace Verif.Cdis
open Verif.P

/-! ## Layer header, data records -/

/-- records/model.rs:457-461 -/
structure LayerHeader where
  layer_number : Nat
  layer_specific_information : Nat
  length : Nat
  deriving Repr, DecidableEq
/-- records/writer.rs:346-354 `serialize_with_length`: the length field is the one computed, not the one stored. -/
def LayerHeader.serWith (v : LayerHeader) (body : Nat) : Bits :=
  wU 4 v.layer_number ++ wU 8 v.layer_specific_information ++ wU 14 (26 + body)
/-- records/parser.rs:561-571 -/
def LayerHeader.parse : BitP LayerHeader := do
  let layer_number ← rU 4
  let layer_specific_information ← rU 8
  let length ← rU 14
  pure ⟨layer_number, layer_specific_information, length⟩
def LayerHeader.Wf (v : LayerHeader) : Prop := v.layer_number < 2 ^ 4 ∧ v.layer_specific_information < 2 ^ 8
instance (v : LayerHeader) : Decidable v.Wf := inferInstanceAs (Decidable (_ ∧ _))
/-- The header that arrives for a layer whose `record_length()` is `body`. -/
def LayerHeader.wireWith (v : LayerHeader) (body : Nat) : LayerHeader := { v with length := (26 + body) % 2 ^ 14 }
@[rt] theorem LayerHeader.run {v : LayerHeader} (h : v.Wf) (b : Nat) (r : Bits) :
    LayerHeader.parse.run (v.serWith b ++ r) = .ok (v.wireWith b) r := by
  obtain ⟨h1, h2⟩ := h
  simp only [LayerHeader.parse, LayerHeader.serWith, List.append_assoc, rt, h1, h2, LayerHeader.wireWith]
@[len] theorem LayerHeader.length_serWith (v : LayerHeader) (b : Nat) : (v.serWith b).length = 26 := by
  simp only [LayerHeader.serWith, len]
instance : P.Stable LayerHeader.parse := by unfold LayerHeader.parse; parser_ok
instance : P.Safe LayerHeader.parse := by unfold LayerHeader.parse; parser_ok

/-- dis-rs `IffDataRecord`: a record type and octets -/
structure IffDataRecord where
  record_type : Nat
  fields : List Nat
  deriving Repr, DecidableEq
/-- iff/model.rs:179-183 -/
def IffDataRecord.lenBits (v : IffDataRecord) : Nat := 24 + v.fields.length * 8
/-- iff/writer.rs:226-234 -/
def IffDataRecord.ser (v : IffDataRecord) : Bits :=
  wU 16 v.record_type ++ wU 8 (v.lenBits / 8) ++ v.fields.flatMap (wU 8)
/-- iff/parser.rs:281-292 -/
def IffDataRecord.parse : BitP IffDataRecord := do
  let record_type ← rU 16
  let n ← rU 8
  let fields ← P.count (rU 8) (n - 3)
  pure ⟨record_type, fields⟩
def IffDataRecord.Wf (v : IffDataRecord) : Prop :=
  v.record_type < 2 ^ 16 ∧ v.fields.length ≤ 252 ∧ ∀ x ∈ v.fields, x < 2 ^ 8
instance (v : IffDataRecord) : Decidable v.Wf := inferInstanceAs (Decidable (_ ∧ _))
theorem IffDataRecord.run {v : IffDataRecord} (h : v.Wf) (r : Bits) :
    IffDataRecord.parse.run (v.ser ++ r) = .ok v r := by
  obtain ⟨h1, h2, h3⟩ := h
  have a : v.lenBits / 8 < 2 ^ 8 := by unfold IffDataRecord.lenBits; omega
  have b : v.lenBits / 8 - 3 = v.fields.length := by unfold IffDataRecord.lenBits; omega
  simp only [IffDataRecord.parse, IffDataRecord.ser, List.append_assoc, rt, h1, a, b,
    run_count v.fields _ fun x hx r => rU_run 8 x r (h3 x hx)]
theorem IffDataRecord.length_ser (v : IffDataRecord) : v.ser.length = v.lenBits := by
  have := length_flatMap_sum (l := fun _ => 8) (q := fun _ => True) (fun x _ => length_wU 8 x) v.fields
    (fun _ _ => trivial)
  simp only [IffDataRecord.ser, IffDataRecord.lenBits, len, this, List.map_const', List.sum_replicate_nat]
instance : P.Stable IffDataRecord.parse := by unfold IffDataRecord.parse; parser_ok
instance : P.Safe IffDataRecord.parse := by unfold IffDataRecord.parse; parser_ok

/-- iff/writer.rs:135-138, 154-157, 174-177: nothing for an empty list, else the count in five bits and the records -/
def wIffRecords (l : List IffDataRecord) : Bits :=
  if l.isEmpty then [] else wU 5 l.length ++ l.flatMap IffDataRecord.ser
/-- iff/parser.rs:194-197, 303-306, 417-420 -/
def rIffRecords (flag : Nat) : BitP (List IffDataRecord) :=
  if flag ≠ 0 then do
    let n ← rU 5
    P.count IffDataRecord.parse n
  else pure []
/-- iff/writer.rs:128-129, 146-147, 165-166 -/
def iffRecordsFlag (l : List IffDataRecord) : Nat := if l.isEmpty then 0 else 1
/-- At most 31 records that fit. -/
def IffRecordsOk (l : List IffDataRecord) : Prop := l.length < 2 ^ 5 ∧ ∀ x ∈ l, x.Wf
instance (l : List IffDataRecord) : Decidable (IffRecordsOk l) := inferInstanceAs (Decidable (_ ∧ _))
theorem rIffRecords_run {l : List IffDataRecord} (h : IffRecordsOk l) (r : Bits) :
    (rIffRecords (iffRecordsFlag l)).run (wIffRecords l ++ r) = .ok l r := by
  cases l with
  | nil => simp [rIffRecords, wIffRecords, iffRecordsFlag]
  | cons x xs =>
    simp only [rIffRecords, wIffRecords, iffRecordsFlag, List.isEmpty_cons, Bool.false_eq_true, if_false, ne_eq,
      Nat.one_ne_zero, not_false_eq_true, if_true, List.append_assoc, rt, h.1,
      run_count (x :: xs) _ fun y hy r => IffDataRecord.run (h.2 y hy) r]
theorem iffRecordsFlag_lt (l : List IffDataRecord) : iffRecordsFlag l < 2 ^ 1 := by
  unfold iffRecordsFlag; split <;> decide
theorem length_wIffRecords (l : List IffDataRecord) :
    (wIffRecords l).length = (if l.isEmpty then 0 else 5) + (l.map IffDataRecord.lenBits).sum := by
  unfold wIffRecords
  have := length_flatMap_sum (l := IffDataRecord.lenBits) (q := fun _ => True)
    (fun x _ => IffDataRecord.length_ser x) l (fun _ _ => trivial)
  cases l with
  | nil => rfl
  | cons x xs =>
    simp only [List.isEmpty_cons, Bool.false_eq_true, if_false, len, this]
instance (n : Nat) : P.Stable (rIffRecords n) := by unfold rIffRecords; parser_ok
instance (n : Nat) : P.Safe (rIffRecords n) := by unfold rIffRecords; parser_ok

/-! ## System id and fundamental operational data -/

/-- dis-rs `SystemId` -/
structure SystemId where
  system_type : Nat
  system_name : Nat
  system_mode : Nat
  change_options : Nat
  deriving Repr, DecidableEq
/-- iff/writer.rs:46-55 -/
def SystemId.ser (v : SystemId) : Bits :=
  wU 4 v.system_type ++ wU 5 v.system_name ++ wU 3 v.system_mode ++ wU 8 v.change_options
/-- iff/parser.rs:73-89 -/
def SystemId.parse : BitP SystemId := do
  let system_type ← rU 4
  let system_name ← rU 5
  let system_mode ← rU 3
  let change_options ← rU 8
  pure ⟨system_type, system_name, system_mode, change_options⟩
def SystemId.Wf (v : SystemId) : Prop :=
  v.system_type < 2 ^ 4 ∧ v.system_name < 2 ^ 5 ∧ v.system_mode < 2 ^ 3 ∧ v.change_options < 2 ^ 8
instance (v : SystemId) : Decidable v.Wf := inferInstanceAs (Decidable (_ ∧ _))
theorem SystemId.run {v : SystemId} (h : v.Wf) (r : Bits) : SystemId.parse.run (v.ser ++ r) = .ok v r := by
  obtain ⟨h1, h2, h3, h4⟩ := h
  simp only [SystemId.parse, SystemId.ser, List.append_assoc, rt, *]
theorem SystemId.length_ser (v : SystemId) : v.ser.length = 20 := by
  simp only [SystemId.ser, len]
instance : P.Stable SystemId.parse := by unfold SystemId.parse; parser_ok
instance : P.Safe SystemId.parse := by unfold SystemId.parse; parser_ok

/-- iff/model.rs:95-106 `CdisFundamentalOperationalData` -/
structure OperationalData where
  system_status : Nat
  data_field_1 : Option Nat
  information_layers : Nat
  data_field_2 : Option Nat
  parameter_1 : Option Nat
  parameter_2 : Option Nat
  parameter_3 : Option Nat
  parameter_4 : Option Nat
  parameter_5 : Option Nat
  parameter_6 : Option Nat
  deriving Repr, DecidableEq
/-- iff/writer.rs:57-91 -/
def OperationalData.ser (v : OperationalData) : Bits :=
  (wU 8 v.system_status ++ wOpt (wU 8) v.data_field_1 ++ wU 8 v.information_layers ++ wOpt (wU 8) v.data_field_2)
  ++ (wOpt (wU 16) v.parameter_1 ++ wOpt (wU 16) v.parameter_2 ++ wOpt (wU 16) v.parameter_3
    ++ wOpt (wU 16) v.parameter_4 ++ wOpt (wU 16) v.parameter_5 ++ wOpt (wU 16) v.parameter_6)
/-- iff/parser.rs:91-131 -/
def OperationalData.parse (fp : Nat) : BitP OperationalData := do
  let system_status ← rU 8
  let data_field_1 ← rWhen (has fp (bit 7)) (rU 8)
  let information_layers ← rU 8
  let data_field_2 ← rWhen (has fp (bit 6)) (rU 8)
  let parameter_1 ← rWhen (has fp (bit 5)) (rU 16)
  let parameter_2 ← rWhen (has fp (bit 4)) (rU 16)
  let parameter_3 ← rWhen (has fp (bit 3)) (rU 16)
  let parameter_4 ← rWhen (has fp (bit 2)) (rU 16)
  let parameter_5 ← rWhen (has fp (bit 1)) (rU 16)
  let parameter_6 ← rWhen (has fp (bit 0)) (rU 16)
  pure ⟨system_status, data_field_1, information_layers % 128, data_field_2, parameter_1, parameter_2, parameter_3,
    parameter_4, parameter_5, parameter_6⟩
/-- iff/model.rs:108-120 -/
def OperationalData.lenBits (v : OperationalData) : Nat :=
  16 + lOpt (fun _ => 8) v.data_field_1 + lOpt (fun _ => 8) v.data_field_2 + lOpt (fun _ => 16) v.parameter_1
    + lOpt (fun _ => 16) v.parameter_2 + lOpt (fun _ => 16) v.parameter_3 + lOpt (fun _ => 16) v.parameter_4
    + lOpt (fun _ => 16) v.parameter_5 + lOpt (fun _ => 16) v.parameter_6
def OperationalData.Wf (v : OperationalData) : Prop :=
  v.system_status < 2 ^ 8 ∧ OptAll (· < 2 ^ 8) v.data_field_1 ∧ v.information_layers < 128
  ∧ OptAll (· < 2 ^ 8) v.data_field_2 ∧ OptAll (· < 2 ^ 16) v.parameter_1 ∧ OptAll (· < 2 ^ 16) v.parameter_2
  ∧ OptAll (· < 2 ^ 16) v.parameter_3 ∧ OptAll (· < 2 ^ 16) v.parameter_4 ∧ OptAll (· < 2 ^ 16) v.parameter_5
  ∧ OptAll (· < 2 ^ 16) v.parameter_6
instance (v : OperationalData) : Decidable v.Wf := inferInstanceAs (Decidable (_ ∧ _))
theorem OperationalData.length_ser (v : OperationalData) : v.ser.length = v.lenBits := by
  simp only [OperationalData.ser, OperationalData.lenBits, len]; omega
/-- `information_layers.layer_k == PresentApplicable`: bit `7 - k` of the octet (iff/parser.rs:37-54). -/
def OperationalData.layer (v : OperationalData) (k : Nat) : Bool := v.information_layers.testBit (7 - k)
instance (fp : Nat) : P.Stable (OperationalData.parse fp) := by unfold OperationalData.parse; parser_ok
instance (fp : Nat) : P.Safe (OperationalData.parse fp) := by unfold OperationalData.parse; parser_ok

/-! ## Layer 2 -/

/-- iff/model.rs:142-150 -/
structure IffFundamentalParameterData where
  erp : Nat
  frequency : DecFloat
  pgrf : Nat
  pulse_width : Nat
  burst_length : Nat
  applicable_modes : Nat
  specific_1 : Nat
  specific_2 : Nat
  specific_3 : Nat
  deriving Repr, DecidableEq
/-- iff/writer.rs:108-124 -/
def IffFundamentalParameterData.ser (v : IffFundamentalParameterData) : Bits :=
  wU 8 v.erp ++ v.frequency.ser 17 ++ wU 10 v.pgrf ++ wU 10 v.pulse_width ++ wU 10 v.burst_length
  ++ (wU 3 v.applicable_modes ++ wU 8 v.specific_1 ++ wU 8 v.specific_2 ++ wU 8 v.specific_3)
/-- iff/parser.rs:156-183 -/
def IffFundamentalParameterData.parse : BitP IffFundamentalParameterData := do
  let erp ← rU 8
  let frequency ← DecFloat.parse 17
  let pgrf ← rU 10
  let pulse_width ← rU 10
  let burst_length ← rU 10
  let applicable_modes ← rU 3
  let specific_1 ← rU 8
  let specific_2 ← rU 8
  let specific_3 ← rU 8
  pure ⟨erp, frequency, pgrf, pulse_width, burst_length, applicable_modes, specific_1, specific_2, specific_3⟩
def IffFundamentalParameterData.Wf (v : IffFundamentalParameterData) : Prop :=
  v.erp < 2 ^ 8 ∧ v.frequency.Wf 17 ∧ v.pgrf < 2 ^ 10 ∧ v.pulse_width < 2 ^ 10 ∧ v.burst_length < 2 ^ 10
  ∧ v.applicable_modes < 2 ^ 3 ∧ v.specific_1 < 2 ^ 8 ∧ v.specific_2 < 2 ^ 8 ∧ v.specific_3 < 2 ^ 8
instance (v : IffFundamentalParameterData) : Decidable v.Wf := inferInstanceAs (Decidable (_ ∧ _))
theorem IffFundamentalParameterData.run {v : IffFundamentalParameterData} (h : v.Wf) (r : Bits) :
    IffFundamentalParameterData.parse.run (v.ser ++ r) = .ok v r := by
  obtain ⟨h1, h2, h3, h4, h5, h6, h7, h8, h9⟩ := h
  simp only [IffFundamentalParameterData.parse, IffFundamentalParameterData.ser, List.append_assoc, rt,
    DecFloat.run h2, h1, h3, h4, h5, h6, h7, h8, h9]
/-- The record takes 86 bits, as announced (iff/model.rs:152-156). -/
theorem IffFundamentalParameterData.length_ser (v : IffFundamentalParameterData) : v.ser.length = 86 := by
  simp only [IffFundamentalParameterData.ser, len, DecFloat.length_ser]
instance : P.Stable IffFundamentalParameterData.parse := by unfold IffFundamentalParameterData.parse; parser_ok
instance : P.Safe IffFundamentalParameterData.parse := by unfold IffFundamentalParameterData.parse; parser_ok

/-- iff/model.rs:123-129 -/
structure IffLayer2 where
  layer_header : LayerHeader
  beam_data : BeamData
  operational_parameter_1 : Nat
  operational_parameter_2 : Nat
  params : List IffFundamentalParameterData
  deriving Repr, DecidableEq
/-- iff/model.rs:131-139 -/
def IffLayer2.lenBits (v : IffLayer2) : Nat := 1 + 26 + v.beam_data.lenBits + 24 + v.params.length * 86
/-- iff/writer.rs:93-106 -/
def IffLayer2.ser (v : IffLayer2) : Bits :=
  wU 1 1 ++ v.layer_header.serWith v.lenBits ++ v.beam_data.ser ++ wU 8 v.operational_parameter_1
    ++ wU 8 v.operational_parameter_2 ++ wU 8 v.params.length ++ v.params.flatMap IffFundamentalParameterData.ser
/-- iff/parser.rs:133-154 -/
def IffLayer2.parse : BitP IffLayer2 := do
  let _units ← rU 1
  let layer_header ← LayerHeader.parse
  let beam_data ← BeamData.parse
  let operational_parameter_1 ← rU 8
  let operational_parameter_2 ← rU 8
  let n ← rU 8
  let params ← P.count IffFundamentalParameterData.parse n
  pure ⟨layer_header, beam_data, operational_parameter_1, operational_parameter_2, params⟩
def IffLayer2.Wf (v : IffLayer2) : Prop :=
  v.layer_header.Wf ∧ v.beam_data.Fits ∧ v.operational_parameter_1 < 2 ^ 8 ∧ v.operational_parameter_2 < 2 ^ 8
  ∧ v.params.length < 2 ^ 8 ∧ ∀ x ∈ v.params, x.Wf
instance (v : IffLayer2) : Decidable v.Wf := inferInstanceAs (Decidable (_ ∧ _))
/-- What arrives. -/
def IffLayer2.wire (v : IffLayer2) : IffLayer2 :=
  { v with layer_header := v.layer_header.wireWith v.lenBits, beam_data := v.beam_data.wire }
theorem IffLayer2.run {v : IffLayer2} (h : v.Wf) (r : Bits) : IffLayer2.parse.run (v.ser ++ r) = .ok v.wire r := by
  obtain ⟨h1, h2, h3, h4, h5, h6⟩ := h
  simp only [IffLayer2.parse, IffLayer2.ser, List.append_assoc, rt, h1, BeamData.run h2, h3, h4, h5,
    run_count v.params _ fun x hx r => IffFundamentalParameterData.run (h6 x hx) r, IffLayer2.wire]
theorem IffLayer2.length_ser (v : IffLayer2) : v.ser.length = v.wire.lenBits := by
  have := length_flatMap_sum (l := fun _ => 86) (q := fun _ => True)
    (fun x _ => IffFundamentalParameterData.length_ser x) v.params (fun _ _ => trivial)
  simp only [IffLayer2.ser, IffLayer2.wire, IffLayer2.lenBits, len, this, List.map_const', List.sum_replicate_nat,
    BeamData.length_ser]
instance : P.Stable IffLayer2.parse := by unfold IffLayer2.parse; parser_ok
instance : P.Safe IffLayer2.parse := by unfold IffLayer2.parse; parser_ok

/-! ## Layers 3 and 4 -/

/-- iff/model.rs:226-251 and dis-rs `Mode5TransponderBasicData` -/
inductive Mode5BasicData where
  | interrogator (status formats : Nat) (entity : EntityId)
  | transponder (status pin formats enhanced_mode_1 national_origin supplemental navigation_source merit : Nat)
  deriving Repr, DecidableEq
/-- iff/writer.rs:183-224 -/
def Mode5BasicData.ser : Mode5BasicData → Bits
  | .interrogator a b e => wU 8 a ++ wU 32 b ++ e.ser
  | .transponder a b c d e f g h =>
    wU 16 a ++ wU 16 b ++ wU 32 c ++ wU 16 d ++ wU 16 e ++ wU 8 f ++ wU 3 g ++ wU 5 h
/-- iff/parser.rs:209-279 and 203: a system type that is neither a transponder nor an interrogator consumes nothing
and gives the default transponder. -/
def Mode5BasicData.parse : Dis.IffClass → BitP Mode5BasicData
  | .transponder => do
    let a ← rU 16
    let b ← rU 16
    let c ← rU 32
    let d ← rU 16
    let e ← rU 16
    let f ← rU 8
    let g ← rU 3
    let h ← rU 5
    pure (.transponder a b c d e f g h)
  | .interrogator => do
    let a ← rU 8
    let b ← rU 32
    let e ← EntityId.parse
    pure (.interrogator a b e)
  | .undetermined => pure (.transponder 0 0 0 0 0 0 0 0)
/-- iff/model.rs:237-264 -/
def Mode5BasicData.lenBits : Mode5BasicData → Nat
  | .interrogator _ _ e => 40 + e.lenBits
  | .transponder .. => 112
/-- The data fit and are of the kind the system type announces. -/
def Mode5BasicData.Wf (k : Dis.IffClass) : Mode5BasicData → Prop
  | .interrogator a b e => k = .interrogator ∧ a < 2 ^ 8 ∧ b < 2 ^ 32 ∧ e.Wf
  | .transponder a b c d e f g h =>
    k = .transponder ∧ a < 2 ^ 16 ∧ b < 2 ^ 16 ∧ c < 2 ^ 32 ∧ d < 2 ^ 16 ∧ e < 2 ^ 16 ∧ f < 2 ^ 8 ∧ g < 2 ^ 3 ∧ h < 2 ^ 5
instance (k : Dis.IffClass) (v : Mode5BasicData) : Decidable (v.Wf k) := by
  cases v <;> exact inferInstanceAs (Decidable (_ ∧ _))
theorem Mode5BasicData.run {k : Dis.IffClass} {v : Mode5BasicData} (h : v.Wf k) (r : Bits) :
    (Mode5BasicData.parse k).run (v.ser ++ r) = .ok v r := by
  cases v with
  | interrogator a b e =>
    obtain ⟨h1, h2, h3, h4⟩ := h
    subst h1
    simp only [Mode5BasicData.parse, Mode5BasicData.ser, List.append_assoc, rt, *]
  | transponder a b c d e f g m =>
    obtain ⟨h1, h2, h3, h4, h5, h6, h7, h8, h9⟩ := h
    subst h1
    simp only [Mode5BasicData.parse, Mode5BasicData.ser, List.append_assoc, rt, *]
@[len] theorem Mode5BasicData.length_ser (v : Mode5BasicData) : v.ser.length = v.lenBits := by
  cases v <;> simp only [Mode5BasicData.ser, Mode5BasicData.lenBits, len]
instance (k : Dis.IffClass) : P.Stable (Mode5BasicData.parse k) := by cases k <;> (unfold Mode5BasicData.parse; parser_ok)
instance (k : Dis.IffClass) : P.Safe (Mode5BasicData.parse k) := by cases k <;> (unfold Mode5BasicData.parse; parser_ok)

/-- iff/model.rs:267-298 and dis-rs `ModeS…BasicData`; the identification is kept as its octets -/
inductive ModeSBasicData where
  | interrogator (status levels : Nat)
  | transponder (status levels domain : Nat) (ident : Bytes) (address ident_type dap altitude capability : Nat)
  deriving Repr, DecidableEq
/-- iff/writer.rs:236-273 -/
def ModeSBasicData.ser : ModeSBasicData → Bits
  | .interrogator a b => wU 8 a ++ wU 8 b
  | .transponder a b c d e f g h i =>
    (wU 16 a ++ wU 8 b ++ wU 3 c ++ wU 4 d.length ++ d.flatMap fun x => wU 8 x.toNat)
    ++ (wU 32 e ++ wU 3 f ++ wU 8 g ++ wU 16 h ++ wU 8 i)
/-- An octet. -/
def rOctet : BitP UInt8 := do
  let x ← rU 8
  pure (UInt8.ofNat x)
theorem rOctet_run (b : UInt8) (r : Bits) : rOctet.run (wU 8 b.toNat ++ r) = .ok b r := by
  have : b.toNat < 2 ^ 8 := b.toNat_lt
  simp only [rOctet, rt, this, UInt8.ofNat_toNat]
instance : P.Stable rOctet := by unfold rOctet; parser_ok
instance : P.Safe rOctet := by unfold rOctet; parser_ok
/-- iff/parser.rs:318-404 and 312; the identification is trimmed on the right (350-351, the same operation as dis-rs
`sanitize_marking`). -/
def ModeSBasicData.parse (env : Dis.Env) : Dis.IffClass → BitP ModeSBasicData
  | .transponder => do
    let a ← rU 16
    let b ← rU 8
    let c ← rU 3
    let n ← rU 4
    let d ← P.count rOctet n
    let e ← rU 32
    let f ← rU 3
    let g ← rU 8
    let h ← rU 16
    let i ← rU 8
    pure (.transponder a b c (Dis.sanitizeMarking env d) e f g h i)
  | .interrogator => do
    let a ← rU 8
    let b ← rU 8
    pure (.interrogator a b)
  | .undetermined => pure (.transponder 0 0 0 [] 0 0 0 0 0)
/-- iff/model.rs:278-298 -/
def ModeSBasicData.lenBits : ModeSBasicData → Nat
  | .interrogator .. => 16
  | .transponder _ _ _ d _ _ _ _ _ => 98 + d.length * 8
/-- The data fit, are of the kind the system type announces, and the identification is at most 15 ASCII octets of which
the last is a letter or digit. -/
def ModeSBasicData.Wf (k : Dis.IffClass) : ModeSBasicData → Prop
  | .interrogator a b => k = .interrogator ∧ a < 2 ^ 8 ∧ b < 2 ^ 8
  | .transponder a b c d e f g h i =>
    k = .transponder ∧ a < 2 ^ 16 ∧ b < 2 ^ 8 ∧ c < 2 ^ 3 ∧ d.length < 2 ^ 4 ∧ (∀ x ∈ d, x.toNat < 128)
    ∧ (∀ x ∈ d.getLast?, Dis.isAlnum x = true) ∧ e < 2 ^ 32 ∧ f < 2 ^ 3 ∧ g < 2 ^ 8 ∧ h < 2 ^ 16 ∧ i < 2 ^ 8
instance (k : Dis.IffClass) (v : ModeSBasicData) : Decidable (v.Wf k) := by
  cases v <;> exact inferInstanceAs (Decidable (_ ∧ _))
theorem ModeSBasicData.run {env : Dis.Env} {k : Dis.IffClass} {v : ModeSBasicData} (h : v.Wf k) (r : Bits) :
    (ModeSBasicData.parse env k).run (v.ser ++ r) = .ok v r := by
  cases v with
  | interrogator a b =>
    obtain ⟨h1, h2, h3⟩ := h
    subst h1
    simp only [ModeSBasicData.parse, ModeSBasicData.ser, List.append_assoc, rt, *]
  | transponder a b c d e f g m i =>
    obtain ⟨h1, h2, h3, h4, h5, h6, h7, h8, h9, h10, h11, h12⟩ := h
    subst h1
    have s : Dis.sanitizeMarking env d = d := by
      have := Dis.sanitize_padded env (s := d) 0 h6 (fun x hx => h7 x (by simp [hx])) (c := 0x20) (by decide)
      simpa using this
    simp only [ModeSBasicData.parse, ModeSBasicData.ser, List.append_assoc, rt, h2, h3, h4, h5, h8, h9, h10, h11, h12,
      run_count d _ fun x _ r => rOctet_run x r, s]
/-- The announced length counts 98 bits besides the identification; 98 are written. -/
@[len] theorem ModeSBasicData.length_ser (v : ModeSBasicData) : v.ser.length = v.lenBits := by
  cases v with
  | interrogator a b => simp only [ModeSBasicData.ser, ModeSBasicData.lenBits, len]
  | transponder a b c d e f g h i =>
    have := length_flatMap_sum (w := fun x : UInt8 => wU 8 x.toNat) (l := fun _ => 8) (q := fun _ => True)
      (fun x _ => length_wU 8 x.toNat) d (fun _ _ => trivial)
    simp only [ModeSBasicData.ser, ModeSBasicData.lenBits, len, this, List.map_const', List.sum_replicate_nat]
    omega
instance (env : Dis.Env) (k : Dis.IffClass) : P.Stable (ModeSBasicData.parse env k) := by
  cases k <;> (unfold ModeSBasicData.parse; parser_ok)
instance (env : Dis.Env) (k : Dis.IffClass) : P.Safe (ModeSBasicData.parse env k) := by
  cases k <;> (unfold ModeSBasicData.parse; parser_ok)

/-- iff/model.rs:159-165 -/
structure IffLayer3 where
  layer_header : LayerHeader
  site : Nat
  application : Nat
  mode_5_basic_data : Mode5BasicData
  records : List IffDataRecord
  deriving Repr, DecidableEq
/-- iff/model.rs:167-177 -/
def IffLayer3.lenBits (v : IffLayer3) : Nat :=
  1 + 26 + uv16.lenBits v.site + uv16.lenBits v.application + v.mode_5_basic_data.lenBits
    + ((if v.records.isEmpty then 0 else 5) + (v.records.map IffDataRecord.lenBits).sum)
/-- iff/writer.rs:126-142 -/
def IffLayer3.ser (v : IffLayer3) : Bits :=
  wU 1 (iffRecordsFlag v.records) ++ v.layer_header.serWith v.lenBits ++ wUV16 v.site ++ wUV16 v.application
    ++ v.mode_5_basic_data.ser ++ wIffRecords v.records
/-- iff/parser.rs:185-207 -/
def IffLayer3.parse (k : Dis.IffClass) : BitP IffLayer3 := do
  let flag ← rU 1
  let layer_header ← LayerHeader.parse
  let site ← rUV16
  let application ← rUV16
  let mode_5_basic_data ← Mode5BasicData.parse k
  let records ← rIffRecords flag
  pure ⟨layer_header, site, application, mode_5_basic_data, records⟩
def IffLayer3.Wf (k : Dis.IffClass) (v : IffLayer3) : Prop :=
  v.layer_header.Wf ∧ v.site < 65536 ∧ v.application < 65536 ∧ v.mode_5_basic_data.Wf k ∧ IffRecordsOk v.records
instance (k : Dis.IffClass) (v : IffLayer3) : Decidable (v.Wf k) := inferInstanceAs (Decidable (_ ∧ _))
/-- What arrives. -/
def IffLayer3.wire (v : IffLayer3) : IffLayer3 := { v with layer_header := v.layer_header.wireWith v.lenBits }
theorem IffLayer3.run {k : Dis.IffClass} {v : IffLayer3} (h : v.Wf k) (r : Bits) :
    (IffLayer3.parse k).run (v.ser ++ r) = .ok v.wire r := by
  obtain ⟨h1, h2, h3, h4, h5⟩ := h
  simp only [IffLayer3.parse, IffLayer3.ser, List.append_assoc, rt, iffRecordsFlag_lt, h1, h2, h3,
    Mode5BasicData.run h4, rIffRecords_run h5, IffLayer3.wire]
theorem IffLayer3.length_ser (v : IffLayer3) : v.ser.length = v.wire.lenBits := by
  simp only [IffLayer3.ser, IffLayer3.wire, IffLayer3.lenBits, len, length_wIffRecords]
  rfl
instance (k : Dis.IffClass) : P.Stable (IffLayer3.parse k) := by unfold IffLayer3.parse; parser_ok
instance (k : Dis.IffClass) : P.Safe (IffLayer3.parse k) := by unfold IffLayer3.parse; parser_ok

/-- iff/model.rs:186-192 -/
structure IffLayer4 where
  layer_header : LayerHeader
  site : Nat
  application : Nat
  mode_s_basic_data : ModeSBasicData
  records : List IffDataRecord
  deriving Repr, DecidableEq
/-- iff/model.rs:194-203: the five bits of the count are counted even when it is not written. -/
def IffLayer4.lenBits (v : IffLayer4) : Nat :=
  6 + 26 + uv16.lenBits v.site + uv16.lenBits v.application + v.mode_s_basic_data.lenBits
    + (v.records.map IffDataRecord.lenBits).sum
/-- iff/writer.rs:144-161 -/
def IffLayer4.ser (v : IffLayer4) : Bits :=
  wU 1 (iffRecordsFlag v.records) ++ v.layer_header.serWith v.lenBits ++ wUV16 v.site ++ wUV16 v.application
    ++ v.mode_s_basic_data.ser ++ wIffRecords v.records
/-- iff/parser.rs:294-316 -/
def IffLayer4.parse (env : Dis.Env) (k : Dis.IffClass) : BitP IffLayer4 := do
  let flag ← rU 1
  let layer_header ← LayerHeader.parse
  let site ← rUV16
  let application ← rUV16
  let mode_s_basic_data ← ModeSBasicData.parse env k
  let records ← rIffRecords flag
  pure ⟨layer_header, site, application, mode_s_basic_data, records⟩
def IffLayer4.Wf (k : Dis.IffClass) (v : IffLayer4) : Prop :=
  v.layer_header.Wf ∧ v.site < 65536 ∧ v.application < 65536 ∧ v.mode_s_basic_data.Wf k ∧ IffRecordsOk v.records
instance (k : Dis.IffClass) (v : IffLayer4) : Decidable (v.Wf k) := inferInstanceAs (Decidable (_ ∧ _))
/-- What arrives. -/
def IffLayer4.wire (v : IffLayer4) : IffLayer4 := { v with layer_header := v.layer_header.wireWith v.lenBits }
theorem IffLayer4.run {env : Dis.Env} {k : Dis.IffClass} {v : IffLayer4} (h : v.Wf k) (r : Bits) :
    (IffLayer4.parse env k).run (v.ser ++ r) = .ok v.wire r := by
  obtain ⟨h1, h2, h3, h4, h5⟩ := h
  simp only [IffLayer4.parse, IffLayer4.ser, List.append_assoc, rt, iffRecordsFlag_lt, h1, h2, h3,
    ModeSBasicData.run h4, rIffRecords_run h5, IffLayer4.wire]
theorem IffLayer4.length_excess (v : IffLayer4) :
    v.ser.length + (if v.records.isEmpty then 5 else 0) = v.wire.lenBits := by
  simp only [IffLayer4.ser, IffLayer4.wire, IffLayer4.lenBits, len, length_wIffRecords]
  cases v.records.isEmpty <;> simp <;> omega
instance (env : Dis.Env) (k : Dis.IffClass) : P.Stable (IffLayer4.parse env k) := by unfold IffLayer4.parse; parser_ok
instance (env : Dis.Env) (k : Dis.IffClass) : P.Safe (IffLayer4.parse env k) := by unfold IffLayer4.parse; parser_ok

/-- iff/model.rs:206-213 -/
structure IffLayer5 where
  layer_header : LayerHeader
  site : Nat
  application : Nat
  applicable_layers : Nat
  data_category : Nat
  records : List IffDataRecord
  deriving Repr, DecidableEq
/-- iff/model.rs:215-223 -/
def IffLayer5.lenBits (v : IffLayer5) : Nat :=
  15 + 26 + uv16.lenBits v.site + uv16.lenBits v.application + (v.records.map IffDataRecord.lenBits).sum
/-- iff/writer.rs:163-181 -/
def IffLayer5.ser (v : IffLayer5) : Bits :=
  wU 1 (iffRecordsFlag v.records) ++ v.layer_header.serWith v.lenBits ++ wUV16 v.site ++ wUV16 v.application
    ++ wU 6 v.applicable_layers ++ wU 3 v.data_category ++ wIffRecords v.records
/-- iff/parser.rs:406-430 -/
def IffLayer5.parse : BitP IffLayer5 := do
  let flag ← rU 1
  let layer_header ← LayerHeader.parse
  let site ← rUV16
  let application ← rUV16
  let applicable_layers ← rU 6
  let data_category ← rU 3
  let records ← rIffRecords flag
  pure ⟨layer_header, site, application, applicable_layers, data_category, records⟩
/-- Six bits cannot hold the flag of layer 1, which is bit 6 of `InformationLayers`. -/
def IffLayer5.Wf (v : IffLayer5) : Prop :=
  v.layer_header.Wf ∧ v.site < 65536 ∧ v.application < 65536 ∧ v.applicable_layers < 2 ^ 6 ∧ v.data_category < 2 ^ 3
  ∧ IffRecordsOk v.records
instance (v : IffLayer5) : Decidable v.Wf := inferInstanceAs (Decidable (_ ∧ _))
/-- What arrives. -/
def IffLayer5.wire (v : IffLayer5) : IffLayer5 := { v with layer_header := v.layer_header.wireWith v.lenBits }
theorem IffLayer5.run {v : IffLayer5} (h : v.Wf) (r : Bits) : IffLayer5.parse.run (v.ser ++ r) = .ok v.wire r := by
  obtain ⟨h1, h2, h3, h4, h5, h6⟩ := h
  simp only [IffLayer5.parse, IffLayer5.ser, List.append_assoc, rt, iffRecordsFlag_lt, h1, h2, h3, h4, h5,
    rIffRecords_run h6, IffLayer5.wire]
theorem IffLayer5.length_excess (v : IffLayer5) :
    v.ser.length + (if v.records.isEmpty then 5 else 0) = v.wire.lenBits := by
  simp only [IffLayer5.ser, IffLayer5.wire, IffLayer5.lenBits, len, length_wIffRecords]
  cases v.records.isEmpty <;> simp <;> omega
instance : P.Stable IffLayer5.parse := by unfold IffLayer5.parse; parser_ok
instance : P.Safe IffLayer5.parse := by unfold IffLayer5.parse; parser_ok

/-! ## The body -/

/-- iff/model.rs:11-25 -/
structure Iff where
  relative_antenna_location_units : Nat
  full_update_flag : Bool
  emitting_entity_id : EntityId
  event_id : Option EntityId
  relative_antenna_location : Option Vec3
  system_id : Option SystemId
  system_designator : Nat
  system_specific_data : Option Nat
  operational : OperationalData
  layer_2 : Option IffLayer2
  layer_3 : Option IffLayer3
  layer_4 : Option IffLayer4
  layer_5 : Option IffLayer5
  deriving Repr, DecidableEq
/-- iff/model.rs:32-45, 77-92 -/
def Iff.fp (v : Iff) : Nat :=
  flag v.event_id.isSome (bit 11) ||| flag v.relative_antenna_location.isSome (bit 10)
  ||| flag v.system_id.isSome (bit 9) ||| flag v.system_specific_data.isSome (bit 8)
  ||| flag v.operational.data_field_1.isSome (bit 7) ||| flag v.operational.data_field_2.isSome (bit 6)
  ||| flag v.operational.parameter_1.isSome (bit 5) ||| flag v.operational.parameter_2.isSome (bit 4)
  ||| flag v.operational.parameter_3.isSome (bit 3) ||| flag v.operational.parameter_4.isSome (bit 2)
  ||| flag v.operational.parameter_5.isSome (bit 1) ||| flag v.operational.parameter_6.isSome (bit 0)
/-- iff/writer.rs:9-44 -/
def Iff.ser (v : Iff) : Bits :=
  (wU 12 v.fp ++ wU 1 v.relative_antenna_location_units ++ wU 1 v.full_update_flag.toNat ++ v.emitting_entity_id.ser
    ++ wOpt EntityId.ser v.event_id ++ wOpt (Vec3.ser sv16) v.relative_antenna_location)
  ++ (wOpt SystemId.ser v.system_id ++ wU 8 v.system_designator ++ wOpt (wU 8) v.system_specific_data
    ++ v.operational.ser)
  ++ (wOpt IffLayer2.ser v.layer_2 ++ wOpt IffLayer3.ser v.layer_3 ++ wOpt IffLayer4.ser v.layer_4
    ++ wOpt IffLayer5.ser v.layer_5)
/-- The class of the system type; a missing system id counts as type 0 (`unwrap_or_default`, iff/parser.rs:42,47). -/
def iffKind (env : Dis.Env) (s : Option SystemId) : Dis.IffClass :=
  env.iffClass (UInt16.ofNat (match s with | some x => x.system_type | none => 0))
/-- iff/parser.rs:17-71 -/
def Iff.parse (env : Dis.Env) : BitP Iff := do
  let fp ← rU 12
  let units ← rU 1
  let full ← rU 1
  let emitting_entity_id ← EntityId.parse
  let event_id ← rWhen (has fp (bit 11)) EntityId.parse
  let relative_antenna_location ← rWhen (has fp (bit 10)) (Vec3.parse sv16)
  let system_id ← rWhen (has fp (bit 9)) SystemId.parse
  let system_designator ← rU 8
  let system_specific_data ← rWhen (has fp (bit 8)) (rU 8)
  let operational ← OperationalData.parse fp
  let layer_2 ← rWhen (operational.layer 2) IffLayer2.parse
  let layer_3 ← rWhen (operational.layer 3) (IffLayer3.parse (iffKind env system_id))
  let layer_4 ← rWhen (operational.layer 4) (IffLayer4.parse env (iffKind env system_id))
  let layer_5 ← rWhen (operational.layer 5) IffLayer5.parse
  pure ⟨units, full != 0, emitting_entity_id, event_id, relative_antenna_location, system_id, system_designator,
    system_specific_data, operational, layer_2, layer_3, layer_4, layer_5⟩
/-- iff/model.rs:47-60 -/
def Iff.lenBits (v : Iff) : Nat :=
  22 + v.emitting_entity_id.lenBits + lOpt EntityId.lenBits v.event_id
    + lOpt (Vec3.lenBits sv16) v.relative_antenna_location + lOpt (fun _ => 20) v.system_id
    + lOpt (fun _ => 8) v.system_specific_data + v.operational.lenBits + lOpt IffLayer2.lenBits v.layer_2
    + lOpt IffLayer3.lenBits v.layer_3 + lOpt IffLayer4.lenBits v.layer_4 + lOpt IffLayer5.lenBits v.layer_5
/-- Everything fits; the layers given are those the information layers announce; and the basic data are of the kind
the system type announces. -/
def Iff.Wf (env : Dis.Env) (v : Iff) : Prop :=
  v.relative_antenna_location_units < 2 ^ 1 ∧ v.emitting_entity_id.Wf ∧ OptAll EntityId.Wf v.event_id
  ∧ OptAll (Vec3.In 16) v.relative_antenna_location ∧ OptAll SystemId.Wf v.system_id ∧ v.system_designator < 2 ^ 8
  ∧ OptAll (· < 2 ^ 8) v.system_specific_data ∧ v.operational.Wf
  ∧ v.layer_2.isSome = v.operational.layer 2 ∧ v.layer_3.isSome = v.operational.layer 3
  ∧ v.layer_4.isSome = v.operational.layer 4 ∧ v.layer_5.isSome = v.operational.layer 5
  ∧ OptAll IffLayer2.Wf v.layer_2 ∧ OptAll (IffLayer3.Wf (iffKind env v.system_id)) v.layer_3
  ∧ OptAll (IffLayer4.Wf (iffKind env v.system_id)) v.layer_4 ∧ OptAll IffLayer5.Wf v.layer_5
instance (env : Dis.Env) (v : Iff) : Decidable (v.Wf env) := inferInstanceAs (Decidable (_ ∧ _))
/-- What arrives: the layers with the computed header length, and the beam of layer 2 as it is written. -/
def Iff.wire (v : Iff) : Iff :=
  { v with layer_2 := v.layer_2.map IffLayer2.wire, layer_3 := v.layer_3.map IffLayer3.wire
           layer_4 := v.layer_4.map IffLayer4.wire, layer_5 := v.layer_5.map IffLayer5.wire }

theorem rWhen_if_map {α : Type} {p : BitP α} {w : α → Bits} {q : α → Prop} {f : α → α}
    (hp : ∀ x, q x → ∀ r, p.run (w x ++ r) = .ok (f x) r) {c : Bool} {o : Option α} (hc : o.isSome = c)
    (h : OptAll q o) (r : Bits) : (rWhen c p).run (wOpt w o ++ r) = .ok (o.map f) r := by
  subst hc
  cases o with
  | none => simp [rWhen, wOpt]
  | some x => simp [rWhen, wOpt, hp x h]

theorem Iff.fp_lt (v : Iff) : v.fp < 2 ^ 12 := by unfold Iff.fp; flag_bound

theorem OperationalData.run {v : OperationalData} (h : v.Wf) {fp : Nat} (e1 : has fp (bit 7) = v.data_field_1.isSome)
    (e2 : has fp (bit 6) = v.data_field_2.isSome) (e3 : has fp (bit 5) = v.parameter_1.isSome)
    (e4 : has fp (bit 4) = v.parameter_2.isSome) (e5 : has fp (bit 3) = v.parameter_3.isSome)
    (e6 : has fp (bit 2) = v.parameter_4.isSome) (e7 : has fp (bit 1) = v.parameter_5.isSome)
    (e8 : has fp (bit 0) = v.parameter_6.isSome) (r : Bits) :
    (OperationalData.parse fp).run (v.ser ++ r) = .ok v r := by
  obtain ⟨h1, h2, h3, h4, h5, h6, h7, h8, h9, h10⟩ := h
  have h3' : v.information_layers < 2 ^ 8 := by omega
  have h3'' : v.information_layers % 128 = v.information_layers := by omega
  simp only [OperationalData.parse, OperationalData.ser, List.append_assoc, rt, e1, e2, e3, e4, e5, e6, e7, e8,
    h1, h2, h3', h3'', h4, h5, h6, h7, h8, h9, h10]

theorem Iff.run {env : Dis.Env} {v : Iff} (h : v.Wf env) (r : Bits) :
    (Iff.parse env).run (v.ser ++ r) = .ok v.wire r := by
  obtain ⟨h1, h2, h3, h4, h5, h6, h7, h8, l2, l3, l4, l5, w2, w3, w4, w5⟩ := h
  have e0 : has v.fp (bit 11) = v.event_id.isSome := by unfold Iff.fp; flag_bits
  have e1 : has v.fp (bit 10) = v.relative_antenna_location.isSome := by unfold Iff.fp; flag_bits
  have e2 : has v.fp (bit 9) = v.system_id.isSome := by unfold Iff.fp; flag_bits
  have e3 : has v.fp (bit 8) = v.system_specific_data.isSome := by unfold Iff.fp; flag_bits
  have o := OperationalData.run h8 (fp := v.fp) (by unfold Iff.fp; flag_bits) (by unfold Iff.fp; flag_bits)
    (by unfold Iff.fp; flag_bits) (by unfold Iff.fp; flag_bits) (by unfold Iff.fp; flag_bits)
    (by unfold Iff.fp; flag_bits) (by unfold Iff.fp; flag_bits) (by unfold Iff.fp; flag_bits)
  simp only [Iff.parse, Iff.ser, List.append_assoc, rt, Iff.fp_lt, h1, toNat_lt_pow, toNat_bne, h2, e0, e1, e2, e3, h3, h4,
    rWhen_run (fun x h r => SystemId.run h r) _ h5, h6, h7, o, rWhen_if_map (fun x h r => IffLayer2.run h r) l2 w2,
    rWhen_if_map (fun x h r => IffLayer3.run h r) l3 w3, rWhen_if_map (fun x h r => IffLayer4.run h r) l4 w4,
    rWhen_if_map (fun x h r => IffLayer5.run h r) l5 w5, Iff.wire]

theorem lOpt_map {α : Type} (l : α → Nat) (f : α → α) (o : Option α) : lOpt l (o.map f) = lOpt (fun x => l (f x)) o := by
  cases o <;> rfl

/-- The length computed for the body that arrives counts five bits more than were written for a layer 4 and for a
layer 5 without data records. -/
theorem Iff.length_excess (v : Iff) :
    v.ser.length + (lOpt (fun x => if x.records.isEmpty then 5 else 0) v.layer_4)
      + (lOpt (fun x => if x.records.isEmpty then 5 else 0) v.layer_5) = v.wire.lenBits := by
  have a2 : (wOpt IffLayer2.ser v.layer_2).length = lOpt (fun x => x.wire.lenBits) v.layer_2 :=
    length_wOpt IffLayer2.length_ser _
  have a3 : (wOpt IffLayer3.ser v.layer_3).length = lOpt (fun x => x.wire.lenBits) v.layer_3 :=
    length_wOpt IffLayer3.length_ser _
  have a4 : (wOpt IffLayer4.ser v.layer_4).length + (lOpt (fun x => if x.records.isEmpty then 5 else 0) v.layer_4)
      = lOpt (fun x => x.wire.lenBits) v.layer_4 := by
    cases v.layer_4 with
    | none => rfl
    | some x => exact IffLayer4.length_excess x
  have a5 : (wOpt IffLayer5.ser v.layer_5).length + (lOpt (fun x => if x.records.isEmpty then 5 else 0) v.layer_5)
      = lOpt (fun x => x.wire.lenBits) v.layer_5 := by
    cases v.layer_5 with
    | none => rfl
    | some x => exact IffLayer5.length_excess x
  have s : (wOpt SystemId.ser v.system_id).length = lOpt (fun _ => 20) v.system_id := length_wOpt SystemId.length_ser _
  simp only [Iff.ser, Iff.wire, Iff.lenBits, len, lOpt_map, a2, a3, s, OperationalData.length_ser]
  omega

instance (env : Dis.Env) : P.Stable (Iff.parse env) := by unfold Iff.parse; parser_ok
instance (env : Dis.Env) : P.Safe (Iff.parse env) := by unfold Iff.parse; parser_ok

end Verif.Cdis

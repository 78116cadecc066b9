import Verif.Cdis.Records

/-! # C-DIS records, continued: markings, variable parameters, datums, beams, layer headers -/

namespace Verif.Cdis
open Verif.P

/-! ## Entity marking -/

/-- records/model.rs:733-767 `char_from_code`, five bit column, in the order of the codes -/
def fiveRead : List Char := "\x00ABCDEFGHILMNOPRSTUVWY0123456789".toList
/-- records/model.rs:844-878 `u8_from_char`, five bit column, in the order of the codes -/
def fiveWrite : List Char := "\x00ABCDEFGHILMNOPRSTUVWX0123456789".toList
/-- records/model.rs:770-835 and 881-946, six bit columns (codes 0 to 62; 63 stands for everything else) -/
def sixTable : List Char :=
  "\x00ABCDEFGHIJKLMNOPQRSTUVWXYZ.?!0123456789 []()\x7b\x7d+-_@&\"':;,~\\/%#$".toList

/-- records/model.rs:714-718 `CdisMarkingCharEncoding` -/
inductive CharEnc
  | five
  | six
  deriving Repr, DecidableEq

/-- records/model.rs:728-733 `bit_size` -/
def CharEnc.bitSize : CharEnc → Nat
  | .five => 5
  | .six => 6
/-- records/model.rs:735-740 `encoding` -/
def CharEnc.code : CharEnc → Nat
  | .five => 0
  | .six => 1
/-- records/model.rs:720-726 `new` -/
def CharEnc.ofCode (n : Nat) : CharEnc := if n = 0 then .five else .six

/-- records/model.rs:730-839 `char_from_code` -/
def CharEnc.charOf (e : CharEnc) (code : Nat) : Char :=
  match e with
  | .five => fiveRead.getD code '*'
  | .six => sixTable.getD code '*'
/-- records/model.rs:842-950 `u8_from_char` -/
def CharEnc.codeOf (e : CharEnc) (c : Char) : Nat :=
  match e with
  | .five => if c ∈ fiveWrite then fiveWrite.idxOf c else 63
  | .six => if c ∈ sixTable then sixTable.idxOf c else 63

/-- records/model.rs:629-632 `CdisEntityMarking`; the `String` is its list of characters. -/
structure Marking where
  enc : CharEnc
  marking : List Char
  deriving Repr, DecidableEq

/-- `String::len`: the number of bytes of the UTF-8 encoding. -/
def utf8Len (l : List Char) : Nat := (l.map Char.utf8Size).sum

/-- `String::truncate(n)`: the characters within the first `n` bytes; a Rust panic (`none`) when byte `n` is inside
a character. -/
def utf8Truncate : Nat → List Char → Option (List Char)
  | _, [] => some []
  | n, c :: l =>
    if n = 0 then some []
    else if c.utf8Size ≤ n then (utf8Truncate (n - c.utf8Size) l).map (c :: ·)
    else none

/-- records/model.rs:651-664 `check_char_encoding` -/
def checkEnc (l : List Char) : CharEnc :=
  if (l.filter (· ≠ '\x00')).all (·.isAlphanum) ∧ ¬ l.any (fun c => c ∈ ['J', 'K', 'Q', 'X', 'Z'])
  then .five else .six

/-- records/model.rs:635-649 `CdisEntityMarking::new` (`none`: the truncation panics) -/
def Marking.new (l : List Char) : Option Marking :=
  (if utf8Len l > 11 then utf8Truncate 11 l else some l).map fun m => ⟨checkEnc m, m⟩

/-- records/writer.rs:117-131 -/
def Marking.ser (v : Marking) : Bits :=
  wU 4 (utf8Len v.marking) ++ wU 1 v.enc.code ++ (v.marking.map v.enc.codeOf).flatMap (wU v.enc.bitSize)
/-- records/parser.rs:155-164, records/model.rs:684-696 `From<(&[u8], CdisMarkingCharEncoding)>` -/
def Marking.parse : BitP Marking := do
  let length ← rU 4
  let e ← rU 1
  let chars ← P.count (rU (CharEnc.ofCode e).bitSize) length
  pure ⟨CharEnc.ofCode e, chars.map (CharEnc.ofCode e).charOf⟩
/-- records/model.rs:676-682 -/
def Marking.lenBits (v : Marking) : Nat := 5 + utf8Len v.marking * v.enc.bitSize

/-- The characters whose code is read back as the same character. -/
def CharEnc.ok (e : CharEnc) (c : Char) : Prop := e.charOf (e.codeOf c % 2 ^ e.bitSize) = c
instance (e : CharEnc) (c : Char) : Decidable (e.ok c) := inferInstanceAs (Decidable (_ = _))
/-- Markings of at most 15 characters of the alphabet of their encoding. -/
def Marking.Wf (v : Marking) : Prop :=
  v.marking.length < 2 ^ 4 ∧ (∀ c ∈ v.marking, c.utf8Size = 1) ∧ ∀ c ∈ v.marking, v.enc.ok c
instance (v : Marking) : Decidable v.Wf := inferInstanceAs (Decidable (_ ∧ _))

theorem utf8Len_ascii {l : List Char} (h : ∀ c ∈ l, c.utf8Size = 1) : utf8Len l = l.length := by
  induction l with
  | nil => rfl
  | cons c l ih =>
    have := ih fun d hd => h d (by simp [hd])
    simp only [utf8Len, List.map_cons, List.sum_cons, List.length_cons] at *
    rw [h c (by simp), this]; omega

/-- What is read back from a marking, whatever its characters: every character goes through its code. -/
theorem Marking.run_raw (v : Marking) (hl : v.marking.length < 2 ^ 4) (ha : ∀ c ∈ v.marking, c.utf8Size = 1)
    (r : Bits) : Marking.parse.run (v.ser ++ r) =
      .ok ⟨v.enc, v.marking.map fun c => v.enc.charOf (v.enc.codeOf c % 2 ^ v.enc.bitSize)⟩ r := by
  have hu := utf8Len_ascii ha
  have e1 : (rU 1).run (wU 1 v.enc.code ++ ((v.marking.map v.enc.codeOf).flatMap (wU v.enc.bitSize) ++ r))
      = .ok v.enc.code ((v.marking.map v.enc.codeOf).flatMap (wU v.enc.bitSize) ++ r) :=
    rU_run _ _ _ (by cases v.enc <;> decide)
  have e2 : CharEnc.ofCode v.enc.code = v.enc := by cases v.enc <;> rfl
  have e3 : ∀ (l : List Char), (P.count (rU v.enc.bitSize) l.length).run
      ((l.map v.enc.codeOf).flatMap (wU v.enc.bitSize) ++ r)
      = .ok (l.map fun c => v.enc.codeOf c % 2 ^ v.enc.bitSize) r := by
    intro l
    induction l with
    | nil => simp [P.count]
    | cons c l ih =>
      simp only [P.count, List.length_cons, List.map_cons, List.flatMap_cons, List.append_assoc, P.run_bind,
        rU_run_mod, Res.andThen_ok, ih, P.run_pure]
  unfold Marking.parse Marking.ser
  rw [hu]
  simp only [List.append_assoc, P.run_bind, rU_run _ _ _ hl, Res.andThen_ok, e1, e2, e3, P.run_pure,
    List.map_map]
  rfl

theorem Marking.run {v : Marking} (h : v.Wf) (r : Bits) : Marking.parse.run (v.ser ++ r) = .ok v r := by
  obtain ⟨h1, h2, h3⟩ := h
  rw [Marking.run_raw v h1 h2]
  congr 1
  have : (v.marking.map fun c => v.enc.charOf (v.enc.codeOf c % 2 ^ v.enc.bitSize)) = v.marking := by
    conv => rhs; rw [← List.map_id v.marking]
    exact List.map_congr_left fun c hc => h3 c hc
  rw [this]
theorem length_flatMap_wU (n : Nat) (l : List Nat) : (l.flatMap (wU n)).length = l.length * n := by
  induction l with
  | nil => simp
  | cons a l ih => simp only [List.flatMap_cons, List.length_append, length_wU, ih, List.length_cons, Nat.add_mul]; omega
theorem Marking.length_ser {v : Marking} (h : ∀ c ∈ v.marking, c.utf8Size = 1) : v.ser.length = v.lenBits := by
  simp only [Marking.ser, Marking.lenBits, List.length_append, length_wU, length_flatMap_wU, List.length_map,
    utf8Len_ascii h]
instance : P.Stable Marking.parse := by unfold Marking.parse; parser_ok
instance : P.Safe Marking.parse := by unfold Marking.parse; parser_ok

/-! ## Variable parameters -/

/-- records/model.rs:1000-1004 `ParameterValueFloat`; an uncompressed `f32` is its bit pattern. -/
structure ParameterValueFloat where
  mantissa : Int
  exponent : Int
  uncompressed : Option Nat
  deriving Repr, DecidableEq
/-- records/model.rs:1061-1070 -/
def ParameterValueFloat.ser (v : ParameterValueFloat) : Bits :=
  match v.uncompressed with
  | some raw => wU 32 raw
  | none => wS 15 v.mantissa ++ wS 3 v.exponent
/-- records/model.rs:1051-1058 -/
def ParameterValueFloat.parse : BitP ParameterValueFloat := do
  let mantissa ← rS 15
  let exponent ← rS 3
  pure ⟨mantissa, exponent, none⟩
def ParameterValueFloat.Wf (v : ParameterValueFloat) : Prop :=
  v.uncompressed = none ∧ InS 15 v.mantissa ∧ InS 3 v.exponent
instance (v : ParameterValueFloat) : Decidable v.Wf := inferInstanceAs (Decidable (_ ∧ _))

/-- records/model.rs:1100-1106 `CdisArticulatedPartVP` -/
structure ArticulatedPartVP where
  change_indicator : Nat
  attachment_id : Nat
  type_class : Nat
  type_metric : Nat
  parameter_value : ParameterValueFloat
  deriving Repr, DecidableEq
/-- records/model.rs:1117-1122 `CdisAttachedPartVP` -/
structure AttachedPartVP where
  detached_indicator : Nat
  attachment_id : Nat
  parameter_type : Nat
  attached_part_type : EntityType
  deriving Repr, DecidableEq
/-- records/model.rs:1134-1140 `CdisEntitySeparationVP` -/
structure EntitySeparationVP where
  reason_for_separation : Nat
  pre_entity_indicator : Nat
  parent_entity_id : EntityId
  station_name : Nat
  station_number : Nat
  deriving Repr, DecidableEq
/-- records/model.rs:1152-1155 `CdisEntityTypeVP` -/
structure EntityTypeVP where
  change_indicator : Nat
  attached_part_type : EntityType
  deriving Repr, DecidableEq
/-- records/model.rs:1166-1175 `CdisEntityAssociationVP` -/
structure EntityAssociationVP where
  change_indicator : Nat
  association_status : Nat
  association_type : Nat
  entity_id : EntityId
  own_station_location : Nat
  physical_connection_type : Nat
  group_member_type : Nat
  group_number : Nat
  deriving Repr, DecidableEq

/-- records/model.rs:1075-1082 `CdisVariableParameter` -/
inductive VariableParameter
  | articulated (vp : ArticulatedPartVP)
  | attached (vp : AttachedPartVP)
  | separation (vp : EntitySeparationVP)
  | entityType (vp : EntityTypeVP)
  | association (vp : EntityAssociationVP)
  | unspecified
  deriving Repr, DecidableEq

/-- records/writer.rs:165-179 -/
def ArticulatedPartVP.ser (v : ArticulatedPartVP) : Bits :=
  wU 8 v.change_indicator ++ wU 10 v.attachment_id ++ wU 14 (v.type_metric + v.type_class) ++ v.parameter_value.ser
/-- records/parser.rs:240-258 -/
def ArticulatedPartVP.parseCompressed : BitP ArticulatedPartVP := do
  let change_indicator ← rU 8
  let attachment_id ← rU 10
  let parameter_type ← rU 14
  let parameter_value ← ParameterValueFloat.parse
  pure ⟨change_indicator, attachment_id, parameter_type - (parameter_type &&& 0x1f), parameter_type &&& 0x1f,
    parameter_value⟩
/-- records/parser.rs:260-279 -/
def ArticulatedPartVP.parse : BitP ArticulatedPartVP := do
  let change_indicator ← rU 8
  let attachment_id ← rU 16
  let parameter_type ← rU 32
  let parameter_value ← rU 32
  pure ⟨change_indicator, attachment_id, parameter_type - (parameter_type &&& 0x1f), parameter_type &&& 0x1f,
    ⟨0, 0, some parameter_value⟩⟩
def ArticulatedPartVP.Wf (v : ArticulatedPartVP) : Prop :=
  v.change_indicator < 2 ^ 8 ∧ v.attachment_id < 2 ^ 10 ∧ v.type_metric < 32 ∧ v.type_class % 32 = 0
    ∧ v.type_metric + v.type_class < 2 ^ 14 ∧ v.parameter_value.Wf
instance (v : ArticulatedPartVP) : Decidable v.Wf := inferInstanceAs (Decidable (_ ∧ _))

/-- records/writer.rs:181-191 -/
def AttachedPartVP.ser (v : AttachedPartVP) : Bits :=
  wU 1 v.detached_indicator ++ wU 10 v.attachment_id ++ wU 11 v.parameter_type ++ v.attached_part_type.ser
/-- records/parser.rs:281-295 -/
def AttachedPartVP.parseCompressed : BitP AttachedPartVP := do
  let detached_indicator ← rU 1
  let attachment_id ← rU 10
  let parameter_type ← rU 11
  let attached_part_type ← EntityType.parse
  pure ⟨detached_indicator, attachment_id, parameter_type, attached_part_type⟩
/-- records/parser.rs:297-312 -/
def AttachedPartVP.parse : BitP AttachedPartVP := do
  let detached_indicator ← rU 8
  let attachment_id ← rU 16
  let parameter_type ← rU 32
  let attached_part_type ← EntityType.parseUncompressed
  pure ⟨detached_indicator, attachment_id, parameter_type, attached_part_type⟩
def AttachedPartVP.Wf (v : AttachedPartVP) : Prop :=
  v.detached_indicator < 2 ^ 1 ∧ v.attachment_id < 2 ^ 10 ∧ v.parameter_type < 2 ^ 11 ∧ v.attached_part_type.Wf
instance (v : AttachedPartVP) : Decidable v.Wf := inferInstanceAs (Decidable (_ ∧ _))

/-- records/writer.rs:193-204 -/
def EntitySeparationVP.ser (v : EntitySeparationVP) : Bits :=
  wU 3 v.reason_for_separation ++ wU 3 v.pre_entity_indicator ++ v.parent_entity_id.ser ++ wU 6 v.station_name
    ++ wU 12 v.station_number
/-- records/parser.rs:314-332 -/
def EntitySeparationVP.parseCompressed : BitP EntitySeparationVP := do
  let reason_for_separation ← rU 3
  let pre_entity_indicator ← rU 3
  let parent_entity_id ← EntityId.parse
  let station_name ← rU 6
  let station_number ← rU 12
  pure ⟨reason_for_separation, pre_entity_indicator, parent_entity_id, station_name, station_number⟩
/-- records/parser.rs:334-356 -/
def EntitySeparationVP.parse : BitP EntitySeparationVP := do
  let reason_for_separation ← rU 8
  let pre_entity_indicator ← rU 8
  let _ ← rU 8
  let parent_entity_id ← EntityId.parseUncompressed
  let _ ← rU 16
  let station_name ← rU 16
  let station_number ← rU 16
  pure ⟨reason_for_separation, pre_entity_indicator, parent_entity_id, station_name, station_number⟩
def EntitySeparationVP.Wf (v : EntitySeparationVP) : Prop :=
  v.reason_for_separation < 2 ^ 3 ∧ v.pre_entity_indicator < 2 ^ 3 ∧ v.parent_entity_id.Wf ∧ v.station_name < 2 ^ 6
    ∧ v.station_number < 2 ^ 12
instance (v : EntitySeparationVP) : Decidable v.Wf := inferInstanceAs (Decidable (_ ∧ _))

/-- records/writer.rs:206-214 -/
def EntityTypeVP.ser (v : EntityTypeVP) : Bits := wU 1 v.change_indicator ++ v.attached_part_type.ser
/-- records/parser.rs:358-367 -/
def EntityTypeVP.parseCompressed : BitP EntityTypeVP := do
  let change_indicator ← rU 1
  let attached_part_type ← EntityType.parse
  pure ⟨change_indicator, attached_part_type⟩
/-- records/parser.rs:369-381 -/
def EntityTypeVP.parse : BitP EntityTypeVP := do
  let change_indicator ← rU 8
  let attached_part_type ← EntityType.parseUncompressed
  let _ ← rU 16
  let _ ← rU 32
  pure ⟨change_indicator, attached_part_type⟩
def EntityTypeVP.Wf (v : EntityTypeVP) : Prop := v.change_indicator < 2 ^ 1 ∧ v.attached_part_type.Wf
instance (v : EntityTypeVP) : Decidable v.Wf := inferInstanceAs (Decidable (_ ∧ _))

/-- records/writer.rs:216-230 -/
def EntityAssociationVP.ser (v : EntityAssociationVP) : Bits :=
  wU 1 v.change_indicator ++ wU 4 v.association_status ++ wU 8 v.association_type ++ v.entity_id.ser
    ++ wU 6 v.own_station_location ++ wU 5 v.physical_connection_type ++ wU 4 v.group_member_type
    ++ wU 16 v.group_number
/-- records/parser.rs:383-410 -/
def EntityAssociationVP.parseCompressed : BitP EntityAssociationVP := do
  let change_indicator ← rU 1
  let association_status ← rU 4
  let association_type ← rU 8
  let entity_id ← EntityId.parse
  let own_station_location ← rU 6
  let physical_connection_type ← rU 5
  let group_member_type ← rU 4
  let group_number ← rU 16
  pure ⟨change_indicator, association_status, association_type, entity_id, own_station_location,
    physical_connection_type, group_member_type, group_number⟩
/-- records/parser.rs:412-439 -/
def EntityAssociationVP.parse : BitP EntityAssociationVP := do
  let change_indicator ← rU 8
  let association_status ← rU 8
  let association_type ← rU 8
  let entity_id ← EntityId.parseUncompressed
  let own_station_location ← rU 16
  let physical_connection_type ← rU 8
  let group_member_type ← rU 8
  let group_number ← rU 16
  pure ⟨change_indicator, association_status, association_type, entity_id, own_station_location,
    physical_connection_type, group_member_type, group_number⟩
def EntityAssociationVP.Wf (v : EntityAssociationVP) : Prop :=
  v.change_indicator < 2 ^ 1 ∧ v.association_status < 2 ^ 4 ∧ v.association_type < 2 ^ 8 ∧ v.entity_id.Wf
    ∧ v.own_station_location < 2 ^ 6 ∧ v.physical_connection_type < 2 ^ 5 ∧ v.group_member_type < 2 ^ 4
    ∧ v.group_number < 2 ^ 16
instance (v : EntityAssociationVP) : Decidable v.Wf := inferInstanceAs (Decidable (_ ∧ _))

/-- records/writer.rs:133-163: the flag "compressed" is always written; nothing else is for `Unspecified`. -/
def VariableParameter.ser (v : VariableParameter) : Bits :=
  wU 1 1 ++ match v with
    | .articulated vp => wU 3 0 ++ vp.ser
    | .attached vp => wU 3 1 ++ vp.ser
    | .separation vp => wU 3 2 ++ vp.ser
    | .entityType vp => wU 3 3 ++ vp.ser
    | .association vp => wU 3 4 ++ vp.ser
    | .unspecified => []
/-- records/parser.rs:183-238 -/
def VariableParameter.parse : BitP VariableParameter := do
  let compressed ← rU 1
  let record_type ← rU (if compressed ≠ 0 then 3 else 8)
  if record_type = 0 then
    let vp ← if compressed ≠ 0 then ArticulatedPartVP.parseCompressed else ArticulatedPartVP.parse
    pure (.articulated vp)
  else if record_type = 1 then
    let vp ← if compressed ≠ 0 then AttachedPartVP.parseCompressed else AttachedPartVP.parse
    pure (.attached vp)
  else if record_type = 2 then
    let vp ← if compressed ≠ 0 then EntitySeparationVP.parseCompressed else EntitySeparationVP.parse
    pure (.separation vp)
  else if record_type = 3 then
    let vp ← if compressed ≠ 0 then EntityTypeVP.parseCompressed else EntityTypeVP.parse
    pure (.entityType vp)
  else if record_type = 4 then
    let vp ← if compressed ≠ 0 then EntityAssociationVP.parseCompressed else EntityAssociationVP.parse
    pure (.association vp)
  else pure .unspecified
/-- records/model.rs:1084-1096, 1108-1183 -/
def VariableParameter.lenBits (v : VariableParameter) : Nat :=
  4 + match v with
    | .articulated _ => 50
    | .attached vp => 22 + vp.attached_part_type.lenBits
    | .separation vp => 24 + vp.parent_entity_id.lenBits
    | .entityType vp => 1 + vp.attached_part_type.lenBits
    | .association vp => 44 + vp.entity_id.lenBits
    | .unspecified => 0
/-- Every field fits, and the parameter is of a known kind. -/
def VariableParameter.Wf : VariableParameter → Prop
  | .articulated vp => vp.Wf
  | .attached vp => vp.Wf
  | .separation vp => vp.Wf
  | .entityType vp => vp.Wf
  | .association vp => vp.Wf
  | .unspecified => False
instance (v : VariableParameter) : Decidable v.Wf := by unfold VariableParameter.Wf; cases v <;> infer_instance

theorem ParameterValueFloat.run {v : ParameterValueFloat} (h : v.Wf) (r : Bits) :
    ParameterValueFloat.parse.run (v.ser ++ r) = .ok v r := by
  obtain ⟨m, e, u⟩ := v
  obtain ⟨h1, h2, h3⟩ := h
  simp only at h1 h2 h3
  subst h1
  simp only [ParameterValueFloat.parse, ParameterValueFloat.ser, List.append_assoc, rt, *]
instance : P.Stable ParameterValueFloat.parse := by unfold ParameterValueFloat.parse; parser_ok
instance : P.Safe ParameterValueFloat.parse := by unfold ParameterValueFloat.parse; parser_ok

attribute [rt high] EntityId.run EntityType.run Orientation.run WorldCoordinates.run Vec3.run12 Vec3.run14 Vec3.run16
  Marking.run ParameterValueFloat.run
attribute [len] EntityId.length_ser EntityType.length_ser Orientation.length_ser WorldCoordinates.length_ser
  Vec3.length12 Vec3.length14 Vec3.length16

theorem ArticulatedPartVP.run {v : ArticulatedPartVP} (h : v.Wf) (r : Bits) :
    ArticulatedPartVP.parseCompressed.run (v.ser ++ r) = .ok v r := by
  obtain ⟨h1, h2, h3, h4, h5, h6⟩ := h
  have e : (v.type_metric + v.type_class) &&& 0x1f = v.type_metric := by
    rw [show (0x1f : Nat) = 2 ^ 5 - 1 from rfl, Nat.and_two_pow_sub_one_eq_mod]; omega
  have e2 : v.type_metric + v.type_class - v.type_metric = v.type_class := by omega
  simp only [ArticulatedPartVP.parseCompressed, ArticulatedPartVP.ser, List.append_assoc, rt, h1, h2, h5, h6, e, e2]
theorem AttachedPartVP.run {v : AttachedPartVP} (h : v.Wf) (r : Bits) :
    AttachedPartVP.parseCompressed.run (v.ser ++ r) = .ok v r := by
  obtain ⟨h1, h2, h3, h4⟩ := h
  simp only [AttachedPartVP.parseCompressed, AttachedPartVP.ser, List.append_assoc, rt, *]
theorem EntitySeparationVP.run {v : EntitySeparationVP} (h : v.Wf) (r : Bits) :
    EntitySeparationVP.parseCompressed.run (v.ser ++ r) = .ok v r := by
  obtain ⟨h1, h2, h3, h4, h5⟩ := h
  simp only [EntitySeparationVP.parseCompressed, EntitySeparationVP.ser, List.append_assoc, rt, *]
theorem EntityTypeVP.run {v : EntityTypeVP} (h : v.Wf) (r : Bits) :
    EntityTypeVP.parseCompressed.run (v.ser ++ r) = .ok v r := by
  obtain ⟨h1, h2⟩ := h
  simp only [EntityTypeVP.parseCompressed, EntityTypeVP.ser, List.append_assoc, rt, *]
theorem EntityAssociationVP.run {v : EntityAssociationVP} (h : v.Wf) (r : Bits) :
    EntityAssociationVP.parseCompressed.run (v.ser ++ r) = .ok v r := by
  obtain ⟨h1, h2, h3, h4, h5, h6, h7, h8⟩ := h
  simp only [EntityAssociationVP.parseCompressed, EntityAssociationVP.ser, List.append_assoc, rt, *]

instance : P.Stable ArticulatedPartVP.parse := by unfold ArticulatedPartVP.parse; parser_ok
instance : P.Safe ArticulatedPartVP.parse := by unfold ArticulatedPartVP.parse; parser_ok
instance : P.Stable ArticulatedPartVP.parseCompressed := by unfold ArticulatedPartVP.parseCompressed; parser_ok
instance : P.Safe ArticulatedPartVP.parseCompressed := by unfold ArticulatedPartVP.parseCompressed; parser_ok
instance : P.Stable AttachedPartVP.parse := by unfold AttachedPartVP.parse; parser_ok
instance : P.Safe AttachedPartVP.parse := by unfold AttachedPartVP.parse; parser_ok
instance : P.Stable AttachedPartVP.parseCompressed := by unfold AttachedPartVP.parseCompressed; parser_ok
instance : P.Safe AttachedPartVP.parseCompressed := by unfold AttachedPartVP.parseCompressed; parser_ok
instance : P.Stable EntitySeparationVP.parse := by unfold EntitySeparationVP.parse; parser_ok
instance : P.Safe EntitySeparationVP.parse := by unfold EntitySeparationVP.parse; parser_ok
instance : P.Stable EntitySeparationVP.parseCompressed := by unfold EntitySeparationVP.parseCompressed; parser_ok
instance : P.Safe EntitySeparationVP.parseCompressed := by unfold EntitySeparationVP.parseCompressed; parser_ok
instance : P.Stable EntityTypeVP.parse := by unfold EntityTypeVP.parse; parser_ok
instance : P.Safe EntityTypeVP.parse := by unfold EntityTypeVP.parse; parser_ok
instance : P.Stable EntityTypeVP.parseCompressed := by unfold EntityTypeVP.parseCompressed; parser_ok
instance : P.Safe EntityTypeVP.parseCompressed := by unfold EntityTypeVP.parseCompressed; parser_ok
instance : P.Stable EntityAssociationVP.parse := by unfold EntityAssociationVP.parse; parser_ok
instance : P.Safe EntityAssociationVP.parse := by unfold EntityAssociationVP.parse; parser_ok
instance : P.Stable EntityAssociationVP.parseCompressed := by unfold EntityAssociationVP.parseCompressed; parser_ok
instance : P.Safe EntityAssociationVP.parseCompressed := by unfold EntityAssociationVP.parseCompressed; parser_ok
instance : P.Stable VariableParameter.parse := by unfold VariableParameter.parse; parser_ok
instance : P.Safe VariableParameter.parse := by unfold VariableParameter.parse; parser_ok

theorem VariableParameter.run {v : VariableParameter} (h : v.Wf) (r : Bits) :
    VariableParameter.parse.run (v.ser ++ r) = .ok v r := by
  cases v with
  | unspecified => exact absurd h id
  | articulated vp =>
    simp (decide := true) only [VariableParameter.parse, VariableParameter.ser, List.append_assoc, rt, if_true, if_false,
      ArticulatedPartVP.run h]
  | attached vp =>
    simp (decide := true) only [VariableParameter.parse, VariableParameter.ser, List.append_assoc, rt, if_true, if_false,
      AttachedPartVP.run h]
  | separation vp =>
    simp (decide := true) only [VariableParameter.parse, VariableParameter.ser, List.append_assoc, rt, if_true, if_false,
      EntitySeparationVP.run h]
  | entityType vp =>
    simp (decide := true) only [VariableParameter.parse, VariableParameter.ser, List.append_assoc, rt, if_true, if_false,
      EntityTypeVP.run h]
  | association vp =>
    simp (decide := true) only [VariableParameter.parse, VariableParameter.ser, List.append_assoc, rt, if_true, if_false,
      EntityAssociationVP.run h]

theorem ParameterValueFloat.length_ser {v : ParameterValueFloat} (h : v.Wf) : v.ser.length = 18 := by
  obtain ⟨m, e, u⟩ := v
  obtain ⟨h1, h2, h3⟩ := h
  simp only at h1
  subst h1
  simp [ParameterValueFloat.ser]
theorem VariableParameter.length_ser {v : VariableParameter} (h : v.Wf) : v.ser.length = v.lenBits := by
  cases v with
  | unspecified => exact absurd h id
  | articulated vp =>
    have := ParameterValueFloat.length_ser h.2.2.2.2.2
    simp only [VariableParameter.ser, VariableParameter.lenBits, ArticulatedPartVP.ser, len, this]
  | attached vp =>
    simp only [VariableParameter.ser, VariableParameter.lenBits, AttachedPartVP.ser, len]; omega
  | separation vp =>
    simp only [VariableParameter.ser, VariableParameter.lenBits, EntitySeparationVP.ser, len]; omega
  | entityType vp =>
    simp only [VariableParameter.ser, VariableParameter.lenBits, EntityTypeVP.ser, len]; omega
  | association vp =>
    simp only [VariableParameter.ser, VariableParameter.lenBits, EntityAssociationVP.ser, len]; omega

end Verif.Cdis

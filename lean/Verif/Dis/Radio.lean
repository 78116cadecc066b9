import Verif.Dis.Iff

/-!
# Radio communications PDUs: Transmitter, Signal, Receiver

File names in the comments are relative to dis-rs/src/common.
-/

set_option linter.unusedSimpArgs false

namespace Verif.Dis
open Verif.P

/-! ## Transmitter -/

/-- transmitter/model.rs:158-163 `From<u16> for SpreadSpectrum`: frequency hopping, pseudo noise, time hopping
(the code shifts before masking with 1, which is the same) -/
def SpreadSpectrum.rd : List RField := [.bits 0x8000 15, .bits 0x4000 14, .bits 0x2000 13]
/-- transmitter/model.rs:168-183 -/
def SpreadSpectrum.wr : List Nat := [15, 14, 13]
/-- Specification of the record. -/
def SpreadSpectrum.layout : Layout := [(15, 1), (14, 1), (13, 1)]
theorem SpreadSpectrum.run {v : Packed} (h : SpreadSpectrum.layout.Fits v) (r : Bytes) :
    (unpack16 SpreadSpectrum.rd).run (pack16 SpreadSpectrum.wr v ++ r) = .ok v r :=
  run_unpack16 SpreadSpectrum.layout r (by decide) (by decide) (by decide) h

/-- transmitter/model.rs:203-211 `From<u16> for CryptoKeyId`: pseudo crypto key, crypto mode (0 = baseband) -/
def CryptoKeyId.rd : List RField := [.bits 0xfffe 1, .bits 0x0001 0]
/-- transmitter/writer.rs:75-85 (`+ 1` on an even number is a bitwise or) -/
def CryptoKeyId.wr : List Nat := [1, 0]
/-- Specification of the record. -/
def CryptoKeyId.layout : Layout := [(1, 15), (0, 1)]
theorem CryptoKeyId.run {v : Packed} (h : CryptoKeyId.layout.Fits v) (r : Bytes) :
    (unpack16 CryptoKeyId.rd).run (pack16 CryptoKeyId.wr v ++ r) = .ok v r :=
  run_unpack16 CryptoKeyId.layout r (by decide) (by decide) (by decide) h

/-- transmitter/model.rs:74-78; the major modulation is the index of the variant (0 = NoStatement, 1..8, 9 =
Unspecified) and the raw detail (none for NoStatement). -/
structure ModulationType where
  spread_spectrum : Packed
  major : UInt16
  detail : UInt16
  radio_system : UInt16
  deriving Repr, DecidableEq
/-- transmitter/parser.rs:85-103, transmitter/model.rs:344-368 `new_from_bytes_with_detail`: an unknown major
modulation becomes `Unspecified(detail)`. -/
def ModulationType.parse : BP ModulationType := do
  let s ← unpack16 SpreadSpectrum.rd
  let m ← be_u16
  let d ← be_u16
  let rs ← be_u16
  pure (if m = 0 then ⟨s, 0, 0, rs⟩ else if m.toNat ≤ 8 then ⟨s, m, d, rs⟩ else ⟨s, 9, d, rs⟩)
/-- transmitter/writer.rs:56-73, transmitter/model.rs:370-402 `to_bytes_with_detail` -/
def ModulationType.ser (x : ModulationType) : Bytes :=
  pack16 SpreadSpectrum.wr x.spread_spectrum ++ e16 x.major ++ e16 (if x.major = 0 then 0 else x.detail) ++ e16 x.radio_system

/-- transmitter/model.rs:247-255 -/
structure BeamAntennaPattern where
  beam_direction : Orientation
  azimuth_beamwidth : UInt32
  elevation_beamwidth : UInt32
  reference_system : UInt8
  e_z : UInt32
  e_x : UInt32
  phase : UInt32
  deriving Repr, DecidableEq
/-- transmitter/parser.rs:111-132 -/
def BeamAntennaPattern.parse : BP BeamAntennaPattern := do
  let a ← Orientation.parse
  let b ← be_u32
  let c ← be_u32
  let d ← be_u8
  let _pad ← be_u8
  let _pad ← be_u16
  let e ← be_u32
  let f ← be_u32
  let g ← be_u32
  let _pad ← be_u32
  pure ⟨a, b, c, d, e, f, g⟩
/-- transmitter/writer.rs:87-102 -/
def BeamAntennaPattern.ser (x : BeamAntennaPattern) : Bytes :=
  x.beam_direction.ser ++ e32 x.azimuth_beamwidth ++ e32 x.elevation_beamwidth ++ e8 x.reference_system ++ e8 0 ++ e16 0
    ++ e32 x.e_z ++ e32 x.e_x ++ e32 x.phase ++ e32 0

/-- transmitter/model.rs:313-316 -/
structure VariableTransmitterParameter where
  record_type : UInt32
  fields : Bytes
  deriving Repr, DecidableEq
/-- transmitter/parser.rs:134-144: `record_length - 6` overflows for a length below 6, which panics in a build
with overflow checks and wraps around otherwise. -/
def VariableTransmitterParameter.parse (checked : Bool) : BP VariableTransmitterParameter := do
  let t ← be_u32
  let n ← be_u16
  if n.toNat < 6 ∧ checked = true then P.panic
  else do
    let f ← P.take ((n.toNat + 65536 - 6) % 65536)
    pure ⟨t, f⟩
/-- transmitter/writer.rs:104-118 -/
def VariableTransmitterParameter.ser (x : VariableTransmitterParameter) : Bytes :=
  let padded := lengthPaddedToNum (6 + x.fields.length) 8
  e32 x.record_type ++ e16 (UInt16.ofNat padded.record_length) ++ x.fields ++ zeros padded.padding_length
/-- transmitter/model.rs:51-55, transmitter/writer.rs:116 -/
def VariableTransmitterParameter.recordLen (x : VariableTransmitterParameter) : Nat :=
  (lengthPaddedToNum (6 + x.fields.length) 8).record_length % 65536

/-- transmitter/model.rs:12-30 -/
structure Transmitter where
  radio_reference_id : EntityId
  radio_number : UInt16
  radio_type : EntityType
  transmit_state : UInt8
  input_source : UInt8
  antenna_location : Location
  relative_antenna_location : VectorF32
  antenna_pattern_type : UInt16
  frequency : UInt64
  transmit_frequency_bandwidth : UInt32
  power : UInt32
  modulation_type : ModulationType
  crypto_system : UInt16
  crypto_key_id : Packed
  modulation_parameters : Option Bytes
  antenna_pattern : Option BeamAntennaPattern
  variable_transmitter_parameters : List VariableTransmitterParameter
  deriving Repr, DecidableEq

/-- transmitter/parser.rs:10-83; `ver` is the raw protocol version of the header -/
def Transmitter.parse (checked : Bool) (ver : UInt8) : BP Transmitter := do
  let a ← EntityId.parse
  let b ← be_u16
  let c ← EntityType.parse
  let d ← be_u8
  let e ← be_u8
  let n ← be_u16
  let f ← Location.parse
  let g ← VectorF32.parse
  let h ← be_u16
  let apl ← be_u16
  let i ← be_u64
  let j ← be_u32
  let k ← be_u32
  let l ← ModulationType.parse
  let m ← be_u16
  let o ← unpack16 CryptoKeyId.rd
  let len ← be_u8
  let _pad ← be_u8
  let _pad ← be_u16
  let mp ← optionally (0 < len.toNat) (P.take len.toNat)
  let ap ← optionally (0 < apl.toNat) BeamAntennaPattern.parse
  let vtp ← P.count (VariableTransmitterParameter.parse checked) (if ver = 7 then n.toNat else 0)
  pure ⟨a, b, c, d, e, f, g, h, i, j, k, l, m, o, mp, ap, vtp⟩

/-- transmitter/writer.rs:18-22: the antenna pattern length field -/
def antennaPatternLength (o : Option BeamAntennaPattern) : UInt16 := if o.isSome then 40 else 0
/-- transmitter/writer.rs:29-31: the modulation parameter length field (`as u8`) -/
def modulationLength (o : Option Bytes) : UInt8 := UInt8.ofNat (optLen List.length o)
/-- transmitter/writer.rs:7-54 -/
def Transmitter.ser (x : Transmitter) : Bytes :=
  (x.radio_reference_id.ser ++ e16 x.radio_number ++ x.radio_type.ser ++ e8 x.transmit_state ++ e8 x.input_source)
    ++ ((e16 (UInt16.ofNat x.variable_transmitter_parameters.length) ++ x.antenna_location.ser
    ++ x.relative_antenna_location.ser ++ e16 x.antenna_pattern_type
    ++ e16 (antennaPatternLength x.antenna_pattern) ++ e64 x.frequency)
    ++ ((e32 x.transmit_frequency_bandwidth
    ++ e32 x.power ++ x.modulation_type.ser ++ e16 x.crypto_system ++ pack16 CryptoKeyId.wr x.crypto_key_id)
    ++ (e8 (modulationLength x.modulation_parameters) ++ e8 0 ++ e16 0
    ++ optSer id x.modulation_parameters ++ optSer BeamAntennaPattern.ser x.antenna_pattern
    ++ serList VariableTransmitterParameter.ser x.variable_transmitter_parameters)))
/-- transmitter/model.rs:7, 47-56 -/
def Transmitter.bodyLen (x : Transmitter) : Nat :=
  92 + optLen List.length x.modulation_parameters + optLen (fun _ => 40) x.antenna_pattern
    + cntList VariableTransmitterParameter.recordLen x.variable_transmitter_parameters
/-- transmitter/writer.rs:52 -/
def Transmitter.cnt (x : Transmitter) : Nat :=
  104 + optLen List.length x.modulation_parameters + optLen (fun _ => 40) x.antenna_pattern
    + cntList VariableTransmitterParameter.recordLen x.variable_transmitter_parameters

/-- Specification: a record fills whole 64-bit words and its length fits 16 bits. -/
def VariableTransmitterParameter.Wf (x : VariableTransmitterParameter) : Prop :=
  (6 + x.fields.length) % 8 = 0 ∧ 6 + x.fields.length < 65536
/-- Specification: fields fit; the modulation is one of the known ones (no detail for `NoStatement`) or
unspecified; modulation parameters, if any, are 1 to 255 octets; only version 7 has variable parameters. -/
structure Transmitter.Wf (ver : UInt8) (x : Transmitter) : Prop where
  spread : SpreadSpectrum.layout.Fits x.modulation_type.spread_spectrum
  major : x.modulation_type.major.toNat ≤ 9
  detail : x.modulation_type.major = 0 → x.modulation_type.detail = 0
  crypto : CryptoKeyId.layout.Fits x.crypto_key_id
  modulation : ∀ m, x.modulation_parameters = some m → 0 < m.length ∧ m.length ≤ 255
  version : ver = 7 ∨ x.variable_transmitter_parameters = []
  count : x.variable_transmitter_parameters.length < 65536
  params : ∀ p ∈ x.variable_transmitter_parameters, p.Wf

theorem ModulationType.parse_ser {x : ModulationType} (h : SpreadSpectrum.layout.Fits x.spread_spectrum)
    (h2 : x.major.toNat ≤ 9) (h3 : x.major = 0 → x.detail = 0) (r : Bytes) :
    ModulationType.parse.run (x.ser ++ r) = .ok x r := by
  obtain ⟨s, m, d, rs⟩ := x
  simp only at h h2 h3
  rtp [ModulationType.parse, ModulationType.ser, SpreadSpectrum.run h]
  by_cases h0 : m = 0
  · subst h0; simp [h3 rfl]
  · simp only [h0, if_false]
    by_cases h8 : m.toNat ≤ 8
    · simp [h8]
    · have : m = 9 := UInt16.toNat.inj (by show m.toNat = 9; omega)
      subst this; simp
@[len] theorem ModulationType.length_ser (x : ModulationType) : x.ser.length = 8 := by lenp [ModulationType.ser]
@[rt] theorem BeamAntennaPattern.parse_ser (r : Bytes) (x : BeamAntennaPattern) :
    BeamAntennaPattern.parse.run (x.ser ++ r) = .ok x r := by
  rtp [BeamAntennaPattern.parse, BeamAntennaPattern.ser]
@[len] theorem BeamAntennaPattern.length_ser (x : BeamAntennaPattern) : x.ser.length = 40 := by lenp [BeamAntennaPattern.ser]
theorem VariableTransmitterParameter.parse_ser {x : VariableTransmitterParameter} (h : x.Wf) (checked : Bool) (r : Bytes) :
    (VariableTransmitterParameter.parse checked).run (x.ser ++ r) = .ok x r := by
  obtain ⟨h1, h2⟩ := h
  have e1 : (lengthPaddedToNum (6 + x.fields.length) 8).record_length = 6 + x.fields.length := by
    simp [lengthPaddedToNum, h1]
  simp only [VariableTransmitterParameter.parse, VariableTransmitterParameter.ser, lengthPadded_aligned h1, e1, zeros,
    List.replicate_zero, List.append_nil]
  rtp [toNat_u16_ofNat h2]
  rw [if_neg (by omega)]
  simp only [rt]
  rw [P.run_take _ _ _ (by omega)]
  simp only [rt]
theorem VariableTransmitterParameter.length_ser {x : VariableTransmitterParameter} (h : x.Wf) : x.ser.length = x.recordLen := by
  obtain ⟨h1, h2⟩ := h
  lenp [VariableTransmitterParameter.ser, VariableTransmitterParameter.recordLen]
  simp only [lengthPaddedToNum, h1, if_true]
  omega
theorem run_modulation {o : Option Bytes} (h : ∀ m, o = some m → 0 < m.length ∧ m.length ≤ 255) (r : Bytes) :
    (optionally (0 < (modulationLength o).toNat) (P.take (modulationLength o).toNat)).run (optSer id o ++ r)
      = .ok o r := by
  cases o with
  | none => exact run_optionally (s := id) (by simp [optLen, modulationLength]) (by simp) r
  | some m =>
    have := h m rfl
    have e : (modulationLength (some m)).toNat = m.length := toNat_u8_ofNat (by simp [optLen]; omega)
    rw [e]
    exact run_optionally (s := id) (by simp; omega) (by intro a ha r; cases ha; exact P.run_take _ _ _ rfl) r
theorem run_antenna (o : Option BeamAntennaPattern) (r : Bytes) :
    (optionally (0 < (antennaPatternLength o).toNat) BeamAntennaPattern.parse).run (optSer BeamAntennaPattern.ser o ++ r)
      = .ok o r := by
  refine run_optionally ?_ (fun a _ r => BeamAntennaPattern.parse_ser r a) r
  cases o <;> simp [antennaPatternLength]
theorem Transmitter.parse_ser {ver : UInt8} {x : Transmitter} (h : x.Wf ver) (checked : Bool) (r : Bytes) :
    (Transmitter.parse checked ver).run (x.ser ++ r) = .ok x r := by
  have hc : (if ver = 7 then (UInt16.ofNat x.variable_transmitter_parameters.length).toNat else 0)
      = x.variable_transmitter_parameters.length := by
    rcases h.version with h7 | h7
    · rw [if_pos h7]; exact toNat_u16_ofNat h.count
    · rw [h7]; simp
  generalize hn : UInt16.ofNat x.variable_transmitter_parameters.length = n16 at hc
  rtp [Transmitter.parse, Transmitter.ser, hn, ModulationType.parse_ser h.spread h.major h.detail, CryptoKeyId.run h.crypto,
    run_modulation h.modulation, run_antenna, hc]
  have hv := run_countList (p := VariableTransmitterParameter.parse checked) (s := VariableTransmitterParameter.ser)
    x.variable_transmitter_parameters r _ rfl (fun p hp r => VariableTransmitterParameter.parse_ser (h.params p hp) checked r)
  rtp [hv]
theorem Transmitter.length_ser {ver : UInt8} {x : Transmitter} (h : x.Wf ver) : x.ser.length = x.bodyLen := by
  have e1 : (optSer id x.modulation_parameters).length = optLen List.length x.modulation_parameters := by
    cases x.modulation_parameters <;> rfl
  have e2 : (optSer BeamAntennaPattern.ser x.antenna_pattern).length = optLen (fun _ => 40) x.antenna_pattern := by
    cases x.antenna_pattern with | none => rfl | some a => exact BeamAntennaPattern.length_ser a
  lenp [Transmitter.ser, Transmitter.bodyLen, e1, e2, length_serList_eq_cntList (c := VariableTransmitterParameter.recordLen)
    x.variable_transmitter_parameters fun p hp => VariableTransmitterParameter.length_ser (h.params p hp)]
  omega
theorem Transmitter.cnt_eq (x : Transmitter) : x.cnt = x.bodyLen + 12 := by
  simp only [Transmitter.cnt, Transmitter.bodyLen]; omega

/-! ## Signal -/

/-- signal/model.rs:64-70; the encoding class is part of every variant -/
inductive EncodingScheme where
  | encodedAudio (encoding_class encoding_type : UInt16)
  | rawBinaryData (encoding_class nr_of_messages : UInt16)
  | applicationSpecificData (encoding_class : UInt16) (user_protocol_id : UInt32)
  | databaseIndex (encoding_class : UInt16) (index offset_milli_secs duration_milli_secs : UInt32)
  | unspecified (encoding_class : UInt16)
  deriving Repr, DecidableEq

/-- `u32::from_be_bytes(data[i..i+4])`: panics when the slice is out of range -/
def sliceU32 (data : Bytes) (i : Nat) : BP UInt32 :=
  match (be_u32).run ((data.drop i)) with
  | .ok v _ => pure v
  | _ => P.panic

/-- signal/parser.rs:36-77; a two-bit class is never `Unspecified` (SISO-REF-010: 0 encoded audio, 1 raw binary
data, 2 application-specific data, 3 database index) -/
def EncodingScheme.parse (w : UInt16) (data : Bytes) : BP EncodingScheme :=
  let cls := w >>> 14
  let low := w &&& 0x3fff
  if cls = 0 then pure (.encodedAudio cls low)
  else if cls = 1 then pure (.rawBinaryData cls low)
  else if cls = 2 then do
    let u ← sliceU32 data 0
    pure (.applicationSpecificData cls u)
  else if cls = 3 then do
    let a ← sliceU32 data 0
    let b ← sliceU32 data 4
    let c ← sliceU32 data 8
    pure (.databaseIndex cls a b c)
  else pure (.unspecified cls)
/-- signal/writer.rs:26-57 -/
def EncodingScheme.word : EncodingScheme → UInt16
  | .encodedAudio c t => (c <<< 14) ||| t
  | .rawBinaryData c n => (c <<< 14) ||| n
  | .applicationSpecificData c _ => c <<< 14
  | .databaseIndex c _ _ _ => c <<< 14
  | .unspecified c => c <<< 14

/-- signal/model.rs:13-21 -/
structure Signal where
  radio_reference_id : EntityId
  radio_number : UInt16
  encoding_scheme : EncodingScheme
  tdl_type : UInt16
  sample_rate : UInt32
  samples : UInt16
  data : Bytes
  deriving Repr, DecidableEq

/-- signal/parser.rs:9-34 (the padding after the data is not read) -/
def Signal.parse : BP Signal := do
  let a ← EntityId.parse
  let b ← be_u16
  let w ← be_u16
  let t ← be_u16
  let sr ← be_u32
  let n ← be_u16
  let s ← be_u16
  let d ← P.take (n.toNat / 8)
  let e ← EncodingScheme.parse w d
  pure ⟨a, b, e, t, sr, s, d⟩
/-- signal/writer.rs:7-24 -/
def Signal.ser (x : Signal) : Bytes :=
  x.radio_reference_id.ser ++ e16 x.radio_number ++ e16 x.encoding_scheme.word ++ e16 x.tdl_type ++ e32 x.sample_rate
    ++ e16 (UInt16.ofNat (x.data.length * 8)) ++ e16 x.samples ++ x.data
    ++ zeros (lengthPaddedToNum x.data.length 4).padding_length
/-- signal/model.rs:7, 38-43 -/
def Signal.bodyLen (x : Signal) : Nat := 20 + (lengthPaddedToNum x.data.length 4).record_length % 65536
/-- signal/writer.rs:22 -/
def Signal.cnt (x : Signal) : Nat :=
  x.radio_reference_id.cnt + 2 + 2 + 10 + (lengthPaddedToNum x.data.length 4).record_length % 65536

/-- Specification: 14-bit encoding type or message count, and for application-specific data and database
indices the values that are the first octets of the data. -/
def EncodingScheme.Wf (data : Bytes) : EncodingScheme → Prop
  | .encodedAudio c t => c = 0 ∧ t.toNat < 16384
  | .rawBinaryData c n => c = 1 ∧ n.toNat < 16384
  | .applicationSpecificData c u => c = 2 ∧ ∃ rest, data = e32 u ++ rest
  | .databaseIndex c i o d => c = 3 ∧ ∃ rest, data = e32 i ++ e32 o ++ e32 d ++ rest
  | .unspecified _ => False
/-- Specification: at most 8191 octets of data (the length in bits is a 16-bit field). -/
structure Signal.Wf (x : Signal) : Prop where
  scheme : x.encoding_scheme.Wf x.data
  data : x.data.length < 8192

theorem sliceU32_eq (data : Bytes) (i : Nat) (u : UInt32) (rest : Bytes) (h : data.drop i = e32 u ++ rest) :
    sliceU32 data i = pure u := by
  unfold sliceU32
  rw [h, be_u32_e32]
theorem class_bits (c t : UInt16) (hc : c.toNat < 4) (ht : t.toNat < 16384) :
    ((c <<< 14) ||| t) >>> 14 = c ∧ ((c <<< 14) ||| t) &&& 0x3fff = t := by
  have h := unpack_pack (L := [(14, 2), (0, 14)]) (t := 16) (vs := [c.toNat, t.toNat]) (by decide) ⟨hc, ht, trivial⟩
  have e : (((c <<< 14) ||| t).toNat) = Verif.pack [14, 0] [c.toNat, t.toNat] := by
    simp only [Verif.pack, UInt16.toNat_or, UInt16.toNat_shiftLeft, Nat.shiftLeft_zero, Nat.or_zero]
    congr 1
    rw [Nat.mod_eq_of_lt]
    · rfl
    · rw [Nat.shiftLeft_eq]; simp; omega
  simp only [unpack, Layout.reader, Layout.writer, List.map_cons, List.map_nil, RField.read, List.cons.injEq] at h
  refine ⟨UInt16.toNat.inj ?_, UInt16.toNat.inj ?_⟩
  · rw [UInt16.toNat_shiftRight, e]
    have := h.1
    have hp : Verif.pack [14, 0] [c.toNat, t.toNat] < 2 ^ 16 :=
      pack_lt (L := [(14, 2), (0, 14)]) (t := 16) (vs := [c.toNat, t.toNat]) (by decide) ⟨hc, ht, trivial⟩
    rw [Nat.shiftRight_and_distrib] at this
    have e3 : ((2 ^ 2 - 1) <<< 14) >>> 14 = 2 ^ 2 - 1 := by decide
    rw [e3, Nat.and_two_pow_sub_one_eq_mod, Nat.mod_eq_of_lt (by rw [Nat.shiftRight_eq_div_pow]; omega)] at this
    exact this
  · rw [UInt16.toNat_and, e]
    have := h.2.1
    simpa using this
theorem EncodingScheme.parse_word {x : EncodingScheme} {data : Bytes} (h : x.Wf data) :
    EncodingScheme.parse x.word data = pure x := by
  cases x with
  | encodedAudio c t =>
    obtain ⟨rfl, ht⟩ := h
    have hb := class_bits 0 t (by decide) ht
    simp only [EncodingScheme.parse, EncodingScheme.word, hb.1, hb.2, if_true]
  | rawBinaryData c n =>
    obtain ⟨rfl, ht⟩ := h
    have hb := class_bits 1 n (by decide) ht
    simp only [EncodingScheme.parse, EncodingScheme.word, hb.1, hb.2]
    simp (decide := true) only [if_true, if_false]
  | applicationSpecificData c u =>
    obtain ⟨rfl, rest, hd⟩ := h
    have hs := sliceU32_eq data 0 u rest (by simpa using hd)
    have e1 : ((2 : UInt16) <<< 14) >>> 14 = 2 := by decide
    simp only [EncodingScheme.parse, EncodingScheme.word, e1, hs]
    simp (decide := true) only [if_true, if_false]
    rfl
  | databaseIndex c i o d =>
    obtain ⟨rfl, rest, hd⟩ := h
    have hs := sliceU32_eq data 0 i (e32 o ++ e32 d ++ rest) (by simp [hd])
    have hs2 := sliceU32_eq data 4 o (e32 d ++ rest) (by rw [hd]; simp [e32])
    have hs3 := sliceU32_eq data 8 d rest (by rw [hd]; simp [e32])
    have e1 : ((3 : UInt16) <<< 14) >>> 14 = 3 := by decide
    simp only [EncodingScheme.parse, EncodingScheme.word, e1, hs, hs2, hs3]
    simp (decide := true) only [if_true, if_false]
    rfl
  | unspecified c => exact absurd h id

/-- The value is read back, but the padding that the writer adds after the data is left in the input. -/
theorem Signal.parse_ser {x : Signal} (h : x.Wf) (r : Bytes) :
    Signal.parse.run (x.ser ++ r) = .ok x (zeros (lengthPaddedToNum x.data.length 4).padding_length ++ r) := by
  have hd := h.data
  have e : (UInt16.ofNat (x.data.length * 8)).toNat / 8 = x.data.length := by rw [toNat_u16_ofNat (by omega)]; omega
  generalize UInt16.ofNat (x.data.length * 8) = n16 at e
  have he := EncodingScheme.parse_word h.scheme
  generalize hw : x.encoding_scheme.word = w16 at he
  have hs : x.ser = x.radio_reference_id.ser ++ e16 x.radio_number ++ e16 w16 ++ e16 x.tdl_type ++ e32 x.sample_rate
    ++ e16 (UInt16.ofNat (x.data.length * 8)) ++ e16 x.samples ++ x.data
    ++ zeros (lengthPaddedToNum x.data.length 4).padding_length := by rw [← hw]; rfl
  rw [hs]
  have e : (UInt16.ofNat (x.data.length * 8)).toNat / 8 = x.data.length := by rw [toNat_u16_ofNat (by omega)]; omega
  generalize UInt16.ofNat (x.data.length * 8) = n16 at e
  rtp [Signal.parse]
  rw [P.run_take _ _ _ e.symm]
  rtp [he]
theorem Signal.length_ser {x : Signal} (h : x.data.length < 65532) : x.ser.length = x.bodyLen := by
  lenp [Signal.ser, Signal.bodyLen]
  simp only [lengthPaddedToNum]
  split <;> omega
theorem Signal.cnt_eq (x : Signal) : x.cnt = x.bodyLen := by
  simp only [Signal.cnt, Signal.bodyLen, EntityId.cnt, SimulationAddress.cnt]

/-! ## Receiver -/

/-- receiver/model.rs:9-16 -/
structure Receiver where
  radio_reference_id : EntityId
  radio_number : UInt16
  receiver_state : UInt16
  received_power : UInt32
  transmitter_radio_reference_id : EntityId
  transmitter_radio_number : UInt16
  deriving Repr, DecidableEq
/-- receiver/parser.rs:8-28 -/
def Receiver.parse : BP Receiver := do
  let a ← EntityId.parse
  let b ← be_u16
  let c ← be_u16
  let _pad ← be_u16
  let d ← be_u32
  let e ← EntityId.parse
  let f ← be_u16
  pure ⟨a, b, c, d, e, f⟩
/-- receiver/writer.rs:5-17 -/
def Receiver.ser (x : Receiver) : Bytes :=
  x.radio_reference_id.ser ++ e16 x.radio_number ++ e16 x.receiver_state ++ e16 0 ++ e32 x.received_power
    ++ x.transmitter_radio_reference_id.ser ++ e16 x.transmitter_radio_number
/-- receiver/model.rs:6, 33-35 -/
def Receiver.bodyLen (_ : Receiver) : Nat := 24
/-- receiver/writer.rs:15 -/
def Receiver.cnt (x : Receiver) : Nat := 12 + x.radio_reference_id.cnt + x.transmitter_radio_reference_id.cnt
@[rt] theorem Receiver.parse_ser (r : Bytes) (x : Receiver) : Receiver.parse.run (x.ser ++ r) = .ok x r := by
  rtp [Receiver.parse, Receiver.ser]
theorem Receiver.length_ser (x : Receiver) : x.ser.length = x.bodyLen := by lenp [Receiver.ser, Receiver.bodyLen]
theorem Receiver.cnt_eq (x : Receiver) : x.cnt = x.bodyLen := rfl

instance : Stable ModulationType.parse := by unfold ModulationType.parse; parser_ok
instance : Safe ModulationType.parse := by unfold ModulationType.parse; parser_ok
instance : Stable BeamAntennaPattern.parse := by unfold BeamAntennaPattern.parse; parser_ok
instance : Safe BeamAntennaPattern.parse := by unfold BeamAntennaPattern.parse; parser_ok
instance (c : Bool) : Stable (VariableTransmitterParameter.parse c) := by unfold VariableTransmitterParameter.parse; parser_ok
instance : Safe (VariableTransmitterParameter.parse false) := by
  unfold VariableTransmitterParameter.parse
  simp only [Bool.false_eq_true, and_false, if_false]
  parser_ok
instance (c : Bool) (ver) : Stable (Transmitter.parse c ver) := by unfold Transmitter.parse; parser_ok
instance (ver) : Safe (Transmitter.parse false ver) := by unfold Transmitter.parse; parser_ok
instance (d i) : Stable (sliceU32 d i) := by unfold sliceU32; parser_ok
instance (w d) : Stable (EncodingScheme.parse w d) := by unfold EncodingScheme.parse; parser_ok
instance : Stable Signal.parse := by unfold Signal.parse; parser_ok
instance : Stable Receiver.parse := by unfold Receiver.parse; parser_ok
instance : Safe Receiver.parse := by unfold Receiver.parse; parser_ok

end Verif.Dis

import Verif.Props.Through4
namespace Verif.Props
open Verif.Codec

/-- the antenna patterns that C-DIS can carry: angles within half a turn, reference system below 4 -/
def PatternFits (x : Dis.BeamAntennaPattern) : Prop :=
  (∀ a ∈ [x.beam_direction.psi, x.beam_direction.theta, x.beam_direction.phi, x.azimuth_beamwidth, x.elevation_beamwidth, x.phase],
    InRange a (-314 / 100) (314 / 100)) ∧ x.reference_system < 4

/-- the transmitters that C-DIS can carry; there must be a variable transmitter parameter -/
structure TransmitterFits (env : Env) (x : Dis.Transmitter) : Prop where
  type : TypeFits x.radio_type
  location : WorldFits env x.antenna_location
  state : x.transmit_state < 4
  patternType : x.antenna_pattern_type < 8
  pattern : ∀ p, x.antenna_pattern = some p → PatternFits p
  frequency : x.frequency ≤ 1660944200000
  bandwidth : InRange x.transmit_frequency_bandwidth 0 12976029000
  modulation : Dis.SpreadSpectrum.layout.Fits x.modulation_type.spread_spectrum ∧ x.modulation_type.major ≤ 8 ∧
    x.modulation_type.detail < 16 ∧ x.modulation_type.radio_system < 16 ∧
    (x.modulation_type.major = 0 → x.modulation_type.detail = 0)
  crypto : x.crypto_system < 16 ∧ Dis.CryptoKeyId.layout.Fits x.crypto_key_id
  parameters : (x.modulation_parameters.getD []).length ≤ 255
  variable_parameters : x.variable_transmitter_parameters ≠ [] ∧ x.variable_transmitter_parameters.length ≤ 255 ∧
    ∀ p ∈ x.variable_transmitter_parameters, p.fields.length ≤ 65529

theorem patAngle_in {b : UInt32} (h : InRange b (-314 / 100) (314 / 100)) : Cdis.InS 13 (patAngleEnc b) := by
  obtain ⟨q, hq, h1, h2⟩ := h
  obtain ⟨n, hn, hb, -⟩ := quant_enc (q := q) (K := 2669525 / 2048) (by rw [abs_le]; constructor <;> linarith)
  have e : patAngleEnc b = n := by
    unfold patAngleEnc
    rw [hq, orientScale_eq]
    exact hn
  rw [e]
  have hb := abs_le.1 hb
  have a1 : (n : Rat) < 4096 := by linarith
  have a2 : (-4097 : Rat) < n := by linarith
  have a1 : n < 4096 := by exact_mod_cast a1
  have a2 : -4097 < n := by exact_mod_cast a2
  unfold Cdis.InS
  norm_num
  omega
theorem pattern_wf {x : Dis.BeamAntennaPattern} (h : PatternFits x) : (patternEnc x).Wf := by
  obtain ⟨h1, h2⟩ := h
  exact ⟨patAngle_in (h1 _ (by simp)), patAngle_in (h1 _ (by simp)), patAngle_in (h1 _ (by simp)), patAngle_in (h1 _ (by simp)),
    patAngle_in (h1 _ (by simp)), h2, toI16_in _, toI16_in _, patAngle_in (h1 _ (by simp))⟩
theorem mod_wf {x : Dis.ModulationType} (h : Dis.SpreadSpectrum.layout.Fits x.spread_spectrum ∧ x.major ≤ 8 ∧
    x.detail < 16 ∧ x.radio_system < 16 ∧ (x.major = 0 → x.detail = 0)) : (modTypeEnc x).Wf := by
  obtain ⟨h1, h2, h3, h4, -⟩ := h
  have h2 : x.major.toNat ≤ 8 := h2
  have h3 : x.detail.toNat < 16 := h3
  have h4 : x.radio_system.toNat < 16 := h4
  refine ⟨?_, ?_, ?_, ?_⟩
  · show pack Dis.SpreadSpectrum.wr x.spread_spectrum / 4096 < 2 ^ 4
    have := pack_lt (L := Dis.SpreadSpectrum.layout) (t := 16) (by decide) h1
    have : pack Dis.SpreadSpectrum.wr x.spread_spectrum < 65536 := this
    omega
  · show x.major.toNat % 256 < 16
    omega
  · show (if x.major = 0 then 0 else x.detail.toNat) % 256 < 16
    split <;> omega
  · show x.radio_system.toNat % 256 < 16
    omega
theorem mod_rt {x : Dis.ModulationType} (h : Dis.SpreadSpectrum.layout.Fits x.spread_spectrum ∧ x.major ≤ 8 ∧
    x.detail < 16 ∧ x.radio_system < 16 ∧ (x.major = 0 → x.detail = 0)) : modTypeDec (modTypeEnc x) = x := by
  obtain ⟨h1, h2, h3, h4, h5⟩ := h
  have h2 : x.major.toNat ≤ 8 := h2
  have h3 : x.detail.toNat < 16 := h3
  have h4 : x.radio_system.toNat < 16 := h4
  exact C52_modulation h1 h2 h5 (by omega) (by omega)

section
variable {env : Env} {o : Options} {h : Dis.PduHeader} (hst : (h.pdu_status.getD {}).Wf h.pdu_type) (hm : o.update_mode = .full)
include hst hm

theorem arrives_transmitter (x : Dis.Transmitter) (ht : h.pdu_type = 25) (hf : TransmitterFits env x) :
    Arrives env o ⟨h, .transmitter x⟩ (received h (.transmitter { x with
      antenna_location := worldWireQ env x.antenna_location, relative_antenna_location := coordQ x.relative_antenna_location,
      antenna_pattern_type := if x.antenna_pattern.isSome then x.antenna_pattern_type else 0,
      frequency := txFreqQ x.frequency, transmit_frequency_bandwidth := bandwidthQ x.transmit_frequency_bandwidth,
      power := txPowerQ x.power,
      crypto_key_id := if x.crypto_system = 0 then [0, 0] else x.crypto_key_id,
      modulation_parameters := some (x.modulation_parameters.getD []),
      antenna_pattern := some ((x.antenna_pattern.map patternQ).getD ⟨⟨0, 0, 0⟩, 0, 0, 0, 0, 0, 0⟩) })) := by
  have ho : ({ o with update_mode := .full } : Options) = o := by cases o; cases hm; rfl
  have hb : ∀ now s, (bodyEnc env o now s (.transmitter x)).map (·.1) = some (.transmitter (txEnc env o 0 none x).1) := by
    intro now s
    simp [bodyEnc, txEncodeBody, txEnc, hm]
  refine arrives_fit (o1 := { o with update_mode := .full }) _ (.transmitter (txEnc env o 0 none x).1) hb hst rfl ?_ ?_ ?_ ht.symm
  · refine ⟨by rw [ht]; rfl, ?_⟩
    simp only [txEnc, hm, reduceCtorEq, false_and, if_false]
    have hfr := C41_transmit_frequency (n := x.frequency) hf.frequency
    obtain ⟨q, hq, hq0, hq1⟩ := hf.bandwidth
    refine ⟨⟨world_units _ _, (coord_in _).2, eid_wf _, x.radio_number.toNat_lt, etype_wf hf.type, hf.state, x.input_source.toNat_lt,
      world_fits hf.location, (coord_in _).1, ?_, ⟨hfr.1, by show _ < 16; omega⟩, (C41_frequency hq hq0 hq1).1, ?_, mod_wf hf.modulation, ?_, ?_, ?_,
      bytes_lt _, ?_, ?_, ?_⟩, ⟨?_, ⟨rfl, rfl, rfl⟩, ?_⟩, ?_⟩ <;> dsimp only
    · cases x.antenna_pattern with
      | none => trivial
      | some p => exact hf.patternType
    · show (Fl.toInt 0 255 (v32 x.power)).toNat < 2 ^ 8
      have := toInt_in (lo := 0) (hi := 255) (by decide) (by decide) (v32 x.power)
      omega
    · exact nz_all hf.crypto.1
    · split
      · trivial
      · exact pack_lt (L := Dis.CryptoKeyId.layout) (t := 16) (by decide) hf.crypto.2
    · simp only [bytesEnc, List.length_map]
      have := hf.parameters
      omega
    · cases hx : x.antenna_pattern with
      | none => trivial
      | some p => exact pattern_wf (hf.pattern p hx)
    · rw [List.length_map]
      have := hf.variable_parameters.2.1
      omega
    · intro p hp
      obtain ⟨a, ha, rfl⟩ := List.mem_map.1 hp
      refine ⟨a.record_type.toNat_lt, ?_, bytes_lt _⟩
      have := hf.variable_parameters.2.2 a ha
      simp only [bytesEnc, List.length_map]
      omega
    · cases x.antenna_pattern <;> rfl
    · rw [nz_isSome]
      by_cases hz : x.crypto_system = 0
      · rw [if_pos hz, hz]; rfl
      · rw [if_neg hz]
        have : x.crypto_system.toNat ≠ 0 := fun e => hz (UInt16.toNat_inj.1 e)
        simp [this]
    · simpa using hf.variable_parameters.1
  · simp [txEnc, hm, SelfContained, Cdis.CdisBody.wire, Cdis.Transmitter.wire]
  · have h52 := C52_transmitter env o x
    have e : (txDec env { o with update_mode := .full } none (txEnc env { o with update_mode := .full } 0 none x).1.wire).1 =
        { (txDec env { o with update_mode := .full } none (txEnc env { o with update_mode := .full } 0 none x).1).1 with
          antenna_location := worldWireQ env x.antenna_location } := by
      simp [txEnc, txDec, Cdis.Transmitter.wire, worldWireQ]
    simp only [oneShot, bodyEnc, txEncodeBody, bodyDec, txDecodeBody, Option.map_some, Option.some.injEq, Dis.Body.transmitter.injEq] at h52
    rw [ho] at h52 e ⊢
    simp only [bodyDec, Cdis.CdisBody.wire, txDecodeBody]
    rw [e, h52, mod_rt hf.modulation]
    have hk : unpack Dis.CryptoKeyId.rd (if x.crypto_system = 0 then 0 else pack Dis.CryptoKeyId.wr x.crypto_key_id) =
        if x.crypto_system = 0 then [0, 0] else x.crypto_key_id := by
      split
      · decide
      · exact C52_crypto_key hf.crypto.2
    rw [hk]
end
end Verif.Props

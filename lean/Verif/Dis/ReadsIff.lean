import Verif.Dis.ReadsState

/-!
# What the readers take and guarantee: IFF

No model content.
-/

set_option linter.unusedSimpArgs false

namespace Verif.Dis

instance : Rd (unpack8 ChangeOptions.rd) (fun c v => Clears (pack8 ChangeOptions.wr v) c ∧ ChangeOptions.layout.Fits v) :=
  ⟨takes_unpack8 _ (by decide) (by decide) (by decide)⟩
instance : Rd (unpack8 InformationLayers.rd) (fun c v => Clears (pack8 InformationLayers.wr v) c ∧ InformationLayers.layout.Fits v) :=
  ⟨takes_unpack8 _ (by decide) (by decide) (by decide)⟩
instance : Rd (unpack8 SystemStatus.rd) (fun c v => Clears (pack8 SystemStatus.wr v) c ∧ SystemStatus.layout.Fits v) :=
  ⟨takes_unpack8 _ (by decide) (by decide) (by decide)⟩
instance : Rd (unpack16 EnhancedMode1Code.rd) (fun c v => Clears (pack16 EnhancedMode1Code.wr v) c ∧ EnhancedMode1Code.layout.Fits v) :=
  ⟨takes_unpack16 _ (by decide) (by decide) (by decide)⟩
instance : Rd (unpack8 Mode5InterrogatorStatus.rd) (fun c v => Clears (pack8 Mode5InterrogatorStatus.wr v) c ∧
    Mode5InterrogatorStatus.layout.Fits v) := ⟨takes_unpack8 _ (by decide) (by decide) (by decide)⟩
instance : Rd (unpack32 Mode5MessageFormats.rd) (fun c v => Clears (pack32 Mode5MessageFormats.wr v) c ∧
    Mode5MessageFormats.layout.Fits v) := ⟨takes_unpack32 _ (by decide) (by decide) (by decide)⟩
instance : Rd (unpack8 Mode5TransponderSupplementalData.rd) (fun c v => Clears (pack8 Mode5TransponderSupplementalData.wr v) c ∧
    Mode5TransponderSupplementalData.layout.Fits v) := ⟨takes_unpack8 _ (by decide) (by decide) (by decide)⟩
instance : Rd (unpack16 Mode5TransponderStatus.rd) (fun c v => Clears (pack16 Mode5TransponderStatus.wr v) c ∧
    Mode5TransponderStatus.layout.Fits v) := ⟨takes_unpack16 _ (by decide) (by decide) (by decide)⟩
instance : Rd (unpack16 ModeSAltitude.rd) (fun c v => Clears (pack16 ModeSAltitude.wr v) c ∧ ModeSAltitude.layout.Fits v) :=
  ⟨takes_unpack16 _ (by decide) (by decide) (by decide)⟩
instance : Rd (unpack16 ModeSTransponderStatus.rd) (fun c v => Clears (pack16 ModeSTransponderStatus.wr v) c ∧
    ModeSTransponderStatus.layout.Fits v) := ⟨takes_unpack16 _ (by decide) (by decide) (by decide)⟩
instance : Rd (unpack8 DapSource.rd) (fun c v => c.length = 1 ∧ DapSource.layout.Fits v ∧ v.getD 4 0 = 1) :=
  ⟨takes_unpack8_const _ 4 1 (by decide) (by decide) (by decide)⟩
instance : Rd (unpack8 ModeSInterrogatorStatus.rd) (fun c v => c.length = 1 ∧ ModeSInterrogatorStatus.layout.Fits v ∧ v.getD 3 0 = 1) :=
  ⟨takes_unpack8_const _ 3 1 (by decide) (by decide) (by decide)⟩
instance : Rd (unpack8 ModeSLevelsPresent.rd) (fun c v => c.length = 1 ∧ ModeSLevelsPresent.layout.Fits v ∧ v.getD 4 0 = 1) :=
  ⟨takes_unpack8_const _ 4 1 (by decide) (by decide) (by decide)⟩

instance : Rd SystemId.parse (fun c x => Clears x.ser c ∧ ChangeOptions.layout.Fits x.change_options) := by
  refine ⟨?_⟩; unfold SystemId.parse; rd_steps
  rename_i h
  refine ⟨?_, h.2⟩
  have := h.1
  subst_vars
  unfold SystemId.ser
  clears
instance : Rd FundamentalOperationalData.parse (fun c x => Clears x.ser c ∧ SystemStatus.layout.Fits x.system_status ∧
    InformationLayers.layout.Fits x.information_layers) := by
  refine ⟨?_⟩; unfold FundamentalOperationalData.parse
  refine Takes.bind Rd.spec fun _ _ h1 => ?_
  refine Takes.bind Rd.spec fun _ _ _ => ?_
  refine Takes.bind Rd.spec fun _ _ h2 => ?_
  rd_steps
  refine ⟨?_, h1.2, h2.2⟩
  have := h1.1; have := h2.1
  subst_vars
  unfold FundamentalOperationalData.ser
  clears
instance : Rd LayerHeader.parse (fun c x => Clears x.ser c) := by rd_plain LayerHeader.parse LayerHeader.ser
instance : Rd IffFundamentalParameterData.parse (fun c x => Clears x.ser c) := by
  rd_plain IffFundamentalParameterData.parse IffFundamentalParameterData.ser
instance : Rd IffLayer2.parse (fun c x => Clears x.ser c ∧ x.iff_fundamental_parameters.length < 65536) := by
  refine ⟨?_⟩; unfold IffLayer2.parse; rd_steps
  rename_i h
  have := h.1
  refine ⟨?_, ?_⟩
  · unfold IffLayer2.ser serList
    simp only [h.2, UInt16.ofNat_toNat]
    subst_vars
    clears
  · simp only [h.2]; exact UInt16.toNat_lt _

/-- a whole number of 4-octet words -/
def IffDataRecord.Clean (x : IffDataRecord) : Prop := (6 + x.record_specific_fields.length) % 4 = 0
instance : Rd IffDataRecord.parse (fun c x => (x.Clean → Clears x.ser c) ∧ (x.Clean → x.Wf)) := by
  refine ⟨?_⟩; unfold IffDataRecord.parse; rd_steps
  rename_i len _ _ f h
  have hl := len.toNat_lt
  refine ⟨fun hK => ?_, fun hK => ⟨hK, ?_⟩⟩
  · unfold IffDataRecord.Clean at hK
    simp only at hK
    have : UInt16.ofNat (6 + f.length) = len := by
      rw [h.2, show 6 + (len.toNat - 6) = len.toNat by omega, UInt16.ofNat_toNat]
    simp only [IffDataRecord.ser, lengthPaddedToNum, if_pos hK, Nat.add_zero, zeros, List.replicate_zero, this, h.1]
    subst_vars
    clears
  · unfold IffDataRecord.Clean at hK
    simp only at hK ⊢
    omega
instance : Rd IffDataSpecification.parse (fun c l => ((∀ r ∈ l, r.Clean) → Clears (IffDataSpecification.ser l) c) ∧
    ((∀ r ∈ l, r.Clean) → IffDataSpecification.Wf l)) := by
  refine ⟨?_⟩; unfold IffDataSpecification.parse
  refine Takes.bind Rd.spec fun _ n h0 => ?_
  refine Takes.mono Rd.spec fun _ l h => ?_
  refine ⟨fun hK => ?_, fun hK => ⟨?_, fun r hr => h.2.2 r hr (hK r hr)⟩⟩
  · have := h.1 hK
    unfold IffDataSpecification.ser serList
    simp only [h.2.1, UInt16.ofNat_toNat]
    subst h0
    exact Clears.append (Clears.refl _) this
  · rw [h.2.1]; exact n.toNat_lt

instance (k : IffClass) : Rd (Mode5BasicData.parse k) (fun c x => k ≠ .undetermined → c.length = 16 ∧ x.Wf k) := by
  refine ⟨?_⟩
  cases k with
  | transponder =>
    show Takes Mode5BasicData.parseTransponder _; unfold Mode5BasicData.parseTransponder
    refine Takes.bind Rd.spec fun _ _ h1 => ?_
    refine Takes.bind Rd.spec fun _ _ _ => ?_
    refine Takes.bind Rd.spec fun _ _ h2 => ?_
    refine Takes.bind Rd.spec fun _ _ h3 => ?_
    refine Takes.bind Rd.spec fun _ _ _ => ?_
    refine Takes.bind Rd.spec fun _ _ h4 => ?_
    rd_steps
    intro _
    have := h1.1.length; have := h2.1.length; have := h3.1.length; have := h4.1.length
    subst_vars
    simp only [length_pack8, length_pack16, length_pack32] at *
    refine ⟨?_, rfl, h1.2, h2.2, h3.2, h4.2⟩
    simp only [List.length_append, length_e8, length_e16, List.length_nil]; omega
  | interrogator =>
    show Takes Mode5BasicData.parseInterrogator _; unfold Mode5BasicData.parseInterrogator
    refine Takes.bind Rd.spec fun _ _ h1 => ?_
    refine Takes.bind Rd.spec fun _ _ _ => ?_
    refine Takes.bind Rd.spec fun _ _ _ => ?_
    refine Takes.bind Rd.spec fun _ _ h2 => ?_
    refine Takes.bind Rd.spec fun _ _ h3 => ?_
    rd_steps
    intro _
    have := h1.1.length; have := h2.1.length; have := h3.length
    subst_vars
    simp only [length_pack8, length_pack16, length_pack32, EntityId.length_ser] at *
    refine ⟨?_, rfl, h1.2, h2.2⟩
    simp only [List.length_append, length_e8, length_e16, List.length_nil]; omega
  | undetermined => exact Takes.pure fun h => absurd rfl h

/-- the aircraft identification can be written -/
def ModeSBasicData.Clean : ModeSBasicData → Prop
  | .interrogator .. => True
  | .transponder _ _ _ d .. => d.length ≤ 8 ∧ (∀ x ∈ d, x.toNat < 128) ∧ (∀ x, d.getLast? = some x → isAlnum x = true)

instance (env : Env) (k : IffClass) : Rd (ModeSBasicData.parse env k) (fun c x => k ≠ .undetermined →
    x.ser.length = c.length ∧ x.Forced ∧ (x.Clean → x.Wf k)) := by
  refine ⟨?_⟩
  cases k with
  | transponder =>
    show Takes (ModeSBasicData.parseTransponder env) _; unfold ModeSBasicData.parseTransponder
    refine Takes.bind Rd.spec fun _ _ h1 => ?_
    refine Takes.bind Rd.spec fun _ _ h2 => ?_
    refine Takes.bind Rd.spec fun _ _ _ => ?_
    refine Takes.bind Rd.spec fun _ _ h3 => ?_
    refine Takes.bind Rd.spec fun _ _ _ => ?_
    refine Takes.bind Rd.spec fun _ _ _ => ?_
    refine Takes.bind Rd.spec fun _ _ h4 => ?_
    refine Takes.bind Rd.spec fun _ _ h5 => ?_
    rd_steps
    intro _
    have := h1.1.length; have := h2.1; have := h4.1; have := h5.1.length; have := h3.2
    obtain ⟨rfl, h3⟩ := h3
    subst_vars
    simp only [length_pack8, length_pack16, length_pack32] at *
    refine ⟨?_, ⟨h2.2.2, h4.2.2⟩, fun hK => ⟨rfl, h1.2, h2.2.1, h4.2.1, h5.2, hK.1, hK.2.1, hK.2.2⟩⟩
    simp only [ModeSBasicData.length_ser, List.length_append, length_e8, length_e32, length_e16, List.length_nil]; omega
  | interrogator =>
    show Takes ModeSBasicData.parseInterrogator _; unfold ModeSBasicData.parseInterrogator
    refine Takes.bind Rd.spec fun _ _ h1 => ?_
    refine Takes.bind Rd.spec fun _ _ _ => ?_
    refine Takes.bind Rd.spec fun _ _ h2 => ?_
    refine Takes.bind Rd.spec fun _ _ h3 => Takes.pure ?_
    intro _
    have := h1.1; have := h2.1; have := h3.2
    obtain ⟨rfl, h3⟩ := h3
    subst_vars
    refine ⟨?_, ⟨h1.2.2, h2.2.2⟩, fun _ => ⟨rfl, h1.2.1, h2.2.1⟩⟩
    simp only [ModeSBasicData.length_ser, List.length_append, length_e8, length_e32, length_e16, List.length_nil]; omega
  | undetermined => exact Takes.pure fun h => absurd rfl h

instance (k : IffClass) : Rd (IffLayer3.parse k) (fun c x => k ≠ .undetermined → (∀ r ∈ x.data_records, r.Clean) →
    x.ser.length = c.length ∧ x.Wf k) := by
  refine ⟨?_⟩; unfold IffLayer3.parse
  refine Takes.bind Rd.spec fun _ _ h1 => ?_
  refine Takes.bind Rd.spec fun _ _ h2 => ?_
  refine Takes.bind Rd.spec fun _ _ h3 => ?_
  refine Takes.bind Rd.spec fun _ _ h4 => ?_
  refine Takes.bind Rd.spec fun _ _ h5 => Takes.pure ?_
  intro hk hK
  obtain ⟨e3, w⟩ := h3 hk
  have e1 := h1.length; have e2 := h2.length; have e5 := (h5.1 hK).length
  subst h4
  refine ⟨?_, w, h5.2 hK⟩
  simp only [LayerHeader.length_ser, SimulationAddress.length_ser] at e1 e2
  simp only [IffLayer3.ser, List.length_append, length_e16, LayerHeader.length_ser, SimulationAddress.length_ser,
    Mode5BasicData.length_ser, List.length_nil]
  omega
instance (env : Env) (k : IffClass) : Rd (IffLayer4.parse env k) (fun c x => k ≠ .undetermined →
    ((∀ r ∈ x.data_records, r.Clean) → x.ser.length = c.length) ∧ x.mode_s_basic_data.Forced ∧
    ((∀ r ∈ x.data_records, r.Clean) → x.mode_s_basic_data.Clean → x.Wf k)) := by
  refine ⟨?_⟩; unfold IffLayer4.parse
  refine Takes.bind Rd.spec fun _ _ h1 => ?_
  refine Takes.bind Rd.spec fun _ _ h2 => ?_
  refine Takes.bind Rd.spec fun _ _ h3 => ?_
  refine Takes.bind Rd.spec fun _ _ h4 => ?_
  refine Takes.bind Rd.spec fun _ _ h5 => Takes.pure ?_
  intro hk
  obtain ⟨e3, w, hw⟩ := h3 hk
  have e1 := h1.length; have e2 := h2.length
  subst h4
  refine ⟨fun hK => ?_, w, fun hK hc => ⟨hw hc, h5.2 hK⟩⟩
  have e5 := (h5.1 hK).length
  simp only [LayerHeader.length_ser, SimulationAddress.length_ser] at e1 e2
  simp only [IffLayer4.ser, List.length_append, length_e16, LayerHeader.length_ser, SimulationAddress.length_ser, List.length_nil, e3]
  omega
instance : Rd IffLayer5.parse (fun c x => (∀ r ∈ x.data_records, r.Clean) → x.ser.length = c.length ∧ x.Wf) := by
  refine ⟨?_⟩; unfold IffLayer5.parse
  refine Takes.bind Rd.spec fun _ _ h1 => ?_
  refine Takes.bind Rd.spec fun _ _ h2 => ?_
  refine Takes.bind Rd.spec fun _ _ h3 => ?_
  refine Takes.bind Rd.spec fun _ _ h4 => ?_
  refine Takes.bind Rd.spec fun _ _ h5 => ?_
  refine Takes.bind Rd.spec fun _ _ h6 => ?_
  refine Takes.bind Rd.spec fun _ _ h7 => Takes.pure ?_
  intro hK
  have e1 := h1.length; have e2 := h2.length; have e4 := h4.1.length; have e7 := (h7.1 hK).length
  subst h3 h5 h6
  refine ⟨?_, h4.2, h7.2 hK⟩
  simp only [LayerHeader.length_ser, SimulationAddress.length_ser, length_pack8] at e1 e2 e4
  simp only [IffLayer5.ser, List.length_append, length_e16, length_e8, length_pack8, LayerHeader.length_ser,
    SimulationAddress.length_ser, List.length_nil]
  omega

/-- what may be lost: basic data of system types that are neither transponders nor interrogators, data records that are not
whole 4-octet words, aircraft identifications that are not text -/
structure Iff.Clean (env : Env) (x : Iff) : Prop where
  l3 : ∀ l, x.layer_3 = some l → env.iffClass x.system_id.system_type ≠ .undetermined ∧ ∀ r ∈ l.data_records, r.Clean
  l4 : ∀ l, x.layer_4 = some l → env.iffClass x.system_id.system_type ≠ .undetermined ∧ (∀ r ∈ l.data_records, r.Clean) ∧
    l.mode_s_basic_data.Clean
  l5 : ∀ l, x.layer_5 = some l → ∀ r ∈ l.data_records, r.Clean

instance (env : Env) : Rd (Iff.parse env) (fun c x => (x.Clean env → x.ser.length = c.length) ∧
    (x.Clean env → x.Wf env ∧ x.Forced)) := by
  refine ⟨?_⟩; unfold Iff.parse
  refine Takes.bind Rd.spec fun _ _ h1 => ?_
  refine Takes.bind Rd.spec fun _ _ h2 => ?_
  refine Takes.bind Rd.spec fun _ _ h3 => ?_
  refine Takes.bind Rd.spec fun _ d h4 => ?_
  refine Takes.bind Rd.spec fun _ _ h5 => ?_
  refine Takes.bind Rd.spec fun _ _ h6 => ?_
  refine Takes.bind Rd.spec fun _ g h7 => ?_
  refine Takes.bind Rd.spec fun c2 l2 h8 => ?_
  refine Takes.bind Rd.spec fun c3 l3 h9 => ?_
  refine Takes.bind Rd.spec fun c4 l4 ha => ?_
  refine Takes.bind Rd.spec fun c5 l5 hb => Takes.pure ?_
  refine ⟨fun hK => ?_, fun hK => ⟨⟨h4.2, h7.2.1, h7.2.2, h8.1, h9.1, ha.1, hb.1, ?_, ?_, ?_, ?_⟩, ?_⟩⟩
  · have k2 : (optSer IffLayer2.ser l2).length = c2.length := by
      rcases h8.2 with ⟨rfl, rfl⟩ | ⟨a, rfl, h⟩
      · rfl
      · exact h.1.length
    have k3 : (optSer IffLayer3.ser l3).length = c3.length := by
      rcases h9.2 with ⟨rfl, rfl⟩ | ⟨a, rfl, h⟩
      · rfl
      · exact (h (hK.l3 a rfl).1 (hK.l3 a rfl).2).1
    have k4 : (optSer IffLayer4.ser l4).length = c4.length := by
      rcases ha.2 with ⟨rfl, rfl⟩ | ⟨a, rfl, h⟩
      · rfl
      · exact (h (hK.l4 a rfl).1).1 (hK.l4 a rfl).2.1
    have k5 : (optSer IffLayer5.ser l5).length = c5.length := by
      rcases hb.2 with ⟨rfl, rfl⟩ | ⟨a, rfl, h⟩
      · rfl
      · exact (h (hK.l5 a rfl)).1
    have e1 := h1.length; have e2 := h2.length; have e3 := h3.length; have e4 := h4.1.length; have e7 := h7.1.length
    subst h5 h6
    simp only [Iff.ser, List.length_append, length_e8, List.length_nil, k2, k3, k4, k5, e1, e2, e3, e4, e7]
    omega
  · intro l hl
    rcases h8.2 with ⟨h, -⟩ | ⟨a, h, hq⟩
    · simp only [h] at hl; cases hl
    · simp only [h] at hl; cases hl; exact hq.2
  · intro l hl
    have hc := hK.l3 l hl
    rcases h9.2 with ⟨h, -⟩ | ⟨a, h, hq⟩
    · simp only [h] at hl; cases hl
    · simp only [h] at hl; cases hl; exact (hq hc.1 hc.2).2
  · intro l hl
    have hc := hK.l4 l hl
    rcases ha.2 with ⟨h, -⟩ | ⟨a, h, hq⟩
    · simp only [h] at hl; cases hl
    · simp only [h] at hl; cases hl; exact (hq hc.1).2.2 hc.2.1 hc.2.2
  · intro l hl
    have hc := hK.l5 l hl
    rcases hb.2 with ⟨h, -⟩ | ⟨a, h, hq⟩
    · simp only [h] at hl; cases hl
    · simp only [h] at hl; cases hl; exact (hq hc).2
  · intro l hl
    have hc := hK.l4 l hl
    rcases ha.2 with ⟨h, -⟩ | ⟨a, h, hq⟩
    · simp only [h] at hl; cases hl
    · simp only [h] at hl; cases hl; exact (hq hc.1).2.1

end Verif.Dis

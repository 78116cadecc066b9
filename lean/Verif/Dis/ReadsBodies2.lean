import Verif.Dis.ReadsBodies

/-!
# What the readers take and guarantee: bodies whose octets are not all copied

Bodies in which the writer recomputes some octets (length fields of emitter systems and beams, unused bits): what is written
has the length of what was read.  No model content.
-/

set_option linter.unusedSimpArgs false

namespace Verif.Dis

/-- elements read one after the other, each with its length -/
theorem takes_count_len {α : Type} {p : P UInt8 α} {ser : α → Bytes} {K G : α → Prop}
    (h : Takes p fun c a => (K a → (ser a).length = c.length) ∧ G a) (n : Nat) :
    Takes (P.count p n) (fun c l => ((∀ a ∈ l, K a) → (l.flatMap ser).length = c.length) ∧ (l.length = n ∧ ∀ a ∈ l, G a)) := by
  refine (takes_count h n).mono ?_
  rintro k l ⟨h1, ks, rfl, h3⟩
  refine ⟨?_, h1, ?_⟩
  · clear h1; induction h3 with
    | nil => intro _; rfl
    | cons hq _ ih =>
      intro hK
      rw [List.flatMap_cons, List.flatten_cons, List.length_append, List.length_append,
        hq.1 (hK _ (by simp)), ih fun a ha => hK a (by simp [ha])]
  · clear h1; induction h3 with
    | nil => simp
    | cons hq _ ih => intro b hb; rcases List.mem_cons.1 hb with rfl | hb; exacts [hq.2, ih b hb]

instance {α : Type} {p : P UInt8 α} {ser : α → Bytes} {K G : α → Prop} [h : Rd p fun c a => (K a → (ser a).length = c.length) ∧ G a]
    (n : Nat) :
    Rd (P.count p n) (fun c l => ((∀ a ∈ l, K a) → (l.flatMap ser).length = c.length) ∧ (l.length = n ∧ ∀ a ∈ l, G a)) :=
  ⟨takes_count_len h.spec n⟩

theorem u8_le (n : UInt8) : n.toNat ≤ 255 := Nat.lt_succ_iff.1 n.toNat_lt

/-! ## Electromagnetic emission -/

instance : Rd TrackJam.parse (fun c x => Clears x.ser c) := by rd_plain TrackJam.parse TrackJam.ser
instance : Rd JammingTechnique.parse (fun c x => Clears x.ser c) := by rd_plain JammingTechnique.parse JammingTechnique.ser
instance : Rd FundamentalParameterData.parse (fun c x => Clears x.ser c) := by
  rd_plain FundamentalParameterData.parse FundamentalParameterData.ser
instance : Rd Beam.parse (fun c x => (True → x.ser.length = c.length) ∧ x.Wf) := by
  refine ⟨?_⟩; unfold Beam.parse
  refine Takes.bind Rd.spec fun _ _ a => ?_
  refine Takes.bind Rd.spec fun _ _ b => ?_
  refine Takes.bind Rd.spec fun _ _ c => ?_
  refine Takes.bind Rd.spec fun _ _ d => ?_
  refine Takes.bind Rd.spec fun _ _ e => ?_
  rd_steps
  rename_i jt j _ _ h
  have := d.length; have := e.length; have := j.length; have := h.1.length
  subst_vars
  refine ⟨fun _ => ?_, ?_⟩
  · simp only [Beam.ser, serList, List.length_append, length_e8, length_e16, List.length_nil] at *; omega
  · simp only [Beam.Wf, h.2]; exact u8_le _
instance : Rd EmitterSystem.parse (fun c x => (True → x.ser.length = c.length) ∧ x.Wf) := by
  refine ⟨?_⟩; unfold EmitterSystem.parse
  rd_steps
  rename_i v _ _ h
  have := v.length; have := h.1 fun _ _ => trivial
  subst_vars
  refine ⟨fun _ => ?_, ?_⟩
  · simp only [EmitterSystem.ser, serList, List.length_append, length_e8, length_e16, List.length_nil] at *; omega
  · simp only [EmitterSystem.Wf, h.2.1]; exact ⟨u8_le _, h.2.2⟩
instance : Rd ElectromagneticEmission.parse (fun c x => (True → x.ser.length = c.length) ∧ x.Wf) := by
  refine ⟨?_⟩; unfold ElectromagneticEmission.parse
  refine Takes.bind Rd.spec fun _ _ a => ?_
  refine Takes.bind Rd.spec fun _ _ b => ?_
  rd_steps
  rename_i h
  have := a.length; have := b.length; have := h.1 fun _ _ => trivial
  subst_vars
  refine ⟨fun _ => ?_, ?_⟩
  · simp only [ElectromagneticEmission.ser, serList, List.length_append, length_e8, length_e16, List.length_nil] at *; omega
  · simp only [ElectromagneticEmission.Wf, h.2.1]; exact ⟨u8_le _, h.2.2⟩

/-! ## SEES -/

instance : Rd TwoF32.parse (fun c x => Clears x.ser c) := by rd_plain TwoF32.parse TwoF32.ser
instance : Rd SEES.parse (fun c x => Clears x.ser c ∧ x.Wf) := by
  refine ⟨?_⟩; unfold SEES.parse; rd_steps
  rename_i h1 _ _ h2
  have := h1.1; have := h2.1
  refine ⟨?_, ?_⟩
  · unfold SEES.ser serList
    simp only [h1.2, h2.2, UInt16.ofNat_toNat]
    subst_vars
    clears
  · simp only [SEES.Wf, h1.2, h2.2]; exact ⟨UInt16.toNat_lt _, UInt16.toNat_lt _⟩

/-! ## Underwater acoustic -/

instance : Rd Shaft.parse (fun c x => Clears x.ser c) := by rd_plain Shaft.parse Shaft.ser
instance : Rd UAFundamentalParameterData.parse (fun c x => Clears x.ser c) := by
  rd_plain UAFundamentalParameterData.parse UAFundamentalParameterData.ser
instance : Rd UABeam.parse (fun c x => Clears x.ser c) := by rd_plain UABeam.parse UABeam.ser
instance : Rd AcousticEmitterSystem.parse (fun c x => Clears x.ser c) := by
  rd_plain AcousticEmitterSystem.parse AcousticEmitterSystem.ser
instance : Rd PropulsionPlantConfiguration.parse (fun c x => c.length = 1 ∧ x.configuration.toNat < 128) := by
  refine ⟨?_⟩; unfold PropulsionPlantConfiguration.parse; rd_steps
  rename_i f _
  subst_vars
  refine ⟨rfl, ?_⟩
  have := f.toNat_lt
  simp only [UInt8.toNat_shiftRight]
  rw [show (1 : UInt8).toNat % 8 = 1 from rfl, Nat.shiftRight_eq_div_pow]
  omega
instance : Rd APA.parse (fun c x => (True → x.ser.length = c.length) ∧ x.Wf) := by
  refine ⟨?_⟩; unfold APA.parse; rd_steps
  rename_i i _ _ _ _
  subst_vars
  refine ⟨fun _ => rfl, ?_, ?_⟩
  · have := i.toNat_lt
    simp only [UInt16.toNat_shiftRight]
    rw [show (2 : UInt16).toNat % 16 = 2 from rfl, Nat.shiftRight_eq_div_pow]
    omega
  · simp only [UInt16.toNat_toUInt8, UInt16.toNat_and]
    rw [show (3 : UInt16).toNat = 2 ^ 2 - 1 from rfl, Nat.and_two_pow_sub_one_eq_mod]
    omega
instance : Rd UAEmitterSystem.parse (fun c x => (True → x.ser.length = c.length) ∧ x.Wf) := by
  refine ⟨?_⟩; unfold UAEmitterSystem.parse
  rd_steps
  rename_i v _ _ w _ _ h
  have := v.length; have := w.length; have := h.1.length
  subst_vars
  refine ⟨fun _ => ?_, ?_⟩
  · simp only [UAEmitterSystem.ser, serList, List.length_append, length_e8, length_e16, List.length_nil] at *; omega
  · simp only [UAEmitterSystem.Wf, h.2]; exact u8_le _
instance : Rd UnderwaterAcoustic.parse (fun c x => (True → x.ser.length = c.length) ∧ x.Wf) := by
  refine ⟨?_⟩; unfold UnderwaterAcoustic.parse
  refine Takes.bind Rd.spec fun _ _ a => ?_
  refine Takes.bind Rd.spec fun _ _ b => ?_
  refine Takes.bind Rd.spec fun _ _ c => ?_
  refine Takes.bind Rd.spec fun _ _ d => ?_
  refine Takes.bind Rd.spec fun _ _ e => ?_
  refine Takes.bind Rd.spec fun _ _ f => ?_
  rd_steps
  rename_i h1 _ _ h2 _ _ h3
  have := a.length; have := b.length; have := f.1; have := h1.1.length; have := h2.1 fun _ _ => trivial
  have := h3.1 fun _ _ => trivial
  subst_vars
  refine ⟨fun _ => ?_, ?_⟩
  · simp only [UnderwaterAcoustic.ser, PropulsionPlantConfiguration.ser, serList, List.length_append, length_e8, length_e16,
      List.length_nil] at *; omega
  · refine ⟨f.2, ?_, ?_, ?_, h3.2.2⟩
    · simp only [h1.2]; exact u8_le _
    · simp only [h2.2.1]; exact u8_le _
    · simp only [h3.2.1]; exact u8_le _

end Verif.Dis

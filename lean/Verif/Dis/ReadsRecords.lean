import Verif.Core.Takes
import Verif.Dis.Pdu

/-!
# What the readers take and guarantee: records

For every reader: the octets it takes are those the writer produces for the value, but for bits the writer clears; and what
the reader guarantees about the value.  No model content.
-/

set_option linter.unusedSimpArgs false

namespace Verif.Dis

instance : Rd SimulationAddress.parse (fun c x => Clears x.ser c) := by rd_plain SimulationAddress.parse SimulationAddress.ser
instance : Rd EntityId.parse (fun c x => Clears x.ser c) := by rd_plain EntityId.parse EntityId.ser
instance : Rd EventId.parse (fun c x => Clears x.ser c) := by
  refine ⟨?_⟩; unfold EventId.parse; rd_steps; subst_vars; unfold EventId.ser SimulationAddress.ser; clears
instance : Rd VectorF32.parse (fun c x => Clears x.ser c) := by rd_plain VectorF32.parse VectorF32.ser
instance : Rd Location.parse (fun c x => Clears x.ser c) := by rd_plain Location.parse Location.ser
instance : Rd Orientation.parse (fun c x => Clears x.ser c) := by rd_plain Orientation.parse Orientation.ser
instance : Rd EntityType.parse (fun c x => Clears x.ser c) := by rd_plain EntityType.parse EntityType.ser
instance : Rd MunitionDescriptor.parse (fun c x => Clears x.ser c) := by rd_plain MunitionDescriptor.parse MunitionDescriptor.ser
instance : Rd ClockTime.parse (fun c x => Clears x.ser c) := by rd_plain ClockTime.parse ClockTime.ser
instance : Rd FixedDatum.parse (fun c x => Clears x.ser c) := by rd_plain FixedDatum.parse FixedDatum.ser
instance : Rd AttachedPart.parse (fun c x => Clears x.ser c) := by rd_plain AttachedPart.parse AttachedPart.ser
instance : Rd EntityTypeParameter.parse (fun c x => Clears x.ser c) := by rd_plain EntityTypeParameter.parse EntityTypeParameter.ser
instance : Rd EntityAssociationParameter.parse (fun c x => Clears x.ser c) := by
  rd_plain EntityAssociationParameter.parse EntityAssociationParameter.ser
instance : Rd BeamData.parse (fun c x => Clears x.ser c) := by rd_plain BeamData.parse BeamData.ser
instance : Rd SupplyQuantity.parse (fun c x => Clears x.ser c) := by rd_plain SupplyQuantity.parse SupplyQuantity.ser
instance : Rd SeparationParameter.parse (fun _ _ => True) := by
  refine ⟨?_⟩; unfold SeparationParameter.parse; rd_steps; trivial

instance (fti : UInt8) : Rd (DescriptorRecord.parseFti fti) (fun c x => (True → Clears x.ser c) ∧ x.MatchesFti fti) := by
  refine ⟨?_⟩; unfold DescriptorRecord.parseFti
  rd_steps
  · subst_vars; refine ⟨fun _ => ?_, by simp [DescriptorRecord.MatchesFti]⟩; unfold DescriptorRecord.ser; clears
  · subst_vars; refine ⟨fun _ => ?_, by simp_all [DescriptorRecord.MatchesFti]⟩; unfold DescriptorRecord.ser; clears

instance (dti : UInt8) : Rd (DescriptorRecord.parseDti dti) (fun c x => (x.NotExplosion → Clears x.ser c) ∧ x.MatchesDti dti) := by
  refine ⟨?_⟩; unfold DescriptorRecord.parseDti
  rd_steps
  · subst_vars; refine ⟨fun _ => ?_, by simp [DescriptorRecord.MatchesDti]⟩; unfold DescriptorRecord.ser; clears
  · subst_vars; exact ⟨fun h => h.elim, by simp [DescriptorRecord.MatchesDti]⟩
  · subst_vars; refine ⟨fun _ => ?_, by simp_all [DescriptorRecord.MatchesDti]⟩; unfold DescriptorRecord.ser; clears

theorem floor8_and (n : Nat) : (n / 8 * 8) &&& n = n / 8 * 8 := by
  apply Nat.eq_of_testBit_eq
  intro i
  rw [Nat.testBit_and]
  by_cases hi : i < 3
  · have : (n / 8 * 2 ^ 3).testBit i = false := by
      rw [Nat.testBit_mul_two_pow]; simp; omega
    simp only [show (8 : Nat) = 2 ^ 3 from rfl] at *
    simp [this]
  · have h : (n / 2 ^ 3 * 2 ^ 3).testBit i = n.testBit i := by
      rw [Nat.testBit_mul_two_pow, Nat.testBit_div_two_pow]
      simp only [show i - 3 + 3 = i by omega, show 3 ≤ i by omega, decide_true, Bool.true_and]
    simp only [show (8 : Nat) = 2 ^ 3 from rfl]
    rw [h]; simp

instance : Rd VariableDatum.parse (fun c x => (x.Aligned → Clears x.ser c) ∧ x.Wf) := by
  refine ⟨?_⟩; unfold VariableDatum.parse
  refine Takes.bind Rd.spec fun _ _ _ => ?_
  refine Takes.bind Rd.spec fun _ bits _ => ?_
  refine Takes.bind Rd.spec fun _ v h1 => ?_
  refine Takes.bind Rd.spec fun _ _ h2 => ?_
  refine Takes.pure ?_
  have hb := bits.toNat_lt
  obtain ⟨e1, e3⟩ := h1
  obtain ⟨e2, e4⟩ := h2
  subst_vars
  refine ⟨fun ha => ?_, ?_⟩
  · unfold VariableDatum.Aligned at ha
    simp only [lengthPaddedToNum] at e3 e4 ha
    rw [e3] at ha
    rw [if_pos ha] at e4
    unfold VariableDatum.ser
    have hz : (lengthPaddedToNum (v.length * 8) 64).padding_length * 8 = 0 := by
      simp only [lengthPaddedToNum]; rw [if_pos (by omega)]
    have hl : Clears (e32 (UInt32.ofNat (v.length * 8))) (e32 bits) := by
      apply Clears.e32_and
      apply UInt32.toNat.inj
      rw [UInt32.toNat_and, UInt32.toNat_ofNat_of_lt' (by simp only [UInt32.size]; omega), e3]
      exact floor8_and _
    simp only [hz, List.eq_nil_of_length_eq_zero e4, zeros, List.replicate_zero]
    clears
  · unfold VariableDatum.Wf
    simp only [lengthPaddedToNum] at e3 ⊢
    omega

instance : Rd ArticulatedPart.parse (fun c x => (True → Clears x.ser c) ∧ x.Wf) := by
  refine ⟨?_⟩; unfold ArticulatedPart.parse
  refine Takes.bind Rd.spec fun _ _ _ => ?_
  refine Takes.bind Rd.spec fun _ _ _ => ?_
  refine Takes.bind Rd.spec fun _ w _ => ?_
  rd_steps
  have e : (w &&& 0x1f).toNat = w.toNat % 32 := by
    rw [UInt32.toNat_and]; exact Nat.and_two_pow_sub_one_eq_mod w.toNat 5
  have hw := w.toNat_lt
  subst_vars
  refine ⟨fun _ => ?_, ?_, ?_⟩
  · unfold ArticulatedPart.ser
    simp only [UInt32.sub_add_cancel]
    clears
  · simp only [e]; omega
  · simp only
    rw [UInt32.toNat_sub_of_le _ _ (by rw [UInt32.le_iff_toNat_le, e]; omega), e]
    omega

instance : Rd VariableParameter.parse (fun c x => (x.NotSeparation → Clears x.ser c) ∧ x.Wf) := by
  refine ⟨?_⟩; unfold VariableParameter.parse
  refine Takes.bind Rd.spec fun _ t _ => ?_
  rd_steps <;> subst_vars
  · rename_i h; refine ⟨fun _ => ?_, h.2⟩; have := h.1 trivial; unfold VariableParameter.ser; clears
  · refine ⟨fun _ => ?_, trivial⟩; unfold VariableParameter.ser; clears
  · exact ⟨fun h => h.elim, trivial⟩
  · refine ⟨fun _ => ?_, trivial⟩; unfold VariableParameter.ser; clears
  · refine ⟨fun _ => ?_, trivial⟩; unfold VariableParameter.ser; clears
  · rename_i h0 h1 h2 h3 h4 v h
    obtain ⟨rfl, hv⟩ := h
    refine ⟨fun _ => ?_, ?_, hv⟩
    · unfold VariableParameter.ser; clears
    by_contra hlt
    have : t = 0 ∨ t = 1 ∨ t = 2 ∨ t = 3 ∨ t = 4 := by
      have : t.toNat = 0 ∨ t.toNat = 1 ∨ t.toNat = 2 ∨ t.toNat = 3 ∨ t.toNat = 4 := by omega
      rcases this with h | h | h | h | h
      · exact .inl (UInt8.toNat_inj.1 h)
      · exact .inr (.inl (UInt8.toNat_inj.1 h))
      · exact .inr (.inr (.inl (UInt8.toNat_inj.1 h)))
      · exact .inr (.inr (.inr (.inl (UInt8.toNat_inj.1 h))))
      · exact .inr (.inr (.inr (.inr (UInt8.toNat_inj.1 h))))
    simp_all

/-- numbers in a row -/
theorem takes_ids : ∀ n, Takes (P.count be_u32 n) (fun c l => c = serList e32 l ∧ l.length = n)
  | 0 => Takes.pure ⟨rfl, rfl⟩
  | n + 1 => by
    unfold P.count
    refine Takes.bind Rd.spec fun c a h => Takes.bind (takes_ids n) fun d l h' => Takes.pure ?_
    rw [h, h'.1]
    exact ⟨by simp [serList], by simp [h'.2]⟩
instance (n : Nat) : Rd (P.count be_u32 n) (fun c l => c = serList e32 l ∧ l.length = n) := ⟨takes_ids n⟩

/-- the octets of datums with their counts -/
def DatumSpecification.ser (x : DatumSpecification) : Bytes :=
  e32 (UInt32.ofNat x.fixed_datum_records.length) ++ (e32 (UInt32.ofNat x.variable_datum_records.length) ++
    (serList FixedDatum.ser x.fixed_datum_records ++ serList VariableDatum.ser x.variable_datum_records))
/-- every variable datum is a whole number of 8-octet words -/
def Datums.Clean (v : List VariableDatum) : Prop := ∀ d ∈ v, d.Aligned

instance : Rd DatumSpecification.parse (fun c x => (Datums.Clean x.variable_datum_records → Clears x.ser c) ∧
    (Datums.Clean x.variable_datum_records → Datums.Wf x.fixed_datum_records x.variable_datum_records)) := by
  refine ⟨?_⟩; unfold DatumSpecification.parse
  refine Takes.bind Rd.spec fun _ n h1 => ?_
  refine Takes.bind Rd.spec fun _ m h2 => ?_
  refine Takes.bind Rd.spec fun _ f h3 => ?_
  refine Takes.bind Rd.spec fun _ v h4 => ?_
  refine Takes.pure ⟨fun hK => ?_, fun hK => ⟨?_, ?_, ?_⟩⟩
  · have := h4.1 hK
    have := h3.1
    simp only [DatumSpecification.ser, serList, h3.2, h4.2.1, UInt32.ofNat_toNat]
    subst_vars
    clears
  · simp only [h3.2]; exact n.toNat_lt
  · simp only [h4.2.1]; exact m.toNat_lt
  · exact fun d hd => ⟨h4.2.2 d hd, hK d hd⟩

/-- one octet group -/
instance (n k : Nat) : Rd (P.count (P.take k : BP Bytes) n) (fun c l => c = l.flatten ∧ l.length = n ∧ ∀ r ∈ l, r.length = k) where
  spec := by
    refine (takes_count Rd.spec n).mono ?_
    rintro c l ⟨h1, cs, rfl, h⟩
    refine ⟨?_, h1, ?_⟩
    · clear h1; induction h with
      | nil => rfl
      | cons h _ ih => rw [List.flatten_cons, List.flatten_cons, ih, h.1]
    · clear h1; induction h with
      | nil => simp
      | cons h _ ih => intro r hr; rcases List.mem_cons.1 hr with rfl | hr; exacts [h.2, ih r hr]

theorem sum_length_const {l : List Bytes} {k : Nat} (h : ∀ r ∈ l, r.length = k) : (l.map List.length).sum = k * l.length := by
  induction l with
  | nil => simp
  | cons a l ih =>
    simp only [List.map_cons, List.sum_cons, List.length_cons, Nat.mul_succ]
    rw [ih fun x hx => h x (List.mem_cons_of_mem _ hx), h a (by simp)]; omega

theorem recordLengthOf_eq {l : List Bytes} {k : Nat} (hk : k < 65536) (h : ∀ r ∈ l, r.length = k) :
    (∀ r ∈ l, r.length = (recordLengthOf l).toNat) ∧ (l = [] → recordLengthOf l = 0) ∧ (recordLengthOf l).toNat ≤ k := by
  cases l with
  | nil => simp [recordLengthOf]
  | cons a l =>
    have ha := h a (by simp)
    have : (recordLengthOf (a :: l)).toNat = k := by
      unfold recordLengthOf
      simp only
      rw [ha, toNat_u16_ofNat hk]
    exact ⟨fun r hr => by rw [h r hr, this], by simp, by omega⟩

/-- The records of a set take less than 64 KiB, and each less than 8 KiB (longer ones are read, but not written correctly). -/
def RecordSet.Small (x : RecordSet) : Prop :=
  x.record_length_bytes.toNat < 8192 ∧ x.record_length_bytes.toNat * x.records.length < 65536

instance (checked : Bool) : Rd (RecordSet.parse checked) (fun c x => (x.ser.length = c.length) ∧ (x.Small → x.Wf)) := by
  refine ⟨?_⟩; unfold RecordSet.parse
  refine Takes.bind Rd.spec fun _ _ e1 => ?_
  refine Takes.bind Rd.spec fun _ _ e2 => ?_
  refine Takes.bind Rd.spec fun _ _ e3 => ?_
  refine Takes.bind Rd.spec fun _ bits e4 => ?_
  refine Takes.bind Rd.spec fun _ cnt e5 => ?_
  refine Takes.bind Rd.spec fun k l hl => ?_
  refine Takes.ite (fun _ => Takes.panic) fun _ => ?_
  refine Takes.bind Rd.spec fun _ p h4 => ?_
  refine Takes.pure ?_
  obtain ⟨h1, h2, h3⟩ := hl
  have hb := bits.toNat_lt
  have hc : ceilBitsToBytes bits ≤ 8192 := by unfold ceilBitsToBytes; omega
  have hsum := sum_length_const h3
  obtain ⟨r1, r2, r3⟩ := recordLengthOf_eq (by omega) h3
  refine ⟨?_, fun hs => ⟨r1, r2, by have := hs.1; omega, ?_, hs.2⟩⟩
  · subst_vars
    have : (l.flatMap id).length = l.flatten.length := by simp
    simp only [RecordSet.ser, List.length_append, length_e32, length_e16, length_zeros, this, h4.1, h4.2, hsum, h2, List.length_nil]
    omega
  · simp only [h2]; exact cnt.toNat_lt

/-- record sets in a row -/
instance (checked : Bool) : Rd (RecordSpecification.parse checked) (fun c l => (RecordSpecification.ser l).length = c.length ∧
    ((∀ s ∈ l, s.Small) → l.length < 4294967296 ∧ ∀ s ∈ l, s.Wf)) := by
  refine ⟨?_⟩; unfold RecordSpecification.parse
  refine Takes.bind Rd.spec fun _ n h0 => ?_
  refine (takes_count Rd.spec n.toNat).mono ?_
  rintro c l ⟨h1, cs, rfl, h⟩
  refine ⟨?_, fun hs => ⟨by rw [h1]; exact n.toNat_lt, ?_⟩⟩
  · subst h0
    simp only [RecordSpecification.ser, serList, List.length_append, length_e32]
    clear h1
    congr 1
    induction h with
    | nil => rfl
    | cons h _ ih => rw [List.flatMap_cons, List.flatten_cons, List.length_append, List.length_append, ih, h.1]
  · clear h1
    induction h with
    | nil => simp
    | cons h _ ih =>
      intro s hm
      rcases List.mem_cons.1 hm with rfl | hm
      · exact h.2 (hs _ (by simp))
      · exact ih (fun s h => hs s (by simp [h])) s hm

end Verif.Dis

import Verif.Dis.ReadsRecords

/-!
# What the readers take and guarantee: bodies

For every body: what is written is what was read, with some bits cleared; and the body is one that can be written and read
back.  Where this is not so for all input, the condition is part of the statement.  No model content.
-/

set_option linter.unusedSimpArgs false

namespace Verif.Dis

/-! ## Bodies without lists -/

instance : Rd Collision.parse (fun c x => Clears x.ser c) := by rd_plain Collision.parse Collision.ser
instance : Rd CollisionElastic.parse (fun c x => Clears x.ser c) := by rd_plain CollisionElastic.parse CollisionElastic.ser
instance : Rd Designator.parse (fun c x => Clears x.ser c) := by rd_plain Designator.parse Designator.ser
instance : Rd CreateEntity.parse (fun c x => Clears x.ser c) := by rd_plain CreateEntity.parse CreateEntity.ser
instance : Rd RemoveEntity.parse (fun c x => Clears x.ser c) := by rd_plain RemoveEntity.parse RemoveEntity.ser
instance : Rd StartResume.parse (fun c x => Clears x.ser c) := by rd_plain StartResume.parse StartResume.ser
instance : Rd StopFreeze.parse (fun c x => Clears x.ser c) := by rd_plain StopFreeze.parse StopFreeze.ser
instance : Rd Acknowledge.parse (fun c x => Clears x.ser c) := by rd_plain Acknowledge.parse Acknowledge.ser
instance : Rd CreateEntityR.parse (fun c x => Clears x.ser c) := by rd_plain CreateEntityR.parse CreateEntityR.ser
instance : Rd RemoveEntityR.parse (fun c x => Clears x.ser c) := by rd_plain RemoveEntityR.parse RemoveEntityR.ser
instance : Rd StartResumeR.parse (fun c x => Clears x.ser c) := by rd_plain StartResumeR.parse StartResumeR.ser
instance : Rd StopFreezeR.parse (fun c x => Clears x.ser c) := by rd_plain StopFreezeR.parse StopFreezeR.ser
instance : Rd AcknowledgeR.parse (fun c x => Clears x.ser c) := by rd_plain AcknowledgeR.parse AcknowledgeR.ser
instance : Rd ResupplyCancel.parse (fun c x => Clears x.ser c) := by rd_plain ResupplyCancel.parse ResupplyCancel.ser
instance : Rd RepairComplete.parse (fun c x => Clears x.ser c) := by rd_plain RepairComplete.parse RepairComplete.ser
instance : Rd RepairResponse.parse (fun c x => Clears x.ser c) := by rd_plain RepairResponse.parse RepairResponse.ser
instance (fti : UInt8) : Rd (Fire.parse fti) (fun c x => Clears x.ser c ∧ x.descriptor.MatchesFti fti) := by
  refine ⟨?_⟩; unfold Fire.parse; rd_steps
  have h := ‹(True → Clears _ _) ∧ DescriptorRecord.MatchesFti _ _›
  have := h.1 trivial
  subst_vars
  refine ⟨?_, h.2⟩
  unfold Fire.ser
  clears

/-! ## Bodies with datums -/

instance : Rd ActionRequest.parse (fun c x => (Datums.Clean x.variable_datum_records → Clears x.ser c) ∧
    (Datums.Clean x.variable_datum_records → x.Wf)) := by
  refine ⟨?_⟩; unfold ActionRequest.parse; rd_steps
  rename_i h
  refine ⟨fun hK => ?_, h.2⟩
  have := h.1 hK
  unfold DatumSpecification.ser at this
  subst_vars
  unfold ActionRequest.ser
  clears
instance : Rd ActionResponse.parse (fun c x => (Datums.Clean x.variable_datum_records → Clears x.ser c) ∧
    (Datums.Clean x.variable_datum_records → x.Wf)) := by
  refine ⟨?_⟩; unfold ActionResponse.parse; rd_steps
  rename_i h
  refine ⟨fun hK => ?_, h.2⟩
  have := h.1 hK
  unfold DatumSpecification.ser at this
  subst_vars
  unfold ActionResponse.ser
  clears
instance : Rd SetData.parse (fun c x => (Datums.Clean x.variable_datum_records → Clears x.ser c) ∧
    (Datums.Clean x.variable_datum_records → x.Wf)) := by
  refine ⟨?_⟩; unfold SetData.parse; rd_steps
  rename_i h
  refine ⟨fun hK => ?_, h.2⟩
  have := h.1 hK
  unfold DatumSpecification.ser at this
  subst_vars
  unfold SetData.ser
  clears
instance : Rd Data.parse (fun c x => (Datums.Clean x.variable_datum_records → Clears x.ser c) ∧
    (Datums.Clean x.variable_datum_records → x.Wf)) := by
  refine ⟨?_⟩; unfold Data.parse; rd_steps
  rename_i h
  refine ⟨fun hK => ?_, h.2⟩
  have := h.1 hK
  unfold DatumSpecification.ser at this
  subst_vars
  unfold Data.ser
  clears
instance : Rd EventReport.parse (fun c x => (Datums.Clean x.variable_datum_records → Clears x.ser c) ∧
    (Datums.Clean x.variable_datum_records → x.Wf)) := by
  refine ⟨?_⟩; unfold EventReport.parse; rd_steps
  rename_i h
  refine ⟨fun hK => ?_, h.2⟩
  have := h.1 hK
  unfold DatumSpecification.ser at this
  subst_vars
  unfold EventReport.ser
  clears
instance : Rd ActionRequestR.parse (fun c x => (Datums.Clean x.variable_datum_records → Clears x.ser c) ∧
    (Datums.Clean x.variable_datum_records → x.Wf)) := by
  refine ⟨?_⟩; unfold ActionRequestR.parse; rd_steps
  rename_i h
  refine ⟨fun hK => ?_, h.2⟩
  have := h.1 hK
  unfold DatumSpecification.ser at this
  subst_vars
  unfold ActionRequestR.ser
  clears
instance : Rd ActionResponseR.parse (fun c x => (Datums.Clean x.variable_datum_records → Clears x.ser c) ∧
    (Datums.Clean x.variable_datum_records → x.Wf)) := by
  refine ⟨?_⟩; unfold ActionResponseR.parse; rd_steps
  rename_i h
  refine ⟨fun hK => ?_, h.2⟩
  have := h.1 hK
  unfold DatumSpecification.ser at this
  subst_vars
  unfold ActionResponseR.ser
  clears
instance : Rd SetDataR.parse (fun c x => (Datums.Clean x.variable_datum_records → Clears x.ser c) ∧
    (Datums.Clean x.variable_datum_records → x.Wf)) := by
  refine ⟨?_⟩; unfold SetDataR.parse; rd_steps
  rename_i h
  refine ⟨fun hK => ?_, h.2⟩
  have := h.1 hK
  unfold DatumSpecification.ser at this
  subst_vars
  unfold SetDataR.ser
  clears
instance : Rd DataR.parse (fun c x => (Datums.Clean x.variable_datum_records → Clears x.ser c) ∧
    (Datums.Clean x.variable_datum_records → x.Wf)) := by
  refine ⟨?_⟩; unfold DataR.parse; rd_steps
  rename_i h
  refine ⟨fun hK => ?_, h.2⟩
  have := h.1 hK
  unfold DatumSpecification.ser at this
  subst_vars
  unfold DataR.ser
  clears
instance : Rd EventReportR.parse (fun c x => (Datums.Clean x.variable_datum_records → Clears x.ser c) ∧
    (Datums.Clean x.variable_datum_records → x.Wf)) := by
  refine ⟨?_⟩; unfold EventReportR.parse; rd_steps
  rename_i h
  refine ⟨fun hK => ?_, h.2⟩
  have := h.1 hK
  unfold DatumSpecification.ser at this
  subst_vars
  unfold EventReportR.ser
  clears

/-! ## Comments: fixed datums are read and dropped -/

instance : Rd Comment.parse (fun c x => (Datums.Clean x.variable_datum_records → x.ser.length ≤ c.length) ∧
    (Datums.Clean x.variable_datum_records → x.Wf)) := by
  refine ⟨?_⟩; unfold Comment.parse
  refine Takes.bind Rd.spec fun _ _ a => ?_
  refine Takes.bind Rd.spec fun _ _ b => ?_
  refine Takes.bind Rd.spec fun _ d h => Takes.pure ?_
  refine ⟨fun hK => ?_, fun hK => ⟨by simp, (h.2 hK).2⟩⟩
  have h1 := (h.1 hK).length
  have h2 := a.length
  have h3 := b.length
  simp only [DatumSpecification.ser, Comment.ser, List.length_append, length_e32, List.length_nil, Nat.add_zero] at *
  omega
instance : Rd CommentR.parse (fun c x => (Datums.Clean x.variable_datum_records → x.ser.length ≤ c.length) ∧
    (Datums.Clean x.variable_datum_records → x.Wf)) := by
  refine ⟨?_⟩; unfold CommentR.parse
  refine Takes.bind Rd.spec fun _ _ a => ?_
  refine Takes.bind Rd.spec fun _ _ b => ?_
  refine Takes.bind Rd.spec fun _ d h => Takes.pure ?_
  refine ⟨fun hK => ?_, fun hK => ⟨by simp, (h.2 hK).2⟩⟩
  have h1 := (h.1 hK).length
  have h2 := a.length
  have h3 := b.length
  simp only [DatumSpecification.ser, CommentR.ser, List.length_append, length_e32, List.length_nil, Nat.add_zero] at *
  omega

/-! ## Queries -/

instance : Rd DataQuery.parse (fun c x => Clears x.ser c ∧ x.Wf) := by
  refine ⟨?_⟩; unfold DataQuery.parse; rd_steps
  rename_i n _ m _ _ _ f h1 _ v h2
  refine ⟨?_, ?_⟩
  · unfold DataQuery.ser
    simp only [h1.2, h2.2, UInt32.ofNat_toNat, h1.1, h2.1]
    subst_vars
    clears
  · simp only [DataQuery.Wf, h1.2, h2.2]; exact ⟨UInt32.toNat_lt _, UInt32.toNat_lt _⟩
instance : Rd DataQueryR.parse (fun c x => Clears x.ser c ∧ x.Wf) := by
  refine ⟨?_⟩; unfold DataQueryR.parse; rd_steps
  rename_i n _ m _ _ _ f h1 _ v h2
  refine ⟨?_, ?_⟩
  · unfold DataQueryR.ser
    simp only [h1.2, h2.2, UInt32.ofNat_toNat, h1.1, h2.1]
    subst_vars
    clears
  · simp only [DataQueryR.Wf, h1.2, h2.2]; exact ⟨UInt32.toNat_lt _, UInt32.toNat_lt _⟩
instance : Rd RecordQueryR.parse (fun c x => Clears x.ser c ∧ x.Wf) := by
  refine ⟨?_⟩; unfold RecordQueryR.parse; rd_steps
  rename_i h1
  refine ⟨?_, ?_⟩
  · unfold RecordQueryR.ser
    simp only [h1.2, UInt32.ofNat_toNat, h1.1]
    subst_vars
    clears
  · simp only [RecordQueryR.Wf, h1.2]; exact UInt32.toNat_lt _

/-! ## Record sets -/

instance (checked : Bool) : Rd (RecordR.parse checked) (fun c x => x.ser.length = c.length ∧
    ((∀ s ∈ x.record_specification, s.Small) → x.Wf)) := by
  refine ⟨?_⟩; unfold RecordR.parse
  refine Takes.bind Rd.spec fun _ _ a => ?_
  refine Takes.bind Rd.spec fun _ _ b => ?_
  rd_steps
  rename_i h
  refine ⟨?_, h.2⟩
  have := h.1
  have h2 := a.length
  have h3 := b.length
  subst_vars
  simp only [RecordR.ser, List.length_append, length_e32, length_e16, length_e8, h.1, List.length_nil]
  omega
instance (checked : Bool) : Rd (SetRecordR.parse checked) (fun c x => x.ser.length = c.length ∧
    ((∀ s ∈ x.record_specification, s.Small) → x.Wf)) := by
  refine ⟨?_⟩; unfold SetRecordR.parse
  refine Takes.bind Rd.spec fun _ _ a => ?_
  refine Takes.bind Rd.spec fun _ _ b => ?_
  rd_steps
  rename_i h
  refine ⟨?_, h.2⟩
  have := h.1
  have h2 := a.length
  have h3 := b.length
  subst_vars
  simp only [SetRecordR.ser, List.length_append, length_e32, length_e16, length_e8, h.1, List.length_nil]
  omega

/-! ## Supplies -/

instance : Rd ServiceRequest.parse (fun c x => Clears x.ser c ∧ x.Wf) := by
  refine ⟨?_⟩; unfold ServiceRequest.parse; rd_steps
  rename_i h
  have := h.1
  refine ⟨?_, ?_⟩
  · unfold ServiceRequest.ser serList
    simp only [h.2, UInt8.ofNat_toNat]
    subst_vars
    clears
  · simp only [ServiceRequest.Wf, h.2]; have := UInt8.toNat_lt; exact Nat.lt_succ_iff.1 (UInt8.toNat_lt _)
instance : Rd ResupplyOffer.parse (fun c x => Clears x.ser c ∧ x.Wf) := by
  refine ⟨?_⟩; unfold ResupplyOffer.parse; rd_steps
  rename_i h
  have := h.1
  refine ⟨?_, ?_⟩
  · unfold ResupplyOffer.ser serList
    simp only [h.2, UInt8.ofNat_toNat]
    subst_vars
    clears
  · simp only [ResupplyOffer.Wf, h.2]; have := UInt8.toNat_lt; exact Nat.lt_succ_iff.1 (UInt8.toNat_lt _)
instance : Rd ResupplyReceived.parse (fun c x => Clears x.ser c ∧ x.Wf) := by
  refine ⟨?_⟩; unfold ResupplyReceived.parse; rd_steps
  rename_i h
  have := h.1
  refine ⟨?_, ?_⟩
  · unfold ResupplyReceived.ser serList
    simp only [h.2, UInt8.ofNat_toNat]
    subst_vars
    clears
  · simp only [ResupplyReceived.Wf, h.2]; have := UInt8.toNat_lt; exact Nat.lt_succ_iff.1 (UInt8.toNat_lt _)

/-! ## Variable parameters -/

instance (dti : UInt8) : Rd (Detonation.parse dti) (fun c x =>
    (x.descriptor.NotExplosion → VariableParameters.NoSeparation x.variable_parameters → Clears x.ser c) ∧
    x.descriptor.MatchesDti dti ∧ VariableParameters.Wf x.variable_parameters) := by
  refine ⟨?_⟩; unfold Detonation.parse; rd_steps
  have h1 := ‹(DescriptorRecord.NotExplosion _ → Clears _ _) ∧ DescriptorRecord.MatchesDti _ _›
  rename_i h
  refine ⟨fun he hs => ?_, h1.2, ?_, h.2.2⟩
  · have := h.1 hs
    have := h1.1 he
    unfold Detonation.ser serList
    simp only [h.2.1, UInt8.ofNat_toNat]
    subst_vars
    clears
  · simp only [h.2.1]; exact Nat.lt_succ_iff.1 (UInt8.toNat_lt _)

instance : Rd EntityStateUpdate.parse (fun c x =>
    (VariableParameters.NoSeparation x.variable_parameters → Clears x.ser c) ∧ x.Wf) := by
  refine ⟨?_⟩; unfold EntityStateUpdate.parse; rd_steps
  rename_i h
  refine ⟨fun hs => ?_, rfl, ?_, h.2.2⟩
  · have := h.1 hs
    unfold EntityStateUpdate.ser serList EntityAppearance.ser
    simp only [h.2.1, UInt8.ofNat_toNat]
    subst_vars
    clears
  · simp only [h.2.1]; exact Nat.lt_succ_iff.1 (UInt8.toNat_lt _)

/-! ## Attribute -/

/-- a whole number of 8-octet words -/
def AttributeRecord.Clean (x : AttributeRecord) : Prop := (6 + x.specific_fields.length) % 8 = 0
def AttributeRecordSet.Clean (x : AttributeRecordSet) : Prop := ∀ r ∈ x.attribute_records, r.Clean

instance : Rd AttributeRecord.parse (fun c x => (x.Clean → Clears x.ser c) ∧ (x.Clean → x.Wf)) := by
  refine ⟨?_⟩; unfold AttributeRecord.parse; rd_steps
  rename_i len _ _ f h
  have hl := len.toNat_lt
  refine ⟨fun hK => ?_, fun hK => ⟨hK, ?_⟩⟩
  · unfold AttributeRecord.Clean at hK
    simp only at hK
    have : UInt16.ofNat (6 + f.length) = len := by
      rw [h.2, show 6 + (len.toNat - 6) = len.toNat by omega, UInt16.ofNat_toNat]
    simp only [AttributeRecord.ser, lengthPaddedToNum, if_pos hK, Nat.add_zero, zeros, List.replicate_zero, this, h.1]
    subst_vars
    clears
  · unfold AttributeRecord.Clean at hK
    simp only at hK ⊢
    omega

instance : Rd AttributeRecordSet.parse (fun c x => (x.Clean → Clears x.ser c) ∧ (x.Clean → x.Wf)) := by
  refine ⟨?_⟩; unfold AttributeRecordSet.parse; rd_steps
  rename_i h
  refine ⟨fun hK => ?_, fun hK => ⟨?_, fun r hr => h.2.2 r hr (hK r hr)⟩⟩
  · have := h.1 hK
    unfold AttributeRecordSet.ser serList
    simp only [h.2.1, UInt16.ofNat_toNat]
    subst_vars
    clears
  · simp only [h.2.1]; exact UInt16.toNat_lt _

/-- every attribute record is a whole number of 8-octet words -/
def Attribute.Clean (x : Attribute) : Prop := ∀ s ∈ x.attribute_record_sets, s.Clean
instance : Rd Attribute.parse (fun c x => (x.Clean → Clears x.ser c) ∧ (x.Clean → x.Wf)) := by
  refine ⟨?_⟩; unfold Attribute.parse; rd_steps
  rename_i h
  refine ⟨fun hK => ?_, fun hK => ⟨?_, fun r hr => h.2.2 r hr (hK r hr)⟩⟩
  · have := h.1 hK
    unfold Attribute.ser serList
    simp only [h.2.1, UInt16.ofNat_toNat]
    subst_vars
    clears
  · simp only [h.2.1]; exact UInt16.toNat_lt _

end Verif.Dis

import Verif.Dis.ReadsIff

/-!
# What the readers take and guarantee: entity management

No model content.
-/

set_option linter.unusedSimpArgs false

namespace Verif.Dis

/-! ## IsGroupOf -/

instance : Rd GEDEntityLocation.parse (fun c x => Clears x.ser c) := by rd_plain GEDEntityLocation.parse GEDEntityLocation.ser
instance : Rd GEDEntityOrientation.parse (fun c x => Clears x.ser c) := by rd_plain GEDEntityOrientation.parse GEDEntityOrientation.ser
instance (env : Env) : Rd (GEDRecord1.parse env) (fun c x => Clears x.ser c ∧ x.appearance.Wf env landPlatformType) := by
  refine ⟨?_⟩; unfold GEDRecord1.parse
  refine Takes.bind Rd.spec fun _ _ _ => ?_
  refine Takes.bind Rd.spec fun _ _ _ => ?_
  refine Takes.bind Rd.spec fun _ _ h => ?_
  rd_steps
  have := h.1
  subst_vars
  refine ⟨?_, h.2⟩
  unfold GEDRecord1.ser
  clears
instance (env : Env) : Rd (GEDRecord2.parse env) (fun c x => Clears x.ser c ∧ x.basic_ground_combat_vehicle.appearance.Wf env landPlatformType) := by
  refine ⟨?_⟩; unfold GEDRecord2.parse
  refine Takes.bind Rd.spec fun _ _ h => ?_
  rd_steps
  have := h.1
  subst_vars
  refine ⟨?_, h.2⟩
  unfold GEDRecord2.ser
  clears
instance (env : Env) : Rd (GEDRecord3.parse env) (fun c x => Clears x.ser c ∧ x.appearance.Wf env landPlatformType) := by
  refine ⟨?_⟩; unfold GEDRecord3.parse
  refine Takes.bind Rd.spec fun _ _ _ => ?_
  refine Takes.bind Rd.spec fun _ _ _ => ?_
  refine Takes.bind Rd.spec fun _ _ h => ?_
  rd_steps
  have := h.1
  subst_vars
  refine ⟨?_, h.2⟩
  unfold GEDRecord3.ser
  clears
instance (env : Env) : Rd (GEDRecord4.parse env) (fun c x => Clears x.ser c ∧ x.basic_ground_combat_soldier.appearance.Wf env landPlatformType) := by
  refine ⟨?_⟩; unfold GEDRecord4.parse
  refine Takes.bind Rd.spec fun _ _ h => ?_
  rd_steps
  have := h.1
  subst_vars
  refine ⟨?_, h.2⟩
  unfold GEDRecord4.ser
  clears
instance (env : Env) : Rd (GEDRecord5.parse env) (fun c x => Clears x.ser c ∧ x.appearance.Wf env airPlatformType) := by
  refine ⟨?_⟩; unfold GEDRecord5.parse
  refine Takes.bind Rd.spec fun _ _ _ => ?_
  refine Takes.bind Rd.spec fun _ _ _ => ?_
  refine Takes.bind Rd.spec fun _ _ h => ?_
  rd_steps
  have := h.1
  subst_vars
  refine ⟨?_, h.2⟩
  unfold GEDRecord5.ser
  clears
instance (env : Env) : Rd (GEDRecord6.parse env) (fun c x => Clears x.ser c ∧ x.basic_rotor_wing_aircraft.appearance.Wf env airPlatformType) := by
  refine ⟨?_⟩; unfold GEDRecord6.parse
  refine Takes.bind Rd.spec fun _ _ h => ?_
  rd_steps
  have := h.1
  subst_vars
  refine ⟨?_, h.2⟩
  unfold GEDRecord6.ser
  clears
instance (env : Env) : Rd (GEDRecord7.parse env) (fun c x => Clears x.ser c ∧ x.appearance.Wf env airPlatformType) := by
  refine ⟨?_⟩; unfold GEDRecord7.parse
  refine Takes.bind Rd.spec fun _ _ _ => ?_
  refine Takes.bind Rd.spec fun _ _ _ => ?_
  refine Takes.bind Rd.spec fun _ _ h => ?_
  rd_steps
  have := h.1
  subst_vars
  refine ⟨?_, h.2⟩
  unfold GEDRecord7.ser
  clears
instance (env : Env) : Rd (GEDRecord8.parse env) (fun c x => Clears x.ser c ∧ x.basic_fixed_wing_aircraft.appearance.Wf env airPlatformType) := by
  refine ⟨?_⟩; unfold GEDRecord8.parse
  refine Takes.bind Rd.spec fun _ _ h => ?_
  rd_steps
  have := h.1
  subst_vars
  refine ⟨?_, h.2⟩
  unfold GEDRecord8.ser
  clears
instance (env : Env) : Rd (GEDRecord9.parse env) (fun c x => Clears x.ser c ∧ x.appearance.Wf env landPlatformType) := by
  refine ⟨?_⟩; unfold GEDRecord9.parse
  refine Takes.bind Rd.spec fun _ _ _ => ?_
  refine Takes.bind Rd.spec fun _ _ _ => ?_
  refine Takes.bind Rd.spec fun _ _ h => ?_
  rd_steps
  have := h.1
  subst_vars
  refine ⟨?_, h.2⟩
  unfold GEDRecord9.ser
  clears

instance (env : Env) (k : UInt8) : Rd (GroupEntityDescription.parse env k) (fun c x => (True → Clears x.ser c) ∧ x.Wf env k) := by
  refine ⟨?_⟩; unfold GroupEntityDescription.parse
  refine Takes.ite (fun h => ?_) fun h1 => ?_
  · refine Takes.bind Rd.spec fun _ _ e => Takes.pure ⟨fun _ => ?_, h, e.2⟩
    rw [List.append_nil]; exact e.1
  refine Takes.ite (fun h => ?_) fun h2 => ?_
  · refine Takes.bind Rd.spec fun _ _ e => Takes.pure ⟨fun _ => ?_, h, e.2⟩
    rw [List.append_nil]; exact e.1
  refine Takes.ite (fun h => ?_) fun h3 => ?_
  · refine Takes.bind Rd.spec fun _ _ e => Takes.pure ⟨fun _ => ?_, h, e.2⟩
    rw [List.append_nil]; exact e.1
  refine Takes.ite (fun h => ?_) fun h4 => ?_
  · refine Takes.bind Rd.spec fun _ _ e => Takes.pure ⟨fun _ => ?_, h, e.2⟩
    rw [List.append_nil]; exact e.1
  refine Takes.ite (fun h => ?_) fun h5 => ?_
  · refine Takes.bind Rd.spec fun _ _ e => Takes.pure ⟨fun _ => ?_, h, e.2⟩
    rw [List.append_nil]; exact e.1
  refine Takes.ite (fun h => ?_) fun h6 => ?_
  · refine Takes.bind Rd.spec fun _ _ e => Takes.pure ⟨fun _ => ?_, h, e.2⟩
    rw [List.append_nil]; exact e.1
  refine Takes.ite (fun h => ?_) fun h7 => ?_
  · refine Takes.bind Rd.spec fun _ _ e => Takes.pure ⟨fun _ => ?_, h, e.2⟩
    rw [List.append_nil]; exact e.1
  refine Takes.ite (fun h => ?_) fun h8 => ?_
  · refine Takes.bind Rd.spec fun _ _ e => Takes.pure ⟨fun _ => ?_, h, e.2⟩
    rw [List.append_nil]; exact e.1
  refine Takes.ite (fun h => ?_) fun h9 => ?_
  · refine Takes.bind Rd.spec fun _ _ e => Takes.pure ⟨fun _ => ?_, h, e.2⟩
    rw [List.append_nil]; exact e.1
  refine Takes.pure ⟨fun _ => .nil, ?_⟩
  have e : ∀ n : Nat, k ≠ UInt8.ofNat n → n < 256 → k.toNat ≠ n := fun n h hn e => h (by rw [← e, UInt8.ofNat_toNat])
  have := e 1 h1 (by omega); have := e 2 h2 (by omega); have := e 3 h3 (by omega); have := e 4 h4 (by omega)
  have := e 5 h5 (by omega); have := e 6 h6 (by omega); have := e 7 h7 (by omega); have := e 8 h8 (by omega)
  have := e 9 h9 (by omega)
  by_cases h0 : k = 0
  · exact .inl h0
  · have : k.toNat ≠ 0 := fun h => h0 (UInt8.toNat_inj.1 h)
    exact .inr (by omega)

instance (env : Env) : Rd (IsGroupOf.parse env) (fun c x => Clears x.ser c ∧ x.Wf env) := by
  refine ⟨?_⟩; unfold IsGroupOf.parse; rd_steps
  rename_i h
  have := h.1 fun _ _ => trivial
  refine ⟨?_, ?_, h.2.2⟩
  · unfold IsGroupOf.ser serList
    simp only [h.2.1, UInt8.ofNat_toNat]
    subst_vars
    clears
  · simp only [h.2.1]; exact UInt8.toNat_lt _

/-! ## IsPartOf, TransferOwnership -/

instance : Rd IsPartOf.parse (fun c x => Clears x.ser c) := by rd_plain IsPartOf.parse IsPartOf.ser

instance (checked : Bool) : Rd (TransferOwnership.parse checked) (fun c x => x.ser.length = c.length ∧
    ((∀ s ∈ x.record_specification, s.Small) → Records.Wf x.record_specification)) := by
  refine ⟨?_⟩; unfold TransferOwnership.parse
  refine Takes.bind Rd.spec fun _ _ a => ?_
  refine Takes.bind Rd.spec fun _ _ b => ?_
  refine Takes.bind Rd.spec fun _ _ _ => ?_
  refine Takes.bind Rd.spec fun _ _ _ => ?_
  refine Takes.bind Rd.spec fun _ _ _ => ?_
  refine Takes.bind Rd.spec fun _ _ c => ?_
  refine Takes.bind Rd.spec fun _ _ h => Takes.pure ⟨?_, h.2⟩
  have := a.length; have := b.length; have := c.length
  subst_vars
  simp only [TransferOwnership.ser, List.length_append, length_e32, length_e16, length_e8, h.1, List.length_nil]
  omega

/-! ## AggregateState -/

instance : Rd AggregateType.parse (fun c x => Clears x.ser c) := by rd_plain AggregateType.parse AggregateType.ser
instance (env : Env) : Rd (AggregateMarking.parse env) (fun c x => c.length = 32 ∧ ((∀ b ∈ c.drop 1, b.toNat < 128) → x.Wf)) := by
  refine ⟨?_⟩; unfold AggregateMarking.parse; rd_steps
  rename_i h0 c b h
  obtain ⟨hc, hb⟩ := h
  subst c h0
  refine ⟨by simp [hb, length_e8], fun ha => ?_⟩
  have ha' : ∀ x ∈ b, x.toNat < 128 := fun x hx => ha x (by
    simp only [e8, List.append_nil, List.cons_append, List.nil_append, List.drop_succ_cons, List.drop_zero]; exact hx)
  obtain ⟨h1, h2, h3⟩ := sanitize_ascii env ha'
  exact ⟨by simp only; omega, h2, h3⟩
instance : Rd SilentAggregateSystem.parse (fun c x => Clears x.ser c) := by rd_plain SilentAggregateSystem.parse SilentAggregateSystem.ser
instance (env : Env) (t : EntityType) (n : Nat) : Rd (P.count (EntityAppearance.parse env t) n) (fun c l =>
    ((∀ a ∈ l, True) → Clears (l.flatMap EntityAppearance.ser) c) ∧ (l.length = n ∧ ∀ a ∈ l, EntityAppearance.Wf env t a)) :=
  ⟨takes_count_ser (Takes.mono Rd.spec fun _ _ h => ⟨fun _ => h.1, h.2⟩) n⟩
instance (env : Env) : Rd (SilentEntitySystem.parse env) (fun c x => (True → Clears x.ser c) ∧ x.Wf env) := by
  refine ⟨?_⟩; unfold SilentEntitySystem.parse; rd_steps
  rename_i h
  have := h.1 fun _ _ => trivial
  refine ⟨fun _ => ?_, ?_, h.2.2⟩
  · unfold SilentEntitySystem.ser serList
    simp only [h.2.1, UInt16.ofNat_toNat]
    subst_vars
    clears
  · simp only [h.2.1]; exact UInt16.toNat_lt _

/-- what may be lost: a marking that is not text, datums that are not whole 8-octet words, and (in a build without overflow
checks) lists of more than 10901 identifiers -/
structure AggregateState.Clean (x : AggregateState) : Prop where
  marking : x.aggregate_marking.Wf
  ids : x.aggregates.length + x.entities.length ≤ 10901
  datums : Datums.Clean x.variable_datums

instance (env : Env) : Rd (AggregateState.parse env) (fun c x => (x.Clean → x.ser.length = c.length) ∧ (x.Clean → x.Wf env)) := by
  refine ⟨?_⟩; unfold AggregateState.parse
  refine Takes.bind Rd.spec fun _ _ h1 => ?_
  refine Takes.bind Rd.spec fun _ _ h2 => ?_
  refine Takes.bind Rd.spec fun _ _ h3 => ?_
  refine Takes.bind Rd.spec fun _ _ h4 => ?_
  refine Takes.bind Rd.spec fun _ _ h5 => ?_
  refine Takes.bind Rd.spec fun _ _ h6 => ?_
  refine Takes.bind Rd.spec fun _ _ h7 => ?_
  refine Takes.bind Rd.spec fun _ _ h8 => ?_
  refine Takes.bind Rd.spec fun _ _ h9 => ?_
  refine Takes.bind Rd.spec fun _ _ ha => ?_
  refine Takes.bind Rd.spec fun _ na hb => ?_
  refine Takes.bind Rd.spec fun _ ne hc => ?_
  refine Takes.bind Rd.spec fun _ nsa hd => ?_
  refine Takes.bind Rd.spec fun _ nse he => ?_
  refine Takes.bind Rd.spec fun _ ag hf => ?_
  refine Takes.bind Rd.spec fun _ en hg => ?_
  refine Takes.ite (fun _ => Takes.panic) fun _ => ?_
  refine Takes.bind Rd.spec fun _ _ hh => ?_
  refine Takes.bind Rd.spec fun _ sa hi => ?_
  refine Takes.bind Rd.spec fun _ se hj => ?_
  refine Takes.bind Rd.spec fun _ n hk => ?_
  refine Takes.bind Rd.spec fun _ v hl => Takes.pure ?_
  refine ⟨fun hK => ?_, fun hK => ⟨hK.marking, hK.ids, ?_, ?_, hj.2.2, ?_, ?_, ?_⟩⟩
  · have e1 := h1.length; have e4 := h4.length; have e7 := h7.length; have e8 := h8.length; have e9 := h9.length
    have ea := ha.length; have ef := hf.1.length; have eg := hg.1.length; have ei := hi.1.length
    have ej := (hj.1 fun _ _ => trivial).length; have el := (hl.1 hK.datums).length
    have e6 := AggregateMarking.length_ser hK.marking
    simp only at e6
    subst h2 h3 h5 hb hc hd he hk
    simp only [AggregateState.ser, serList, List.length_append, length_e8, length_e16, length_e32, length_zeros, List.length_nil,
      hh.1, hh.2, e1, e4, e7, e8, e9, ea, ef, eg, ei, ej, el, e6, h6.1]
    omega
  · simp only [hi.2]; exact nsa.toNat_lt
  · simp only [hj.2.1]; exact nse.toNat_lt
  · simp
  · simp only [hl.2.1]; exact n.toNat_lt
  · exact fun d hd => ⟨hl.2.2 d hd, hK.datums d hd⟩

/-! ## Other -/

instance (n : UInt16) : Rd (Other.parse n) (fun c x => c = x.ser ∧ x.body.length = n.toNat - 12 ∧
    x.originating_entity_id = none ∧ x.receiving_entity_id = none) := by
  refine ⟨?_⟩; unfold Other.parse; rd_steps
  rename_i h
  exact ⟨by rw [List.append_nil]; exact h.1, h.2, rfl, rfl⟩

end Verif.Dis

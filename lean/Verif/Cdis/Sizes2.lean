import Verif.Cdis.Sizes

/-! # How many bits a C-DIS PDU takes at most, more closely

The bounds of `Sizes` where they are too wide to compare a C-DIS PDU with the DIS PDU it was made from.  No model content. -/

namespace Verif.Cdis

/-- both those written and those announced -/
def AtMost (written announced n : Nat) : Prop := written ≤ n ∧ announced ≤ n

theorem close_comment (v : Comment) : AtMost v.ser.length v.lenBits (128 + 64 * v.datums.fixed.length + (v.datums.var.map fun d => 46 + 8 * d.datum_value.length).sum) := by
  constructor
  · unfold Comment.ser; refine Nat.le_trans Len.le ?_; omega
  · unfold Comment.lenBits; refine Nat.le_trans Cost.le ?_; omega
theorem close_signal (v : Signal) : AtMost v.ser.length v.lenBits (161 + 8 * v.data.length) := by
  constructor
  · unfold Signal.ser; refine Nat.le_trans Len.le ?_; omega
  · unfold Signal.lenBits; refine Nat.le_trans Cost.le ?_; omega
theorem close_state {v : EntityState} (h : v.MarkingFits) : AtMost v.ser.length v.lenBits (731 + 102 * v.variable_parameters.length) := by
  have hm : (wOpt Marking.ser v.entity_marking).length ≤ 71 ∧ lOpt Marking.lenBits v.entity_marking ≤ 71 := by
    cases e : v.entity_marking with
    | none => simp [wOpt, lOpt]
    | some m => exact size_marking (h m e)
  haveI : Len (wOpt Marking.ser v.entity_marking) 71 := ⟨hm.1⟩
  haveI : Cost (lOpt Marking.lenBits v.entity_marking) 71 := ⟨hm.2⟩
  constructor
  · unfold EntityState.ser; refine Nat.le_trans Len.le ?_; omega
  · unfold EntityState.lenBits; refine Nat.le_trans Cost.le ?_; omega
theorem close_partial {v : EntityState} (h : v.force_id = none ∧ v.entity_type = none ∧ v.entity_location = none ∧ v.entity_orientation = none ∧
    v.entity_appearance = none ∧ v.entity_marking = none) : AtMost v.ser.length v.lenBits (433 + 102 * v.variable_parameters.length) := by
  obtain ⟨h1, h2, h3, h4, h5, h6⟩ := h
  haveI : Len (wOpt wUV8 v.force_id) 0 := ⟨by rw [h1]; exact Nat.le_refl _⟩
  haveI : Len (wOpt EntityType.ser v.entity_type) 0 := ⟨by rw [h2]; exact Nat.le_refl _⟩
  haveI : Len (wOpt WorldCoordinates.ser v.entity_location) 0 := ⟨by rw [h3]; exact Nat.le_refl _⟩
  haveI : Len (wOpt Orientation.ser v.entity_orientation) 0 := ⟨by rw [h4]; exact Nat.le_refl _⟩
  haveI : Len (wOpt (wU 32) v.entity_appearance) 0 := ⟨by rw [h5]; exact Nat.le_refl _⟩
  haveI : Len (wOpt Marking.ser v.entity_marking) 0 := ⟨by rw [h6]; exact Nat.le_refl _⟩
  constructor
  · unfold EntityState.ser; refine Nat.le_trans Len.le ?_; omega
  · unfold EntityState.lenBits
    rw [h1, h2, h3, h4, h5, h6]
    simp only [lOpt.eq_2, Nat.add_zero, Nat.zero_add]
    refine Nat.le_trans Cost.le ?_; omega
theorem close_emission (v : ElectromagneticEmission) : AtMost v.ser.length v.lenBits
    (135 + 86 * v.fundamental_params.length + 70 * v.beam_data.length + 36 * v.site_app_pairs.length + systemBits v.emitter_systems) := by
  haveI : Len (v.emitter_systems.flatMap EmitterSystem.ser) (systemBits v.emitter_systems) := ⟨size_flatMap size_system _⟩
  haveI : Cost (v.emitter_systems.map EmitterSystem.lenBits).sum (systemBits v.emitter_systems) := ⟨sum_le cost_system _⟩
  constructor
  · unfold ElectromagneticEmission.ser; refine Nat.le_trans Len.le ?_; omega
  · unfold ElectromagneticEmission.lenBits; refine Nat.le_trans Cost.le ?_; omega
/-- the layers of an IFF body -/
def Iff.layerBits (v : Iff) : Nat :=
  lOpt (fun x => 121 + 86 * x.params.length) v.layer_2 + lOpt (fun x => 180 + recordBits x.records) v.layer_3
    + lOpt (fun x => 166 + 8 * x.mode_s_basic_data.idLength + recordBits x.records) v.layer_4 + lOpt (fun x => 77 + recordBits x.records) v.layer_5
theorem len_opt {α : Type} {w : α → Bits} {f : α → Nat} (h : ∀ x, (w x).length ≤ f x) (o : Option α) : (wOpt w o).length ≤ lOpt f o := by
  cases o with | none => exact Nat.zero_le _ | some x => exact h x
theorem fee_opt {α : Type} {w f : α → Nat} (h : ∀ x, w x ≤ f x) (o : Option α) : lOpt w o ≤ lOpt f o := by
  cases o with | none => exact Nat.zero_le _ | some x => exact h x
theorem close_iff (v : Iff) : AtMost v.ser.length v.lenBits (340 + v.layerBits) := by
  have a := len_opt (w := IffLayer2.ser) (fun _ => Len.le) v.layer_2
  have b := len_opt (w := IffLayer3.ser) (f := fun x => 180 + recordBits x.records) (fun _ => Len.le) v.layer_3
  have c := len_opt (w := IffLayer4.ser) (f := fun x => 166 + 8 * x.mode_s_basic_data.idLength + recordBits x.records) (fun x => Len.le) v.layer_4
  have d := len_opt (w := IffLayer5.ser) (f := fun x => 77 + recordBits x.records) (fun _ => Len.le) v.layer_5
  have a' := fee_opt (w := IffLayer2.lenBits) (fun _ => Cost.le) v.layer_2
  have b' := fee_opt (w := IffLayer3.lenBits) (f := fun x => 180 + recordBits x.records) (fun _ => Cost.le) v.layer_3
  have c' := fee_opt (w := IffLayer4.lenBits) (f := fun x => 166 + 8 * x.mode_s_basic_data.idLength + recordBits x.records) (fun x => Cost.le) v.layer_4
  have d' := fee_opt (w := IffLayer5.lenBits) (f := fun x => 77 + recordBits x.records) (fun _ => Cost.le) v.layer_5
  unfold Iff.layerBits
  haveI := Len.mk a; haveI := Len.mk b; haveI := Len.mk c; haveI := Len.mk d
  haveI := Cost.mk a'; haveI := Cost.mk b'; haveI := Cost.mk c'; haveI := Cost.mk d'
  constructor
  · unfold Iff.ser; refine Nat.le_trans Len.le ?_; omega
  · unfold Iff.lenBits; refine Nat.le_trans Cost.le ?_; omega
/-- a number of bits that bounds both those written and those announced for a body, more closely than `atMost` -/
def CdisBody.close : CdisBody → Nat
  | .entityState b => 731 + 102 * b.variable_parameters.length
  | .createEntity _ | .removeEntity _ => 142
  | .startResume _ => 272
  | .stopFreeze _ => 214
  | .acknowledge _ => 147
  | .comment b => 128 + 64 * b.datums.fixed.length + (b.datums.var.map fun d => 46 + 8 * d.datum_value.length).sum
  | .electromagneticEmission b =>
      135 + 86 * b.fundamental_params.length + 70 * b.beam_data.length + 36 * b.site_app_pairs.length + systemBits b.emitter_systems
  | .signal b => 161 + 8 * b.data.length
  | .iff b => 340 + b.layerBits
  | b => b.atMost
theorem CdisBody.close_size {b : CdisBody} (h : ∀ x, b = .entityState x → x.MarkingFits) : AtMost b.ser.length b.lenBits b.close := by
  cases b with
  | entityState x => exact close_state (h x rfl)
  | electromagneticEmission x => exact close_emission x
  | comment x => exact close_comment x
  | signal x => exact close_signal x
  | iff x => exact close_iff x
  | createEntity x => exact ⟨Len.le (b := x.ser), Cost.le (x := x.lenBits)⟩
  | removeEntity x => exact ⟨Len.le (b := x.ser), Cost.le (x := x.lenBits)⟩
  | startResume x => exact ⟨Len.le (b := x.ser), Cost.le (x := x.lenBits)⟩
  | stopFreeze x => exact ⟨Len.le (b := x.ser), Cost.le (x := x.lenBits)⟩
  | acknowledge x => exact ⟨Len.le (b := x.ser), Cost.le (x := x.lenBits)⟩
  | _ => exact CdisBody.size (fun x hx => (by cases hx))
theorem CdisPdu.close_size {p : CdisPdu} (h : ∀ x, p.body = .entityState x → x.MarkingFits) : AtMost p.ser.length p.lenBits (67 + p.body.close) := by
  obtain ⟨a, b⟩ := CdisBody.close_size h
  have c : p.header.ser.length ≤ 67 := Len.le
  have d : p.header.lenBits ≤ 67 := Cost.le
  unfold AtMost CdisPdu.ser CdisPdu.lenBits
  rw [List.length_append]
  omega

end Verif.Cdis

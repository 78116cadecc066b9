import Verif.Cdis.Pdu

/-! # How many bits a C-DIS PDU takes at most

Bounds on the bits written (`Len`) and on the bits announced (`Cost`) by every record and body, found by instance search.  No model
content. -/

namespace Verif.Cdis

/-- at most `n` bits -/
class Len (b : Bits) (n : outParam Nat) : Prop where
  le : b.length ≤ n
/-- at most `n` -/
class Cost (x : Nat) (n : outParam Nat) : Prop where
  le : x ≤ n

instance : Len ([] : Bits) 0 := ⟨Nat.le_refl _⟩
instance (n v : Nat) : Len (wU n v) n := ⟨by rw [length_wU]; omega⟩
instance {a b : Bits} {n m : Nat} [h : Len a n] [k : Len b m] : Len (a ++ b) (n + m) :=
  ⟨by have := h.le; have := k.le; rw [List.length_append]; omega⟩
instance {c : Prop} [Decidable c] {a b : Bits} {n m : Nat} [h : Len a n] [k : Len b m] : Len (if c then a else b) (n + m) :=
  ⟨by have := h.le; have := k.le; split <;> omega⟩
theorem size_wS (n : Nat) (v : Int) : (wS n v).length ≤ n + 1 := by unfold wS; simp; omega
instance (n : Nat) (v : Int) : Len (wS n v) (n + 1) := ⟨size_wS n v⟩
theorem size_uv8 (v : Nat) : lUV8 v ≤ 9 := by unfold lUV8 uv8Bits; split <;> omega
instance (v : Nat) : Len (wUV8 v) 9 := ⟨by rw [length_wUV8]; exact size_uv8 v⟩
instance (v : Nat) : Cost (lUV8 v) 9 := ⟨size_uv8 v⟩
theorem size_uv (t : UV4) {n : Nat} (h : t.s0 ≤ n ∧ t.s1 ≤ n ∧ t.s2 ≤ n ∧ t.s3 ≤ n) (v : Nat) : t.lenBits v ≤ n + 2 := by
  unfold UV4.lenBits UV4.bits; split <;> (try split) <;> (try split) <;> omega
theorem size_uv16 (v : Nat) : uv16.lenBits v ≤ 18 := size_uv uv16 (n := 16) (by decide) v
theorem size_uv32 (v : Nat) : uv32.lenBits v ≤ 34 := size_uv uv32 (n := 32) (by decide) v
instance (v : Nat) : Len (uv16.ser v) 18 := ⟨by rw [UV4.length_ser]; exact size_uv16 v⟩
instance (v : Nat) : Len (uv32.ser v) 34 := ⟨by rw [UV4.length_ser]; exact size_uv32 v⟩
instance (v : Nat) : Cost (uv16.lenBits v) 18 := ⟨size_uv16 v⟩
instance (v : Nat) : Cost (uv32.lenBits v) 34 := ⟨size_uv32 v⟩
theorem size_sv (t : SV4) {n : Nat} (h : t.r0.size ≤ n ∧ t.r1.size ≤ n ∧ t.r2.size ≤ n ∧ t.r3.size ≤ n) (v : Int) : t.lenBits v ≤ n + 2 := by
  simp only [SV4.lenBits, SV4.row]; split <;> (try split) <;> (try split) <;> omega
instance (v : Int) : Cost (sv12.lenBits v) 14 := ⟨size_sv sv12 (n := 12) (by decide) v⟩
instance (v : Int) : Cost (sv13.lenBits v) 15 := ⟨size_sv sv13 (n := 13) (by decide) v⟩
instance (v : Int) : Cost (sv14.lenBits v) 16 := ⟨size_sv sv14 (n := 14) (by decide) v⟩
instance (v : Int) : Cost (sv16.lenBits v) 18 := ⟨size_sv sv16 (n := 16) (by decide) v⟩
instance (v : Int) : Cost (sv24.lenBits v) 26 := ⟨size_sv sv24 (n := 24) (by decide) v⟩
instance (v : Int) : Len (sv12.ser v) 14 := ⟨by rw [length_sv12]; exact Cost.le⟩
instance (v : Int) : Len (sv13.ser v) 15 := ⟨by rw [length_sv13]; exact Cost.le⟩
instance (v : Int) : Len (sv14.ser v) 16 := ⟨by rw [length_sv14]; exact Cost.le⟩
instance (v : Int) : Len (sv16.ser v) 18 := ⟨by rw [length_sv16]; exact Cost.le⟩
instance (v : Int) : Len (sv24.ser v) 26 := ⟨by rw [length_sv24]; exact Cost.le⟩
instance {α : Type} {w : α → Bits} {n : Nat} [h : ∀ x, Len (w x) n] (o : Option α) : Len (wOpt w o) n :=
  ⟨by cases o with | none => exact Nat.zero_le _ | some x => exact (h x).le⟩
instance {α : Type} {w : α → Nat} {n : Nat} [h : ∀ x, Cost (w x) n] (o : Option α) : Cost (lOpt w o) n :=
  ⟨by cases o with | none => exact Nat.zero_le _ | some x => exact (h x).le⟩
instance (priority := low) (x : Nat) : Cost x x := ⟨Nat.le_refl _⟩
instance {a b n m : Nat} [h : Cost a n] [k : Cost b m] : Cost (a + b) (n + m) := ⟨Nat.add_le_add h.le k.le⟩
instance {c : Prop} [Decidable c] {a b n m : Nat} [h : Cost a n] [k : Cost b m] : Cost (if c then a else b) (n + m) :=
  ⟨by have := h.le; have := k.le; split <;> omega⟩

/-- the bits of a list, element by element -/
theorem size_flatMap {α : Type} {w : α → Bits} {f : α → Nat} (h : ∀ x, (w x).length ≤ f x) : ∀ l : List α, (l.flatMap w).length ≤ (l.map f).sum
  | [] => Nat.le_refl _
  | x :: l => by
    have := h x; have := size_flatMap h l
    simp only [List.flatMap_cons, List.length_append, List.map_cons, List.sum_cons]; omega
theorem sum_const {α : Type} {f : α → Nat} {n : Nat} (h : ∀ x, f x ≤ n) : ∀ l : List α, (l.map f).sum ≤ n * l.length
  | [] => Nat.le_refl _
  | x :: l => by
    have := h x; have := sum_const h l
    simp only [List.map_cons, List.sum_cons, List.length_cons, Nat.mul_succ]; omega
theorem sum_le {α : Type} {f g : α → Nat} (h : ∀ x, f x ≤ g x) : ∀ l : List α, (l.map f).sum ≤ (l.map g).sum
  | [] => Nat.le_refl _
  | x :: l => by
    have := h x; have := sum_le h l
    simp only [List.map_cons, List.sum_cons]; omega
instance (priority := high) {α : Type} {w : α → Bits} {n : Nat} [h : ∀ x, Len (w x) n] (l : List α) : Len (l.flatMap w) (n * l.length) :=
  ⟨Nat.le_trans (size_flatMap (fun x => (h x).le) l) (sum_const (fun _ => Nat.le_refl _) l)⟩
instance (priority := high) {α : Type} {w : α → Nat} {n : Nat} [h : ∀ x, Cost (w x) n] (l : List α) : Cost (l.map w).sum (n * l.length) :=
  ⟨sum_const (fun x => (h x).le) l⟩

/-! ## Records -/

/-- unfold and add up -/
macro "size_of " d:ident : tactic => `(tactic| (refine ⟨?_⟩; unfold $d; refine Nat.le_trans (Len.le) ?_; omega))
macro "cost_of " d:ident : tactic => `(tactic| (refine ⟨?_⟩; unfold $d; refine Nat.le_trans (Cost.le) ?_; omega))

instance (v : CdisHeader) : Len v.ser 67 := by size_of CdisHeader.ser
instance (v : CdisHeader) : Cost v.lenBits 67 := by cost_of CdisHeader.lenBits
instance (v : EntityId) : Len v.ser 54 := by size_of EntityId.ser
instance (v : EntityId) : Cost v.lenBits 54 := by cost_of EntityId.lenBits
instance (v : EntityType) : Len v.ser 53 := by size_of EntityType.ser
instance (v : EntityType) : Cost v.lenBits 53 := by cost_of EntityType.lenBits
instance (v : Orientation) : Len v.ser 42 := by size_of Orientation.ser
instance (v : Orientation) : Cost v.lenBits 39 := by cost_of Orientation.lenBits
instance (v : WorldCoordinates) : Len v.ser 91 := by size_of WorldCoordinates.ser
instance (v : WorldCoordinates) : Cost v.lenBits 89 := by cost_of WorldCoordinates.lenBits
instance (v : Vec3) : Len (v.ser sv12) 42 := by size_of Vec3.ser
instance (v : Vec3) : Len (v.ser sv14) 48 := by size_of Vec3.ser
instance (v : Vec3) : Len (v.ser sv16) 54 := by size_of Vec3.ser
instance (v : Vec3) : Cost (v.lenBits sv12) 42 := by cost_of Vec3.lenBits
instance (v : Vec3) : Cost (v.lenBits sv14) 48 := by cost_of Vec3.lenBits
instance (v : Vec3) : Cost (v.lenBits sv16) 54 := by cost_of Vec3.lenBits
instance (v : Option Vec3) : Len (wOpt (Vec3.ser sv12) v) 42 := inferInstance
instance (v : ParameterValueFloat) : Len v.ser 52 := ⟨by
  unfold ParameterValueFloat.ser
  cases v.uncompressed with
  | none => exact Nat.le_trans Len.le (show 16 + 4 ≤ 52 by omega)
  | some r => exact Nat.le_trans Len.le (show 32 ≤ 52 by omega)⟩
instance (v : ArticulatedPartVP) : Len v.ser 84 := by size_of ArticulatedPartVP.ser
instance (v : AttachedPartVP) : Len v.ser 75 := by size_of AttachedPartVP.ser
instance (v : EntitySeparationVP) : Len v.ser 78 := by size_of EntitySeparationVP.ser
instance (v : EntityTypeVP) : Len v.ser 54 := by size_of EntityTypeVP.ser
instance (v : EntityAssociationVP) : Len v.ser 98 := by size_of EntityAssociationVP.ser
instance (v : VariableParameter) : Len v.ser 102 := ⟨by
  unfold VariableParameter.ser
  cases v <;> dsimp only <;> refine Nat.le_trans Len.le ?_ <;> omega⟩
instance (v : VariableParameter) : Cost v.lenBits 102 := ⟨by
  unfold VariableParameter.lenBits
  cases v <;> dsimp only <;> refine Nat.le_trans Cost.le ?_ <;> omega⟩
instance {α : Type} (l : List α) : Len (wCount8 l) 9 := by size_of wCount8
instance {α : Type} (l : List α) : Len (wCountOpt l) 9 := by size_of wCountOpt
instance {α : Type} (l : List α) : Cost (countOptBits l) 9 := by cost_of countOptBits
instance {α : Type} (l : List α) : Len (wCount8Opt l) 8 := by size_of wCount8Opt
instance (v : ClockTime) : Len v.ser 65 := by size_of ClockTime.ser
instance (v : FixedDatum) : Len v.ser 64 := by size_of FixedDatum.ser
instance (v : VariableDatum) : Len v.ser (46 + 8 * v.datum_value.length) := by size_of VariableDatum.ser
instance (v : VariableDatum) : Cost v.lenBits (46 + 8 * v.datum_value.length) := by cost_of VariableDatum.lenBits
theorem size_datums (v : Datums) : v.ser.length ≤ 18 + 64 * v.fixed.length + (v.var.map fun d => 46 + 8 * d.datum_value.length).sum := by
  have h := size_flatMap (w := VariableDatum.ser) (fun x => Len.le) v.var
  have k : (v.fixed.flatMap FixedDatum.ser).length ≤ 64 * v.fixed.length := Len.le
  have a : (wCountOpt v.fixed).length ≤ 9 := Len.le
  have b : (wCountOpt v.var).length ≤ 9 := Len.le
  simp only [Datums.ser, List.length_append]; omega
theorem cost_datums (v : Datums) : v.lenBits ≤ 18 + 64 * v.fixed.length + (v.var.map fun d => 46 + 8 * d.datum_value.length).sum := by
  have h := sum_le (f := VariableDatum.lenBits) (fun x => Cost.le) v.var
  have k : (v.fixed.map fun _ => 64).sum ≤ 64 * v.fixed.length := Cost.le
  have a := size_uv8 (min v.fixed.length 255)
  have b := size_uv8 (min v.var.length 255)
  simp only [Datums.lenBits]; omega
instance (v : Datums) : Len v.ser (18 + 64 * v.fixed.length + (v.var.map fun d => 46 + 8 * d.datum_value.length).sum) := ⟨size_datums v⟩
instance (v : Datums) : Cost v.lenBits (18 + 64 * v.fixed.length + (v.var.map fun d => 46 + 8 * d.datum_value.length).sum) := ⟨cost_datums v⟩
instance (v : ExplosiveForceFloat) : Len v.ser 19 := by size_of ExplosiveForceFloat.ser
instance (v : EncodingScheme) : Len v.ser 11 := by size_of EncodingScheme.ser
instance (v : EncodingScheme) : Cost v.lenBits 11 := by cost_of EncodingScheme.lenBits
instance (v : BeamAntennaPattern) : Len v.ser 120 := by size_of BeamAntennaPattern.ser
instance (m : Nat) (v : DecFloat) : Len (v.ser m) (m + 4) := by size_of DecFloat.ser
instance (v : ModulationType) : Len v.ser 16 := by size_of ModulationType.ser
instance (v : VTP) : Len v.ser (48 + 8 * v.fields.length) := by size_of VTP.ser
instance (v : VTP) : Cost v.lenBits (48 + 8 * v.fields.length) := by cost_of VTP.lenBits
instance (l : List Nat) : Len (wModParams l) (8 + 8 * l.length) := by size_of wModParams
instance (v : BeamData) : Len v.ser 70 := by size_of BeamData.ser
instance (v : BeamData) : Cost v.lenBits 70 := by cost_of BeamData.lenBits
instance (v : FundamentalParameter) : Len v.ser 86 := by size_of FundamentalParameter.ser
instance (v : FundamentalParameter) : Cost v.lenBits 85 := by cost_of FundamentalParameter.lenBits
instance (v : SiteAppPair) : Len v.ser 36 := by size_of SiteAppPair.ser
instance (v : SiteAppPair) : Cost v.lenBits 36 := by cost_of SiteAppPair.lenBits
instance (v : TrackJam) : Len v.ser 42 := by size_of TrackJam.ser
instance (v : TrackJam) : Cost v.lenBits 42 := by cost_of TrackJam.lenBits
instance (v : EmitterBeam) : Len v.ser (86 + 42 * v.track_jam.length) := by size_of EmitterBeam.ser
instance (v : EmitterBeam) : Cost v.lenBits (86 + 42 * v.track_jam.length) := by cost_of EmitterBeam.lenBits
theorem size_system (v : EmitterSystem) : v.ser.length ≤ 94 + (v.emitter_beams.map fun b => 86 + 42 * b.track_jam.length).sum := by
  have h := size_flatMap (w := EmitterBeam.ser) (fun x => Len.le) v.emitter_beams
  have k : (wOpt (Vec3.ser sv16) v.location).length ≤ 54 := Len.le
  have d : (if v.hasDetails then wOpt (wU 16) v.name ++ wOpt (wU 8) v.function else []).length ≤ 24 := Len.le
  simp only [EmitterSystem.ser, List.length_append, length_wU]; omega
theorem cost_system (v : EmitterSystem) : v.lenBits ≤ 94 + (v.emitter_beams.map fun b => 86 + 42 * b.track_jam.length).sum := by
  have h := sum_le (f := EmitterBeam.lenBits) (fun x => Cost.le) v.emitter_beams
  have k : lOpt (Vec3.lenBits sv16) v.location ≤ 54 := Cost.le
  have d : lOpt (fun _ => 16) v.name ≤ 16 := Cost.le
  have e : lOpt (fun _ => 8) v.function ≤ 8 := Cost.le
  have := size_uv8 v.number
  simp only [EmitterSystem.lenBits]; omega
instance (v : LayerHeader) (body : Nat) : Len (v.serWith body) 26 := by size_of LayerHeader.serWith
instance (v : IffDataRecord) : Len v.ser (24 + 8 * v.fields.length) := by size_of IffDataRecord.ser
instance (v : IffDataRecord) : Cost v.lenBits (24 + 8 * v.fields.length) := by cost_of IffDataRecord.lenBits
theorem size_records (l : List IffDataRecord) : (wIffRecords l).length ≤ 5 + (l.map fun r => 24 + 8 * r.fields.length).sum := by
  have h := size_flatMap (w := IffDataRecord.ser) (fun x => Len.le) l
  unfold wIffRecords
  split
  · exact Nat.zero_le _
  · rw [List.length_append, length_wU]; omega
theorem cost_records (l : List IffDataRecord) : (l.map IffDataRecord.lenBits).sum ≤ (l.map fun r => 24 + 8 * r.fields.length).sum :=
  sum_le (fun _ => Cost.le) l
instance (l : List IffDataRecord) : Len (wIffRecords l) (5 + (l.map fun r => 24 + 8 * r.fields.length).sum) := ⟨size_records l⟩
instance (priority := high + 1) (l : List IffDataRecord) : Cost (l.map IffDataRecord.lenBits).sum (l.map fun r => 24 + 8 * r.fields.length).sum :=
  ⟨cost_records l⟩
instance (v : SystemId) : Len v.ser 20 := by size_of SystemId.ser
instance (v : OperationalData) : Len v.ser 128 := by size_of OperationalData.ser
instance (v : OperationalData) : Cost v.lenBits 128 := by cost_of OperationalData.lenBits
instance (v : IffFundamentalParameterData) : Len v.ser 86 := by size_of IffFundamentalParameterData.ser
instance (v : IffLayer2) : Len v.ser (121 + 86 * v.params.length) := by size_of IffLayer2.ser
instance (v : IffLayer2) : Cost v.lenBits (121 + 86 * v.params.length) := by cost_of IffLayer2.lenBits
/-- the length of the aircraft identification of Mode S data -/
def ModeSBasicData.idLength : ModeSBasicData → Nat
  | .interrogator .. => 0
  | .transponder _ _ _ d _ _ _ _ _ => d.length
instance (v : Mode5BasicData) : Len v.ser 112 := ⟨by
  unfold Mode5BasicData.ser
  cases v <;> dsimp only <;> refine Nat.le_trans Len.le ?_ <;> omega⟩
instance (v : Mode5BasicData) : Cost v.lenBits 112 := ⟨by
  unfold Mode5BasicData.lenBits
  cases v <;> dsimp only <;> refine Nat.le_trans Cost.le ?_ <;> omega⟩
instance (v : ModeSBasicData) : Len v.ser (98 + 8 * v.idLength) := ⟨by
  unfold ModeSBasicData.ser ModeSBasicData.idLength
  cases v <;> dsimp only <;> refine Nat.le_trans Len.le ?_ <;> omega⟩
instance (v : ModeSBasicData) : Cost v.lenBits (98 + 8 * v.idLength) := ⟨by
  unfold ModeSBasicData.lenBits ModeSBasicData.idLength
  cases v <;> dsimp only <;> refine Nat.le_trans Cost.le ?_ <;> omega⟩
instance (v : IffLayer3) : Len v.ser (180 + (v.records.map fun r => 24 + 8 * r.fields.length).sum) := by size_of IffLayer3.ser
instance (v : IffLayer3) : Cost v.lenBits (180 + (v.records.map fun r => 24 + 8 * r.fields.length).sum) := by cost_of IffLayer3.lenBits
instance (v : IffLayer4) : Len v.ser (166 + 8 * v.mode_s_basic_data.idLength + (v.records.map fun r => 24 + 8 * r.fields.length).sum) := by
  size_of IffLayer4.ser
instance (v : IffLayer4) : Cost v.lenBits (166 + 8 * v.mode_s_basic_data.idLength + (v.records.map fun r => 24 + 8 * r.fields.length).sum) := by
  cost_of IffLayer4.lenBits
instance (v : IffLayer5) : Len v.ser (77 + (v.records.map fun r => 24 + 8 * r.fields.length).sum) := by size_of IffLayer5.ser
instance (v : IffLayer5) : Cost v.lenBits (77 + (v.records.map fun r => 24 + 8 * r.fields.length).sum) := by cost_of IffLayer5.lenBits

/-! ## Bodies -/

instance (v : CreateRemove) : Len v.ser 142 := by size_of CreateRemove.ser
instance (v : CreateRemove) : Cost v.lenBits 142 := by cost_of CreateRemove.lenBits
instance (v : StartResume) : Len v.ser 272 := by size_of StartResume.ser
instance (v : StartResume) : Cost v.lenBits 272 := by cost_of StartResume.lenBits
instance (v : StopFreeze) : Len v.ser 214 := by size_of StopFreeze.ser
instance (v : StopFreeze) : Cost v.lenBits 214 := by cost_of StopFreeze.lenBits
instance (v : Acknowledge) : Len v.ser 147 := by size_of Acknowledge.ser
instance (v : Acknowledge) : Cost v.lenBits 147 := by cost_of Acknowledge.lenBits
instance (v : Action) : Len v.ser (200 + 64 * v.datums.fixed.length + (v.datums.var.map fun d => 46 + 8 * d.datum_value.length).sum) := by
  size_of Action.ser
instance (v : Action) : Cost v.lenBits (200 + 64 * v.datums.fixed.length + (v.datums.var.map fun d => 46 + 8 * d.datum_value.length).sum) := by
  cost_of Action.lenBits
instance (v : DataBody) : Len v.ser (200 + 64 * v.datums.fixed.length + (v.datums.var.map fun d => 46 + 8 * d.datum_value.length).sum) := by
  size_of DataBody.ser
instance (v : DataBody) : Cost v.lenBits (200 + 64 * v.datums.fixed.length + (v.datums.var.map fun d => 46 + 8 * d.datum_value.length).sum) := by
  cost_of DataBody.lenBits
instance (v : Comment) : Len v.ser (200 + 64 * v.datums.fixed.length + (v.datums.var.map fun d => 46 + 8 * d.datum_value.length).sum) := by
  size_of Comment.ser
instance (v : Comment) : Cost v.lenBits (200 + 64 * v.datums.fixed.length + (v.datums.var.map fun d => 46 + 8 * d.datum_value.length).sum) := by
  cost_of Comment.lenBits
instance (v : DataQuery) : Len v.ser (200 + 32 * v.fixed_datum_ids.length + 32 * v.variable_datum_ids.length) := by size_of DataQuery.ser
instance (v : DataQuery) : Cost v.lenBits (200 + 32 * v.fixed_datum_ids.length + 32 * v.variable_datum_ids.length) := by cost_of DataQuery.lenBits
instance (v : Fire) : Len v.ser 600 := by size_of Fire.ser
instance (v : Fire) : Cost v.lenBits 600 := by cost_of Fire.lenBits
instance (v : Detonation) : Len v.ser (600 + 102 * v.variable_parameters.length) := by size_of Detonation.ser
instance (v : Detonation) : Cost v.lenBits (600 + 102 * v.variable_parameters.length) := by cost_of Detonation.lenBits
instance (v : Collision) : Len v.ser 400 := by size_of Collision.ser
instance (v : Collision) : Cost v.lenBits 400 := by cost_of Collision.lenBits
instance (v : Receiver) : Len v.ser 200 := by size_of Receiver.ser
instance (v : Receiver) : Cost v.lenBits 200 := by cost_of Receiver.lenBits
instance (v : Signal) : Len v.ser (200 + 8 * v.data.length) := by size_of Signal.ser
instance (v : Signal) : Cost v.lenBits (200 + 8 * v.data.length) := by cost_of Signal.lenBits
instance (v : Designator) : Len v.ser 500 := by size_of Designator.ser
instance (v : Designator) : Cost v.lenBits 500 := by cost_of Designator.lenBits
theorem size_marking {v : Marking} (h : utf8Len v.marking ≤ 11) : v.ser.length ≤ 71 ∧ v.lenBits ≤ 71 := by
  have hl : v.marking.length ≤ utf8Len v.marking := by
    unfold utf8Len
    generalize v.marking = l
    induction l with
    | nil => exact Nat.le_refl _
    | cons c l ih =>
      have := Char.utf8Size_pos c
      simp only [List.length_cons, List.map_cons, List.sum_cons] at *; omega
  have hb : v.enc.bitSize ≤ 6 := by cases v.enc <;> decide
  have hm : utf8Len v.marking * v.enc.bitSize ≤ 11 * 6 := Nat.mul_le_mul h hb
  have hs : ((v.marking.map v.enc.codeOf).flatMap (wU v.enc.bitSize)).length ≤ v.enc.bitSize * (v.marking.map v.enc.codeOf).length := Len.le
  rw [List.length_map] at hs
  have hs' : v.enc.bitSize * v.marking.length ≤ 6 * 11 := Nat.mul_le_mul hb (by omega)
  unfold Marking.ser Marking.lenBits
  rw [List.length_append, List.length_append, length_wU, length_wU]
  omega
/-- what the marking takes, in bits written and announced -/
def EntityState.MarkingFits (v : EntityState) : Prop := ∀ m, v.entity_marking = some m → utf8Len m.marking ≤ 11
theorem size_entityState {v : EntityState} (h : v.MarkingFits) : v.ser.length ≤ 900 + 102 * v.variable_parameters.length ∧
    v.lenBits ≤ 900 + 102 * v.variable_parameters.length := by
  have hm : (wOpt Marking.ser v.entity_marking).length ≤ 71 ∧ lOpt Marking.lenBits v.entity_marking ≤ 71 := by
    cases e : v.entity_marking with
    | none => simp [wOpt, lOpt]
    | some m => exact size_marking (h m e)
  haveI : Len (wOpt Marking.ser v.entity_marking) 71 := ⟨hm.1⟩
  haveI : Cost (lOpt Marking.lenBits v.entity_marking) 71 := ⟨hm.2⟩
  constructor
  · unfold EntityState.ser; refine Nat.le_trans Len.le ?_; omega
  · unfold EntityState.lenBits; refine Nat.le_trans Cost.le ?_; omega
/-- the bits of the variable transmitter parameters -/
abbrev vtpBits (l : List VTP) : Nat := (l.map fun p => 48 + 8 * p.fields.length).sum
theorem size_vtps (l : List VTP) : (l.flatMap VTP.ser).length ≤ vtpBits l := size_flatMap (fun _ => Len.le) l
theorem cost_vtps (l : List VTP) : (l.map VTP.lenBits).sum ≤ vtpBits l := sum_le (fun _ => Cost.le) l
theorem size_transmitter (v : Transmitter) : v.ser.length ≤ 600 + 8 * v.modulation_parameters.length + vtpBits v.variable_transmitter_parameters ∧
    v.lenBits ≤ 600 + 8 * v.modulation_parameters.length + vtpBits v.variable_transmitter_parameters := by
  haveI : Len (v.variable_transmitter_parameters.flatMap VTP.ser) (vtpBits v.variable_transmitter_parameters) := ⟨size_vtps _⟩
  haveI : Cost (v.variable_transmitter_parameters.map VTP.lenBits).sum (vtpBits v.variable_transmitter_parameters) := ⟨cost_vtps _⟩
  constructor
  · unfold Transmitter.ser; refine Nat.le_trans Len.le ?_; omega
  · unfold Transmitter.lenBits; refine Nat.le_trans Cost.le ?_; omega
/-- the bits of the emitter systems -/
abbrev systemBits (l : List EmitterSystem) : Nat :=
  (l.map fun s => 94 + (s.emitter_beams.map fun b => 86 + 42 * b.track_jam.length).sum).sum
theorem size_emission (v : ElectromagneticEmission) :
    v.ser.length ≤ 200 + 86 * v.fundamental_params.length + 70 * v.beam_data.length + 36 * v.site_app_pairs.length + systemBits v.emitter_systems ∧
    v.lenBits ≤ 200 + 86 * v.fundamental_params.length + 70 * v.beam_data.length + 36 * v.site_app_pairs.length + systemBits v.emitter_systems := by
  haveI : Len (v.emitter_systems.flatMap EmitterSystem.ser) (systemBits v.emitter_systems) := ⟨size_flatMap size_system _⟩
  haveI : Cost (v.emitter_systems.map EmitterSystem.lenBits).sum (systemBits v.emitter_systems) := ⟨sum_le cost_system _⟩
  constructor
  · unfold ElectromagneticEmission.ser; refine Nat.le_trans Len.le ?_; omega
  · unfold ElectromagneticEmission.lenBits; refine Nat.le_trans Cost.le ?_; omega
/-- the bits of the records of an IFF layer -/
abbrev recordBits (l : List IffDataRecord) : Nat := (l.map fun r => 24 + 8 * r.fields.length).sum
/-- the bits of what has no fixed size in an IFF body -/
def Iff.varBits (v : Iff) : Nat :=
  lOpt (fun x => 86 * x.params.length) v.layer_2 + lOpt (fun x => recordBits x.records) v.layer_3
    + lOpt (fun x => 8 * x.mode_s_basic_data.idLength + recordBits x.records) v.layer_4 + lOpt (fun x => recordBits x.records) v.layer_5
theorem size_opt {α : Type} {w : α → Bits} {f : α → Nat} {k : Nat} (h : ∀ x, (w x).length ≤ k + f x) (o : Option α) : (wOpt w o).length ≤ k + lOpt f o := by
  cases o with | none => exact Nat.zero_le _ | some x => exact h x
theorem cost_opt {α : Type} {w f : α → Nat} {k : Nat} (h : ∀ x, w x ≤ k + f x) (o : Option α) : lOpt w o ≤ k + lOpt f o := by
  cases o with | none => exact Nat.zero_le _ | some x => exact h x
theorem size_iff (v : Iff) : v.ser.length ≤ 1000 + v.varBits ∧ v.lenBits ≤ 1000 + v.varBits := by
  have a := size_opt (w := IffLayer2.ser) (fun _ => Len.le) v.layer_2
  have b := size_opt (w := IffLayer3.ser) (k := 180) (f := fun x => recordBits x.records) (fun _ => Len.le) v.layer_3
  have c := size_opt (w := IffLayer4.ser) (k := 166) (f := fun x => 8 * x.mode_s_basic_data.idLength + recordBits x.records)
    (fun x => by rw [← Nat.add_assoc]; exact Len.le) v.layer_4
  have d := size_opt (w := IffLayer5.ser) (k := 77) (f := fun x => recordBits x.records) (fun _ => Len.le) v.layer_5
  have a' := cost_opt (w := IffLayer2.lenBits) (fun _ => Cost.le) v.layer_2
  have b' := cost_opt (w := IffLayer3.lenBits) (k := 180) (f := fun x => recordBits x.records) (fun _ => Cost.le) v.layer_3
  have c' := cost_opt (w := IffLayer4.lenBits) (k := 166) (f := fun x => 8 * x.mode_s_basic_data.idLength + recordBits x.records)
    (fun x => by rw [← Nat.add_assoc]; exact Cost.le) v.layer_4
  have d' := cost_opt (w := IffLayer5.lenBits) (k := 77) (f := fun x => recordBits x.records) (fun _ => Cost.le) v.layer_5
  unfold Iff.varBits
  haveI := Len.mk a; haveI := Len.mk b; haveI := Len.mk c; haveI := Len.mk d
  haveI := Cost.mk a'; haveI := Cost.mk b'; haveI := Cost.mk c'; haveI := Cost.mk d'
  constructor
  · unfold Iff.ser; refine Nat.le_trans Len.le ?_; omega
  · unfold Iff.lenBits; refine Nat.le_trans Cost.le ?_; omega

/-! ## PDUs -/

/-- a number of bits that bounds both those written and those announced for a body -/
def CdisBody.atMost : CdisBody → Nat
  | .unsupported => 0
  | .entityState b => 900 + 102 * b.variable_parameters.length
  | .fire _ => 600
  | .detonation b => 600 + 102 * b.variable_parameters.length
  | .collision _ => 400
  | .createEntity _ | .removeEntity _ | .startResume _ | .stopFreeze _ | .acknowledge _ => 300
  | .actionRequest b | .actionResponse b => 200 + 64 * b.datums.fixed.length + (b.datums.var.map fun d => 46 + 8 * d.datum_value.length).sum
  | .dataQuery b => 200 + 32 * b.fixed_datum_ids.length + 32 * b.variable_datum_ids.length
  | .setData b | .data b | .eventReport b => 200 + 64 * b.datums.fixed.length + (b.datums.var.map fun d => 46 + 8 * d.datum_value.length).sum
  | .comment b => 200 + 64 * b.datums.fixed.length + (b.datums.var.map fun d => 46 + 8 * d.datum_value.length).sum
  | .electromagneticEmission b =>
      200 + 86 * b.fundamental_params.length + 70 * b.beam_data.length + 36 * b.site_app_pairs.length + systemBits b.emitter_systems
  | .designator _ => 500
  | .transmitter b => 600 + 8 * b.modulation_parameters.length + vtpBits b.variable_transmitter_parameters
  | .signal b => 200 + 8 * b.data.length
  | .receiver _ => 200
  | .iff b => 1000 + b.varBits
theorem CdisBody.size {b : CdisBody} (h : ∀ x, b = .entityState x → x.MarkingFits) : b.ser.length ≤ b.atMost ∧ b.lenBits ≤ b.atMost := by
  cases b with
  | unsupported => exact ⟨Nat.le_refl _, Nat.le_refl _⟩
  | entityState x => exact size_entityState (h x rfl)
  | electromagneticEmission x => exact size_emission x
  | transmitter x => exact size_transmitter x
  | iff x => exact size_iff x
  | createEntity x => exact ⟨Nat.le_trans (Len.le (b := x.ser)) (by show _ ≤ 300; omega), Nat.le_trans (Cost.le (x := x.lenBits)) (by show _ ≤ 300; omega)⟩
  | removeEntity x => exact ⟨Nat.le_trans (Len.le (b := x.ser)) (by show _ ≤ 300; omega), Nat.le_trans (Cost.le (x := x.lenBits)) (by show _ ≤ 300; omega)⟩
  | startResume x => exact ⟨Nat.le_trans (Len.le (b := x.ser)) (by show _ ≤ 300; omega), Nat.le_trans (Cost.le (x := x.lenBits)) (by show _ ≤ 300; omega)⟩
  | stopFreeze x => exact ⟨Nat.le_trans (Len.le (b := x.ser)) (by show _ ≤ 300; omega), Nat.le_trans (Cost.le (x := x.lenBits)) (by show _ ≤ 300; omega)⟩
  | acknowledge x => exact ⟨Nat.le_trans (Len.le (b := x.ser)) (by show _ ≤ 300; omega), Nat.le_trans (Cost.le (x := x.lenBits)) (by show _ ≤ 300; omega)⟩
  | _ x => exact ⟨Len.le (b := x.ser), Cost.le (x := x.lenBits)⟩
theorem CdisPdu.size {p : CdisPdu} (h : ∀ x, p.body = .entityState x → x.MarkingFits) :
    p.ser.length ≤ 67 + p.body.atMost ∧ p.lenBits ≤ 67 + p.body.atMost := by
  obtain ⟨a, b⟩ := CdisBody.size h
  have c : p.header.ser.length ≤ 67 := Len.le
  have d : p.header.lenBits ≤ 67 := Cost.le
  unfold CdisPdu.ser CdisPdu.lenBits
  rw [List.length_append]
  omega

end Verif.Cdis

import Verif.Props.Reread
import Verif.Props.Panics
import Verif.Dis.ReadsState
import Verif.Codec.Pdu
import Verif.Props.BodyBugs
import Verif.Props.CodecEncode
import Verif.Props.Compression

/-! # C82: what the decoder hands over can be read by the simulations -/

namespace Verif.Props
open Verif Verif.Codec

/-! ## Specification -/

/-- The variable datums fill whole 64-bit words. -/
def wholeWords (l : List Cdis.VariableDatum) : Prop := ∀ d ∈ l, d.datum_value.length % 8 = 0
/-- No variable parameter is a separation or of a type that is not known. -/
def unseparated (l : List Cdis.VariableParameter) : Prop := ∀ p ∈ l, p ≠ .unspecified ∧ ∀ q, p ≠ .separation q
/-- A marking that DIS can carry: at most eleven ASCII characters, the last of them a letter or a digit. -/
def carriedMarking (m : Cdis.Marking) : Prop :=
  (charsOctets m.marking).length ≤ 11 ∧ (∀ b ∈ charsOctets m.marking, b.toNat < 128)
    ∧ ∀ b, (charsOctets m.marking).getLast? = some b → Dis.isAlnum b = true

/-- An entity that does not come with a type but without an appearance, nor with a marking that DIS cannot carry. -/
def steadyEntity (v : Cdis.EntityState) : Prop :=
  (v.entity_appearance = none → v.entity_type = none) ∧ ∀ m, v.entity_marking = some m → carriedMarking m
/-- What a decoder has to be fed for its memory to be of use: the entities are steady. -/
def steady (p : Cdis.CdisPdu) : Prop :=
  match p.body with
  | .entityState v => steadyEntity v
  | _ => True

/-- The data records of IFF layers, with their six octets of header, fill whole 32-bit words. -/
def wholeRecords (l : List Cdis.IffDataRecord) : Prop := ∀ x ∈ l, (6 + x.fields.length) % 4 = 0
/-- An aircraft identification that DIS can carry: at most eight ASCII characters, the last of them a letter or a digit. -/
def carriedName : Cdis.ModeSBasicData → Prop
  | .interrogator _ _ => True
  | .transponder _ _ _ name _ _ _ _ _ => name.length ≤ 8 ∧ (∀ b ∈ name, b.toNat < 128) ∧ ∀ b, name.getLast? = some b → Dis.isAlnum b = true
/-- The PDU says of what system it is, and that this is a transponder or an interrogator. -/
def kindKnown (env : Dis.Env) (v : Cdis.Iff) : Prop := ∃ i, v.system_id = some i ∧ env.iffClass (UInt16.ofNat i.system_type) ≠ .undetermined
/-- What a C-DIS PDU has to be like for its DIS counterpart to be read back. -/
def presentable (env : Dis.Env) (p : Cdis.CdisPdu) : Prop :=
  match p.body with
  | .unsupported => False
  | .iff v => (∀ l, v.layer_3 = some l → kindKnown env v ∧ wholeRecords l.records)
      ∧ (∀ l, v.layer_4 = some l → kindKnown env v ∧ wholeRecords l.records ∧ carriedName l.mode_s_basic_data)
      ∧ ∀ l, v.layer_5 = some l → wholeRecords l.records
  | .entityState v => steadyEntity v
      ∧ (v.dr_params_other = none → v.dr_algorithm = 0 ∨ 9 < v.dr_algorithm) ∧ unseparated v.variable_parameters
  | .fire v => v.descriptor_entity_type.kind = 8 ↔ p.header.pdu_status.fire_type_indicator.getD 0 ≠ 0
  | .detonation v => ((v.descriptor_entity_type.kind = 2 ∧ p.header.pdu_status.detonation_type_indicator.getD 0 = 0)
      ∨ (v.descriptor_entity_type.kind = 8 ∧ p.header.pdu_status.detonation_type_indicator.getD 0 ≠ 0
          ∧ p.header.pdu_status.detonation_type_indicator.getD 0 ≠ 2)) ∧ unseparated v.variable_parameters
  | .actionRequest v => wholeWords v.datums.var
  | .actionResponse v => wholeWords v.datums.var
  | .setData v => wholeWords v.datums.var
  | .data v => wholeWords v.datums.var
  | .eventReport v => wholeWords v.datums.var
  | .comment v => wholeWords v.datums.var
  | .transmitter v => v.modulation_parameters ≠ []
      ∧ ∀ r ∈ v.variable_transmitter_parameters, (6 + r.fields.length) % 8 = 0
  | .signal v => v.encoding_scheme.encoding_class ≤ 1 ∧ v.data.length % 4 = 0
  | _ => True

/-! ## Parts -/

theorem length_toBe (k n : Nat) : (toBe k n).length = k := by
  induction k with
  | zero => rfl
  | succ k ih => simp [toBe, ih]

theorem drOther_enough (a : UInt8) (bs : Bytes) (h : bs.length = 15) : ∃ x, (Dis.DrOtherParameters.parse a).run bs = .ok x [] := by
  unfold Dis.DrOtherParameters.parse
  dsimp only
  split
  · have F : Fixed (do
      let _param_type ← be_u8
      let _unused ← be_u16
      let yaw ← be_u32
      let pitch ← be_u32
      let roll ← be_u32
      pure (Dis.DrOtherParameters.euler yaw pitch roll)) 15 :=
      Fixed.bind (k := 1) (n := 14) inferInstance fun _ => Fixed.bind (k := 2) (n := 12) inferInstance fun _ =>
        Fixed.bind (k := 4) (n := 8) inferInstance fun _ => Fixed.bind (k := 4) (n := 4) inferInstance fun _ =>
          Fixed.bind (k := 4) (n := 0) inferInstance fun _ => inferInstance
    obtain ⟨x, hx⟩ := F.enough bs (by omega)
    exact ⟨x, by rw [hx, List.drop_eq_nil_of_le (by omega)]⟩
  · split
    · have F : Fixed (do
        let _param_type ← be_u8
        let nil ← be_u16
        let x ← be_u32
        let y ← be_u32
        let z ← be_u32
        pure (Dis.DrOtherParameters.quaternion nil x y z)) 15 :=
      Fixed.bind (k := 1) (n := 14) inferInstance fun _ => Fixed.bind (k := 2) (n := 12) inferInstance fun _ =>
        Fixed.bind (k := 4) (n := 8) inferInstance fun _ => Fixed.bind (k := 4) (n := 4) inferInstance fun _ =>
          Fixed.bind (k := 4) (n := 0) inferInstance fun _ => inferInstance
      obtain ⟨x, hx⟩ := F.enough bs (by omega)
      exact ⟨x, by rw [hx, List.drop_eq_nil_of_le (by omega)]⟩
    · refine ⟨.none bs, ?_⟩
      have := P.run_take bs [] 15 h
      rw [List.append_nil] at this
      simp only [P.run_bind, this, Res.andThen, rt]

theorem drOtherDec_wf (n : Nat) (a : UInt8) (l v : Dis.VectorF32) : Dis.DrParameters.Wf ⟨a, drOtherDec n a, l, v⟩ := by
  obtain ⟨x, hx⟩ := drOther_enough a (toBe 15 n) (length_toBe 15 n)
  have h : Takes (Dis.DrOtherParameters.parse a) _ := Rd.spec
  obtain ⟨c, -, hc⟩ := h _ _ _ hx
  unfold drOtherDec
  rw [hx]
  exact hc.2 l v

theorem appearanceDec_wf (env : Dis.Env) (raw : UInt32) (t : Dis.EntityType) : (Dis.EntityAppearance.fromBytes env raw t).Wf env t := by
  unfold Dis.EntityAppearance.fromBytes Dis.EntityAppearance.Wf
  cases h : Dis.entityClass t <;> simp only [] <;>
    first
    | exact ⟨by trivial, fun h => absurd rfl h⟩
    | exact ⟨by trivial, fun _ => by rw [UInt32.and_assoc, UInt32.and_self]⟩
theorem capabilitiesDec_wf (env : Dis.Env) (raw : UInt32) (t : Dis.EntityType) :
    (Dis.EntityCapabilities.fromBytes env raw t).Wf env 7 t := by
  unfold Dis.EntityCapabilities.fromBytes Dis.EntityCapabilities.Wf
  split
  · exact .inl ⟨rfl, ‹_›, rfl⟩
  · refine .inr (.inl ⟨rfl, ‹_›, ?_⟩)
    cases h : Dis.entityClass t <;> simp only [] <;>
      first
      | exact ⟨by trivial, fun h => absurd rfl h⟩
      | exact ⟨by trivial, fun _ => by rw [UInt32.and_assoc, UInt32.and_self]⟩

/-! ## What the C-DIS reader guarantees -/

open Cdis in
/-- a variable parameter that has been read -/
def partRead : Cdis.VariableParameter → Prop
  | .articulated p => p.type_metric < 32 ∧ p.type_class % 32 = 0 ∧ p.type_class < 2 ^ 32
  | _ => True
theorem part_read : Cdis.Gives Cdis.VariableParameter.parse partRead := by
  unfold Cdis.VariableParameter.parse
  refine Cdis.Gives.bind Cdis.Gv.spec fun c _ => Cdis.Gives.bind (Cdis.Gives.trivial _) fun t _ => ?_
  repeat' split
  · refine Cdis.Gives.bind (Q := fun p => partRead (.articulated p)) ?_ fun p h => Cdis.Gives.pure h
    unfold Cdis.ArticulatedPartVP.parseCompressed
    refine Cdis.Gives.bind (Cdis.Gives.trivial _) fun a _ => Cdis.Gives.bind (Cdis.Gives.trivial _) fun b _ => Cdis.Gives.bind Cdis.Gv.spec fun d hd =>
      Cdis.Gives.bind (Cdis.Gives.trivial _) fun e _ => Cdis.Gives.pure ?_
    obtain ⟨m1, m2, m3⟩ := metric d
    exact ⟨m2, m3, by show d - (d &&& 0x1f) < _; omega⟩
  · refine Cdis.Gives.bind (Q := fun p => partRead (.articulated p)) ?_ fun p h => Cdis.Gives.pure h
    unfold Cdis.ArticulatedPartVP.parse
    refine Cdis.Gives.bind (Cdis.Gives.trivial _) fun a _ => Cdis.Gives.bind (Cdis.Gives.trivial _) fun b _ => Cdis.Gives.bind Cdis.Gv.spec fun d hd =>
      Cdis.Gives.bind (Cdis.Gives.trivial _) fun e _ => Cdis.Gives.pure ?_
    obtain ⟨m1, m2, m3⟩ := metric d
    exact ⟨m2, m3, by show d - (d &&& 0x1f) < _; omega⟩
  all_goals first
    | exact Cdis.Gives.bind (Cdis.Gives.trivial _) fun p _ => Cdis.Gives.pure trivial
    | exact Cdis.Gives.pure trivial
instance (priority := 20000) gv_part : Cdis.Gv Cdis.VariableParameter.parse partRead := ⟨part_read⟩

/-- a beam, a system that has been read -/
def beamRead (b : Cdis.EmitterBeam) : Prop := b.track_jam.length < 16
def systemRead (s : Cdis.EmitterSystem) : Prop := s.emitter_beams.length < 32 ∧ ∀ b ∈ s.emitter_beams, beamRead b
theorem beam_bounds : Cdis.Gives Cdis.EmitterBeam.parse beamRead := by
  unfold Cdis.EmitterBeam.parse
  iterate 9 refine Cdis.Gives.bind (Cdis.Gives.trivial _) fun _ _ => ?_
  refine Cdis.Gives.bind Cdis.Gv.spec fun n hn => ?_
  iterate 6 refine Cdis.Gives.bind (Cdis.Gives.trivial _) fun _ _ => ?_
  refine Cdis.Gives.bind (Cdis.Gives.count (Cdis.Gives.trivial _) n) fun l hl => Cdis.Gives.pure ?_
  unfold beamRead
  simp only [hl.1]; exact hn
theorem system_bounds : Cdis.Gives Cdis.EmitterSystem.parse systemRead := by
  unfold Cdis.EmitterSystem.parse
  iterate 2 refine Cdis.Gives.bind (Cdis.Gives.trivial _) fun _ _ => ?_
  refine Cdis.Gives.bind Cdis.Gv.spec fun n hn => ?_
  iterate 4 refine Cdis.Gives.bind (Cdis.Gives.trivial _) fun _ _ => ?_
  refine Cdis.Gives.bind (Cdis.Gives.count beam_bounds n) fun l hl => Cdis.Gives.pure ?_
  refine ⟨?_, hl.2⟩
  simp only [hl.1]; exact hn

/-- a body that has been read after a header with the type `t` -/
def bodyRead (t : Nat) : Cdis.CdisBody → Prop
  | .unsupported => True
  | .entityState v => t = 1 ∧ v.dr_algorithm < 2 ^ 4 ∧ v.variable_parameters.length < 256 ∧ ∀ p ∈ v.variable_parameters, partRead p
  | .fire v => t = 2 ∧ v.descriptor_entity_type.kind < 2 ^ 4
  | .detonation v => t = 3 ∧ v.descriptor_entity_type.kind < 2 ^ 4 ∧ v.variable_parameters.length < 256
      ∧ ∀ p ∈ v.variable_parameters, partRead p
  | .collision _ => t = 4
  | .createEntity _ => t = 11
  | .removeEntity _ => t = 12
  | .startResume _ => t = 13
  | .stopFreeze _ => t = 14
  | .acknowledge _ => t = 15
  | .actionRequest v => t = 16 ∧ v.datums.Read
  | .actionResponse v => t = 17 ∧ v.datums.Read
  | .dataQuery v => t = 18 ∧ v.fixed_datum_ids.length < 256 ∧ v.variable_datum_ids.length < 256
  | .setData v => t = 19 ∧ v.datums.Read
  | .data v => t = 20 ∧ v.datums.Read
  | .eventReport v => t = 21 ∧ v.datums.Read
  | .comment v => t = 22 ∧ v.datums.Read
  | .electromagneticEmission v => t = 23 ∧ v.emitter_systems.length < 256 ∧ ∀ s ∈ v.emitter_systems, systemRead s
  | .designator _ => t = 24
  | .transmitter v => t = 25 ∧ Cdis.OptAll Cdis.ModulationType.Wf v.modulation_type ∧ v.modulation_parameters.length < 256
      ∧ v.variable_transmitter_parameters.length < 256 ∧ ∀ p ∈ v.variable_transmitter_parameters, p.Wf
  | .signal v => t = 26 ∧ v.encoding_scheme.Wf ∧ v.data.length < 2048
  | .receiver _ => t = 27
  | .iff _ => t = 28

theorem es_read : Cdis.Gives Cdis.EntityState.parse fun v => bodyRead 1 (.entityState v) := by
  unfold Cdis.EntityState.parse
  gv_steps
  refine Cdis.Gives.pure ?_
  unfold bodyRead
  try casesm* _ ∧ _
  (repeat' first | assumption | rfl | apply And.intro)
  simp only [*]
theorem fire_read : Cdis.Gives Cdis.Fire.parse fun v => bodyRead 2 (.fire v) := by
  unfold Cdis.Fire.parse
  gv_steps
  refine Cdis.Gives.pure ?_
  exact ⟨rfl, (by assumption : Cdis.EntityType.Wf _).1⟩
theorem detonation_read : Cdis.Gives Cdis.Detonation.parse fun v => bodyRead 3 (.detonation v) := by
  unfold Cdis.Detonation.parse
  gv_steps
  refine Cdis.Gives.pure ?_
  unfold bodyRead
  try casesm* _ ∧ _
  refine ⟨rfl, (by assumption : Cdis.EntityType.Wf _).1, ?_, by assumption⟩
  simp only [*]
theorem emission_read : Cdis.Gives Cdis.ElectromagneticEmission.parse fun v => bodyRead 23 (.electromagneticEmission v) := by
  unfold Cdis.ElectromagneticEmission.parse
  iterate 7 refine Cdis.Gives.bind (Cdis.Gives.trivial _) fun _ _ => ?_
  refine Cdis.Gives.bind Cdis.Gv.spec fun n hn => ?_
  iterate 3 refine Cdis.Gives.bind (Cdis.Gives.trivial _) fun _ _ => ?_
  refine Cdis.Gives.bind (Cdis.Gives.count system_bounds n) fun l hl => Cdis.Gives.pure ?_
  refine ⟨rfl, ?_, hl.2⟩
  simp only [hl.1]; exact hn
theorem transmitter_read : Cdis.Gives Cdis.Transmitter.parse fun v => bodyRead 25 (.transmitter v) := by
  unfold Cdis.Transmitter.parse
  gv_steps
  dsimp only
  refine Gives.trans_ite (fun _ => Cdis.Gives.bind Cdis.Gv.spec fun l hl => ?_) (fun _ => Cdis.Gives.bind (Q := fun l => l = []) (Cdis.Gives.pure rfl) fun l hl => ?_)
  · refine Cdis.Gives.pure ?_
    unfold bodyRead
    try casesm* _ ∧ _
    repeat' first | assumption | rfl | apply And.intro
    all_goals simp only [*]
  · refine Cdis.Gives.pure ?_
    subst hl
    unfold bodyRead
    try casesm* _ ∧ _
    (repeat' first | assumption | rfl | exact (by decide : 0 < 256) | apply And.intro)
    all_goals exact (fun _ hp => absurd hp List.not_mem_nil)
theorem action_read : Cdis.Gives Cdis.Action.parse fun v => v.datums.Read := by
  unfold Cdis.Action.parse
  gv_steps
  exact Cdis.Gives.pure (by assumption)
theorem data_read : Cdis.Gives Cdis.DataBody.parse fun v => v.datums.Read := by
  unfold Cdis.DataBody.parse
  gv_steps
  exact Cdis.Gives.pure (by assumption)
theorem comment_read : Cdis.Gives Cdis.Comment.parse fun v => v.datums.Read := by
  unfold Cdis.Comment.parse
  gv_steps
  exact Cdis.Gives.pure (by assumption)

theorem body_read (env : Dis.Env) (t : Nat) : Cdis.Gives (Cdis.CdisBody.parse env t) (bodyRead t) := by
  unfold Cdis.CdisBody.parse
  split
  any_goals (unfold Cdis.mapP)
  · exact Cdis.Gives.bind es_read fun v h => Cdis.Gives.pure h
  · exact Cdis.Gives.bind fire_read fun v h => Cdis.Gives.pure h
  · exact Cdis.Gives.bind detonation_read fun v h => Cdis.Gives.pure h
  · exact Cdis.Gives.bind (Cdis.Gives.trivial _) fun v h => Cdis.Gives.pure rfl
  · exact Cdis.Gives.bind (Cdis.Gives.trivial _) fun v h => Cdis.Gives.pure rfl
  · exact Cdis.Gives.bind (Cdis.Gives.trivial _) fun v h => Cdis.Gives.pure rfl
  · exact Cdis.Gives.bind (Cdis.Gives.trivial _) fun v h => Cdis.Gives.pure rfl
  · exact Cdis.Gives.bind (Cdis.Gives.trivial _) fun v h => Cdis.Gives.pure rfl
  · exact Cdis.Gives.bind (Cdis.Gives.trivial _) fun v h => Cdis.Gives.pure rfl
  · exact Cdis.Gives.bind action_read fun v h => Cdis.Gives.pure ⟨rfl, h⟩
  · exact Cdis.Gives.bind action_read fun v h => Cdis.Gives.pure ⟨rfl, h⟩
  · exact Cdis.Gives.bind reads_dataQuery fun v h => Cdis.Gives.pure ⟨rfl, h.2.2.2.2.1, h.2.2.2.2.2.1⟩
  · exact Cdis.Gives.bind data_read fun v h => Cdis.Gives.pure ⟨rfl, h⟩
  · exact Cdis.Gives.bind data_read fun v h => Cdis.Gives.pure ⟨rfl, h⟩
  · exact Cdis.Gives.bind data_read fun v h => Cdis.Gives.pure ⟨rfl, h⟩
  · exact Cdis.Gives.bind comment_read fun v h => Cdis.Gives.pure ⟨rfl, h⟩
  · exact Cdis.Gives.bind emission_read fun v h => Cdis.Gives.pure h
  · exact Cdis.Gives.bind (Cdis.Gives.trivial _) fun v h => Cdis.Gives.pure rfl
  · exact Cdis.Gives.bind transmitter_read fun v h => Cdis.Gives.pure h
  · exact Cdis.Gives.bind reads_signal fun v h => Cdis.Gives.pure ⟨rfl, h.2.2.1, h.2.2.2.2.2.2.1⟩
  · exact Cdis.Gives.bind (Cdis.Gives.trivial _) fun v h => Cdis.Gives.pure rfl
  · exact Cdis.Gives.bind (Cdis.Gives.trivial _) fun v h => Cdis.Gives.pure rfl
  · exact Cdis.Gives.pure trivial

/-- a PDU that has been read -/
structure PduRead (env : Dis.Env) (p : Cdis.CdisPdu) : Prop where
  header : p.header.Wf
  body : bodyRead p.header.pdu_type p.body
  iff : ∀ v, p.body = .iff v → writable env p.body → v.Wf env
theorem pdu_read (env : Dis.Env) : Cdis.Gives (Cdis.CdisPdu.parse env) (PduRead env) := by
  unfold Cdis.CdisPdu.parse
  have both : ∀ t, Cdis.Gives (Cdis.CdisBody.parse env t) fun b => bodyRead t b ∧ (writable env b → b.Wf env t) :=
    fun t bs v r h => ⟨body_read env t bs v r h, reads_body env t bs v r h⟩
  refine Cdis.Gives.bind reads_header fun hd hh => Cdis.Gives.bind (both hd.pdu_type) fun b hb => Cdis.Gives.pure ⟨hh, hb.1, ?_⟩
  intro v e w
  dsimp only at e w
  subst e
  exact (hb.2 w).2

/-! ## Parts again -/

theorem vpDec_wf {p : Cdis.VariableParameter} (h : partRead p) (hu : p ≠ .unspecified) : (vpDec p).Wf := by
  cases p with
  | articulated p =>
    obtain ⟨h3, h4, h5⟩ := h
    refine ⟨?_, ?_⟩
    · show (UInt32.ofNat p.type_metric).toNat < 32
      rw [toNat_u32_ofNat (by omega)]; exact h3
    · show (UInt32.ofNat p.type_class).toNat % 32 = 0
      rw [toNat_u32_ofNat (by omega)]; exact h4
  | unspecified => exact absurd rfl hu
  | _ => trivial
theorem vpsDec_wf {l : List Cdis.VariableParameter} (h1 : l.length < 256) (h2 : ∀ p ∈ l, partRead p) (hu : unseparated l) :
    Dis.VariableParameters.Wf (l.map vpDec) := by
  refine ⟨by rw [List.length_map]; omega, fun q hq => ?_⟩
  obtain ⟨p, hp, rfl⟩ := List.mem_map.1 hq
  exact vpDec_wf (h2 p hp) (hu p hp).1
theorem vpsDec_unseparated {l : List Cdis.VariableParameter} (h : unseparated l) : Dis.VariableParameters.NoSeparation (l.map vpDec) := by
  intro q hq
  obtain ⟨p, hp, rfl⟩ := List.mem_map.1 hq
  have := (h p hp).2
  cases p with
  | separation p => exact absurd rfl (this p)
  | _ => trivial

theorem datumsDec_wf {d : Cdis.Datums} (h : d.Read) (hw : wholeWords d.var) : Dis.Datums.Wf (d.fixed.map fdDec) (d.var.map vdDec) := by
  obtain ⟨h1, h2, h3, h4⟩ := h
  refine ⟨by rw [List.length_map]; omega, by rw [List.length_map]; omega, fun q hq => ?_⟩
  obtain ⟨v, hv, rfl⟩ := List.mem_map.1 hq
  have e : (vdDec v).datum_value.length = v.datum_value.length := by simp [vdDec, bytesDec]
  have := (h4 v hv).2.1
  refine ⟨?_, ?_⟩
  · show (vdDec v).datum_value.length * 8 < _
    omega
  · show (vdDec v).datum_value.length % 8 = 0
    rw [e]; exact hw v hv
theorem datumsDec_wf' {d : Cdis.Datums} (h : d.Read) (hw : wholeWords d.var) : Dis.Datums.Wf [] (d.var.map vdDec) :=
  ⟨by simp, (datumsDec_wf h hw).2⟩

theorem u8_eq_iff {n k : Nat} (hn : n < 256) (hk : k < 256) : UInt8.ofNat n = UInt8.ofNat k ↔ n = k := by
  rw [← UInt8.toNat_inj, toNat_u8_ofNat hn, toNat_u8_ofNat hk]

/-! ## Bodies -/

/-- the header of the DIS PDU -/
def onwardHeader (h : Cdis.CdisHeader) (b : Dis.Body) : Dis.PduHeader :=
  (Dis.Pdu.finalizeFromParts (headerDec h) b (headerDec h).time_stamp).header

theorem fireDec_wf (env : Codec.Env) {h : Cdis.CdisHeader} {x : Cdis.Fire} (hx : x.descriptor_entity_type.kind < 2 ^ 4)
    (hp : x.descriptor_entity_type.kind = 8 ↔ h.pdu_status.fire_type_indicator.getD 0 ≠ 0) (b : Dis.Body) :
    (fireDec env x).descriptor.MatchesFti (Dis.headerFti (onwardHeader h b)) := by
  have e : Dis.headerFti (onwardHeader h b) = h.pdu_status.fire_type_indicator.getD 0 := rfl
  have hk : x.descriptor_entity_type.kind < 256 := Nat.lt_trans hx (by decide)
  have hk8 : (etypeDec x.descriptor_entity_type).kind = 8 ↔ x.descriptor_entity_type.kind = 8 := u8_eq_iff hk (by decide)
  have hk2 : (etypeDec x.descriptor_entity_type).kind = 2 ↔ x.descriptor_entity_type.kind = 2 := u8_eq_iff hk (by decide)
  rw [e]
  show (fireDescriptorDec x).MatchesFti _
  unfold fireDescriptorDec
  simp only [hk2, hk8]
  split
  · show _ = _
    by_contra hc
    have := hp.2 hc; omega
  · split
    · rename_i h8
      exact hp.1 h8
    · rename_i h8
      show _ = _
      by_contra hc
      exact h8 (hp.2 hc)

theorem detonationDec_wf (env : Codec.Env) {h : Cdis.CdisHeader} {x : Cdis.Detonation} (hx : x.descriptor_entity_type.kind < 2 ^ 4)
    (hp : (x.descriptor_entity_type.kind = 2 ∧ h.pdu_status.detonation_type_indicator.getD 0 = 0)
      ∨ (x.descriptor_entity_type.kind = 8 ∧ h.pdu_status.detonation_type_indicator.getD 0 ≠ 0
          ∧ h.pdu_status.detonation_type_indicator.getD 0 ≠ 2)) (b : Dis.Body) :
    (detonationDec env x).descriptor.MatchesDti (Dis.headerDti (onwardHeader h b)) ∧ (detonationDec env x).descriptor.NotExplosion := by
  have e : Dis.headerDti (onwardHeader h b) = h.pdu_status.detonation_type_indicator.getD 0 := rfl
  have hk : x.descriptor_entity_type.kind < 256 := Nat.lt_trans hx (by decide)
  have hk8 : (etypeDec x.descriptor_entity_type).kind = 8 ↔ x.descriptor_entity_type.kind = 8 := u8_eq_iff hk (by decide)
  have hk2 : (etypeDec x.descriptor_entity_type).kind = 2 ↔ x.descriptor_entity_type.kind = 2 := u8_eq_iff hk (by decide)
  rw [e]
  show (detonationDescriptorDec x).MatchesDti _ ∧ (detonationDescriptorDec x).NotExplosion
  unfold detonationDescriptorDec
  simp only [hk2, hk8]
  rcases hp with ⟨k, d⟩ | ⟨k, d⟩
  · rw [if_pos k]; exact ⟨d, trivial⟩
  · rw [if_neg (by omega), if_pos k]; exact ⟨d, trivial⟩

theorem signalDec_wf {x : Cdis.Signal} (hs : x.encoding_scheme.Wf) (hd : x.data.length < 2048)
    (h1 : x.encoding_scheme.encoding_class ≤ 1) : (signalDec x).Wf := by
  have hv : (UInt16.ofNat x.encoding_scheme.value).toNat < 16384 := by
    rw [toNat_u16_ofNat (by have := hs.2; omega)]; have := hs.2; omega
  constructor
  · show (schemeDec x.encoding_scheme).Wf _
    unfold schemeDec
    split
    · exact ⟨rfl, hv⟩
    · rw [if_pos (by omega)]
      exact ⟨rfl, hv⟩
  · show (bytesDec x.data).length < 8192
    simp only [bytesDec, List.length_map]; omega

theorem modTypeDec_wf {x : Cdis.ModulationType} (h : x.Wf) : Dis.SpreadSpectrum.layout.Fits (modTypeDec x).spread_spectrum
    ∧ (modTypeDec x).major.toNat ≤ 9 ∧ ((modTypeDec x).major = 0 → (modTypeDec x).detail = 0) := by
  unfold modTypeDec
  obtain ⟨-, h2, -, -⟩ := h
  dsimp only
  split
  · exact ⟨fits_unpack Dis.SpreadSpectrum.layout _, Nat.zero_le _, fun _ => rfl⟩
  · split
    · refine ⟨fits_unpack Dis.SpreadSpectrum.layout _, ?_, fun h0 => ?_⟩
      · show (UInt16.ofNat x.major_modulation).toNat ≤ 9
        rw [toNat_u16_ofNat (by omega)]; omega
      · have := congrArg UInt16.toNat h0
        rw [toNat_u16_ofNat (by omega)] at this
        exact absurd this ‹_›
    · exact ⟨fits_unpack Dis.SpreadSpectrum.layout _, Nat.le_refl 9, fun h0 => absurd (show (9 : UInt16) = 0 from h0) (by decide)⟩

/-- Specification: a modulation that DIS can carry. -/
def soundModulation (m : Dis.ModulationType) : Prop :=
  Dis.SpreadSpectrum.layout.Fits m.spread_spectrum ∧ m.major.toNat ≤ 9 ∧ (m.major = 0 → m.detail = 0)
/-- What the decoder remembers can be sent on. -/
structure Remembers (env : Codec.Env) (s : DecState) : Prop where
  es : ∀ k e, s.es k = some e → e.entity_appearance.Wf env.toEnv e.entity_type ∧ e.entity_marking.Wf
  tx : ∀ k e, s.transmitter k = some e → soundModulation e.modulation_type
  iff : ∀ k e, s.iff k = some e → Dis.ChangeOptions.layout.Fits e.change_options

theorem txDec_modulation (env : Codec.Env) (o : Options) (st : Option TxState) {x : Cdis.Transmitter}
    (hmt : Cdis.OptAll Cdis.ModulationType.Wf x.modulation_type)
    (hs : ∀ e, st = some e → soundModulation e.modulation_type) : soundModulation (txDec env o st x).1.modulation_type := by
  have D : soundModulation defaultModType := ⟨by decide, by decide, fun _ => rfl⟩
  cases hm : x.modulation_type with
  | some m =>
    rw [hm] at hmt
    simp only [txDec, hm, Option.map_some, Option.getD_some]
    exact modTypeDec_wf hmt
  | none =>
    simp only [txDec, hm, Option.map_none, Option.getD_none]
    split
    · cases st with
      | none => exact D
      | some e => exact hs e rfl
    · exact D

theorem txDec_wf (env : Codec.Env) (o : Options) (st : Option TxState) {x : Cdis.Transmitter} (hx : bodyRead 25 (.transmitter x))
    (hs : ∀ e, st = some e → soundModulation e.modulation_type) (h2 : x.modulation_parameters ≠ [])
    (h3 : ∀ r ∈ x.variable_transmitter_parameters, (6 + r.fields.length) % 8 = 0) : (txDec env o st x).1.Wf 7 := by
  obtain ⟨-, hmt, hl, hc, hp⟩ := hx
  have M := txDec_modulation env o st hmt hs
  constructor
  · exact M.1
  · exact M.2.1
  · exact M.2.2
  · exact fits_unpack Dis.CryptoKeyId.layout _
  · intro q hq
    cases hq
    simp only [bytesDec, List.length_map]
    have : x.modulation_parameters.length ≠ 0 := by simpa using h2
    omega
  · exact .inl rfl
  · show (x.variable_transmitter_parameters.map _).length < 65536
    rw [List.length_map]; omega
  · intro q hq
    obtain ⟨v, hv, rfl⟩ := List.mem_map.1 (show q ∈ x.variable_transmitter_parameters.map _ from hq)
    have := h3 v hv
    have := (hp v hv).2.1
    constructor
    · simp only [bytesDec, List.length_map]; assumption
    · simp only [bytesDec, List.length_map]; omega

theorem esDec_steady (env : Codec.Env) (o : Options) (st : Option EsState) {x : Cdis.EntityState}
    (hs : ∀ e, st = some e → e.entity_appearance.Wf env.toEnv e.entity_type ∧ e.entity_marking.Wf) (h : steadyEntity x) :
    (esDec env o st x).1.entity_appearance.Wf env.toEnv (esDec env o st x).1.entity_type
      ∧ (esDec env o st x).1.entity_marking.Wf := by
  have D : defaultEs.entity_appearance.Wf env.toEnv defaultEs.entity_type ∧ defaultEs.entity_marking.Wf :=
    ⟨⟨by decide, fun h => absurd rfl h⟩, by unfold Dis.EntityMarking.Wf; decide +kernel⟩
  have F : ∀ f : EsState, f = (if o.update_mode = .partial ∧ x.full_update_flag = false then st.getD defaultEs else defaultEs) →
      f.entity_appearance.Wf env.toEnv f.entity_type ∧ f.entity_marking.Wf := by
    intro f hf
    rw [hf]
    split
    · cases st with
      | none => exact D
      | some e => exact hs e rfl
    · exact D
  have F' := F _ rfl
  refine ⟨?_, ?_⟩
  · cases ha : x.entity_appearance with
    | some a =>
      simp only [esDec, ha, Option.map_some, Option.getD_some]
      exact appearanceDec_wf _ _ _
    | none =>
      simp only [esDec, ha, h.1 ha, Option.map_none, Option.getD_none]
      exact F'.1
  · cases hm : x.entity_marking with
    | some m =>
      simp only [esDec, hm, Option.map_some, Option.getD_some]
      exact h.2 m hm
    | none =>
      simp only [esDec, hm, Option.map_none, Option.getD_none]
      exact F'.2

theorem esDec_wf (env : Codec.Env) (o : Options) (st : Option EsState) {x : Cdis.EntityState}
    (hx : bodyRead 1 (.entityState x)) (hu : unseparated x.variable_parameters)
    (hs : ∀ e, st = some e → e.entity_appearance.Wf env.toEnv e.entity_type ∧ e.entity_marking.Wf) (h : steadyEntity x)
    (h4 : x.dr_params_other = none → x.dr_algorithm = 0 ∨ 9 < x.dr_algorithm) : (esDec env o st x).1.Wf env.toEnv 7 := by
  have S := esDec_steady env o st hs h
  obtain ⟨-, hd, hl, hp⟩ := hx
  constructor
  · exact S.1
  · cases hdr : x.dr_params_other with
    | some n =>
      simp only [esDec, hdr, Option.map_some, Option.getD_some]
      exact drOtherDec_wf _ _ _ _
    | none =>
      simp only [esDec, hdr, Option.map_none, Option.getD_none]
      have := h4 hdr
      refine ⟨?_, by simp⟩
      show (UInt8.ofNat x.dr_algorithm).toNat = 0 ∨ 9 < (UInt8.ofNat x.dr_algorithm).toNat
      rw [toNat_u8_ofNat (by omega)]; exact this
  · exact S.2
  · exact capabilitiesDec_wf _ _ _
  · exact vpsDec_wf hl hp hu

theorem header_onward {h : Cdis.CdisHeader} (hw : h.Wf) (b : Dis.Body) (hb : UInt8.ofNat h.pdu_type = b.pduType) :
    (onwardHeader h b).Wf := by
  refine ⟨rfl, .inl ⟨rfl, h.pdu_status, rfl, ?_⟩⟩
  show h.pdu_status.Wf b.pduType
  rw [← hb]; exact hw.status

theorem eeDec_wf (o : Options) (st : Option EeDecState) {x : Cdis.ElectromagneticEmission} (hx : bodyRead 23 (.electromagneticEmission x)) :
    (eeDec o st x).1.Wf := by
  obtain ⟨-, h1, h2⟩ := hx
  refine ⟨?_, fun q hq => ?_⟩
  · show (x.emitter_systems.map _).length ≤ 255
    rw [List.length_map]; omega
  · obtain ⟨y, hy, rfl⟩ := List.mem_map.1 (show q ∈ x.emitter_systems.map _ from hq)
    obtain ⟨h3, h4⟩ := h2 y hy
    refine ⟨?_, fun b hb => ?_⟩
    · show (y.emitter_beams.map _).length ≤ 255
      rw [List.length_map]; omega
    · obtain ⟨c, hc, rfl⟩ := List.mem_map.1 (show b ∈ y.emitter_beams.map _ from hb)
      have : c.track_jam.length < 16 := h4 c hc
      show (c.track_jam.map _).length ≤ 255
      rw [List.length_map]; omega

theorem layer_iff {d : Cdis.OperationalData} (hd : d.information_layers < 128) {k : Nat} (hk : k ∈ [2, 3, 4, 5]) :
    Dis.layerPresent (opDataDec d) k ↔ d.layer k = true := by
  unfold Dis.layerPresent Cdis.OperationalData.layer
  have : ∀ n < 128, ∀ k ∈ [2, 3, 4, 5], (unpack Dis.InformationLayers.rd n).getD (k - 1) 0 = 1 ↔ n.testBit (7 - k) = true := by
    decide +kernel
  exact this _ hd _ hk
theorem recordsDec_wf {l : List Cdis.IffDataRecord} (h : Cdis.IffRecordsOk l) (hw : wholeRecords l) :
    Dis.IffDataSpecification.Wf (l.map iffRecDec) := by
  refine ⟨by rw [List.length_map]; have := h.1; omega, fun q hq => ?_⟩
  obtain ⟨x, hx, rfl⟩ := List.mem_map.1 hq
  have := (h.2 x hx).2.1
  have := hw x hx
  have e : (iffRecDec x).record_specific_fields.length = x.fields.length := by simp [iffRecDec, bytesDec]
  unfold Dis.IffDataRecord.Wf
  rw [e]
  omega
theorem mode5Dec_wf {k : Dis.IffClass} {x : Cdis.Mode5BasicData} (h : x.Wf k) : (mode5Dec x).Wf k := by
  cases x with
  | interrogator a b e => exact ⟨h.1, fits_unpack Dis.Mode5InterrogatorStatus.layout _, fits_unpack Dis.Mode5MessageFormats.layout _⟩
  | transponder a b c d e f g m =>
    exact ⟨h.1, fits_unpack Dis.Mode5TransponderStatus.layout _, fits_unpack Dis.Mode5MessageFormats.layout _,
      fits_unpack Dis.EnhancedMode1Code.layout _, fits_unpack Dis.Mode5TransponderSupplementalData.layout _⟩
theorem fits_const {R : List RField} (L : Layout) (i k : Nat) (hR : R = L.reader.set i (.const k)) (hi : i < L.length)
    (hk : k < 2 ^ (L.getD i (0, 0)).2) (n : Nat) : L.Fits (unpack R n) ∧ (unpack R n).getD i 0 = k := by
  subst hR
  rw [unpack_set]
  refine ⟨Dis.fits_set i k (fits_unpack _ _) hk, ?_⟩
  have : i < (unpack L.reader n).length := by rw [(fits_unpack L _).length]; exact hi
  simp only [List.getD_eq_getElem?_getD]
  rw [List.getElem?_set_self this]; rfl
theorem modeSDec_wf {k : Dis.IffClass} {x : Cdis.ModeSBasicData} (h : x.Wf k) (hn : carriedName x) : (modeSDec x).Wf k ∧ (modeSDec x).Forced := by
  have L := fits_const (R := Dis.ModeSLevelsPresent.rd) Dis.ModeSLevelsPresent.layout 4 1 (by decide) (by decide) (by decide)
  cases x with
  | interrogator a b =>
    have I := fits_const (R := Dis.ModeSInterrogatorStatus.rd) Dis.ModeSInterrogatorStatus.layout 3 1 (by decide) (by decide) (by decide)
    exact ⟨⟨h.1, (I a).1, (L b).1⟩, (I a).2, (L b).2⟩
  | transponder a b c d e f g m n =>
    have D := fits_const (R := Dis.DapSource.rd) Dis.DapSource.layout 4 1 (by decide) (by decide) (by decide)
    exact ⟨⟨h.1, fits_unpack Dis.ModeSTransponderStatus.layout _, (L b).1, (D g).1, fits_unpack Dis.ModeSAltitude.layout _,
      hn.1, hn.2.1, hn.2.2⟩, (L b).2, (D g).2⟩
theorem layer_told {α β : Type} {c : Bool} {o : Option α} {f : α → β} {P : Prop} (hp : P ↔ c = true) (h : o.isSome = c) : P ↔ o.map f ≠ none := by
  rw [hp, ← h]; cases o <;> simp
theorem iffDec_options (o : Options) {st : Option Dis.SystemId} (x : Cdis.Iff)
    (hs : ∀ e, st = some e → Dis.ChangeOptions.layout.Fits e.change_options) :
    Dis.ChangeOptions.layout.Fits (iffDec o st x).1.system_id.change_options := by
  have D : Dis.ChangeOptions.layout.Fits defaultSysId.change_options := by decide
  cases hx : x.system_id with
  | some i =>
    simp only [iffDec, hx, Option.map_some, Option.getD_some]
    exact fits_unpack Dis.ChangeOptions.layout _
  | none =>
    simp only [iffDec, hx, Option.map_none, Option.getD_none]
    split
    · cases st with
      | none => exact D
      | some e => exact hs e rfl
    · exact D
theorem iffDec_wf (env : Codec.Env) (o : Options) {st : Option Dis.SystemId} {x : Cdis.Iff}
    (hs : ∀ e, st = some e → Dis.ChangeOptions.layout.Fits e.change_options)
    (hr : writable env.toEnv (.iff x) → x.Wf env.toEnv)
    (hp : (∀ l, x.layer_3 = some l → kindKnown env.toEnv x ∧ wholeRecords l.records)
      ∧ (∀ l, x.layer_4 = some l → kindKnown env.toEnv x ∧ wholeRecords l.records ∧ carriedName l.mode_s_basic_data)
      ∧ ∀ l, x.layer_5 = some l → wholeRecords l.records)
    : (iffDec o st x).1.Wf env.toEnv ∧ (iffDec o st x).1.Forced := by
  obtain ⟨h3, h4, h5⟩ := hp
  have w : x.Wf env.toEnv := by
    refine hr ⟨?_, ?_⟩
    · intro h
      have : kindKnown env.toEnv x := by
        rcases h with h | h
        · obtain ⟨l, hl⟩ := Option.isSome_iff_exists.1 h
          exact (h3 l hl).1
        · obtain ⟨l, hl⟩ := Option.isSome_iff_exists.1 h
          exact (h4 l hl).1
      obtain ⟨i, hi, hk⟩ := this
      unfold Cdis.iffKind
      rw [hi]
      exact hk
    · intro l hl a b c d e f g h i e
      have := (h4 l hl).2.2
      rw [e] at this
      exact ⟨Nat.lt_of_le_of_lt this.1 (by decide), this.2.1, fun x hx => this.2.2 x hx⟩
  obtain ⟨-, -, -, -, -, -, -, wo, a2, a3, a4, a5, w2, w3, w4, w5⟩ := w
  have hd := wo.2.2.1
  refine ⟨⟨iffDec_options o x hs, fits_unpack Dis.SystemStatus.layout _, fits_unpack Dis.InformationLayers.layout _,
    layer_told (layer_iff hd (by decide)) a2, layer_told (layer_iff hd (by decide)) a3, layer_told (layer_iff hd (by decide)) a4,
    layer_told (layer_iff hd (by decide)) a5, ?_, ?_, ?_, ?_⟩, ?_⟩
  · intro l hl
    obtain ⟨y, hy, rfl⟩ := Option.map_eq_some_iff.1 hl
    rw [hy] at w2
    have := w2.2.2.2.2.1
    show (y.params.map iffParamDec).length < _
    rw [List.length_map]; omega
  · intro l hl
    obtain ⟨y, hy, rfl⟩ := Option.map_eq_some_iff.1 hl
    rw [hy] at w3
    obtain ⟨⟨i, hi, -⟩, hw⟩ := h3 y hy
    refine ⟨?_, recordsDec_wf w3.2.2.2.2 hw⟩
    have := mode5Dec_wf w3.2.2.2.1
    unfold Cdis.iffKind at this
    simp only [iffDec, hi, Option.map_some, Option.getD_some] at this ⊢
    exact this
  · intro l hl
    obtain ⟨y, hy, rfl⟩ := Option.map_eq_some_iff.1 hl
    rw [hy] at w4
    obtain ⟨⟨i, hi, -⟩, hw, hn⟩ := h4 y hy
    refine ⟨?_, recordsDec_wf w4.2.2.2.2 hw⟩
    have := (modeSDec_wf w4.2.2.2.1 hn).1
    unfold Cdis.iffKind at this
    simp only [iffDec, hi, Option.map_some, Option.getD_some] at this ⊢
    exact this
  · intro l hl
    obtain ⟨y, hy, rfl⟩ := Option.map_eq_some_iff.1 hl
    rw [hy] at w5
    exact ⟨fits_unpack Dis.InformationLayers.layout _, recordsDec_wf w5.2.2.2.2.2 (h5 y hy)⟩
  · intro l hl
    obtain ⟨y, hy, rfl⟩ := Option.map_eq_some_iff.1 hl
    rw [hy] at w4
    exact (modeSDec_wf w4.2.2.2.1 (h4 y hy).2.2).2

/-- The DIS PDU that stands for a presentable one is one that can be read back. -/
theorem presentable_wf (env : Codec.Env) (o : Options) {s : DecState} (hs : Remembers env s) {p : Cdis.CdisPdu} (hw : PduRead env.toEnv p)
    (hp : presentable env.toEnv p) : (pduDec env o s p).1.Wf env.toEnv := by
  obtain ⟨hd, b⟩ := p
  obtain ⟨hh, hb, hi⟩ := hw
  dsimp only at hh hb hi
  unfold presentable at hp
  have key : UInt8.ofNat hd.pdu_type = (bodyDec env o s b).1.pduType ∧
      (bodyDec env o s b).1.Wf env.toEnv (onwardHeader hd (bodyDec env o s b).1) := by
    cases b
    case unsupported => exact absurd hp id
    case iff v =>
      unfold bodyRead at hb
      rw [hb]
      obtain ⟨w, f⟩ := iffDec_wf env o (hs.iff (eidDec v.emitting_entity_id)) (hi v rfl) hp
      exact ⟨rfl, rfl, w, f⟩
    all_goals
      dsimp only at hp
      unfold bodyRead at hb
    case entityState v =>
      rw [hb.1]
      exact ⟨rfl, rfl, esDec_wf env o _ ⟨rfl, hb.2⟩ hp.2.2 (hs.es _) hp.1 hp.2.1, vpsDec_unseparated hp.2.2⟩
    case fire v => rw [hb.1]; exact ⟨rfl, rfl, fireDec_wf env hb.2 hp _⟩
    case detonation v =>
      rw [hb.1]
      obtain ⟨m, n⟩ := detonationDec_wf env hb.2.1 hp.1 (bodyDec env o s (.detonation v)).1
      exact ⟨rfl, rfl, m, n, vpsDec_wf hb.2.2.1 hb.2.2.2 hp.2, vpsDec_unseparated hp.2⟩
    case actionRequest v => rw [hb.1]; exact ⟨rfl, rfl, datumsDec_wf hb.2 hp⟩
    case actionResponse v => rw [hb.1]; exact ⟨rfl, rfl, datumsDec_wf hb.2 hp⟩
    case setData v => rw [hb.1]; exact ⟨rfl, rfl, datumsDec_wf hb.2 hp⟩
    case data v => rw [hb.1]; exact ⟨rfl, rfl, datumsDec_wf hb.2 hp⟩
    case eventReport v => rw [hb.1]; exact ⟨rfl, rfl, datumsDec_wf hb.2 hp⟩
    case comment v => rw [hb.1]; exact ⟨rfl, rfl, datumsDec_wf' hb.2 hp⟩
    case dataQuery v =>
      rw [hb.1]
      refine ⟨rfl, rfl, ?_, ?_⟩
      · show (v.fixed_datum_ids.map UInt32.ofNat).length < _
        rw [List.length_map]; omega
      · show (v.variable_datum_ids.map UInt32.ofNat).length < _
        rw [List.length_map]; omega
    case transmitter v => rw [hb.1]; exact ⟨rfl, rfl, txDec_wf env o _ ⟨rfl, hb.2⟩ (hs.tx _) hp.1 hp.2⟩
    case electromagneticEmission v => rw [hb.1]; exact ⟨rfl, rfl, eeDec_wf o _ ⟨rfl, hb.2⟩⟩
    case signal v =>
      rw [hb.1]
      refine ⟨rfl, rfl, signalDec_wf hb.2.1 hb.2.2 hp.1, ?_⟩
      show (bytesDec v.data).length % 4 = 0
      simp only [bytesDec, List.length_map]; exact hp.2
    all_goals (rw [hb]; exact ⟨rfl, rfl⟩)
  exact ⟨header_onward hh _ key.1, key.2⟩

/-- Whatever is decoded, the memory stays sound. -/
theorem remembers_next {env : Codec.Env} {o : Options} {s : DecState} (hs : Remembers env s) {p : Cdis.CdisPdu} (hw : PduRead env.toEnv p)
    (hp : steady p) : Remembers env (pduDec env o s p).2.2 := by
  obtain ⟨hd, b⟩ := p
  obtain ⟨-, hb, -⟩ := hw
  unfold steady at hp
  show Remembers env (bodyDec env o s b).2.2
  cases b <;> dsimp only at hp hb <;> try exact hs
  case entityState v =>
    simp only [bodyDec, esDecodeBody]
    split
    · refine ⟨fun k e he => ?_, hs.tx, hs.iff⟩
      have S := esDec_steady env o (s.es (eidDec v.entity_id)) (hs.es _) hp
      simp only [Map.set] at he
      split at he
      · injection he with he
        rw [← he]
        unfold esStore
        cases hst : s.es (eidDec v.entity_id) with
        | none => rw [hst] at S; exact S
        | some f => rw [hst] at S; exact ⟨S.1, (hs.es _ _ hst).2⟩
      · exact hs.es k e he
    · exact hs
  case transmitter v =>
    simp only [bodyDec, txDecodeBody]
    split
    · refine ⟨hs.es, fun k e he => ?_, hs.iff⟩
      simp only [Map.set] at he
      split at he
      · injection he with he
        rw [← he]
        exact txDec_modulation env o _ hb.2.1 (hs.tx _)
      · exact hs.tx k e he
    · exact hs
  case iff v =>
    simp only [bodyDec, iffDecodeBody]
    split
    · refine ⟨hs.es, hs.tx, fun k e he => ?_⟩
      have O := iffDec_options o v (hs.iff (eidDec v.emitting_entity_id))
      simp only [Map.set] at he
      split at he
      · injection he with he
        rw [← he]
        cases hst : s.iff (eidDec v.emitting_entity_id) with
        | none => rw [hst] at O; exact O
        | some f => exact hs.iff _ _ hst
      · exact hs.iff k e he
    · exact hs
  all_goals
    simp only [bodyDec, eeDecodeBody, desDecodeBody]
    split
    · exact ⟨hs.es, hs.tx, hs.iff⟩
    · exact hs

theorem stream_readable {env : Codec.Env} {o : Options} : ∀ {l : List Cdis.CdisPdu} {s : DecState}, Remembers env s →
    (∀ p ∈ l, PduRead env.toEnv p ∧ steady p) → ∀ {i : Nat} {p q}, l[i]? = some p → (decStream env o s l).1[i]? = some q → presentable env.toEnv p →
    q.Wf env.toEnv
  | [], _, _, _, i, p, q, hi, _, _ => by simp at hi
  | c :: l, s, hs, hl, i, p, q, hi, hq, hp => by
    have hc := hl c List.mem_cons_self
    cases i with
    | zero =>
      simp only [List.getElem?_cons_zero, Option.some.injEq, decStream] at hi hq
      subst hi hq
      exact presentable_wf env o hs hc.1 hp
    | succ i =>
      simp only [List.getElem?_cons_succ, decStream] at hi hq
      exact stream_readable (remembers_next hs hc.1 hc.2) (fun p h => hl p (List.mem_cons_of_mem _ h)) hi hq hp

/-! ## C82 -/

/-- Specification: `p` has been read from some bits. -/
def readFromBits (env : Dis.Env) (p : Cdis.CdisPdu) : Prop := ∃ b r, (Cdis.CdisPdu.parse env).run b = .ok p r

/-- A decoder with any options that is fed PDUs read from any bits, full and partial updates alike: each presentable one is
handed over as a DIS PDU whose octets, followed by anything, are read as this very PDU. -/
theorem C82_readable_partial {env : Codec.Env} {o : Options} {l : List Cdis.CdisPdu} (hl : ∀ p ∈ l, readFromBits env.toEnv p ∧ steady p)
    {i : Nat} {p : Cdis.CdisPdu} {q : Dis.Pdu} (hi : l[i]? = some p) (hq : (decStream env o {} l).1[i]? = some q) (hp : presentable env.toEnv p)
    (rest : Bytes) : (Dis.pdu env.toEnv).run (q.ser ++ rest) = .ok q rest := by
  refine Dis.pdu_ser (stream_readable (s := {}) ⟨nofun, nofun, nofun⟩ (fun p h => ?_) hi hq hp) rest
  obtain ⟨⟨b, r, hb⟩, t⟩ := hl p h
  exact ⟨pdu_read env.toEnv _ _ _ hb, t⟩

/-! ### What cannot be read -/

/-- Specification: no octets whatever are read as `q`. -/
def neverRead (env : Dis.Env) (q : Dis.Pdu) : Prop := ∀ bs r, (Dis.pdu env).run bs ≠ .ok q r

theorem pdu_body {env : Dis.Env} {bs r : Bytes} {q : Dis.Pdu} (h : (Dis.pdu env).run bs = .ok q r) :
    ∃ c, (Dis.parseBody env q.header).run c = .ok q.body r := by
  unfold Dis.pdu at h
  simp only [P.run_bind] at h
  cases e1 : Dis.PduHeader.parse.run bs with
  | ok hd c =>
    rw [e1] at h
    simp only [Res.andThen] at h
    cases e2 : (Dis.parseBody env hd).run c with
    | ok b d =>
      rw [e2] at h
      simp only [P.run_pure, Res.ok.injEq] at h
      obtain ⟨rfl, rfl⟩ := h
      exact ⟨c, e2⟩
    | _ => rw [e2] at h; simp at h
  | _ => rw [e1] at h; simp [Res.andThen] at h

theorem body_takes {α : Type} {m : P UInt8 α} {Q : Bytes → α → Prop} (T : Takes m Q) {f : α → Dis.Body} (hf : ∀ a b, f a = f b → a = b) {c r : Bytes} {a : α}
    (h : (m >>= fun x => pure (f x)).run c = .ok (f a) r) : ∃ d, Q d a := by
  simp only [P.run_bind] at h
  cases e : m.run c with
  | ok b d =>
    rw [e] at h
    simp only [Res.andThen, P.run_pure, Res.ok.injEq] at h
    obtain ⟨h1, rfl⟩ := h
    obtain ⟨x, -, hx⟩ := T _ _ _ e
    rw [← hf _ _ h1]
    exact ⟨x, hx⟩
  | _ => rw [e] at h; simp [Res.andThen] at h

/-- **C82**, violated: a Transmitter PDU without modulation parameters, the most usual one. -/
theorem C82_modulation_violated {env : Codec.Env} {p : Cdis.CdisPdu} {x : Cdis.Transmitter} (hr : readFromBits env.toEnv p) (hb : p.body = .transmitter x)
    (h0 : x.modulation_parameters = []) (hv : ∀ r ∈ x.variable_transmitter_parameters, (6 + r.fields.length) % 8 = 0) (o : Options) (s : DecState) :
    neverRead env.toEnv (pduDec env o s p).1 := by
  obtain ⟨hd, b⟩ := p
  dsimp only at hb
  subst hb
  intro bs r h
  obtain ⟨c, hc⟩ := pdu_body h
  rw [Dis.parseBody_transmitter _ rfl] at hc
  obtain ⟨d, hd⟩ := body_takes Rd.spec (f := .transmitter) (fun a b e => by injection e)
    (a := (txDec env o (s.transmitter (eidDec x.radio_reference_id, UInt16.ofNat x.radio_number)) x).1) hc
  obtain ⟨b0, r0, hr⟩ := hr
  have hp : ∀ p ∈ x.variable_transmitter_parameters, p.Wf := (pdu_read _ _ _ _ hr).body.2.2.2.2
  have W := hd.2 (fun q hq => by
    obtain ⟨v, hv', rfl⟩ := List.mem_map.1 (show q ∈ x.variable_transmitter_parameters.map _ from hq)
    have := hv v hv'
    have := (hp v hv').2.1
    constructor
    · simp only [bytesDec, List.length_map]; assumption
    · simp only [bytesDec, List.length_map]; omega)
  have := (W.modulation (bytesDec x.modulation_parameters) rfl).1
  rw [h0] at this
  exact absurd this (by decide)

/-- **C82**, violated: an entity with an algorithm for dead reckoning that has parameters but that comes without them. -/
theorem C82_reckoning_violated {env : Codec.Env} {p : Cdis.CdisPdu} {x : Cdis.EntityState} (hr : readFromBits env.toEnv p) (hb : p.body = .entityState x)
    (hm : ∃ m, x.entity_marking = some m ∧ carriedMarking m) (hu : unseparated x.variable_parameters)
    (h0 : x.dr_params_other = none) (ha : 1 ≤ x.dr_algorithm ∧ x.dr_algorithm ≤ 9) (o : Options) (s : DecState) :
    neverRead env.toEnv (pduDec env o s p).1 := by
  obtain ⟨hd, b⟩ := p
  dsimp only at hb
  subst hb
  intro bs r h
  obtain ⟨c, hc⟩ := pdu_body h
  rw [Dis.parseBody_entityState _ rfl] at hc
  obtain ⟨d, hd⟩ := body_takes Rd.spec (f := .entityState) (fun a b e => by injection e)
    (a := (esDec env o (s.es (eidDec x.entity_id)) x).1) hc
  obtain ⟨m, hm, hc⟩ := hm
  have W := (hd.2 ⟨.inr rfl, by
    simp only [esDec, hm, Option.map_some, Option.getD_some]
    exact hc, vpsDec_unseparated hu⟩).dr
  simp only [esDec, h0, Option.map_none, Option.getD_none] at W
  have := W.1
  change (UInt8.ofNat x.dr_algorithm).toNat = 0 ∨ 9 < (UInt8.ofNat x.dr_algorithm).toNat at this
  rw [toNat_u8_ofNat (by omega)] at this
  omega

/-- **C82**, violated: a shot whose descriptor is not of the kind that the header announces. -/
theorem C82_fire_violated {env : Codec.Env} {p : Cdis.CdisPdu} {x : Cdis.Fire} (hr : readFromBits env.toEnv p) (hb : p.body = .fire x)
    (hn : ¬(x.descriptor_entity_type.kind = 8 ↔ p.header.pdu_status.fire_type_indicator.getD 0 ≠ 0)) (o : Options) (s : DecState) :
    neverRead env.toEnv (pduDec env o s p).1 := by
  obtain ⟨hd, b⟩ := p
  dsimp only at hb hn
  subst hb
  intro bs r h
  obtain ⟨c, hc⟩ := pdu_body h
  rw [Dis.parseBody_fire _ rfl] at hc
  obtain ⟨d, hM⟩ := body_takes Rd.spec (f := .fire) (fun a b e => by injection e) (a := fireDec env x) hc
  have M : (fireDescriptorDec x).MatchesFti (hd.pdu_status.fire_type_indicator.getD 0) := hM.2
  obtain ⟨b0, r0, hr⟩ := hr
  have hx : x.descriptor_entity_type.kind < 2 ^ 4 := (pdu_read _ _ _ _ hr).body.2
  have hk : x.descriptor_entity_type.kind < 256 := Nat.lt_trans hx (by decide)
  have hk8 : (etypeDec x.descriptor_entity_type).kind = 8 ↔ x.descriptor_entity_type.kind = 8 := u8_eq_iff hk (by decide)
  have hk2 : (etypeDec x.descriptor_entity_type).kind = 2 ↔ x.descriptor_entity_type.kind = 2 := u8_eq_iff hk (by decide)
  unfold fireDescriptorDec at M
  simp only [hk2, hk8] at M
  apply hn
  split at M
  · exact ⟨fun h8 => by omega, fun hne => absurd M hne⟩
  · split at M
    · exact ⟨fun _ => M, fun _ => by assumption⟩
    · exact ⟨fun h8 => absurd h8 (by assumption), fun hne => absurd M hne⟩

/-- **C82**, violated: a detonation whose descriptor is not of the kind that the header announces. -/
theorem C82_detonation_violated {env : Codec.Env} {p : Cdis.CdisPdu} {x : Cdis.Detonation} (hr : readFromBits env.toEnv p) (hb : p.body = .detonation x)
    (hn : (x.descriptor_entity_type.kind = 2 ∧ p.header.pdu_status.detonation_type_indicator.getD 0 ≠ 0)
      ∨ (x.descriptor_entity_type.kind = 8 ∧ (p.header.pdu_status.detonation_type_indicator.getD 0 = 0
          ∨ p.header.pdu_status.detonation_type_indicator.getD 0 = 2))
      ∨ (x.descriptor_entity_type.kind ≠ 2 ∧ x.descriptor_entity_type.kind ≠ 8
          ∧ p.header.pdu_status.detonation_type_indicator.getD 0 ≠ 2)) (o : Options) (s : DecState) :
    neverRead env.toEnv (pduDec env o s p).1 := by
  obtain ⟨hd, b⟩ := p
  dsimp only at hb hn
  subst hb
  intro bs r h
  obtain ⟨c, hc⟩ := pdu_body h
  rw [Dis.parseBody_detonation _ rfl] at hc
  obtain ⟨d, hM⟩ := body_takes Rd.spec (f := .detonation) (fun a b e => by injection e) (a := detonationDec env x) hc
  have M : (detonationDescriptorDec x).MatchesDti (hd.pdu_status.detonation_type_indicator.getD 0) := hM.2.1
  obtain ⟨b0, r0, hr⟩ := hr
  have hx : x.descriptor_entity_type.kind < 2 ^ 4 := (pdu_read _ _ _ _ hr).body.2.1
  have hk : x.descriptor_entity_type.kind < 256 := Nat.lt_trans hx (by decide)
  have hk8 : (etypeDec x.descriptor_entity_type).kind = 8 ↔ x.descriptor_entity_type.kind = 8 := u8_eq_iff hk (by decide)
  have hk2 : (etypeDec x.descriptor_entity_type).kind = 2 ↔ x.descriptor_entity_type.kind = 2 := u8_eq_iff hk (by decide)
  unfold detonationDescriptorDec at M
  simp only [hk2, hk8] at M
  rcases hn with ⟨k, d⟩ | ⟨k, d⟩ | ⟨k2, k8, d⟩
  · rw [if_pos k] at M; exact d M
  · rw [if_neg (by omega), if_pos k] at M
    rcases d with d | d
    exacts [M.1 d, M.2 d]
  · rw [if_neg k2, if_neg k8] at M; exact d M

/-- **C82**, violated: radio data of the two classes that C-DIS does not decode. -/
theorem C82_signal_violated {env : Codec.Env} {p : Cdis.CdisPdu} {x : Cdis.Signal} (hb : p.body = .signal x)
    (h2 : 2 ≤ x.encoding_scheme.encoding_class) (o : Options) (s : DecState) :
    neverRead env.toEnv (pduDec env o s p).1 := by
  obtain ⟨hd, b⟩ := p
  dsimp only at hb
  subst hb
  intro bs r h
  obtain ⟨c, hc⟩ := pdu_body h
  rw [Dis.parseBody_signal _ rfl] at hc
  obtain ⟨d, hM⟩ := body_takes Rd.spec (f := .signal) (fun a b e => by injection e) (a := signalDec x) hc
  have M : (schemeDec x.encoding_scheme).Wf _ := hM.2.scheme
  unfold schemeDec at M
  rw [if_neg (by omega), if_neg (by omega)] at M
  exact M

/-- **C82**, violated: radio data that is no whole number of words of 32 bits.  The PDU is read, but octets of its own are left
in front of whatever follows it. -/
theorem C82_padding_violated {env : Codec.Env} {p : Cdis.CdisPdu} {x : Cdis.Signal} (hr : readFromBits env.toEnv p) (hb : p.body = .signal x)
    (h1 : x.encoding_scheme.encoding_class ≤ 1) (h4 : x.data.length % 4 ≠ 0) (o : Options) (s : DecState) (rest : Bytes) :
    (Dis.pdu env.toEnv).run ((pduDec env o s p).1.ser ++ rest) = .ok (pduDec env o s p).1 (zeros (4 - x.data.length % 4) ++ rest) := by
  obtain ⟨b0, r0, hr⟩ := hr
  obtain ⟨hh, hq⟩ := pdu_read _ _ _ _ hr
  obtain ⟨hd, b⟩ := p
  dsimp only at hb hh hq
  subst hb
  obtain ⟨t, hs, hl⟩ := hq
  have W := header_onward hh (.signal (signalDec x)) (by rw [t]; rfl)
  have := C14_signal_general env.toEnv W rfl (signalDec_wf hs hl h1) rest
  have e : (Dis.lengthPaddedToNum (signalDec x).data.length 4).padding_length = 4 - x.data.length % 4 := by
    have e1 : (signalDec x).data.length = x.data.length := by simp [signalDec, bytesDec]
    rw [e1]
    simp [Dis.lengthPaddedToNum, h4]
  rw [e] at this
  exact this

/-- A datum of five octets. -/
def oddDatum : Cdis.CdisPdu := ⟨⟨1, 1, 19, 5, 0, Dis.parsePduStatusFields 19 0⟩, .setData ⟨⟨1, 2, 3⟩, ⟨4, 5, 6⟩, 7, ⟨[], [⟨9, [1, 2, 3, 4, 5]⟩]⟩⟩⟩
theorem oddDatum_lost : (Dis.pdu codecEnv.toEnv).run (pduDec codecEnv {} {} oddDatum).1.ser ≠ .ok (pduDec codecEnv {} {} oddDatum).1 [] := by
  decide +kernel
/-- **C82**, violated: a variable datum that is no whole number of words of 64 bits. -/
theorem C82_datum_violated : readFromBits codecEnv.toEnv oddDatum ∧ (pduDec codecEnv {} {} oddDatum).1.body = .setData
      ⟨⟨⟨1, 2⟩, 3⟩, ⟨⟨4, 5⟩, 6⟩, 7, [], [⟨9, [1, 2, 3, 4, 5]⟩]⟩
    ∧ (Dis.pdu codecEnv.toEnv).run (pduDec codecEnv {} {} oddDatum).1.ser ≠ .ok (pduDec codecEnv {} {} oddDatum).1 [] := by
  have w : oddDatum.Wf codecEnv.toEnv := ⟨⟨by decide, by decide, by decide, by decide, by decide, C02_read_wf 19 0⟩, rfl, by unfold Cdis.DataBody.Wf; decide +kernel⟩
  exact ⟨⟨oddDatum.ser, [], by simpa [show oddDatum.wire = oddDatum from rfl] using Cdis.CdisPdu.run w []⟩, rfl, oddDatum_lost⟩

/-- An IFF PDU that announces layer 3, of a system that is neither a transponder nor an interrogator, as bits. -/
def vagueLayer : Cdis.Bits := (Cdis.CdisPdu.ser ⟨⟨1, 1, 28, 5, 0, Dis.parsePduStatusFields 28 0⟩, .iff ⟨0, true, ⟨1, 2, 3⟩, none, none, some ⟨9, 1, 1, 0⟩, 1, none,
    ⟨0, none, 16, none, none, none, none, none, none, none⟩, none, none, none, none⟩⟩) ++ List.replicate 80 false
/-- What they are read as. -/
def vagueRead : Cdis.CdisPdu := ⟨⟨1, 1, 28, 5, 0, Dis.parsePduStatusFields 28 0⟩, .iff ⟨0, true, ⟨1, 2, 3⟩, none, none, some ⟨9, 1, 1, 0⟩, 1, none,
    ⟨0, none, 16, none, none, none, none, none, none, none⟩, none, some ⟨⟨0, 0, 0⟩, 0, 0, .transponder 0 0 0 0 0 0 0 0, []⟩, none, none⟩⟩
theorem vague_read : (Cdis.CdisPdu.parse vagueEnv).run vagueLayer = .ok vagueRead (List.replicate 33 false) := by decide +kernel
theorem vague_lost : (Dis.pdu vagueEnv).run (pduDec { codecEnv with toEnv := vagueEnv } {} {} vagueRead).1.ser
    ≠ .ok (pduDec { codecEnv with toEnv := vagueEnv } {} {} vagueRead).1 [] := by decide +kernel
/-- **C82**, violated: basic data of Mode 5 that are neither of a transponder nor of an interrogator are made up, and written,
but not read. -/
theorem C82_iff_violated : readFromBits vagueEnv vagueRead
    ∧ (Dis.pdu vagueEnv).run (pduDec { codecEnv with toEnv := vagueEnv } {} {} vagueRead).1.ser
      ≠ .ok (pduDec { codecEnv with toEnv := vagueEnv } {} {} vagueRead).1 [] := ⟨⟨_, _, vague_read⟩, vague_lost⟩

/-! ### The hypotheses can be met -/

/-- a full update and a partial update of the same entity -/
def onwardFull : Cdis.CdisPdu := ⟨⟨1, 1, 1, 5, 0, Dis.parsePduStatusFields 1 0⟩, .entityState { fullEntityState with
  variable_parameters := [.attached ⟨1, 7, 3, ⟨1, 2, 225, 1, 3, 0, 0⟩⟩] }⟩
def onwardPartial : Cdis.CdisPdu := ⟨⟨1, 1, 1, 9, 0, Dis.parsePduStatusFields 1 0⟩, .entityState { partialEntityState with dr_params_other := some 5 }⟩
theorem onwardFull_wf (env : Codec.Env) : onwardFull.Wf env.toEnv :=
  ⟨⟨by decide, by decide, by decide, by decide, by decide, C02_read_wf 1 0⟩, rfl, by unfold Cdis.EntityState.Wf; decide +kernel⟩
theorem onwardPartial_wf (env : Codec.Env) : onwardPartial.Wf env.toEnv :=
  ⟨⟨by decide, by decide, by decide, by decide, by decide, C02_read_wf 1 0⟩, rfl, by unfold Cdis.EntityState.Wf; decide +kernel⟩
theorem C82_witness (env : Codec.Env) : (∀ p ∈ [onwardFull.wire, onwardPartial.wire], (readFromBits env.toEnv p ∧ steady p) ∧ presentable env.toEnv p)
    ∧ ∃ v, onwardPartial.wire.body = .entityState v ∧ v.full_update_flag = false ∧ v.entity_type = none ∧ v.entity_marking = none := by
  have w1 := onwardFull_wf env
  have w2 := onwardPartial_wf env
  have s1 : steady onwardFull.wire := by
    refine ⟨nofun, fun m hm => ?_⟩
    have e : m = ⟨.five, "ECHO1".toList⟩ := by injection hm with h; exact h.symm
    subst e
    unfold carriedMarking
    decide +kernel
  have s2 : steady onwardPartial.wire := ⟨fun _ => rfl, nofun⟩
  refine ⟨?_, _, rfl, rfl, rfl, rfl⟩
  intro p hp
  rcases List.mem_cons.1 hp with rfl | hp
  · refine ⟨⟨⟨onwardFull.ser, [], by simpa using Cdis.CdisPdu.run w1 []⟩, s1⟩, s1, nofun, ?_⟩
    intro p hp
    have : p = .attached ⟨1, 7, 3, ⟨1, 2, 225, 1, 3, 0, 0⟩⟩ := List.mem_singleton.1 hp
    subst this
    exact ⟨nofun, nofun⟩
  · rw [List.mem_singleton] at hp
    subst hp
    exact ⟨⟨⟨onwardPartial.ser, [], by simpa using Cdis.CdisPdu.run w2 []⟩, s2⟩, s2, nofun, nofun⟩

/-- an IFF PDU with layers 3, 4 and 5 -/
def onwardLayers : Cdis.Iff := ⟨0, false, ⟨1, 2, 3⟩, none, none, some ⟨9, 1, 1, 0⟩, 1, none, ⟨0, none, 28, none, none, none, none, none, none, none⟩,
  none, sample_iff.layer_3.map fun l => { layer3Enc l with layer_header := ⟨3, 0, 0⟩ },
  sample_iff.layer_4.map fun l => { layer4Enc l with layer_header := ⟨4, 0, 0⟩ }, some ⟨⟨5, 0, 0⟩, 1, 2, 12, 3, [⟨5, [1, 2]⟩]⟩⟩
def onwardIff : Cdis.CdisPdu := ⟨⟨1, 1, 28, 5, 0, Dis.parsePduStatusFields 28 0⟩, .iff onwardLayers⟩
theorem C82_iff_witness : readFromBits codecEnv.toEnv onwardIff.wire ∧ steady onwardIff.wire ∧ presentable codecEnv.toEnv onwardIff.wire
    ∧ ∃ v l3 l4 l5, onwardIff.wire.body = .iff v ∧ v.layer_3 = some l3 ∧ v.layer_4 = some l4 ∧ v.layer_5 = some l5 := by
  have w : onwardIff.Wf codecEnv.toEnv := ⟨⟨by decide, by decide, by decide, by decide, by decide, C02_read_wf 28 0⟩, rfl, by
    unfold Cdis.Iff.Wf; decide +kernel⟩
  have k : kindKnown codecEnv.toEnv onwardLayers.wire := ⟨_, rfl, by decide +kernel⟩
  refine ⟨⟨onwardIff.ser, [], by simpa using Cdis.CdisPdu.run w []⟩, trivial, ⟨?_, ?_, ?_⟩, _, _, _, _, rfl, rfl, rfl, rfl⟩
  · rintro l ⟨⟩
    exact ⟨k, by unfold wholeRecords; decide +kernel⟩
  · rintro l ⟨⟩
    refine ⟨k, by unfold wholeRecords; decide +kernel, ?_⟩
    show carriedName (.transponder _ _ _ _ _ _ _ _ _)
    exact ⟨by decide +kernel, by decide +kernel, fun b hb => by injection hb with hb; subst hb; decide +kernel⟩
  · rintro l ⟨⟩
    unfold wholeRecords; decide +kernel

end Verif.Props

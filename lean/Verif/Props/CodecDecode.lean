import Verif.Props.CodecEncode

/-! # Properties of the C-DIS decoder over histories (C38) -/

set_option linter.unusedSimpArgs false

namespace Verif.Props
open Verif.Codec

/-! ## Specification: what it means that a full update was received -/

/-- A full entity state update of entity `e` came in. -/
def EsFullGot (e : Dis.EntityId) (c : Cdis.CdisBody) (b : Dis.Body) : Prop :=
  ∃ y x, c = .entityState y ∧ b = .entityState x ∧ eidDec y.entity_id = e ∧ y.full_update_flag = true
def DesFullGot (e : Dis.EntityId) (c : Cdis.CdisBody) (b : Dis.Body) : Prop :=
  ∃ y x, c = .designator y ∧ b = .designator x ∧ eidDec y.designating_entity_id = e ∧ y.full_update_flag = true
def TxFullGot (e : Dis.EntityId × UInt16) (c : Cdis.CdisBody) (b : Dis.Body) : Prop :=
  ∃ y x, c = .transmitter y ∧ b = .transmitter x ∧ (eidDec y.radio_reference_id, UInt16.ofNat y.radio_number) = e ∧
    y.full_update_flag = true
def IffFullGot (e : Dis.EntityId) (c : Cdis.CdisBody) (b : Dis.Body) : Prop :=
  ∃ y x, c = .iff y ∧ b = .iff x ∧ eidDec y.emitting_entity_id = e ∧ y.full_update_flag = true
def EeFullGot (e : Dis.EntityId) (c : Cdis.CdisBody) (b : Dis.Body) : Prop :=
  ∃ y x, c = .electromagneticEmission y ∧ b = .electromagneticEmission x ∧ eidDec y.emitting_id = e ∧ y.full_update_flag = true

/-- The fields of an entity state that partial updates leave out, without the marking. -/
structure EsFields where
  force_id : UInt8
  entity_type : Dis.EntityType
  entity_location : Dis.Location
  entity_orientation : Dis.Orientation
  entity_appearance : Dis.EntityAppearance
  deriving DecidableEq
def esFields (x : Dis.EntityState) : EsFields :=
  ⟨x.force_id, x.entity_type, x.entity_location, x.entity_orientation, x.entity_appearance⟩
/-- What an absent field stands for when nothing was received before. -/
def noEsFields : EsFields := ⟨0, ⟨0, 0, 0, 0, 0, 0, 0⟩, ⟨0, 0, 0⟩, ⟨0, 0, 0⟩, ⟨.unspecified, 0⟩⟩

/-- Each field is that of the update if it carries it and otherwise that of `old`. -/
def EsFilled (env : Env) (y : Cdis.EntityState) (old : EsFields) (x : Dis.EntityState) : Prop :=
  x.force_id = (match y.force_id with | some v => UInt8.ofNat v | none => old.force_id) ∧
  x.entity_type = (match y.entity_type with | some v => etypeDec v | none => old.entity_type) ∧
  x.entity_location = (match y.entity_location with | some v => worldDec env v y.units | none => old.entity_location) ∧
  x.entity_orientation = (match y.entity_orientation with | some v => orientDec v | none => old.entity_orientation) ∧
  x.entity_appearance = (match y.entity_appearance with
    | some v => Dis.EntityAppearance.fromBytes env.toEnv (UInt32.ofNat v) x.entity_type
    | none => old.entity_appearance)

/-! ## Steps -/

/-- The stored fields, without the marking. -/
def storedFields (s : EsState) : EsFields :=
  ⟨s.force_id, s.entity_type, s.entity_location, s.entity_orientation, s.entity_appearance⟩
def bodyEsFields (b : Dis.Body) : EsFields :=
  match b with
  | .entityState x => esFields x
  | _ => noEsFields
def bodyMarking (b : Dis.Body) : Dis.EntityMarking :=
  match b with
  | .entityState x => x.entity_marking
  | _ => defaultMarking

theorem esDec_result {env : Env} {o : Options} (hm : o.update_mode = .partial) {st : Option EsState} {y : Cdis.EntityState} :
    (esDec env o st y).2 = .entityState ↔ y.full_update_flag = true := by
  unfold esDec
  dsimp only
  cases y.full_update_flag <;> simp [hm]

theorem esStore_fields (st : Option EsState) (x : Dis.EntityState) : storedFields (esStore st x) = esFields x := by
  cases st <;> rfl
theorem esStore_marking (st : Option EsState) (x : Dis.EntityState) :
    (esStore st x).entity_marking = (st.map (·.entity_marking)).getD x.entity_marking := by
  cases st <;> rfl

macro "other_dec" : tactic => `(tactic|
  (refine ⟨fun hp => ?_, fun _ => ?_⟩
   · obtain ⟨x', y', h1, _⟩ := hp
     cases h1
   · first
       | rfl
       | (simp only [bodyDec, esDecodeBody, eeDecodeBody, desDecodeBody, txDecodeBody, iffDecodeBody]; split <;> rfl)))

theorem es_dec_step {env : Env} {o : Options} (hm : o.update_mode = .partial) (e : Dis.EntityId) (s : DecState) (c : Cdis.CdisBody) :
    (EsFullGot e c (bodyDec env o s c).1 →
      ((bodyDec env o s c).2.2.es e).map storedFields = some (bodyEsFields (bodyDec env o s c).1)) ∧
    (¬ EsFullGot e c (bodyDec env o s c).1 → ((bodyDec env o s c).2.2.es e).map storedFields = (s.es e).map storedFields) := by
  cases c with
  | entityState y =>
    simp only [bodyDec, esDecodeBody]
    have hr := esDec_result (env := env) hm (st := s.es (eidDec y.entity_id)) (y := y)
    constructor
    · rintro ⟨y', x', h1, h2, h3, h4⟩
      cases h1
      rw [if_pos (hr.2 h4)]
      simp [Map.set, h3, bodyEsFields, esStore_fields]
    · intro hn
      split
      · rename_i hr'
        have : e ≠ eidDec y.entity_id := by
          intro hx
          exact hn ⟨y, _, rfl, rfl, hx.symm, hr.1 hr'⟩
        simp [Map.set, this]
      · rfl
  | _ => other_dec

theorem es_dec_marking_step {env : Env} {o : Options} (hm : o.update_mode = .partial) (e : Dis.EntityId) (s : DecState) (c : Cdis.CdisBody) :
    (EsFullGot e c (bodyDec env o s c).1 →
      ((bodyDec env o s c).2.2.es e).map EsState.entity_marking =
        some (((s.es e).map EsState.entity_marking).getD (bodyMarking (bodyDec env o s c).1))) ∧
    (¬ EsFullGot e c (bodyDec env o s c).1 →
      ((bodyDec env o s c).2.2.es e).map EsState.entity_marking = (s.es e).map EsState.entity_marking) := by
  cases c with
  | entityState y =>
    simp only [bodyDec, esDecodeBody]
    have hr := esDec_result (env := env) hm (st := s.es (eidDec y.entity_id)) (y := y)
    constructor
    · rintro ⟨y', x', h1, h2, h3, h4⟩
      cases h1
      rw [if_pos (hr.2 h4)]
      simp [Map.set, h3, bodyMarking, esStore_marking]
    · intro hn
      split
      · rename_i hr'
        have : e ≠ eidDec y.entity_id := by
          intro hx
          exact hn ⟨y, _, rfl, rfl, hx.symm, hr.1 hr'⟩
        simp [Map.set, this]
      · rfl
  | _ => other_dec

theorem esDec_partial {env : Env} {o : Options} (hm : o.update_mode = .partial) {st : Option EsState} {y : Cdis.EntityState}
    (hf : y.full_update_flag = false) :
    EsFilled env y ((st.map storedFields).getD noEsFields) (esDec env o st y).1 ∧
    (esDec env o st y).1.entity_marking = (match y.entity_marking with
      | some m => ⟨1, charsOctets m.marking⟩
      | none => (st.map EsState.entity_marking).getD defaultMarking) := by
  unfold esDec EsFilled
  simp only [hm, hf, and_self, if_true]
  cases st <;> cases y.force_id <;> cases y.entity_type <;> cases y.entity_location <;> cases y.entity_orientation <;>
    cases y.entity_appearance <;> cases y.entity_marking <;> exact ⟨⟨rfl, rfl, rfl, rfl, rfl⟩, rfl⟩

theorem esDec_full {env : Env} {o : Options} {st : Option EsState} {y : Cdis.EntityState}
    (hf : y.full_update_flag = true ∨ o.update_mode = .full) :
    EsFilled env y noEsFields (esDec env o st y).1 ∧
    (esDec env o st y).1.entity_marking = (match y.entity_marking with
      | some m => ⟨1, charsOctets m.marking⟩
      | none => defaultMarking) := by
  have hc : ¬ (o.update_mode = .partial ∧ y.full_update_flag = false) := by
    rcases hf with hf | hf <;> simp [hf]
  unfold esDec EsFilled
  simp only [if_neg hc]
  cases y.force_id <;> cases y.entity_type <;> cases y.entity_location <;> cases y.entity_orientation <;>
    cases y.entity_appearance <;> cases y.entity_marking <;> exact ⟨⟨rfl, rfl, rfl, rfl, rfl⟩, rfl⟩

theorem bodyEsFields_of {b : Dis.Body} {x : Dis.EntityState} (h : b = .entityState x) : bodyEsFields b = esFields x := by
  subst h; rfl
theorem bodyMarking_of {b : Dis.Body} {x : Dis.EntityState} (h : b = .entityState x) : bodyMarking b = x.entity_marking := by
  subst h; rfl

theorem EsFullGot.body {e : Dis.EntityId} {inp : List Cdis.CdisPdu} {out : List Dis.Pdu} {j : Nat}
    (h : DecAt (EsFullGot e) inp out j) {p : Dis.Pdu} (hp : out[j]? = some p) : ∃ x, p.body = .entityState x := by
  obtain ⟨c, p', h1, h2, y, x, h3, h4, h5⟩ := h
  rw [hp] at h2
  cases h2
  exact ⟨x, h4⟩

/-- In partial-update mode, whatever was received before: the fields that a partial entity state update leaves out are those
of the last full update of the same entity (or the defaults if there was none) — except the marking, which is that of the
*first* full update. -/
theorem C38_entity_state {env : Env} {o : Options} (hm : o.update_mode = .partial) {inp : List Cdis.CdisPdu}
    {out : List Dis.Pdu} {s : DecState} (h : decStream env o {} inp = (out, s)) {i c y} (hi : inp[i]? = some c)
    (hc : c.body = .entityState y) (hf : y.full_update_flag = false) :
    ∃ p x, out[i]? = some p ∧ p.body = .entityState x ∧
      ((∃ j pj xj, LastBefore (DecAt (EsFullGot (eidDec y.entity_id)) inp out) i j ∧ out[j]? = some pj ∧
          pj.body = .entityState xj ∧ EsFilled env y (esFields xj) x) ∨
        ((∀ m, m < i → ¬ DecAt (EsFullGot (eidDec y.entity_id)) inp out m) ∧ EsFilled env y noEsFields x)) ∧
      ((∃ j pj xj, FirstBefore (DecAt (EsFullGot (eidDec y.entity_id)) inp out) i j ∧ out[j]? = some pj ∧
          pj.body = .entityState xj ∧ (y.entity_marking = none → x.entity_marking = xj.entity_marking)) ∨
        ((∀ m, m < i → ¬ DecAt (EsFullGot (eidDec y.entity_id)) inp out m) ∧
          (y.entity_marking = none → x.entity_marking = defaultMarking))) := by
  obtain ⟨si, hsi, h1, h2⟩ := dec_memory_at (fun s => (s.es (eidDec y.entity_id)).map storedFields) (EsFullGot (eidDec y.entity_id))
    bodyEsFields (fun s c => es_dec_step hm _ s c) rfl h hi
  obtain ⟨si', hsi', h1', h2'⟩ := dec_first_at (fun s => (s.es (eidDec y.entity_id)).map EsState.entity_marking)
    (EsFullGot (eidDec y.entity_id)) bodyMarking (fun s c => es_dec_marking_step hm _ s c) rfl h hi
  rw [← hsi] at hsi'
  subst hsi'
  have hb : (pduDec env o si' c).1.body = .entityState (esDec env o (si'.es (eidDec y.entity_id)) y).1 := by
    simp only [pduDec, Dis.Pdu.finalizeFromParts, hc, bodyDec, esDecodeBody]
  have hp := esDec_partial (env := env) hm (st := si'.es (eidDec y.entity_id)) hf
  refine ⟨_, _, h1, hb, ?_, ?_⟩
  · rcases h2 with ⟨j, pj, a1, a2, a3⟩ | ⟨a1, a2⟩
    · obtain ⟨xj, hxj⟩ := EsFullGot.body a1.2.1 a2
      left
      refine ⟨j, pj, xj, a1, a2, hxj, ?_⟩
      have := hp.1
      rw [a3, bodyEsFields_of hxj] at this
      exact this
    · right
      refine ⟨a1, ?_⟩
      have := hp.1
      rw [a2] at this
      exact this
  · rcases h2' with ⟨j, pj, a1, a2, a3⟩ | ⟨a1, a2⟩
    · obtain ⟨xj, hxj⟩ := EsFullGot.body a1.2.1 a2
      left
      refine ⟨j, pj, xj, a1, a2, hxj, fun hn => ?_⟩
      rw [hp.2, hn, a3, bodyMarking_of hxj]
      rfl
    · right
      refine ⟨a1, fun hn => ?_⟩
      rw [hp.2, hn, a2]
      rfl

/-! ## Designator -/

/-- Each field is that of the update if it carries it and otherwise that of `old`. -/
def DesFilled (env : Env) (y : Cdis.Designator) (old : DesState) (x : Dis.Designator) : Prop :=
  x.system_name = (match y.code_name with | some v => UInt16.ofNat v | none => old.code_name) ∧
  x.code = (match y.designator_code with | some v => UInt16.ofNat v | none => old.designator_code) ∧
  x.power = (match y.designator_power with | some v => b32 (int32 v) | none => old.designator_power) ∧
  x.wavelength = (match y.designator_wavelength with | some v => b32 (int32 v) | none => old.designator_wavelength) ∧
  x.spot_location = (match y.designator_spot_location with
    | some v => worldDec env v y.units_altitude
    | none => old.designator_spot_location)

def noDes : DesState := ⟨0, 0, 0, 0, ⟨0, 0, 0⟩⟩
def bodyDes (b : Dis.Body) : DesState :=
  match b with
  | .designator x => .of x
  | _ => noDes
theorem bodyDes_of {b : Dis.Body} {x : Dis.Designator} (h : b = .designator x) : bodyDes b = .of x := by
  subst h; rfl

theorem desDec_result {env : Env} {st : Option DesState} {y : Cdis.Designator} :
    (desDec env st y).2 = .designator ↔ y.full_update_flag = true := by
  unfold desDec
  dsimp only
  cases y.full_update_flag <;> simp

theorem des_dec_step {env : Env} {o : Options} (e : Dis.EntityId) (s : DecState) (c : Cdis.CdisBody) :
    (DesFullGot e c (bodyDec env o s c).1 → (bodyDec env o s c).2.2.designator e = some (bodyDes (bodyDec env o s c).1)) ∧
    (¬ DesFullGot e c (bodyDec env o s c).1 → (bodyDec env o s c).2.2.designator e = s.designator e) := by
  cases c with
  | designator y =>
    simp only [bodyDec, desDecodeBody]
    have hr := desDec_result (env := env) (st := s.designator (eidDec y.designating_entity_id)) (y := y)
    constructor
    · rintro ⟨y', x', h1, h2, h3, h4⟩
      cases h1
      rw [if_pos (hr.2 h4)]
      simp [Map.set, h3, bodyDes]
    · intro hn
      split
      · rename_i hr'
        have : e ≠ eidDec y.designating_entity_id := by
          intro hx
          exact hn ⟨y, _, rfl, rfl, hx.symm, hr.1 hr'⟩
        simp [Map.set, this]
      · rfl
  | _ => other_dec

theorem desDec_partial {env : Env} {st : Option DesState} {y : Cdis.Designator} (hf : y.full_update_flag = false) :
    DesFilled env y (st.getD noDes) (desDec env st y).1 := by
  unfold desDec DesFilled
  simp only [hf, if_false]
  cases st <;> cases y.code_name <;> cases y.designator_code <;> cases y.designator_power <;> cases y.designator_wavelength <;>
    cases y.designator_spot_location <;> exact ⟨rfl, rfl, rfl, rfl, rfl⟩

theorem DesFullGot.body {e : Dis.EntityId} {inp : List Cdis.CdisPdu} {out : List Dis.Pdu} {j : Nat}
    (h : DecAt (DesFullGot e) inp out j) {p : Dis.Pdu} (hp : out[j]? = some p) : ∃ x, p.body = .designator x := by
  obtain ⟨c, p', h1, h2, y, x, h3, h4, h5⟩ := h
  rw [hp] at h2
  cases h2
  exact ⟨x, h4⟩

/-- The same for designator PDUs, in both modes. -/
theorem C38_designator {env : Env} {o : Options} {inp : List Cdis.CdisPdu}
    {out : List Dis.Pdu} {s : DecState} (h : decStream env o {} inp = (out, s)) {i c y} (hi : inp[i]? = some c)
    (hc : c.body = .designator y) (hf : y.full_update_flag = false) :
    ∃ p x, out[i]? = some p ∧ p.body = .designator x ∧
      ((∃ j pj xj, LastBefore (DecAt (DesFullGot (eidDec y.designating_entity_id)) inp out) i j ∧ out[j]? = some pj ∧
          pj.body = .designator xj ∧ DesFilled env y (.of xj) x) ∨
        ((∀ m, m < i → ¬ DecAt (DesFullGot (eidDec y.designating_entity_id)) inp out m) ∧ DesFilled env y noDes x)) := by
  obtain ⟨si, hsi, h1, h2⟩ := dec_memory_at (fun s => s.designator (eidDec y.designating_entity_id))
    (DesFullGot (eidDec y.designating_entity_id)) bodyDes (fun s c => des_dec_step _ s c) rfl h hi
  have hb : (pduDec env o si c).1.body = .designator (desDec env (si.designator (eidDec y.designating_entity_id)) y).1 := by
    simp only [pduDec, Dis.Pdu.finalizeFromParts, hc, bodyDec, desDecodeBody]
  have hp := desDec_partial (env := env) (st := si.designator (eidDec y.designating_entity_id)) hf
  refine ⟨_, _, h1, hb, ?_⟩
  rcases h2 with ⟨j, pj, a1, a2, a3⟩ | ⟨a1, a2⟩
  · obtain ⟨xj, hxj⟩ := DesFullGot.body a1.2.1 a2
    left
    refine ⟨j, pj, xj, a1, a2, hxj, ?_⟩
    have hst : (si.designator (eidDec y.designating_entity_id)).getD noDes = .of xj := by
      rw [a3, bodyDes_of hxj]; rfl
    rw [hst] at hp
    exact hp
  · right
    refine ⟨a1, ?_⟩
    have hst : (si.designator (eidDec y.designating_entity_id)).getD noDes = noDes := by
      rw [a2]; rfl
    rw [hst] at hp
    exact hp

/-! ## Transmitter -/

/-- Each field is that of the update if it carries it and otherwise that of `old`; an absent relative antenna location is zero. -/
def TxFilled (env : Env) (y : Cdis.Transmitter) (old : TxState) (x : Dis.Transmitter) : Prop :=
  x.radio_type = (match y.radio_type with | some v => etypeDec v | none => old.radio_type) ∧
  x.antenna_location = (match y.antenna_location with | some v => worldDec env v y.units_altitude | none => old.antenna_location) ∧
  x.relative_antenna_location = (match y.relative_antenna_location with
    | some v => coordDec v y.units_relative
    | none => ⟨0, 0, 0⟩) ∧
  x.frequency = (match y.frequency with | some v => txFreqDec v | none => old.frequency) ∧
  x.transmit_frequency_bandwidth = (match y.transmit_frequency_bandwidth with
    | some v => freqDec v
    | none => old.transmit_frequency_bandwidth) ∧
  x.power = (match y.power with | some v => b32 (int32 v) | none => old.power) ∧
  x.modulation_type = (match y.modulation_type with | some v => modTypeDec v | none => old.modulation_type)

def noTx : TxState := ⟨⟨0, 0, 0, 0, 0, 0, 0⟩, ⟨0, 0, 0⟩, 0, 0, 0, ⟨[0, 0, 0], 0, 0, 0⟩⟩
def bodyTx (b : Dis.Body) : TxState :=
  match b with
  | .transmitter x => .of x
  | _ => noTx
theorem bodyTx_of {b : Dis.Body} {x : Dis.Transmitter} (h : b = .transmitter x) : bodyTx b = .of x := by
  subst h; rfl

theorem txDec_result {env : Env} {o : Options} (hm : o.update_mode = .partial) {st : Option TxState} {y : Cdis.Transmitter} :
    (txDec env o st y).2 = .transmitter ↔ y.full_update_flag = true := by
  unfold txDec
  dsimp only
  cases y.full_update_flag <;> simp [hm]

theorem tx_dec_step {env : Env} {o : Options} (hm : o.update_mode = .partial) (e : Dis.EntityId × UInt16) (s : DecState)
    (c : Cdis.CdisBody) :
    (TxFullGot e c (bodyDec env o s c).1 → (bodyDec env o s c).2.2.transmitter e = some (bodyTx (bodyDec env o s c).1)) ∧
    (¬ TxFullGot e c (bodyDec env o s c).1 → (bodyDec env o s c).2.2.transmitter e = s.transmitter e) := by
  cases c with
  | transmitter y =>
    simp only [bodyDec, txDecodeBody]
    have hr := txDec_result (env := env) hm (st := s.transmitter (eidDec y.radio_reference_id, UInt16.ofNat y.radio_number)) (y := y)
    constructor
    · rintro ⟨y', x', h1, h2, h3, h4⟩
      cases h1
      rw [if_pos (hr.2 h4)]
      simp [Map.set, h3, bodyTx]
    · intro hn
      split
      · rename_i hr'
        have : e ≠ (eidDec y.radio_reference_id, UInt16.ofNat y.radio_number) := by
          intro hx
          exact hn ⟨y, _, rfl, rfl, hx.symm, hr.1 hr'⟩
        simp [Map.set, this]
      · rfl
  | _ => other_dec

theorem txDec_partial {env : Env} {o : Options} (hm : o.update_mode = .partial) {st : Option TxState} {y : Cdis.Transmitter}
    (hf : y.full_update_flag = false) : TxFilled env y (st.getD noTx) (txDec env o st y).1 := by
  unfold txDec TxFilled
  simp only [hm, hf, and_self, if_true]
  cases st <;> cases y.radio_type <;> cases y.antenna_location <;> cases y.relative_antenna_location <;> cases y.frequency <;>
    cases y.transmit_frequency_bandwidth <;> cases y.power <;> cases y.modulation_type <;>
    exact ⟨rfl, rfl, rfl, rfl, rfl, rfl, rfl⟩

theorem TxFullGot.body {e : Dis.EntityId × UInt16} {inp : List Cdis.CdisPdu} {out : List Dis.Pdu} {j : Nat}
    (h : DecAt (TxFullGot e) inp out j) {p : Dis.Pdu} (hp : out[j]? = some p) : ∃ x, p.body = .transmitter x := by
  obtain ⟨c, p', h1, h2, y, x, h3, h4, h5⟩ := h
  rw [hp] at h2
  cases h2
  exact ⟨x, h4⟩

/-- The same for transmitter PDUs, per entity and radio number. -/
theorem C38_transmitter {env : Env} {o : Options} (hm : o.update_mode = .partial) {inp : List Cdis.CdisPdu}
    {out : List Dis.Pdu} {s : DecState} (h : decStream env o {} inp = (out, s)) {i c y} (hi : inp[i]? = some c)
    (hc : c.body = .transmitter y) (hf : y.full_update_flag = false) :
    ∃ p x, out[i]? = some p ∧ p.body = .transmitter x ∧
      ((∃ j pj xj, LastBefore (DecAt (TxFullGot (eidDec y.radio_reference_id, UInt16.ofNat y.radio_number)) inp out) i j ∧
          out[j]? = some pj ∧ pj.body = .transmitter xj ∧ TxFilled env y (.of xj) x) ∨
        ((∀ m, m < i → ¬ DecAt (TxFullGot (eidDec y.radio_reference_id, UInt16.ofNat y.radio_number)) inp out m) ∧
          TxFilled env y noTx x)) := by
  obtain ⟨si, hsi, h1, h2⟩ := dec_memory_at (fun s => s.transmitter (eidDec y.radio_reference_id, UInt16.ofNat y.radio_number))
    (TxFullGot (eidDec y.radio_reference_id, UInt16.ofNat y.radio_number)) bodyTx (fun s c => tx_dec_step hm _ s c) rfl h hi
  have hb : (pduDec env o si c).1.body =
      .transmitter (txDec env o (si.transmitter (eidDec y.radio_reference_id, UInt16.ofNat y.radio_number)) y).1 := by
    simp only [pduDec, Dis.Pdu.finalizeFromParts, hc, bodyDec, txDecodeBody]
  have hp := txDec_partial (env := env) hm (st := si.transmitter (eidDec y.radio_reference_id, UInt16.ofNat y.radio_number)) hf
  refine ⟨_, _, h1, hb, ?_⟩
  rcases h2 with ⟨j, pj, a1, a2, a3⟩ | ⟨a1, a2⟩
  · obtain ⟨xj, hxj⟩ := TxFullGot.body a1.2.1 a2
    left
    refine ⟨j, pj, xj, a1, a2, hxj, ?_⟩
    have hst : (si.transmitter (eidDec y.radio_reference_id, UInt16.ofNat y.radio_number)).getD noTx = .of xj := by
      rw [a3, bodyTx_of hxj]; rfl
    rw [hst] at hp
    exact hp
  · right
    refine ⟨a1, ?_⟩
    have hst : (si.transmitter (eidDec y.radio_reference_id, UInt16.ofNat y.radio_number)).getD noTx = noTx := by
      rw [a2]; rfl
    rw [hst] at hp
    exact hp

/-! ## IFF -/

def bodySysId (b : Dis.Body) : Dis.SystemId :=
  match b with
  | .iff x => x.system_id
  | _ => defaultSysId
theorem bodySysId_of {b : Dis.Body} {x : Dis.Iff} (h : b = .iff x) : bodySysId b = x.system_id := by
  subst h; rfl

theorem iffDec_result {o : Options} (hm : o.update_mode = .partial) {st : Option Dis.SystemId} {y : Cdis.Iff} :
    (iffDec o st y).2 = .iff ↔ y.full_update_flag = true := by
  unfold iffDec
  dsimp only
  cases y.full_update_flag <;> simp [hm]

theorem iff_dec_step {env : Env} {o : Options} (hm : o.update_mode = .partial) (e : Dis.EntityId) (s : DecState)
    (c : Cdis.CdisBody) :
    (IffFullGot e c (bodyDec env o s c).1 →
      (bodyDec env o s c).2.2.iff e = some ((s.iff e).getD (bodySysId (bodyDec env o s c).1))) ∧
    (¬ IffFullGot e c (bodyDec env o s c).1 → (bodyDec env o s c).2.2.iff e = s.iff e) := by
  cases c with
  | iff y =>
    simp only [bodyDec, iffDecodeBody]
    have hr := iffDec_result hm (st := s.iff (eidDec y.emitting_entity_id)) (y := y)
    constructor
    · rintro ⟨y', x', h1, h2, h3, h4⟩
      cases h1
      rw [if_pos (hr.2 h4)]
      simp [Map.set, h3, bodySysId]
    · intro hn
      split
      · rename_i hr'
        have : e ≠ eidDec y.emitting_entity_id := by
          intro hx
          exact hn ⟨y, _, rfl, rfl, hx.symm, hr.1 hr'⟩
        simp [Map.set, this]
      · rfl
  | _ => other_dec

theorem iffDec_partial {o : Options} (hm : o.update_mode = .partial) {st : Option Dis.SystemId} {y : Cdis.Iff}
    (hf : y.full_update_flag = false) : (iffDec o st y).1.system_id = (match y.system_id with
      | some v => sysIdDec v
      | none => st.getD defaultSysId) := by
  unfold iffDec
  simp only [hm, hf, and_self, if_true]
  cases y.system_id <;> rfl

theorem IffFullGot.body {e : Dis.EntityId} {inp : List Cdis.CdisPdu} {out : List Dis.Pdu} {j : Nat}
    (h : DecAt (IffFullGot e) inp out j) {p : Dis.Pdu} (hp : out[j]? = some p) : ∃ x, p.body = .iff x := by
  obtain ⟨c, p', h1, h2, y, x, h3, h4, h5⟩ := h
  rw [hp] at h2
  cases h2
  exact ⟨x, h4⟩

/-- For IFF PDUs the only field left out is the system id; it is that of the *first* full update of the entity. -/
theorem C38_iff {env : Env} {o : Options} (hm : o.update_mode = .partial) {inp : List Cdis.CdisPdu}
    {out : List Dis.Pdu} {s : DecState} (h : decStream env o {} inp = (out, s)) {i c y} (hi : inp[i]? = some c)
    (hc : c.body = .iff y) (hf : y.full_update_flag = false) :
    ∃ p x, out[i]? = some p ∧ p.body = .iff x ∧
      ((∃ v, y.system_id = some v ∧ x.system_id = sysIdDec v) ∨
       (y.system_id = none ∧ ∃ j pj xj, FirstBefore (DecAt (IffFullGot (eidDec y.emitting_entity_id)) inp out) i j ∧
          out[j]? = some pj ∧ pj.body = .iff xj ∧ x.system_id = xj.system_id) ∨
       (y.system_id = none ∧ (∀ m, m < i → ¬ DecAt (IffFullGot (eidDec y.emitting_entity_id)) inp out m) ∧
          x.system_id = ⟨0, 0, 0, [0, 0, 0, 0, 0, 0, 0, 0]⟩)) := by
  obtain ⟨si, hsi, h1, h2⟩ := dec_first_at (fun s => s.iff (eidDec y.emitting_entity_id))
    (IffFullGot (eidDec y.emitting_entity_id)) bodySysId (fun s c => iff_dec_step hm _ s c) rfl h hi
  have hb : (pduDec env o si c).1.body = .iff (iffDec o (si.iff (eidDec y.emitting_entity_id)) y).1 := by
    simp only [pduDec, Dis.Pdu.finalizeFromParts, hc, bodyDec, iffDecodeBody]
  have hp := iffDec_partial hm (st := si.iff (eidDec y.emitting_entity_id)) hf
  refine ⟨_, _, h1, hb, ?_⟩
  cases hs : y.system_id with
  | some v =>
    left
    refine ⟨v, rfl, ?_⟩
    rw [hp, hs]
  | none =>
    right
    rw [hs] at hp
    rcases h2 with ⟨j, pj, a1, a2, a3⟩ | ⟨a1, a2⟩
    · obtain ⟨xj, hxj⟩ := IffFullGot.body a1.2.1 a2
      left
      refine ⟨rfl, j, pj, xj, a1, a2, hxj, ?_⟩
      rw [hp, a3, bodySysId_of hxj]
      rfl
    · right
      refine ⟨rfl, a1, ?_⟩
      rw [hp, a2]
      rfl

/-! ## Electromagnetic emission -/

/-- The system of an emission PDU with a number, the last one if there are several. -/
def lastSystem (x : Dis.ElectromagneticEmission) (n : UInt8) : Option Dis.EmitterSystem :=
  x.emitter_systems.reverse.find? fun s => decide (s.number = n)

/-- System by system and beam by beam: what the update carries, and otherwise what `old` had for the same numbers. -/
def EeFilled (y : Cdis.ElectromagneticEmission) (old : Option Dis.ElectromagneticEmission) (x : Dis.ElectromagneticEmission) : Prop :=
  x.emitter_systems.length = y.emitter_systems.length ∧
  ∀ (k : Nat) (ys : Cdis.EmitterSystem) (xs : Dis.EmitterSystem), y.emitter_systems[k]? = some ys → x.emitter_systems[k]? = some xs →
    xs.number = UInt8.ofNat ys.number ∧
    xs.name = (match ys.name with
      | some v => UInt16.ofNat v
      | none => match old.bind (lastSystem · xs.number) with | some s => s.name | none => 0) ∧
    xs.function = (match ys.function with
      | some v => UInt8.ofNat v
      | none => match old.bind (lastSystem · xs.number) with | some s => s.function | none => 0) ∧
    xs.location = (match ys.location with
      | some v => coordDec v METER
      | none => match old.bind (lastSystem · xs.number) with | some s => s.location | none => ⟨0, 0, 0⟩) ∧
    xs.beams.length = ys.emitter_beams.length ∧
    ∀ (l : Nat) (yb : Cdis.EmitterBeam) (xb : Dis.Beam), ys.emitter_beams[l]? = some yb → xs.beams[l]? = some xb →
      xb.number = UInt8.ofNat yb.beam_id ∧
      xb.parameter_data = (match yb.fundamental_params_index with
        | some n => paramDec (y.fundamental_params[n]?.getD ⟨⟨0, 0⟩, ⟨0, 0⟩, 0, 0, ⟨0, 0⟩⟩)
        | none => match old.bind (lastParam · (xs.number, xb.number)) with | some v => v | none => ⟨0, 0, 0, 0, 0⟩) ∧
      xb.beam_data = (match yb.beam_data_index with
        | some n => beamDec (y.beam_data[n]?.getD ⟨0, 0, 0, 0, 0⟩)
        | none => match old.bind (lastBeamData · (xs.number, xb.number)) with | some v => v | none => ⟨0, 0, 0, 0, 0⟩)

theorem setSystems_eq (x : Dis.ElectromagneticEmission) (n : UInt8) :
    setSystems x n = (lastSystem x n).map fun s => ⟨s.name, s.function, s.location⟩ := by
  unfold setSystems
  rw [foldl_set (fun s : Dis.EmitterSystem => s.number) (fun s => (⟨s.name, s.function, s.location⟩ : EeFields))]
  simp [lastSystem]

def bodyEe (b : Dis.Body) : EeDecState :=
  match b with
  | .electromagneticEmission x => .of x
  | _ => ⟨fun _ => none, fun _ => none, fun _ => none⟩
theorem bodyEe_of {b : Dis.Body} {x : Dis.ElectromagneticEmission} (h : b = .electromagneticEmission x) : bodyEe b = .of x := by
  subst h; rfl

theorem eeDec_result {o : Options} (hm : o.update_mode = .partial) {st : Option EeDecState} {y : Cdis.ElectromagneticEmission} :
    (eeDec o st y).2 = .ee ↔ y.full_update_flag = true := by
  unfold eeDec
  dsimp only
  cases y.full_update_flag <;> simp [hm]

theorem ee_dec_step {env : Env} {o : Options} (hm : o.update_mode = .partial) (e : Dis.EntityId) (s : DecState)
    (c : Cdis.CdisBody) :
    (EeFullGot e c (bodyDec env o s c).1 → (bodyDec env o s c).2.2.ee e = some (bodyEe (bodyDec env o s c).1)) ∧
    (¬ EeFullGot e c (bodyDec env o s c).1 → (bodyDec env o s c).2.2.ee e = s.ee e) := by
  cases c with
  | electromagneticEmission y =>
    simp only [bodyDec, eeDecodeBody]
    have hr := eeDec_result hm (st := s.ee (eidDec y.emitting_id)) (y := y)
    constructor
    · rintro ⟨y', x', h1, h2, h3, h4⟩
      cases h1
      rw [if_pos (hr.2 h4)]
      simp [Map.set, h3, bodyEe]
    · intro hn
      split
      · rename_i hr'
        have : e ≠ eidDec y.emitting_id := by
          intro hx
          exact hn ⟨y, _, rfl, rfl, hx.symm, hr.1 hr'⟩
        simp [Map.set, this]
      · rfl
  | _ => other_dec

theorem eeDec_partial {o : Options} (hm : o.update_mode = .partial) {st : Option EeDecState} {y : Cdis.ElectromagneticEmission}
    (hf : y.full_update_flag = false) {old : Option Dis.ElectromagneticEmission} (hst : st = old.map EeDecState.of) :
    EeFilled y old (eeDec o st y).1 := by
  subst hst
  unfold eeDec EeFilled
  simp only [hm, hf, and_self, if_true, List.length_map, List.getElem?_map]
  refine ⟨trivial, ?_⟩
  intro k ys xs hy hx
  rw [hy] at hx
  simp only [Option.map_some, Option.some.injEq] at hx
  subst hx
  simp only [eeSystemDec, List.length_map, List.getElem?_map]
  refine ⟨trivial, ?_, ?_, ?_, trivial, ?_⟩
  · cases ys.name <;> cases old <;> simp [EeDecState.of, setSystems_eq]
    rename_i x
    cases lastSystem x (UInt8.ofNat ys.number) <;> rfl
  · cases ys.function <;> cases old <;> simp [EeDecState.of, setSystems_eq]
    rename_i x
    cases lastSystem x (UInt8.ofNat ys.number) <;> rfl
  · cases ys.location <;> cases old <;> simp [EeDecState.of, setSystems_eq, zeroVec]
    rename_i x
    cases lastSystem x (UInt8.ofNat ys.number) <;> rfl
  · intro l yb xb hy' hx'
    rw [hy'] at hx'
    simp only [Option.map_some, Option.some.injEq] at hx'
    subst hx'
    simp only [eeBeamDec]
    refine ⟨trivial, ?_, ?_⟩
    · cases yb.fundamental_params_index <;> cases old <;> simp [EeDecState.of, setParams_eq, zeroParam, defaultParam]
      rename_i x
      cases lastParam x (UInt8.ofNat ys.number, UInt8.ofNat yb.beam_id) <;> rfl
    · cases yb.beam_data_index <;> cases old <;> simp [EeDecState.of, setBeams_eq, zeroBeamData, defaultBeamData]
      rename_i x
      cases lastBeamData x (UInt8.ofNat ys.number, UInt8.ofNat yb.beam_id) <;> rfl

theorem EeFullGot.body {e : Dis.EntityId} {inp : List Cdis.CdisPdu} {out : List Dis.Pdu} {j : Nat}
    (h : DecAt (EeFullGot e) inp out j) {p : Dis.Pdu} (hp : out[j]? = some p) : ∃ x, p.body = .electromagneticEmission x := by
  obtain ⟨c, p', h1, h2, y, x, h3, h4, h5⟩ := h
  rw [hp] at h2
  cases h2
  exact ⟨x, h4⟩

/-- The same for electromagnetic emission PDUs: systems and beams that leave out a value get that of the system or beam with
the same numbers in the last full update of the entity, and zeros if there was none. -/
theorem C38_emission {env : Env} {o : Options} (hm : o.update_mode = .partial) {inp : List Cdis.CdisPdu}
    {out : List Dis.Pdu} {s : DecState} (h : decStream env o {} inp = (out, s)) {i c y} (hi : inp[i]? = some c)
    (hc : c.body = .electromagneticEmission y) (hf : y.full_update_flag = false) :
    ∃ p x, out[i]? = some p ∧ p.body = .electromagneticEmission x ∧
      ((∃ j pj xj, LastBefore (DecAt (EeFullGot (eidDec y.emitting_id)) inp out) i j ∧ out[j]? = some pj ∧
          pj.body = .electromagneticEmission xj ∧ EeFilled y (some xj) x) ∨
        ((∀ m, m < i → ¬ DecAt (EeFullGot (eidDec y.emitting_id)) inp out m) ∧ EeFilled y none x)) := by
  obtain ⟨si, hsi, h1, h2⟩ := dec_memory_at (fun s => s.ee (eidDec y.emitting_id))
    (EeFullGot (eidDec y.emitting_id)) bodyEe (fun s c => ee_dec_step hm _ s c) rfl h hi
  have hb : (pduDec env o si c).1.body = .electromagneticEmission (eeDec o (si.ee (eidDec y.emitting_id)) y).1 := by
    simp only [pduDec, Dis.Pdu.finalizeFromParts, hc, bodyDec, eeDecodeBody]
  refine ⟨_, _, h1, hb, ?_⟩
  rcases h2 with ⟨j, pj, a1, a2, a3⟩ | ⟨a1, a2⟩
  · obtain ⟨xj, hxj⟩ := EeFullGot.body a1.2.1 a2
    left
    refine ⟨j, pj, xj, a1, a2, hxj, eeDec_partial hm hf ?_⟩
    rw [a3, bodyEe_of hxj]; rfl
  · right
    refine ⟨a1, eeDec_partial hm hf ?_⟩
    rw [a2]; rfl

end Verif.Props

import Verif.Codec.History
import Verif.Codec.Window
import Verif.Props.Bodies

/-! # Properties of the C-DIS encoder over histories (C37) -/

set_option linter.unusedSimpArgs false

namespace Verif.Props
open Verif.Codec

/-! ## Specification: what it means that a full update was sent -/

/-- An entity state PDU of entity `e` was put in and a full update came out. -/
def EsFullSent (e : Dis.EntityId) (b : Dis.Body) (c : Cdis.CdisBody) : Prop :=
  ∃ x y, b = .entityState x ∧ c = .entityState y ∧ x.entity_id = e ∧ y.full_update_flag = true
/-- The same for a designator PDU. -/
def DesFullSent (e : Dis.EntityId) (b : Dis.Body) (c : Cdis.CdisBody) : Prop :=
  ∃ x y, b = .designator x ∧ c = .designator y ∧ x.designating_entity_id = e ∧ y.full_update_flag = true
/-- The same for a transmitter PDU; a transmitter is an entity and a radio number. -/
def TxFullSent (e : Dis.EntityId × UInt16) (b : Dis.Body) (c : Cdis.CdisBody) : Prop :=
  ∃ x y, b = .transmitter x ∧ c = .transmitter y ∧ (x.radio_reference_id, x.radio_number) = e ∧ y.full_update_flag = true
/-- An IFF PDU of entity `e` was put in and a PDU with the system id came out. -/
def IffFullSent (e : Dis.EntityId) (b : Dis.Body) (c : Cdis.CdisBody) : Prop :=
  ∃ x y, b = .iff x ∧ c = .iff y ∧ x.emitting_entity_id = e ∧ y.system_id.isSome = true
/-- The same for an electromagnetic emission PDU. -/
def EeFullSent (e : Dis.EntityId) (b : Dis.Body) (c : Cdis.CdisBody) : Prop :=
  ∃ x y, b = .electromagneticEmission x ∧ c = .electromagneticEmission y ∧ x.emitting_entity_id = e ∧ y.full_update_flag = true

/-! ## One step -/

theorem es_flag {env : Env} {o : Options} {now : Nat} {st : Option Nat} {x : Dis.EntityState} {y : Cdis.EntityState} {r : StateResult}
    (h : esEnc env o now st x = some (y, r)) (hm : o.update_mode = .partial) :
    (y.full_update_flag = true ↔ r = .entityState) ∧
    (y.full_update_flag = false ↔ st.any (fun hb => !timedOut (esHeartbeat o x.entity_type) o.mplier now hb) = true) ∧
    (y.full_update_flag = true → y.force_id.isSome ∧ y.entity_type.isSome ∧ y.entity_location.isSome ∧
      y.entity_orientation.isSome ∧ y.entity_appearance.isSome ∧ y.entity_marking.isSome) ∧
    (y.full_update_flag = false → y.force_id = none ∧ y.entity_type = none ∧ y.entity_location = none ∧
      y.entity_orientation = none ∧ y.entity_appearance = none ∧ y.entity_marking = none) := by
  unfold esEnc at h
  simp only [hm] at h
  split at h
  · rename_i hc
    simp at h
    obtain ⟨rfl, rfl⟩ := h
    simp [hc.2]
  · rename_i hc
    cases hk : Cdis.Marking.new (markingChars x.entity_marking.marking_string) with
    | none => simp [hk] at h
    | some m =>
      simp [hk] at h
      obtain ⟨rfl, rfl⟩ := h
      simpa using hc


theorem es_step {env : Env} {o : Options} (hm : o.update_mode = .partial) (e : Dis.EntityId) (now : Nat) (s : EncState)
    (b : Dis.Body) (c : Cdis.CdisBody) (r : StateResult) (s' : EncState) (h : bodyEnc env o now s b = some (c, r, s')) :
    (EsFullSent e b c → s'.es e = some now) ∧ (¬ EsFullSent e b c → s'.es e = s.es e) := by
  cases b with
  | entityState x =>
    simp only [bodyEnc, esEncodeBody] at h
    cases he : esEnc env o now (s.es x.entity_id) x with
    | none => simp [he] at h
    | some q =>
      obtain ⟨y, r'⟩ := q
      simp [he] at h
      obtain ⟨rfl, rfl, rfl⟩ := h
      have hf := (es_flag he hm).1
      constructor
      · rintro ⟨x', y', h1, h2, h3, h4⟩
        cases h1; cases h2
        rw [if_pos (hf.1 h4)]
        simp [Map.set, h3]
      · intro hn
        split
        · rename_i hr
          have : e ≠ x.entity_id := by
            intro hx
            exact hn ⟨x, y, rfl, rfl, hx.symm, hf.2 hr⟩
          simp [Map.set, this]
        · rfl
  | _ =>
    simp only [bodyEnc, eeEncodeBody, desEncodeBody, txEncodeBody, iffEncodeBody, Option.some.injEq, Prod.mk.injEq] at h
    refine ⟨fun hp => ?_, fun _ => ?_⟩
    · obtain ⟨x', y', h1, _⟩ := hp
      cases h1
    · obtain ⟨-, -, h3⟩ := h
      subst h3
      first
        | rfl
        | (split <;> rfl)

/-- In partial-update mode, whatever was encoded before and when: an entity state PDU is sent as a partial update exactly if
a full update of the same entity was sent before and the last of them is not older than the heartbeat period allows.  A full
update carries every field that a partial one leaves out, so a receiver that got the last full update has them all. -/
theorem C37_entity_state {env : Env} {o : Options} (hm : o.update_mode = .partial) {hist : List (Nat × Dis.Pdu)}
    {out : List Cdis.CdisPdu} {s : EncState} (h : encStream env o {} hist = some (out, s)) {i t p x}
    (hi : hist[i]? = some (t, p)) (hx : p.body = .entityState x) :
    ∃ c y, out[i]? = some c ∧ c.body = .entityState y ∧
      (y.full_update_flag = false ↔ ∃ j tj pj, LastBefore (EncAt (EsFullSent x.entity_id) hist out) i j ∧
        hist[j]? = some (tj, pj) ∧ timedOut (esHeartbeat o x.entity_type) o.mplier t tj = false) ∧
      (y.full_update_flag = true → y.force_id.isSome ∧ y.entity_type.isSome ∧ y.entity_location.isSome ∧
        y.entity_orientation.isSome ∧ y.entity_appearance.isSome ∧ y.entity_marking.isSome) ∧
      (y.full_update_flag = false → y.force_id = none ∧ y.entity_type = none ∧ y.entity_location = none ∧
        y.entity_orientation = none ∧ y.entity_appearance = none ∧ y.entity_marking = none) := by
  obtain ⟨si, c, r, s1, h1, h2, h3⟩ := enc_memory_at (fun s => s.es x.entity_id) (EsFullSent x.entity_id) (fun t _ => t)
    (fun now s b c r s' hb => es_step hm x.entity_id now s b c r s' hb) rfl h hi
  rw [hx] at h1
  simp only [bodyEnc, esEncodeBody] at h1
  cases he : esEnc env o t (si.es x.entity_id) x with
  | none => simp [he] at h1
  | some q =>
    obtain ⟨y, r'⟩ := q
    simp [he] at h1
    have hf := es_flag he hm
    refine ⟨c, y, h2, h1.1.symm, ?_, hf.2.2.1, hf.2.2.2⟩
    rw [hf.2.1]
    rcases h3 with ⟨j, tj, pj, a1, a2, a3⟩ | ⟨a1, a2⟩
    · try simp only at a3
      rw [a3]
      constructor
      · intro hh
        exact ⟨j, tj, pj, a1, a2, by simpa using hh⟩
      · rintro ⟨j', tj', pj', b1, b2, b3⟩
        obtain rfl := a1.unique b1
        rw [a2] at b2
        cases b2
        simpa using b3
    · try simp only at a2
      rw [a2]
      constructor
      · intro hh
        simp at hh
      · rintro ⟨j', tj', pj', b1, b2, b3⟩
        exact absurd b1.2.1 (a1 j' b1.1)

theorem des_flag {env : Env} {o : Options} {now : Nat} {st : Option Nat} {x : Dis.Designator} :
    ((desEnc env o now st x).1.full_update_flag = true ↔ (desEnc env o now st x).2 = .designator) ∧
    ((desEnc env o now st x).1.full_update_flag = false ↔
      o.update_mode = .partial ∧ st.any (fun hb => !timedOut o.heartbeats.designator o.mplier now hb) = true) ∧
    ((desEnc env o now st x).1.full_update_flag = true → (desEnc env o now st x).1.code_name.isSome ∧
      (desEnc env o now st x).1.designator_code.isSome ∧ (desEnc env o now st x).1.designator_power.isSome ∧
      (desEnc env o now st x).1.designator_wavelength.isSome ∧ (desEnc env o now st x).1.designator_spot_location.isSome) ∧
    ((desEnc env o now st x).1.full_update_flag = false → (desEnc env o now st x).1.code_name = none ∧
      (desEnc env o now st x).1.designator_code = none ∧ (desEnc env o now st x).1.designator_power = none ∧
      (desEnc env o now st x).1.designator_wavelength = none ∧ (desEnc env o now st x).1.designator_spot_location = none) := by
  unfold desEnc
  dsimp only
  split
  · rename_i hc
    simp [hc.1]
    simpa using hc.2
  · rename_i hc
    simp at hc
    simp
    exact hc

theorem des_step {env : Env} {o : Options} (e : Dis.EntityId) (now : Nat) (s : EncState)
    (b : Dis.Body) (c : Cdis.CdisBody) (r : StateResult) (s' : EncState) (h : bodyEnc env o now s b = some (c, r, s')) :
    (DesFullSent e b c → s'.designator e = some now) ∧ (¬ DesFullSent e b c → s'.designator e = s.designator e) := by
  cases b with
  | designator x =>
    simp only [bodyEnc, desEncodeBody, Option.some.injEq, Prod.mk.injEq] at h
    obtain ⟨rfl, rfl, rfl⟩ := h
    have hf := (des_flag (env := env) (o := o) (now := now) (st := s.designator x.designating_entity_id) (x := x)).1
    constructor
    · rintro ⟨x', y', h1, h2, h3, h4⟩
      cases h1; cases h2
      rw [if_pos (hf.1 h4)]
      simp [Map.set, h3]
    · intro hn
      split
      · rename_i hr
        have : e ≠ x.designating_entity_id := by
          intro hx
          exact hn ⟨x, _, rfl, rfl, hx.symm, hf.2 hr⟩
        simp [Map.set, this]
      · rfl
  | entityState x =>
    simp only [bodyEnc, esEncodeBody, Option.map_eq_some_iff, Prod.mk.injEq] at h
    obtain ⟨a, _, h1, h2, h3⟩ := h
    refine ⟨fun hp => ?_, fun _ => ?_⟩
    · obtain ⟨x', y', h1, _⟩ := hp
      cases h1
    · rw [← h3]
      split <;> rfl
  | _ =>
    simp only [bodyEnc, eeEncodeBody, desEncodeBody, txEncodeBody, iffEncodeBody, Option.some.injEq, Prod.mk.injEq] at h
    refine ⟨fun hp => ?_, fun _ => ?_⟩
    · obtain ⟨x', y', h1, _⟩ := hp
      cases h1
    · obtain ⟨-, -, h3⟩ := h
      subst h3
      first
        | rfl
        | (split <;> rfl)

/-- The same for designator PDUs. -/
theorem C37_designator {env : Env} {o : Options} (hm : o.update_mode = .partial) {hist : List (Nat × Dis.Pdu)}
    {out : List Cdis.CdisPdu} {s : EncState} (h : encStream env o {} hist = some (out, s)) {i t p x}
    (hi : hist[i]? = some (t, p)) (hx : p.body = .designator x) :
    ∃ c y, out[i]? = some c ∧ c.body = .designator y ∧
      (y.full_update_flag = false ↔ ∃ j tj pj, LastBefore (EncAt (DesFullSent x.designating_entity_id) hist out) i j ∧
        hist[j]? = some (tj, pj) ∧ timedOut o.heartbeats.designator o.mplier t tj = false) ∧
      (y.full_update_flag = true → y.code_name.isSome ∧ y.designator_code.isSome ∧ y.designator_power.isSome ∧
        y.designator_wavelength.isSome ∧ y.designator_spot_location.isSome) ∧
      (y.full_update_flag = false → y.code_name = none ∧ y.designator_code = none ∧ y.designator_power = none ∧
        y.designator_wavelength = none ∧ y.designator_spot_location = none) := by
  obtain ⟨si, c, r, s1, h1, h2, h3⟩ := enc_memory_at (fun s => s.designator x.designating_entity_id)
    (DesFullSent x.designating_entity_id) (fun t _ => t) (fun now s b c r s' hb => des_step _ now s b c r s' hb) rfl h hi
  rw [hx] at h1
  simp only [bodyEnc, desEncodeBody, Option.some.injEq, Prod.mk.injEq] at h1
  have hf := des_flag (env := env) (o := o) (now := t) (st := si.designator x.designating_entity_id) (x := x)
  refine ⟨c, _, h2, h1.1.symm, ?_, hf.2.2.1, hf.2.2.2⟩
  rw [hf.2.1]
  rcases h3 with ⟨j, tj, pj, a1, a2, a3⟩ | ⟨a1, a2⟩
  · try simp only at a3
    rw [a3]
    constructor
    · intro hh
      exact ⟨j, tj, pj, a1, a2, by simpa using hh.2⟩
    · rintro ⟨j', tj', pj', b1, b2, b3⟩
      obtain rfl := a1.unique b1
      rw [a2] at b2
      cases b2
      simpa [hm] using b3
  · try simp only at a2
    rw [a2]
    constructor
    · intro hh
      simp at hh
    · rintro ⟨j', tj', pj', b1, b2, b3⟩
      exact absurd b1.2.1 (a1 j' b1.1)

theorem tx_flag {env : Env} {o : Options} {now : Nat} {st : Option Nat} {x : Dis.Transmitter} :
    ((txEnc env o now st x).1.full_update_flag = true ↔ (txEnc env o now st x).2 = .transmitter) ∧
    ((txEnc env o now st x).1.full_update_flag = false ↔
      o.update_mode = .partial ∧ st.any (fun hb => !timedOut o.heartbeats.transmitter o.mplier now hb) = true) ∧
    ((txEnc env o now st x).1.full_update_flag = true → (txEnc env o now st x).1.radio_type.isSome ∧
      (txEnc env o now st x).1.antenna_location.isSome ∧ (txEnc env o now st x).1.relative_antenna_location.isSome ∧
      (txEnc env o now st x).1.frequency.isSome ∧ (txEnc env o now st x).1.transmit_frequency_bandwidth.isSome ∧
      (txEnc env o now st x).1.power.isSome ∧ (txEnc env o now st x).1.modulation_type.isSome) ∧
    ((txEnc env o now st x).1.full_update_flag = false → (txEnc env o now st x).1.radio_type = none ∧
      (txEnc env o now st x).1.antenna_location = none ∧ (txEnc env o now st x).1.relative_antenna_location = none ∧
      (txEnc env o now st x).1.frequency = none ∧ (txEnc env o now st x).1.transmit_frequency_bandwidth = none ∧
      (txEnc env o now st x).1.power = none ∧ (txEnc env o now st x).1.modulation_type = none) := by
  unfold txEnc
  dsimp only
  split
  · rename_i hc
    simp [hc.1]
    simpa using hc.2
  · rename_i hc
    simp at hc
    simp
    exact hc

theorem tx_step {env : Env} {o : Options} (e : Dis.EntityId × UInt16) (now : Nat) (s : EncState)
    (b : Dis.Body) (c : Cdis.CdisBody) (r : StateResult) (s' : EncState) (h : bodyEnc env o now s b = some (c, r, s')) :
    (TxFullSent e b c → s'.transmitter e = some now) ∧ (¬ TxFullSent e b c → s'.transmitter e = s.transmitter e) := by
  cases b with
  | transmitter x =>
    simp only [bodyEnc, txEncodeBody, Option.some.injEq, Prod.mk.injEq] at h
    obtain ⟨rfl, rfl, rfl⟩ := h
    have hf := (tx_flag (env := env) (o := o) (now := now) (st := s.transmitter (x.radio_reference_id, x.radio_number)) (x := x)).1
    constructor
    · rintro ⟨x', y', h1, h2, h3, h4⟩
      cases h1; cases h2
      rw [if_pos (hf.1 h4)]
      simp [Map.set, h3]
    · intro hn
      split
      · rename_i hr
        have : e ≠ (x.radio_reference_id, x.radio_number) := by
          intro hx
          exact hn ⟨x, _, rfl, rfl, hx.symm, hf.2 hr⟩
        simp [Map.set, this]
      · rfl
  | entityState x =>
    simp only [bodyEnc, esEncodeBody, Option.map_eq_some_iff, Prod.mk.injEq] at h
    obtain ⟨a, _, h1, h2, h3⟩ := h
    refine ⟨fun hp => ?_, fun _ => ?_⟩
    · obtain ⟨x', y', h1, _⟩ := hp
      cases h1
    · rw [← h3]
      split <;> rfl
  | _ =>
    simp only [bodyEnc, eeEncodeBody, desEncodeBody, txEncodeBody, iffEncodeBody, Option.some.injEq, Prod.mk.injEq] at h
    refine ⟨fun hp => ?_, fun _ => ?_⟩
    · obtain ⟨x', y', h1, _⟩ := hp
      cases h1
    · obtain ⟨-, -, h3⟩ := h
      subst h3
      first
        | rfl
        | (split <;> rfl)

/-- The same for transmitter PDUs, per entity and radio number. -/
theorem C37_transmitter {env : Env} {o : Options} (hm : o.update_mode = .partial) {hist : List (Nat × Dis.Pdu)}
    {out : List Cdis.CdisPdu} {s : EncState} (h : encStream env o {} hist = some (out, s)) {i t p x}
    (hi : hist[i]? = some (t, p)) (hx : p.body = .transmitter x) :
    ∃ c y, out[i]? = some c ∧ c.body = .transmitter y ∧
      (y.full_update_flag = false ↔ ∃ j tj pj,
        LastBefore (EncAt (TxFullSent (x.radio_reference_id, x.radio_number)) hist out) i j ∧
        hist[j]? = some (tj, pj) ∧ timedOut o.heartbeats.transmitter o.mplier t tj = false) ∧
      (y.full_update_flag = true → y.radio_type.isSome ∧ y.antenna_location.isSome ∧ y.relative_antenna_location.isSome ∧
        y.frequency.isSome ∧ y.transmit_frequency_bandwidth.isSome ∧ y.power.isSome ∧ y.modulation_type.isSome) ∧
      (y.full_update_flag = false → y.radio_type = none ∧ y.antenna_location = none ∧ y.relative_antenna_location = none ∧
        y.frequency = none ∧ y.transmit_frequency_bandwidth = none ∧ y.power = none ∧ y.modulation_type = none) := by
  obtain ⟨si, c, r, s1, h1, h2, h3⟩ := enc_memory_at (fun s => s.transmitter (x.radio_reference_id, x.radio_number))
    (TxFullSent (x.radio_reference_id, x.radio_number)) (fun t _ => t) (fun now s b c r s' hb => tx_step _ now s b c r s' hb) rfl h hi
  rw [hx] at h1
  simp only [bodyEnc, txEncodeBody, Option.some.injEq, Prod.mk.injEq] at h1
  have hf := tx_flag (env := env) (o := o) (now := t) (st := si.transmitter (x.radio_reference_id, x.radio_number)) (x := x)
  refine ⟨c, _, h2, h1.1.symm, ?_, hf.2.2.1, hf.2.2.2⟩
  rw [hf.2.1]
  rcases h3 with ⟨j, tj, pj, a1, a2, a3⟩ | ⟨a1, a2⟩
  · try simp only at a3
    rw [a3]
    constructor
    · intro hh
      exact ⟨j, tj, pj, a1, a2, by simpa using hh.2⟩
    · rintro ⟨j', tj', pj', b1, b2, b3⟩
      obtain rfl := a1.unique b1
      rw [a2] at b2
      cases b2
      simpa [hm] using b3
  · try simp only at a2
    rw [a2]
    constructor
    · intro hh
      simp at hh
    · rintro ⟨j', tj', pj', b1, b2, b3⟩
      exact absurd b1.2.1 (a1 j' b1.1)

theorem iff_flag {o : Options} {now : Nat} {st : Option Nat} {x : Dis.Iff} :
    ((iffEnc o now st x).1.system_id.isSome = true ↔ (iffEnc o now st x).2 = .iff) ∧
    ((iffEnc o now st x).1.system_id = none ↔
      o.update_mode = .partial ∧ st.any (fun hb => !timedOut o.heartbeats.iff o.mplier now hb) = true) ∧
    (iffEnc o now st x).1.full_update_flag = false := by
  unfold iffEnc
  dsimp only
  by_cases hc : (decide (o.update_mode = .partial) && st.any (fun hb => !timedOut o.heartbeats.iff o.mplier now hb)) = true
  · simp only [hc]
    simp at hc
    simp [hc]
  · simp only [hc]
    simp at hc
    simp
    exact hc

theorem iff_step {env : Env} {o : Options} (e : Dis.EntityId) (now : Nat) (s : EncState)
    (b : Dis.Body) (c : Cdis.CdisBody) (r : StateResult) (s' : EncState) (h : bodyEnc env o now s b = some (c, r, s')) :
    (IffFullSent e b c → s'.iff e = some now) ∧ (¬ IffFullSent e b c → s'.iff e = s.iff e) := by
  cases b with
  | iff x =>
    simp only [bodyEnc, iffEncodeBody, Option.some.injEq, Prod.mk.injEq] at h
    obtain ⟨rfl, rfl, rfl⟩ := h
    have hf := (iff_flag (o := o) (now := now) (st := s.iff x.emitting_entity_id) (x := x)).1
    constructor
    · rintro ⟨x', y', h1, h2, h3, h4⟩
      cases h1; cases h2
      rw [if_pos (hf.1 h4)]
      simp [Map.set, h3]
    · intro hn
      split
      · rename_i hr
        have : e ≠ x.emitting_entity_id := by
          intro hx
          exact hn ⟨x, _, rfl, rfl, hx.symm, hf.2 hr⟩
        simp [Map.set, this]
      · rfl
  | entityState x =>
    simp only [bodyEnc, esEncodeBody, Option.map_eq_some_iff, Prod.mk.injEq] at h
    obtain ⟨a, _, h1, h2, h3⟩ := h
    refine ⟨fun hp => ?_, fun _ => ?_⟩
    · obtain ⟨x', y', h1, _⟩ := hp
      cases h1
    · rw [← h3]
      split <;> rfl
  | _ =>
    simp only [bodyEnc, eeEncodeBody, desEncodeBody, txEncodeBody, iffEncodeBody, Option.some.injEq, Prod.mk.injEq] at h
    refine ⟨fun hp => ?_, fun _ => ?_⟩
    · obtain ⟨x', y', h1, _⟩ := hp
      cases h1
    · obtain ⟨-, -, h3⟩ := h
      subst h3
      first
        | rfl
        | (split <;> rfl)

/-- The same for IFF PDUs, whose only omitted field is the system id.  Its full-update flag is never set, in either case. -/
theorem C37_iff {env : Env} {o : Options} (hm : o.update_mode = .partial) {hist : List (Nat × Dis.Pdu)}
    {out : List Cdis.CdisPdu} {s : EncState} (h : encStream env o {} hist = some (out, s)) {i t p x}
    (hi : hist[i]? = some (t, p)) (hx : p.body = .iff x) :
    ∃ c y, out[i]? = some c ∧ c.body = .iff y ∧ y.full_update_flag = false ∧
      (y.system_id = none ↔ ∃ j tj pj, LastBefore (EncAt (IffFullSent x.emitting_entity_id) hist out) i j ∧
        hist[j]? = some (tj, pj) ∧ timedOut o.heartbeats.iff o.mplier t tj = false) := by
  obtain ⟨si, c, r, s1, h1, h2, h3⟩ := enc_memory_at (fun s => s.iff x.emitting_entity_id)
    (IffFullSent x.emitting_entity_id) (fun t _ => t) (fun now s b c r s' hb => iff_step _ now s b c r s' hb) rfl h hi
  rw [hx] at h1
  simp only [bodyEnc, iffEncodeBody, Option.some.injEq, Prod.mk.injEq] at h1
  have hf := iff_flag (o := o) (now := t) (st := si.iff x.emitting_entity_id) (x := x)
  refine ⟨c, _, h2, h1.1.symm, hf.2.2, ?_⟩
  rw [hf.2.1]
  rcases h3 with ⟨j, tj, pj, a1, a2, a3⟩ | ⟨a1, a2⟩
  · try simp only at a3
    rw [a3]
    constructor
    · intro hh
      exact ⟨j, tj, pj, a1, a2, by simpa using hh.2⟩
    · rintro ⟨j', tj', pj', b1, b2, b3⟩
      obtain rfl := a1.unique b1
      rw [a2] at b2
      cases b2
      simpa [hm] using b3
  · try simp only at a2
    rw [a2]
    constructor
    · intro hh
      simp at hh
    · rintro ⟨j', tj', pj', b1, b2, b3⟩
      exact absurd b1.2.1 (a1 j' b1.1)

theorem ee_flag {o : Options} (hm : o.update_mode = .partial) {now : Nat} {st : Option EeEncState} {x : Dis.ElectromagneticEmission} :
    ((eeEnc o now st x).1.full_update_flag = true ↔ (eeEnc o now st x).2 = .ee) ∧
    ((eeEnc o now st x).1.full_update_flag = false ↔
      st.any (fun s => !timedOut o.heartbeats.ee o.mplier now s.heartbeat) = true) := by
  unfold eeEnc
  simp only [hm]
  cases st with
  | none => simp
  | some s =>
    dsimp only
    split
    · rename_i hc
      simp [hc]
    · rename_i hc
      simpa using hc

/-- What the encoder stores of an emission PDU. -/
def eeVal (now : Nat) (b : Dis.Body) : EeEncState :=
  match b with
  | .electromagneticEmission x => EeEncState.of now x
  | _ => ⟨now, fun _ => none, fun _ => none⟩
theorem eeVal_heartbeat (now : Nat) (b : Dis.Body) : (eeVal now b).heartbeat = now := by
  unfold eeVal
  split <;> rfl

theorem ee_step {env : Env} {o : Options} (hm : o.update_mode = .partial) (e : Dis.EntityId) (now : Nat) (s : EncState)
    (b : Dis.Body) (c : Cdis.CdisBody) (r : StateResult) (s' : EncState) (h : bodyEnc env o now s b = some (c, r, s')) :
    (EeFullSent e b c → s'.ee e = some (eeVal now b)) ∧ (¬ EeFullSent e b c → s'.ee e = s.ee e) := by
  cases b with
  | electromagneticEmission x =>
    simp only [bodyEnc, eeEncodeBody, Option.some.injEq, Prod.mk.injEq] at h
    obtain ⟨rfl, rfl, rfl⟩ := h
    have hf := (ee_flag hm (now := now) (st := s.ee x.emitting_entity_id) (x := x)).1
    constructor
    · rintro ⟨x', y', h1, h2, h3, h4⟩
      cases h1; cases h2
      rw [if_pos (hf.1 h4)]
      simp [Map.set, h3, eeVal]
    · intro hn
      split
      · rename_i hr
        have : e ≠ x.emitting_entity_id := by
          intro hx
          exact hn ⟨x, _, rfl, rfl, hx.symm, hf.2 hr⟩
        simp [Map.set, this]
      · rfl
  | entityState x =>
    simp only [bodyEnc, esEncodeBody, Option.map_eq_some_iff, Prod.mk.injEq] at h
    obtain ⟨a, _, h1, h2, h3⟩ := h
    refine ⟨fun hp => ?_, fun _ => ?_⟩
    · obtain ⟨x', y', h1, _⟩ := hp
      cases h1
    · rw [← h3]
      split <;> rfl
  | _ =>
    simp only [bodyEnc, eeEncodeBody, desEncodeBody, txEncodeBody, iffEncodeBody, Option.some.injEq, Prod.mk.injEq] at h
    refine ⟨fun hp => ?_, fun _ => ?_⟩
    · obtain ⟨x', y', h1, _⟩ := hp
      cases h1
    · obtain ⟨-, -, h3⟩ := h
      subst h3
      first
        | rfl
        | (split <;> rfl)

/-- A beam of an emission PDU, by the numbers of its system and itself, and its parameters: the last one if a PDU contains
several with the same numbers. -/
def lastParam (x : Dis.ElectromagneticEmission) (k : UInt8 × UInt8) : Option Dis.FundamentalParameterData :=
  ((allBeams x).reverse.find? fun p => decide ((p.1, p.2.number) = k)).map (·.2.parameter_data)
def lastBeamData (x : Dis.ElectromagneticEmission) (k : UInt8 × UInt8) : Option Dis.BeamData :=
  ((allBeams x).reverse.find? fun p => decide ((p.1, p.2.number) = k)).map (·.2.beam_data)

theorem foldl_set {α K V : Type} [DecidableEq K] (key : α → K) (val : α → V) (l : List α) (m : Map K V) (k : K) :
    (l.foldl (fun m a => m.set (key a) (val a)) m) k =
      ((l.reverse.find? fun a => decide (key a = k)).map val).or (m k) := by
  induction l generalizing m with
  | nil => simp
  | cons a l ih =>
    rw [List.foldl_cons, ih, List.reverse_cons, List.find?_append]
    cases hf : l.reverse.find? (fun a => decide (key a = k)) with
    | some b => simp
    | none =>
      by_cases hk : key a = k
      · simp [hk, Map.set]
      · have : k ≠ key a := fun h => hk h.symm
        simp [hk, Map.set, this]

theorem setParams_eq (x : Dis.ElectromagneticEmission) (k : UInt8 × UInt8) : setParams x k = lastParam x k := by
  unfold setParams
  rw [foldl_set (fun p : UInt8 × Dis.Beam => (p.1, p.2.number)) (fun p => p.2.parameter_data)]
  simp [lastParam]
theorem setBeams_eq (x : Dis.ElectromagneticEmission) (k : UInt8 × UInt8) : setBeams x k = lastBeamData x k := by
  unfold setBeams
  rw [foldl_set (fun p : UInt8 × Dis.Beam => (p.1, p.2.number)) (fun p => p.2.beam_data)]
  simp [lastBeamData]

/-- The same for electromagnetic emission PDUs. -/
theorem C37_emission {env : Env} {o : Options} (hm : o.update_mode = .partial) {hist : List (Nat × Dis.Pdu)}
    {out : List Cdis.CdisPdu} {s : EncState} (h : encStream env o {} hist = some (out, s)) {i t p x}
    (hi : hist[i]? = some (t, p)) (hx : p.body = .electromagneticEmission x) :
    ∃ c y, out[i]? = some c ∧ c.body = .electromagneticEmission y ∧
      (y.full_update_flag = false ↔ ∃ j tj pj, LastBefore (EncAt (EeFullSent x.emitting_entity_id) hist out) i j ∧
        hist[j]? = some (tj, pj) ∧ timedOut o.heartbeats.ee o.mplier t tj = false) := by
  obtain ⟨si, c, r, s1, h1, h2, h3⟩ := enc_memory_at (fun s => s.ee x.emitting_entity_id)
    (EeFullSent x.emitting_entity_id) eeVal (fun now s b c r s' hb => ee_step hm _ now s b c r s' hb) rfl h hi
  rw [hx] at h1
  simp only [bodyEnc, eeEncodeBody, Option.some.injEq, Prod.mk.injEq] at h1
  have hf := ee_flag hm (now := t) (st := si.ee x.emitting_entity_id) (x := x)
  refine ⟨c, _, h2, h1.1.symm, ?_⟩
  rw [hf.2]
  rcases h3 with ⟨j, tj, pj, a1, a2, a3⟩ | ⟨a1, a2⟩
  · try simp only at a3
    have hb := eeVal_heartbeat tj pj.body
    rw [a3]
    constructor
    · intro hh
      refine ⟨j, tj, pj, a1, a2, ?_⟩
      simp only [Option.any_some, hb] at hh
      simpa using hh
    · rintro ⟨j', tj', pj', b1, b2, b3⟩
      obtain rfl := a1.unique b1
      rw [a2] at b2
      cases b2
      simp only [Option.any_some, hb]
      simpa using b3
  · try simp only at a2
    rw [a2]
    constructor
    · intro hh
      simp at hh
    · rintro ⟨j', tj', pj', b1, b2, b3⟩
      exact absurd b1.2.1 (a1 j' b1.1)

/-! ## The window in real time -/

/-- The window that the settings denote: with a product of `w` seconds, a full update is considered stale after `w` seconds,
up to a relative error of `2 ^ -22` of the 32-bit arithmetic. -/
theorem C37_window {hbt mplier : Fl} {w : Rat} (hw : mul32 hbt mplier = .num w) {now sent : Nat} (h : now - sent < 2 ^ 64 * 10 ^ 9) :
    (((now - sent : Nat) : Rat) / 10 ^ 9 * (1 + 1 / 2 ^ 22) ≤ w → timedOut hbt mplier now sent = false) ∧
    (w < ((now - sent : Nat) : Rat) / 10 ^ 9 * (1 - 1 / 2 ^ 22) → timedOut hbt mplier now sent = true) := by
  obtain ⟨r, hr, h1, h2⟩ := elapsed_spec h
  unfold timedOut
  rw [hw, hr]
  constructor
  · intro hle
    simp only [Fl.lt, Fl.le]
    have : r ≤ w := le_trans h2 hle
    simp [this]
  · intro hlt
    simp only [Fl.lt, Fl.le]
    have : w < r := lt_of_lt_of_le hlt h1
    simp [this, le_of_lt this]

/-- The default windows: 12 seconds for entity state, designator and emission PDUs, 24 for IFF, 4.8000002 for transmitters. -/
theorem C37_window_defaults (o : Options) (hh : o.heartbeats = {}) (hm : o.mplier = F32.round (24 / 10)) (t : Dis.EntityType) :
    mul32 (esHeartbeat o t) o.mplier = .num 12 ∧ mul32 o.heartbeats.designator o.mplier = .num 12 ∧
    mul32 o.heartbeats.ee o.mplier = .num 12 ∧ mul32 o.heartbeats.iff o.mplier = .num 24 ∧
    mul32 o.heartbeats.transmitter o.mplier = .num (10066330 / 2097152) := by
  have h5 : esHeartbeat o t = .num 5 := by
    unfold esHeartbeat
    rw [hh]
    simp
  rw [h5, hh, hm]
  decide +kernel

/-! ## The hypotheses are met -/

/-- An environment for the examples. -/
def codecEnv : Env where
  toEnv := sampleEnv
  toLla := fun _ => (.num 0, .num 0, .num 0)
  toEcef := fun _ _ _ => ⟨0, 0, 0⟩
  frozenFlags := fun b => (b.toNat % 2 = 1, b.toNat / 2 % 2 = 1, b.toNat / 4 % 2 = 1)
  frozenByte := fun f => UInt8.ofNat (f.1.toNat + 2 * f.2.1.toNat + 4 * f.2.2.toNat)

/-- The full-update flags (for an IFF PDU: is the system id there) of what is sent. -/
def fullFlag (c : Cdis.CdisPdu) : Bool :=
  match c.body with
  | .entityState y => y.full_update_flag
  | .designator y => y.full_update_flag
  | .transmitter y => y.full_update_flag
  | .electromagneticEmission y => y.full_update_flag
  | .iff y => y.system_id.isSome
  | _ => false

def sampleHistory (b : Dis.Body) (t : UInt8) : List (Nat × Dis.Pdu) :=
  [(0, ⟨sampleFor t, b⟩), (1000000000, ⟨sampleFor t, b⟩), (4000000000, ⟨sampleFor t, b⟩), (30000000000, ⟨sampleFor t, b⟩),
   (31000000000, ⟨sampleFor t, b⟩)]
/-- A full update, two partial ones, a full one after 30 seconds, and a partial one. -/
theorem sampleHistory_flags :
    ((encStream codecEnv { update_mode := .partial } {} (sampleHistory (.entityState sample_entityState) 1)).map
      fun r => r.1.map fullFlag) = some [true, false, false, true, false] := by decide +kernel
example : ((encStream codecEnv { update_mode := .partial } {} (sampleHistory (.designator sample_designator) 24)).map
      fun r => r.1.map fullFlag) = some [true, false, false, true, false] := by decide +kernel
example : ((encStream codecEnv { update_mode := .partial } {} (sampleHistory (.transmitter sample_transmitter) 25)).map
      fun r => r.1.map fullFlag) = some [true, false, false, true, false] := by decide +kernel
example : ((encStream codecEnv { update_mode := .partial } {} (sampleHistory (.iff sample_iff) 28)).map
      fun r => r.1.map fullFlag) = some [true, false, false, true, false] := by decide +kernel
example : ((encStream codecEnv { update_mode := .partial } {}
      (sampleHistory (.electromagneticEmission sample_electromagneticEmission) 23)).map
      fun r => r.1.map fullFlag) = some [true, false, false, true, false] := by decide +kernel

end Verif.Props

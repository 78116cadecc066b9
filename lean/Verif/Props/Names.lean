import Verif.Props.Lossy
import Verif.Props.CdisMarking
import Verif.Props.GatewayCrash
/-! # C75: names of all kinds over C-DIS -/
namespace Verif.Props
open Verif.Codec Verif.Cdis

theorem entityState_upto_marking {v : Cdis.EntityState} {m : Marking} (h : ({ v with entity_marking := none } : Cdis.EntityState).Wf)
    (hm : v.entity_marking = some m) (r : Bits) :
    Cdis.EntityState.parse.run (v.ser ++ r) =
      (Marking.parse.run (m.ser ++ (wOpt wUV32 v.capabilities ++ (v.variable_parameters.flatMap VariableParameter.ser ++ r)))).andThen fun m' r1 =>
        ((rWhen v.capabilities.isSome rUV32).run r1).andThen fun c r2 =>
          ((P.count VariableParameter.parse v.variable_parameters.length).run r2).andThen fun ps r3 =>
            .ok { v.wire with entity_marking := some m', capabilities := c, variable_parameters := ps } r3 := by
  obtain ⟨h1, h2, h3, h4, h5, h6, h7, h8, h9, h10, h11, h12, h13, -, -, hl, -⟩ := h
  have hf := v.fp_lt
  have f12 : has v.fp (bit 12) = v.force_id.isSome := by unfold EntityState.fp; flag_bits
  have f11 : has v.fp (bit 11) = !v.variable_parameters.isEmpty := by unfold EntityState.fp; flag_bits
  have f10 : has v.fp (bit 10) = v.entity_type.isSome := by unfold EntityState.fp; flag_bits
  have f9 : has v.fp (bit 9) = v.alternate_entity_type.isSome := by unfold EntityState.fp; flag_bits
  have f8 : has v.fp (bit 8) = v.entity_linear_velocity.isSome := by unfold EntityState.fp; flag_bits
  have f7 : has v.fp (bit 7) = v.entity_location.isSome := by unfold EntityState.fp; flag_bits
  have f6 : has v.fp (bit 6) = v.entity_orientation.isSome := by unfold EntityState.fp; flag_bits
  have f5 : has v.fp (bit 5) = v.entity_appearance.isSome := by unfold EntityState.fp; flag_bits
  have f4 : has v.fp (bit 4) = v.dr_params_other.isSome := by unfold EntityState.fp; flag_bits
  have f3 : has v.fp (bit 3) = v.dr_params_entity_linear_acceleration.isSome := by unfold EntityState.fp; flag_bits
  have f2 : has v.fp (bit 2) = v.dr_params_entity_angular_velocity.isSome := by unfold EntityState.fp; flag_bits
  have f1 : has v.fp (bit 1) = v.entity_marking.isSome := by unfold EntityState.fp; flag_bits
  have f0 : has v.fp (bit 0) = v.capabilities.isSome := by unfold EntityState.fp; flag_bits
  have e : ∀ t, (rWhen v.entity_marking.isSome Marking.parse).run (wOpt Marking.ser v.entity_marking ++ t) =
      (Marking.parse.run (m.ser ++ t)).andThen fun m' r1 => .ok (some m') r1 := by
    intro t
    rw [hm]
    simp only [Option.isSome_some, wOpt, rWhen, if_true, P.run_bind, P.run_pure]
  dsimp only at h1 h2 h3 h4 h5 h6 h7 h8 h9 h10 h11 h12 h13 hl
  simp only [EntityState.parse, EntityState.ser, List.append_assoc]
  simp only [rt, hf, f12, f11, f10, f9, f8, f7, f6, f5, f4, f3, f2,
    f1, f0, h1, h2, h3, h4, h5, h6, h7, h8, h9, h10, h11, h12, h13, toNat_lt_pow, toNat_bne,
    rCountOpt_run _ hl, e, EntityState.wire]
  cases Marking.parse.run (m.ser ++ (wOpt wUV32 v.capabilities ++ (v.variable_parameters.flatMap VariableParameter.ser ++ r))) with
  | ok m' r1 => simp only [rt, Res.andThen_ok]
  | err => rfl
  | panic => rfl

/-- The same Entity State without a name. -/
def nameless (x : Dis.EntityState) : Dis.EntityState := { x with entity_marking := ⟨1, []⟩ }

/-- An Entity State PDU of an entity named `l`: C-DIS can carry it, but for its name perhaps. -/
structure Named (env : Codec.Env) (p : Dis.Pdu) (x : Dis.EntityState) (l : List Char) : Prop where
  status : (p.header.pdu_status.getD {}).Wf p.header.pdu_type
  type : p.header.pdu_type = 1
  body : p.body = .entityState x
  fits : EntityFits env (nameless x)
  text : x.entity_marking.marking_string = Dis.textOctets l

/-- What is left of a name in ASCII. -/
def shownName (l : List Char) : List Char := (l.take 11).map (readBack (Plain (l.take 11)))

theorem chars_named {x : Dis.EntityState} {l : List Char} (h : x.entity_marking.marking_string = Dis.textOctets l) :
    markingChars x.entity_marking.marking_string = l := by
  have e := Dis.lossy_octets l []
  rw [List.append_nil, show Dis.fromUtf8Lossy [] = [] from rfl, List.append_nil] at e
  rw [h]
  exact e

theorem es_named {env : Codec.Env} (o : Options) (now : Nat) (st : Option Nat) {x : Dis.EntityState} {l : List Char} {m : Marking}
    (hf : EntityFits env (nameless x))
    (h : x.entity_marking.marking_string = Dis.textOctets l) (hm : Marking.new l = some m) : ∃ y r,
    esEnc env o now st (nameless x) = some (y, r) ∧ y.Wf ∧ eidDec y.entity_id = x.entity_id ∧
      esEnc env o now st x = some (if y.full_update_flag then { y with entity_marking := some m } else y, r) := by
  obtain ⟨y, r, h1, h2, h3⟩ := es_enc_fits o now st hf
  refine ⟨y, r, h1, h2, h3, ?_⟩
  have hc := chars_named h
  unfold esEnc at h1 ⊢
  dsimp only at h1 ⊢
  split at h1
  · rename_i hp
    rw [if_pos (show o.update_mode = .partial ∧ st.any (fun hb => !timedOut (esHeartbeat o x.entity_type) o.mplier now hb) = true from hp)]
    cases h1
    rfl
  · rename_i hp
    rw [if_neg (show ¬ (o.update_mode = .partial ∧ st.any (fun hb => !timedOut (esHeartbeat o x.entity_type) o.mplier now hb) = true) from hp), hc, hm]
    obtain ⟨m0, -, h4⟩ := Option.map_eq_some_iff.1 h1
    cases h4
    rfl

theorem named_run {env : Codec.Env} {o : Options} {p : Dis.Pdu} {now s cb r s'} {y : Cdis.EntityState}
    (hb : bodyEnc env o now s p.body = some (cb, r, s')) (hy : cb = .entityState y)
    (hst : (p.header.pdu_status.getD {}).Wf p.header.pdu_type) (ht : p.header.pdu_type = 1) :
    ∃ c, pduEnc env o now s p = some (c, r, s') ∧ c.body = cb ∧
      ∃ h, (∀ rest, (Cdis.CdisPdu.parse env.toEnv).run (c.ser ++ rest) =
        (Cdis.EntityState.parse.run (y.ser ++ rest)).andThen fun w t => .ok ⟨h, .entityState w⟩ t) ∧
      ∀ o' d w, (pduDec env o' d ⟨h, .entityState w⟩).1 = received p.header (bodyDec env o' d (.entityState w)).1 := by
  subst hy
  refine ⟨_, by unfold pduEnc; rw [hb]; rfl, rfl, { headerEnc p.header with
          length := ((headerEnc p.header).lenBits + (CdisBody.entityState y).lenBits) % 65536 % 2 ^ 14,
          timestamp := (timeEnc p.header.time_stamp).raw % 2 ^ 26 }, fun rest => ?_, fun o' d w => ?_⟩
  · have hh := header_wire p.header (((headerEnc p.header).lenBits + (CdisBody.entityState y).lenBits) % 65536) hst ((CdisBody.entityState y).ser ++ rest)
    unfold Cdis.CdisPdu.parse Cdis.CdisPdu.ser
    rw [List.append_assoc, P.run_bind]
    rw [show (Cdis.CdisPdu.finalize (headerEnc p.header) (.entityState y) none).header =
      { headerEnc p.header with length := ((headerEnc p.header).lenBits + (CdisBody.entityState y).lenBits) % 65536 } from rfl]
    rw [show (Cdis.CdisPdu.finalize (headerEnc p.header) (.entityState y) none).body = .entityState y from rfl, hh]
    simp only [Res.andThen_ok, P.run_bind, P.run_pure]
    rw [show (headerEnc p.header).pdu_type = p.header.pdu_type.toNat from rfl, ht]
    rw [show CdisBody.parse env.toEnv (1 : UInt8).toNat = mapP .entityState EntityState.parse from rfl]
    rw [show (CdisBody.entityState y).ser = y.ser from rfl]
    unfold mapP
    rw [P.run_bind]
    cases EntityState.parse.run (y.ser ++ rest) <;> rfl
  · unfold pduDec Dis.Pdu.finalizeFromParts headerDec headerEnc received
    simp only [UInt8.ofNat_toNat, show ((bodyDec env o' d (.entityState w)).1.pduType) = p.header.pdu_type by rw [ht]; rfl]
    rfl

/-- What becomes of an Entity State PDU of an entity named `l`. -/
theorem named_enc {env : Codec.Env} (o : Options) (now : Nat) (s : EncState) {p : Dis.Pdu} {x : Dis.EntityState} {l : List Char} {m : Marking}
    (hn : Named env p x l) (hm : Marking.new l = some m) : ∃ y r s' c h, y.Wf ∧
      esEnc env o now (s.es x.entity_id) (nameless x) = some (y, r) ∧ eidDec y.entity_id = x.entity_id ∧
      pduEnc env o now s p = some (c, r, s') ∧ Datagram.full (p, c) = y.full_update_flag ∧
      (∀ rest, (Cdis.CdisPdu.parse env.toEnv).run (c.ser ++ rest) =
        (Cdis.EntityState.parse.run ((if y.full_update_flag then { y with entity_marking := some m } else y : Cdis.EntityState).ser ++ rest)).andThen
          fun w t => .ok ⟨h, .entityState w⟩ t) ∧
      ∀ o' d w, (pduDec env o' d ⟨h, .entityState w⟩).1 = received p.header (bodyDec env o' d (.entityState w)).1 := by
  obtain ⟨y, r, h1, h2, h3, h4⟩ := es_named o now (s.es x.entity_id) hn.fits hn.text hm
  have hb : bodyEnc env o now s p.body = some (.entityState (if y.full_update_flag then { y with entity_marking := some m } else y), r,
      if r = .entityState then { s with es := s.es.set x.entity_id now } else s) := by
    rw [hn.body]
    simp only [bodyEnc, esEncodeBody, h4, Option.map_some]
  obtain ⟨c, a1, a2, h, a3, a4⟩ := named_run hb rfl hn.status hn.type
  refine ⟨y, r, _, c, h, h2, h1, h3, a1, ?_, a3, a4⟩
  unfold Datagram.full
  dsimp only
  rw [a2]
  dsimp only
  split <;> rfl

theorem wf_nameless {y : Cdis.EntityState} (h : y.Wf) (m : Option Marking) :
    ({ ({ y with entity_marking := m } : Cdis.EntityState) with entity_marking := none } : Cdis.EntityState).Wf := by
  obtain ⟨h1, h2, h3, h4, h5, h6, h7, h8, h9, h10, h11, h12, h13, -, h15, h16, h17⟩ := h
  exact ⟨h1, h2, h3, h4, h5, h6, h7, h8, h9, h10, h11, h12, h13, trivial, h15, h16, h17⟩

theorem new_ascii (l : List Char) (ha : ∀ c ∈ l, c.toNat < 128) : ∃ m, Marking.new l = some m := by
  obtain ⟨m, h, -⟩ := C34_arrives l ha
  exact ⟨m, h⟩

/-- **C75.** A full update of an entity with any name in ASCII, of any length, whether its characters are in the alphabet or not, is read by
every receiver, whatever comes before and after it: all of it as it was sent, rounded, but for the name, of which at most eleven characters
are left, and a 9 or an asterisk in place of each one that is not in the alphabet. -/
theorem C75_ascii {env : Codec.Env} (o : Options) (now : Nat) (s : EncState) {p : Dis.Pdu} {x : Dis.EntityState} {l : List Char}
    (hn : Named env p x l) (ha : ∀ c ∈ l, c.toNat < 128) : ∃ c r s', pduEnc env o now s p = some (c, r, s') ∧
      (Datagram.full (p, c) = true → ∀ rest, ∃ w, (Cdis.CdisPdu.parse env.toEnv).run (c.ser ++ rest) = .ok w rest ∧
        ∀ o' d, (pduDec env o' d w).1 = received p.header (.entityState
          { arrivalES env o x with entity_marking := ⟨1, Dis.textOctets (shownName l)⟩ })) := by
  obtain ⟨m, hm, -, h34⟩ := C34_arrives l ha
  obtain ⟨y, r, s', c, h, a1, a2, a3, a4, a5, a6, a7⟩ := named_enc o now s hn hm
  refine ⟨c, r, s', a4, fun hfull rest => ?_⟩
  rw [a5] at hfull
  obtain ⟨m', b1, b2⟩ := h34 (wOpt wUV32 y.capabilities ++ (y.variable_parameters.flatMap VariableParameter.ser ++ rest))
  refine ⟨⟨h, .entityState { y.wire with entity_marking := some m' }⟩, ?_, fun o' d => ?_⟩
  · have := entityState_upto_marking (v := { y with entity_marking := some m }) (wf_nameless a1 _) rfl rest
    rw [a6, if_pos hfull, this, b1]
    obtain ⟨-, -, -, -, -, -, -, -, -, -, -, -, -, -, h15, -, h17⟩ := a1
    simp only [rt, Res.andThen_ok, h15, P.run_count y.variable_parameters _ fun x hx r => VariableParameter.run (h17 x hx) r]
    rfl
  · rw [a7]
    have := es_full_dec (o := o) (o' := o') (st := d.es x.entity_id) hn.fits.wf (es_full_same a2 hfull) hfull
    have e : eidDec ({ y.wire with entity_marking := some m' } : Cdis.EntityState).entity_id = x.entity_id := a3
    simp only [bodyDec, esDecodeBody, e]
    congr 2
    have e2 : (esDec env o' (d.es x.entity_id) { y.wire with entity_marking := some m' }).1 =
      { (esDec env o' (d.es x.entity_id) y.wire).1 with entity_marking := ⟨1, Dis.textOctets m'.marking⟩ } := rfl
    rw [e2, this, b2]
    rfl

/-! ### Names outside ASCII -/

theorem es_rest {env : Codec.Env} {o : Options} {now st x y r} (h : esEnc env o now st x = some (y, r)) :
    y.capabilities = (if o.optimize_mode = .completeness then nz x.entity_capabilities.raw.toNat else none) ∧
      y.variable_parameters = x.variable_parameters.map vpEnc := by
  unfold esEnc at h
  dsimp only at h
  split at h
  · cases h
    exact ⟨rfl, rfl⟩
  · obtain ⟨m, -, h2⟩ := Option.map_eq_some_iff.1 h
    cases h2
    exact ⟨rfl, rfl⟩

/-- A name with a character outside ASCII that fits the eleven octets of a DIS marking. -/
def Foreign (l : List Char) : Prop := (Dis.textOctets l).length ≤ 11 ∧ ∃ c ∈ l, 128 ≤ c.toNat

/-- **C75 is violated** by every name with a character outside ASCII: no receiver reads a full update of the entity, whatever else is in it,
whatever follows it in the datagram, with the number of characters that its name has. -/
theorem C75_wrong_violated {env : Codec.Env} (o : Options) (now : Nat) (s : EncState) {p : Dis.Pdu} {x : Dis.EntityState} {l : List Char}
    (hn : Named env p x l) (hl : Foreign l) : ∃ c r s', pduEnc env o now s p = some (c, r, s') ∧
      (Datagram.full (p, c) = true → ∀ rest w rest', (Cdis.CdisPdu.parse env.toEnv).run (c.ser ++ rest) = .ok w rest' →
        ∃ y m, w.body = .entityState y ∧ y.entity_marking = some m ∧ m.marking.length = (Dis.textOctets l).length ∧ l.length < m.marking.length) := by
  obtain ⟨m, hm, -, h34, hsw⟩ := C34_swallows l (by rw [utf8Len_octets]; exact hl.1) hl.2
  obtain ⟨y, r, s', c, h, a1, a2, a3, a4, a5, a6, a7⟩ := named_enc o now s hn hm
  refine ⟨c, r, s', a4, fun hfull rest w rest' hw => ?_⟩
  rw [a5] at hfull
  have := entityState_upto_marking (v := { y with entity_marking := some m }) (wf_nameless a1 _) rfl rest
  rw [a6, if_pos hfull, this] at hw
  dsimp only at hw
  obtain ⟨b1, b2⟩ := hsw (wOpt wUV32 y.capabilities ++ (y.variable_parameters.flatMap VariableParameter.ser ++ rest))
  rcases Nat.lt_or_ge (wOpt wUV32 y.capabilities ++ (y.variable_parameters.flatMap VariableParameter.ser ++ rest)).length
    (6 * (utf8Len l - l.length)) with hlt | hge
  · rw [b2 hlt] at hw
    cases hw
  · obtain ⟨more, c1, c2⟩ := b1 hge
    rw [c2] at hw
    simp only [Res.andThen_ok] at hw
    revert hw
    cases (rWhen y.capabilities.isSome rUV32).run (List.drop (6 * (utf8Len l - l.length))
        (wOpt wUV32 y.capabilities ++ (y.variable_parameters.flatMap VariableParameter.ser ++ rest))) with
    | err => intro hw; cases hw
    | panic => intro hw; cases hw
    | ok cp r2 =>
      simp only [Res.andThen_ok]
      cases (P.count VariableParameter.parse y.variable_parameters.length).run r2 with
      | err => intro hw; cases hw
      | panic => intro hw; cases hw
      | ok ps r3 =>
        intro hw
        simp only [Res.andThen_ok, Res.ok.injEq] at hw
        obtain ⟨rfl, -⟩ := hw
        clear b1 b2 hsw
        have hlen : (l.map (readBack False) ++ more).length = utf8Len l := by rw [List.length_append, List.length_map, c1]; omega
        refine ⟨_, _, rfl, rfl, ?_, ?_⟩
        · rw [← utf8Len_octets]; exact hlen
        · dsimp only; rw [hlen]; omega

/-- An Entity State that ends with its name in C-DIS: without variable parameters, and without capabilities in it. -/
def EndsWithName (o : Options) (x : Dis.EntityState) : Prop :=
  (o.optimize_mode = .completeness → x.entity_capabilities.raw = 0) ∧ x.variable_parameters = []

theorem foreign_of {l : List Char} (h1 : (Dis.textOctets l).length ≤ 11) (h2 : l.length < (Dis.textOctets l).length) : Foreign l := by
  refine ⟨h1, ?_⟩
  rw [← utf8Len_octets] at h2
  by_contra h
  have : utf8Len l = l.length := utf8Len_ascii fun c hc => (utf8Size_ascii c).2 (by
    by_contra hc'
    exact h ⟨c, hc, by omega⟩)
  omega

theorem lost_one {env : Codec.Env} (o : Options) (now : Nat) (s : EncState) {p : Dis.Pdu} {x : Dis.EntityState} {l : List Char}
    (hn : Named env p x l) (h11 : (Dis.textOctets l).length ≤ 11) (h2 : l.length + 2 ≤ (Dis.textOctets l).length) (he : EndsWithName o x) :
    ∃ y r s' c h, y.Wf ∧ esEnc env o now (s.es x.entity_id) (nameless x) = some (y, r) ∧ eidDec y.entity_id = x.entity_id ∧
      pduEnc env o now s p = some (c, r, s') ∧ Datagram.full (p, c) = y.full_update_flag ∧
      (y.full_update_flag = true → Cdis.parsePackets env.toEnv (packBits c.ser) = none) ∧
      (y.full_update_flag = false → Cdis.parsePackets env.toEnv (packBits c.ser) = some [⟨h, .entityState y.wire⟩]) ∧
      ∀ o' d w, (pduDec env o' d ⟨h, .entityState w⟩).1 = received p.header (bodyDec env o' d (.entityState w)).1 := by
  have hl := foreign_of h11 (by omega)
  obtain ⟨m, hm, -, h34, hsw⟩ := C34_swallows l (by rw [utf8Len_octets]; exact hl.1) hl.2
  obtain ⟨y, r, s', c, h, a1, a2, a3, a4, a5, a6, a7⟩ := named_enc o now s hn hm
  obtain ⟨k, hk, e⟩ := bitsOf_pack c.ser
  refine ⟨y, r, s', c, h, a1, a2, a3, a4, a5, fun hfull => ?_, fun hpart => ?_, a7⟩
  · have hcv : y.capabilities = none ∧ y.variable_parameters = [] := by
      obtain ⟨e1, e2⟩ := es_rest a2
      rw [e1, e2]
      refine ⟨?_, by simp [nameless, he.2]⟩
      split
      · rename_i hc
        rw [show (nameless x).entity_capabilities.raw = 0 from he.1 hc]
        rfl
      · rfl
    have := entityState_upto_marking (v := { y with entity_marking := some m }) (wf_nameless a1 _) rfl (List.replicate k false)
    dsimp only at this
    rw [hcv.1, hcv.2] at this
    have hb := (hsw (List.replicate k false)).2 (by rw [List.length_replicate, utf8Len_octets]; omega)
    unfold Cdis.parsePackets
    rw [e, (C47_error_iff env.toEnv _).2]
    rw [a6, if_pos hfull, show ({ y with entity_marking := some m } : Cdis.EntityState).ser =
      ({ y with entity_marking := some m, capabilities := none, variable_parameters := [] } : Cdis.EntityState).ser by rw [← hcv.1, ← hcv.2]]
    rw [hcv.1, hcv.2] at *
    rw [this]
    rw [show wOpt wUV32 none ++ (List.flatMap VariableParameter.ser [] ++ List.replicate k false) = List.replicate k false from rfl, hb]
    rfl
  · have hw := a6 (List.replicate k false)
    rw [hpart] at hw
    simp only [Bool.false_eq_true, if_false, EntityState.run a1] at hw
    unfold Cdis.parsePackets
    rw [e, (C36_parse_iff env.toEnv _ _ [⟨h, .entityState y.wire⟩]).2 ⟨.cons hw (.nil _), by simp,
      pdu_short (by rw [List.length_replicate]; omega)⟩]

/-- A name of at most eleven octets, at least two more than it has characters. -/
def VeryForeign (l : List Char) : Prop := (Dis.textOctets l).length ≤ 11 ∧ l.length + 2 ≤ (Dis.textOctets l).length

/-- PDUs of such entities. -/
def Lostling (env : Codec.Env) (o : Options) (p : Dis.Pdu) : Prop := ∃ x l, Named env p x l ∧ VeryForeign l ∧ EndsWithName o x

/-- **C75 is violated** by every name that has two octets more than characters, such as two letters with accents: where the name is the last thing
in the datagram, nothing in it can be read. -/
theorem C75_lost_violated {env : Codec.Env} (o : Options) (now : Nat) (s : EncState) {p : Dis.Pdu} (h : Lostling env o p) :
    ∃ c r s', pduEnc env o now s p = some (c, r, s') ∧
      (Datagram.full (p, c) = true → Cdis.parsePackets env.toEnv (packBits c.ser) = none) := by
  obtain ⟨x, l, hn, hv, he⟩ := h
  obtain ⟨y, r, s', c, h, a1, a2, a3, a4, a5, a6, a7, a8⟩ := lost_one o now s hn hv.1 hv.2 he
  exact ⟨c, r, s', a4, fun hf => a6 (by rw [← a5]; exact hf)⟩

theorem full_mode_full {env : Codec.Env} {o : Options} {now st x y r} (hm : o.update_mode = .full) (h : esEnc env o now st x = some (y, r)) :
    y.full_update_flag = true := by
  unfold esEnc at h
  dsimp only at h
  rw [hm] at h
  simp only [reduceCtorEq, false_and, if_false] at h
  obtain ⟨m, -, h2⟩ := Option.map_eq_some_iff.1 h
  cases h2
  rfl

/-- What is handed over of a datagram of such an entity. -/
def ghostOf (env : Codec.Env) (o : Options) (g : Datagram) : Dis.Pdu :=
  received g.1.header (match g.1.body with
    | .entityState x => .entityState (lateES env o unknownBase x)
    | b => b)

theorem receive_ghosts {env : Codec.Env} {o : Options} : ∀ (net : List Datagram) (d : DecState), (∀ e, d.es e = none) →
      (∀ g ∈ net, Lostling env o g.1 ∧ ∃ now s r s', pduEnc env o now s g.1 = some (g.2, r, s')) →
      receive env o d (net.map fun g => packBits g.2.ser) = (net.filter fun g => !g.full).map (ghostOf env o) := by
  intro net
  induction net with
  | nil => exact fun _ _ _ => rfl
  | cons g net ih =>
    intro d hd h
    obtain ⟨⟨x, l, hn, hv, he⟩, now, s, r, s', hp⟩ := h g (by simp)
    obtain ⟨y, r, s', c, h', a1, a2, a3, a4, a5, a6, a7, a8⟩ := lost_one o now s hn hv.1 hv.2 he
    rw [hp] at a4
    cases a4
    have ih' := fun d hd => ih d hd (fun g' hg' => h g' (by simp [hg']))
    rw [List.map_cons, receive, List.filter_cons]
    rw [show Datagram.full g = y.full_update_flag from a5]
    cases hy : y.full_update_flag with
    | true =>
      rw [a6 hy]
      simp only [Bool.not_true, Bool.false_eq_true, if_false]
      exact ih' d hd
    | false =>
      rw [a7 hy]
      have hm : o.update_mode = .partial := by
        cases hm : o.update_mode with
        | «partial» => rfl
        | full => exact absurd (full_mode_full hm a2) (by rw [hy]; simp)
      have e : eidDec y.wire.entity_id = x.entity_id := a3
      have hdec := es_part_dec hm hn.fits a2 hy (d.es x.entity_id)
      have hres : (esDec env o (d.es x.entity_id) y.wire).2 = .unaffected := by
        simp [esDec, Cdis.EntityState.wire, hy]
      have hst : (pduDec env o d ⟨h', .entityState y.wire⟩).2.2 = d := by
        rw [show (pduDec env o d ⟨h', .entityState y.wire⟩).2.2 = (bodyDec env o d (.entityState y.wire)).2.2 from rfl]
        simp only [bodyDec, esDecodeBody, e, hres]
        rfl
      simp only [decStream, hst, ih' d hd, List.singleton_append, List.map_cons, Bool.not_false, if_true]
      congr 1
      rw [a8]
      unfold ghostOf
      rw [hn.body]
      simp only [bodyDec, esDecodeBody, e]
      rw [hdec, hd]
      have hb : baseOf env [] = unknownBase := rfl
      rw [← hb, ← base_stored env []]
      rfl

/-- **C75 is violated:** an entity with such a name is heard of in partial updates only, however often it is sent, at whatever times, whatever
the network loses, repeats or reorders: every receiver shows it with no force, of no type, at the centre of the Earth, under the name "Marking". -/
theorem C75_ghost_violated {env : Codec.Env} {o : Options} {sent : List (Nat × Dis.Pdu)} (hs : ∀ e ∈ sent, Lostling env o e.2)
    {out s'} (he : encStream env o {} sent = some (out, s')) {net : List Datagram} (hn : ∀ g ∈ net, g ∈ (sent.map (·.2)).zip out) :
    receive env o {} (net.map fun g => packBits g.2.ser) = (net.filter fun g => !g.full).map (ghostOf env o) ∧
      ∀ q ∈ receive env o {} (net.map fun g => packBits g.2.ser), ∃ x : Dis.EntityState, q.body = .entityState x ∧ x.force_id = 0 ∧
        x.entity_type = ⟨0, 0, 0, 0, 0, 0, 0⟩ ∧ x.entity_location = ⟨0, 0, 0⟩ ∧ x.entity_marking.marking_string = "Marking".toUTF8.toList := by
  have key := receive_ghosts net {} (fun _ => rfl) (fun g hg => by
    obtain ⟨⟨t, a⟩, b⟩ := sent_each sent {} he g (hn g hg)
    exact ⟨hs _ a, b⟩)
  refine ⟨key, fun q hq => ?_⟩
  rw [key] at hq
  obtain ⟨g, hg, rfl⟩ := List.mem_map.1 hq
  obtain ⟨⟨t, a⟩, -⟩ := sent_each sent {} he g (hn g (List.mem_filter.1 hg).1)
  obtain ⟨x, l, hx, -⟩ := hs _ a
  exact ⟨lateES env o unknownBase x, by unfold ghostOf received; rw [hx.body], rfl, rfl, rfl, rfl⟩

/-- **C75 is violated:** in full-update mode nothing is ever heard of it. -/
theorem C75_silent_violated {env : Codec.Env} {o : Options} (hm : o.update_mode = .full) {sent : List (Nat × Dis.Pdu)}
    (hs : ∀ e ∈ sent, Lostling env o e.2)
    {out s'} (he : encStream env o {} sent = some (out, s')) {net : List Datagram} (hn : ∀ g ∈ net, g ∈ (sent.map (·.2)).zip out) :
    receive env o {} (net.map fun g => packBits g.2.ser) = [] := by
  rw [(C75_ghost_violated hs he hn).1]
  rw [List.filter_eq_nil_iff.2, List.map_nil]
  intro g hg
  obtain ⟨⟨t, a⟩, now, s, r, s1, b⟩ := sent_each sent {} he g (hn g hg)
  obtain ⟨x, l, hx, hv, hend⟩ := hs _ a
  obtain ⟨y, r, s', c, h', a1, a2, a3, a4, a5, -⟩ := lost_one o now s hx hv.1 hv.2 hend
  rw [b] at a4
  cases a4
  rw [show Datagram.full g = y.full_update_flag from a5, full_mode_full hm a2]
  decide

/-! ### Entities with all kinds of names -/

/-- The Entity State with the name that others see. -/
def renamedES (x : Dis.EntityState) : Dis.EntityState :=
  { x with entity_marking :=
      { x.entity_marking with marking_string := Dis.textOctets (shownName (Dis.fromUtf8Lossy x.entity_marking.marking_string)) } }
def renamed (g : Datagram) : Datagram :=
  (match g.1.body with
    | .entityState x => { g.1 with body := .entityState (renamedES x) }
    | _ => g.1, g.2)

/-- It does not carry a full update of an entity with a name outside ASCII. -/
def heard (g : Datagram) : Bool :=
  match g.1.body with
  | .entityState x => !g.full || x.entity_marking.marking_string.all (·.toNat < 128)
  | _ => true

/-- PDUs for the partial-update mode, entities with names of both kinds among them. -/
def Spoken (env : Codec.Env) (o : Options) (p : Dis.Pdu) : Prop :=
  PduFits env o p ∨ ∃ x l, Named env p x l ∧ ((∀ c ∈ l, c.toNat < 128) ∨ VeryForeign l ∧ EndsWithName o x)

theorem octets_ascii {l : List Char} (h : ∀ c ∈ l, c.toNat < 128) : ∀ b ∈ Dis.textOctets l, b.toNat < 128 := by
  intro b hb
  unfold Dis.textOctets at hb
  obtain ⟨c, hc, h2⟩ := List.mem_flatMap.1 hb
  have h3 := h c hc
  have h4 := Dis.ascii_encode c.toNat h3
  rw [Char.ofNat_toNat] at h4
  rw [h4, List.mem_singleton] at h2
  rw [h2, UInt8.toNat_ofNat']
  omega

theorem octets_foreign {l : List Char} (h : l.length < (Dis.textOctets l).length) : (Dis.textOctets l).all (·.toNat < 128) = false := by
  rw [Bool.eq_false_iff]
  intro ha
  rw [List.all_eq_true] at ha
  have e := Dis.lossy_octets l []
  rw [List.append_nil, show Dis.fromUtf8Lossy [] = [] from rfl, List.append_nil, Dis.lossy_ascii (fun b hb => by simpa using ha b hb)] at e
  have := congrArg List.length e
  rw [List.length_map] at this
  omega

theorem fullUpdates_renamed (e : Dis.EntityId) (R : List Datagram) (p : Dis.Pdu) (c : CdisPdu) (x : Dis.EntityState) (hx : p.body = .entityState x) :
    fullUpdates e ((R ++ [(p, c)]).map renamed) = fullUpdates e (R.map renamed) ++
      if Datagram.full (p, c) = true ∧ x.entity_id = e then [renamedES x] else [] := by
  rw [List.map_append, List.map_singleton, fullUpdates_snoc]
  congr 1
  unfold renamed
  dsimp only
  rw [hx]
  rfl

theorem named_decodes {env : Codec.Env} {o : Options} (hm : o.update_mode = .partial) {p : Dis.Pdu} {c : CdisPdu} {x : Dis.EntityState}
    (hx : p.body = .entityState x) {v : Cdis.EntityState} {h : CdisHeader} (hid : eidDec v.entity_id = x.entity_id)
    (hv : v.full_update_flag = Datagram.full (p, c))
    (hh : ∀ o' d w, (pduDec env o' d ⟨h, .entityState w⟩).1 = received p.header (bodyDec env o' d (.entityState w)).1)
    (hdec : ∀ (R : List Datagram) d, Recalls env (R.map renamed) d → (esDec env o (d.es x.entity_id) v).1 =
      if Datagram.full (p, c) then arrivalES env o (renamedES x) else lateES env o (baseOf env (fullUpdates x.entity_id (R.map renamed))) (renamedES x)) :
    ∀ (R : List Datagram) d, Recalls env (R.map renamed) d →
      (pduDec env o d ⟨h, .entityState v⟩).1 = received p.header (shown env o (R.map renamed) (renamed (p, c))) ∧
      Recalls env ((R ++ [(p, c)]).map renamed) (pduDec env o d ⟨h, .entityState v⟩).2.2 := by
  intro R d hR
  have hd := hdec R d hR
  have hr : renamed (p, c) = ({ p with body := .entityState (renamedES x) }, c) := by unfold renamed; dsimp only; rw [hx]
  refine ⟨?_, fun e => ?_⟩
  · rw [hh, hr]
    unfold shown
    dsimp only
    rw [show Datagram.full ({ p with body := .entityState (renamedES x) }, c) = Datagram.full (p, c) from rfl]
    simp only [bodyDec, esDecodeBody, hid, hd]
    rfl
  · rw [show (pduDec env o d ⟨h, .entityState v⟩).2.2 = (bodyDec env o d (.entityState v)).2.2 from rfl]
    rw [fullUpdates_renamed e R p c x hx]
    simp only [bodyDec, esDecodeBody, hid]
    have hres : (esDec env o (d.es x.entity_id) v).2 = if Datagram.full (p, c) = true then .entityState else .unaffected := by
      simp [esDec, hm, hv]
    rw [hres, hd]
    cases hy : Datagram.full (p, c) with
    | false => simp [hR e]
    | true =>
      simp only [if_true, true_and]
      by_cases hxe : x.entity_id = e
      · subst hxe
        simp only [Map.set, if_true]
        rw [storedAfter_snoc, hR]
        rfl
      · rw [if_neg hxe, List.append_nil]
        simp only [Map.set]
        rw [if_neg (fun h => hxe h.symm), hR]

theorem datagram_spoken {env : Codec.Env} {o : Options} (hm : o.update_mode = .partial) {p : Dis.Pdu} (hp : Spoken env o p)
    {now s c r s'} (he : pduEnc env o now s p = some (c, r, s')) :
    (heard (p, c) = false → Cdis.parsePackets env.toEnv (packBits c.ser) = none) ∧
    (heard (p, c) = true → ∃ w, Cdis.parsePackets env.toEnv (packBits c.ser) = some [w] ∧ ∀ (R : List Datagram) d, Recalls env (R.map renamed) d →
      (pduDec env o d w).1 = received p.header (shown env o (R.map renamed) (renamed (p, c))) ∧
      Recalls env ((R ++ [(p, c)]).map renamed) (pduDec env o d w).2.2) := by
  obtain ⟨k, hk, e⟩ := bitsOf_pack c.ser
  have one : ∀ w, (Cdis.CdisPdu.parse env.toEnv).run (c.ser ++ List.replicate k false) = .ok w (List.replicate k false) →
      Cdis.parsePackets env.toEnv (packBits c.ser) = some [w] := by
    intro w hw
    unfold Cdis.parsePackets
    rw [e, (C36_parse_iff env.toEnv _ _ [w]).2 ⟨.cons hw (.nil _), by simp, pdu_short (by rw [List.length_replicate]; omega)⟩]
  rcases hp with hp | ⟨x, l, hn, hl⟩
  · have hne : ∀ x, p.body ≠ .entityState x := by
      intro x hx
      have := hp.2.2
      rw [hx] at this
      exact absurd (hm.symm.trans this.1) (by decide)
    have hr : renamed (p, c) = (p, c) := by
      unfold renamed
      cases hb : p.body with
      | entityState x => exact absurd hb (hne x)
      | _ => rfl
    have hh : heard (p, c) = true := by
      unfold heard
      cases hb : p.body with
      | entityState x => exact absurd hb (hne x)
      | _ => rfl
    obtain ⟨w, h1, h2⟩ := datagram_carried hm (.inl hp) he
    refine ⟨fun h => absurd hh (by simp [h]), fun _ => ⟨w, one w (h1 _), fun R d hR => ?_⟩⟩
    rw [List.map_append, List.map_singleton, hr]
    exact h2 (R.map renamed) d hR
  · have hch : Dis.fromUtf8Lossy x.entity_marking.marking_string = l := chars_named hn.text
    have hhe : heard (p, c) = (!Datagram.full (p, c) || x.entity_marking.marking_string.all (·.toNat < 128)) := by
      unfold heard; dsimp only; rw [hn.body]
    -- a partial update
    have part : ∀ (y : Cdis.EntityState) r0 h, y.Wf → esEnc env o now (s.es x.entity_id) (nameless x) = some (y, r0) → eidDec y.entity_id = x.entity_id →
        Datagram.full (p, c) = y.full_update_flag → y.full_update_flag = false →
        (∀ rest, (Cdis.CdisPdu.parse env.toEnv).run (c.ser ++ rest) = (Cdis.EntityState.parse.run (y.ser ++ rest)).andThen
          fun w t => .ok ⟨h, .entityState w⟩ t) →
        (∀ o' d w, (pduDec env o' d ⟨h, .entityState w⟩).1 = received p.header (bodyDec env o' d (.entityState w)).1) →
        ∃ w, Cdis.parsePackets env.toEnv (packBits c.ser) = some [w] ∧ ∀ (R : List Datagram) d, Recalls env (R.map renamed) d →
          (pduDec env o d w).1 = received p.header (shown env o (R.map renamed) (renamed (p, c))) ∧
          Recalls env ((R ++ [(p, c)]).map renamed) (pduDec env o d w).2.2 := by
      intro y r0 h a1 a2 a3 a5 hy a6 a7
      refine ⟨_, one _ (by rw [a6, EntityState.run a1]; rfl), named_decodes hm hn.body (v := y.wire) a3 a5.symm a7 fun R d hR => ?_⟩
      rw [es_part_dec hm hn.fits a2 hy, hR, base_stored, a5, hy]
      rfl
    rcases hl with ha | ⟨hv, hend⟩
    · obtain ⟨m, hmk, -, h34⟩ := C34_arrives l ha
      obtain ⟨y, r0, s1, c1, h, a1, a2, a3, a4, a5, a6, a7⟩ := named_enc o now s hn hmk
      rw [he] at a4
      cases a4
      have hall : x.entity_marking.marking_string.all (·.toNat < 128) = true := by
        rw [hn.text, List.all_eq_true]
        exact fun b hb => by simpa using octets_ascii ha b hb
      rw [hhe, hall, Bool.or_true]
      refine ⟨nofun, fun _ => ?_⟩
      cases hy : y.full_update_flag with
      | false => exact part y _ h a1 a2 a3 a5 hy (fun rest => by rw [a6, hy]; rfl) a7
      | true =>
        obtain ⟨m', b1, b2⟩ := h34 (wOpt wUV32 y.capabilities ++ (y.variable_parameters.flatMap VariableParameter.ser ++ List.replicate k false))
        refine ⟨⟨h, .entityState { y.wire with entity_marking := some m' }⟩, one _ ?_,
          named_decodes hm hn.body (v := { y.wire with entity_marking := some m' }) a3 a5.symm a7 fun R d hR => ?_⟩
        · have := entityState_upto_marking (v := { y with entity_marking := some m }) (wf_nameless a1 _) rfl (List.replicate k false)
          rw [a6, if_pos hy, this, b1]
          obtain ⟨-, -, -, -, -, -, -, -, -, -, -, -, -, -, h15, -, h17⟩ := a1
          simp only [rt, Res.andThen_ok, h15, P.run_count y.variable_parameters _ fun x hx r => VariableParameter.run (h17 x hx) r]
          rfl
        · have := es_full_dec (o := o) (o' := o) (st := d.es x.entity_id) hn.fits.wf (es_full_same a2 hy) hy
          have e2 : (esDec env o (d.es x.entity_id) { y.wire with entity_marking := some m' }).1 =
            { (esDec env o (d.es x.entity_id) y.wire).1 with entity_marking := ⟨1, Dis.textOctets m'.marking⟩ } := rfl
          rw [e2, this, b2, a5, hy]
          unfold renamedES
          rw [hch]
          rfl
    · obtain ⟨m, hmk, -⟩ := C34_swallows l (by rw [utf8Len_octets]; exact hv.1) (foreign_of hv.1 (by have := hv.2; omega)).2
      obtain ⟨y, r0, s1, c1, h, a1, a2, a3, a4, a5, a6, a7⟩ := named_enc o now s hn hmk
      rw [he] at a4
      cases a4
      rw [hhe, hn.text, octets_foreign (by have := hv.2; omega), Bool.or_false, a5]
      cases hy : y.full_update_flag with
      | false => exact ⟨nofun, fun _ => part y _ h a1 a2 a3 a5 hy (fun rest => by rw [a6, hy]; rfl) a7⟩
      | true =>
        refine ⟨fun _ => ?_, nofun⟩
        obtain ⟨c2, r2, s2, d1, d2⟩ := C75_lost_violated o now s ⟨x, l, hn, hv, hend⟩
        rw [he] at d1
        cases d1
        exact d2 (by rw [a5, hy])

theorem receive_spoken {env : Codec.Env} {o : Options} (hm : o.update_mode = .partial) :
    ∀ (net R : List Datagram) (d : DecState), Recalls env (R.map renamed) d →
      (∀ g ∈ net, Spoken env o g.1 ∧ ∃ now s r s', pduEnc env o now s g.1 = some (g.2, r, s')) →
      receive env o d (net.map fun g => packBits g.2.ser) =
        (net.filter heard).mapIdx fun k g => received g.1.header (shown env o ((R ++ (net.filter heard).take k).map renamed) (renamed g)) := by
  intro net
  induction net with
  | nil => exact fun _ _ _ _ => rfl
  | cons g net ih =>
    intro R d hR h
    obtain ⟨hs, now, s, r, s', he⟩ := h g (by simp)
    obtain ⟨h1, h2⟩ := datagram_spoken hm hs he
    rw [List.map_cons, receive, List.filter_cons]
    cases hh : heard g with
    | false =>
      rw [h1 hh]
      simp only [Bool.false_eq_true, if_false]
      exact ih R d hR (fun g' hg' => h g' (by simp [hg']))
    | true =>
      obtain ⟨w, hp, h2⟩ := h2 hh
      obtain ⟨h3, h4⟩ := h2 R d hR
      rw [hp]
      have h5 := ih (R ++ [g]) _ h4 (fun g' hg' => h g' (by simp [hg']))
      simp only [decStream, List.singleton_append, if_true, List.mapIdx_cons, List.take_zero, List.append_nil, List.take_succ_cons, h3, h5]
      simp

/-- **C75.** Entities with names of all kinds over a network that loses, repeats and reorders datagrams, in partial-update mode: the receiver hands over
one PDU for every datagram but those that carry a full update of an entity with a name outside ASCII; what it hands over is what it would for entities that have
the names that others see. -/
theorem C75_network {env : Codec.Env} {o : Options} (hm : o.update_mode = .partial) {sent : List (Nat × Dis.Pdu)}
    (hs : ∀ e ∈ sent, Spoken env o e.2) {out s'} (he : encStream env o {} sent = some (out, s'))
    {net : List Datagram} (hn : ∀ g ∈ net, g ∈ (sent.map (·.2)).zip out) :
    receive env o {} (net.map fun g => packBits g.2.ser) =
      (net.filter heard).mapIdx fun k g => received g.1.header (shown env o (((net.filter heard).take k).map renamed) (renamed g)) := by
  have := receive_spoken hm net [] {} (fun e => rfl) (fun g hg => by
    obtain ⟨⟨t, a⟩, b⟩ := sent_each sent {} he g (hn g hg)
    exact ⟨hs _ a, b⟩)
  simpa using this

/-! ### Cases that meet the hypotheses -/

/-- An entity with the name `l`. -/
def entityNamed (n : UInt16) (l : List Char) : Dis.EntityState :=
  { sent_entity with entity_id := ⟨⟨1, 1⟩, n⟩, entity_marking := ⟨1, Dis.textOctets l⟩, variable_parameters := [] }
def pduNamed (n : UInt16) (l : List Char) : Dis.Pdu := ⟨sampleFor 1, .entityState (entityNamed n l)⟩
theorem pduNamed_named (n : UInt16) (l : List Char) : Named codecEnv (pduNamed n l) (entityNamed n l) l where
  status := (C02_read_wf 1 0x02 : ((sampleFor 1).pdu_status.getD {}).Wf (sampleFor 1).pdu_type)
  type := rfl
  body := rfl
  text := rfl
  fits := by
    have h := sent_entity_fits
    exact { wf := by
              have h0 : ({ sent_entity with entity_marking := ⟨1, []⟩, variable_parameters := [] } : Dis.EntityState).Wf codecEnv.toEnv 7 := by decide +kernel
              exact { h0 with }
            type := h.type
            alternative := h.alternative
            location := h.location
            algorithm := h.algorithm
            acceleration := h.acceleration
            angular := h.angular
            marking := by show MarkingFits []; unfold MarkingFits; decide +kernel
            parameters := ⟨Nat.zero_le _, nofun⟩ }
/-- The settings that keep no capabilities. -/
def bareOptions : Options := { update_mode := .partial, optimize_mode := .bandwidth }
def ark : List (Nat × Dis.Pdu) :=
  [(0, pduNamed 1 "ÄÖ1".toList), (1, pduNamed 1 "ÄÖ1".toList), (2, pduNamed 2 "Tank 1".toList), (3, pduNamed 2 "Tank 1".toList)]
theorem ark_spoken : ∀ e ∈ ark, Spoken codecEnv bareOptions e.2 := by
  have h1 : Spoken codecEnv bareOptions (pduNamed 1 "ÄÖ1".toList) :=
    .inr ⟨_, _, pduNamed_named _ _, .inr ⟨by unfold VeryForeign; decide +kernel, ⟨nofun, rfl⟩⟩⟩
  have h2 : Spoken codecEnv bareOptions (pduNamed 2 "Tank 1".toList) :=
    .inr ⟨_, _, pduNamed_named _ _, .inl (by decide +kernel)⟩
  intro e he
  simp only [ark, List.mem_cons, List.not_mem_nil, or_false] at he
  rcases he with rfl | rfl | rfl | rfl <;> assumption
/-- Of the four datagrams three are read: a ghost, and twice an entity with another name than it has. -/
theorem C75_witness : ∃ out s', encStream codecEnv bareOptions {} ark = some (out, s') ∧
    ((ark.map (·.2)).zip out).map (fun g => (g.full, heard g)) = [(true, false), (false, true), (true, true), (false, true)] ∧
    (receive codecEnv bareOptions {} (((ark.map (·.2)).zip out).map fun g => packBits g.2.ser)).map (markingOf ·.body) =
      ["Marking".toUTF8.toList, "T*** 1".toUTF8.toList, "T*** 1".toUTF8.toList] := by
  have h : (encStream codecEnv bareOptions {} ark).map (fun r =>
      (((ark.map (·.2)).zip r.1).map (fun g => (g.full, heard g)),
       (receive codecEnv bareOptions {} (((ark.map (·.2)).zip r.1).map fun g => packBits g.2.ser)).map (markingOf ·.body))) =
      some ([(true, false), (false, true), (true, true), (false, true)],
        ["Marking".toUTF8.toList, "T*** 1".toUTF8.toList, "T*** 1".toUTF8.toList]) := by decide +kernel
  obtain ⟨⟨out, s'⟩, h1, h2⟩ := Option.map_eq_some_iff.1 h
  rw [Prod.mk.injEq] at h2
  exact ⟨out, s', h1, h2.1, h2.2⟩
end Verif.Props

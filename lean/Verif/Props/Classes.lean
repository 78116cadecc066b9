import Verif.Props.Relay
import Mathlib.Data.Nat.Bitwise

/-!
# C55: which record of appearance and capability bits an entity gets

The appearance and capabilities words of an Entity State PDU have a different layout for each kind of entity.  The reader
chooses the layout from the entity type of the same PDU.
-/

namespace Verif.Props
open Verif Verif.Dis

/-! ## Specification -/

/-- the kinds and domains (SISO-REF-010, UID 7 and 8) that a record of bits belongs to -/
def Belongs : EntityClass → Nat → Nat → Prop
  | .landPlatform, kind, domain => kind = 1 ∧ domain = 1
  | .airPlatform, kind, domain => kind = 1 ∧ domain = 2
  | .surfacePlatform, kind, domain => kind = 1 ∧ domain = 3
  | .subsurfacePlatform, kind, domain => kind = 1 ∧ domain = 4
  | .spacePlatform, kind, domain => kind = 1 ∧ domain = 5
  | .munition, kind, _ => kind = 2
  | .lifeForms, kind, _ => kind = 3
  | .environmental, kind, _ => kind = 4
  | .culturalFeature, kind, _ => kind = 5
  | .supply, kind, _ => kind = 6
  | .radio, kind, _ => kind = 7
  | .expendable, kind, _ => kind = 8
  | .sensorEmitter, kind, _ => kind = 9
  | .unspecified, kind, domain => kind = 0 ∨ 9 < kind ∨ kind = 1 ∧ (domain = 0 ∨ 5 < domain)

/-- no two records belong to the same kind and domain, and each kind and domain has one -/
theorem belongs_unique {a b : EntityClass} {k d : Nat} (ha : Belongs a k d) (hb : Belongs b k d) : a = b := by
  cases a <;> cases b <;> simp only [Belongs] at ha hb <;> first | rfl | (exfalso; omega)

/-- the big-endian 32-bit word at octets `k` to `k + 3` -/
def wordAt (bs : List UInt8) (k : Nat) : Nat :=
  (bs.getD k 0).toNat * 2 ^ 24 + (bs.getD (k + 1) 0).toNat * 2 ^ 16 + (bs.getD (k + 2) 0).toNat * 2 ^ 8 + (bs.getD (k + 3) 0).toNat

/-- the bits of a word that a record keeps: all of them when the record is unspecified, else those it has fields for -/
def Keeps (mask : EntityClass → UInt32) (cls : EntityClass) (word : Nat) (raw : UInt32) : Prop :=
  raw.toNat = if cls = .unspecified then word else word &&& (mask cls).toNat

/-- the version 6 capability flags (ammunition supply, fuel supply, recovery, repair: bits 0 to 3, most significant first)
that a record of capabilities has -/
def HasFlag : EntityClass → Nat → Prop
  | .landPlatform, i => i < 4
  | .airPlatform, i => i < 4
  | .surfacePlatform, i => i < 4
  | .subsurfacePlatform, i => i < 4
  | .spacePlatform, i => i < 4
  | .lifeForms, i => i < 4
  | .supply, i => i < 2
  | _, _ => False
instance (c : EntityClass) (i : Nat) : Decidable (HasFlag c i) := by unfold HasFlag; cases c <;> infer_instance

/-! ## Proofs -/

theorem entityClass_belongs (t : EntityType) : Belongs (entityClass t) t.kind.toNat t.domain.toNat := by
  unfold entityClass
  simp only
  repeat' split
  all_goals simp only [Belongs]
  all_goals omega

theorem wordAt_of (a : List UInt8) (w : UInt32) (r : List UInt8) {k : Nat} (h : a.length = k) :
    wordAt (a ++ (e32 w ++ r)) k = w.toNat := by
  subst h
  have g : ∀ i, (a ++ (e32 w ++ r)).getD (a.length + i) 0 = (e32 w ++ r).getD i 0 := fun i => by
    rw [List.getD_eq_getElem?_getD, List.getD_eq_getElem?_getD, List.getElem?_append_right (by omega), Nat.add_sub_cancel_left]
  have g0 := g 0
  rw [Nat.add_zero] at g0
  have := w.toNat_lt
  unfold wordAt
  rw [g0, g 1, g 2, g 3]
  show (UInt8.ofNat _).toNat * _ + (UInt8.ofNat _).toNat * _ + (UInt8.ofNat _).toNat * _ + (UInt8.ofNat _).toNat = _
  simp only [UInt8.toNat_ofNat']
  omega

theorem keeps_appearance (env : Env) (w : UInt32) (t : EntityType) :
    (EntityAppearance.fromBytes env w t).cls = entityClass t ∧
    Keeps env.appearanceMask (entityClass t) w.toNat (EntityAppearance.fromBytes env w t).raw := by
  unfold EntityAppearance.fromBytes Keeps
  cases entityClass t <;> exact ⟨rfl, by simp [UInt32.toNat_and]⟩

theorem top_nibble (n : Nat) : ((n / 2 ^ 24) &&& 0xF0) <<< 24 = n &&& 0xF0000000 := by
  have e : (0xF0000000 : Nat) = 0xF0 <<< 24 := by decide
  rw [e, ← Nat.shiftRight_eq_div_pow]
  apply Nat.eq_of_testBit_eq
  intro i
  simp only [Nat.testBit_shiftLeft, Nat.testBit_and, Nat.testBit_shiftRight]
  by_cases hi : 24 ≤ i
  · rw [show 24 + (i - 24) = i by omega]; simp [hi]
  · simp [hi]

/-- the flags of a version 6 record, as the bits of a land platform -/
theorem flags_word (b x y z : UInt8) :
    (EntityCapabilities.ofV6 ⟨b &&& 0x80 != 0, b &&& 0x40 != 0, b &&& 0x20 != 0, b &&& 0x10 != 0⟩).raw.toNat =
      (b.toNat * 2 ^ 24 + x.toNat * 2 ^ 16 + y.toNat * 2 ^ 8 + z.toNat) &&& 0xF0000000 := by
  have h1 : (EntityCapabilities.ofV6 ⟨b &&& 0x80 != 0, b &&& 0x40 != 0, b &&& 0x20 != 0, b &&& 0x10 != 0⟩).raw.toNat =
      (b.toNat &&& 0xF0) <<< 24 :=
    all_u8 (p := fun b => (EntityCapabilities.ofV6 ⟨b &&& 0x80 != 0, b &&& 0x40 != 0, b &&& 0x20 != 0, b &&& 0x10 != 0⟩).raw.toNat =
      (b.toNat &&& 0xF0) <<< 24) (by decide +kernel) b
  have hx := x.toNat_lt; have hy := y.toNat_lt; have hz := z.toNat_lt
  have h2 : (b.toNat * 2 ^ 24 + x.toNat * 2 ^ 16 + y.toNat * 2 ^ 8 + z.toNat) / 2 ^ 24 = b.toNat := by omega
  rw [h1, ← top_nibble, h2]

/-- the capabilities read from a word of an Entity State PDU -/
def CapabilitiesOf (env : Env) (ver : UInt8) (t : EntityType) (word : Nat) (x : EntityCapabilities) : Prop :=
  (ver = 7 ∧ t.kind = 0 ∧ x = ⟨.unspecified, 0⟩) ∨
  (ver = 7 ∧ t.kind ≠ 0 ∧ x.cls = entityClass t ∧ Keeps env.capabilityMask x.cls word x.raw) ∨
  (ver ≠ 7 ∧ x.cls = .landPlatform ∧ x.raw.toNat = word &&& 0xF0000000)

theorem keeps_capabilities (env : Env) (w : UInt32) (t : EntityType) :
    CapabilitiesOf env 7 t w.toNat (EntityCapabilities.fromBytes env w t) := by
  unfold EntityCapabilities.fromBytes CapabilitiesOf Keeps
  by_cases h : t.kind = 0
  · simp [h]
  · refine .inr (.inl ⟨rfl, h, ?_⟩)
    rw [if_neg h]
    cases entityClass t <;> exact ⟨rfl, by simp [UInt32.toNat_and]⟩

/-- what the reader of an Entity State body takes from octets 72 and 128 of the body -/
theorem takes_state_words (env : Env) (ver : UInt8) : Takes (EntityState.parse env ver) (fun c x => ∃ a w d v e,
    c = a ++ (e32 w ++ (d ++ (e32 v ++ e))) ∧ a.length = 72 ∧ d.length = 52 ∧
    x.entity_appearance = EntityAppearance.fromBytes env w x.entity_type ∧
    CapabilitiesOf env ver x.entity_type v.toNat x.entity_capabilities) := by
  unfold EntityState.parse
  refine Takes.bind Rd.spec fun c1 _ h1 => ?_
  refine Takes.bind Rd.spec fun c2 _ h2 => ?_
  refine Takes.bind Rd.spec fun c3 n h3 => ?_
  refine Takes.bind Rd.spec fun c4 t h4 => ?_
  refine Takes.bind Rd.spec fun c5 _ h5 => ?_
  refine Takes.bind Rd.spec fun c6 _ h6 => ?_
  refine Takes.bind Rd.spec fun c7 _ h7 => ?_
  refine Takes.bind Rd.spec fun c8 _ h8 => ?_
  refine Takes.bind (Q := fun c x => ∃ w, c = e32 w ∧ x = EntityAppearance.fromBytes env w t) ?_ fun _ ap h9 => ?_
  · unfold EntityAppearance.parse
    exact Takes.bind Rd.spec fun _ w e => Takes.pure ⟨w, by rw [e, List.append_nil], rfl⟩
  refine Takes.bind Rd.spec fun ca _ ha => ?_
  refine Takes.bind Rd.spec fun cb _ hb => ?_
  refine Takes.bind (Q := fun c x => ∃ v : UInt32, c = e32 v ∧ CapabilitiesOf env ver t v.toNat x) ?_ fun _ cp hc => ?_
  · unfold EntityCapabilities.parse
    refine Takes.ite (fun h7 => ?_) fun h7 => ?_
    · subst h7
      exact Takes.bind Rd.spec fun _ w e => Takes.pure ⟨w, by rw [e, List.append_nil], keeps_capabilities env w t⟩
    · refine Takes.bind (Q := fun c y => ∃ v : UInt32, c = e32 v ∧ (EntityCapabilities.ofV6 y).raw.toNat = v.toNat &&& 0xF0000000)
        ?_ fun _ y e => Takes.pure ?_
      · unfold CapabilitiesV6.parse
        refine Takes.bind Rd.spec fun _ b e => Takes.bind Rd.spec fun _ p e' => Takes.pure ?_
        obtain ⟨e', hp⟩ := e'
        subst e
        match p, hp, e' with
        | [x, y, z], _, e' =>
          subst e'
          have hb := b.toNat_lt; have hx := x.toNat_lt; have hy := y.toNat_lt; have hz := z.toNat_lt
          have hv : (UInt32.ofNat (b.toNat * 2 ^ 24 + x.toNat * 2 ^ 16 + y.toNat * 2 ^ 8 + z.toNat)).toNat =
              b.toNat * 2 ^ 24 + x.toNat * 2 ^ 16 + y.toNat * 2 ^ 8 + z.toNat :=
            UInt32.toNat_ofNat_of_lt' (by simp only [UInt32.size]; omega)
          refine ⟨UInt32.ofNat (b.toNat * 2 ^ 24 + x.toNat * 2 ^ 16 + y.toNat * 2 ^ 8 + z.toNat), ?_, ?_⟩
          · unfold e32 e8
            rw [hv]
            show [b, x, y, z] = _
            refine List.cons_eq_cons.2 ⟨?_, List.cons_eq_cons.2 ⟨?_, List.cons_eq_cons.2 ⟨?_, List.cons_eq_cons.2 ⟨?_, rfl⟩⟩⟩⟩ <;>
              (apply UInt8.toNat.inj; simp only [UInt8.toNat_ofNat']; omega)
          · rw [hv]; exact flags_word b x y z
      · obtain ⟨v, rfl, hv⟩ := e
        exact ⟨v, by rw [List.append_nil], .inr (.inr ⟨h7, rfl, hv⟩)⟩
  refine Takes.bind Rd.spec fun ce l hd => Takes.pure ?_
  obtain ⟨w, rfl, rfl⟩ := h9
  obtain ⟨v, rfl, hv⟩ := hc
  refine ⟨c1 ++ c2 ++ c3 ++ c4 ++ c5 ++ c6 ++ c7 ++ c8, w, ca ++ cb, v, ce, by simp only [List.append_nil, List.append_assoc], ?_, ?_, rfl, hv⟩
  · have := h1.length; have := h4.length; have := h5.length; have := h6.length; have := h7.length; have := h8.length
    subst h2 h3
    simp only [VectorF32.length_ser, EntityId.length_ser, EntityType.length_ser, Location.length_ser, Orientation.length_ser] at *
    simp only [List.length_append, length_e8]; omega
  · simp only [List.length_append, ha.1, hb.1]

/-- the Entity State PDUs are those of type 1 -/
theorem state_type {env : Env} {h : PduHeader} {bs r : Bytes} {x : EntityState} (e : (parseBody env h).run bs = .ok (.entityState x) r) :
    (EntityState.parse env h.protocol_version).run bs = .ok x r := by
  obtain ⟨k1, k2, k3⟩ := C23_body_of_type e
  have ht : h.pdu_type = 1 := by
    by_cases hs : h.pdu_type ∈ supportedTypes
    · by_cases h57 : h.pdu_type = 57
      · exact absurd (k2 h57) (show (1 : UInt8) ≠ 17 by decide)
      · exact (k1 hs h57).symm
    · obtain ⟨o, ho⟩ := k3 hs
      exact nomatch ho
  rw [parseBody_entityState env ht] at e
  obtain ⟨y, mid, e1, e2⟩ := bind_ok e
  simp only [P.run_pure, Res.ok.injEq, Body.entityState.injEq] at e2
  rw [e1, e2.1, e2.2]

theorem state_words {env : Env} {bs rest : Bytes} {p : Pdu} {x : EntityState} (h : (pdu env).run bs = .ok p rest)
    (hx : p.body = .entityState x) : ∃ w v : UInt32, wordAt bs 84 = w.toNat ∧ wordAt bs 140 = v.toNat ∧
    x.entity_appearance = EntityAppearance.fromBytes env w x.entity_type ∧
    CapabilitiesOf env p.header.protocol_version x.entity_type v.toNat x.entity_capabilities := by
  obtain ⟨mid, h1, h2⟩ := pdu_split h
  obtain ⟨c1, e1, f1, _⟩ := takes_header _ _ _ h1
  rw [hx] at h2
  obtain ⟨c, e2, a, w, d, v, e, rfl, ha, hd, h3, h4⟩ := takes_state_words env p.header.protocol_version _ _ _ (state_type h2)
  have hl : c1.length = 12 := by have := f1.length; rw [PduHeader.length_ser] at this; exact this.symm
  refine ⟨w, v, ?_, ?_, h3, h4⟩
  · have := wordAt_of (c1 ++ a) w (d ++ (e32 v ++ e) ++ rest) (k := 84) (by rw [List.length_append]; omega)
    rw [← this, e1, e2]; simp only [List.append_assoc]
  · have := wordAt_of (c1 ++ a ++ e32 w ++ d) v (e ++ rest) (k := 140) (by simp only [List.length_append, length_e32]; omega)
    rw [← this, e1, e2]; simp only [List.append_assoc]

/-! ## Theorems -/

/-- **C55.** The appearance of an Entity State PDU read from any input is the record of the kind and domain of its entity type,
with the bits of octets 84 to 87 that this record has fields for (all of them, for kinds without a record). -/
theorem C55_entity_state_appearance {env : Env} {bs rest : Bytes} {p : Pdu} {x : EntityState} (h : (pdu env).run bs = .ok p rest)
    (hx : p.body = .entityState x) :
    Belongs x.entity_appearance.cls x.entity_type.kind.toNat x.entity_type.domain.toNat ∧
    Keeps env.appearanceMask x.entity_appearance.cls (wordAt bs 84) x.entity_appearance.raw := by
  obtain ⟨w, v, h1, _, h3, _⟩ := state_words h hx
  obtain ⟨k1, k2⟩ := keeps_appearance env w x.entity_type
  rw [h3, h1, k1]
  exact ⟨entityClass_belongs _, k2⟩

/-- **C55**, the capabilities of version 7: likewise, from octets 140 to 143, except that entities of kind 0 lose them all. -/
theorem C55_entity_state_capabilities {env : Env} {bs rest : Bytes} {p : Pdu} {x : EntityState} (h : (pdu env).run bs = .ok p rest)
    (hx : p.body = .entityState x) (hv : p.header.protocol_version = 7) :
    Belongs x.entity_capabilities.cls x.entity_type.kind.toNat x.entity_type.domain.toNat ∧
    (x.entity_type.kind ≠ 0 → Keeps env.capabilityMask x.entity_capabilities.cls (wordAt bs 140) x.entity_capabilities.raw) ∧
    (x.entity_type.kind = 0 → x.entity_capabilities.raw = 0) := by
  obtain ⟨w, v, _, h2, _, h4⟩ := state_words h hx
  rw [h2]
  rcases h4 with ⟨_, hk, he⟩ | ⟨_, hk, hc, he⟩ | ⟨hn, _⟩
  · rw [he, hk]
    exact ⟨.inl rfl, fun hh => absurd rfl hh, fun _ => rfl⟩
  · exact ⟨by rw [hc]; exact entityClass_belongs _, fun _ => he, fun hh => absurd hh hk⟩
  · exact absurd hv hn

/-- **C55**, the capabilities of every other version: the four flags, as those of a land platform, whatever the entity is. -/
theorem C55_entity_state_capabilities_v6 {env : Env} {bs rest : Bytes} {p : Pdu} {x : EntityState} (h : (pdu env).run bs = .ok p rest)
    (hx : p.body = .entityState x) (hv : p.header.protocol_version ≠ 7) :
    x.entity_capabilities.cls = .landPlatform ∧ x.entity_capabilities.raw.toNat = wordAt bs 140 &&& 0xF0000000 := by
  obtain ⟨w, v, _, h2, _, h4⟩ := state_words h hx
  rw [h2]
  rcases h4 with ⟨hn, _⟩ | ⟨hn, _⟩ | ⟨_, hc, he⟩
  · exact absurd hn hv
  · exact absurd hn hv
  · exact ⟨hc, he⟩

/-! ### Writing capabilities for version 6 -/

theorem capability_bits (raw : UInt32) (a b c d : Bool) (i : Nat) :
    (flagBit (a && (raw &&& 0x80000000 != 0)) 0x80000000 ||| flagBit (b && (raw &&& 0x40000000 != 0)) 0x40000000
      ||| flagBit (c && (raw &&& 0x20000000 != 0)) 0x20000000 ||| flagBit (d && (raw &&& 0x10000000 != 0)) 0x10000000).toNat.testBit i =
    ((i = 31 && a || i = 30 && b || i = 29 && c || i = 28 && d) && raw.toNat.testBit i) := by
  have key : ∀ (k : Nat) (hk : k < 32) (x : Bool), (flagBit (x && (raw &&& UInt32.ofNat (2 ^ k) != 0)) (UInt32.ofNat (2 ^ k))).toNat.testBit i =
      (decide (i = k) && x && raw.toNat.testBit i) := by
    intro k hk x
    have hp : (UInt32.ofNat (2 ^ k)).toNat = 2 ^ k := UInt32.toNat_ofNat_of_lt' (by
      have : 2 ^ k < 2 ^ 32 := Nat.pow_lt_pow_right (by decide) hk
      simpa [UInt32.size] using this)
    have hz : (raw &&& UInt32.ofNat (2 ^ k) != 0) = raw.toNat.testBit k := by
      have e : (raw &&& UInt32.ofNat (2 ^ k)).toNat = if raw.toNat.testBit k then 2 ^ k else 0 := by
        rw [UInt32.toNat_and, hp, Nat.and_two_pow]
        cases raw.toNat.testBit k <;> simp
      cases hb : raw.toNat.testBit k with
      | true =>
        rw [hb] at e
        have : raw &&& UInt32.ofNat (2 ^ k) ≠ 0 := fun h => by
          rw [h] at e
          have := Nat.two_pow_pos k
          simp at e
          omega
        simpa using this
      | false =>
        rw [hb] at e
        have : raw &&& UInt32.ofNat (2 ^ k) = 0 := UInt32.toNat.inj (by rw [e]; rfl)
        simp [this]
    rw [hz]
    unfold flagBit
    by_cases hik : i = k
    · subst hik
      cases x <;> cases hb : raw.toNat.testBit i <;> simp [hp]
    · have : (2 ^ k).testBit i = false := by rw [Nat.testBit_two_pow]; simp [Ne.symm hik]
      cases x <;> cases hb : raw.toNat.testBit k <;> simp [hp, this, hik]
  have e31 : (0x80000000 : UInt32) = UInt32.ofNat (2 ^ 31) := by decide
  have e30 : (0x40000000 : UInt32) = UInt32.ofNat (2 ^ 30) := by decide
  have e29 : (0x20000000 : UInt32) = UInt32.ofNat (2 ^ 29) := by decide
  have e28 : (0x10000000 : UInt32) = UInt32.ofNat (2 ^ 28) := by decide
  simp only [UInt32.toNat_or, Nat.testBit_or, e31, e30, e29, e28]
  rw [key 31 (by decide), key 30 (by decide), key 29 (by decide), key 28 (by decide)]
  cases raw.toNat.testBit i <;> simp

/-- the bits written for version 6 -/
theorem v6_bits (x : EntityCapabilities) : ∃ w : UInt32, x.ser 6 = e32 w ∧
    ∀ i, i < 32 → w.toNat.testBit (31 - i) = (decide (HasFlag x.cls i) && x.raw.toNat.testBit (31 - i)) := by
  obtain ⟨cls, raw⟩ := x
  refine ⟨_, rfl, fun i hi => ?_⟩
  have key := fun a b c d => capability_bits raw a b c d (31 - i)
  have t := key true true true true
  have s := key true true false false
  have f := key false false false false
  simp only [Bool.true_and, Bool.false_and] at t s f
  have h0 : (31 - i = 31) = (i = 0) := propext ⟨fun h => by omega, fun h => by omega⟩
  have h1 : (31 - i = 30) = (i = 1) := propext ⟨fun h => by omega, fun h => by omega⟩
  have h2 : (31 - i = 29) = (i = 2) := propext ⟨fun h => by omega, fun h => by omega⟩
  have h3 : (31 - i = 28) = (i = 3) := propext ⟨fun h => by omega, fun h => by omega⟩
  simp only [h0, h1, h2, h3] at t s f
  have h4 : (decide (i = 0) && true || decide (i = 1) && true || decide (i = 2) && true || decide (i = 3) && true) = decide (i < 4) := by
    simp only [Bool.and_true, ← Bool.decide_or]; exact decide_eq_decide.2 (by omega)
  have h5 : (decide (i = 0) && true || decide (i = 1) && true || decide (i = 2) && false || decide (i = 3) && false) = decide (i < 2) := by
    simp only [Bool.and_true, Bool.and_false, Bool.or_false, ← Bool.decide_or]; exact decide_eq_decide.2 (by omega)
  rw [h4] at t
  rw [h5] at s
  cases cls with
  | landPlatform | airPlatform | surfacePlatform | subsurfacePlatform | spacePlatform | lifeForms => exact t
  | supply => exact s
  | _ =>
    simp only [Bool.and_false, Bool.or_false, Bool.false_and] at f
    simp only [HasFlag, decide_false, Bool.false_and]
    exact f

/-- **C55**, writing: in a version 6 Entity State PDU the four capability flags are those of the entity's record that version 6
knows for its class; a class without them writes zeros. -/
theorem C55_capabilities_written_v6 (h : PduHeader) (x : EntityState) (hv : h.protocol_version = 6)
    (hm : x.entity_marking.marking_string.length ≤ 11) (ho : x.dead_reckoning_parameters.ser.length = 40) (i : Nat) (hi : i < 32) :
    (wordAt (Pdu.ser ⟨h, .entityState x⟩) 140).testBit (31 - i) =
      (decide (HasFlag x.entity_capabilities.cls i) && x.entity_capabilities.raw.toNat.testBit (31 - i)) := by
  obtain ⟨w, e, hw⟩ := v6_bits x.entity_capabilities
  have := wordAt_of (h.ser ++ x.entity_id.ser ++ e8 x.force_id ++ e8 (UInt8.ofNat x.variable_parameters.length)
    ++ x.entity_type.ser ++ x.alternative_entity_type.ser
    ++ x.entity_linear_velocity.ser ++ x.entity_location.ser ++ x.entity_orientation.ser
    ++ x.entity_appearance.ser ++ x.dead_reckoning_parameters.ser
    ++ x.entity_marking.ser) w (serList VariableParameter.ser x.variable_parameters) (k := 140) (by
      simp only [List.length_append, PduHeader.length_ser, VectorF32.length_ser, EntityId.length_ser, EntityType.length_ser,
        Location.length_ser, Orientation.length_ser, EntityAppearance.length_ser, ho, length_e8, EntityMarking.ser, List.length_replicate]
      omega)
  rw [← hw i hi, ← this, ← e]
  simp only [Pdu.ser, Body.ser, EntityState.ser, hv, List.append_assoc]

/-! ### Groups and aggregates -/

/-- the header type of a body that was read -/
theorem type_of_body {env : Env} {h : PduHeader} {bs r : Bytes} {b : Body} (e : (parseBody env h).run bs = .ok b r)
    (h0 : b.pduType ≠ 0) (h17 : b.pduType ≠ 17) : h.pdu_type = b.pduType := by
  obtain ⟨k1, k2, k3⟩ := C23_body_of_type e
  by_cases hs : h.pdu_type ∈ supportedTypes
  · by_cases h57 : h.pdu_type = 57
    · exact absurd (k2 h57) h17
    · exact (k1 hs h57).symm
  · obtain ⟨o, ho⟩ := k3 hs
    exact absurd (by rw [ho]; rfl) h0

/-- the appearance in the description of a group member -/
def memberAppearance : GroupEntityDescription → Option EntityAppearance
  | .undefined => none
  | .basicGroundCombatVehicle x => some x.appearance
  | .enhancedGroundCombatVehicle x => some x.basic_ground_combat_vehicle.appearance
  | .basicGroundCombatSoldier x => some x.appearance
  | .enhancedGroundCombatSoldier x => some x.basic_ground_combat_soldier.appearance
  | .basicRotorWingAircraft x => some x.appearance
  | .enhancedRotorWingAircraft x => some x.basic_rotor_wing_aircraft.appearance
  | .basicFixedWingAircraft x => some x.appearance
  | .enhancedFixedWingAircraft x => some x.basic_fixed_wing_aircraft.appearance
  | .groundLogisticsVehicle x => some x.appearance

/-- **C55**, Is Group Of PDUs read from any input: the members of groups of aircraft (categories 5 to 8) have the appearance of
air platforms, those of ground categories (1 to 4 and 9, soldiers included) of land platforms, with no bits beyond those of
the record. -/
theorem C55_group_members {env : Env} {bs rest : Bytes} {p : Pdu} {x : IsGroupOf} (h : (pdu env).run bs = .ok p rest)
    (hx : p.body = .isGroupOf x) {d : GroupEntityDescription} (hd : d ∈ x.descriptions) {a : EntityAppearance}
    (ha : memberAppearance d = some a) :
    (x.grouped_entity_category.toNat ∈ [5, 6, 7, 8] ∧ a.cls = .airPlatform ∨
     x.grouped_entity_category.toNat ∈ [1, 2, 3, 4, 9] ∧ a.cls = .landPlatform) ∧
    a.raw &&& env.appearanceMask a.cls = a.raw := by
  obtain ⟨mid, h1, h2⟩ := pdu_split h
  rw [hx] at h2
  have ht : p.header.pdu_type = 34 := type_of_body h2 (show (34 : UInt8) ≠ 0 by decide) (show (34 : UInt8) ≠ 17 by decide)
  rw [parseBody_isGroupOf env ht] at h2
  obtain ⟨y, m, e1, e2⟩ := bind_ok h2
  simp only [P.run_pure, Res.ok.injEq, Body.isGroupOf.injEq] at e2
  obtain ⟨rfl, rfl⟩ := e2
  obtain ⟨_, _, _, hw⟩ := (Rd.spec (p := IsGroupOf.parse env)) _ _ _ e1
  have hw := hw.descriptions d hd
  cases d <;> simp only [memberAppearance, Option.some.injEq, reduceCtorEq] at ha <;> subst ha <;>
    (obtain ⟨hc, hcls, hm⟩ := hw; rw [hc]; have hm := hm (by rw [hcls]; decide)
     refine ⟨?_, hm⟩
     first | exact .inl ⟨by decide, hcls⟩ | exact .inr ⟨by decide, hcls⟩)

/-- **C55**, Aggregate State PDUs read from any input: the appearances of a silent entity system are those of its entity type. -/
theorem C55_silent_entities {env : Env} {bs rest : Bytes} {p : Pdu} {x : AggregateState} (h : (pdu env).run bs = .ok p rest)
    (hx : p.body = .aggregateState x) {s : SilentEntitySystem} (hs : s ∈ x.silent_entity_systems) {a : EntityAppearance}
    (ha : a ∈ s.appearances) : Belongs a.cls s.entity_type.kind.toNat s.entity_type.domain.toNat ∧
    (a.cls ≠ .unspecified → a.raw &&& env.appearanceMask a.cls = a.raw) := by
  obtain ⟨mid, h1, h2⟩ := pdu_split h
  rw [hx] at h2
  have ht : p.header.pdu_type = 33 := type_of_body h2 (show (33 : UInt8) ≠ 0 by decide) (show (33 : UInt8) ≠ 17 by decide)
  rw [parseBody_aggregateState env ht] at h2
  obtain ⟨y, m, e1, e2⟩ := bind_ok h2
  simp only [P.run_pure, Res.ok.injEq, Body.aggregateState.injEq] at e2
  obtain ⟨rfl, rfl⟩ := e2
  have key : Takes (AggregateState.parse env) (fun _ x => ∀ s ∈ x.silent_entity_systems, s.Wf env) := by
    unfold AggregateState.parse
    iterate 16 refine Takes.bind Rd.spec fun _ _ _ => ?_
    refine Takes.ite (fun _ => Takes.panic) fun _ => ?_
    refine Takes.bind Rd.spec fun _ _ _ => Takes.bind Rd.spec fun _ _ _ => Takes.bind Rd.spec fun _ _ h => ?_
    exact Takes.bind Rd.spec fun _ _ _ => Takes.bind Rd.spec fun _ _ _ => Takes.pure h.2.2
  obtain ⟨_, _, hw⟩ := key _ _ _ e1
  obtain ⟨h1, h2⟩ := (hw s hs).appearances a ha
  exact ⟨by rw [h1]; exact entityClass_belongs _, h2⟩

/-! ## Non-vacuity -/

-- PDUs with these bodies are read (C08, C15), and have appearances to speak of
example : (pdu sampleEnv).run (Pdu.ser ⟨sampleFor 1, .entityState sample_entityState⟩ ++ []) =
    .ok ⟨sampleFor 1, .entityState sample_entityState⟩ [] ∧ sample_entityState.entity_type.kind = 1 :=
  ⟨C08_entityState_round_trip_partial sampleEnv (sampleFor_wf 1) rfl sample_entityState_ok [], rfl⟩
example : (pdu sampleEnv).run (Pdu.ser ⟨sampleFor 34, .isGroupOf sample_isGroupOf⟩ ++ []) =
    .ok ⟨sampleFor 34, .isGroupOf sample_isGroupOf⟩ [] ∧ (sample_isGroupOf.descriptions.filterMap memberAppearance).length = 2 :=
  ⟨C15_isGroupOf_round_trip sampleEnv (sampleFor_wf 34) rfl sample_isGroupOf_ok [], rfl⟩
example : (pdu sampleEnv).run (Pdu.ser ⟨sampleFor 33, .aggregateState sample_aggregateState⟩ ++ []) =
    .ok ⟨sampleFor 33, .aggregateState sample_aggregateState⟩ [] ∧
    (sample_aggregateState.silent_entity_systems.flatMap SilentEntitySystem.appearances).length = 4 :=
  ⟨C15_aggregateState_round_trip_partial sampleEnv (sampleFor_wf 33) rfl sample_aggregateState_ok [], rfl⟩
-- capability flags of a supply: the recovery and repair bits are not written in version 6
example : EntityCapabilities.ser 6 ⟨.supply, 0xF0000000⟩ = [0xC0, 0, 0, 0] ∧ EntityCapabilities.ser 6 ⟨.airPlatform, 0xF0000000⟩ = [0xF0, 0, 0, 0] := by
  decide

end Verif.Props

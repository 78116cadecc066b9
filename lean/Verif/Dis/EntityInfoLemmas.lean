import Verif.Dis.EntityInfoWf

namespace Verif.Dis
open Verif.P

/-! ### Variable parameter lists -/

theorem run_vps {l : List VariableParameter} (h : VariableParameters.Wf l) (hs : VariableParameters.NoSeparation l)
    (r : Bytes) :
    (P.count VariableParameter.parse (UInt8.ofNat l.length).toNat).run (serList VariableParameter.ser l ++ r) = .ok l r :=
  run_countList l r _ (toNat_u8_ofNat (by have := h.1; omega))
    (fun x hx r => VariableParameter.parse_ser (h.2 x hx) (hs x hx) r)

theorem length_vps {l : List VariableParameter} (h : VariableParameters.Wf l) :
    (serList VariableParameter.ser l).length = 16 * l.length :=
  length_serList_const l fun x hx => VariableParameter.length_ser (h.2 x hx)

theorem cnt_vps (l : List VariableParameter) : cntList VariableParameter.cnt l = 16 * l.length :=
  cntList_const l fun x _ => VariableParameter.cnt_eq x

/-! ### Appearance and capabilities -/

theorem EntityAppearance.fromBytes_eq {env : Env} {t : EntityType} {x : EntityAppearance} (h : x.Wf env t) :
    EntityAppearance.fromBytes env x.raw t = x := by
  obtain ⟨c, raw⟩ := x
  obtain ⟨h1, h2⟩ := h
  simp only at h1 h2
  unfold EntityAppearance.fromBytes
  rw [← h1]
  cases c <;> first | rfl | (simp only [h2 (by simp)])

theorem EntityAppearance.parse_ser {env : Env} {t : EntityType} {x : EntityAppearance} (h : x.Wf env t) (r : Bytes) :
    (EntityAppearance.parse env t).run (x.ser ++ r) = .ok x r := by
  rtp [EntityAppearance.parse, EntityAppearance.ser, EntityAppearance.fromBytes_eq h]
@[len] theorem EntityAppearance.length_ser (x : EntityAppearance) : x.ser.length = 4 := by
  lenp [EntityAppearance.ser]

theorem EntityCapabilities.fromBytes_eq {env : Env} {t : EntityType} {x : EntityCapabilities} (hk : t.kind ≠ 0)
    (h1 : x.cls = entityClass t) (h2 : x.cls ≠ .unspecified → x.raw &&& env.capabilityMask x.cls = x.raw) :
    EntityCapabilities.fromBytes env x.raw t = x := by
  obtain ⟨c, raw⟩ := x
  simp only at h1 h2
  unfold EntityCapabilities.fromBytes
  rw [if_neg hk, ← h1]
  cases c <;> first | rfl | (simp only [h2 (by simp)])

theorem CapabilitiesV6.parse_ser (x : CapabilitiesV6) (r : Bytes) :
    CapabilitiesV6.parse.run (x.ser ++ r) = .ok x r := by
  have h : ∀ (a b c d : Bool), (⟨a, b, c, d⟩ : CapabilitiesV6).ser
      = e8 ((if a then 0x80 else 0) ||| (if b then 0x40 else 0) ||| (if c then 0x20 else 0) ||| (if d then 0x10 else 0))
        ++ zeros 3 := by decide
  obtain ⟨a, b, c, d⟩ := x
  rw [h]
  rtp [CapabilitiesV6.parse]
  congr 1
  revert a b c d; decide

theorem and_self_two (a : UInt32) : a &&& 0xf0000000 = (a &&& 0x80000000) ||| (a &&& 0x40000000) ||| (a &&& 0x20000000) ||| (a &&& 0x10000000) := by
  apply UInt32.toNat.inj
  simp only [UInt32.toNat_and, UInt32.toNat_or]
  rw [← Nat.and_or_distrib_left, ← Nat.and_or_distrib_left, ← Nat.and_or_distrib_left]; rfl

theorem nat_and_two_pow (x k : Nat) : x &&& 2 ^ k = if x.testBit k then 2 ^ k else 0 := by
  apply Nat.eq_of_testBit_eq
  intro i
  rw [Nat.testBit_and, Nat.testBit_two_pow]
  by_cases h : k = i
  · subst h; cases x.testBit k <;> simp
  · simp only [h, decide_false, Bool.and_false]
    split
    · rw [Nat.testBit_two_pow]; simp [h]
    · simp

theorem flagBit_and (a : UInt32) (k : Nat) (hk : k < 32) :
    flagBit (a &&& UInt32.ofNat (2 ^ k) != 0) (UInt32.ofNat (2 ^ k)) = a &&& UInt32.ofNat (2 ^ k) := by
  have hp : 2 ^ k < 2 ^ 32 := Nat.pow_lt_pow_right (by decide) hk
  have h2 : (UInt32.ofNat (2 ^ k)).toNat = 2 ^ k := by
    rw [UInt32.toNat_ofNat']; exact Nat.mod_eq_of_lt hp
  have : a &&& UInt32.ofNat (2 ^ k) = 0 ∨ a &&& UInt32.ofNat (2 ^ k) = UInt32.ofNat (2 ^ k) := by
    by_cases hb : a.toNat.testBit k
    · right
      apply UInt32.toNat.inj
      rw [UInt32.toNat_and, h2, nat_and_two_pow, if_pos hb]
    · left
      apply UInt32.toNat.inj
      rw [UInt32.toNat_and, h2, nat_and_two_pow, if_neg hb]; rfl
  rcases this with h | h
  · rw [h]; simp [flagBit]
  · rw [h]
    have hne : UInt32.ofNat (2 ^ k) ≠ 0 := by
      intro e; have := congrArg UInt32.toNat e; rw [h2] at this
      have := Nat.two_pow_pos k; simp at *
    simp [flagBit, hne]

theorem ofV6_flags {raw : UInt32} (h : raw &&& 0xf0000000 = raw) :
    EntityCapabilities.ofV6 (capabilityFlags raw) = ⟨.landPlatform, raw⟩ := by
  have h31 := flagBit_and raw 31 (by decide)
  have h30 := flagBit_and raw 30 (by decide)
  have h29 := flagBit_and raw 29 (by decide)
  have h28 := flagBit_and raw 28 (by decide)
  simp only [show UInt32.ofNat (2 ^ 31) = 0x80000000 from rfl] at h31
  simp only [show UInt32.ofNat (2 ^ 30) = 0x40000000 from rfl] at h30
  simp only [show UInt32.ofNat (2 ^ 29) = 0x20000000 from rfl] at h29
  simp only [show UInt32.ofNat (2 ^ 28) = 0x10000000 from rfl] at h28
  unfold EntityCapabilities.ofV6 capabilityFlags
  simp only [h31, h30, h29, h28]
  rw [← and_self_two, h]

theorem EntityCapabilities.parse_ser {env : Env} {ver : UInt8} {t : EntityType} {x : EntityCapabilities}
    (h : x.Wf env ver t) (r : Bytes) :
    (EntityCapabilities.parse env ver t).run (x.ser ver ++ r) = .ok x r := by
  rcases h with ⟨rfl, hk, rfl⟩ | ⟨rfl, hk, h1, h2⟩ | ⟨rfl, h1, h2⟩
  · rtp [EntityCapabilities.parse, EntityCapabilities.ser, supportedVersion]
    simp (decide := true) only [if_true, if_false, rt, EntityCapabilities.fromBytes, hk]
  · rtp [EntityCapabilities.parse, EntityCapabilities.ser, supportedVersion]
    simp (decide := true) only [if_true, if_false, rt, EntityCapabilities.fromBytes_eq hk h1 h2]
  · obtain ⟨c, raw⟩ := x
    simp only at h1 h2
    subst h1
    rtp [EntityCapabilities.parse, EntityCapabilities.ser, supportedVersion]
    simp (decide := true) only [if_true, if_false, rt, EntityCapabilities.toV6, CapabilitiesV6.parse_ser, ofV6_flags h2]

@[len] theorem EntityCapabilities.length_ser (ver : UInt8) (x : EntityCapabilities) : (x.ser ver).length = 4 := by
  unfold EntityCapabilities.ser
  split <;> lenp [CapabilitiesV6.ser]

/-! ### Marking -/

theorem dropWhile_append_all {α : Type} (p : α → Bool) (a b : List α) (h : ∀ x ∈ a, p x = true) :
    (a ++ b).dropWhile p = b.dropWhile p := by
  induction a with
  | nil => rfl
  | cons x xs ih =>
    rw [List.cons_append, List.dropWhile_cons, if_pos (h x (by simp))]
    exact ih fun y hy => h y (by simp [hy])

theorem sanitize_padded (env : Env) {s : Bytes} (n : Nat) (ha : ∀ b ∈ s, b.toNat < 128)
    (hl : ∀ b, s.getLast? = some b → isAlnum b = true) {c : UInt8} (hc : isAlnum c = false ∧ c.toNat < 128) :
    sanitizeMarking env (s ++ List.replicate n c) = s := by
  unfold sanitizeMarking
  have hall : (s ++ List.replicate n c).all (fun b => b.toNat < 128) = true := by
    rw [List.all_eq_true]
    intro b hb
    rw [List.mem_append] at hb
    rcases hb with hb | hb
    · simpa using ha b hb
    · rw [List.eq_of_mem_replicate hb]; simpa using hc.2
  rw [if_pos hall, List.reverse_append, List.reverse_replicate,
    dropWhile_append_all _ _ _ (by intro x hx; rw [List.eq_of_mem_replicate hx]; simp [hc.1])]
  have : s.reverse.dropWhile (fun b => !isAlnum b) = s.reverse := by
    cases hr : s.reverse with
    | nil => rfl
    | cons x xs =>
      have hx : s.getLast? = some x := by
        have : s = (x :: xs).reverse := by rw [← hr, List.reverse_reverse]
        rw [this]; simp
      rw [List.dropWhile_cons, if_neg (by simp [hl x hx])]
  rw [this, List.reverse_reverse]

theorem EntityMarking.parse_ser (env : Env) {x : EntityMarking} (h : x.Wf) (r : Bytes) :
    (EntityMarking.parse env).run (x.ser ++ r) = .ok x r := by
  obtain ⟨h1, h2, h3⟩ := h
  rtp [EntityMarking.parse, EntityMarking.ser]
  rw [← List.append_assoc, P.run_take _ _ 11 (by simp; omega)]
  simp only [sanitize_padded env _ h2 h3 (c := 0x20) (by decide), rt]
theorem EntityMarking.length_ser {x : EntityMarking} (h : x.Wf) : x.ser.length = 12 := by
  have := h.1
  lenp [EntityMarking.ser, List.length_replicate]; omega

/-! ### Dead reckoning -/

theorem DrParameters.parse_ser {x : DrParameters} (h : x.Wf) (r : Bytes) :
    DrParameters.parse.run (x.ser ++ r) = .ok x r := by
  obtain ⟨a, o, l, v⟩ := x
  cases o with
  | none b =>
    obtain ⟨h1, h2⟩ := h
    simp only at h1
    have e1 : ¬ (a.toNat = 1 ∨ a.toNat = 2 ∨ a.toNat = 5 ∨ a.toNat = 6 ∨ a.toNat = 9) := by omega
    have e2 : ¬ (a.toNat = 3 ∨ a.toNat = 4 ∨ a.toNat = 7 ∨ a.toNat = 8) := by omega
    rtp [DrParameters.parse, DrParameters.ser, DrOtherParameters.parse, DrOtherParameters.ser, e1, e2, if_false]
    rw [P.run_take _ _ _ h2]; simp only [rt]
  | euler p q s =>
    simp only [DrParameters.Wf, List.mem_cons, List.not_mem_nil, or_false] at h
    rtp [DrParameters.parse, DrParameters.ser, DrOtherParameters.parse, DrOtherParameters.ser, h, if_true]
  | quaternion n p q s =>
    simp only [DrParameters.Wf, List.mem_cons, List.not_mem_nil, or_false] at h
    have e1 : ¬ (a.toNat = 1 ∨ a.toNat = 2 ∨ a.toNat = 5 ∨ a.toNat = 6 ∨ a.toNat = 9) := by omega
    rtp [DrParameters.parse, DrParameters.ser, DrOtherParameters.parse, DrOtherParameters.ser, h, e1, if_false, if_true]
theorem DrParameters.length_ser {x : DrParameters} (h : x.Wf) : x.ser.length = 40 := by
  obtain ⟨a, o, l, v⟩ := x
  cases o with
  | none b => lenp [DrParameters.ser, DrOtherParameters.ser, h.2]
  | euler p q s => lenp [DrParameters.ser, DrOtherParameters.ser]
  | quaternion n p q s => lenp [DrParameters.ser, DrOtherParameters.ser]

/-! ### Entity State -/

theorem EntityState.parse_ser {env : Env} {ver : UInt8} {x : EntityState} (h : x.Wf env ver)
    (hs : VariableParameters.NoSeparation x.variable_parameters) (r : Bytes) :
    (EntityState.parse env ver).run (x.ser ver ++ r) = .ok x r := by
  rtp [EntityState.parse, EntityState.ser, EntityAppearance.parse_ser h.appearance, DrParameters.parse_ser h.dr,
    EntityMarking.parse_ser env h.marking, EntityCapabilities.parse_ser h.capabilities, run_vps h.vps hs]

theorem EntityState.length_ser {env : Env} {ver : UInt8} {x : EntityState} (h : x.Wf env ver) :
    (x.ser ver).length = x.bodyLen := by
  lenp [EntityState.ser, EntityState.bodyLen, DrParameters.length_ser h.dr, EntityMarking.length_ser h.marking,
    length_vps h.vps]

theorem EntityState.cnt_eq (x : EntityState) : x.cnt = x.bodyLen + 44 := by
  simp only [EntityState.cnt, EntityState.bodyLen, cnt_vps]; omega

/-! ### Entity State Update -/

theorem EntityStateUpdate.parse_ser {x : EntityStateUpdate} (h : x.Wf)
    (hs : VariableParameters.NoSeparation x.variable_parameters) (r : Bytes) :
    EntityStateUpdate.parse.run (x.ser ++ r) = .ok x r := by
  rtp [EntityStateUpdate.parse, EntityStateUpdate.ser, EntityAppearance.ser, run_vps h.vps hs]
  obtain ⟨a, b, c, d, ⟨cl, raw⟩, l⟩ := x
  have := h.appearance
  simp only at this
  subst this; rfl

theorem EntityStateUpdate.length_ser {x : EntityStateUpdate} (h : x.Wf) : x.ser.length = x.bodyLen := by
  lenp [EntityStateUpdate.ser, EntityStateUpdate.bodyLen, length_vps h.vps]
theorem EntityStateUpdate.cnt_eq (x : EntityStateUpdate) : x.cnt = x.bodyLen := by
  simp only [EntityStateUpdate.cnt, EntityStateUpdate.bodyLen, cnt_vps]

/-! ### Attribute -/

theorem AttributeRecord.ser_wf {x : AttributeRecord} (h : x.Wf) :
    x.ser = e32 x.record_type ++ e16 (UInt16.ofNat (6 + x.specific_fields.length)) ++ x.specific_fields := by
  simp [AttributeRecord.ser, lengthPaddedToNum, h.1, zeros]

theorem AttributeRecord.parse_ser {x : AttributeRecord} (h : x.Wf) (r : Bytes) :
    AttributeRecord.parse.run (x.ser ++ r) = .ok x r := by
  rw [AttributeRecord.ser_wf h]
  have e := toNat_u16_ofNat h.2
  generalize UInt16.ofNat (6 + x.specific_fields.length) = n at e ⊢
  have e2 : n.toNat - 6 = x.specific_fields.length := by omega
  rtp [AttributeRecord.parse, e2]
  rw [P.run_take _ _ _ rfl]; simp only [rt]
theorem AttributeRecord.length_ser {x : AttributeRecord} (h : x.Wf) : x.ser.length = 6 + x.specific_fields.length := by
  rw [AttributeRecord.ser_wf h]; lenp [length_e8]
theorem AttributeRecord.cnt_eq {x : AttributeRecord} (h : x.Wf) : x.cnt = 6 + x.specific_fields.length := by
  have := h.2
  simp only [AttributeRecord.cnt, lengthPaddedToNum, h.1, if_true]; omega

theorem AttributeRecordSet.parse_ser {x : AttributeRecordSet} (h : x.Wf) (r : Bytes) :
    AttributeRecordSet.parse.run (x.ser ++ r) = .ok x r := by
  rtp [AttributeRecordSet.parse, AttributeRecordSet.ser,
    run_countList (p := AttributeRecord.parse) x.attribute_records _ _ (toNat_u16_ofNat h.1)
      (fun y hy r => AttributeRecord.parse_ser (h.2 y hy) r)]

theorem sum_map_congr {α : Type} {f g : α → Nat} (l : List α) (h : ∀ x ∈ l, f x = g x) :
    (l.map f).sum = (l.map g).sum := by
  rw [List.map_congr_left h]

theorem AttributeRecordSet.length_ser {x : AttributeRecordSet} (h : x.Wf) :
    x.ser.length = 8 + (x.attribute_records.map fun r => 6 + r.specific_fields.length).sum := by
  lenp [AttributeRecordSet.ser]
  rw [length_serList_eq_cntList (c := fun r => 6 + r.specific_fields.length) _
    (fun y hy => AttributeRecord.length_ser (h.2 y hy))]
  unfold cntList; omega
theorem AttributeRecordSet.cnt_eq {x : AttributeRecordSet} (h : x.Wf) :
    x.cnt = 8 + (x.attribute_records.map fun r => 6 + r.specific_fields.length).sum := by
  unfold AttributeRecordSet.cnt cntList
  rw [sum_map_congr _ fun y hy => AttributeRecord.cnt_eq (h.2 y hy)]

theorem Attribute.parse_ser {x : Attribute} (h : x.Wf) (r : Bytes) :
    Attribute.parse.run (x.ser ++ r) = .ok x r := by
  rtp [Attribute.parse, Attribute.ser,
    run_countList (p := AttributeRecordSet.parse) x.attribute_record_sets _ _ (toNat_u16_ofNat h.1)
      (fun y hy r => AttributeRecordSet.parse_ser (h.2 y hy) r)]
theorem Attribute.length_ser {x : Attribute} (h : x.Wf) : x.ser.length = x.bodyLen := by
  lenp [Attribute.ser]
  rw [length_serList_eq_cntList _ (fun y hy => AttributeRecordSet.length_ser (h.2 y hy))]
  unfold cntList Attribute.bodyLen; omega
theorem Attribute.cnt_eq {x : Attribute} (h : x.Wf) : x.cnt = x.bodyLen := by
  unfold Attribute.cnt cntList Attribute.bodyLen
  rw [sum_map_congr _ fun y hy => AttributeRecordSet.cnt_eq (h.2 y hy)]

/-! ### Collisions -/

@[rt] theorem Collision.parse_ser (x : Collision) (r : Bytes) : Collision.parse.run (x.ser ++ r) = .ok x r := by
  rtp [Collision.parse, Collision.ser]
@[len] theorem Collision.length_ser (x : Collision) : x.ser.length = 48 := by lenp [Collision.ser]
@[rt] theorem CollisionElastic.parse_ser (x : CollisionElastic) (r : Bytes) :
    CollisionElastic.parse.run (x.ser ++ r) = .ok x r := by
  rtp [CollisionElastic.parse, CollisionElastic.ser]
@[len] theorem CollisionElastic.length_ser (x : CollisionElastic) : x.ser.length = 88 := by lenp [CollisionElastic.ser]

/-! ### Stability and safety -/

instance (e t) : Stable (EntityAppearance.parse e t) := by unfold EntityAppearance.parse; parser_ok
instance : Stable CapabilitiesV6.parse := by unfold CapabilitiesV6.parse; parser_ok
instance (e v t) : Stable (EntityCapabilities.parse e v t) := by unfold EntityCapabilities.parse; parser_ok
instance (e) : Stable (EntityMarking.parse e) := by unfold EntityMarking.parse; parser_ok
instance (a) : Stable (DrOtherParameters.parse a) := by unfold DrOtherParameters.parse; dsimp only; parser_ok
instance : Stable DrParameters.parse := by unfold DrParameters.parse; parser_ok
instance (e v) : Stable (EntityState.parse e v) := by unfold EntityState.parse; parser_ok
instance : Stable EntityStateUpdate.parse := by unfold EntityStateUpdate.parse; parser_ok
instance : Stable AttributeRecord.parse := by unfold AttributeRecord.parse; parser_ok
instance : Stable AttributeRecordSet.parse := by unfold AttributeRecordSet.parse; parser_ok
instance : Stable Attribute.parse := by unfold Attribute.parse; parser_ok
instance : Stable Collision.parse := by unfold Collision.parse; parser_ok
instance : Stable CollisionElastic.parse := by unfold CollisionElastic.parse; parser_ok

instance (e t) : Safe (EntityAppearance.parse e t) := by unfold EntityAppearance.parse; parser_ok
instance : Safe CapabilitiesV6.parse := by unfold CapabilitiesV6.parse; parser_ok
instance (e v t) : Safe (EntityCapabilities.parse e v t) := by unfold EntityCapabilities.parse; parser_ok
instance (e) : Safe (EntityMarking.parse e) := by unfold EntityMarking.parse; parser_ok
instance (a) : Safe (DrOtherParameters.parse a) := by unfold DrOtherParameters.parse; dsimp only; parser_ok
instance : Safe DrParameters.parse := by unfold DrParameters.parse; parser_ok
instance (e v) : Safe (EntityState.parse e v) := by unfold EntityState.parse; parser_ok
instance : Safe EntityStateUpdate.parse := by unfold EntityStateUpdate.parse; parser_ok
instance : Safe AttributeRecord.parse := by unfold AttributeRecord.parse; parser_ok
instance : Safe AttributeRecordSet.parse := by unfold AttributeRecordSet.parse; parser_ok
instance : Safe Attribute.parse := by unfold Attribute.parse; parser_ok
instance : Safe Collision.parse := by unfold Collision.parse; parser_ok
instance : Safe CollisionElastic.parse := by unfold CollisionElastic.parse; parser_ok

end Verif.Dis

import Verif.Props.Through3
namespace Verif.Props
open Verif.Codec

/-- every component of a vector is a number from `-m` to `m` -/
def VecFits (v : Dis.VectorF32) (m : Rat) : Prop := InRange v.first (-m) m ∧ InRange v.second (-m) m ∧ InRange v.third (-m) m

theorem dec_in14 {b : UInt32} (h : InRange b (-819) 819) : Cdis.InS 14 (decEnc b) := by
  obtain ⟨q, hq, h1, h2⟩ := h
  obtain ⟨n, hn, hb, -⟩ := quant_enc (q := q) (K := 10) (by rw [abs_le]; constructor <;> linarith)
  have e : decEnc b = n := by
    unfold decEnc
    rw [hq]
    exact hn
  rw [e]
  have hb := abs_le.1 hb
  have a1 : (n : Rat) < 8192 := by linarith
  have a2 : (-8193 : Rat) < n := by linarith
  have a1 : n < 8192 := by exact_mod_cast a1
  have a2 : -8193 < n := by exact_mod_cast a2
  unfold Cdis.InS
  norm_num
  omega
theorem acc_in {v : Dis.VectorF32} (h : VecFits v 819) : (linEnc v).In 14 := ⟨dec_in14 h.1, dec_in14 h.2.1, dec_in14 h.2.2⟩
theorem angle_in (b : UInt32) : Cdis.InS 13 (angleEnc b) := by
  cases hb : v32 b with
  | num q =>
    have := (C41_orientation hb).2
    unfold Cdis.InS
    norm_num
    omega
  | nan => rw [C41_orientation_nonfinite (by simp [hb])]; decide
  | inf s => rw [C41_orientation_nonfinite (by simp [hb])]; decide
theorem angVel_in {b : UInt32} (h : InRange b (-56) 56) : Cdis.InS 12 (angVelEnc1 b) := by
  obtain ⟨q, hq, h1, h2⟩ := h
  have hqa : |q| ≤ 56 := abs_le.2 ⟨h1, h2⟩
  obtain ⟨r, hr, -, hb⟩ := round32_bound (q := q * (469367 / 8192)) (by
    rw [abs_mul, abs_of_pos (by norm_num : (0 : Rat) < 469367 / 8192)]
    linarith [show (100000 : Rat) < 2 ^ 100 by norm_num])
  have hrb : |r| ≤ 3209 := by
    have : |q * (469367 / 8192)| ≤ 32087 / 10 := by
      rw [abs_mul, abs_of_pos (by norm_num : (0 : Rat) < 469367 / 8192)]
      linarith
    have hb2 : |q * (469367 / 8192)| / 2 ^ 24 ≤ 4096 / 2 ^ 24 := by gcongr; linarith
    have h3 : |r| ≤ |r - q * (469367 / 8192)| + |q * (469367 / 8192)| := by
      simpa using abs_add_le (r - q * (469367 / 8192)) (q * (469367 / 8192))
    linarith [show (4096 : Rat) / 2 ^ 24 + 1 / 2 ^ 150 < 1 / 1000 by norm_num]
  obtain ⟨n, hn, hnb, -⟩ := quant_enc (q := r) (K := 10680707 / 16777216) (by
    rw [abs_le] at hrb ⊢
    constructor <;> linarith)
  have e : angVelEnc1 b = n := by
    unfold angVelEnc1
    rw [hq, radToDeg_eq, angVelScale_eq, show mul32 (.num q) (.num (469367 / 8192)) = .num r from hr]
    exact hn
  rw [e]
  have hrb := abs_le.1 hrb
  have hnb := abs_le.1 hnb
  have a1 : (n : Rat) < 2048 := by linarith
  have a2 : (-2049 : Rat) < n := by linarith
  have a1 : n < 2048 := by exact_mod_cast a1
  have a2 : -2049 < n := by exact_mod_cast a2
  unfold Cdis.InS
  norm_num
  omega

/-- all three components are zero, of whatever sign -/
def NoOffset (v : Dis.VectorF32) : Prop := v32 v.first = .num 0 ∧ v32 v.second = .num 0 ∧ v32 v.third = .num 0
theorem veq_iff (v : Dis.VectorF32) : veq v zeroVec = true ↔ NoOffset v := by
  have hz : v32 0 = .num 0 := by decide +kernel
  simp only [veq, feq, Bool.and_eq_true, bne_iff_ne, beq_iff_eq, zeroVec, hz, NoOffset]
  constructor
  · rintro ⟨⟨⟨-, h1⟩, -, h2⟩, -, h3⟩
    exact ⟨h1, h2, h3⟩
  · rintro ⟨h1, h2, h3⟩
    simp [h1, h2, h3]

/-- the designators that C-DIS can carry: only with a dead reckoning algorithm that has an acceleration (else the octets of the PDU
are not those its flags announce), and with a designated entity and an offset from it both or neither -/
def DesignatorFits (env : Env) (x : Dis.Designator) : Prop :=
  x.dead_reckoning_algorithm ∈ [4, 5, 8, 9] ∧ VecFits x.linear_acceleration 819 ∧ WorldFits env x.spot_location ∧
  (x.designated_entity_id = zeroId ↔ NoOffset x.spot_wrt_designated_entity)

/-- the texts that C-DIS can carry: the alphabet of six bits, of five bits if all characters are alphanumeric and none of J, K, Q, X, Z -/
def MarkingFits (b : Bytes) : Prop :=
  (∀ c ∈ markingChars b, c ∈ sixAlphabet) ∧
  ((∀ c ∈ markingChars b, c ∈ fiveAlphabet) ∨ ∃ c ∈ markingChars b, c ∈ ['J', 'K', 'Q', 'X', 'Z'] ∨ c.isAlphanum = false)

/-- the Entity State PDUs that C-DIS can carry -/
structure EntityFits (env : Env) (x : Dis.EntityState) : Prop where
  wf : x.Wf env.toEnv 7
  type : TypeFits x.entity_type
  alternative : TypeFits x.alternative_entity_type
  location : WorldFits env x.entity_location
  algorithm : x.dead_reckoning_parameters.algorithm < 16
  acceleration : x.dead_reckoning_parameters.algorithm ∈ [4, 5, 8, 9] → VecFits x.dead_reckoning_parameters.linear_acceleration 819
  angular : x.dead_reckoning_parameters.algorithm ∈ [3, 4, 7, 8] → VecFits x.dead_reckoning_parameters.angular_velocity 56
  marking : MarkingFits x.entity_marking.marking_string
  parameters : x.variable_parameters.length ≤ 255 ∧ ∀ p ∈ x.variable_parameters, ParameterFits p

theorem drOther_lt (x : Dis.DrOtherParameters) : drOtherEnc x < 2 ^ 120 := by
  have key : ∀ (l : Bytes) (a : Nat), l.foldl (fun a b => a * 256 + b.toNat) a < (a + 1) * 256 ^ l.length := by
    intro l
    induction l with
    | nil => intro a; simp
    | cons b l ih =>
      intro a
      rw [List.foldl_cons]
      refine lt_of_lt_of_le (ih _) ?_
      rw [List.length_cons, Nat.pow_succ, Nat.mul_comm (256 ^ l.length), ← Nat.mul_assoc]
      have := b.toNat_lt
      exact Nat.mul_le_mul_right _ (by omega)
  unfold drOtherEnc fromBe
  rw [List.take_succ_cons, List.foldl_cons]
  have h := key (x.ser.take 15) 0
  have h2 : (x.ser.take 15).length ≤ 15 := by rw [List.length_take]; omega
  have h3 : 256 ^ (x.ser.take 15).length ≤ 256 ^ 15 := Nat.pow_le_pow_right (by decide) h2
  norm_num at h h3 ⊢
  omega

theorem marking_fits {b : Bytes} (hl : (markingChars b).length ≤ 11) (h : MarkingFits b) :
    ∃ m, Cdis.Marking.new (markingChars b) = some m ∧ m.Wf := by
  have key : ∃ m, Cdis.Marking.new (markingChars b) = some m ∧ m.marking = markingChars b ∧
      ∀ r, Cdis.Marking.parse.run (m.ser ++ r) = .ok m r := by
    rcases h.2 with h5 | h6
    · obtain ⟨m, h1, h2, -, h3⟩ := C34_five_bit_round_trip _ hl h5
      exact ⟨m, h1, h2, h3⟩
    · obtain ⟨m, h1, h2, -, h3⟩ := C34_six_bit_round_trip _ hl h.1 h6
      exact ⟨m, h1, h2, h3⟩
  obtain ⟨m, h1, h2, h3⟩ := key
  have ha := ascii_of_mem h.1
  rw [← h2] at ha
  have hlt : m.marking.length < 2 ^ 4 := by rw [h2]; omega
  have e := h3 []
  rw [Cdis.Marking.run_raw m hlt ha] at e
  have e : (m.marking.map fun c => m.enc.charOf (m.enc.codeOf c % 2 ^ m.enc.bitSize)) = m.marking := by
    injection e with e _
    have := congrArg Cdis.Marking.marking e
    exact this
  refine ⟨m, h1, hlt, ha, fun c hc => ?_⟩
  conv at e => rhs; rw [← List.map_id m.marking]
  exact List.map_inj_left.1 e c hc

section
variable {env : Env} {o : Options} {h : Dis.PduHeader} (hst : (h.pdu_status.getD {}).Wf h.pdu_type) (hm : o.update_mode = .full)
include hst hm

theorem arrives_designator (x : Dis.Designator) (ht : h.pdu_type = 24) (hf : DesignatorFits env x) :
    Arrives env o ⟨h, .designator x⟩ (received h (.designator { x with
      power := wholeQ x.power, wavelength := wholeQ x.wavelength,
      spot_wrt_designated_entity := coordQ x.spot_wrt_designated_entity,
      spot_location := worldWireQ env x.spot_location,
      linear_acceleration := linQ x.linear_acceleration })) := by
  obtain ⟨ha, hacc, hw, hi⟩ := hf
  replace hi := hi.trans (veq_iff _).symm
  have ha' : x.dead_reckoning_algorithm = 4 ∨ x.dead_reckoning_algorithm = 5 ∨ x.dead_reckoning_algorithm = 8 ∨
    x.dead_reckoning_algorithm = 9 := by simpa using ha
  have hal : x.dead_reckoning_algorithm.toNat < 2 ^ 4 := by
    rcases ha' with e | e | e | e <;> rw [e] <;> decide
  have hb : ∀ now s, (bodyEnc env o now s (.designator x)).map (·.1) = some (.designator (desEnc env o 0 none x).1) := by
    intro now s
    simp [bodyEnc, desEncodeBody, desEnc, hm]
  have hspot : (if (!veq x.spot_wrt_designated_entity zeroVec) = true then (coordEnc x.spot_wrt_designated_entity).2 else CM) < 2 := by
    split
    · exact (coord_in _).2
    · exact (by decide : CM < 2)
  refine arrives_fit (o1 := { o with update_mode := .full }) _ (.designator (desEnc env o 0 none x).1) hb hst rfl ?_ ?_ ?_ ht.symm
  · refine ⟨by rw [ht]; rfl, ?_⟩
    simp only [desEnc, hm, reduceCtorEq, false_and, if_false, drAccEnc, if_pos ha']
    refine ⟨⟨hspot, world_units _ _, eid_wf _, x.system_name.toNat_lt, ?_, x.code.toNat_lt, ?_, ?_, ?_, world_fits hw, hal, acc_in hacc⟩, ?_,
      ⟨rfl, rfl, rfl⟩, rfl⟩
    · dsimp only
      split
      · trivial
      · exact eid_wf _
    · show (u32FromF32 (v32 x.power)).getD 0 < _
      cases hx : u32FromF32 (v32 x.power) with
      | none => decide
      | some n => exact u32_lt hx
    · show (u32FromF32 (v32 x.wavelength)).getD 0 < _
      cases hx : u32FromF32 (v32 x.wavelength) with
      | none => decide
      | some n => exact u32_lt hx
    · dsimp only
      split
      · exact (coord_in _).1
      · trivial
    · dsimp only
      by_cases hz : x.designated_entity_id = zeroId
      · rw [if_pos hz, if_neg (by simp [hi.1 hz])]
        rfl
      · rw [if_neg hz, if_pos (by
          rw [Bool.not_eq_true', Bool.eq_false_iff]
          exact fun hv => hz (hi.2 hv))]
        rfl
  · simp [desEnc, hm, SelfContained, Cdis.CdisBody.wire, Cdis.Designator.wire]
  · have h52 := C52_designator env o x
    have e : (desDec env none (desEnc env { o with update_mode := .full } 0 none x).1.wire).1 =
        { (desDec env none (desEnc env { o with update_mode := .full } 0 none x).1).1 with
          spot_location := worldWireQ env x.spot_location } := by
      simp [desEnc, desDec, Cdis.Designator.wire, worldWireQ]
    simp only [oneShot, bodyEnc, desEncodeBody, bodyDec, desDecodeBody, Option.map_some, Option.some.injEq, Dis.Body.designator.injEq] at h52
    have ho : ({ o with update_mode := .full } : Options) = o := by cases o; cases hm; rfl
    rw [ho] at h52 e
    simp only [bodyDec, Cdis.CdisBody.wire, desDecodeBody]
    rw [e, h52, accQ, if_pos ha']

theorem arrives_entity (x : Dis.EntityState) (ht : h.pdu_type = 1) (hf : EntityFits env x) :
    Arrives env o ⟨h, .entityState x⟩ (received h (.entityState { x with
      entity_linear_velocity :=
        if x.dead_reckoning_parameters.algorithm = 0 ∨ x.dead_reckoning_parameters.algorithm = 1 then zeroVec
        else linQ x.entity_linear_velocity
      entity_location := worldWireQ env x.entity_location, entity_orientation := orientQ x.entity_orientation
      dead_reckoning_parameters :=
        { x.dead_reckoning_parameters with
          other_parameters := otherQ x.dead_reckoning_parameters.algorithm x.dead_reckoning_parameters.other_parameters
          linear_acceleration := accQ x.dead_reckoning_parameters.algorithm x.dead_reckoning_parameters.linear_acceleration
          angular_velocity := if x.dead_reckoning_parameters.algorithm ∈ [3, 4, 7, 8]
            then angVelQ x.dead_reckoning_parameters.angular_velocity else zeroVec }
      entity_marking := { x.entity_marking with marking_character_set := 1 }
      entity_capabilities := if o.optimize_mode = .completeness then x.entity_capabilities
        else { x.entity_capabilities with raw := 0 }
      variable_parameters := x.variable_parameters.map vpQ })) := by
  have ho : ({ o with update_mode := .full } : Options) = o := by cases o; cases hm; rfl
  have hmk : ∃ m, Cdis.Marking.new (markingChars x.entity_marking.marking_string) = some m ∧ m.Wf := by
    have hl := hf.wf.marking.1
    have ha := hf.wf.marking.2.1
    have hlen : (markingChars x.entity_marking.marking_string).length ≤ 11 := by
      rw [markingChars_ascii ha, List.length_map]
      exact hl
    exact marking_fits hlen hf.marking
  obtain ⟨m, hmn, hmw⟩ := hmk
  obtain ⟨y, r, he⟩ : ∃ y r, esEnc env o 0 none x = some (y, r) := by
    simp only [esEnc, hm, reduceCtorEq, false_and, if_false, hmn, Option.map_some]
    exact ⟨_, _, rfl⟩
  have hy : ∀ now st, (esEnc env o now st x).map (·.1) = some y := by
    intro now st
    have : (esEnc env o now st x) = esEnc env o 0 none x := by simp only [esEnc, hm, reduceCtorEq, false_and, if_false]
    rw [this, he]; rfl
  have hb : ∀ now s, (bodyEnc env o now s (.entityState x)).map (·.1) = some (.entityState y) := by
    intro now s
    rw [C40_encode_body hm now 0 s {}]
    simp only [bodyEnc, esEncodeBody]
    rw [he]
    rfl
  simp only [esEnc, hm, reduceCtorEq, false_and, if_false, hmn, Option.map_some, Option.some.injEq, Prod.mk.injEq] at he
  have hyw : y.entity_location = some (worldEnc env x.entity_location).1 ∧ y.units = (worldEnc env x.entity_location).2
    ∧ y.full_update_flag = true := by rw [← he.1]; exact ⟨rfl, rfl, rfl⟩
  refine arrives_fit (o1 := { o with update_mode := .full }) _ (.entityState y) hb hst rfl ?_ ?_ ?_ ht.symm
  · refine ⟨by rw [ht]; rfl, ?_⟩
    rw [← he.1]
    refine ⟨world_units _ _, eid_wf _, x.force_id.toNat_lt, etype_wf hf.type, ?_, ?_, world_fits hf.location,
      ⟨angle_in _, angle_in _, angle_in _⟩, x.entity_appearance.raw.toNat_lt, hf.algorithm, ?_, ?_, ?_, hmw, ?_, ?_, ?_⟩ <;> dsimp only
    · split
      · trivial
      · exact etype_wf hf.alternative
    · split
      · trivial
      · exact lin_in _
    · split
      · trivial
      · exact nz_all (drOther_lt _)
    · unfold drAccEnc
      split
      · rename_i ha
        exact acc_in (hf.acceleration (by simpa using ha))
      · trivial
    · split
      · rename_i ha
        have := hf.angular (by simpa using ha)
        exact ⟨angVel_in this.1, angVel_in this.2.1, angVel_in this.2.2⟩
      · trivial
    · split
      · exact nz_all x.entity_capabilities.raw.toNat_lt
      · trivial
    · rw [List.length_map]
      have := hf.parameters.1
      omega
    · intro p hpp
      obtain ⟨a, ha, rfl⟩ := List.mem_map.1 hpp
      exact vp_wf (hf.parameters.2 a ha)
  · exact hyw.2.2
  · have h52 := C52_entity_state o hf.wf
    have e : (esDec env o none y.wire).1 = { (esDec env o none y).1 with entity_location := worldWireQ env x.entity_location } := by
      simp [esDec, Cdis.EntityState.wire, worldWireQ, hyw.1, hyw.2.1]
    have hb0 := hb 0 {}
    unfold oneShot at h52
    rw [ho] at h52
    cases hbe : bodyEnc env o 0 {} (.entityState x) with
    | none => rw [hbe] at hb0; simp at hb0
    | some r =>
      rw [hbe] at hb0 h52
      simp only [Option.map_some, Option.some.injEq] at hb0 h52
      rw [hb0] at h52
      simp only [bodyDec, esDecodeBody, Dis.Body.entityState.injEq] at h52
      rw [ho]
      simp only [bodyDec, Cdis.CdisBody.wire, esDecodeBody]
      rw [e, h52]
end
end Verif.Props

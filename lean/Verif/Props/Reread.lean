import Verif.Cdis.Gives
import Verif.Props.CdisPdu
import Verif.Props.Header
import Verif.Props.Quantise3
import Verif.Props.CdisInts

/-! # C81: what has been read can be written again -/

namespace Verif.Props
open Verif Verif.Cdis

/-! ## Specification -/

/-- a variable parameter in the compressed format, of one of the five known kinds: the only ones that can be written -/
def compressedParameter : VariableParameter → Prop
  | .unspecified => False
  | .articulated p => p.parameter_value.uncompressed = none ∧ p.attachment_id < 2 ^ 10 ∧ p.type_class + p.type_metric < 2 ^ 14
  | .attached p => p.detached_indicator < 2 ∧ p.attachment_id < 2 ^ 10 ∧ p.parameter_type < 2 ^ 11 ∧ p.attached_part_type.kind < 2 ^ 4
      ∧ p.attached_part_type.domain < 2 ^ 4 ∧ p.attached_part_type.country < 2 ^ 9
  | .separation p => p.reason_for_separation < 2 ^ 3 ∧ p.pre_entity_indicator < 2 ^ 3 ∧ p.station_name < 2 ^ 6 ∧ p.station_number < 2 ^ 12
  | .entityType p => p.change_indicator < 2 ∧ p.attached_part_type.kind < 2 ^ 4 ∧ p.attached_part_type.domain < 2 ^ 4
      ∧ p.attached_part_type.country < 2 ^ 9
  | .association p => p.change_indicator < 2 ∧ p.association_status < 2 ^ 4 ∧ p.own_station_location < 2 ^ 6
      ∧ p.physical_connection_type < 2 ^ 5 ∧ p.group_member_type < 2 ^ 4

/-- an altitude that the writer's field of 24 bits with a sign can hold -/
def shallow (l : WorldCoordinates) : Prop := l.altitude_msl ≤ 8388607

/-- What keeps a body that was read from being written again; everything else can. -/
def writable (env : Dis.Env) : CdisBody → Prop
  | .entityState v => (∀ l ∈ v.entity_location, shallow l) ∧ (∀ m ∈ v.entity_marking, m.enc = .five → 'Y' ∉ m.marking)
      ∧ ∀ p ∈ v.variable_parameters, compressedParameter p
  | .fire v => shallow v.location_world_coordinates
  | .detonation v => shallow v.location_in_world_coordinates ∧ ∀ p ∈ v.variable_parameters, compressedParameter p
  | .actionRequest v => ∀ d ∈ v.datums.var, d.datum_value.length < 2048
  | .actionResponse v => ∀ d ∈ v.datums.var, d.datum_value.length < 2048
  | .setData v => ∀ d ∈ v.datums.var, d.datum_value.length < 2048
  | .data v => ∀ d ∈ v.datums.var, d.datum_value.length < 2048
  | .eventReport v => ∀ d ∈ v.datums.var, d.datum_value.length < 2048
  | .comment v => ∀ d ∈ v.datums.var, d.datum_value.length < 2048
  | .electromagneticEmission v => v.emitter_systems = []
  | .designator v => ∀ l ∈ v.designator_spot_location, shallow l
  | .transmitter v => (∀ l ∈ v.antenna_location, shallow l) ∧ v.variable_transmitter_parameters ≠ []
  | .iff v => ((v.layer_3.isSome ∨ v.layer_4.isSome) → iffKind env v.system_id ≠ .undetermined)
      ∧ ∀ l ∈ v.layer_4, ∀ a b c d e f g h i, l.mode_s_basic_data = .transponder a b c d e f g h i →
          d.length < 2 ^ 4 ∧ (∀ x ∈ d, x.toNat < 128) ∧ ∀ x ∈ d.getLast?, Dis.isAlnum x = true
  | _ => True

/-- the locations in the world that a body carries -/
def locations : CdisBody → List WorldCoordinates
  | .entityState v => v.entity_location.toList
  | .fire v => [v.location_world_coordinates]
  | .detonation v => [v.location_in_world_coordinates]
  | .designator v => v.designator_spot_location.toList
  | .transmitter v => v.antenna_location.toList
  | _ => []

/-- The body has no part that changes on its way: no location, no beam and no IFF layer. -/
def plain : CdisBody → Prop
  | .electromagneticEmission v => v.beam_data = []
  | .iff v => v.layer_2 = none ∧ v.layer_3 = none ∧ v.layer_4 = none ∧ v.layer_5 = none
  | b => locations b = []

/-- `p`, written and read `k` times in a row, is `q`. -/
inductive CdisRelayed (env : Dis.Env) : Nat → CdisPdu → CdisPdu → Prop
  | refl (p : CdisPdu) : CdisRelayed env 0 p p
  | step {k : Nat} {p q r : CdisPdu} : (CdisPdu.parse env).run p.ser = .ok q [] → CdisRelayed env k q r → CdisRelayed env (k + 1) p r

/-- a location `k` relays later: both coordinates at most an eighth of what they were for every relay, the altitude as it was -/
def Shrunk (k : Nat) (a b : WorldCoordinates) : Prop :=
  |b.latitude| ≤ |a.latitude| / 8 ^ k ∧ |b.longitude| ≤ |a.longitude| / 8 ^ k ∧ b.altitude_msl = a.altitude_msl

/-! ## Lemmas: coordinates -/

theorem f32_bounds (x : Rat) : |f32 x| ≤ |x| * (1 + 1 / 2 ^ 24) ∧ |x| * (1 - 1 / 2 ^ 24) ≤ |f32 x| := by
  have h := rnd_err 24 x
  have a := abs_sub_abs_le_abs_sub (f32 x) x
  have b := abs_sub_abs_le_abs_sub x (f32 x)
  rw [abs_sub_comm x] at b
  unfold f32 at *
  constructor <;> linarith

/-- a number of the wire, as the reader scales it -/
def scaled (s x : Rat) : Rat := f32 (f32 x / s)

theorem scaled_le {s : Rat} (hs : 8.5 ≤ s) (x : Rat) : |scaled s x| ≤ |x| / 8 := by
  have s0 : 0 < s := by linarith
  have a := (f32_bounds (f32 x / s)).1
  have b := (f32_bounds x).1
  rw [abs_div, abs_of_pos s0] at a
  have c : |f32 x| / s ≤ |f32 x| / 8.5 := div_le_div_of_nonneg_left (abs_nonneg _) (by norm_num) hs
  have e : (0 : Rat) ≤ |x| := abs_nonneg x
  have f : |f32 x| / 8.5 = |f32 x| * (2 / 17) := by ring
  have g : |f32 x| / s * (1 + 1 / 2 ^ 24) ≤ |f32 x| * (2 / 17) * (1 + 1 / 2 ^ 24) := by
    rw [← f]; exact mul_le_mul_of_nonneg_right c (by norm_num)
  unfold scaled
  norm_num at a b g ⊢
  linarith
theorem scaled_pos {s x : Rat} (hs : 8.5 ≤ s) (hx : x ≠ 0) : 0 < |scaled s x| := by
  have s0 : 0 < s := by linarith
  have a := (f32_bounds (f32 x / s)).2
  have b := (f32_bounds x).2
  rw [abs_div, abs_of_pos s0] at a
  have e : 0 < |x| := abs_pos.2 hx
  have : 0 < |f32 x| := lt_of_lt_of_le (mul_pos e (by norm_num)) b
  unfold scaled
  exact lt_of_lt_of_le (mul_pos (div_pos this s0) (by norm_num)) a
theorem latScale_ge : (8.5 : Rat) ≤ latScale := by
  have : latScale = 9011847/524288 := by decide +kernel
  rw [this]; norm_num
theorem lonScale_ge : (8.5 : Rat) ≤ lonScale := by
  have : lonScale = 9345619/1048576 := by decide +kernel
  rw [this]; norm_num

theorem abs_truncRat (x : Rat) : |(truncRat x : Rat)| ≤ |x| := by
  unfold truncRat
  split
  · rename_i h
    have a := Rat.le_ceil (x := x)
    have b : x.ceil ≤ 0 := Rat.ceil_le_iff.2 (by simpa using h.le)
    have b' : (x.ceil : Rat) ≤ 0 := by exact_mod_cast b
    rw [abs_of_neg h, abs_of_nonpos b']; linarith
  · rename_i h
    have h := not_lt.1 h
    have a := Rat.floor_le (a := x)
    have b : 0 ≤ x.floor := Rat.le_floor_iff.2 (by simpa using h)
    have b' : (0 : Rat) ≤ (x.floor : Rat) := by exact_mod_cast b
    rw [abs_of_nonneg h, abs_of_nonneg b']; exact a
theorem abs_asI32 (x : Rat) : |(asI32 x : Rat)| ≤ |x| := by
  refine le_trans ?_ (abs_truncRat x)
  have : |asI32 x| ≤ |truncRat x| := by unfold asI32 castSat; generalize truncRat x = t; simp only [Int.abs_eq_natAbs]; omega
  exact_mod_cast this

/-- what arrives of a coordinate -/
theorem arrives_le {s : Rat} (hs : 8.5 ≤ s) (x : Rat) : |scaled s (asI32 x)| ≤ |x| / 8 :=
  (scaled_le hs _).trans (by have := abs_asI32 x; linarith)
theorem arrives_zero {s x : Rat} (hs : 8.5 ≤ s) (hx : |x| < 1) : scaled s (asI32 x) = 0 := by
  have h := (abs_asI32 x).trans_lt hx
  have : asI32 x = 0 := by
    have : |asI32 x| < 1 := by exact_mod_cast h
    rw [Int.abs_eq_natAbs] at this; omega
  rw [this]
  have := scaled_le hs ((0 : Int) : Rat)
  simp only [Int.cast_zero, abs_zero, zero_div] at this
  exact abs_eq_zero.1 (le_antisymm this (abs_nonneg _))

theorem asI32_small {x : Rat} (h : |x| < 2 ^ 30) : InS 31 (asI32 x) := by
  have h := (abs_asI32 x).trans_lt h
  have : |asI32 x| < 2 ^ 30 := by exact_mod_cast h
  rw [Int.abs_eq_natAbs] at this
  unfold InS; omega


/-! ## Lemmas: the reader's results fit their fields -/

theorem optAll_of {α : Type} {q : α → Prop} {o : Option α} (h : ∀ x ∈ o, q x) : OptAll q o := by
  cases o with
  | none => exact True.intro
  | some x => exact h x rfl

theorem params_wf {l : List VariableParameter} (a : ∀ p ∈ l, compressedParameter p → p.Wf) (b : ∀ p ∈ l, compressedParameter p) : ∀ p ∈ l, p.Wf :=
  fun p hp => a p hp (b p hp)
theorem opt_wf {α : Type} {c q : α → Prop} {o : Option α} (a : OptAll (fun x => c x → q x) o) (b : ∀ x ∈ o, c x) : OptAll q o := by
  cases o with
  | none => exact True.intro
  | some x => exact a (b x rfl)
theorem opt_wf2 {α : Type} {k : Prop} {c q : α → Prop} {o : Option α} (a : OptAll (fun x => k → c x → q x) o) (hk : o.isSome → k) (b : ∀ x ∈ o, c x) : OptAll q o := by
  cases o with
  | none => exact True.intro
  | some x => exact a (hk rfl) (b x rfl)

theorem reads_header : Gives CdisHeader.parse CdisHeader.Wf := by
  unfold CdisHeader.parse
  gv_steps
  refine Gives.pure ⟨by assumption, by assumption, by assumption, by assumption, by assumption, ?_⟩
  exact C02_read_wf _ _

theorem reads_sv24 : Gives sv24.parse fun v => -1048576 ≤ v := by
  unfold SV4.parse
  refine Gives.bind Gv.spec fun f hf => Gives.bind Gv.spec fun s hs => Gives.bind Gv.spec fun n hn => Gives.pure ?_
  unfold SV4.row sv24
  split_ifs <;> (try dsimp only) <;> omega
theorem int_abs_cast (n : Int) : |(n : Rat)| = ((n.natAbs : Nat) : Rat) := by rw [← Int.cast_abs, Int.abs_eq_natAbs]; rfl
theorem reads_rS {k : Nat} : Gives (rS k) fun v => v.natAbs ≤ 2 ^ (k - 1) := by
  unfold rS
  refine Gives.bind Gv.spec fun s hs => Gives.bind Gv.spec fun n hn => Gives.pure ?_
  have : ((2 ^ (k - 1) : Nat) : Int) = 2 ^ (k - 1) := by push_cast; rfl
  split <;> omega
theorem cast_le {n : Int} {k : Nat} (h : n.natAbs ≤ k) : |(n : Rat)| ≤ k := by
  rw [int_abs_cast]; exact_mod_cast h
/-- what can be said of every location that is read -/
def near (l : WorldCoordinates) : Prop := |l.latitude| ≤ 2 ^ 27 ∧ |l.longitude| ≤ 2 ^ 28
theorem reads_world : Gives WorldCoordinates.parse fun l => near l ∧ (shallow l → l.Fits) := by
  unfold WorldCoordinates.parse
  refine Gives.bind reads_rS fun a ha => Gives.bind reads_rS fun b hb => Gives.bind reads_sv24 fun c hc => Gives.pure ?_
  have x := (scaled_le latScale_ge a).trans (by have := cast_le ha; norm_num at this ⊢; linarith : |(a : Rat)| / 8 ≤ 2 ^ 27)
  have y := (scaled_le lonScale_ge b).trans (by have := cast_le hb; norm_num at this ⊢; linarith : |(b : Rat)| / 8 ≤ 2 ^ 28)
  exact ⟨⟨x, y⟩, fun h => ⟨asI32_small (x.trans_lt (by norm_num)), hc, h⟩⟩
instance : Gv WorldCoordinates.parse fun l => near l ∧ (shallow l → l.Fits) := ⟨reads_world⟩
theorem fits_of {l : WorldCoordinates} (a : near l ∧ (shallow l → l.Fits)) (h : shallow l) : l.Fits := a.2 h
theorem fits_of' {l : WorldCoordinates} (a : shallow l → l.Fits) (h : shallow l) : l.Fits := a h
theorem opt_loc {o : Option WorldCoordinates} (a : OptAll (fun l => near l ∧ (shallow l → l.Fits)) o) (b : ∀ x ∈ o, shallow x) : OptAll WorldCoordinates.Fits o := by
  cases o with
  | none => exact True.intro
  | some x => exact a.2 (b x rfl)

def okChars (e : CharEnc) (n : Nat) : Bool := decide ((e.charOf n).utf8Size = 1) && (decide (e = .five ∧ e.charOf n = 'Y') || decide (e.ok (e.charOf n)))
theorem all_chars : (∀ n < 32, okChars .five n = true) ∧ ∀ n < 64, okChars .six n = true := by decide +kernel
theorem reads_marking : Gives Marking.parse fun m => (m.enc = .five → 'Y' ∉ m.marking) → m.Wf := by
  unfold Marking.parse
  refine Gives.bind Gv.spec fun n hn => Gives.bind Gv.spec fun e he => Gives.bind Gv.spec fun l hl => Gives.pure ?_
  intro hY
  have key : ∀ c ∈ l, okChars (CharEnc.ofCode e) c = true := by
    intro c hc
    have := hl.2 c hc
    unfold CharEnc.ofCode at this ⊢
    split
    · rename_i h0; rw [if_pos h0] at this; exact all_chars.1 c (by simpa [CharEnc.bitSize] using this)
    · rename_i h0; rw [if_neg h0] at this; exact all_chars.2 c (by simpa [CharEnc.bitSize] using this)
  refine ⟨?_, ?_, ?_⟩
  · simp only [List.length_map, hl.1]; exact hn
  · intro c hc
    obtain ⟨x, hx, rfl⟩ := List.mem_map.1 hc
    have := key x hx
    unfold okChars at this
    simp only [Bool.and_eq_true, decide_eq_true_eq] at this
    exact this.1
  · intro c hc
    obtain ⟨x, hx, rfl⟩ := List.mem_map.1 hc
    have := key x hx
    unfold okChars at this
    simp only [Bool.and_eq_true, Bool.or_eq_true, decide_eq_true_eq] at this
    rcases this.2 with ⟨h1, h2⟩ | h
    · exact absurd (h2 ▸ hc) (hY h1)
    · exact h
instance : Gv Marking.parse fun m => (m.enc = .five → 'Y' ∉ m.marking) → m.Wf := ⟨reads_marking⟩

instance : Gv ParameterValueFloat.parse ParameterValueFloat.Wf where
  spec := by
    unfold ParameterValueFloat.parse
    gv_steps
    exact Gives.pure ⟨rfl, by assumption, by assumption⟩
instance : Gv EntityId.parseUncompressed EntityId.Wf := ⟨by unfold EntityId.parseUncompressed EntityId.Wf; gv_plain⟩
/-- the part of an entity type that is the same in both formats -/
def lowType (v : Cdis.EntityType) : Prop := v.category < 256 ∧ v.subcategory < 256 ∧ v.specific < 256 ∧ v.extra < 256
instance : Gv EntityType.parseUncompressed lowType := ⟨by unfold EntityType.parseUncompressed lowType; gv_plain⟩

theorem metric (n : Nat) : n - (n &&& 0x1f) + (n &&& 0x1f) = n ∧ n &&& 0x1f < 32 ∧ (n - (n &&& 0x1f)) % 32 = 0 := by
  have : n &&& 0x1f = n % 32 := Nat.and_two_pow_sub_one_eq_mod n 5
  rw [this]; omega

theorem reads_parameter : Gives VariableParameter.parse fun p => compressedParameter p → p.Wf := by
  unfold VariableParameter.parse
  refine Gives.bind Gv.spec fun c _ => Gives.bind (Gives.trivial _) fun t _ => ?_
  repeat' split
  · refine Gives.bind (Q := fun p => compressedParameter (.articulated p) → p.Wf) ?_ fun p h => Gives.pure h
    unfold ArticulatedPartVP.parseCompressed
    refine Gives.bind Gv.spec fun a ha => Gives.bind Gv.spec fun b hb => Gives.bind Gv.spec fun d hd => Gives.bind Gv.spec fun e he => Gives.pure fun _ => ?_
    obtain ⟨m1, m2, m3⟩ := metric d
    exact ⟨ha, hb, m2, m3, by show (d &&& 0x1f) + (d - (d &&& 0x1f)) < _; omega, he⟩
  · refine Gives.bind (Q := fun p => compressedParameter (.articulated p) → p.Wf) ?_ fun p h => Gives.pure h
    unfold ArticulatedPartVP.parse
    refine Gives.bind Gv.spec fun a ha => Gives.bind Gv.spec fun b hb => Gives.bind Gv.spec fun d hd => Gives.bind Gv.spec fun e he => Gives.pure fun h => ?_
    exact absurd h.1 (by simp)
  · refine Gives.bind (Q := fun p => compressedParameter (.attached p) → p.Wf) ?_ fun p h => Gives.pure h
    unfold AttachedPartVP.parseCompressed
    refine Gives.bind Gv.spec fun a ha => Gives.bind Gv.spec fun b hb => Gives.bind Gv.spec fun d hd => Gives.bind Gv.spec fun e he => Gives.pure fun _ => ?_
    exact ⟨ha, hb, hd, he⟩
  · refine Gives.bind (Q := fun p => compressedParameter (.attached p) → p.Wf) ?_ fun p h => Gives.pure h
    unfold AttachedPartVP.parse
    refine Gives.bind Gv.spec fun a ha => Gives.bind Gv.spec fun b hb => Gives.bind Gv.spec fun d hd => Gives.bind Gv.spec fun e he => Gives.pure fun h => ?_
    obtain ⟨h1, h2, h3, h4, h5, h6⟩ := h
    exact ⟨h1, h2, h3, h4, h5, h6, he⟩
  · refine Gives.bind (Q := fun p => compressedParameter (.separation p) → p.Wf) ?_ fun p h => Gives.pure h
    unfold EntitySeparationVP.parseCompressed
    refine Gives.bind Gv.spec fun a ha => Gives.bind Gv.spec fun b hb => Gives.bind Gv.spec fun d hd => Gives.bind Gv.spec fun e he =>
      Gives.bind Gv.spec fun f hf => Gives.pure fun _ => ?_
    exact ⟨ha, hb, hd, he, hf⟩
  · refine Gives.bind (Q := fun p => compressedParameter (.separation p) → p.Wf) ?_ fun p h => Gives.pure h
    unfold EntitySeparationVP.parse
    refine Gives.bind Gv.spec fun a ha => Gives.bind Gv.spec fun b hb => Gives.bind Gv.spec fun _ _ => Gives.bind Gv.spec fun d hd => Gives.bind Gv.spec fun _ _ =>
      Gives.bind Gv.spec fun e he => Gives.bind Gv.spec fun f hf => Gives.pure fun h => ?_
    obtain ⟨h1, h2, h3, h4⟩ := h
    exact ⟨h1, h2, hd, h3, h4⟩
  · refine Gives.bind (Q := fun p => compressedParameter (.entityType p) → p.Wf) ?_ fun p h => Gives.pure h
    unfold EntityTypeVP.parseCompressed
    refine Gives.bind Gv.spec fun a ha => Gives.bind Gv.spec fun b hb => Gives.pure fun _ => ?_
    exact ⟨ha, hb⟩
  · refine Gives.bind (Q := fun p => compressedParameter (.entityType p) → p.Wf) ?_ fun p h => Gives.pure h
    unfold EntityTypeVP.parse
    refine Gives.bind Gv.spec fun a ha => Gives.bind Gv.spec fun b hb => Gives.bind Gv.spec fun _ _ => Gives.bind Gv.spec fun _ _ => Gives.pure fun h => ?_
    obtain ⟨h1, h2, h3, h4⟩ := h
    exact ⟨h1, h2, h3, h4, hb⟩
  · refine Gives.bind (Q := fun p => compressedParameter (.association p) → p.Wf) ?_ fun p h => Gives.pure h
    unfold EntityAssociationVP.parseCompressed
    gv_steps
    refine Gives.pure fun _ => ?_
    unfold EntityAssociationVP.Wf
    repeat' first | assumption | apply And.intro
  · refine Gives.bind (Q := fun p => compressedParameter (.association p) → p.Wf) ?_ fun p h => Gives.pure h
    unfold EntityAssociationVP.parse
    gv_steps
    refine Gives.pure fun h => ?_
    obtain ⟨h1, h2, h3, h4, h5⟩ := h
    unfold EntityAssociationVP.Wf
    repeat' first | assumption | apply And.intro
  · exact Gives.pure fun h => h.elim
instance : Gv VariableParameter.parse fun p => compressedParameter p → p.Wf := ⟨reads_parameter⟩

theorem Gives.trans_ite {α : Type} {c : Prop} [Decidable c] {p q : BitP α} {Q : α → Prop} (hp : c → Gives p Q) (hq : ¬ c → Gives q Q) :
    Gives (if c then p else q) Q := by
  split
  · exact hp ‹_›
  · exact hq ‹_›

/-- a tactic for the fields of a body -/
macro "gv_fields" : tactic => `(tactic| (repeat' first | assumption | exact hi_bit _ | exact lo_bit _ | apply And.intro))

theorem reads_collision : Gives Collision.parse Collision.Wf := by
  unfold Collision.parse Collision.Wf
  gv_steps
  refine Gives.pure ?_
  gv_fields
theorem reads_createRemove : Gives CreateRemove.parse CreateRemove.Wf := by unfold CreateRemove.parse CreateRemove.Wf; gv_plain
theorem reads_startResume : Gives StartResume.parse StartResume.Wf := by unfold StartResume.parse StartResume.Wf; gv_plain
theorem reads_stopFreeze : Gives StopFreeze.parse StopFreeze.Wf := by unfold StopFreeze.parse StopFreeze.Wf; gv_plain
theorem reads_acknowledge : Gives Acknowledge.parse Acknowledge.Wf := by unfold Acknowledge.parse Acknowledge.Wf; gv_plain
theorem reads_action : Gives Action.parse fun v => (∀ d ∈ v.datums.var, d.datum_value.length < 2048) → v.Wf := by
  unfold Action.parse Action.Wf
  gv_steps
  refine Gives.pure fun h => ?_
  exact ⟨by assumption, by assumption, by assumption, by assumption, Datums.Read.wf (by assumption) h⟩
theorem reads_data : Gives DataBody.parse fun v => (∀ d ∈ v.datums.var, d.datum_value.length < 2048) → v.Wf := by
  unfold DataBody.parse DataBody.Wf
  gv_steps
  refine Gives.pure fun h => ?_
  exact ⟨by assumption, by assumption, by assumption, Datums.Read.wf (by assumption) h⟩
theorem reads_comment : Gives Comment.parse fun v => (∀ d ∈ v.datums.var, d.datum_value.length < 2048) → v.Wf := by
  unfold Comment.parse Comment.Wf
  gv_steps
  refine Gives.pure fun h => ?_
  exact ⟨by assumption, by assumption, Datums.Read.wf (by assumption) h⟩
theorem reads_dataQuery : Gives DataQuery.parse DataQuery.Wf := by
  unfold DataQuery.parse DataQuery.Wf
  refine Gives.bind Gv.spec fun _ _ => Gives.bind Gv.spec fun _ _ => Gives.bind Gv.spec fun _ _ => Gives.bind Gv.spec fun _ _ => Gives.bind Gv.spec fun t ht => ?_
  gv_steps
  refine Gives.pure ?_
  have : (CdisTimeStamp.ofRaw t).units < 2 ^ 25 := by
    show t >>> 1 < _
    rw [Nat.shiftRight_eq_div_pow]; omega
  try casesm* _ ∧ _
  refine ⟨by assumption, by assumption, by assumption, this, ?_, ?_, by assumption, by assumption⟩ <;> (simp only [*])
theorem reads_receiver : Gives Receiver.parse Receiver.Wf := by unfold Receiver.parse Receiver.Wf; gv_plain
theorem reads_signal : Gives Signal.parse Signal.Wf := by
  unfold Signal.parse Signal.Wf
  refine Gives.bind Gv.spec fun _ _ => Gives.bind Gv.spec fun _ _ => Gives.bind Gv.spec fun _ _ => Gives.bind Gv.spec fun _ _ => Gives.bind Gv.spec fun _ _ =>
    Gives.bind Gv.spec fun _ _ => Gives.bind Gv.spec fun n hn => Gives.bind Gv.spec fun _ _ => Gives.bind Gv.spec fun l hl => Gives.pure ?_
  try casesm* _ ∧ _
  refine ⟨by assumption, by assumption, by assumption, by assumption, by assumption, by assumption, ?_, by assumption⟩
  simp only [*]; omega
theorem reads_fire : Gives Fire.parse fun v => shallow v.location_world_coordinates → v.Wf := by
  unfold Fire.parse Fire.Wf
  gv_steps
  refine Gives.pure fun h => ?_
  try casesm* _ ∧ _
  (repeat' first | assumption | exact fits_of' (by assumption) h | exact opt_loc (by assumption) h | apply And.intro) <;> (simp only [*]; done)
theorem reads_detonation : Gives Detonation.parse fun v => shallow v.location_in_world_coordinates → (∀ p ∈ v.variable_parameters, compressedParameter p) → v.Wf := by
  unfold Detonation.parse Detonation.Wf
  gv_steps
  refine Gives.pure fun h h' => ?_
  try casesm* _ ∧ _
  (repeat' first | assumption | exact fits_of' (by assumption) h | exact opt_loc (by assumption) h | exact params_wf (by assumption) h' | exact hi_bit _ | exact lo_bit _ | apply And.intro) <;> (simp only [*]; done)
theorem reads_designator : Gives Designator.parse fun v => (∀ l ∈ v.designator_spot_location, shallow l) → v.Wf := by
  unfold Designator.parse Designator.Wf Designator.Fits Designator.Grouped
  gv_steps
  refine Gives.pure fun h => ?_
  try casesm* _ ∧ _
  (repeat' first | assumption | exact fits_of' (by assumption) h | exact opt_loc (by assumption) h | exact hi_bit _ | exact lo_bit _ | apply And.intro) <;> (simp only [*]; done)
instance (c : Bool) (n : Nat) : Gv (if c = true then P.count VTP.parse n else pure []) (fun l => l.length ≤ n ∧ ∀ p ∈ l, p.Wf) where
  spec := by
    split
    · exact Gives.mono Gv.spec fun l hl => ⟨by omega, hl.2⟩
    · exact Gives.pure ⟨by simp, by simp⟩
theorem reads_transmitter : Gives Transmitter.parse fun v => (∀ l ∈ v.antenna_location, shallow l) → v.variable_transmitter_parameters ≠ [] → v.Wf := by
  unfold Transmitter.parse Transmitter.Wf Transmitter.Fits Transmitter.Grouped
  gv_steps
  dsimp only
  refine Gives.trans_ite (fun _ => Gives.bind Gv.spec fun l hl => ?_) (fun _ => Gives.bind (Q := fun l => l = []) (Gives.pure rfl) fun l hl => ?_)
  rotate_left
  · exact Gives.pure fun _ h' => absurd hl h'
  refine Gives.pure fun h h' => ?_
  try casesm* _ ∧ _
  (repeat' first | assumption | exact fits_of' (by assumption) h | exact opt_loc (by assumption) h | exact h' | exact hi_bit _ | exact lo_bit _ | apply And.intro) <;> first | (simp only [*]; done) | (show _ < _; omega)
theorem reads_emission : Gives ElectromagneticEmission.parse fun v => v.emitter_systems = [] → v.Wf := by
  unfold ElectromagneticEmission.parse ElectromagneticEmission.Wf
  refine Gives.bind Gv.spec fun _ _ => Gives.bind Gv.spec fun _ _ => Gives.bind Gv.spec fun _ _ => Gives.bind Gv.spec fun _ _ => Gives.bind Gv.spec fun _ _ =>
    Gives.bind Gv.spec fun _ _ => Gives.bind Gv.spec fun _ _ => Gives.bind Gv.spec fun _ _ => Gives.bind Gv.spec fun _ _ => Gives.bind Gv.spec fun _ _ =>
    Gives.bind Gv.spec fun _ _ => Gives.bind (Gives.trivial _) fun _ _ => Gives.pure fun h => ?_
  try casesm* _ ∧ _
  (repeat' first | assumption | exact fits_of' (by assumption) h | exact opt_loc (by assumption) h | apply And.intro) <;> (simp only [*]; done)
theorem reads_entityState : Gives EntityState.parse fun v => (∀ l ∈ v.entity_location, shallow l) → (∀ m ∈ v.entity_marking, m.enc = .five → 'Y' ∉ m.marking) →
    (∀ p ∈ v.variable_parameters, compressedParameter p) → v.Wf := by
  unfold EntityState.parse EntityState.Wf
  gv_steps
  refine Gives.pure fun h h' h'' => ?_
  try casesm* _ ∧ _
  (repeat' first | assumption | exact fits_of' (by assumption) h | exact opt_loc (by assumption) h | exact params_wf (by assumption) h'' | exact opt_wf (by assumption) h' | apply And.intro) <;> (simp only [*]; done)

instance : Gv IffLayer2.parse IffLayer2.Wf where
  spec := by
    unfold IffLayer2.parse IffLayer2.Wf
    gv_plain
instance : Gv IffLayer5.parse IffLayer5.Wf where
  spec := by
    unfold IffLayer5.parse IffLayer5.Wf
    gv_plain
instance (k : Dis.IffClass) : Gv (Mode5BasicData.parse k) fun v => k ≠ .undetermined → v.Wf k where
  spec := by
    unfold Mode5BasicData.parse
    split
    · gv_steps
      refine Gives.pure fun _ => ?_
      unfold Mode5BasicData.Wf
      (repeat' first | rfl | assumption | apply And.intro)
    · gv_steps
      refine Gives.pure fun _ => ?_
      unfold Mode5BasicData.Wf
      (repeat' first | rfl | assumption | apply And.intro)
    · exact Gives.pure fun h => absurd rfl h
instance (k : Dis.IffClass) : Gv (IffLayer3.parse k) fun v => k ≠ .undetermined → True → v.Wf k where
  spec := by
    unfold IffLayer3.parse IffLayer3.Wf
    refine Gives.bind Gv.spec fun _ _ => Gives.bind Gv.spec fun _ _ => Gives.bind Gv.spec fun _ _ => Gives.bind Gv.spec fun _ _ => Gives.bind Gv.spec fun _ h5 =>
      Gives.bind Gv.spec fun _ _ => Gives.pure fun h _ => ?_
    exact ⟨by assumption, by assumption, by assumption, h5 h, by assumption⟩
/-- the name of a Mode S transponder can be written -/
def nameOk (v : ModeSBasicData) : Prop := ∀ a b c d e f g h i, v = .transponder a b c d e f g h i →
  d.length < 2 ^ 4 ∧ (∀ x ∈ d, x.toNat < 128) ∧ ∀ x ∈ d.getLast?, Dis.isAlnum x = true
instance (env : Dis.Env) (k : Dis.IffClass) : Gv (ModeSBasicData.parse env k) fun v => k ≠ .undetermined → nameOk v → v.Wf k where
  spec := by
    unfold ModeSBasicData.parse
    split
    · refine Gives.bind Gv.spec fun _ _ => Gives.bind Gv.spec fun _ _ => Gives.bind Gv.spec fun _ _ => Gives.bind Gv.spec fun _ _ => Gives.bind (Gives.trivial _) fun _ _ => ?_
      gv_steps
      refine Gives.pure fun _ hn => ?_
      obtain ⟨n1, n2, n3⟩ := hn _ _ _ _ _ _ _ _ _ rfl
      unfold ModeSBasicData.Wf
      (repeat' first | rfl | assumption | apply And.intro)
    · gv_steps
      refine Gives.pure fun _ _ => ?_
      unfold ModeSBasicData.Wf
      (repeat' first | rfl | assumption | apply And.intro)
    · exact Gives.pure fun h => absurd rfl h
instance (env : Dis.Env) (k : Dis.IffClass) : Gv (IffLayer4.parse env k) fun v => k ≠ .undetermined → nameOk v.mode_s_basic_data → v.Wf k where
  spec := by
    unfold IffLayer4.parse IffLayer4.Wf
    refine Gives.bind Gv.spec fun _ _ => Gives.bind Gv.spec fun _ _ => Gives.bind Gv.spec fun _ _ => Gives.bind Gv.spec fun _ _ => Gives.bind Gv.spec fun _ h5 =>
      Gives.bind Gv.spec fun _ _ => Gives.pure fun h h' => ?_
    exact ⟨by assumption, by assumption, by assumption, h5 h h', by assumption⟩
theorem reads_iff (env : Dis.Env) : Gives (Iff.parse env) fun v => writable env (.iff v) → v.Wf env := by
  unfold Iff.parse Iff.Wf
  gv_steps
  refine Gives.pure fun h => ?_
  obtain ⟨w1, w2⟩ := h
  try casesm* _ ∧ _
  (repeat' first | assumption | exact opt_wf2 (by assumption) (fun e => w1 (.inl e)) (fun _ _ => True.intro) | exact opt_wf2 (by assumption) (fun e => w1 (.inr e)) w2 | apply And.intro) <;> (simp only [*]; done)

theorem reads_body (env : Dis.Env) (t : Nat) : Gives (CdisBody.parse env t) fun b => writable env b → b.Wf env t := by
  unfold CdisBody.parse
  split
  any_goals (unfold mapP)
  · exact Gives.bind reads_entityState fun v h => Gives.pure fun w => ⟨rfl, h w.1 w.2.1 w.2.2⟩
  · exact Gives.bind reads_fire fun v h => Gives.pure fun w => ⟨rfl, h w⟩
  · exact Gives.bind reads_detonation fun v h => Gives.pure fun w => ⟨rfl, h w.1 w.2⟩
  · exact Gives.bind reads_collision fun v h => Gives.pure fun _ => ⟨rfl, h⟩
  · exact Gives.bind reads_createRemove fun v h => Gives.pure fun _ => ⟨rfl, h⟩
  · exact Gives.bind reads_createRemove fun v h => Gives.pure fun _ => ⟨rfl, h⟩
  · exact Gives.bind reads_startResume fun v h => Gives.pure fun _ => ⟨rfl, h⟩
  · exact Gives.bind reads_stopFreeze fun v h => Gives.pure fun _ => ⟨rfl, h⟩
  · exact Gives.bind reads_acknowledge fun v h => Gives.pure fun _ => ⟨rfl, h⟩
  · exact Gives.bind reads_action fun v h => Gives.pure fun w => ⟨rfl, h w⟩
  · exact Gives.bind reads_action fun v h => Gives.pure fun w => ⟨rfl, h w⟩
  · exact Gives.bind reads_dataQuery fun v h => Gives.pure fun _ => ⟨rfl, h⟩
  · exact Gives.bind reads_data fun v h => Gives.pure fun w => ⟨rfl, h w⟩
  · exact Gives.bind reads_data fun v h => Gives.pure fun w => ⟨rfl, h w⟩
  · exact Gives.bind reads_data fun v h => Gives.pure fun w => ⟨rfl, h w⟩
  · exact Gives.bind reads_comment fun v h => Gives.pure fun w => ⟨rfl, h w⟩
  · exact Gives.bind reads_emission fun v h => Gives.pure fun w => ⟨rfl, h w⟩
  · exact Gives.bind reads_designator fun v h => Gives.pure fun w => ⟨rfl, h w⟩
  · exact Gives.bind reads_transmitter fun v h => Gives.pure fun w => ⟨rfl, h w.1 w.2⟩
  · exact Gives.bind reads_signal fun v h => Gives.pure fun _ => ⟨rfl, h⟩
  · exact Gives.bind reads_receiver fun v h => Gives.pure fun _ => ⟨rfl, h⟩
  · exact Gives.bind (reads_iff env) fun v h => Gives.pure fun w => ⟨rfl, h w⟩
  · refine Gives.pure fun _ => ?_
    show isSupported _ = false
    cases hs : isSupported t with
    | false => rfl
    | true =>
      exfalso
      have : t = 1 ∨ t = 2 ∨ t = 3 ∨ t = 4 ∨ t = 11 ∨ t = 12 ∨ t = 13 ∨ t = 14 ∨ t = 15 ∨ t = 16 ∨ t = 17 ∨ t = 18 ∨ t = 19 ∨ t = 20 ∨ t = 21 ∨ t = 22
          ∨ t = 23 ∨ t = 24 ∨ t = 25 ∨ t = 26 ∨ t = 27 ∨ t = 28 := by
        simp only [isSupported, Bool.or_eq_true, Bool.and_eq_true, decide_eq_true_eq] at hs
        omega
      simp_all

/-! ## Lemmas: what is read can be read again -/

theorem reads_pdu (env : Dis.Env) : Gives (CdisPdu.parse env) fun p => writable env p.body → p.Wf env := by
  unfold CdisPdu.parse
  exact Gives.bind reads_header fun hd hh => Gives.bind (reads_body env hd.pdu_type) fun b hb => Gives.pure fun w => ⟨hh, hb w⟩
theorem reads_collision_type : Gives Collision.parse fun v => v.collision_type < 2 := by
  unfold Collision.parse
  gv_steps
  exact Gives.pure (by assumption)

theorem near_opt {o : Option WorldCoordinates} (h : OptAll (fun l => near l ∧ (shallow l → l.Fits)) o) : ∀ l ∈ o.toList, near l := by
  cases o with
  | none => nofun
  | some x => intro l hl; simp only [Option.toList_some, List.mem_singleton] at hl; exact hl ▸ h.1
theorem near_one {x : WorldCoordinates} (h : near x) : ∀ l ∈ [x], near l := by
  intro l hl; simp only [List.mem_singleton] at hl; exact hl ▸ h
theorem near_fire : Gives Fire.parse fun v => ∀ l ∈ locations (.fire v), near l := by
  unfold Fire.parse
  gv_steps
  refine Gives.pure ?_
  casesm* _ ∧ _
  exact near_one (by assumption)
theorem near_detonation : Gives Detonation.parse fun v => ∀ l ∈ locations (.detonation v), near l := by
  unfold Detonation.parse
  gv_steps
  refine Gives.pure ?_
  casesm* _ ∧ _
  exact near_one (by assumption)
theorem near_designator : Gives Designator.parse fun v => ∀ l ∈ locations (.designator v), near l := by
  unfold Designator.parse
  gv_steps
  refine Gives.pure ?_
  casesm* _ ∧ _
  exact near_opt (by assumption)
theorem near_transmitter : Gives Transmitter.parse fun v => ∀ l ∈ locations (.transmitter v), near l := by
  unfold Transmitter.parse
  gv_steps
  dsimp only
  refine Gives.trans_ite (fun _ => Gives.bind Gv.spec fun l hl => ?_) (fun _ => Gives.bind (Q := fun l => l = []) (Gives.pure rfl) fun l hl => ?_)
  all_goals
    refine Gives.pure ?_
    casesm* _ ∧ _
    exact near_opt (by assumption)
theorem near_entityState : Gives EntityState.parse fun v => ∀ l ∈ locations (.entityState v), near l := by
  unfold EntityState.parse
  gv_steps
  refine Gives.pure ?_
  casesm* _ ∧ _
  exact near_opt (by assumption)
theorem near_body (env : Dis.Env) (t : Nat) : Gives (CdisBody.parse env t) fun b => ∀ l ∈ locations b, near l := by
  unfold CdisBody.parse
  split
  any_goals (unfold mapP)
  · exact Gives.bind near_entityState fun v h => Gives.pure h
  · exact Gives.bind near_fire fun v h => Gives.pure h
  · exact Gives.bind near_detonation fun v h => Gives.pure h
  all_goals first
    | exact Gives.bind near_designator fun v h => Gives.pure h
    | exact Gives.bind near_transmitter fun v h => Gives.pure h
    | exact Gives.bind (Gives.trivial _) fun v _ => Gives.pure nofun
    | exact Gives.pure nofun
theorem near_pdu (env : Dis.Env) : Gives (CdisPdu.parse env) fun p => ∀ l ∈ locations p.body, near l := by
  unfold CdisPdu.parse
  exact Gives.bind (Gives.trivial _) fun hd _ => Gives.bind (near_body env hd.pdu_type) fun b hb => Gives.pure hb

theorem locations_wire (b : CdisBody) : locations b.wire = (locations b).map WorldCoordinates.wire := by
  cases b with
  | entityState v => cases h : v.entity_location <;> simp [locations, CdisBody.wire, EntityState.wire, h]
  | designator v => cases h : v.designator_spot_location <;> simp [locations, CdisBody.wire, Designator.wire, h]
  | transmitter v => cases h : v.antenna_location <;> simp [locations, CdisBody.wire, Transmitter.wire, h]
  | _ => rfl
theorem shallow_wire {o : Option WorldCoordinates} (h : ∀ l ∈ o, shallow l) : ∀ l ∈ o.map WorldCoordinates.wire, shallow l := by
  cases o with
  | none => nofun
  | some x => intro l hl; cases hl; exact h x rfl
theorem writable_wire {env : Dis.Env} {b : CdisBody} (h : writable env b) : writable env b.wire := by
  cases b with
  | entityState v => exact ⟨shallow_wire h.1, h.2⟩
  | fire v => exact h
  | detonation v => exact h
  | designator v => exact shallow_wire h
  | transmitter v => exact ⟨shallow_wire h.1, h.2⟩
  | iff v =>
    refine ⟨fun e => h.1 (by simpa [Iff.wire] using e), ?_⟩
    intro l hl
    have : v.layer_4.map IffLayer4.wire = some l := hl
    cases h4 : v.layer_4 with
    | none => rw [h4] at this; cases this
    | some x => rw [h4] at this; cases this; exact h.2 x h4
  | _ => exact h

theorem shrunk_wire (a : WorldCoordinates) : Shrunk 1 a a.wire := by
  refine ⟨?_, ?_, rfl⟩ <;> rw [pow_one]
  · exact arrives_le latScale_ge a.latitude
  · exact arrives_le lonScale_ge a.longitude
theorem Shrunk.trans {j k : Nat} {a b c : WorldCoordinates} (h : Shrunk j a b) (g : Shrunk k b c) : Shrunk (j + k) a c := by
  have p : (0 : Rat) < 8 ^ k := by positivity
  refine ⟨g.1.trans ?_, g.2.1.trans ?_, g.2.2.trans h.2.2⟩
  · rw [pow_add, ← div_div]; exact div_le_div_of_nonneg_right h.1 p.le
  · rw [pow_add, ← div_div]; exact div_le_div_of_nonneg_right h.2.1 p.le
theorem forall₂_shrunk (l : List WorldCoordinates) : List.Forall₂ (Shrunk 1) l (l.map WorldCoordinates.wire) := by
  induction l with
  | nil => exact .nil
  | cons x xs ih => exact .cons (shrunk_wire x) ih
theorem forall₂_trans {j k : Nat} {a b c : List WorldCoordinates} (h : List.Forall₂ (Shrunk j) a b) (g : List.Forall₂ (Shrunk k) b c) :
    List.Forall₂ (Shrunk (j + k)) a c := by
  induction h generalizing c with
  | nil => cases g; exact .nil
  | cons x _ ih => cases g with | cons y ys => exact .cons (x.trans y) (ih ys)

/-! ## Theorems -/

/-- **C81.** Whatever bits are read as a PDU, and whatever follows: if nothing that `writable` names keeps it from being written, it is read again
from what is written of it, with its locations and beams as C35 describes them (`wire`). -/
theorem C81_again_partial {env : Dis.Env} {b r : Cdis.Bits} {p : CdisPdu} (h : (CdisPdu.parse env).run b = .ok p r) (hw : writable env p.body) (r' : Cdis.Bits) :
    (CdisPdu.parse env).run (p.ser ++ r') = .ok p.wire r' := CdisPdu.run (reads_pdu env _ _ _ h hw) r'
/-- A PDU without locations, beams and IFF layers comes back as it was. -/
theorem C81_exact_partial {env : Dis.Env} {b r : Cdis.Bits} {p : CdisPdu} (h : (CdisPdu.parse env).run b = .ok p r) (hw : writable env p.body)
    (hp : plain p.body) (r' : Cdis.Bits) : (CdisPdu.parse env).run (p.ser ++ r') = .ok p r' := by
  rw [C81_again_partial h hw r']
  have e : p.body.wire = p.body := by
    refine C35_unchanged _ ?_
    have hc : ∀ v, p.body = .collision v → v.collision_type < 2 := by
      have : Gives (CdisPdu.parse env) fun p => ∀ v, p.body = .collision v → v.collision_type < 2 := by
        unfold CdisPdu.parse
        refine Gives.bind (Gives.trivial _) fun hd _ => Gives.bind (Q := fun b => ∀ v, b = .collision v → v.collision_type < 2) ?_ fun b hb => Gives.pure hb
        unfold CdisBody.parse
        split
        any_goals (unfold mapP)
        all_goals first
          | exact Gives.pure nofun
          | exact Gives.bind reads_collision_type fun v h => Gives.pure fun w e => by cases e; exact h
          | exact Gives.bind (Gives.trivial _) fun v _ => Gives.pure nofun
      exact this _ _ _ h
    cases hb : p.body with
    | collision v => have := hc v hb; show _ ∨ _; omega
    | entityState v => rw [hb] at hp; simpa [plain, locations] using hp
    | fire v => rw [hb] at hp; simp [plain, locations] at hp
    | detonation v => rw [hb] at hp; simp [plain, locations] at hp
    | designator v => rw [hb] at hp; simpa [plain, locations] using hp
    | transmitter v => rw [hb] at hp; simpa [plain, locations] using hp
    | electromagneticEmission v => rw [hb] at hp; exact hp
    | iff v => rw [hb] at hp; exact hp
    | _ => trivial
  unfold CdisPdu.wire
  rw [e]
/-- …and so it does however often it is written and read. -/
theorem C81_exact_chain_partial {env : Dis.Env} {b r : Cdis.Bits} {p : CdisPdu} (h : (CdisPdu.parse env).run b = .ok p r) (hw : writable env p.body)
    (hp : plain p.body) (k : Nat) : CdisRelayed env k p p := by
  have e : (CdisPdu.parse env).run p.ser = .ok p [] := by simpa using C81_exact_partial h hw hp []
  induction k with
  | zero => exact .refl p
  | succ k ih => exact .step e ih

theorem relayed_wf {env : Dis.Env} (k : Nat) {p : CdisPdu} (hp : p.Wf env) (hw : writable env p.body) :
    ∃ q, CdisRelayed env k p q ∧ q.header = p.header ∧ List.Forall₂ (Shrunk k) (locations p.body) (locations q.body) ∧ q.Wf env ∧ writable env q.body := by
  induction k generalizing p with
  | zero =>
    refine ⟨p, .refl p, rfl, ?_, hp, hw⟩
    generalize locations p.body = l
    induction l with
    | nil => exact .nil
    | cons x xs ih => exact .cons ⟨by simp, by simp, rfl⟩ ih
  | succ k ih =>
    have e : (CdisPdu.parse env).run p.ser = .ok p.wire [] := by simpa using CdisPdu.run hp []
    have hw' : writable env p.wire.body := writable_wire hw
    obtain ⟨q, h1, h2, h3, h4⟩ := ih (reads_pdu env _ _ _ e hw') hw'
    refine ⟨q, .step e h1, h2, ?_, h4⟩
    have g : List.Forall₂ (Shrunk 1) (locations p.body) (locations p.wire.body) := by
      show List.Forall₂ (Shrunk 1) (locations p.body) (locations p.body.wire)
      rw [locations_wire]
      exact forall₂_shrunk _
    rw [Nat.add_comm]
    exact forall₂_trans g h3
/-- However many times such a PDU is written and read, it is read every time, under the same header, and with its locations: but with every relay
the latitude and the longitude of each are an eighth or less of what they were. -/
theorem C81_chain_partial {env : Dis.Env} {b r : Cdis.Bits} {p : CdisPdu} (h : (CdisPdu.parse env).run b = .ok p r) (hw : writable env p.body) (k : Nat) :
    ∃ q, CdisRelayed env k p q ∧ q.header = p.header ∧ List.Forall₂ (Shrunk k) (locations p.body) (locations q.body) :=
  let ⟨q, h1, h2, h3, _⟩ := relayed_wf k (reads_pdu env _ _ _ h hw) hw
  ⟨q, h1, h2, h3⟩
theorem CdisRelayed.unique {env : Dis.Env} {k : Nat} {p q q' : CdisPdu} (h : CdisRelayed env k p q) (h' : CdisRelayed env k p q') : q = q' := by
  induction h with
  | refl p => cases h'; rfl
  | step e _ ih => cases h' with | step e' g => rw [e] at e'; cases e'; exact ih g

theorem CdisRelayed.last {env : Dis.Env} {k : Nat} {p q : CdisPdu} (h : CdisRelayed env (k + 1) p q) :
    ∃ m, CdisRelayed env k p m ∧ (CdisPdu.parse env).run m.ser = .ok q [] := by
  induction k generalizing p with
  | zero => cases h with | step e g => cases g; exact ⟨p, .refl p, e⟩
  | succ k ih =>
    cases h with
    | step e g => obtain ⟨m, a, b⟩ := ih g; exact ⟨m, .step e a, b⟩
theorem forall₂_right {α : Type} {R : α → α → Prop} {a b : List α} (h : List.Forall₂ R a b) : ∀ y ∈ b, ∃ x ∈ a, R x y := by
  induction h with
  | nil => nofun
  | cons r _ ih =>
    intro y hy
    rcases List.mem_cons.1 hy with rfl | hy
    · exact ⟨_, List.mem_cons_self, r⟩
    · obtain ⟨x, hx, e⟩ := ih y hy; exact ⟨x, List.mem_cons_of_mem _ hx, e⟩

/-- **C81**, violated: a location that is read, other than one with both coordinates zero, is another one when it is read again. -/
theorem C81_location_violated (l : WorldCoordinates) (h : l.latitude ≠ 0 ∨ l.longitude ≠ 0) (hf : l.Fits) (r : Cdis.Bits) :
    ∃ m, WorldCoordinates.parse.run (l.ser ++ r) = .ok m r ∧ m ≠ l := by
  refine ⟨_, WorldCoordinates.run_wire hf r, fun e => ?_⟩
  have s := shrunk_wire l
  rw [e] at s
  obtain ⟨a, b, _⟩ := s
  rcases h with h | h <;> have := abs_pos.2 h <;> norm_num at a b <;> linarith
/-- …and after eleven relays, every location of every PDU is the point at latitude and longitude zero. -/
theorem C81_locations_lost_violated {env : Dis.Env} {b r : Cdis.Bits} {p q : CdisPdu} (h : (CdisPdu.parse env).run b = .ok p r)
    (hw : writable env p.body) {k : Nat} (hk : 11 ≤ k) (hq : CdisRelayed env k p q) : ∀ l ∈ locations q.body, l.latitude = 0 ∧ l.longitude = 0 := by
  obtain ⟨j, rfl⟩ : ∃ j, k = j + 1 := ⟨k - 1, by omega⟩
  obtain ⟨m, a, e⟩ := hq.last
  obtain ⟨m', a', _, f, w, v⟩ := relayed_wf j (reads_pdu env _ _ _ h hw) hw
  cases a.unique a'
  have e' : (CdisPdu.parse env).run m.ser = .ok m.wire [] := by simpa using CdisPdu.run w []
  rw [e] at e'
  cases e'
  have : locations m.wire.body = (locations m.body).map WorldCoordinates.wire := locations_wire m.body
  rw [this]
  intro l hl
  obtain ⟨x, hx, rfl⟩ := List.mem_map.1 hl
  obtain ⟨y, hy, g1, g2, _⟩ := forall₂_right f x hx
  obtain ⟨n1, n2⟩ := near_pdu env _ _ _ h y hy
  have hj : (8 : Rat) ^ 10 ≤ 8 ^ j := pow_le_pow_right₀ (by norm_num) (by omega)
  have small : ∀ {t : Rat}, 0 ≤ t → t ≤ 2 ^ 28 → t / 8 ^ j < 1 := by
    intro t _ ht
    rw [div_lt_one (by positivity)]
    exact lt_of_le_of_lt ht (lt_of_lt_of_le (by norm_num) hj)
  exact ⟨arrives_zero latScale_ge (g1.trans_lt (small (abs_nonneg _) (n1.trans (by norm_num)))),
    arrives_zero lonScale_ge (g2.trans_lt (small (abs_nonneg _) n2))⟩

/-- **C81**, violated: an altitude that is read from the class of 24 bits with its sign set comes back 8388608 lower. -/
theorem C81_altitude_violated (a : Int) (h : 8388608 ≤ a ∧ a ≤ 16777215) (r : Cdis.Bits) : sv24.parse.run (sv24.ser a ++ r) = .ok (a - 8388608) r := by
  rw [SV4.run]
  have e : sv24.flag a = 3 := by
    unfold SV4.flag
    repeat' split
    all_goals simp only [sv24] at *
    all_goals omega
  have n : ¬ a < 0 := by omega
  rw [e]
  have k : (0 : Int) + a % 8388608 = a - 8388608 := by omega
  rw [if_neg n]
  exact congrArg (Res.ok · r) k
/-- Such altitudes are read: this is the lowest that can be written, as it is read. -/
example (r : Cdis.Bits) : sv24.parse.run (sv24.ser (-8388608) ++ r) = .ok 8388608 r := C30_svint24_centre_of_earth r
/-- **C81**, violated: a marking in the code of five bits that is read with a `Y` in it comes back with a `9` in its place. -/
theorem C81_marking_violated : ∃ b m m', Marking.parse.run b = .ok m [] ∧ m.marking = "BY3".toList ∧ m.enc = .five
    ∧ Marking.parse.run m.ser = .ok m' [] ∧ m'.marking ≠ m.marking := by
  refine ⟨wU 4 3 ++ wU 1 0 ++ wU 5 2 ++ wU 5 21 ++ wU 5 25, ⟨.five, "BY3".toList⟩, ⟨.five, "B93".toList⟩, by decide +kernel, by decide +kernel, rfl, by decide +kernel, by decide +kernel⟩
/-- **C81**, violated: an articulated part that is read in the uncompressed format is written in such a way that its value is lost and that what
follows it is read from the wrong place. -/
theorem C81_parameter_violated : ∃ b v w r, VariableParameter.parse.run b = .ok v [] ∧ VariableParameter.parse.run (v.ser ++ wU 32 0) = .ok w r
    ∧ v ≠ w ∧ r ≠ wU 32 0 := by
  refine ⟨wU 1 0 ++ wU 8 0 ++ wU 8 0 ++ wU 16 5 ++ wU 32 1 ++ wU 32 7, .articulated ⟨0, 5, 0, 1, ⟨0, 0, some 7⟩⟩, .articulated ⟨0, 5, 0, 1, ⟨0, 0, none⟩⟩,
    wU 46 30064771072, ?_⟩
  decide +kernel
/-- …and one of an unknown type is written as a single bit. -/
theorem C81_unknown_parameter_violated : VariableParameter.parse.run [true, true, true, true] = .ok .unspecified []
    ∧ ∀ v, VariableParameter.parse.run (VariableParameter.ser .unspecified) ≠ .ok v [] := by
  refine ⟨by decide +kernel, fun v h => ?_⟩
  have e : VariableParameter.parse.run (VariableParameter.ser .unspecified) = .err := by decide +kernel
  rw [e] at h
  cases h
/-- **C81**, violated: a Transmitter PDU that is read with no variable transmitter parameters is written in such a way that another is read. -/
theorem C81_transmitter_violated : ∃ b r v, Transmitter.parse.run b = .ok v r ∧ v.variable_transmitter_parameters = [] ∧ v.antenna_location = none
    ∧ Transmitter.parse.run (v.ser ++ wU 32 0) ≠ .ok v (wU 32 0) := by
  refine ⟨quietTransmitter.ser ++ wU 32 0, (wU 32 0).take 26,
    ⟨0, 0, true, ⟨1, 2, 3⟩, 4, none, 2, 1, none, some ⟨-120, -1784, 2816⟩, none, none, none, none, none, none, none, [], none, []⟩, ?_⟩
  decide +kernel

/-! ### Cases that meet the hypotheses -/

/-- An Entity State PDU with everything in it, as it is read: the bits are those of another, further north. -/
def readState : CdisPdu := ⟨⟨1, 1, 1, 5, 0, Dis.parsePduStatusFields 1 0⟩, .entityState fullEntityState⟩
theorem readState_wf (env : Dis.Env) : readState.Wf env :=
  ⟨⟨by decide, by decide, by decide, by decide, by decide, C02_read_wf 1 0⟩, (C35_witness env).1⟩
theorem C81_witness (env : Dis.Env) : ∃ b p, (CdisPdu.parse env).run b = .ok p [] ∧ writable env p.body ∧ locations p.body ≠ [] ∧ ¬ plain p.body := by
  refine ⟨readState.ser, readState.wire, by simpa using CdisPdu.run (readState_wf env) [], ⟨?_, ?_, ?_⟩, by nofun, by nofun⟩
  · intro l hl
    cases hl
    show _ ≤ _
    decide
  · intro m hm _
    cases hm
    decide
  · intro p hp
    simp only [EntityState.wire, fullEntityState, List.mem_singleton] at hp
    subst hp
    unfold compressedParameter
    decide
/-- A request for action, which comes back as it was. -/
def readAction : CdisPdu := ⟨⟨1, 1, 16, 5, 0, Dis.parsePduStatusFields 16 0⟩, .actionRequest someAction⟩
example (env : Dis.Env) : ∃ b, (CdisPdu.parse env).run b = .ok readAction [] ∧ writable env readAction.body ∧ plain readAction.body := by
  have w : readAction.Wf env := ⟨⟨by decide, by decide, by decide, by decide, by decide, C02_read_wf 16 0⟩, (C35_witness env).2.2.2.2.2.2.2.1⟩
  exact ⟨readAction.ser, by simpa [show readAction.wire = readAction from rfl] using CdisPdu.run w [], nofun, rfl⟩

end Verif.Props

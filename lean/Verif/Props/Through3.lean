import Verif.Props.Through2
namespace Verif.Props
open Verif.Codec

/-- a `f32` field holds a number from `lo` to `hi` -/
def InRange (b : UInt32) (lo hi : Rat) : Prop := ∃ q, v32 b = .num q ∧ lo ≤ q ∧ q ≤ hi
/-- the entity types a C-DIS record can carry: kind and domain below 16, country below 512 -/
def TypeFits (t : Dis.EntityType) : Prop := t.kind < 16 ∧ t.domain < 16 ∧ t.country < 512
/-- a location that C-DIS can carry: not the centre of the Earth, and geodetic coordinates are found for it, short of the poles
and the antimeridian, from 10.4 km below the ellipsoid to 83886 km above it (with a gap of a metre where the unit changes) -/
def WorldFits (env : Env) (l : Dis.Location) : Prop :=
  atCentre l = false ∧ ∃ lat lon alt : Rat, env.toLla l = (.num lat, .num lon, .num alt) ∧ |lat| ≤ 157 / 100 ∧
    |lon| ≤ 314159 / 100000 ∧ (-10485 ≤ alt ∧ alt ≤ 83886 ∨ 83887 ≤ alt ∧ alt ≤ 83886000)
/-- what arrives of a location (see `C57_location_violated`) -/
def worldWireQ (env : Env) (l : Dis.Location) : Dis.Location := worldDec env (worldEnc env l).1.wire (worldEnc env l).2

theorem world_units (env : Env) (l : Dis.Location) : (worldEnc env l).2 < 2 := by
  unfold worldEnc
  split
  · exact (by decide : DEKAMETER < 2)
  · dsimp only
    split
    · exact (by decide : CM < 2)
    · exact (by decide : DEKAMETER < 2)

/-- What a location that fits arrives as: the inverse conversion is called with a 17.19th of the latitude, an 8.91th of the
longitude. -/
theorem world_wire {env : Env} {l : Dis.Location} {lat lon alt : Rat} (hc : atCentre l = false)
    (hl : env.toLla l = (.num lat, .num lon, .num alt)) (hlat : |lat| ≤ 157 / 100) (hlon : |lon| ≤ 314159 / 100000)
    (halt : -10485 ≤ alt ∧ alt ≤ 83886 ∨ 83887 ≤ alt ∧ alt ≤ 83886000) :
    (worldEnc env l).1.Fits ∧ ∃ lat' lon' alt', worldWireQ env l = env.toEcef (.num lat') (.num lon') (.num alt') ∧
      |lat' * (9011847 / 524288) - lat| ≤ 2 / 1000000 ∧ |lon' * (9345619 / 1048576) - lon| ≤ 2 / 1000000 ∧
      |alt' - alt| ≤ (if alt ≤ 83886 then 2 / 100 else 16) := by
  obtain ⟨r1, -, h11, -, h13, -⟩ := scale_angle (q := lat) (S := 5734161133882305 / 8388608) (by norm_num) (by norm_num)
    (by rw [abs_le]; constructor <;> norm_num) (by linarith)
  obtain ⟨r2, -, h21, -, h23, -⟩ := scale_angle (q := lon) (S := 2867080568276241 / 4194304) (by norm_num) (by norm_num)
    (by rw [abs_le]; constructor <;> norm_num) (by linarith)
  have hlat' := abs_le.1 hlat
  have hlon' := abs_le.1 hlon
  have h13' := abs_le.1 h13
  have h23' := abs_le.1 h23
  have hr1 : |r1| ≤ 1073300000 := by rw [abs_le]; constructor <;> linarith
  have hr2 : |r2| ≤ 2147483812 := by rw [abs_le]; constructor <;> linarith
  have hr1' := abs_le.1 hr1
  have hlat31 : Cdis.InS 31 (asI32 r1) := by
    have := abs_le.1 (asI32_err (r := r1) (by linarith))
    have a1 : (asI32 r1 : Rat) < 1073741824 := by linarith
    have a2 : -1073741824 < (asI32 r1 : Rat) := by linarith
    have a1 : asI32 r1 < 1073741824 := by exact_mod_cast a1
    have a2 : -1073741824 < asI32 r1 := by exact_mod_cast a2
    unfold Cdis.InS
    norm_num
    omega
  obtain ⟨y1, hy1, hyb1⟩ := wire_angle (r := r1) (ρ := Cdis.latScale) (by rw [latScale_eq]; norm_num)
    (by rw [latScale_eq]; norm_num) (by linarith)
  obtain ⟨y2, hy2, hyb2⟩ := wire_angle (r := r2) (ρ := Cdis.lonScale) (by rw [lonScale_eq]; norm_num)
    (by rw [lonScale_eq]; norm_num) (by linarith)
  have b1 : |y1 * (9011847 / 524288) - lat| ≤ 2 / 1000000 := by
    rw [latScale_eq] at hyb1
    rw [abs_le] at hyb1 ⊢
    constructor <;> linarith
  have b2 : |y2 * (9345619 / 1048576) - lon| ≤ 2 / 1000000 := by
    rw [lonScale_eq] at hyb2
    rw [abs_le] at hyb2 ⊢
    constructor <;> linarith
  rcases halt with halt | halt
  · obtain ⟨r, y, hr, hr8, hy, hyb⟩ := altitude_cm (A := alt) (by rw [abs_le]; constructor <;> linarith [halt.1, halt.2])
    have e : worldEnc env l = (⟨r1, r2, toI32 (.num r)⟩, CM) := by
      unfold worldEnc
      rw [hc, hl]
      simp only [Bool.false_eq_true, if_false, latScale64_eq, lonScale64_eq, hr, h11, h21]
      rw [if_pos (by simpa [Fl.le] using hr8)]
      rfl
    have hrb : |r - alt * 100| ≤ 1 / 1000000 := by
      obtain ⟨s, hs, hsb⟩ := round64_small (q := alt * 100) (B := 8388600)
        (by rw [abs_le]; constructor <;> linarith [halt.1, halt.2]) (by norm_num)
      have : F64.round (alt * 100) = .num r := hr
      rw [hs] at this
      cases this
      exact hsb
    have hrb' := abs_le.1 hrb
    have halt24 : Cdis.In24 (toI32 (.num r)) := by
      rw [toI32_num (by rw [abs_lt]; constructor <;> linarith [halt.1, halt.2])]
      have t := abs_lt.1 (truncRat_spec r).1
      have a1 : (truncRat r : Rat) < 8388608 := by linarith [halt.2]
      have a2 : -1048577 < (truncRat r : Rat) := by linarith [halt.1]
      have a1 : truncRat r < 8388608 := by exact_mod_cast a1
      have a2 : -1048577 < truncRat r := by exact_mod_cast a2
      unfold Cdis.In24
      omega
    refine ⟨by rw [e]; exact ⟨hlat31, halt24⟩, y1, y2, y, ?_, b1, b2, by rw [if_pos halt.2]; exact hyb⟩
    unfold worldWireQ
    rw [e]
    simp only [worldDec, Cdis.WorldCoordinates.wire, latScale32_eq, lonScale32_eq, hy1, hy2, if_true, hy]
  · obtain ⟨r, s, y, hr, hr8, hs, hy, hyb⟩ := altitude_dam halt.1 halt.2
    have e : worldEnc env l = (⟨r1, r2, toI32 (.num s)⟩, DEKAMETER) := by
      unfold worldEnc
      rw [hc, hl]
      simp only [Bool.false_eq_true, if_false, latScale64_eq, lonScale64_eq, hr, hs, h11, h21]
      rw [if_neg (by simpa [Fl.le] using hr8)]
      rfl
    have hsb : |s - alt / 10| ≤ 1 / 1000000 := by
      obtain ⟨t, ht, htb⟩ := round64_small (q := alt / 10) (B := 8388600)
        (by rw [abs_le]; constructor <;> linarith [halt.1, halt.2]) (by norm_num)
      have : F64.round (alt / 10) = .num s := by
        rw [← hs]
        simp [Fl.div]
      rw [ht] at this
      cases this
      exact htb
    have hsb' := abs_le.1 hsb
    have halt24 : Cdis.In24 (toI32 (.num s)) := by
      rw [toI32_num (by rw [abs_lt]; constructor <;> linarith [halt.1, halt.2])]
      have t := abs_lt.1 (truncRat_spec s).1
      have a1 : (truncRat s : Rat) < 8388608 := by linarith [halt.2]
      have a2 : -1048577 < (truncRat s : Rat) := by linarith [halt.1]
      have a1 : truncRat s < 8388608 := by exact_mod_cast a1
      have a2 : -1048577 < truncRat s := by exact_mod_cast a2
      unfold Cdis.In24
      omega
    refine ⟨by rw [e]; exact ⟨hlat31, halt24⟩, y1, y2, y, ?_, b1, b2, by rw [if_neg (by linarith [halt.1])]; exact hyb⟩
    unfold worldWireQ
    rw [e]
    simp only [worldDec, Cdis.WorldCoordinates.wire, latScale32_eq, lonScale32_eq, hy1, hy2, hy]
    rw [if_neg (by decide)]

theorem world_fits {env : Env} {l : Dis.Location} (h : WorldFits env l) : (worldEnc env l).1.Fits := by
  obtain ⟨hc, lat, lon, alt, h1, h2, h3, h4⟩ := h
  exact (world_wire hc h1 h2 h3 h4).1
theorem etype_wf {t : Dis.EntityType} (h : TypeFits t) : (etypeEnc t).Wf :=
  ⟨h.1, h.2.1, h.2.2, t.category.toNat_lt, t.subcategory.toNat_lt, t.specific.toNat_lt, t.extra.toNat_lt⟩

/-- the entity type of a descriptor -/
def descType : Dis.DescriptorRecord → Dis.EntityType
  | .munition t _ | .expendable t | .explosion t _ _ => t
/-- the descriptors that C-DIS can carry: quantity and rate of a munition are both zero or both not; the force of an explosion is
at most 32.4 million kilograms -/
def DescFits : Dis.DescriptorRecord → Prop
  | .munition t m => TypeFits t ∧ (m.quantity = 0 ↔ m.rate = 0)
  | .expendable t => TypeFits t
  | .explosion t _ f => TypeFits t ∧ InRange f 0 32439330

/-- the variable parameters that C-DIS can carry -/
def ParameterFits : Dis.VariableParameter → Prop
  | .articulated p => p.attachment_id < 1024 ∧ p.type_metric < 32 ∧ p.type_class % 32 = 0 ∧ p.type_class < 16384 ∧
      InRange p.parameter_value (-16383) 16383
  | .attached p => p.detached_indicator < 2 ∧ p.attachment_id < 1024 ∧ p.parameter_type < 2048 ∧ TypeFits p.attached_part_type
  | .separation p => p.reason < 8 ∧ p.pre_entity_indicator < 8 ∧ p.station_name < 64 ∧ p.station_number < 4096
  | .entityType p => p.change_indicator < 2 ∧ TypeFits p.entity_type
  | .entityAssociation p => p.change_indicator < 2 ∧ p.association_status < 16 ∧ p.own_station_location < 64 ∧
      p.physical_connection_type < 32 ∧ p.group_member_type < 16
  | .unspecified _ _ => False

theorem vp_wf {p : Dis.VariableParameter} (h : ParameterFits p) : (vpEnc p).Wf := by
  cases p with
  | articulated p =>
    obtain ⟨h1, h2, h3, h4, q, hq, hlo, hhi⟩ := h
    have h1 : p.attachment_id.toNat < 1024 := h1
    have h2 : p.type_metric.toNat < 32 := h2
    have h4 : p.type_class.toNat < 16384 := h4
    have h3 : p.type_class.toNat % 32 = 0 := by
      have := congrArg UInt32.toNat h3
      rwa [UInt32.toNat_mod] at this
    refine ⟨p.change_indicator.toNat_lt, h1, h2, h3, ?_, (C41_parameter_value hq (abs_le.2 ⟨by linarith, by linarith⟩)).1⟩
    show p.type_metric.toNat + p.type_class.toNat < 2 ^ 14
    omega
  | attached p =>
    obtain ⟨h1, h2, h3, h4⟩ := h
    exact ⟨h1, h2, h3, etype_wf h4⟩
  | separation p =>
    obtain ⟨h1, h2, h3, h4⟩ := h
    exact ⟨h1, h2, eid_wf _, h3, h4⟩
  | entityType p => exact ⟨h.1, etype_wf h.2⟩
  | entityAssociation p =>
    obtain ⟨h1, h2, h3, h4, h5⟩ := h
    exact ⟨h1, h2, p.association_type.toNat_lt, eid_wf _, h3, h4, h5, p.group_number.toNat_lt⟩
  | unspecified a b => exact h.elim

theorem nz_all {n m : Nat} (h : n < m) : Cdis.OptAll (· < m) (nz n) := by
  unfold nz
  split
  · trivial
  · exact h
theorem nz_min_all {n : Nat} : Cdis.OptAll (· < 2 ^ 8) ((nz n).map (min · 255)) := by
  unfold nz
  split
  · trivial
  · show min n 255 < 256
    omega
theorem nz_isSome (n : Nat) : (nz n).isSome = decide (n ≠ 0) := by
  unfold nz
  split <;> simp_all

/-- The parts of a descriptor that Fire and Detonation share fit. -/
theorem desc_wf {d : Dis.DescriptorRecord} (h : DescFits d) :
    (descriptorEnc d).1.Wf ∧ Cdis.OptAll (· < 2 ^ 16) (descriptorEnc d).2.1 ∧ Cdis.OptAll (· < 2 ^ 16) (descriptorEnc d).2.2.1 ∧
    Cdis.OptAll (· < 2 ^ 8) (descriptorEnc d).2.2.2.1 ∧ Cdis.OptAll (· < 2 ^ 8) (descriptorEnc d).2.2.2.2 ∧
    (descriptorEnc d).2.1.isSome = (descriptorEnc d).2.2.1.isSome ∧
    (descriptorEnc d).2.2.2.1.isSome = (descriptorEnc d).2.2.2.2.isSome := by
  cases d with
  | munition t m =>
    obtain ⟨h1, h2⟩ := h
    refine ⟨etype_wf h1, m.warhead.toNat_lt, m.fuse.toNat_lt, nz_min_all, nz_min_all, rfl, ?_⟩
    simp only [descriptorEnc, Option.isSome_map, nz_isSome]
    have e (n : UInt16) : (n.toNat ≠ 0) ↔ n ≠ 0 := by
      rw [← UInt16.toNat_inj.ne]
      rfl
    rw [decide_eq_decide, e, e, ne_eq, ne_eq, h2]
  | expendable t => exact ⟨etype_wf h, trivial, trivial, trivial, trivial, rfl, rfl⟩
  | explosion t m f => exact ⟨etype_wf h.1, trivial, trivial, trivial, trivial, rfl, rfl⟩

section
variable {env : Env} {o : Options} {h : Dis.PduHeader} (hst : (h.pdu_status.getD {}).Wf h.pdu_type)
include hst

theorem arrives_fire (x : Dis.Fire) (ht : h.pdu_type = 2) (hd : DescFits x.descriptor) (hw : WorldFits env x.location_in_world) :
    Arrives env o ⟨h, .fire x⟩ (received h (.fire { x with
      location_in_world := worldWireQ env x.location_in_world, descriptor := fireDescQ x.descriptor,
      velocity := linQ x.velocity, range := rangeQ x.range })) := by
  have dw := desc_wf hd
  refine arrives_fit (o1 := { o with update_mode := .full }) (.fire (fireEnc env x)) _ (fun _ _ => rfl) hst rfl ⟨by rw [ht]; rfl, world_units _ _, eid_wf _, eid_wf _, eid_wf _,
    evid_wf _, nz_all x.fire_mission_index.toNat_lt, world_fits hw, dw.1, dw.2.1, dw.2.2.1, dw.2.2.2.1, dw.2.2.2.2.1, lin_in _, ?_,
    dw.2.2.2.2.2.1, dw.2.2.2.2.2.2⟩ trivial ?_ ht.symm
  · show Cdis.OptAll _ (if isNormal (v32 x.range) then u32FromF32 (v32 x.range) else none)
    split
    · cases hr : u32FromF32 (v32 x.range) with
      | none => trivial
      | some n => exact u32_lt hr
    · trivial
  · have h52 := C52_fire env o x
    simp only [oneShot, bodyEnc, bodyDec, Option.map_some, Option.some.injEq, Dis.Body.fire.injEq] at h52
    have e : fireDec env (fireEnc env x).wire = { fireDec env (fireEnc env x) with
      location_in_world := worldWireQ env x.location_in_world } := rfl
    simp only [bodyDec, Cdis.CdisBody.wire, e, h52]

theorem arrives_detonation (x : Dis.Detonation) (ht : h.pdu_type = 3) (hd : DescFits x.descriptor)
    (hw : WorldFits env x.location_in_world_coordinates) (hl : x.variable_parameters.length ≤ 255)
    (hp : ∀ p ∈ x.variable_parameters, ParameterFits p) :
    Arrives env o ⟨h, .detonation x⟩ (received h (.detonation { x with
      velocity := linQ x.velocity, location_in_world_coordinates := worldWireQ env x.location_in_world_coordinates,
      descriptor := detonationDescQ x.descriptor, location_in_entity_coordinates := coordQ x.location_in_entity_coordinates,
      variable_parameters := x.variable_parameters.map vpQ })) := by
  have dw := desc_wf hd
  refine arrives_fit (o1 := { o with update_mode := .full }) (.detonation (detonationEnc env x)) _ (fun _ _ => rfl) hst rfl ⟨by rw [ht]; rfl, world_units _ _,
    (coord_in _).2, eid_wf _, eid_wf _, eid_wf _, evid_wf _, lin_in _, world_fits hw, dw.1, dw.2.1, dw.2.2.1, dw.2.2.2.1,
    dw.2.2.2.2.1, ?_, ?_, (coord_in _).1, x.detonation_result.toNat_lt, ?_, ?_, dw.2.2.2.2.2.1, dw.2.2.2.2.2.2, ?_⟩ trivial ?_ ht.symm
  · show Cdis.OptAll _ (match x.descriptor with | .explosion _ m _ => some m.toNat | _ => none)
    cases x.descriptor with
    | explosion t m f => exact m.toNat_lt
    | _ => trivial
  · show Cdis.OptAll _ (match x.descriptor with | .explosion _ _ f => some (forceEnc f) | _ => none)
    cases hx : x.descriptor with
    | explosion t m f =>
      rw [hx] at hd
      obtain ⟨-, q, hq, h0, h1⟩ := hd
      exact (C41_explosive_force hq h0 h1).1
    | _ => trivial
  · show (List.map _ _).length < 256
    rw [List.length_map]; omega
  · intro p hpp
    obtain ⟨a, ha, rfl⟩ := List.mem_map.1 hpp
    exact vp_wf (hp a ha)
  · show Option.isSome (match x.descriptor with | .explosion _ m _ => some m.toNat | _ => none) =
      Option.isSome (match x.descriptor with | .explosion _ _ f => some (forceEnc f) | _ => none)
    cases x.descriptor <;> rfl
  · have h52 := C52_detonation env o x
    simp only [oneShot, bodyEnc, bodyDec, Option.map_some, Option.some.injEq, Dis.Body.detonation.injEq] at h52
    have e : detonationDec env (detonationEnc env x).wire = { detonationDec env (detonationEnc env x) with
      location_in_world_coordinates := worldWireQ env x.location_in_world_coordinates } := rfl
    simp only [bodyDec, Cdis.CdisBody.wire, e, h52]

end
end Verif.Props

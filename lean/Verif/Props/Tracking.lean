import Verif.Props.Restart
import Verif.Props.CodecPipeline
import Verif.Props.Position

/-! # C71: how old and how far off the position of an entity is

Encoder and decoder in partial-update mode, no wire in between (what the wire does to positions is C41): the position that is handed over for an entity
is one that it had at most a heartbeat window ago, and does not move in between. -/

namespace Verif.Props
open Verif.Codec

/-! ## Specification -/

/-- The location is `(x, y, z)`, in metres. -/
def LocatedAt (l : Dis.Location) (x y z : Rat) : Prop :=
  v64 l.x_coordinate = .num x ∧ v64 l.y_coordinate = .num y ∧ v64 l.z_coordinate = .num z
/-- The entity `e` is near the surface of the Earth (6300 to 6430 km from its centre) whenever it is reported. -/
def NearSurface (hist : List (Nat × Dis.Pdu)) (e : Dis.EntityId) : Prop :=
  ∀ u ∈ hist, ∀ x, u.2.body = .entityState x → x.entity_id = e →
    ∃ a b c : Rat, LocatedAt x.entity_location a b c ∧ 6300000 ^ 2 ≤ a ^ 2 + b ^ 2 + c ^ 2 ∧ a ^ 2 + b ^ 2 + c ^ 2 ≤ 6430000 ^ 2
/-- Two positions of `e` reported `n` nanoseconds apart differ by at most `v` metres per second in every coordinate. -/
def Speed (hist : List (Nat × Dis.Pdu)) (e : Dis.EntityId) (v : Rat) : Prop :=
  ∀ (i j ti tj : Nat) (pi pj : Dis.Pdu) (xi xj : Dis.EntityState) (a b c a' b' c' : Rat), i ≤ j → hist[i]? = some (ti, pi) → hist[j]? = some (tj, pj) →
    pi.body = .entityState xi → pj.body = .entityState xj → xi.entity_id = e → xj.entity_id = e →
    LocatedAt xi.entity_location a b c → LocatedAt xj.entity_location a' b' c' →
    |a' - a| ≤ v * (((tj - ti : Nat) : Rat) / 10 ^ 9) ∧ |b' - b| ≤ v * (((tj - ti : Nat) : Rat) / 10 ^ 9) ∧ |c' - c| ≤ v * (((tj - ti : Nat) : Rat) / 10 ^ 9)

/-! ## Lemmas -/

theorem oneShot_es {env : Env} {o : Options} {x y : Dis.EntityState} (h : oneShot env o (.entityState x) = some (.entityState y)) :
    y.entity_location = worldDec env (worldEnc env x.entity_location).1 (worldEnc env x.entity_location).2 ∧
    y.entity_orientation = orientDec (orientEnc x.entity_orientation) ∧ y.entity_id = x.entity_id := by
  unfold oneShot at h
  simp only [bodyEnc, esEncodeBody, esEnc, reduceCtorEq, false_and, if_false, Option.map_map] at h
  obtain ⟨m, a1, a2⟩ := Option.map_eq_some_iff.1 h
  simp only [Function.comp, bodyDec, esDecodeBody, Dis.Body.entityState.injEq] at a2
  subst a2
  exact ⟨rfl, rfl, eid_rt _⟩
theorem oneShot_kind {env : Env} {o : Options} {x : Dis.EntityState} {b : Dis.Body} (h : oneShot env o (.entityState x) = some b) :
    ∃ y, b = .entityState y := by
  unfold oneShot at h
  simp only [bodyEnc, esEncodeBody, esEnc, reduceCtorEq, false_and, if_false, Option.map_map] at h
  obtain ⟨m, a1, a2⟩ := Option.map_eq_some_iff.1 h
  exact ⟨_, a2.symm⟩

/-! ## Claims -/

/-- **C71.** Whatever was sent before: the entity state that is handed over has the location and the orientation (to the precision of C-DIS) that the
entity had at a report `j` at most a heartbeat window ago, at which a full update went out. -/
theorem C71_age {env : Env} {o : Options} (hm : o.update_mode = .partial) {hist : List (Nat × Dis.Pdu)} (hf : Forward hist)
    {out : List Cdis.CdisPdu} {s : EncState} {dec : List Dis.Pdu} {d : DecState} (h : encStream env o {} hist = some (out, s))
    (hd : decStream env o {} out = (dec, d)) {i t : Nat} {p : Dis.Pdu} {x : Dis.EntityState} (hi : hist[i]? = some (t, p)) (hx : p.body = .entityState x) {w : Rat}
    (hw : GoodFor o hist (.entityState x.entity_id) w) (hw0 : 0 ≤ w) :
    ∃ q y j tj pj xj, dec[i]? = some q ∧ q.body = .entityState y ∧ y.entity_id = x.entity_id ∧
      j ≤ i ∧ FullAt hist out (.entityState x.entity_id) j tj ∧ hist[j]? = some (tj, pj) ∧ pj.body = .entityState xj ∧ xj.entity_id = x.entity_id ∧
      ((t - tj : Nat) : Rat) / 10 ^ 9 * (1 - 1 / 2 ^ 22) ≤ w ∧ (∀ k tk, j < k → k ≤ i → ¬ FullAt hist out (.entityState x.entity_id) k tk) ∧
      y.entity_location = worldDec env (worldEnc env xj.entity_location).1 (worldEnc env xj.entity_location).2 ∧
      y.entity_orientation = orientDec (orientEnc xj.entity_orientation) := by
  have full : ∀ m tm, FullAt hist out (.entityState x.entity_id) m tm → EncAt (EsFullSent x.entity_id) hist out m := by
    rintro m tm ⟨⟨pm, h1, h2⟩, c, h3, h4⟩
    refine ⟨tm, pm, c, h1, h3, ?_⟩
    obtain ⟨t', p', e1, e2, -⟩ := subject_at h h3
    rw [h1] at e1; cases e1
    rw [h2] at e2
    cases hb : pm.body with
    | entityState xm =>
      rw [hb] at h2
      simp only [subjectOf, Option.some.injEq, Subject.entityState.injEq] at h2
      cases hc : c.body with
      | entityState ym => rw [hc] at h4; exact ⟨xm, ym, rfl, rfl, h2, h4⟩
      | _ => rw [hc] at e2; cases e2
    | _ => rw [hb] at h2; cases h2
  have full' : ∀ m tm pm, hist[m]? = some (tm, pm) → EncAt (EsFullSent x.entity_id) hist out m →
      FullAt hist out (.entityState x.entity_id) m tm := by
    rintro m tm pm hpm ⟨tm', pm', c, h1, h2, xm, ym, h3, h4, h5, h6⟩
    rw [hpm] at h1; cases h1
    exact ⟨⟨pm, hpm, by rw [h3]; simp [subjectOf, h5]⟩, c, h2, by rw [h4]; exact h6⟩
  obtain ⟨q, hq, hcase⟩ := C38_end_to_end_entity_state hm h hd hi hx
  by_cases hfi : EncAt (EsFullSent x.entity_id) hist out i
  · have h2 : oneShot env o p.body = some q.body := by
      obtain ⟨t', p', c, a1, a2, x', y', a3, a4, a5, a6⟩ := hfi
      obtain ⟨t'', p'', q', b1, b2, b3⟩ := C38_self_contained h hd a2 (by rw [a4]; exact a6)
      rw [hi] at b1; cases b1
      rw [hq] at b2; cases b2
      exact b3
    rw [hx] at h2
    obtain ⟨y, hy⟩ := oneShot_kind h2
    rw [hy] at h2
    obtain ⟨l1, l2, l3⟩ := oneShot_es h2
    exact ⟨q, y, i, t, p, x, hq, hy, l3, Nat.le_refl _, full' i t p hi hfi, hi, hx, rfl, by simpa using hw0,
      fun k tk a b => absurd a (by omega), l1, l2⟩
  rcases hcase with ⟨h1, -⟩ | ⟨j, tj, pj, xj, k, tk, pk, xk, h1, h2, h3, -, h4, h5, h6, h7⟩
  · exact absurd h1 hfi
  · obtain ⟨y, hy⟩ := oneShot_kind h7
    rw [hy] at h7
    obtain ⟨l1, l2, l3⟩ := oneShot_es h7
    obtain ⟨j', tj', g1, g2, g3⟩ := C68_fresh hm hf h hw hw0 ⟨p, hi, by rw [hx]; rfl⟩
    have hj' : j' ≤ j := by
      by_contra hlt
      rcases Nat.lt_or_ge j' i with a | a
      · exact h1.2.2 j' (by omega) a (full _ _ g2)
      · obtain rfl : j' = i := by omega
        exact hfi (full _ _ g2)
    obtain ⟨⟨pj', f1, -⟩, -⟩ := g2
    have htj := hf.1 j' j tj' tj pj' pj hj' f1 h2
    have hxj : xj.entity_id = x.entity_id := by
      obtain ⟨t', p', c', a1, -, x', y', a2, -, a3, -⟩ := h1.2.1
      rw [h2] at a1; cases a1
      rw [h3] at a2; cases a2
      exact a3
    refine ⟨q, y, j, tj, pj, xj, hq, hy, l3, Nat.le_of_lt h1.1, full' j tj pj h2 h1.2.1, h2, h3, hxj, ?_, ?_, l1, l2⟩
    · refine le_trans ?_ g3
      have : ((t - tj : Nat) : Rat) ≤ ((t - tj' : Nat) : Rat) := by exact_mod_cast (by omega : t - tj ≤ t - tj')
      have e : (0 : Rat) ≤ 1 / 10 ^ 9 * (1 - 1 / 2 ^ 22) := by norm_num
      have h8 := mul_le_mul_of_nonneg_right this e
      calc _ = ((t - tj : Nat) : Rat) * (1 / 10 ^ 9 * (1 - 1 / 2 ^ 22)) := by ring
        _ ≤ _ := h8
        _ = _ := by ring
    · intro k tk a b hk
      rcases Nat.lt_or_ge k i with c | c
      · exact h1.2.2 k a c (full _ _ hk)
      · obtain rfl : k = i := by omega
        exact hfi (full _ _ hk)

/-- **C71.** An entity near the surface of the Earth that moves at most `v` metres per second along every axis: the position that is handed over is off
by at most 14 m plus what the entity covers in a heartbeat window, along every axis, at every report of every history. -/
theorem C71_distance {env : Env} (hE : Computes env) {o : Options} (hm : o.update_mode = .partial) {hist : List (Nat × Dis.Pdu)} (hf : Forward hist)
    {out : List Cdis.CdisPdu} {s : EncState} {dec : List Dis.Pdu} {d : DecState} (h : encStream env o {} hist = some (out, s))
    (hd : decStream env o {} out = (dec, d)) {i t : Nat} {p : Dis.Pdu} {x : Dis.EntityState} (hi : hist[i]? = some (t, p)) (hx : p.body = .entityState x) {w v : Rat}
    (hw : GoodFor o hist (.entityState x.entity_id) w) (hw0 : 0 ≤ w) (hn : NearSurface hist x.entity_id) (hv : Speed hist x.entity_id v) (hv0 : 0 ≤ v)
    {a b c : Rat} (hl : LocatedAt x.entity_location a b c) :
    ∃ q y, ∃ a' b' c' : Rat, dec[i]? = some q ∧ q.body = .entityState y ∧ LocatedAt y.entity_location a' b' c' ∧
      |a' - a| ≤ 14 + v * (w / (1 - 1 / 2 ^ 22)) ∧ |b' - b| ≤ 14 + v * (w / (1 - 1 / 2 ^ 22)) ∧ |c' - c| ≤ 14 + v * (w / (1 - 1 / 2 ^ 22)) := by
  obtain ⟨q, y, j, tj, pj, xj, h1, h2, -, h3, -, h4, h5, h6, h7, -, h8, -⟩ := C71_age hm hf h hd hi hx hw hw0
  obtain ⟨aj, bj, cj, g0, g1, g2⟩ := hn (tj, pj) (List.mem_iff_getElem?.2 ⟨j, h4⟩) xj h5 h6
  obtain ⟨a', b', c', e1, e2, e3, e4, e5, e6⟩ := C41_position hE g0.1 g0.2.1 g0.2.2 g1 g2
  rw [← h8] at e1 e2 e3
  obtain ⟨s1, s2, s3⟩ := hv j i tj t pj p xj x aj bj cj a b c h3 h4 hi h5 hx h6 rfl g0 hl
  have hτ : ((t - tj : Nat) : Rat) / 10 ^ 9 ≤ w / (1 - 1 / 2 ^ 22) := (le_div_iff₀ (by norm_num)).2 h7
  have hs := mul_le_mul_of_nonneg_left hτ hv0
  have fin : ∀ {u u' uj : Rat}, |u' - uj| ≤ 14 → |u - uj| ≤ v * (((t - tj : Nat) : Rat) / 10 ^ 9) → |u' - u| ≤ 14 + v * (w / (1 - 1 / 2 ^ 22)) := by
    intro u u' uj k1 k2
    have := abs_sub_le u' uj u
    rw [abs_sub_comm uj u] at this
    linarith
  exact ⟨q, y, a', b', c', h1, h2, ⟨e1, e2, e3⟩, fin e4 s1, fin e5 s2, fin e6 s3⟩

/-- **C71**, in full-update mode: the position that is handed over is off by at most 14 m along every axis, whatever was sent before and whenever. -/
theorem C71_full_mode {env : Env} (hE : Computes env) {o : Options} (hm : o.update_mode = .full) {hist : List (Nat × Dis.Pdu)}
    {out : List Cdis.CdisPdu} {s : EncState} {dec : List Dis.Pdu} {d : DecState} (h : encStream env o {} hist = some (out, s))
    (hd : decStream env o {} out = (dec, d)) {i t : Nat} {p : Dis.Pdu} {x : Dis.EntityState} (hi : hist[i]? = some (t, p)) (hx : p.body = .entityState x) {a b c : Rat}
    (hl : LocatedAt x.entity_location a b c) (h0 : 6300000 ^ 2 ≤ a ^ 2 + b ^ 2 + c ^ 2) (h1 : a ^ 2 + b ^ 2 + c ^ 2 ≤ 6430000 ^ 2) :
    ∃ q y, ∃ a' b' c' : Rat, dec[i]? = some q ∧ q.body = .entityState y ∧ LocatedAt y.entity_location a' b' c' ∧
      |a' - a| ≤ 14 ∧ |b' - b| ≤ 14 ∧ |c' - c| ≤ 14 := by
  obtain ⟨si, cc, r, s1, -, h2, h3⟩ := encStream_at h hi
  obtain ⟨hb, -⟩ := pduEnc_some h2
  have hs : SelfContained cc.body := by
    rw [hx] at hb
    simp only [bodyEnc, esEncodeBody, Option.map_eq_some_iff] at hb
    obtain ⟨q, hq, hb⟩ := hb
    simp only [Prod.mk.injEq] at hb
    rw [← hb.1]
    unfold esEnc at hq
    simp only [hm, reduceCtorEq, false_and, if_false] at hq
    obtain ⟨m, -, rfl⟩ := Option.map_eq_some_iff.1 hq
    rfl
  obtain ⟨t', p', q, b1, b2, b3⟩ := C38_self_contained h hd h3 hs
  rw [hi] at b1; cases b1
  rw [hx] at b3
  obtain ⟨y, hy⟩ := oneShot_kind b3
  rw [hy] at b3
  obtain ⟨l1, -, -⟩ := oneShot_es b3
  obtain ⟨a', b', c', e1, e2, e3, e4, e5, e6⟩ := C41_position hE hl.1 hl.2.1 hl.2.2 h0 h1
  rw [← l1] at e1 e2 e3
  exact ⟨q, y, a', b', c', b2, hy, ⟨e1, e2, e3⟩, e4, e5, e6⟩

/-- **C71**: and it does lag behind.  In partial-update mode, what an entity has moved since the last full update is missing altogether, up to 14 m: between
two full updates the position that is handed over stands still, whatever the velocity. -/
theorem C71_lag {env : Env} (hE : Computes env) {o : Options} (hm : o.update_mode = .partial) {hist : List (Nat × Dis.Pdu)} (hf : Forward hist)
    {out : List Cdis.CdisPdu} {s : EncState} {dec : List Dis.Pdu} {d : DecState} (h : encStream env o {} hist = some (out, s))
    (hd : decStream env o {} out = (dec, d)) {i t : Nat} {p : Dis.Pdu} {x : Dis.EntityState} (hi : hist[i]? = some (t, p)) (hx : p.body = .entityState x) {w : Rat}
    (hw : GoodFor o hist (.entityState x.entity_id) w) (hw0 : 0 ≤ w) (hn : NearSurface hist x.entity_id)
    {a b c : Rat} (_hl : LocatedAt x.entity_location a b c) {j tj : Nat} {pj : Dis.Pdu} {xj : Dis.EntityState} (hj : hist[j]? = some (tj, pj)) (hxj : pj.body = .entityState xj)
    (hfull : FullAt hist out (.entityState x.entity_id) j tj) (hji : j ≤ i)
    (hlast : ∀ k tk, j < k → k ≤ i → ¬ FullAt hist out (.entityState x.entity_id) k tk) {aj bj cj : Rat} (hlj : LocatedAt xj.entity_location aj bj cj) :
    ∃ q y, ∃ a' b' c' : Rat, dec[i]? = some q ∧ q.body = .entityState y ∧ LocatedAt y.entity_location a' b' c' ∧
      |a - aj| - 14 ≤ |a' - a| ∧ |b - bj| - 14 ≤ |b' - b| ∧ |c - cj| - 14 ≤ |c' - c| ∧
      (∀ qj yj, dec[j]? = some qj → qj.body = .entityState yj → y.entity_location = yj.entity_location) := by
  have hid : xj.entity_id = x.entity_id := by
    obtain ⟨⟨p', a1, a2⟩, -⟩ := hfull
    rw [hj] at a1; cases a1
    rw [hxj] at a2
    simpa [subjectOf] using a2
  obtain ⟨q, y, j', tj', pj', xj', h1, h2, -, h3, h3', h4, h5, h6, -, h7, h8, -⟩ := C71_age hm hf h hd hi hx hw hw0
  have hjj : j' = j := by
    rcases Nat.lt_trichotomy j' j with u | u | u
    · exact absurd hfull (h7 j tj u hji)
    · exact u
    · exact absurd h3' (hlast j' tj' u h3)
  subst hjj
  rw [hj] at h4; cases h4
  rw [hxj] at h5; cases h5
  obtain ⟨u, v, z, g0, g1, g2⟩ := hn (tj, pj) (List.mem_iff_getElem?.2 ⟨j', hj⟩) xj hxj hid
  have hu : u = aj ∧ v = bj ∧ z = cj := by
    have k1 := g0.1.symm.trans hlj.1
    have k2 := g0.2.1.symm.trans hlj.2.1
    have k3 := g0.2.2.symm.trans hlj.2.2
    exact ⟨by injection k1, by injection k2, by injection k3⟩
  obtain ⟨rfl, rfl, rfl⟩ := hu
  obtain ⟨a', b', c', e1, e2, e3, e4, e5, e6⟩ := C41_position hE g0.1 g0.2.1 g0.2.2 g1 g2
  rw [← h8] at e1 e2 e3
  have fin : ∀ {r r' rj : Rat}, |r' - rj| ≤ 14 → |r - rj| - 14 ≤ |r' - r| := by
    intro r r' rj k1
    have := abs_sub_le r r' rj
    rw [abs_sub_comm r r'] at this
    linarith
  refine ⟨q, y, a', b', c', h1, h2, ⟨e1, e2, e3⟩, fin e4, fin e5, fin e6, ?_⟩
  intro qj yj k1 k2
  have hwj : GoodFor o hist (.entityState xj.entity_id) w := by rw [hid]; exact hw
  obtain ⟨q2, y2, m, tm, pm, xm, n1, n2, -, n3, n3', n4, n5, n6, -, n7, n8, -⟩ := C71_age hm hf h hd hj hxj hwj hw0
  rw [hid] at n3' n7
  have : m = j' := by
    rcases Nat.lt_or_ge m j' with u | u
    · exact absurd hfull (n7 j' tj u (Nat.le_refl _))
    · omega
  subst this
  rw [hj] at n4; cases n4
  rw [hxj] at n5; cases n5
  rw [k1] at n1; cases n1
  rw [k2] at n2; cases n2
  rw [h8, n8]

/-! ## Example -/

/-- An entity on the equator, `y` metres (as a 64-bit float) east of the Greenwich meridian. -/
def eastward (y : UInt64) : Dis.Pdu :=
  ⟨sampleFor 1, .entityState { sample_entityState with entity_location := ⟨0x415854A640000000, y, 0⟩ }⟩
/-- It flies east at 300 m/s and is reported after 0, 1 and 10 seconds. -/
def flight : List (Nat × Dis.Pdu) :=
  [(0, eastward 0), (1000000000, eastward 0x4072C00000000000), (10000000000, eastward 0x40A7700000000000)]

theorem marked_encodes {env : Env} {o : Options} : ∀ (hist : List (Nat × Dis.Pdu)) (s : EncState),
    (∀ u ∈ hist, ∃ x, u.2.body = .entityState x ∧ (Cdis.Marking.new (markingChars x.entity_marking.marking_string)).isSome) →
    ∃ out s', encStream env o s hist = some (out, s') := by
  intro hist
  induction hist with
  | nil => exact fun s _ => ⟨[], s, rfl⟩
  | cons u l ih =>
    intro s hu
    obtain ⟨t, p⟩ := u
    obtain ⟨x, hx, hmk⟩ := hu (t, p) (by simp)
    obtain ⟨m, hmk⟩ := Option.isSome_iff_exists.1 hmk
    have : ∃ r, pduEnc env o t s p = some r := by
      have : ∃ r, bodyEnc env o t s p.body = some r := by
        have hx : p.body = .entityState x := hx
        rw [hx]
        simp only [bodyEnc, esEncodeBody, esEnc, hmk, Option.map_some]
        split <;> exact ⟨_, rfl⟩
      obtain ⟨r, hr⟩ := this
      exact ⟨_, by simp only [pduEnc, hr, Option.map_some]; rfl⟩
    obtain ⟨r, hr⟩ := this
    obtain ⟨out, s', h'⟩ := ih r.2.2 (fun u h => hu u (by simp [h]))
    exact ⟨r.1 :: out, s', by simp only [encStream, hr, Option.bind_some, h', Option.map_some]⟩

theorem flight_each {u : Nat × Dis.Pdu} {x : Dis.EntityState} (hu : u ∈ flight) (hx : u.2.body = .entityState x) :
    LocatedAt x.entity_location 6378137 (300 * ((u.1 : Rat) / 10 ^ 9)) 0 ∧ u.1 ≤ 10000000000 ∧ x.entity_id = sample_entityState.entity_id := by
  simp only [flight, List.mem_cons, List.not_mem_nil, or_false] at hu
  have e1 : v64 0x415854A640000000 = .num 6378137 := by decide +kernel
  have e2 : v64 0 = .num 0 := by decide +kernel
  have e3 : v64 0x4072C00000000000 = .num 300 := by decide +kernel
  have e4 : v64 0x40A7700000000000 = .num 3000 := by decide +kernel
  rcases hu with rfl | rfl | rfl <;> cases hx <;> refine ⟨⟨e1, ?_, e2⟩, by norm_num, rfl⟩
  · refine e2.trans ?_; norm_num
  · refine e3.trans ?_; norm_num
  · refine e4.trans ?_; norm_num

/-- The hypotheses of `C71_distance` and `C71_lag` are met by the flight: ten seconds into it, the entity is handed over between 2986 and 3615 metres from where
it is, that is, where it was when the flight began. -/
theorem C71_witness : ∃ env, Computes env ∧ Forward flight ∧ GoodFor { update_mode := .partial } flight (.entityState sample_entityState.entity_id) 12 ∧
    NearSurface flight sample_entityState.entity_id ∧ Speed flight sample_entityState.entity_id 300 ∧
    ∃ out s, encStream env { update_mode := .partial } {} flight = some (out, s) ∧ ∃ q y, ∃ a b c : Rat,
      (decStream env { update_mode := .partial } {} out).1[2]? = some q ∧ q.body = .entityState y ∧ LocatedAt y.entity_location a b c ∧
      2986 ≤ |b - 3000| ∧ |b - 3000| ≤ 3615 := by
  obtain ⟨env, hE⟩ := computes_exists
  have hF : Forward flight := by
    refine ⟨?_, by decide⟩
    intro i j ti tj pi pj hij h1 h2
    rcases i with _ | _ | _ | i <;> rcases j with _ | _ | _ | j <;> simp [flight] at h1 h2 <;> omega
  have hG : GoodFor { update_mode := .partial } flight (.entityState sample_entityState.entity_id) 12 := by
    intro u hu ha
    have : ∃ x, u.2.body = .entityState x := by
      simp only [flight, List.mem_cons, List.not_mem_nil, or_false] at hu
      rcases hu with rfl | rfl | rfl <;> exact ⟨_, rfl⟩
    obtain ⟨x, hx⟩ := this
    rw [hx]
    exact (C37_window_defaults { update_mode := .partial } rfl rfl x.entity_type).1
  have hN : NearSurface flight sample_entityState.entity_id := by
    intro u hu x hx _
    obtain ⟨h1, h2, -⟩ := flight_each hu hx
    have h0 : (0 : Rat) ≤ (u.1 : Rat) := Nat.cast_nonneg _
    have h3 : (u.1 : Rat) ≤ 10000000000 := by exact_mod_cast h2
    refine ⟨_, _, _, h1, ?_, ?_⟩ <;> nlinarith
  have hS : Speed flight sample_entityState.entity_id 300 := by
    intro i j ti tj pi pj xi xj a b c a' b' c' hij h1 h2 h3 h4 _ _ h5 h6
    have m1 : (ti, pi) ∈ flight := List.mem_iff_getElem?.2 ⟨i, h1⟩
    have m2 : (tj, pj) ∈ flight := List.mem_iff_getElem?.2 ⟨j, h2⟩
    have hle := hF.1 i j ti tj pi pj hij h1 h2
    obtain ⟨⟨p1, p2, p3⟩, -⟩ := flight_each m1 h3
    obtain ⟨⟨r1, r2, r3⟩, -⟩ := flight_each m2 h4
    have num : ∀ {f : Fl} {u v : Rat}, f = .num u → f = .num v → u = v := by
      intro f u v k1 k2
      rw [k1] at k2
      injection k2
    rw [← num p1 h5.1, ← num p2 h5.2.1, ← num p3 h5.2.2, ← num r1 h6.1, ← num r2 h6.2.1, ← num r3 h6.2.2]
    have hc : (((tj - ti : Nat)) : Rat) = (tj : Rat) - ti := by rw [Nat.cast_sub hle]
    have hle' : (ti : Rat) ≤ tj := by exact_mod_cast hle
    rw [hc]
    dsimp only
    refine ⟨?_, ?_, ?_⟩
    · rw [sub_self, abs_zero]
      have : (0 : Rat) ≤ ((tj : Rat) - ti) / 10 ^ 9 := div_nonneg (by linarith) (by norm_num)
      linarith
    · have e : (300 : Rat) * ((tj : Rat) / 10 ^ 9) - 300 * ((ti : Rat) / 10 ^ 9) = 300 * (((tj : Rat) - ti) / 10 ^ 9) := by ring
      rw [e, abs_of_nonneg]
      have : (0 : Rat) ≤ ((tj : Rat) - ti) / 10 ^ 9 := div_nonneg (by linarith) (by norm_num)
      linarith
    · rw [sub_self, abs_zero]
      have : (0 : Rat) ≤ ((tj : Rat) - ti) / 10 ^ 9 := div_nonneg (by linarith) (by norm_num)
      linarith
  obtain ⟨out, s, h⟩ := marked_encodes (env := env) (o := { update_mode := .«partial» }) flight {} (by
    intro u hu
    simp only [flight, List.mem_cons, List.not_mem_nil, or_false] at hu
    rcases hu with rfl | rfl | rfl <;> exact ⟨_, rfl, by decide +kernel⟩)
  have hl2 : LocatedAt (⟨0x415854A640000000, 0x40A7700000000000, 0⟩ : Dis.Location) 6378137 3000 0 := by
    unfold LocatedAt
    decide +kernel
  have hl0 : LocatedAt (⟨0x415854A640000000, 0, 0⟩ : Dis.Location) 6378137 0 0 := by
    unfold LocatedAt
    decide +kernel
  have hfull0 : FullAt flight out (.entityState sample_entityState.entity_id) 0 0 := by
    obtain ⟨j, tj, g1, g2, -⟩ := C68_fresh (i := 0) (t := 0) rfl hF h hG (by norm_num) ⟨_, rfl, rfl⟩
    obtain rfl : j = 0 := by omega
    obtain ⟨⟨p', a1, -⟩, -⟩ := id g2
    cases a1
    exact g2
  have hlast : ∀ k tk, 0 < k → k ≤ 2 → ¬ FullAt flight out (.entityState sample_entityState.entity_id) k tk := by
    intro k tk k0 k2 hk
    have := C68_apart rfl hF h hG k0 hfull0 hk
    obtain ⟨⟨p', a1, -⟩, -⟩ := hk
    have : tk ≤ 10000000000 := by
      rcases k with _ | _ | _ | k <;> simp [flight] at a1 <;> omega
    have : ((tk - 0 : Nat) : Rat) ≤ 10000000000 := by exact_mod_cast (by omega : tk - 0 ≤ 10000000000)
    linarith
  refine ⟨env, hE, hF, hG, hN, hS, out, s, h, ?_⟩
  obtain ⟨q, y, a, b, c, h1, h2, h3, -, h4, -⟩ := C71_lag hE (o := { update_mode := .«partial» }) rfl hF h rfl (i := 2) (t := 10000000000) rfl rfl hG
    (by norm_num) hN hl2 (j := 0) (tj := 0) rfl rfl hfull0 (by decide) hlast hl0
  obtain ⟨q', y', a', b', c', g1, g2, g3, -, g4, -⟩ := C71_distance hE (o := { update_mode := .«partial» }) rfl hF h rfl (i := 2) (t := 10000000000) rfl rfl hG
    (by norm_num) hN hS (by norm_num) hl2
  rw [h1] at g1; cases g1
  rw [h2] at g2; cases g2
  have eb : b' = b := by
    have := g3.2.1.symm.trans h3.2.1
    injection this
  subst eb
  refine ⟨q, y, a, b', c, h1, h2, h3, ?_, le_trans g4 (by norm_num)⟩
  refine le_trans ?_ h4
  norm_num

end Verif.Props

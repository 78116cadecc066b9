import Verif.Props.CodecIsolation
import Verif.Codec.Window
import Mathlib.Tactic.Positivity
import Mathlib.Tactic.Linarith
import Mathlib.Tactic.NormNum

/-! # C68: how often full updates are sent -/

namespace Verif.Props
open Verif.Codec

/-! ## Specification -/

/-- The heartbeat period that is configured for a PDU. -/
def heartbeatOf (o : Options) : Dis.Body → Fl
  | .entityState x => esHeartbeat o x.entity_type
  | .electromagneticEmission _ => o.heartbeats.ee
  | .designator _ => o.heartbeats.designator
  | .transmitter _ => o.heartbeats.transmitter
  | .iff _ => o.heartbeats.iff
  | _ => .num 0

/-- A C-DIS PDU is a full update: its full-update flag is set or, as that of IFF PDUs never is, the system id is there. -/
def isFull : Cdis.CdisBody → Bool
  | .entityState y => y.full_update_flag
  | .electromagneticEmission y => y.full_update_flag
  | .designator y => y.full_update_flag
  | .transmitter y => y.full_update_flag
  | .iff y => y.system_id.isSome
  | _ => false

/-- The PDU put in at position `m` and at time `t` is about `a`. -/
def AboutAt (hist : List (Nat × Dis.Pdu)) (a : Subject) (m t : Nat) : Prop :=
  ∃ p, hist[m]? = some (t, p) ∧ subjectOf p.body = some a
/-- The PDU put in at position `m` and at time `t` is about `a`, and a full update came out. -/
def FullAt (hist : List (Nat × Dis.Pdu)) (out : List Cdis.CdisPdu) (a : Subject) (m t : Nat) : Prop :=
  AboutAt hist a m t ∧ ∃ c, out[m]? = some c ∧ isFull c.body = true
/-- Time does not run backwards (`std::time::Instant`), and the run lasts no more than 2^64 seconds; times in nanoseconds. -/
def Forward (hist : List (Nat × Dis.Pdu)) : Prop :=
  (∀ (i j ti tj : Nat) (pi pj : Dis.Pdu), i ≤ j → hist[i]? = some (ti, pi) → hist[j]? = some (tj, pj) → ti ≤ tj) ∧ ∀ e ∈ hist, e.1 < 2 ^ 64 * 10 ^ 9
/-- With these options the full updates of `a` are good for `w` seconds. -/
def GoodFor (o : Options) (hist : List (Nat × Dis.Pdu)) (a : Subject) (w : Rat) : Prop :=
  ∀ e ∈ hist, subjectOf e.2.body = some a → mul32 (heartbeatOf o e.2.body) o.mplier = .num w

/-! ## Lemmas -/

theorem full_iff_of {hist : List (Nat × Dis.Pdu)} {out : List Cdis.CdisPdu} {a : Subject} {P : Dis.Body → Cdis.CdisBody → Prop}
    (h : ∀ (m t : Nat) (p : Dis.Pdu), hist[m]? = some (t, p) → ∀ c, out[m]? = some c →
      (P p.body c.body ↔ subjectOf p.body = some a ∧ isFull c.body = true)) (m : Nat) :
    EncAt P hist out m ↔ ∃ t, FullAt hist out a m t := by
  constructor
  · rintro ⟨t, p, c, h1, h2, h3⟩
    have := (h m t p h1 c h2).1 h3
    exact ⟨t, ⟨p, h1, this.1⟩, c, h2, this.2⟩
  · rintro ⟨t, ⟨p, h1, h3⟩, c, h2, h4⟩
    exact ⟨t, p, c, h1, h2, (h m t p h1 c h2).2 ⟨h3, h4⟩⟩

/-- The decision, for all kinds at once. -/
theorem full_decision {env : Env} {o : Options} (hm : o.update_mode = .partial) {hist : List (Nat × Dis.Pdu)}
    {out : List Cdis.CdisPdu} {s : EncState} (h : encStream env o {} hist = some (out, s)) {i t p a}
    (hi : hist[i]? = some (t, p)) (ha : subjectOf p.body = some a) :
    ∃ c, out[i]? = some c ∧ (isFull c.body = false ↔ ∃ j tj, LastBefore (fun m => ∃ t, FullAt hist out a m t) i j ∧
      FullAt hist out a j tj ∧ timedOut (heartbeatOf o p.body) o.mplier t tj = false) := by
  have key : ∀ (P : Dis.Body → Cdis.CdisBody → Prop) (hb : Fl) (c : Cdis.CdisPdu), out[i]? = some c →
      (∀ (m t : Nat) (p : Dis.Pdu), hist[m]? = some (t, p) → ∀ c, out[m]? = some c →
        (P p.body c.body ↔ subjectOf p.body = some a ∧ isFull c.body = true)) →
      (isFull c.body = false ↔ ∃ j tj pj, LastBefore (EncAt P hist out) i j ∧
        hist[j]? = some (tj, pj) ∧ timedOut hb o.mplier t tj = false) →
      ∃ c, out[i]? = some c ∧ (isFull c.body = false ↔ ∃ j tj, LastBefore (fun m => ∃ t, FullAt hist out a m t) i j ∧
        FullAt hist out a j tj ∧ timedOut hb o.mplier t tj = false) := by
    intro P hb c hc hP hf
    refine ⟨c, hc, hf.trans ?_⟩
    have e : EncAt P hist out = fun m => ∃ t, FullAt hist out a m t := funext fun m => propext (full_iff_of hP m)
    rw [e]
    constructor
    · rintro ⟨j, tj, pj, h1, h2, h3⟩
      obtain ⟨t', ⟨p', h4, h5⟩, h6⟩ := h1.2.1
      rw [h2] at h4
      cases h4
      exact ⟨j, tj, h1, ⟨⟨pj, h2, h5⟩, h6⟩, h3⟩
    · rintro ⟨j, tj, h1, ⟨⟨pj, h2, h5⟩, h6⟩, h3⟩
      exact ⟨j, tj, pj, h1, h2, h3⟩
  cases hb : p.body with
  | entityState x =>
    obtain ⟨c, y, h1, h2, h3, -⟩ := C37_entity_state hm h hi hb
    rw [hb] at ha; cases ha
    refine key (EsFullSent x.entity_id) _ c h1 ?_ (by rw [h2]; exact h3)
    intro m t p hp c hc
    constructor
    · rintro ⟨x, y, e1, e2, e3, e4⟩
      rw [e1, e2, ← e3]; exact ⟨rfl, e4⟩
    · rintro ⟨e1, e2⟩
      cases hb' : p.body with
      | entityState x' =>
        obtain ⟨c', y', h1', h2', -⟩ := C37_entity_state hm h hp hb'
        rw [hc] at h1'; cases h1'
        rw [hb'] at e1
        rw [h2'] at e2 ⊢
        refine ⟨x', y', rfl, rfl, ?_, e2⟩
        simpa [subjectOf] using e1
      | _ => rw [hb'] at e1; cases e1
  | electromagneticEmission x =>
    obtain ⟨c, y, h1, h2, h3⟩ := C37_emission hm h hi hb
    rw [hb] at ha; cases ha
    refine key (EeFullSent x.emitting_entity_id) _ c h1 ?_ (by rw [h2]; exact h3)
    intro m t p hp c hc
    constructor
    · rintro ⟨x, y, e1, e2, e3, e4⟩
      rw [e1, e2, ← e3]; exact ⟨rfl, e4⟩
    · rintro ⟨e1, e2⟩
      cases hb' : p.body with
      | electromagneticEmission x' =>
        obtain ⟨c', y', h1', h2', -⟩ := C37_emission hm h hp hb'
        rw [hc] at h1'; cases h1'
        rw [hb'] at e1
        rw [h2'] at e2 ⊢
        refine ⟨x', y', rfl, rfl, ?_, e2⟩
        simpa [subjectOf] using e1
      | _ => rw [hb'] at e1; cases e1
  | designator x =>
    obtain ⟨c, y, h1, h2, h3, -⟩ := C37_designator hm h hi hb
    rw [hb] at ha; cases ha
    refine key (DesFullSent x.designating_entity_id) _ c h1 ?_ (by rw [h2]; exact h3)
    intro m t p hp c hc
    constructor
    · rintro ⟨x, y, e1, e2, e3, e4⟩
      rw [e1, e2, ← e3]; exact ⟨rfl, e4⟩
    · rintro ⟨e1, e2⟩
      cases hb' : p.body with
      | designator x' =>
        obtain ⟨c', y', h1', h2', -⟩ := C37_designator hm h hp hb'
        rw [hc] at h1'; cases h1'
        rw [hb'] at e1
        rw [h2'] at e2 ⊢
        refine ⟨x', y', rfl, rfl, ?_, e2⟩
        simpa [subjectOf] using e1
      | _ => rw [hb'] at e1; cases e1
  | transmitter x =>
    obtain ⟨c, y, h1, h2, h3, -⟩ := C37_transmitter hm h hi hb
    rw [hb] at ha; cases ha
    refine key (TxFullSent (x.radio_reference_id, x.radio_number)) _ c h1 ?_ (by rw [h2]; exact h3)
    intro m t p hp c hc
    constructor
    · rintro ⟨x, y, e1, e2, e3, e4⟩
      simp only [Prod.mk.injEq] at e3
      rw [e1, e2, ← e3.1, ← e3.2]; exact ⟨rfl, e4⟩
    · rintro ⟨e1, e2⟩
      cases hb' : p.body with
      | transmitter x' =>
        obtain ⟨c', y', h1', h2', -⟩ := C37_transmitter hm h hp hb'
        rw [hc] at h1'; cases h1'
        rw [hb'] at e1
        rw [h2'] at e2 ⊢
        refine ⟨x', y', rfl, rfl, ?_, e2⟩
        simp only [subjectOf, Option.some.injEq, Subject.transmitter.injEq] at e1
        rw [e1.1, e1.2]
      | _ => rw [hb'] at e1; cases e1
  | iff x =>
    obtain ⟨c, y, h1, h2, -, h3⟩ := C37_iff hm h hi hb
    rw [hb] at ha; cases ha
    refine key (IffFullSent x.emitting_entity_id) _ c h1 ?_ (by rw [h2]; exact Iff.trans (by simp [isFull]) h3)
    intro m t p hp c hc
    constructor
    · rintro ⟨x, y, e1, e2, e3, e4⟩
      rw [e1, e2, ← e3]; exact ⟨rfl, e4⟩
    · rintro ⟨e1, e2⟩
      cases hb' : p.body with
      | iff x' =>
        obtain ⟨c', y', h1', h2', -⟩ := C37_iff hm h hp hb'
        rw [hc] at h1'; cases h1'
        rw [hb'] at e1
        rw [h2'] at e2 ⊢
        refine ⟨x', y', rfl, rfl, ?_, e2⟩
        simpa [subjectOf] using e1
      | _ => rw [hb'] at e1; cases e1
  | _ => rw [hb] at ha; cases ha

theorem last_before {P : Nat → Prop} {i k : Nat} (hk : k < i) (h : P k) : ∃ j, k ≤ j ∧ LastBefore P i j := by
  classical
  induction i with
  | zero => omega
  | succ i ih =>
    by_cases hi : P i
    · exact ⟨i, by omega, by omega, hi, fun m h1 h2 => by omega⟩
    · rcases Nat.lt_or_ge k i with h1 | h1
      · obtain ⟨j, h2, h3, h4, h5⟩ := ih h1
        refine ⟨j, h2, by omega, h4, fun m h6 h7 => ?_⟩
        rcases Nat.lt_or_ge m i with h8 | h8
        · exact h5 m h6 h8
        · have : m = i := by omega
          rw [this]; exact hi
      · have : k = i := by omega
        rw [this] at h; exact absurd h hi

theorem FullAt.time {hist : List (Nat × Dis.Pdu)} {out : List Cdis.CdisPdu} {a : Subject} {m t t' : Nat} (h : FullAt hist out a m t)
    (h' : FullAt hist out a m t') : t = t' := by
  obtain ⟨⟨p, h1, -⟩, -⟩ := h
  obtain ⟨⟨p', h2, -⟩, -⟩ := h'
  rw [h1] at h2; cases h2; rfl

/-! ## Claims -/

/-- **C68.** Not too seldom: whenever a PDU goes out, its subject has been sent in a full update (perhaps by this very PDU) that is at most as old as
the heartbeat window allows, up to the precision of the 32-bit arithmetic. -/
theorem C68_fresh {env : Env} {o : Options} (hm : o.update_mode = .partial) {hist : List (Nat × Dis.Pdu)} (hf : Forward hist)
    {out : List Cdis.CdisPdu} {s : EncState} (h : encStream env o {} hist = some (out, s)) {a : Subject} {w : Rat} (hw : GoodFor o hist a w)
    (hw0 : 0 ≤ w) {i t : Nat} (hi : AboutAt hist a i t) :
    ∃ j tj, j ≤ i ∧ FullAt hist out a j tj ∧ ((t - tj : Nat) : Rat) / 10 ^ 9 * (1 - 1 / 2 ^ 22) ≤ w := by
  obtain ⟨p, hp, ha⟩ := hi
  obtain ⟨c, hc, hd⟩ := full_decision hm h hp ha
  cases hb : isFull c.body with
  | true =>
    refine ⟨i, t, Nat.le_refl _, ⟨⟨p, hp, ha⟩, c, hc, hb⟩, ?_⟩
    simpa using hw0
  | false =>
    obtain ⟨j, tj, h1, h2, h3⟩ := hd.1 hb
    refine ⟨j, tj, Nat.le_of_lt h1.1, h2, ?_⟩
    have ht := hf.2 _ (List.mem_of_getElem? hp)
    have := (C37_window (hw _ (List.mem_of_getElem? hp) ha) (now := t) (sent := tj) (by dsimp only at ht; omega)).2
    by_contra hn
    rw [this (by push Not at hn; exact hn)] at h3
    cases h3

/-- **C68.** Not too often: two full updates of the same subject are further apart than the heartbeat window, up to the precision of the 32-bit
arithmetic. -/
theorem C68_apart {env : Env} {o : Options} (hm : o.update_mode = .partial) {hist : List (Nat × Dis.Pdu)} (hf : Forward hist)
    {out : List Cdis.CdisPdu} {s : EncState} (h : encStream env o {} hist = some (out, s)) {a : Subject} {w : Rat} (hw : GoodFor o hist a w)
    {i j ti tj : Nat} (hij : i < j) (hi : FullAt hist out a i ti) (hj : FullAt hist out a j tj) :
    w < ((tj - ti : Nat) : Rat) / 10 ^ 9 * (1 + 1 / 2 ^ 22) := by
  obtain ⟨⟨p, hp, ha⟩, c, hc, hb⟩ := hj
  obtain ⟨c', hc', hd⟩ := full_decision hm h hp ha
  rw [hc] at hc'; cases hc'
  obtain ⟨k, hk1, hk2⟩ := last_before (P := fun m => ∃ t, FullAt hist out a m t) hij ⟨ti, hi⟩
  obtain ⟨tk, hk3⟩ := hk2.2.1
  by_contra hn
  push Not at hn
  have ht := hf.2 _ (List.mem_of_getElem? hp)
  have h1 : ti ≤ tk := by
    obtain ⟨⟨p1, h1, -⟩, -⟩ := hi
    obtain ⟨⟨p2, h2, -⟩, -⟩ := hk3
    exact hf.1 _ _ _ _ _ _ hk1 h1 h2
  have h2 := (C37_window (hw _ (List.mem_of_getElem? hp) ha) (now := tj) (sent := tk) (by dsimp only at ht; omega)).1 (by
    refine le_trans ?_ hn
    have : ((tj - tk : Nat) : Rat) ≤ ((tj - ti : Nat) : Rat) := by exact_mod_cast (by omega : tj - tk ≤ tj - ti)
    have e : (0 : Rat) ≤ 1 / 10 ^ 9 * (1 + 1 / 2 ^ 22) := by norm_num
    have := mul_le_mul_of_nonneg_right this e
    calc _ = ((tj - tk : Nat) : Rat) * (1 / 10 ^ 9 * (1 + 1 / 2 ^ 22)) := by ring
      _ ≤ ((tj - ti : Nat) : Rat) * (1 / 10 ^ 9 * (1 + 1 / 2 ^ 22)) := this
      _ = _ := by ring)
  have := hd.2 ⟨k, tk, hk2, hk3, h2⟩
  rw [hb] at this
  cases this

/-- **C68.** So the number of full updates of a subject is limited by the time: between the first and the last of `n + 1` of them at least `n` windows
pass. -/
theorem C68_rate {env : Env} {o : Options} (hm : o.update_mode = .partial) {hist : List (Nat × Dis.Pdu)} (hf : Forward hist)
    {out : List Cdis.CdisPdu} {s : EncState} (h : encStream env o {} hist = some (out, s)) {a : Subject} {w : Rat} (hw : GoodFor o hist a w)
    {n : Nat} {pos time : Nat → Nat} (hp : ∀ k, k < n → pos k < pos (k + 1)) (hs : ∀ k ≤ n, FullAt hist out a (pos k) (time k)) :
    n * w ≤ ((time n - time 0 : Nat) : Rat) / 10 ^ 9 * (1 + 1 / 2 ^ 22) := by
  induction n with
  | zero => simp
  | succ n ih =>
    have h1 := ih (fun k hk => hp k (by omega)) (fun k hk => hs k (by omega))
    have h2 := C68_apart hm hf h hw (hp n (by omega)) (hs n (by omega)) (hs (n + 1) (Nat.le_refl _))
    have mono : ∀ k, k ≤ n + 1 → time 0 ≤ time k := by
      intro k
      induction k with
      | zero => intro _; exact Nat.le_refl _
      | succ k ihk =>
        intro hk
        obtain ⟨⟨p1, e1, -⟩, -⟩ := hs k (by omega)
        obtain ⟨⟨p2, e2, -⟩, -⟩ := hs (k + 1) hk
        exact Nat.le_trans (ihk (by omega)) (hf.1 _ _ _ _ _ _ (Nat.le_of_lt (hp k (by omega))) e1 e2)
    have m1 := mono n (by omega)
    have m2 : time n ≤ time (n + 1) := by
      obtain ⟨⟨p1, e1, -⟩, -⟩ := hs n (by omega)
      obtain ⟨⟨p2, e2, -⟩, -⟩ := hs (n + 1) (Nat.le_refl _)
      exact hf.1 _ _ _ _ _ _ (Nat.le_of_lt (hp n (by omega))) e1 e2
    have e : ((time (n + 1) - time 0 : Nat) : Rat) = ((time (n + 1) - time n : Nat) : Rat) + ((time n - time 0 : Nat) : Rat) := by
      exact_mod_cast (by omega : time (n + 1) - time 0 = time (n + 1) - time n + (time n - time 0))
    rw [e]
    push_cast
    have : ((n : Rat) + 1) * w = n * w + w := by ring
    rw [this]
    calc (n : Rat) * w + w ≤ ((time n - time 0 : Nat) : Rat) / 10 ^ 9 * (1 + 1 / 2 ^ 22) +
          ((time (n + 1) - time n : Nat) : Rat) / 10 ^ 9 * (1 + 1 / 2 ^ 22) := by linarith
      _ = _ := by ring

/-- **C68.** Between two full updates without another one in between, everything sent of the subject is younger than the window: the next full update
comes with the first PDU after that. -/
theorem C68_next {env : Env} {o : Options} (hm : o.update_mode = .partial) {hist : List (Nat × Dis.Pdu)} (hf : Forward hist)
    {out : List Cdis.CdisPdu} {s : EncState} (h : encStream env o {} hist = some (out, s)) {a : Subject} {w : Rat} (hw : GoodFor o hist a w)
    (hw0 : 0 ≤ w) {i k ti tk : Nat} (hi : FullAt hist out a i ti) (hk : AboutAt hist a k tk)
    (hn : ∀ j t, i < j → j ≤ k → ¬ FullAt hist out a j t) :
    ((tk - ti : Nat) : Rat) / 10 ^ 9 * (1 - 1 / 2 ^ 22) ≤ w := by
  obtain ⟨j, tj, h1, h2, h3⟩ := C68_fresh hm hf h hw hw0 hk
  rcases Nat.lt_or_ge i j with h4 | h4
  · exact absurd h2 (hn j tj h4 h1)
  · refine le_trans ?_ h3
    obtain ⟨⟨p1, e1, -⟩, -⟩ := hi
    obtain ⟨⟨p2, e2, -⟩, -⟩ := h2
    have h5 := hf.1 _ _ _ _ _ _ h4 e2 e1
    have : ((tk - ti : Nat) : Rat) ≤ ((tk - tj : Nat) : Rat) := by exact_mod_cast (by omega : tk - ti ≤ tk - tj)
    have e : (0 : Rat) ≤ 1 / 10 ^ 9 * (1 - 1 / 2 ^ 22) := by norm_num
    have := mul_le_mul_of_nonneg_right this e
    calc _ = ((tk - ti : Nat) : Rat) * (1 / 10 ^ 9 * (1 - 1 / 2 ^ 22)) := by ring
      _ ≤ ((tk - tj : Nat) : Rat) * (1 / 10 ^ 9 * (1 - 1 / 2 ^ 22)) := this
      _ = _ := by ring

/-! ## Only differences of times matter -/

/-- the same history, `d` nanoseconds later -/
def later (d : Nat) (hist : List (Nat × Dis.Pdu)) : List (Nat × Dis.Pdu) := hist.map fun e => (e.1 + d, e.2)
/-- what is remembered, `d` nanoseconds later -/
def shiftState (d : Nat) (s : EncState) : EncState :=
  { es := fun e => (s.es e).map (· + d)
    ee := fun e => (s.ee e).map fun x => { x with heartbeat := x.heartbeat + d }
    designator := fun e => (s.designator e).map (· + d)
    transmitter := fun e => (s.transmitter e).map (· + d)
    iff := fun e => (s.iff e).map (· + d) }

theorem timedOut_shift (a b : Fl) (now hb d : Nat) : timedOut a b (now + d) (hb + d) = timedOut a b now hb := by
  unfold timedOut elapsed
  rw [Nat.add_sub_add_right]
theorem any_shift (a b : Fl) (now d : Nat) (st : Option Nat) :
    (st.map (· + d)).any (fun hb => !timedOut a b (now + d) hb) = st.any (fun hb => !timedOut a b now hb) := by
  cases st <;> simp [timedOut_shift]
theorem set_map {K V W : Type} [DecidableEq K] (m : Map K V) (k : K) (v : V) (f : V → W) :
    (fun e => ((m.set k v) e).map f) = Map.set (fun e => (m e).map f) k (f v) := by
  funext e
  unfold Map.set
  split <;> rfl
theorem ee_shift (o : Options) (now d : Nat) (st : Option EeEncState) (x : Dis.ElectromagneticEmission) :
    eeEnc o (now + d) (st.map fun v => { v with heartbeat := v.heartbeat + d }) x = eeEnc o now st x := by
  unfold eeEnc
  cases o.update_mode with
  | full => rfl
  | «partial» =>
    cases st with
    | none => rfl
    | some v => simp only [Option.map_some, timedOut_shift]; rfl
theorem body_shift (env : Env) (o : Options) (d now : Nat) (s : EncState) (b : Dis.Body) :
    bodyEnc env o (now + d) (shiftState d s) b = (bodyEnc env o now s b).map fun r => (r.1, r.2.1, shiftState d r.2.2) := by
  cases b with
  | entityState x =>
    have e : esEnc env o (now + d) ((shiftState d s).es x.entity_id) x = esEnc env o now (s.es x.entity_id) x := by
      unfold esEnc shiftState
      simp only [any_shift]
    simp only [bodyEnc, esEncodeBody, e, Option.map_map, Function.comp_def]
    congr 1
    funext r
    split
    · simp only [shiftState, set_map]
    · rfl
  | electromagneticEmission x =>
    have e : eeEnc o (now + d) ((shiftState d s).ee x.emitting_entity_id) x = eeEnc o now (s.ee x.emitting_entity_id) x := by
      exact ee_shift o now d _ x
    simp only [bodyEnc, eeEncodeBody, e, Option.map_some]
    split
    · simp only [shiftState, set_map, EeEncState.of]
    · rfl
  | designator x =>
    have e : desEnc env o (now + d) ((shiftState d s).designator x.designating_entity_id) x =
        desEnc env o now (s.designator x.designating_entity_id) x := by
      unfold desEnc shiftState
      simp only [any_shift]
    simp only [bodyEnc, desEncodeBody, e, Option.map_some]
    split
    · simp only [shiftState, set_map]
    · rfl
  | transmitter x =>
    have e : txEnc env o (now + d) ((shiftState d s).transmitter (x.radio_reference_id, x.radio_number)) x =
        txEnc env o now (s.transmitter (x.radio_reference_id, x.radio_number)) x := by
      unfold txEnc shiftState
      simp only [any_shift]
    simp only [bodyEnc, txEncodeBody, e, Option.map_some]
    split
    · simp only [shiftState, set_map]
    · rfl
  | iff x =>
    have e : iffEnc o (now + d) ((shiftState d s).iff x.emitting_entity_id) x = iffEnc o now (s.iff x.emitting_entity_id) x := by
      unfold iffEnc shiftState
      simp only [any_shift]
    simp only [bodyEnc, iffEncodeBody, e, Option.map_some]
    split
    · simp only [shiftState, set_map]
    · rfl
  | _ => rfl

theorem stream_shift (env : Env) (o : Options) (d : Nat) (s : EncState) (hist : List (Nat × Dis.Pdu)) :
    encStream env o (shiftState d s) (later d hist) = (encStream env o s hist).map fun r => (r.1, shiftState d r.2) := by
  induction hist generalizing s with
  | nil => rfl
  | cons e l ih =>
    obtain ⟨now, p⟩ := e
    simp only [later, List.map_cons, encStream, pduEnc, body_shift]
    cases bodyEnc env o now s p.body with
    | none => rfl
    | some r =>
      have := ih r.2.2
      unfold later at this
      simp only [Option.map_some, Option.bind_some, this]
      cases encStream env o r.2.2 l <;> rfl

/-- **C68.** What an encoder sends depends on the time only through the differences between the times at which PDUs are put in: the same PDUs, all of
them `d` nanoseconds later, are encoded to the same C-DIS PDUs. -/
theorem C68_differences (env : Env) (o : Options) (d : Nat) (hist : List (Nat × Dis.Pdu)) :
    (encStream env o {} (later d hist)).map (·.1) = (encStream env o {} hist).map (·.1) := by
  have := stream_shift env o d {} hist
  have e : shiftState d {} = {} := rfl
  rw [e] at this
  rw [this]
  cases encStream env o {} hist <;> rfl

/-- **C68.** With the default settings: a full update of an entity at least every 12 seconds in which it is sent, and no two of them within 11.9999
seconds. -/
theorem C68_defaults {env : Env} {o : Options} (hm : o.update_mode = .partial) (hh : o.heartbeats = {}) (hp : o.mplier = F32.round (24 / 10))
    {hist : List (Nat × Dis.Pdu)} (hf : Forward hist) {out : List Cdis.CdisPdu} {s : EncState} (h : encStream env o {} hist = some (out, s))
    (e : Dis.EntityId) :
    (∀ i t, AboutAt hist (.entityState e) i t → ∃ j tj, j ≤ i ∧ FullAt hist out (.entityState e) j tj ∧ t - tj ≤ 12000003000) ∧
    (∀ i j ti tj, i < j → FullAt hist out (.entityState e) i ti → FullAt hist out (.entityState e) j tj → 11999900000 ≤ tj - ti) := by
  have hw : GoodFor o hist (.entityState e) 12 := by
    intro x hx ha
    cases hb : x.2.body with
    | entityState y => exact (C37_window_defaults o hh hp y.entity_type).1
    | _ => rw [hb] at ha; cases ha
  constructor
  · intro i t hi
    obtain ⟨j, tj, h1, h2, h3⟩ := C68_fresh hm hf h hw (by norm_num) hi
    refine ⟨j, tj, h1, h2, ?_⟩
    by_contra hn
    have : (12000003001 : Rat) ≤ ((t - tj : Nat) : Rat) := by exact_mod_cast (by omega : 12000003001 ≤ t - tj)
    norm_num at h3
    linarith
  · intro i j ti tj h1 h2 h3
    have h4 := C68_apart hm hf h hw h1 h2 h3
    by_contra hn
    have : ((tj - ti : Nat) : Rat) ≤ 11999899999 := by exact_mod_cast (by omega : tj - ti ≤ 11999899999)
    norm_num at h4
    linarith

/-! ## Example -/

/-- The history of five Entity State PDUs in 31 seconds: its full updates are the first and the fourth. -/
theorem C68_witness : Forward (sampleHistory (.entityState sample_entityState) 1) ∧
    GoodFor { update_mode := .partial } (sampleHistory (.entityState sample_entityState) 1) (.entityState sample_entityState.entity_id) 12 ∧
    ∃ out s, encStream codecEnv { update_mode := .partial } {} (sampleHistory (.entityState sample_entityState) 1) = some (out, s) ∧
      FullAt (sampleHistory (.entityState sample_entityState) 1) out (.entityState sample_entityState.entity_id) 0 0 ∧
      FullAt (sampleHistory (.entityState sample_entityState) 1) out (.entityState sample_entityState.entity_id) 3 30000000000 ∧
      out.map (fun c => isFull c.body) = [true, false, false, true, false] := by
  refine ⟨⟨?_, by decide⟩, ?_, ?_⟩
  · intro i j ti tj pi pj hij h1 h2
    rcases i with _ | _ | _ | _ | _ | i <;> rcases j with _ | _ | _ | _ | _ | j <;>
      simp [sampleHistory] at h1 h2 <;> omega
  · intro x hx ha
    have : x.2.body = .entityState sample_entityState := by
      simp only [sampleHistory, List.mem_cons, List.not_mem_nil, or_false] at hx
      rcases hx with rfl | rfl | rfl | rfl | rfl <;> rfl
    rw [this]
    exact (C37_window_defaults { update_mode := .partial } rfl rfl sample_entityState.entity_type).1
  · have hfl := sampleHistory_flags
    cases he : encStream codecEnv { update_mode := .partial } {} (sampleHistory (.entityState sample_entityState) 1) with
    | none => rw [he] at hfl; cases hfl
    | some r =>
      obtain ⟨out, s⟩ := r
      rw [he] at hfl
      simp only [Option.map_some, Option.some.injEq] at hfl
      have hfl : out.map (fun c => isFull c.body) = [true, false, false, true, false] := by
        have e : fullFlag = fun c => isFull c.body := by
          funext c
          unfold fullFlag isFull
          cases c.body <;> rfl
        rw [← e]; exact hfl
      refine ⟨out, s, rfl, ⟨⟨_, rfl, rfl⟩, ?_⟩, ⟨⟨_, rfl, rfl⟩, ?_⟩, hfl⟩
      · have := congrArg (fun l => l[0]?) hfl
        simpa using this
      · have := congrArg (fun l => l[3]?) hfl
        simpa using this

end Verif.Props

import Verif.Codec.Pdu

/-! # Histories of the codec: specification vocabulary and invariants -/

namespace Verif.Codec

/-- `j` is the last position before `i` at which `P` holds. -/
def LastBefore (P : Nat → Prop) (i j : Nat) : Prop := j < i ∧ P j ∧ ∀ k, j < k → k < i → ¬ P k
/-- `j` is the first position before `i` at which `P` holds. -/
def FirstBefore (P : Nat → Prop) (i j : Nat) : Prop := j < i ∧ P j ∧ ∀ k, k < j → ¬ P k

theorem LastBefore.unique {P : Nat → Prop} {i j k : Nat} (h : LastBefore P i j) (h' : LastBefore P i k) : j = k := by
  have := h.2.2 k
  have := h'.2.2 j
  rcases Nat.lt_trichotomy j k with c | c | c
  · exact absurd h'.2.1 (h.2.2 k c h'.1)
  · exact c
  · exact absurd h.2.1 (h'.2.2 j c h.1)
theorem FirstBefore.unique {P : Nat → Prop} {i j k : Nat} (h : FirstBefore P i j) (h' : FirstBefore P i k) : j = k := by
  rcases Nat.lt_trichotomy j k with c | c | c
  · exact absurd h.2.1 (h'.2.2 j c)
  · exact c
  · exact absurd h'.2.1 (h.2.2 k c)

/-- At position `m` the PDU put in and the PDU that came out satisfy `P`. -/
def EncAt (P : Dis.Body → Cdis.CdisBody → Prop) (hist : List (Nat × Dis.Pdu)) (out : List Cdis.CdisPdu) (m : Nat) : Prop :=
  ∃ t p c, hist[m]? = some (t, p) ∧ out[m]? = some c ∧ P p.body c.body
/-- The same for the decoder. -/
def DecAt (P : Cdis.CdisBody → Dis.Body → Prop) (inp : List Cdis.CdisPdu) (out : List Dis.Pdu) (m : Nat) : Prop :=
  ∃ c p, inp[m]? = some c ∧ out[m]? = some p ∧ P c.body p.body

/-! ## Positions of a stream -/

theorem encStream_cons {env : Env} {o : Options} {s s' : EncState} {now : Nat} {p : Dis.Pdu} {rest : List (Nat × Dis.Pdu)}
    {out : List Cdis.CdisPdu} (h : encStream env o s ((now, p) :: rest) = some (out, s')) :
    ∃ c r s1 out1, pduEnc env o now s p = some (c, r, s1) ∧ encStream env o s1 rest = some (out1, s') ∧ out = c :: out1 := by
  rw [encStream] at h
  cases h1 : pduEnc env o now s p with
  | none => simp [h1] at h
  | some r =>
    obtain ⟨c, r, s1⟩ := r
    cases h2 : encStream env o s1 rest with
    | none => simp [h1, h2] at h
    | some q =>
      obtain ⟨out1, s2⟩ := q
      simp [h1, h2] at h
      exact ⟨c, r, s1, out1, rfl, by rw [h2, h.2], h.1.symm⟩

theorem encStream_at {env : Env} {o : Options} : ∀ {hist : List (Nat × Dis.Pdu)} {s s' : EncState} {out : List Cdis.CdisPdu},
    encStream env o s hist = some (out, s') → ∀ {i t p}, hist[i]? = some (t, p) →
    ∃ si c r s1, encStream env o s (hist.take i) = some (out.take i, si) ∧ pduEnc env o t si p = some (c, r, s1) ∧ out[i]? = some c
  | [], _, _, _, _, i, _, _, hi => by simp at hi
  | (now, q) :: rest, s, s', out, h, i, t, p, hi => by
    obtain ⟨c, r, s1, out1, h1, h2, rfl⟩ := encStream_cons h
    cases i with
    | zero =>
      simp at hi
      obtain ⟨rfl, rfl⟩ := hi
      exact ⟨s, c, r, s1, by simp [encStream], h1, by simp⟩
    | succ i =>
      simp at hi
      obtain ⟨si, c', r', s1', e1, e2, e3⟩ := encStream_at h2 hi
      refine ⟨si, c', r', s1', ?_, e2, by simpa using e3⟩
      simp [encStream, h1, e1]

theorem decStream_at {env : Env} {o : Options} : ∀ {inp : List Cdis.CdisPdu} {s : DecState} {i c}, inp[i]? = some c →
    (decStream env o s (inp.take i)).1 = (decStream env o s inp).1.take i ∧
    (decStream env o s inp).1[i]? = some (pduDec env o (decStream env o s (inp.take i)).2 c).1
  | [], _, i, _, hi => by simp at hi
  | q :: rest, s, i, c, hi => by
    cases i with
    | zero =>
      simp at hi
      subst hi
      simp [decStream]
    | succ i =>
      simp at hi
      have := decStream_at (env := env) (o := o) (s := (pduDec env o s q).2.2) hi
      simp [decStream, this.1, this.2]

/-! ## What a state remembers -/

theorem encAt_take {P : Dis.Body → Cdis.CdisBody → Prop} {hist : List (Nat × Dis.Pdu)} {out : List Cdis.CdisPdu} {i m : Nat} :
    EncAt P (hist.take i) (out.take i) m ↔ m < i ∧ EncAt P hist out m := by
  unfold EncAt
  simp only [List.getElem?_take]
  by_cases h : m < i <;> simp [h]
theorem decAt_take {P : Cdis.CdisBody → Dis.Body → Prop} {inp : List Cdis.CdisPdu} {out : List Dis.Pdu} {i m : Nat} :
    DecAt P (inp.take i) (out.take i) m ↔ m < i ∧ DecAt P inp out m := by
  unfold DecAt
  simp only [List.getElem?_take]
  by_cases h : m < i <;> simp [h]

theorem encAt_succ {P : Dis.Body → Cdis.CdisBody → Prop} {hd : Nat × Dis.Pdu} {c : Cdis.CdisPdu} {hist : List (Nat × Dis.Pdu)}
    {out : List Cdis.CdisPdu} {m : Nat} : EncAt P (hd :: hist) (c :: out) (m + 1) ↔ EncAt P hist out m := by
  simp [EncAt]
theorem encAt_zero {P : Dis.Body → Cdis.CdisBody → Prop} {hd : Nat × Dis.Pdu} {c : Cdis.CdisPdu} {hist : List (Nat × Dis.Pdu)}
    {out : List Cdis.CdisPdu} : EncAt P (hd :: hist) (c :: out) 0 ↔ P hd.2.body c.body := by
  constructor
  · rintro ⟨t, p, c', h1, h2, h3⟩
    simp at h1 h2
    subst h1 h2
    exact h3
  · intro h
    exact ⟨hd.1, hd.2, c, by simp, by simp, h⟩
theorem decAt_succ {P : Cdis.CdisBody → Dis.Body → Prop} {c : Cdis.CdisPdu} {p : Dis.Pdu} {inp : List Cdis.CdisPdu}
    {out : List Dis.Pdu} {m : Nat} : DecAt P (c :: inp) (p :: out) (m + 1) ↔ DecAt P inp out m := by
  simp [DecAt]
theorem decAt_zero {P : Cdis.CdisBody → Dis.Body → Prop} {c : Cdis.CdisPdu} {p : Dis.Pdu} {inp : List Cdis.CdisPdu}
    {out : List Dis.Pdu} : DecAt P (c :: inp) (p :: out) 0 ↔ P c.body p.body := by
  simp [DecAt]

theorem pduEnc_some {env : Env} {o : Options} {now : Nat} {s s1 : EncState} {p : Dis.Pdu} {c : Cdis.CdisPdu} {r : StateResult}
    (h : pduEnc env o now s p = some (c, r, s1)) :
    bodyEnc env o now s p.body = some (c.body, r, s1) ∧ c = Cdis.CdisPdu.finalize (headerEnc p.header) c.body none := by
  unfold pduEnc at h
  cases hb : bodyEnc env o now s p.body with
  | none => simp [hb] at h
  | some b =>
    obtain ⟨b1, b2, b3⟩ := b
    simp [hb] at h
    obtain ⟨rfl, rfl, rfl⟩ := h
    exact ⟨rfl, rfl⟩

/-- A part of the encoder's state that is overwritten when `P` holds and kept otherwise holds the value of the last time. -/
theorem enc_memory {V : Type} {env : Env} {o : Options} (get : EncState → Option V) (P : Dis.Body → Cdis.CdisBody → Prop)
    (val : Nat → Dis.Body → V)
    (hstep : ∀ now s b c r s', bodyEnc env o now s b = some (c, r, s') →
      (P b c → get s' = some (val now b)) ∧ (¬ P b c → get s' = get s)) :
    ∀ (hist : List (Nat × Dis.Pdu)) (s s' : EncState) (out : List Cdis.CdisPdu), encStream env o s hist = some (out, s') →
      (∃ j t p c, hist[j]? = some (t, p) ∧ out[j]? = some c ∧ P p.body c.body ∧ (∀ m, j < m → ¬ EncAt P hist out m) ∧
        get s' = some (val t p.body)) ∨ ((∀ m, ¬ EncAt P hist out m) ∧ get s' = get s)
  | [], s, s', out, h => by
    simp [encStream] at h
    right
    refine ⟨fun m => ?_, by rw [h.2]⟩
    rintro ⟨t, p, c, h1, _⟩
    simp at h1
  | (now, q) :: rest, s, s', out, h => by
    obtain ⟨c, r, s1, out1, h1, h2, rfl⟩ := encStream_cons h
    have hs := hstep _ _ _ _ _ _ (pduEnc_some h1).1
    rcases enc_memory get P val hstep rest s1 s' out1 h2 with ⟨j, t, p, c', e1, e2, e3, e4, e5⟩ | ⟨e1, e2⟩
    · left
      refine ⟨j + 1, t, p, c', by simpa using e1, by simpa using e2, e3, fun m hm => ?_, e5⟩
      obtain ⟨m, rfl⟩ : ∃ k, m = k + 1 := ⟨m - 1, by omega⟩
      rw [encAt_succ]
      exact e4 m (by omega)
    · by_cases hp : P q.body c.body
      · left
        refine ⟨0, now, q, c, by simp, by simp, hp, fun m hm => ?_, by rw [e2, hs.1 hp]⟩
        obtain ⟨m, rfl⟩ : ∃ k, m = k + 1 := ⟨m - 1, by omega⟩
        rw [encAt_succ]
        exact e1 m
      · right
        refine ⟨fun m => ?_, by rw [e2, hs.2 hp]⟩
        cases m with
        | zero => rw [encAt_zero]; exact hp
        | succ m => rw [encAt_succ]; exact e1 m

/-- The same, read at a position of a longer history. -/
theorem enc_memory_at {V : Type} {env : Env} {o : Options} (get : EncState → Option V) (P : Dis.Body → Cdis.CdisBody → Prop)
    (val : Nat → Dis.Body → V)
    (hstep : ∀ now s b c r s', bodyEnc env o now s b = some (c, r, s') →
      (P b c → get s' = some (val now b)) ∧ (¬ P b c → get s' = get s))
    (h0 : get {} = none)
    {hist : List (Nat × Dis.Pdu)} {s' : EncState} {out : List Cdis.CdisPdu} (h : encStream env o {} hist = some (out, s'))
    {i t p} (hi : hist[i]? = some (t, p)) :
    ∃ si c r s1, bodyEnc env o t si p.body = some (c.body, r, s1) ∧ out[i]? = some c ∧
      ((∃ j t p, LastBefore (EncAt P hist out) i j ∧ hist[j]? = some (t, p) ∧ get si = some (val t p.body)) ∨
       ((∀ m, m < i → ¬ EncAt P hist out m) ∧ get si = none)) := by
  obtain ⟨si, c, r, s1, h1, h2, h3⟩ := encStream_at h hi
  refine ⟨si, c, r, s1, (pduEnc_some h2).1, h3, ?_⟩
  rcases enc_memory get P val hstep _ _ _ _ h1 with ⟨j, t', p', c', e1, e2, e3, e4, e5⟩ | ⟨e1, e2⟩
  · left
    have hj : EncAt P (hist.take i) (out.take i) j := ⟨t', p', c', e1, e2, e3⟩
    rw [encAt_take] at hj
    refine ⟨j, t', p', ⟨hj.1, hj.2, fun k h1 h2 h3 => e4 k h1 (encAt_take.2 ⟨h2, h3⟩)⟩, ?_, e5⟩
    rw [List.getElem?_take, if_pos hj.1] at e1
    exact e1
  · right
    exact ⟨fun m hm hp => e1 m (encAt_take.2 ⟨hm, hp⟩), by rw [e2, h0]⟩

/-- A part of the decoder's state that is overwritten when `P` holds and kept otherwise holds the value of the last time. -/
theorem dec_memory {V : Type} {env : Env} {o : Options} (get : DecState → Option V) (P : Cdis.CdisBody → Dis.Body → Prop)
    (val : Dis.Body → V)
    (hstep : ∀ s c, (P c (bodyDec env o s c).1 → get (bodyDec env o s c).2.2 = some (val (bodyDec env o s c).1)) ∧
      (¬ P c (bodyDec env o s c).1 → get (bodyDec env o s c).2.2 = get s)) :
    ∀ (inp : List Cdis.CdisPdu) (s : DecState),
      (∃ j p, DecAt P inp (decStream env o s inp).1 j ∧ (decStream env o s inp).1[j]? = some p ∧
        (∀ m, j < m → ¬ DecAt P inp (decStream env o s inp).1 m) ∧ get (decStream env o s inp).2 = some (val p.body)) ∨
      ((∀ m, ¬ DecAt P inp (decStream env o s inp).1 m) ∧ get (decStream env o s inp).2 = get s)
  | [], s => by
    right
    refine ⟨fun m => ?_, rfl⟩
    rintro ⟨c, p, h1, _⟩
    simp at h1
  | q :: rest, s => by
    have hs := hstep s q.body
    have ih := dec_memory get P val hstep rest (pduDec env o s q).2.2
    simp only [decStream]
    rcases ih with ⟨j, p, e1, e2, e3, e4⟩ | ⟨e1, e2⟩
    · left
      refine ⟨j + 1, p, decAt_succ.2 e1, by simpa using e2, fun m hm => ?_, e4⟩
      obtain ⟨m, rfl⟩ : ∃ k, m = k + 1 := ⟨m - 1, by omega⟩
      rw [decAt_succ]
      exact e3 m (by omega)
    · by_cases hp : P q.body (bodyDec env o s q.body).1
      · left
        refine ⟨0, (pduDec env o s q).1, decAt_zero.2 hp, by simp, fun m hm => ?_, by rw [e2]; exact hs.1 hp⟩
        obtain ⟨m, rfl⟩ : ∃ k, m = k + 1 := ⟨m - 1, by omega⟩
        rw [decAt_succ]
        exact e1 m
      · right
        refine ⟨fun m => ?_, by rw [e2]; exact hs.2 hp⟩
        cases m with
        | zero => rw [decAt_zero]; exact hp
        | succ m => rw [decAt_succ]; exact e1 m

/-- A part of the decoder's state that is set when `P` holds for the first time and never changed again. -/
theorem dec_first {V : Type} {env : Env} {o : Options} (get : DecState → Option V) (P : Cdis.CdisBody → Dis.Body → Prop)
    (val : Dis.Body → V)
    (hstep : ∀ s c, (P c (bodyDec env o s c).1 → get (bodyDec env o s c).2.2 = some ((get s).getD (val (bodyDec env o s c).1))) ∧
      (¬ P c (bodyDec env o s c).1 → get (bodyDec env o s c).2.2 = get s)) :
    ∀ (inp : List Cdis.CdisPdu) (s : DecState),
      (∃ j p, DecAt P inp (decStream env o s inp).1 j ∧ (decStream env o s inp).1[j]? = some p ∧
        (∀ m, m < j → ¬ DecAt P inp (decStream env o s inp).1 m) ∧
        get (decStream env o s inp).2 = some ((get s).getD (val p.body))) ∨
      ((∀ m, ¬ DecAt P inp (decStream env o s inp).1 m) ∧ get (decStream env o s inp).2 = get s)
  | [], s => by
    right
    refine ⟨fun m => ?_, rfl⟩
    rintro ⟨c, p, h1, _⟩
    simp at h1
  | q :: rest, s => by
    have hs := hstep s q.body
    have ih := dec_first get P val hstep rest (pduDec env o s q).2.2
    simp only [decStream]
    by_cases hp : P q.body (bodyDec env o s q.body).1
    · left
      refine ⟨0, (pduDec env o s q).1, decAt_zero.2 hp, by simp, fun m hm => by omega, ?_⟩
      have h1 : get (pduDec env o s q).2.2 = some ((get s).getD (val (pduDec env o s q).1.body)) := hs.1 hp
      rcases ih with ⟨j, p, e1, e2, e3, e4⟩ | ⟨e1, e2⟩
      · rw [e4, h1]; simp
      · rw [e2, h1]
    · have h1 : get (pduDec env o s q).2.2 = get s := hs.2 hp
      rcases ih with ⟨j, p, e1, e2, e3, e4⟩ | ⟨e1, e2⟩
      · left
        refine ⟨j + 1, p, decAt_succ.2 e1, by simpa using e2, fun m hm => ?_, by rw [e4, h1]⟩
        cases m with
        | zero => rw [decAt_zero]; exact hp
        | succ m => rw [decAt_succ]; exact e3 m (by omega)
      · right
        refine ⟨fun m => ?_, by rw [e2, h1]⟩
        cases m with
        | zero => rw [decAt_zero]; exact hp
        | succ m => rw [decAt_succ]; exact e1 m

theorem dec_memory_at {V : Type} {env : Env} {o : Options} (get : DecState → Option V) (P : Cdis.CdisBody → Dis.Body → Prop)
    (val : Dis.Body → V)
    (hstep : ∀ s c, (P c (bodyDec env o s c).1 → get (bodyDec env o s c).2.2 = some (val (bodyDec env o s c).1)) ∧
      (¬ P c (bodyDec env o s c).1 → get (bodyDec env o s c).2.2 = get s))
    (h0 : get {} = none) {inp : List Cdis.CdisPdu} {out : List Dis.Pdu} {s : DecState}
    (h : decStream env o {} inp = (out, s)) {i c} (hi : inp[i]? = some c) :
    ∃ si, si = (decStream env o {} (inp.take i)).2 ∧ out[i]? = some (pduDec env o si c).1 ∧
      ((∃ j p, LastBefore (DecAt P inp out) i j ∧ out[j]? = some p ∧ get si = some (val p.body)) ∨
       ((∀ m, m < i → ¬ DecAt P inp out m) ∧ get si = none)) := by
  have h1 := decStream_at (env := env) (o := o) (s := {}) hi
  rw [h] at h1
  refine ⟨_, rfl, h1.2, ?_⟩
  rcases dec_memory get P val hstep (inp.take i) {} with ⟨j, p, e1, e2, e3, e4⟩ | ⟨e1, e2⟩
  · left
    rw [h1.1] at e1 e2 e3
    have hj := decAt_take.1 e1
    refine ⟨j, p, ⟨hj.1, hj.2, fun k h1 h2 h3 => e3 k h1 (decAt_take.2 ⟨h2, h3⟩)⟩, ?_, e4⟩
    rw [List.getElem?_take, if_pos hj.1] at e2
    exact e2
  · right
    rw [h1.1] at e1
    exact ⟨fun m hm hp => e1 m (decAt_take.2 ⟨hm, hp⟩), by rw [e2, h0]⟩

theorem dec_first_at {V : Type} {env : Env} {o : Options} (get : DecState → Option V) (P : Cdis.CdisBody → Dis.Body → Prop)
    (val : Dis.Body → V)
    (hstep : ∀ s c, (P c (bodyDec env o s c).1 → get (bodyDec env o s c).2.2 = some ((get s).getD (val (bodyDec env o s c).1))) ∧
      (¬ P c (bodyDec env o s c).1 → get (bodyDec env o s c).2.2 = get s))
    (h0 : get {} = none) {inp : List Cdis.CdisPdu} {out : List Dis.Pdu} {s : DecState}
    (h : decStream env o {} inp = (out, s)) {i c} (hi : inp[i]? = some c) :
    ∃ si, si = (decStream env o {} (inp.take i)).2 ∧ out[i]? = some (pduDec env o si c).1 ∧
      ((∃ j p, FirstBefore (DecAt P inp out) i j ∧ out[j]? = some p ∧ get si = some (val p.body)) ∨
       ((∀ m, m < i → ¬ DecAt P inp out m) ∧ get si = none)) := by
  have h1 := decStream_at (env := env) (o := o) (s := {}) hi
  rw [h] at h1
  refine ⟨_, rfl, h1.2, ?_⟩
  rcases dec_first get P val hstep (inp.take i) {} with ⟨j, p, e1, e2, e3, e4⟩ | ⟨e1, e2⟩
  · left
    rw [h1.1] at e1 e2 e3
    have hj := decAt_take.1 e1
    refine ⟨j, p, ⟨hj.1, hj.2, fun k h1 h3 => e3 k h1 (decAt_take.2 ⟨by omega, h3⟩)⟩, ?_, by rw [e4, h0]; rfl⟩
    rw [List.getElem?_take, if_pos hj.1] at e2
    exact e2
  · right
    rw [h1.1] at e1
    exact ⟨fun m hm hp => e1 m (decAt_take.2 ⟨hm, hp⟩), by rw [e2, h0]⟩

end Verif.Codec

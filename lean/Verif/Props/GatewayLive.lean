import Verif.Props.GatewaySystem

/-! # C46, C49: what the gateway does when it is left to work, and what ends it -/

namespace Verif.Props
open Verif.Gateway Verif.Codec

section
variable {σ τ : Type}

/-! ## C49: it never gets stuck -/

/-- The packets that a codec has not taken yet, those with the reader twice. -/
def ahead (l : Lane σ) : Nat := 2 * (heldByReader l.reader).length + l.inq.length
/-- The steps that remain for what the codec has taken. -/
def behind (l : Lane σ) : Nat :=
  (match l.codec with | .busy es _ => 2 * es.length + 6 | .sending .. => 5 | _ => 0) + 3 * l.outq.length
  + (match l.writer with | .holding _ => 2 | .waiting => 1 | .stopped => 0)

theorem lane_work {m : Machine σ} {quit : Bool} {f : Effect} {l l' : Lane σ} (h : Lane.Step m quit .work f l l') :
    ahead l' < ahead l ∨ (ahead l' = ahead l ∧ behind l' + 1 + (emitsOf f).length ≤ behind l) := by
  obtain ⟨rd, inq, cd, outq, wr, rcv, snt⟩ := l
  cases h with
  | forward _ b e hl hg => dsimp only at e; subst e; left; simp [ahead, heldByReader]; omega
  | forwardFails _ b e hg => dsimp only at e; subst e; left; simp [ahead, heldByReader]
  | take _ t b rest clock e hq => dsimp only at e hq; subst e hq; left; simp [ahead]
  | emit _ e es r hc => dsimp only at hc; subst hc; right; refine ⟨rfl, ?_⟩; simp [behind, emitsOf]; omega
  | emitFails _ e es r hc => dsimp only at hc; subst hc; right; refine ⟨rfl, ?_⟩; simp [behind, emitsOf]; omega
  | done _ out t hc => dsimp only at hc; subst hc; right; refine ⟨rfl, ?_⟩; simp [behind, emitsOf]; omega
  | crash _ hc => dsimp only at hc; subst hc; right; refine ⟨rfl, ?_⟩; simp [behind, emitsOf]; omega
  | hand _ out t hc hl hg => dsimp only at hc; subst hc; right; refine ⟨rfl, ?_⟩; simp [behind, emitsOf]; omega
  | handFails _ out t hc hg => dsimp only at hc; subst hc; right; refine ⟨rfl, ?_⟩; simp [behind, emitsOf]; omega
  | pick _ b rest e hq => dsimp only at e hq; subst e hq; right; refine ⟨rfl, ?_⟩; simp [behind, emitsOf]; omega
  | send _ b e => dsimp only at e; subst e; right; refine ⟨rfl, ?_⟩; simp [behind, emitsOf] <;> omega
  | writerEnds _ e _ _ => dsimp only at e; subst e; right; refine ⟨rfl, ?_⟩; simp [behind, emitsOf]

def rank (g : System σ τ) : Nat × Nat :=
  (ahead g.enc + ahead g.dec, behind g.enc + behind g.dec + g.events.length + if g.ended then 0 else 1)

theorem channel_length {g : System σ τ} {side : Side} {f : Effect} {q : List (Side × Event)} (h : g.channel side f = some q) :
    q.length = g.events.length + (emitsOf f).length := by
  cases f <;> simp only [System.channel] at h <;> (try split at h) <;> simp at h <;> subst h <;> simp [emitsOf]

theorem rank_work {me : Machine σ} {md : Machine τ} {g g' : System σ τ} (h : System.Step me md .work g g') : Prod.Lex (· < ·) (· < ·) (rank g') (rank g) := by
  unfold rank
  rw [Prod.lex_def]
  cases h with
  | encoder _ _ f l q _ hl hq =>
    have hc := channel_length hq
    rcases lane_work hl with hw | ⟨h1, h2⟩
    · left; dsimp only; omega
    · right; dsimp only; omega
  | decoder _ _ f l q _ hl hq =>
    have hc := channel_length hq
    rcases lane_work hl with hw | ⟨h1, h2⟩
    · left; dsimp only; omega
    · right; dsimp only; omega
  | handle _ x rest _ _ he => right; dsimp only; rw [he]; simp
  | exit _ he _ => right; dsimp only; rw [he]; simp

/-- **C49.** The gateway cannot work forever without new input: there is no infinite run of steps of its own. -/
theorem C49_terminates (me : Machine σ) (md : Machine τ) : WellFounded fun g' g : System σ τ => System.Step me md .work g g' :=
  Subrelation.wf (fun h => rank_work h) (InvImage.wf (rank (σ := σ) (τ := τ)) (Prod.lex Nat.lt_wfRel Nat.lt_wfRel).wf)

/-- Everything that was received has been encoded (decoded), sent and counted, in order. -/
def Delivered (m : Machine σ) (s : σ) (side : Side) (l : Lane σ) (handled : List (Side × Event)) : Prop :=
  ∃ taken, taken.map (·.2) = l.received ∧ l.sent = outputs m s taken ∧ l.sent.length = l.received.length
    ∧ ofSide side handled = eventsFor m s taken

theorem lane_quiet {m : Machine σ} {s : σ} {l : Lane σ} {quit : Bool} {em : List Event} {ok : Bool} {taken : List ((Nat → Nat) × Bytes)}
    {lostR lostW cl : List Bytes} {el : List Event} (hi : LaneInv m s l em taken lostR lostW cl el)
    (ha : Alive l) (hq : ∀ f l', (f = .silent ∨ (f = .refused ∧ ok = false) ∨ ∃ e, f = .emits e ∧ ok = true) → ¬ Lane.Step m quit .work f l l') :
    taken.map (·.2) = l.received ∧ l.sent = outputs m s taken ∧ l.sent.length = l.received.length ∧ em = eventsFor m s taken := by
  obtain ⟨h1, h2, h3, h4, h5, h6, h7, h8, h9⟩ := hi
  obtain ⟨a1, a2, a3⟩ := ha
  have e1 : lostR = [] := by by_contra hn; exact a1 (h2 hn).1
  have e2 : lostW = [] := by by_contra hn; exact a3 (h4 hn)
  subst e1 e2
  obtain ⟨rd, inq, cd, outq, wr, rcv, snt⟩ := l
  dsimp only at h1 h3 h6 h7 h8 a1 a2 a3
  have w : wr = .waiting := by
    cases wr with
    | waiting => rfl
    | holding b => exact absurd (.send _ b rfl) (hq .silent _ (.inl rfl))
    | stopped => exact absurd rfl a3
  subst w
  have o : outq = [] := by
    cases outq with
    | nil => rfl
    | cons b rest => exact absurd (.pick _ b rest rfl rfl) (hq .silent _ (.inl rfl))
  subst o
  have c : ∃ t, cd = .idle t := by
    cases cd with
    | idle t => exact ⟨t, rfl⟩
    | busy es r =>
      cases es with
      | nil =>
        cases r with
        | none => exact absurd (.crash _ rfl) (hq .silent _ (.inl rfl))
        | some r => exact absurd (.done _ r.1 r.2 rfl) (hq .silent _ (.inl rfl))
      | cons e es =>
        cases ok with
        | false => exact absurd (.emitFails _ e es r rfl) (hq .refused _ (.inr (.inl ⟨rfl, rfl⟩)))
        | true => exact absurd (.emit _ e es r rfl) (hq (.emits e) _ (.inr (.inr ⟨e, rfl, rfl⟩)))
    | sending out t => exact absurd (.hand _ out t rfl (by simp [dataCapacity]) rfl) (hq .silent _ (.inl rfl))
    | stopped => simp [CodecTask.gone] at a2
    | panicked => simp [CodecTask.gone] at a2
  obtain ⟨t, rfl⟩ := c
  have i : inq = [] := by
    cases inq with
    | nil => rfl
    | cons b rest => exact absurd (.take _ t b rest (fun _ => 0) rfl rfl) (hq .silent _ (.inl rfl))
  subst i
  have r : rd = .waiting := by
    cases rd with
    | waiting => rfl
    | holding b => exact absurd (.forward _ b rfl (by simp [dataCapacity]) rfl) (hq .silent _ (.inl rfl))
    | stopped => exact absurd rfl a1
  subst r
  obtain ⟨g1, rfl, rfl⟩ := h6
  simp only [heldByReader, heldByWriter, List.append_nil] at h1 h3 h5
  refine ⟨h1.symm, h3, ?_, h5⟩
  show snt.length = rcv.length
  rw [h3, (outputs_length s taken).2 (by rw [g1]; simp), h1, List.length_map]

theorem channel_ready (g : System σ τ) (side : Side) (f : Effect)
    (h : f = .silent ∨ (f = .refused ∧ (g.listening && decide (g.events.length < eventCapacity)) = false)
      ∨ ∃ e, f = .emits e ∧ (g.listening && decide (g.events.length < eventCapacity)) = true) : ∃ q, g.channel side f = some q := by
  rcases h with rfl | ⟨rfl, h⟩ | ⟨e, rfl, h⟩
  · exact ⟨_, rfl⟩
  · simp only [System.channel, h]; exact ⟨_, rfl⟩
  · simp only [System.channel, h]; exact ⟨_, rfl⟩

/-- **C49.** A gateway whose tasks are all there and that has nothing left to do has delivered everything: for every datagram
received one datagram has been sent, its encoding (decoding), in order, and the statistics have seen every event. -/
theorem C49_quiet_delivered {me : Machine σ} {md : Machine τ} {s : σ} {t : τ} {g : System σ τ}
    (h : System.Reach me md (System.start s t) g) (he : g.ended = false) (hl : g.listening = true) (ha : Alive g.enc) (hb : Alive g.dec)
    (hq : ∀ g', ¬ System.Step me md .work g g') : Delivered me s .enc g.enc g.handled ∧ Delivered md t .dec g.dec g.handled := by
  obtain ⟨⟨tk, lr, lw, cl, el, hi⟩, ⟨tk', lr', lw', cl', el', hi'⟩, -⟩ := SysInv.reach h
  have hev : g.events = [] := by
    cases hx : g.events with
    | nil => rfl
    | cons x rest => exact absurd (.handle g x rest he hl hx) (hq _)
  have q1 := lane_quiet (quit := g.quit) (ok := g.listening && decide (g.events.length < eventCapacity)) hi ha (by
    intro f l' hf hs
    obtain ⟨q, hc⟩ := channel_ready g .enc f hf
    exact hq _ (.encoder g .work f l' q he hs hc))
  have q2 := lane_quiet (quit := g.quit) (ok := g.listening && decide (g.events.length < eventCapacity)) hi' hb (by
    intro f l' hf hs
    obtain ⟨q, hc⟩ := channel_ready g .dec f hf
    exact hq _ (.decoder g .work f l' q he hs hc))
  rw [hev, List.append_nil] at q1 q2
  exact ⟨⟨tk, q1.1, q1.2.1, q1.2.2.1, q1.2.2.2⟩, tk', q2.1, q2.2.1, q2.2.2.1, q2.2.2.2⟩

/-- Runs of the gateway's own steps. -/
inductive Works (me : Machine σ) (md : Machine τ) (g : System σ τ) : System σ τ → Prop
  | here : Works me md g g
  | step {a b : System σ τ} : Works me md g a → System.Step me md .work a b → Works me md g b

theorem Works.reach {me : Machine σ} {md : Machine τ} {g0 g g' : System σ τ} (h0 : System.Reach me md g0 g) (h : Works me md g g') :
    System.Reach me md g0 g' := by
  induction h with
  | here => exact h0
  | step _ hs ih => exact .step ih hs

/-- Own steps end a task only if the codec of its lane has panicked. -/
theorem alive_work {m : Machine σ} {quit : Bool} {f : Effect} {l l' : Lane σ} (h : Lane.Step m quit .work f l l')
    (ha : Alive l ∨ l.codec = .panicked) : (Alive l' ∨ l'.codec = .panicked) ∧ l'.received = l.received := by
  obtain ⟨rd, inq, cd, outq, wr, rcv, snt⟩ := l
  cases h with
  | forward _ b e hl hg =>
    refine ⟨?_, rfl⟩
    rcases ha with ⟨a1, a2, a3⟩ | hp
    · exact .inl ⟨by simp, a2, a3⟩
    · exact .inr hp
  | forwardFails _ b e hg =>
    refine ⟨?_, rfl⟩
    rcases ha with ⟨a1, a2, a3⟩ | hp
    · rw [a2] at hg; cases hg
    · exact .inr hp
  | take _ t b rest clock e hq =>
    refine ⟨?_, rfl⟩
    rcases ha with ⟨a1, a2, a3⟩ | hp
    · exact .inl ⟨a1, rfl, a3⟩
    · rw [e] at hp; cases hp
  | emit _ e es r hc =>
    refine ⟨?_, rfl⟩
    rcases ha with ⟨a1, a2, a3⟩ | hp
    · exact .inl ⟨a1, rfl, a3⟩
    · rw [hc] at hp; cases hp
  | emitFails _ e es r hc => exact ⟨.inr rfl, rfl⟩
  | done _ out t hc =>
    refine ⟨?_, rfl⟩
    rcases ha with ⟨a1, a2, a3⟩ | hp
    · exact .inl ⟨a1, rfl, a3⟩
    · rw [hc] at hp; cases hp
  | crash _ hc => exact ⟨.inr rfl, rfl⟩
  | hand _ out t hc hl hg =>
    refine ⟨?_, rfl⟩
    rcases ha with ⟨a1, a2, a3⟩ | hp
    · exact .inl ⟨a1, rfl, a3⟩
    · rw [hc] at hp; cases hp
  | handFails _ out t hc hg => exact ⟨.inr rfl, rfl⟩
  | pick _ b rest e hq =>
    refine ⟨?_, rfl⟩
    rcases ha with ⟨a1, a2, a3⟩ | hp
    · exact .inl ⟨a1, a2, by simp⟩
    · exact .inr hp
  | send _ b e =>
    refine ⟨?_, rfl⟩
    rcases ha with ⟨a1, a2, a3⟩ | hp
    · exact .inl ⟨a1, a2, by simp⟩
    · exact .inr hp
  | writerEnds _ e _ hg =>
    refine ⟨?_, rfl⟩
    rcases ha with ⟨a1, a2, a3⟩ | hp
    · rw [a2] at hg; cases hg
    · exact .inr hp

theorem works_alive {me : Machine σ} {md : Machine τ} {g g' : System σ τ} (h : Works me md g g') (hl : g.listening = true)
    (ha : Alive g.enc) (hb : Alive g.dec) :
    (Alive g'.enc ∨ g'.enc.codec = .panicked) ∧ (Alive g'.dec ∨ g'.dec.codec = .panicked) ∧ g'.listening = true
    ∧ g'.enc.received = g.enc.received ∧ g'.dec.received = g.dec.received := by
  induction h with
  | here => exact ⟨.inl ha, .inl hb, hl, rfl, rfl⟩
  | step _ hs ih =>
    obtain ⟨i1, i2, i3, i4, i5⟩ := ih
    cases hs with
    | encoder _ _ f l q _ hs _ => obtain ⟨j1, j2⟩ := alive_work hs i1; exact ⟨j1, i2, i3, j2.trans i4, i5⟩
    | decoder _ _ f l q _ hs _ => obtain ⟨j1, j2⟩ := alive_work hs i2; exact ⟨i1, j1, i3, i4, j2.trans i5⟩
    | handle _ x rest _ _ he => exact ⟨i1, i2, i3, i4, i5⟩
    | exit _ _ _ => exact ⟨i1, i2, i3, i4, i5⟩

/-- **C49.** From every reachable state with all tasks present the gateway, left to itself, comes to rest, on every schedule:
each run of its own steps can be continued to one that can not be continued further, and then either the program has ended
after a panic of a codec or everything received has been delivered. -/
theorem C49_drains {me : Machine σ} {md : Machine τ} {s : σ} {t : τ} {g g1 : System σ τ}
    (h : System.Reach me md (System.start s t) g) (hl : g.listening = true) (ha : Alive g.enc) (hb : Alive g.dec)
    (h1 : Works me md g g1) : ∃ g2, Works me md g1 g2 ∧ (∀ g3, ¬ System.Step me md .work g2 g3)
      ∧ (g2.ended = true ∨ (g2.enc.received = g.enc.received ∧ g2.dec.received = g.dec.received ∧
          Delivered me s .enc g2.enc g2.handled ∧ Delivered md t .dec g2.dec g2.handled)) := by
  have trans : ∀ {a b c : System σ τ}, Works me md a b → Works me md b c → Works me md a c := by
    intro a b c x y
    induction y with
    | here => exact x
    | step _ hs ih => exact .step ih hs
  have rest : ∃ g2, Works me md g1 g2 ∧ ∀ g3, ¬ System.Step me md .work g2 g3 := by
    clear h1
    induction g1 using (C49_terminates me md).induction with
    | _ x ih =>
      by_cases hx : ∃ y, System.Step me md .work x y
      · obtain ⟨y, hy⟩ := hx
        obtain ⟨z, hz, hz'⟩ := ih y hy
        exact ⟨z, trans (.step .here hy) hz, hz'⟩
      · exact ⟨x, .here, fun y hy => hx ⟨y, hy⟩⟩
  obtain ⟨g2, hw, hq⟩ := rest
  refine ⟨g2, hw, hq, ?_⟩
  obtain ⟨i1, i2, i3, i4, i5⟩ := works_alive (trans h1 hw) hl ha hb
  cases he : g2.ended with
  | true => exact .inl rfl
  | false =>
    right
    have p1 : Alive g2.enc := i1.resolve_right fun hp => hq _ (.exit g2 he (.inl hp))
    have p2 : Alive g2.dec := i2.resolve_right fun hp => hq _ (.exit g2 he (.inr hp))
    exact ⟨i4, i5, C49_quiet_delivered (Works.reach h (trans h1 hw)) he i3 p1 p2 hq⟩

end

end Verif.Props

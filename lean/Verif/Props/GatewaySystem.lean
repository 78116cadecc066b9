import Verif.Gateway.System
import Verif.Props.GatewayEncode
import Verif.Props.GatewayDecode
import Verif.Props.GatewayStats

/-! # C46, C48, C49: the running gateway -/

namespace Verif.Props
open Verif.Gateway Verif.Codec

/-! ## Specification -/

/-- The outputs for a list of packets, taken one after the other, up to the first panic. -/
def outputs {σ : Type} (m : Machine σ) : σ → List ((Nat → Nat) × Bytes) → List Bytes
  | _, [] => []
  | s, (c, b) :: rest => match (m c s b).2 with
    | none => []
    | some (out, s') => out :: outputs m s' rest
/-- The events for a list of packets, up to the first panic. -/
def eventsFor {σ : Type} (m : Machine σ) : σ → List ((Nat → Nat) × Bytes) → List Event
  | _, [] => []
  | s, (c, b) :: rest => (m c s b).1 ++ match (m c s b).2 with
    | none => []
    | some (_, s') => eventsFor m s' rest
/-- The state after a list of packets, unless one of them panics. -/
def stateAfter {σ : Type} (m : Machine σ) : σ → List ((Nat → Nat) × Bytes) → Option σ
  | s, [] => some s
  | s, (c, b) :: rest => match (m c s b).2 with
    | none => none
    | some (_, s') => stateAfter m s' rest

/-- The events of one lane. -/
def ofSide (side : Side) (l : List (Side × Event)) : List Event := l.filterMap fun x => if x.1 = side then some x.2 else none

/-! ## Lemmas -/

section
variable {σ τ : Type}

theorem outputs_snoc {m : Machine σ} {s s' : σ} {l : List ((Nat → Nat) × Bytes)} (h : stateAfter m s l = some s') (c : Nat → Nat) (b : Bytes) :
    outputs m s (l ++ [(c, b)]) = outputs m s l ++ ((m c s' b).2.map (·.1)).toList := by
  induction l generalizing s with
  | nil =>
    simp only [stateAfter, Option.some.injEq] at h
    subst h
    simp only [outputs, List.nil_append]
    cases (m c s b).2 <;> rfl
  | cons x l ih =>
    obtain ⟨c', b'⟩ := x
    simp only [stateAfter] at h
    simp only [outputs, List.cons_append]
    cases hx : (m c' s b').2 with
    | none => rw [hx] at h; cases h
    | some r => rw [hx] at h; simp only [ih h, List.cons_append]
theorem eventsFor_snoc {m : Machine σ} {s s' : σ} {l : List ((Nat → Nat) × Bytes)} (h : stateAfter m s l = some s') (c : Nat → Nat) (b : Bytes) :
    eventsFor m s (l ++ [(c, b)]) = eventsFor m s l ++ (m c s' b).1 := by
  induction l generalizing s with
  | nil =>
    simp only [stateAfter, Option.some.injEq] at h
    subst h
    simp only [eventsFor, List.nil_append]
    cases (m c s b).2 <;> simp
  | cons x l ih =>
    obtain ⟨c', b'⟩ := x
    simp only [stateAfter] at h
    simp only [eventsFor, List.cons_append]
    cases hx : (m c' s b').2 with
    | none => rw [hx] at h; cases h
    | some r => rw [hx] at h; simp only [ih h, List.append_assoc]
theorem stateAfter_snoc {m : Machine σ} {s s' : σ} {l : List ((Nat → Nat) × Bytes)} (h : stateAfter m s l = some s') (c : Nat → Nat) (b : Bytes) :
    stateAfter m s (l ++ [(c, b)]) = (m c s' b).2.map (·.2) := by
  induction l generalizing s with
  | nil =>
    simp only [stateAfter, Option.some.injEq] at h
    subst h
    simp only [stateAfter, List.nil_append]
    cases (m c s b).2 <;> rfl
  | cons x l ih =>
    obtain ⟨c', b'⟩ := x
    simp only [stateAfter] at h
    simp only [stateAfter, List.cons_append]
    cases hx : (m c' s b').2 with
    | none => rw [hx] at h; cases h
    | some r => rw [hx] at h; simp only [ih h]

theorem outputs_length {m : Machine σ} (s : σ) (l : List ((Nat → Nat) × Bytes)) :
    (outputs m s l).length ≤ l.length ∧ (stateAfter m s l ≠ none → (outputs m s l).length = l.length) := by
  induction l generalizing s with
  | nil => simp [outputs]
  | cons x l ih =>
    obtain ⟨c, b⟩ := x
    simp only [outputs, stateAfter]
    cases hx : (m c s b).2 with
    | none => simp
    | some r => simp only [List.length_cons]; have := ih r.2; exact ⟨by omega, fun hn => by rw [this.2 hn]⟩

/-- What the reader holds. -/
def heldByReader : ReaderTask → List Bytes
  | .holding b => [b]
  | _ => []
def heldByWriter : WriterTask → List Bytes
  | .holding b => [b]
  | _ => []

/-- The invariant of a lane that started in state `s`: `taken` are the packets that the codec has taken, `lostR` and `lostW`
what the reader and the writer dropped when they stopped, `el` and `cl` the events and the packet that the codec still has to
deliver (or dropped in a panic). -/
structure LaneInv (m : Machine σ) (s : σ) (l : Lane σ) (emitted : List Event) (taken : List ((Nat → Nat) × Bytes))
    (lostR lostW cl : List Bytes) (el : List Event) : Prop where
  received : l.received = taken.map (·.2) ++ (l.inq ++ (heldByReader l.reader ++ lostR))
  lostR : lostR ≠ [] → l.reader = .stopped ∧ l.codec.gone = true
  sent : l.sent ++ (heldByWriter l.writer ++ (lostW ++ (l.outq ++ cl))) = outputs m s taken
  lostW : lostW ≠ [] → l.writer = .stopped
  events : emitted ++ el = eventsFor m s taken
  codec : match l.codec with
    | .idle t => stateAfter m s taken = some t ∧ cl = [] ∧ el = []
    | .busy es r => stateAfter m s taken = r.map (·.2) ∧ cl = (r.map (·.1)).toList ∧ el = es
    | .sending out t => stateAfter m s taken = some t ∧ cl = [out] ∧ el = []
    | .stopped => cl = [] ∧ el = []
    | .panicked => True
  inq : l.inq.length ≤ dataCapacity
  outq : l.outq.length ≤ dataCapacity
  count : taken.length ≤ (outputs m s taken).length + 1

def emitsOf : Effect → List Event
  | .emits e => [e]
  | _ => []

theorem LaneInv.step {m : Machine σ} {s : σ} {l l' : Lane σ} {emitted : List Event} {quit : Bool} {k : Kind} {f : Effect}
    (h : ∃ taken lostR lostW cl el, LaneInv m s l emitted taken lostR lostW cl el) (hs : Lane.Step m quit k f l l') :
    ∃ taken lostR lostW cl el, LaneInv m s l' (emitted ++ emitsOf f) taken lostR lostW cl el := by
  obtain ⟨taken, lostR, lostW, cl, el, h⟩ := h
  obtain ⟨h1, h2, h3, h4, h5, h6, h7, h8, h9⟩ := h
  obtain ⟨rd, inq, cd, outq, wr, rcv, snt⟩ := l
  dsimp only at h1 h2 h3 h4 h5 h6 h7 h8
  cases hs with
  | arrive _ d e =>
    dsimp only at e; subst e
    refine ⟨taken, lostR, lostW, cl, el, ?_, ?_, h3, h4, by simpa [emitsOf] using h5, h6, h7, h8, h9⟩
    · have : lostR = [] := by by_contra hn; exact absurd (h2 hn).1 (by simp)
      subst this
      simp [h1, heldByReader]
    · intro hn; exact absurd (h2 hn).1 (by simp)
  | arriveOwn _ d e => exact ⟨taken, lostR, lostW, cl, el, h1, h2, h3, h4, by simpa [emitsOf] using h5, h6, h7, h8, h9⟩
  | readFails _ e =>
    dsimp only at e; subst e
    exact ⟨taken, lostR, lostW, cl, el, h1, fun hn => absurd (h2 hn).1 (by simp), h3, h4, by simpa [emitsOf] using h5, h6, h7, h8, h9⟩
  | readerQuits _ e _ =>
    dsimp only at e; subst e
    exact ⟨taken, lostR, lostW, cl, el, h1, fun hn => absurd (h2 hn).1 (by simp), h3, h4, by simpa [emitsOf] using h5, h6, h7, h8, h9⟩
  | forward _ b e hl hg =>
    dsimp only at e hl hg; subst e
    refine ⟨taken, lostR, lostW, cl, el, ?_, fun hn => absurd (h2 hn).1 (by simp), h3, h4, by simpa [emitsOf] using h5, h6, ?_, h8, h9⟩
    · simp only [h1, heldByReader, List.append_assoc, List.nil_append]
    · simp only [List.length_append, List.length_cons, List.length_nil]; omega
  | forwardFails _ b e hg =>
    dsimp only at e hg; subst e
    have : lostR = [] := by by_contra hn; exact absurd (h2 hn).1 (by simp)
    subst this
    refine ⟨taken, [b], lostW, cl, el, ?_, fun _ => ⟨rfl, hg⟩, h3, h4, by simpa [emitsOf] using h5, h6, h7, h8, h9⟩
    simp only [h1, heldByReader, List.append_nil, List.nil_append]
  | take _ t b rest clock e hq =>
    dsimp only at e hq; subst e hq
    obtain ⟨g1, g2, g3⟩ := h6
    subst g2 g3
    refine ⟨taken ++ [(clock, b)], lostR, lostW, _, _, ?_, ?_, ?_, h4, ?_, ⟨?_, rfl, rfl⟩, ?_, h8, ?_⟩
    · simp [h1]
    · intro hn; exact absurd (h2 hn).2 (by simp [CodecTask.gone])
    · rw [outputs_snoc g1, ← h3]; simp
    · rw [eventsFor_snoc g1, ← h5]; simp [emitsOf]
    · exact stateAfter_snoc g1 ..
    · simp only [List.length_cons] at h7; dsimp only; omega
    · rw [outputs_snoc g1]
      have := (outputs_length (m := m) s taken).2 (by rw [g1]; simp)
      simp only [List.length_append, List.length_cons, List.length_nil]; omega
  | emit _ e es r hc =>
    dsimp only at hc; subst hc
    obtain ⟨g1, g2, g3⟩ := h6
    subst g3
    refine ⟨taken, lostR, lostW, cl, es, h1, ?_, h3, h4, ?_, ⟨g1, g2, rfl⟩, h7, h8, h9⟩
    · intro hn; exact absurd (h2 hn).2 (by simp [CodecTask.gone])
    · rw [← h5]; simp [emitsOf]
  | emitFails _ e es r hc =>
    dsimp only at hc; subst hc
    refine ⟨taken, lostR, lostW, cl, el, h1, ?_, h3, h4, by simpa [emitsOf] using h5, trivial, h7, h8, h9⟩
    intro hn; exact absurd (h2 hn).2 (by simp [CodecTask.gone])
  | done _ out t hc =>
    dsimp only at hc; subst hc
    obtain ⟨g1, g2, g3⟩ := h6
    refine ⟨taken, lostR, lostW, cl, el, h1, ?_, h3, h4, by simpa [emitsOf] using h5, ⟨g1, g2, g3⟩, h7, h8, h9⟩
    intro hn; exact absurd (h2 hn).2 (by simp [CodecTask.gone])
  | crash _ hc =>
    dsimp only at hc; subst hc
    refine ⟨taken, lostR, lostW, cl, el, h1, ?_, h3, h4, by simpa [emitsOf] using h5, trivial, h7, h8, h9⟩
    intro hn; exact absurd (h2 hn).2 (by simp [CodecTask.gone])
  | hand _ out t hc hl hg =>
    dsimp only at hc hl hg; subst hc
    obtain ⟨g1, g2, g3⟩ := h6
    subst g2 g3
    refine ⟨taken, lostR, lostW, [], [], h1, ?_, ?_, h4, by simpa [emitsOf] using h5, ⟨g1, rfl, rfl⟩, h7, ?_, h9⟩
    · intro hn; exact absurd (h2 hn).2 (by simp [CodecTask.gone])
    · simpa using h3
    · simp only [List.length_append, List.length_cons, List.length_nil]; omega
  | handFails _ out t hc hg =>
    dsimp only at hc hg; subst hc
    refine ⟨taken, lostR, lostW, cl, el, h1, ?_, h3, h4, by simpa [emitsOf] using h5, trivial, h7, h8, h9⟩
    intro hn; exact absurd (h2 hn).2 (by simp [CodecTask.gone])
  | codecQuits _ t hc _ =>
    dsimp only at hc; subst hc
    obtain ⟨g1, g2, g3⟩ := h6
    refine ⟨taken, lostR, lostW, cl, el, h1, ?_, h3, h4, by simpa [emitsOf] using h5, ⟨g2, g3⟩, h7, h8, h9⟩
    intro hn; exact absurd (h2 hn).2 (by simp [CodecTask.gone])
  | pick _ b rest e hq =>
    dsimp only at e hq; subst e hq
    have : lostW = [] := by by_contra hn; exact absurd (h4 hn) (by simp)
    subst this
    refine ⟨taken, lostR, [], cl, el, h1, h2, ?_, by simp, by simpa [emitsOf] using h5, h6, h7, ?_, h9⟩
    · simpa [heldByWriter] using h3
    · simp only [List.length_cons] at h8; dsimp only; omega
  | send _ b e =>
    dsimp only at e; subst e
    refine ⟨taken, lostR, lostW, cl, el, h1, h2, ?_, ?_, by simpa [emitsOf] using h5, h6, h7, h8, h9⟩
    · simpa [heldByWriter] using h3
    · intro hn; exact absurd (h4 hn) (by simp)
  | sendFails _ b e =>
    dsimp only at e; subst e
    have : lostW = [] := by by_contra hn; exact absurd (h4 hn) (by simp)
    subst this
    refine ⟨taken, lostR, [b], cl, el, h1, h2, ?_, fun _ => rfl, by simpa [emitsOf] using h5, h6, h7, h8, h9⟩
    simpa [heldByWriter] using h3
  | writerEnds _ e _ _ =>
    dsimp only at e; subst e
    exact ⟨taken, lostR, lostW, cl, el, h1, h2, h3, fun _ => rfl, by simpa [emitsOf] using h5, h6, h7, h8, h9⟩
  | writerQuits _ e _ =>
    dsimp only at e; subst e
    exact ⟨taken, lostR, lostW, cl, el, h1, h2, h3, fun _ => rfl, by simpa [emitsOf] using h5, h6, h7, h8, h9⟩

theorem ofSide_append (side : Side) (a b : List (Side × Event)) : ofSide side (a ++ b) = ofSide side a ++ ofSide side b := by
  simp [ofSide, List.filterMap_append]

/-- The invariant of the gateway. -/
structure SysInv (me : Machine σ) (md : Machine τ) (s : σ) (t : τ) (g : System σ τ) : Prop where
  enc : ∃ taken lostR lostW cl el, LaneInv me s g.enc (ofSide .enc (g.handled ++ g.events)) taken lostR lostW cl el
  dec : ∃ taken lostR lostW cl el, LaneInv md t g.dec (ofSide .dec (g.handled ++ g.events)) taken lostR lostW cl el
  events : g.events.length ≤ eventCapacity

theorem channel_ofSide {g : System σ τ} {side : Side} {f : Effect} {q : List (Side × Event)} (h : g.channel side f = some q) :
    ofSide side (g.handled ++ q) = ofSide side (g.handled ++ g.events) ++ emitsOf f
    ∧ (∀ other, other ≠ side → ofSide other (g.handled ++ q) = ofSide other (g.handled ++ g.events))
    ∧ (g.events.length ≤ eventCapacity → q.length ≤ eventCapacity) := by
  cases f with
  | silent =>
    simp only [System.channel, Option.some.injEq] at h; subst h
    exact ⟨by simp [emitsOf], fun _ _ => rfl, id⟩
  | emits e =>
    simp only [System.channel] at h
    split at h
    · rename_i hc
      simp only [Option.some.injEq] at h; subst h
      simp only [Bool.and_eq_true, decide_eq_true_eq] at hc
      refine ⟨?_, fun other ho => ?_, fun _ => ?_⟩
      · simp only [ofSide_append, emitsOf, List.append_assoc]
        congr 1; congr 1; simp [ofSide]
      · simp only [ofSide_append]
        have : ofSide other [(side, e)] = [] := by simp [ofSide, Ne.symm ho]
        simp [this]
      · simp only [List.length_append, List.length_cons, List.length_nil]; omega
    · cases h
  | refused =>
    simp only [System.channel] at h
    split at h
    · cases h
    · simp only [Option.some.injEq] at h; subst h
      exact ⟨by simp [emitsOf], fun _ _ => rfl, id⟩

theorem SysInv.step {me : Machine σ} {md : Machine τ} {s : σ} {t : τ} {g g' : System σ τ} {k : Kind}
    (h : SysInv me md s t g) (hs : System.Step me md k g g') : SysInv me md s t g' := by
  obtain ⟨h1, h2, h3⟩ := h
  cases hs with
  | encoder _ _ f l q _ hl hq =>
    obtain ⟨c1, c2, c3⟩ := channel_ofSide hq
    refine ⟨?_, ?_, c3 h3⟩
    · show ∃ taken lostR lostW cl el, LaneInv me s l (ofSide .enc (g.handled ++ q)) taken lostR lostW cl el
      rw [c1]; exact LaneInv.step h1 hl
    · show ∃ taken lostR lostW cl el, LaneInv md t g.dec (ofSide .dec (g.handled ++ q)) taken lostR lostW cl el
      rw [c2 .dec (by simp)]; exact h2
  | decoder _ _ f l q _ hl hq =>
    obtain ⟨c1, c2, c3⟩ := channel_ofSide hq
    refine ⟨?_, ?_, c3 h3⟩
    · show ∃ taken lostR lostW cl el, LaneInv me s g.enc (ofSide .enc (g.handled ++ q)) taken lostR lostW cl el
      rw [c2 .enc (by simp)]; exact h1
    · show ∃ taken lostR lostW cl el, LaneInv md t l (ofSide .dec (g.handled ++ q)) taken lostR lostW cl el
      rw [c1]; exact LaneInv.step h2 hl
  | handle _ x rest _ _ he =>
    have : (g.handled ++ [x]) ++ rest = g.handled ++ g.events := by rw [he]; simp
    refine ⟨?_, ?_, ?_⟩
    · show ∃ taken lostR lostW cl el, LaneInv me s g.enc (ofSide .enc ((g.handled ++ [x]) ++ rest)) taken lostR lostW cl el
      rw [this]; exact h1
    · show ∃ taken lostR lostW cl el, LaneInv md t g.dec (ofSide .dec ((g.handled ++ [x]) ++ rest)) taken lostR lostW cl el
      rw [this]; exact h2
    · show rest.length ≤ _
      rw [he, List.length_cons] at h3; omega
  | statsQuits _ _ _ _ => exact ⟨h1, h2, h3⟩
  | command _ _ => exact ⟨h1, h2, h3⟩
  | exit _ _ _ => exact ⟨h1, h2, h3⟩

theorem SysInv.start (me : Machine σ) (md : Machine τ) (s : σ) (t : τ) : SysInv me md s t (System.start s t) :=
  ⟨⟨[], [], [], [], [], rfl, by simp, rfl, by simp, rfl, ⟨rfl, rfl, rfl⟩, by simp [System.start], by simp [System.start], by simp⟩,
   ⟨[], [], [], [], [], rfl, by simp, rfl, by simp, rfl, ⟨rfl, rfl, rfl⟩, by simp [System.start], by simp [System.start], by simp⟩,
   by simp [System.start]⟩

theorem SysInv.reach {me : Machine σ} {md : Machine τ} {s : σ} {t : τ} {g : System σ τ}
    (h : System.Reach me md (System.start s t) g) : SysInv me md s t g := by
  induction h with
  | here => exact SysInv.start ..
  | step _ hs ih => exact ih.step hs

/-! ## C48: in order, nothing lost, nothing twice -/

/-- **C48.** In every reachable state, whatever the schedule, the failures and the commands so far: the datagrams sent are, in
order and one for each, the codec's results for the first datagrams received; and the events of the codec that reached the
statistics are, in order, the first events for those same datagrams.  `taken` are the first datagrams received, each with the
times at which its PDUs were handled. -/
theorem C48_in_order {me : Machine σ} {md : Machine τ} {s : σ} {t : τ} {g : System σ τ} (h : System.Reach me md (System.start s t) g) :
    (∃ taken, taken.map (·.2) <+: g.enc.received ∧ g.enc.sent <+: outputs me s taken
      ∧ ofSide .enc g.handled <+: eventsFor me s taken)
    ∧ ∃ taken, taken.map (·.2) <+: g.dec.received ∧ g.dec.sent <+: outputs md t taken
      ∧ ofSide .dec g.handled <+: eventsFor md t taken := by
  obtain ⟨⟨tk, lr, lw, cl, el, h1, h2, h3, h4, h5, -⟩, ⟨tk', lr', lw', cl', el', h1', h2', h3', h4', h5', -⟩, -⟩ := SysInv.reach h
  refine ⟨⟨tk, ⟨_, h1.symm⟩, ⟨_, h3⟩, ⟨ofSide .enc g.events ++ el, ?_⟩⟩, tk', ⟨_, h1'.symm⟩, ⟨_, h3'⟩, ⟨ofSide .dec g.events ++ el', ?_⟩⟩
  · rw [← h5, ofSide_append, List.append_assoc]
  · rw [← h5', ofSide_append, List.append_assoc]

/-- A lane none of whose tasks has ended. -/
def Alive (l : Lane σ) : Prop := l.reader ≠ .stopped ∧ l.codec.gone = false ∧ l.writer ≠ .stopped

/-- **C48.** While its tasks run, a lane never holds more than 43 datagrams: what was received and is not yet sent is bounded,
the readers wait.  The event channel never holds more than 50 events. -/
theorem C48_bounded {me : Machine σ} {md : Machine τ} {s : σ} {t : τ} {g : System σ τ} (h : System.Reach me md (System.start s t) g) :
    (Alive g.enc → g.enc.received.length ≤ g.enc.sent.length + 43)
    ∧ (Alive g.dec → g.dec.received.length ≤ g.dec.sent.length + 43) ∧ g.events.length ≤ 50 := by
  have key : ∀ {σ : Type} {m : Machine σ} {s : σ} {l : Lane σ} {em : List Event},
      (∃ taken lostR lostW cl el, LaneInv m s l em taken lostR lostW cl el) → Alive l →
      l.received.length ≤ l.sent.length + 43 := by
    intro σ m s l em h ha
    obtain ⟨taken, lr, lw, cl, el, h1, h2, h3, h4, h5, h6, h7, h8, h9⟩ := h
    obtain ⟨a1, a2, a3⟩ := ha
    have e1 : lr = [] := by by_contra hn; exact a1 (h2 hn).1
    have e2 : lw = [] := by by_contra hn; exact a3 (h4 hn)
    subst e1 e2
    have hr : (heldByReader l.reader).length ≤ 1 := by cases l.reader <;> simp [heldByReader]
    have hw : (heldByWriter l.writer).length ≤ 1 := by cases l.writer <;> simp [heldByWriter]
    have hc : cl.length + taken.length ≤ (outputs m s taken).length + 1 := by
      have hl := outputs_length (m := m) s taken
      cases hcd : l.codec with
      | idle u =>
        rw [hcd] at h6; obtain ⟨g1, rfl, -⟩ := h6
        have := hl.2 (by rw [g1]; simp)
        simp only [List.length_nil]; omega
      | busy es r =>
        rw [hcd] at h6; obtain ⟨g1, rfl, -⟩ := h6
        cases r with
        | some r => have := hl.2 (by rw [g1]; simp); simp; omega
        | none => simpa using h9
      | sending out u =>
        rw [hcd] at h6; obtain ⟨g1, rfl, -⟩ := h6
        have := hl.2 (by rw [g1]; simp)
        simp; omega
      | stopped => rw [hcd] at a2; simp [CodecTask.gone] at a2
      | panicked => rw [hcd] at a2; simp [CodecTask.gone] at a2
    have l1 := congrArg List.length h1
    have l3 := congrArg List.length h3
    simp only [List.length_append, List.length_map, List.length_nil] at l1 l3
    unfold dataCapacity at h7 h8
    omega
  obtain ⟨i1, i2, i3⟩ := SysInv.reach h
  exact ⟨key i1, key i2, i3⟩

end

end Verif.Props

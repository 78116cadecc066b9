import Verif.Props.GatewayLive

/-! # C46: what ends the gateway -/

namespace Verif.Props
open Verif.Gateway Verif.Codec

section
variable {σ τ : Type}

/-- Runs without disturbance: no socket fails and no Quit command is given. -/
inductive Smooth (me : Machine σ) (md : Machine τ) (g : System σ τ) : System σ τ → Prop
  | here : Smooth me md g g
  | step {a b : System σ τ} {k : Kind} : Smooth me md g a → System.Step me md k a b → k ≠ .disturbance → Smooth me md g b

theorem Smooth.reach {me : Machine σ} {md : Machine τ} {g0 g : System σ τ} (h : Smooth me md g0 g) : System.Reach me md g0 g := by
  induction h with
  | here => exact .here
  | step _ hs _ ih => exact .step ih hs

/-- Without disturbance a task ends only after the codec of its lane has panicked. -/
theorem alive_smooth {m : Machine σ} {quit : Bool} {k : Kind} {f : Effect} {l l' : Lane σ} (h : Lane.Step m quit k f l l')
    (hk : k ≠ .disturbance) (ha : Alive l ∨ l.codec = .panicked) : Alive l' ∨ l'.codec = .panicked := by
  cases k with
  | disturbance => exact absurd rfl hk
  | work => exact (alive_work h ha).1
  | input =>
    cases h with
    | arrive _ d e =>
      rcases ha with ⟨a1, a2, a3⟩ | hp
      · exact .inl ⟨by simp, a2, a3⟩
      · exact .inr hp
    | arriveOwn _ d e => exact ha

theorem smooth_alive {me : Machine σ} {md : Machine τ} {s : σ} {t : τ} {g : System σ τ} (h : Smooth me md (System.start s t) g) :
    (Alive g.enc ∨ g.enc.codec = .panicked) ∧ (Alive g.dec ∨ g.dec.codec = .panicked) ∧ g.listening = true ∧ g.quit = false := by
  induction h with
  | here => exact ⟨.inl ⟨by simp [System.start], rfl, by simp [System.start]⟩, .inl ⟨by simp [System.start], rfl, by simp [System.start]⟩, rfl, rfl⟩
  | step _ hs hk ih =>
    obtain ⟨i1, i2, i3, i4⟩ := ih
    cases hs with
    | encoder _ _ f l q _ hs _ => exact ⟨alive_smooth hs hk i1, i2, i3, i4⟩
    | decoder _ _ f l q _ hs _ => exact ⟨i1, alive_smooth hs hk i2, i3, i4⟩
    | handle _ x rest _ _ he => exact ⟨i1, i2, i3, i4⟩
    | exit _ _ _ => exact ⟨i1, i2, i3, i4⟩
    | statsQuits _ _ _ _ => exact absurd rfl hk
    | command _ _ => exact absurd rfl hk

/-- The codec never panics by itself, whatever packets it has been given. -/
def NeverPanics (m : Machine σ) (s : σ) : Prop := ∀ packets, stateAfter m s packets ≠ none

/-- The codec does not panic by itself on these packets, at whatever times it handles them. -/
def Survives (m : Machine σ) (s : σ) (received : List Bytes) : Prop :=
  ∀ packets : List ((Nat → Nat) × Bytes), packets.map (·.2) <+: received → stateAfter m s packets ≠ none
theorem NeverPanics.survives {m : Machine σ} {s : σ} (h : NeverPanics m s) (received : List Bytes) : Survives m s received :=
  fun packets _ => h packets
theorem Survives.before {m : Machine σ} {s : σ} {a b : List Bytes} (h : Survives m s b) (hp : a <+: b) : Survives m s a :=
  fun packets hq => h packets (hq.trans hp)

/-- What was received is not forgotten. -/
theorem lane_received {m : Machine σ} {quit : Bool} {k : Kind} {f : Effect} {l l' : Lane σ} (h : Lane.Step m quit k f l l') :
    l.received <+: l'.received := by
  cases h with
  | arrive => exact ⟨_, rfl⟩
  | _ => exact List.prefix_refl _
theorem step_received {me : Machine σ} {md : Machine τ} {k : Kind} {g g' : System σ τ} (h : System.Step me md k g g') :
    g.enc.received <+: g'.enc.received ∧ g.dec.received <+: g'.dec.received := by
  cases h with
  | encoder _ _ f l q _ hl _ => exact ⟨lane_received hl, List.prefix_refl _⟩
  | decoder _ _ f l q _ hl _ => exact ⟨List.prefix_refl _, lane_received hl⟩
  | _ => exact ⟨List.prefix_refl _, List.prefix_refl _⟩

/-- A lane's codec panics in a step. -/
theorem panic_cause {m : Machine σ} {quit : Bool} {k : Kind} {f : Effect} {l l' : Lane σ} (h : Lane.Step m quit k f l l')
    (h0 : l.codec ≠ .panicked) (h1 : l'.codec = .panicked) :
    f = .refused ∨ l.codec = .busy [] none ∨ l.writer.gone = true := by
  cases h with
  | emitFails => exact .inl rfl
  | crash _ hc => exact .inr (.inl hc)
  | handFails _ out t hc hg => exact .inr (.inr hg)
  | take => cases h1
  | emit => cases h1
  | done => cases h1
  | hand => cases h1
  | codecQuits => cases h1
  | _ => exact absurd h1 h0

/-- **C46.** As long as no socket fails and no Quit command is given, and the codecs do not panic by themselves on what was received (C65 says when they do), the only thing
that makes a codec panic is an event that finds 50 events unread in the channel. -/
theorem C46_only_overload {me : Machine σ} {md : Machine τ} {s : σ} {t : τ} {g g' : System σ τ}
    (hme : Survives me s g.enc.received) (hmd : Survives md t g.dec.received) {k : Kind} (h : Smooth me md (System.start s t) g) (hs : System.Step me md k g g')
    (h0 : g.enc.codec ≠ .panicked ∧ g.dec.codec ≠ .panicked) (h1 : g'.enc.codec = .panicked ∨ g'.dec.codec = .panicked) :
    g.events.length = 50 := by
  obtain ⟨a1, a2, a3, a4⟩ := smooth_alive h
  have b1 := a1.resolve_right h0.1
  have b2 := a2.resolve_right h0.2
  obtain ⟨i1, i2, i3⟩ := SysInv.reach h.reach
  have full : ∀ {side : Side} {q : List (Side × Event)}, g.channel side .refused = some q → g.events.length = 50 := by
    intro side q hq
    simp only [System.channel, a3, Bool.true_and] at hq
    split at hq
    · cases hq
    · rename_i hn
      simp only [decide_eq_true_eq] at hn
      unfold eventCapacity at hn i3
      omega
  have key : ∀ {σ : Type} {m : Machine σ} {s : σ} {l l' : Lane σ} {em : List Event} {f : Effect} {side : Side} {q : List (Side × Event)},
      Survives m s l.received → (∃ taken lostR lostW cl el, LaneInv m s l em taken lostR lostW cl el) → Alive l →
      Lane.Step m g.quit k f l l' → l'.codec = .panicked → g.channel side f = some q → g.events.length = 50 := by
    intro σ m s l l' em f side q hn hi ha hst hp hq
    rcases panic_cause hst (by intro hx; have := ha.2.1; rw [hx] at this; cases this) hp with rfl | hc | hw
    · exact full hq
    · obtain ⟨taken, lr, lw, cl, el, hi⟩ := hi
      have := hi.codec
      rw [hc] at this
      exact absurd this.1 (hn taken ⟨_, hi.1.symm⟩)
    · have := ha.2.2
      cases hx : l.writer <;> rw [hx] at hw this <;> first | exact absurd rfl this | cases hw
  cases hs with
  | encoder _ _ f l q _ hl hq => exact key hme i1 b1 hl (h1.resolve_right h0.2) hq
  | decoder _ _ f l q _ hl hq => exact key hmd i2 b2 hl (h1.resolve_left h0.1) hq
  | handle _ x rest _ _ he => rcases h1 with h1 | h1; exacts [absurd h1 h0.1, absurd h1 h0.2]
  | exit _ _ _ => rcases h1 with h1 | h1; exacts [absurd h1 h0.1, absurd h1 h0.2]
  | statsQuits _ _ _ _ => rcases h1 with h1 | h1; exacts [absurd h1 h0.1, absurd h1 h0.2]
  | command _ _ => rcases h1 with h1 | h1; exacts [absurd h1 h0.1, absurd h1 h0.2]

/-- The events that a codec still has to send for the packet it is working on. -/
def pending (l : Lane σ) : Nat := match l.codec with | .busy es _ => es.length | _ => 0

/-- Runs without disturbance in which, moreover, the unread events and those that the codecs are about to send never exceed
the channel: the statistics task keeps up. -/
inductive KeepsUp (me : Machine σ) (md : Machine τ) (g : System σ τ) : System σ τ → Prop
  | here : KeepsUp me md g g
  | step {a b : System σ τ} {k : Kind} : KeepsUp me md g a → System.Step me md k a b → k ≠ .disturbance →
      b.events.length + pending b.enc + pending b.dec ≤ 50 → KeepsUp me md g b

theorem KeepsUp.smooth {me : Machine σ} {md : Machine τ} {g0 g : System σ τ} (h : KeepsUp me md g0 g) : Smooth me md g0 g := by
  induction h with
  | here => exact .here
  | step _ hs hk _ ih => exact .step ih hs hk

/-- **C46.** If the statistics task keeps up, nothing panics and the gateway never ends by itself. -/
theorem C46_keeps_up {me : Machine σ} {md : Machine τ} {s : σ} {t : τ} {g : System σ τ}
    (hme : Survives me s g.enc.received) (hmd : Survives md t g.dec.received) (h : KeepsUp me md (System.start s t) g) :
    g.ended = false ∧ Alive g.enc ∧ Alive g.dec := by
  have key : g.ended = false ∧ g.enc.codec ≠ .panicked ∧ g.dec.codec ≠ .panicked ∧ g.events.length + pending g.enc + pending g.dec ≤ 50 := by
    induction h with
    | here => exact ⟨rfl, by simp [System.start], by simp [System.start], by simp [System.start, pending]⟩
    | @step a b k hr hs hk hb ih =>
      obtain ⟨r1, r2⟩ := step_received hs
      have ka := hme.before r1
      have kb := hmd.before r2
      obtain ⟨i1, i2, i3, i4⟩ := ih ka kb
      have hno : b.enc.codec ≠ .panicked ∧ b.dec.codec ≠ .panicked := by
        by_contra hc
        have h1 : b.enc.codec = .panicked ∨ b.dec.codec = .panicked := by tauto
        have hfull := C46_only_overload ka kb hr.smooth hs ⟨i2, i3⟩ h1
        have hz : pending a.enc = 0 ∧ pending a.dec = 0 := by omega
        obtain ⟨a1, a2, a3, -⟩ := smooth_alive hr.smooth
        have lane : ∀ {σ : Type} {m : Machine σ} {s : σ} {l l' : Lane σ} {em : List Event} {f : Effect} {q : Bool},
            Survives m s l.received → (∃ taken lostR lostW cl el, LaneInv m s l em taken lostR lostW cl el) → Alive l → pending l = 0 →
            Lane.Step m q k f l l' → l'.codec = .panicked → False := by
          intro σ m s l l' em f q hn hi ha hp hst hpan
          obtain ⟨taken, lr, lw, cl, el, hi⟩ := hi
          cases hst with
          | emitFails _ e es r hc => unfold pending at hp; rw [hc] at hp; simp at hp
          | crash _ hc => have := hi.codec; rw [hc] at this; exact absurd this.1 (hn taken ⟨_, hi.1.symm⟩)
          | handFails _ out t hc hg =>
            have := ha.2.2
            cases hx : l.writer <;> rw [hx] at hg this <;> first | exact absurd rfl this | cases hg
          | take => cases hpan
          | emit => cases hpan
          | done => cases hpan
          | hand => cases hpan
          | codecQuits => cases hpan
          | _ =>
            have h2 := ha.2.1
            have h3 : l.codec = .panicked := hpan
            rw [h3] at h2
            cases h2
        obtain ⟨j1, j2, -⟩ := SysInv.reach hr.smooth.reach
        cases hs with
        | encoder _ _ f l q _ hl hq => exact lane ka j1 (a1.resolve_right i2) hz.1 hl (h1.resolve_right i3)
        | decoder _ _ f l q _ hl hq => exact lane kb j2 (a2.resolve_right i3) hz.2 hl (h1.resolve_left i2)
        | handle _ x rest _ _ he => tauto
        | exit _ _ _ => tauto
        | statsQuits _ _ _ _ => tauto
        | command _ _ => tauto
      refine ⟨?_, hno.1, hno.2, hb⟩
      cases hs with
      | encoder _ _ f l q he hl hq => exact he
      | decoder _ _ f l q he hl hq => exact he
      | handle _ x rest he _ _ => exact he
      | exit _ _ hp => exact absurd hp (by tauto)
      | statsQuits _ he _ _ => exact he
      | command _ he => exact he
  obtain ⟨a1, a2, -⟩ := smooth_alive h.smooth
  exact ⟨key.1, a1.resolve_right key.2.1, a2.resolve_right key.2.2.1⟩

/-- The encoder sends its events while the statistics task does not run. -/
theorem burst {me : Machine σ} {md : Machine τ} (n : Nat) : ∀ (g : System σ τ) (es : List Event) (r : Option (Bytes × σ)), es.length = n →
    g.enc.codec = .busy es r → g.ended = false → g.listening = true → g.events.length ≤ 50 → 50 < g.events.length + es.length →
    ∃ g', Works me md g g' ∧ g'.ended = true ∧ g'.enc.received = g.enc.received ∧ g'.enc.sent = g.enc.sent := by
  induction n with
  | zero => intro g es r hn _ _ _ h1 h2; omega
  | succ n ih =>
    intro g es r hn hc he hl h1 h2
    obtain ⟨e, es', rfl⟩ : ∃ e es', es = e :: es' := by cases es with | nil => simp at hn | cons e es' => exact ⟨e, es', rfl⟩
    simp only [List.length_cons] at hn h2
    by_cases hf : g.events.length < eventCapacity
    · have hq : g.channel .enc (.emits e) = some (g.events ++ [(.enc, e)]) := by simp [System.channel, hl, hf]
      have st : System.Step me md .work g { g with enc := { g.enc with codec := .busy es' r }, events := g.events ++ [(.enc, e)] } :=
        .encoder g .work (.emits e) _ _ he (.emit g.enc e es' r hc) hq
      unfold eventCapacity at hf
      obtain ⟨g', hw, hg⟩ := ih { g with enc := { g.enc with codec := .busy es' r }, events := g.events ++ [(.enc, e)] } es' r (by omega) rfl he hl (by simp only [List.length_append, List.length_cons, List.length_nil]; omega)
        (by simp only [List.length_append, List.length_cons, List.length_nil]; omega)
      refine ⟨g', ?_, hg⟩
      clear ih hg
      induction hw with
      | here => exact .step .here st
      | step _ hs ih => exact .step ih hs
    · have hq : g.channel .enc .refused = some g.events := by simp [System.channel, hl, hf]
      have st : System.Step me md .work g { g with enc := { g.enc with codec := .panicked }, events := g.events } :=
        .encoder g .work .refused _ _ he (.emitFails g.enc e es' r hc) hq
      exact ⟨_, .step (.step .here st) (.exit _ he (.inl rfl)), rfl, rfl, rfl⟩

/-- **C46, violated.** A single packet with more than 50 events ends the program on some schedule, without any failure or
command: the encoder sends all its events without waiting, and nothing guarantees that the statistics task runs in between. -/
theorem C46_overload_violated (me : Machine σ) (md : Machine τ) (s : σ) (t : τ) (clock : Nat → Nat) (b : Bytes)
    (hb : b.length ≤ 1500) (he : 50 < (me clock s b).1.length) : ∃ g, Smooth me md (System.start s t) g ∧ g.ended = true
      ∧ g.enc.received = [b] ∧ g.enc.sent = [] := by
  have hb' : b.take readerBuffer = b := List.take_of_length_le hb
  let g0 : System σ τ := System.start s t
  let l1 : Lane σ := { g0.enc with reader := .holding (b.take readerBuffer), received := g0.enc.received ++ [b.take readerBuffer] }
  let g1 : System σ τ := { g0 with enc := l1, events := g0.events }
  have s1 : System.Step me md .input g0 g1 := .encoder g0 .input .silent l1 _ rfl (.arrive g0.enc b rfl) rfl
  let l2 : Lane σ := { l1 with reader := .waiting, inq := l1.inq ++ [b.take readerBuffer] }
  let g2 : System σ τ := { g1 with enc := l2, events := g1.events }
  have s2 : System.Step me md .work g1 g2 := .encoder g1 .work .silent l2 _ rfl (.forward l1 _ rfl (by simp [l1, g0, System.start, dataCapacity]) rfl) rfl
  let l3 : Lane σ := { l2 with inq := [], codec := .busy (me clock s (b.take readerBuffer)).1 (me clock s (b.take readerBuffer)).2 }
  let g3 : System σ τ := { g2 with enc := l3, events := g2.events }
  have s3 : System.Step me md .work g2 g3 := .encoder g2 .work .silent l3 _ rfl (.take l2 s _ [] clock rfl rfl) rfl
  obtain ⟨g', hw, hg, hr, hsnt⟩ := burst (me := me) (md := md) _ g3 _ _ rfl rfl rfl rfl (by simp [g3, g2, g1, g0, System.start])
    (by simp only [hb']; simp only [g3, g2, g1, g0, System.start, List.length_nil]; omega)
  have s0 : Smooth me md g0 g3 := .step (.step (.step .here s1 (by simp)) s2 (by simp)) s3 (by simp)
  have hs : Smooth me md g0 g' := by
    clear hg hr hsnt
    induction hw with
    | here => exact s0
    | step _ hs ih => exact .step ih hs (by simp)
  exact ⟨g', hs, hg, hr.trans (by simp [g3, l3, l2, l1, g0, System.start, hb']), hsnt⟩

/-- **C46, violated.** After a Quit command the statistics task may stop first: a codec that then takes a packet panics at
its first event, and the packet is lost. -/
theorem C46_quit_violated (me : Machine σ) (md : Machine τ) (s : σ) (t : τ) (clock : Nat → Nat) (b : Bytes)
    (hb : b.length ≤ 1500) (he : (me clock s b).1 ≠ []) : ∃ g, System.Reach me md (System.start s t) g ∧ g.quit = true
      ∧ g.enc.codec = .panicked ∧ g.enc.received = [b] ∧ g.enc.sent = [] ∧ g.handled = [] := by
  have hb' : b.take readerBuffer = b := List.take_of_length_le hb
  let g0 : System σ τ := System.start s t
  let l1 : Lane σ := { g0.enc with reader := .holding (b.take readerBuffer), received := g0.enc.received ++ [b.take readerBuffer] }
  let g1 : System σ τ := { g0 with enc := l1, events := g0.events }
  have s1 : System.Step me md .input g0 g1 := .encoder g0 .input .silent l1 _ rfl (.arrive g0.enc b rfl) rfl
  let l2 : Lane σ := { l1 with reader := .waiting, inq := l1.inq ++ [b.take readerBuffer] }
  let g2 : System σ τ := { g1 with enc := l2, events := g1.events }
  have s2 : System.Step me md .work g1 g2 := .encoder g1 .work .silent l2 _ rfl (.forward l1 _ rfl (by simp [l1, g0, System.start, dataCapacity]) rfl) rfl
  let g3 : System σ τ := { g2 with quit := true }
  have s3 : System.Step me md .disturbance g2 g3 := .command g2 rfl
  let g4 : System σ τ := { g3 with listening := false }
  have s4 : System.Step me md .disturbance g3 g4 := .statsQuits g3 rfl rfl rfl
  obtain ⟨e, es, hes⟩ : ∃ e es, (me clock s b).1 = e :: es := by
    cases hx : (me clock s b).1 with
    | nil => exact absurd hx he
    | cons e es => exact ⟨e, es, rfl⟩
  let l5 : Lane σ := { l2 with inq := [], codec := .busy (me clock s (b.take readerBuffer)).1 (me clock s (b.take readerBuffer)).2 }
  let g5 : System σ τ := { g4 with enc := l5, events := g4.events }
  have s5 : System.Step me md .work g4 g5 := .encoder g4 .work .silent l5 _ rfl (.take l2 s _ [] clock rfl rfl) rfl
  let l6 : Lane σ := { l5 with codec := .panicked }
  let g6 : System σ τ := { g5 with enc := l6, events := g5.events }
  have s6 : System.Step me md .work g5 g6 :=
    .encoder g5 .work .refused l6 _ rfl (.emitFails l5 e es (me clock s (b.take readerBuffer)).2 (by simp only [l5, hb', hes])) rfl
  exact ⟨g6, .step (.step (.step (.step (.step (.step .here s1) s2) s3) s4) s5) s6, rfl, rfl,
    by simp [g6, l6, l5, l2, l1, g0, System.start, hb'], rfl, rfl⟩

end

end Verif.Props

import Verif.Props.Exercises

/-!
C78: any number of gateways on a link.  Every gateway hears all the others; its decoder has one history for all of them
(cdis-gateway/src/codec.rs, cdis-assemble/src/codec.rs:44-66).
-/
namespace Verif.Props
open Verif.Codec

/-- No subject of `i` is a subject of another sender; a sender is whatever the C-DIS PDUs are labelled with. -/
def OwnSubjects {ι : Type} (i : ι) (heard : List (ι × Cdis.CdisPdu)) : Prop :=
  ∀ x ∈ heard, ∀ y ∈ heard, x.1 = i → y.1 ≠ i → subjectOfC x.2.body = none ∨ subjectOfC x.2.body ≠ subjectOfC y.2.body

theorem decoder_alone {ι : Type} [DecidableEq ι] {env : Env} {o : Options} (i : ι) (K : Subject → Prop) : ∀ {heard : List (ι × Cdis.CdisPdu)} {d u : DecState},
    (∀ x ∈ heard, ∀ k, subjectOfC x.2.body = some k → (x.1 = i ↔ K k)) → (∀ k, K k → DecAgree k d u) →
    (decStream env o u ((heard.filter fun x => x.1 = i).map (·.2))).1 =
      ((heard.zip (decStream env o d (heard.map (·.2))).1).filter fun x => x.1.1 = i).map (·.2)
  | [], _, _, _, _ => rfl
  | (j, c) :: rest, d, u, hK, hb => by
    have hr : ∀ x ∈ rest, ∀ k, subjectOfC x.2.body = some k → (x.1 = i ↔ K k) := fun x hx => hK x (List.mem_cons_of_mem _ hx)
    have h0 := hK (j, c) (List.mem_cons_self ..)
    have red : ∀ v, (pduDec env o v c).2.2 = (bodyDec env o v c.body).2.2 := fun _ => rfl
    by_cases hj : j = i
    · have red1 : (bodyDec env o u c.body).1 = (bodyDec env o d c.body).1 → (pduDec env o u c).1 = (pduDec env o d c).1 := by
        intro q
        unfold pduDec
        dsimp only
        rw [q]
      have dstep : (pduDec env o u c).1 = (pduDec env o d c).1 ∧ ∀ k, K k → DecAgree k (pduDec env o d c).2.2 (pduDec env o u c).2.2 := by
        cases hk : subjectOfC c.body with
        | some k =>
          obtain ⟨g1, -, g3⟩ := dec_same (env := env) (o := o) hk (hb k ((h0 k hk).1 hj))
          refine ⟨red1 g1.symm, fun k' hk' => ?_⟩
          rw [red, red]
          by_cases e : k' = k
          · rw [e]; exact g3
          · have ne : subjectOfC c.body ≠ some k' := by rw [hk]; intro q; cases q; exact e rfl
            exact ((dec_other ne).trans (hb k' hk')).trans (dec_other ne).symm
        | none =>
          have g := fun v w => C39_stateless_decoder (env := env) (o := o) hk v w
          refine ⟨red1 (g u d).1, fun k' hk' => ?_⟩
          rw [red, red, (g d u).2, (g u d).2]
          exact hb k' hk'
      have ih := decoder_alone (env := env) (o := o) (d := (pduDec env o d c).2.2) (u := (pduDec env o u c).2.2) i K hr dstep.2
      simp only [List.filter_cons, hj, decide_true, if_true, List.map_cons, decStream, List.zip_cons_cons]
      rw [ih, dstep.1]
    · have ne : ∀ k, K k → subjectOfC c.body ≠ some k := fun k hk q => hj ((h0 k q).2 hk)
      have ih := decoder_alone (env := env) (o := o) (d := (pduDec env o d c).2.2) (u := u) i K hr
        (fun k hk => (dec_other (ne k hk)).trans (hb k hk))
      simp only [List.filter_cons, hj, decide_false, Bool.false_eq_true, if_false, List.map_cons, decStream, List.zip_cons_cons]
      exact ih

/-- **C78.** What a gateway hands over of what one of the others sends, in any modes and in whatever way their datagrams are interleaved, is what it
hands over if that one is alone on the link, provided no other speaks for the same entities. -/
theorem C78_alone {ι : Type} [DecidableEq ι] {env : Env} {o : Options} (i : ι) {heard : List (ι × Cdis.CdisPdu)} (h : OwnSubjects i heard) (d : DecState) :
    (decStream env o d ((heard.filter fun x => x.1 = i).map (·.2))).1 =
      ((heard.zip (decStream env o d (heard.map (·.2))).1).filter fun x => x.1.1 = i).map (·.2) := by
  refine decoder_alone i (fun k => ∃ x ∈ heard, x.1 = i ∧ subjectOfC x.2.body = some k) (fun x hx k hk => ⟨fun q => ⟨x, hx, q, hk⟩, fun ⟨y, hy, hi, hk'⟩ => ?_⟩)
    (fun k _ => DecAgree.refl k d)
  by_cases q : x.1 = i
  · exact q
  · rcases h y hy x hx hi q with n | n
    · rw [n] at hk'; cases hk'
    · exact absurd (hk'.trans hk.symm) n

/-- What a gateway, just started, puts on the link for a history of PDUs. -/
def saidBy (env : Env) (o : Options) (hist : List (Nat × Dis.Pdu)) : Option (List Cdis.CdisPdu) := (encStream env o {} hist).map (·.1)

/-- **C78**, with the encoders. Gateways with histories whose entities are their own, datagrams interleaved in any way: the gateway hands over of each
sender what a pair of gateways would. -/
theorem C78_link {ι : Type} [DecidableEq ι] {env : Env} {o : ι → Options} {o' : Options} {hist : ι → List (Nat × Dis.Pdu)}
    (hown : ∀ i j, i ≠ j → ∀ x ∈ hist i, ∀ y ∈ hist j, subjectOf x.2.body = none ∨ subjectOf x.2.body ≠ subjectOf y.2.body)
    {heard : List (ι × Cdis.CdisPdu)} (hs : ∀ i, saidBy env (o i) (hist i) = some ((heard.filter fun x => x.1 = i).map (·.2))) (i : ι) :
    handedOver env (o i) o' (hist i) =
      some (((heard.zip (decStream env o' {} (heard.map (·.2))).1).filter fun x => x.1.1 = i).map (·.2)) := by
  have own : OwnSubjects i heard := by
    have key : ∀ x ∈ heard, ∃ t p, (t, p) ∈ hist x.1 ∧ subjectOfC x.2.body = subjectOf p.body := by
      intro x hx
      obtain ⟨⟨out, s'⟩, h1, h2⟩ := Option.map_eq_some_iff.1 (hs x.1)
      have hm : x.2 ∈ out := by
        rw [show out = _ from h2]
        exact List.mem_map.2 ⟨x, List.mem_filter.2 ⟨hx, by simp⟩, rfl⟩
      obtain ⟨n, hn⟩ := List.mem_iff_getElem?.1 hm
      obtain ⟨t, p, h3, h4, -⟩ := subject_at h1 hn
      exact ⟨t, p, List.mem_of_getElem? h3, h4⟩
    intro x hx y hy hi hj
    obtain ⟨t, p, h1, h2⟩ := key x hx
    obtain ⟨t', p', h1', h2'⟩ := key y hy
    rw [h2, h2']
    exact hown x.1 y.1 (by rw [hi]; exact fun q => hj q.symm) _ h1 _ h1'
  obtain ⟨⟨out, s'⟩, h1, h2⟩ := Option.map_eq_some_iff.1 (hs i)
  unfold handedOver
  rw [h1, Option.map_some, show out = _ from h2, C78_alone i own {}]

/-! ### Several gateways speak for the same entity -/

/-- **C78**, Entity States over a network that loses, repeats and reorders, from any number of gateways (encoders in partial-update mode in any states at
any times), whoever speaks for whom: a partial update is completed with the last full update of the entity that arrived, whoever sent it. -/
theorem C78_network {env : Env} {o : Options} (hm : o.update_mode = .partial) {net : List Datagram}
    (hn : ∀ g ∈ net, Sendable env o g.1 ∧ ∃ now s r s', pduEnc env o now s g.1 = some (g.2, r, s')) :
    receive env o {} (net.map fun g => packBits g.2.ser) = net.mapIdx fun k g => received g.1.header (shown env o (net.take k) g) := by
  have := receive_carried hm net [] {} (fun e => rfl) hn
  simpa using this

/-- **C78 violated.** An entity passes from one gateway to another and back within the heartbeat of the first, as with a transfer of ownership: what the
first one then says of it, without a full update, is handed over with the force, type, location, orientation and appearance that the second one gave it
(the name stays that of the first). -/
theorem C78_shared_violated {env : Env} {o : Options} (hm : o.update_mode = .partial) {p q p' : Dis.Pdu} {x y x' : Dis.EntityState}
    (hp : EntityPdu env p x) (hq : EntityPdu env q y) (hp' : EntityPdu env p' x') (hid : y.entity_id = x.entity_id) (hid' : x'.entity_id = x.entity_id)
    {t u t' : Nat} (ht : timedOut (esHeartbeat o x'.entity_type) o.mplier t' t = false) :
    ∃ a a' b s s', encStream env o {} [(t, p), (t', p')] = some ([a, a'], s) ∧ encStream env o {} [(u, q)] = some ([b], s') ∧
      receive env o {} ([a, b, a'].map fun c => packBits c.ser) =
        [received p.header (.entityState (arrivalES env o x)), received q.header (.entityState (arrivalES env o y)),
         received p'.header (.entityState { arrivalES env o x' with
          force_id := y.force_id, entity_type := y.entity_type, entity_location := worldWireQ env y.entity_location,
          entity_orientation := orientQ y.entity_orientation, entity_appearance := y.entity_appearance,
          entity_marking := { x.entity_marking with marking_character_set := 1 },
          entity_capabilities := Dis.EntityCapabilities.fromBytes env.toEnv
            (if o.optimize_mode = .completeness then x'.entity_capabilities.raw else 0) y.entity_type })] := by
  obtain ⟨out, s, h, hl, -⟩ := C61_network hm (sent := [(t, p), (t', p')]) (env := env) (by
    intro e he
    simp only [List.mem_cons, List.not_mem_nil, or_false] at he
    rcases he with rfl | rfl
    · exact hp.sendable
    · exact hp'.sendable)
  obtain ⟨outq, s', hq1, -, -⟩ := C61_network hm (sent := [(u, q)]) (env := env) (by
    intro e he
    simp only [List.mem_cons, List.not_mem_nil, or_false] at he
    rw [he]
    exact hq.sendable)
  obtain ⟨a, r, s1, out1, h1, h2, rfl⟩ := encStream_cons h
  obtain ⟨a', r', s2, out2, h3, h4, rfl⟩ := encStream_cons h2
  simp only [encStream, Option.some.injEq, Prod.mk.injEq] at h4
  obtain ⟨rfl, rfl⟩ := h4
  obtain ⟨b, r2, s3, out3, h5, h6, rfl⟩ := encStream_cons hq1
  simp only [encStream, Option.some.injEq, Prod.mk.injEq] at h6
  obtain ⟨rfl, rfl⟩ := h6
  obtain ⟨f1, f2⟩ := entity_step hp.body hm h1
  obtain ⟨g1, -⟩ := entity_step hp'.body hm h3
  obtain ⟨k1, -⟩ := entity_step hq.body hm h5
  have f : Datagram.full (p, a) = true := f1
  have k : Datagram.full (q, b) = true := k1
  rw [hid', f2 f] at g1
  have g : Datagram.full (p', a') = false := by
    rw [g1]
    show (!(!timedOut (esHeartbeat o x'.entity_type) o.mplier t' t)) = false
    rw [ht]
    rfl
  refine ⟨a, a', b, _, _, h, hq1, ?_⟩
  have := C78_network hm (net := [(p, a), (q, b), (p', a')]) (env := env) (by
    intro z hz
    simp only [List.mem_cons, List.not_mem_nil, or_false] at hz
    rcases hz with rfl | rfl | rfl
    · exact ⟨hp.sendable, _, _, _, _, h1⟩
    · exact ⟨hq.sendable, _, _, _, _, h5⟩
    · exact ⟨hp'.sendable, _, _, _, _, h3⟩)
  rw [show [a, b, a'].map (fun c => packBits c.ser) = [(p, a), (q, b), (p', a')].map (fun g => packBits g.2.ser) from rfl, this]
  have hF : fullUpdates x'.entity_id [(p, a), (q, b)] = [x, y] := by
    unfold fullUpdates
    simp only [List.filterMap_cons, hp.body, hq.body, f, k, hid, hid', true_and, if_true, List.filterMap_nil]
  simp only [List.mapIdx_cons, List.mapIdx_nil, List.take_zero, List.take_succ_cons]
  unfold shown
  simp only [hp.body, hq.body, hp'.body, f, g, k, hF, if_true, Bool.false_eq_true, if_false]
  rfl


/-! ### Witnesses -/

/-- Two sites: one has the tank, which speaks twice, the other an aircraft with a number of its own. -/
def siteHistory : Bool → List (Nat × Dis.Pdu)
  | false => [(0, ⟨sampleFor 1, .entityState sent_entity⟩), (1, ⟨sampleFor 1, .entityState sent_entity⟩)]
  | true => [(5, ⟨sampleFor 1, .entityState { stranger with entity_id := ⟨⟨7, 3⟩, 4⟩ }⟩)]

theorem interleaved {α : Type} (f : Bool → Option (List α)) (h1 : (f false).map List.length = some 2) (h2 : (f true).map List.length = some 1) :
    ∃ heard : List (Bool × α), heard.map (·.1) = [false, true, false] ∧ ∀ i, f i = some ((heard.filter fun x => x.1 = i).map (·.2)) := by
  obtain ⟨l, a1, a2⟩ := Option.map_eq_some_iff.1 h1
  obtain ⟨m, b1, b2⟩ := Option.map_eq_some_iff.1 h2
  match l, a2 with
  | [a, a'], _ =>
    match m, b2 with
    | [b], _ => exact ⟨[(false, a), (true, b), (false, a')], rfl, fun i => by cases i; exacts [a1, b1]⟩

example : (∀ i j, i ≠ j → ∀ x ∈ siteHistory i, ∀ y ∈ siteHistory j, subjectOf x.2.body = none ∨ subjectOf x.2.body ≠ subjectOf y.2.body) ∧
    ∃ heard : List (Bool × Cdis.CdisPdu), heard.map (·.1) = [false, true, false] ∧
      ∀ i, saidBy codecEnv { update_mode := .partial } (siteHistory i) = some ((heard.filter fun x => x.1 = i).map (·.2)) :=
  ⟨by decide +kernel, interleaved (fun i => saidBy codecEnv { update_mode := .partial } (siteHistory i)) (by decide +kernel) (by decide +kernel)⟩

/-- **C78**, the tank of force 5 is taken over by another gateway, for which it is an aircraft of force 2; the first gateway goes on. -/
theorem C78_witness : ∃ a a' b s s', encStream codecEnv { update_mode := .partial } {}
      [(0, ⟨sampleFor 1, .entityState sent_entity⟩), (2, ⟨sampleFor 1, .entityState sent_entity⟩)] = some ([a, a'], s) ∧
    encStream codecEnv { update_mode := .partial } {} [(7, ⟨sampleFor 1, .entityState stranger⟩)] = some ([b], s') ∧
    ∃ l z, receive codecEnv { update_mode := .partial } {} ([a, b, a'].map fun c => packBits c.ser) = l ∧
      l[2]?.map (·.body) = some (.entityState z) ∧ z.force_id = 2 ∧ z.entity_type = ⟨1, 2, 225, 1, 1, 3, 0⟩ ∧ sent_entity.force_id = 5 := by
  obtain ⟨a, a', b, s, s', h1, h2, h3⟩ := C78_shared_violated (env := codecEnv) (o := { update_mode := .partial }) rfl
    (p := ⟨sampleFor 1, .entityState sent_entity⟩) (q := ⟨sampleFor 1, .entityState stranger⟩) (p' := ⟨sampleFor 1, .entityState sent_entity⟩)
    ⟨rfl, rfl, C02_read_wf 1 0x02, sent_entity_fits⟩ ⟨rfl, rfl, C02_read_wf 1 0x02, stranger_fits⟩
    ⟨rfl, rfl, C02_read_wf 1 0x02, sent_entity_fits⟩ rfl rfl (t := 0) (u := 7) (t' := 2) (by decide +kernel)
  exact ⟨a, a', b, s, s', h1, h2, _, _, h3, rfl, rfl, rfl, rfl⟩

end Verif.Props

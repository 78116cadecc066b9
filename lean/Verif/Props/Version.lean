import Verif.Props.Through8
import Verif.Props.Lossy
import Verif.Props.Classes
import Verif.Props.Packets
import Verif.Props.GatewayWhole
import Verif.Props.Through9

/-!
C76: simulations of DIS version 6.  The README: "v6 PDUs are mapped to v7 models transparently to the user (irregardless of the wire-format
version)".  Version 6 has no PDU status (two octets of padding in its place), no variable transmitter parameters, and four flags for capabilities.
-/
namespace Verif.Props
open Verif.Dis

theorem andThen_flat {τ α β γ : Type} (m : Res τ α) (f : α → List τ → Res τ β) (g : β → List τ → Res τ γ) :
    (m.andThen f).andThen g = m.andThen fun a r => (f a r).andThen g := by
  cases m <;> rfl
theorem andThen_eq {τ α β : Type} {m : Res τ α} {f g : α → List τ → Res τ β} (h : ∀ a r, f a r = g a r) : m.andThen f = m.andThen g := by
  cases m with
  | ok a r => exact h a r
  | _ => rfl

/-- The octets of a PDU: version, exercise, type and family, time stamp, length, the two octets that are padding before version 7, the body
and whatever follows. -/
def framed (v ex ty fam t0 t1 t2 t3 l0 l1 a b : UInt8) (rest : Bytes) : Bytes := v :: ex :: ty :: fam :: t0 :: t1 :: t2 :: t3 :: l0 :: l1 :: a :: b :: rest

/-- The header of an older version. -/
def oldHeader (v a b : UInt8) (h : PduHeader) : PduHeader :=
  { h with protocol_version := v, pdu_status := none, padding := UInt16.ofNat (a.toNat * 256 + b.toNat) }

theorem headers_framed (v ex ty fam t0 t1 t2 t3 l0 l1 a b : UInt8) (hv : 1 ≤ v.toNat ∧ v.toNat ≤ 6) (rest : Bytes) :
    ∃ h, PduHeader.parse.run (framed 7 ex ty fam t0 t1 t2 t3 l0 l1 0 0 rest) = .ok h rest ∧
      PduHeader.parse.run (framed v ex ty fam t0 t1 t2 t3 l0 l1 a b rest) = .ok (oldHeader v a b h) rest ∧
      h.pdu_type = ty ∧ h.protocol_version = 7 ∧ h.pdu_status = some (parsePduStatusFields ty 0) := by
  refine ⟨_, rfl, ?_, rfl, rfl, rfl⟩
  simp only [PduHeader.parse, framed, be_u8, be_u16, be_u32, P.run_bind, Res.andThen, hv, and_self, if_true]
  rfl

theorem body_framed {env : Env} {h h' : PduHeader} (ht : h'.pdu_type = h.pdu_type) (hl : h'.pdu_length = h.pdu_length)
    (h1 : h.pdu_type ≠ 1) (h25 : h.pdu_type ≠ 25) (h2 : h.pdu_type = 2 → headerFti h' = headerFti h) (h3 : h.pdu_type = 3 → headerDti h' = headerDti h) :
    parseBody env h' = parseBody env h := by
  unfold parseBody
  rw [ht, hl]
  simp only [if_neg h1, if_neg h25]
  by_cases e2 : h.pdu_type = 2
  · simp only [if_pos e2, h2 e2]
  · simp only [if_neg e2]
    by_cases e3 : h.pdu_type = 3
    · simp only [if_pos e3, h3 e3]
    · simp only [if_neg e3]

/-- **C76.** A PDU of version 1 to 6, of any kind but Entity State and Transmitter, is read from any octets as a PDU of version 7 with the same
octets after the header and a PDU status of zero is: the same body, or the same failure, up to the same place. -/
theorem C76_same (env : Env) (v ex ty fam t0 t1 t2 t3 l0 l1 a b : UInt8) (hv : 1 ≤ v.toNat ∧ v.toNat ≤ 6) (h1 : ty ≠ 1) (h25 : ty ≠ 25) (rest : Bytes) :
    (pdu env).run (framed v ex ty fam t0 t1 t2 t3 l0 l1 a b rest) =
      ((pdu env).run (framed 7 ex ty fam t0 t1 t2 t3 l0 l1 0 0 rest)).andThen fun p r => .ok ⟨oldHeader v a b p.header, p.body⟩ r := by
  obtain ⟨h, e7, ev, ht, -, hs⟩ := headers_framed v ex ty fam t0 t1 t2 t3 l0 l1 a b hv rest
  unfold pdu
  simp only [P.run_bind, e7, ev, Res.andThen_ok, andThen_flat]
  rw [body_framed (h' := oldHeader v a b h) (h := h) rfl rfl (by rw [ht]; exact h1) (by rw [ht]; exact h25)
    (fun e => by unfold headerFti; rw [hs, ← ht, e]; rfl) (fun e => by unfold headerDti; rw [hs, ← ht, e]; rfl)]
  rfl

/-- **C76.** A Transmitter PDU of version 1 to 6 likewise, with the count of variable transmitter parameters, octets 30 and 31, taken for zero. -/
theorem C76_transmitter (env : Env) (v ex fam t0 t1 t2 t3 l0 l1 a b : UInt8) (hv : 1 ≤ v.toNat ∧ v.toNat ≤ 6) (pre : Bytes) (hpre : pre.length = 18)
    (n0 n1 : UInt8) (rest : Bytes) :
    (pdu env).run (framed v ex 25 fam t0 t1 t2 t3 l0 l1 a b (pre ++ n0 :: n1 :: rest)) =
      ((pdu env).run (framed 7 ex 25 fam t0 t1 t2 t3 l0 l1 0 0 (pre ++ 0 :: 0 :: rest))).andThen fun p r => .ok ⟨oldHeader v a b p.header, p.body⟩ r := by
  obtain ⟨h, e7, -, ht, h7, -⟩ := headers_framed v ex 25 fam t0 t1 t2 t3 l0 l1 a b hv (pre ++ 0 :: 0 :: rest)
  obtain ⟨h', e7', ev, -⟩ := headers_framed v ex 25 fam t0 t1 t2 t3 l0 l1 a b hv (pre ++ n0 :: n1 :: rest)
  have hh : h' = h := by
    have q1 : PduHeader.parse.run (framed 7 ex 25 fam t0 t1 t2 t3 l0 l1 0 0 (pre ++ n0 :: n1 :: rest)) = .ok h (pre ++ n0 :: n1 :: rest) := by
      have : ∀ r, PduHeader.parse.run (framed 7 ex 25 fam t0 t1 t2 t3 l0 l1 0 0 r) =
        (PduHeader.parse.run (framed 7 ex 25 fam t0 t1 t2 t3 l0 l1 0 0 [])).andThen fun h _ => .ok h r := fun _ => rfl
      rw [this] at e7 ⊢
      revert e7
      cases PduHeader.parse.run (framed 7 ex 25 fam t0 t1 t2 t3 l0 l1 0 0 []) with
      | ok hd r0 => intro e; cases e; rfl
      | _ => intro e; cases e
    rw [q1] at e7'
    cases e7'
    rfl
  subst hh
  unfold pdu
  simp only [P.run_bind, e7, ev, Res.andThen_ok, andThen_flat]
  rw [parseBody_transmitter env (h := oldHeader v a b h') ht, parseBody_transmitter env ht, h7]
  have hv7 : v ≠ 7 := by rintro rfl; exact absurd hv.2 (by decide)
  rw [show (oldHeader v a b h').protocol_version = v from rfl]
  match pre, hpre with
  | [b0, b1, b2, b3, b4, b5, b6, b7, b8, b9, b10, b11, b12, b13, b14, b15, b16, b17], _ =>
    simp only [P.run_bind, andThen_flat, Transmitter.parse, EntityId.parse, SimulationAddress.parse, EntityType.parse, be_u8, be_u16, List.cons_append,
      List.nil_append, Res.andThen_ok, P.run_pure, if_neg hv7, if_true]
    repeat refine andThen_eq fun _ _ => ?_
    rfl

/-- The body without the capabilities of the entity. -/
def sansCapabilities : Body → Body
  | .entityState x => .entityState { x with entity_capabilities := ⟨.unspecified, 0⟩ }
  | b => b

theorem capabilities_framed (env : Env) (v : UInt8) (hv : v ≠ 7) (t : EntityType) {β : Type} (bs : Bytes) (f g : EntityCapabilities → Bytes → Res UInt8 β)
    (h : ∀ c c' r, f c r = g c' r) :
    ((EntityCapabilities.parse env v t).run bs).andThen f = ((EntityCapabilities.parse env 7 t).run bs).andThen g := by
  unfold EntityCapabilities.parse CapabilitiesV6.parse
  rw [if_neg hv, if_pos rfl]
  match bs with
  | [] => rfl
  | [_] => rfl
  | [_, _] => rfl
  | [_, _, _] => rfl
  | _ :: _ :: _ :: _ :: _ => exact h _ _ _

/-- **C76.** An Entity State PDU of version 1 to 6 is read from any octets as one of version 7 with the same octets after the header is, but for
the capabilities. -/
theorem C76_entity_state (env : Env) (v ex fam t0 t1 t2 t3 l0 l1 a b : UInt8) (hv : 1 ≤ v.toNat ∧ v.toNat ≤ 6) (rest : Bytes) :
    ((pdu env).run (framed v ex 1 fam t0 t1 t2 t3 l0 l1 a b rest)).andThen (fun p r => .ok (Pdu.mk p.header (sansCapabilities p.body)) r) =
      ((pdu env).run (framed 7 ex 1 fam t0 t1 t2 t3 l0 l1 0 0 rest)).andThen
        fun p r => .ok ⟨oldHeader v a b p.header, sansCapabilities p.body⟩ r := by
  obtain ⟨h, e7, ev, ht, h7, hs⟩ := headers_framed v ex 1 fam t0 t1 t2 t3 l0 l1 a b hv rest
  have hv7 : v ≠ 7 := by rintro rfl; exact absurd hv.2 (by decide)
  unfold pdu
  simp only [P.run_bind, e7, ev, Res.andThen_ok, andThen_flat]
  rw [parseBody_entityState env (h := oldHeader v a b h) ht, parseBody_entityState env ht, h7]
  rw [show (oldHeader v a b h).protocol_version = v from rfl]
  simp only [EntityState.parse, P.run_bind, andThen_flat]
  iterate 11 refine andThen_eq fun _ _ => ?_
  refine capabilities_framed env v hv7 _ _ _ _ fun _ _ _ => ?_
  refine andThen_eq fun _ _ => ?_
  rfl


/-! ### Through a gateway -/

/-- The PDU of version 7 that says what a PDU of version 6 says. -/
def youngHeader (h : PduHeader) : PduHeader :=
  { h with protocol_version := 7, pdu_status := some (parsePduStatusFields h.pdu_type 0), padding := 0 }
def grown (env : Env) (p : Pdu) : Pdu :=
  ⟨youngHeader p.header, match p.body with
    | .entityState x => .entityState
        { x with entity_capabilities := EntityCapabilities.fromBytes env x.entity_capabilities.raw x.entity_type }
    | b => b⟩

/-- A PDU of version 1 to 6: it has no PDU status, and the capabilities it names are ones the entity can have. -/
def Old (env : Env) (p : Pdu) : Prop :=
  p.header.pdu_status = none ∧ ∀ x, p.body = .entityState x →
    (EntityCapabilities.fromBytes env x.entity_capabilities.raw x.entity_type).raw = x.entity_capabilities.raw

section
open Verif.Cdis Verif.Codec Verif.Gateway

theorem status_zero (t : UInt8) : Dis.serializePduStatus {} t = Dis.serializePduStatus (Dis.parsePduStatusFields t 0) t := by
  revert t
  exact all_u8 (by decide +kernel)

theorem bodyEnc_grown (env : Codec.Env) (o : Options) (now : Nat) (s : EncState) {p : Dis.Pdu} (h : Old env.toEnv p) :
    bodyEnc env o now s (grown env.toEnv p).body = bodyEnc env o now s p.body := by
  obtain ⟨hd, b⟩ := p
  cases b with
  | entityState x =>
    have e := h.2 x rfl
    show bodyEnc env o now s (.entityState _) = _
    have : ∀ st, esEnc env o now st { x with entity_capabilities := Dis.EntityCapabilities.fromBytes env.toEnv x.entity_capabilities.raw x.entity_type } =
        esEnc env o now st x := by
      intro st
      unfold esEnc
      rw [e]
    simp only [grown, bodyEnc, esEncodeBody, this]
  | _ => rfl

/-- The C-DIS PDUs made of a PDU and of its double. -/
def Twin (c c' : CdisPdu) : Prop :=
  c.ser = c'.ser ∧ c.lenBits = c'.lenBits ∧ c.header.pdu_type = c'.header.pdu_type ∧ c.header.length = c'.header.length

theorem pduEnc_grown (env : Codec.Env) (o : Options) (now : Nat) (s : EncState) {p : Dis.Pdu} (h : Old env.toEnv p) :
    (pduEnc env o now s p = none ∧ pduEnc env o now s (grown env.toEnv p) = none) ∨
      ∃ c c' r s', pduEnc env o now s p = some (c, r, s') ∧ pduEnc env o now s (grown env.toEnv p) = some (c', r, s') ∧ Twin c c' := by
  unfold pduEnc
  rw [bodyEnc_grown env o now s h]
  cases bodyEnc env o now s p.body with
  | none => exact .inl ⟨rfl, rfl⟩
  | some w =>
    refine .inr ⟨_, _, _, _, rfl, rfl, ?_, rfl, rfl, rfl⟩
    unfold CdisPdu.ser CdisHeader.ser
    have := status_zero (UInt8.ofNat p.header.pdu_type.toNat)
    simp only [CdisPdu.finalize, headerEnc, grown, youngHeader, h.1, Option.getD_none, Option.getD_some, UInt8.ofNat_toNat] at this ⊢
    rw [this]
    rfl

theorem encodePdus_grown (env : Codec.Env) (o : Options) : ∀ (l : List (Nat × Dis.Pdu)) (s : EncState), (∀ x ∈ l, Old env.toEnv x.2) →
    (encodePdus env o s l).1 = (encodePdus env o s (l.map fun x => (x.1, grown env.toEnv x.2))).1 ∧
      (((encodePdus env o s l).2 = none ∧ (encodePdus env o s (l.map fun x => (x.1, grown env.toEnv x.2))).2 = none) ∨
        ∃ cs cs' s', (encodePdus env o s l).2 = some (cs, s') ∧ (encodePdus env o s (l.map fun x => (x.1, grown env.toEnv x.2))).2 = some (cs', s') ∧
          List.Forall₂ Twin cs cs')
  | [], s, _ => ⟨rfl, .inr ⟨[], [], s, rfl, rfl, .nil⟩⟩
  | (now, p) :: rest, s, h => by
    have hr : ∀ x ∈ rest, Old env.toEnv x.2 := fun x hx => h x (List.mem_cons_of_mem _ hx)
    simp only [List.map_cons, encodePdus]
    rw [show (grown env.toEnv p).header.pdu_type = p.header.pdu_type from rfl, show (grown env.toEnv p).header.pdu_length = p.header.pdu_length from rfl]
    by_cases h1 : Cdis.isSupported p.header.pdu_type.toNat = true
    · simp only [h1, if_true]
      by_cases h2 : isImplemented p.header.pdu_type.toNat = true
      · simp only [h2, if_true]
        rcases pduEnc_grown env o now s (h _ (List.mem_cons_self ..)) with ⟨e, e'⟩ | ⟨c, c', r, s', e, e', ht⟩
        · rw [e, e']
          exact ⟨rfl, .inl ⟨rfl, rfl⟩⟩
        · rw [e, e']
          obtain ⟨i1, i2⟩ := encodePdus_grown env o rest s' hr
          refine ⟨?_, ?_⟩
          · show _ :: _ :: _ = _ :: _ :: _
            rw [i1, ht.2.2.1, ht.2.2.2]
          · rcases i2 with ⟨j, j'⟩ | ⟨cs, cs', s2, j, j', jt⟩
            · exact .inl ⟨by simp only [j, Option.map_none], by simp only [j', Option.map_none]⟩
            · exact .inr ⟨c :: cs, c' :: cs', s2, by simp only [j, Option.map_some], by simp only [j', Option.map_some], .cons ht jt⟩
      · simp only [h2, Bool.false_eq_true, if_false]
        obtain ⟨i1, i2⟩ := encodePdus_grown env o rest s hr
        exact ⟨congrArg _ i1, i2⟩
    · simp only [h1, Bool.false_eq_true, if_false]
      obtain ⟨i1, i2⟩ := encodePdus_grown env o rest s hr
      exact ⟨congrArg _ i1, i2⟩

theorem storeAll_twin : ∀ {cs cs' : List CdisPdu}, List.Forall₂ Twin cs cs' → ∀ buf n, storeAll buf n cs = storeAll buf n cs'
  | _, _, .nil, _, _ => rfl
  | _, _, .cons h t, buf, n => by
    unfold storeAll
    rw [h.1]
    congr 1
    funext b
    exact storeAll_twin t _ _

theorem encWriting_twin (e : Encoder) {cs cs' : List CdisPdu} (h : List.Forall₂ Twin cs cs') : encWriting e cs = encWriting e cs' := by
  unfold encWriting
  rw [storeAll_twin h]
  have : cs.map CdisPdu.lenBits = cs'.map CdisPdu.lenBits := by
    induction h with
    | nil => rfl
    | cons a _ ih => rw [List.map_cons, List.map_cons, a.2.1, ih]
  rw [this]

/-- **C76.** A gateway makes of a datagram of PDUs of version 6 the very datagram it makes of the same PDUs in version 7, with the same events,
and is left in the same state. -/
theorem C76_gateway (env : Codec.Env) (o : Options) (clock : Nat → Nat) (e : Encoder) {bs bs' : Bytes} {ps : List Dis.Pdu} (hlen : bs.length = bs'.length)
    (h : Dis.parse env.toEnv bs = .ok ps) (h' : Dis.parse env.toEnv bs' = .ok (ps.map (grown env.toEnv))) (hold : ∀ p ∈ ps, Old env.toEnv p) :
    encodeBuffer env o clock e bs = encodeBuffer env o clock e bs' := by
  unfold encodeBuffer
  rw [h, h', hlen]
  have hs : stamp clock (ps.map (grown env.toEnv)) = (stamp clock ps).map fun x => (x.1, grown env.toEnv x.2) := by
    unfold stamp
    rw [List.zipIdx_map, List.map_map, List.map_map]
    rfl
  obtain ⟨i1, i2⟩ := encodePdus_grown env o (stamp clock ps) e.state (by
    intro x hx
    unfold stamp at hx
    obtain ⟨y, hy, rfl⟩ := List.mem_map.1 hx
    exact hold _ (List.fst_mem_of_mem_zipIdx hy))
  dsimp only
  rw [hs, ← i1]
  rcases i2 with ⟨j, j'⟩ | ⟨cs, cs', s', j, j', jt⟩
  · rw [j, j']
  · rw [j, j']
    dsimp only
    rw [encWriting_twin _ jt]

/-- **C76.** What arrives on the other side of a pair of gateways is what arrives of the same PDU in version 7, of version 7 itself. -/
theorem C76_arrives {env : Codec.Env} {o : Options} {p q : Dis.Pdu} (hold : Old env.toEnv p) (h : Arrives env o (grown env.toEnv p) q) :
    Arrives env o p q := by
  intro now s
  obtain ⟨c', r, s', e', w, hw, hd⟩ := h now s
  rcases pduEnc_grown env o now s hold with ⟨-, f⟩ | ⟨d, d', r', t', f, f', ht⟩
  · rw [f] at e'; cases e'
  · rw [f'] at e'
    cases e'
    exact ⟨d, _, _, f, w, fun rest => by rw [ht.1]; exact hw rest, hd⟩

/-- **C76.** So the receiver gets a PDU of version 7 whose capabilities are those of the kind of entity it is. -/
theorem C76_through {env : Codec.Env} {o : Options} {p : Dis.Pdu} (hold : Old env.toEnv p) (h : PduFits env o (grown env.toEnv p)) :
    Arrives env o p (received (youngHeader p.header) (arrival env o (grown env.toEnv p).body)) := C76_arrives hold (C57_pdu h)

/-! ### What a simulation of version 6 hears and what is read of it -/

/-- **C76 violated.** A gateway says everything in version 7: a simulation that keeps to version 6 (`parse_v6`) hears nothing of what the simulations
of version 6 on the other side say. -/
theorem C76_deaf_violated {env : Codec.Env} {o : Options} {ps qs : List Dis.Pdu} (h : List.Forall₂ (Arrives env o) ps qs) (hne : qs ≠ [])
    (hw : ∀ q ∈ qs, q.Wf env.toEnv) :
    (∀ q ∈ qs, q.header.protocol_version = 7 ∧ q.ser.head? = some 7) ∧ Dis.parseV6 env.toEnv (qs.flatMap Dis.Pdu.ser) = .ok [] ∧
      Dis.parseV7 env.toEnv (qs.flatMap Dis.Pdu.ser) = .ok qs := by
  have h7 : ∀ q ∈ qs, q.header.protocol_version = 7 := by
    clear hw hne
    induction h with
    | nil => intro q hq; cases hq
    | @cons p q ps qs a _ ih =>
      intro x hx
      rcases List.mem_cons.1 hx with rfl | hx
      · obtain ⟨c, r, s', -, w, -, hd⟩ := a 0 {}
        rw [← hd {} {}]
        rfl
      · exact ih x hx
  have e := C17_packet_round_trip env.toEnv hw hne [] (by decide)
  rw [List.append_nil] at e
  refine ⟨fun q hq => ⟨h7 q hq, ?_⟩, ?_, ?_⟩
  · unfold Dis.Pdu.ser Dis.PduHeader.ser
    rw [h7 q hq]
    rfl
  · refine ((C22_version_filters env.toEnv _).1 _).2 ⟨qs, e, ?_⟩
    symm
    rw [List.filter_eq_nil_iff]
    intro q hq
    rw [h7 q hq]
    decide
  · refine ((C22_version_filters env.toEnv _).2.1 _).2 ⟨qs, e, ?_⟩
    symm
    rw [List.filter_eq_self]
    intro q hq
    rw [h7 q hq]
    decide

/-- The header of a PDU of version 6. -/
def sixFor (t : UInt8) : Dis.PduHeader := { sampleFor t with protocol_version := 6, pdu_status := none }

/-- An aircraft of version 6 that can recover and repair. -/
def plane : Dis.EntityState :=
  { sent_entity with entity_type := ⟨1, 2, 225, 1, 1, 3, 0⟩, entity_appearance := ⟨.airPlatform, 7⟩, entity_capabilities := ⟨.landPlatform, 0x30000000⟩ }

/-- **C76 violated.** Read with version 6, the capabilities of whatever is not a land platform are those of one; read with version 7 (and a kind of
entity that has capabilities at all) they are those of the entity. -/
theorem C76_capabilities_violated {env : Dis.Env} {bs rest : Bytes} {p : Dis.Pdu} {x : Dis.EntityState} (h : (Dis.pdu env).run bs = .ok p rest)
    (hx : p.body = .entityState x) :
    (p.header.protocol_version ≠ 7 → Dis.entityClass x.entity_type ≠ .landPlatform → x.entity_capabilities.cls ≠ Dis.entityClass x.entity_type) ∧
      (p.header.protocol_version = 7 → x.entity_type.kind ≠ 0 → x.entity_capabilities.cls = Dis.entityClass x.entity_type) := by
  refine ⟨fun hv hn e => hn ?_, fun hv hk => ?_⟩
  · rw [← e]
    exact (C55_entity_state_capabilities_v6 h hx hv).1
  · obtain ⟨w, v, _, h2, _, h4⟩ := state_words h hx
    rcases h4 with ⟨_, hk0, _⟩ | ⟨_, _, hc, _⟩ | ⟨hn, _⟩
    · exact absurd hk0 hk
    · exact hc
    · exact absurd hv hn

/-! ### Witnesses -/

def oldFleet : List Dis.Pdu := [⟨sixFor 1, .entityState plane⟩, ⟨sixFor 2, .fire sample_fire⟩, ⟨sixFor 20, .data sample_data⟩]
theorem oldFleet_wf : ∀ p ∈ oldFleet, p.Wf codecEnv.toEnv := by
  have hh : ∀ t, (sixFor t).Wf := fun t => ⟨rfl, .inr ⟨by show (1 : Nat) ≤ 6; decide, by show (6 : Nat) ≤ 6; decide, rfl⟩⟩
  intro p hp
  simp only [oldFleet, List.mem_cons, List.not_mem_nil, or_false] at hp
  rcases hp with rfl | rfl | rfl
  · exact ⟨hh 1, rfl, by decide +kernel⟩
  · exact ⟨hh 2, rfl, by decide +kernel⟩
  · exact ⟨hh 20, rfl, by decide +kernel⟩
theorem grownFleet_wf : ∀ p ∈ oldFleet.map (grown codecEnv.toEnv), p.Wf codecEnv.toEnv := by
  have hh : ∀ t, (youngHeader (sixFor t)).Wf := fun t => ⟨rfl, .inl ⟨rfl, _, rfl, C02_read_wf t 0x00⟩⟩
  intro p hp
  simp only [oldFleet, List.map_cons, List.map_nil, List.mem_cons, List.not_mem_nil, or_false] at hp
  rcases hp with rfl | rfl | rfl
  · exact ⟨hh 1, rfl, by decide +kernel⟩
  · exact ⟨hh 2, rfl, by decide +kernel⟩
  · exact ⟨hh 20, rfl, by decide +kernel⟩
theorem oldFleet_old : ∀ p ∈ oldFleet, Old codecEnv.toEnv p := by
  intro p hp
  simp only [oldFleet, List.mem_cons, List.not_mem_nil, or_false] at hp
  rcases hp with rfl | rfl | rfl
  · refine ⟨rfl, ?_⟩
    rintro x hx
    cases hx
    decide +kernel
  · exact ⟨rfl, fun _ hx => by cases hx⟩
  · refine ⟨rfl, fun x hx => ?_⟩
    have : (20 : UInt8) = 1 := congrArg Dis.Body.pduType hx
    exact absurd this (by decide)

/-- **C76**, a datagram of version 6: it is read, the gateway makes of it what it makes of the datagram of version 7, the aircraft arrives with the
capabilities of an aircraft though they were read as those of a land platform. -/
theorem C76_witness :
    Dis.parse codecEnv.toEnv (oldFleet.flatMap Dis.Pdu.ser) = .ok oldFleet ∧
    (∀ o clock e, encodeBuffer codecEnv o clock e (oldFleet.flatMap Dis.Pdu.ser) =
      encodeBuffer codecEnv o clock e ((oldFleet.map (grown codecEnv.toEnv)).flatMap Dis.Pdu.ser)) ∧
    (∃ q x, Arrives codecEnv { optimize_mode := .completeness } ⟨sixFor 1, .entityState plane⟩ q ∧ q.body = .entityState x ∧
      plane.entity_capabilities = ⟨.landPlatform, 0x30000000⟩ ∧ x.entity_capabilities = ⟨.airPlatform, 0x30000000⟩) := by
  have e := C17_packet_round_trip codecEnv.toEnv oldFleet_wf (by decide) [] (by decide)
  have e' := C17_packet_round_trip codecEnv.toEnv grownFleet_wf (by decide) [] (by decide)
  rw [List.append_nil] at e e'
  have hl : (oldFleet.flatMap Dis.Pdu.ser).length = ((oldFleet.map (grown codecEnv.toEnv)).flatMap Dis.Pdu.ser).length := by decide +kernel
  refine ⟨e, fun o clock en => C76_gateway codecEnv o clock en hl e e' oldFleet_old, ?_⟩
  refine ⟨_, _, C76_through (oldFleet_old _ (List.mem_cons_self ..)) ⟨rfl, C02_read_wf 1 0x00, rfl, ?_⟩, rfl, rfl, by decide +kernel⟩
  exact { sent_entity_fits with wf := by decide +kernel, type := by unfold TypeFits; decide +kernel }

example : ∃ q, Arrives codecEnv {} ⟨sixFor 2, .fire sample_fire⟩ q ∧ Dis.parseV6 codecEnv.toEnv q.ser = .ok [] ∧
    Dis.parseV7 codecEnv.toEnv q.ser = .ok [q] := by
  have ha : Arrives codecEnv {} ⟨sixFor 2, .fire sample_fire⟩ _ := C76_through (oldFleet_old _ (by decide +kernel))
    ⟨rfl, C02_read_wf 2 0x00, (sent_fits (1, ⟨sampleFor 2, .fire sample_fire⟩) (by simp [sent])).2.2⟩
  have := C76_deaf_violated (.cons ha .nil) (by simp) (by
    intro q hq
    rw [List.mem_singleton.1 hq]
    exact ⟨⟨rfl, .inl ⟨rfl, _, rfl, C02_read_wf 2 0x00⟩⟩, rfl, by decide +kernel⟩)
  refine ⟨_, ha, ?_, ?_⟩
  · have e := this.2.1
    rwa [List.flatMap_cons, List.flatMap_nil, List.append_nil] at e
  · have e := this.2.2
    rwa [List.flatMap_cons, List.flatMap_nil, List.append_nil] at e
end

end Verif.Props

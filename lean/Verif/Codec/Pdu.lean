import Verif.Codec.Emission

/-! # Conversion of PDUs (cdis-assemble/src/codec.rs) -/

namespace Verif.Codec

/-- codec.rs:49-56 `EncoderState`; the states of the entity state, designator, transmitter and IFF PDUs are their
heartbeats (nanoseconds). -/
structure EncState where
  es : Map Dis.EntityId Nat := fun _ => none
  ee : Map Dis.EntityId EeEncState := fun _ => none
  designator : Map Dis.EntityId Nat := fun _ => none
  transmitter : Map (Dis.EntityId × UInt16) Nat := fun _ => none
  iff : Map Dis.EntityId Nat := fun _ => none

/-- codec.rs:70-77 `DecoderState` -/
structure DecState where
  es : Map Dis.EntityId EsState := fun _ => none
  ee : Map Dis.EntityId EeDecState := fun _ => none
  designator : Map Dis.EntityId DesState := fun _ => none
  transmitter : Map (Dis.EntityId × UInt16) TxState := fun _ => none
  iff : Map Dis.EntityId Dis.SystemId := fun _ => none

/-- entity_state/codec.rs:14-29 `encode_entity_state_body_and_update_state`; `none` is a panic -/
def esEncodeBody (env : Env) (o : Options) (now : Nat) (s : EncState) (x : Dis.EntityState) :
    Option (Cdis.CdisBody × StateResult × EncState) :=
  (esEnc env o now (s.es x.entity_id) x).map fun r =>
    (.entityState r.1, r.2, if r.2 = .entityState then { s with es := s.es.set x.entity_id now } else s)
/-- electromagnetic_emission/codec.rs:20-40 -/
def eeEncodeBody (o : Options) (now : Nat) (s : EncState) (x : Dis.ElectromagneticEmission) :
    Cdis.CdisBody × StateResult × EncState :=
  let r := eeEnc o now (s.ee x.emitting_entity_id) x
  (.electromagneticEmission r.1, r.2,
   if r.2 = .ee then { s with ee := s.ee.set x.emitting_entity_id (.of now x) } else s)
/-- designator/codec.rs:17-31 -/
def desEncodeBody (env : Env) (o : Options) (now : Nat) (s : EncState) (x : Dis.Designator) : Cdis.CdisBody × StateResult × EncState :=
  let r := desEnc env o now (s.designator x.designating_entity_id) x
  (.designator r.1, r.2,
   if r.2 = .designator then { s with designator := s.designator.set x.designating_entity_id now } else s)
/-- transmitter/codec.rs:13-27 -/
def txEncodeBody (env : Env) (o : Options) (now : Nat) (s : EncState) (x : Dis.Transmitter) : Cdis.CdisBody × StateResult × EncState :=
  let r := txEnc env o now (s.transmitter (x.radio_reference_id, x.radio_number)) x
  (.transmitter r.1, r.2,
   if r.2 = .transmitter then { s with transmitter := s.transmitter.set (x.radio_reference_id, x.radio_number) now } else s)
/-- iff/codec.rs:14-28 -/
def iffEncodeBody (o : Options) (now : Nat) (s : EncState) (x : Dis.Iff) : Cdis.CdisBody × StateResult × EncState :=
  let r := iffEnc o now (s.iff x.emitting_entity_id) x
  (.iff r.1, r.2, if r.2 = .iff then { s with iff := s.iff.set x.emitting_entity_id now } else s)

/-- codec.rs:181-268 `CdisBody::encode` -/
def bodyEnc (env : Env) (o : Options) (now : Nat) (s : EncState) : Dis.Body → Option (Cdis.CdisBody × StateResult × EncState)
  | .entityState x => esEncodeBody env o now s x
  | .fire x => some (.fire (fireEnc env x), .unaffected, s)
  | .detonation x => some (.detonation (detonationEnc env x), .unaffected, s)
  | .collision x => some (.collision (collisionEnc x), .unaffected, s)
  | .createEntity x => some (.createEntity (createEnc x), .unaffected, s)
  | .removeEntity x => some (.removeEntity (removeEnc x), .unaffected, s)
  | .startResume x => some (.startResume (startEnc x), .unaffected, s)
  | .stopFreeze x => some (.stopFreeze (stopEnc env x), .unaffected, s)
  | .acknowledge x => some (.acknowledge (ackEnc x), .unaffected, s)
  | .actionRequest x => some (.actionRequest (actionEnc x), .unaffected, s)
  | .actionResponse x => some (.actionResponse (responseEnc x), .unaffected, s)
  | .dataQuery x => some (.dataQuery (queryEnc x), .unaffected, s)
  | .setData x => some (.setData (setDataEnc x), .unaffected, s)
  | .data x => some (.data (dataEnc x), .unaffected, s)
  | .eventReport x => some (.eventReport (eventEnc x), .unaffected, s)
  | .comment x => some (.comment (commentEnc x), .unaffected, s)
  | .electromagneticEmission x => some (eeEncodeBody o now s x)
  | .designator x => some (desEncodeBody env o now s x)
  | .transmitter x => some (txEncodeBody env o now s x)
  | .signal x => some (.signal (signalEnc x), .unaffected, s)
  | .receiver x => some (.receiver (receiverEnc x), .unaffected, s)
  | .iff x => some (iffEncodeBody o now s x)
  | _ => some (.unsupported, .unaffected, s)

/-- entity_state/codec.rs:31-51 -/
def esDecodeBody (env : Env) (o : Options) (s : DecState) (x : Cdis.EntityState) : Dis.Body × StateResult × DecState :=
  let k := eidDec x.entity_id
  let r := esDec env o (s.es k) x
  (.entityState r.1, r.2, if r.2 = .entityState then { s with es := s.es.set k (esStore (s.es k) r.1) } else s)
/-- electromagnetic_emission/codec.rs:71-90 -/
def eeDecodeBody (o : Options) (s : DecState) (x : Cdis.ElectromagneticEmission) : Dis.Body × StateResult × DecState :=
  let k := eidDec x.emitting_id
  let r := eeDec o (s.ee k) x
  (.electromagneticEmission r.1, r.2, if r.2 = .ee then { s with ee := s.ee.set k (.of r.1) } else s)
/-- designator/codec.rs:33-53 -/
def desDecodeBody (env : Env) (s : DecState) (x : Cdis.Designator) : Dis.Body × StateResult × DecState :=
  let k := eidDec x.designating_entity_id
  let r := desDec env (s.designator k) x
  (.designator r.1, r.2, if r.2 = .designator then { s with designator := s.designator.set k (.of r.1) } else s)
/-- transmitter/codec.rs:29-50 -/
def txDecodeBody (env : Env) (o : Options) (s : DecState) (x : Cdis.Transmitter) : Dis.Body × StateResult × DecState :=
  let k := (eidDec x.radio_reference_id, UInt16.ofNat x.radio_number)
  let r := txDec env o (s.transmitter k) x
  (.transmitter r.1, r.2, if r.2 = .transmitter then { s with transmitter := s.transmitter.set k (.of r.1) } else s)
/-- iff/codec.rs:30-46: an existing state keeps its system id -/
def iffDecodeBody (o : Options) (s : DecState) (x : Cdis.Iff) : Dis.Body × StateResult × DecState :=
  let k := eidDec x.emitting_entity_id
  let r := iffDec o (s.iff k) x
  (.iff r.1, r.2, if r.2 = .iff then { s with iff := s.iff.set k ((s.iff k).getD r.1.system_id) } else s)

/-- codec.rs:270-343 `CdisBody::decode` -/
def bodyDec (env : Env) (o : Options) (s : DecState) : Cdis.CdisBody → Dis.Body × StateResult × DecState
  | .unsupported => (.other ⟨none, none, []⟩, .unaffected, s)
  | .entityState x => esDecodeBody env o s x
  | .fire x => (.fire (fireDec env x), .unaffected, s)
  | .detonation x => (.detonation (detonationDec env x), .unaffected, s)
  | .collision x => (.collision (collisionDec x), .unaffected, s)
  | .createEntity x => (.createEntity (createDec x), .unaffected, s)
  | .removeEntity x => (.removeEntity (removeDec x), .unaffected, s)
  | .startResume x => (.startResume (startDec x), .unaffected, s)
  | .stopFreeze x => (.stopFreeze (stopDec env x), .unaffected, s)
  | .acknowledge x => (.acknowledge (ackDec x), .unaffected, s)
  | .actionRequest x => (.actionRequest (actionDec x), .unaffected, s)
  | .actionResponse x => (.actionResponse (responseDec x), .unaffected, s)
  | .dataQuery x => (.dataQuery (queryDec x), .unaffected, s)
  | .setData x => (.setData (setDataDec x), .unaffected, s)
  | .data x => (.data (dataDec x), .unaffected, s)
  | .eventReport x => (.eventReport (eventDec x), .unaffected, s)
  | .comment x => (.comment (commentDec x), .unaffected, s)
  | .electromagneticEmission x => eeDecodeBody o s x
  | .designator x => desDecodeBody env s x
  | .transmitter x => txDecodeBody env o s x
  | .signal x => (.signal (signalDec x), .unaffected, s)
  | .receiver x => (.receiver (receiverDec x), .unaffected, s)
  | .iff x => iffDecodeBody o s x

/-- codec.rs:159-167 `CdisPdu::encode` -/
def pduEnc (env : Env) (o : Options) (now : Nat) (s : EncState) (p : Dis.Pdu) : Option (Cdis.CdisPdu × StateResult × EncState) :=
  (bodyEnc env o now s p.body).map fun r => (Cdis.CdisPdu.finalize (headerEnc p.header) r.1 none, r.2)
/-- codec.rs:169-178 `CdisPdu::decode` -/
def pduDec (env : Env) (o : Options) (s : DecState) (p : Cdis.CdisPdu) : Dis.Pdu × StateResult × DecState :=
  let r := bodyDec env o s p.body
  (Dis.Pdu.finalizeFromParts (headerDec p.header) r.1 (headerDec p.header).time_stamp, r.2)

/-! ## Streams -/

/-- An encoder that is fed PDUs one after the other, each at its time. -/
def encStream (env : Env) (o : Options) : EncState → List (Nat × Dis.Pdu) → Option (List Cdis.CdisPdu × EncState)
  | s, [] => some ([], s)
  | s, (now, p) :: rest =>
    (pduEnc env o now s p).bind fun r => (encStream env o r.2.2 rest).map fun q => (r.1 :: q.1, q.2)
/-- A decoder that is fed PDUs one after the other. -/
def decStream (env : Env) (o : Options) : DecState → List Cdis.CdisPdu → List Dis.Pdu × DecState
  | s, [] => ([], s)
  | s, p :: rest =>
    let r := pduDec env o s p
    let q := decStream env o r.2.2 rest
    (r.1 :: q.1, q.2)

end Verif.Codec

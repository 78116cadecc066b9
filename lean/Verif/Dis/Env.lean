import Verif.Dis.HeaderLemmas

/-!
# Parameters of the model

Parts of the behaviour that are fixed by data outside the repository (the SISO-REF-010 XML consumed by
`dis-rs/build.rs` is not part of /repo), by the build profile, or by the Unicode tables of the Rust
standard library.  Every theorem is proved for all values of these parameters.
-/

namespace Verif.Dis

/-- The variants of `EntityAppearance` (entity_state/model.rs:72-87) and, with the same shape, of the
generated `EntityCapabilities` (used in v7/entity_state/mod.rs:8-26). -/
inductive EntityClass where
  | landPlatform | airPlatform | surfacePlatform | subsurfacePlatform | spacePlatform
  | munition | lifeForms | environmental | culturalFeature | supply | radio | expendable
  | sensorEmitter | unspecified
  deriving Repr, DecidableEq, Inhabited

/-- How the IFF parser treats a system type (iff/parser.rs:293-320, 394-421): the variants of `IffSystemType`
named `…Transponder`, those named `…Interrogator`, and all the others (combined, TCAS/ACAS, invalid, unspecified). -/
inductive IffClass where
  | transponder | interrogator | undetermined
  deriving Repr, DecidableEq, Inhabited

/-- Parameters: see the module comment. -/
structure Env where
  /-- the build has integer overflow checks (debug profile) -/
  checked : Bool
  /-- the bits of the 32-bit appearance record that the generated bitfield structure of a class has a
  field for -/
  appearanceMask : EntityClass → UInt32
  /-- likewise for the capabilities record -/
  capabilityMask : EntityClass → UInt32
  /-- `sanitize_marking` (common/parser.rs:741-746) on input with a non-ASCII octet
  (`String::from_utf8_lossy` and Unicode `trim_end`/`is_alphanumeric`) -/
  sanitizeNonAscii : Bytes → Bytes
  /-- the class of a raw IFF system type (the numbers of the variants come from SISO-REF-010, UID 82) -/
  iffClass : UInt16 → IffClass

/-- v7/entity_state/mod.rs:8-26 and entity_state/model.rs:96-114: the class selected by the kind and
domain of an entity type (raw SISO-REF-010 values of `EntityKind` and `PlatformDomain`).  Both matches
send every kind outside 1..9, and platforms with another domain, to `Unspecified`. -/
def entityClass (t : EntityType) : EntityClass :=
  let k := t.kind.toNat
  let d := t.domain.toNat
  if k = 1 then
    if d = 1 then .landPlatform
    else if d = 2 then .airPlatform
    else if d = 3 then .surfacePlatform
    else if d = 4 then .subsurfacePlatform
    else if d = 5 then .spacePlatform
    else .unspecified
  else if k = 2 then .munition
  else if k = 3 then .lifeForms
  else if k = 4 then .environmental
  else if k = 5 then .culturalFeature
  else if k = 6 then .supply
  else if k = 7 then .radio
  else if k = 8 then .expendable
  else if k = 9 then .sensorEmitter
  else .unspecified

/-- common/mod.rs:74-82 `From<ProtocolVersion> for SupportedVersion` (raw values: 6 = IEEE 1278.1A-1998,
7 = IEEE 1278.1-2012). -/
inductive SupportedVersion where
  | v6 | v7 | unsupported
  deriving Repr, DecidableEq

/-- common/mod.rs:74-82 -/
def supportedVersion (protocol_version : UInt8) : SupportedVersion :=
  if protocol_version = 6 then .v6 else if protocol_version = 7 then .v7 else .unsupported

end Verif.Dis

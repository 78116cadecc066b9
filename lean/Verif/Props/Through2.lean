import Verif.Props.Through
namespace Verif.Props
open Verif.Codec

/-! ### Ranges of the quantisers -/

theorem toInt_in {lo hi : Int} (h0 : lo ≤ 0) (h1 : 0 ≤ hi) (x : Fl) : lo ≤ Fl.toInt lo hi x ∧ Fl.toInt lo hi x ≤ hi := by
  cases x with
  | nan => exact ⟨h0, h1⟩
  | inf s => cases s <;> simp only [Fl.toInt] <;> omega
  | num q =>
    simp only [Fl.toInt, castSat]
    omega
theorem toI16_in (x : Fl) : Cdis.InS 16 (toI16 x) := by
  have := toInt_in (lo := -32768) (hi := 32767) (by decide) (by decide) x
  unfold Cdis.InS toI16
  norm_num
  omega
theorem i16Sat_in (x : Fl) : Cdis.InS 16 (i16Sat x) := by
  cases x with
  | nan => decide
  | inf s => cases s <;> decide
  | num q => rw [i16Sat_num]; exact toI16_in _
theorem lin_in (v : Dis.VectorF32) : (linEnc v).In 16 := ⟨toI16_in _, toI16_in _, toI16_in _⟩
theorem coord_in (v : Dis.VectorF32) : (coordEnc v).1.In 16 ∧ (coordEnc v).2 < 2 := by
  unfold coordEnc
  split
  · exact ⟨⟨i16Sat_in _, i16Sat_in _, i16Sat_in _⟩, (by decide : METER < 2)⟩
  · exact ⟨⟨i16Sat_in _, i16Sat_in _, i16Sat_in _⟩, (by decide : CM < 2)⟩
theorem truncRat_toNat_lt {q : Rat} {n : Nat} (h2 : q < n) (hn : 0 < n) : (truncRat q).toNat < n := by
  unfold truncRat
  split
  · rename_i h
    have : q.ceil ≤ 0 := by
      have : q ≤ ((0 : Int) : Rat) := by push_cast; linarith
      exact Rat.ceil_le_iff.2 this
    omega
  · have : q.floor < n := by
      rw [Rat.floor_lt_iff]
      exact_mod_cast h2
    omega
theorem u32_lt {x : Fl} {n : Nat} (h : u32FromF32 x = some n) : n < 4294967296 := by
  unfold u32FromF32 at h
  cases x with
  | nan => simp at h
  | inf s => simp at h
  | num q =>
    simp only at h
    split at h
    · rename_i hq
      cases h
      exact truncRat_toNat_lt (by exact_mod_cast hq.2) (by decide)
    · cases h
theorem u32_getD_lt (x : Fl) : (u32FromF32 x).getD 4294967295 < 4294967296 := by
  cases hx : u32FromF32 x with
  | none => decide
  | some n => exact u32_lt hx
theorem mass_wf (b : UInt32) : (massEnc b).1 < 4294967296 ∧ (massEnc b).2 < 2 := by
  unfold massEnc
  split
  · exact ⟨u32_getD_lt _, (by decide : (0:Nat) < 2)⟩
  · exact ⟨u32_getD_lt _, (by decide : (1:Nat) < 2)⟩
theorem mod16 (n : UInt16) (m : Nat) (hm : m < 65536) : UInt16.ofNat (n.toNat % m) = n % UInt16.ofNat m := by
  apply UInt16.toNat_inj.1
  rw [UInt16.toNat_mod, UInt16.toNat_ofNat', UInt16.toNat_ofNat', Nat.mod_eq_of_lt (show m < 2 ^ 16 from hm)]
  have := n.toNat_lt
  exact Nat.mod_eq_of_lt (lt_of_le_of_lt (Nat.mod_le _ _) this)

/-- the received power is at least -256 and less than 256 decibel milliwatts (or no number at all) -/
def PowerFits (b : UInt32) : Prop := ∀ q, v32 b = .num q → -257 < q ∧ q < 256
/-- the class of an encoding scheme, two bits -/
def schemeClass : Dis.EncodingScheme → UInt16
  | .encodedAudio c _ | .rawBinaryData c _ | .applicationSpecificData c _ | .databaseIndex c _ _ _ | .unspecified c => c
/-- what arrives of an encoding scheme: the number behind the class has eight bits -/
def schemeWireQ : Dis.EncodingScheme → Dis.EncodingScheme
  | .encodedAudio c t => schemeQ (.encodedAudio c (t % 256))
  | s => schemeQ s

theorem power_in {b : UInt32} (h : PowerFits b) : Cdis.InS 9 ((i16FromF32 (v32 b)).getD 0) := by
  cases hb : v32 b with
  | nan => decide
  | inf s => cases s <;> decide
  | num q =>
    obtain ⟨h1, h2⟩ := h q hb
    unfold i16FromF32
    dsimp only
    rw [if_pos ⟨by linarith, by linarith⟩]
    unfold Cdis.InS
    simp only [Option.getD_some]
    norm_num
    unfold truncRat
    split
    · have a : q.ceil ≤ 0 := Rat.ceil_le_iff.2 (by push_cast; linarith)
      have b : -257 < q.ceil := by rw [Rat.lt_ceil_iff]; exact_mod_cast h1
      omega
    · have a : 0 ≤ q.floor := Rat.le_floor_iff.2 (by push_cast; linarith)
      have b : q.floor < 256 := by rw [Rat.floor_lt_iff]; exact_mod_cast h2
      omega

section
variable {env : Env} {o : Options} {h : Dis.PduHeader} (hst : (h.pdu_status.getD {}).Wf h.pdu_type)
include hst

theorem arrives_query (x : Dis.DataQuery) (ht : h.pdu_type = 18)
    (hf : x.fixed_datum_records.length ≤ 255 ∧ x.variable_datum_records.length ≤ 255) :
    Arrives env o ⟨h, .dataQuery x⟩ (received h (.dataQuery { x with time_interval := timeWireQ x.time_interval })) := by
  have hl (l : List UInt32) : ∀ d ∈ l.map UInt32.toNat, d < 2 ^ 32 := by
    intro d hd
    obtain ⟨a, -, rfl⟩ := List.mem_map.1 hd
    exact a.toNat_lt
  have e1 : (⟨disAbsolute x.time_interval, (timeEnc x.time_interval).units % 2 ^ 25⟩ : Cdis.CdisTimeStamp).raw =
      (timeEnc x.time_interval).raw % 2 ^ 26 := by
    rw [Cdis.CdisTimeStamp.raw_eq, Cdis.CdisTimeStamp.raw_eq, ← enc_units.1]
    cases (timeEnc x.time_interval).absolute <;> simp <;> omega
  refine arrives_fit (o1 := o) (.dataQuery (queryEnc x)) (.dataQuery { queryEnc x with
      time_interval := ⟨disAbsolute x.time_interval, (timeEnc x.time_interval).units % 2 ^ 25⟩ })
    (fun _ _ => rfl) hst ?_
    ⟨by rw [ht]; rfl, eid_wf _, eid_wf _, x.request_id.toNat_lt, Nat.mod_lt _ (by decide), ?_, ?_, hl _, hl _⟩
    trivial ?_ ht.symm
  · simp only [Cdis.CdisBody.ser, Cdis.DataQuery.ser, Cdis.DataQuery.fp, e1]
    rw [wU_mod 26]
    rfl
  · show (List.map _ _).length < 256
    rw [List.length_map]; omega
  · show (List.map _ _).length < 256
    rw [List.length_map]; omega
  · simp only [bodyDec, Cdis.CdisBody.wire, queryDec, queryEnc, eid_rt, UInt32.ofNat_toNat, List.map_map, Function.comp_def,
      List.map_id', e1, timeWireQ]
    rw [Nat.mod_eq_of_lt (show (timeEnc x.time_interval).raw % 2 ^ 26 < 4294967296 by omega)]
theorem arrives_collision (x : Dis.Collision) (ht : h.pdu_type = 4) :
    Arrives env o ⟨h, .collision x⟩ (received h (.collision { x with
      collision_type := if x.collision_type = 1 then 1 else 0
      velocity := linQ x.velocity, mass := massQ x.mass, location := coordQ x.location })) := by
  refine arrives_fit (o1 := o) (.collision (collisionEnc x)) _ (fun _ _ => rfl) hst rfl
    ⟨by rw [ht]; rfl, (coord_in _).2, (mass_wf _).2, eid_wf _, eid_wf _, evid_wf _, lin_in _, (mass_wf _).1, (coord_in _).1⟩
    trivial ?_ ht.symm
  have h1 : (x.collision_type.toNat = 1) = (x.collision_type = 1) := by
    apply propext; rw [← UInt8.toNat_inj]; rfl
  simp only [bodyDec, Cdis.CdisBody.wire, Cdis.Collision.wire, collisionDec, collisionEnc, eid_rt, evid_rt, linQ, massQ, coordQ, h1]
  split <;> rfl
theorem arrives_receiver (x : Dis.Receiver) (ht : h.pdu_type = 27) (hp : PowerFits x.received_power) :
    Arrives env o ⟨h, .receiver x⟩ (received h (.receiver { x with
      receiver_state := x.receiver_state % 4, received_power := powerQ x.received_power })) := by
  refine arrives_fit (o1 := o) (.receiver (receiverEnc x)) (.receiver { receiverEnc x with receiver_state := x.receiver_state.toNat % 2 ^ 2 })
    (fun _ _ => rfl) hst ?_
    ⟨by rw [ht]; rfl, eid_wf _, x.radio_number.toNat_lt, Nat.mod_lt _ (by decide), power_in hp, eid_wf _, x.transmitter_radio_number.toNat_lt⟩
    trivial ?_ ht.symm
  · simp only [Cdis.CdisBody.ser, Cdis.Receiver.ser]
    rw [wU_mod 2]
    rfl
  · simp only [bodyDec, Cdis.CdisBody.wire, receiverDec, receiverEnc, eid_rt, UInt16.ofNat_toNat, powerQ]
    rw [mod16 _ _ (by decide)]
    rfl
theorem arrives_signal (x : Dis.Signal) (ht : h.pdu_type = 26) (hc : schemeClass x.encoding_scheme < 4) (hd : x.data.length ≤ 2047) :
    Arrives env o ⟨h, .signal x⟩ (received h (.signal { x with
      encoding_scheme := schemeWireQ x.encoding_scheme, tdl_type := x.tdl_type % 256,
      sample_rate := if isAudio x.encoding_scheme then x.sample_rate else 0,
      samples := if isAudio x.encoding_scheme then x.samples else 0 })) := by
  have hcl : (schemeClass x.encoding_scheme).toNat < 4 := hc
  obtain ⟨cs, e1, e2, e3⟩ : ∃ cs : Cdis.EncodingScheme, (schemeEnc x.encoding_scheme).ser = cs.ser ∧ cs.Wf ∧
      schemeDec cs = schemeWireQ x.encoding_scheme := by
    have red (s : Dis.EncodingScheme) (hv : (schemeEnc s).value < 256) (hc : (schemeEnc s).encoding_class < 4)
        (hs : schemeWireQ s = schemeQ s) : ∃ cs : Cdis.EncodingScheme, (schemeEnc s).ser = cs.ser ∧ cs.Wf ∧
        schemeDec cs = schemeWireQ s := ⟨_, rfl, ⟨hc, hv⟩, by rw [hs]; exact scheme_rt s⟩
    cases hx : x.encoding_scheme with
    | encodedAudio c t =>
      rw [hx] at hcl
      refine ⟨schemeEnc (.encodedAudio c (t % 256)), ?_, ⟨hcl, ?_⟩, scheme_rt _⟩
      · simp only [Cdis.EncodingScheme.ser, schemeEnc, UInt16.toNat_mod]
        show Cdis.wU 2 _ ++ Cdis.wUV8 (t.toNat % 256) = Cdis.wU 2 _ ++ Cdis.wUV8 (t.toNat % 256 % 256)
        rw [Nat.mod_mod]
      · show (t % 256).toNat < 256
        rw [UInt16.toNat_mod]
        exact Nat.mod_lt _ (by decide)
    | rawBinaryData c n => rw [hx] at hcl; exact red _ (Nat.mod_lt _ (by decide)) hcl rfl
    | applicationSpecificData c n => rw [hx] at hcl; exact red _ (by simp [schemeEnc]) hcl rfl
    | databaseIndex c n => rw [hx] at hcl; exact red _ (by simp [schemeEnc]) hcl rfl
    | unspecified c => rw [hx] at hcl; exact red _ (by simp [schemeEnc]) hcl rfl
  refine arrives_fit (o1 := o) (.signal (signalEnc x)) (.signal { signalEnc x with encoding_scheme := cs, tdl_type := x.tdl_type.toNat % 2 ^ 8 })
    (fun _ _ => rfl) hst ?_
    ⟨by rw [ht]; rfl, eid_wf _, x.radio_number.toNat_lt, e2, Nat.mod_lt _ (by decide), ?_, ?_, ?_, bytes_lt _⟩
    trivial ?_ ht.symm
  · simp only [Cdis.CdisBody.ser, Cdis.Signal.ser, Cdis.Signal.fp]
    rw [← e1, wU_mod 8]
    rfl
  · unfold signalEnc
    cases x.encoding_scheme <;> simp [Cdis.OptAll, x.sample_rate.toNat_lt]
  · unfold signalEnc
    cases x.encoding_scheme <;> simp [Cdis.OptAll, x.samples.toNat_lt]
  · show (bytesEnc _).length < _
    simp only [bytesEnc, List.length_map]; omega
  · simp only [bodyDec, Cdis.CdisBody.wire, signalDec, signalEnc, eid_rt, UInt16.ofNat_toNat, e3, bytes_rt]
    rw [mod16 _ _ (by decide)]
    cases x.encoding_scheme <;> simp [isAudio]

end

end Verif.Props

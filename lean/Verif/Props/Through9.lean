import Verif.Props.Through8
/-! # C57, continued: Electromagnetic Emissions -/
namespace Verif.Props
open Verif.Codec

/-- The same emission with other emitter numbers. -/
def renumber (f : Dis.EmitterSystem → UInt8) (x : Dis.ElectromagneticEmission) : Dis.ElectromagneticEmission :=
  { x with emitter_systems := x.emitter_systems.map fun y => { y with number := f y } }

theorem allBeams_renumber (f : Dis.EmitterSystem → UInt8) (x : Dis.ElectromagneticEmission) :
    (allBeams (renumber f x)).map Prod.snd = (allBeams x).map Prod.snd := by
  unfold allBeams renumber
  simp only [List.flatMap_map, List.map_flatMap, List.map_map]
  congr 1

theorem ee_renumber {f : Dis.EmitterSystem → UInt8} {x : Dis.ElectromagneticEmission}
    (hf : ∀ y ∈ x.emitter_systems, (f y < 16 ↔ y.number < 16)) {o : Options} (hm : o.update_mode = .full) (now now' : Nat) (st st' : Option EeEncState) :
    (eeEnc o now' st' (renumber f x)).1.ser = (eeEnc o now st x).1.ser ∧ (eeEnc o now' st' (renumber f x)).1.lenBits = (eeEnc o now st x).1.lenBits := by
  have h := allBeams_renumber f x
  have hp : paramsFull (renumber f x) = paramsFull x := by
    unfold paramsFull
    have := congrArg (List.map fun b : Dis.Beam => paramEnc b.parameter_data) h
    rw [List.map_map, List.map_map] at this
    exact congrArg _ this
  have hb : beamsFull (renumber f x) = beamsFull x := by
    unfold beamsFull
    have := congrArg (List.map fun b : Dis.Beam => beamEnc b.beam_data) h
    rw [List.map_map, List.map_map] at this
    exact congrArg _ this
  have hs : pairsOf (renumber f x) = pairsOf x := by
    unfold pairsOf
    have := congrArg (List.flatMap fun b : Dis.Beam => b.track_jam_data.map fun t => pairEnc t.entity_id.simulation_address) h
    rw [List.flatMap_map, List.flatMap_map] at this
    exact congrArg _ this
  have e1 : ∀ now st (z : Dis.ElectromagneticEmission), (eeEnc o now st z).1 =
      { full_update_flag := true, emitting_id := eidEnc z.emitting_entity_id, event_id := evidEnc z.event_id,
        state_update_indicator := z.state_update_indicator.toNat, fundamental_params := paramsFull z, beam_data := beamsFull z,
        site_app_pairs := pairsOf z, emitter_systems := z.emitter_systems.map (eeSystemEnc true (paramsFull z) (beamsFull z) (pairsOf z)) } := by
    intro now st z
    unfold eeEnc
    rw [hm]
  rw [e1, e1, hp, hb, hs]
  unfold Cdis.ElectromagneticEmission.ser Cdis.ElectromagneticEmission.lenBits
  simp only [renumber, List.map_map, List.length_map, List.flatMap_map]
  refine ⟨?_, ?_⟩
  · simp only [Cdis.wCount8, List.length_map]
    rfl
  · congr 2
    apply List.map_congr_left
    intro y hy
    unfold Cdis.EmitterSystem.lenBits
    have : Cdis.lUV8 (f y).toNat = Cdis.lUV8 y.number.toNat := by
      have := hf y hy
      have e : (f y).toNat ≤ 15 ↔ y.number.toNat ≤ 15 := by
        rw [UInt8.lt_iff_toNat_lt, UInt8.lt_iff_toNat_lt] at this
        have h16 : (16 : UInt8).toNat = 16 := rfl
        rw [h16] at this
        omega
      unfold Cdis.lUV8 Cdis.uv8Flag
      simp only [e]
    simp only [Function.comp, eeSystemEnc, this]
    
/-- **C57 violated.** Emitter numbers do not survive: for every Electromagnetic Emission PDU with an emitter system there is another one, with
other emitter numbers, that is sent as the very same octets - whatever the encoders have sent before.  So whatever a receiver does with
the datagram, it is wrong for one of the two. -/
theorem C57_emission_violated {env : Env} {o : Options} (hm : o.update_mode = .full) (h : Dis.PduHeader) {x : Dis.ElectromagneticEmission}
    (hx : x.emitter_systems ≠ []) :
    ∃ x', x' ≠ x ∧ renumber (fun _ => 0) x' = renumber (fun _ => 0) x ∧ ∀ now now' s s', ∃ c c' r r' t t',
      pduEnc env o now s ⟨h, .electromagneticEmission x⟩ = some (c, r, t) ∧
      pduEnc env o now' s' ⟨h, .electromagneticEmission x'⟩ = some (c', r', t') ∧ packBits c'.ser = packBits c.ser := by
  let f : Dis.EmitterSystem → UInt8 := fun y => if y.number < 16 then (if y.number = 0 then 1 else 0) else (if y.number = 16 then 17 else 16)
  have hne : ∀ y, f y ≠ y.number := by
    intro y
    have : ∀ n : UInt8, (if n < 16 then (if n = 0 then 1 else 0) else (if n = 16 then 17 else 16) : UInt8) ≠ n := by
      intro n
      split
      · split
        · rename_i h; rw [h]; decide
        · rename_i h; exact fun e => h e.symm
      · split
        · rename_i h; rw [h]; decide
        · rename_i h; exact fun e => h e.symm
    exact this y.number
  have hcl : ∀ y, (f y < 16 ↔ y.number < 16) := by
    intro y
    by_cases hy : y.number < 16
    · simp only [f, hy, if_true, iff_true]
      split <;> decide
    · simp only [f, hy, if_false, iff_false]
      split <;> decide
  refine ⟨renumber f x, ?_, ?_, ?_⟩
  · intro e
    obtain ⟨y, l, hl⟩ := List.exists_cons_of_ne_nil hx
    have := congrArg Dis.ElectromagneticEmission.emitter_systems e
    unfold renumber at this
    dsimp only at this
    rw [hl, List.map_cons] at this
    exact hne y (congrArg Dis.EmitterSystem.number (List.cons.inj this).1)
  · unfold renumber
    simp only [List.map_map]
    rfl
  · intro now now' s s'
    refine ⟨_, _, _, _, _, _, rfl, rfl, ?_⟩
    obtain ⟨h1, h2⟩ := ee_renumber (f := f) (x := x) (fun y _ => hcl y) hm now now' (s.ee x.emitting_entity_id) (s'.ee x.emitting_entity_id)
    unfold Cdis.CdisPdu.ser Cdis.CdisPdu.finalize
    dsimp only [eeEncodeBody]
    simp only [Cdis.CdisBody.ser, Cdis.CdisBody.lenBits]
    rw [show (renumber f x).emitting_entity_id = x.emitting_entity_id from rfl, h1, h2]

/-- an emission with one emitter system and one beam -/
example (h : Dis.PduHeader) := C57_emission_violated (env := codecEnv) (o := { update_mode := .full }) rfl h
  (x := sample_electromagneticEmission) (by decide)

end Verif.Props

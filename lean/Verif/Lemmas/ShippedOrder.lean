import Verif.Lemmas.ShippedNames
import Verif.Model.UnitClass

/- The order of the shipped dictionary. -/
namespace Unyts
open Spec
set_option maxRecDepth 1000000

/-- the keys after a key is set -/
def addKey (ks : List Str) (k : Str) : List Str := if k ∈ ks then ks else ks ++ [k]

theorem keys_setKind (d : UnitDict) (k : Str) (l : List Str) : (setKind d k l).map Prod.fst = addKey (d.map Prod.fst) k := by
  unfold setKind addKey
  induction d with
  | nil => rfl
  | cons e d ih =>
    obtain ⟨k', v'⟩ := e
    by_cases hk : k' = k
    · subst hk; simp [Py.dictSet]
    · simp only [Py.dictSet, hk, if_false, List.map_cons, ih, List.mem_cons, Ne.symm hk, false_or]
      split <;> rfl

theorem createRates_keys {d d' : UnitDict} (h : createRates d = .ok d') : d'.map Prod.fst = (addKey (d.map Prod.fst) s!!"Rate") := by
  obtain ⟨l0, h0, h⟩ := res_bind_ok h
  obtain ⟨l1, h1, h⟩ := res_bind_ok h
  obtain ⟨l2, h2, h⟩ := res_bind_ok h
  obtain ⟨l3, h3, h⟩ := res_bind_ok h
  cases h
  simp only [keys_setKind]

theorem createVolumeRatio_keys {d d' : UnitDict} (h : createVolumeRatio d = .ok d') : d'.map Prod.fst = (addKey (d.map Prod.fst) s!!"VolumeRatio") := by
  obtain ⟨l0, h0, h⟩ := res_bind_ok h
  cases h
  simp only [keys_setKind]

theorem createDensity_keys {d d' : UnitDict} (h : createDensity d = .ok d') : d'.map Prod.fst = (addKey (d.map Prod.fst) s!!"Density") := by
  obtain ⟨l0, h0, h⟩ := res_bind_ok h
  obtain ⟨l1, h1, h⟩ := res_bind_ok h
  cases h
  simp only [keys_setKind]

theorem createVelocity_keys {d d' : UnitDict} (h : createVelocity d = .ok d') : d'.map Prod.fst = (addKey (d.map Prod.fst) s!!"Velocity") := by
  obtain ⟨l0, h0, h⟩ := res_bind_ok h
  obtain ⟨l1, h1, h⟩ := res_bind_ok h
  cases h
  simp only [keys_setKind]

theorem createAcceleration_keys {d d' : UnitDict} (h : createAcceleration d = .ok d') : d'.map Prod.fst = (addKey (d.map Prod.fst) s!!"Acceleration") := by
  obtain ⟨l0, h0, h⟩ := res_bind_ok h
  obtain ⟨l1, h1, h⟩ := res_bind_ok h
  cases h
  simp only [keys_setKind]

theorem createProductivityIndex_keys {d d' : UnitDict} (h : createProductivityIndex d = .ok d') : d'.map Prod.fst = (addKey (d.map Prod.fst) s!!"ProductivityIndex") := by
  obtain ⟨l0, h0, h⟩ := res_bind_ok h
  obtain ⟨l1, h1, h⟩ := res_bind_ok h
  obtain ⟨l2, h2, h⟩ := res_bind_ok h
  cases h
  simp only [keys_setKind]

theorem createPressureGradient_keys {d d' : UnitDict} (h : createPressureGradient d = .ok d') : d'.map Prod.fst = (addKey (d.map Prod.fst) s!!"PressureGradient") := by
  obtain ⟨l0, h0, h⟩ := res_bind_ok h
  obtain ⟨l1, h1, h⟩ := res_bind_ok h
  cases h
  simp only [keys_setKind]

theorem createPressure_keys {d d' : UnitDict} (h : createPressure d = .ok d') : d'.map Prod.fst = (addKey (d.map Prod.fst) s!!"Pressure") := by
  obtain ⟨l0, h0, h⟩ := res_bind_ok h
  obtain ⟨l1, h1, h⟩ := res_bind_ok h
  cases h
  simp only [keys_setKind]

theorem createTemperatureGradient_keys {d d' : UnitDict} (h : createTemperatureGradient d = .ok d') : d'.map Prod.fst = (addKey (d.map Prod.fst) s!!"TemperatureGradient") := by
  obtain ⟨l0, h0, h⟩ := res_bind_ok h
  obtain ⟨l1, h1, h⟩ := res_bind_ok h
  cases h
  simp only [keys_setKind]

theorem createPower_keys {d d' : UnitDict} (h : createPower d = .ok d') : d'.map Prod.fst = (addKey (d.map Prod.fst) s!!"Power") := by
  obtain ⟨l0, h0, h⟩ := res_bind_ok h
  obtain ⟨l1, h1, h⟩ := res_bind_ok h
  obtain ⟨l2, h2, h⟩ := res_bind_ok h
  obtain ⟨l3, h3, h⟩ := res_bind_ok h
  obtain ⟨l4, h4, h⟩ := res_bind_ok h
  cases h
  simp only [keys_setKind]

theorem createFrequency_keys {d d' : UnitDict} (h : createFrequency d = .ok d') : d'.map Prod.fst = (addKey (d.map Prod.fst) s!!"Frequency") := by
  obtain ⟨l0, h0, h⟩ := res_bind_ok h
  cases h
  simp only [keys_setKind]

theorem createConductance_keys {d d' : UnitDict} (h : createConductance d = .ok d') : d'.map Prod.fst = (addKey (d.map Prod.fst) s!!"Conductance") := by
  obtain ⟨l0, h0, h⟩ := res_bind_ok h
  cases h
  simp only [keys_setKind]

theorem createCapacitanceCharge_keys {d d' : UnitDict} (h : createCapacitanceCharge d = .ok d') : d'.map Prod.fst = (addKey (addKey (d.map Prod.fst) s!!"Capacitance") s!!"Charge") := by
  obtain ⟨l0, h0, h⟩ := res_bind_ok h
  obtain ⟨l1, h1, h⟩ := res_bind_ok h
  obtain ⟨l2, h2, h⟩ := res_bind_ok h
  cases h
  simp only [keys_setKind]

theorem createVoltageCurrentResistance_keys {d d' : UnitDict} (h : createVoltageCurrentResistance d = .ok d') : d'.map Prod.fst = (addKey (addKey (addKey (d.map Prod.fst) s!!"Voltage") s!!"Current") s!!"Resistance") := by
  obtain ⟨l0, h0, h⟩ := res_bind_ok h
  obtain ⟨l1, h1, h⟩ := res_bind_ok h
  obtain ⟨l2, h2, h⟩ := res_bind_ok h
  obtain ⟨l3, h3, h⟩ := res_bind_ok h
  cases h
  simp only [keys_setKind]

theorem completeDict_keys {d d' : UnitDict} (h : completeDict d = .ok d') : d'.map Prod.fst =
    [s!!"Rate", s!!"VolumeRatio", s!!"Density", s!!"Velocity", s!!"Acceleration", s!!"ProductivityIndex", s!!"PressureGradient",
      s!!"Pressure", s!!"TemperatureGradient", s!!"Power", s!!"Frequency", s!!"Conductance", s!!"Capacitance", s!!"Charge",
      s!!"Voltage", s!!"Current", s!!"Resistance"].foldl addKey (d.map Prod.fst) := by
  obtain ⟨d1, h1, h⟩ := res_bind_ok h
  obtain ⟨d2, h2, h⟩ := res_bind_ok h
  obtain ⟨d3, h3, h⟩ := res_bind_ok h
  obtain ⟨d4, h4, h⟩ := res_bind_ok h
  obtain ⟨d5, h5, h⟩ := res_bind_ok h
  obtain ⟨d6, h6, h⟩ := res_bind_ok h
  obtain ⟨d7, h7, h⟩ := res_bind_ok h
  obtain ⟨d8, h8, h⟩ := res_bind_ok h
  obtain ⟨d9, h9, h⟩ := res_bind_ok h
  obtain ⟨d10, h10, h⟩ := res_bind_ok h
  obtain ⟨d11, h11, h⟩ := res_bind_ok h
  obtain ⟨d12, h12, h⟩ := res_bind_ok h
  obtain ⟨d13, h13, h⟩ := res_bind_ok h
  obtain ⟨d14, h14, h⟩ := res_bind_ok h
  cases h
  rw [show (completeProducts d14).map Prod.fst = d14.map Prod.fst by simp [completeProducts, Function.comp_def]]
  rw [createVoltageCurrentResistance_keys h14, createCapacitanceCharge_keys h13, createConductance_keys h12, createFrequency_keys h11, createPower_keys h10, createTemperatureGradient_keys h9, createPressure_keys h8, createPressureGradient_keys h7, createProductivityIndex_keys h6, createAcceleration_keys h5, createVelocity_keys h4, createDensity_keys h3, createVolumeRatio_keys h2, createRates_keys h1]
  simp only [List.foldl_cons, List.foldl_nil]

/-- the keys of the shipped dictionary, in order -/
def shippedKeys : List Str :=
  [s!!"Time", s!!"Temperature", s!!"TemperatureGradient", s!!"Volume", s!!"Length", s!!"Area", s!!"Pressure", s!!"PressureGradient", s!!"Weight", s!!"Mass", s!!"Density", s!!"Compressibility", s!!"Rate", s!!"Velocity", s!!"Viscosity", s!!"Permeability", s!!"Force", s!!"Energy", s!!"Power", s!!"Voltage", s!!"Current", s!!"Resistance", s!!"Impedance", s!!"Conductance", s!!"Capacitance", s!!"Charge", s!!"Inductance", s!!"Frequency", s!!"ProductivityIndex", s!!"Acceleration", s!!"Dimensionless", s!!"Percentage", s!!"Date", s!!"UserUnits", s!!"otherUnits", s!!"Data", s!!"VolumeRatio"]

theorem raw_keys : (let ks := (rawDictionary.map Prod.fst)
    [s!!"Rate", s!!"VolumeRatio", s!!"Density", s!!"Velocity", s!!"Acceleration", s!!"ProductivityIndex", s!!"PressureGradient",
      s!!"Pressure", s!!"TemperatureGradient", s!!"Power", s!!"Frequency", s!!"Conductance", s!!"Capacitance", s!!"Charge",
      s!!"Voltage", s!!"Current", s!!"Resistance"].foldl addKey ((if s!!"Data" ∈ ks then ks.filter fun k => '_' ∉ k
      else (ks.filter fun k => '_' ∉ k) ++ [s!!"Data"]).filter
      fun k => k ≠ s!!"dataBYTE" ∧ k ≠ s!!"dataBIT")) = shippedKeys := by decide +kernel

theorem Spec.ShippedLibrary.keys {n : Net} {d : UnitDict} (h : ShippedLibrary n d) : d.map Prod.fst = shippedKeys := by
  obtain ⟨g, d0, h1, -, h2⟩ := h.parts
  obtain ⟨d1, hg, hc, -⟩ := load_raw raw_nodup h1
  have e : d0.names.map Prod.fst = d0.map Prod.fst := by simp [RawDict.names, Function.comp_def]
  rw [completeDict_keys h2, e, closeDict_keys hc, hg.keys]
  exact raw_keys

theorem Spec.ShippedLibrary.nodup {n : Net} {d : UnitDict} (h : ShippedLibrary n d) : (d.map Prod.fst).Nodup := by
  rw [h.keys]; decide

theorem Spec.ShippedLibrary.lists_mem {n : Net} {d : UnitDict} (h : ShippedLibrary n d) {k u : Str} {l : List Str}
    (hl : (k, l) ∈ d) (hu : u ∈ l) : Lists d k u := ⟨l, dictGet_of_mem h.nodup hl, hu⟩

/-- the first list that has the name -/
theorem Spec.ShippedLibrary.find {n : Net} {d : UnitDict} (h : ShippedLibrary n d) {pre post : List Str} {k u : Str}
    (hk : shippedKeys = pre ++ k :: post) (hl : Lists d k u) (hno : ∀ k' ∈ pre, ¬ Lists d k' u) :
    ∃ l, d.find? (fun e => u ∈ e.2) = some (k, l) := by
  have hkeys := h.keys
  rw [hk] at hkeys
  have hlm : ∀ k l, (k, l) ∈ d → u ∈ l → Lists d k u := fun k l => h.lists_mem
  have hd : ∃ l, (k, l) ∈ d ∧ u ∈ l := by
    obtain ⟨l, h1, h2⟩ := hl
    exact ⟨l, dictGet_mem h1, h2⟩
  have nd := h.nodup
  clear hl hk h
  revert hlm
  generalize Lists d = P at *
  intro hlm
  induction d generalizing pre with
  | nil => simp at hkeys
  | cons e d ih =>
    obtain ⟨k', l'⟩ := e
    cases pre with
    | nil =>
      simp only [List.map_cons, List.nil_append, List.cons.injEq] at hkeys
      obtain ⟨rfl, hkeys⟩ := hkeys
      obtain ⟨l, h1, h2⟩ := hd
      have : l = l' := by
        rcases List.mem_cons.1 h1 with e | e
        · cases e; rfl
        · simp only [List.map_cons, List.nodup_cons] at nd
          exact absurd (List.mem_map.2 ⟨_, e, rfl⟩) nd.1
      subst this
      exact ⟨l, List.find?_cons_of_pos (by simpa using h2)⟩
    | cons p pre =>
      simp only [List.map_cons, List.cons_append, List.cons.injEq] at hkeys
      obtain ⟨rfl, hkeys⟩ := hkeys
      have hu : u ∉ l' := fun hu => hno k' (by simp) (hlm k' l' (by simp) hu)
      obtain ⟨l, h1, h2⟩ := hd
      have hne : (k, l) ∈ d := by
        rcases List.mem_cons.1 h1 with e | e
        · cases e; exact absurd h2 hu
        · exact e
      rw [List.find?_cons_of_neg (by simpa using hu)]
      exact ih hkeys ⟨l, hne, h2⟩ (by simp only [List.map_cons, List.nodup_cons] at nd; exact nd.2)
        (fun k' hk' => hno k' (by simp [hk'])) (fun k l hm => hlm k l (by simp [hm]))

end Unyts

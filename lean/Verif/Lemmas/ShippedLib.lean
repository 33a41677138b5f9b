import Verif.Lemmas.ShippedDict
import Verif.Lemmas.Dictionary
import Verif.Spec.Library

/- The dictionary of units after `import unyts`. -/
namespace Unyts
open Spec

theorem no_data_kind : (rawDictionary.all fun e => kindBase e.1 != s!!"Data") = true := by decide +kernel

theorem rawDict_names_get (d : RawDict) (k : Str) : Py.dictGet d.names k = (Py.dictGet d k).map RawVal.keys :=
  dictGet_map RawVal.keys

theorem grown_get {d1 : RawDict} (hg : Grown rawDictionary d1)
    (hn : ∀ b l, (b, RawVal.names l) ∈ rawDictionary →
      Py.dictGet d1 b = some (.names (l ++ allAppends shippedPrefixes rawDictionary b))) {q : Str} (hq : '_' ∉ q) (u : Str) :
    (∃ v, Py.dictGet d1 q = some v ∧ u ∈ v.keys) ↔ rawListed q u := by
  constructor
  · rintro ⟨v, hv, hu⟩
    have hmem : q ∈ rawDictionary.map Prod.fst := by
      rw [← hg.keys]
      exact List.mem_map.2 ⟨_, dictGet_mem hv, rfl⟩
    obtain ⟨⟨k, w⟩, hk, rfl⟩ := List.mem_map.1 hmem
    obtain ⟨l, rfl⟩ := plain_value hk hq
    have := hn _ _ hk
    rw [hv] at this
    cases this
    rw [keys_names] at hu
    exact ⟨l, hk, hu⟩
  · rintro ⟨l, hl, hu⟩
    exact ⟨_, hn _ _ hl, by rw [keys_names]; exact hu⟩

theorem kindBase_clean (k : Str) : '_' ∉ kindBase k := by
  unfold kindBase
  cases h : Py.splitOn '_' k with
  | nil => simp
  | cons p ps => exact Py.mem_splitOn_no_sep (s := k) (by rw [h]; simp)

/-- the names of every kind after the network is built -/
theorem shipped_lists {g : Net} {d0 : RawDict} (h : loadShipped = .ok (g, d0)) (q u : Str) :
    Lists d0.names q u ↔ BuiltIn q u ∧ u ∉ unlistedUnits := by
  obtain ⟨d1, hg, hc, hn⟩ := load_raw raw_nodup h
  have hlist : Lists d0.names q u ↔ ∃ v, Py.dictGet d0 q = some v ∧ u ∈ v.keys := by
    unfold Lists
    rw [rawDict_names_get]
    constructor
    · rintro ⟨l, hl, hu⟩
      obtain ⟨v, hv, rfl⟩ := Option.map_eq_some_iff.1 hl
      exact ⟨v, hv, hu⟩
    · rintro ⟨v, hv, hu⟩
      exact ⟨v.keys, by rw [hv]; rfl, hu⟩
  rw [hlist]
  by_cases hD : q = s!!"Data"
  · subst hD
    obtain ⟨x, y, hx, hy, hd⟩ := closeDict_data hc
    rw [hd]
    have e1 : (∃ v : RawVal, some (RawVal.names (x.keys.eraseDups ++ y.keys.eraseDups)) = some v ∧ u ∈ v.keys) ↔
        rawListed s!!"dataBYTE" u ∨ rawListed s!!"dataBIT" u := by
      rw [← grown_get hg hn (by decide), ← grown_get hg hn (by decide), hx, hy]
      constructor
      · rintro ⟨v, hv, hu⟩
        cases hv
        rw [keys_names, List.mem_append, List.mem_eraseDups, List.mem_eraseDups] at hu
        rcases hu with hu | hu
        · exact .inl ⟨x, rfl, hu⟩
        · exact .inr ⟨y, rfl, hu⟩
      · intro hu
        refine ⟨_, rfl, ?_⟩
        rw [keys_names, List.mem_append, List.mem_eraseDups, List.mem_eraseDups]
        rcases hu with ⟨v, hv, hu⟩ | ⟨v, hv, hu⟩
        · cases hv; exact .inl hu
        · cases hv; exact .inr hu
    rw [e1, rawListed_iff (by decide), rawListed_iff (by decide)]
    have hq : ∀ k, UnitOfKind k u → (quantityOf k = s!!"Data" ↔ kindBase k = s!!"dataBYTE" ∨ kindBase k = s!!"dataBIT") := by
      rintro k ⟨v, hv, -⟩
      unfold quantityOf
      have := List.all_eq_true.1 no_data_kind _ hv
      simp only [bne_iff_ne, ne_eq] at this
      split
      · next h => simp [h]
      · next h => simp only [h, this]
    unfold BuiltIn
    constructor
    · rintro (⟨⟨k, hk, e⟩, hu⟩ | ⟨⟨k, hk, e⟩, hu⟩)
      · exact ⟨⟨k, hk, (hq k hk).2 (.inl e)⟩, hu⟩
      · exact ⟨⟨k, hk, (hq k hk).2 (.inr e)⟩, hu⟩
    · rintro ⟨⟨k, hk, e⟩, hu⟩
      rcases (hq k hk).1 e with e | e
      · exact .inl ⟨⟨k, hk, e⟩, hu⟩
      · exact .inr ⟨⟨k, hk, e⟩, hu⟩
  · by_cases hbad : '_' ∈ q ∨ q = s!!"dataBYTE" ∨ q = s!!"dataBIT"
    · refine iff_of_false ?_ ?_
      · rintro ⟨v, hv, -⟩
        have hm : q ∈ d0.map Prod.fst := List.mem_map.2 ⟨_, dictGet_mem hv, rfl⟩
        rw [closeDict_keys hc, List.mem_filter] at hm
        obtain ⟨hm, h2⟩ := hm
        simp only [ne_eq, decide_eq_true_eq] at h2
        rcases hbad with hb | hb | hb
        · split at hm
          · rw [List.mem_filter] at hm
            simp [hb] at hm
          · rcases List.mem_append.1 hm with hm | hm
            · rw [List.mem_filter] at hm
              simp [hb] at hm
            · exact hD (List.mem_singleton.1 hm)
        · exact h2.1 hb
        · exact h2.2 hb
      · rintro ⟨⟨k, -, e⟩, -⟩
        unfold quantityOf at e
        split at e
        · exact hD e.symm
        · next hb =>
          rw [e] at hb
          rcases hbad with h | h | h
          · rw [← e] at h; exact kindBase_clean k h
          · exact hb (.inl h)
          · exact hb (.inr h)
    · simp only [not_or] at hbad
      obtain ⟨h1, h2, h3⟩ := hbad
      rw [closeDict_get hc h1 h2 h3 hD]
      have e1 : (∃ v : RawVal, (Py.dictGet d1 q).map (fun v => RawVal.names v.keys.eraseDups) = some v ∧ u ∈ v.keys) ↔
          ∃ v, Py.dictGet d1 q = some v ∧ u ∈ v.keys := by
        constructor
        · rintro ⟨v, hv, hu⟩
          obtain ⟨w, hw, rfl⟩ := Option.map_eq_some_iff.1 hv
          rw [keys_names, List.mem_eraseDups] at hu
          exact ⟨w, hw, hu⟩
        · rintro ⟨w, hw, hu⟩
          exact ⟨_, by rw [hw]; rfl, by rw [keys_names, List.mem_eraseDups]; exact hu⟩
      rw [e1, grown_get hg hn h1, rawListed_iff h1]
      have hq : ∀ k, quantityOf k = q ↔ kindBase k = q := by
        intro k
        unfold quantityOf
        split
        · next h =>
          refine iff_of_false (fun e => hD e.symm) ?_
          rintro rfl
          rcases h with h | h
          · exact h2 h
          · exact h3 h
        · rfl
      unfold BuiltIn
      simp only [hq]

/-! ## The composed kinds can be made -/

/-- the dictionary has every kind that others are composed of -/
def HasKinds (d : UnitDict) : Prop := ∀ k ∈ s!!"Power" :: neededKinds, ∃ l, kindNames d k = .ok l

theorem hasKinds_setKind {d : UnitDict} (h : HasKinds d) (k : Str) (l : List Str) : HasKinds (setKind d k l) := by
  intro k' hk'
  obtain ⟨m, hm⟩ := h k' hk'
  unfold kindNames setKind at *
  by_cases e : k' = k
  · subst e; exact ⟨_, by rw [Py.dictGet_dictSet_same]⟩
  · exact ⟨m, by rw [Py.dictGet_dictSet_other _ _ e]; exact hm⟩

theorem createRates_runs {d : UnitDict} (h : HasKinds d) : ∃ d', createRates d = .ok d' ∧ HasKinds d' := by
  obtain ⟨l0, h0⟩ := h s!!"Volume" (by decide)
  obtain ⟨l1, h1⟩ := h s!!"Time" (by decide)
  obtain ⟨l2, h2⟩ := h s!!"Weight" (by decide)
  obtain ⟨l3, h3⟩ := h s!!"Data" (by decide)
  refine ⟨_, by simp only [createRates, bind, Except.bind, h0, h1, h2, h3]; rfl, (hasKinds_setKind h _ _)⟩

theorem createVolumeRatio_runs {d : UnitDict} (h : HasKinds d) : ∃ d', createVolumeRatio d = .ok d' ∧ HasKinds d' := by
  obtain ⟨l0, h0⟩ := h s!!"Volume" (by decide)
  refine ⟨_, by simp only [createVolumeRatio, bind, Except.bind, h0]; rfl, (hasKinds_setKind h _ _)⟩

theorem createDensity_runs {d : UnitDict} (h : HasKinds d) : ∃ d', createDensity d = .ok d' ∧ HasKinds d' := by
  obtain ⟨l0, h0⟩ := h s!!"Mass" (by decide)
  obtain ⟨l1, h1⟩ := h s!!"Volume" (by decide)
  refine ⟨_, by simp only [createDensity, bind, Except.bind, h0, h1]; rfl, (hasKinds_setKind h _ _)⟩

theorem createVelocity_runs {d : UnitDict} (h : HasKinds d) : ∃ d', createVelocity d = .ok d' ∧ HasKinds d' := by
  obtain ⟨l0, h0⟩ := h s!!"Length" (by decide)
  obtain ⟨l1, h1⟩ := h s!!"Time" (by decide)
  refine ⟨_, by simp only [createVelocity, bind, Except.bind, h0, h1]; rfl, (hasKinds_setKind h _ _)⟩

theorem createAcceleration_runs {d : UnitDict} (h : HasKinds d) : ∃ d', createAcceleration d = .ok d' ∧ HasKinds d' := by
  obtain ⟨l0, h0⟩ := h s!!"Length" (by decide)
  obtain ⟨l1, h1⟩ := h s!!"Time" (by decide)
  refine ⟨_, by simp only [createAcceleration, bind, Except.bind, h0, h1]; rfl, (hasKinds_setKind h _ _)⟩

theorem createProductivityIndex_runs {d : UnitDict} (h : HasKinds d) : ∃ d', createProductivityIndex d = .ok d' ∧ HasKinds d' := by
  obtain ⟨l0, h0⟩ := h s!!"Volume" (by decide)
  obtain ⟨l1, h1⟩ := h s!!"Time" (by decide)
  obtain ⟨l2, h2⟩ := h s!!"Pressure" (by decide)
  refine ⟨_, by simp only [createProductivityIndex, bind, Except.bind, h0, h1, h2]; rfl, (hasKinds_setKind h _ _)⟩

theorem createPressureGradient_runs {d : UnitDict} (h : HasKinds d) : ∃ d', createPressureGradient d = .ok d' ∧ HasKinds d' := by
  obtain ⟨l0, h0⟩ := h s!!"Pressure" (by decide)
  obtain ⟨l1, h1⟩ := h s!!"Length" (by decide)
  refine ⟨_, by simp only [createPressureGradient, bind, Except.bind, h0, h1]; rfl, (hasKinds_setKind h _ _)⟩

theorem createPressure_runs {d : UnitDict} (h : HasKinds d) : ∃ d', createPressure d = .ok d' ∧ HasKinds d' := by
  obtain ⟨l0, h0⟩ := h s!!"Weight" (by decide)
  obtain ⟨l1, h1⟩ := h s!!"Area" (by decide)
  refine ⟨_, by simp only [createPressure, bind, Except.bind, h0, h1]; rfl, (hasKinds_setKind h _ _)⟩

theorem createTemperatureGradient_runs {d : UnitDict} (h : HasKinds d) : ∃ d', createTemperatureGradient d = .ok d' ∧ HasKinds d' := by
  obtain ⟨l0, h0⟩ := h s!!"Temperature" (by decide)
  obtain ⟨l1, h1⟩ := h s!!"Length" (by decide)
  refine ⟨_, by simp only [createTemperatureGradient, bind, Except.bind, h0, h1]; rfl, (hasKinds_setKind h _ _)⟩

theorem createPower_runs {d : UnitDict} (h : HasKinds d) : ∃ d', createPower d = .ok d' ∧ HasKinds d' := by
  obtain ⟨l0, h0⟩ := h s!!"Energy" (by decide)
  obtain ⟨l1, h1⟩ := h s!!"Time" (by decide)
  obtain ⟨l2, h2⟩ := h s!!"Voltage" (by decide)
  obtain ⟨l3, h3⟩ := h s!!"Current" (by decide)
  obtain ⟨l4, h4⟩ := h s!!"Resistance" (by decide)
  refine ⟨_, by simp only [createPower, bind, Except.bind, h0, h1, h2, h3, h4]; rfl, (hasKinds_setKind h _ _)⟩

theorem createFrequency_runs {d : UnitDict} (h : HasKinds d) : ∃ d', createFrequency d = .ok d' ∧ HasKinds d' := by
  obtain ⟨l0, h0⟩ := h s!!"Time" (by decide)
  refine ⟨_, by simp only [createFrequency, bind, Except.bind, h0]; rfl, (hasKinds_setKind h _ _)⟩

theorem createConductance_runs {d : UnitDict} (h : HasKinds d) : ∃ d', createConductance d = .ok d' ∧ HasKinds d' := by
  obtain ⟨l0, h0⟩ := h s!!"Resistance" (by decide)
  refine ⟨_, by simp only [createConductance, bind, Except.bind, h0]; rfl, (hasKinds_setKind h _ _)⟩

theorem createCapacitanceCharge_runs {d : UnitDict} (h : HasKinds d) : ∃ d', createCapacitanceCharge d = .ok d' ∧ HasKinds d' := by
  obtain ⟨l0, h0⟩ := h s!!"Voltage" (by decide)
  obtain ⟨l1, h1⟩ := h s!!"Charge" (by decide)
  obtain ⟨l2, h2⟩ := h s!!"Capacitance" (by decide)
  refine ⟨_, by simp only [createCapacitanceCharge, bind, Except.bind, h0, h1, h2]; rfl, (hasKinds_setKind (hasKinds_setKind h _ _) _ _)⟩

theorem createVoltageCurrentResistance_runs {d : UnitDict} (h : HasKinds d) : ∃ d', createVoltageCurrentResistance d = .ok d' ∧ HasKinds d' := by
  obtain ⟨l0, h0⟩ := h s!!"Voltage" (by decide)
  obtain ⟨l1, h1⟩ := h s!!"Current" (by decide)
  obtain ⟨l2, h2⟩ := h s!!"Resistance" (by decide)
  obtain ⟨l3, h3⟩ := h s!!"Power" (by decide)
  refine ⟨_, by simp only [createVoltageCurrentResistance, bind, Except.bind, h0, h1, h2, h3]; rfl, (hasKinds_setKind (hasKinds_setKind (hasKinds_setKind h _ _) _ _) _ _)⟩

theorem completeDict_runs {d : UnitDict} (h : HasKinds d) : ∃ d', completeDict d = .ok d' := by
  obtain ⟨d0, e0, k0⟩ := createRates_runs h
  obtain ⟨d1, e1, k1⟩ := createVolumeRatio_runs k0
  obtain ⟨d2, e2, k2⟩ := createDensity_runs k1
  obtain ⟨d3, e3, k3⟩ := createVelocity_runs k2
  obtain ⟨d4, e4, k4⟩ := createAcceleration_runs k3
  obtain ⟨d5, e5, k5⟩ := createProductivityIndex_runs k4
  obtain ⟨d6, e6, k6⟩ := createPressureGradient_runs k5
  obtain ⟨d7, e7, k7⟩ := createPressure_runs k6
  obtain ⟨d8, e8, k8⟩ := createTemperatureGradient_runs k7
  obtain ⟨d9, e9, k9⟩ := createPower_runs k8
  obtain ⟨d10, e10, k10⟩ := createFrequency_runs k9
  obtain ⟨d11, e11, k11⟩ := createConductance_runs k10
  obtain ⟨d12, e12, k12⟩ := createCapacitanceCharge_runs k11
  obtain ⟨d13, e13, k13⟩ := createVoltageCurrentResistance_runs k12
  exact ⟨_, by simp only [completeDict, bind, Except.bind, e0, e1, e2, e3, e4, e5, e6, e7, e8, e9, e10, e11, e12, e13]; rfl⟩

theorem needed_keys : ((s!!"Power" :: neededKinds).all fun k => k == s!!"Data" ||
    (rawDictionary.any fun e => e.1 == k && !e.1.contains '_' && e.1 != s!!"dataBYTE" && e.1 != s!!"dataBIT")) = true := by
  decide +kernel

theorem shipped_hasKinds {g : Net} {d0 : RawDict} (h : loadShipped = .ok (g, d0)) : HasKinds d0.names := by
  obtain ⟨d1, hg, hc, hn⟩ := load_raw raw_nodup h
  intro k hk
  have hx : ∃ v, Py.dictGet d0 k = some v := by
    by_cases hD : k = s!!"Data"
    · obtain ⟨x, y, -, -, hd⟩ := closeDict_data hc
      exact ⟨_, hD ▸ hd⟩
    · have := List.all_eq_true.1 needed_keys k hk
      simp only [Bool.or_eq_true, beq_iff_eq, hD, false_or] at this
      obtain ⟨⟨k', v⟩, he, h1⟩ := List.any_eq_true.1 this
      simp only [Bool.and_eq_true, beq_iff_eq, Bool.not_eq_true', bne_iff_ne, ne_eq, ← Bool.not_eq_true,
        List.contains_iff_mem] at h1
      obtain ⟨⟨⟨rfl, h1⟩, h2⟩, h3⟩ := h1
      obtain ⟨l, rfl⟩ := plain_value he h1
      rw [closeDict_get hc h1 h2 h3 hD, hn _ _ he]
      exact ⟨_, rfl⟩
  obtain ⟨v, hv⟩ := hx
  exact ⟨v.keys, by unfold kindNames; rw [rawDict_names_get, hv]; rfl⟩

/-- the library can be imported -/
theorem shipped_library : ∃ n d, ShippedLibrary n d := by
  obtain ⟨g, d0, h⟩ := load_runs shipped_loadable
  obtain ⟨d, hd⟩ := completeDict_runs (shipped_hasKinds h)
  refine ⟨cleanNetwork g, d, ?_⟩
  unfold ShippedLibrary loadLibrary
  rw [h]
  simp only [bind, Except.bind, hd]

theorem Spec.ShippedLibrary.parts {n : Net} {d : UnitDict} (h : ShippedLibrary n d) :
    ∃ g d0, loadShipped = .ok (g, d0) ∧ n = cleanNetwork g ∧ completeDict d0.names = .ok d := by
  unfold ShippedLibrary loadLibrary at h
  obtain ⟨⟨g, d0⟩, h1, h⟩ := res_bind_ok h
  obtain ⟨d', h2, h⟩ := res_bind_ok h
  cases h
  exact ⟨g, d0, h1, rfl, h2⟩

theorem Spec.ShippedLibrary.network {n : Net} {d : UnitDict} (h : ShippedLibrary n d) : ShippedNetwork n := by
  obtain ⟨g, d0, h1, h2, -⟩ := h.parts
  exact ⟨g, d0, h1, h2⟩

theorem composed_congr {A B : Str → Str → Prop} (h : ∀ k u, A k u → B k u) {k u : Str} (c : Composed A k u) : Composed B k u := by
  induction c with
  | volumeRate a b => exact .volumeRate (h _ _ a) (h _ _ b)
  | weightRate a b => exact .weightRate (h _ _ a) (h _ _ b)
  | dataRate a b => exact .dataRate (h _ _ a) (h _ _ b)
  | volumeRatio a b => exact .volumeRatio (h _ _ a) (h _ _ b)
  | density a b => exact .density (h _ _ a) (h _ _ b)
  | velocity a b => exact .velocity (h _ _ a) (h _ _ b)
  | acceleration a b e n => exact .acceleration (h _ _ a) (h _ _ b) (h _ _ e) n
  | accelerationSquare a b => exact .accelerationSquare (h _ _ a) (h _ _ b)
  | productivityIndex a b e => exact .productivityIndex (h _ _ a) (h _ _ b) (h _ _ e)
  | pressureGradient a b => exact .pressureGradient (h _ _ a) (h _ _ b)
  | pressure a b => exact .pressure (h _ _ a) (h _ _ b)
  | temperatureGradient a b => exact .temperatureGradient (h _ _ a) (h _ _ b)
  | powerEnergy a b => exact .powerEnergy (h _ _ a) (h _ _ b)
  | powerVI a b => exact .powerVI (h _ _ a) (h _ _ b)
  | powerIV a b => exact .powerIV (h _ _ a) (h _ _ b)
  | powerIIR a b => exact .powerIIR (h _ _ a) (h _ _ b)
  | powerRII a b => exact .powerRII (h _ _ a) (h _ _ b)
  | frequency a => exact .frequency (h _ _ a)
  | conductance a => exact .conductance (h _ _ a)
  | capacitance a b => exact .capacitance (h _ _ a) (h _ _ b)
  | chargeFV a b => exact .chargeFV (h _ _ a) (h _ _ b)
  | chargeVF a b => exact .chargeVF (h _ _ a) (h _ _ b)
  | voltageIR a b => exact .voltageIR (h _ _ a) (h _ _ b)
  | voltageRI a b => exact .voltageRI (h _ _ a) (h _ _ b)
  | voltagePI a b => exact .voltagePI (h _ _ a) (h _ _ b)
  | voltageCI a b ih => exact .voltageCI ih (h _ _ b)
  | currentVR a b => exact .currentVR (h _ _ a) (h _ _ b)
  | currentPV a b => exact .currentPV (h _ _ a) (h _ _ b)
  | currentCV a b ih => exact .currentCV ih (h _ _ b)
  | resistance a b => exact .resistance (h _ _ a) (h _ _ b)

theorem known_congr {A B : Str → Str → Prop} (h : ∀ k u, A k u ↔ B k u) (k u : Str) : Known A k u ↔ Known B k u := by
  constructor
  · rintro (c | c)
    · exact .inl ((h k u).1 c)
    · exact .inr (composed_congr (fun k u => (h k u).1) c)
  · rintro (c | c)
    · exact .inl ((h k u).2 c)
    · exact .inr (composed_congr (fun k u => (h k u).2) c)

/-- what the shipped dictionary lists -/
theorem Spec.ShippedLibrary.lists {n : Net} {d : UnitDict} (h : ShippedLibrary n d) (k u : Str) :
    Lists d k u ↔ Known ListedUnit k u ∨ ∃ v, Known ListedUnit k v ∧ OtherOrder u v := by
  obtain ⟨g, d0, h1, -, h2⟩ := h.parts
  rw [completeDict_lists h2]
  have e : ∀ k u, Lists d0.names k u ↔ ListedUnit k u := fun k u => shipped_lists h1 k u
  simp only [known_congr e]

end Unyts

import Verif.Spec.Dictionary
import Verif.Lemmas.Network
import Verif.Lemmas.DictLoad

/- What `_create_*` and `_complete_products` do to the dictionary. -/
namespace Unyts
open Spec

theorem lists_setKind {d : UnitDict} {k k' u : Str} {l : List Str} :
    Lists (setKind d k l) k' u ↔ if k' = k then u ∈ l else Lists d k' u := by
  unfold Lists setKind
  by_cases h : k' = k
  · subst h; simp [Py.dictGet_dictSet_same, List.mem_eraseDups]
  · simp [h, Py.dictGet_dictSet_other _ _ h]

theorem mem_kindStart {d : UnitDict} {k u : Str} : u ∈ kindStart d k ↔ Lists d k u := by
  unfold kindStart Lists
  cases Py.dictGet d k <;> simp

theorem kindNames_ok {d : UnitDict} {k : Str} {l : List Str} (h : kindNames d k = .ok l) (u : Str) :
    u ∈ l ↔ Lists d k u := by
  unfold kindNames at h
  split at h
  · next l' hl => cases h; simp [Lists, hl]
  · cases h

theorem mem_pairNames {sep : Str} {as bs : List Str} {u : Str} :
    u ∈ pairNames sep as bs ↔ ∃ a ∈ as, ∃ b ∈ bs, u = a ++ sep ++ b := by
  simp [pairNames, eq_comm]

theorem kindNames_bind {α : Type} {d : UnitDict} {k : Str} {f : List Str → Res α} {x : α}
    (h : (kindNames d k).bind f = .ok x) : ∃ l, (∀ u, u ∈ l ↔ Lists d k u) ∧ f l = .ok x := by
  cases hk : kindNames d k with
  | error e => rw [hk] at h; cases h
  | ok l => rw [hk] at h; exact ⟨l, kindNames_ok hk, h⟩

theorem lists_grow {d : UnitDict} {k k' u : Str} {l : List Str} :
    Lists (setKind d k (kindStart d k ++ l)) k' u ↔ Lists d k' u ∨ (k' = k ∧ u ∈ l) := by
  rw [lists_setKind]
  by_cases h : k' = k
  · subst h; simp [mem_kindStart]
  · simp [h]

theorem createRates_lists {d d' : UnitDict} (h : createRates d = .ok d') (k u : Str) :
    Lists d' k u ↔ Lists d k u ∨ (k = s!!"Rate" ∧
      ((∃ v t, Lists d s!!"Volume" v ∧ Lists d s!!"Time" t ∧ u = over v t) ∨
       (∃ v t, Lists d s!!"Weight" v ∧ Lists d s!!"Time" t ∧ u = over v t) ∨
       (∃ v t, Lists d s!!"Data" v ∧ Lists d s!!"Time" t ∧ u = over v t))) := by
  obtain ⟨l1, m1, h⟩ := kindNames_bind h
  obtain ⟨l2, m2, h⟩ := kindNames_bind h
  obtain ⟨l3, m3, h⟩ := kindNames_bind h
  obtain ⟨l4, m4, h⟩ := kindNames_bind h
  cases h
  rw [List.append_assoc, List.append_assoc, lists_grow]
  simp only [List.mem_append, mem_pairNames, m1, m2, m3, m4, over]
  simp only [← exists_and_left]

theorem createVolumeRatio_lists {d d' : UnitDict} (h : createVolumeRatio d = .ok d') (k u : Str) :
    Lists d' k u ↔ Lists d k u ∨ (k = s!!"VolumeRatio" ∧
      ∃ v t, Lists d s!!"Volume" v ∧ Lists d s!!"Volume" t ∧ u = over v t) := by
  obtain ⟨l1, m1, h⟩ := kindNames_bind h
  cases h
  rw [lists_grow]
  simp only [mem_pairNames, m1, over]
  simp only [← exists_and_left]

theorem createDensity_lists {d d' : UnitDict} (h : createDensity d = .ok d') (k u : Str) :
    Lists d' k u ↔ Lists d k u ∨ (k = s!!"Density" ∧
      ∃ v t, Lists d s!!"Mass" v ∧ Lists d s!!"Volume" t ∧ u = over v t) := by
  obtain ⟨l1, m1, h⟩ := kindNames_bind h
  obtain ⟨l2, m2, h⟩ := kindNames_bind h
  cases h
  rw [lists_grow]
  simp only [mem_pairNames, m1, m2, over]
  simp only [← exists_and_left]

theorem createVelocity_lists {d d' : UnitDict} (h : createVelocity d = .ok d') (k u : Str) :
    Lists d' k u ↔ Lists d k u ∨ (k = s!!"Velocity" ∧
      ∃ v t, Lists d s!!"Length" v ∧ Lists d s!!"Time" t ∧ u = over v t) := by
  obtain ⟨l1, m1, h⟩ := kindNames_bind h
  obtain ⟨l2, m2, h⟩ := kindNames_bind h
  cases h
  rw [lists_grow]
  simp only [mem_pairNames, m1, m2, over]
  simp only [← exists_and_left]

theorem createPressure_lists {d d' : UnitDict} (h : createPressure d = .ok d') (k u : Str) :
    Lists d' k u ↔ Lists d k u ∨ (k = s!!"Pressure" ∧
      ∃ v t, Lists d s!!"Weight" v ∧ Lists d s!!"Area" t ∧ u = over v t) := by
  obtain ⟨l1, m1, h⟩ := kindNames_bind h
  obtain ⟨l2, m2, h⟩ := kindNames_bind h
  cases h
  rw [lists_grow]
  simp only [mem_pairNames, m1, m2, over]
  simp only [← exists_and_left]

theorem createPressureGradient_lists {d d' : UnitDict} (h : createPressureGradient d = .ok d') (k u : Str) :
    Lists d' k u ↔ Lists d k u ∨ (k = s!!"PressureGradient" ∧
      ∃ v t, Lists d s!!"Pressure" v ∧ Lists d s!!"Length" t ∧ u = over v t) := by
  obtain ⟨l1, m1, h⟩ := kindNames_bind h
  obtain ⟨l2, m2, h⟩ := kindNames_bind h
  cases h
  rw [lists_grow]
  simp only [mem_pairNames, m1, m2, over]
  simp only [← exists_and_left]

theorem createTemperatureGradient_lists {d d' : UnitDict} (h : createTemperatureGradient d = .ok d') (k u : Str) :
    Lists d' k u ↔ Lists d k u ∨ (k = s!!"TemperatureGradient" ∧
      ∃ v t, Lists d s!!"Temperature" v ∧ Lists d s!!"Length" t ∧ u = over v t) := by
  obtain ⟨l1, m1, h⟩ := kindNames_bind h
  obtain ⟨l2, m2, h⟩ := kindNames_bind h
  cases h
  rw [lists_grow]
  simp only [mem_pairNames, m1, m2, over]
  simp only [← exists_and_left]

theorem createProductivityIndex_lists {d d' : UnitDict} (h : createProductivityIndex d = .ok d') (k u : Str) :
    Lists d' k u ↔ Lists d k u ∨ (k = s!!"ProductivityIndex" ∧
      ∃ v t p, Lists d s!!"Volume" v ∧ Lists d s!!"Time" t ∧ Lists d s!!"Pressure" p ∧ u = over (over v t) p) := by
  obtain ⟨l1, m1, h⟩ := kindNames_bind h
  obtain ⟨l2, m2, h⟩ := kindNames_bind h
  obtain ⟨l3, m3, h⟩ := kindNames_bind h
  cases h
  rw [lists_grow]
  simp only [mem_pairNames, m1, m2, m3, over]
  refine or_congr Iff.rfl (and_congr Iff.rfl ?_)
  constructor
  · rintro ⟨_, ⟨v, hv, t, ht, rfl⟩, p, hp, rfl⟩; exact ⟨v, t, p, hv, ht, hp, rfl⟩
  · rintro ⟨v, t, p, hv, ht, hp, rfl⟩; exact ⟨_, ⟨v, hv, t, ht, rfl⟩, p, hp, rfl⟩

theorem createAcceleration_lists {d d' : UnitDict} (h : createAcceleration d = .ok d') (k u : Str) :
    Lists d' k u ↔ Lists d k u ∨ (k = s!!"Acceleration" ∧
      ((∃ l t t', Lists d s!!"Length" l ∧ Lists d s!!"Time" t ∧ Lists d s!!"Time" t' ∧ t ≠ t' ∧ u = over (over l t) t') ∨
       (∃ l t, Lists d s!!"Length" l ∧ Lists d s!!"Time" t ∧ u = over l (t ++ ['2'])))) := by
  obtain ⟨l1, m1, h⟩ := kindNames_bind h
  obtain ⟨l2, m2, h⟩ := kindNames_bind h
  cases h
  rw [lists_grow]
  simp only [List.mem_flatMap, List.mem_map, m1, m2]
  refine or_congr Iff.rfl (and_congr Iff.rfl ?_)
  constructor
  · rintro ⟨l, hl, t, ht, t', ht', rfl⟩
    split
    · next e => subst e; exact .inr ⟨l, t, hl, ht, by simp [over]⟩
    · next e => exact .inl ⟨l, t, t', hl, ht, ht', e, by simp [over]⟩
  · rintro (⟨l, t, t', hl, ht, ht', e, rfl⟩ | ⟨l, t, hl, ht, rfl⟩)
    · exact ⟨l, hl, t, ht, t', ht', by simp [e, over]⟩
    · exact ⟨l, hl, t, ht, t, ht, by simp [over]⟩

theorem createFrequency_lists {d d' : UnitDict} (h : createFrequency d = .ok d') (k u : Str) :
    Lists d' k u ↔ Lists d k u ∨ (k = s!!"Frequency" ∧ ∃ t, Lists d s!!"Time" t ∧ u = over ['1'] t) := by
  obtain ⟨l1, m1, h⟩ := kindNames_bind h
  cases h
  rw [lists_grow]
  simp only [List.mem_map, m1, over, eq_comm (a := u), List.cons_append, List.nil_append]

theorem createConductance_lists {d d' : UnitDict} (h : createConductance d = .ok d') (k u : Str) :
    Lists d' k u ↔ Lists d k u ∨ (k = s!!"Conductance" ∧ ∃ t, Lists d s!!"Resistance" t ∧ u = over ['1'] t) := by
  obtain ⟨l1, m1, h⟩ := kindNames_bind h
  cases h
  rw [lists_grow]
  simp only [List.mem_map, m1, over, eq_comm (a := u), List.cons_append, List.nil_append]

theorem createPower_lists {d d' : UnitDict} (h : createPower d = .ok d') (k u : Str) :
    Lists d' k u ↔ Lists d k u ∨ (k = s!!"Power" ∧
      ((∃ e t, Lists d s!!"Energy" e ∧ Lists d s!!"Time" t ∧ u = over e t) ∨
       (∃ v i, Lists d s!!"Voltage" v ∧ Lists d s!!"Current" i ∧ u = starred v i) ∨
       (∃ v i, Lists d s!!"Voltage" v ∧ Lists d s!!"Current" i ∧ u = starred i v) ∨
       (∃ r i, Lists d s!!"Resistance" r ∧ Lists d s!!"Current" i ∧ u = starred (i ++ ['2']) r) ∨
       (∃ r i, Lists d s!!"Resistance" r ∧ Lists d s!!"Current" i ∧ u = starred r (i ++ ['2'])))) := by
  obtain ⟨l1, m1, h⟩ := kindNames_bind h
  obtain ⟨l2, m2, h⟩ := kindNames_bind h
  obtain ⟨l3, m3, h⟩ := kindNames_bind h
  obtain ⟨l4, m4, h⟩ := kindNames_bind h
  obtain ⟨l5, m5, h⟩ := kindNames_bind h
  cases h
  rw [List.append_assoc, List.append_assoc, List.append_assoc, List.append_assoc, lists_grow]
  simp only [List.mem_append, mem_pairNames, List.mem_flatMap, List.mem_map, m1, m2, m3, m4, m5, over, starred,
    eq_comm (a := u), List.append_assoc, List.cons_append, List.nil_append]
  simp only [← exists_and_left]

theorem createCapacitanceCharge_lists {d d' : UnitDict} (h : createCapacitanceCharge d = .ok d') (k u : Str) :
    Lists d' k u ↔ Lists d k u ∨
      (k = s!!"Capacitance" ∧ ∃ q v, Lists d s!!"Charge" q ∧ Lists d s!!"Voltage" v ∧ u = over q v) ∨
      (k = s!!"Charge" ∧
        ((∃ f v, Lists d s!!"Capacitance" f ∧ Lists d s!!"Voltage" v ∧ u = starred f v) ∨
         (∃ f v, Lists d s!!"Capacitance" f ∧ Lists d s!!"Voltage" v ∧ u = starred v f))) := by
  obtain ⟨l1, m1, h⟩ := kindNames_bind h
  obtain ⟨l2, m2, h⟩ := kindNames_bind h
  obtain ⟨l3, m3, h⟩ := kindNames_bind h
  cases h
  rw [lists_setKind, lists_grow]
  by_cases hk : k = s!!"Charge"
  · subst hk
    simp only [if_true, List.mem_append, mem_kindStart, List.mem_flatMap, List.mem_map, m1, m2, m3, over, starred,
      eq_comm (a := u), true_and]
    constructor
    · rintro ((h | ⟨v, hv, f, hf, rfl⟩) | ⟨v, hv, f, hf, rfl⟩)
      · exact .inl h
      · exact .inr (.inr (.inl ⟨f, v, hf, hv, rfl⟩))
      · exact .inr (.inr (.inr ⟨f, v, hf, hv, rfl⟩))
    · rintro (h | ⟨h, _⟩ | ⟨f, v, hf, hv, rfl⟩ | ⟨f, v, hf, hv, rfl⟩)
      · exact .inl (.inl h)
      · exact absurd h (by decide)
      · exact .inl (.inr ⟨v, hv, f, hf, rfl⟩)
      · exact .inr ⟨v, hv, f, hf, rfl⟩
  · simp only [hk, if_false, false_and, or_false, List.mem_flatMap, List.mem_map, m1, m2, over]
    refine or_congr Iff.rfl (and_congr Iff.rfl ?_)
    constructor
    · rintro ⟨v, hv, q, hq, rfl⟩; exact ⟨q, v, hq, hv, rfl⟩
    · rintro ⟨q, v, hq, hv, rfl⟩; exact ⟨v, hv, q, hq, rfl⟩

theorem createVCR_lists {d d' : UnitDict} (h : createVoltageCurrentResistance d = .ok d') (k u : Str) :
    Lists d' k u ↔ Lists d k u ∨
      (k = s!!"Voltage" ∧
        ((∃ r i, Lists d s!!"Resistance" r ∧ Lists d s!!"Current" i ∧ u = starred i r) ∨
         (∃ r i, Lists d s!!"Resistance" r ∧ Lists d s!!"Current" i ∧ u = starred r i) ∨
         (∃ p i, Lists d s!!"Power" p ∧ Lists d s!!"Current" i ∧ u = over p i))) ∨
      (k = s!!"Current" ∧
        ((∃ r v, Lists d s!!"Resistance" r ∧ Lists d s!!"Voltage" v ∧ u = over v r) ∨
         (∃ p v, Lists d s!!"Power" p ∧ Lists d s!!"Voltage" v ∧ u = over p v))) ∨
      (k = s!!"Resistance" ∧ ∃ i v, Lists d s!!"Current" i ∧ Lists d s!!"Voltage" v ∧ u = over v i) := by
  obtain ⟨l1, m1, h⟩ := kindNames_bind h
  obtain ⟨l2, m2, h⟩ := kindNames_bind h
  obtain ⟨l3, m3, h⟩ := kindNames_bind h
  obtain ⟨l4, m4, h⟩ := kindNames_bind h
  cases h
  rw [lists_setKind, lists_setKind, lists_setKind]
  have n1 : s!!"Voltage" ≠ s!!"Current" := by decide
  have n2 : s!!"Voltage" ≠ s!!"Resistance" := by decide
  have n3 : s!!"Current" ≠ s!!"Resistance" := by decide
  by_cases hk : k = s!!"Resistance"
  · subst hk
    simp only [if_true, List.mem_append, mem_kindStart, List.mem_flatMap, List.mem_map, m1, m2, over, n2.symm, n3.symm,
      false_and, false_or, true_and, ← exists_and_left, eq_comm (a := u)]
  by_cases hk2 : k = s!!"Current"
  · subst hk2
    simp only [if_true, n3, if_false, List.mem_append, mem_kindStart, List.mem_flatMap, List.mem_map, mem_pairNames, m1, m3,
      m4, over, n1.symm, false_and, false_or, or_false, true_and, ← exists_and_left, eq_comm (a := u), or_assoc, exists_false]
  by_cases hk3 : k = s!!"Voltage"
  · subst hk3
    simp only [if_true, n2, n1, if_false, List.mem_append, mem_kindStart, List.mem_flatMap, List.mem_map, mem_pairNames, m2,
      m3, m4, over, starred, false_and, or_false, true_and, ← exists_and_left, eq_comm (a := u), or_assoc, exists_false]
  simp only [hk, hk2, hk3, if_false, false_and, or_false]

/-! ## `_complete_products` -/

theorem splitOn_clean {c : Char} {s : Str} (h : c ∉ s) : Py.splitOn c s = [s] := by
  induction s with
  | nil => rfl
  | cons x xs ih =>
    have hx : x ≠ c := by rintro rfl; exact h (by simp)
    simp [Py.splitOn, hx, ih (fun h' => h (by simp [h']))]

theorem splitOn_pair {c : Char} {a b : Str} (ha : c ∉ a) (hb : c ∉ b) : Py.splitOn c (a ++ [c] ++ b) = [a, b] := by
  induction a with
  | nil => simp [Py.splitOn, splitOn_clean hb]
  | cons x xs ih =>
    have hx : x ≠ c := by rintro rfl; exact ha (by simp)
    have := ih (fun h' => ha (by simp [h']))
    simp only [List.cons_append, Py.splitOn, hx, if_false]
    rw [this]

theorem splitOn_one {c : Char} {s p : Str} (h : Py.splitOn c s = [p]) : s = p := by
  have := Py.join_splitOn c s
  rw [h] at this
  exact this.symm

theorem splitOn_two {c : Char} {s a b : Str} (h : Py.splitOn c s = [a, b]) : s = a ++ [c] ++ b ∧ c ∉ a ∧ c ∉ b := by
  refine ⟨?_, Py.mem_splitOn_no_sep (s := s) (by rw [h]; simp), Py.mem_splitOn_no_sep (s := s) (by rw [h]; simp)⟩
  induction s generalizing a with
  | nil => cases h
  | cons x xs ih =>
    unfold Py.splitOn at h
    split at h
    · next hx =>
      cases h' : Py.splitOn c xs with
      | nil => rw [h'] at h; cases h
      | cons p ps =>
        rw [h'] at h
        cases h
        have hm : c ∉ b := Py.mem_splitOn_no_sep (s := xs) (by rw [h']; simp)
        have : xs = b := by
          exact splitOn_one h'
        rw [this, hx]
        rfl
    · cases h' : Py.splitOn c xs with
      | nil => rw [h'] at h; cases h
      | cons p ps =>
        rw [h'] at h
        simp only [List.cons.injEq] at h
        obtain ⟨rfl, hps⟩ := h
        rw [ih (a := p) (by rw [h', hps])]
        simp

theorem swapProduct_some {u v : Str} : swapProduct u = some v ↔ OtherOrder v u := by
  unfold swapProduct OtherOrder starred
  constructor
  · intro h
    split at h
    · cases h
    · next hs =>
      split at h
      · next a b hab =>
        cases h
        obtain ⟨rfl, ha, hb⟩ := splitOn_two hab
        refine ⟨b, a, rfl, rfl, ?_⟩
        intro c hc
        simp only [List.mem_cons, List.not_mem_nil, or_false] at hc
        rcases hc with rfl | rfl
        · simp only [List.mem_append, not_or] at hs
          exact ⟨hs.2, hs.1.1⟩
        · exact ⟨hb, ha⟩
      · cases h
  · rintro ⟨a, b, rfl, rfl, h⟩
    obtain ⟨h1, h2⟩ := h '/' (by simp)
    obtain ⟨h3, h4⟩ := h '*' (by simp)
    rw [if_neg (by simp [h1, h2]), splitOn_pair h4 h3]

theorem completeProducts_lists {d : UnitDict} (k u : Str) :
    Lists (completeProducts d) k u ↔ Lists d k u ∨ ∃ v, Lists d k v ∧ OtherOrder u v := by
  unfold Lists completeProducts
  rw [dictGet_map fun l : List Str => (l ++ l.filterMap swapProduct).eraseDups]
  cases Py.dictGet d k with
  | none => simp
  | some l =>
    simp only [Option.map_some, Option.some.injEq, exists_eq_left', List.mem_eraseDups, List.mem_append, List.mem_filterMap,
      swapProduct_some]

/-! ## All together -/

theorem res_bind_ok {α β : Type} {x : Res α} {f : α → Res β} {y : β} (h : x.bind f = .ok y) : ∃ a, x = .ok a ∧ f a = .ok y := by
  cases x with
  | error e => cases h
  | ok a => exact ⟨a, rfl, h⟩

theorem completeDict_lists {d d' : UnitDict} (h : completeDict d = .ok d') (k u : Str) :
    Lists d' k u ↔ Known (Lists d) k u ∨ ∃ v, Known (Lists d) k v ∧ OtherOrder u v := by
  obtain ⟨d1, h1, h⟩ := res_bind_ok h
  obtain ⟨d2, h2, h⟩ := res_bind_ok h
  obtain ⟨d3, h3, h⟩ := res_bind_ok h
  obtain ⟨d4, h4, h⟩ := res_bind_ok h
  obtain ⟨d5, h5, h⟩ := res_bind_ok h
  obtain ⟨d6, h6, h⟩ := res_bind_ok h
  obtain ⟨d7, h7, h⟩ := res_bind_ok h
  obtain ⟨d8, h8, h⟩ := res_bind_ok h
  obtain ⟨d9, h9, h⟩ := res_bind_ok h
  obtain ⟨d10, h10, h⟩ := res_bind_ok h
  obtain ⟨d11, h11, h⟩ := res_bind_ok h
  obtain ⟨d12, h12, h⟩ := res_bind_ok h
  obtain ⟨d13, h13, h⟩ := res_bind_ok h
  obtain ⟨d14, h14, h⟩ := res_bind_ok h
  cases h
  have e1 := createRates_lists h1
  have e2 := createVolumeRatio_lists h2
  have e3 := createDensity_lists h3
  have e4 := createVelocity_lists h4
  have e5 := createAcceleration_lists h5
  have e6 := createProductivityIndex_lists h6
  have e7 := createPressureGradient_lists h7
  have e8 := createPressure_lists h8
  have e9 := createTemperatureGradient_lists h9
  have e10 := createPower_lists h10
  have e11 := createFrequency_lists h11
  have e12 := createConductance_lists h12
  have e13 := createCapacitanceCharge_lists h13
  have e14 := createVCR_lists h14
  clear h1 h2 h3 h4 h5 h6 h7 h8 h9 h10 h11 h12 h13 h14
  have s1 : ∀ k u, k ∉ [s!!"Rate"] → (Lists d1 k u ↔ Lists d k u) := by
    intro k u hk
    rw [e1]
    simp only [List.mem_cons, List.not_mem_nil, or_false, not_or] at hk
    simp only [hk, false_and, or_false]
  have s2 : ∀ k u, k ∉ [s!!"Rate", s!!"VolumeRatio"] → (Lists d2 k u ↔ Lists d k u) := by
    intro k u hk
    rw [e2, s1 k u (fun h => hk (List.mem_append_left _ h))]
    simp only [List.mem_cons, List.not_mem_nil, or_false, not_or] at hk
    simp only [hk, false_and, or_false]
  have s3 : ∀ k u, k ∉ [s!!"Rate", s!!"VolumeRatio", s!!"Density"] → (Lists d3 k u ↔ Lists d k u) := by
    intro k u hk
    rw [e3, s2 k u (fun h => hk (List.mem_append_left _ h))]
    simp only [List.mem_cons, List.not_mem_nil, or_false, not_or] at hk
    simp only [hk, false_and, or_false]
  have s4 : ∀ k u, k ∉ [s!!"Rate", s!!"VolumeRatio", s!!"Density", s!!"Velocity"] → (Lists d4 k u ↔ Lists d k u) := by
    intro k u hk
    rw [e4, s3 k u (fun h => hk (List.mem_append_left _ h))]
    simp only [List.mem_cons, List.not_mem_nil, or_false, not_or] at hk
    simp only [hk, false_and, or_false]
  have s5 : ∀ k u, k ∉ [s!!"Rate", s!!"VolumeRatio", s!!"Density", s!!"Velocity", s!!"Acceleration"] → (Lists d5 k u ↔ Lists d k u) := by
    intro k u hk
    rw [e5, s4 k u (fun h => hk (List.mem_append_left _ h))]
    simp only [List.mem_cons, List.not_mem_nil, or_false, not_or] at hk
    simp only [hk, false_and, or_false]
  have s6 : ∀ k u, k ∉ [s!!"Rate", s!!"VolumeRatio", s!!"Density", s!!"Velocity", s!!"Acceleration", s!!"ProductivityIndex"] → (Lists d6 k u ↔ Lists d k u) := by
    intro k u hk
    rw [e6, s5 k u (fun h => hk (List.mem_append_left _ h))]
    simp only [List.mem_cons, List.not_mem_nil, or_false, not_or] at hk
    simp only [hk, false_and, or_false]
  have s7 : ∀ k u, k ∉ [s!!"Rate", s!!"VolumeRatio", s!!"Density", s!!"Velocity", s!!"Acceleration", s!!"ProductivityIndex", s!!"PressureGradient"] → (Lists d7 k u ↔ Lists d k u) := by
    intro k u hk
    rw [e7, s6 k u (fun h => hk (List.mem_append_left _ h))]
    simp only [List.mem_cons, List.not_mem_nil, or_false, not_or] at hk
    simp only [hk, false_and, or_false]
  have s8 : ∀ k u, k ∉ [s!!"Rate", s!!"VolumeRatio", s!!"Density", s!!"Velocity", s!!"Acceleration", s!!"ProductivityIndex", s!!"PressureGradient", s!!"Pressure"] → (Lists d8 k u ↔ Lists d k u) := by
    intro k u hk
    rw [e8, s7 k u (fun h => hk (List.mem_append_left _ h))]
    simp only [List.mem_cons, List.not_mem_nil, or_false, not_or] at hk
    simp only [hk, false_and, or_false]
  have s9 : ∀ k u, k ∉ [s!!"Rate", s!!"VolumeRatio", s!!"Density", s!!"Velocity", s!!"Acceleration", s!!"ProductivityIndex", s!!"PressureGradient", s!!"Pressure", s!!"TemperatureGradient"] → (Lists d9 k u ↔ Lists d k u) := by
    intro k u hk
    rw [e9, s8 k u (fun h => hk (List.mem_append_left _ h))]
    simp only [List.mem_cons, List.not_mem_nil, or_false, not_or] at hk
    simp only [hk, false_and, or_false]
  have s10 : ∀ k u, k ∉ [s!!"Rate", s!!"VolumeRatio", s!!"Density", s!!"Velocity", s!!"Acceleration", s!!"ProductivityIndex", s!!"PressureGradient", s!!"Pressure", s!!"TemperatureGradient", s!!"Power"] → (Lists d10 k u ↔ Lists d k u) := by
    intro k u hk
    rw [e10, s9 k u (fun h => hk (List.mem_append_left _ h))]
    simp only [List.mem_cons, List.not_mem_nil, or_false, not_or] at hk
    simp only [hk, false_and, or_false]
  have s11 : ∀ k u, k ∉ [s!!"Rate", s!!"VolumeRatio", s!!"Density", s!!"Velocity", s!!"Acceleration", s!!"ProductivityIndex", s!!"PressureGradient", s!!"Pressure", s!!"TemperatureGradient", s!!"Power", s!!"Frequency"] → (Lists d11 k u ↔ Lists d k u) := by
    intro k u hk
    rw [e11, s10 k u (fun h => hk (List.mem_append_left _ h))]
    simp only [List.mem_cons, List.not_mem_nil, or_false, not_or] at hk
    simp only [hk, false_and, or_false]
  have s12 : ∀ k u, k ∉ [s!!"Rate", s!!"VolumeRatio", s!!"Density", s!!"Velocity", s!!"Acceleration", s!!"ProductivityIndex", s!!"PressureGradient", s!!"Pressure", s!!"TemperatureGradient", s!!"Power", s!!"Frequency", s!!"Conductance"] → (Lists d12 k u ↔ Lists d k u) := by
    intro k u hk
    rw [e12, s11 k u (fun h => hk (List.mem_append_left _ h))]
    simp only [List.mem_cons, List.not_mem_nil, or_false, not_or] at hk
    simp only [hk, false_and, or_false]
  have s13 : ∀ k u, k ∉ [s!!"Rate", s!!"VolumeRatio", s!!"Density", s!!"Velocity", s!!"Acceleration", s!!"ProductivityIndex", s!!"PressureGradient", s!!"Pressure", s!!"TemperatureGradient", s!!"Power", s!!"Frequency", s!!"Conductance", s!!"Capacitance", s!!"Charge"] → (Lists d13 k u ↔ Lists d k u) := by
    intro k u hk
    rw [e13, s12 k u (fun h => hk (List.mem_append_left _ h))]
    simp only [List.mem_cons, List.not_mem_nil, or_false, not_or] at hk
    simp only [hk, false_and, or_false]
  have u13 : ∀ k u, Lists d13 k u → Lists d14 k u := fun k u h => (e14 k u).2 (.inl h)
  have u12 : ∀ k u, Lists d12 k u → Lists d14 k u := fun k u h => u13 k u ((e13 k u).2 (.inl h))
  have u11 : ∀ k u, Lists d11 k u → Lists d14 k u := fun k u h => u12 k u ((e12 k u).2 (.inl h))
  have u10 : ∀ k u, Lists d10 k u → Lists d14 k u := fun k u h => u11 k u ((e11 k u).2 (.inl h))
  have u9 : ∀ k u, Lists d9 k u → Lists d14 k u := fun k u h => u10 k u ((e10 k u).2 (.inl h))
  have u8 : ∀ k u, Lists d8 k u → Lists d14 k u := fun k u h => u9 k u ((e9 k u).2 (.inl h))
  have u7 : ∀ k u, Lists d7 k u → Lists d14 k u := fun k u h => u8 k u ((e8 k u).2 (.inl h))
  have u6 : ∀ k u, Lists d6 k u → Lists d14 k u := fun k u h => u7 k u ((e7 k u).2 (.inl h))
  have u5 : ∀ k u, Lists d5 k u → Lists d14 k u := fun k u h => u6 k u ((e6 k u).2 (.inl h))
  have u4 : ∀ k u, Lists d4 k u → Lists d14 k u := fun k u h => u5 k u ((e5 k u).2 (.inl h))
  have u3 : ∀ k u, Lists d3 k u → Lists d14 k u := fun k u h => u4 k u ((e4 k u).2 (.inl h))
  have u2 : ∀ k u, Lists d2 k u → Lists d14 k u := fun k u h => u3 k u ((e3 k u).2 (.inl h))
  have u1 : ∀ k u, Lists d1 k u → Lists d14 k u := fun k u h => u2 k u ((e2 k u).2 (.inl h))
  have pw : ∀ u, Lists d13 s!!"Power" u ↔ Lists d s!!"Power" u ∨ Composed (Lists d) s!!"Power" u := by
    intro u
    rw [e13, e12, e11, e10, s9 _ _ (by decide)]
    simp only [s9 s!!"Energy" _ (by decide), s9 s!!"Time" _ (by decide), s9 s!!"Voltage" _ (by decide),
      s9 s!!"Current" _ (by decide), s9 s!!"Resistance" _ (by decide)]
    constructor
    · rintro ((((h | ⟨_, h⟩) | h) | h) | h)
      · exact .inl h
      · rcases h with ⟨a, b, ha, hb, rfl⟩ | ⟨a, b, ha, hb, rfl⟩ | ⟨a, b, ha, hb, rfl⟩ | ⟨a, b, ha, hb, rfl⟩ | ⟨a, b, ha, hb, rfl⟩
        · exact .inr (.powerEnergy ha hb)
        · exact .inr (.powerVI ha hb)
        · exact .inr (.powerIV ha hb)
        · exact .inr (.powerIIR ha hb)
        · exact .inr (.powerRII ha hb)
      · exact absurd h.1 (by decide)
      · exact absurd h.1 (by decide)
      · rcases h with h | h <;> exact absurd h.1 (by decide)
    · rintro (h | h)
      · exact .inl (.inl (.inl (.inl h)))
      · refine .inl (.inl (.inl (.inr ⟨trivial, ?_⟩)))
        generalize hk : s!!"Power" = k at h
        cases h <;> first | exact absurd hk (by decide) | skip
        · next ha hb => exact .inl ⟨_, _, ha, hb, rfl⟩
        · next ha hb => exact .inr (.inl ⟨_, _, ha, hb, rfl⟩)
        · next ha hb => exact .inr (.inr (.inl ⟨_, _, ha, hb, rfl⟩))
        · next ha hb => exact .inr (.inr (.inr (.inl ⟨_, _, ha, hb, rfl⟩)))
        · next ha hb => exact .inr (.inr (.inr (.inr ⟨_, _, ha, hb, rfl⟩)))
  have key : ∀ k u, Lists d14 k u ↔ Known (Lists d) k u := by
    intro k u
    constructor
    · intro h14
      rcases (e14 k u).1 h14 with h13 | ⟨rfl, hh⟩ | ⟨rfl, hh⟩ | ⟨rfl, a, b, ha, hb, rfl⟩
      rotate_left
      · rcases hh with ⟨a, b, ha, hb, rfl⟩ | ⟨a, b, ha, hb, rfl⟩ | ⟨a, b, ha, hb, rfl⟩
        · exact .inr (.voltageIR ((s13 _ _ (by decide)).1 ha) ((s13 _ _ (by decide)).1 hb))
        · exact .inr (.voltageRI ((s13 _ _ (by decide)).1 ha) ((s13 _ _ (by decide)).1 hb))
        · rcases (pw _).1 ha with ha | ha
          · exact .inr (.voltagePI ha ((s13 _ _ (by decide)).1 hb))
          · exact .inr (.voltageCI ha ((s13 _ _ (by decide)).1 hb))
      · rcases hh with ⟨a, b, ha, hb, rfl⟩ | ⟨a, b, ha, hb, rfl⟩
        · exact .inr (.currentVR ((s13 _ _ (by decide)).1 ha) ((s13 _ _ (by decide)).1 hb))
        · rcases (pw _).1 ha with ha | ha
          · exact .inr (.currentPV ha ((s13 _ _ (by decide)).1 hb))
          · exact .inr (.currentCV ha ((s13 _ _ (by decide)).1 hb))
      · exact .inr (.resistance ((s13 _ _ (by decide)).1 ha) ((s13 _ _ (by decide)).1 hb))
      rcases (e13 k u).1 h13 with h12 | ⟨rfl, a, b, ha, hb, rfl⟩ | ⟨rfl, hh⟩
      rotate_left
      · exact .inr (.capacitance ((s12 _ _ (by decide)).1 ha) ((s12 _ _ (by decide)).1 hb))
      · rcases hh with ⟨a, b, ha, hb, rfl⟩ | ⟨a, b, ha, hb, rfl⟩
        · exact .inr (.chargeFV ((s12 _ _ (by decide)).1 ha) ((s12 _ _ (by decide)).1 hb))
        · exact .inr (.chargeVF ((s12 _ _ (by decide)).1 ha) ((s12 _ _ (by decide)).1 hb))
      rcases (e12 k u).1 h12 with h11 | ⟨rfl, a, ha, rfl⟩
      rotate_left
      · exact .inr (.conductance ((s11 _ _ (by decide)).1 ha))
      rcases (e11 k u).1 h11 with h10 | ⟨rfl, a, ha, rfl⟩
      rotate_left
      · exact .inr (.frequency ((s10 _ _ (by decide)).1 ha))
      by_cases hp : k = s!!"Power"
      · subst hp
        exact (pw _).1 ((e13 _ _).2 (.inl ((e12 _ _).2 (.inl ((e11 _ _).2 (.inl h10))))))
      rcases (e10 k u).1 h10 with h9 | ⟨hh, _⟩
      rotate_left
      · exact absurd hh hp
      rcases (e9 k u).1 h9 with h8 | ⟨rfl, a, b, ha, hb, rfl⟩
      rotate_left
      · exact .inr (.temperatureGradient ((s8 _ _ (by decide)).1 ha) ((s8 _ _ (by decide)).1 hb))
      rcases (e8 k u).1 h8 with h7 | ⟨rfl, a, b, ha, hb, rfl⟩
      rotate_left
      · exact .inr (.pressure ((s7 _ _ (by decide)).1 ha) ((s7 _ _ (by decide)).1 hb))
      rcases (e7 k u).1 h7 with h6 | ⟨rfl, a, b, ha, hb, rfl⟩
      rotate_left
      · exact .inr (.pressureGradient ((s6 _ _ (by decide)).1 ha) ((s6 _ _ (by decide)).1 hb))
      rcases (e6 k u).1 h6 with h5 | ⟨rfl, a, b, c, ha, hb, hc, rfl⟩
      rotate_left
      · exact .inr (.productivityIndex ((s5 _ _ (by decide)).1 ha) ((s5 _ _ (by decide)).1 hb) ((s5 _ _ (by decide)).1 hc))
      rcases (e5 k u).1 h5 with h4 | ⟨rfl, ⟨a, b, c, ha, hb, hc, hn, rfl⟩ | ⟨a, b, ha, hb, rfl⟩⟩
      rotate_left
      · exact .inr (.acceleration ((s4 _ _ (by decide)).1 ha) ((s4 _ _ (by decide)).1 hb) ((s4 _ _ (by decide)).1 hc) hn)
      · exact .inr (.accelerationSquare ((s4 _ _ (by decide)).1 ha) ((s4 _ _ (by decide)).1 hb))
      rcases (e4 k u).1 h4 with h3 | ⟨rfl, a, b, ha, hb, rfl⟩
      rotate_left
      · exact .inr (.velocity ((s3 _ _ (by decide)).1 ha) ((s3 _ _ (by decide)).1 hb))
      rcases (e3 k u).1 h3 with h2 | ⟨rfl, a, b, ha, hb, rfl⟩
      rotate_left
      · exact .inr (.density ((s2 _ _ (by decide)).1 ha) ((s2 _ _ (by decide)).1 hb))
      rcases (e2 k u).1 h2 with h1 | ⟨rfl, a, b, ha, hb, rfl⟩
      rotate_left
      · exact .inr (.volumeRatio ((s1 _ _ (by decide)).1 ha) ((s1 _ _ (by decide)).1 hb))
      rcases (e1 k u).1 h1 with h0 | ⟨rfl, hh⟩
      · exact .inl h0
      · rcases hh with ⟨a, b, ha, hb, rfl⟩ | ⟨a, b, ha, hb, rfl⟩ | ⟨a, b, ha, hb, rfl⟩
        · exact .inr (.volumeRate ha hb)
        · exact .inr (.weightRate ha hb)
        · exact .inr (.dataRate ha hb)
    · rintro (h | h)
      · exact u1 k u ((e1 k u).2 (.inl h))
      · cases h
        case volumeRate a b ha hb => exact u1 _ _ ((e1 _ _).2 (.inr ⟨rfl, .inl ⟨a, b, ha, hb, rfl⟩⟩))
        case weightRate a b ha hb => exact u1 _ _ ((e1 _ _).2 (.inr ⟨rfl, .inr (.inl ⟨a, b, ha, hb, rfl⟩)⟩))
        case dataRate a b ha hb => exact u1 _ _ ((e1 _ _).2 (.inr ⟨rfl, .inr (.inr ⟨a, b, ha, hb, rfl⟩)⟩))
        case volumeRatio a b ha hb =>
          exact u2 _ _ ((e2 _ _).2 (.inr ⟨rfl, a, b, (s1 _ _ (by decide)).2 ha, (s1 _ _ (by decide)).2 hb, rfl⟩))
        case density a b ha hb =>
          exact u3 _ _ ((e3 _ _).2 (.inr ⟨rfl, a, b, (s2 _ _ (by decide)).2 ha, (s2 _ _ (by decide)).2 hb, rfl⟩))
        case velocity a b ha hb =>
          exact u4 _ _ ((e4 _ _).2 (.inr ⟨rfl, a, b, (s3 _ _ (by decide)).2 ha, (s3 _ _ (by decide)).2 hb, rfl⟩))
        case acceleration a b c ha hb hc hn =>
          exact u5 _ _ ((e5 _ _).2 (.inr ⟨rfl, .inl ⟨a, b, c, (s4 _ _ (by decide)).2 ha, (s4 _ _ (by decide)).2 hb,
            (s4 _ _ (by decide)).2 hc, hn, rfl⟩⟩))
        case accelerationSquare a b ha hb =>
          exact u5 _ _ ((e5 _ _).2 (.inr ⟨rfl, .inr ⟨a, b, (s4 _ _ (by decide)).2 ha, (s4 _ _ (by decide)).2 hb, rfl⟩⟩))
        case productivityIndex a b c ha hb hc =>
          exact u6 _ _ ((e6 _ _).2 (.inr ⟨rfl, a, b, c, (s5 _ _ (by decide)).2 ha, (s5 _ _ (by decide)).2 hb,
            (s5 _ _ (by decide)).2 hc, rfl⟩))
        case pressureGradient a b ha hb =>
          exact u7 _ _ ((e7 _ _).2 (.inr ⟨rfl, a, b, (s6 _ _ (by decide)).2 ha, (s6 _ _ (by decide)).2 hb, rfl⟩))
        case pressure a b ha hb =>
          exact u8 _ _ ((e8 _ _).2 (.inr ⟨rfl, a, b, (s7 _ _ (by decide)).2 ha, (s7 _ _ (by decide)).2 hb, rfl⟩))
        case temperatureGradient a b ha hb =>
          exact u9 _ _ ((e9 _ _).2 (.inr ⟨rfl, a, b, (s8 _ _ (by decide)).2 ha, (s8 _ _ (by decide)).2 hb, rfl⟩))
        case powerEnergy a b ha hb => exact u13 _ _ ((pw _).2 (.inr (.powerEnergy ha hb)))
        case powerVI a b ha hb => exact u13 _ _ ((pw _).2 (.inr (.powerVI ha hb)))
        case powerIV a b ha hb => exact u13 _ _ ((pw _).2 (.inr (.powerIV ha hb)))
        case powerIIR a b ha hb => exact u13 _ _ ((pw _).2 (.inr (.powerIIR ha hb)))
        case powerRII a b ha hb => exact u13 _ _ ((pw _).2 (.inr (.powerRII ha hb)))
        case frequency a ha => exact u11 _ _ ((e11 _ _).2 (.inr ⟨rfl, a, (s10 _ _ (by decide)).2 ha, rfl⟩))
        case conductance a ha => exact u12 _ _ ((e12 _ _).2 (.inr ⟨rfl, a, (s11 _ _ (by decide)).2 ha, rfl⟩))
        case capacitance a b ha hb =>
          exact u13 _ _ ((e13 _ _).2 (.inr (.inl ⟨rfl, a, b, (s12 _ _ (by decide)).2 ha, (s12 _ _ (by decide)).2 hb, rfl⟩)))
        case chargeFV a b ha hb =>
          exact u13 _ _ ((e13 _ _).2 (.inr (.inr ⟨rfl, .inl ⟨a, b, (s12 _ _ (by decide)).2 ha, (s12 _ _ (by decide)).2 hb, rfl⟩⟩)))
        case chargeVF a b ha hb =>
          exact u13 _ _ ((e13 _ _).2 (.inr (.inr ⟨rfl, .inr ⟨a, b, (s12 _ _ (by decide)).2 ha, (s12 _ _ (by decide)).2 hb, rfl⟩⟩)))
        case voltageIR a b ha hb =>
          exact (e14 _ _).2 (.inr (.inl ⟨rfl, .inl ⟨a, b, (s13 _ _ (by decide)).2 ha, (s13 _ _ (by decide)).2 hb, rfl⟩⟩))
        case voltageRI a b ha hb =>
          exact (e14 _ _).2 (.inr (.inl ⟨rfl, .inr (.inl ⟨a, b, (s13 _ _ (by decide)).2 ha, (s13 _ _ (by decide)).2 hb, rfl⟩)⟩))
        case voltagePI a b ha hb =>
          exact (e14 _ _).2 (.inr (.inl ⟨rfl, .inr (.inr ⟨a, b, (pw _).2 (.inl ha), (s13 _ _ (by decide)).2 hb, rfl⟩)⟩))
        case voltageCI a b ha hb =>
          exact (e14 _ _).2 (.inr (.inl ⟨rfl, .inr (.inr ⟨a, b, (pw _).2 (.inr ha), (s13 _ _ (by decide)).2 hb, rfl⟩)⟩))
        case currentVR a b ha hb =>
          exact (e14 _ _).2 (.inr (.inr (.inl ⟨rfl, .inl ⟨a, b, (s13 _ _ (by decide)).2 ha, (s13 _ _ (by decide)).2 hb, rfl⟩⟩)))
        case currentPV a b ha hb =>
          exact (e14 _ _).2 (.inr (.inr (.inl ⟨rfl, .inr ⟨a, b, (pw _).2 (.inl ha), (s13 _ _ (by decide)).2 hb, rfl⟩⟩)))
        case currentCV a b ha hb =>
          exact (e14 _ _).2 (.inr (.inr (.inl ⟨rfl, .inr ⟨a, b, (pw _).2 (.inr ha), (s13 _ _ (by decide)).2 hb, rfl⟩⟩)))
        case resistance a b ha hb =>
          exact (e14 _ _).2 (.inr (.inr (.inr ⟨rfl, a, b, (s13 _ _ (by decide)).2 ha, (s13 _ _ (by decide)).2 hb, rfl⟩)))
  rw [completeProducts_lists]
  simp only [key]

end Unyts

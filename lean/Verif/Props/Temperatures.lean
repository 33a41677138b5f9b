import Verif.Props.Tuples
import Verif.Spec.Temperatures

/- C116: quantities of temperature. -/
namespace Unyts
open Spec Quantity
set_option maxRecDepth 1000000

theorem scales_names : temperatureScales.all (fun e => decide (e.1 ∉ unlistedUnits ∧ 0 < e.2.1 ∧
    Py.dictGet temperatureScales e.1 = some e.2)) = true := by decide +kernel

theorem scale_get {u : Str} (hu : u ∈ temperatureScales.map Prod.fst) :
    ∃ d z, (u, d, z) ∈ temperatureScales ∧ Py.dictGet temperatureScales u = some (d, z) ∧ 0 < d ∧ u ∉ unlistedUnits ∧
      BuiltIn s!!"Temperature" u ∧ CleanName u ∧ islandOf u = some 1 := by
  obtain ⟨⟨u', d, z⟩, hm, rfl⟩ := List.mem_map.1 hu
  have h1 := List.all_eq_true.1 scales_names _ hm
  have h2 := List.all_eq_true.1 scales_ok _ hm
  simp only [scaleOk, Bool.and_eq_true, decide_eq_true_eq, beq_iff_eq] at h1 h2
  obtain ⟨⟨⟨⟨⟨_, _⟩, i⟩, n⟩, _⟩, c⟩ := h2
  exact ⟨d, z, hm, h1.2.2, h1.2.1, h1.1, builtIn_mem n (by decide), Demo.cleanName_of c, i⟩

theorem kelvins_eq {q : Quantity} {d z : Rat} (h : Py.dictGet temperatureScales q.unit = some (d, z)) : kelvins q = (q.value - z) * d := by
  unfold kelvins; rw [h]

section
variable {w0 : World} (hw : Started w0) (hφ : w0.fvf ≠ some 0) {L : Lib} (hL : Running w0 L)
include hw hφ hL

omit hφ hw in
theorem temperature_construct {u : Str} (hu : u ∈ temperatureScales.map Prod.fst) (x : Rat) :
    construct (.std s!!"Temperature") x u L = (.ok ⟨.std s!!"Temperature", u, x⟩, L) := by
  obtain ⟨d, z, _, _, _, hl, hb, hc, _⟩ := scale_get hu
  obtain ⟨_, m, hm, _⟩ := hL
  obtain ⟨l, h1, h2⟩ := (hm.unsigned hc.2).2 ⟨hb, hl⟩
  have : u ∈ L.names s!!"Temperature" := by unfold Lib.names; rw [h1]; exact h2
  simp [Unyts.construct, Kind.key, this]

omit hφ in
theorem temperature_convertible {a b : Str} (ha : a ∈ temperatureScales.map Prod.fst) (hb : b ∈ temperatureScales.map Prod.fst) :
    ∃ L', libConvertible a b L = (.ok true, L') ∧ Running w0 L' := by
  obtain ⟨_, _, _, _, _, _, ba, ca, ia⟩ := scale_get ha
  obtain ⟨_, _, _, _, _, _, bb, cb, ib⟩ := scale_get hb
  obtain ⟨cs, hcs, e⟩ := hL.1
  refine ⟨{ L with w := (Call.convertible a b none).run L.w }, ?_, hL.of_world hw.fresh.wf (c := .convertible a b none) trivial⟩
  unfold libConvertible onWorld
  rw [e, C88_convertible_partial hw hcs ba (by decide) ca cb
    ((hw.shipped.network.reach_iff (builtIn_isName ba) (builtIn_isName bb)).2 (ia.trans ib.symm)) none]
  rfl

theorem temperature_convert {a b : Str} {da za db zb : Rat} (ma : (a, da, za) ∈ temperatureScales) (mb : (b, db, zb) ∈ temperatureScales)
    (er : PyErr) (x : Rat) :
    ∃ y L', libConvert er x a b L = (.ok y, L') ∧ (y - zb) * db = (x - za) * da ∧ Running w0 L' := by
  obtain ⟨cs, hcs, e⟩ := hL.1
  obtain ⟨y, h1, h2⟩ := C91_temperature hw hφ hcs ma mb none x
  refine ⟨y, { L with w := (Call.convert (some x) (some a) (some b) none).run L.w }, ?_, h2,
    hL.of_world hw.fresh.wf (c := .convert (some x) (some a) (some b) none) trivial⟩
  unfold libConvert
  rw [PyM.run_bind_ok (a := some (.num y)) (s' := { L with w := (Call.convert (some x) (some a) (some b) none).run L.w })]
  · rfl
  · unfold onWorld
    rw [e, h1]
    rfl

/-- C116. After `import unyts` and any conversions and questions, a temperature changed to another scale with `to` is the same
temperature. -/
theorem C116_to {q : Quantity} (hq : IsTemperature q) {u : Str} (hu : u ∈ temperatureScales.map Prod.fst) :
    ∃ p L', q.to u L = (.ok (.qty p), L') ∧ IsTemperature p ∧ p.unit = u ∧ kelvins p = kelvins q ∧ Running w0 L' := by
  obtain ⟨k, a, x⟩ := q
  obtain ⟨rfl, ha⟩ := hq
  simp only at ha
  obtain ⟨da, za, ma, ga, pa, _⟩ := scale_get ha
  obtain ⟨db, zb, mb, gb, pb, _⟩ := scale_get hu
  obtain ⟨L1, e1, r1⟩ := temperature_convertible hw hL ha hu
  obtain ⟨y, L2, e2, hy, r2⟩ := temperature_convert hw hφ r1 ma mb .wrongValue x
  refine ⟨⟨.std s!!"Temperature", u, y⟩, L2, ?_, ⟨rfl, hu⟩, rfl, ?_, r2⟩
  · unfold Quantity.to
    have : ∀ m m' : PyM Lib Obj, (if (⟨.std s!!"Temperature", a, x⟩ : Quantity).unitless then m else m') L = m' L := by
      intro m m'; rw [if_neg]; simp [unitless]
    refine (this _ _).trans ?_
    rw [PyM.run_bind_ok e1, if_pos rfl]
    dsimp only
    rw [PyM.run_bind_ok e2, PyM.run_bind_ok (temperature_construct r2 hu _)]
    rfl
  · rw [kelvins_eq gb, kelvins_eq ga]; exact hy

/-- C116. So it is after any number of changes, and back in its first scale it is the same number. -/
theorem C116_tour {q : Quantity} (hq : IsTemperature q) (us : List Str) (hu : ∀ u ∈ us, u ∈ temperatureScales.map Prod.fst) :
    ∃ p L', tour q us L = (.ok (.qty p), L') ∧ IsTemperature p ∧ kelvins p = kelvins q ∧ (p.unit = q.unit → p = q) ∧ Running w0 L' := by
  have main : ∃ p L', tour q us L = (.ok (.qty p), L') ∧ IsTemperature p ∧ kelvins p = kelvins q ∧ Running w0 L' := by
    induction us generalizing q L with
    | nil => exact ⟨q, L, rfl, hq, rfl, hL⟩
    | cons u r ih =>
      obtain ⟨p, L1, e1, hp, -, hk, r1⟩ := C116_to hw hφ hL hq (hu u (by simp))
      obtain ⟨p', L2, e2, hp', hk', r2⟩ := ih r1 hp (fun v hv => hu v (by simp [hv]))
      refine ⟨p', L2, ?_, hp', hk'.trans hk, r2⟩
      unfold tour
      rw [PyM.run_bind_ok e1]
      exact e2
  obtain ⟨p, L', e, hp, hk, r⟩ := main
  refine ⟨p, L', e, hp, hk, fun he => ?_, r⟩
  obtain ⟨k, a, x⟩ := q
  obtain ⟨k', b, y⟩ := p
  obtain ⟨rfl, ha⟩ := hq
  obtain ⟨rfl, hb⟩ := hp
  simp only at ha hb he
  subst he
  obtain ⟨d, z, _, g, pd, _⟩ := scale_get ha
  rw [kelvins_eq g, kelvins_eq g] at hk
  have := mul_right_cancel₀ pd.ne' hk
  simp only [sub_left_inj] at this
  rw [this]

/-- C116. The six comparisons of two temperatures, in whatever scales, compare the temperatures. -/
theorem C116_compare {p q : Quantity} (hp : IsTemperature p) (hq : IsTemperature q) (c : Cmp) :
    ∃ L', p.compare c q L = (.ok (c.holds (kelvins p) (kelvins q)), L') ∧ Running w0 L' := by
  obtain ⟨q', L1, e1, hq', hu, hk, r1⟩ := C116_to hw hφ hL hq hp.2
  refine ⟨L1, ?_, r1⟩
  unfold Quantity.compare
  rw [if_pos (hp.1.trans hq.1.symm), PyM.run_bind_ok e1]
  show (Except.ok _, L1) = _
  congr 2
  obtain ⟨d, z, _, g, pd, _⟩ := scale_get hp.2
  rw [← hk, kelvins_eq g, kelvins_eq (hu ▸ g)]
  cases c <;> simp [Cmp.holds, mul_lt_mul_iff_left₀ pd, mul_le_mul_iff_left₀ pd, mul_left_inj' pd.ne']

omit hL in
theorem temperature_ranked : Ranked w0 IsTemperature kelvins := fun _ hL c _ _ hp hq => C116_compare hw hφ hL hp hq c

/-- C116. `max` of a list of temperatures is one of them, and none is hotter. -/
theorem C116_max (q : Quantity) (r : List Quantity) (hr : ∀ x ∈ q :: r, IsTemperature x) :
    ∃ m L', pyMax (q :: r) L = (.ok m, L') ∧ m ∈ q :: r ∧ (∀ x ∈ q :: r, kelvins x ≤ kelvins m) ∧ Running w0 L' := by
  obtain ⟨m, L', e, hm, hall, h⟩ := (temperature_ranked hw hφ).best .gt (.inl rfl) r q hr hL
  exact ⟨m, L', e, hm, fun x hx => by simpa [Cmp.holds] using hall x hx, h⟩

/-- C116. `min` of a list of temperatures is one of them, and none is colder. -/
theorem C116_min (q : Quantity) (r : List Quantity) (hr : ∀ x ∈ q :: r, IsTemperature x) :
    ∃ m L', pyMin (q :: r) L = (.ok m, L') ∧ m ∈ q :: r ∧ (∀ x ∈ q :: r, kelvins m ≤ kelvins x) ∧ Running w0 L' := by
  obtain ⟨m, L', e, hm, hall, h⟩ := (temperature_ranked hw hφ).best .lt (.inr rfl) r q hr hL
  exact ⟨m, L', e, hm, fun x hx => by simpa [Cmp.holds] using hall x hx, h⟩

/-- C116. `sorted` of a list of temperatures is the same temperatures from the coldest to the hottest. -/
theorem C116_sorted (qs : List Quantity) (hr : ∀ x ∈ qs, IsTemperature x) :
    ∃ r L', pySorted qs L = (.ok r, L') ∧ r.Perm qs ∧ (r.Pairwise fun x y => kelvins x ≤ kelvins y) ∧
      (∀ v, r.filter (fun x => kelvins x = v) = qs.filter fun x => kelvins x = v) ∧ Running w0 L' :=
  (temperature_ranked hw hφ).sorted qs hr hL

/-- C116 fails for sums: the readings are added on the scale of the first, so the sum is off by the zero of that scale and
depends on the order. -/
theorem C116_add_fails {p q : Quantity} (hp : IsTemperature p) (hq : IsTemperature q) {d z : Rat} (hd : (p.unit, d, z) ∈ temperatureScales) :
    ∃ s L', p.add q L = (.ok (.qty s), L') ∧ IsTemperature s ∧ s.unit = p.unit ∧ kelvins s = kelvins p + kelvins q + z * d ∧ Running w0 L' := by
  obtain ⟨k, a, x⟩ := p
  obtain ⟨k', b, y⟩ := q
  obtain ⟨rfl, ha⟩ := hp
  obtain ⟨rfl, hb⟩ := hq
  simp only at ha hb hd
  obtain ⟨db, zb, mb, gb, _⟩ := scale_get hb
  have ga : Py.dictGet temperatureScales a = some (d, z) := by
    have := List.all_eq_true.1 scales_names _ hd
    exact (of_decide_eq_true this).2.2
  unfold Quantity.add Quantity.addLike
  rw [if_pos rfl]
  by_cases hab : a = b
  · subst hab
    rw [ga] at gb; cases gb
    refine ⟨⟨.std s!!"Temperature", a, x + y⟩, L, ?_, ⟨rfl, ha⟩, rfl, ?_, hL⟩
    · rw [if_pos rfl, PyM.run_bind_ok (temperature_construct hL ha _)]
      rfl
    · rw [kelvins_eq ga, kelvins_eq ga, kelvins_eq ga]; ring
  · obtain ⟨L1, e1, r1⟩ := temperature_convertible hw hL hb ha
    obtain ⟨t, L2, e2, ht, r2⟩ := temperature_convert hw hφ r1 mb hd .typeError y
    refine ⟨⟨.std s!!"Temperature", a, x + t⟩, L2, ?_, ⟨rfl, ha⟩, rfl, ?_, r2⟩
    · rw [if_neg hab, PyM.run_bind_ok e1, if_pos rfl, PyM.run_bind_ok e2, PyM.run_bind_ok (temperature_construct r2 ha _)]
      rfl
    · rw [kelvins_eq ga, kelvins_eq ga, kelvins_eq gb]
      simp only
      linarith

end

/-- freezing, body temperature, boiling, room temperature -/
def readings : List Quantity := [⟨.std s!!"Temperature", s!!"Fahrenheit", 32⟩, ⟨.std s!!"Temperature", s!!"Celsius", 37⟩,
  ⟨.std s!!"Temperature", s!!"Kelvin", 37315 / 100⟩, ⟨.std s!!"Temperature", s!!"Rankine", 530⟩]

theorem readings_ok : ∀ q ∈ readings, IsTemperature q := by unfold IsTemperature; decide +kernel

example : readings.map kelvins = [27315 / 100, 31015 / 100, 37315 / 100, 2650 / 9] := by decide +kernel

example : ∃ w L, Started w ∧ Running w L ∧ (∃ m, (pyMax readings L).1 = .ok m ∧ ∀ x ∈ readings, kelvins x ≤ kelvins m) ∧
    ∃ s, ((⟨.std s!!"Temperature", s!!"Celsius", 20⟩ : Quantity).add ⟨.std s!!"Temperature", s!!"Kelvin", 1⟩ L).1 = .ok (.qty s) ∧
      kelvins s = 21 := by
  obtain ⟨w, hw, hp, hf⟩ := started_ex
  obtain ⟨L, _, hL⟩ := hw.running
  obtain ⟨m, L1, h1, _, h1', _⟩ := C116_max hw (by rw [hf]; decide) hL _ _ readings_ok
  obtain ⟨s, L2, h2, _, _, h3, _⟩ := C116_add_fails hw (by rw [hf]; decide) hL (p := ⟨.std s!!"Temperature", s!!"Celsius", 20⟩)
    (q := ⟨.std s!!"Temperature", s!!"Kelvin", 1⟩) (d := 1) (z := -27315 / 100) (by unfold IsTemperature; decide +kernel)
    (by unfold IsTemperature; decide +kernel) (by decide +kernel)
  refine ⟨w, L, hw, hL, ⟨m, congrArg Prod.fst h1, h1'⟩, s, congrArg Prod.fst h2, ?_⟩
  have e1 : kelvins ⟨.std s!!"Temperature", s!!"Celsius", 20⟩ = 29315 / 100 := by decide +kernel
  have e2 : kelvins ⟨.std s!!"Temperature", s!!"Kelvin", 1⟩ = 1 := by decide +kernel
  rw [h3, e1, e2]; norm_num

end Unyts

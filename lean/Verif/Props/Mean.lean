import Verif.Model.Mean
import Verif.Props.Temperatures

/- C133: means. C134: quantities as conditions. -/
namespace Unyts
open Spec Quantity

theorem sum_least {f : Quantity → Rat} {a : Rat} (l : List Quantity) (h : ∀ x ∈ l, a ≤ f x) : a * l.length ≤ (l.map f).sum := by
  induction l with
  | nil => simp
  | cons q r ih =>
    have h1 := h q (by simp)
    have h2 := ih fun x hx => h x (by simp [hx])
    simp only [List.map_cons, List.sum_cons, List.length_cons]; push_cast
    nlinarith

theorem sum_most {f : Quantity → Rat} {a : Rat} (l : List Quantity) (h : ∀ x ∈ l, f x ≤ a) : (l.map f).sum ≤ a * l.length := by
  induction l with
  | nil => simp
  | cons q r ih =>
    have h1 := h q (by simp)
    have h2 := ih fun x hx => h x (by simp [hx])
    simp only [List.map_cons, List.sum_cons, List.length_cons]; push_cast
    nlinarith

section
variable {w0 : World} {n : Str} {P : Str → Prop} {size : Str → Rat}

theorem Gauged.mean (h : Gauged w0 n P size) (hg : WF w0.net) (q : Quantity) (r : List Quantity)
    (hr : ∀ x ∈ q :: r, x.kind = .std n ∧ P x.unit) {L : Lib} (hL : Running w0 L) :
    ∃ m L1, pyMean (q :: r) L = (.ok m, L1) ∧ m.kind = .std n ∧ m.unit = q.unit ∧ Running w0 L1 ∧
      amountOf size m * (q :: r).length = ((q :: r).map (amountOf size)).sum ∧
      ∀ p : Quantity, p.kind = .std n → P p.unit →
        ((∀ x ∈ q :: r, amountOf size p ≤ amountOf size x) → ∃ L2, p.compare .le m L1 = (.ok true, L2) ∧ Running w0 L2) ∧
        ((∀ x ∈ q :: r, amountOf size x ≤ amountOf size p) → ∃ L2, p.compare .ge m L1 = (.ok true, L2) ∧ Running w0 L2) := by
  obtain ⟨L1, e1, r1⟩ := h.sum hg q r hr hL
  have hq := (hr q (by simp)).2
  have hn : (((q :: r).length : Nat) : Rat) ≠ 0 := by simp only [List.length_cons]; push_cast; positivity
  have hp : (0 : Rat) < ((q :: r).length : Nat) := lt_of_le_of_ne (Nat.cast_nonneg _) hn.symm
  have hs := (h.pos _ hq).ne'
  set S := ((q :: r).map (amountOf size)).sum with hS
  have ha : amountOf size ⟨.std n, q.unit, S / size q.unit / ((q :: r).length : Nat)⟩ * ((q :: r).length : Nat) = S := by
    unfold amountOf; field_simp
  have em : S / size q.unit / ((q :: r).length : Nat) * size q.unit = S / ((q :: r).length : Nat) := by field_simp
  refine ⟨⟨.std n, q.unit, S / size q.unit / ((q :: r).length : Nat)⟩, L1, ?_, rfl, rfl, r1, ha, fun p hk hpu => ⟨fun hb => ?_, fun hb => ?_⟩⟩
  · unfold pyMean
    rw [PyM.run_bind_ok e1]
    show Quantity.divNum _ _ _ = _
    unfold Quantity.divNum
    rw [PyM.run_bind_ok (a := S / size q.unit / ((q :: r).length : Nat)) (s' := L1) (by simp only [pdiv, if_neg hn, PyM.lift])]
    show Unyts.units _ _ L1 = _
    rw [h.units r1 hq]
  · obtain ⟨pk, pu, pv⟩ := p
    simp only at hk hpu; subst hk
    obtain ⟨L2, e2, r2⟩ := h.compare hg r1 hpu hq .le pv (S / size q.unit / ((q :: r).length : Nat))
    refine ⟨L2, ?_, r2⟩
    have := sum_least (q :: r) hb
    rw [e2, em]; simp only [Cmp.holds]
    have : pv * size pu ≤ S / ((q :: r).length : Nat) := by rw [le_div_iff₀ hp]; exact this
    simpa using this
  · obtain ⟨pk, pu, pv⟩ := p
    simp only at hk hpu; subst hk
    obtain ⟨L2, e2, r2⟩ := h.compare hg r1 hpu hq .ge pv (S / size q.unit / ((q :: r).length : Nat))
    refine ⟨L2, ?_, r2⟩
    have := sum_most (q :: r) hb
    rw [e2, em]; simp only [Cmp.holds]
    have : S / ((q :: r).length : Nat) ≤ pv * size pu := by rw [div_le_iff₀ hp]; exact this
    simpa using this

end

section
variable {w0 : World} (hw : Started w0) (hg : 17 ≤ w0.par.maxGenerations) (hφ : w0.fvf ≠ some 0) {n : Str} {l : List (Str × Rat)}
  (hn : (n, l) ∈ sizeTables) (size : Str → Rat) {L : Lib} (hL : Running w0 L)
include hw hg hφ hn hL

/-- C133. After `import unyts` and any conversions and questions, for a list of quantities of one class in units with a standard size:
`sum(l) / len(l)` is the quantity, in the unit of the first, whose amount is the mean of the amounts, and the library finds it not less
than any quantity that is no more than all of them, and not greater than any that is no less than all of them. -/
theorem C133_mean_partial (q : Quantity) (r : List Quantity) (hr : InTable n l size (q :: r)) :
    ∃ m L1, pyMean (q :: r) L = (.ok m, L1) ∧ m.kind = .std n ∧ m.unit = q.unit ∧ Running w0 L1 ∧
      amountOf size m * (q :: r).length = ((q :: r).map (amountOf size)).sum ∧
      ∀ p : Quantity, p.kind = .std n → (p.unit, size p.unit) ∈ l →
        ((∀ x ∈ q :: r, amountOf size p ≤ amountOf size x) → ∃ L2, p.compare .le m L1 = (.ok true, L2) ∧ Running w0 L2) ∧
        ((∀ x ∈ q :: r, amountOf size x ≤ amountOf size p) → ∃ L2, p.compare .ge m L1 = (.ok true, L2) ∧ Running w0 L2) :=
  (gauged_table hw hg hφ hn size).mean hw.fresh.wf q r hr hL

end

/-- C133 for all the single built-in names of the classes with proportional units, by sizes that are the same for every process and
every history. -/
theorem C133_sizes_partial : ∃ size : Str → Rat, (∀ n ∈ amountQuantities, ∀ u, BuiltIn n u → 0 < size u) ∧
    ∀ w0, Started w0 → w0.fvf ≠ some 0 → ∀ n ∈ amountQuantities, ∀ q r, InClass w0 n (q :: r) → ∀ L, Running w0 L →
      ∃ m L1, pyMean (q :: r) L = (.ok m, L1) ∧ m.kind = .std n ∧ m.unit = q.unit ∧ Running w0 L1 ∧
        amountOf size m * (q :: r).length = ((q :: r).map (amountOf size)).sum := by
  refine ⟨scaleOf, fun n hn u hu => (amount_reading hn hu).2, ?_⟩
  intro w0 hw hφ n hn q r h L hL
  obtain ⟨m, L1, e, a, b, c, d, -⟩ := (h.gauged hw hφ hn).mean hw.fresh.wf q r (fun x hx => ⟨(h.1 x hx).1, x, hx, rfl⟩) hL
  exact ⟨m, L1, e, a, b, c, d⟩

/-- the mean of a yard, a foot and eight inches, in yards: 52/108 of one -/
example : ∃ w L, Started w ∧ Running w L ∧ ∃ m L1,
    pyMean [⟨.std s!!"Length", s!!"yard", 1⟩, ⟨.std s!!"Length", s!!"foot", 1⟩, ⟨.std s!!"Length", s!!"inch", 8⟩] L = (.ok m, L1) ∧
      m.unit = s!!"yard" ∧ m.value = 14 / 27 := by
  obtain ⟨w, hw, hp, hf⟩ := started_ex
  obtain ⟨L, _, hL⟩ := hw.running
  obtain ⟨m, L1, e, -, hu, -, hs, -⟩ := C133_mean_partial hw (by rw [hp]; decide) (by rw [hf]; decide) (n := s!!"Length")
    (l := standardSizes[0]) (by decide +kernel) lengthSize hL ⟨.std s!!"Length", s!!"yard", 1⟩
    [⟨.std s!!"Length", s!!"foot", 1⟩, ⟨.std s!!"Length", s!!"inch", 8⟩] (by
      intro q hq
      simp only [List.mem_cons, List.not_mem_nil, or_false] at hq
      rcases hq with rfl | rfl | rfl <;> exact ⟨rfl, by decide +kernel⟩)
  refine ⟨w, L, hw, hL, m, L1, e, hu, ?_⟩
  have h1 : lengthSize s!!"yard" = 1143 / 1250 := by decide +kernel
  have h2 : lengthSize s!!"foot" = 381 / 1250 := by decide +kernel
  have h3 : lengthSize s!!"inch" = 127 / 5000 := by decide +kernel
  simp only [amountOf, hu, List.map_cons, List.map_nil, List.sum_cons, List.sum_nil, List.length_cons, List.length_nil, h1, h2, h3] at hs
  norm_num at hs
  linarith

/-! ### the mean of temperatures -/

theorem scales_strip : temperatureScales.all (fun e => decide (Py.stripWs e.1 = e.1 ∧ e.1 ∉ ambiguousNames)) = true := by decide +kernel

theorem temperature_units {w0 : World} {L : Lib} (hL : Running w0 L) {u : Str} (hu : u ∈ temperatureScales.map Prod.fst) (x : Rat) :
    Unyts.units x u L = (.ok ⟨.std s!!"Temperature", u, x⟩, L) := by
  by_cases hF : u = s!!"F"
  · subst hF
    exact (C81_farad_fails hL.2 x).2
  · obtain ⟨d, z, m, _, _, hl, hb, hc, _⟩ := scale_get hu
    have hs := of_decide_eq_true (List.all_eq_true.1 scales_strip _ m)
    refine C81_class_partial hL.2 (by decide +kernel) hb hl hs.2 hc.2 (fun q' hq' => ?_) hs.1 x
    rcases C80_one_quantity_partial hb hq' with h | h | h
    · exact h.symm
    · generalize hT : s!!"Temperature" = T at h
      cases h with
      | f => exact absurd rfl hF
      | _ => exact absurd hT (by decide)
    · generalize hT : s!!"Temperature" = T at h
      cases h <;> exact absurd hT (by decide)

section
variable {w0 : World} (hw : Started w0) (hφ : w0.fvf ≠ some 0)
include hw hφ

theorem temperatures_plusAll {u : Str} {d z : Rat} (hd : (u, d, z) ∈ temperatureScales) (r : List Quantity) :
    ∀ (x : Rat) {L : Lib}, Running w0 L → (∀ q ∈ r, IsTemperature q) →
    ∃ y L', (Total.qty ⟨.std s!!"Temperature", u, x⟩).plusAll r L = (.ok (.qty ⟨.std s!!"Temperature", u, y⟩), L') ∧ Running w0 L' ∧
      y * d = x * d + (r.map kelvins).sum + r.length * (z * d) := by
  have ga : Py.dictGet temperatureScales u = some (d, z) := (of_decide_eq_true (List.all_eq_true.1 scales_names _ hd)).2.2
  have hu : u ∈ temperatureScales.map Prod.fst := List.mem_map.2 ⟨_, hd, rfl⟩
  induction r with
  | nil => exact fun x L hL _ => ⟨x, L, rfl, hL, by simp⟩
  | cons q r ih =>
    intro x L hL hr
    obtain ⟨⟨sk, su, sv⟩, L1, e1, hs, e2, hk, r1⟩ := C116_add_fails hw hφ hL (p := ⟨.std s!!"Temperature", u, x⟩) ⟨rfl, hu⟩ (hr q (by simp)) hd
    obtain ⟨h1, -⟩ := hs
    simp only at h1 e2
    subst h1 e2
    obtain ⟨y, L2, e3, r2, hy⟩ := ih sv r1 fun p hp => hr p (by simp [hp])
    refine ⟨y, L2, ?_, r2, ?_⟩
    · unfold Total.plusAll
      have : (Total.qty ⟨.std s!!"Temperature", su, x⟩).plus q L = (.ok (.qty ⟨.std s!!"Temperature", su, sv⟩), L1) := by
        simp only [Total.plus]
        rw [PyM.run_bind_ok e1]; rfl
      rw [PyM.run_bind_ok this, e3]
    · rw [kelvins_eq ga, kelvins_eq ga] at hk
      simp only at hk
      simp only [List.map_cons, List.sum_cons, List.length_cons]; push_cast
      linarith

/-- C133 for temperatures, for every list in any of the names of the scales: although sums of temperatures are off by the zero of the
scale, `sum(l) / len(l)` is exactly the mean temperature, in the unit of the first. -/
theorem C133_temperatures {L : Lib} (hL : Running w0 L) (q : Quantity) (r : List Quantity) (hr : ∀ x ∈ q :: r, IsTemperature x) :
    ∃ m L', pyMean (q :: r) L = (.ok m, L') ∧ IsTemperature m ∧ m.unit = q.unit ∧ Running w0 L' ∧
      kelvins m * (q :: r).length = ((q :: r).map kelvins).sum := by
  obtain ⟨k, u, x⟩ := q
  obtain ⟨hk, hu⟩ := hr _ (List.mem_cons_self ..)
  simp only at hk hu
  subst hk
  obtain ⟨d, z, hd, ga, -⟩ := scale_get hu
  obtain ⟨y, L1, e1, r1, hy⟩ := temperatures_plusAll hw hφ hd r x hL fun q hq => hr q (by simp [hq])
  have hn : ((r.length + 1 : Nat) : Rat) ≠ 0 := by push_cast; positivity
  refine ⟨⟨.std s!!"Temperature", u, y / ((r.length + 1 : Nat) : Rat)⟩, L1, ?_, ⟨rfl, hu⟩, rfl, r1, ?_⟩
  · have h0 : (Total.num 0).plus ⟨.std s!!"Temperature", u, x⟩ L = (.ok (.qty ⟨.std s!!"Temperature", u, x⟩), L) := by
      simp only [Total.plus, addNum]
      rw [if_neg (by simp), PyM.run_bind_ok (temperature_construct hL hu _), add_zero]
      rfl
    have hs : pySum (⟨.std s!!"Temperature", u, x⟩ :: r) L = (.ok (.qty ⟨.std s!!"Temperature", u, y⟩), L1) := by
      unfold pySum Total.plusAll
      rw [PyM.run_bind_ok h0, e1]
    unfold pyMean
    rw [PyM.run_bind_ok hs]
    show Quantity.divNum _ _ _ = _
    unfold Quantity.divNum
    rw [PyM.run_bind_ok (a := y / ((r.length + 1 : Nat) : Rat)) (s' := L1) (by simp only [List.length_cons, pdiv, if_neg hn, PyM.lift])]
    show Unyts.units _ _ L1 = _
    rw [temperature_units r1 hu]
  · rw [List.length_cons]
    rw [kelvins_eq (q := ⟨.std s!!"Temperature", u, y / ((r.length + 1 : Nat) : Rat)⟩) ga]
    simp only [List.map_cons, List.sum_cons]
    rw [kelvins_eq (q := ⟨.std s!!"Temperature", u, x⟩) ga]
    simp only
    have : (y / ((r.length + 1 : Nat) : Rat) - z) * d * ((r.length + 1 : Nat) : Rat) = y * d - ((r.length + 1 : Nat) : Rat) * (z * d) := by
      field_simp
    rw [this, hy]; push_cast; ring

end

/-- the mean of 32 F, 37 C, 373.15 K and 530 R -/
example : ∃ w L, Started w ∧ Running w L ∧ ∃ m L', pyMean readings L = (.ok m, L') ∧ m.unit = s!!"Fahrenheit" ∧
    kelvins m * 4 = 27315 / 100 + 31015 / 100 + 37315 / 100 + 2650 / 9 := by
  obtain ⟨w, hw, hp, hf⟩ := started_ex
  obtain ⟨L, _, hL⟩ := hw.running
  obtain ⟨m, L', e, -, hu, -, h⟩ := C133_temperatures hw (by rw [hf]; decide) hL _ _ readings_ok
  refine ⟨w, L, hw, hL, m, L', e, hu, ?_⟩
  have : readings.map kelvins = [27315 / 100, 31015 / 100, 37315 / 100, 2650 / 9] := by decide +kernel
  change kelvins m * ((4 : Nat) : Rat) = (readings.map kelvins).sum at h
  rw [this] at h
  norm_num at h ⊢
  linarith

/-! ### C134 -/

/-- the classes whose quantities count as false -/
def Spec.FalseKind (k : Kind) : Prop := k = .dimensionless ∨ k = .percentage ∨ k = .user

/-- C134. As a condition a quantity counts as false exactly when it is a fraction, a percentage or a quantity of units of the user, and
the amount makes no difference; `any`, `all` and filtering say which quantities of a list are of the others. -/
theorem C134_truth (l : List Quantity) :
    (∀ q : Quantity, (q.truth = true ↔ ¬ FalseKind q.kind) ∧ ∀ u v, (⟨q.kind, u, v⟩ : Quantity).truth = q.truth) ∧
    (pyAny l = true ↔ ∃ q ∈ l, ¬ FalseKind q.kind) ∧ (pyAll l = true ↔ ∀ q ∈ l, ¬ FalseKind q.kind) ∧
    (∀ q, q ∈ pyTrue l ↔ q ∈ l ∧ ¬ FalseKind q.kind) ∧ (pyTrue l).Sublist l := by
  have key : ∀ q : Quantity, (q.truth = true ↔ ¬ FalseKind q.kind) := fun q => by
    unfold Quantity.truth FalseKind; simp [and_assoc]
  refine ⟨fun q => ⟨key q, fun _ _ => rfl⟩, ?_, ?_, ?_, ?_⟩
  · induction l with
    | nil => simp [pyAny]
    | cons q r ih => by_cases h : q.truth = true <;> simp [pyAny, h, ih, ← key]
  · induction l with
    | nil => simp [pyAll]
    | cons q r ih => by_cases h : q.truth = true <;> simp [pyAll, h, ih, ← key]
  · intro p
    induction l with
    | nil => simp [pyTrue]
    | cons q r ih =>
      by_cases h : q.truth = true
      · simp only [pyTrue, if_pos h, List.mem_cons, ih]
        constructor
        · rintro (rfl | ⟨h1, h2⟩)
          · exact ⟨.inl rfl, (key _).1 h⟩
          · exact ⟨.inr h1, h2⟩
        · rintro ⟨rfl | h1, h2⟩
          · exact .inl rfl
          · exact .inr ⟨h1, h2⟩
      · simp only [pyTrue, if_neg h, List.mem_cons, ih]
        constructor
        · rintro ⟨h1, h2⟩; exact ⟨.inr h1, h2⟩
        · rintro ⟨rfl | h1, h2⟩
          · exact absurd ((key _).2 h2) h
          · exact ⟨h1, h2⟩
  · induction l with
    | nil => exact .slnil
    | cons q r ih => by_cases h : q.truth = true <;> simp only [pyTrue, h, if_true] <;> first | exact ih.cons_cons _ | exact ih.cons _

/-- C134 is not what numbers do: no metres count as true, 5 percent as false. -/
theorem C134_amount_fails : (⟨.std s!!"Length", s!!"m", 0⟩ : Quantity).truth = true ∧
    ∀ x, (⟨.percentage, s!!"%", x⟩ : Quantity).truth = false := ⟨by decide, fun _ => rfl⟩

example : pyTrue [⟨.std s!!"Length", s!!"m", 0⟩, ⟨.percentage, s!!"%", 5⟩, ⟨.user, s!!"widget", 2⟩, ⟨.base, s!!"m", 1⟩] =
    [⟨.std s!!"Length", s!!"m", 0⟩, ⟨.base, s!!"m", 1⟩] := by decide +kernel

end Unyts

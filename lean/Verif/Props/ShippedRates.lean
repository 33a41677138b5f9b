import Verif.Spec.Rates
import Verif.Props.ShippedLitre
import Verif.Props.ShippedSpeeds
import Mathlib.Tactic.Positivity
import Mathlib.Algebra.Order.Ring.Pow

/- C103: rates, and other ratios and products with volumes. -/
namespace Unyts
open Spec Quantity
set_option maxRecDepth 1000000

/-! ### errors that multiply -/

/-- off by at most `e` times nine parts in ten millions, either way -/
def Off (e : Nat) (E : Rat) : Prop := (9999991 / 10000000 : Rat) ^ e ≤ E ∧ E * (9999991 / 10000000 : Rat) ^ e ≤ 1

theorem off_pos {e : Nat} {E : Rat} (h : Off e E) : 0 < E := lt_of_lt_of_le (by positivity) h.1

theorem off_one : Off 0 1 := by constructor <;> norm_num

theorem off_mul {d e : Nat} {D E : Rat} (h : Off d D) (h' : Off e E) : Off (d + e) (D * E) := by
  constructor
  · rw [pow_add]
    exact mul_le_mul h.1 h'.1 (by positivity) (off_pos h).le
  · rw [pow_add, show ∀ a b : Rat, D * E * (a * b) = (D * a) * (E * b) by intros; ring]
    exact mul_le_one₀ h.2 (mul_nonneg (off_pos h').le (by positivity)) h'.2

theorem off_inv {e : Nat} {E : Rat} (h : Off e E) : Off e (1 / E) := by
  have := off_pos h
  constructor
  · rw [le_div_iff₀ this, mul_comm]; exact h.2
  · rw [one_div_mul_eq_div, div_le_one this]; exact h.1

theorem off_seven {E : Rat} (h : |E - 1| ≤ 7 / 10000000) : Off 1 E := by
  rw [abs_le] at h
  constructor
  · rw [pow_one]; linarith [h.1]
  · rw [pow_one]; linarith [h.2]

theorem off_fourteen {E : Rat} (h : |E - 1| ≤ 14 / 10000000) : Off 2 E := by
  rw [abs_le] at h
  constructor
  · norm_num; linarith [h.1]
  · norm_num; linarith [h.2]

theorem off_bound {e : Nat} (he : e ≤ 100000) {E : Rat} (h : Off e E) : |E - 1| ≤ e / 1000000 := by
  have hb : (1 - e * (9 / 10000000) : Rat) ≤ (9999991 / 10000000 : Rat) ^ e := by
    have := one_add_mul_le_pow (a := (-9 / 10000000 : Rat)) (by norm_num) e
    calc (1 - e * (9 / 10000000) : Rat) = 1 + e * (-9 / 10000000) := by ring
      _ ≤ (1 + -9 / 10000000) ^ e := this
      _ = _ := by norm_num
  have he' : (e : Rat) ≤ 100000 := by exact_mod_cast he
  have h0 : (0 : Rat) ≤ e := Nat.cast_nonneg e
  have hp := off_pos h
  rw [abs_le]
  constructor
  · linarith [h.1]
  · have h2 : E * (1 - e * (9 / 10000000)) ≤ 1 := (mul_le_mul_of_nonneg_left hb hp.le).trans h.2
    have h3 : (0 : Rat) < 1 - e * (9 / 10000000) := by linarith
    have h4 : E ≤ 1 / (1 - e * (9 / 10000000)) := by rw [le_div_iff₀ h3]; exact h2
    have h5 : 1 / (1 - e * (9 / 10000000)) ≤ 1 + (e : Rat) / 1000000 := by
      rw [div_le_iff₀ h3]
      nlinarith
    linarith

/-! ### factor by factor -/

/-- Whatever was asked before, one of the unit `f` converts to about `k` of the unit `t`, without the density. -/
def NearIs (w : World) (f t : Str) (e : Nat) (k : Rat) : Prop := (CleanName f ∧ f ≠ []) ∧ (CleanName t ∧ t ≠ []) ∧
  ¬ DensityPair w.dic f t ∧ k ≠ 0 ∧ ∀ cs, (∀ c ∈ cs, Asks c) → ∀ uc,
    ∃ E, Off e E ∧ (convert (some 1) (some f) (some t) uc (session cs w)).1 = .ok (some (.num (E * k)))

variable {R : Str → Str → Nat → Rat → Prop}

theorem beside_length {fs ts : List Factor} {e : Nat} {r : Rat} (h : Beside R fs ts e r) : fs.length = ts.length := by
  induction h with
  | nil => rfl
  | num _ _ ih => simp [ih]
  | den _ _ ih => simp [ih]

theorem beside_mem {fs ts : List Factor} {e : Nat} {r : Rat} (h : Beside R fs ts e r) :
    (∀ f ∈ fs, ∃ t d k, R f.2 t d k) ∧ ∀ t ∈ ts, ∃ f d k, R f t.2 d k := by
  induction h with
  | nil => simp
  | num h _ ih =>
    constructor <;> intro f hf <;> rcases List.mem_cons.1 hf with rfl | hf
    · exact ⟨_, _, _, h⟩
    · exact ih.1 f hf
    · exact ⟨_, _, _, h⟩
    · exact ih.2 f hf
  | den h _ ih =>
    constructor <;> intro f hf <;> rcases List.mem_cons.1 hf with rfl | hf
    · exact ⟨_, _, _, h⟩
    · exact ih.1 f hf
    · exact ⟨_, _, _, h⟩
    · exact ih.2 f hf

theorem beside_mono {S : Str → Str → Nat → Rat → Prop} (hRS : ∀ f t e k, R f t e k → S f t e k) {fs ts : List Factor} {e : Nat}
    {r : Rat} (h : Beside R fs ts e r) : Beside S fs ts e r := by
  induction h with
  | nil => exact .nil
  | num h _ ih => exact .num (hRS _ _ _ _ h) ih
  | den h _ ih => exact .den (hRS _ _ _ _ h) ih

/-- the factors convert one after the other -/
theorem parts_beside {w : World} (hg : WF w.net) {fs ts : List Factor} {e : Nat} {r : Rat} (h : Beside (NearIs w) fs ts e r)
    (uc : Option Bool) {cs : List Call} (hcs : ∀ c ∈ cs, Asks c) :
    ∃ ks w2 E, PartsConvert uc (session cs w) fs ts ks w2 ∧ ks.prod = E * r ∧ Off e E := by
  have more : ∀ {f t : Str} {cs : List Call}, (∀ c ∈ cs, Asks c) →
      ∀ c ∈ cs ++ [Call.convert (some 1) (some f) (some t) uc], Asks c := by
    intro f t cs hcs c hm
    rcases List.mem_append.1 hm with hm | hm
    · exact hcs c hm
    · rw [List.mem_singleton.1 hm]; trivial
  induction h generalizing cs with
  | nil => exact ⟨[], _, 1, .nil _, by simp, off_one⟩
  | @num f t fs ts d e k r h _ ih =>
    obtain ⟨⟨hf, _⟩, ⟨ht, _⟩, hd, hk, hc⟩ := h
    obtain ⟨D, hD, hv⟩ := hc cs hcs uc
    obtain ⟨ks, w2, E, h1, h2, h3⟩ := ih (more hcs)
    rw [session_append] at h1
    refine ⟨D * k :: ks, w2, D * E, .cons (den := false) hf ht (by rw [(base_session hcs hg).dic]; exact hd) (Prod.ext hv rfl)
      (by simp) h1, ?_, off_mul hD h3⟩
    rw [List.prod_cons, h2]
    ring
  | @den f t fs ts d e k r h _ ih =>
    obtain ⟨⟨hf, _⟩, ⟨ht, _⟩, hd, hk, hc⟩ := h
    obtain ⟨D, hD, hv⟩ := hc cs hcs uc
    obtain ⟨ks, w2, E, h1, h2, h3⟩ := ih (more hcs)
    rw [session_append] at h1
    have hD0 := (off_pos hD).ne'
    refine ⟨1 / (D * k) :: ks, w2, 1 / D * E, .cons (den := true) hf ht (by rw [(base_session hcs hg).dic]; exact hd) (Prod.ext hv rfl)
      (fun _ => mul_ne_zero hD0 hk) h1, ?_, off_mul (off_inv hD) h3⟩
    rw [List.prod_cons, h2]
    field_simp

section
variable {w : World}

/-- a volume with a size -/
theorem sized_volume {u : Str} {s : Rat} (h : (u, s) ∈ volumeSizes ∨ (u, s) ∈ reservoirSizes) : Fluid u ∧ u ≠ [] ∧ s ≠ 0 := by
  obtain ⟨k, i, hk, h1, h2⟩ := liquid_sizes
  have ne : ∀ e ∈ volumeSizes ++ reservoirSizes, e.1 ≠ [] := by decide +kernel
  refine ⟨?_, ne (u, s) (List.mem_append.2 h), ?_⟩
  · rcases h with h | h
    · exact (h1 _ h).1.toFluid
    · exact (h2 _ h).1.toFluid
  · rcases h with h | h
    · exact (h1 _ h).2.2.2.1.ne'
    · exact (h2 _ h).2.2.2.1.ne'

/-- the sizes are what `convert` uses -/
theorem measured_nearIs (hw : Started w) (hg : 17 ≤ w.par.maxGenerations) (hφ : w.fvf ≠ some 0) {f t : Str} {e : Nat} {k : Rat}
    (h : Measured w.fvf f t e k) : NearIs w f t e k := by
  have vol : ∀ {f t : Str} {sf st : Rat}, ((f, sf) ∈ volumeSizes ∨ (f, sf) ∈ reservoirSizes) →
      ((t, st) ∈ volumeSizes ∨ (t, st) ∈ reservoirSizes) →
      (CleanName f ∧ f ≠ []) ∧ (CleanName t ∧ t ≠ []) ∧ ¬ DensityPair w.dic f t ∧ sf ≠ 0 ∧ st ≠ 0 := by
    intro f t sf st h1 h2
    obtain ⟨a1, a2, a3⟩ := sized_volume h1
    obtain ⟨b1, b2, b3⟩ := sized_volume h2
    exact ⟨⟨a1.clean, a2⟩, ⟨b1.clean, b2⟩, hw.shipped.liquid_noDensity a1 b1, a3, b3⟩
  cases h with
  | standard h =>
    obtain ⟨h1, h2, h3, h4⟩ := standardRatio_oneIs hw hg hφ h
    refine ⟨h1, h2, h3, ?_, fun cs hcs uc => ⟨1, off_one, by rw [one_mul]; exact h4 cs hcs uc⟩⟩
    obtain ⟨l, sf, st, hl, mf, mt, rfl⟩ := h
    exact div_ne_zero (sized_label hl _ mf).1 (sized_label hl _ mt).1
  | pressure mf mt =>
    obtain ⟨a1, _, a3, _, _, _, _, _, a4, _⟩ := pressure_near _ mf
    obtain ⟨b1, _, b3, _, _, _, _, _, b4, _⟩ := pressure_near _ mt
    refine ⟨⟨a3, builtIn_ne_nil a1 (special_label a1 (by decide)).2.1⟩, ⟨b3, builtIn_ne_nil b1 (special_label b1 (by decide)).2.1⟩,
      hw.shipped.noDensity a3.2 (special_label a1 (by decide)).1.1, div_ne_zero a4 b4, fun cs hcs uc => ?_⟩
    obtain ⟨y, E, g1, g2, rfl⟩ := pressure_factor hw hφ hcs mf mt uc 1
    exact ⟨E, off_seven (g2.trans (by norm_num)), by rw [g1, one_mul]⟩
  | volume mf mt =>
    obtain ⟨h1, h2, h3, h4, h5⟩ := vol (Or.inl mf) (Or.inl mt)
    refine ⟨h1, h2, h3, div_ne_zero h4 h5, fun cs hcs uc => ?_⟩
    obtain ⟨⟨y, E, g1, g2, rfl⟩, _⟩ := exact_factor hw hg hφ hcs mf mt uc 1
    exact ⟨E, off_seven g2, by rw [g1, one_mul]⟩
  | reservoir mf mt =>
    obtain ⟨h1, h2, h3, h4, h5⟩ := vol (Or.inr mf) (Or.inr mt)
    refine ⟨h1, h2, h3, div_ne_zero h4 h5, fun cs hcs uc => ?_⟩
    obtain ⟨⟨y, E, g1, g2, rfl⟩, _⟩ := reservoir_factor hw hg hφ hcs mf mt uc 1
    exact ⟨E, off_seven g2, by rw [g1, one_mul]⟩
  | @shrinks sf st φ e mf mt =>
    obtain ⟨h1, h2, h3, h4, h5⟩ := vol (Or.inr mf) (Or.inl mt)
    have h0 : φ ≠ 0 := by rintro rfl; exact hφ e
    refine ⟨h1, h2, h3, div_ne_zero (div_ne_zero h4 h5) h0, fun cs hcs uc => ?_⟩
    obtain ⟨⟨y, E, g1, g2, rfl⟩, _⟩ := formation_factor hw hg e h0 hcs mf mt uc 1
    exact ⟨E, off_fourteen g2, by rw [g1, one_mul]⟩
  | @swells sf st φ e mf mt =>
    obtain ⟨h1, h2, h3, h4, h5⟩ := vol (Or.inl mf) (Or.inr mt)
    have h0 : φ ≠ 0 := by rintro rfl; exact hφ e
    refine ⟨h1, h2, h3, mul_ne_zero (div_ne_zero h4 h5) h0, fun cs hcs uc => ?_⟩
    obtain ⟨_, ⟨y, E, g1, g2, rfl⟩, _⟩ := formation_factor hw hg e h0 hcs mt mf uc 1
    exact ⟨E, off_fourteen g2, by rw [g1, one_mul]⟩

theorem measured_noTemp {f t : Str} {e : Nat} {k : Rat} (h : Measured w.fvf f t e k) : ¬ BuiltIn s!!"Temperature" f := by
  intro hb
  have hl : labelOf f = some 1 := by
    obtain ⟨n, h1, q, h2, h3⟩ := builtIn_label hb
    have : ∀ e ∈ kindLabels, e.1 = s!!"Temperature" → e.2 = 1 := by decide +kernel
    rw [h1]
    refine congrArg some (this (q, n) h2 ?_)
    split at h3
    · exact absurd h3 (by decide)
    · exact h3.symm
  have vol : ∀ {s : Rat}, ((f, s) ∈ volumeSizes ∨ (f, s) ∈ reservoirSizes) → False := by
    intro s hm
    have := (sized_volume hm).1.numbers.1
    rw [hl] at this
    exact absurd this (by decide)
  cases h with
  | standard h =>
    obtain ⟨l, sf, st, hl', mf, _, _⟩ := h
    exact (sized_label hl' _ mf).2.1 hl
  | pressure mf _ =>
    have := (builtIn_numbers (pressure_near _ mf).1).2.2.2.2.1 rfl
    rw [hl] at this
    exact absurd this (by decide)
  | volume mf _ => exact vol (Or.inl mf)
  | reservoir mf _ => exact vol (Or.inr mf)
  | shrinks _ mf _ => exact vol (Or.inr mf)
  | swells _ mf _ => exact vol (Or.inl mf)

variable {cs : List Call} {a b : Str} {e : Nat} {r : Rat}

theorem rates_ready (hw : Started w) (hg : 17 ≤ w.par.maxGenerations) (hφ : w.fvf ≠ some 0) (hcs : ∀ c ∈ cs, Asks c)
    (sa : ¬ Spec.SimpleName a) (ht : Beside (Measured w.fvf) (factors a) (factors b) e r) (hsw : ¬ Swapped a b)
    (hnr : ¬ Reach (LinkedName w.net) a b) (uc : Option Bool) (hm : uc.getD w.par.cache = false ∨ ∀ c ∈ cs, AsksNames w c) :
    Unfound (session cs w) uc a b ∧ (∀ f ∈ factors a, f.2 ≠ []) ∧ (∀ f ∈ factors b, f.2 ≠ []) ∧
      ∃ ks w2 E, PartsConvert uc (searchNetwork a b (session cs w)).2 (factors a) (factors b) ks w2 ∧ ks.prod = E * r ∧ Off e E := by
  have ht' := beside_mono (fun _ _ _ _ h => measured_nearIs hw hg hφ h) ht
  have fa : ∀ f ∈ factors a, f.2 ≠ [] := by
    intro f hf
    obtain ⟨t, d, k, h⟩ := (beside_mem ht').1 f hf
    exact h.1.2
  have fb : ∀ f ∈ factors b, f.2 ≠ [] := by
    intro f hf
    obtain ⟨t, d, k, h⟩ := (beside_mem ht').2 f hf
    exact h.2.1.2
  have sb : ¬ Spec.SimpleName b := by rw [simple_length, ← beside_length ht, ← simple_length]; exact sa
  have hT : ∀ f ∈ factors a, ¬ BuiltIn s!!"Temperature" f.2 := by
    intro f hf
    obtain ⟨t, d, k, h⟩ := (beside_mem ht).1 f hf
    exact measured_noTemp h
  refine ⟨unfound_ready hw hcs sa sb fa fb hT hsw hnr uc hm, fa, fb, ?_⟩
  rw [← session_search]
  exact parts_beside hw.fresh.wf ht' uc (asks_search hcs a b)

/-- C103. After `import unyts`, rates and other ratios and products with volumes convert by the sizes of their factors:
whatever was asked before, converting `x` from `a` to `b`, where each factor of `a` goes with the factor of `b` in its
place, returns `x` times the sizes of the numerators over those of the denominators, of `a` over `b`, to one part in a
million for each volume and to two where the formation volume factor is used. -/
theorem C103_rates (hw : Started w) (hg : 17 ≤ w.par.maxGenerations) (hφ : w.fvf ≠ some 0) (hcs : ∀ c ∈ cs, Asks c)
    (ca : CleanUnit a) (cb : CleanUnit b) (sa : ¬ Spec.SimpleName a) (ht : Beside (Measured w.fvf) (factors a) (factors b) e r)
    (he : e ≤ 100000) (hsw : ¬ Swapped a b) (hnr : ¬ Reach (LinkedName w.net) a b) (uc : Option Bool)
    (hm : uc.getD w.par.cache = false ∨ ∀ c ∈ cs, AsksNames w c) (x : Rat) :
    ∃ y, (convert (some x) (some a) (some b) uc (session cs w)).1 = .ok (some (.num y)) ∧ Close e y (x * r) := by
  obtain ⟨hu, fa, fb, ks, w2, E, h1, h2, h3⟩ := rates_ready hw hg hφ hcs sa ht hsw hnr uc hm
  refine ⟨_, convert_unfound_all (sound_of_reachable (hw.reachable hcs)) ca cb hu fa fb h1 x, close_of (E := E) (off_bound he h3) ?_⟩
  rw [h2]
  ring

/-- C103 for the question: `convertible` says yes the first time. -/
theorem C103_question_partial (hw : Started w) (hg : 17 ≤ w.par.maxGenerations) (hφ : w.fvf ≠ some 0)
    (hcs : ∀ c ∈ cs, AsksNames w c) (sa : ¬ Spec.SimpleName a) (ht : Beside (Measured w.fvf) (factors a) (factors b) e r)
    (hsw : ¬ Swapped a b) (hnr : ¬ Reach (LinkedName w.net) a b) (uc : Option Bool) :
    (convertible a b uc (session cs w)).1 = .ok true := by
  obtain ⟨hu, fa, fb, ks, w2, E, h1, _⟩ := rates_ready hw hg hφ (fun c hc => asksNames_asks (hcs c hc)) sa ht hsw hnr uc (Or.inr hcs)
  obtain ⟨w3, p, _, _, _, h⟩ := parts_asked hw hcs sa hu fa fb h1
  unfold convertible
  rw [h 1]
  rfl

/-- C103 fails the second time: asked again, `convertible` says no. -/
theorem C103_second_question_fails (hw : Started w) (hg : 17 ≤ w.par.maxGenerations) (hφ : w.fvf ≠ some 0)
    (hcs : ∀ c ∈ cs, AsksNames w c) (sa : ¬ Spec.SimpleName a) (ht : Beside (Measured w.fvf) (factors a) (factors b) e r)
    (hsw : ¬ Swapped a b) (hnr : ¬ Reach (LinkedName w.net) a b) (uc uc' : Option Bool) :
    (convertible a b uc (session cs w)).1 = .ok true ∧
      (convertible a b uc' (session (cs ++ [.convertible a b uc]) w)).1 = .ok false := by
  refine ⟨C103_question_partial hw hg hφ hcs sa ht hsw hnr uc, ?_⟩
  obtain ⟨hu, fa, fb, ks, w2, E, h1, _⟩ := rates_ready hw hg hφ (fun c hc => asksNames_asks (hcs c hc)) sa ht hsw hnr uc (Or.inr hcs)
  obtain ⟨w3, p, _, _, h3, h⟩ := parts_asked hw hcs sa hu fa fb h1
  rw [session_append]
  show (convertible a b uc' (convertible a b uc (session cs w)).2).1 = _
  have : (convertible a b uc (session cs w)).2 = w3 := by unfold convertible; rw [h 1]
  rw [this, convertible_tried h3]

end

section
variable {w0 : World} {L : Lib} {a b k : Str} {e : Nat} {r : Rat}

/-- C103 for quantities. After questions about single names, a quantity whose unit has several factors converts to another such
unit of its class: its value is multiplied by one number, which is right to `e` parts in a million, and the library multiplies
by that very number from then on. -/
theorem C103_quantity_partial (hw : Started w0) (hg : 17 ≤ w0.par.maxGenerations) (hφ : w0.fvf ≠ some 0) (hN : AskedNames w0 L)
    (sa : ¬ Spec.SimpleName a) (ca : CleanUnit a) (cb : CleanUnit b) (ht : Beside (Measured w0.fvf) (factors a) (factors b) e r)
    (he : e ≤ 100000) (hsw : ¬ Swapped a b) (hnr : ¬ Reach (LinkedName w0.net) a b) (hb : b ∈ L.names k) (x : Rat) :
    ∃ L' c, Close e c r ∧ Quantity.to ⟨.std k, a, x⟩ b L = (.ok (.qty ⟨.std k, b, x * c⟩), L') ∧ (Running w0 L → Running w0 L') ∧
      ∀ y, Quantity.to ⟨.std k, a, y⟩ b L' = (.ok (.qty ⟨.std k, b, y * c⟩), L') := by
  obtain ⟨hc, cs, hcs, eL⟩ := hN
  obtain ⟨hu, fa, fb, ks, w2, E, h1, h2, h3⟩ := rates_ready hw hg hφ (fun c hc => asksNames_asks (hcs c hc)) sa ht hsw hnr none (Or.inr hcs)
  obtain ⟨w', g1, g2, g3⟩ := to_asked hw hc hcs eL ca cb hu (parts_asked hw hcs sa hu fa fb h1) hb x
  exact ⟨_, _, close_of (E := E) (off_bound he h3) h2, g1, g2, g3⟩

/-- C103 fails for quantities after a question about the two units: the conversion raises. -/
theorem C103_after_question_fails (hw : Started w0) (hg : 17 ≤ w0.par.maxGenerations) (hφ : w0.fvf ≠ some 0) (hN : AskedNames w0 L)
    (sa : ¬ Spec.SimpleName a) (ht : Beside (Measured w0.fvf) (factors a) (factors b) e r)
    (hsw : ¬ Swapped a b) (hnr : ¬ Reach (LinkedName w0.net) a b) (x : Rat) :
    (libConvertible a b L).1 = .ok true ∧
      ((do let _ ← libConvertible a b; Quantity.to ⟨.std k, a, x⟩ b) L).1 = .error .wrongUnits := by
  obtain ⟨hc, cs, hcs, eL⟩ := hN
  obtain ⟨hu, fa, fb, ks, w2, E, h1, h2, h3⟩ := rates_ready hw hg hφ (fun c hc => asksNames_asks (hcs c hc)) sa ht hsw hnr none (Or.inr hcs)
  obtain ⟨w3, p, _, _, h3, h⟩ := parts_asked hw hcs sa hu fa fb h1
  have e1 : libConvertible a b L = (.ok true, { L with w := w3 }) := by
    unfold libConvertible onWorld convertible
    rw [eL, h 1]
    rfl
  refine ⟨by rw [e1], ?_⟩
  rw [PyM.run_bind_ok e1]
  exact to_tried (q := ⟨.std k, a, x⟩) rfl (by simp) h3

/-- C103 for quotients. After questions about single names, a volume divided by a time, or another two quantities with a class for
their ratio, gives a quantity of that class, which converts to other units of the same kinds by the sizes of the four units. -/
theorem C103_quotient_partial {p q a1 a2 b1 b2 : Str} {d1 d2 : Nat} {r1 r2 : Rat} (hw : Started w0) (hg : 17 ≤ w0.par.maxGenerations)
    (hφ : w0.fvf ≠ some 0) (hL : Operating w0 L) (hN : AskedNames w0 L) (hT : (p, q, k) ∈ ratioTable) (hd : divTo (.std p) (.std q) = none)
    (m1 : Measured w0.fvf a1 b1 d1 r1) (m2 : Measured w0.fvf a2 b2 d2 r2) (he : d1 + d2 ≤ 100000) (oa1 : OneName p a1) (oa2 : OneName q a2)
    (lb1 : ListedUnit p b1) (lb2 : ListedUnit q b2) (hr : ¬ Reach (LinkedName w0.net) a1 a2)
    (hn : ∀ k', BuiltIn k' (over a1 a2) → k' = k) (hsw : ¬ Swapped (over a1 a2) (over b1 b2))
    (hnr : ¬ Reach (LinkedName w0.net) (over a1 a2) (over b1 b2)) (x : Rat) {y : Rat} (hy : y ≠ 0) :
    ∃ c, Close (d1 + d2 : Nat) c (r1 / r2) ∧
      ((do let u ← units x a1; let v ← units y a2; let z ← Program.quantity (← u.div v); z.to (over b1 b2)) L).1 =
        .ok (.qty ⟨.std k, over b1 b2, x / y * c⟩) := by
  obtain ⟨⟨ca1, na1⟩, ⟨cb1, nb1⟩, _⟩ := measured_nearIs hw hg hφ m1
  obtain ⟨⟨ca2, na2⟩, ⟨cb2, nb2⟩, _⟩ := measured_nearIs hw hg hφ m2
  obtain ⟨L1, g1, h1⟩ := C100_class_partial hw hL oa1 oa2 hr hd hT hn x hy
  have hmem : over b1 b2 ∈ L1.names k := by
    obtain ⟨n, h, _⟩ := g1.1.1.2
    obtain ⟨l, hl, hm⟩ := (h.lists k (over b1 b2)).2 (Or.inl (Or.inr (composed_of_table (B := ListedUnit) hT lb1 lb2)))
    unfold Lib.names; rw [hl]; exact hm
  have hb : Beside (Measured w0.fvf) (factors (over a1 a2)) (factors (over b1 b2)) (d1 + (d2 + 0)) (r1 * (1 / r2)) := by
    rw [over_eq, over_eq, factors_ratio ca1.2 ca2.2, factors_ratio cb1.2 cb2.2]
    exact .num m1 (.den m2 .nil)
  obtain ⟨L2, c, hc, h2, -⟩ := C103_quantity_partial hw hg hφ (g1.2 hN) (fun h => h.1 (by simp [over]))
    (by rw [over_eq]; exact cleanUnit_ratio ca1 ca2 na1 na2 _ (Or.inl rfl))
    (by rw [over_eq]; exact cleanUnit_ratio cb1 cb2 nb1 nb2 _ (Or.inl rfl)) hb he hsw hnr hmem (x / y)
  refine ⟨c, by rw [mul_one_div] at hc; exact hc, ?_⟩
  rw [PyM.run_bind_ok (oa1.units hL x), PyM.run_bind_ok (oa2.units hL y)] at h1 ⊢
  rw [PyM.run_bind_ok h1]
  have e2 : (do let z ← Program.quantity (.qty ⟨.std k, over a1 a2, x / y⟩); z.to (over b1 b2)) L1 =
      Quantity.to ⟨.std k, over a1 a2, x / y⟩ (over b1 b2) L1 := rfl
  rw [e2, h2]

end

/-! ### concrete cases -/

/-- Barrels per day in cubic meters per day: both units are in the network, without a path between them. Before and after other
questions, `convert` returns 0.158987 for one, to one part in a million. -/
example (w : World) (hw : Started w) (hc : w.par.cache = true) (hg : 17 ≤ w.par.maxGenerations) (hφ : w.fvf ≠ some 0) (uc : Option Bool)
    (x : Rat) : ∃ y, (convert (some x) (some s!!"stb/day") (some s!!"sm3/day") uc (session [.convertible s!!"ft" s!!"m" none] w)).1 =
      .ok (some (.num y)) ∧ Close 1 y (x * (barrel / 1000)) := by
  have := C103_rates hw hg hφ (cs := [.convertible s!!"ft" s!!"m" none]) (by simp [Asks])
    (a := s!!"stb/day") (b := s!!"sm3/day") (cleanUnit_of (by decide)) (cleanUnit_of (by decide)) (fun h => h.1 (by decide))
    (.num (.volume (sf := barrel) (st := 1000) (by decide +kernel) (by decide +kernel))
      (.den (.standard ⟨standardSizes[1], 86400, 86400, Or.inl (List.getElem_mem _), by decide +kernel, by decide +kernel, rfl⟩) .nil))
    (by norm_num) (not_swapped (by decide)) (apart_of_island hw.shipped.network (by decide +kernel)) uc (Or.inr ?_) x
  · obtain ⟨y, h1, h2⟩ := this
    refine ⟨y, h1, ?_⟩
    rw [show (x * (barrel / 1000) : Rat) = x * (barrel / 1000 * (1 / (86400 / 86400))) by ring]
    exact h2
  · intro c hm
    rw [List.mem_singleton.1 hm]
    exact ⟨⟨by decide, by decide⟩, ⟨by decide, by decide⟩, hc⟩

/-- 90 barrels in 3 days, in standard cubic meters per hour, with a formation volume factor of 6/5 and without; and 90 reservoir
barrels in 3 days, in stock tank cubic meters per hour: the oil shrinks. -/
example : ∃ w L, Started w ∧ Operating w L ∧ AskedNames w L ∧
    (∃ c, Close 1 c (barrel / 1000 / 24) ∧
      ((do let u ← units 90 s!!"stb"; let v ← units 3 s!!"day"; let z ← Program.quantity (← u.div v); z.to s!!"sm3/hour") L).1 =
        .ok (.qty ⟨.std s!!"Rate", s!!"sm3/hour", 30 * c⟩)) ∧
    (∃ y, (convert (some 30) (some s!!"rb/day") (some s!!"sm3/hour") none w).1 = .ok (some (.num y)) ∧
      Close 2 y (30 * (barrel / 1000 / (6 / 5) / 24))) ∧
    (∃ y, (convert (some 30) (some s!!"rb/day/psi") (some s!!"rem3/hour/bar") none w).1 = .ok (some (.num y)) ∧
      Close 2 y (30 * (barrel / 1000 / 24 * (100000 / psiSize)))) := by
  obtain ⟨w, hw, hp, hf⟩ := started_fvf
  obtain ⟨L, e, hL⟩ := hw.operating
  have hN : AskedNames w L := ⟨by rw [hp], [], by simp, e⟩
  have hg : 17 ≤ w.par.maxGenerations := by rw [hp]; decide
  have hφ : w.fvf ≠ some 0 := by rw [hf]; norm_num
  have day : Measured w.fvf s!!"day" s!!"hour" 0 (86400 / 3600) :=
    .standard ⟨standardSizes[1], 86400, 3600, Or.inl (List.getElem_mem _), by decide +kernel, by decide +kernel, rfl⟩
  refine ⟨w, L, hw, hL, hN, ?_, ?_, ?_⟩
  · have hn : ∀ k', BuiltIn k' (over s!!"stb" s!!"day") → k' = s!!"Rate" :=
      fun k' hk => onlyIn_iff (by decide +kernel) hk
    obtain ⟨c, h1, h2⟩ := C103_quotient_partial hw hg hφ hL hN (k := s!!"Rate") (by decide) rfl
      (.volume (sf := barrel) (st := 1000) (by decide +kernel) (by decide +kernel)) day (by norm_num) stb_name day_name
      (b1 := s!!"sm3") (b2 := s!!"hour") ⟨builtIn_mem (by decide +kernel) (by decide), by decide +kernel⟩ ⟨builtIn_mem (by decide +kernel) (by decide), by decide +kernel⟩
      (stb_day_apart hw.shipped.network).1 hn (not_swapped (by decide))
      (apart_of_island hw.shipped.network (by decide +kernel)) 90 (y := 3) (by norm_num)
    refine ⟨c, ?_, ?_⟩
    · norm_num [Close, div_div] at h1 ⊢
      exact h1
    · refine h2.trans ?_
      norm_num [over]
  · obtain ⟨y, h1, h2⟩ := C103_rates hw hg hφ (cs := []) (by simp) (a := s!!"rb/day") (b := s!!"sm3/hour")
      (cleanUnit_of (by decide)) (cleanUnit_of (by decide)) (fun h => h.1 (by decide))
      (.num (.shrinks hf (sf := barrel) (st := 1000) (by decide +kernel) (by decide +kernel)) (.den day .nil))
      (by norm_num) (not_swapped (by decide)) (apart_of_unknown hw.shipped.network (by decide) (by decide +kernel)) none (Or.inr (by simp)) 30
    refine ⟨y, h1, ?_⟩
    rw [show (30 * (barrel / 1000 / (6 / 5) / 24) : Rat) = 30 * (barrel / 1000 / (6 / 5) * (1 / (86400 / 3600))) by ring]
    exact h2
  · obtain ⟨y, h1, h2⟩ := C103_rates hw hg hφ (cs := []) (by simp) (a := s!!"rb/day/psi") (b := s!!"rem3/hour/bar")
      (cleanUnit_of (by decide)) (cleanUnit_of (by decide)) (fun h => h.1 (by decide))
      (.num (.reservoir (sf := barrel) (st := 1000) (by decide +kernel) (by decide +kernel)) (.den day
        (.den (.pressure (sf := psiSize) (st := 100000) (by decide +kernel) (by decide +kernel)) .nil)))
      (by norm_num) (not_swapped (by decide)) (apart_of_unknown hw.shipped.network (by decide) (by decide +kernel)) none (Or.inr (by simp)) 30
    refine ⟨y, h1, ?_⟩
    rw [show (30 * (barrel / 1000 / 24 * (100000 / psiSize)) : Rat) =
      30 * (barrel / 1000 * (1 / (psiSize / 100000) / (86400 / 3600))) by field_simp; ring]
    exact h2

end Unyts

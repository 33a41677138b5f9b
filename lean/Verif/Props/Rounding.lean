import Verif.Props.Division
import Verif.Model.QuantityOps
import Verif.Spec.Rounding
import Mathlib.Tactic.Linarith
import Mathlib.Tactic.FieldSimp

/-! C84, C85: rounding quantities, and comparing them up to rounding (`unit_class.py`). -/
namespace Unyts
open Spec Quantity

/-! ### C84: rounding -/

theorem pyRound_rounds (x : Rat) (n : Int) : RoundedTo n x (pyRound x n) := by
  have hp : (0 : Rat) < (10 : Rat) ^ (-n) := zpow_pos (by norm_num) _
  have hx : x = (x * (10 : Rat) ^ n) * (10 : Rat) ^ (-n) := by
    rw [mul_assoc, ← zpow_add₀ (by norm_num)]; simp
  have h1 : ((x * (10 : Rat) ^ n).floor : Rat) ≤ x * (10 : Rat) ^ n := Rat.floor_le _
  have h2 : x * (10 : Rat) ^ n < ((x * (10 : Rat) ^ n).floor : Rat) + 1 := by
    have := Rat.lt_floor_add_one (x * (10 : Rat) ^ n); push_cast at this; exact this
  unfold pyRound RoundedTo
  simp only
  generalize x * (10 : Rat) ^ n = y at *
  generalize (10 : Rat) ^ (-n) = t at *
  subst hx
  have hab : ∀ z : Rat, |y * t - z * t| = |y - z| * t := fun z => by rw [← sub_mul, abs_mul, abs_of_pos hp]
  split
  · refine ⟨_, rfl, ?_, ?_⟩ <;> rw [hab, abs_of_nonneg (by linarith)]
    · nlinarith
    · intro h; exfalso; nlinarith
  · split
    · refine ⟨_, rfl, ?_, ?_⟩ <;> rw [hab, abs_of_nonpos (by push_cast; linarith)] <;> push_cast
      · nlinarith
      · intro h; exfalso; nlinarith
    · have he : y - (y.floor : Rat) = 1 / 2 := by linarith
      split
      · refine ⟨_, rfl, ?_, fun _ => by assumption⟩
        rw [hab, he, abs_of_nonneg (by norm_num)]; linarith
      · refine ⟨_, rfl, ?_, fun _ => by omega⟩
        have : y - ((y.floor + 1 : Int) : Rat) = -(1 / 2) := by push_cast; linarith
        rw [hab, this, abs_of_nonpos (by norm_num)]; linarith

/-- C84. There is only one number that is `x` rounded: the specification says which. -/
theorem C84_unique (n : Int) (x y z : Rat) (hy : RoundedTo n x y) (hz : RoundedTo n x z) : y = z := by
  obtain ⟨k, rfl, h1, h2⟩ := hy
  obtain ⟨m, rfl, h3, h4⟩ := hz
  have hp : (0 : Rat) < (10 : Rat) ^ (-n) := zpow_pos (by norm_num) _
  have hx : x = (x / (10 : Rat) ^ (-n)) * (10 : Rat) ^ (-n) := by field_simp
  generalize x / (10 : Rat) ^ (-n) = y at *
  generalize (10 : Rat) ^ (-n) = t at *
  subst hx
  have hab : ∀ z : Rat, |y * t - z * t| = |y - z| * t := fun z => by rw [← sub_mul, abs_mul, abs_of_pos hp]
  rw [hab] at h1 h2 h3 h4
  have g1 : 2 * |y - k| ≤ 1 := by nlinarith
  have g3 : 2 * |y - m| ≤ 1 := by nlinarith
  have g2 : 2 * |y - k| = 1 → k % 2 = 0 := fun h => h2 (by rw [← mul_assoc, h, one_mul])
  have g4 : 2 * |y - m| = 1 → m % 2 = 0 := fun h => h4 (by rw [← mul_assoc, h, one_mul])
  by_cases e : k = m
  · rw [e]
  exfalso
  have b1 := abs_le.1 (show |y - k| ≤ 1 / 2 by linarith)
  have b3 := abs_le.1 (show |y - m| ≤ 1 / 2 by linarith)
  rcases lt_or_gt_of_ne e with h | h
  · have hh : (k : Rat) + 1 ≤ m := by exact_mod_cast h
    have hk : y - k = 1 / 2 := by linarith
    have hm : y - m = -(1 / 2) := by linarith
    have e1 := g2 (by rw [hk, abs_of_nonneg (by norm_num)]; norm_num)
    have e2 := g4 (by rw [hm, abs_of_nonpos (by norm_num)]; norm_num)
    have : (m : Rat) = ((k + 1 : Int) : Rat) := by push_cast; linarith
    have : m = k + 1 := by exact_mod_cast this
    omega
  · have hh : (m : Rat) + 1 ≤ k := by exact_mod_cast h
    have hm : y - m = 1 / 2 := by linarith
    have hk : y - k = -(1 / 2) := by linarith
    have e1 := g4 (by rw [hm, abs_of_nonneg (by norm_num)]; norm_num)
    have e2 := g2 (by rw [hk, abs_of_nonpos (by norm_num)]; norm_num)
    have : (k : Rat) = ((m + 1 : Int) : Rat) := by push_cast; linarith
    have : k = m + 1 := by exact_mod_cast this
    omega

theorem roundedTo_again {n : Int} {x y : Rat} (h : RoundedTo n x y) : RoundedTo n y y := by
  obtain ⟨k, e, _⟩ := h
  have hp : (0 : Rat) < (10 : Rat) ^ (-n) := zpow_pos (by norm_num) _
  exact ⟨k, e, by rw [sub_self, abs_zero, mul_zero]; exact hp.le, by rw [sub_self, abs_zero, mul_zero]; exact fun h => absurd h hp.ne⟩

theorem rounds_significant (x : Rat) (p : Int) (hp : p < 0) : SignificantDigits (-p).toNat x (roundNum x p) := by
  unfold roundNum
  rw [if_neg (by omega)]
  have hd : (((-p).toNat : Int)) = -p := by omega
  split
  · exact Or.inl ⟨by assumption, rfl⟩
  · next h0 =>
    refine Or.inr ⟨Int.log 10 (if x < 0 then -x else x), ?_, ?_, ?_⟩
    · have hpos : (0 : Rat) < (if x < 0 then -x else x) := by
        split <;> [linarith; exact lt_of_le_of_ne (not_lt.1 (by assumption)) (Ne.symm h0)]
      have := Int.zpow_log_le_self (b := 10) (by norm_num) hpos
      have e : (if x < 0 then -x else x) = |x| := by
        split <;> [rw [abs_of_neg (by assumption)]; rw [abs_of_nonneg (not_lt.1 (by assumption))]]
      rw [e] at this ⊢
      exact_mod_cast this
    · have := Int.lt_zpow_succ_log_self (R := Rat) (b := 10) (by norm_num) (if x < 0 then -x else x)
      have e : (if x < 0 then -x else x) = |x| := by
        split <;> [rw [abs_of_neg (by assumption)]; rw [abs_of_nonneg (not_lt.1 (by assumption))]]
      rw [e] at this ⊢
      exact_mod_cast this
    · rw [hd]; exact pyRound_rounds _ _

/-- C84. `q.round(n)` of a quantity that is not a percentage has the number rounded to `n` decimals, or for a negative
`n` to `-n` significant digits, and the unit; `round(q, n)` keeps the class too. Missing: percentages,
`C84_percent_fails`. -/
theorem C84_round_partial (L L' : Lib) (q r : Quantity) (n : Int) (hq : q.kind ≠ .percentage) (h : q.rounded n L = (.ok r, L')) :
    (0 ≤ n → RoundedTo n (shown q) (shown r)) ∧ (n < 0 → SignificantDigits (-n).toNat (shown q) (shown r)) ∧
      ('\\' ∉ q.unit → r.unit = Py.stripWs q.unit) := by
  unfold rounded at h
  have e : shown q = q.value := by simp [shown, hq]
  rw [shown_units h, e]
  refine ⟨fun h0 => ?_, fun h0 => rounds_significant _ _ h0, fun hb => unit_units hb h⟩
  unfold roundNum
  rw [if_pos h0]
  exact pyRound_rounds _ _

/-- C84, the function `round`. -/
theorem C84_builtin_partial (L : Lib) (q : Quantity) (n : Int) (hq : q.kind ≠ .percentage) (hv : Valid L q) :
    ∃ r, q.roundTo n L = (.ok r, L) ∧ r.kind = q.kind ∧ r.unit = q.unit ∧ RoundedTo n (shown q) (shown r) := by
  refine ⟨⟨q.kind, q.unit, pyRound q.value n⟩, ?_, rfl, rfl, ?_⟩
  · unfold roundTo; rw [construct_valid hv, if_neg hq]
  · simp only [shown, hq, if_false]; exact pyRound_rounds _ _

/-- C84: rounding a second time changes nothing. -/
theorem C84_again_partial (L : Lib) (q r : Quantity) (n : Int) (hq : q.kind ≠ .percentage) (hv : Valid L q)
    (h : q.roundTo n L = (.ok r, L)) : r.roundTo n L = (.ok r, L) := by
  have e : r = ⟨q.kind, q.unit, pyRound q.value n⟩ := by
    unfold roundTo at h
    rw [construct_valid hv, if_neg hq] at h
    cases h; rfl
  subst e
  have hv' : Valid L ⟨q.kind, q.unit, pyRound q.value n⟩ := hv
  unfold roundTo
  rw [construct_valid hv', if_neg hq]
  have := C84_unique n _ _ _ (pyRound_rounds (pyRound q.value n) n) (roundedTo_again (pyRound_rounds q.value n))
  simp only [this]

example : ((⟨.std s!!"Length", s!!"ft", 2345/1000⟩ : Quantity).rounded 2 Demo.lib).1 = .ok ⟨.std s!!"Length", s!!"ft", 234/100⟩ ∧
    ((⟨.std s!!"Length", s!!"ft", 2345/1000⟩ : Quantity).roundTo 1 Demo.lib).1 = .ok ⟨.std s!!"Length", s!!"ft", 23/10⟩ ∧
    ((⟨.std s!!"Length", s!!"ft", 123456⟩ : Quantity).rounded (-2) Demo.lib).1 = .ok ⟨.std s!!"Length", s!!"ft", 120000⟩ := by
  decide +kernel

/-- C84 is false of percentages, as long as their unit is listed under them first: 55 % rounded to one decimal of the
percentage or of the fraction is 0.6 %: the fraction is rounded and its value taken as the percentage. -/
theorem C84_percent_fails : Valid Demo.lib ⟨.percentage, s!!"%", 55/100⟩ ∧
    ((⟨.percentage, s!!"%", 55/100⟩ : Quantity).rounded 1 Demo.lib).1 = .ok ⟨.percentage, s!!"%", 6/1000⟩ ∧
    ((⟨.percentage, s!!"%", 55/100⟩ : Quantity).roundTo 1 Demo.lib).1 = .ok ⟨.percentage, s!!"%", 6/1000⟩ := by
  decide +kernel

/-! ### C85: equality up to rounding -/

/-- the class and unit that `units` gives to a unit whose first list is that of the class `k` -/
theorem units_class {L L' : Lib} {v : Rat} {u : Str} {k : Kind} {r : Quantity} (hb : '\\' ∉ u) (hs : Py.stripWs u = u)
    (hk : kindOf k.key = .ok k) (hun : u ∉ L.w.dic.uncertain) {l : List Str}
    (hf : (L.dict.find? fun e => u ∈ e.2) = some (k.key, l)) (h : units v u L = (.ok r, L')) :
    r.kind = k ∧ r.unit = u := by
  refine ⟨?_, by rw [unit_units hb h, hs]⟩
  unfold units unitsNamed at h
  rw [PyM.run_bind_ok (PyM.run_get _)] at h
  simp only [hs] at h
  rw [if_neg hun, hf] at h
  simp only [Option.isSome_none, Bool.false_eq_true, if_false] at h
  obtain ⟨s, L2, h2, g1⟩ := PyM.bind_ok h
  obtain ⟨k', L3, h3, g2⟩ := PyM.bind_ok g1
  obtain ⟨c, L4, h4, g3⟩ := PyM.bind_ok g2
  have hkk : k' = k := by
    unfold PyM.lift at h3
    rw [hk] at h3
    have := (Prod.mk.inj h3).1
    injection this with this
    exact this.symm
  subst hkk
  obtain ⟨e1, _⟩ := construct_ok h4
  cases g3
  exact e1

/-- C85 is false without a precision: `equals` never answers, whatever the quantities. -/
theorem C85_default_fails (L : Lib) (p q : Quantity) (x : Rat) : (∃ e, (p.equals q none L).1 = .error e) ∧
    (p.equalsNum x none L).1 = .error .typeError := by
  refine ⟨?_, rfl⟩
  unfold equals
  cases h : p.compare .eq q L with
  | mk r L1 =>
    cases r with
    | error e => exact ⟨e, by simp only; rw [PyM.run_bind_error h]⟩
    | ok b => exact ⟨.typeError, by simp only; rw [PyM.run_bind_ok h]; rfl⟩

/-- C85. `p.equals(q, n)` compares the two amounts in the unit of `p`, rounded: here for the classes of units, for a
unit whose first list is that of the class. Missing: no precision (`C85_default_fails`), percentages and numbers
(`C85_percent_fails`). -/
theorem C85_rounds_partial (L L' : Lib) (B : Str → Rat → Rat) (p q : Quantity) (n : Int) (b : Bool) (c : Str) (hc : p.kind = .std c)
    (hcv : ConvertsAs L.w B q.unit p.unit) (hpp : ConvertsAs L.w B p.unit p.unit) (inj : ∀ x y, B p.unit x = B p.unit y → x = y)
    (hb : '\\' ∉ p.unit) (hs : Py.stripWs p.unit = p.unit) (hk : kindOf c = .ok (.std c)) (hun : p.unit ∉ L.w.dic.uncertain)
    (l : List Str) (hf : (L.dict.find? fun e => p.unit ∈ e.2) = some (c, l)) (h : p.equals q (some n) L = (.ok b, L')) :
    ∃ y, B p.unit y = B q.unit q.value ∧ b = decide (roundNum p.value n = roundNum y n) := by
  unfold equals at h
  simp only at h
  split at h
  · next hkk =>
    obtain ⟨a, L1, h1, h⟩ := PyM.bind_ok h
    have l1 : Later L L1 := by have := Asking.units (roundNum p.value n) p.unit L; unfold rounded at h1; rw [h1] at this; exact this
    obtain ⟨o, L2, h2, h⟩ := PyM.bind_ok h
    have l2 : Later L1 L2 := by have := Asking.to q p.unit L1; rw [h2] at this; exact this
    obtain ⟨y, rfl, hy⟩ := to_ok l1 c (hkk ▸ hc) hcv h2
    refine ⟨y, hy, ?_⟩
    simp only at h
    obtain ⟨d, L3, h3, h⟩ := PyM.bind_ok h
    unfold rounded at h1 h3
    have l3 : Later L2 L3 := by have := Asking.units (roundNum y n) p.unit L2; simp only at h3; rw [h3] at this; exact this
    obtain ⟨ak, au⟩ := units_class hb hs (k := .std c) hk hun hf h1
    have du : d.unit = p.unit := by rw [unit_units hb h3]; exact hs
    have av : a.value = roundNum p.value n := by have := shown_units h1; simpa [shown, ak] using this
    obtain ⟨z, hz, hb'⟩ := compare_reads ((l1.trans l2).trans l3) (B := B) c ak (by rw [au, du]; exact hpp) h
    have dk : d.kind = .std c := by
      unfold Quantity.compare at h
      split at h
      · next hh => rw [← hh]; exact ak
      · cases h
    have dv : d.value = roundNum y n := by have := shown_units h3; simpa [shown, dk] using this
    rw [au, du] at hz
    rw [hb', inj _ _ hz, av, dv]
    rfl
  · cases h

/-- C85. What is equal is equal up to rounding, and what is equal up to `n` decimals differs by at most one unit of the
last. -/
theorem C85_close_partial (L L' : Lib) (B : Str → Rat → Rat) (p q : Quantity) (n : Int) (b : Bool) (c : Str) (hc : p.kind = .std c)
    (hcv : ConvertsAs L.w B q.unit p.unit) (hpp : ConvertsAs L.w B p.unit p.unit) (inj : ∀ x y, B p.unit x = B p.unit y → x = y)
    (hb : '\\' ∉ p.unit) (hs : Py.stripWs p.unit = p.unit) (hk : kindOf c = .ok (.std c)) (hun : p.unit ∉ L.w.dic.uncertain)
    (l : List Str) (hf : (L.dict.find? fun e => p.unit ∈ e.2) = some (c, l)) (h : p.equals q (some n) L = (.ok b, L')) :
    (B p.unit p.value = B q.unit q.value → b = true) ∧
    (0 ≤ n → b = true → ∃ y, B p.unit y = B q.unit q.value ∧ |p.value - y| ≤ (10 : Rat) ^ (-n)) := by
  obtain ⟨y, hy, rfl⟩ := C85_rounds_partial L L' B p q n b c hc hcv hpp inj hb hs hk hun l hf h
  constructor
  · intro he
    rw [inj _ _ (he.trans hy.symm)]
    simp
  · intro h0 he
    refine ⟨y, hy, ?_⟩
    have e : pyRound p.value n = pyRound y n := by
      have := of_decide_eq_true he
      unfold roundNum at this
      rwa [if_pos h0, if_pos h0] at this
    obtain ⟨k, e1, a1, _⟩ := pyRound_rounds p.value n
    obtain ⟨m, e2, a2, _⟩ := pyRound_rounds y n
    rw [e] at a1
    have : |p.value - y| ≤ |p.value - pyRound y n| + |y - pyRound y n| := by
      rw [abs_sub_comm y]; exact abs_sub_le _ _ _
    linarith

example : ((⟨.std s!!"Length", s!!"ft", 1001/1000⟩ : Quantity).equals ⟨.std s!!"Length", s!!"yd", 1/3⟩ (some 2) Demo.lib).1 = .ok true ∧
    ((⟨.std s!!"Length", s!!"ft", 1001/1000⟩ : Quantity).equals ⟨.std s!!"Length", s!!"yd", 1/3⟩ (some 3) Demo.lib).1 = .ok false ∧
    ConvertsAs Demo.lib.w (inSize Demo.sizeOf) s!!"yd" s!!"ft" ∧ ConvertsAs Demo.lib.w (inSize Demo.sizeOf) s!!"ft" s!!"ft" := by
  exact ⟨by decide +kernel, by decide +kernel, Demo.converts_lib Demo.clean_yd Demo.clean_ft,
    Demo.converts_lib Demo.clean_ft Demo.clean_ft⟩

/-- C85 is false of a percentage and a number: 50 % equals 0.5, and does not up to one decimal. -/
theorem C85_percent_fails : (⟨.percentage, s!!"%", 1/2⟩ : Quantity).compareNum .eq (1/2) = true ∧
    ((⟨.percentage, s!!"%", 1/2⟩ : Quantity).equalsNum (1/2) (some 1) Demo.lib).1 = .ok false := by decide +kernel

end Unyts

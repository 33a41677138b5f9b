import Verif.Props.Arithmetic
import Verif.Props.Library
import Verif.Lemmas.Sizes
import Verif.Props.Strings
import Verif.Model.QuantityOps

/-! C82 - C84: powers and inverses of quantities, `@`, rounding (`unit_class.py`). -/
namespace Unyts
open Spec Quantity

/-! ### C82: powers and inverses -/

theorem pow_int_is (k : Int) (n : Int) : (Pow.int k).is n = decide (k = n) := by
  unfold Pow.is Pow.toRat
  by_cases h : k = n
  · subst h; simp
  · simp [h]

/-- C82. A quantity in a unit `u`, or in a power `k` of it, to the power `n`: the number is raised to `n`, the unit is `u`
to the power `k * n`, and the class is the one that `units` gives to that unit. Percentages are `C82_percent`, the power
0 is `C82_zero_fails`. -/
theorem C82_power_partial (L : Lib) (q : Quantity) (u : Str) (k n : Int) (h : BareName u) (hq : q.kind ≠ .percentage)
    (hu : q.unit = u ∧ k = 1 ∨ q.unit = withPower u k) (hkn : k * n ≠ 0) (h0 : 0 ≤ n ∨ q.value ≠ 0) :
    q.powInt n L = units (q.value ^ n) (powerName u (k * n)) L := by
  have hb : unitBasePower q.unit = .ok (u, .int k) := by
    rcases hu with ⟨h1, rfl⟩ | h1
    · rw [h1]; exact unitBasePower_bare h
    · rw [h1]; exact unitBasePower_power h k
  have hp : ratPow q.value (.int n) = .ok (q.value ^ n) := by
    show (if n < 0 ∧ q.value = 0 then _ else _) = _
    rw [if_neg (by rintro ⟨a, b⟩; rcases h0 with h0 | h0; omega; exact h0 b)]
  unfold powInt
  rw [if_neg hq, PyM.run_bind_ok (PyM.run_get _), hb, PyM.run_bind_ok (PyM.run_lift_ok _ _)]
  show (PyM.lift _ >>= _) L = _
  rw [hp, PyM.run_bind_ok (PyM.run_lift_ok _ _)]
  simp only [Pow.mul, pow_int_is, decide_eq_true_eq, if_neg hkn, powerName]
  split
  · rfl
  · rfl

/-- C82: zero to a negative power raises ZeroDivisionError. -/
theorem C82_zero_division (L : Lib) (q : Quantity) (u : Str) (k n : Int) (h : BareName u) (hq : q.kind ≠ .percentage)
    (hu : q.unit = u ∧ k = 1 ∨ q.unit = withPower u k) (hn : n < 0) (h0 : q.value = 0) :
    q.powInt n L = (.error .zeroDivision, L) ∧ q.rdivNum n L = (.error .zeroDivision, L) := by
  have hb : unitBasePower q.unit = .ok (u, .int k) := by
    rcases hu with ⟨h1, rfl⟩ | h1
    · rw [h1]; exact unitBasePower_bare h
    · rw [h1]; exact unitBasePower_power h k
  constructor
  · unfold powInt
    rw [if_neg hq, PyM.run_bind_ok (PyM.run_get _), hb, PyM.run_bind_ok (PyM.run_lift_ok _ _)]
    show (PyM.lift _ >>= _) L = _
    have hp : ratPow q.value (.int n) = .error .zeroDivision := if_pos ⟨hn, h0⟩
    rw [hp]; rfl
  · unfold rdivNum
    have hp : pdiv (n : Rat) q.value = .error .zeroDivision := by unfold pdiv; rw [if_pos h0]
    rw [hp]; rfl

/-- C82. The square of a quantity in a named unit is its product with itself. -/
theorem C82_square (L : Lib) (q : Quantity) (hq : q.unitless = false) (ha : BasicName q.unit)
    (ua : isUnitless L.unitless q.unit = false) (hd : 1 ≤ L.depth) : q.powInt 2 L = q.mulBase q L := by
  obtain ⟨d, hd'⟩ : ∃ d, L.depth = d + 1 := ⟨L.depth - 1, by omega⟩
  have hk : q.kind ≠ .percentage := by intro h; simp [unitless, h] at hq
  have hprod : libProduct q.unit q.unit L = (.ok (q.unit ++ ['2']), L) := by
    unfold libProduct
    rw [hd']
    exact C37_square L.unitless L.sf libConvertible d q.unit ha ua L
  obtain ⟨n1, n2⟩ := notUnitless hq hq
  rw [C82_power_partial L q q.unit 1 2 ha.1 hk (Or.inl ⟨rfl, rfl⟩) (by omega) (Or.inl (by omega))]
  unfold mulBase
  rw [n1, n2, if_neg (by simp), if_neg (by simp), if_neg (by simp [hq]), if_pos rfl, PyM.run_bind_ok hprod]
  have e : (q.value ^ (2 : Int) : Rat) = q.value * q.value := by
    rw [show (2 : Int) = ((2 : Nat) : Int) from rfl, zpow_natCast]; ring
  rw [e]
  rfl

/-- C82. A number over a quantity in a named unit: the number is divided and the unit is the inverse; it is the number
times the power -1 of the quantity. Missing: units with a power, `C82_inverse_fails`. -/
theorem C82_inverse_partial (L : Lib) (q : Quantity) (x : Rat) (ha : BareName q.unit) (hq : q.unitless = false)
    (h0 : q.value ≠ 0) :
    q.rdivNum x L = units (x / q.value) (withPower q.unit (-1)) L ∧
      q.powInt (-1) L = units (1 / q.value) (withPower q.unit (-1)) L := by
  have hk : q.kind ≠ .percentage := by intro h; simp [unitless, h] at hq
  have hk2 : q.kind ≠ .dimensionless := by intro h; simp [unitless, h] at hq
  constructor
  · unfold rdivNum
    rw [PyM.run_bind_ok (a := x / q.value) (s' := L) (by unfold PyM.lift pdiv; rw [if_neg h0]), if_neg hk, if_neg hk2]
    rfl
  · rw [C82_power_partial L q q.unit 1 (-1) ha hk (Or.inl ⟨rfl, rfl⟩) (by omega) (Or.inr h0)]
    have e : (q.value ^ (-1 : Int) : Rat) = 1 / q.value := by rw [zpow_neg_one, one_div]
    rw [e]
    rfl

/-- C82. Percentages and numbers without unit: powers and inverses are those of the fraction. -/
theorem C82_percent (L : Lib) (q : Quantity) (hq : q.kind = .percentage) (hv : Valid L q) (n : Int)
    (h0 : 0 ≤ n ∨ q.value ≠ 0) :
    q.powInt n L = (.ok ⟨.percentage, q.unit, q.value ^ n⟩, L) ∧
    ∀ x r L', q.value ≠ 0 → q.rdivNum x L = (.ok r, L') → shown r = 100 * (x / q.value) := by
  have hp : ratPow q.value (.int n) = .ok (q.value ^ n) := by
    show (if n < 0 ∧ q.value = 0 then _ else _) = _
    rw [if_neg (by rintro ⟨a, b⟩; rcases h0 with h0 | h0; omega; exact h0 b)]
  constructor
  · unfold powInt
    rw [if_pos hq, hp, PyM.run_bind_ok (PyM.run_lift_ok _ _), construct_valid hv, if_pos hq, hq]
    simp
  · intro x r L' hv0 hr
    unfold rdivNum at hr
    rw [PyM.run_bind_ok (a := x / q.value) (s' := L) (by unfold PyM.lift pdiv; rw [if_neg hv0]), if_pos hq] at hr
    rw [shown_units hr]; ring

/-- a quantity without power over itself, as the demos have them -/
example : BareName s!!"ft" ∧ BasicName s!!"ft" ∧ isUnitless Demo.lib.unitless s!!"ft" = false ∧
    ((⟨.std s!!"Length", s!!"ft", 3⟩ : Quantity).powInt 2 Demo.lib).1 = .ok ⟨.user, s!!"ft2", 9⟩ ∧
    ((⟨.user, s!!"ft2", 9⟩ : Quantity).powInt (-2) Demo.lib).1 = .ok ⟨.user, s!!"ft-4", 1/81⟩ ∧
    ((⟨.std s!!"Length", s!!"ft", 4⟩ : Quantity).rdivNum 3 Demo.lib).1 = .ok ⟨.user, s!!"ft-1", 3/4⟩ ∧
    ((⟨.percentage, s!!"%", 1/2⟩ : Quantity).powInt 2 Demo.lib).1 = .ok ⟨.percentage, s!!"%", 1/4⟩ := by
  refine ⟨by unfold BareName; decide +kernel, by unfold BasicName BareName PlainName; decide +kernel, by decide +kernel,
    by decide +kernel, by decide +kernel, by decide +kernel, by decide +kernel⟩

/-- C82 is false of a number over a power of a unit: `1 / q` of square feet is in `ft2-1`, which the library cannot read
afterwards: its square raises ValueError; `q ** -1` is in `ft-2`. -/
theorem C82_inverse_fails :
    (let q : Quantity := ⟨.user, s!!"ft2", 4⟩
     (q.rdivNum 1 Demo.lib).1 = .ok ⟨.user, s!!"ft2-1", 1/4⟩ ∧
     (q.powInt (-1) Demo.lib).1 = .ok ⟨.user, s!!"ft-2", 1/4⟩ ∧
     ((⟨.user, s!!"ft2-1", 1/4⟩ : Quantity).powInt 2 Demo.lib).1 = .error .valueError) := by decide +kernel

/-- C82 is false of an exponent given as a number without unit: three feet to the power of Dimensionless(2) are nine
feet, not nine square feet, for every quantity. -/
theorem C82_exponent_fails (L : Lib) (p q : Quantity) (hp : p.unitless = false) (hq : q.kind = .dimensionless)
    (hv : Valid L p) (n : Nat) (hn : q.value = n) :
    p.pow q L = (.ok ⟨p.kind, p.unit, p.value ^ n⟩, L) := by
  have hk : p.kind ≠ .percentage := by intro h; simp [unitless, h] at hp
  have hqu : q.unitless = true := by simp [unitless, hq]
  have e : powNum p.value q.value = .ok (p.value ^ n) := by
    rw [hn]
    have hd : (n : Rat).den = 1 := Rat.den_natCast n
    have hm : (n : Rat).num = n := Rat.num_natCast n
    show (if (n : Rat).den ≠ 1 then Except.error PyErr.notImplemented
      else if (n : Rat).num < 0 ∧ p.value = 0 then Except.error PyErr.zeroDivision else Except.ok (p.value ^ (n : Rat).num)) = _
    rw [if_neg (by simp [hd]), hm, if_neg (by rintro ⟨a, b⟩; omega), zpow_natCast]
  unfold Quantity.pow
  rw [if_neg (by simp [hp]), if_neg (by simp [hk]), if_pos hqu, e, PyM.run_bind_ok (PyM.run_lift_ok _ _), construct_valid hv,
    if_neg hk]

example : ((⟨.std s!!"Length", s!!"ft", 3⟩ : Quantity).pow ⟨.dimensionless, s!!"fraction", 2⟩ Demo.lib).1 =
    .ok ⟨.std s!!"Length", s!!"ft", 9⟩ := by decide +kernel

/-- no quantity of the shipped dictionary has the name `u` -/
def inNone (u : Str) : Bool := rawDictionary.all fun e =>
  (kindInstrs shippedPrefixes e.1 e.2).all fun i => match i with | .node s => s != u | _ => true

theorem inNone_iff {u : Str} (h : inNone u = true) {q : Str} (hb : BuiltIn q u) : False := by
  obtain ⟨k, ⟨v, hv, hi⟩, rfl⟩ := hb
  have := List.all_eq_true.1 (List.all_eq_true.1 h _ hv) _ hi
  simp at this

/-- a name that the shipped library does not know becomes a unit of the user -/
theorem units_new {L : Lib} (h : ShippedClasses L) {u : Str} (hu : Unsigned u) (hn : inNone u = true)
    (hc : u ∉ ambiguousNames) (hs : Py.stripWs u = u) (v : Rat) : units v u L = (.ok ⟨.user, u, v⟩, L.addUser u) := by
  have hun := uncertain_same h
  obtain ⟨n, hl, -⟩ := h
  have hf : (L.dict.find? fun e => u ∈ e.2) = none := by
    rw [List.find?_eq_none]
    intro e he hm
    have hL : Lists L.dict e.1 u := hl.lists_mem (l := e.2) he (by simpa using hm)
    exact inNone_iff hn ((hl.unsigned hu).1 hL).1
  have key : ∀ m m' : PyM Lib Quantity, (if u ∈ L.w.dic.uncertain then m else m') L = m' L := fun m m' => by
    rw [if_neg (by rw [hun]; exact hc)]
  unfold units unitsNamed
  rw [hs]
  refine (key (construct .base v u) _).trans ?_
  simp only [hf, construct, hs]

/-- C82 is false of the power 0 in the library as it is shipped: the result is the number 1 in a new unit of the user
called `Dimensionless`. -/
theorem C82_zero_fails {L : Lib} (hL : ShippedClasses L) (q : Quantity) (u : Str) (k : Int) (h : BareName u)
    (hq : q.kind ≠ .percentage) (hu : q.unit = u ∧ k = 1 ∨ q.unit = withPower u k) :
    (q.powInt 0 L).1 = .ok ⟨.user, s!!"Dimensionless", 1⟩ := by
  have hb : unitBasePower q.unit = .ok (u, .int k) := by
    rcases hu with ⟨h1, rfl⟩ | h1
    · rw [h1]; exact unitBasePower_bare h
    · rw [h1]; exact unitBasePower_power h k
  unfold powInt
  rw [if_neg hq, PyM.run_bind_ok (PyM.run_get _), hb, PyM.run_bind_ok (PyM.run_lift_ok _ _)]
  show ((PyM.lift _ >>= _) L).1 = _
  have hp : ratPow q.value (.int 0) = .ok 1 := by unfold ratPow; simp
  rw [hp, PyM.run_bind_ok (PyM.run_lift_ok _ _)]
  simp only [Pow.mul, Int.mul_zero, pow_int_is, decide_true, if_true]
  rw [units_new hL ⟨by decide, by decide⟩ (by decide +kernel) (by decide) (by decide)]

/-! ### C83: the operator `@` -/

/-- C83. `p @ q` divides the numbers without converting; the unit is that of `p` over that of `q`, reduced. Missing:
a unit of `q` that is not a name (`C83_compound_fails`), and repeated factors (C31). -/
theorem C83_ratio_partial (L : Lib) (p q : Quantity) (hp : p.unitless = false) (hq : q.unitless = false)
    (hP : PlainProduct p.unit) (hQ : PlainName q.unit) (nd : (factors p.unit).Nodup) (hn : (true, q.unit) ∉ factors p.unit)
    (h0 : q.value ≠ 0) :
    ∃ u, p.matmul q L = units (p.value / q.value) u L ∧ ∀ x, dimOf u x = dimOf p.unit x - dimOf q.unit x := by
  obtain ⟨n1, n2⟩ := notUnitless hp hq
  have hw : ∀ c ∈ q.unit, c ≠ '*' ∧ c ≠ '/' := fun c hc =>
    ⟨fun e => hQ.2.2 c hc (by simp [e]), fun e => hQ.2.2 c hc (by simp [e])⟩
  have hf : factors (p.unit ++ '/' :: q.unit) = factors p.unit ++ [(true, q.unit)] := by
    rw [factors_slash]
    have := readFactors_name hw true [] []
    rw [List.append_nil] at this
    rw [this]
    rfl
  have hfq : factors q.unit = [(false, q.unit)] := by
    unfold factors
    have := readFactors_name hw false [] []
    rw [List.append_nil] at this
    rw [this]
    rfl
  refine ⟨reduceUnits (p.unit ++ '/' :: q.unit), ?_, ?_⟩
  · unfold matmul
    rw [n1, n2, if_neg (by simp), if_neg (by simp), if_neg (by simp [hq]),
      PyM.run_bind_ok (a := p.value / q.value) (s' := L) (by unfold PyM.lift pdiv; rw [if_neg h0])]
  · intro x
    rw [C31_reduce_units_dimension_partial]
    · unfold dimOf
      split
      · rfl
      · rw [hf, hfq, expo_append, expo_cons, expo_cons, expo_nil]
        simp only [if_true, Bool.false_eq_true, if_false]
        split <;> omega
    · intro f hf'
      rw [hf] at hf'
      rcases List.mem_append.1 hf' with hf' | hf'
      · exact hP f hf'
      · rw [List.mem_singleton.1 hf']; exact hQ
    · rw [hf]
      exact List.nodup_append.2 ⟨nd, by simp, fun a ha b hb e => hn (by rw [List.mem_singleton.1 hb] at e; exact e ▸ ha)⟩

/-- C83. `q @ x` with a number other than 0 divides what the quantity shows and keeps its class and unit. -/
theorem C83_number (L : Lib) (q : Quantity) (x : Rat) (hv : Valid L q) (hx : x ≠ 0) :
    ∃ r, q.matmulNum x L = (.ok r, L) ∧ r.kind = q.kind ∧ r.unit = q.unit ∧ shown r = shown q / x := by
  unfold matmulNum
  rw [PyM.run_bind_ok (a := q.value / x) (s' := L) (by unfold PyM.lift pdiv; rw [if_neg hx])]
  by_cases hk : q.kind = .percentage
  · rw [if_pos hk, construct_valid hv, if_pos hk]
    refine ⟨_, rfl, rfl, rfl, ?_⟩
    simp only [shown, hk, if_true]; ring
  · rw [if_neg hk, construct_valid hv, if_neg hk]
    refine ⟨_, rfl, rfl, rfl, ?_⟩
    simp only [shown, hk, if_false]

/-- C83: dividing by zero raises ZeroDivisionError. -/
theorem C83_zero (L : Lib) (p q : Quantity) (h0 : q.value = 0) :
    (p.matmul q L).1 = .error .zeroDivision ∧ (p.matmulNum 0 L).1 = .error .zeroDivision := by
  have hz : pdiv p.value q.value = .error .zeroDivision := by unfold pdiv; rw [if_pos h0]
  have hz' : pdiv p.value 0 = .error .zeroDivision := by unfold pdiv; rw [if_pos rfl]
  constructor
  · unfold matmul
    rw [hz]
    split
    · rfl
    · split
      · rfl
      · split <;> rfl
  · unfold matmulNum
    rw [hz']
    rfl

example : PlainProduct s!!"kg*ft/s" ∧ PlainName s!!"ft" ∧ (factors s!!"kg*ft/s").Nodup ∧
    (true, s!!"ft") ∉ factors s!!"kg*ft/s" ∧
    ((⟨.user, s!!"kg*ft/s", 6⟩ : Quantity).matmul ⟨.std s!!"Length", s!!"ft", 3⟩ Demo.lib).1 = .ok ⟨.user, s!!"kg/s", 2⟩ ∧
    ((⟨.std s!!"Length", s!!"yd", 6⟩ : Quantity).matmul ⟨.std s!!"Length", s!!"ft", 3⟩ Demo.lib).1 = .ok ⟨.user, s!!"yd/ft", 2⟩ ∧
    ((⟨.std s!!"Length", s!!"yd", 6⟩ : Quantity).matmulNum 3 Demo.lib).1 = .ok ⟨.std s!!"Length", s!!"yd", 2⟩ := by
  refine ⟨by unfold PlainProduct PlainName; decide +kernel, by unfold PlainName; decide +kernel, by decide +kernel,
    by decide +kernel, by decide +kernel, by decide +kernel, by decide +kernel⟩

/-- C83 is false of a unit that is a ratio: six feet over three yards per second are in `ft/yd/s`, not in seconds. -/
theorem C83_compound_fails :
    ((⟨.std s!!"Length", s!!"ft", 6⟩ : Quantity).matmul ⟨.user, s!!"yd/s", 3⟩ Demo.lib).1 = .ok ⟨.user, s!!"ft/yd/s", 2⟩ ∧
    dimOf s!!"ft/yd/s" s!!"s" = -1 ∧ dimOf s!!"ft" s!!"s" - dimOf s!!"yd/s" s!!"s" = 1 := by decide +kernel

/-- C83 is false of a number without unit over a quantity: `Dimensionless(2) @ q` raises WrongUnitsError, unless the
class of `q` lists `1/u`. -/
theorem C83_inverse_fails (L : Lib) (p q : Quantity) (hp : p.unitless = true) (hq : q.unitless = false)
    (hu : q.kind ≠ .user) (hb : q.kind ≠ .base) (h1 : ('1' :: '/' :: q.unit) ∉ L.names q.kind.key) (h0 : q.value ≠ 0) :
    (p.matmul q L).1 = .error .wrongUnits := by
  unfold matmul
  rw [if_pos (by simp [hp, hq]), PyM.run_bind_ok (a := p.value / q.value) (s' := L) (by unfold PyM.lift pdiv; rw [if_neg h0])]
  unfold construct
  cases hk : q.kind with
  | base => exact absurd hk hb
  | user => exact absurd hk hu
  | _ => rw [hk] at h1; simp only; rw [if_neg h1]

example : ((⟨.dimensionless, s!!"fraction", 6⟩ : Quantity).matmul ⟨.std s!!"Length", s!!"ft", 3⟩ Demo.lib).1 =
    .error .wrongUnits := by decide +kernel

end Unyts

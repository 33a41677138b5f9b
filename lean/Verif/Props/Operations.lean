import Verif.Lemmas.Operations

/- C34-C37: arithmetic on unit names. Every theorem holds for any rendering `sf` of floats. -/
namespace Unyts
open Spec

/-! ### C34 powers -/

/-- C34: `unit_base_power` of a name followed by an integer. -/
theorem C34_unit_base_power (u : Str) (h : BareName u) (n : Int) :
    unitBasePower (u ++ intStr n) = .ok (u, .int n) := unitBasePower_power h n

private theorem unitPower_of (sf : Rat → Str) {u b : Str} {k : Int} (hn : normBlank (some u) = u)
    (hb : unitBasePower u = .ok (b, .int k)) (m : Int) :
    unitPower sf (some u) (.num (.int m)) =
      .ok (if k * m = 0 then dimensionlessName else if k * m = 1 then b else b ++ intStr (k * m)) := by
  unfold unitPower
  simp only [hn, hb]
  show Except.ok (if Pow.is (.int (k * m)) 0 then _ else _) = _
  simp only [Pow.mul, Pow.is_int, decide_eq_true_eq]
  rfl

/-- C34: a power of a power is the power of the product (the first exponent is not 0: the code then forgets
the name). -/
theorem C34_power_of_power (sf : Rat → Str) (u : Str) (h : BareName u) (n m : Int) (hn : n ≠ 0) :
    ∃ v, unitPower sf (some u) (.num (.int n)) = .ok v ∧
      unitPower sf (some v) (.num (.int m)) = unitPower sf (some u) (.num (.int (n * m))) := by
  have hnb : normBlank (some u) = u := by simpa using normBlank_bare h []
  have hb := unitBasePower_bare h
  have h1 := unitPower_of sf hnb hb n
  rw [Int.one_mul, if_neg hn] at h1
  by_cases hn1 : n = 1
  · rw [if_pos hn1] at h1
    subst hn1
    exact ⟨u, h1, by rw [Int.one_mul]⟩
  · rw [if_neg hn1] at h1
    refine ⟨_, h1, ?_⟩
    rw [unitPower_of sf (normBlank_bare h _) (unitBasePower_power h n), unitPower_of sf hnb hb, Int.one_mul]

/-- C34: what the powers are called: `u`, and `u` followed by the exponent. -/
theorem C34_unit_power_name (sf : Rat → Str) (u : Str) (h : BareName u) (n : Int) (h0 : n ≠ 0) (h1 : n ≠ 1) :
    unitPower sf (some u) (.num (.int n)) = .ok (u ++ intStr n) := by
  have hnb : normBlank (some u) = u := by simpa using normBlank_bare h []
  rw [unitPower_of sf hnb (unitBasePower_bare h), Int.one_mul, if_neg h0, if_neg h1]

/-- The exponent 0 has to be excluded: (m ** 0) ** 2 is called `dimensionless2`. -/
theorem C34_power_zero_fails (sf : Rat → Str) :
    unitPower sf (some s!!"m") (.num (.int 0)) = .ok s!!"dimensionless" ∧
    unitPower sf (some s!!"dimensionless") (.num (.int 2)) = .ok s!!"dimensionless2" := by
  constructor <;> rfl

/-- Superscript digits pass `isdigit` but cannot be read as a number. -/
theorem C34_superscript_fails : unitBasePower s!!"m²" = .error .valueError := by decide +kernel

/-- `J/kg` is taken for a number over a unit, because `complex('J')` exists. -/
theorem C34_joule_fails : unitBasePower s!!"J/kg" = .error .valueError := by decide +kernel

example : BareName s!!"m" ∧ BareName s!!"sm3".dropLast ∧ unitBasePower s!!"m-3" = .ok (s!!"m", .int (-3)) := by
  unfold BareName; decide +kernel

/-! ### C35 inverse -/

private theorem unitInverse_power (names : List Str) (sf : Rat → Str) {u : Str} (h : BareName u) {n : Int}
    (hun : isUnitless names (withPower u n) = false) (hn : n ≤ -2 ∨ 2 ≤ n) :
    unitInverse names sf (some (withPower u n)) = .ok (withPower u (-n)) := by
  unfold unitInverse
  have e : normBlank (some (withPower u n)) = withPower u n := normBlank_bare h _
  simp only [e, hun, unitBasePower_power h]
  show Except.ok (if Pow.is (.int n) (-1) then _ else _) = _
  rw [Pow.is_int]
  simp only [decide_eq_true_eq]
  rw [if_neg (by omega)]
  have hlt : (Pow.int n).toRat < -1 ↔ n < -1 := by
    show (n : Rat) < -1 ↔ _
    have : ((-1 : Int) : Rat) = -1 := rfl
    rw [← this, Rat.intCast_lt_intCast]
  have hgt : (Pow.int n).toRat > 1 ↔ n > 1 := by
    show (1 : Rat) < n ↔ _
    have : ((1 : Int) : Rat) = 1 := rfl
    rw [← this, Rat.intCast_lt_intCast]
  rcases hn with hn | hn
  · rw [if_pos (hlt.2 (by omega))]
    show Except.ok (u ++ intStr (n.natAbs : Int)) = Except.ok (u ++ intStr (-n))
    rw [show (n.natAbs : Int) = -n by omega]
  · rw [if_neg (by rw [hlt]; omega), if_pos (hgt.2 (by omega))]
    show Except.ok (u ++ intStr (-1 * n)) = _
    rw [show -1 * n = -n by omega]; rfl

/-- C35: a name raised to a power other than -1, 0 and 1. -/
theorem C35_inverse_power (names : List Str) (sf : Rat → Str) (u : Str) (h : BareName u) (n : Int)
    (hn : n ≤ -2 ∨ 2 ≤ n) (h1 : isUnitless names (withPower u n) = false)
    (h2 : isUnitless names (withPower u (-n)) = false) :
    ∃ v, unitInverse names sf (some (withPower u n)) = .ok v ∧ v = withPower u (-n) ∧
      unitInverse names sf (some v) = .ok (withPower u n) := by
  refine ⟨_, unitInverse_power names sf h h1 hn, rfl, ?_⟩
  rw [unitInverse_power names sf h h2 (by omega), Int.neg_neg]

/-- C35: a simple name, whose inverse is written `u-1`. -/
theorem C35_inverse_name (names : List Str) (sf : Rat → Str) (u : Str) (h : BareName u)
    (h1 : isUnitless names u = false) (h2 : isUnitless names (u ++ ['-', '1']) = false) :
    ∃ v, unitInverse names sf (some u) = .ok v ∧ v = withPower u (-1) ∧ unitInverse names sf (some v) = .ok u := by
  have e1 : unitInverse names sf (some u) = .ok (withPower u (-1)) := by
    unfold unitInverse
    have e : normBlank (some u) = u := by simpa using normBlank_bare h []
    simp only [e, h1, unitBasePower_bare h, Py.splitOn_of_not_mem h.noSlash]
    rfl
  refine ⟨_, e1, rfl, ?_⟩
  unfold unitInverse
  have e : normBlank (some (withPower u (-1))) = withPower u (-1) := normBlank_bare h _
  have h2' : isUnitless names (withPower u (-1)) = false := h2
  simp only [e, h2', unitBasePower_power h]
  rfl

/-- C35: a ratio of two bare names, neither of which Python takes for a number. -/
theorem C35_inverse_ratio (names : List Str) (sf : Rat → Str) (a b : Str) (ha : BareName a) (hb : BareName b)
    (na : isNumber a = false) (nb : isNumber b = false)
    (h1 : isUnitless names (a ++ '/' :: b) = false) (h2 : isUnitless names (b ++ '/' :: a) = false) :
    unitInverse names sf (some (a ++ '/' :: b)) = .ok (b ++ '/' :: a) ∧
      unitInverse names sf (some (b ++ '/' :: a)) = .ok (a ++ '/' :: b) := by
  have key : ∀ a b : Str, BareName a → BareName b → isNumber a = false → isUnitless names (a ++ '/' :: b) = false →
      unitInverse names sf (some (a ++ '/' :: b)) = .ok (b ++ '/' :: a) := by
    intro a b ha hb na h1
    have hsp : Py.splitOn '/' (a ++ '/' :: b) = [a, b] := by
      rw [Py.splitOn_append_sep ha.noSlash, Py.splitOn_of_not_mem hb.noSlash]
    have hbp : unitBasePower (a ++ '/' :: b) = .ok (a ++ '/' :: b, .int 1) := by
      apply unitBasePower_nopow
      · have bare : ∀ u, BareName u → ∀ c ∈ u, isDigit c = false ∧ c ∉ ['-', '+', '.'] := by
          intro u hu c hc
          obtain ⟨h1, h2⟩ := hu.1 c hc
          simp only [List.mem_cons, List.not_mem_nil, or_false, not_or] at h2 ⊢
          exact ⟨h1, h2.1, h2.2.1, h2.2.2.1⟩
        intro c hc
        rcases List.mem_append.1 hc with hc | hc
        · exact bare a ha c hc
        · rcases List.mem_cons.1 hc with rfl | hc
          · decide
          · exact bare b hb c hc
      · rw [hsp]; simp [na]
    unfold unitInverse
    have e : normBlank (some (a ++ '/' :: b)) = a ++ '/' :: b := normBlank_bare ha _
    simp only [e, h1, hbp, hsp]
    rfl
  exact ⟨key a b ha hb na h1, key b a hb ha nb h2⟩

/-- C35 fails beyond that: `m3/s` becomes `m/s-3`, which denotes something else. -/
theorem C35_inverse_mixed_fails (sf : Rat → Str) :
    unitInverse [] sf (some s!!"m3/s") = .ok s!!"m/s-3" ∧
    unitInverse [] sf (some s!!"m/s-3") = .ok s!!"m/s-3" := by
  constructor <;> rfl

/-- C35 fails for four parts: `a/b/c/d` is merely read backwards, although its inverse is `b*c*d/a`. -/
theorem C35_inverse_four_parts_fails (sf : Rat → Str) :
    unitInverse [] sf (some s!!"a/b/c/d") = .ok s!!"d/c/b/a" ∧
    dimOf s!!"a/b/c/d" s!!"b" = -1 ∧ dimOf s!!"d/c/b/a" s!!"b" = -1 := by
  refine ⟨rfl, by decide +kernel, by decide +kernel⟩

example : BareName s!!"kg" ∧ BareName s!!"day" ∧ isNumber s!!"kg" = false ∧ isNumber s!!"day" = false ∧
    isUnitless [s!!"dimensionless", s!!"%"] s!!"kg/day" = false ∧
    isUnitless [s!!"dimensionless", s!!"%"] s!!"day/kg" = false := by
  unfold BareName; decide +kernel
example : BareName s!!"m" ∧ isUnitless [s!!"dimensionless"] (withPower s!!"m" 3) = false ∧
    isUnitless [s!!"dimensionless"] (withPower s!!"m" (-3)) = false ∧
    isUnitless [s!!"dimensionless"] s!!"m" = false ∧ isUnitless [s!!"dimensionless"] s!!"m-1" = false := by
  unfold BareName; decide +kernel

/-! ### C36 dimensionless is neutral -/

/-- A unit that is neither blank nor a ratio of a string to itself. -/
def NonTrivial (u : Str) : Prop :=
  (∃ c ∈ u, c ∉ [' ', '(', ')']) ∧ ∀ x : Str, '/' ∉ x → u ≠ x ++ '/' :: x

private theorem normUnit_nonTrivial {u : Str} (h : NonTrivial u) : normUnit (some u) = u := by
  obtain ⟨⟨c, hc, hn⟩, hr⟩ := h
  refine normUnit_of hc hn ?_
  rintro ⟨h2, he⟩
  match hsp : Py.splitOn '/' u, h2 with
  | [x, y], _ =>
    rw [hsp] at he
    simp only [List.headD_cons, List.tail_cons] at he
    have hj := Py.join_splitOn '/' u
    rw [hsp] at hj
    have hx : '/' ∉ x := Py.mem_splitOn_no_sep (c := '/') (s := u) (by rw [hsp]; simp)
    exact hr x hx (by rw [← hj, ← he]; rfl)

/-- The spellings of "no unit": a unitless name in any letter case with outer blanks and parentheses, nothing,
blanks and parentheses only, or a ratio of a name to itself. -/
def DimlessSpelling (names : List Str) (d : Option Str) : Prop :=
  (∃ s, d = some s ∧ NonTrivial s ∧ Py.strip [' ', '(', ')'] (Py.lower s) ∈ names) ∨
  (dimensionlessName ∈ names ∧
    (d = none ∨ (∃ s, d = some s ∧ ∀ c ∈ s, c ∈ [' ', '(', ')']) ∨ ∃ x, d = some (x ++ '/' :: x) ∧ '/' ∉ x))

private theorem strip_all {cs : List Char} {s : Str} (h : ∀ c ∈ s, c ∈ cs) : Py.strip cs s = [] := by
  unfold Py.strip Py.rstrip
  rw [Py.lstrip_all h]; rfl

private theorem DimlessSpelling.unitless {names : List Str} {d : Option Str} (h : DimlessSpelling names d) :
    isUnitless names (normUnit d) = true := by
  have hdim : dimensionlessName ∈ names → isUnitless names dimensionlessName = true := by
    intro hn
    unfold isUnitless
    have : Py.strip blankParens (Py.lower dimensionlessName) = dimensionlessName := by decide
    rw [this]; simpa using hn
  rcases h with ⟨s, rfl, hs, hm⟩ | ⟨hn, h⟩
  · rw [normUnit_nonTrivial hs]
    unfold isUnitless
    exact decide_eq_true hm
  · rcases h with rfl | ⟨s, rfl, hs⟩ | ⟨x, rfl, hx⟩
    · have : normUnit none = dimensionlessName := by decide
      rw [this]; exact hdim hn
    · have : normUnit (some s) = dimensionlessName := by
        have e : normBlank (some s) = dimensionlessName := by
          unfold normBlank
          simp only
          exact if_pos (strip_all hs)
        unfold normUnit
        simp only [e]
        decide
      rw [this]; exact hdim hn
    · have : normUnit (some (x ++ '/' :: x)) = dimensionlessName := by
        by_cases hb : Py.strip blankParens (x ++ '/' :: x) = []
        · exact absurd hb (strip_ne_nil (c := '/') (by simp) (by decide))
        · unfold normUnit normBlank
          simp only [if_neg hb]
          rw [Py.splitOn_append_sep hx, Py.splitOn_of_not_mem hx]
          simp
      rw [this]; exact hdim hn

/-- C36: multiplying by "no unit" on the right. -/
theorem C36_product_dimless_right (names : List Str) (sf : Rat → Str) (conv : Str → Str → PyM σ Bool) (depth : Nat)
    (u : Str) (d : Option Str) (hu : NonTrivial u) (hd : DimlessSpelling names d) (st : σ) :
    unitProduct names sf conv (depth + 1) (some u) d st = (.ok u, st) := by
  rw [unitProduct]
  simp only [normUnit_nonTrivial hu, hd.unitless, if_true]
  rfl

/-- C36: multiplying by "no unit" on the left. -/
theorem C36_product_dimless_left (names : List Str) (sf : Rat → Str) (conv : Str → Str → PyM σ Bool) (depth : Nat)
    (u : Str) (d : Option Str) (hu : NonTrivial u) (hnu : isUnitless names u = false) (hd : DimlessSpelling names d)
    (st : σ) : unitProduct names sf conv (depth + 1) d (some u) st = (.ok u, st) := by
  rw [unitProduct]
  simp only [normUnit_nonTrivial hu, hd.unitless, hnu, if_true]
  rfl

/-- C36: dividing by "no unit". -/
theorem C36_division_dimless (names : List Str) (sf : Rat → Str) (conv : Str → Str → PyM σ Bool) (depth : Nat)
    (u : Str) (d : Option Str) (hu : NonTrivial u) (hd : DimlessSpelling names d) (st : σ) :
    unitDivision names sf conv (depth + 1) (some u) d st = (.ok u, st) := by
  rw [unitDivision]
  simp only [normUnit_nonTrivial hu, hd.unitless, if_true]
  rfl

/-- C36: adding "no unit" on either side keeps the unit. -/
theorem C36_addition_dimless (names : List Str) (conv : Str → Str → PyM σ Bool) (u d : Str)
    (hu : isUnitless names u = false) (hd : isUnitless names d = true) (st : σ) :
    unitAddition names conv (some u) (some d) st = (.ok u, st) ∧
    unitAddition names conv (some d) (some u) st = (.ok u, st) := by
  unfold unitAddition
  simp only [Option.getD_some, hu, hd, if_true]
  exact ⟨rfl, rfl⟩

example : NonTrivial s!!"kg*m/s" := by
  refine ⟨⟨'k', by decide, by decide⟩, ?_⟩
  intro x hx e
  have h1 := congrArg (Py.splitOn '/') e
  rw [Py.splitOn_append_sep hx, Py.splitOn_of_not_mem hx] at h1
  have h2 : Py.splitOn '/' s!!"kg*m/s" = [s!!"kg*m", s!!"s"] := by decide
  rw [h2] at h1
  simp at h1
  have := h1.1.trans h1.2.symm
  revert this; decide
example : DimlessSpelling [s!!"dimensionless", s!!"unitless"] (some s!!"( UnitLess )") := by
  left
  refine ⟨_, rfl, ⟨⟨'U', by decide, by decide⟩, ?_⟩, by decide +kernel⟩
  intro x hx e
  have : '/' ∈ s!!"( UnitLess )" := by rw [e]; simp
  revert this; decide

/-! ### C37 dimensions of products and quotients -/

private theorem reduceUnits_noSlash {u : Str} (h : '/' ∉ u) : reduceUnits u = u := by
  unfold reduceUnits; simp [h]

private theorem BasicName.noOp {u : Str} (h : BasicName u) {c : Char} (hc : c ∈ opChars) : c ∉ u :=
  fun hm => h.2.notOp c hm hc

/-- C37: the product of two different names that cannot be converted into each other is called `a*b`. -/
theorem C37_product_names (names : List Str) (sf : Rat → Str) (conv : Str → Str → PyM σ Bool) (depth : Nat)
    (a b : Str) (ha : BasicName a) (hb : BasicName b) (hab : a ≠ b)
    (hua : isUnitless names a = false) (hub : isUnitless names b = false) (st s1 s2 : σ)
    (c1 : conv a b st = (.ok false, s1)) (c2 : conv a b s1 = (.ok false, s2)) :
    unitProduct names sf conv (depth + 1) (some a) (some b) st = (.ok (a ++ '*' :: b), s2) := by
  rw [unitProduct]
  simp only [normUnit_bare ha.1, normUnit_bare hb.1, hua, hub, Bool.false_eq_true, if_false, if_neg hab]
  rw [PyM.run_bind_ok c1]
  simp only [Bool.false_eq_true, if_false, unitBasePower_bare ha.1, unitBasePower_bare hb.1]
  rw [PyM.run_bind_ok (PyM.run_lift_ok _ _), PyM.run_bind_ok (PyM.run_lift_ok _ _)]
  simp only [Pow.is_int]
  rw [if_neg (by simp), if_neg (by simp), PyM.run_bind_ok c2]
  simp only [Bool.false_eq_true, if_false, wrapOps_simple ha, wrapOps_simple hb]
  rw [reduceUnits_noSlash]
  · rfl
  · simp [ha.1.noSlash, hb.1.noSlash]

/-- C37: the quotient of two such names is called `a/b`. -/
theorem C37_division_names (names : List Str) (sf : Rat → Str) (conv : Str → Str → PyM σ Bool) (depth : Nat)
    (a b : Str) (ha : BasicName a) (hb : BasicName b) (hab : a ≠ b)
    (hua : isUnitless names a = false) (hub : isUnitless names b = false) (st s1 s2 : σ)
    (c1 : conv a b st = (.ok false, s1)) (c2 : conv a b s1 = (.ok false, s2)) :
    unitDivision names sf conv (depth + 1) (some a) (some b) st = (.ok (a ++ '/' :: b), s2) := by
  rw [unitDivision]
  simp only [normUnit_bare ha.1, normUnit_bare hb.1, hua, hub, Bool.false_eq_true, if_false, ne_eq, hab,
    not_false_eq_true, if_true]
  rw [PyM.run_bind_ok c1]
  simp only [Bool.false_eq_true, if_false, unitBasePower_bare ha.1, unitBasePower_bare hb.1]
  rw [PyM.run_bind_ok (PyM.run_lift_ok _ _), PyM.run_bind_ok (PyM.run_lift_ok _ _)]
  simp only [Pow.is_int]
  rw [if_neg (by simp), if_neg (by simp), PyM.run_bind_ok c2]
  simp only [Bool.false_eq_true, if_false, wrapOps_simple ha, wrapOps_simple hb]
  have hst : '*' ∉ a := BasicName.noOp ha (by decide)
  rw [if_neg (by rintro ⟨_, _, h⟩; exact hst h), PyM.run_bind_ok (PyM.run_pure _ _)]
  simp only [Bool.false_eq_true, if_false]
  have hfac : factors (a ++ '/' :: b) = [(false, a), (true, b)] := by
    have := factors_render ha.2 (fs := [(true, b)]) (by intro f hf; simp at hf; subst hf; exact hb.2)
    simpa [tok1, opOf] using this
  have hpp : PlainProduct (a ++ '/' :: b) := by
    intro f hf
    rw [hfac] at hf
    simp at hf
    rcases hf with rfl | rfl
    · exact ha.2
    · exact hb.2
  have hred : reduceUnits (a ++ '/' :: b) = a ++ '/' :: b := by
    rw [reduceUnits_plain hpp (by simp), hfac]
    have hrf : ruF [(false, a), (true, b)] 0 [] = [(false, a), (true, b)] := by
      apply ruF_fixed
      intro f hf hff
      simp [flip1] at hf hff
      rcases hf with rfl | rfl <;> simp [hab] at hff
      exact hab hff.symm
    rw [hrf]
    show finishStr _ = _
    rw [finish_cons (by
      intro f hf
      simp at hf
      rcases hf with rfl | rfl
      · exact ha.2
      · exact hb.2)]
    simp [tok1, opOf]
  rw [hred]
  rfl

/-- The two names denote the product and the quotient. -/
theorem C37_names_denote (a b : Str) (ha : BasicName a) (hb : BasicName b) (x : Str) (hx : x ≠ ['1']) :
    dimOf (a ++ '*' :: b) x = (if a = x then 1 else 0) + (if b = x then 1 else 0) ∧
    dimOf (a ++ '/' :: b) x = (if a = x then 1 else 0) - (if b = x then 1 else 0) := by
  have hfac : ∀ d : Bool, factors (a ++ opOf d :: b) = [(false, a), (d, b)] := by
    intro d
    have := factors_render ha.2 (fs := [(d, b)]) (by intro f hf; simp at hf; subst hf; exact hb.2)
    simpa [tok1] using this
  have h1 := hfac false
  have h2 := hfac true
  simp only [opOf, Bool.false_eq_true, if_false, if_true] at h1 h2
  unfold dimOf
  rw [if_neg hx, if_neg hx, h1, h2]
  simp [expo]
  split <;> split <;> rfl

/-- C37: if the two names can be converted, the product is the square of the first. -/
theorem C37_product_convertible (names : List Str) (sf : Rat → Str) (conv : Str → Str → PyM σ Bool) (depth : Nat)
    (a b : Str) (ha : BasicName a) (hb : BasicName b) (hab : a ≠ b)
    (hua : isUnitless names a = false) (hub : isUnitless names b = false) (st s1 : σ)
    (c1 : conv a b st = (.ok true, s1)) :
    unitProduct names sf conv (depth + 2) (some a) (some b) st = (.ok (a ++ ['2']), s1) := by
  rw [unitProduct]
  simp only [normUnit_bare ha.1, normUnit_bare hb.1, hua, hub, Bool.false_eq_true, if_false, if_neg hab]
  rw [PyM.run_bind_ok c1]
  simp only [if_true]
  rw [unitProduct]
  simp only [normUnit_bare ha.1, hua, Bool.false_eq_true, if_false, if_true, unitBasePower_bare ha.1]
  rw [PyM.run_bind_ok (PyM.run_lift_ok _ _)]
  simp only
  rw [if_neg]
  · rfl
  · rintro (h | h | h | h)
    all_goals exact BasicName.noOp ha (by decide) h

/-- C37: the square of one name. -/
theorem C37_square (names : List Str) (sf : Rat → Str) (conv : Str → Str → PyM σ Bool) (depth : Nat)
    (a : Str) (ha : BasicName a) (hua : isUnitless names a = false) (st : σ) :
    unitProduct names sf conv (depth + 1) (some a) (some a) st = (.ok (a ++ ['2']), st) := by
  rw [unitProduct]
  simp only [normUnit_bare ha.1, hua, Bool.false_eq_true, if_false, if_true, unitBasePower_bare ha.1]
  rw [PyM.run_bind_ok (PyM.run_lift_ok _ _)]
  simp only
  rw [if_neg]
  · rfl
  · rintro (h | h | h | h)
    all_goals exact BasicName.noOp ha (by decide) h

/-- the quotient of a name and itself -/
theorem division_self (names : List Str) (sf : Rat → Str) (conv : Str → Str → PyM σ Bool) (depth : Nat)
    (a : Str) (ha : BasicName a) (hua : isUnitless names a = false) (st s1 : σ) (c : conv a a st = (.ok true, s1)) :
    unitDivision names sf conv (depth + 1) (some a) (some a) st = (.ok (a ++ '/' :: a), s1) := by
  rw [unitDivision]
  simp only [normUnit_bare ha.1, hua, Bool.false_eq_true, if_false, ne_eq, not_true_eq_false,
    unitBasePower_bare ha.1]
  rw [PyM.run_bind_ok (PyM.run_pure _ _)]
  simp only [Bool.false_eq_true, if_false]
  rw [PyM.run_bind_ok (PyM.run_lift_ok _ _), PyM.run_bind_ok (PyM.run_lift_ok _ _)]
  simp only [Pow.is_int]
  rw [if_neg (by simp), if_neg (by simp), PyM.run_bind_ok c]
  simp only [if_true]
  have hc : combinedPower sf a ((Pow.int 1).sub (.int 1)) = a ++ '/' :: a := by
    unfold combinedPower
    show (if Pow.is (.int (1 - 1)) (-1) then _ else _) = _
    simp only [Pow.sub, Pow.is_int]
    rw [if_neg (by decide), if_neg (by decide), if_pos (by decide)]
  rw [hc]
  have hfac : factors (a ++ '/' :: a) = [(false, a), (true, a)] := by
    have := factors_render ha.2 (fs := [(true, a)]) (by intro f hf; simp at hf; subst hf; exact ha.2)
    simpa [tok1, opOf] using this
  have hpp : PlainProduct (a ++ '/' :: a) := by
    intro f hf
    rw [hfac] at hf
    simp at hf
    rcases hf with rfl | rfl <;> exact ha.2
  rw [reduceUnits_plain hpp (by simp), hfac]
  have : ruF [(false, a), (true, a)] 0 [] = [] := by simp [ruF, flip1]
  rw [this]
  rfl

/-- C37: if the two names can be converted, the quotient is the first over itself, a spelling of
"no unit". -/
theorem C37_division_convertible (names : List Str) (sf : Rat → Str) (conv : Str → Str → PyM σ Bool) (depth : Nat)
    (a b : Str) (ha : BasicName a) (hb : BasicName b) (hab : a ≠ b)
    (hua : isUnitless names a = false) (hub : isUnitless names b = false) (st s1 s2 : σ)
    (c1 : conv a b st = (.ok true, s1)) (c2 : conv a a s1 = (.ok true, s2)) :
    unitDivision names sf conv (depth + 2) (some a) (some b) st = (.ok (a ++ '/' :: a), s2) ∧
      (dimensionlessName ∈ names → DimlessSpelling names (some (a ++ '/' :: a))) := by
  constructor
  · rw [unitDivision]
    simp only [normUnit_bare ha.1, normUnit_bare hb.1, hua, hub, Bool.false_eq_true, if_false, ne_eq, hab,
      not_false_eq_true, if_true]
    rw [PyM.run_bind_ok c1]
    simp only [if_true]
    exact division_self names sf conv depth a ha hua s1 s2 c2
  · intro hn
    exact Or.inr ⟨hn, Or.inr (Or.inr ⟨a, rfl, ha.1.noSlash⟩)⟩

/-- the name of a power: `m3`, `m`, `m/m` -/
private theorem combined_name {a : Str} (ha : BasicName a) (sf : Rat → Str) (k : Int) :
    reduceUnits (combinedPower sf a (.int k)) = powerName a k := by
  unfold combinedPower powerName
  simp only [Pow.is_int, decide_eq_true_eq]
  have hw : ∀ k, reduceUnits (withPower a k) = withPower a k := by
    intro k
    apply reduceUnits_noSlash
    unfold withPower
    rw [List.mem_append, not_or]
    exact ⟨ha.1.noSlash, not_mem_intStr _ (by decide) (by decide)⟩
  by_cases h1 : k = -1
  · subst h1
    rw [if_pos rfl, if_neg (by decide), if_neg (by decide)]
    exact hw (-1)
  rw [if_neg h1]
  by_cases h2 : k = 1
  · rw [if_pos h2, if_pos h2, reduceUnits_noSlash ha.1.noSlash]
  rw [if_neg h2, if_neg h2]
  by_cases h3 : k = 0
  · rw [if_pos h3, if_pos h3]
    have hfac : factors (a ++ '/' :: a) = [(false, a), (true, a)] := by
      have := factors_render ha.2 (fs := [(true, a)]) (by intro f hf; simp at hf; subst hf; exact ha.2)
      simpa [tok1, opOf] using this
    have hpp : PlainProduct (a ++ '/' :: a) := by
      intro f hf
      rw [hfac] at hf
      simp at hf
      rcases hf with rfl | rfl <;> exact ha.2
    rw [reduceUnits_plain hpp (by simp), hfac]
    have : ruF [(false, a), (true, a)] 0 [] = [] := by simp [ruF, flip1]
    rw [this]
  rw [if_neg h3, if_neg h3, wrapOps_simple ha]
  exact hw k

private theorem norm_power {u : Str} (hu : BasicName u) (k : Int) : normUnit (some (withPower u k)) = withPower u k := by
  obtain ⟨c, hc, hx⟩ := hu.1.2
  refine normUnit_noSlash (List.mem_append_left _ hc) hx ?_
  unfold withPower
  rw [List.mem_append, not_or]
  exact ⟨hu.1.noSlash, not_mem_intStr k (by decide) (by decide)⟩

/-- C37: the product of powers of convertible names adds the exponents. -/
theorem C37_product_powers (names : List Str) (sf : Rat → Str) (conv : Str → Str → PyM σ Bool) (depth : Nat)
    (a b : Str) (ha : BasicName a) (hb : BasicName b) (n m : Int) (hab : withPower a n ≠ withPower b m)
    (hua : isUnitless names (withPower a n) = false) (hub : isUnitless names (withPower b m) = false)
    (hnm : n = -1 ↔ m = -1) (st s1 s2 : σ)
    (c1 : conv (withPower a n) (withPower b m) st = (.ok false, s1)) (c2 : conv a b s1 = (.ok true, s2)) :
    unitProduct names sf conv (depth + 1) (some (withPower a n)) (some (withPower b m)) st =
      (.ok (powerName a (n + m)), s2) := by
  rw [unitProduct]
  simp only [norm_power ha, norm_power hb, hua, hub, Bool.false_eq_true, if_false, if_neg hab]
  rw [PyM.run_bind_ok c1]
  simp only [Bool.false_eq_true, if_false, unitBasePower_power ha.1, unitBasePower_power hb.1]
  rw [PyM.run_bind_ok (PyM.run_lift_ok _ _), PyM.run_bind_ok (PyM.run_lift_ok _ _)]
  simp only [Pow.is_int, decide_eq_true_eq]
  rw [if_neg (by simp [hnm]), if_neg (by simp [hnm]), PyM.run_bind_ok c2]
  simp only [if_true, Pow.add, combined_name ha]
  rfl

/-- C37: the quotient of powers of convertible names subtracts the exponents. -/
theorem C37_division_powers (names : List Str) (sf : Rat → Str) (conv : Str → Str → PyM σ Bool) (depth : Nat)
    (a b : Str) (ha : BasicName a) (hb : BasicName b) (n m : Int) (hab : withPower a n ≠ withPower b m)
    (hua : isUnitless names (withPower a n) = false) (hub : isUnitless names (withPower b m) = false)
    (hnm : n = -1 ↔ m = -1) (st s1 s2 : σ)
    (c1 : conv (withPower a n) (withPower b m) st = (.ok false, s1)) (c2 : conv a b s1 = (.ok true, s2)) :
    unitDivision names sf conv (depth + 1) (some (withPower a n)) (some (withPower b m)) st =
      (.ok (powerName a (n - m)), s2) := by
  rw [unitDivision]
  simp only [norm_power ha, norm_power hb, hua, hub, Bool.false_eq_true, if_false, ne_eq, hab, not_false_eq_true, if_true]
  rw [PyM.run_bind_ok c1]
  simp only [Bool.false_eq_true, if_false, unitBasePower_power ha.1, unitBasePower_power hb.1]
  rw [PyM.run_bind_ok (PyM.run_lift_ok _ _), PyM.run_bind_ok (PyM.run_lift_ok _ _)]
  simp only [Pow.is_int, decide_eq_true_eq]
  rw [if_neg (by simp [hnm]), if_neg (by simp [hnm]), PyM.run_bind_ok c2]
  simp only [if_true, Pow.sub, combined_name ha]
  rfl

/-- C37: an inverse times a power of a convertible name. -/
theorem C37_inverse_product (names : List Str) (sf : Rat → Str) (conv : Str → Str → PyM σ Bool) (depth : Nat)
    (a b : Str) (ha : BasicName a) (hb : BasicName b) (m : Int) (hm : m ≠ -1)
    (hab : withPower a (-1) ≠ withPower b m) (hba : withPower b m ≠ a)
    (hua : isUnitless names (withPower a (-1)) = false) (hub : isUnitless names (withPower b m) = false)
    (hu : isUnitless names a = false) (st s1 s2 s3 : σ)
    (c1 : conv (withPower a (-1)) (withPower b m) st = (.ok false, s1))
    (c2 : conv (withPower b m) a s1 = (.ok false, s2)) (c3 : conv b a s2 = (.ok true, s3)) :
    unitProduct names sf conv (depth + 2) (some (withPower a (-1))) (some (withPower b m)) st =
      (.ok (powerName b (m - 1)), s3) := by
  rw [unitProduct]
  simp only [norm_power ha, norm_power hb, hua, hub, Bool.false_eq_true, if_false, if_neg hab]
  rw [PyM.run_bind_ok c1]
  simp only [Bool.false_eq_true, if_false, unitBasePower_power ha.1, unitBasePower_power hb.1]
  rw [PyM.run_bind_ok (PyM.run_lift_ok _ _), PyM.run_bind_ok (PyM.run_lift_ok _ _)]
  simp only [Pow.is_int, decide_eq_true_eq]
  rw [if_pos (by simp [hm]), unitDivision]
  simp only [norm_power hb, normUnit_bare ha.1, hu, hub, Bool.false_eq_true, if_false, ne_eq, hba, not_false_eq_true, if_true]
  rw [PyM.run_bind_ok c2]
  simp only [Bool.false_eq_true, if_false, unitBasePower_power hb.1, unitBasePower_bare ha.1]
  rw [PyM.run_bind_ok (PyM.run_lift_ok _ _), PyM.run_bind_ok (PyM.run_lift_ok _ _)]
  simp only [Pow.is_int, decide_eq_true_eq]
  rw [if_neg (by simp [hm]), if_neg (by simp), PyM.run_bind_ok c3]
  simp only [if_true, Pow.sub, combined_name hb]
  rfl

example : BasicName s!!"kg" ∧ BasicName s!!"day" ∧ s!!"kg" ≠ s!!"day" ∧
    isUnitless [s!!"dimensionless"] s!!"kg" = false := by
  unfold BasicName BareName PlainName; decide +kernel
example : withPower s!!"m" 3 ≠ withPower s!!"ft" 2 ∧ withPower s!!"m" (3 + 2) = s!!"m5" := by decide +kernel

private theorem baseAmong_basic {b : Str} {ps : List Str} (h : ∀ p ∈ ps, BasicName p) (hb : b ∈ ps) :
    baseAmong b ps = .ok true := by
  induction ps with
  | nil => cases hb
  | cons p ps ih =>
    rw [baseAmong, unitBase, unitBasePower_bare (h p (by simp)).1]
    show (if p = b then _ else _) = _
    split
    · rfl
    · next hp => exact ih (fun q hq => h q (by simp [hq])) ((List.mem_cons.1 hb).resolve_left (Ne.symm hp))

private theorem divideFactors_basic (div : Str → PyM σ Str) {b : Str} (all : List Str) {ps : List Str} (h : ∀ p ∈ ps, BasicName p)
    (hb : b ∈ ps) (result : Str) (st : σ) :
    divideFactors div b all ps result st = (.ok (Py.joinWith '*' (all.filter (· ≠ b)), true), st) := by
  induction ps generalizing result with
  | nil => cases hb
  | cons p ps ih =>
    rw [divideFactors]
    split
    · rfl
    · next hp =>
      have hm := (List.mem_cons.1 hb).resolve_left hp
      have e : ∀ {u : Str}, BasicName u → unitBase u = .ok u := by
        intro u hu
        rw [unitBase, unitBasePower_bare hu.1]; rfl
      rw [e (h b hb), e (h p (by simp)), PyM.run_bind_ok (PyM.run_lift_ok _ _), PyM.run_bind_ok (PyM.run_lift_ok _ _)]
      simp only [if_neg hp]
      exact ih (fun q hq => h q (by simp [hq])) hm _

private theorem mem_joinWith {c d : Char} {ps : List Str} (h : c ∈ Py.joinWith d ps) : c = d ∨ ∃ p ∈ ps, c ∈ p := by
  induction ps with
  | nil => simp [Py.joinWith] at h
  | cons p ps ih =>
    cases ps with
    | nil => exact .inr ⟨p, by simp, by simpa [Py.joinWith] using h⟩
    | cons q ps =>
      rw [Py.joinWith] at h
      · rcases List.mem_append.1 h with h | h
        · exact .inr ⟨p, by simp, h⟩
        · rcases List.mem_cons.1 h with h | h
          · exact .inl h
          · rcases ih h with h | ⟨r, hr, h⟩
            · exact .inl h
            · exact .inr ⟨r, by simp [List.mem_cons.1 hr], h⟩

private theorem bare_join {ps : List Str} (h : ∀ p ∈ ps, BasicName p) (hne : ps ≠ []) : BareName (Py.joinWith '*' ps) := by
  refine ⟨fun c hc => ?_, ?_⟩
  · rcases mem_joinWith hc with rfl | ⟨p, hp, hc⟩
    · decide
    · exact (h p hp).1.1 c hc
  · cases ps with
    | nil => exact absurd rfl hne
    | cons p ps =>
      obtain ⟨c, hc, hx⟩ := (h p (by simp)).1.2
      refine ⟨c, ?_, hx⟩
      cases ps with
      | nil => simpa [Py.joinWith] using hc
      | cons q ps => exact List.mem_append_left _ hc

private theorem splitOn_join {ps : List Str} (h : ∀ p ∈ ps, '*' ∉ p) (hne : ps ≠ []) :
    Py.splitOn '*' (Py.joinWith '*' ps) = ps := by
  have app : ∀ (a b : Str), '*' ∉ a → Py.splitOn '*' (a ++ '*' :: b) = a :: Py.splitOn '*' b := by
    intro a b ha
    induction a with
    | nil => simp [Py.splitOn]
    | cons x xs ih =>
      simp only [List.mem_cons, not_or] at ha
      rw [List.cons_append, Py.splitOn, ih ha.2, if_neg (Ne.symm ha.1)]
  induction ps with
  | nil => exact absurd rfl hne
  | cons p ps ih =>
    cases ps with
    | nil => exact Py.splitOn_of_not_mem (h p (by simp))
    | cons q ps =>
      rw [Py.joinWith, app _ _ (h p (by simp)), ih (fun r hr => h r (by simp [List.mem_cons.1 hr])) (by simp)]

/-- C37, what holds of the quotient of a product by one of its factors: the factor is taken out, every time it occurs. -/
theorem C37_division_cancels_partial (names : List Str) (sf : Rat → Str) (conv : Str → Str → PyM σ Bool) (depth : Nat)
    (ps : List Str) (b : Str) (hp : ∀ p ∈ ps, BasicName p) (h2 : 2 ≤ ps.length) (hb : b ∈ ps)
    (hua : isUnitless names (Py.joinWith '*' ps) = false) (hub : isUnitless names b = false) (st s1 s2 : σ)
    (c1 : conv (Py.joinWith '*' ps) b st = (.ok false, s1)) (c2 : conv (Py.joinWith '*' ps) b s1 = (.ok false, s2)) :
    unitDivision names sf conv (depth + 1) (some (Py.joinWith '*' ps)) (some b) st =
      (.ok (Py.joinWith '*' (ps.filter (· ≠ b))), s2) := by
  have hne : ps ≠ [] := by rintro rfl; simp at h2
  have hbare := bare_join hp hne
  have hbb := hp b hb
  have hsplit := splitOn_join (fun p hpp => BasicName.noOp (hp p hpp) (by decide)) hne
  have hstar : '*' ∈ Py.joinWith '*' ps := by
    match ps, h2 with
    | p :: q :: ps, _ => rw [Py.joinWith]; simp
  have hab : Py.joinWith '*' ps ≠ b := by
    rintro h
    rw [h] at hstar
    exact BasicName.noOp hbb (by decide) hstar
  have hop : ∀ c ∈ ['+', '-', '^'], c ∈ opChars ∧ c ≠ '*' := by decide
  have hno : ∀ c ∈ ['+', '-', '^'], c ∉ Py.joinWith '*' ps := by
    intro c hc hm
    rcases mem_joinWith hm with h | ⟨p, hpp, hm⟩
    · exact (hop c hc).2 h
    · exact BasicName.noOp (hp p hpp) (hop c hc).1 hm
  have hnb : ∀ c ∈ ['+', '-', '^'], c ∉ b := fun c hc => BasicName.noOp hbb (hop c hc).1
  rw [unitDivision]
  simp only [normUnit_bare hbare, normUnit_bare hbb.1, hua, hub, Bool.false_eq_true, if_false, ne_eq, hab,
    not_false_eq_true, if_true]
  rw [PyM.run_bind_ok c1]
  simp only [Bool.false_eq_true, if_false, unitBasePower_bare hbare, unitBasePower_bare hbb.1]
  rw [PyM.run_bind_ok (PyM.run_lift_ok _ _), PyM.run_bind_ok (PyM.run_lift_ok _ _)]
  simp only [Pow.is_int]
  rw [if_neg (by simp), if_neg (by simp), PyM.run_bind_ok c2]
  simp only [Bool.false_eq_true, if_false, hsplit]
  rw [if_pos ⟨⟨hno _ (by simp), hno _ (by simp), hno _ (by simp)⟩, ⟨hnb _ (by simp), hnb _ (by simp), hnb _ (by simp)⟩, hstar⟩,
    baseAmong_basic hp hb, PyM.run_bind_ok (PyM.run_lift_ok _ _)]
  simp only [if_true]
  rw [PyM.run_bind_ok (divideFactors_basic _ ps hp hb [] s2)]
  rfl

/-- C37 fails for a repeated factor: `N*m*m` by `m` is called `N`. -/
theorem C37_repeated_factor_fails :
    unitDivision (σ := Unit) [s!!"dimensionless"] (fun _ => []) (fun _ _ => pure false) 3 (some s!!"N*m*m") (some s!!"m") () =
      (.ok s!!"N", ()) := by decide +kernel

example : unitDivision (σ := Unit) [s!!"dimensionless"] (fun _ => []) (fun _ _ => pure false) 3 (some s!!"N*m*s") (some s!!"m") () =
      (.ok s!!"N*s", ()) ∧ Py.joinWith '*' [s!!"N", s!!"m", s!!"s"] = s!!"N*m*s" := by decide +kernel
example : withPower s!!"m" 3 ≠ withPower s!!"ft" 5 ∧ powerName s!!"m" (3 - 5) = s!!"m-2" ∧
    powerName s!!"m" (5 - 5) = s!!"m/m" := by decide +kernel
/-- every conversion possible between lengths: `m3/ft2` is `m`, `m-1*ft3` is `ft2` -/
example : (let conv : Str → Str → PyM Unit Bool := fun a b => pure (decide (a ∈ [s!!"m", s!!"ft"] ∧ b ∈ [s!!"m", s!!"ft"]))
    ((unitDivision [s!!"dimensionless"] (fun _ => []) conv 3 (some s!!"m3") (some s!!"ft2") ()).1,
     (unitProduct [s!!"dimensionless"] (fun _ => []) conv 3 (some s!!"m-1") (some s!!"ft3") ()).1)) =
    (.ok s!!"m", .ok s!!"ft2") := by decide +kernel

end Unyts

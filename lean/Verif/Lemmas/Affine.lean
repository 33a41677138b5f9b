import Verif.Model.Loader
import Mathlib.Tactic.Ring
import Mathlib.Tactic.FieldSimp
import Mathlib.Tactic.Linarith
import Mathlib.Algebra.Order.Field.Rat

/-
Readings of the numbers of a unit on the scale of a reference unit, and a check that a conversion respects them.
-/
namespace Unyts

/-- the expression as `m * fvf ^ e * x + k`: the triple `(m, k, e)` -/
def CExp.form : CExp → Option (Rat × Rat × Int)
  | .x => some (1, 0, 0)
  | .lit q => some (0, q, 0)
  | .fvf => none
  | .add a b =>
    match a.form, b.form with
    | some (m, k, e), some (m', k', e') => if e = 0 ∧ e' = 0 then some (m + m', k + k', 0) else none
    | _, _ => none
  | .sub a b =>
    match a.form, b.form with
    | some (m, k, e), some (m', k', e') => if e = 0 ∧ e' = 0 then some (m - m', k - k', 0) else none
    | _, _ => none
  | .mul a .fvf =>
    match a.form with
    | some (m, k, e) => if k = 0 then some (m, 0, e + 1) else none
    | _ => none
  | .mul a b =>
    match a.form, b.form with
    | some (m, k, e), some (m', k', e') => if m' = 0 ∧ e' = 0 then some (m * k', k * k', e) else none
    | _, _ => none
  | .div a .fvf =>
    match a.form with
    | some (m, k, e) => if k = 0 then some (m, 0, e - 1) else none
    | _ => none
  | .div a b =>
    match a.form, b.form with
    | some (m, k, e), some (m', k', e') => if m' = 0 ∧ e' = 0 ∧ k' ≠ 0 then some (m / k', k / k', e) else none
    | _, _ => none

theorem CExp.form_eval {e : CExp} {m k : Rat} {n : Int} (h : e.form = some (m, k, n)) {φ : Rat} (hφ : φ ≠ 0) (v : Rat) :
    e.eval (some φ) v = .ok (m * φ ^ n * v + k) := by
  induction e generalizing m k n with
  | x => simp only [form, Option.some.injEq, Prod.mk.injEq] at h; obtain ⟨rfl, rfl, rfl⟩ := h; simp [eval]
  | lit q => simp only [form, Option.some.injEq, Prod.mk.injEq] at h; obtain ⟨rfl, rfl, rfl⟩ := h; simp [eval]
  | fvf => simp [form] at h
  | add a b iha ihb =>
    simp only [form] at h
    split at h
    · next m1 k1 e1 m2 k2 e2 h1 h2 =>
      split at h
      · next he =>
        simp only [Option.some.injEq, Prod.mk.injEq] at h
        obtain ⟨rfl, rfl, rfl⟩ := h
        obtain ⟨rfl, rfl⟩ := he
        simp only [eval, iha h1, ihb h2, bind, Except.bind, zpow_zero]
        congr 1; ring
      · cases h
    · cases h
  | sub a b iha ihb =>
    simp only [form] at h
    split at h
    · next m1 k1 e1 m2 k2 e2 h1 h2 =>
      split at h
      · next he =>
        simp only [Option.some.injEq, Prod.mk.injEq] at h
        obtain ⟨rfl, rfl, rfl⟩ := h
        obtain ⟨rfl, rfl⟩ := he
        simp only [eval, iha h1, ihb h2, bind, Except.bind, zpow_zero]
        congr 1; ring
      · cases h
    · cases h
  | mul a b iha ihb =>
    have gen : ∀ b : CExp, (∀ {m k : Rat} {n : Int}, b.form = some (m, k, n) → b.eval (some φ) v = .ok (m * φ ^ n * v + k)) →
        (match a.form, b.form with
          | some (m, k, e), some (m', k', e') => if m' = 0 ∧ e' = 0 then some (m * k', k * k', e) else none
          | _, _ => none) = some (m, k, n) → (CExp.mul a b).eval (some φ) v = .ok (m * φ ^ n * v + k) := by
      intro b ihb h
      split at h
      · next m1 k1 e1 m2 k2 e2 h1 h2 =>
        split at h
        · next he =>
          simp only [Option.some.injEq, Prod.mk.injEq] at h
          obtain ⟨rfl, rfl, rfl⟩ := h
          obtain ⟨rfl, rfl⟩ := he
          simp only [eval, iha h1, ihb h2, bind, Except.bind]
          congr 1; ring
        · cases h
      · cases h
    cases b with
    | fvf =>
      simp only [form] at h
      split at h
      · next m1 k1 e1 h1 =>
        split at h
        · next he =>
          simp only [Option.some.injEq, Prod.mk.injEq] at h
          obtain ⟨rfl, rfl, rfl⟩ := h
          subst he
          simp only [eval, iha h1, bind, Except.bind]
          rw [zpow_add_one₀ hφ]
          congr 1; ring
        · cases h
      · cases h
    | _ => exact gen _ ihb h
  | div a b iha ihb =>
    have gen : ∀ b : CExp, (∀ {m k : Rat} {n : Int}, b.form = some (m, k, n) → b.eval (some φ) v = .ok (m * φ ^ n * v + k)) →
        (match a.form, b.form with
          | some (m, k, e), some (m', k', e') => if m' = 0 ∧ e' = 0 ∧ k' ≠ 0 then some (m / k', k / k', e) else none
          | _, _ => none) = some (m, k, n) → (CExp.div a b).eval (some φ) v = .ok (m * φ ^ n * v + k) := by
      intro b ihb h
      split at h
      · next m1 k1 e1 m2 k2 e2 h1 h2 =>
        split at h
        · next he =>
          simp only [Option.some.injEq, Prod.mk.injEq] at h
          obtain ⟨rfl, rfl, rfl⟩ := h
          obtain ⟨rfl, rfl, hk⟩ := he
          simp only [eval, iha h1, ihb h2, bind, Except.bind, zero_mul, zero_add, pdiv, hk, if_false]
          congr 1
          field_simp
        · cases h
      · cases h
    cases b with
    | fvf =>
      simp only [form] at h
      split at h
      · next m1 k1 e1 h1 =>
        split at h
        · next he =>
          simp only [Option.some.injEq, Prod.mk.injEq] at h
          obtain ⟨rfl, rfl, rfl⟩ := h
          subst he
          simp only [eval, iha h1, bind, Except.bind, pdiv, hφ, if_false]
          rw [zpow_sub_one₀ hφ]
          congr 1
          field_simp
          ring
        · cases h
      · cases h
    | _ => exact gen _ ihb h

/-- a conversion that does not need the formation volume factor gives the same with any -/
theorem CExp.eval_none {e : CExp} {v y : Rat} (h : e.eval none v = .ok y) (b : Option Rat) : e.eval b v = .ok y := by
  induction e generalizing y with
  | x => exact h
  | lit q => exact h
  | fvf => cases h
  | add a c iha ihc =>
    simp only [eval, bind, Except.bind] at h ⊢
    split at h
    · cases h
    · next p hp =>
      split at h
      · cases h
      · next q hq => rw [iha hp, ihc hq]; exact h
  | sub a c iha ihc =>
    simp only [eval, bind, Except.bind] at h ⊢
    split at h
    · cases h
    · next p hp =>
      split at h
      · cases h
      · next q hq => rw [iha hp, ihc hq]; exact h
  | mul a c iha ihc =>
    simp only [eval, bind, Except.bind] at h ⊢
    split at h
    · cases h
    · next p hp =>
      split at h
      · cases h
      · next q hq => rw [iha hp, ihc hq]; exact h
  | div a c iha ihc =>
    simp only [eval, bind, Except.bind] at h ⊢
    split at h
    · cases h
    · next p hp =>
      split at h
      · cases h
      · next q hq => rw [iha hp, ihc hq]; exact h

theorem Cv.eval_none {c : Cv} {v y : Rat} (h : c.eval none v = .ok y) (b : Option Rat) : c.eval b v = .ok y := by
  induction c generalizing v y with
  | fn e => exact CExp.eval_none h b
  | rev c ih =>
    simp only [Cv.eval, revFn, bind, Except.bind] at h ⊢
    split at h
    · cases h
    · next k hk => rw [ih hk]; exact h

/-- How the numbers of a unit read on a common scale: `s * fvf ^ e * x + o`, or for degrees API the specific gravity
`(141.5 / (131.5 + x)) * s + o`. -/
structure Reading where
  s : Rat
  o : Rat
  e : Int
  api : Bool
deriving DecidableEq

def Reading.at (r : Reading) (φ x : Rat) : Rat :=
  if r.api then r.s * ((283 / 2) / (263 / 2 + x)) + r.o else r.s * φ ^ r.e * x + r.o

/-- the two formulas between API and specific gravity -/
def apiTo : CExp := .div (.lit (283 / 2)) (.add (.lit (263 / 2)) .x)
def apiFrom : CExp := .sub (.div (.lit (283 / 2)) .x) (.lit (263 / 2))

/-- the conversion multiplies by a number that is not zero -/
def Cv.linear : Cv → Bool
  | .fn e => match e.form with
    | some (m, k, _) => m ≠ 0 ∧ k = 0
    | none => false
  | .rev c => c.linear

/-- check that the conversion `c` from a unit that reads as `p` to one that reads as `q` respects the readings -/
def Cv.respects (p q : Reading) : Cv → Bool
  | .fn e =>
    if e = .x then p = q
    else if e = apiTo then p.api ∧ ¬ q.api ∧ p.s = q.s ∧ p.o = q.o ∧ q.e = 0
    else if e = apiFrom then q.api ∧ ¬ p.api ∧ p.s = q.s ∧ p.o = q.o ∧ p.e = 0
    else match e.form with
      | some (m, k, n) => ¬ p.api ∧ ¬ q.api ∧ q.s * m = p.s ∧ q.e + n = p.e ∧ (k = 0 ∨ q.e = 0) ∧ q.s * k + q.o = p.o
      | none => false
  | .rev c => c.linear && c.respects q p

theorem Reading.inj {r : Reading} (hs : r.s ≠ 0) {φ : Rat} (hφ : φ ≠ 0) {x y : Rat} (h : r.at φ x = r.at φ y) : x = y := by
  unfold Reading.at at h
  split at h
  · have h1 : ((283 : Rat) / 2) / (263 / 2 + x) = (283 / 2) / (263 / 2 + y) := by
      have : r.s * ((283 / 2) / (263 / 2 + x)) = r.s * ((283 / 2) / (263 / 2 + y)) := by linarith
      exact mul_left_cancel₀ hs this
    by_cases hx : (263 : Rat) / 2 + x = 0
    · by_cases hy : (263 : Rat) / 2 + y = 0
      · linarith
      · rw [hx, div_zero] at h1
        have := div_ne_zero (show (283 : Rat) / 2 ≠ 0 by norm_num) hy
        exact absurd h1.symm this
    · by_cases hy : (263 : Rat) / 2 + y = 0
      · rw [hy, div_zero] at h1
        exact absurd h1 (div_ne_zero (show (283 : Rat) / 2 ≠ 0 by norm_num) hx)
      · rw [div_eq_div_iff hx hy] at h1
        have := mul_left_cancel₀ (show (283 : Rat) / 2 ≠ 0 by norm_num) h1
        linarith
  · have h1 : r.s * φ ^ r.e * x = r.s * φ ^ r.e * y := by linarith
    exact mul_left_cancel₀ (mul_ne_zero hs (zpow_ne_zero _ hφ)) h1

/-- linear conversions multiply by a number that is not zero -/
theorem Cv.linear_eval {c : Cv} (h : c.linear = true) {φ : Rat} (hφ : φ ≠ 0) :
    ∃ M : Rat, M ≠ 0 ∧ ∀ x, c.eval (some φ) x = .ok (M * x) := by
  induction c with
  | fn e =>
    simp only [Cv.linear] at h
    split at h
    · next m k n hf =>
      simp only [decide_eq_true_eq] at h
      obtain ⟨hm, rfl⟩ := h
      exact ⟨m * φ ^ n, mul_ne_zero hm (zpow_ne_zero _ hφ), fun x => by rw [Cv.eval, CExp.form_eval hf hφ, add_zero]⟩
    · cases h
  | rev c ih =>
    obtain ⟨M, hM, hx⟩ := ih h
    refine ⟨M⁻¹, inv_ne_zero hM, fun x => ?_⟩
    simp only [Cv.eval, revFn, hx, bind, Except.bind, pdiv, mul_one, hM, if_false]
    congr 1
    rw [div_eq_mul_inv, mul_comm]

/-- the reverse of a linear conversion that respects the readings respects them -/
theorem Cv.rev_reads {c : Cv} (hl : c.linear = true) {p q : Reading} {φ : Rat} (hφ : φ ≠ 0)
    (h : ∀ x y, c.eval (some φ) x = .ok y → q.at φ y = p.at φ x) {x y : Rat}
    (hxy : (Cv.rev c).eval (some φ) x = .ok y) : p.at φ y = q.at φ x := by
  obtain ⟨M, hM, hx⟩ := Cv.linear_eval hl hφ
  simp only [Cv.eval, revFn, hx, bind, Except.bind, pdiv, mul_one, hM, if_false] at hxy
  cases hxy
  rw [← h _ _ (hx _)]
  congr 1
  field_simp

theorem Cv.respects_reads {c : Cv} {p q : Reading} (h : c.respects p q = true) {φ : Rat} (hφ : φ ≠ 0) {x y : Rat}
    (hxy : c.eval (some φ) x = .ok y) : q.at φ y = p.at φ x := by
  induction c generalizing p q x y with
  | fn e =>
    simp only [Cv.respects] at h
    split at h
    · next he =>
      subst he
      simp only [decide_eq_true_eq] at h
      subst h
      simp only [Cv.eval, CExp.eval] at hxy
      cases hxy
      rfl
    · split at h
      · next he =>
        subst he
        simp only [decide_eq_true_eq, Bool.not_eq_true] at h
        obtain ⟨h1, h2, h3, h4, h5⟩ := h
        simp only [Cv.eval, CExp.eval, apiTo, bind, Except.bind, pdiv] at hxy
        split at hxy
        · cases hxy
        · cases hxy
          simp only [Reading.at, h1, h2, h3, h4, h5, if_true, zpow_zero, mul_one]
          simp
      · split at h
        · next he =>
          subst he
          simp only [decide_eq_true_eq, Bool.not_eq_true] at h
          obtain ⟨h1, h2, h3, h4, h5⟩ := h
          simp only [Cv.eval, CExp.eval, apiFrom, bind, Except.bind, pdiv] at hxy
          split at hxy
          · cases hxy
          · next hx =>
            have hx0 : x ≠ 0 := by
              intro h0
              subst h0
              simp at hx
            rw [if_neg hx0] at hx
            cases hx
            cases hxy
            simp only [Reading.at, h1, h2, h3, h4, h5, if_true, zpow_zero, mul_one]
            simp only [Bool.false_eq_true, if_false]
            have : (263 : Rat) / 2 + (283 / 2 / x - 263 / 2) = 283 / 2 / x := by ring
            rw [this]
            field_simp
        · split at h
          · next m k n hf =>
            simp only [decide_eq_true_eq, Bool.not_eq_true] at h
            obtain ⟨h1, h2, h3, h4, h5, h6⟩ := h
            rw [Cv.eval, CExp.form_eval hf hφ] at hxy
            cases hxy
            simp only [Reading.at, h1, h2, Bool.false_eq_true, if_false]
            rw [← h3, ← h4, ← h6, zpow_add₀ hφ]
            rcases h5 with rfl | h5
            · ring
            · rw [h5, zpow_zero]; ring
          · cases h
  | rev c ih =>
    simp only [Cv.respects, Bool.and_eq_true] at h
    exact Cv.rev_reads h.1 hφ (fun x y hy => ih h.2 hy) hxy

end Unyts

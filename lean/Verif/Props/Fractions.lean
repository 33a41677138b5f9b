import Verif.Lemmas.Fractions
import Verif.Props.Unitary

/- Computations with fractions and percentages. -/
namespace Unyts
open Spec Quantity

namespace Spec.Share

/-- the quantity a computation gives -/
theorem result {L : Lib} (h : ShippedClasses L) (e : Share) (he : e.Written) :
    e.unit ∈ fractionNames ++ percentNames ∧ e.run L = (.ok ⟨shareKind e.unit, e.unit, e.number⟩, L) := by
  have conv : ∀ {u : Str}, u ∈ fractionNames ++ percentNames → ∀ v w : Rat, (shareValue u v = w) →
      construct (shareKind u) v u L = (.ok ⟨shareKind u, u, w⟩, L) := fun hu v w hw => hw ▸ share_construct h hu v
  have val : ∀ (u : Str) (v : Rat), shareValue u (if shareKind u = .percentage then v * 100 else v) = v := by
    intro u v; unfold shareValue shareKind; by_cases hp : u ∈ percentNames <;> simp [hp]
  have put : ∀ {u : Str}, u ∈ fractionNames ++ percentNames → ∀ w : Rat,
      (if shareKind u = .percentage then construct (shareKind u) (w * 100) u else construct (shareKind u) w u) L =
        (.ok ⟨shareKind u, u, w⟩, L) := fun {u} hu w => by
    by_cases hk : shareKind u = .percentage
    · rw [if_pos hk]; exact conv hu _ _ (by simpa only [if_pos hk] using val u w)
    · rw [if_neg hk]; exact conv hu _ _ (by simpa only [if_neg hk] using val u w)
  have kinds : ∀ u : Str, shareKind u = .percentage ∨ shareKind u = .dimensionless := fun u => by
    unfold shareKind; by_cases hp : u ∈ percentNames <;> simp [hp]
  have quo : ∀ x y : Rat, y ≠ 0 → pdiv x y = .ok (x / y) := fun x y hy => by simp [pdiv, hy]
  have stay : ∀ {e : Share}, e.unit ∈ fractionNames ++ percentNames → mulTo (shareKind e.unit) = fun _ => none := fun {e} hu => by
    funext k
    rcases kinds e.unit with hk | hk <;> rw [hk] <;> simp [mulTo]
  have like : ∀ (op : Rat → Rat → Rat) {e f : Share}, ((e.unit ∈ percentNames ∧ f.unit ∈ fractionNames) ∨
      (e.unit ∈ fractionNames ∧ f.unit ∈ percentNames) ∨ (e.unit ∈ fractionNames ∧ e.unit = f.unit)) →
      e.unit ∈ fractionNames ++ percentNames → f.unit ∈ fractionNames ++ percentNames →
      addLike op ⟨shareKind e.unit, e.unit, e.number⟩ ⟨shareKind f.unit, f.unit, f.number⟩ L =
        (.ok (.qty ⟨shareKind e.unit, e.unit, op e.number f.number⟩), L) := by
    intro op e f hc hu hu'
    have := put hu (op e.number f.number)
    have frac : ∀ {u : Str}, u ∈ fractionNames → shareKind u = .dimensionless := fun hm => by
      unfold shareKind; rw [if_neg ((fraction_names _ (List.mem_append_left _ hm)).2.2.2.2.2.2.2 hm)]
    have perc : ∀ {u : Str}, u ∈ percentNames → shareKind u = .percentage := fun hm => by
      unfold shareKind; rw [if_pos hm]
    rcases hc with ⟨h1, h2⟩ | ⟨h1, h2⟩ | ⟨h1, h2⟩
    · rw [perc h1] at this ⊢
      rw [frac h2]
      simp only [if_true] at this
      simp [addLike, unitless, bind, this, pure]
    · rw [frac h1] at this ⊢
      rw [perc h2]
      simp at this
      simp [addLike, unitless, bind, this, pure]
    · rw [← h2, frac h1] at *
      simp at this
      simp [addLike, bind, this, pure]
  have negate : ∀ {u : Str}, u ∈ fractionNames ++ percentNames → ∀ w : Rat,
      (⟨shareKind u, u, w⟩ : Quantity).neg L = (.ok ⟨shareKind u, u, -w⟩, L) := fun {u} hu w => by
    have := put hu (-w)
    rcases kinds u with hk | hk <;> simp only [hk, Quantity.neg, if_true] at this ⊢
    · rw [← this]; congr 1; ring
    · simpa using this
  have absolute : ∀ {u : Str}, u ∈ fractionNames ++ percentNames → ∀ w : Rat,
      (⟨shareKind u, u, w⟩ : Quantity).abs L = (.ok ⟨shareKind u, u, if w < 0 then -w else w⟩, L) := fun {u} hu w => by
    have := put hu (if w < 0 then -w else w)
    rcases kinds u with hk | hk <;> simp only [hk, Quantity.abs, if_true] at this ⊢
    · exact this
    · simpa using this
  induction e with
  | units x u => exact ⟨he, share_units h he x⟩
  | neg e ih =>
    obtain ⟨hu, hr⟩ := ih he
    refine ⟨hu, ?_⟩
    show (e.run >>= fun q => q.neg) L = _
    rw [PyM.run_bind_ok hr]
    exact negate hu _
  | abs e ih =>
    obtain ⟨hu, hr⟩ := ih he
    refine ⟨hu, ?_⟩
    show (e.run >>= fun q => q.abs) L = _
    rw [PyM.run_bind_ok hr]
    exact absolute hu _
  | change e u ih =>
    obtain ⟨hu, hr⟩ := ih he.1
    refine ⟨he.2, ?_⟩
    show (e.run >>= fun q => q.to u >>= Program.quantity) L = _
    rw [PyM.run_bind_ok hr, PyM.run_bind_ok (share_to h he.2 (share_unitless _ _))]
    rfl
  | addNum e x ih =>
    obtain ⟨hu, hr⟩ := ih he
    refine ⟨hu, ?_⟩
    show (e.run >>= fun q => q.addNum x) L = _
    rw [PyM.run_bind_ok hr]
    exact put hu _
  | subNum e x ih =>
    obtain ⟨hu, hr⟩ := ih he
    refine ⟨hu, ?_⟩
    show (e.run >>= fun q => q.subNum x) L = _
    rw [PyM.run_bind_ok hr]
    exact put hu _
  | rsubNum x e ih =>
    obtain ⟨hu, hr⟩ := ih he
    refine ⟨hu, ?_⟩
    show (e.run >>= fun q => q.neg >>= fun q => q.addNum x) L = _
    rw [PyM.run_bind_ok hr, PyM.run_bind_ok (negate hu _)]
    have := put hu (-e.number + x)
    rw [show -e.number + x = x - e.number by ring] at this
    rw [show (x - e.number : Rat) = (rsubNum x e).number from rfl] at this
    unfold Quantity.addNum
    rw [show (-e.number + x : Rat) = (rsubNum x e).number from by show _ = x - e.number; ring]
    exact this
  | mulNum e x ih =>
    obtain ⟨hu, hr⟩ := ih he
    refine ⟨hu, ?_⟩
    show (e.run >>= fun q => q.mulNum x) L = _
    rw [PyM.run_bind_ok hr]
    exact put hu _
  | divNum e x ih =>
    obtain ⟨hu, hr⟩ := ih he.1
    refine ⟨hu, ?_⟩
    show (e.run >>= fun q => q.divNum x) L = (.ok ⟨shareKind e.unit, e.unit, e.number / x⟩, L)
    rw [PyM.run_bind_ok hr]
    unfold Quantity.divNum
    rw [PyM.run_bind_ok (a := e.number / x) (s' := L) (by simp [PyM.lift, quo _ _ he.2])]
    have h1 := put hu (e.number / x)
    have h2 := share_units h hu (e.number / x)
    rcases kinds e.unit with hk | hk
    · simpa only [hk, if_true] using h1
    · have hv := val e.unit (e.number / x)
      rw [hk, if_neg (by decide)] at hv
      rw [hk, hv] at h2
      simpa [hk] using h2
  | rdivNum x e ih =>
    obtain ⟨hu, hr⟩ := ih he.1
    refine ⟨hu, ?_⟩
    show (e.run >>= fun q => q.rdivNum x) L = (.ok ⟨shareKind e.unit, e.unit, x / e.number⟩, L)
    rw [PyM.run_bind_ok hr]
    unfold Quantity.rdivNum
    rw [PyM.run_bind_ok (a := x / e.number) (s' := L) (by simp [PyM.lift, quo _ _ he.2])]
    have hv := val e.unit (x / e.number)
    have h2 := fun v => share_units h hu v
    rcases kinds e.unit with hk | hk
    · rw [hk, if_pos rfl] at hv
      simp only [hk, if_true] at h2 ⊢
      rw [h2, hv]
    · rw [hk, if_neg (by decide)] at hv
      simp only [hk] at h2 ⊢
      simp [h2, hv]
  | mul e f ihe ihf =>
    obtain ⟨hu, hr⟩ := ihe he.1
    obtain ⟨hu', hr'⟩ := ihf he.2
    refine ⟨hu, ?_⟩
    show (e.run >>= fun p => f.run >>= fun q => p.mul q >>= Program.quantity) L = _
    rw [PyM.run_bind_ok hr, PyM.run_bind_ok hr']
    have hm : (⟨shareKind e.unit, e.unit, e.number⟩ : Quantity).mulBase ⟨shareKind f.unit, f.unit, f.number⟩ L =
        (.ok ⟨shareKind e.unit, e.unit, e.number * f.number⟩, L) := by
      have := put hu (e.number * f.number)
      unfold Quantity.mulBase
      simp only [share_unitless]
      rcases kinds e.unit with hk | hk <;> simpa [hk] using this
    have : (⟨shareKind e.unit, e.unit, e.number⟩ : Quantity).mul ⟨shareKind f.unit, f.unit, f.number⟩ L =
        (.ok (.qty ⟨shareKind e.unit, e.unit, e.number * f.number⟩), L) := by
      unfold Quantity.mul
      rw [PyM.run_bind_ok hm, stay hu]; rfl
    rw [PyM.run_bind_ok this]; rfl
  | div e f ihe ihf =>
    obtain ⟨hu, hr⟩ := ihe he.1
    obtain ⟨hu', hr'⟩ := ihf he.2.1
    refine ⟨hu, ?_⟩
    show (e.run >>= fun p => f.run >>= fun q => p.div q >>= Program.quantity) L = _
    rw [PyM.run_bind_ok hr, PyM.run_bind_ok hr']
    have hm : (⟨shareKind e.unit, e.unit, e.number⟩ : Quantity).divLike pdiv ⟨shareKind f.unit, f.unit, f.number⟩ L =
        (.ok ⟨shareKind e.unit, e.unit, e.number / f.number⟩, L) := by
      have := put hu (e.number / f.number)
      unfold Quantity.divLike
      simp only [share_unitless]
      rcases kinds e.unit with hk | hk <;> simpa [hk, quo _ _ he.2.2, PyM.lift, bind] using this
    have : (⟨shareKind e.unit, e.unit, e.number⟩ : Quantity).div ⟨shareKind f.unit, f.unit, f.number⟩ L =
        (.ok (.qty ⟨shareKind e.unit, e.unit, e.number / f.number⟩), L) := by
      unfold Quantity.div
      have hd : divTo (shareKind e.unit) (shareKind f.unit) = none := by rcases kinds e.unit with hk | hk <;> rw [hk] <;> simp [divTo]
      rw [PyM.run_bind_ok hm]
      simp only [hd]; rfl
    rw [PyM.run_bind_ok this]; rfl
  | add e f ihe ihf =>
    obtain ⟨hu, hr⟩ := ihe he.1
    obtain ⟨hu', hr'⟩ := ihf he.2.1
    refine ⟨hu, ?_⟩
    show (e.run >>= fun p => f.run >>= fun q => addLike (· + ·) p q >>= Program.quantity) L = _
    rw [PyM.run_bind_ok hr, PyM.run_bind_ok hr', PyM.run_bind_ok (like (· + ·) he.2.2 hu hu')]
    rfl
  | sub e f ihe ihf =>
    obtain ⟨hu, hr⟩ := ihe he.1
    obtain ⟨hu', hr'⟩ := ihf he.2.1
    refine ⟨hu, ?_⟩
    show (e.run >>= fun p => f.run >>= fun q => addLike (· - ·) p q >>= Program.quantity) L = _
    rw [PyM.run_bind_ok hr, PyM.run_bind_ok hr', PyM.run_bind_ok (like (· - ·) he.2.2 hu hu')]
    rfl

end Spec.Share

/-- C128. In every state of the shipped library, a computation with fractions and percentages in any order and nesting
gives a quantity that shows the number the arithmetic gives (times 100 when it is a percentage), in the unit of the first
operand, and leaves the library as it is. Missing: sums and differences of two percentages (`C128_sum_fails`) and of
fractions under two names. -/
theorem C128_shares_partial {L : Lib} (h : ShippedClasses L) (e : Share) (he : e.Written) :
    ∃ q, e.run L = (.ok q, L) ∧ q.unit = e.unit ∧
      (e.unit ∈ percentNames → q.kind = .percentage ∧ q.value = e.number ∧ shown q = e.number * 100) ∧
      (e.unit ∉ percentNames → q.kind = .dimensionless ∧ q.value = e.number ∧ shown q = e.number) := by
  obtain ⟨-, hr⟩ := Share.result h e he
  refine ⟨_, hr, rfl, fun hp => ?_, fun hp => ?_⟩
  · have hk : shareKind e.unit = .percentage := by unfold shareKind; rw [if_pos hp]
    exact ⟨hk, rfl, by simp [shown, hk]⟩
  · have hk : shareKind e.unit = .dimensionless := by unfold shareKind; rw [if_neg hp]
    exact ⟨hk, rfl, by simp [shown, hk]⟩

/-- `(2 - units(25, '%').to('ratio')) / (units(0.5, 'fraction') + units(20, 'percent') * 3)`, times a hundred, as a
percentage: (2 - 0.25) / 1.1 -/
example : ∃ L : Lib, ShippedClasses L ∧ ∃ q, (Share.change (.div (.rsubNum 2 (.change (.units 25 s!!"%") s!!"ratio"))
    (.add (.units (1 / 2) s!!"fraction") (.mulNum (.units 20 s!!"percent") 3))) s!!"perc").run L = (.ok q, L) ∧
    q.unit = s!!"perc" ∧ shown q = 1750 / 11 := by
  obtain ⟨L, h, -⟩ := classes_ex
  obtain ⟨q, h1, h2, h3, -⟩ := C128_shares_partial h (Share.change (.div (.rsubNum 2 (.change (.units 25 s!!"%") s!!"ratio"))
    (.add (.units (1 / 2) s!!"fraction") (.mulNum (.units 20 s!!"percent") 3))) s!!"perc") (by
      refine ⟨⟨⟨(by decide : _ ∈ _), (by decide)⟩, ⟨(by decide : _ ∈ _), (by decide : _ ∈ _), Or.inr (Or.inl ⟨by decide, by decide⟩)⟩, ?_⟩, by decide⟩
      simp only [Share.number]
      rw [if_neg (by decide), if_pos (by decide)]
      norm_num)
  refine ⟨L, h, q, h1, h2, ?_⟩
  rw [(h3 (by decide)).2.2]
  simp only [Share.number]
  rw [if_pos (by decide), if_neg (by decide), if_pos (by decide)]
  norm_num

/-- C128 is false of two percentages: `units(x, u) + units(y, v)` is not x + y percent but a hundredth of it when the
two names are the same, for instance 0.3 % for ten and twenty percent. -/
theorem C128_sum_fails {L : Lib} (h : ShippedClasses L) {u : Str} (hu : u ∈ percentNames) (x y : Rat) :
    ∃ q, (Share.add (.units x u) (.units y u)).run L = (.ok q, L) ∧ shown q = (x + y) / 100 ∧
      (Share.add (.units x u) (.units y u)).number * 100 = x + y := by
  have hm : u ∈ fractionNames ++ percentNames := List.mem_append_right _ hu
  have hk : shareKind u = .percentage := by unfold shareKind; rw [if_pos hu]
  have hc := fun v => share_construct h hm v
  have hx := fun v => share_units h hm v
  have hv : ∀ v, shareValue u v = v / 100 := fun v => by unfold shareValue; rw [if_pos hu]
  simp only [hk, hv] at hc hx
  refine ⟨⟨.percentage, u, (x / 100 + y / 100) / 100⟩, ?_, by simp [shown]; ring, ?_⟩
  · show (Unyts.units x u >>= fun p => Unyts.units y u >>= fun q => addLike (· + ·) p q >>= Program.quantity) L = _
    have ha : addLike (· + ·) ⟨.percentage, u, x / 100⟩ ⟨.percentage, u, y / 100⟩ L =
        (.ok (.qty ⟨.percentage, u, (x / 100 + y / 100) / 100⟩), L) := by
      simp [addLike, bind, hc, pure]
    rw [PyM.run_bind_ok (hx x), PyM.run_bind_ok (hx y), PyM.run_bind_ok ha]
    rfl
  · simp only [Share.number, if_pos hu]; ring

end Unyts

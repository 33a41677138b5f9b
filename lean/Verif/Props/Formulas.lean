import Verif.Spec.Formulas
import Verif.Props.Fractions
import Verif.Props.Tuples

/- C130: fractions and percentages of quantities. -/
namespace Unyts
open Spec Quantity

theorem share_kinds (u : Str) : shareKind u = .percentage ∨ shareKind u = .dimensionless := by
  unfold shareKind; by_cases hp : u ∈ percentNames <;> simp [hp]

section
variable {w0 : World} {n : Str} {P : Str → Prop} {size : Str → Rat}

/-- formulas with these names do what they mean -/
theorem Gauged.formula (h : Gauged w0 n P size) (hg : WF w0.net) (e : Formula) (he : ∀ u ∈ e.names, P u) (hz : e.Defined)
    {L : Lib} (hL : Running w0 L) :
    P e.unit ∧ ∃ L', e.run L = (.ok ⟨.std n, e.unit, e.amount size / size e.unit⟩, L') ∧ Running w0 L' := by
  induction e generalizing L with
  | units x u =>
    have hu := he u (by simp [Formula.names])
    refine ⟨hu, L, ?_, hL⟩
    simp only [Formula.run, Formula.unit, Formula.amount]
    rw [h.units hL hu, mul_div_cancel_right₀ _ (h.pos u hu).ne']
  | add e f ihe ihf =>
    obtain ⟨pe, L1, e1, r1⟩ := ihe (fun u hu => he u (by simp [Formula.names, hu])) hz.1 hL
    obtain ⟨pf, L2, e2, r2⟩ := ihf (fun u hu => he u (by simp [Formula.names, hu])) hz.2 r1
    obtain ⟨L3, e3, r3⟩ := h.addLike hg r2 pe pf (· + ·) (e.amount size / size e.unit) (f.amount size / size f.unit)
    refine ⟨pe, L3, ?_, r3⟩
    simp only [Formula.run, Formula.unit, Formula.amount]
    rw [PyM.run_bind_ok e1, PyM.run_bind_ok e2, PyM.run_bind_ok (by unfold Quantity.add; exact e3), div_mul_cancel₀ _ (h.pos _ pf).ne', add_div]
    rfl
  | sub e f ihe ihf =>
    obtain ⟨pe, L1, e1, r1⟩ := ihe (fun u hu => he u (by simp [Formula.names, hu])) hz.1 hL
    obtain ⟨pf, L2, e2, r2⟩ := ihf (fun u hu => he u (by simp [Formula.names, hu])) hz.2 r1
    obtain ⟨L3, e3, r3⟩ := h.addLike hg r2 pe pf (· - ·) (e.amount size / size e.unit) (f.amount size / size f.unit)
    refine ⟨pe, L3, ?_, r3⟩
    simp only [Formula.run, Formula.unit, Formula.amount]
    rw [PyM.run_bind_ok e1, PyM.run_bind_ok e2, PyM.run_bind_ok (by unfold Quantity.sub; exact e3), div_mul_cancel₀ _ (h.pos _ pf).ne', sub_div]
    rfl
  | neg e ih =>
    obtain ⟨pe, L1, e1, r1⟩ := ih he hz hL
    refine ⟨pe, L1, ?_, r1⟩
    simp only [Formula.run, Formula.unit, Formula.amount]
    rw [PyM.run_bind_ok e1]
    show Unyts.construct (.std n) _ _ L1 = _
    rw [h.construct r1 pe, neg_div]
  | change e u ih =>
    obtain ⟨pe, L1, e1, r1⟩ := ih (fun v hv => he v (by simp [Formula.names, hv])) hz hL
    have hu := he u (by simp [Formula.names])
    obtain ⟨L2, e2, r2⟩ := h.to hg r1 pe hu (e.amount size / size e.unit)
    refine ⟨hu, L2, ?_, r2⟩
    simp only [Formula.run, Formula.unit, Formula.amount]
    rw [PyM.run_bind_ok e1, PyM.run_bind_ok e2, div_mul_cancel₀ _ (h.pos _ pe).ne']
    rfl
  | mulNum e x ih =>
    obtain ⟨pe, L1, e1, r1⟩ := ih he hz hL
    refine ⟨pe, L1, ?_, r1⟩
    simp only [Formula.run, Formula.unit, Formula.amount]
    rw [PyM.run_bind_ok e1]
    show Unyts.construct (.std n) _ _ L1 = _
    rw [h.construct r1 pe, mul_div_right_comm]
  | divNum e x ih =>
    obtain ⟨pe, L1, e1, r1⟩ := ih he hz.1 hL
    refine ⟨pe, L1, ?_, r1⟩
    simp only [Formula.run, Formula.unit, Formula.amount]
    rw [PyM.run_bind_ok e1]
    unfold Quantity.divNum
    rw [PyM.run_bind_ok (a := e.amount size / size e.unit / x) (s' := L1) (by simp [pdiv, hz.2, PyM.lift])]
    show Unyts.units _ _ L1 = _
    rw [h.units r1 pe, div_right_comm]
  | mulShare e s ih =>
    obtain ⟨pe, L1, e1, r1⟩ := ih he hz.1 hL
    obtain ⟨hu, hs⟩ := Share.result r1.2 s hz.2
    refine ⟨pe, L1, ?_, r1⟩
    simp only [Formula.run, Formula.unit, Formula.amount]
    rw [PyM.run_bind_ok e1, PyM.run_bind_ok hs]
    have hm : (⟨.std n, e.unit, e.amount size / size e.unit⟩ : Quantity).mulBase ⟨shareKind s.unit, s.unit, s.number⟩ L1 =
        (.ok ⟨.std n, e.unit, e.amount size / size e.unit * s.number⟩, L1) := by
      unfold Quantity.mulBase
      simp only [share_unitless]
      simp [unitless, h.construct r1 pe]
    have : (⟨.std n, e.unit, e.amount size / size e.unit⟩ : Quantity).mul ⟨shareKind s.unit, s.unit, s.number⟩ L1 =
        (.ok (.qty ⟨.std n, e.unit, e.amount size / size e.unit * s.number⟩), L1) := by
      unfold Quantity.mul
      have hd : mulTo (.std n) (shareKind s.unit) = none := by rcases share_kinds s.unit with hk | hk <;> rw [hk] <;> simp [mulTo]
      rw [PyM.run_bind_ok hm]; simp only [hd]; rfl
    rw [PyM.run_bind_ok this, mul_div_right_comm]; rfl
  | shareMul s e ih =>
    obtain ⟨hu, hs⟩ := Share.result hL.2 s hz.2
    obtain ⟨pe, L1, e1, r1⟩ := ih he hz.1 hL
    refine ⟨pe, L1, ?_, r1⟩
    simp only [Formula.run, Formula.unit, Formula.amount]
    rw [PyM.run_bind_ok hs, PyM.run_bind_ok e1]
    have hm : (⟨shareKind s.unit, s.unit, s.number⟩ : Quantity).mulBase ⟨.std n, e.unit, e.amount size / size e.unit⟩ L1 =
        (.ok ⟨.std n, e.unit, s.number * (e.amount size / size e.unit)⟩, L1) := by
      unfold Quantity.mulBase
      simp only [share_unitless]
      simp [unitless, h.construct r1 pe]
    have : (⟨shareKind s.unit, s.unit, s.number⟩ : Quantity).mul ⟨.std n, e.unit, e.amount size / size e.unit⟩ L1 =
        (.ok (.qty ⟨.std n, e.unit, s.number * (e.amount size / size e.unit)⟩), L1) := by
      unfold Quantity.mul
      have hd : mulTo (shareKind s.unit) (.std n) = none := by rcases share_kinds s.unit with hk | hk <;> rw [hk] <;> simp [mulTo]
      rw [PyM.run_bind_ok hm]; simp only [hd]; rfl
    rw [PyM.run_bind_ok this, mul_div_assoc]; rfl
  | divShare e s ih =>
    obtain ⟨pe, L1, e1, r1⟩ := ih he hz.1 hL
    obtain ⟨hu, hs⟩ := Share.result r1.2 s hz.2.1
    refine ⟨pe, L1, ?_, r1⟩
    simp only [Formula.run, Formula.unit, Formula.amount]
    rw [PyM.run_bind_ok e1, PyM.run_bind_ok hs]
    have hm : (⟨.std n, e.unit, e.amount size / size e.unit⟩ : Quantity).divLike pdiv ⟨shareKind s.unit, s.unit, s.number⟩ L1 =
        (.ok ⟨.std n, e.unit, e.amount size / size e.unit / s.number⟩, L1) := by
      unfold Quantity.divLike
      simp only [share_unitless]
      simp [unitless, h.construct r1 pe, pdiv, hz.2.2, PyM.lift, bind]
    have : (⟨.std n, e.unit, e.amount size / size e.unit⟩ : Quantity).div ⟨shareKind s.unit, s.unit, s.number⟩ L1 =
        (.ok (.qty ⟨.std n, e.unit, e.amount size / size e.unit / s.number⟩), L1) := by
      unfold Quantity.div
      have hd : divTo (.std n) (shareKind s.unit) = none := by rcases share_kinds s.unit with hk | hk <;> rw [hk] <;> simp [divTo]
      rw [PyM.run_bind_ok hm]; simp only [hd]; rfl
    rw [PyM.run_bind_ok this, div_right_comm]; rfl

end

/-- C130. In every state of the shipped library, for every quantity of any class that is no fraction or percentage itself and every
calculation with fractions and percentages: `q * s` and `s * q` are that share of the quantity, and `q / s` the quantity of which it is
that share, in the class and the unit of the quantity; nothing changes. -/
theorem C130_share {L : Lib} (h : ShippedClasses L) {q : Quantity} (hq : ¬ q.unitless = true) (hv : Valid L q) (s : Share)
    (hs : s.Written) :
    ∃ p, s.run L = (.ok p, L) ∧ q.mul p L = (.ok (.qty { q with value := q.value * s.number }), L) ∧
      p.mul q L = (.ok (.qty { q with value := s.number * q.value }), L) ∧
      (s.number ≠ 0 → q.div p L = (.ok (.qty { q with value := q.value / s.number }), L)) := by
  obtain ⟨-, hr⟩ := Share.result h s hs
  have hk : q.kind ≠ .percentage := fun e => hq (by simp [unitless, e])
  have c := fun v => construct_valid hv v
  simp only [if_neg hk] at c
  have hq' : q.unitless = false := by simpa using hq
  have m1 : mulTo q.kind (shareKind s.unit) = none := by rcases share_kinds s.unit with hk | hk <;> rw [hk] <;> simp [mulTo]
  have m2 : mulTo (shareKind s.unit) q.kind = none := by rcases share_kinds s.unit with hk | hk <;> rw [hk] <;> simp [mulTo]
  have m3 : divTo q.kind (shareKind s.unit) = none := by rcases share_kinds s.unit with hk | hk <;> rw [hk] <;> simp [divTo]
  refine ⟨_, hr, ?_, ?_, fun hz => ?_⟩
  · have : q.mulBase ⟨shareKind s.unit, s.unit, s.number⟩ L = (.ok { q with value := q.value * s.number }, L) := by
      unfold Quantity.mulBase
      simp only [share_unitless, hq']
      simp [hk, c]
    unfold Quantity.mul
    rw [PyM.run_bind_ok this]; simp only [m1]; rfl
  · have : (⟨shareKind s.unit, s.unit, s.number⟩ : Quantity).mulBase q L = (.ok { q with value := s.number * q.value }, L) := by
      unfold Quantity.mulBase
      simp only [share_unitless, hq']
      simp [c]
    unfold Quantity.mul
    rw [PyM.run_bind_ok this]; simp only [m2]; rfl
  · have : q.divLike pdiv ⟨shareKind s.unit, s.unit, s.number⟩ L = (.ok { q with value := q.value / s.number }, L) := by
      unfold Quantity.divLike
      simp only [share_unitless, hq']
      simp [hk, c, pdiv, hz, PyM.lift, bind]
    unfold Quantity.div
    rw [PyM.run_bind_ok this]; simp only [m3]; rfl

/-- C130 within computations, in units with a standard size: after `import unyts` and any conversions and questions, a computation of
sums, differences, changes of unit and shares gives the amount the arithmetic gives, in the unit of its first quantity. -/
theorem C130_formulas_partial {w0 : World} (hw : Started w0) (hg : 17 ≤ w0.par.maxGenerations) (hφ : w0.fvf ≠ some 0) {n : Str}
    {t : List (Str × Rat)} (hn : (n, t) ∈ sizeTables) (size : Str → Rat) {L : Lib} (hL : Running w0 L) (e : Formula)
    (he : ∀ u ∈ e.names, (u, size u) ∈ t) (hz : e.Defined) :
    ∃ q L', e.run L = (.ok q, L') ∧ q.kind = .std n ∧ q.unit = e.unit ∧ amountOf size q = e.amount size ∧ Running w0 L' := by
  have hG := gauged_table hw hg hφ hn size
  obtain ⟨pu, L', e1, r⟩ := hG.formula hw.fresh.wf e he hz hL
  exact ⟨_, L', e1, rfl, rfl, div_mul_cancel₀ _ (hG.pos _ pu).ne', r⟩

/-- C130 within computations, for all the single built-in names of the classes with proportional units, by sizes that are the same for
every process and every history; so do two computations compare. -/
theorem C130_sizes_partial : ∃ size : Str → Rat, (∀ n ∈ amountQuantities, ∀ u, BuiltIn n u → 0 < size u) ∧
    ∀ w0, Started w0 → w0.fvf ≠ some 0 → ∀ n ∈ amountQuantities, ∀ names : List Str,
      (∀ u ∈ names, BuiltIn n u ∧ CleanName u ∧ ∀ k, BuiltIn k u → k = n) →
      (∀ u ∈ names, ∀ v ∈ names, Reach (LinkedName w0.net) u v) →
      ∀ e : Formula, (∀ u ∈ e.names, u ∈ names) → e.Defined → ∀ L, Running w0 L →
      ∃ q L', e.run L = (.ok q, L') ∧ q.kind = .std n ∧ q.unit = e.unit ∧ amountOf size q = e.amount size ∧ Running w0 L' ∧
        ∀ f : Formula, (∀ u ∈ f.names, u ∈ names) → f.Defined → ∃ p L2, f.run L' = (.ok p, L2) ∧
          ∀ c : Cmp, ∃ L3, q.compare c p L2 = (.ok (c.holds (e.amount size) (f.amount size)), L3) ∧ Running w0 L3 := by
  refine ⟨scaleOf, fun n hn u hu => (amount_reading hn hu).2, ?_⟩
  intro w0 hw hφ n hn names h1 h2 e he hz L hL
  have hG : Gauged w0 n (fun u => u ∈ names) scaleOf := gauged_amount hw hφ hn h1 fun a b ha hb => h2 a ha b hb
  obtain ⟨pu, L', e1, r⟩ := hG.formula hw.fresh.wf e he hz hL
  refine ⟨_, L', e1, rfl, rfl, div_mul_cancel₀ _ (hG.pos _ pu).ne', r, fun f hf hzf => ?_⟩
  obtain ⟨pv, L2, e2, r2⟩ := hG.formula hw.fresh.wf f hf hzf r
  refine ⟨_, L2, e2, fun c => ?_⟩
  obtain ⟨L3, h3, r3⟩ := hG.compare hw.fresh.wf r2 pu pv c (e.amount scaleOf / scaleOf e.unit) (f.amount scaleOf / scaleOf f.unit)
  refine ⟨L3, ?_, r3⟩
  rw [h3, div_mul_cancel₀ _ (hG.pos _ pu).ne', div_mul_cancel₀ _ (hG.pos _ pv).ne']

/-- 20 % of a mile and 40 yards divided by a half, in feet -/
def partOfMile : Formula := .change (.add (.shareMul (.units 20 s!!"%") (.units 1 s!!"mile"))
  (.divShare (.units 40 s!!"yard") (.change (.units 50 s!!"percent") s!!"fraction"))) s!!"foot"

example : ∃ w L, Started w ∧ Running w L ∧ ∃ q, (partOfMile.run L).1 = .ok q ∧ q.unit = s!!"foot" ∧
    amountOf lengthSize q = 1296 * lengthSize s!!"foot" := by
  obtain ⟨w, hw, hp, hf⟩ := started_ex
  obtain ⟨L, _, hL⟩ := hw.running
  have h1 : lengthSize s!!"mile" = 201168 / 125 := by decide +kernel
  have h2 : lengthSize s!!"yard" = 1143 / 1250 := by decide +kernel
  have h4 : lengthSize s!!"foot" = 381 / 1250 := by decide +kernel
  obtain ⟨q, L', e, -, hu, ha, -⟩ := C130_formulas_partial hw (by rw [hp]; decide) (by rw [hf]; decide) (n := s!!"Length")
    (t := standardSizes[0]) (by decide +kernel) lengthSize hL partOfMile (by
      simp only [partOfMile, Formula.names]
      decide +kernel) (by
      refine ⟨⟨trivial, (by decide : _ ∈ _)⟩, trivial, ⟨(by decide : _ ∈ _), by decide⟩, ?_⟩
      simp only [Share.number]
      rw [if_pos (by decide)]; norm_num)
  refine ⟨w, L, hw, hL, q, congrArg Prod.fst e, hu, ?_⟩
  rw [ha]
  simp only [partOfMile, Formula.amount, Share.number, h1, h2, h4]
  rw [if_pos (by decide), if_pos (by decide)]
  norm_num

/-- twelve miles meet the hypotheses of `C130_share` -/
example : ∃ L, ShippedClasses L ∧ Valid L ⟨.std s!!"Length", s!!"mile", 12⟩ := by
  obtain ⟨L, h, -⟩ := classes_ex
  refine ⟨L, h, ?_⟩
  obtain ⟨n, hn, -⟩ := id h
  obtain ⟨l, h1, h2⟩ := (hn.unsigned (u := s!!"mile") ⟨by decide, by decide⟩).2
    ⟨builtIn_mem (q := s!!"Length") (by decide +kernel) (by decide), by decide⟩
  show s!!"mile" ∈ L.names s!!"Length"
  unfold Lib.names; rw [h1]; exact h2

end Unyts

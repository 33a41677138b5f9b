import Verif.Spec.Remainders
import Verif.Props.Division
import Verif.Props.Tuples

/- C132: whole parts and remainders on the shipped library. -/
namespace Unyts
open Spec Quantity

theorem divided (a : Rat) {b : Rat} (hb : b ≠ 0) : ∃ k : Int, ∃ r, floorDiv a b = .ok k ∧ pyMod a b = .ok r ∧ Divided a b k r := by
  have h1 : floorDiv a b = .ok ((a / b).floor : Rat) := by unfold floorDiv; rw [if_neg hb]
  have h2 : pyMod a b = .ok (a - b * (a / b).floor) := by unfold pyMod; rw [if_neg hb]
  obtain ⟨-, -, h3, h4⟩ := floor_mod h1 h2
  exact ⟨_, _, h1, h2, by ring, h3, h4⟩

theorem Spec.Divided.scale {a b : Rat} {k : Int} {r : Rat} (h : Divided a b k r) {s : Rat} (hs : 0 < s) :
    Divided (a * s) (b * s) k (r * s) := by
  obtain ⟨h1, h2, h3⟩ := h
  refine ⟨by rw [h1]; ring, fun hb => ?_, fun hb => ?_⟩
  · have := h2 (pos_of_mul_pos_left hb hs.le)
    exact ⟨mul_nonneg this.1 hs.le, mul_lt_mul_of_pos_right this.2 hs⟩
  · have hb' : b < 0 := by
      by_contra hc
      exact absurd hb (not_lt.2 (mul_nonneg (not_lt.1 hc) hs.le))
    have := h3 hb'
    exact ⟨mul_lt_mul_of_pos_right this.1 hs, mul_nonpos_of_nonpos_of_nonneg this.2 hs.le⟩

/-- C132 for numbers. For every quantity its class accepts, in every state, and every number but zero: `q // x` holds a whole number and
`q % x` what is over, in the class and unit of `q`; nothing changes. -/
theorem C132_numbers {L : Lib} {q : Quantity} (hv : Valid L q) {x : Rat} (hx : x ≠ 0) :
    ∃ k : Int, ∃ r, q.floordivNum x L = (.ok { q with value := k }, L) ∧ q.modNum x L = (.ok { q with value := r }, L) ∧
      Divided q.value x k r := by
  obtain ⟨k, r, h1, h2, h⟩ := divided q.value hx
  have c := fun v => construct_valid hv v
  have p : ∀ v : Rat, (if q.kind = .percentage then construct q.kind (v * 100) q.unit else construct q.kind v q.unit) L =
      (.ok { q with value := v }, L) := by
    intro v
    by_cases hk : q.kind = .percentage
    · rw [if_pos hk, c, if_pos hk, mul_div_cancel_right₀ _ (by norm_num)]
    · rw [if_neg hk, c, if_neg hk]
  refine ⟨k, r, ?_, ?_, h⟩
  · unfold floordivNum; rw [h1]; exact p k
  · unfold modNum; rw [h2]; exact p r

/-- C132: by zero both raise ZeroDivisionError, and nothing changes. -/
theorem C132_zero (q : Quantity) (L : Lib) :
    q.floordivNum 0 L = (.error .zeroDivision, L) ∧ q.modNum 0 L = (.error .zeroDivision, L) := by
  constructor
  · unfold floordivNum; exact PyM.run_bind_error (by simp [floorDiv, PyM.lift])
  · unfold modNum; exact PyM.run_bind_error (by simp [pyMod, PyM.lift])

section
variable {w0 : World} {n : Str} {P : Str → Prop} {size : Str → Rat}

theorem Gauged.mod (h : Gauged w0 n P size) (hg : WF w0.net) {L : Lib} (hL : Running w0 L) {a b : Str} (ha : P a) (hb : P b)
    (x : Rat) {y : Rat} (hy : y ≠ 0) :
    ∃ k : Int, ∃ r L', Quantity.mod ⟨.std n, a, x⟩ ⟨.std n, b, y⟩ L = (.ok ⟨.std n, a, r⟩, L') ∧ Running w0 L' ∧
      Divided (x * size a) (y * size b) k (r * size a) := by
  have hz : y * size b / size a ≠ 0 := div_ne_zero (mul_ne_zero hy (h.pos b hb).ne') (h.pos a ha).ne'
  obtain ⟨k, r, -, e, hd⟩ := divided x hz
  have hd := hd.scale (h.pos a ha)
  rw [div_mul_cancel₀ _ (h.pos a ha).ne'] at hd
  have u : ∀ v, (⟨.std n, a, v⟩ : Quantity).unitless = false := fun _ => by simp [unitless]
  have u' : (⟨.std n, b, y⟩ : Quantity).unitless = false := by simp [unitless]
  unfold Quantity.mod
  rw [u, u', if_neg (by simp), if_neg (by simp), if_neg (by simp)]
  by_cases hab : a = b
  · subst hab
    rw [mul_div_cancel_right₀ _ (h.pos a ha).ne'] at e
    refine ⟨k, r, L, ?_, hL, hd⟩
    rw [if_pos rfl]
    simp only [e]
    exact (PyM.run_bind_ok (by simp [PyM.lift])).trans (h.units hL ha r)
  · obtain ⟨L1, e1, r1⟩ := h.convertible hg hL hb ha
    obtain ⟨L2, e2, r2⟩ := h.convert hg r1 hb ha .typeError y
    refine ⟨k, r, L2, ?_, r2, hd⟩
    rw [if_neg hab, PyM.run_bind_ok e1, if_pos rfl, PyM.run_bind_ok e2]
    simp only [e]
    exact (PyM.run_bind_ok (by simp [PyM.lift])).trans (h.units r2 ha r)

theorem Gauged.restOver (h : Gauged w0 n P size) (hg : WF w0.net) (ps : List Quantity)
    (hp : ∀ p ∈ ps, p.kind = .std n ∧ P p.unit ∧ p.value ≠ 0) {a : Str} (ha : P a) : ∀ (x : Rat) {L : Lib}, Running w0 L →
    ∃ ks r L', Spec.restOver ⟨.std n, a, x⟩ ps L = (.ok ⟨.std n, a, r⟩, L') ∧ Running w0 L' ∧
      TakenApart (x * size a) (ps.map (amountOf size)) ks (r * size a) := by
  induction ps with
  | nil => exact fun x L hL => ⟨[], x, L, rfl, hL, .nil _⟩
  | cons p ps ih =>
    intro x L hL
    obtain ⟨h2, h3, h4⟩ := hp p (by simp)
    obtain ⟨pk, pu, pv⟩ := p
    simp only at h2 h3 h4
    subst h2
    obtain ⟨k, r, L1, e1, r1, d⟩ := h.mod hg hL ha h3 x h4
    obtain ⟨ks, r', L2, e2, r2, t⟩ := ih (fun q hq => hp q (by simp [hq])) r r1
    refine ⟨k :: ks, r', L2, ?_, r2, .cons d t⟩
    unfold Spec.restOver
    rw [PyM.run_bind_ok e1, e2]

end

/-- C132, what being taken apart comes to: the parts with their counts, and what is over, make up the amount; of an amount that is not
negative every count is not negative, and what is over is less than every part. -/
theorem C132_whole {a r : Rat} {bs : List Rat} {ks : List Int} (h : TakenApart a bs ks r) :
    ks.length = bs.length ∧ a = ((ks.zip bs).map fun p => (p.1 : Rat) * p.2).sum + r ∧
      (0 ≤ a → (∀ b ∈ bs, 0 < b) → 0 ≤ r ∧ r ≤ a ∧ (∀ b ∈ bs, r < b) ∧ ∀ k ∈ ks, 0 ≤ k) := by
  induction h with
  | nil a => exact ⟨rfl, by simp, fun ha _ => ⟨ha, le_refl _, by simp, by simp⟩⟩
  | @cons a b s r k bs ks hd _ ih =>
    obtain ⟨i1, i2, i3⟩ := ih
    refine ⟨by simp [i1], ?_, fun ha hb => ?_⟩
    · rw [hd.1]
      simp only [List.zip_cons_cons, List.map_cons, List.sum_cons]
      rw [add_assoc, ← i2]
    · have b0 := hb b (by simp)
      have s0 := hd.2.1 b0
      obtain ⟨j1, j2, j3, j4⟩ := i3 s0.1 fun c hc => hb c (by simp [hc])
      have k0 : 0 ≤ k := by
        by_contra hk
        have : (k : Rat) ≤ -1 := by exact_mod_cast (show k ≤ -1 by omega)
        nlinarith [hd.1]
      have ks0 : (0 : Rat) ≤ k := by exact_mod_cast k0
      refine ⟨j1, ?_, ?_, ?_⟩
      · nlinarith [hd.1, mul_nonneg ks0 b0.le]
      · intro c hc
        rcases List.mem_cons.1 hc with rfl | hc
        · linarith
        · exact j3 c hc
      · intro c hc
        rcases List.mem_cons.1 hc with rfl | hc
        · exact k0
        · exact j4 c hc

section
variable {w0 : World} (hw : Started w0) (hg : 17 ≤ w0.par.maxGenerations) (hφ : w0.fvf ≠ some 0) {n : Str} {l : List (Str × Rat)}
  (hn : (n, l) ∈ sizeTables) (size : Str → Rat) {L : Lib} (hL : Running w0 L)
include hw hg hφ hn hL

/-- C132. After `import unyts` and any conversions and questions, for quantities of one class in units with a standard size: `q % p`
is, in the unit of `q`, what is over when the amount of `q` is divided by the amount of `p`; and `q % a % b % ...` is what is over when
`q` is taken apart by the amounts of `a`, `b`, ... in turn. -/
theorem C132_apart_partial (q : Quantity) (ps : List Quantity) (hr : InTable n l size (q :: ps)) (hz : ∀ p ∈ ps, p.value ≠ 0) :
    ∃ ks r L', restOver q ps L = (.ok r, L') ∧ r.kind = .std n ∧ r.unit = q.unit ∧ Running w0 L' ∧
      TakenApart (amountOf size q) (ps.map (amountOf size)) ks (amountOf size r) := by
  obtain ⟨h1, h2⟩ := hr q (by simp)
  obtain ⟨ks, r, L', e, hr', t⟩ := (gauged_table hw hg hφ hn size).restOver hw.fresh.wf ps
    (fun p hp => ⟨(hr p (by simp [hp])).1, (hr p (by simp [hp])).2, hz p hp⟩) h2 q.value hL
  refine ⟨ks, ⟨.std n, q.unit, r⟩, L', ?_, rfl, rfl, hr', t⟩
  rw [← e, ← h1]

end

/-- C132 for all the single built-in names of the classes with proportional units, by sizes that are the same for every process and
every history. -/
theorem C132_sizes_partial : ∃ size : Str → Rat, (∀ n ∈ amountQuantities, ∀ u, BuiltIn n u → 0 < size u) ∧
    ∀ w0, Started w0 → w0.fvf ≠ some 0 → ∀ n ∈ amountQuantities, ∀ q ps, InClass w0 n (q :: ps) → (∀ p ∈ ps, p.value ≠ 0) →
      ∀ L, Running w0 L → ∃ ks r L', restOver q ps L = (.ok r, L') ∧ r.kind = .std n ∧ r.unit = q.unit ∧ Running w0 L' ∧
        TakenApart (amountOf size q) (ps.map (amountOf size)) ks (amountOf size r) := by
  refine ⟨scaleOf, fun n hn u hu => (amount_reading hn hu).2, ?_⟩
  intro w0 hw hφ n hn q ps h hz L hL
  obtain ⟨ks, r, L', e, hr', t⟩ := (h.gauged hw hφ hn).restOver hw.fresh.wf ps
    (fun p hp => ⟨(h.1 p (by simp [hp])).1, ⟨p, by simp [hp], rfl⟩, hz p hp⟩) ⟨q, by simp, rfl⟩ q.value hL
  refine ⟨ks, ⟨.std n, q.unit, r⟩, L', ?_, rfl, rfl, hr', t⟩
  rw [← e, ← (h.1 q (by simp)).1]

/-- 100 inches by yards and feet: two yards, two feet and four inches -/
example : TakenApart 100 [36, 12] [2, 2] 4 :=
  .cons (s := 28) ⟨by norm_num, by norm_num, by norm_num⟩ (.cons (s := 4) ⟨by norm_num, by norm_num, by norm_num⟩ (.nil _))

example : ∃ w L, Started w ∧ Running w L ∧ ∃ ks r L',
    restOver ⟨.std s!!"Length", s!!"inch", 100⟩ [⟨.std s!!"Length", s!!"yard", 1⟩, ⟨.std s!!"Length", s!!"foot", 1⟩] L = (.ok r, L') ∧
      r.unit = s!!"inch" ∧ TakenApart (100 * lengthSize s!!"inch") [lengthSize s!!"yard", lengthSize s!!"foot"] ks (amountOf lengthSize r) := by
  obtain ⟨w, hw, hp, hf⟩ := started_ex
  obtain ⟨L, _, hL⟩ := hw.running
  obtain ⟨ks, r, L', e, -, hu, -, t⟩ := C132_apart_partial hw (by rw [hp]; decide) (by rw [hf]; decide) (n := s!!"Length")
    (l := standardSizes[0]) (by decide +kernel) lengthSize hL ⟨.std s!!"Length", s!!"inch", 100⟩
    [⟨.std s!!"Length", s!!"yard", 1⟩, ⟨.std s!!"Length", s!!"foot", 1⟩] (by
      intro q hq
      simp only [List.mem_cons, List.not_mem_nil, or_false] at hq
      rcases hq with rfl | rfl | rfl <;> exact ⟨rfl, by decide +kernel⟩) (by
      intro q hq
      simp only [List.mem_cons, List.not_mem_nil, or_false] at hq
      rcases hq with rfl | rfl <;> norm_num)
  refine ⟨w, L, hw, hL, ks, r, L', e, hu, ?_⟩
  simpa [amountOf] using t

end Unyts

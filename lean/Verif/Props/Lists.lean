import Verif.Spec.Lists
import Verif.Props.Temperatures

/- C129: looking for a quantity in a list. -/
namespace Unyts
open Spec Quantity

section
variable {w0 : World} {I : Quantity → Prop} {val : Quantity → Rat}

theorem Ranked.equal (h : Ranked w0 I val) {L : Lib} (hL : Running w0 L) {x q : Quantity} (hx : I x) (hq : I q) :
    ∃ L', x.compare .eq q L = (.ok (decide (val x = val q)), L') ∧ Running w0 L' := by
  obtain ⟨L', e, r⟩ := h L hL .eq x q hx hq
  refine ⟨L', ?_, r⟩
  rw [e]
  by_cases hv : val x = val q <;> simp [Cmp.holds, hv]

theorem Ranked.found (h : Ranked w0 I val) (q : Quantity) (hq : I q) (l : List Quantity) (hl : ∀ x ∈ l, I x) {L : Lib}
    (hL : Running w0 L) : FoundBy w0 val q l L := by
  induction l generalizing L with
  | nil =>
    refine ⟨⟨false, L, rfl, by simp, hL⟩, ⟨L, rfl, hL⟩, ?_, fun _ => ⟨rfl, rfl⟩⟩
    intro a x b e
    simp at e
  | cons y r ih =>
    obtain ⟨L1, e1, r1⟩ := h.equal hL (hl y (by simp)) hq
    have ih := ih (fun x hx => hl x (List.mem_cons_of_mem _ hx)) r1
    by_cases hv : val y = val q
    · have e2 : y.compare .eq q L = (.ok true, L1) := by rw [e1, decide_eq_true hv]
      obtain ⟨L2, e3, r3⟩ := ih.count
      refine ⟨⟨true, L1, ?_, by simpa using Or.inl hv, r1⟩, ⟨L2, ?_, r3⟩, ?_, fun hn => absurd hv (hn y (by simp))⟩
      · unfold pyIn; rw [PyM.run_bind_ok e2, if_pos rfl]; rfl
      · unfold pyCount; rw [PyM.run_bind_ok e2, if_pos rfl, PyM.run_bind_ok e3]
        simp [hv]
      · intro a x b e hx hn
        cases a with
        | nil =>
          obtain ⟨rfl, rfl⟩ := List.cons.inj e
          refine ⟨⟨L1, ?_, r1⟩, L1, ?_, r1⟩
          · unfold pyIndex; rw [PyM.run_bind_ok e2, if_pos rfl]; rfl
          · unfold pyRemove; rw [PyM.run_bind_ok e2, if_pos rfl]; rfl
        | cons z a =>
          obtain ⟨rfl, -⟩ := List.cons.inj e
          exact absurd hv (hn _ (by simp))
    · have e2 : y.compare .eq q L = (.ok false, L1) := by rw [e1, decide_eq_false hv]
      obtain ⟨b0, L3, e4, h4, r4⟩ := ih.isIn
      obtain ⟨L2, e3, r3⟩ := ih.count
      refine ⟨⟨b0, L3, ?_, by rw [h4]; simp [hv], r4⟩, ⟨L2, ?_, r3⟩, ?_, fun hn => ?_⟩
      · unfold pyIn; rw [PyM.run_bind_ok e2, if_neg (by simp)]; exact e4
      · unfold pyCount; rw [PyM.run_bind_ok e2, if_neg (by simp), e3]
        simp [hv]
      · intro a x b e hx hn
        cases a with
        | nil =>
          obtain ⟨rfl, rfl⟩ := List.cons.inj e
          exact absurd hx hv
        | cons z a =>
          obtain ⟨rfl, e'⟩ := List.cons.inj e
          obtain ⟨⟨L4, e5, r5⟩, L5, e6, r6⟩ := ih.first a x b e' hx fun w hw => hn w (List.mem_cons_of_mem _ hw)
          refine ⟨⟨L4, ?_, r5⟩, L5, ?_, r6⟩
          · unfold pyIndex; rw [PyM.run_bind_ok e2, if_neg (by simp), PyM.run_bind_ok e5]; rfl
          · unfold pyRemove; rw [PyM.run_bind_ok e2, if_neg (by simp), PyM.run_bind_ok e6]; rfl
      · obtain ⟨n1, n2⟩ := ih.none fun w hw => hn w (List.mem_cons_of_mem _ hw)
        constructor
        · unfold pyIndex; rw [PyM.run_bind_ok e2, if_neg (by simp)]
          exact congrArg Prod.fst (PyM.run_bind_error (Prod.ext n1 rfl))
        · unfold pyRemove; rw [PyM.run_bind_ok e2, if_neg (by simp)]
          exact congrArg Prod.fst (PyM.run_bind_error (Prod.ext n2 rfl))

end

/-- C129. After `import unyts` and any conversions and questions, a quantity is found in a list of quantities of its class, in
units with a standard size, where an entry holds the same amount, whatever the units: `in`, `count`, `index`, `remove`. -/
theorem C129_found_partial {w0 : World} (hw : Started w0) (hg : 17 ≤ w0.par.maxGenerations) (hφ : w0.fvf ≠ some 0) {n : Str}
    {t : List (Str × Rat)} (hn : (n, t) ∈ sizeTables) (size : Str → Rat) {L : Lib} (hL : Running w0 L) (q : Quantity)
    (l : List Quantity) (hr : InTable n t size (q :: l)) : FoundBy w0 (amountOf size) q l L :=
  ((gauged_table hw hg hφ hn size).ranked hw.fresh.wf).found q (hr q (by simp)) l (fun x hx => hr x (by simp [hx])) hL

/-- C129 for all the single built-in names of the classes with proportional units, by sizes that are the same for every process and
every history. -/
theorem C129_sizes_partial : ∃ size : Str → Rat, (∀ n ∈ amountQuantities, ∀ u, BuiltIn n u → 0 < size u) ∧
    ∀ w0, Started w0 → w0.fvf ≠ some 0 → ∀ n ∈ amountQuantities, ∀ q l, InClass w0 n (q :: l) → ∀ L, Running w0 L →
      FoundBy w0 (amountOf size) q l L := by
  refine ⟨scaleOf, fun n hn u hu => (amount_reading hn hu).2, ?_⟩
  intro w0 hw hφ n hn q l h L hL
  have hr : ∀ x ∈ q :: l, x.kind = .std n ∧ ∃ p ∈ q :: l, p.unit = x.unit := fun x hx => ⟨(h.1 x hx).1, x, hx, rfl⟩
  exact ((h.gauged hw hφ hn).ranked hw.fresh.wf).found q (hr q (by simp)) l (fun x hx => hr x (by simp [hx])) hL

/-- C129 for temperatures: 32 Fahrenheit are found where 0 Celsius stand. -/
theorem C129_temperatures {w0 : World} (hw : Started w0) (hφ : w0.fvf ≠ some 0) {L : Lib} (hL : Running w0 L) (q : Quantity)
    (l : List Quantity) (hr : ∀ x ∈ q :: l, IsTemperature x) : FoundBy w0 kelvins q l L :=
  (temperature_ranked hw hφ).found q (hr q (by simp)) l (fun x hx => hr x (by simp [hx])) hL

/-- C129 fails when an entry of another class comes first: `in`, `count`, `index` and `remove` raise TypeError, in every state,
whether the quantity is further on in the list or not. -/
theorem C129_mixed_fails (p q : Quantity) (l : List Quantity) (h : p.kind ≠ q.kind) (L : Lib) :
    (pyIn q (p :: l) L).1 = .error .typeError ∧ (pyCount q (p :: l) L).1 = .error .typeError ∧
      (pyIndex q (p :: l) L).1 = .error .typeError ∧ (pyRemove q (p :: l) L).1 = .error .typeError := by
  refine ⟨?_, ?_, ?_, ?_⟩ <;> simp only [pyIn, pyCount, pyIndex, pyRemove, Quantity.compare, if_neg h] <;> rfl

/-- C129 fails for numbers: a number is found where an entry has that number in any unit. -/
theorem C129_number_fails (x : Rat) (l : List Quantity) : pyInNum x l = true ↔ ∃ q ∈ l, q.value = x := by
  induction l with
  | nil => simp [pyInNum]
  | cons q r ih => simp [pyInNum, Quantity.compareNum, Cmp.holds, ih]

/-- among a mile, 200 yards, 3000 feet and 1000 yards, 600 feet are the second entry, and two miles are none -/
example : ∃ w L, Started w ∧ Running w L ∧ (pyIndex ⟨.std s!!"Length", s!!"foot", 600⟩ marks L).1 = .ok 1 ∧
    (pyIndex ⟨.std s!!"Length", s!!"mile", 2⟩ marks L).1 = .error .valueError := by
  obtain ⟨w, hw, hp, hf⟩ := started_ex
  obtain ⟨L, _, hL⟩ := hw.running
  have h1 : lengthSize s!!"mile" = 201168 / 125 := by decide +kernel
  have h2 : lengthSize s!!"yard" = 1143 / 1250 := by decide +kernel
  have h4 : lengthSize s!!"foot" = 381 / 1250 := by decide +kernel
  have hr : ∀ q : Quantity, q = ⟨.std s!!"Length", s!!"foot", 600⟩ ∨ q = ⟨.std s!!"Length", s!!"mile", 2⟩ →
      InTable s!!"Length" standardSizes[0] lengthSize (q :: marks) := by
    rintro q (rfl | rfl) <;> unfold InTable <;> decide +kernel
  have found := fun q hq => C129_found_partial hw (by rw [hp]; decide) (by rw [hf]; decide) (n := s!!"Length") (by decide +kernel)
    lengthSize hL q marks (hr q hq)
  refine ⟨w, L, hw, hL, ?_, ?_⟩
  · obtain ⟨⟨L', e, -⟩, -⟩ := (found _ (.inl rfl)).first [⟨.std s!!"Length", s!!"mile", 1⟩] ⟨.std s!!"Length", s!!"yard", 200⟩ _ rfl
      (by simp only [amountOf, h2, h4]; norm_num)
      (by
        intro y hy
        obtain rfl := List.mem_singleton.1 hy
        simp only [amountOf, h1, h4]; norm_num)
    rw [e]; rfl
  · refine ((found _ (.inr rfl)).none ?_).1
    intro y hy
    simp only [marks, List.mem_cons, List.not_mem_nil, or_false] at hy
    rcases hy with rfl | rfl | rfl | rfl <;> simp only [amountOf, h1, h2, h4] <;> norm_num

/-- 0 Celsius are among the readings: 32 Fahrenheit are the first of them. `C129_sizes_partial` applies to the watts and
horsepowers beside `C108_sizes_partial`. -/
example : ∃ w L, Started w ∧ Running w L ∧ (pyRemove ⟨.std s!!"Temperature", s!!"Celsius", 0⟩ readings L).1 = .ok readings.tail := by
  obtain ⟨w, hw, hp, hf⟩ := started_ex
  obtain ⟨L, _, hL⟩ := hw.running
  have hf := C129_temperatures hw (by rw [hf]; decide) hL ⟨.std s!!"Temperature", s!!"Celsius", 0⟩ readings (by
    intro x hx
    rcases List.mem_cons.1 hx with rfl | hx
    · unfold IsTemperature; decide +kernel
    · exact readings_ok x hx)
  obtain ⟨-, L', e, -⟩ := hf.first [] _ readings.tail rfl (by decide +kernel) (by simp)
  exact ⟨w, L, hw, hL, congrArg Prod.fst e⟩

end Unyts

import Verif.Props.ShippedQuantity
import Verif.Model.Tuples
import Verif.Spec.Totals
import Mathlib.Data.List.Perm.Basic
import Mathlib.Algebra.BigOperators.Group.List.Basic

/- C107: sums of unlike quantities. C108: `sum`. C109: `max`, `min` and `sorted`. -/
namespace Unyts
open Spec Quantity

/-! ### unlike quantities -/

theorem tupleLoop_unlike {op : Quantity → PyM Lib Obj} {k : Kind} (qs : List Quantity) (h : ∀ q ∈ qs, q.kind ≠ k) (res : List Item)
    (L : Lib) : tupleLoop op k (qs.map .qty) res false L = (.ok (res ++ qs.map fun q => .num q.value, false), L) := by
  induction qs generalizing res with
  | nil => simp [tupleLoop]
  | cons q r ih =>
    simp only [List.map_cons, tupleLoop]
    rw [if_neg (h q (by simp)), ih (fun q hq => h q (by simp [hq]))]
    simp

/-- a quantity and a tuple without its class -/
theorem withTuple_unlike (op : Quantity → PyM Lib Obj) (p : Quantity) (qs : List Quantity) (h : ∀ q ∈ qs, q.kind ≠ p.kind) (L : Lib) :
    withTuple op p (qs.map .qty) L = (.ok (qs.map .qty ++ [.qty p]), L) := by
  unfold withTuple
  rw [PyM.run_bind_ok (tupleLoop_unlike qs h [] L)]
  rfl

/-- C107. A sum of quantities of different classes, none of them a plain number or a percentage, is the tuple of its terms, in
order and unchanged, in every state of the library, and changes nothing. -/
theorem C107_unlike (p q : Quantity) (r : List Quantity) (hu : ∀ x ∈ p :: q :: r, ¬ x.unitless = true)
    (hk : (p :: q :: r).Pairwise fun x y => x.kind ≠ y.kind) (L : Lib) :
    (Total.qty p).plusAll (q :: r) L = (.ok (.tuple ((p :: q :: r).map .qty)), L) := by
  have more : ∀ (r l : List Quantity), (l ++ r).Pairwise (fun x y => x.kind ≠ y.kind) →
      (Total.tuple (l.map .qty)).plusAll r L = (.ok (.tuple ((l ++ r).map .qty)), L) := by
    intro r
    induction r with
    | nil => intro l _; simp [Total.plusAll]
    | cons x r ih =>
      intro l h
      have h1 : ∀ y ∈ l, y.kind ≠ x.kind := fun y hy => (List.pairwise_append.1 h).2.2 y hy x (by simp)
      unfold Total.plusAll
      have : (Total.tuple (l.map .qty)).plus x L = (.ok (.tuple ((l ++ [x]).map .qty)), L) := by
        simp only [Total.plus, addTuple]
        rw [PyM.run_bind_ok (withTuple_unlike _ x l h1 L)]
        simp
      rw [PyM.run_bind_ok this, ih (l ++ [x]) (by simpa using h)]
      simp
  have hne : q.kind ≠ p.kind := fun e => (List.pairwise_cons.1 hk).1 q (by simp) e.symm
  have up := hu p (by simp)
  have uq := hu q (by simp)
  have hp : p.add q L = (.ok (.pair p q), L) := by
    unfold Quantity.add addLike
    rw [if_neg hne, if_neg (by simp [up]), if_neg (by simp [uq]), if_neg uq]
    rfl
  unfold Total.plusAll
  have : (Total.qty p).plus q L = (.ok (.tuple ([p, q].map .qty)), L) := by
    simp only [Total.plus]
    rw [PyM.run_bind_ok hp]
    rfl
  rw [PyM.run_bind_ok this, more r [p, q] (by simpa using hk)]
  rfl

example (L : Lib) : (Total.qty ⟨.std s!!"Length", s!!"m", 1⟩).plusAll [⟨.std s!!"Time", s!!"s", 2⟩, ⟨.std s!!"Weight", s!!"kg", 3⟩] L =
    (.ok (.tuple [.qty ⟨.std s!!"Length", s!!"m", 1⟩, .qty ⟨.std s!!"Time", s!!"s", 2⟩, .qty ⟨.std s!!"Weight", s!!"kg", 3⟩]), L) :=
  C107_unlike _ _ _ (by decide) (by decide) L

/-- C107. So is Python's `sum` of such quantities, the first of them as its constructor leaves it. -/
theorem C107_sum_unlike (p q : Quantity) (r : List Quantity) (hu : ∀ x ∈ p :: q :: r, ¬ x.unitless = true)
    (hk : (p :: q :: r).Pairwise fun x y => x.kind ≠ y.kind) (L : Lib) (hv : Valid L p) :
    pySum (p :: q :: r) L = (.ok (.tuple ((p :: q :: r).map .qty)), L) := by
  have hp : p.kind ≠ .percentage := fun e => hu p (by simp) (by simp [unitless, e])
  have : (Total.num 0).plus p L = (.ok (.qty p), L) := by
    simp only [Total.plus, addNum]
    rw [if_neg hp, PyM.run_bind_ok (construct_valid hv _), if_neg hp, add_zero]
    rfl
  unfold pySum Total.plusAll
  rw [PyM.run_bind_ok this, C107_unlike p q r hu hk L]

/-- C107: not so when the class of the new term is already in the tuple: that entry is summed, but every other entry
loses its unit (`result += each` iterates over the quantity). -/
theorem C107_lost_fails {p q r s : Quantity} {L L' : Lib} (hq : q.kind = p.kind) (hs : p.add q L = (.ok (.qty s), L')) (hr : r.kind ≠ p.kind) :
    p.addTuple [.qty q, .qty r] L = (.ok [.qty s, .num r.value], L') := by
  unfold addTuple withTuple
  have : tupleLoop p.add p.kind [.qty q, .qty r] [] false L = (.ok ([.qty s, .num r.value], true), L') := by
    simp only [tupleLoop]
    rw [if_pos hq, PyM.run_bind_ok hs]
    simp only [if_neg hr]
    rfl
  rw [PyM.run_bind_ok this]
  rfl

/-- C107: and nothing can be added to what is left. -/
theorem C107_again_fails (p : Quantity) (s : Item) (x : Rat) (rest : List Item) (L : Lib) (hs : ∀ q, s = .qty q → q.kind ≠ p.kind) :
    (p.addTuple (s :: .num x :: rest) L).1 = .error .typeError := by
  unfold addTuple withTuple
  cases s with
  | num y => simp only [tupleLoop]; rfl
  | qty q =>
    simp only [tupleLoop, if_neg (hs q rfl)]; rfl

/-- C107: a difference between a quantity and a tuple without its class forgets the sign of the entries. -/
theorem C107_minus_fails (p : Quantity) (qs : List Quantity) (h : ∀ q ∈ qs, q.kind ≠ p.kind) (L : Lib) :
    p.subTuple (qs.map .qty) L = p.addTuple (qs.map .qty) L := by
  unfold subTuple addTuple
  rw [withTuple_unlike _ p qs h, withTuple_unlike _ p qs h]

/-- `units(3,'m') + (units(1,'m') + units(2,'s'))` is four meters and the bare number two -/
example : ∃ w L, Started w ∧ Running w L ∧
    ((⟨.std s!!"Length", s!!"m", 3⟩ : Quantity).addTuple
      [.qty ⟨.std s!!"Length", s!!"m", 1⟩, .qty ⟨.std s!!"Time", s!!"s", 2⟩] L).1 = .ok [.qty ⟨.std s!!"Length", s!!"m", 4⟩, .num 2] := by
  obtain ⟨w, hw, hp, hf⟩ := started_ex
  obtain ⟨L, _, hL⟩ := hw.running
  have hG := gauged_table hw (by rw [hp]; decide) (by rw [hf]; decide) (n := s!!"Length") (l := standardSizes[0]) (by decide +kernel) lengthSize
  obtain ⟨L', e, _⟩ := hG.addLike hw.fresh.wf hL (a := s!!"m") (b := s!!"m") (by decide +kernel) (by decide +kernel) (· + ·) 3 1
  refine ⟨w, L, hw, hL, ?_⟩
  have : lengthSize s!!"m" = 1 := by decide +kernel
  rw [this] at e
  have e2 := C107_lost_fails (p := ⟨.std s!!"Length", s!!"m", 3⟩) (q := ⟨.std s!!"Length", s!!"m", 1⟩) (r := ⟨.std s!!"Time", s!!"s", 2⟩) rfl (by unfold Quantity.add; exact e) (by decide)
  exact (congrArg Prod.fst e2).trans (by norm_num)

/-! ### `sum` -/

section
variable {w0 : World} {n : Str} {P : Str → Prop} {size : Str → Rat}

theorem Gauged.plusAll (h : Gauged w0 n P size) (hg : WF w0.net) (r : List Quantity) (hr : ∀ q ∈ r, q.kind = .std n ∧ P q.unit)
    {u : Str} (hu : P u) (x : Rat) {L : Lib} (hL : Running w0 L) :
    ∃ L', (Total.qty ⟨.std n, u, x⟩).plusAll r L =
      (.ok (.qty ⟨.std n, u, (x * size u + (r.map (amountOf size)).sum) / size u⟩), L') ∧ Running w0 L' := by
  have s0 := (h.pos u hu).ne'
  induction r generalizing x L with
  | nil =>
    refine ⟨L, ?_, hL⟩
    simp only [List.map_nil, List.sum_nil, add_zero, mul_div_cancel_right₀ _ s0]
    rfl
  | cons q r ih =>
    obtain ⟨hk, hq⟩ := hr q (by simp)
    obtain ⟨k, v, y⟩ := q
    simp only at hk hq
    subst hk
    obtain ⟨L1, e1, r1⟩ := h.addLike hg hL hu hq (· + ·) x y
    obtain ⟨L2, e2, r2⟩ := ih (fun q hq => hr q (by simp [hq])) (x + y * size v / size u) r1
    refine ⟨L2, ?_, r2⟩
    unfold Total.plusAll
    have : (Total.qty ⟨.std n, u, x⟩).plus ⟨.std n, v, y⟩ L = (.ok (.qty ⟨.std n, u, x + y * size v / size u⟩), L1) := by
      simp only [Total.plus]
      rw [PyM.run_bind_ok (by unfold Quantity.add; exact e1)]
      rfl
    rw [PyM.run_bind_ok this, e2]
    simp only [List.map_cons, List.sum_cons, amountOf]
    rw [add_mul, div_mul_cancel₀ _ s0, add_assoc]

theorem Gauged.sum (h : Gauged w0 n P size) (hg : WF w0.net) (q : Quantity) (r : List Quantity)
    (hr : ∀ x ∈ q :: r, x.kind = .std n ∧ P x.unit) {L : Lib} (hL : Running w0 L) :
    ∃ L', pySum (q :: r) L = (.ok (.qty ⟨.std n, q.unit, ((q :: r).map (amountOf size)).sum / size q.unit⟩), L') ∧ Running w0 L' := by
  obtain ⟨hk, hq⟩ := hr q (by simp)
  obtain ⟨k, v, y⟩ := q
  simp only at hk hq
  subst hk
  obtain ⟨L1, e1, r1⟩ := h.plusAll hg r (fun x hx => hr x (by simp [hx])) hq y hL
  refine ⟨L1, ?_, r1⟩
  unfold pySum Total.plusAll
  have : (Total.num 0).plus ⟨.std n, v, y⟩ L = (.ok (.qty ⟨.std n, v, y⟩), L) := by
    simp only [Total.plus, addNum]
    rw [if_neg (by simp), PyM.run_bind_ok (h.construct hL hq _), add_zero]
    rfl
  rw [PyM.run_bind_ok this, e1]
  simp only [List.map_cons, List.sum_cons, amountOf]

/-! ### `max`, `min`, `sorted` -/

theorem Gauged.cmp (h : Gauged w0 n P size) (hg : WF w0.net) {L : Lib} (hL : Running w0 L) (c : Cmp) {p q : Quantity}
    (hp : p.kind = .std n ∧ P p.unit) (hq : q.kind = .std n ∧ P q.unit) :
    ∃ L', p.compare c q L = (.ok (c.holds (amountOf size p) (amountOf size q)), L') ∧ Running w0 L' := by
  obtain ⟨k, a, x⟩ := p
  obtain ⟨k', b, y⟩ := q
  simp only at hp hq
  obtain ⟨rfl, ha⟩ := hp
  obtain ⟨rfl, hb⟩ := hq
  exact h.compare hg hL ha hb c x y

/-- the quantities `I` compare as the values `val` -/
def Ranked (w0 : World) (I : Quantity → Prop) (val : Quantity → Rat) : Prop :=
  ∀ L : Lib, Running w0 L → ∀ (c : Cmp) (p q : Quantity), I p → I q →
    ∃ L', p.compare c q L = (.ok (c.holds (val p) (val q)), L') ∧ Running w0 L'

theorem Gauged.ranked (h : Gauged w0 n P size) (hg : WF w0.net) :
    Ranked w0 (fun q => q.kind = .std n ∧ P q.unit) (amountOf size) :=
  fun _ hL c _ _ hp hq => h.cmp hg hL c hp hq

variable {I : Quantity → Prop} {val : Quantity → Rat}

theorem Ranked.best (h : Ranked w0 I val) (c : Cmp) (hc : c = .gt ∨ c = .lt) (r : List Quantity) (q : Quantity)
    (hr : ∀ x ∈ q :: r, I x) {L : Lib} (hL : Running w0 L) :
    ∃ m L', pyBest c q r L = (.ok m, L') ∧ m ∈ q :: r ∧ (∀ x ∈ q :: r, ¬ c.holds (val x) (val m) = true) ∧
      Running w0 L' := by
  induction r generalizing q L with
  | nil =>
    refine ⟨q, L, rfl, by simp, ?_, hL⟩
    intro x hx
    obtain rfl := List.mem_singleton.1 hx
    rcases hc with rfl | rfl <;> simp [Cmp.holds]
  | cons y r ih =>
    obtain ⟨L1, e1, r1⟩ := h _ hL c _ _ (hr y (by simp)) (hr q (by simp))
    by_cases hb : c.holds (val y) (val q) = true
    · obtain ⟨m, L2, e2, hm, hall, r2⟩ := ih y (fun x hx => hr x (List.mem_cons_of_mem _ hx)) r1
      refine ⟨m, L2, ?_, by simp only [List.mem_cons] at hm ⊢; tauto, ?_, r2⟩
      · unfold pyBest
        rw [PyM.run_bind_ok e1, if_pos hb, e2]
      · intro x hx
        rcases List.mem_cons.1 hx with rfl | hx
        · have := hall y (by simp)
          rcases hc with rfl | rfl <;> simp [Cmp.holds] at this hb ⊢ <;> linarith
        · exact hall x hx
    · obtain ⟨m, L2, e2, hm, hall, r2⟩ := ih q (fun x hx => hr x (by simp only [List.mem_cons] at hx ⊢; tauto)) r1
      refine ⟨m, L2, ?_, by simp only [List.mem_cons] at hm ⊢; tauto, ?_, r2⟩
      · unfold pyBest
        rw [PyM.run_bind_ok e1, if_neg hb, e2]
      · intro x hx
        simp only [List.mem_cons] at hx
        rcases hx with rfl | rfl | hx
        · exact hall _ (by simp)
        · have := hall q (by simp)
          rcases hc with rfl | rfl <;> simp [Cmp.holds] at this hb ⊢ <;> linarith
        · exact hall x (by simp [hx])

theorem Ranked.insert (h : Ranked w0 I val) (q : Quantity) (l : List Quantity)
    (hr : ∀ x ∈ q :: l, I x) (hs : l.Pairwise fun x y => val x ≤ val y) {L : Lib}
    (hL : Running w0 L) :
    ∃ l' L', pyInsert q l L = (.ok l', L') ∧ l'.Perm (q :: l) ∧ (l'.Pairwise fun x y => val x ≤ val y) ∧
      (∀ v, l'.filter (fun x => val x = v) = (q :: l).filter fun x => val x = v) ∧ Running w0 L' := by
  induction l generalizing L with
  | nil => exact ⟨[q], L, rfl, .refl _, by simp, fun _ => rfl, hL⟩
  | cons x r ih =>
    obtain ⟨L1, e1, r1⟩ := h _ hL .lt _ _ (hr x (by simp)) (hr q (by simp))
    obtain ⟨hx, hs'⟩ := List.pairwise_cons.1 hs
    by_cases hb : Cmp.lt.holds (val x) (val q) = true
    · obtain ⟨l', L2, e2, hp, hsort, hst, r2⟩ := ih (fun y hy => hr y (by simp only [List.mem_cons] at hy ⊢; tauto)) hs' r1
      have hlt : val x < val q := by simpa [Cmp.holds] using hb
      refine ⟨x :: l', L2, ?_, (hp.cons x).trans (.swap q x r), ?_, ?_, r2⟩
      · unfold pyInsert
        rw [PyM.run_bind_ok e1, if_pos hb, PyM.run_bind_ok e2]; rfl
      · refine List.pairwise_cons.2 ⟨fun y hy => ?_, hsort⟩
        rcases List.mem_cons.1 (hp.mem_iff.1 hy) with rfl | hy
        · exact hlt.le
        · exact hx y hy
      · intro v
        simp only [List.filter_cons, hst]
        by_cases h1 : val x = v <;> by_cases h2 : val q = v <;> simp [h1, h2]
        exact absurd (h1.trans h2.symm) hlt.ne
    · refine ⟨q :: x :: r, L1, ?_, .refl _, ?_, fun _ => rfl, r1⟩
      · unfold pyInsert
        rw [PyM.run_bind_ok e1, if_neg hb]; rfl
      · have hle : val q ≤ val x := by simpa [Cmp.holds] using hb
        refine List.pairwise_cons.2 ⟨fun y hy => ?_, hs⟩
        rcases List.mem_cons.1 hy with rfl | hy
        · exact hle
        · exact hle.trans (hx y hy)

theorem Ranked.sorted (h : Ranked w0 I val) (l : List Quantity)
    (hr : ∀ x ∈ l, I x) {L : Lib} (hL : Running w0 L) :
    ∃ l' L', pySorted l L = (.ok l', L') ∧ l'.Perm l ∧ (l'.Pairwise fun x y => val x ≤ val y) ∧
      (∀ v, l'.filter (fun x => val x = v) = l.filter fun x => val x = v) ∧ Running w0 L' := by
  induction l with
  | nil => exact ⟨[], L, rfl, .refl _, .nil, fun _ => rfl, hL⟩
  | cons q r ih =>
    obtain ⟨l1, L1, e1, hp, hs, hst, r1⟩ := ih fun x hx => hr x (by simp [hx])
    obtain ⟨l2, L2, e2, hp2, hs2, hst2, r2⟩ := h.insert q l1
      (fun x hx => hr x (by
        rcases List.mem_cons.1 hx with rfl | hx
        · simp
        · exact List.mem_cons_of_mem _ (hp.mem_iff.1 hx))) hs r1
    refine ⟨l2, L2, ?_, hp2.trans (hp.cons q), hs2, ?_, r2⟩
    · unfold pySorted
      rw [PyM.run_bind_ok e1, e2]
    · intro v
      rw [hst2]; simp only [List.filter_cons, hst]

end

/-! ### on the shipped library -/

section
variable {w0 : World} (hw : Started w0) (hg : 17 ≤ w0.par.maxGenerations) (hφ : w0.fvf ≠ some 0) {n : Str} {l : List (Str × Rat)}
  (hn : (n, l) ∈ sizeTables) (size : Str → Rat) {L : Lib} (hL : Running w0 L)
include hw hg hφ hn hL

/-- C108. After `import unyts` and any conversions and questions, `sum` of a list of quantities of one class in units with a standard
size is the quantity, in the unit of the first, that holds the sum of the amounts. -/
theorem C108_sum_partial (q : Quantity) (r : List Quantity) (hr : InTable n l size (q :: r)) :
    ∃ L', pySum (q :: r) L = (.ok (.qty ⟨.std n, q.unit, ((q :: r).map (amountOf size)).sum / size q.unit⟩), L') ∧ Running w0 L' :=
  (gauged_table hw hg hφ hn size).sum hw.fresh.wf q r hr hL

/-- C108. The order of the list makes no difference to the amount. -/
theorem C108_order_partial (q q' : Quantity) (r r' : List Quantity) (hp : (q :: r).Perm (q' :: r')) (hr : InTable n l size (q :: r)) :
    ∃ s s' L1 L2, pySum (q :: r) L = (.ok (.qty s), L1) ∧ pySum (q' :: r') L1 = (.ok (.qty s'), L2) ∧
      s.unit = q.unit ∧ s'.unit = q'.unit ∧ amountOf size s = amountOf size s' := by
  have hr' : InTable n l size (q' :: r') := fun x hx => hr x (hp.mem_iff.2 hx)
  have hG := gauged_table hw hg hφ hn size
  obtain ⟨L1, e1, r1⟩ := hG.sum hw.fresh.wf q r hr hL
  obtain ⟨L2, e2, _⟩ := hG.sum hw.fresh.wf q' r' hr' r1
  refine ⟨_, _, L1, L2, e1, e2, rfl, rfl, ?_⟩
  simp only [amountOf]
  rw [div_mul_cancel₀ _ (hG.pos _ (hr q (by simp)).2).ne', div_mul_cancel₀ _ (hG.pos _ (hr' q' (by simp)).2).ne']
  exact (hp.map _).sum_eq

/-- C109. `max` of such a list is one of its quantities, and none holds a larger amount. -/
theorem C109_max_partial (q : Quantity) (r : List Quantity) (hr : InTable n l size (q :: r)) :
    ∃ m L', pyMax (q :: r) L = (.ok m, L') ∧ m ∈ q :: r ∧ (∀ x ∈ q :: r, amountOf size x ≤ amountOf size m) ∧ Running w0 L' := by
  obtain ⟨m, L', e, hm, hall, h⟩ := ((gauged_table hw hg hφ hn size).ranked hw.fresh.wf).best .gt (.inl rfl) r q hr hL
  exact ⟨m, L', e, hm, fun x hx => by simpa [Cmp.holds] using hall x hx, h⟩

/-- C109. `min` of such a list is one of its quantities, and none holds a smaller amount. -/
theorem C109_min_partial (q : Quantity) (r : List Quantity) (hr : InTable n l size (q :: r)) :
    ∃ m L', pyMin (q :: r) L = (.ok m, L') ∧ m ∈ q :: r ∧ (∀ x ∈ q :: r, amountOf size m ≤ amountOf size x) ∧ Running w0 L' := by
  obtain ⟨m, L', e, hm, hall, h⟩ := ((gauged_table hw hg hφ hn size).ranked hw.fresh.wf).best .lt (.inr rfl) r q hr hL
  exact ⟨m, L', e, hm, fun x hx => by simpa [Cmp.holds] using hall x hx, h⟩

/-- C109. `sorted` of such a list is the same quantities by increasing amounts; quantities of equal amounts keep their order. -/
theorem C109_sorted_partial (qs : List Quantity) (hr : InTable n l size qs) :
    ∃ r L', pySorted qs L = (.ok r, L') ∧ r.Perm qs ∧ (r.Pairwise fun x y => amountOf size x ≤ amountOf size y) ∧
      (∀ v, r.filter (fun x => amountOf size x = v) = qs.filter fun x => amountOf size x = v) ∧ Running w0 L' :=
  ((gauged_table hw hg hφ hn size).ranked hw.fresh.wf).sorted qs hr hL

end

/-- the quantities of a list are of the class `n`, in single built-in names of that class alone, joined by built-in conversions -/
def Spec.InClass (w0 : World) (n : Str) (qs : List Quantity) : Prop :=
  (∀ q ∈ qs, q.kind = .std n ∧ BuiltIn n q.unit ∧ CleanName q.unit ∧ ∀ k, BuiltIn k q.unit → k = n) ∧
  ∀ p ∈ qs, ∀ q ∈ qs, Reach (LinkedName w0.net) p.unit q.unit

theorem Spec.InClass.gauged {w0 : World} (hw : Started w0) (hφ : w0.fvf ≠ some 0) {n : Str} (hn : n ∈ amountQuantities) {qs : List Quantity}
    (h : InClass w0 n qs) : Gauged w0 n (fun u => ∃ q ∈ qs, q.unit = u) scaleOf := by
  refine gauged_amount hw hφ hn ?_ ?_
  · rintro _ ⟨q, hq, rfl⟩; exact (h.1 q hq).2
  · rintro _ _ ⟨p, hp, rfl⟩ ⟨q, hq, rfl⟩; exact h.2 p hp q hq

/-- C108 for all the single built-in names of the classes with proportional units: the units have sizes, the same for every process
and every history, and `sum` adds the amounts by these sizes. -/
theorem C108_sizes_partial : ∃ size : Str → Rat, (∀ n ∈ amountQuantities, ∀ u, BuiltIn n u → 0 < size u) ∧
    ∀ w0, Started w0 → w0.fvf ≠ some 0 → ∀ n ∈ amountQuantities, ∀ q r, InClass w0 n (q :: r) → ∀ L, Running w0 L →
      ∃ L', pySum (q :: r) L = (.ok (.qty ⟨.std n, q.unit, ((q :: r).map (amountOf size)).sum / size q.unit⟩), L') ∧ Running w0 L' := by
  refine ⟨scaleOf, fun n hn u hu => (amount_reading hn hu).2, ?_⟩
  intro w0 hw hφ n hn q r h L hL
  exact (h.gauged hw hφ hn).sum hw.fresh.wf q r (fun x hx => ⟨(h.1 x hx).1, x, hx, rfl⟩) hL

/-- C109 for all the single built-in names of the classes with proportional units: `max`, `min` and `sorted` go by the amounts. -/
theorem C109_sizes_partial : ∃ size : Str → Rat, (∀ n ∈ amountQuantities, ∀ u, BuiltIn n u → 0 < size u) ∧
    ∀ w0, Started w0 → w0.fvf ≠ some 0 → ∀ n ∈ amountQuantities, ∀ q r, InClass w0 n (q :: r) → ∀ L, Running w0 L →
      (∃ m L', pyMax (q :: r) L = (.ok m, L') ∧ m ∈ q :: r ∧ (∀ x ∈ q :: r, amountOf size x ≤ amountOf size m) ∧ Running w0 L') ∧
      (∃ m L', pyMin (q :: r) L = (.ok m, L') ∧ m ∈ q :: r ∧ (∀ x ∈ q :: r, amountOf size m ≤ amountOf size x) ∧ Running w0 L') ∧
      ∃ s L', pySorted (q :: r) L = (.ok s, L') ∧ s.Perm (q :: r) ∧ (s.Pairwise fun x y => amountOf size x ≤ amountOf size y) ∧
        (∀ v, s.filter (fun x => amountOf size x = v) = (q :: r).filter fun x => amountOf size x = v) ∧ Running w0 L' := by
  refine ⟨scaleOf, fun n hn u hu => (amount_reading hn hu).2, ?_⟩
  intro w0 hw hφ n hn q r h L hL
  have hG := (h.gauged hw hφ hn).ranked hw.fresh.wf
  have hr : ∀ x ∈ q :: r, x.kind = .std n ∧ ∃ p ∈ q :: r, p.unit = x.unit := fun x hx => ⟨(h.1 x hx).1, x, hx, rfl⟩
  refine ⟨?_, ?_, hG.sorted _ hr hL⟩
  · obtain ⟨m, L', e, hm, hall, h⟩ := hG.best .gt (.inl rfl) r q hr hL
    exact ⟨m, L', e, hm, fun x hx => by simpa [Cmp.holds] using hall x hx, h⟩
  · obtain ⟨m, L', e, hm, hall, h⟩ := hG.best .lt (.inr rfl) r q hr hL
    exact ⟨m, L', e, hm, fun x hx => by simpa [Cmp.holds] using hall x hx, h⟩

/-- watts and horsepowers -/
example : ∃ w, Started w ∧ InClass w s!!"Power" [⟨.std s!!"Power", s!!"Watt", 3⟩, ⟨.std s!!"Power", s!!"Horsepower", 2⟩] := by
  obtain ⟨w, hw, _, _⟩ := started_ex
  have h1 : BuiltIn s!!"Power" s!!"Watt" := builtIn_mem (by decide +kernel) (by decide)
  have h2 : BuiltIn s!!"Power" s!!"Horsepower" := builtIn_mem (by decide +kernel) (by decide)
  have h : ∀ q ∈ [(⟨.std s!!"Power", s!!"Watt", 3⟩ : Quantity), ⟨.std s!!"Power", s!!"Horsepower", 2⟩],
      q.kind = .std s!!"Power" ∧ BuiltIn s!!"Power" q.unit ∧ CleanName q.unit ∧ ∀ k, BuiltIn k q.unit → k = s!!"Power" := by
    simp only [List.mem_cons, List.not_mem_nil, or_false]
    rintro q (rfl | rfl)
    · exact ⟨rfl, h1, Demo.cleanName_of (by decide), fun q => onlyIn_iff power_ex.1⟩
    · exact ⟨rfl, h2, Demo.cleanName_of (by decide), fun q => onlyIn_iff power_ex.2⟩
  exact ⟨w, hw, h, fun p hp q hq => C87_connected_partial hw.shipped.network (by decide) (h p hp).2.1 (h q hq).2.1⟩

/-- C109. Quantities of two classes have no maximum: `max` and `min` raise TypeError, in every state. -/
theorem C109_mixed (p q : Quantity) (r : List Quantity) (h : p.kind ≠ q.kind) (L : Lib) :
    (pyMax (p :: q :: r) L).1 = .error .typeError ∧ (pyMin (p :: q :: r) L).1 = .error .typeError := by
  constructor <;> simp only [pyMax, pyMin, pyBest, Quantity.compare, if_neg (Ne.symm h)] <;> rfl

/-- a mile, 200 yards, 3000 feet and 1000 yards -/
def marks : List Quantity :=
  [⟨.std s!!"Length", s!!"mile", 1⟩, ⟨.std s!!"Length", s!!"yard", 200⟩, ⟨.std s!!"Length", s!!"foot", 3000⟩, ⟨.std s!!"Length", s!!"yard", 1000⟩]

example : ∃ w L, Started w ∧ Running w L ∧ (pySum marks L).1 = .ok (.qty ⟨.std s!!"Length", s!!"mile", 9 / 4⟩) := by
  obtain ⟨w, hw, hp, hf⟩ := started_ex
  obtain ⟨L, _, hL⟩ := hw.running
  refine ⟨w, L, hw, hL, ?_⟩
  have hr : InTable s!!"Length" standardSizes[0] lengthSize marks := by unfold InTable; decide +kernel
  obtain ⟨L1, h1, _⟩ := C108_sum_partial hw (by rw [hp]; decide) (by rw [hf]; decide) (n := s!!"Length") (by decide +kernel)
    lengthSize hL _ _ hr
  unfold marks
  rw [h1]
  have : (marks.map (amountOf lengthSize)).sum / lengthSize s!!"mile" = 9 / 4 := by
    have h1 : lengthSize s!!"mile" = 201168 / 125 := by decide +kernel
    have h2 : lengthSize s!!"yard" = 1143 / 1250 := by decide +kernel
    have h4 : lengthSize s!!"foot" = 381 / 1250 := by decide +kernel
    simp only [marks, amountOf, List.map_cons, List.map_nil, List.sum_cons, List.sum_nil, h1, h2, h4]
    norm_num
  exact congrArg (fun x => Except.ok (Total.qty ⟨.std s!!"Length", s!!"mile", x⟩)) this

example : ∃ w L, Started w ∧ Running w L ∧ (∃ m, (pyMax marks L).1 = .ok m ∧ ∀ x ∈ marks, amountOf lengthSize x ≤ amountOf lengthSize m) ∧
    ∃ r, (pySorted marks L).1 = .ok r ∧ r.Perm marks ∧ r.Pairwise fun x y => amountOf lengthSize x ≤ amountOf lengthSize y := by
  obtain ⟨w, hw, hp, hf⟩ := started_ex
  obtain ⟨L, _, hL⟩ := hw.running
  have hr : InTable s!!"Length" standardSizes[0] lengthSize marks := by unfold InTable; decide +kernel
  obtain ⟨m, L1, h1, _, h1', _⟩ := C109_max_partial hw (by rw [hp]; decide) (by rw [hf]; decide) (n := s!!"Length") (by decide +kernel)
    lengthSize hL _ _ hr
  obtain ⟨r, L2, h2, h3, h4, _⟩ := C109_sorted_partial hw (by rw [hp]; decide) (by rw [hf]; decide) (n := s!!"Length") (by decide +kernel)
    lengthSize hL _ hr
  exact ⟨w, L, hw, hL, ⟨m, congrArg Prod.fst h1, h1'⟩, r, congrArg Prod.fst h2, h3, h4⟩

end Unyts

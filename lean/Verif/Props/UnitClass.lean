import Verif.Lemmas.UnitClass
import Verif.Spec.DemoQuantity
import Verif.Props.Convert
import Verif.Lemmas.ConvUntried
import Mathlib.Tactic.Linarith

/-! C38 - C43: quantities, numbers with a unit (`unit_class.py`, `units/define.py`, `units/unitless.py`,
`units/custom.py`). -/
namespace Unyts
open Spec Quantity

/-! ### C38 -/

/-- what `p + q`, `p - q` return for quantities of one class -/
theorem addLike_ok {op : Rat → Rat → Rat} {p q : Quantity} (hk : q.kind = p.kind) {L L' : Lib} {o : Obj}
    (h : addLike op p q L = (.ok o, L')) :
    ∃ r L1 y, o = .qty r ∧ Later L L1 ∧
      ((construct p.kind (op p.value y) p.unit L1 = (.ok r, L') ∧
          (p.unit = q.unit ∧ y = q.value ∨ ∃ L0, Later L L0 ∧ libConvert .typeError q.value q.unit p.unit L0 = (.ok y, L1))) ∨
       (construct p.kind (op q.value y) q.unit L1 = (.ok r, L') ∧ p.unit ≠ q.unit ∧
          (∃ L2, libConvertible q.unit p.unit L = (.ok false, L2)) ∧
          ∃ L0, Later L L0 ∧ libConvert .typeError p.value p.unit q.unit L0 = (.ok y, L1))) := by
  unfold addLike at h
  rw [if_pos hk] at h
  split at h
  · obtain ⟨r, L1, h1, h2⟩ := PyM.bind_ok h
    cases h2
    exact ⟨r, L, q.value, rfl, .refl L, Or.inl ⟨h1, Or.inl ⟨by assumption, rfl⟩⟩⟩
  · rename_i hne
    obtain ⟨b, L0, h0, h⟩ := PyM.bind_ok h
    have l0 : Later L L0 := by have := Asking.convertible q.unit p.unit L; rw [h0] at this; exact this
    split at h
    · obtain ⟨y, L1, h1, h⟩ := PyM.bind_ok h
      obtain ⟨r, L2, h2, h⟩ := PyM.bind_ok h
      cases h
      have l1 : Later L0 L1 := by have := Asking.convert .typeError q.value q.unit p.unit L0; rw [h1] at this; exact this
      exact ⟨r, L1, y, rfl, l0.trans l1, Or.inl ⟨h2, Or.inr ⟨L0, l0, h1⟩⟩⟩
    · rename_i hb
      obtain ⟨b', L3, h3, h⟩ := PyM.bind_ok h
      have l3 : Later L0 L3 := by have := Asking.convertible p.unit q.unit L0; rw [h3] at this; exact this
      split at h
      · obtain ⟨y, L1, h1, h⟩ := PyM.bind_ok h
        obtain ⟨r, L2, h2, h⟩ := PyM.bind_ok h
        cases h
        have l1 : Later L3 L1 := by have := Asking.convert .typeError p.value p.unit q.unit L3; rw [h1] at this; exact this
        refine ⟨r, L1, y, rfl, (l0.trans l3).trans l1, Or.inr ⟨h2, hne, ⟨L0, ?_⟩, L3, l0.trans l3, h1⟩⟩
        rw [h0]; simp at hb; rw [hb]
      · cases h

/-- C38. Two quantities of the same class, other than percentages, whose units have sizes the conversions respect (in
both directions): their sum, when there is one, is a quantity of that class, in the unit of one of the two, and its
amount is the sum of the two amounts. Percentages are `C38_percentages_fail`, units without sizes (temperatures)
`C38_temperatures_fail`. -/
theorem C38_sum_partial (L : Lib) (size : Str → Rat) (p q : Quantity) (hk : q.kind = p.kind) (hp : p.kind ≠ .percentage)
    (vp : Valid L p) (vq : Valid L q)
    (h1 : ConvertsAs L.w (inSize size) q.unit p.unit) (h2 : ConvertsAs L.w (inSize size) p.unit q.unit)
    (o : Obj) (L' : Lib) (h : p.add q L = (.ok o, L')) :
    ∃ r, o = .qty r ∧ r.kind = p.kind ∧ (r.unit = p.unit ∨ r.unit = q.unit) ∧
      inSize size r.unit r.value = inSize size p.unit p.value + inSize size q.unit q.value := by
  obtain ⟨r, L1, y, rfl, l1, hc⟩ := addLike_ok hk h
  have strip : ∀ s : Quantity, Valid L s → s.kind = p.kind →
      (if p.kind = .user then Py.stripWs s.unit else s.unit) = s.unit := by
    intro s hs he
    split
    · rename_i hu; unfold Valid at hs; rw [he, hu] at hs; exact hs.1
    · rfl
  refine ⟨r, rfl, ?_⟩
  rcases hc with ⟨hc, hy⟩ | ⟨hc, hne, _, L0, l0, hy⟩
  · obtain ⟨e1, e2, e3, _⟩ := construct_ok hc
    rw [if_neg hp] at e2
    rw [strip p vp rfl] at e3
    refine ⟨e1, Or.inl e3, ?_⟩
    rw [e2, e3]
    rcases hy with ⟨hu, rfl⟩ | ⟨L0, l0, hy⟩
    · rw [← hu]; unfold inSize; ring
    · rw [← l0.convertsAs h1 hy]; unfold inSize; ring
  · obtain ⟨e1, e2, e3, _⟩ := construct_ok hc
    rw [if_neg hp] at e2
    rw [strip q vq hk] at e3
    refine ⟨e1, Or.inr e3, ?_⟩
    rw [e2, e3, ← l0.convertsAs h2 hy]
    unfold inSize; ring

/-- C38. The sum is in the unit of the first operand unless the library says that the second cannot be converted to
it. -/
theorem C38_first_unit (L : Lib) (p q : Quantity) (hk : q.kind = p.kind) (vp : Valid L p)
    (hconv : p.unit = q.unit ∨ ∀ L2, libConvertible q.unit p.unit L ≠ (.ok false, L2))
    (o : Obj) (L' : Lib) (h : p.add q L = (.ok o, L')) : ∃ r, o = .qty r ∧ r.unit = p.unit := by
  obtain ⟨r, L1, y, rfl, l1, hc⟩ := addLike_ok hk h
  refine ⟨r, rfl, ?_⟩
  rcases hc with ⟨hc, _⟩ | ⟨_, hne, ⟨L2, hf⟩, _⟩
  · obtain ⟨_, _, e3, _⟩ := construct_ok hc
    rw [e3]
    split
    · rename_i hu; unfold Valid at vp; rw [hu] at vp; exact vp.1
    · rfl
  · rcases hconv with hu | hf'
    · exact absurd hu hne
    · exact absurd hf (hf' L2)

/-- C38. `p + q` and `q + p`, computed at any two moments of a session that only converts and computes, are the same
amount. -/
theorem C38_commutes_partial (L : Lib) (size : Str → Rat) (p q : Quantity) (hk : q.kind = p.kind)
    (hp : p.kind ≠ .percentage) (vp : Valid L p) (vq : Valid L q) (hkey : p.kind.key ≠ s!!"UserUnits" ∨ p.kind = .user)
    (h1 : ConvertsAs L.w (inSize size) q.unit p.unit) (h2 : ConvertsAs L.w (inSize size) p.unit q.unit)
    (L1 L2 L1' L2' : Lib) (l1 : Later L L1) (l2 : Later L L2) (o1 o2 : Obj) (r1 : p.add q L1 = (.ok o1, L1'))
    (r2 : q.add p L2 = (.ok o2, L2')) :
    ∃ a b, o1 = .qty a ∧ o2 = .qty b ∧ a.kind = b.kind ∧ inSize size a.unit a.value = inSize size b.unit b.value := by
  obtain ⟨a, e1, k1, _, v1⟩ := C38_sum_partial L1 size p q hk hp (valid_later l1 vp hkey)
    (valid_later l1 vq (by rw [hk]; exact hkey)) (h1.later l1) (h2.later l1) o1 L1' r1
  obtain ⟨b, e2, k2, _, v2⟩ := C38_sum_partial L2 size q p hk.symm (by rw [hk]; exact hp)
    (valid_later l2 vq (by rw [hk]; exact hkey)) (valid_later l2 vp hkey) (h2.later l2) (h1.later l2) o2 L2' r2
  exact ⟨a, b, e1, e2, by rw [k1, k2, hk], by rw [v1, v2]; ring⟩

/-- the hypotheses of C38 hold for one yard and one foot -/
example : Valid Demo.lib Demo.oneYard ∧ Valid Demo.lib Demo.oneFoot ∧
    ConvertsAs Demo.lib.w (inSize Demo.sizeOf) Demo.oneFoot.unit Demo.oneYard.unit ∧
    ConvertsAs Demo.lib.w (inSize Demo.sizeOf) Demo.oneYard.unit Demo.oneFoot.unit ∧
    (Demo.oneYard.add Demo.oneFoot Demo.lib).1 = .ok (.qty ⟨.std s!!"Length", s!!"yd", 4/3⟩) ∧
    (Demo.oneFoot.add Demo.oneYard Demo.lib).1 = .ok (.qty ⟨.std s!!"Length", s!!"ft", 4⟩) :=
  ⟨by decide, by decide, Demo.converts_lib Demo.clean_ft Demo.clean_yd, Demo.converts_lib Demo.clean_yd Demo.clean_ft,
    by decide +kernel, by decide +kernel⟩

/-- C38 is false of percentages: the sum of two percentages with the same sign shows one hundredth of the sum. -/
theorem C38_percentages_fail (L : Lib) (u : Str) (x y : Rat) (hv : Valid L ⟨.percentage, u, x⟩) :
    ∃ r, add ⟨.percentage, u, x⟩ ⟨.percentage, u, y⟩ L = (.ok (.qty r), L) ∧
      shown r = (shown ⟨.percentage, u, x⟩ + shown ⟨.percentage, u, y⟩) / 100 := by
  refine ⟨⟨.percentage, u, (x + y) / 100⟩, ?_, ?_⟩
  · unfold add addLike
    rw [if_pos rfl, if_pos rfl, PyM.run_bind_ok (construct_valid (q := ⟨.percentage, u, x⟩) hv (x + y))]
    simp
  · unfold shown; simp; ring

/-- C38 is false of units that differ in their zero: the sum of two temperatures depends on the order. -/
theorem C38_temperatures_fail :
    ((⟨.std s!!"Temperature", s!!"c", 10⟩ : Quantity).add ⟨.std s!!"Temperature", s!!"k", 10⟩ Demo.tempLib).1 =
        .ok (.qty ⟨.std s!!"Temperature", s!!"c", -253⟩) ∧
    ((⟨.std s!!"Temperature", s!!"k", 10⟩ : Quantity).add ⟨.std s!!"Temperature", s!!"c", 10⟩ Demo.tempLib).1 =
        .ok (.qty ⟨.std s!!"Temperature", s!!"k", 293⟩) ∧
    ((⟨.std s!!"Temperature", s!!"c", -253⟩ : Quantity).to s!!"k" Demo.tempLib).1 =
        .ok (.qty ⟨.std s!!"Temperature", s!!"k", 20⟩) := by decide +kernel

/-- C38: a number without unit and a quantity cannot be added in this order, although the library means to. -/
theorem C38_dimensionless_first (L : Lib) (p q : Quantity) (hp : p.kind = .dimensionless) (hq : q.unitless = false)
    (hu : q.unit ∉ L.names s!!"Dimensionless") : p.add q L = (.error .wrongUnits, L) := by
  unfold add addLike
  have hk : q.kind ≠ p.kind := by
    intro h; rw [hp] at h; simp [unitless, h] at hq
  rw [if_neg hk, if_pos (by simp [unitless, hp, hq]; unfold unitless at hq; simpa using hq)]
  rw [PyM.run_bind_error]
  unfold construct
  simp [hp, Kind.key, hu]

example : Demo.oneFoot.unitless = false ∧ Demo.oneFoot.unit ∉ Demo.lib.names s!!"Dimensionless" := by decide

/-- C38: the sum of quantities with ratios of units is not always in the first unit: right after the second unit was
converted to the first one for the first time, the library answers that it cannot be converted (see C18), and gives the
sum in the second unit. -/
theorem C38_history_fails :
    (let p : Quantity := ⟨.std s!!"Gradient", s!!"in/g", 1⟩
     let q : Quantity := ⟨.std s!!"Gradient", s!!"ft/g", 1⟩
     (p.add q Demo.ratioLib).1 = .ok (.qty ⟨.std s!!"Gradient", s!!"in/g", 13⟩) ∧
     numOf (convert (some 1) (some s!!"ft/g") (some s!!"in/g") none Demo.ratioLib.w).1 = some 12 ∧
     (p.add q (onWorld (convert (some 1) (some s!!"ft/g") (some s!!"in/g") none) Demo.ratioLib).2).1 =
       .ok (.qty ⟨.std s!!"Gradient", s!!"ft/g", 13/12⟩)) := by decide +kernel

/-- a question about two joined names is answered with yes -/
theorem convertible_finds {w : World} (h : FindsInv w) (ht : TotalNet w.net w.fvf) {a b : Str} (ha : SimpleName a)
    (hb : SimpleName b) (oa : Ordinary w.dic a) {na nb : UNode} (hna : w.net.getNode a = .ok na)
    (hnb : w.net.getNode b = .ok nb) (hr : Reach (Linked w.net) na nb) (hpr : (a, b) ∉ w.previous) (uc : Option Bool) :
    (convertible a b uc w).1 = .ok true := by
  obtain ⟨q, f, _, hal, hres⟩ := converterTop_finds h ⟨ha, hb⟩ oa hna hnb hr hpr uc (some 1)
  obtain ⟨y, hy⟩ := along_total ht hal 1
  unfold convertible
  cases hc : converterTop uc (some 1) a b w with
  | mk r w' =>
    rw [hc] at hres
    simp only [ansRes, hy, Except.map] at hres
    subst hres
    rfl

/-- the sum of quantities whose units are joined -/
theorem add_finds {L : Lib} (h : FindsInv L.w) (hw : Reachable L.w) (size : Str → Rat)
    (hB : Consistent L.w.net L.w.fvf fun n => inSize size n.name) (ht : TotalNet L.w.net L.w.fvf) {p q : Quantity}
    (hk : q.kind = p.kind) (hp : p.kind ≠ .percentage) (vp : Valid L p) (hkey : p.kind.key ≠ s!!"UserUnits" ∨ p.kind = .user)
    (ha : CleanName q.unit) (hb : CleanName p.unit) (oa : Ordinary L.w.dic q.unit)
    (hd : ¬ DensityPair L.w.dic q.unit p.unit) {nq np : UNode} (hq : L.w.net.getNode q.unit = .ok nq)
    (hpn : L.w.net.getNode p.unit = .ok np) (hr : Reach (Linked L.w.net) nq np)
    (hpr : (q.unit, p.unit) ∉ L.w.previous) :
    ∃ y L', p.add q L = (.ok (.qty ⟨p.kind, p.unit, p.value + y⟩), L') ∧
      inSize size p.unit y = inSize size q.unit q.value := by
  by_cases hu : p.unit = q.unit
  · refine ⟨q.value, L, ?_, by rw [hu]⟩
    unfold add addLike
    rw [if_pos hk, if_pos hu, PyM.run_bind_ok (construct_valid vp _), if_neg hp]
    rfl
  · have hc := convertible_finds h ht ha.2 hb.2 oa hq hpn hr hpr none
    have l1 := Asking.convertible q.unit p.unit L
    have hc' : libConvertible q.unit p.unit L = (.ok true, (libConvertible q.unit p.unit L).2) := by
      unfold libConvertible onWorld; simp only; rw [hc]
    generalize (libConvertible q.unit p.unit L).2 = L1 at hc' l1
    obtain ⟨cs, hcs, hw1⟩ := l1.calls
    have hbase := base_session hcs h.1.1.wf
    rw [← hw1] at hbase
    have hf1 : FindsInv L1.w := by rw [hw1]; exact findsInv_session hcs h
    obtain ⟨y, w', hy⟩ := convert_total hf1 (by rw [hbase.net, hbase.fvf]; exact ht) ha hb (by rw [hbase.dic]; exact oa)
      (by rw [hbase.dic]; exact hd) (by rw [hbase.net]; exact hq) (by rw [hbase.net]; exact hpn)
      (by rw [hbase.net]; exact hr) none q.value
    have hy' : libConvert .typeError q.value q.unit p.unit L1 = (.ok y, { L1 with w := w' }) := by
      unfold libConvert
      rw [PyM.run_bind_ok (a := some (.num y)) (s' := { L1 with w := w' }) (by unfold onWorld; simp only [hy])]
      rfl
    have l2 : Later L1 { L1 with w := w' } := by
      have := Asking.convert .typeError q.value q.unit p.unit L1; rw [hy'] at this; exact this
    have hcv := convertsAs_names hw hB ha hb oa hd
    refine ⟨y, { L1 with w := w' }, ?_, l1.convertsAs hcv hy'⟩
    unfold add addLike
    rw [if_pos hk, if_neg hu, PyM.run_bind_ok hc', if_pos rfl, PyM.run_bind_ok hy',
      PyM.run_bind_ok (construct_valid (valid_later (l1.trans l2) vp hkey) _), if_neg hp]
    rfl

/-- C38, with the sum found rather than assumed: on a consistent network whose functions accept every number, with BFS,
after any sequence of conversions and questions, quantities of one class whose units are joined by conversions add up,
in the unit of the first. -/
theorem C38_adds_bfs (w0 : World) (hf : Fresh w0) (halg : w0.par.algorithm = .bfs) (size : Str → Rat)
    (hB : Consistent w0.net w0.fvf fun n => inSize size n.name) (ht : TotalNet w0.net w0.fvf) (L : Lib) (cs : List Call)
    (hcs : ∀ c ∈ cs, Asks c) (hL : L.w = session cs w0) (p q : Quantity)
    (hk : q.kind = p.kind) (hp : p.kind ≠ .percentage) (vp : Valid L p) (hkey : p.kind.key ≠ s!!"UserUnits" ∨ p.kind = .user)
    (ha : CleanName q.unit) (hb : CleanName p.unit) (oa : Ordinary w0.dic q.unit)
    (hd : ¬ DensityPair w0.dic q.unit p.unit) (nq np : UNode) (hq : w0.net.getNode q.unit = .ok nq)
    (hpn : w0.net.getNode p.unit = .ok np) (hr : Reach (Linked w0.net) nq np) :
    ∃ y L', p.add q L = (.ok (.qty ⟨p.kind, p.unit, p.value + y⟩), L') ∧
      inSize size p.unit y = inSize size q.unit q.value := by
  have hs := base_session hcs hf.wf
  have hpr : (q.unit, p.unit) ∉ L.w.previous := by
    rw [hL]
    rw [← hs.net] at hq hpn hr
    exact (askInv_session hcs (askInv_fresh hf (findsInv_fresh hf (finds_bfs hf.wf halg)))).2 _ _ nq np ⟨ha.2, hb.2⟩ hq hpn hr
  rw [← hL] at hs
  refine add_finds ?_ ⟨w0, cs, hf, ?_, hL⟩ size ?_ ?_ hk hp vp hkey ha hb ?_ ?_ (nq := nq) (np := np) ?_ ?_ ?_ hpr
  · rw [hL]; exact findsInv_session hcs (findsInv_fresh hf (finds_bfs hf.wf halg))
  · intro c hc; have := hcs c hc; cases c <;> trivial
  all_goals first
    | rw [hs.net, hs.fvf]; assumption
    | rw [hs.net]; assumption
    | rw [hs.dic]; assumption

/-! ### C39 -/

/-- the answers of the six comparisons in one state -/
theorem compare_same (L : Lib) (p q : Quantity) :
    (∃ e, ∀ c, (p.compare c q L).1 = .error e) ∨ ∃ y, ∀ c, (p.compare c q L).1 = .ok (c.holds p.value y) := by
  unfold Quantity.compare
  split
  · cases hr : q.to p.unit L with
    | mk r L1 =>
      match r with
      | .error e => exact Or.inl ⟨e, fun c => by rw [PyM.run_bind_error hr]⟩
      | .ok (.qty r) => exact Or.inr ⟨r.value, fun c => by rw [PyM.run_bind_ok hr]; rfl⟩
      | .ok (.num x) => exact Or.inl ⟨.attributeError, fun c => by rw [PyM.run_bind_ok hr]; rfl⟩
      | .ok (.pair a b) => exact Or.inl ⟨.attributeError, fun c => by rw [PyM.run_bind_ok hr]; rfl⟩
  · exact Or.inl ⟨.typeError, fun c => rfl⟩

/-- The six comparisons of a pair of quantities are coherent: exactly one of `<`, `==`, `>` holds, `<=` is `<` or `==`,
`>=` is `>` or `==` and `!=` is not `==`. -/
def Coherent (b : Cmp → Bool) : Prop :=
  ((b .lt = true ∧ b .eq = false ∧ b .gt = false) ∨ (b .lt = false ∧ b .eq = true ∧ b .gt = false) ∨
    (b .lt = false ∧ b .eq = false ∧ b .gt = true)) ∧
  b .le = (b .lt || b .eq) ∧ b .ge = (b .gt || b .eq) ∧ b .ne = !b .eq

theorem coherent_holds (x y : Rat) : Coherent fun c => c.holds x y := by
  unfold Coherent Cmp.holds
  rcases lt_trichotomy x y with h | h | h
  · have h1 := not_lt_of_gt h
    have h2 := h.ne
    simp [h, h.le, h1, h2]
  · subst h; simp
  · have h1 := not_lt_of_gt h
    have h2 := h.ne'
    simp [h, h.le, h1, h2]

/-- C39. In every state, whatever the network and the classes, the answers of the six comparisons are coherent, and if
one of them raises an exception so do the others. -/
theorem C39_coherent (L : Lib) (p q : Quantity) :
    (∃ e, ∀ c, (p.compare c q L).1 = .error e) ∨ ∃ b, Coherent b ∧ ∀ c, (p.compare c q L).1 = .ok (b c) := by
  rcases compare_same L p q with h | ⟨y, h⟩
  · exact Or.inl h
  · exact Or.inr ⟨_, coherent_holds p.value y, h⟩

/-- what a comparison of quantities of a class with units computes -/
theorem compare_reads {L0 L L' : Lib} (l : Later L0 L) {B : Str → Rat → Rat} {p q : Quantity} {c : Cmp} {b : Bool}
    (n : Str) (hn : p.kind = .std n) (hc : ConvertsAs L0.w B q.unit p.unit) (h : p.compare c q L = (.ok b, L')) :
    ∃ y, B p.unit y = B q.unit q.value ∧ b = c.holds p.value y := by
  unfold Quantity.compare at h
  split at h
  · rename_i hk
    obtain ⟨o, L1, h1, h⟩ := PyM.bind_ok h
    unfold Quantity.to at h1
    rw [if_neg (by simp [unitless, ← hk, hn])] at h1
    obtain ⟨d, L2, h2, h1⟩ := PyM.bind_ok h1
    have l2 : Later L L2 := by have := Asking.convertible q.unit p.unit L; rw [h2] at this; exact this
    split at h1
    · rw [← hk, hn] at h1
      obtain ⟨y, L3, h3, h1⟩ := PyM.bind_ok h1
      obtain ⟨r, L4, h4, h1⟩ := PyM.bind_ok h1
      cases h1
      cases h
      obtain ⟨_, e2, _⟩ := construct_ok h4
      rw [if_neg (by simp)] at e2
      exact ⟨y, (l.trans l2).convertsAs hc h3, by rw [e2]⟩
    · rw [if_neg (by rw [← hk, hn]; simp)] at h1
      cases h1
  · cases h

/-- C39. The same holds when the comparisons are made at different moments of a session that only converts and
computes, for quantities of the classes of units and conversions that respect one-to-one readings. User units are
`C39_user_units_fail`. -/
theorem C39_session_partial (L0 : Lib) (B : Str → Rat → Rat) (p q : Quantity) (n : Str) (hn : p.kind = .std n)
    (hc : ConvertsAs L0.w B q.unit p.unit) (inj : ∀ x y, B p.unit x = B p.unit y → x = y)
    (Ls : Cmp → Lib) (hL : ∀ c, Later L0 (Ls c)) (b : Cmp → Bool) (h : ∀ c, (p.compare c q (Ls c)).1 = .ok (b c)) :
    Coherent b := by
  obtain ⟨y, e, _⟩ := compare_reads (hL .lt) n hn hc (Prod.ext (h .lt) rfl)
  have : b = fun c => c.holds p.value y := by
    funext c
    obtain ⟨y', e', hb⟩ := compare_reads (hL c) n hn hc (Prod.ext (h c) rfl)
    rw [hb, inj _ _ (e'.trans e.symm)]
  rw [this]
  exact coherent_holds _ _

/-- C39. With increasing readings the order is the order of the amounts. -/
theorem C39_amounts (L0 L L' : Lib) (l : Later L0 L) (B : Str → Rat → Rat) (p q : Quantity) (n : Str) (hn : p.kind = .std n)
    (hc : ConvertsAs L0.w B q.unit p.unit) (mono : ∀ x y, x < y → B p.unit x < B p.unit y) (c : Cmp) (b : Bool)
    (h : p.compare c q L = (.ok b, L')) : b = c.holds (B p.unit p.value) (B q.unit q.value) := by
  obtain ⟨y, e, rfl⟩ := compare_reads l n hn hc h
  rw [← e]
  clear h
  rcases lt_trichotomy p.value y with h | h | h
  · have := mono _ _ h
    cases c <;> simp [Cmp.holds, h, this, h.le, this.le, h.ne, this.ne, not_lt_of_gt h, not_lt_of_gt this, h.not_ge, this.not_ge]
  · cases c <;> simp [Cmp.holds, h]
  · have := mono _ _ h
    cases c <;> simp [Cmp.holds, h, this, h.le, this.le, h.ne', this.ne', not_lt_of_gt h, not_lt_of_gt this, h.not_ge, this.not_ge]

/-- the comparison that says the same with the operands exchanged -/
def Cmp.flip : Cmp → Cmp
  | .lt => .gt | .le => .ge | .eq => .eq | .ne => .ne | .ge => .le | .gt => .lt

/-- C39. `p < q` iff `q > p`, `p == q` iff `q == p` and so on, at any moments of a session that only converts and
computes, with increasing readings. -/
theorem C39_symmetric_partial (L0 L1 L2 L1' L2' : Lib) (l1 : Later L0 L1) (l2 : Later L0 L2) (B : Str → Rat → Rat)
    (p q : Quantity) (n m : Str) (hp : p.kind = .std n) (hq : q.kind = .std m)
    (h1 : ConvertsAs L0.w B q.unit p.unit) (h2 : ConvertsAs L0.w B p.unit q.unit)
    (mp : ∀ x y, x < y → B p.unit x < B p.unit y) (mq : ∀ x y, x < y → B q.unit x < B q.unit y) (c : Cmp) (b b' : Bool)
    (r1 : p.compare c q L1 = (.ok b, L1')) (r2 : q.compare (Cmp.flip c) p L2 = (.ok b', L2')) : b = b' := by
  rw [C39_amounts L0 L1 L1' l1 B p q n hp h1 mp c b r1, C39_amounts L0 L2 L2' l2 B q p m hq h2 mq _ b' r2]
  cases c <;> simp [Cmp.flip, Cmp.holds, eq_comm]

/-- C39. `<` is transitive, at any moments of such a session. -/
theorem C39_transitive_partial (L0 L1 L2 L3 L1' L2' L3' : Lib) (l1 : Later L0 L1) (l2 : Later L0 L2) (l3 : Later L0 L3)
    (B : Str → Rat → Rat) (p q r : Quantity) (n m : Str) (hp : p.kind = .std n) (hq : q.kind = .std m)
    (h1 : ConvertsAs L0.w B q.unit p.unit) (h2 : ConvertsAs L0.w B r.unit q.unit) (h3 : ConvertsAs L0.w B r.unit p.unit)
    (mp : ∀ x y, x < y → B p.unit x < B p.unit y) (mq : ∀ x y, x < y → B q.unit x < B q.unit y) (b : Bool)
    (r1 : p.compare .lt q L1 = (.ok true, L1')) (r2 : q.compare .lt r L2 = (.ok true, L2'))
    (r3 : p.compare .lt r L3 = (.ok b, L3')) : b = true := by
  have e1 := C39_amounts L0 L1 L1' l1 B p q n hp h1 mp _ _ r1
  have e2 := C39_amounts L0 L2 L2' l2 B q r m hq h2 mq _ _ r2
  rw [C39_amounts L0 L3 L3' l3 B p r n hp h3 mp _ _ r3]
  simp [Cmp.holds] at e1 e2 ⊢
  exact e1.trans e2

example : ConvertsAs Demo.lib.w (inSize Demo.sizeOf) s!!"ft" s!!"yd" ∧
    (∀ x y, x < y → inSize Demo.sizeOf s!!"yd" x < inSize Demo.sizeOf s!!"yd" y) ∧
    (Demo.oneYard.compare .gt ⟨.std s!!"Length", s!!"ft", 2⟩ Demo.lib).1 = .ok true ∧
    (Demo.oneYard.compare .eq ⟨.std s!!"Length", s!!"ft", 3⟩ Demo.lib).1 = .ok true := by
  refine ⟨Demo.converts_lib Demo.clean_ft Demo.clean_yd, fun x y h => ?_, by decide +kernel, by decide +kernel⟩
  have : Demo.sizeOf s!!"yd" = 36 := by decide
  unfold inSize; rw [this]; linarith

/-- C39 is false of user units: one that cannot be converted to the other is compared as a bare number, so that two
different units are "equal"; a number of the user's units has no amount. -/
theorem C39_user_units_fail :
    (let L1 := (units 1 s!!"foo" Demo.lib).2
     let L2 := (units 1 s!!"bar" L1).2
     (units 1 s!!"foo" Demo.lib).1 = .ok ⟨.user, s!!"foo", 1⟩ ∧ (units 1 s!!"bar" L1).1 = .ok ⟨.user, s!!"bar", 1⟩ ∧
     ((⟨.user, s!!"foo", 1⟩ : Quantity).compare .eq ⟨.user, s!!"bar", 1⟩ L2).1 = .ok true) := by decide +kernel

/-! ### C40 -/

/-- C40. Multiplying a percentage by a number multiplies what it shows; so do dividing, adding a number of ones and
multiplying two percentages. Missing: sums and rounding (`C40_sum_fails`, `C40_round_fails`). -/
theorem C40_numbers_partial (L : Lib) (q : Quantity) (hq : q.kind = .percentage) (hv : Valid L q) (k : Rat) :
    (∃ r, q.mulNum k L = (.ok r, L) ∧ r.kind = .percentage ∧ r.unit = q.unit ∧ shown r = shown q * k) ∧
    (k ≠ 0 → ∃ r, q.divNum k L = (.ok r, L) ∧ r.kind = .percentage ∧ r.unit = q.unit ∧ shown r = shown q / k) ∧
    (∃ r, q.addNum k L = (.ok r, L) ∧ r.kind = .percentage ∧ r.unit = q.unit ∧ shown r = shown q + 100 * k) ∧
    (∃ r, q.subNum k L = (.ok r, L) ∧ r.kind = .percentage ∧ r.unit = q.unit ∧ shown r = shown q - 100 * k) := by
  have c := fun v => construct_valid hv v
  simp only [hq, if_true] at c
  refine ⟨⟨⟨.percentage, q.unit, q.value * k⟩, ?_, rfl, rfl, ?_⟩, fun hk => ⟨⟨.percentage, q.unit, q.value / k⟩, ?_, rfl, rfl, ?_⟩,
    ⟨⟨.percentage, q.unit, q.value + k⟩, ?_, rfl, rfl, ?_⟩, ⟨⟨.percentage, q.unit, q.value - k⟩, ?_, rfl, rfl, ?_⟩⟩
  · unfold mulNum; rw [if_pos hq, hq, c]; simp
  · simp [shown, hq]; ring
  · unfold divNum
    rw [PyM.run_bind_ok (a := q.value / k) (s' := L) (by simp [PyM.lift, pdiv, hk]), if_pos hq, hq, c]; simp
  · simp [shown, hq]; ring
  · unfold addNum; rw [if_pos hq, hq, c]; simp
  · simp [shown, hq]; ring
  · unfold subNum; rw [if_pos hq, hq, c]; simp
  · simp [shown, hq]; ring

/-- C40. Percentages multiply as fractions, and a percentage and a dimensionless number add as fractions. -/
theorem C40_fractions_partial (L : Lib) (p q : Quantity) (hp : p.kind = .percentage) (hv : Valid L p) :
    (q.unitless = true → ∃ r, p.mulBase q L = (.ok r, L) ∧ r.kind = .percentage ∧ r.unit = p.unit ∧
      r.value = p.value * q.value) ∧
    (q.kind = .dimensionless → ∃ r, p.add q L = (.ok (.qty r), L) ∧ r.kind = .percentage ∧ r.unit = p.unit ∧
      r.value = p.value + q.value) := by
  have c := fun v => construct_valid hv v
  simp only [hp, if_true] at c
  refine ⟨fun hq => ⟨⟨.percentage, p.unit, p.value * q.value⟩, ?_, rfl, rfl, rfl⟩,
    fun hq => ⟨⟨.percentage, p.unit, p.value + q.value⟩, ?_, rfl, rfl, rfl⟩⟩
  · unfold mulBase
    rw [if_neg (by simp [hq]), if_pos (by simp [hp, hq]), hp, c]
    simp
  · unfold add addLike
    rw [if_neg (by rw [hp, hq]; simp), if_neg (by simp [unitless, hq]), if_pos (by simp [unitless, hq, hp]), hp,
      PyM.run_bind_ok (c _)]
    simp

/-- C40. Given in percent or as a fraction, a number without unit is the same number: a half given in percent shows 50,
fifty percent given as a fraction show a half. -/
theorem C40_given (L L' : Lib) (q : Quantity) (u : Str) (o : Obj) (hq : q.unitless = true) (hu : u ≠ [])
    (h : q.to u L = (.ok o, L')) :
    (u ∈ L.names s!!"Percentage" → o = .qty ⟨.percentage, u, q.value⟩ ∧ shown ⟨.percentage, u, q.value⟩ = q.value * 100) ∧
    (u ∉ L.names s!!"Percentage" → u ∈ L.names s!!"Dimensionless" → o = .qty ⟨.dimensionless, u, q.value⟩) := by
  unfold Quantity.to at h
  rw [if_pos hq] at h
  unfold toUnitless at h
  rw [PyM.run_bind_ok (PyM.run_get _)] at h
  simp only [if_neg hu] at h
  constructor
  · intro hm
    rw [if_pos hm] at h
    simp only [bind, construct, Kind.key, hm, if_true] at h
    cases h
    refine ⟨?_, by simp [shown]⟩
    simp
  · intro hn hm
    rw [if_neg hn, if_pos hm] at h
    simp only [bind, construct, Kind.key, hm, if_true] at h
    cases h
    simp

example : ((⟨.dimensionless, s!!"fraction", 1/2⟩ : Quantity).to s!!"%" Demo.lib).1 = .ok (.qty ⟨.percentage, s!!"%", 1/2⟩) ∧
    ((⟨.percentage, s!!"%", 1/2⟩ : Quantity).to s!!"fraction" Demo.lib).1 = .ok (.qty ⟨.dimensionless, s!!"fraction", 1/2⟩) := by
  decide +kernel

/-- C40 is false of sums: p percent and q percent add up to (p + q) / 100 percent. -/
theorem C40_sum_fails (L : Lib) (u : Str) (p q : Rat) (hv : Valid L ⟨.percentage, u, p / 100⟩) :
    ∃ r, add ⟨.percentage, u, p / 100⟩ ⟨.percentage, u, q / 100⟩ L = (.ok (.qty r), L) ∧ shown r = (p + q) / 100 := by
  obtain ⟨r, h1, h2⟩ := C38_percentages_fail L u (p / 100) (q / 100) hv
  refine ⟨r, h1, ?_⟩
  rw [h2]; simp [shown]

/-- C40 is false of rounding: the fraction is rounded and then divided by 100, so that fifty percent, rounded to one
decimal of the fraction, shows 0.5. -/
theorem C40_round_fails (L : Lib) (q : Quantity) (hq : q.kind = .percentage) (hv : Valid L q) (n : Int) :
    ∃ r, q.roundTo n L = (.ok r, L) ∧ shown r = pyRound q.value n := by
  refine ⟨⟨.percentage, q.unit, pyRound q.value n / 100⟩, ?_, by simp [shown]⟩
  unfold roundTo
  rw [construct_valid hv]
  simp [hq]

example : Valid Demo.lib ⟨.percentage, s!!"%", 1/10⟩ ∧
    ((⟨.percentage, s!!"%", 1/10⟩ : Quantity).mulNum 3 Demo.lib).1 = .ok ⟨.percentage, s!!"%", 3/10⟩ ∧
    ((⟨.percentage, s!!"%", 1/10⟩ : Quantity).add ⟨.percentage, s!!"%", 2/10⟩ Demo.lib).1 =
      .ok (.qty ⟨.percentage, s!!"%", 3/1000⟩) ∧
    ((⟨.percentage, s!!"%", 1/2⟩ : Quantity).roundTo 1 Demo.lib).1 = .ok ⟨.percentage, s!!"%", 1/200⟩ :=
  ⟨by decide, by decide +kernel, by decide +kernel, by decide +kernel⟩

/-! ### C41 -/

/-- C41. For every quantity that its class accepts, percentages included, `-q` and `abs(q)` exist, keep the class and
the unit, and change the number as they should. -/
theorem C41_neg_abs (L : Lib) (q : Quantity) (hv : Valid L q) :
    q.neg L = (.ok ⟨q.kind, q.unit, -q.value⟩, L) ∧ q.abs L = (.ok ⟨q.kind, q.unit, |q.value|⟩, L) := by
  have habs : (if q.value < 0 then -q.value else q.value) = |q.value| := by
    split
    · rename_i h; rw [abs_of_neg h]
    · rename_i h; rw [abs_of_nonneg (not_lt.1 h)]
  have c := fun v => construct_valid hv v
  unfold neg Quantity.abs
  rw [habs]
  cases hk : q.kind <;> simp only [hk, reduceCtorEq, if_false, if_true] at c ⊢ <;> rw [c, c] <;> simp [neg_div]

/-- C41. `-(-q)` is `q` and `abs(-q)` is `abs(q)`. -/
theorem C41_involution (L : Lib) (q : Quantity) (hv : Valid L q) :
    (q.neg >>= fun r => r.neg) L = (.ok q, L) ∧ (q.neg >>= fun r => r.abs) L = q.abs L := by
  have hv' : Valid L ⟨q.kind, q.unit, -q.value⟩ := hv
  obtain ⟨h1, h2⟩ := C41_neg_abs L q hv
  obtain ⟨h3, h4⟩ := C41_neg_abs L _ hv'
  rw [PyM.run_bind_ok h1, PyM.run_bind_ok h1, h3, h4, h2]
  simp

example : Valid Demo.lib ⟨.percentage, s!!"%", -1/10⟩ ∧
    ((⟨.percentage, s!!"%", -1/10⟩ : Quantity).neg Demo.lib).1 = .ok ⟨.percentage, s!!"%", 1/10⟩ ∧
    (Quantity.abs ⟨.percentage, s!!"%", -1/10⟩ Demo.lib).1 = .ok ⟨.percentage, s!!"%", 1/10⟩ :=
  ⟨by decide, by decide +kernel, by decide +kernel⟩

/-! ### C42 -/

/-- C42. When `units(v, u)` returns, for a string without backslash, the quantity shows the number v in the unit u
without outer blanks, its class accepts its unit, and it is a user unit if u is in no list of units and not
ambiguous. -/
theorem C42_keeps_partial (L L' : Lib) (v : Rat) (u : Str) (hb : '\\' ∉ u) (q : Quantity) (h : units v u L = (.ok q, L')) :
    q.unit = Py.stripWs u ∧ shown q = v ∧ Valid L' q ∧
      (Py.stripWs u ∉ L.w.dic.uncertain → (∀ e ∈ L.dict, Py.stripWs u ∉ e.2) → q.kind = .user) := by
  rcases units_ok h with ⟨hu, hc⟩ | ⟨hu, hn, hc⟩ | ⟨hu, key, l, k, s, r, hm, hl, hk, he, hc, rfl⟩
  · obtain ⟨e1, e2, e3, _⟩ := construct_ok hc
    exact ⟨by simpa using e3, by simp [shown, e1, e2], valid_construct hc (Or.inl (by simp)), fun h => absurd hu h⟩
  · obtain ⟨e1, e2, e3, _⟩ := construct_ok hc
    exact ⟨by rw [e3, if_pos rfl, stripWs_idem], by simp [shown, e1, e2],
      valid_construct hc (Or.inr (stripWs_idem _)), fun _ _ => e1⟩
  · obtain ⟨e1, e2, e3, _⟩ := construct_ok hc
    have hs : s = Py.stripWs u := literal_plain (fun h => hb (stripWs_mem h)) he
    subst hs
    refine ⟨?_, ?_, ?_, fun _ h => absurd hl (h _ hm)⟩
    · simp only [e3]; split
      · exact stripWs_idem _
      · rfl
    · simp only [shown, e1]; split
      · ring
      · rfl
    · have := valid_construct hc (Or.inr (stripWs_idem _))
      unfold Valid at this ⊢
      exact this

/-- C42. When `units` returns: the name is written with a single kind of quotes at most, without line ends, and the
list that contains it belongs to a class. -/
theorem C42_returns (L : Lib) (v : Rat) (u : Str) (hb : '\\' ∉ u) (hn : '\n' ∉ u) (hr : '\r' ∉ u)
    (hq : '\'' ∉ u ∨ '"' ∉ u) (hun : Py.stripWs u ∈ L.w.dic.uncertain → Py.stripWs u ∈ L.allUnits)
    (hkeys : (L.dict.map Prod.fst).Nodup)
    (hcls : ∀ e ∈ L.dict, Py.stripWs u ∈ e.2 →
      e.1 ∈ stdClasses ∨ e.1 = s!!"Dimensionless" ∨ e.1 = s!!"Percentage" ∨ e.1 = s!!"UserUnits") :
    ∃ q L', units v u L = (.ok q, L') := by
  unfold units unitsNamed
  rw [PyM.run_bind_ok (PyM.run_get _)]
  by_cases hu : Py.stripWs u ∈ L.w.dic.uncertain
  · simp only [hu, if_true, construct, stripWs_idem]
    rw [if_pos (hun hu)]
    exact ⟨_, _, rfl⟩
  · simp only [hu, if_false]
    cases hf : List.find? (fun e : Str × List Str => decide (Py.stripWs u ∈ e.2)) L.dict with
    | none => exact ⟨_, _, rfl⟩
    | some e =>
      obtain ⟨key, l⟩ := e
      have hm := List.mem_of_find?_eq_some hf
      have hl : Py.stripWs u ∈ l := by have := List.find?_some hf; simpa using this
      have hlit : ∀ (d : Char) (t : Str), '\\' ∉ t → '\n' ∉ t → '\r' ∉ t → d ∉ t → literal d t = .ok t := by
        intro d t
        induction t with
        | nil => intros; rfl
        | cons c t ih =>
          intro h1 h2 h3 h4
          simp only [List.mem_cons, not_or] at h1 h2 h3 h4
          rw [literal]
          · rw [if_neg (by simp [Ne.symm h1.1, Ne.symm h2.1, Ne.symm h3.1, Ne.symm h4.1]), ih h1.2 h2.2 h3.2 h4.2]; rfl
          · intro _ _ h; exact absurd h.symm h1.1
      have hev : evalName (Py.stripWs u) = .ok (Py.stripWs u) := by
        unfold evalName
        refine hlit _ _ (fun h => hb (stripWs_mem h)) (fun h => hn (stripWs_mem h)) (fun h => hr (stripWs_mem h)) ?_
        split
        · rename_i h; rcases hq with hq | hq
          · exact absurd (stripWs_mem h) hq
          · exact fun h => hq (stripWs_mem h)
        · assumption
      have hnames : L.names key = l := by
        unfold Lib.names
        rw [dictGet_of_mem hkeys hm]; rfl
      obtain ⟨k, hk, hkk⟩ : ∃ k, kindOf key = .ok k ∧ (k = .user ∨ (k ≠ .base ∧ k.key = key)) := by
        unfold kindOf
        split
        · rename_i h; exact ⟨_, rfl, Or.inr ⟨by simp, h.symm⟩⟩
        · split
          · rename_i h; exact ⟨_, rfl, Or.inr ⟨by simp, h.symm⟩⟩
          · split
            · exact ⟨_, rfl, Or.inl rfl⟩
            · split
              · exact ⟨_, rfl, Or.inr ⟨by simp, rfl⟩⟩
              · rcases hcls _ hm hl with h | h | h | h <;> simp_all
      simp only [Option.isSome_none, Bool.false_eq_true, if_false]
      rw [PyM.run_bind_ok (a := Py.stripWs u) (s' := L) (by rw [hev]; rfl), PyM.run_bind_ok (a := k) (s' := L) (by rw [hk]; rfl)]
      rcases hkk with rfl | ⟨hb, hkk⟩
      · exact ⟨_, _, rfl⟩
      · have : ∃ q L', construct k 0 (Py.stripWs u) L = (.ok q, L') := by
          cases k <;> simp only [construct] at *
          case base => exact absurd rfl hb
          case user => exact ⟨_, _, rfl⟩
          all_goals rw [hkk, hnames, if_pos hl]; exact ⟨_, _, rfl⟩
        obtain ⟨q, L', hc⟩ := this
        rw [PyM.run_bind_ok hc]
        exact ⟨_, _, rfl⟩

example : (units 50 s!!" % " Demo.lib).1 = .ok ⟨.percentage, s!!"%", 1/2⟩ ∧
    (units 5 s!!"ft" Demo.lib).1 = .ok ⟨.std s!!"Length", s!!"ft", 5⟩ ∧
    (units 5 s!!" parsec" Demo.lib).1 = .ok ⟨.user, s!!"parsec", 5⟩ := by decide +kernel

/-- C42 is false of names with a backslash: the second time the name is used it is evaluated as the text of a Python
string. -/
theorem C42_backslash_fails :
    (let u := ['a', '\\', 'n', 'b']
     let L1 := (units 1 u Demo.lib).2
     (units 1 u Demo.lib).1 = .ok ⟨.user, u, 1⟩ ∧ (units 1 u L1).1 = .ok ⟨.user, ['a', '\n', 'b'], 1⟩) := by decide +kernel

/-- C42: `units(v, u, name)` raises TypeError for every listed unit, whatever the name. -/
theorem C42_name_fails (L : Lib) (v : Rat) (u name : Str) (hu : Py.stripWs u ∉ L.w.dic.uncertain)
    (e : Str × List Str) (he : e ∈ L.dict) (hm : Py.stripWs u ∈ e.2) :
    unitsNamed v u (some name) L = (.error .typeError, L) := by
  unfold unitsNamed
  rw [PyM.run_bind_ok (PyM.run_get _)]
  simp only [hu, if_false]
  cases hf : List.find? (fun e : Str × List Str => decide (Py.stripWs u ∈ e.2)) L.dict with
  | none => have := List.find?_eq_none.1 hf e he; simp [hm] at this
  | some e => rfl

example : (s!!"Length", [s!!"in", s!!"ft", s!!"yd", s!!"mi"]) ∈ Demo.lib.dict ∧ s!!"ft" ∉ Demo.lib.w.dic.uncertain := by decide

/-! ### C43 -/

/-- what `to` returns for the classes of units -/
theorem to_ok {L0 L L' : Lib} (l : Later L0 L) {B : Str → Rat → Rat} {q : Quantity} {u : Str} {o : Obj} (n : Str)
    (hn : q.kind = .std n) (hc : ConvertsAs L0.w B q.unit u) (h : q.to u L = (.ok o, L')) :
    ∃ y, o = .qty ⟨q.kind, u, y⟩ ∧ B u y = B q.unit q.value := by
  unfold Quantity.to at h
  rw [if_neg (by simp [unitless, hn])] at h
  obtain ⟨d, L2, h2, h⟩ := PyM.bind_ok h
  have l2 : Later L L2 := by have := Asking.convertible q.unit u L; rw [h2] at this; exact this
  split at h
  · rw [hn] at h
    obtain ⟨y, L3, h3, h⟩ := PyM.bind_ok h
    obtain ⟨r, L4, h4, h⟩ := PyM.bind_ok h
    cases h
    obtain ⟨e1, e2, e3, _⟩ := construct_ok h4
    simp at e2 e3
    refine ⟨y, ?_, (l.trans l2).convertsAs hc h3⟩
    rw [hn, ← e1, ← e2, ← e3]
  · rw [if_neg (by rw [hn]; simp)] at h
    cases h

/-- C43. For the quantities of the classes of units: `q.to(u).to(q.unit)` is `q` again, also when other conversions and
computations come in between, if the conversions respect one-to-one readings. -/
theorem C43_round_trip_partial (L L1 L2 L3 : Lib) (B : Str → Rat → Rat) (q r : Quantity) (u n : Str) (hn : q.kind = .std n)
    (h1 : ConvertsAs L.w B q.unit u) (h2 : ConvertsAs L.w B u q.unit) (inj : ∀ x y, B q.unit x = B q.unit y → x = y)
    (r1 : q.to u L = (.ok (.qty r), L1)) (l2 : Later L1 L2) (o : Obj) (r2 : r.to q.unit L2 = (.ok o, L3)) :
    r.unit = u ∧ r.kind = q.kind ∧ o = .qty q := by
  have l1 : Later L L1 := by have := Asking.to q u L; rw [r1] at this; exact this
  obtain ⟨y, e1, e2⟩ := to_ok (.refl L) n hn h1 r1
  cases e1
  refine ⟨rfl, rfl, ?_⟩
  obtain ⟨z, rfl, e4⟩ := to_ok (q := ⟨q.kind, u, y⟩) (l1.trans l2) n hn h2 r2
  rw [inj _ _ (e4.trans e2)]

/-- C43 on a consistent network, where conversions are in proportion or not. -/
theorem C43_network_partial (L L1 L2 L3 : Lib) (hw : Reachable L.w) (B : Str → Rat → Rat)
    (hB : Consistent L.w.net L.w.fvf fun n => B n.name) (q r : Quantity) (u n : Str) (hn : q.kind = .std n)
    (hcq : CleanName q.unit) (hcu : CleanName u) (oq : Ordinary L.w.dic q.unit) (ou : Ordinary L.w.dic u)
    (hd : ¬ DensityPair L.w.dic q.unit u) (hd' : ¬ DensityPair L.w.dic u q.unit)
    (r1 : q.to u L = (.ok (.qty r), L1)) (l2 : Later L1 L2) (o : Obj) (r2 : r.to q.unit L2 = (.ok o, L3)) :
    r.unit = u ∧ r.kind = q.kind ∧ o = .qty q :=
  C43_round_trip_partial L L1 L2 L3 B q r u n hn (convertsAs_names hw hB hcq hcu oq hd)
    (convertsAs_names hw hB hcu hcq ou hd') (fun x y => hB.inj ⟨0, q.unit⟩ x y) r1 l2 o r2

example : Reachable Demo.lib.w ∧ Consistent Demo.lib.w.net Demo.lib.w.fvf (fun n => inSize Demo.sizeOf n.name) ∧
    (Demo.oneYard.to s!!"ft" Demo.lib).1 = .ok (.qty ⟨.std s!!"Length", s!!"ft", 3⟩) ∧
    ((⟨.std s!!"Length", s!!"ft", 3⟩ : Quantity).to s!!"yd" (Demo.oneYard.to s!!"ft" Demo.lib).2).1 = .ok (.qty Demo.oneYard) :=
  ⟨Demo.reachable, Demo.consistentOf _, by decide +kernel, by decide +kernel⟩

/-- C43 is false of ambiguous names: a quantity of one changes its class on the way, and cannot be compared with the
original any more. -/
theorem C43_ambiguous_fails :
    (let L : Lib := { Demo.lib with w := { Demo.world with dic := { uncertain := [s!!"in"] } } }
     (units 12 s!!"in" L).1 = .ok ⟨.base, s!!"in", 12⟩ ∧
     ((⟨.base, s!!"in", 12⟩ : Quantity).to s!!"ft" L).1 = .ok (.qty ⟨.std s!!"Length", s!!"ft", 1⟩) ∧
     ((⟨.std s!!"Length", s!!"ft", 1⟩ : Quantity).to s!!"in" L).1 = .ok (.qty ⟨.std s!!"Length", s!!"in", 12⟩) ∧
     ((⟨.base, s!!"in", 12⟩ : Quantity).compare .eq ⟨.std s!!"Length", s!!"in", 12⟩ L).1 = .error .typeError) := by
  decide +kernel

end Unyts

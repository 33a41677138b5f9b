import Verif.Props.UnitClass
import Verif.Props.Operations

/-! C65 - C68, C72 - C74: arithmetic of quantities (`unit_class.py`). -/
namespace Unyts
open Spec Quantity

/-! ### C68: every result is a quantity its class accepts -/

/-- Whatever `m` returns is a quantity whose class accepts its unit. -/
def Gives (m : PyM Lib Quantity) : Prop := ∀ L r L', m L = (.ok r, L') → Valid L' r

namespace Gives

theorem construct (k : Kind) (v : Rat) (u : Str) : Gives (construct k v u) := fun _ _ _ h =>
  valid_construct h (Or.inr (stripWs_idem u))

theorem bind {m : PyM Lib α} {f : α → PyM Lib Quantity} (hf : ∀ a, Gives (f a)) : Gives (m >>= f) := by
  intro L r L' h
  obtain ⟨a, L1, _, h2⟩ := PyM.bind_ok h
  exact hf a L1 r L' h2

theorem units (v : Rat) (u : Str) : Gives (units v u) := by
  intro L r L' h
  rcases units_ok h with ⟨_, hc⟩ | ⟨_, _, hc⟩ | ⟨_, key, l, k, s, r, _, _, _, _, hc, rfl⟩
  · exact construct _ _ _ L r L' hc
  · exact construct _ _ _ L r L' hc
  · have := construct _ _ _ L r L' hc
    unfold Valid at this ⊢
    exact this

theorem neg (q : Quantity) : Gives q.neg := by
  unfold Quantity.neg; split <;> exact construct _ _ _

theorem mulBase (p q : Quantity) : Gives (p.mulBase q) := by
  unfold Quantity.mulBase
  have cs := fun v (m : PyM Lib Str) => bind (m := m) fun u => units v u
  split
  · exact construct _ _ _
  · split
    · exact construct _ _ _
    · split
      · exact construct _ _ _
      · split
        · exact cs _ _
        · refine bind fun b => ?_
          split
          · exact bind fun _ => cs _ _
          · refine bind fun b => ?_
            split
            · exact bind fun _ => cs _ _
            · refine bind fun b => ?_
              split <;> exact cs _ _

theorem divLike (op : Rat → Rat → Res Rat) (p q : Quantity) : Gives (p.divLike op q) := by
  unfold Quantity.divLike
  have cs := fun v (m : PyM Lib Str) => bind (m := m) fun u => units v u
  split
  · exact bind fun _ => construct _ _ _
  · split
    · exact bind fun _ => construct _ _ _
    · split
      · exact bind fun _ => construct _ _ _
      · split
        · exact bind fun _ => cs _ _
        · refine bind fun b => ?_
          split
          · exact bind fun _ => bind fun _ => cs _ _
          · refine bind fun b => ?_
            split <;> exact bind fun _ => cs _ _

theorem mod (p q : Quantity) : Gives (p.mod q) := by
  unfold Quantity.mod
  split
  · exact bind fun _ => construct _ _ _
  · split
    · exact bind fun _ => construct _ _ _
    · split
      · exact bind fun _ => construct _ _ _
      · split
        · exact bind fun _ => units _ _
        · refine bind fun b => ?_
          split
          · exact bind fun _ => bind fun _ => units _ _
          · refine bind fun b => ?_
            split <;> exact bind fun _ => units _ _

theorem powInt (q : Quantity) (n : Int) : Gives (q.powInt n) := by
  unfold Quantity.powInt
  split
  · exact bind fun _ => construct _ _ _
  · exact bind fun _ => bind fun _ => bind fun _ => units _ _

end Gives

/-- C68. Whatever operation on quantities and numbers returns a quantity, its class accepts its unit: negation,
absolute value, sums, differences, products, quotients, remainders and powers, in every state of the library. -/
theorem C68_valid (p q : Quantity) (x : Rat) (n : Int) :
    Gives p.neg ∧ Gives p.abs ∧ Gives (p.addNum x) ∧ Gives (p.subNum x) ∧ Gives (p.rsubNum x) ∧ Gives (p.mulNum x) ∧
    Gives (p.divNum x) ∧ Gives (p.rdivNum x) ∧ Gives (p.mulBase q) ∧ Gives (p.floordiv q) ∧ Gives (p.mod q) ∧
    Gives (p.powInt n) ∧ Gives (p.roundTo n) ∧ Gives (units x p.unit) := by
  have addNum : ∀ (p : Quantity) x, Gives (p.addNum x) := fun p x => by unfold addNum; split <;> exact .construct _ _ _
  refine ⟨.neg p, ?_, addNum p x, ?_, .bind fun r => addNum r x, ?_, ?_, ?_, .mulBase p q, .divLike _ p q, .mod p q, .powInt p n,
    .construct _ _ _, .units _ _⟩
  · unfold Quantity.abs; split <;> exact .construct _ _ _
  · unfold subNum; split <;> exact .construct _ _ _
  · unfold mulNum; split <;> exact .construct _ _ _
  · unfold divNum; refine .bind fun _ => ?_; split
    · exact .construct _ _ _
    · exact .units _ _
  · unfold rdivNum; refine .bind fun _ => ?_; split
    · exact .units _ _
    · split <;> exact .units _ _

/-- C68 for the operations that may also return the pair of their operands or a bare number. -/
theorem C68_valid_sums (p q r : Quantity) (L L' : Lib) (op : Rat → Rat → Rat) (h : p.addLike op q L = (.ok (.qty r), L')) :
    Valid L' r := by
  have c : ∀ k v u (L1 : Lib), ((do return Obj.qty (← construct k v u)) : PyM Lib Obj) L1 = (.ok (.qty r), L') → Valid L' r := by
    intro k v u L1 h
    obtain ⟨s, L2, h1, h2⟩ := PyM.bind_ok h
    cases h2
    exact Gives.construct k v u L1 _ _ h1
  unfold addLike at h
  split at h
  · split at h
    · exact c _ _ _ _ h
    · obtain ⟨b, L1, _, h⟩ := PyM.bind_ok h
      split at h
      · obtain ⟨y, L2, _, h⟩ := PyM.bind_ok h; exact c _ _ _ _ h
      · obtain ⟨b, L1, _, h⟩ := PyM.bind_ok h
        split at h
        · obtain ⟨y, L2, _, h⟩ := PyM.bind_ok h; exact c _ _ _ _ h
        · cases h
  · split at h
    · exact c _ _ _ _ h
    · split at h
      · exact c _ _ _ _ h
      · split at h
        · exact c _ _ _ _ h
        · cases h

/-- C68 for conversions: of a valid quantity of a class. -/
theorem C68_valid_to (q r : Quantity) (u : Str) (L L' : Lib) (hv : Valid L q)
    (hkey : q.kind.key ≠ s!!"UserUnits" ∨ q.kind = .user) (h : q.to u L = (.ok (.qty r), L')) : Valid L' r := by
  have c : ∀ (m : PyM Lib Quantity), Gives m → ∀ (L1 : Lib), ((do return Obj.qty (← m)) : PyM Lib Obj) L1 = (.ok (.qty r), L') → Valid L' r := by
    intro m hm L1 h
    obtain ⟨s, L2, h1, h2⟩ := PyM.bind_ok h
    cases h2
    exact hm L1 _ _ h1
  unfold Quantity.to at h
  split at h
  · unfold toUnitless at h
    rw [PyM.run_bind_ok (PyM.run_get _)] at h
    split at h
    · cases h
    · split at h
      · exact c _ (.construct _ _ _) _ h
      · split at h
        · exact c _ (.construct _ _ _) _ h
        · exact c _ (.units _ _) _ h
  · obtain ⟨b, L1, h1, h⟩ := PyM.bind_ok h
    have l1 : Later L L1 := by have := Asking.convertible q.unit u L; rw [h1] at this; exact this
    split at h
    · cases hk : q.kind <;> rw [hk] at h
      case base => obtain ⟨y, L2, _, h⟩ := PyM.bind_ok h; exact c _ (.units _ _) _ h
      all_goals obtain ⟨y, L2, _, h⟩ := PyM.bind_ok h; exact c _ (.construct _ _ _) _ h
    · split at h
      · cases h; exact valid_later l1 hv hkey
      · cases h

example : (Demo.oneYard.mulBase Demo.oneFoot Demo.lib).1 = .ok ⟨.user, s!!"yd2", 1/3⟩ ∧
    Valid (Demo.oneYard.mulBase Demo.oneFoot Demo.lib).2 ⟨.user, s!!"yd2", 1/3⟩ := by decide +kernel

/-! ### C72: differences -/

/-- C72. As C38 for differences, when the units are the same or the library says that the second unit can be converted
to the first. Missing: the conversion in the other direction only, `C72_reversed_fails`. -/
theorem C72_difference_partial (L : Lib) (size : Str → Rat) (p q : Quantity) (hk : q.kind = p.kind)
    (hp : p.kind ≠ .percentage) (vp : Valid L p) (h1 : ConvertsAs L.w (inSize size) q.unit p.unit)
    (hconv : p.unit = q.unit ∨ ∀ L2, libConvertible q.unit p.unit L ≠ (.ok false, L2))
    (o : Obj) (L' : Lib) (h : p.sub q L = (.ok o, L')) :
    ∃ r, o = .qty r ∧ r.kind = p.kind ∧ r.unit = p.unit ∧
      inSize size r.unit r.value = inSize size p.unit p.value - inSize size q.unit q.value := by
  obtain ⟨r, L1, y, rfl, l1, hc⟩ := addLike_ok hk h
  refine ⟨r, rfl, ?_⟩
  rcases hc with ⟨hc, hy⟩ | ⟨hc, hne, ⟨L2, hf⟩, L0, l0, hy⟩
  · obtain ⟨e1, e2, e3, _⟩ := construct_ok hc
    rw [if_neg hp] at e2
    have e3' : r.unit = p.unit := by
      rw [e3]; split
      · rename_i hu; unfold Valid at vp; rw [hu] at vp; exact vp.1
      · rfl
    refine ⟨e1, e3', ?_⟩
    rw [e2, e3']
    rcases hy with ⟨hu, rfl⟩ | ⟨L0, l0, hy⟩
    · rw [← hu]; unfold inSize; ring
    · rw [← l0.convertsAs h1 hy]; unfold inSize; ring
  · rcases hconv with hu | hf'
    · exact absurd hu hne
    · exact absurd hf (hf' L2)

/-- C72 is false when only the first unit can be converted to the second: the result is the second minus the first. -/
theorem C72_reversed_fails (L : Lib) (size : Str → Rat) (p q : Quantity) (hk : q.kind = p.kind)
    (hp : p.kind ≠ .percentage) (vq : Valid L q) (h2 : ConvertsAs L.w (inSize size) p.unit q.unit)
    (hne : p.unit ≠ q.unit) (L2 : Lib) (hno : libConvertible q.unit p.unit L = (.ok false, L2))
    (o : Obj) (L' : Lib) (h : p.sub q L = (.ok o, L')) :
    ∃ r, o = .qty r ∧ inSize size r.unit r.value = inSize size q.unit q.value - inSize size p.unit p.value := by
  unfold sub addLike at h
  rw [if_pos hk, if_neg hne, PyM.run_bind_ok hno, if_neg (by simp)] at h
  obtain ⟨b, L3, h3, h⟩ := PyM.bind_ok h
  have l2 : Later L L2 := by have := Asking.convertible q.unit p.unit L; rw [hno] at this; exact this
  have l3 : Later L2 L3 := by have := Asking.convertible p.unit q.unit L2; rw [h3] at this; exact this
  split at h
  · obtain ⟨x, L4, h4, h⟩ := PyM.bind_ok h
    obtain ⟨r, L5, h5, h⟩ := PyM.bind_ok h
    cases h
    refine ⟨r, rfl, ?_⟩
    obtain ⟨e1, e2, e3, _⟩ := construct_ok h5
    rw [if_neg hp] at e2
    have e3' : r.unit = q.unit := by
      rw [e3]; split
      · rename_i hu; unfold Valid at vq; rw [hk, hu] at vq; exact vq.1
      · rfl
    rw [e2, e3', ← (l2.trans l3).convertsAs h2 h4]
    unfold inSize; ring
  · cases h

example : ((⟨.std s!!"Length", s!!"small", 3⟩ : Quantity).sub ⟨.std s!!"Length", s!!"big", 1⟩ Demo.oneWayLib).1 =
      .ok (.qty ⟨.std s!!"Length", s!!"small", -7⟩) ∧
    ((⟨.std s!!"Length", s!!"big", 1⟩ : Quantity).sub ⟨.std s!!"Length", s!!"small", 3⟩ Demo.oneWayLib).1 =
      .ok (.qty ⟨.std s!!"Length", s!!"small", -7⟩) := by decide +kernel

example : (Demo.oneYard.sub Demo.oneFoot Demo.lib).1 = .ok (.qty ⟨.std s!!"Length", s!!"yd", 2/3⟩) := by decide +kernel

/-! ### C65: products -/

/-- what a built quantity shows -/
theorem shown_units {v : Rat} {u : Str} {L L' : Lib} {q : Quantity} (h : units v u L = (.ok q, L')) : shown q = v := by
  rcases units_ok h with ⟨_, hc⟩ | ⟨_, _, hc⟩ | ⟨_, key, l, k, s, r, _, _, _, _, hc, rfl⟩
  · obtain ⟨e1, e2, _⟩ := construct_ok hc; simp [shown, e1, e2]
  · obtain ⟨e1, e2, _⟩ := construct_ok hc; simp [shown, e1, e2]
  · obtain ⟨e1, _⟩ := construct_ok hc
    simp only [shown, e1]; split
    · ring
    · rfl

theorem unit_units {v : Rat} {u : Str} {L L' : Lib} {q : Quantity} (hb : '\\' ∉ u) (h : units v u L = (.ok q, L')) :
    q.unit = Py.stripWs u := (C42_keeps_partial L L' v u hb q h).1

theorem notUnitless {p q : Quantity} (hp : p.unitless = false) (hq : q.unitless = false) :
    (p.unitless && !q.unitless) = false ∧ (decide (p.kind = .percentage) && q.unitless) = false := by
  simp [hp, hq]

/-- C65. The product of two quantities whose units are different names, of which the second can be converted to the
first and the first to the second (the three questions the library asks): the result is in the square of the first
unit, and its amount is the product of the amounts. Missing: conversions in one direction only
(`C65_one_way_fails`), and products of compound units. -/
theorem C65_product_partial (L L1 L2 L3 L' : Lib) (size : Str → Rat) (p q r : Quantity) (hp : p.unitless = false)
    (hq : q.unitless = false) (ha : BasicName p.unit) (hb : BasicName q.unit) (hne : p.unit ≠ q.unit)
    (ua : isUnitless L.unitless p.unit = false) (ub : isUnitless L.unitless q.unit = false) (hd : 2 ≤ L.depth)
    (hbs : '\\' ∉ p.unit) (hcv : ConvertsAs L.w (inSize size) q.unit p.unit) (y : Rat)
    (c1 : libConvertible q.unit p.unit L = (.ok true, L1))
    (c2 : libConvert .typeError q.value q.unit p.unit L1 = (.ok y, L2))
    (c3 : libConvertible p.unit q.unit L2 = (.ok true, L3)) (h : p.mulBase q L = (.ok r, L')) :
    r.unit = Py.stripWs (p.unit ++ ['2']) ∧
      shown r * (size p.unit * size p.unit) = inSize size p.unit p.value * inSize size q.unit q.value := by
  have l1 : Later L L1 := by have := Asking.convertible q.unit p.unit L; rw [c1] at this; exact this
  have l2 : Later L1 L2 := by have := Asking.convert .typeError q.value q.unit p.unit L1; rw [c2] at this; exact this
  have l12 := l1.trans l2
  obtain ⟨d, hd'⟩ : ∃ d, L.depth = d + 2 := ⟨L.depth - 2, by omega⟩
  have hprod : libProduct p.unit q.unit L2 = (.ok (p.unit ++ ['2']), L3) := by
    unfold libProduct
    rw [l12.unitless, l12.sf, l12.depth, hd']
    exact C37_product_convertible L.unitless L.sf libConvertible d p.unit q.unit ha hb hne ua ub L2 L3 c3
  obtain ⟨n1, n2⟩ := notUnitless hp hq
  unfold mulBase at h
  rw [n1, n2, if_neg (by simp), if_neg (by simp), if_neg (by simp [hq]), if_neg hne, PyM.run_bind_ok c1, if_pos rfl,
    PyM.run_bind_ok c2, PyM.run_bind_ok hprod] at h
  refine ⟨unit_units (by simp [hbs]) h, ?_⟩
  rw [shown_units h, ← l1.convertsAs hcv c2]
  unfold inSize; ring

/-- C65, for two quantities in the same unit. -/
theorem C65_square (L L' : Lib) (p q r : Quantity) (hp : p.unitless = false) (hq : q.unitless = false)
    (ha : BasicName p.unit) (he : p.unit = q.unit) (ua : isUnitless L.unitless p.unit = false) (hd : 1 ≤ L.depth)
    (hbs : '\\' ∉ p.unit) (h : p.mulBase q L = (.ok r, L')) :
    r.unit = Py.stripWs (p.unit ++ ['2']) ∧ shown r = p.value * q.value := by
  obtain ⟨d, hd'⟩ : ∃ d, L.depth = d + 1 := ⟨L.depth - 1, by omega⟩
  have hprod : libProduct p.unit q.unit L = (.ok (p.unit ++ ['2']), L) := by
    unfold libProduct
    rw [hd', ← he]
    exact C37_square L.unitless L.sf libConvertible d p.unit ha ua L
  obtain ⟨n1, n2⟩ := notUnitless hp hq
  unfold mulBase at h
  rw [n1, n2, if_neg (by simp), if_neg (by simp), if_neg (by simp [hq]), if_pos he, PyM.run_bind_ok hprod] at h
  exact ⟨unit_units (by simp [hbs]) h, shown_units h⟩

/-- C65, for two quantities whose units are names that cannot be converted into each other (the five questions the
library asks). -/
theorem C65_product_apart (L L1 L2 L3 L4 L5 L' : Lib) (p q r : Quantity) (hp : p.unitless = false)
    (hq : q.unitless = false) (ha : BasicName p.unit) (hb : BasicName q.unit) (hne : p.unit ≠ q.unit)
    (ua : isUnitless L.unitless p.unit = false) (ub : isUnitless L.unitless q.unit = false) (hd : 1 ≤ L.depth)
    (hbs : '\\' ∉ p.unit) (hbs' : '\\' ∉ q.unit) (c1 : libConvertible q.unit p.unit L = (.ok false, L1))
    (c2 : libConvertible p.unit q.unit L1 = (.ok false, L2)) (c3 : libConvertible q.unit p.unit L2 = (.ok false, L3))
    (c4 : libConvertible p.unit q.unit L3 = (.ok false, L4)) (c5 : libConvertible p.unit q.unit L4 = (.ok false, L5))
    (h : p.mulBase q L = (.ok r, L')) :
    r.unit = Py.stripWs (p.unit ++ '*' :: q.unit) ∧ shown r = p.value * q.value := by
  have l1 : Later L L1 := by have := Asking.convertible q.unit p.unit L; rw [c1] at this; exact this
  have l2 : Later L1 L2 := by have := Asking.convertible p.unit q.unit L1; rw [c2] at this; exact this
  have l3 : Later L2 L3 := by have := Asking.convertible q.unit p.unit L2; rw [c3] at this; exact this
  have l := (l1.trans l2).trans l3
  obtain ⟨d, hd'⟩ : ∃ d, L.depth = d + 1 := ⟨L.depth - 1, by omega⟩
  have hprod : libProduct p.unit q.unit L3 = (.ok (p.unit ++ '*' :: q.unit), L5) := by
    unfold libProduct
    rw [l.unitless, l.sf, l.depth, hd']
    exact C37_product_names L.unitless L.sf libConvertible d p.unit q.unit ha hb hne ua ub L3 L4 L5 c4 c5
  have hbase : baseFactor p.unit q.unit L2 = (.ok none, L3) := by
    unfold baseFactor
    rw [unitBasePower_bare ha.1, unitBasePower_bare hb.1, PyM.run_bind_ok (PyM.run_lift_ok _ _)]
    show (PyM.lift _ >>= _) L2 = _
    rw [PyM.run_bind_ok (PyM.run_lift_ok _ _)]
    show (libConvertible q.unit p.unit >>= _) L2 = _
    rw [PyM.run_bind_ok c3, if_neg (by simp)]
    rfl
  obtain ⟨n1, n2⟩ := notUnitless hp hq
  unfold mulBase at h
  rw [n1, n2, if_neg (by simp), if_neg (by simp), if_neg (by simp [hq]), if_neg hne, PyM.run_bind_ok c1, if_neg (by simp),
    PyM.run_bind_ok c2, if_neg (by simp), PyM.run_bind_ok hbase] at h
  have h' : (libProduct p.unit q.unit >>= fun u => units (p.value * q.value) u) L3 = (.ok r, L') := h
  rw [PyM.run_bind_ok hprod] at h'
  exact ⟨unit_units (by simp [hbs, hbs']) h', shown_units h'⟩

example : (Demo.oneYard.mulBase Demo.oneFoot Demo.lib).1 = .ok ⟨.user, s!!"yd2", 1/3⟩ ∧
    BasicName s!!"yd" ∧ isUnitless Demo.lib.unitless s!!"yd" = false ∧
    (libConvertible s!!"ft" s!!"yd" Demo.lib).1 = .ok true ∧ (libConvertible s!!"yd" s!!"ft" Demo.lib).1 = .ok true ∧
    ((⟨.std s!!"Length", s!!"yd", 5⟩ : Quantity).mulBase ⟨.user, s!!"g", 2⟩ Demo.lib).1 = .ok ⟨.user, s!!"yd*g", 10⟩ := by
  refine ⟨by decide +kernel, by unfold BasicName BareName PlainName; decide +kernel, by decide +kernel, by decide +kernel, by decide +kernel, by decide +kernel⟩

/-- C65 is false when only the second unit can be converted to the first: the number is in the square of the first unit,
the unit is the product of the two. Three small times one big, that is ten small, come out as thirty small times
big. -/
theorem C65_one_way_fails :
    ((⟨.std s!!"Length", s!!"small", 3⟩ : Quantity).mulBase ⟨.std s!!"Length", s!!"big", 1⟩ Demo.oneWayLib).1 =
      .ok ⟨.user, s!!"small*big", 30⟩ := by decide +kernel

/-! ### C74: ratios of quantities of the same kind -/

/-- C74. The ratio of two quantities of names of units that convert into each other has the right number. Missing: it
should be a number without unit, see `C74_unit_fails`. -/
theorem C74_ratio_partial (L L1 L2 L' : Lib) (size : Str → Rat) (p q r : Quantity) (hp : p.unitless = false)
    (hq : q.unitless = false) (hne : p.unit ≠ q.unit)
    (hcv : ConvertsAs L.w (inSize size) q.unit p.unit) (hs : size p.unit ≠ 0) (y : Rat)
    (c1 : libConvertible q.unit p.unit L = (.ok true, L1))
    (c2 : libConvert .typeError q.value q.unit p.unit L1 = (.ok y, L2))
    (h : p.divLike pdiv q L = (.ok r, L')) :
    shown r = inSize size p.unit p.value / inSize size q.unit q.value := by
  have l1 : Later L L1 := by have := Asking.convertible q.unit p.unit L; rw [c1] at this; exact this
  obtain ⟨n1, n2⟩ := notUnitless hp hq
  unfold divLike at h
  rw [n1, n2, if_neg (by simp), if_neg (by simp), if_neg (by simp [hq]), if_neg hne, PyM.run_bind_ok c1, if_pos rfl,
    PyM.run_bind_ok c2] at h
  obtain ⟨x, L5, h5, h⟩ := PyM.bind_ok h
  obtain ⟨u, L6, h6, h⟩ := PyM.bind_ok h
  have hx : x = p.value / y := by
    unfold PyM.lift pdiv at h5
    split at h5
    · cases h5
    · cases h5; rfl
  rw [shown_units h, hx, ← l1.convertsAs hcv c2]
  unfold inSize
  rw [mul_div_mul_right _ _ hs]

/-- C74 is false of the unit: the ratio of two quantities of the same named unit is in `a/a`, a new unit of the user
unless some list has that name. -/
theorem C74_unit_fails (L L1 L' : Lib) (p q r : Quantity) (hp : p.unitless = false)
    (hq : q.unitless = false) (ha : BasicName p.unit) (he : p.unit = q.unit)
    (ua : isUnitless L.unitless p.unit = false) (hd : 1 ≤ L.depth) (hbs : '\\' ∉ p.unit)
    (c1 : libConvertible p.unit p.unit L = (.ok true, L1)) (hwf : WF L.w.net)
    (hun : Py.stripWs (p.unit ++ '/' :: p.unit) ∉ L.w.dic.uncertain)
    (hn : ∀ e ∈ L.dict, Py.stripWs (p.unit ++ '/' :: p.unit) ∉ e.2)
    (h : p.divLike pdiv q L = (.ok r, L')) :
    r.kind = .user ∧ r.unit = Py.stripWs (p.unit ++ '/' :: p.unit) ∧ shown r = p.value / q.value := by
  obtain ⟨d, hd'⟩ : ∃ d, L.depth = d + 1 := ⟨L.depth - 1, by omega⟩
  obtain ⟨n1, n2⟩ := notUnitless hp hq
  have hdiv : libDivision p.unit q.unit L = (.ok (p.unit ++ '/' :: p.unit), L1) := by
    unfold libDivision
    rw [hd', ← he]
    exact division_self L.unitless L.sf libConvertible d p.unit ha ua L L1 c1
  unfold divLike at h
  rw [n1, n2, if_neg (by simp), if_neg (by simp), if_neg (by simp [hq]), if_pos he] at h
  have hx : (PyM.lift (pdiv p.value q.value) : PyM Lib Rat) L = (.ok (p.value / q.value), L) := by
    obtain ⟨x, L5, h5, _⟩ := PyM.bind_ok h
    unfold PyM.lift pdiv at h5 ⊢
    split at h5
    · cases h5
    · rename_i h0; rw [if_neg h0]
  rw [PyM.run_bind_ok hx, PyM.run_bind_ok hdiv] at h
  have l1 : Later L L1 := by have := Asking.convertible p.unit p.unit L; rw [c1] at this; exact this
  have hw : L1.dict = L.dict := by
    have := c1; unfold libConvertible onWorld at this
    simp only [Prod.mk.injEq] at this
    rw [← this.2]
  have hk := (C42_keeps_partial L1 L' _ _ (by simp [hbs]) r h).2.2.2 (by
    obtain ⟨cs, hcs, hw'⟩ := l1.calls
    rw [hw', (base_session hcs hwf).dic]
    exact hun) (by rw [hw]; exact hn)
  exact ⟨hk, unit_units (by simp [hbs]) h, shown_units h⟩

end Unyts

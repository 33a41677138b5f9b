import Verif.Props.Arithmetic
import Verif.Lemmas.UnitOps
import Verif.Spec.Energy

/-! C86: products and quotients of quantities of energy and electricity (`units/energy.py`, `units/time.py`). -/
namespace Unyts
open Spec Quantity

theorem mulTo_law : (lawProducts.all fun t => decide (mulTo (.std t.1) (.std t.2.1) = some t.2.2.2)) = true := by decide +kernel
theorem divTo_law : (lawQuotients.all fun t => decide (divTo (.std t.1) (.std t.2.1) = some t.2.2.2)) = true := by decide +kernel

/-- what `to` does with the amount -/
theorem to_reads {L0 L L' : Lib} (l : Later L0 L) {B : Str → Rat → Rat} {q : Quantity} {u : Str} {o : Obj}
    (hq : q.unitless = false) (hb : '\\' ∉ u) (hs : Py.stripWs u = u) (hc : ConvertsAs L0.w B q.unit u)
    (h : q.to u L = (.ok o, L')) :
    ∃ r, o = .qty r ∧ (q.kind = .user ∧ r = q ∨ r.unit = u ∧ B u (shown r) = B q.unit q.value) := by
  unfold Quantity.to at h
  rw [if_neg (by simp [hq])] at h
  obtain ⟨d, L2, h2, h⟩ := PyM.bind_ok h
  have l2 : Later L L2 := by have := Asking.convertible q.unit u L; rw [h2] at this; exact this
  split at h
  · cases hk : q.kind <;> rw [hk] at h
    case base =>
      obtain ⟨y, L3, h3, h⟩ := PyM.bind_ok h
      obtain ⟨r, L4, h4, h⟩ := PyM.bind_ok h
      cases h
      refine ⟨r, rfl, Or.inr ⟨by rw [unit_units hb h4, hs], ?_⟩⟩
      rw [shown_units h4]
      exact (l.trans l2).convertsAs hc h3
    all_goals
      obtain ⟨y, L3, h3, h⟩ := PyM.bind_ok h
      obtain ⟨r, L4, h4, h⟩ := PyM.bind_ok h
      cases h
      obtain ⟨e1, e2, e3, _⟩ := construct_ok h4
      refine ⟨r, rfl, Or.inr ⟨?_, ?_⟩⟩
      · rw [e3]; split <;> [exact hs; rfl]
      · have hk : q.kind ≠ .percentage := by intro e; simp [unitless, e] at hq
        have : shown r = y := by simp_all [shown]
        rw [this]
        exact (l.trans l2).convertsAs hc h3
  · split at h
    · cases h
      exact ⟨q, rfl, Or.inl ⟨by assumption, rfl⟩⟩
    · cases h

/-- C86. A product of two quantities that a law is about is the product of the two in the unit of the law; `m` is the
product as it would be without the law (C65). A product the library cannot convert is left as it is. Missing: the class
(`C86_class_fails`), and that the library can convert it (`C86_unit_fails`). -/
theorem C86_product_partial (L L1 L' : Lib) (B : Str → Rat → Rat) (p q m : Quantity) (o : Obj) (a b c u : Str)
    (ht : (a, b, c, u) ∈ lawProducts) (ha : p.kind = .std a) (hb : q.kind = .std b) (hm : p.mulBase q L = (.ok m, L1))
    (hu : m.unitless = false) (hcv : ConvertsAs L.w B m.unit u) (h : p.mul q L = (.ok o, L')) :
    ∃ r, o = .qty r ∧ (m.kind = .user ∧ r = m ∨ r.unit = u ∧ B u (shown r) = B m.unit m.value) := by
  have l1 : Later L L1 := by have := Asking.mulBase p q L; rw [hm] at this; exact this
  have hto := List.all_eq_true.1 mulTo_law _ ht
  simp only [decide_eq_true_eq] at hto
  have hw : '\\' ∉ u ∧ Py.stripWs u = u := by
    have key : (lawProducts.all fun t => decide ('\\' ∉ t.2.2.2 ∧ Py.stripWs t.2.2.2 = t.2.2.2)) = true := by decide +kernel
    simpa using List.all_eq_true.1 key _ ht
  unfold Quantity.mul at h
  rw [PyM.run_bind_ok hm, ha, hb, hto] at h
  exact to_reads l1 hu hw.1 hw.2 hcv h

/-- C86, quotients. -/
theorem C86_quotient_partial (L L1 L' : Lib) (B : Str → Rat → Rat) (p q m : Quantity) (o : Obj) (a b c u : Str)
    (ht : (a, b, c, u) ∈ lawQuotients) (ha : p.kind = .std a) (hb : q.kind = .std b) (hm : p.divLike pdiv q L = (.ok m, L1))
    (hu : m.unitless = false) (hcv : ConvertsAs L.w B m.unit u) (h : p.div q L = (.ok o, L')) :
    ∃ r, o = .qty r ∧ (m.kind = .user ∧ r = m ∨ r.unit = u ∧ B u (shown r) = B m.unit m.value) := by
  have l1 : Later L L1 := by have := Asking.divLike pdiv p q L; rw [hm] at this; exact this
  have hto := List.all_eq_true.1 divTo_law _ ht
  simp only [decide_eq_true_eq] at hto
  have hw : '\\' ∉ u ∧ Py.stripWs u = u := by
    have key : (lawQuotients.all fun t => decide ('\\' ∉ t.2.2.2 ∧ Py.stripWs t.2.2.2 = t.2.2.2)) = true := by decide +kernel
    simpa using List.all_eq_true.1 key _ ht
  unfold Quantity.div at h
  rw [PyM.run_bind_ok hm, ha, hb, hto] at h
  exact to_reads l1 hu hw.1 hw.2 hcv h

/-- C86. The laws change no other product or quotient. -/
theorem C86_others (L L' : Lib) (p q : Quantity) (o : Obj)
    (h : (∀ t ∈ lawProducts, ¬ (p.kind = .std t.1 ∧ q.kind = .std t.2.1)) ∧ p.mul q L = (.ok o, L') ∨
      (∀ t ∈ lawQuotients, ¬ (p.kind = .std t.1 ∧ q.kind = .std t.2.1)) ∧ p.div q L = (.ok o, L')) :
    ∃ m, o = .qty m ∧ (p.mulBase q L = (.ok m, L') ∨ p.divLike pdiv q L = (.ok m, L')) := by
  rcases h with ⟨hn, h⟩ | ⟨hn, h⟩
  · have hto : mulTo p.kind q.kind = none := by
      simp only [lawProducts, List.mem_cons, List.not_mem_nil, or_false, forall_eq_or_imp, forall_eq] at hn
      unfold mulTo
      simp only [if_neg hn.1, if_neg hn.2.1, if_neg hn.2.2.1, if_neg hn.2.2.2.1, if_neg hn.2.2.2.2.1, if_neg hn.2.2.2.2.2.1,
        if_neg hn.2.2.2.2.2.2]
    unfold Quantity.mul at h
    obtain ⟨m, L1, h1, h⟩ := PyM.bind_ok h
    rw [hto] at h
    cases h
    exact ⟨m, rfl, Or.inl h1⟩
  · have hto : divTo p.kind q.kind = none := by
      simp only [lawQuotients, List.mem_cons, List.not_mem_nil, or_false, forall_eq_or_imp, forall_eq] at hn
      unfold divTo
      simp only [if_neg hn.1, if_neg hn.2.1, if_neg hn.2.2.1, if_neg hn.2.2.2.1, if_neg hn.2.2.2.2.1, if_neg hn.2.2.2.2.2.1,
        if_neg hn.2.2.2.2.2.2]
    unfold Quantity.div at h
    obtain ⟨m, L1, h1, h⟩ := PyM.bind_ok h
    rw [hto] at h
    cases h
    exact ⟨m, rfl, Or.inr h1⟩

namespace DemoPower

/-- powers, times and energies; `W*h` is a name of the watt hour, as in the library -/
def lib : Lib :=
  { Demo.lib with
    w := { net := { edges := [(⟨0, s!!"W"⟩, [(⟨1, s!!"kW"⟩, Demo.times (1/1000))]), (⟨1, s!!"kW"⟩, [(⟨0, s!!"W"⟩, Demo.times 1000)]),
                      (⟨2, s!!"h"⟩, [(⟨3, s!!"min"⟩, Demo.times 60)]), (⟨3, s!!"min"⟩, [(⟨2, s!!"h"⟩, Demo.times (1/60))]),
                      (⟨4, s!!"Wh"⟩, [(⟨5, s!!"W*h"⟩, Demo.times 1)]), (⟨5, s!!"W*h"⟩, [(⟨4, s!!"Wh"⟩, Demo.times 1)])],
                    nextId := 6 }, par := { algorithm := .bfs } }
    dict := [(s!!"Power", [s!!"W", s!!"kW"]), (s!!"Time", [s!!"h", s!!"min"]), (s!!"Energy", [s!!"Wh", s!!"W*h"])],
    allUnits := [s!!"W", s!!"kW", s!!"h", s!!"min", s!!"Wh", s!!"W*h"] }

end DemoPower

example : ((⟨.std s!!"Power", s!!"W", 3⟩ : Quantity).mulBase ⟨.std s!!"Time", s!!"h", 2⟩ DemoPower.lib).1 =
      .ok ⟨.std s!!"Energy", s!!"W*h", 6⟩ ∧
    ((⟨.std s!!"Power", s!!"W", 3⟩ : Quantity).mul ⟨.std s!!"Time", s!!"h", 2⟩ DemoPower.lib).1 =
      .ok (.qty ⟨.std s!!"Energy", s!!"Wh", 6⟩) := by decide +kernel

/-- C86 is false of the class: three kilowatts for two hours are 6000 Wh, in a unit of the user and not an energy, so
that they do not compare with energies. -/
theorem C86_class_fails :
    (let r := ((⟨.std s!!"Power", s!!"kW", 3⟩ : Quantity).mul ⟨.std s!!"Time", s!!"h", 2⟩ DemoPower.lib)
     r.1 = .ok (.qty ⟨.user, s!!"Wh", 6000⟩) ∧
     ((⟨.user, s!!"Wh", 6000⟩ : Quantity).compare .eq ⟨.std s!!"Energy", s!!"Wh", 6000⟩ r.2).1 = .error .typeError) := by
  decide +kernel

/-- amperes, ohms and volts -/
def DemoPower.ohms : Lib :=
  { Demo.lib with
    w := { net := { edges := [(⟨0, s!!"A"⟩, []), (⟨1, s!!"Ohm"⟩, []), (⟨2, s!!"Volt"⟩, [])], nextId := 3 }, par := { algorithm := .bfs } }
    dict := [(s!!"Current", [s!!"A"]), (s!!"Resistance", [s!!"Ohm"]), (s!!"Voltage", [s!!"Volt"])],
    allUnits := [s!!"A", s!!"Ohm", s!!"Volt"] }

/-- C86 is false of the unit: three amperes through two ohms are 6 A*Ohm, not Volt, where no conversion leads from that
name to Volt. -/
theorem C86_unit_fails : ((⟨.std s!!"Current", s!!"A", 3⟩ : Quantity).mul ⟨.std s!!"Resistance", s!!"Ohm", 2⟩ DemoPower.ohms).1 =
    .ok (.qty ⟨.user, s!!"A*Ohm", 6⟩) := by decide +kernel

end Unyts

import Verif.Model.Dates
import Verif.Lemmas.ShippedKinds
import Verif.Spec.Library
import Mathlib.Tactic.FieldSimp
import Mathlib.Tactic.Ring
import Mathlib.Tactic.NormNum

/- C115: dates and times. -/
namespace Unyts
open Spec

/-- the moment of a date, in seconds -/
def Spec.moment (d : DateTime) : Rat := d.count * d.tick

/-- a date as NumPy makes it: its tick is one of NumPy's -/
def Spec.NpDate (d : DateTime) : Prop := ∃ e ∈ npCodes, d.tick = e.2

theorem ticks_divide : ∀ a ∈ npCodes, ∀ b ∈ npCodes, b.2 ≤ a.2 → (a.2 / b.2).den = 1 ∧ b.2 ≠ 0 := by decide +kernel

theorem finer_moment {d : DateTime} {a b : Str × Rat} (ha : a ∈ npCodes) (hb : b ∈ npCodes) (hd : d.tick = a.2) (h : b.2 ≤ a.2) :
    (d.finer b.2 : Rat) * b.2 = moment d := by
  obtain ⟨h1, h2⟩ := ticks_divide a ha b hb h
  have e : (d.count : Rat) * d.tick / b.2 = ((d.count * (a.2 / b.2).num : Int) : Rat) := by
    rw [hd, mul_div_assoc, Int.cast_mul]
    congr 1
    exact (Rat.den_eq_one_iff _).1 h1 |>.symm
  unfold DateTime.finer moment
  rw [e, Rat.num_intCast, ← e]
  field_simp

theorem shift_moment {d t : DateTime} (hd : NpDate d) (ht : NpDate t) (sgn : Int) :
    NpDate (d.shift t sgn) ∧ moment (d.shift t sgn) = moment d + sgn * moment t := by
  obtain ⟨a, ha, da⟩ := hd
  obtain ⟨b, hb, tb⟩ := ht
  unfold DateTime.shift
  by_cases h : t.tick ≤ d.tick
  · simp only [if_pos h]
    refine ⟨⟨b, hb, tb⟩, ?_⟩
    have e1 := finer_moment ha hb da (by rw [← da, ← tb]; exact h)
    have e2 := finer_moment hb hb tb (le_refl _)
    simp only [moment, tb] at e1 e2 ⊢
    push_cast
    rw [add_mul, e1, mul_assoc, e2]
  · simp only [if_neg h]
    refine ⟨⟨a, ha, da⟩, ?_⟩
    have e1 := finer_moment ha ha da (le_refl _)
    have e2 := finer_moment hb ha tb (by rw [← da, ← tb]; exact le_of_lt (not_le.1 h))
    simp only [moment, da] at e1 e2 ⊢
    push_cast
    rw [add_mul, e1, mul_assoc, e2]

theorem dateShift_time {d : DateTime} {q : Quantity} (hk : q.kind = .std s!!"Time") {s : Rat} (hs : (q.unit, s) ∈ npCodes)
    {n : Int} (hn : q.value = n) (sgn : Int) : dateShift sgn d (.qty q) = .ok (some (d.shift ⟨n, s⟩ sgn)) := by
  have hg : Py.dictGet npCodes q.unit = some s := by
    have : ∀ e ∈ npCodes, Py.dictGet npCodes e.1 = some e.2 := by decide +kernel
    exact this _ hs
  simp only [dateShift, timedelta]
  rw [if_pos hk, hg, hn]
  simp only
  rw [if_pos (Rat.den_intCast _), Rat.num_intCast]
  rfl

/-- the seconds in the units of time that NumPy and the library both know -/
def Spec.dateSeconds : List (Str × Rat) :=
  [(s!!"h", 3600), (s!!"s", 1), (s!!"ms", 1 / 10 ^ 3), (s!!"us", 1 / 10 ^ 6), (s!!"ns", 1 / 10 ^ 9), (s!!"ps", 1 / 10 ^ 12),
   (s!!"fs", 1 / 10 ^ 15), (s!!"as", 1 / 10 ^ 18)]

theorem seconds_codes : ∀ e ∈ dateSeconds, e ∈ npCodes := by decide +kernel

/-- C115. A date plus a whole number of hours, seconds, milliseconds, ... is the date that much later, and a date minus them that
much earlier. -/
theorem C115_shift_partial {d : DateTime} (hd : NpDate d) {q : Quantity} (hk : q.kind = .std s!!"Time") {s : Rat}
    (hs : (q.unit, s) ∈ dateSeconds) {n : Int} (hn : q.value = n) :
    (∃ e, dateShift 1 d (.qty q) = .ok (some e) ∧ NpDate e ∧ moment e = moment d + q.value * s) ∧
    (∃ e, dateShift (-1) d (.qty q) = .ok (some e) ∧ NpDate e ∧ moment e = moment d - q.value * s) := by
  have ht : NpDate ⟨n, s⟩ := ⟨_, seconds_codes _ hs, rfl⟩
  refine ⟨⟨_, dateShift_time hk (seconds_codes _ hs) hn 1, (shift_moment hd ht 1).1, ?_⟩, ⟨_, dateShift_time hk (seconds_codes _ hs) hn (-1), (shift_moment hd ht _).1, ?_⟩⟩
  · rw [(shift_moment hd ht 1).2, hn]; simp [moment]
  · rw [(shift_moment hd ht (-1)).2, hn]; simp [moment]; ring

/-- C115. Adding a time and taking it away again gives the same moment. -/
theorem C115_back_partial {d : DateTime} (hd : NpDate d) {q : Quantity} (hk : q.kind = .std s!!"Time") {s : Rat}
    (hs : (q.unit, s) ∈ dateSeconds) {n : Int} (hn : q.value = n) :
    ∃ e f, dateShift 1 d (.qty q) = .ok (some e) ∧ dateShift (-1) e (.qty q) = .ok (some f) ∧ moment f = moment d := by
  obtain ⟨⟨e, h1, he, hm⟩, _⟩ := C115_shift_partial hd hk hs hn
  obtain ⟨_, f, h2, _, hm2⟩ := C115_shift_partial he hk hs hn
  exact ⟨e, f, h1, h2, by rw [hm2, hm]; ring⟩

/-- C115. Times may be added in any order. -/
theorem C115_order_partial {d : DateTime} (hd : NpDate d) {p q : Quantity} (hp : p.kind = .std s!!"Time") (hq : q.kind = .std s!!"Time")
    {s r : Rat} (hs : (p.unit, s) ∈ dateSeconds) (hr : (q.unit, r) ∈ dateSeconds) {n m : Int} (hn : p.value = n) (hm : q.value = m) :
    ∃ e f e' f', dateShift 1 d (.qty p) = .ok (some e) ∧ dateShift 1 e (.qty q) = .ok (some f) ∧
      dateShift 1 d (.qty q) = .ok (some e') ∧ dateShift 1 e' (.qty p) = .ok (some f') ∧ moment f = moment f' := by
  obtain ⟨⟨e, h1, he, k1⟩, _⟩ := C115_shift_partial hd hp hs hn
  obtain ⟨⟨f, h2, _, k2⟩, _⟩ := C115_shift_partial he hq hr hm
  obtain ⟨⟨e', h3, he', k3⟩, _⟩ := C115_shift_partial hd hq hr hm
  obtain ⟨⟨f', h4, _, k4⟩, _⟩ := C115_shift_partial he' hp hs hn
  exact ⟨e, f, e', f', h1, h2, h3, h4, by rw [k2, k1, k4, k3]; ring⟩

/-- the built-in times that dates take -/
def Spec.dateUnits : List Str := [s!!"h", s!!"s", s!!"ms", s!!"us", s!!"ns", s!!"ps", s!!"fs", s!!"as"]

theorem time_codes : ∀ e ∈ rawDictionary, quantityOf e.1 = s!!"Time" → ∀ u ∈ nodesOf (kindInstrs shippedPrefixes e.1 e.2),
    Py.dictGet npCodes u = none ∨ u ∈ dateUnits := by decide +kernel

/-- C115 fails for every other built-in unit of time ('day', 'hour', 'week', 'year', ...): NumPy does not know the name. -/
theorem C115_names_fails {u : Str} (hu : BuiltIn s!!"Time" u) (hn : u ∉ dateUnits) (d : DateTime) (x : Rat) (sgn : Int) :
    dateShift sgn d (.qty ⟨.std s!!"Time", u, x⟩) = .error .typeError := by
  obtain ⟨k, ⟨v, hv, hi⟩, hq⟩ := hu
  have := time_codes _ hv hq u (by
    unfold nodesOf
    exact List.mem_filterMap.2 ⟨_, hi, rfl⟩)
  rcases this with h | h
  · simp only [dateShift, timedelta, h]; rfl
  · exact absurd h hn

/-- C115 fails for fractions: half an hour cannot be added. -/
theorem C115_fraction_fails {q : Quantity} (hk : q.kind = .std s!!"Time") {s : Rat} (hs : (q.unit, s) ∈ dateSeconds) (hv : q.value.den ≠ 1)
    (d : DateTime) (sgn : Int) : dateShift sgn d (.qty q) = .error .valueError := by
  have hg : Py.dictGet npCodes q.unit = some s := by
    have : ∀ e ∈ npCodes, Py.dictGet npCodes e.1 = some e.2 := by decide +kernel
    exact this _ (seconds_codes _ hs)
  simp only [dateShift, timedelta, if_pos hk, hg, if_neg hv]; rfl

/-- C115 fails for the difference of two dates, which is None, and for comparisons of dates, which raise. -/
theorem C115_dates_fails (d e : DateTime) :
    dateShift (-1) d (.date e) = .ok none ∧ dateCompare d e = .error .attributeError := ⟨rfl, rfl⟩

/-- C115. Nothing but a time moves a date: a quantity of any other class gives None. -/
theorem C115_only_times {q : Quantity} (hk : q.kind ≠ .std s!!"Time") (d : DateTime) (sgn : Int) :
    dateShift sgn d (.qty q) = .ok none := by
  simp only [dateShift, if_neg hk]; rfl

/-- the built-in names that dates take are built-in times with these sizes -/
theorem dateUnits_time : ∀ u ∈ dateUnits, BuiltIn s!!"Time" u ∧ ∃ s, (u, s) ∈ dateSeconds := by
  have h : ∀ u ∈ dateUnits, addsUnit s!!"Time_NAMES_REVERSE" u = true ∨ addsUnit s!!"Time_SI" u = true := by decide +kernel
  have h2 : ∀ u ∈ dateUnits, (dateSeconds.any fun e => e.1 = u) = true := by decide +kernel
  intro u hu
  constructor
  · rcases h u hu with h | h
    · exact ⟨_, unitOfKind h, by decide +kernel⟩
    · exact ⟨_, unitOfKind h, by decide +kernel⟩
  · obtain ⟨e, he, h⟩ := List.any_eq_true.1 (h2 u hu)
    exact ⟨e.2, by rw [← of_decide_eq_true h]; exact he⟩

/-- the first of January 1970 and thirty hours -/
example : ∃ e, dateShift 1 ⟨0, 86400⟩ (.qty ⟨.std s!!"Time", s!!"h", 30⟩) = .ok (some e) ∧ moment e = 108000 := by
  obtain ⟨e, h, _, hm⟩ := (C115_shift_partial (d := ⟨0, 86400⟩) ⟨_, List.mem_cons_of_mem _ List.mem_cons_self, rfl⟩
    (q := ⟨.std s!!"Time", s!!"h", 30⟩) rfl (s := 3600) (by decide +kernel) (n := 30) rfl).1
  refine ⟨e, h, ?_⟩
  rw [hm]; norm_num [moment]

example (d : DateTime) : dateShift 1 d (.qty ⟨.std s!!"Time", s!!"day", 1⟩) = .error .typeError :=
  C115_names_fails ⟨s!!"Time_NAMES_REVERSE", unitOfKind (by decide +kernel), by decide +kernel⟩ (by decide +kernel) d 1 1

end Unyts

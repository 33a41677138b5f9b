import Verif.Model.Arguments
import Verif.Props.ShippedQuantity
import Verif.Props.Direct
import Verif.Props.Rules
import Verif.Props.Powers

/- Quantities as arguments of the functions of the user. -/
namespace Unyts
open Spec Quantity

set_option maxRecDepth 1000000

/-- the quantities used below: two kilometers and five feet -/
def twoKm : Quantity := ⟨.std s!!"Length", s!!"km", 2⟩
def fiveFeet : Quantity := ⟨.std s!!"Length", s!!"ft", 5⟩

/-- C98. `convert(q, u)` of a quantity `q` is the number of `q.to(u)`, by the sizes of the two units; the unit can be
given as a string or as another quantity, whose number has no influence. For the units that have a standard size, after
`import unyts` and any conversions and questions. Missing: percentages (`C98_percent_fails`). -/
theorem C98_quantity_partial {w0 : World} (hw : Started w0) (hg : 17 ≤ w0.par.maxGenerations) (hφ : w0.fvf ≠ some 0) {n : Str}
    {l : List (Str × Rat)} (hn : (n, l) ∈ sizeTables) (size : Str → Rat) {a u : Str} (ha : (a, size a) ∈ l) (hu : (u, size u) ∈ l)
    (x : Rat) {arg : UArg} {named : Named} (h : arg = .str u ∧ named = .str u ∨ ∃ p : Quantity, p.unit = u ∧ arg = .qty p ∧ named = .qty p)
    {L : Lib} (hL : Running w0 L) :
    (convertArgs (.qty ⟨.std n, a, x⟩) arg .empty none L.w).1 = .ok (some (.num (x * size a / size u))) ∧
      ((⟨.std n, a, x⟩ : Quantity).toArg named L).1 = .ok (.qty ⟨.std n, u, x * size a / size u⟩) := by
  have hG := gauged_table hw hg hφ hn size
  obtain ⟨cs, hcs, e⟩ := hL.1
  obtain ⟨L2, e2, _⟩ := hG.to hw.fresh.wf hL ha hu x
  have key : (convert (some x) (some a) (some u) none L.w).1 = .ok (some (.num (x * size a / size u))) := by
    rw [e]; exact hG.conv a u ha hu cs hcs x
  rcases h with ⟨rfl, rfl⟩ | ⟨p, rfl, rfl, rfl⟩
  · exact ⟨key, by unfold Quantity.toArg Named.name; rw [e2]⟩
  · exact ⟨key, by unfold Quantity.toArg Named.name; rw [e2]⟩

/-- C98 for numbers: the units of `convert(x, from, to)` and of `convertible(from, to)` can be given as quantities, which
count as their units whatever their numbers. -/
theorem C98_units_partial {w0 : World} (hw : Started w0) (hg : 17 ≤ w0.par.maxGenerations) (hφ : w0.fvf ≠ some 0) {n : Str}
    {l : List (Str × Rat)} (hn : (n, l) ∈ sizeTables) (size : Str → Rat) {p q : Quantity} (hp : (p.unit, size p.unit) ∈ l)
    (hq : (q.unit, size q.unit) ∈ l) (x : Rat) {L : Lib} (hL : Running w0 L) :
    (convertArgs (.num x) (.qty p) (.qty q) none L.w).1 = .ok (some (.num (x * size p.unit / size q.unit))) ∧
      (convertibleArgs (.qty p) (.qty q) none L.w).1 = .ok true := by
  have hG := gauged_table hw hg hφ hn size
  obtain ⟨cs, hcs, e⟩ := hL.1
  refine ⟨?_, ?_⟩
  · show (convert (some x) (some p.unit) (some q.unit) none L.w).1 = _
    rw [e]; exact hG.conv _ _ hp hq cs hcs x
  · show (convertible p.unit q.unit none L.w).1 = _
    rw [e]; exact hG.ask _ _ hp hq cs hcs

/-- C98: a number with one unit only, or a quantity with none, is a TypeError and changes nothing. -/
theorem C98_missing (w : World) (x : Rat) (a : UArg) (v : VArg) (h : v = .num x ∨ v = .none ∨ a.isEmpty = true) (uc : Option Bool) :
    convertArgs v a .empty uc w = (.error .typeError, w) := by
  have e : (UArg.empty).isEmpty = true := rfl
  have main : ∀ v, (v = .num x ∨ v = .none) → convertArgs v a .empty uc w = (.error .typeError, w) := by
    rintro v (rfl | rfl) <;>
    · cases a <;> rfl
  rcases h with rfl | rfl | h
  · exact main _ (Or.inl rfl)
  · exact main _ (Or.inr rfl)
  · cases v with
    | none => exact main _ (Or.inr rfl)
    | num y =>
      cases a <;> rfl
    | qty q =>
      cases a with
      | none => cases h
      | empty => rfl
      | str s =>
        have hs : s = s!!"Empty" := by simpa [UArg.isEmpty] using h
        subst hs
        rfl
      | qty q => cases h
      | other => cases h

example (w : World) : convertArgs (.qty twoKm) .empty .empty none w = (.error .typeError, w) ∧
    convertArgs (.num 3) (.str s!!"m") .empty none w = (.error .typeError, w) :=
  ⟨C98_missing w 0 _ _ (Or.inr (Or.inr rfl)) _, C98_missing w 3 _ _ (Or.inl rfl) _⟩

example : ∃ w L, Started w ∧ Running w L ∧
    (convertArgs (.qty twoKm) (.str s!!"ft") .empty none L.w).1 = .ok (some (.num (2500000 / 381))) ∧
    (convertArgs (.qty twoKm) (.qty fiveFeet) .empty none L.w).1 = .ok (some (.num (2500000 / 381))) ∧
    (convertArgs (.num 2) (.qty twoKm) (.qty fiveFeet) none L.w).1 = .ok (some (.num (2500000 / 381))) ∧
    (twoKm.toArg (.qty fiveFeet) L).1 = .ok (.qty ⟨.std s!!"Length", s!!"ft", 2500000 / 381⟩) := by
  obtain ⟨w, hw, hp, hf⟩ := started_ex
  obtain ⟨L, _, hL⟩ := hw.running
  have hn : ∀ u ∈ [s!!"km", s!!"ft"], (u, lengthSize u) ∈ standardSizes[0] := by decide +kernel
  have e : (2 : Rat) * lengthSize s!!"km" / lengthSize s!!"ft" = 2500000 / 381 := by
    have h1 : lengthSize s!!"km" = 1000 := by decide +kernel
    have h2 : lengthSize s!!"ft" = 381 / 1250 := by decide +kernel
    rw [h1, h2]; norm_num
  have h1 := C98_quantity_partial hw (by rw [hp]; decide) (by rw [hf]; decide) (n := s!!"Length") (l := standardSizes[0]) (by decide +kernel)
    lengthSize (hn s!!"km" (by decide)) (hn s!!"ft" (by decide)) 2 (Or.inl ⟨rfl, rfl⟩) hL
  have h2 := C98_quantity_partial hw (by rw [hp]; decide) (by rw [hf]; decide) (n := s!!"Length") (l := standardSizes[0]) (by decide +kernel)
    lengthSize (hn s!!"km" (by decide)) (hn s!!"ft" (by decide)) 2 (Or.inr ⟨fiveFeet, rfl, rfl, rfl⟩) hL
  have h3 := C98_units_partial hw (by rw [hp]; decide) (by rw [hf]; decide) (n := s!!"Length") (l := standardSizes[0]) (by decide +kernel)
    lengthSize (p := twoKm) (q := fiveFeet) (hn _ (by decide)) (hn _ (by decide)) 2 hL
  rw [e] at h1 h2
  refine ⟨w, L, hw, hL, h1.1, h2.1, ?_, h2.2⟩
  rw [h3.1]
  exact congrArg (fun r => Except.ok (some (Conv.num r))) e

/-- C98 fails when the quantity comes with two units: its own unit is forgotten. `convert(units(2, 'km'), 'ft', 'in')` is
24, as for two feet. -/
theorem C98_forgotten_fails {w0 : World} (hw : Started w0) (hg : 17 ≤ w0.par.maxGenerations) (hφ : w0.fvf ≠ some 0)
    {L : Lib} (hL : Running w0 L) :
    (convertArgs (.qty twoKm) (.str s!!"ft") (.str s!!"in") none L.w).1 = .ok (some (.num 24)) := by
  have hn : ∀ u ∈ [s!!"in", s!!"ft"], (u, lengthSize u) ∈ standardSizes[0] := by decide +kernel
  have hG := gauged_table hw hg hφ (n := s!!"Length") (l := standardSizes[0]) (by decide +kernel) lengthSize
  obtain ⟨cs, hcs, e⟩ := hL.1
  show (convert (some 2) (some s!!"ft") (some s!!"in") none L.w).1 = _
  rw [e, hG.conv _ _ (hn _ (by decide)) (hn _ (by decide)) cs hcs]
  have h1 : lengthSize s!!"in" = 127 / 5000 := by decide +kernel
  have h2 : lengthSize s!!"ft" = 381 / 1250 := by decide +kernel
  rw [h1, h2]; norm_num

/-! ### percentages -/

theorem percent_only : onlyIn s!!"Percentage" s!!"percentage" = true := by decide +kernel

/-- `units(v, 'percentage')` keeps the fraction -/
theorem units_percentage {L : Lib} (h : ShippedClasses L) (v : Rat) :
    units v s!!"percentage" L = (.ok ⟨.percentage, s!!"percentage", v / 100⟩, L) := by
  have hun := uncertain_same h
  obtain ⟨n, hn, -⟩ := h
  have uu : Unsigned s!!"percentage" := ⟨by decide, by decide⟩
  have hb : BuiltIn s!!"Percentage" s!!"percentage" := builtIn_mem (by decide +kernel) (by decide)
  have hl : Lists L.dict s!!"Percentage" s!!"percentage" := (hn.unsigned uu).2 ⟨hb, by decide⟩
  obtain ⟨pre, post, hk, hp⟩ := keys_split (lists_key hn hl)
  obtain ⟨l, hf⟩ := hn.find hk hl fun k' hk' hl' => hp (by
    have := onlyIn_iff percent_only ((hn.unsigned uu).1 hl').1
    rw [← this]; exact hk')
  have hmem : s!!"percentage" ∈ L.names s!!"Percentage" := by
    obtain ⟨l, hl, hu⟩ := hl
    unfold Lib.names; rw [hl]; exact hu
  have hun' : s!!"percentage" ∉ L.w.dic.uncertain := by rw [hun]; decide
  have key : ∀ m m' : PyM Lib Quantity, (if s!!"percentage" ∈ L.w.dic.uncertain then m else m') L = m' L := fun m m' => by rw [if_neg hun']
  have hs : Py.stripWs s!!"percentage" = s!!"percentage" := by decide
  unfold units unitsNamed
  rw [hs]
  refine (key (construct .base v s!!"percentage") _).trans ?_
  have h1 : evalName s!!"percentage" = .ok s!!"percentage" := by decide
  have h2 : kindOf s!!"Percentage" = .ok .percentage := by decide
  simp only [Option.isSome_none, Bool.false_eq_true, if_false]
  simp only [bind, hf, PyM.lift, h1, h2, construct, Kind.key, pure, hmem, if_true]

theorem unitless_lower : ((allNames s!!"Dimensionless").all fun u => Py.lower u == s!!"none" || (allNames s!!"Dimensionless").contains (Py.lower u)) = true ∧
    ((allNames s!!"Percentage").all fun u => (allNames s!!"Percentage").contains (Py.lower u)) = true ∧
    ((allNames s!!"Percentage").all fun u => !(allNames s!!"Dimensionless").contains (Py.lower u)) = true ∧
    ((allNames s!!"Dimensionless").all fun u => labelOf u == some 32 && !unlistedUnits.contains (Py.lower u)) = true ∧
    ((allNames s!!"Percentage").all fun u => labelOf u == some 32 && !unlistedUnits.contains (Py.lower u)) = true := by decide +kernel

theorem builtIn_allNames {q u : Str} : BuiltIn q u ↔ u ∈ allNames q := by
  refine ⟨?_, mem_allNames⟩
  rintro ⟨k, ⟨v, hv, hi⟩, rfl⟩
  exact List.mem_flatMap.2 ⟨(k, v), List.mem_filter.2 ⟨hv, by simp⟩, List.mem_filterMap.2 ⟨_, hi, rfl⟩⟩

/-- C26 on the shipped library: after `import unyts` and any conversions and questions, every built-in name of a fraction
(except None, which is not found in this way) converts to every built-in name of a percentage by multiplying by 100, and back by dividing. -/
theorem C26_shipped {w : World} (hw : Started w) {cs : List Call} (hcs : ∀ c ∈ cs, Asks c) {f p : Str}
    (hf : BuiltIn s!!"Dimensionless" f) (hp : BuiltIn s!!"Percentage" p) (hN : Py.lower f ≠ s!!"none") (cf : CleanName f) (cp : CleanName p)
    (uc : Option Bool) (x : Rat) :
    (convert (some x) (some f) (some p) uc (session cs w)).1 = .ok (some (.num (x * 100))) ∧
    (convert (some x) (some p) (some f) uc (session cs w)).1 = .ok (some (.num (x / 100))) := by
  have hbase := base_session hcs hw.fresh.wf
  obtain ⟨t1, t2, t3, t4, t5⟩ := unitless_lower
  have mf := builtIn_allNames.1 hf
  have mp := builtIn_allNames.1 hp
  have lf := List.all_eq_true.1 t4 f mf
  have lp := List.all_eq_true.1 t5 p mp
  simp only [Bool.and_eq_true, beq_iff_eq, Bool.not_eq_true', ← Bool.not_eq_true, List.contains_iff_mem] at lf lp
  have bf : BuiltIn s!!"Dimensionless" (Py.lower f) := by
    have := List.all_eq_true.1 t1 f mf
    rw [Bool.or_eq_true, beq_iff_eq] at this
    exact mem_allNames (List.contains_iff_mem.1 (this.resolve_left hN))
  have bp : BuiltIn s!!"Percentage" (Py.lower p) := mem_allNames (List.contains_iff_mem.1 (List.all_eq_true.1 t2 p mp))
  have nd : ¬ DensityPair w.dic f p := hw.shipped.noDensity cf.2 (by rw [lf.1]; decide)
  obtain ⟨d, hd, e⟩ := hw.shipped
  have h := C26_percentage (session cs w) (hw.reachable hcs) f p cf cp ?_ ?_ ?_ ?_ ?_ ?_ uc x
  · exact ⟨h.1, h.2.1⟩
  · rintro rfl
    have := List.all_eq_true.1 t3 f mp
    simp only [Bool.not_eq_true', ← Bool.not_eq_true, List.contains_iff_mem] at this
    exact this (builtIn_allNames.1 bf)
  · rw [hbase.dic, e]
    exact kindStart_mem.2 ((hd.unsigned (lower_unsigned cf.2)).2 ⟨bf, lf.2⟩)
  · rw [hbase.dic, e]
    exact kindStart_mem.2 ((hd.unsigned (lower_unsigned cp.2)).2 ⟨bp, lp.2⟩)
  · rw [hbase.dic, e]
    rintro ⟨h, _⟩
    have := ((hd.unsigned (lower_unsigned cp.2)).1 (kindStart_mem.1 h)).1
    have h3 := List.all_eq_true.1 t3 p mp
    simp only [Bool.not_eq_true', ← Bool.not_eq_true, List.contains_iff_mem] at h3
    exact h3 (builtIn_allNames.1 this)
  · rw [hbase.dic, e]
    rintro ⟨h, _⟩
    have := ((hd.unsigned (u := f) cf.2).1 (kindStart_mem.1 h)).1
    have := (builtIn_numbers this).2.2.2.1.1 rfl
    rw [lf.1] at this
    cases this
  · rw [hbase.dic]; exact nd

example : ∃ w, Started w ∧ BuiltIn s!!"Dimensionless" s!!"ratio" ∧ BuiltIn s!!"Percentage" s!!"%" ∧
    (convert (some (1 / 4)) (some s!!"ratio") (some s!!"%") none w).1 = .ok (some (.num 25)) := by
  obtain ⟨w, hw, -, -⟩ := started_ex
  have h1 : BuiltIn s!!"Dimensionless" s!!"ratio" := builtIn_mem (by decide +kernel) (by decide)
  have h2 : BuiltIn s!!"Percentage" s!!"%" := builtIn_mem (by decide +kernel) (by decide)
  refine ⟨w, hw, h1, h2, ?_⟩
  have := (C26_shipped hw (cs := []) (by simp) h1 h2 (by decide) (Demo.cleanName_of (by decide)) (Demo.cleanName_of (by decide)) none (1 / 4)).1
  rw [show (1 / 4 : Rat) * 100 = 25 by norm_num] at this
  exact this

/-- C98 fails for percentages: a percentage holds its fraction, and `convert` takes it for the number of percents.
`convert(units(50, 'percentage'), 'fraction')` is 1/200, whereas `units(50, 'percentage').to('fraction')` is 1/2. -/
theorem C98_percent_fails {w0 : World} (hw : Started w0) {L : Lib} (hL : Running w0 L) :
    ∃ q, units 50 s!!"percentage" L = (.ok q, L) ∧
      (convertArgs (.qty q) (.str s!!"fraction") .empty none L.w).1 = .ok (some (.num (1 / 200))) ∧
      (q.to s!!"fraction" L).1 = .ok (.qty ⟨.dimensionless, s!!"fraction", 1 / 2⟩) := by
  refine ⟨_, units_percentage hL.2 50, ?_, ?_⟩
  · obtain ⟨cs, hcs, e⟩ := hL.1
    have := (C26_shipped hw hcs (f := s!!"fraction") (p := s!!"percentage") (builtIn_mem (by decide +kernel) (by decide))
      (builtIn_mem (by decide +kernel) (by decide)) (by decide) (Demo.cleanName_of (by decide)) (Demo.cleanName_of (by decide)) none (50 / 100)).2
    rw [← e, show (50 / 100 / 100 : Rat) = 1 / 200 by norm_num] at this
    exact this
  · obtain ⟨_, n, hn, -⟩ := hL
    have uu : Unsigned s!!"fraction" := ⟨by decide, by decide⟩
    have h1 : s!!"fraction" ∈ L.names s!!"Dimensionless" := by
      obtain ⟨l, hl, hu⟩ := (hn.unsigned uu).2 ⟨builtIn_mem (q := s!!"Dimensionless") (by decide +kernel) (by decide), by decide⟩
      unfold Lib.names; rw [hl]; exact hu
    have h2 : s!!"fraction" ∉ L.names s!!"Percentage" := by
      intro h
      have := ((hn.unsigned uu).1 (kindStart_mem.1 h)).1
      have h3 : (allNames s!!"Percentage").contains s!!"fraction" = false := by decide +kernel
      rw [List.contains_iff_mem.2 (builtIn_allNames.1 this)] at h3
      cases h3
    show (Quantity.toUnitless ⟨.percentage, s!!"percentage", 50 / 100⟩ s!!"fraction" L).1 = _
    unfold Quantity.toUnitless
    have step : ∀ m m1 m2 m3 : PyM Lib Obj, (if s!!"fraction" = ([] : Str) then m else if s!!"fraction" ∈ L.names s!!"Percentage" then m1
        else if s!!"fraction" ∈ L.names s!!"Dimensionless" then m2 else m3) L = m2 L := by
      intro m m1 m2 m3
      rw [if_neg (by decide), if_neg h2, if_pos h1]
    rw [PyM.run_bind_ok (PyM.run_get _)]
    refine congrArg Prod.fst ((step _ _ _ _).trans (?_ : _ = (Except.ok (Obj.qty ⟨.dimensionless, s!!"fraction", 1 / 2⟩), L)))
    rw [PyM.run_bind_ok (a := (⟨.dimensionless, s!!"fraction", 50 / 100⟩ : Quantity)) (s' := L)]
    · rw [show (50 / 100 : Rat) = 1 / 2 by norm_num]; rfl
    · simp [Unyts.construct, Kind.key, h1]

/-! ### `units` and the constructors -/

/-- C99. `units(q)` of a quantity `q` is `q` again: its class, its unit and its number, and nothing else changes. For the
built-in units of one quantity. Missing: percentages (`C99_percent_fails`). -/
theorem C99_copy_partial {L : Lib} (h : ShippedClasses L) {n u : Str} (hn : n ∈ stdClasses) (hu : BuiltIn n u)
    (hx : u ∉ unlistedUnits) (ha : u ∉ ambiguousNames) (uu : Unsigned u) (only : ∀ q', BuiltIn q' u → q' = n)
    (hs : Py.stripWs u = u) (x : Rat) :
    unitsArgs (.qty ⟨.std n, u, x⟩) none L = (.ok ⟨.std n, u, x⟩, L) :=
  C81_class_partial h hn hu hx ha uu only hs x

/-- C99: a quantity comes with its unit or not at all: a second unit is a TypeError. -/
theorem C99_two_units (L : Lib) (q : Quantity) (u : Named) : unitsArgs (.qty q) (some u) L = (.error .typeError, L) := by
  cases u <;> rfl

theorem watt_only : onlyIn s!!"Power" s!!"Watt" = true := power_ex.1

example : ∃ w L, Started w ∧ Running w L ∧
    unitsArgs (.qty ⟨.std s!!"Power", s!!"Watt", 7⟩) none L = (.ok ⟨.std s!!"Power", s!!"Watt", 7⟩, L) := by
  obtain ⟨w, hw, -, -⟩ := started_ex
  obtain ⟨L, _, hL⟩ := hw.running
  exact ⟨w, L, hw, hL, C99_copy_partial hL.2 (by decide) (builtIn_mem (by decide +kernel) (by decide)) (by decide) (by decide)
    ⟨by decide, by decide⟩ (fun q => onlyIn_iff power_ex.1) (by decide) 7⟩

/-- C99 fails for percentages: `units(units(50, 'percentage'))` is half a percent. -/
theorem C99_percent_fails {L : Lib} (h : ShippedClasses L) : ∃ q, units 50 s!!"percentage" L = (.ok q, L) ∧
    unitsArgs (.qty q) none L = (.ok ⟨.percentage, s!!"percentage", 1 / 200⟩, L) ∧ q.value = 1 / 2 := by
  refine ⟨_, units_percentage h 50, ?_, by norm_num⟩
  show units _ s!!"percentage" L = _
  rw [units_percentage h, show (50 / 100 / 100 : Rat) = 1 / 200 by norm_num]

/-- C99 fails for the constructors: of a quantity given as a value only the number is taken. `Length(units(2, 'km'), 'ft')`
is two feet, and `Length(units(2, 'km'), units(5, 'ft'))` too. -/
theorem C99_constructor_fails {L : Lib} (h : ShippedClasses L) :
    constructArgs (.std s!!"Length") (.qty twoKm) (.str s!!"ft") L = (.ok ⟨.std s!!"Length", s!!"ft", 2⟩, L) ∧
    constructArgs (.std s!!"Length") (.qty twoKm) (.qty fiveFeet) L = (.ok ⟨.std s!!"Length", s!!"ft", 2⟩, L) := by
  obtain ⟨n, hn, -⟩ := h
  have hm : s!!"ft" ∈ L.names s!!"Length" := by
    obtain ⟨l, hl, hu⟩ := (hn.unsigned (u := s!!"ft") ⟨by decide, by decide⟩).2
      ⟨builtIn_mem (q := s!!"Length") (by decide +kernel) (by decide), by decide⟩
    unfold Lib.names; rw [hl]; exact hu
  constructor <;>
  · show construct (.std s!!"Length") 2 s!!"ft" L = _
    simp [construct, Kind.key, hm]

theorem dimensionless_new : inNone s!!"Dimensionless" = true := by decide +kernel

/-- C99 fails for numbers: a number without a unit is no dimensionless quantity. `units(5)` has a unit of the user called
'Dimensionless', which enters the dictionary. -/
theorem C99_bare_fails {L : Lib} (h : ShippedClasses L) (x : Rat) :
    unitsArgs (.num x) none L = (.ok ⟨.user, s!!"Dimensionless", x⟩, L.addUser s!!"Dimensionless") :=
  units_new h ⟨by decide, by decide⟩ dimensionless_new (by decide) (by decide) x

end Unyts

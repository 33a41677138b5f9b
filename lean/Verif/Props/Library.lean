import Verif.Lemmas.ShippedClass
import Verif.Props.IsUnit
import Verif.Spec.DemoQuantity

/- C78, C79, C80, C81: the dictionary of units after `import unyts`, what `is_unit` makes of it, and the class of the
quantities that `units` makes. -/
namespace Unyts
open Spec
set_option maxRecDepth 1000000

theorem builtIn_mem {q u : Str} (h : (basicNames q).contains u = true) (hq : q ≠ s!!"dataBYTE" ∧ q ≠ s!!"dataBIT") : BuiltIn q u := by
  obtain ⟨k, hk, rfl⟩ := mem_basicNames.1 (by simpa using h)
  refine ⟨k, hk, ?_⟩
  unfold quantityOf
  rw [if_neg (by simp [hq])]

theorem builtIn_name {q u : Str} (hb : BuiltIn q u) (hq : q ≠ s!!"Data") : u ∈ basicNames q := by
  obtain ⟨k, hk, rfl⟩ := hb
  refine mem_basicNames.2 ⟨k, hk, ?_⟩
  unfold quantityOf at hq ⊢
  split
  · next h => rw [if_pos h] at hq; exact absurd rfl hq
  · rfl

/-- a check that a name is a unit of no quantity but `q` -/
def onlyIn (q u : Str) : Bool := rawDictionary.all fun e => quantityOf e.1 == q ||
  (kindInstrs shippedPrefixes e.1 e.2).all fun i => match i with | .node s => s != u | _ => true

theorem onlyIn_iff {q u : Str} (h : onlyIn q u = true) {q' : Str} (hb : BuiltIn q' u) : q' = q := by
  obtain ⟨k, ⟨v, hv, hi⟩, rfl⟩ := hb
  have := List.all_eq_true.1 h _ hv
  simp only [Bool.or_eq_true, beq_iff_eq] at this
  refine this.resolve_right fun h => ?_
  have := List.all_eq_true.1 h _ hi
  simp at this

theorem knownName_iff {n : Net} {d : UnitDict} (h : ShippedLibrary n d) (u : Str) : KnownName d u ↔ ∃ k, Lists d k u := by
  constructor
  · rintro ⟨k, l, hm, -, hu⟩
    exact ⟨k, h.lists_mem hm hu⟩
  · rintro ⟨k, l, hl, hu⟩
    refine ⟨k, l, dictGet_mem hl, ?_, hu⟩
    have := List.all_eq_true.1 keys_plain k (lists_key h ⟨l, hl, hu⟩)
    simpa using this

/-! ### C78 -/

/-- C78: after the import `is_unit` accepts every built-in unit, whatever blanks are around it, but three. -/
theorem C78_is_unit_partial {n : Net} {d : UnitDict} (h : ShippedLibrary n d) {q u : Str} (hu : BuiltIn q u)
    (hx : u ∉ unlistedUnits) {s : Str} (hs : Py.stripWs s = u) : isUnit d s = true ∧ isUnit d u = true := by
  have hk : KnownName d u := (knownName_iff h u).2 ⟨q, (h.lists q u).2 (Or.inl (Or.inl ⟨hu, hx⟩))⟩
  refine ⟨(C56_exact d s).2 (Or.inl (hs ▸ hk)), (C56_exact d u).2 (Or.inl ?_)⟩
  have : Py.stripWs u = u := by
    rcases (builtIn_writing hu).1 with hp | ⟨rfl, -⟩
    · exact plain_strip hp
    · rfl
  rw [this]; exact hk

/-- C78: and every ratio and product of built-in units that forms a quantity. -/
theorem C78_composed {n : Net} {d : UnitDict} (h : ShippedLibrary n d) {k u : Str} (hu : Composed ListedUnit k u) :
    isUnit d u = true := by
  have hk : KnownName d u := (knownName_iff h u).2 ⟨k, (h.lists k u).2 (Or.inl (Or.inr hu))⟩
  refine (C56_exact d u).2 (Or.inl ?_)
  rw [plain_strip (known_written hu).1.1]; exact hk

/-- C78: and all products and quotients of built-in units without signs. -/
theorem C78_products {n : Net} {d : UnitDict} (h : ShippedLibrary n d) {s : Str}
    (hu : ProductOf (fun u => (∃ q, ListedUnit q u) ∧ Unsigned u) (Py.stripWs s)) : isUnit d s = true := by
  refine (C56_exact d s).2 (Or.inr (hu.mono ?_))
  rintro u ⟨⟨q, hq⟩, h1, h2⟩
  exact .name ⟨(knownName_iff h u).2 ⟨q, (h.lists q u).2 (Or.inl (Or.inl hq))⟩, h1, h2⟩

/-- C78: a string without signs that `is_unit` accepts is a built-in unit between blanks. -/
theorem C78_only {n : Net} {d : UnitDict} (h : ShippedLibrary n d) {s : Str} (hu : isUnit d s = true)
    (hs : Unsigned (Py.stripWs s)) : ∃ q, BuiltIn q (Py.stripWs s) := by
  have key : KnownName d (Py.stripWs s) → ∃ q, BuiltIn q (Py.stripWs s) := fun hk => by
    obtain ⟨k, hl⟩ := (knownName_iff h _).1 hk
    exact ⟨k, ((h.unsigned hs).1 hl).1⟩
  rcases (C56_exact d s).1 hu with hk | hk
  · exact key hk
  · generalize Py.stripWs s = t at *
    cases hk with
    | name hk => exact key hk.1
    | mul ha hb => exact absurd (by simp) hs.2
    | div ha hb => exact absurd (by simp) hs.1

/-- C78 fails of three units that can be converted: `is_unit('USounce')`, `is_unit('UKounce')` and `is_unit('REm³')` are
False. -/
theorem C78_unlisted_fails {n : Net} {d : UnitDict} (h : ShippedLibrary n d) {u : Str} (hu : u ∈ unlistedUnits) :
    BuiltIn s!!"Volume" u ∧ isUnit d u = false := by
  have hb : unlistedUnits.all (fun u => (basicNames s!!"Volume").contains u && !u.contains '/' && !u.contains '*' &&
      Py.stripWs u == u) = true := by decide +kernel
  have hb' := List.all_eq_true.1 hb u hu
  simp only [Bool.and_eq_true, Bool.not_eq_true', beq_iff_eq] at hb'
  obtain ⟨⟨⟨h1, h2⟩, h3⟩, h4⟩ := hb'
  refine ⟨builtIn_mem h1 (by decide), ?_⟩
  have hs : Unsigned u := ⟨by simpa using h2, by simpa using h3⟩
  by_contra hi
  have hi : isUnit d u = true := by simpa using hi
  have key : KnownName d u → False := fun hk => by
    obtain ⟨k, hl⟩ := (knownName_iff h _).1 hk
    exact ((h.unsigned hs).1 hl).2 hu
  have := (C56_exact d u).1 hi
  rw [h4] at this
  rcases this with hk | hk
  · exact key hk
  · cases hk with
    | name hk => exact key hk.1
    | mul ha hb => exact absurd (by simp) hs.2
    | div ha hb => exact absurd (by simp) hs.1

example : ∃ n d, ShippedLibrary n d := shipped_library
example : BuiltIn s!!"Length" s!!"km" ∧ s!!"km" ∉ unlistedUnits ∧ Py.stripWs s!!" km " = s!!"km" :=
  ⟨builtIn_mem (by decide +kernel) (by decide), by decide, by decide⟩
example : Composed ListedUnit s!!"Velocity" s!!"km/hour" :=
  .velocity (l := s!!"km") (t := s!!"hour") ⟨builtIn_mem (by decide +kernel) (by decide), by decide⟩ ⟨builtIn_mem (by decide +kernel) (by decide), by decide⟩

/-! ### C79 -/

/-- C79: whatever units are given for the kinds, completing the dictionary lists those units, their ratios and products
that form a quantity, and products in the other order, and nothing else. -/
theorem C79_any_dictionary {d d' : UnitDict} (h : completeDict d = .ok d') (k u : Str) :
    Lists d' k u ↔ Known (Lists d) k u ∨ ∃ v, Known (Lists d) k v ∧ OtherOrder u v := completeDict_lists h k u

/-- C79: after the import the dictionary lists the built-in units, their ratios and products that form a quantity, and
products in the other order, and nothing else. -/
theorem C79_shipped {n : Net} {d : UnitDict} (h : ShippedLibrary n d) (k u : Str) :
    Lists d k u ↔ Known ListedUnit k u ∨ ∃ v, Known ListedUnit k v ∧ OtherOrder u v := h.lists k u

/-- C79: the import raises nothing while it builds the network and the dictionary. -/
theorem C79_loads : ∃ n d, ShippedLibrary n d := shipped_library

example : ∃ n d, ShippedLibrary n d ∧ Lists d s!!"Density" s!!"kgm/bbl" ∧ ¬ Lists d s!!"Density" s!!"km" := by
  obtain ⟨n, d, h⟩ := shipped_library
  refine ⟨n, d, h, ?_, ?_⟩
  · exact (h.lists _ _).2 (Or.inl (Or.inr (.density (m := s!!"kgm") (v := s!!"bbl")
      ⟨builtIn_mem (by decide +kernel) (by decide), by decide⟩ ⟨builtIn_mem (by decide +kernel) (by decide), by decide⟩)))
  · rw [h.unsigned ⟨by decide, by decide⟩]
    exact fun hl => absurd (onlyIn_iff (q := s!!"Length") (by decide +kernel) hl.1) (by decide)

/-! ### C80 -/

/-- C80: a built-in name belongs to one quantity, with four exceptions: ounces, 'F', six gradients, ohms. -/
theorem C80_one_quantity_partial {q q' u : Str} (h : BuiltIn q u) (h' : BuiltIn q' u) :
    q = q' ∨ SharedName q q' u ∨ SharedName q' q u := builtIn_unique h h'

/-- C80: and a ratio of two of them belongs to the quantity that is the ratio of theirs, in the dictionary. -/
theorem C80_ratio_partial {n : Net} {d : UnitDict} (h : ShippedLibrary n d) {p q k k' a b : Str}
    (hT : (p, q, k) ∈ ratioTable) (ha : ListedUnit p a) (hb : ListedUnit q b) (ua : Unsigned a) (ub : Unsigned b)
    (hn : ∀ k', BuiltIn k' (over a b) → k' = k) : Lists d k' (over a b) ↔ k' = k :=
  ⟨h.ratio hT ha hb ua ub hn, fun e => e ▸ (h.lists _ _).2 (Or.inl (Or.inr (composed_of_table hT ha hb)))⟩

/-- C80 fails of the exceptions. -/
theorem C80_shared_fails : (BuiltIn s!!"Volume" s!!"oz" ∧ BuiltIn s!!"Weight" s!!"oz") ∧
    (BuiltIn s!!"Temperature" s!!"F" ∧ BuiltIn s!!"Capacitance" s!!"F") ∧
    (BuiltIn s!!"Density" s!!"psi/ft" ∧ BuiltIn s!!"PressureGradient" s!!"psi/ft") ∧
    (BuiltIn s!!"Resistance" s!!"ohm" ∧ BuiltIn s!!"Impedance" s!!"ohm") :=
  ⟨⟨builtIn_mem (by decide +kernel) (by decide), builtIn_mem (by decide +kernel) (by decide)⟩,
   ⟨builtIn_mem (by decide +kernel) (by decide), builtIn_mem (by decide +kernel) (by decide)⟩,
   ⟨builtIn_mem (by decide +kernel) (by decide), builtIn_mem (by decide +kernel) (by decide)⟩,
   ⟨builtIn_mem (by decide +kernel) (by decide), builtIn_mem (by decide +kernel) (by decide)⟩⟩

/-! ### C81 -/

/-- C81: the class of `units(v, u)` is the quantity that lists `u`, if only one does; the number and the name are kept and
the library is left as it is. -/
theorem C81_listed {L : Lib} (h : ShippedClasses L) {q u s : Str} (hq : q ∈ stdClasses) (hu : Lists L.dict q u)
    (only : ∀ q', Lists L.dict q' u → q' = q) (hx : u ∉ ambiguousNames) (hs : Py.stripWs s = u) (v : Rat) :
    units v s L = (.ok ⟨.std q, u, v⟩, L) := units_only h hq hs hu only hx v

/-- C81: in particular a built-in name of one quantity gives a quantity of that class. -/
theorem C81_class_partial {L : Lib} (h : ShippedClasses L) {q u s : Str} (hq : q ∈ stdClasses) (hu : BuiltIn q u)
    (hx : u ∉ unlistedUnits) (hun : u ∉ ambiguousNames) (uu : Unsigned u) (only : ∀ q', BuiltIn q' u → q' = q) (hs : Py.stripWs s = u) (v : Rat) :
    units v s L = (.ok ⟨.std q, u, v⟩, L) := by
  obtain ⟨n, hn, -⟩ := id h
  exact units_only h hq hs ((hn.unsigned uu).2 ⟨hu, hx⟩) (fun q' hl => only q' ((hn.unsigned uu).1 hl).1) hun v

/-- C81: a ratio of two built-in names gives a quantity of the class that is the ratio of their quantities. -/
theorem C81_ratio_partial {L : Lib} (h : ShippedClasses L) {p q k a b : Str} (hT : (p, q, k) ∈ ratioTable)
    (ha : ListedUnit p a) (hb : ListedUnit q b) (ua : Unsigned a) (ub : Unsigned b)
    (hn : ∀ k', BuiltIn k' (over a b) → k' = k) (v : Rat) : units v (over a b) L = (.ok ⟨.std k, over a b, v⟩, L) := by
  obtain ⟨n, hd, -⟩ := id h
  have hc : k ∈ stdClasses := by
    have key : (ratioTable.all fun r => stdClasses.contains r.2.2) = true := by decide +kernel
    simpa using List.all_eq_true.1 key _ hT
  have hcomp := composed_of_table (B := ListedUnit) hT ha hb
  have hun : over a b ∉ ambiguousNames := by
    intro hm
    have key : ambiguousNames.all (fun u => !u.contains '/') = true := by decide
    have := List.all_eq_true.1 key _ hm
    simp [over] at this
  exact units_only h hc (plain_strip (known_written hcomp).1.1) ((hd.lists _ _).2 (Or.inl (Or.inr hcomp)))
    (fun k' hl => hd.ratio hT ha hb ua ub hn hl) hun v

/-- C81: an ounce, which may be of fluid or of weight, is a quantity without class. -/
theorem C81_ambiguous {L : Lib} (h : ShippedClasses L) (hall : ∀ q u, Lists L.dict q u → u ∈ L.allUnits) {q u s : Str}
    (hu : Lists L.dict q u) (ha : u ∈ ambiguousNames) (hs : Py.stripWs s = u) (v : Rat) :
    units v s L = (.ok ⟨.base, u, v⟩, L) := by
  have hun := uncertain_same h
  have h1 : Py.stripWs u = u := by
    have : ∀ u ∈ ambiguousNames, Py.stripWs u = u := by decide
    exact this u ha
  have key : ∀ m m' : PyM Lib Quantity, (if u ∈ L.w.dic.uncertain then m else m') L = m L := fun m m' => by
    rw [if_pos (by rw [hun]; exact ha)]
  unfold units unitsNamed
  rw [hs]
  refine (key (construct .base v u) _).trans ?_
  simp only [construct, h1, if_pos (hall q u hu)]

example : ∃ n d, ShippedLibrary n d ∧ Lists d s!!"Volume" s!!"OUNCES" ∧ Lists d s!!"Weight" s!!"OUNCES" := by
  obtain ⟨n, d, h⟩ := shipped_library
  have hu : Unsigned s!!"OUNCES" := ⟨by decide, by decide⟩
  exact ⟨n, d, h, (h.unsigned hu).2 ⟨builtIn_mem (by decide +kernel) (by decide), by decide⟩,
    (h.unsigned hu).2 ⟨builtIn_mem (by decide +kernel) (by decide), by decide⟩⟩

/-- C81 fails of Farads written 'F': they are given the class Temperature. -/
theorem C81_farad_fails {L : Lib} (h : ShippedClasses L) (v : Rat) :
    BuiltIn s!!"Capacitance" s!!"F" ∧ units v s!!"F" L = (.ok ⟨.std s!!"Temperature", s!!"F", v⟩, L) := by
  refine ⟨builtIn_mem (by decide +kernel) (by decide), ?_⟩
  obtain ⟨n, hd, -⟩ := id h
  have hu : Unsigned s!!"F" := ⟨by decide, by decide⟩
  refine units_first h (pre := [s!!"Time"]) (post := shippedKeys.drop 2) (by decide) (by decide) (by decide)
    ((hd.unsigned hu).2 ⟨builtIn_mem (by decide +kernel) (by decide), by decide⟩) ?_ (by decide) v
  intro k' hk'
  rw [hd.unsigned hu]
  simp only [List.mem_singleton] at hk'
  subst hk'
  intro hb
  exact absurd (builtIn_name hb.1 (by decide)) (by decide +kernel)

/-- C81 fails of impedances: `units` makes a Resistance of every one of them. -/
theorem C81_impedance_fails {L : Lib} (h : ShippedClasses L) {u : Str} (hu : BuiltIn s!!"Impedance" u) (v : Rat) :
    units v u L = (.ok ⟨.std s!!"Resistance", u, v⟩, L) := by
  have key : ((basicNames s!!"Impedance").all fun u => (basicNames s!!"Resistance").contains u && !u.contains '/' && !u.contains '*' &&
    !unlistedUnits.contains u && !ambiguousNames.contains u && Py.stripWs u == u) = true := by decide +kernel
  have h1 := List.all_eq_true.1 key u (builtIn_name hu (by decide))
  simp only [Bool.and_eq_true, Bool.not_eq_true', beq_iff_eq] at h1
  obtain ⟨⟨⟨⟨⟨h1, h2⟩, h3⟩, h4⟩, h5⟩, h6⟩ := h1
  have uu : Unsigned u := ⟨by simpa using h2, by simpa using h3⟩
  obtain ⟨n, hd, -⟩ := id h
  refine units_first h (pre := shippedKeys.take 21) (post := shippedKeys.drop 22) (by decide) (by decide) h6
    ((hd.unsigned uu).2 ⟨builtIn_mem h1 (by decide), by simpa using h4⟩) ?_ (by simpa using h5) v
  intro k' hk' hl
  have hb := ((hd.unsigned uu).1 hl).1
  have hs := same_or_shared hb hu
  revert hk' hs
  generalize k' = k'
  have hall : (shippedKeys.take 21).all (fun k => !sameOrShared k s!!"Impedance") = true := by decide +kernel
  intro hk' hs
  have := List.all_eq_true.1 hall k' hk'
  rw [hs] at this
  cases this

example : ∃ L : Lib, ShippedClasses L := by
  obtain ⟨n, d, h⟩ := shipped_library
  exact ⟨{ Demo.lib with dict := d, w := { Demo.lib.w with dic := converterDict d } }, n, h, rfl⟩
example : s!!"Length" ∈ stdClasses ∧ BuiltIn s!!"Length" s!!"km" ∧ s!!"km" ∉ unlistedUnits ∧ s!!"km" ∉ ambiguousNames ∧ Unsigned s!!"km" ∧
    ∀ q', BuiltIn q' s!!"km" → q' = s!!"Length" :=
  ⟨by decide, builtIn_mem (by decide +kernel) (by decide), by decide, by decide, ⟨by decide, by decide⟩, fun _ => onlyIn_iff (by decide +kernel)⟩
example : (s!!"Volume", s!!"Time", s!!"Rate") ∈ ratioTable ∧ ListedUnit s!!"Volume" s!!"bbl" ∧ ListedUnit s!!"Time" s!!"day" ∧
    ∀ q', BuiltIn q' (over s!!"bbl" s!!"day") → q' = s!!"Rate" :=
  ⟨by decide, ⟨builtIn_mem (by decide +kernel) (by decide), by decide⟩, ⟨builtIn_mem (by decide +kernel) (by decide), by decide⟩,
   fun _ => onlyIn_iff (by decide +kernel)⟩
example : BuiltIn s!!"Impedance" s!!"ohm" := builtIn_mem (by decide +kernel) (by decide)

end Unyts

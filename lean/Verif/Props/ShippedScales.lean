import Verif.Props.ShippedTotal

/-
C90, C91: metric prefixes and temperatures as `convert` sees them after `import unyts`.
-/
namespace Unyts
open Spec
set_option maxRecDepth 1000000

/-- an answer and the question read the same -/
theorem shipped_answer {w : World} (hw : Started w) (hφ : w.fvf ≠ some 0) {cs : List Call} (hcs : ∀ c ∈ cs, Asks c)
    {a b : Str} (na : IsName a) (nb : IsName b) (hs : Smooth a) (h32 : labelOf a ≠ some 32) (h34 : labelOf a ≠ some 34)
    (h6 : labelOf a ≠ some 6) (ca : CleanName a) (cb : CleanName b) (hr : Reach (LinkedName w.net) a b) (uc : Option Bool)
    (x : Rat) : ∃ y, (convert (some x) (some a) (some b) uc (session cs w)).1 = .ok (some (.num y)) ∧
      shippedReading (fvfOr1 w.fvf) b y = shippedReading (fvfOr1 w.fvf) a x := by
  obtain ⟨k, hk⟩ := isName_unit na
  have hB : BuiltIn (quantityOf k) a := ⟨k, hk, rfl⟩
  obtain ⟨h1, h2, h3, h4, h5⟩ := builtIn_numbers hB
  have hq : quantityOf k ∉ specialQuantities := by
    intro hm
    simp only [specialQuantities, List.mem_cons, List.not_mem_nil, or_false] at hm
    rcases hm with e | e | e | e | e | e | e
    · exact hs.1 (h1.1 (by simp [e]))
    · exact hs.1 (h1.1 (by simp [e]))
    · exact hs.2 (h2.1 (by simp [e]))
    · exact hs.2 (h2.1 (by simp [e]))
    · exact h32 (h3.1 (by simp [e]))
    · exact h32 (h3.1 (by simp [e]))
    · exact h34 (h4.1 e)
  obtain ⟨y, w', hc⟩ := C88_answers_partial hw hcs hB hq ca cb hr uc x
  have hbase := base_session hcs hw.fresh.wf
  obtain ⟨y', e, e2⟩ := convert_reads_on (sound_of_reachable (hw.reachable hcs))
    (by rw [hbase.net, hbase.fvf]; exact hw.shipped.network.consistent hφ) ca cb
    (by rw [hbase.dic]; exact hw.shipped.ordinary ca.2 na h32 h34) (by rw [hbase.dic]; exact hw.shipped.noDensity ca.2 hs.1)
    (by intro na hna; rw [(getNode_mem hna).2]; exact ⟨hs.1, h6⟩) hc
  cases e
  refine ⟨y, by rw [hc], ?_⟩
  rcases e2 with ⟨rfl, rfl⟩ | ⟨na, nb, g1, g2, g3⟩
  · rfl
  · rw [(getNode_mem g1).2, (getNode_mem g2).2] at g3; exact g3

/-! ### C90 -/

theorem metric_clean : (metricUnits.all fun m => (([], 0) :: metricPrefixes).all fun p =>
    let s : Str := p.1 ++ m.1
    decide ('(' ∉ s ∧ ')' ∉ s ∧ (∀ c ∈ s.head?.toList ++ s.getLast?.toList, c ∉ [' ', '"', '\'']) ∧ s ≠ s!!"Empty" ∧ '/' ∉ s ∧ '*' ∉ s)) =
    true := by decide +kernel

theorem metric_names : (metricUnits.all fun m => [s!!"Volume", s!!"Weight", s!!"Pressure"].contains (kindBase m.2.1) ||
    !([some 3, some 6, some 10, some 32, some 34].contains (labelOf m.1))) = true := by decide +kernel

/-- a prefixed unit reads as its multiple of the unit -/
theorem prefix_reading {n : Net} (hn : ShippedNetwork n) {φ : Option Rat} (hφ : φ ≠ some 0) {u kind : Str} {k : Int}
    (hu : (u, kind, k) ∈ metricUnits) (hl : labelOf u ≠ some 3 ∧ labelOf u ≠ some 6) {p : Str} {e : Int}
    (hp : (p, e) ∈ ([], 0) :: metricPrefixes) :
    IsName (p ++ u) ∧ labelOf (p ++ u) = labelOf u ∧ Reach (LinkedName n) (p ++ u) u ∧
      ∀ x, shippedReading (fvfOr1 φ) (p ++ u) x = shippedReading (fvfOr1 φ) u (x * 10 ^ (e * k)) := by
  have hkm : (s!!"k", (3 : Int)) ∈ metricPrefixes := by decide
  rcases List.mem_cons.1 hp with h | hp
  · cases h
    obtain ⟨⟨⟨f, hf⟩, _⟩, _⟩ := C53_metric_partial hn hu hkm
    refine ⟨?_, by simp, ?_, by simp⟩
    · simpa using (hn.linked_names ⟨f, hf⟩).2
    · show Reach (LinkedName n) u u
      exact ⟨_, .single _⟩
  · obtain ⟨⟨⟨f, hf⟩, hm⟩, _⟩ := C53_metric_partial hn hu hp
    have hlab := hn.label ⟨f, hf⟩
    refine ⟨(hn.linked_names ⟨f, hf⟩).1, hlab, ⟨_, .step ⟨f, hf⟩ (.single _)⟩, fun x => ?_⟩
    refine (hn.reads hf (fun hm => ?_) hφ (hm f hf φ x)).symm
    rcases fault_label _ hm with hp | hp
    · have : ∀ p ∈ pressureFaults, labelOf p.1 = some 6 := by decide +kernel
      exact hl.2 (by rw [← hlab]; exact this _ hp)
    · exact hl.1 (by rw [← hlab]; exact hp)

/-- C90: after `import unyts`, whatever was asked before, converting between two metric prefixes of a unit, or between
a prefix and none, multiplies by the power of ten; raised to the order of the unit for areas. -/
theorem C90_prefixes_partial {w : World} (hw : Started w) (hφ : w.fvf ≠ some 0) {cs : List Call} (hcs : ∀ c ∈ cs, Asks c)
    {u kind : Str} {k : Int} (hu : (u, kind, k) ∈ metricUnits) (hk : kindBase kind ∉ [s!!"Volume", s!!"Weight", s!!"Pressure"])
    {p p' : Str} {e e' : Int} (hp : (p, e) ∈ ([], 0) :: metricPrefixes) (hp' : (p', e') ∈ ([], 0) :: metricPrefixes)
    (uc : Option Bool) (x : Rat) :
    (convert (some x) (some (p ++ u)) (some (p' ++ u)) uc (session cs w)).1 =
      .ok (some (.num (x * 10 ^ (e * k) / 10 ^ (e' * k)))) := by
  have hn := hw.shipped.network
  have hl := List.all_eq_true.1 metric_names _ hu
  simp only [Bool.or_eq_true, List.contains_iff_mem, hk, false_or, Bool.not_eq_true', ← Bool.not_eq_true] at hl
  simp only [List.mem_cons, List.not_mem_nil, or_false, not_or] at hl
  obtain ⟨l3, l6, l10, l32, l34⟩ := hl
  obtain ⟨n1, e1, r1, q1⟩ := prefix_reading hn hφ hu ⟨l3, l6⟩ hp
  obtain ⟨n2, e2, r2, q2⟩ := prefix_reading hn hφ hu ⟨l3, l6⟩ hp'
  have clean : ∀ {p : Str} {e : Int}, (p, e) ∈ ([], 0) :: metricPrefixes → CleanName (p ++ u) := by
    intro p e hp
    have := List.all_eq_true.1 (List.all_eq_true.1 metric_clean _ hu) _ hp
    exact Demo.cleanName_of (by simpa only [decide_eq_true_eq] using this)
  obtain ⟨y, hy, hread⟩ := shipped_answer hw hφ hcs n1 n2 (by unfold Smooth; rw [e1]; exact ⟨l3, l10⟩) (by rw [e1]; exact l32)
    (by rw [e1]; exact l34) (by rw [e1]; exact l6) (clean hp) (clean hp') (r1.trans (C62_symmetric hn r2)) uc x
  rw [q1, q2] at hread
  have := shippedReading_inj (fvfOr1_ne hφ) u hread
  rw [hy, ← this]
  congr 3
  have : (10 : Rat) ^ (e' * k) ≠ 0 := zpow_ne_zero _ (by norm_num)
  field_simp

example : ∃ w, Started w ∧ ∀ uc, numOf (convert (some 3) (some s!!"km2") (some s!!"mm2") uc w).1 = some 3000000000000 := by
  obtain ⟨w, hw, _, hf⟩ := started_ex
  refine ⟨w, hw, fun uc => ?_⟩
  have := C90_prefixes_partial hw (by rw [hf]; decide) (cs := []) (by simp) (u := s!!"m2") (kind := s!!"Area_SI") (k := 2) (by decide)
    (by decide) (p := s!!"k") (e := 3) (by decide) (p' := s!!"m") (e' := -3) (by decide) uc 3
  rw [show session [] w = w from rfl] at this
  rw [show s!!"km2" = s!!"k" ++ s!!"m2" from rfl, show s!!"mm2" = s!!"m" ++ s!!"m2" from rfl, this]
  simp only [numOf]
  norm_num

/-! ### C91 -/

def scaleOk (e : Str × Rat × Rat) : Bool :=
  let s := e.1
  decide (readingOf s = some ⟨e.2.1, -e.2.2 * e.2.1 - 27315 / 100, 0, false⟩) && decide (labelOf s = some 1) &&
  islandOf s == some 1 && (basicNames s!!"Temperature").contains s && decide (e.2.1 ≠ 0) &&
    decide ('(' ∉ s ∧ ')' ∉ s ∧ (∀ c ∈ s.head?.toList ++ s.getLast?.toList, c ∉ [' ', '"', '\'']) ∧ s ≠ s!!"Empty" ∧ '/' ∉ s ∧ '*' ∉ s)

theorem scales_ok : temperatureScales.all scaleOk = true := by decide +kernel

/-- C91: after `import unyts`, whatever was asked before, a temperature converted from one scale to another is the same
temperature: as far above the absolute zero, in kelvins. -/
theorem C91_temperature {w : World} (hw : Started w) (hφ : w.fvf ≠ some 0) {cs : List Call} (hcs : ∀ c ∈ cs, Asks c)
    {a b : Str} {da za db zb : Rat} (ma : (a, da, za) ∈ temperatureScales) (mb : (b, db, zb) ∈ temperatureScales)
    (uc : Option Bool) (x : Rat) : ∃ y, (convert (some x) (some a) (some b) uc (session cs w)).1 = .ok (some (.num y)) ∧
      (y - zb) * db = (x - za) * da := by
  have h1 := List.all_eq_true.1 scales_ok _ ma
  have h2 := List.all_eq_true.1 scales_ok _ mb
  simp only [scaleOk, Bool.and_eq_true, decide_eq_true_eq, beq_iff_eq] at h1 h2
  obtain ⟨⟨⟨⟨⟨ra, la⟩, ia⟩, na⟩, za'⟩, ca⟩ := h1
  obtain ⟨⟨⟨⟨⟨rb, lb⟩, ib⟩, nb⟩, zb'⟩, cb⟩ := h2
  have ba := builtIn_isName (builtIn_mem na (by decide))
  have bb := builtIn_isName (builtIn_mem nb (by decide))
  obtain ⟨y, hy, hr⟩ := shipped_answer hw hφ hcs ba bb (by unfold Smooth; rw [la]; decide) (by rw [la]; decide)
    (by rw [la]; decide) (by rw [la]; decide) (Demo.cleanName_of ca) (Demo.cleanName_of cb)
    ((hw.shipped.network.reach_iff ba bb).2 (ia.trans ib.symm)) uc x
  refine ⟨y, hy, ?_⟩
  simp only [shippedReading, ra, rb, Reading.at, Bool.false_eq_true, if_false, zpow_zero, mul_one] at hr
  linarith

/-- C91 in the usual form: 37 degrees Celsius are 98.6 degrees Fahrenheit. -/
example : ∃ w, Started w ∧ ∀ uc, numOf (convert (some 37) (some s!!"Celsius") (some s!!"deg F") uc w).1 = some (986 / 10) := by
  obtain ⟨w, hw, _, hf⟩ := started_ex
  refine ⟨w, hw, fun uc => ?_⟩
  obtain ⟨y, hy, h⟩ := C91_temperature hw (by rw [hf]; decide) (cs := []) (by simp) (a := s!!"Celsius") (b := s!!"deg F")
    (da := 1) (za := -27315 / 100) (db := 5 / 9) (zb := -45967 / 100) (by decide +kernel) (by decide +kernel) uc 37
  rw [show session [] w = w from rfl] at hy
  rw [hy]
  simp only [numOf]
  congr 1
  linarith

end Unyts

import Verif.Props.ShippedLitre
import Verif.Props.ShippedPressure
import Verif.Props.ShippedScales

/- C90 for volumes, weights and pressures. -/
namespace Unyts
open Spec
set_option maxRecDepth 1000000

/-! ### joined names -/

theorem Spec.Started.notDfs {w : World} (hw : Started w) : w.par.algorithm ≠ .dfs := by
  intro h
  have := hw.algorithm
  rw [h] at this
  exact absurd this (by decide)

/-- between two volumes with a conversion of their own, `convert` applies it -/
theorem volume_direct {w : World} (hw : Started w) (hg : 17 ≤ w.par.maxGenerations) (hφ : w.fvf ≠ some 0) {cs : List Call}
    (hcs : ∀ c ∈ cs, Asks c) {a b : Str} (fa : Fluid a) (fb : Fluid b) (hab : a ≠ b) (hs : isRes a = isRes b) {f : Fn} (hd : DirectName w.net a b f)
    (uc : Option Bool) (x : Rat) :
    ∃ y, (convert (some x) (some a) (some b) uc (session cs w)).1 = .ok (some (.num y)) ∧ f w.fvf x = .ok y := by
  have hn := hw.shipped.network
  have hi : islandOf a = islandOf b := (hn.reach_iff (builtIn_isName fa.volume) (builtIn_isName fb.volume)).1 ⟨_, .step ⟨f, hd⟩ (.single _)⟩
  obtain ⟨⟨y, w', hr⟩, _⟩ := liquid_found hw hg hφ hcs fa fb hi (Or.inl hs) uc x
  obtain ⟨_, h32, h34⟩ := fa.numbers
  have fd := hw.shipped.liquid_noDensity fa fb
  obtain ⟨na, nb, rfl, rfl, hd⟩ := hd
  obtain ⟨_, e, hy⟩ := C94_direct hw.fresh hw.notDfs hcs fa.clean fb.clean (hw.shipped.ordinary fa.clean.2 (builtIn_isName fa.volume) h32 h34)
    fd hab (getNode_of_mem hn.distinct (Net.linked_src ⟨_, hd⟩))
    (getNode_of_mem hn.distinct (Net.linked_dst hn.wf ⟨_, hd⟩)) hd hr
  cases e
  exact ⟨y, by rw [hr], hy⟩

/-! ### prefixes -/

theorem metric_faults : (metricUnits.all fun m => metricPrefixes.all fun p => !shippedFaults.contains (p.1 ++ m.1, m.1)) = true := by
  decide +kernel

/-- a prefixed unit reads as its multiple of the unit -/
theorem prefix_reads {n : Net} (hn : ShippedNetwork n) {φ : Option Rat} (hφ : φ ≠ some 0) {u kind : Str} {k : Int}
    (hu : (u, kind, k) ∈ metricUnits) {p : Str} {e : Int} (hp : (p, e) ∈ ([], 0) :: metricPrefixes) :
    Reach (LinkedName n) (p ++ u) u ∧ ∀ x, shippedReading (fvfOr1 φ) (p ++ u) x = shippedReading (fvfOr1 φ) u (x * 10 ^ (e * k)) := by
  rcases List.mem_cons.1 hp with h | hp
  · cases h
    exact ⟨⟨_, .single _⟩, by simp⟩
  · obtain ⟨⟨⟨f, hf⟩, hm⟩, _⟩ := C53_metric_partial hn hu hp
    refine ⟨⟨_, .step ⟨f, hf⟩ (.single _)⟩, fun x => (hn.reads hf ?_ hφ (hm f hf φ x)).symm⟩
    have := List.all_eq_true.1 (List.all_eq_true.1 metric_faults _ hu) _ hp
    simpa using this

theorem metric_cleanName {u kind : Str} {k : Int} (hu : (u, kind, k) ∈ metricUnits) {p : Str} {e : Int}
    (hp : (p, e) ∈ ([], 0) :: metricPrefixes) : CleanName (p ++ u) := by
  have := List.all_eq_true.1 (List.all_eq_true.1 metric_clean _ hu) _ hp
  exact Demo.cleanName_of (by simpa only [decide_eq_true_eq] using this)

/-- the names of a kind of units -/
def metricIn (q : Str) (l : List Str) : Bool :=
  metricUnits.all fun m => kindBase m.2.1 != q || (([], 0) :: metricPrefixes).all fun p => l.contains (p.1 ++ m.1)

theorem metric_weight : metricIn s!!"Weight" (basicNames s!!"Weight") = true := by decide +kernel
theorem metric_pressure : metricIn s!!"Pressure" (basicNames s!!"Pressure") = true := by decide +kernel
theorem metric_volume : metricIn s!!"Volume" (basicNames s!!"Volume") = true := by decide +kernel

def metricOut (l : List Str) : Bool :=
  metricUnits.all fun m => kindBase m.2.1 != s!!"Volume" || (([], 0) :: metricPrefixes).all fun p => !(l.contains (p.1 ++ m.1)) &&
    !(isUk (p.1 ++ m.1)) && isRes (p.1 ++ m.1) == isRes m.1

theorem metric_out : metricOut (basicNames s!!"Weight") = true := by decide +kernel

theorem metricIn_mem {q : Str} {l : List Str} (h : metricIn q l = true) {u kind : Str} {k : Int} (hu : (u, kind, k) ∈ metricUnits)
    (hk : kindBase kind = q) {p : Str} {e : Int} (hp : (p, e) ∈ ([], 0) :: metricPrefixes) : l.contains (p ++ u) = true := by
  have := List.all_eq_true.1 h _ hu
  simp only [hk, bne_self_eq_false, Bool.false_or] at this
  exact List.all_eq_true.1 this _ hp

theorem metric_gauge : (metricUnits.all fun m => m.1 == s!!"barg" || (([], 0) :: metricPrefixes).all fun p => !(gaugeNames.contains (p.1 ++ m.1))) =
    true := by decide +kernel

/-- C90 for weights and absolute pressures: converting between two metric prefixes of a unit, or between a prefix and none, multiplies
by the power of ten. -/
theorem C90_bulk_partial {w : World} (hw : Started w) (hg : 17 ≤ w.par.maxGenerations) (hφ : w.fvf ≠ some 0) {cs : List Call}
    (hcs : ∀ c ∈ cs, Asks c) {u kind : Str} {k : Int} (hu : (u, kind, k) ∈ metricUnits) (hk : kindBase kind ∈ [s!!"Weight", s!!"Pressure"])
    (hb : u ≠ s!!"barg") {p p' : Str} {e e' : Int} (hp : (p, e) ∈ ([], 0) :: metricPrefixes)
    (hp' : (p', e') ∈ ([], 0) :: metricPrefixes) (uc : Option Bool) (x : Rat) :
    (convert (some x) (some (p ++ u)) (some (p' ++ u)) uc (session cs w)).1 =
      .ok (some (.num (x * 10 ^ (e * k) / 10 ^ (e' * k)))) := by
  have hn := hw.shipped.network
  obtain ⟨r1, q1⟩ := prefix_reads hn hφ hu hp
  obtain ⟨r2, q2⟩ := prefix_reads hn hφ hu hp'
  have fin : ∀ y, shippedReading (fvfOr1 w.fvf) (p' ++ u) y = shippedReading (fvfOr1 w.fvf) (p ++ u) x → y = x * 10 ^ (e * k) / 10 ^ (e' * k) := by
    intro y hy
    rw [q1, q2] at hy
    have := shippedReading_inj (fvfOr1_ne hφ) u hy
    have h0 : (10 : Rat) ^ (e' * k) ≠ 0 := zpow_ne_zero _ (by norm_num)
    rw [← this]
    field_simp
  simp only [List.mem_cons, List.not_mem_nil, or_false] at hk
  rcases hk with hk | hk
  · have ba := builtIn_mem (metricIn_mem metric_weight hu hk hp) (by decide)
    have bb := builtIn_mem (metricIn_mem metric_weight hu hk hp') (by decide)
    have hex : w.par.algorithm = .lean → ¬ (p ++ u = s!!"weight ounce" ∧ p' ++ u ∈ dramNames) := by
      rintro - ⟨h, -⟩
      have : (metricUnits.all fun m => (([], 0) :: metricPrefixes).all fun p => p.1 ++ m.1 != s!!"weight ounce") = true := by decide +kernel
      have := List.all_eq_true.1 (List.all_eq_true.1 this _ hu) _ hp
      rw [h] at this
      exact absurd this (by decide)
    obtain ⟨y, w', hy⟩ := weight_found hw hg hcs ba bb (metric_cleanName hu hp) (metric_cleanName hu hp') hex (r1.trans (C62_symmetric hn r2)) uc x
    have hbase := base_session hcs hw.fresh.wf
    have hsh : ShippedWorld (session cs w) := by
      obtain ⟨d, h1, h2⟩ := hw.shipped
      exact ⟨d, by rw [hbase.net]; exact h1, by rw [hbase.dic]; exact h2⟩
    obtain ⟨z, hz, e⟩ := weight_answer (hw.reachable hcs) hsh (by rw [hbase.fvf]; exact hφ) ba bb (metric_cleanName hu hp) (metric_cleanName hu hp') hy
    cases hz
    rw [hbase.fvf] at e
    rw [hy, fin _ e]
  · have ba := builtIn_mem (metricIn_mem metric_pressure hu hk hp) (by decide)
    have bb := builtIn_mem (metricIn_mem metric_pressure hu hk hp') (by decide)
    have hgauge := List.all_eq_true.1 metric_gauge _ hu
    simp only [beq_iff_eq, Bool.or_eq_true, hb, false_or] at hgauge
    have g1 := List.all_eq_true.1 hgauge _ hp
    have g2 := List.all_eq_true.1 hgauge _ hp'
    obtain ⟨y, hy, e⟩ := pressure_answer hw hφ hcs ba bb (by simpa using g1) (by simpa using g2) (metric_cleanName hu hp)
      (metric_cleanName hu hp') uc x
    rw [hy, fin _ e]

theorem metric_liquid {u kind : Str} {k : Int} (hu : (u, kind, k) ∈ metricUnits) (hk : kindBase kind = s!!"Volume") {p : Str} {e : Int}
    (hp : (p, e) ∈ ([], 0) :: metricPrefixes) : Liquid (p ++ u) ∧ isRes (p ++ u) = isRes u := by
  have h := List.all_eq_true.1 metric_out _ hu
  simp only [hk, bne_self_eq_false, Bool.false_or] at h
  have h := List.all_eq_true.1 h _ hp
  simp only [Bool.and_eq_true, Bool.not_eq_true', beq_iff_eq] at h
  exact ⟨liquid_of (by simpa using metricIn_mem metric_volume hu hk hp) (by simpa using h.1.1) h.1.2 (metric_cleanName hu hp), h.2⟩

/-- C90 for volumes: a prefix and none differ by the power of ten, exactly. -/
theorem C90_volume_partial {w : World} (hw : Started w) (hg : 17 ≤ w.par.maxGenerations) (hφ : w.fvf ≠ some 0) {cs : List Call}
    (hcs : ∀ c ∈ cs, Asks c) {u kind : Str} {k : Int} (hu : (u, kind, k) ∈ metricUnits) (hk : kindBase kind = s!!"Volume")
    {p : Str} {e : Int} (hp : (p, e) ∈ metricPrefixes) (uc : Option Bool) (x : Rat) :
    (convert (some x) (some (p ++ u)) (some u) uc (session cs w)).1 = .ok (some (.num (x * 10 ^ (e * k)))) ∧
    (convert (some x) (some u) (some (p ++ u)) uc (session cs w)).1 = .ok (some (.num (x / 10 ^ (e * k)))) := by
  have hn := hw.shipped.network
  obtain ⟨⟨⟨f, hf⟩, hm⟩, ⟨g, hgg⟩, hm'⟩ := C53_metric_partial hn hu hp
  obtain ⟨l1, s1⟩ := metric_liquid hu hk (List.mem_cons_of_mem _ hp)
  obtain ⟨l2, s2⟩ := metric_liquid hu hk (p := []) (e := 0) (by simp)
  simp only [List.nil_append] at l2
  have hne : p ++ u ≠ u := by
    intro h
    have h0 : p = [] := by simpa using h
    have : ∀ p ∈ metricPrefixes, p.1 ≠ [] := by decide
    exact this _ hp h0
  refine ⟨?_, ?_⟩
  · obtain ⟨y, h1, h2⟩ := volume_direct hw hg hφ hcs l1.toFluid l2.toFluid hne s1 hf uc x
    rw [hm f hf w.fvf x] at h2
    cases h2
    exact h1
  · obtain ⟨y, h1, h2⟩ := volume_direct hw hg hφ hcs l2.toFluid l1.toFluid hne.symm s1.symm hgg uc x
    rw [hm' g hgg w.fvf x] at h2
    cases h2
    rw [h1]
    congr 3
    ring

theorem metric_linear : (metricUnits.all fun m => kindBase m.2.1 != s!!"Volume" || (readingOf m.1).any fun r =>
    decide (r.o = 0) && !r.api && decide (r.s ≠ 0)) = true := by decide +kernel

/-- C90 for volumes: two prefixes differ by the power of ten, to one part in a million whatever way the search takes. -/
theorem C90_volumes_partial {w : World} (hw : Started w) (hg : 17 ≤ w.par.maxGenerations) (hφ : w.fvf ≠ some 0) {cs : List Call}
    (hcs : ∀ c ∈ cs, Asks c) {u kind : Str} {k : Int} (hu : (u, kind, k) ∈ metricUnits) (hk : kindBase kind = s!!"Volume")
    {p p' : Str} {e e' : Int} (hp : (p, e) ∈ ([], 0) :: metricPrefixes) (hp' : (p', e') ∈ ([], 0) :: metricPrefixes)
    (uc : Option Bool) (x : Rat) :
    ∃ y, (convert (some x) (some (p ++ u)) (some (p' ++ u)) uc (session cs w)).1 = .ok (some (.num y)) ∧
      Close 1 y (x * 10 ^ (e * k) / 10 ^ (e' * k)) := by
  have hn := hw.shipped.network
  obtain ⟨r1, q1⟩ := prefix_reads hn hφ hu hp
  obtain ⟨r2, q2⟩ := prefix_reads hn hφ hu hp'
  obtain ⟨l1, s1⟩ := metric_liquid hu hk hp
  obtain ⟨l2, s2⟩ := metric_liquid hu hk hp'
  have hi := (hn.reach_iff (builtIn_isName l1.volume) (builtIn_isName l2.volume)).1 (r1.trans (C62_symmetric hn r2))
  obtain ⟨⟨y, w', hy⟩, _⟩ := liquid_found hw hg hφ hcs l1.toFluid l2.toFluid hi (Or.inl (s1.trans s2.symm)) uc x
  have hbase := base_session hcs hw.fresh.wf
  have hsh : ShippedWorld (session cs w) := by
    obtain ⟨d, h1, h2⟩ := hw.shipped
    exact ⟨d, by rw [hbase.net]; exact h1, by rw [hbase.dic]; exact h2⟩
  obtain ⟨z, E, hz, hE, _, h⟩ := liquid_answer (hw.reachable hcs) hsh (by rw [hbase.fvf]; exact hφ) l1 l2 hy
  cases hz
  refine ⟨y, by rw [hy], close_of (hE.trans (by norm_num)) ?_⟩
  rw [hbase.fvf, q1, q2] at h
  have hl := List.all_eq_true.1 metric_linear _ hu
  simp only [hk, bne_self_eq_false, Bool.false_or] at hl
  obtain ⟨r, hr, h1⟩ := (Option.any_eq_true ..).1 hl
  simp only [Bool.and_eq_true, decide_eq_true_eq, Bool.not_eq_true'] at h1
  obtain ⟨⟨h1, h2⟩, h3⟩ := h1
  have hs : r.s * fvfOr1 w.fvf ^ r.e ≠ 0 := mul_ne_zero h3 (zpow_ne_zero _ (fvfOr1_ne hφ))
  simp only [shippedReading, hr, Reading.at, h2, Bool.false_eq_true, if_false, h1, add_zero] at h
  have h0 : (10 : Rat) ^ (e' * k) ≠ 0 := zpow_ne_zero _ (by norm_num)
  rw [mul_div_assoc', eq_div_iff h0]
  apply mul_left_cancel₀ hs
  rw [h]
  ring

/-! ### concrete cases -/

/-- 2 MPa are 20000 hPa and 3 mg are 3/1000000 kg, whatever was asked before -/
example : ∃ w, Started w ∧ ∀ uc, (convert (some 2) (some s!!"MPa") (some s!!"hPa") uc
      (session [.convert (some 1) (some s!!"stb") (some s!!"kg") none, .convertible s!!"ft/day" s!!"m/s" none] w)).1 = .ok (some (.num 20000)) ∧
    (convert (some 3) (some s!!"mg") (some s!!"kg") uc w).1 = .ok (some (.num (3 / 1000000))) := by
  obtain ⟨w, hw, hp, hf⟩ := started_ex
  refine ⟨w, hw, fun uc => ⟨?_, ?_⟩⟩
  · have := C90_bulk_partial hw (by rw [hp]; decide) (by rw [hf]; decide)
      (cs := [.convert (some 1) (some s!!"stb") (some s!!"kg") none, .convertible s!!"ft/day" s!!"m/s" none]) (by simp [Asks])
      (u := s!!"Pa") (kind := s!!"Pressure_SI") (k := 1) (by decide) (by decide) (by decide) (p := s!!"M") (e := 6) (by decide)
      (p' := s!!"h") (e' := 2) (by decide) uc 2
    rw [show s!!"MPa" = s!!"M" ++ s!!"Pa" from rfl, show s!!"hPa" = s!!"h" ++ s!!"Pa" from rfl, this]
    norm_num
  · have := C90_bulk_partial hw (by rw [hp]; decide) (by rw [hf]; decide) (cs := []) (by simp)
      (u := s!!"g") (kind := s!!"Weight_SI") (k := 1) (by decide) (by decide) (by decide) (p := s!!"m") (e := -3) (by decide)
      (p' := s!!"k") (e' := 3) (by decide) uc 3
    rw [show session [] w = w from rfl] at this
    rw [show s!!"mg" = s!!"m" ++ s!!"g" from rfl, show s!!"kg" = s!!"k" ++ s!!"g" from rfl, this]
    norm_num

/-- a cubic kilometre is 10^9 cubic metres -/
example : ∃ w, Started w ∧ ∀ uc, (convert (some 5) (some s!!"km3") (some s!!"m3") uc w).1 = .ok (some (.num 5000000000)) := by
  obtain ⟨w, hw, hp, hf⟩ := started_ex
  refine ⟨w, hw, fun uc => ?_⟩
  have := (C90_volume_partial hw (by rw [hp]; decide) (by rw [hf]; decide) (cs := []) (by simp)
    (u := s!!"m3") (kind := s!!"Volume_SI_UPPER") (k := 3) (by decide) (by decide) (p := s!!"k") (e := 3) (by decide) uc 5).1
  rw [show session [] w = w from rfl] at this
  rw [show s!!"km3" = s!!"k" ++ s!!"m3" from rfl, this]
  norm_num

end Unyts

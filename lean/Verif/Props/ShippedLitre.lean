import Verif.Lemmas.ShippedBarrel
import Verif.Props.ShippedWeight
import Verif.Props.Direct
import Mathlib.Data.List.Nodup
import Mathlib.Algebra.Order.Ring.Abs

/- C102: volumes convert by their sizes, to one part in a million. -/
namespace Unyts
open Spec
set_option maxRecDepth 1000000

/-- a volume that is no weight -/
structure Fluid (u : Str) : Prop where
  volume : BuiltIn s!!"Volume" u
  light : ¬ BuiltIn s!!"Weight" u
  clean : CleanName u

/-- and no UK measure below the gallon -/
structure Liquid (u : Str) : Prop extends Fluid u where
  notUk : isUk u = false

theorem Fluid.numbers {u : Str} (h : Fluid u) : labelOf u = some 3 ∧ labelOf u ≠ some 32 ∧ labelOf u ≠ some 34 :=
  bulk_builtIn h.volume (by decide)

theorem Spec.ShippedWorld.liquid_noDensity {w : World} (h : ShippedWorld w) {a b : Str} (ha : Fluid a) (hb : Fluid b) :
    ¬ DensityPair w.dic a b := by
  obtain ⟨d, hd, hw⟩ := h
  rw [hw]
  have key : ∀ {u}, Fluid u → u ∉ kindStart d s!!"Weight" := fun hu hm =>
    hu.light ((hd.unsigned hu.clean.2).1 (kindStart_mem.1 hm)).1
  rintro ⟨_, _, ⟨_, hm⟩ | ⟨_, hm⟩⟩
  · exact key hb hm
  · exact key ha hm

theorem chain_in_nodes {n : Net} (hg : WF n) {a b : UNode} {p : List UNode} (hp : Chain (Linked n) a b p) (ha : a ∈ n.nodes) :
    ∀ x ∈ p, x ∈ n.nodes := by
  induction hp with
  | single x => intro y hy; rw [List.mem_singleton.1 hy]; exact ha
  | step e _ ih =>
    intro x hx
    rcases List.mem_cons.1 hx with rfl | hx
    · exact ha
    · exact ih (Net.linked_dst hg e) x hx

/-- along a path of volumes the reading is kept to less than one part in a million, and exactly in the reservoir -/
theorem liquid_reads {n : Net} (hn : ShippedNetwork n) {fvf : Option Rat} (hφ : fvf ≠ some 0) {na nb : UNode} {q : List UNode}
    {f : Fn} (ma : na ∈ n.nodes) (hq : IsPath (Linked n) na nb q) (hal : Along n q f) (ha : Liquid na.name) (hb : Liquid nb.name)
    {x y : Rat} (hxy : f fvf x = .ok y) :
    ∃ E, |E - 1| ≤ 7 / 10000000 ∧ (isRes na.name = true → isRes nb.name = true → E = 1) ∧
      shippedReading (fvfOr1 fvf) nb.name y = E * shippedReading (fvfOr1 fvf) na.name x := by
  obtain ⟨h1, h2⟩ := isPath_ends hq
  have e1 : (q.map UNode.name).head? = some na.name := by rw [List.head?_map, h1]; rfl
  have e2 : (q.map UNode.name).getLast? = some nb.name := by rw [List.getLast?_map, h2]; rfl
  have hu := hn.gate_path uk_gate hq ha.numbers.1 ha.notUk hb.notUk
  have hp : ∀ s ∈ q.map UNode.name, labelOf s = some 3 ∧ isUk s = false := by
    intro s hs
    obtain ⟨u, hu', rfl⟩ := List.mem_map.1 hs
    exact hu u hu'
  by_cases hr : isRes na.name = true ∧ isRes nb.name = true
  · have hr' := hn.gate_path res_gate hq ha.numbers.1 hr.1 hr.2
    refine ⟨1, by norm_num, fun _ _ => rfl, ?_⟩
    rw [one_mul]
    refine hn.along (along_names hal) (avoids_barrel hp ?_) hφ hxy e1 e2
    intro hm
    obtain ⟨u, hu', e⟩ := List.mem_map.1 hm
    have := (hr' u hu').2
    rw [e] at this
    exact absurd this (by decide +kernel)
  · have nd : (q.map UNode.name).Nodup := by
      refine List.Nodup.map_on ?_ hq.2
      intro x hx y hy e
      exact hn.distinct _ (chain_in_nodes hn.wf hq.1 ma x hx) _ (chain_in_nodes hn.wf hq.1 ma y hy) e
    obtain ⟨E, h3, h4⟩ := hn.along_near (along_names hal) hp nd hφ hxy e1 e2
    exact ⟨E, h3, fun h h' => absurd ⟨h, h'⟩ hr, h4⟩

/-- what an answer of `convert` between volumes reads, in any state -/
theorem liquid_answer {w : World} (hw : Reachable w) (hs : ShippedWorld w) (hφ : w.fvf ≠ some 0) {a b : Str} (ha : Liquid a)
    (hb : Liquid b) {uc : Option Bool} {x : Rat} {c : Conv} {w' : World}
    (hr : convert (some x) (some a) (some b) uc w = (.ok (some c), w')) :
    ∃ y E, c = .num y ∧ |E - 1| ≤ 7 / 10000000 ∧ (isRes a = true → isRes b = true → E = 1) ∧
      shippedReading (fvfOr1 w.fvf) b y = E * shippedReading (fvfOr1 w.fvf) a x := by
  obtain ⟨_, h32, h34⟩ := ha.numbers
  obtain ⟨f, p, h1, h2⟩ := convert_simple (sound_of_reachable hw) ha.clean hb.clean
    (hs.ordinary ha.clean.2 (builtIn_isName ha.volume) h32 h34) (hs.liquid_noDensity ha.toFluid hb.toFluid) hr
  obtain ⟨_, h3⟩ := ansRes_ok h1
  rcases h3 with ⟨h3, _⟩ | ⟨x', y, hx, hf, rfl⟩
  · cases h3
  · cases hx
    rcases h2 with ⟨rfl, rfl⟩ | ⟨na, nb, q, hna, hnb, hq, hal, _⟩
    · simp only [idFn, Except.ok.injEq] at hf
      exact ⟨y, 1, rfl, by norm_num, fun _ _ => rfl, by rw [hf, one_mul]⟩
    · obtain ⟨ma, rfl⟩ := getNode_mem hna
      obtain ⟨_, rfl⟩ := getNode_mem hnb
      obtain ⟨E, h3, h4, h5⟩ := liquid_reads hs.network hφ ma hq hal ha hb hf
      exact ⟨y, E, rfl, h3, h4, h5⟩

theorem Fluid.not_ounce {u : Str} (h : Fluid u) : u ≠ s!!"weight ounce" := by
  rintro rfl
  exact h.light (builtIn_mem (by decide +kernel) (by decide))

/-- conversions between volumes on one side of the formation volume factor answer -/
theorem side_path {n : Net} (hn : ShippedNetwork n) {na nb : UNode} {q : List UNode} {f : Fn} (hq : IsPath (Linked n) na nb q)
    (hal : Along n q f) (la : labelOf na.name = some 3) (hs : isRes na.name = isRes nb.name) (fvf : Option Rat) (x : Rat) :
    ∃ y, f fvf x = .ok y := by
  cases hr : isRes na.name with
  | false => exact hn.side_total hal (hn.gate_path std_gate hq la hr (hs ▸ hr)) fvf x
  | true => exact hn.side_total hal (hn.gate_path res_gate hq la hr (hs ▸ hr)) fvf x

/-- `convert` answers for joined volumes, without a formation volume factor where none is needed -/
theorem liquid_found {w : World} (hw : Started w) (hg : 17 ≤ w.par.maxGenerations) (hφ : w.fvf ≠ some 0) {cs : List Call}
    (hcs : ∀ c ∈ cs, Asks c) {a b : Str} (ha : Fluid a) (hb : Fluid b) (hi : islandOf a = islandOf b)
    (hside : isRes a = isRes b ∨ w.fvf.isSome = true) (uc : Option Bool) (x : Rat) :
    (∃ y w', convert (some x) (some a) (some b) uc (session cs w) = (.ok (some (.num y)), w')) ∧
    (convertible a b uc (session cs w)).1 = .ok true := by
  have hn := hw.shipped.network
  have hr := (hn.reach_iff (builtIn_isName ha.volume) (builtIn_isName hb.volume)).2 hi
  have hd := hw.shipped.liquid_noDensity ha hb
  have hex : w.par.algorithm = .lean → ¬ (a = s!!"weight ounce" ∧ b ∈ dramNames) := fun _ h => ha.not_ounce h.1
  rcases hside with hside | hside
  · obtain ⟨hs, h32, h34⟩ := ha.numbers
    obtain ⟨hsb, _⟩ := hb.numbers
    have hbase := base_session hcs hw.fresh.wf
    have hd' : ¬ DensityPair (session cs w).dic a b := by rw [hbase.dic]; exact hd
    by_cases hab : a = b
    · subst hab
      obtain ⟨c, hc⟩ := List.exists_mem_of_ne_nil _ (builtIn_ne_nil ha.volume h32)
      refine ⟨⟨x, _, Prod.ext (C11_self _ (hw.reachable hcs) a ha.clean.1 ⟨c, hc, ?_, ?_⟩ hd' uc x) rfl⟩,
        C11_convertible _ (hw.reachable hcs) a ha.clean.2 uc⟩
      · rintro rfl; exact ha.clean.2.2 hc
      · rintro rfl; exact ha.clean.2.1 hc
    · obtain ⟨na, nb, g1, g2, rfl, rfl, hl⟩ := reach_nodes hw.fresh.wf hn.distinct hr hab
      have hk := askInv_session hcs (askInv_fresh hw.fresh (hw.shipped.finds_bulk hw.fresh hw.algorithm hw.edges hg))
      have sab : BulkNames w.par.algorithm na.name nb.name := ⟨⟨ha.clean.2, hb.clean.2⟩, hs, hsb, hex⟩
      have oa : Ordinary (session cs w).dic na.name := by
        rw [hbase.dic]; exact hw.shipped.ordinary ha.clean.2 (builtIn_isName ha.volume) h32 h34
      rw [← hbase.net] at g1 g2 hl
      refine ⟨?_, ?_⟩
      · obtain ⟨q, f, hq, hal, hres⟩ := convert_finds (findsInv_session hcs (hw.shipped.finds_bulk hw.fresh hw.algorithm hw.edges hg))
          ha.clean hb.clean sab oa hd' g1 g2 hl uc (some x)
        rw [hbase.net] at hq hal
        obtain ⟨y, hy⟩ := side_path hn hq hal hs hside (session cs w).fvf x
        refine ⟨y, _, Prod.ext ?_ rfl⟩
        rw [hres]
        simp [ansRes, hy, Except.map, finish]
      · obtain ⟨q, f, hq, hal, hres⟩ := converterTop_finds hk.1 sab oa g1 g2 hl (hk.2 _ _ _ _ sab g1 g2 hl) uc (some 1)
        rw [hbase.net] at hq hal
        obtain ⟨y, hy⟩ := side_path hn hq hal hs hside (session cs w).fvf 1
        unfold convertible
        cases hc : converterTop uc (some 1) na.name nb.name (session cs w) with
        | mk r w' =>
          rw [hc] at hres
          simp only [ansRes, hy, Except.map] at hres
          subst hres
          rfl
  · obtain ⟨φ, h1⟩ := Option.isSome_iff_exists.1 hside
    have h0 : φ ≠ 0 := by rintro rfl; exact hφ h1
    exact ⟨C88_bulk_partial hw hg h1 h0 hcs ha.volume (by decide) ha.clean hb.clean hd hex hr uc x,
      C88_convertible_bulk_partial hw hg h1 h0 hcs ha.volume (by decide) ha.clean hb.clean hex hr uc⟩

/-! ### sizes -/

/-- how much the barrel of the reservoir is off -/
def rbOff : Rat := 500000000 / 3144907 / barrel

def volumeCheck (k : Rat) (v l : List Str) (i : Option Nat) : Bool :=
  decide (0 < k) && (volumeSizes.all fun e =>
    decide (readingOf e.1 = some ⟨e.2 * k, 0, 0, false⟩) && v.contains e.1 && !(l.contains e.1) && !(isUk e.1) && islandOf e.1 == i &&
      decide (0 < e.2)) &&
  reservoirSizes.all fun e =>
    (decide (readingOf e.1 = some ⟨e.2 * k, 0, -1, false⟩) || decide (readingOf e.1 = some ⟨rbOff * e.2 * k, 0, -1, false⟩)) &&
      v.contains e.1 && !(l.contains e.1) && islandOf e.1 == i && decide (0 < e.2)

theorem volume_check : volumeCheck (((readingOf s!!"litre").map Reading.s).getD 0) (basicNames s!!"Volume") (basicNames s!!"Weight")
    (islandOf s!!"litre") = true := by decide +kernel

theorem volume_clean : ∀ e ∈ volumeSizes ++ reservoirSizes, '(' ∉ e.1 ∧ ')' ∉ e.1 ∧
    (∀ c ∈ e.1.head?.toList ++ e.1.getLast?.toList, c ∉ [' ', '"', '\'']) ∧ e.1 ≠ s!!"Empty" ∧ '/' ∉ e.1 ∧ '*' ∉ e.1 := by
  decide +kernel

theorem fluid_of {u : Str} (h1 : u ∈ basicNames s!!"Volume") (h2 : u ∉ basicNames s!!"Weight") (h4 : CleanName u) : Fluid u := by
  refine ⟨builtIn_mem (List.contains_iff_mem.2 h1) (by decide), ?_, h4⟩
  rintro ⟨k, hk, hq⟩
  refine h2 (mem_basicNames.2 ⟨k, hk, ?_⟩)
  unfold quantityOf at hq
  split at hq
  · cases hq
  · exact hq

theorem liquid_of {u : Str} (h1 : u ∈ basicNames s!!"Volume") (h2 : u ∉ basicNames s!!"Weight") (h3 : isUk u = false) (h4 : CleanName u) :
    Liquid u := { fluid_of h1 h2 h4 with notUk := h3 }

theorem liquid_sizes : ∃ (k : Rat) (i : Option Nat), 0 < k ∧
    (∀ e ∈ volumeSizes, Liquid e.1 ∧ isRes e.1 = false ∧ islandOf e.1 = i ∧ 0 < e.2 ∧ readingOf e.1 = some ⟨e.2 * k, 0, 0, false⟩) ∧
    ∀ e ∈ reservoirSizes, Liquid e.1 ∧ isRes e.1 = true ∧ islandOf e.1 = i ∧ 0 < e.2 ∧
      ∃ ρ : Rat, (ρ = 1 ∨ ρ = rbOff) ∧ readingOf e.1 = some ⟨ρ * e.2 * k, 0, -1, false⟩ := by
  have := volume_check
  generalize ((readingOf s!!"litre").map Reading.s).getD 0 = k at this
  generalize islandOf s!!"litre" = i at this
  unfold volumeCheck at this
  simp only [Bool.and_eq_true, decide_eq_true_eq, List.all_eq_true, Bool.or_eq_true, List.contains_iff_mem, beq_iff_eq,
    Bool.not_eq_true', ← Bool.not_eq_true] at this
  obtain ⟨⟨hk, h1⟩, h2⟩ := this
  refine ⟨k, i, hk, fun e he => ?_, fun e he => ?_⟩
  · obtain ⟨⟨⟨⟨⟨a1, a2⟩, a3⟩, a4⟩, a5⟩, a6⟩ := h1 e he
    refine ⟨liquid_of a2 a3 (by simpa using a4) (Demo.cleanName_of (volume_clean e (by simp [he]))), ?_, a5, a6, a1⟩
    unfold isRes
    rw [a1]
    rfl
  · obtain ⟨⟨⟨⟨a1, a2⟩, a3⟩, a5⟩, a6⟩ := h2 e he
    have hr : isRes e.1 = true := by
      unfold isRes
      rcases a1 with a1 | a1 <;> rw [a1] <;> rfl
    refine ⟨liquid_of a2 a3 (res_not_uk hr) (Demo.cleanName_of (volume_clean e (by simp [he]))), hr, a5, a6, ?_⟩
    rcases a1 with a1 | a1
    · exact ⟨1, Or.inl rfl, by rw [one_mul]; exact a1⟩
    · exact ⟨_, Or.inr rfl, a1⟩

theorem rbOff_bound {ρ σ : Rat} (hρ : ρ = 1 ∨ ρ = rbOff) (hσ : σ = 1 ∨ σ = rbOff) : |ρ / σ - 1| ≤ 6 / 10000000 ∧ 0 < σ := by
  have h1 : rbOff = 31250000000000000 / 31250016045633231 := by simp only [rbOff, barrel, gallonUS, cubicInch]; norm_num
  rw [h1] at hρ hσ
  rw [abs_le]
  rcases hρ with rfl | rfl <;> rcases hσ with rfl | rfl <;> norm_num

theorem close_of {E y t k : Rat} (h : |E - 1| ≤ k / 1000000) (hy : y = E * t) : Close k y t := by
  unfold Close
  rw [hy, show E * t - t = (E - 1) * t by ring, abs_mul]
  calc |E - 1| * |t| ≤ k / 1000000 * |t| := mul_le_mul_of_nonneg_right h (abs_nonneg t)
    _ = k * |t| / 1000000 := by ring

theorem both_bound {E ρ : Rat} (h1 : |E - 1| ≤ 7 / 10000000) (h2 : |ρ - 1| ≤ 6 / 10000000) : |E * ρ - 1| ≤ 14 / 10000000 := by
  rw [abs_le] at *
  obtain ⟨a, b⟩ := h1
  obtain ⟨c, d⟩ := h2
  constructor <;> nlinarith

theorem sizes_factor {w : World} (hw : Reachable w) (hs : ShippedWorld w) (hφ : w.fvf ≠ some 0) {a b : Str} {sa sb : Rat}
    (ma : (a, sa) ∈ volumeSizes) (mb : (b, sb) ∈ volumeSizes) {uc : Option Bool} {x : Rat} {c : Conv} {w' : World}
    (hr : convert (some x) (some a) (some b) uc w = (.ok (some c), w')) : ∃ y E, c = .num y ∧ |E - 1| ≤ 7 / 10000000 ∧ y = E * (x * sa / sb) := by
  obtain ⟨k, i, hk, h, _⟩ := liquid_sizes
  obtain ⟨la, _, _, _, r1⟩ := h _ ma
  obtain ⟨lb, _, _, pb, r2⟩ := h _ mb
  simp only at pb
  obtain ⟨y, E, rfl, h1, _, e⟩ := liquid_answer hw hs hφ la lb hr
  simp only [shippedReading, r1, r2, Reading.at, Bool.false_eq_true, if_false, zpow_zero, mul_one, add_zero] at e
  refine ⟨y, E, rfl, h1, ?_⟩
  have := ne_of_gt hk
  field_simp
  apply mul_left_cancel₀ this
  linarith

/-- C102: the only number `convert` can answer between two of these volumes is the one their sizes give, to one part in
a million, in any state any session leaves, with any algorithm and any cache. -/
theorem C102_sizes {w : World} (hw : Reachable w) (hs : ShippedWorld w) (hφ : w.fvf ≠ some 0) {a b : Str} {sa sb : Rat}
    (ma : (a, sa) ∈ volumeSizes) (mb : (b, sb) ∈ volumeSizes) {uc : Option Bool} {x : Rat} {c : Conv} {w' : World}
    (hr : convert (some x) (some a) (some b) uc w = (.ok (some c), w')) : ∃ y, c = .num y ∧ Close 1 y (x * sa / sb) := by
  obtain ⟨y, E, e, h1, h2⟩ := sizes_factor hw hs hφ ma mb hr
  exact ⟨y, e, close_of (h1.trans (by norm_num)) h2⟩

theorem exact_factor {w : World} (hw : Started w) (hg : 17 ≤ w.par.maxGenerations) (hφ : w.fvf ≠ some 0) {cs : List Call}
    (hcs : ∀ c ∈ cs, Asks c) {a b : Str} {sa sb : Rat} (ma : (a, sa) ∈ volumeSizes) (mb : (b, sb) ∈ volumeSizes)
    (uc : Option Bool) (x : Rat) :
    (∃ y E, (convert (some x) (some a) (some b) uc (session cs w)).1 = .ok (some (.num y)) ∧ |E - 1| ≤ 7 / 10000000 ∧ y = E * (x * sa / sb)) ∧
    (convertible a b uc (session cs w)).1 = .ok true := by
  obtain ⟨k, i, hk, h, _⟩ := liquid_sizes
  obtain ⟨la, s1, i1, _, _⟩ := h _ ma
  obtain ⟨lb, s2, i2, _, _⟩ := h _ mb
  have hbase := base_session hcs hw.fresh.wf
  obtain ⟨⟨y, w', hr⟩, hc⟩ := liquid_found hw hg hφ hcs la.toFluid lb.toFluid (i1.trans i2.symm) (Or.inl (s1.trans s2.symm)) uc x
  obtain ⟨d, h1, h2⟩ := hw.shipped
  obtain ⟨_, E, e, hcl⟩ := sizes_factor (hw.reachable hcs) ⟨d, by rw [hbase.net]; exact h1, by rw [hbase.dic]; exact h2⟩
    (by rw [hbase.fvf]; exact hφ) ma mb hr
  cases e
  exact ⟨⟨y, E, by rw [hr], hcl⟩, hc⟩

/-- C102, with the answer found, and `convertible` saying yes; with or without a formation volume factor. -/
theorem C102_exact {w : World} (hw : Started w) (hg : 17 ≤ w.par.maxGenerations) (hφ : w.fvf ≠ some 0) {cs : List Call}
    (hcs : ∀ c ∈ cs, Asks c) {a b : Str} {sa sb : Rat} (ma : (a, sa) ∈ volumeSizes) (mb : (b, sb) ∈ volumeSizes)
    (uc : Option Bool) (x : Rat) :
    (∃ y, (convert (some x) (some a) (some b) uc (session cs w)).1 = .ok (some (.num y)) ∧ Close 1 y (x * sa / sb)) ∧
    (convertible a b uc (session cs w)).1 = .ok true := by
  obtain ⟨⟨y, E, h1, h2, h3⟩, hc⟩ := exact_factor hw hg hφ hcs ma mb uc x
  exact ⟨⟨y, h1, close_of (h2.trans (by norm_num)) h3⟩, hc⟩

theorem reservoir_factor {w : World} (hw : Started w) (hg : 17 ≤ w.par.maxGenerations) (hφ : w.fvf ≠ some 0) {cs : List Call}
    (hcs : ∀ c ∈ cs, Asks c) {a b : Str} {sa sb : Rat} (ma : (a, sa) ∈ reservoirSizes) (mb : (b, sb) ∈ reservoirSizes)
    (uc : Option Bool) (x : Rat) :
    (∃ y E, (convert (some x) (some a) (some b) uc (session cs w)).1 = .ok (some (.num y)) ∧ |E - 1| ≤ 7 / 10000000 ∧ y = E * (x * sa / sb)) ∧
    (convertible a b uc (session cs w)).1 = .ok true := by
  obtain ⟨k, i, hk, _, h⟩ := liquid_sizes
  obtain ⟨la, s1, i1, _, ρ, hρ, r1⟩ := h _ ma
  obtain ⟨lb, s2, i2, pb, σ, hσ, r2⟩ := h _ mb
  simp only at pb
  have hbase := base_session hcs hw.fresh.wf
  obtain ⟨⟨y, w', hr⟩, hc⟩ := liquid_found hw hg hφ hcs la.toFluid lb.toFluid (i1.trans i2.symm) (Or.inl (s1.trans s2.symm)) uc x
  obtain ⟨d, h1, h2⟩ := hw.shipped
  have hφ' : (session cs w).fvf ≠ some 0 := by rw [hbase.fvf]; exact hφ
  obtain ⟨_, E, e, _, hE, he⟩ := liquid_answer (hw.reachable hcs) ⟨d, by rw [hbase.net]; exact h1, by rw [hbase.dic]; exact h2⟩ hφ' la lb hr
  cases e
  rw [hE s1 s2] at he
  simp only [shippedReading, r1, r2, Reading.at, Bool.false_eq_true, if_false, add_zero] at he
  obtain ⟨hb, hσ0⟩ := rbOff_bound hρ hσ
  refine ⟨⟨y, ρ / σ, by rw [hr], hb.trans (by norm_num), ?_⟩, hc⟩
  have hf := fvfOr1_ne hφ'
  have := ne_of_gt hk
  have := ne_of_gt hσ0
  simp only [zpow_neg, zpow_one, one_mul] at he
  field_simp at he ⊢
  linarith

/-- C102 in the reservoir: no formation volume factor is needed between volumes at reservoir conditions. -/
theorem C102_reservoir {w : World} (hw : Started w) (hg : 17 ≤ w.par.maxGenerations) (hφ : w.fvf ≠ some 0) {cs : List Call}
    (hcs : ∀ c ∈ cs, Asks c) {a b : Str} {sa sb : Rat} (ma : (a, sa) ∈ reservoirSizes) (mb : (b, sb) ∈ reservoirSizes)
    (uc : Option Bool) (x : Rat) :
    (∃ y, (convert (some x) (some a) (some b) uc (session cs w)).1 = .ok (some (.num y)) ∧ Close 1 y (x * sa / sb)) ∧
    (convertible a b uc (session cs w)).1 = .ok true := by
  obtain ⟨⟨y, E, h1, h2, h3⟩, hc⟩ := reservoir_factor hw hg hφ hcs ma mb uc x
  exact ⟨⟨y, h1, close_of (h2.trans (by norm_num)) h3⟩, hc⟩

theorem formation_factor {w : World} (hw : Started w) (hg : 17 ≤ w.par.maxGenerations) {φ : Rat} (hφ : w.fvf = some φ) (h0 : φ ≠ 0)
    {cs : List Call} (hcs : ∀ c ∈ cs, Asks c) {a b : Str} {sa sb : Rat} (ma : (a, sa) ∈ reservoirSizes) (mb : (b, sb) ∈ volumeSizes)
    (uc : Option Bool) (x : Rat) :
    (∃ y E, (convert (some x) (some a) (some b) uc (session cs w)).1 = .ok (some (.num y)) ∧ |E - 1| ≤ 14 / 10000000 ∧ y = E * (x * sa / sb / φ)) ∧
    (∃ y E, (convert (some x) (some b) (some a) uc (session cs w)).1 = .ok (some (.num y)) ∧ |E - 1| ≤ 14 / 10000000 ∧ y = E * (x * sb / sa * φ)) ∧
    (convertible a b uc (session cs w)).1 = .ok true ∧ (convertible b a uc (session cs w)).1 = .ok true := by
  obtain ⟨k, i, hk, h, h'⟩ := liquid_sizes
  obtain ⟨la, s1, i1, pa, ρ, hρ, r1⟩ := h' _ ma
  obtain ⟨lb, s2, i2, pb, r2⟩ := h _ mb
  simp only at pa pb
  have hbase := base_session hcs hw.fresh.wf
  have hφ0 : w.fvf ≠ some 0 := by rw [hφ]; simpa using h0
  have sm : w.fvf.isSome = true := by rw [hφ]; rfl
  obtain ⟨⟨y, w', hr⟩, hc⟩ := liquid_found hw hg hφ0 hcs la.toFluid lb.toFluid (i1.trans i2.symm) (Or.inr sm) uc x
  obtain ⟨⟨z, w'', hr'⟩, hc'⟩ := liquid_found hw hg hφ0 hcs lb.toFluid la.toFluid (i2.trans i1.symm) (Or.inr sm) uc x
  have hs : ShippedWorld (session cs w) := by
    obtain ⟨d, h1, h2⟩ := hw.shipped
    exact ⟨d, by rw [hbase.net]; exact h1, by rw [hbase.dic]; exact h2⟩
  have hf : (session cs w).fvf = some φ := by rw [hbase.fvf]; exact hφ
  have hφ' : (session cs w).fvf ≠ some 0 := by rw [hf]; simpa using h0
  obtain ⟨_, E, e, hE, _, he⟩ := liquid_answer (hw.reachable hcs) hs hφ' la lb hr
  cases e
  obtain ⟨_, F, e, hF, _, he'⟩ := liquid_answer (hw.reachable hcs) hs hφ' lb la hr'
  cases e
  rw [hf] at he he'
  simp only [shippedReading, r1, r2, Reading.at, Bool.false_eq_true, if_false, add_zero, fvfOr1, Option.getD_some, zpow_neg, zpow_one,
    zpow_zero, mul_one] at he he'
  have hk' := ne_of_gt hk
  have hb1 := (rbOff_bound hρ (Or.inl rfl)).1
  obtain ⟨hb2, _⟩ := rbOff_bound (Or.inl rfl) hρ
  have hρ0 := ne_of_gt (rbOff_bound hρ hρ).2
  rw [div_one] at hb1
  refine ⟨⟨y, E * ρ, by rw [hr], both_bound hE hb1, ?_⟩,
    ⟨z, F * (1 / ρ), by rw [hr'], both_bound hF hb2, ?_⟩, hc, hc'⟩
  · field_simp at he ⊢
    linarith
  · field_simp at he' ⊢
    linarith

/-- C102 between the reservoir and the stock tank: a volume shrinks by the formation volume factor, to two parts in a
million. -/
theorem C102_formation {w : World} (hw : Started w) (hg : 17 ≤ w.par.maxGenerations) {φ : Rat} (hφ : w.fvf = some φ) (h0 : φ ≠ 0)
    {cs : List Call} (hcs : ∀ c ∈ cs, Asks c) {a b : Str} {sa sb : Rat} (ma : (a, sa) ∈ reservoirSizes) (mb : (b, sb) ∈ volumeSizes)
    (uc : Option Bool) (x : Rat) :
    (∃ y, (convert (some x) (some a) (some b) uc (session cs w)).1 = .ok (some (.num y)) ∧ Close 2 y (x * sa / sb / φ)) ∧
    (∃ y, (convert (some x) (some b) (some a) uc (session cs w)).1 = .ok (some (.num y)) ∧ Close 2 y (x * sb / sa * φ)) ∧
    (convertible a b uc (session cs w)).1 = .ok true ∧ (convertible b a uc (session cs w)).1 = .ok true := by
  obtain ⟨⟨y, E, h1, h2, h3⟩, ⟨z, F, g1, g2, g3⟩, hc⟩ := formation_factor hw hg hφ h0 hcs ma mb uc x
  exact ⟨⟨y, h1, close_of (h2.trans (by norm_num)) h3⟩, ⟨z, g1, close_of (g2.trans (by norm_num)) g3⟩, hc⟩

example : ∃ w, Started w ∧ w.fvf = none ∧ ∀ uc, ∃ y, (convert (some 250) (some s!!"MMscf") (some s!!"Sm3") uc
    (session [.convert (some 1) (some s!!"stb") (some s!!"scf") none] w)).1 = .ok (some (.num y)) ∧ |y - 7079211.648| ≤ 8 := by
  obtain ⟨w, hw, hp, hf⟩ := started_ex
  refine ⟨w, hw, hf, fun uc => ?_⟩
  obtain ⟨⟨y, h1, h2⟩, _⟩ := C102_exact hw (by rw [hp]; decide) (by rw [hf]; decide) (by simp [Asks]) (a := s!!"MMscf") (b := s!!"Sm3")
    (sa := 1000000 * cubicFoot) (sb := 1000) (cs := [.convert (some 1) (some s!!"stb") (some s!!"scf") none])
    (by decide +kernel) (by decide +kernel) uc 250
  refine ⟨y, h1, ?_⟩
  unfold Close cubicFoot cubicInch at h2
  norm_num at h2 ⊢
  rw [abs_le] at *
  norm_num at h2 ⊢
  constructor <;> linarith [h2.1, h2.2]

example : ∃ w, Started w ∧ w.fvf = some (6 / 5) ∧ ∀ uc, (∃ y, (convert (some 1200) (some s!!"rb") (some s!!"stb") uc w).1 = .ok (some (.num y)) ∧
      Close 2 y 1000) ∧ ∃ y, (convert (some 100) (some s!!"rb") (some s!!"rem3") uc w).1 = .ok (some (.num y)) ∧ Close 1 y (barrel / 10) := by
  obtain ⟨w, hw, hp, hf⟩ := started_fvf
  refine ⟨w, hw, hf, fun uc => ⟨?_, ?_⟩⟩
  · obtain ⟨⟨y, h1, h2⟩, _⟩ := C102_formation hw (by rw [hp]; decide) hf (by norm_num) (cs := []) (by simp) (a := s!!"rb") (b := s!!"stb")
      (sa := barrel) (sb := barrel) (by decide +kernel) (by decide +kernel) uc 1200
    refine ⟨y, h1, ?_⟩
    rwa [show (1200 : Rat) * barrel / barrel / (6 / 5) = 1000 by unfold barrel gallonUS cubicInch; norm_num] at h2
  · obtain ⟨⟨y, h1, h2⟩, _⟩ := C102_reservoir hw (by rw [hp]; decide) (by rw [hf]; norm_num) (cs := []) (by simp) (a := s!!"rb")
      (b := s!!"rem3") (sa := barrel) (sb := 1000) (by decide +kernel) (by decide +kernel) uc 100
    refine ⟨y, h1, ?_⟩
    rwa [show (100 : Rat) * barrel / 1000 = barrel / 10 by ring] at h2

/-! ### where the sizes are not the sizes -/

def offNames : List Str :=
  [s!!"standard cubic meter", stb, s!!"gillUK", s!!"fluid ounce UK", s!!"gallonUK", s!!"quartUK", s!!"pintUK"]

theorem off_check : (labelCv 3 s!!"standard cubic meter" stb == some (.fn (.mul .x (.lit (3144907 / 500000))))) = true ∧
    (labelCv 3 s!!"gillUK" s!!"fluid ounce UK" == some (.fn (.mul .x (.lit 4)))) = true ∧
    (labelCv 3 s!!"gallonUK" s!!"quartUK" == some (.fn (.mul .x (.lit 4)))) = true ∧
    (labelCv 3 s!!"quartUK" s!!"pintUK" == some (.fn (.mul .x (.lit 2)))) = true ∧
    (labelCv 3 s!!"pintUK" s!!"gillUK" == some (.fn (.mul .x (.lit 4)))) = true ∧
    (labelCv 3 s!!"gallonUK" s!!"fluid ounce UK" == some (.fn (.mul .x (.lit 160)))) = true ∧
    (offNames.all fun u => (basicNames s!!"Volume").contains u &&
      !((basicNames s!!"Weight").contains u) && !(isRes u) && islandOf u == islandOf stb) = true := by
  refine ⟨?_, ?_, ?_, ?_, ?_, ?_, ?_⟩ <;> decide +kernel

/-- C102 is no equality, and fails for the UK measures below the gallon: a cubic meter is 6.289814 barrels and not
1000 / 158.987294928; a gallon is 4 quarts, a quart 2 pints, a pint 4 gills and a gill 4 fluid ounces, which makes 128
fluid ounces of a gallon, but a gallon is 160 fluid ounces. -/
theorem C102_gill_fails {w : World} (hw : Started w) (hg : 17 ≤ w.par.maxGenerations) (hφ : w.fvf ≠ some 0) {cs : List Call}
    (hcs : ∀ c ∈ cs, Asks c) (uc : Option Bool) (x : Rat) :
    (convert (some x) (some s!!"standard cubic meter") (some s!!"standard barrel") uc (session cs w)).1 =
      .ok (some (.num (x * (6289814 / 1000000)))) ∧ (6289814 / 1000000 : Rat) ≠ 1000 / barrel ∧
    (convert (some x) (some s!!"gillUK") (some s!!"fluid ounce UK") uc (session cs w)).1 = .ok (some (.num (x * 4))) ∧
    (convert (some x) (some s!!"gallonUK") (some s!!"quartUK") uc (session cs w)).1 = .ok (some (.num (x * 4))) ∧
    (convert (some x) (some s!!"quartUK") (some s!!"pintUK") uc (session cs w)).1 = .ok (some (.num (x * 2))) ∧
    (convert (some x) (some s!!"pintUK") (some s!!"gillUK") uc (session cs w)).1 = .ok (some (.num (x * 4))) ∧
    (convert (some x) (some s!!"gallonUK") (some s!!"fluid ounce UK") uc (session cs w)).1 = .ok (some (.num (x * 160))) := by
  obtain ⟨c1, c2, d1, d2, d3, d4, c3⟩ := off_check
  have hn := hw.shipped.network
  have key : ∀ {a b : Str} {r : Rat}, a ∈ offNames →
      b ∈ offNames → CleanName a → CleanName b → a ≠ b →
      labelCv 3 a b = some (.fn (.mul .x (.lit r))) →
      (convert (some x) (some a) (some b) uc (session cs w)).1 = .ok (some (.num (x * r))) := by
    intro a b r ma mb ca cb hab hcv
    have fl : ∀ {u}, u ∈ offNames → CleanName u →
        Fluid u ∧ isRes u = false ∧ islandOf u = islandOf stb := by
      intro u mu cu
      have := List.all_eq_true.1 c3 u mu
      simp only [Bool.and_eq_true, beq_iff_eq, Bool.not_eq_true', ← Bool.not_eq_true, List.contains_iff_mem] at this
      obtain ⟨⟨⟨h1, h2⟩, h3⟩, h4⟩ := this
      exact ⟨fluid_of h1 h2 cu, by simpa using h3, h4⟩
    obtain ⟨fa, ra, ia⟩ := fl ma ca
    obtain ⟨fb, rb, ib⟩ := fl mb cb
    obtain ⟨⟨y, w', hr⟩, _⟩ := liquid_found hw hg hφ hcs fa fb (ia.trans ib.symm) (Or.inl (ra.trans rb.symm)) uc x
    obtain ⟨hs, h32, h34⟩ := fa.numbers
    obtain ⟨na, nb, rfl, rfl, hd⟩ : DirectName w.net a b (Cv.fn (.mul .x (.lit r))).eval := (hn.at hs hcv).2 rfl
    have halg : w.par.algorithm ≠ .dfs := by
      intro h
      have := hw.algorithm
      rw [h] at this
      exact absurd this (by decide)
    obtain ⟨_, e, hy⟩ := C94_direct hw.fresh halg hcs ca cb (hw.shipped.ordinary ca.2 (builtIn_isName fa.volume) h32 h34)
      (hw.shipped.liquid_noDensity fa fb) hab (getNode_of_mem hn.distinct (Net.linked_src ⟨_, hd⟩))
      (getNode_of_mem hn.distinct (Net.linked_dst hn.wf ⟨_, hd⟩)) hd hr
    cases e
    simp only [Cv.eval, CExp.eval, bind, Except.bind, Except.ok.injEq] at hy
    rw [hr, hy]
  refine ⟨?_, ?_, ?_, ?_, ?_, ?_, ?_⟩
  · have := key (r := 3144907 / 500000) (by decide) (by decide) (Demo.cleanName_of (by decide)) (Demo.cleanName_of (by decide)) (by decide) (beq_iff_eq.1 c1)
    rw [this]
    norm_num
  · unfold barrel gallonUS cubicInch
    norm_num
  · exact key (by decide) (by decide) (Demo.cleanName_of (by decide)) (Demo.cleanName_of (by decide)) (by decide) (beq_iff_eq.1 c2)
  · exact key (by decide) (by decide) (Demo.cleanName_of (by decide)) (Demo.cleanName_of (by decide)) (by decide) (beq_iff_eq.1 d1)
  · exact key (by decide) (by decide) (Demo.cleanName_of (by decide)) (Demo.cleanName_of (by decide)) (by decide) (beq_iff_eq.1 d2)
  · exact key (by decide) (by decide) (Demo.cleanName_of (by decide)) (Demo.cleanName_of (by decide)) (by decide) (beq_iff_eq.1 d3)
  · exact key (by decide) (by decide) (Demo.cleanName_of (by decide)) (Demo.cleanName_of (by decide)) (by decide) (beq_iff_eq.1 d4)

end Unyts

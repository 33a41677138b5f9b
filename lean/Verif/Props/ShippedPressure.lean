import Verif.Lemmas.ShippedPressure
import Verif.Props.Direct
import Verif.Props.ShippedScales
import Verif.Props.ShippedVolume
import Mathlib.Algebra.Order.Ring.Abs

/- C94 for the shipped library; C95: absolute pressures convert by their sizes. -/
namespace Unyts
open Spec
set_option maxRecDepth 1000000

/-- C94 after `import unyts`: an ordinary quantity converts by as few direct conversions as possible, with each of the
searches but DFS. -/
theorem C94_shipped {w : World} (hw : Started w) {cs : List Call} (hcs : ∀ c ∈ cs, Asks c) {q a b : Str}
    (ha : BuiltIn q a) (hq : q ∉ specialQuantities) (ca : CleanName a) (cb : CleanName b) (hab : a ≠ b)
    (hr : Reach (LinkedName w.net) a b) (uc : Option Bool) (x : Rat) :
    ∃ na nb p f y, na.name = a ∧ nb.name = b ∧ IsPath (Linked w.net) na nb p ∧
      (∀ p', Chain (Linked w.net) na nb p' → p.length ≤ p'.length) ∧ Along w.net p f ∧ f w.fvf x = .ok y ∧
      (convert (some x) (some a) (some b) uc (session cs w)).1 = .ok (some (.num y)) := by
  obtain ⟨hs, h32, h34⟩ := special_label ha hq
  have hbase := base_session hcs hw.fresh.wf
  have hn := hw.shipped.network
  have hd : ¬ DensityPair (session cs w).dic a b := by rw [hbase.dic]; exact hw.shipped.noDensity ca.2 hs.1
  obtain ⟨na, nb, g1, g2, rfl, rfl, hl⟩ := reach_nodes hw.fresh.wf hn.distinct hr hab
  have hsb : Smooth nb.name := by
    obtain ⟨p, hp⟩ := hr
    unfold Smooth; rw [← hn.reach_label hp]; exact hs
  have sab : SmoothNames na.name nb.name := ⟨⟨ca.2, hs⟩, cb.2, hsb⟩
  obtain ⟨p, f, hp, hal, hsh, hres⟩ := convert_finds_straight
    (findsInv_session hcs (hw.shipped.finds hw.fresh hw.algorithm hw.edges hw.generations))
    (straight_session hcs (hw.shipped.straight hw.fresh hw.algorithm hw.edges hw.generations)) ca cb sab hab
    (by rw [hbase.dic]; exact hw.shipped.ordinary ca.2 (builtIn_isName ha) h32 h34) hd
    (by rw [hbase.net]; exact g1) (by rw [hbase.net]; exact g2) (by rw [hbase.net]; exact hl) uc (some x)
  rw [hbase.net] at hp hal
  obtain ⟨e1, e2⟩ := isPath_ends hp
  obtain ⟨y, hy⟩ := along_totalOn (hn.totalOn w.fvf) hal e1 hs x
  refine ⟨na, nb, p, f, y, rfl, rfl, hp, fun p' hp' => hsh sab na nb p' e1 e2 hp', hal, hy, ?_⟩
  rw [hres, hbase.fvf]
  simp [ansRes, hy, Except.map, finish]

/-! ### C95 -/

/-- what `convert` answers between pressures that are not gauge pressures -/
theorem pressure_answer {w : World} (hw : Started w) (hφ : w.fvf ≠ some 0) {cs : List Call} (hcs : ∀ c ∈ cs, Asks c) {a b : Str}
    (ha : BuiltIn s!!"Pressure" a) (hb : BuiltIn s!!"Pressure" b) (ga : a ∉ gaugeNames) (gb : b ∉ gaugeNames)
    (ca : CleanName a) (cb : CleanName b) (uc : Option Bool) (x : Rat) :
    ∃ y, (convert (some x) (some a) (some b) uc (session cs w)).1 = .ok (some (.num y)) ∧
      shippedReading (fvfOr1 w.fvf) b y = shippedReading (fvfOr1 w.fvf) a x := by
  have hn := hw.shipped.network
  have hr := C87_connected_partial hn (by decide) ha hb
  by_cases hab : a = b
  · subst hab
    obtain ⟨hs, h32, h34⟩ := special_label ha (by decide)
    have hbase := base_session hcs hw.fresh.wf
    obtain ⟨c, hc⟩ := List.exists_mem_of_ne_nil _ (builtIn_ne_nil ha h32)
    refine ⟨x, C11_self _ (hw.reachable hcs) a ca.1 ⟨c, hc, ?_, ?_⟩ (by rw [hbase.dic]; exact hw.shipped.noDensity ca.2 hs.1) uc x, rfl⟩
    · rintro rfl; exact ca.2.2 hc
    · rintro rfl; exact ca.2.1 hc
  · obtain ⟨na, nb, p, f, y, rfl, rfl, hp, hmin, hal, hy, hres⟩ := C94_shipped hw hcs ha (by decide) ca cb hab hr uc x
    obtain ⟨e1, e2⟩ := isPath_ends hp
    have hsh : Shortest w.net p := by
      intro u v q h1 h2 hq
      rw [e1] at h1
      rw [e2] at h2
      cases h1
      cases h2
      exact hmin q hq
    have hin := hn.pressure_path hp hsh ga gb
    have hlab : labelOf na.name = some 6 := (builtIn_numbers ha).2.2.2.2.1 rfl
    refine ⟨y, hres, ?_⟩
    exact hn.along (along_names hal) (pressure_avoids hn hp.1 hlab hin) hφ hy (by rw [List.head?_map, e1]; rfl)
      (by rw [List.getLast?_map, e2]; rfl)

/-- C95, round trip: pressures other than gauge pressures convert there and back to the same number, whatever was asked
before. -/
theorem C95_there_and_back {w : World} (hw : Started w) (hφ : w.fvf ≠ some 0) {cs ds : List Call} (hcs : ∀ c ∈ cs, Asks c)
    (hds : ∀ c ∈ ds, Asks c) {a b : Str} (ha : BuiltIn s!!"Pressure" a) (hb : BuiltIn s!!"Pressure" b) (ga : a ∉ gaugeNames)
    (gb : b ∉ gaugeNames) (ca : CleanName a) (cb : CleanName b) (uc uc' : Option Bool) (x : Rat) :
    ∃ y, (convert (some x) (some a) (some b) uc (session cs w)).1 = .ok (some (.num y)) ∧
      (convert (some y) (some b) (some a) uc' (session ds w)).1 = .ok (some (.num x)) := by
  obtain ⟨y, h1, k1⟩ := pressure_answer hw hφ hcs ha hb ga gb ca cb uc x
  obtain ⟨z, h2, k2⟩ := pressure_answer hw hφ hds hb ha gb ga cb ca uc' y
  rw [shippedReading_inj (fvfOr1_ne hφ) a (k2.trans k1)] at h2
  exact ⟨y, h1, h2⟩

/-- C95: through a third pressure, the same number. -/
theorem C95_through {w : World} (hw : Started w) (hφ : w.fvf ≠ some 0) {cs ds es : List Call} (hcs : ∀ c ∈ cs, Asks c)
    (hds : ∀ c ∈ ds, Asks c) (hes : ∀ c ∈ es, Asks c) {a b c : Str} (ha : BuiltIn s!!"Pressure" a) (hb : BuiltIn s!!"Pressure" b)
    (hc : BuiltIn s!!"Pressure" c) (ga : a ∉ gaugeNames) (gb : b ∉ gaugeNames) (gc : c ∉ gaugeNames) (ca : CleanName a)
    (cb : CleanName b) (cc : CleanName c) (uc uc' uc'' : Option Bool) (x : Rat) :
    ∃ y z, (convert (some x) (some a) (some b) uc (session cs w)).1 = .ok (some (.num y)) ∧
      (convert (some y) (some b) (some c) uc' (session ds w)).1 = .ok (some (.num z)) ∧
      (convert (some x) (some a) (some c) uc'' (session es w)).1 = .ok (some (.num z)) := by
  obtain ⟨y, h1, k1⟩ := pressure_answer hw hφ hcs ha hb ga gb ca cb uc x
  obtain ⟨z, h2, k2⟩ := pressure_answer hw hφ hds hb hc gb gc cb cc uc' y
  obtain ⟨z', h3, k3⟩ := pressure_answer hw hφ hes ha hc ga gc ca cc uc'' x
  rw [shippedReading_inj (fvfOr1_ne hφ) c (k3.trans (k2.trans k1).symm)] at h3
  exact ⟨y, z, h1, h2, h3⟩

theorem pressure_sizes_check : (fun l g => pressureSizes.all fun e =>
    decide (readingOf e.1 = some ⟨e.2, 0, 0, false⟩) && l.contains e.1 && !(g.contains e.1) && decide (e.2 ≠ 0))
      (basicNames s!!"Pressure") gaugeNames = true := by decide +kernel

theorem pressure_clean : ∀ e ∈ pressureSizes, '(' ∉ e.1 ∧ ')' ∉ e.1 ∧
    (∀ c ∈ e.1.head?.toList ++ e.1.getLast?.toList, c ∉ [' ', '"', '\'']) ∧ e.1 ≠ s!!"Empty" ∧ '/' ∉ e.1 ∧ '*' ∉ e.1 := by
  decide +kernel

theorem pressure_size : ∀ e ∈ pressureSizes, readingOf e.1 = some ⟨e.2, 0, 0, false⟩ ∧
    BuiltIn s!!"Pressure" e.1 ∧ e.1 ∉ gaugeNames ∧ e.2 ≠ 0 ∧ CleanName e.1 := by
  intro e he
  have := List.all_eq_true.1 pressure_sizes_check e he
  simp only [Bool.and_eq_true, decide_eq_true_eq, Bool.not_eq_true', ← Bool.not_eq_true, List.contains_iff_mem] at this
  obtain ⟨⟨⟨h1, h2⟩, h3⟩, h5⟩ := this
  exact ⟨h1, builtIn_mem (List.contains_iff_mem.2 h2) (by decide), h3, h5, Demo.cleanName_of (pressure_clean e he)⟩

/-- C95: these pressures convert by their sizes, exactly, whatever was asked before. -/
theorem C95_exact {w : World} (hw : Started w) (hφ : w.fvf ≠ some 0) {cs : List Call} (hcs : ∀ c ∈ cs, Asks c) {a b : Str}
    {sa sb : Rat} (ma : (a, sa) ∈ pressureSizes) (mb : (b, sb) ∈ pressureSizes) (uc : Option Bool) (x : Rat) :
    (convert (some x) (some a) (some b) uc (session cs w)).1 = .ok (some (.num (x * sa / sb))) := by
  obtain ⟨r1, b1, g1, _, c1⟩ := pressure_size _ ma
  obtain ⟨r2, b2, g2, nz, c2⟩ := pressure_size _ mb
  obtain ⟨y, h, e⟩ := pressure_answer hw hφ hcs b1 b2 g1 g2 c1 c2 uc x
  simp only [shippedReading, r1, r2, Reading.at, Bool.false_eq_true, if_false, zpow_zero, mul_one, add_zero] at e
  have : y = x * sa / sb := eq_div_of_mul_eq nz (by rw [mul_comm, e, mul_comm])
  rw [h, this]

/-- the size of a psi in the library, in pascals -/
def psiHere : Rat := 5000000000000000 / 725188688661

theorem psi_check : (fun l g => psiSizes.all fun e =>
    decide (readingOf e.1 = some ⟨psiHere, 0, 0, false⟩) && l.contains e.1 && !(g.contains e.1) && decide (e.2 = psiSize))
      (basicNames s!!"Pressure") gaugeNames = true := by decide +kernel

theorem psi_clean : ∀ e ∈ psiSizes, '(' ∉ e.1 ∧ ')' ∉ e.1 ∧
    (∀ c ∈ e.1.head?.toList ++ e.1.getLast?.toList, c ∉ [' ', '"', '\'']) ∧ e.1 ≠ s!!"Empty" ∧ '/' ∉ e.1 ∧ '*' ∉ e.1 := by
  decide +kernel

/-- pressures in pascals, bars and psi: the library has their sizes, nearly -/
theorem pressure_near : ∀ e ∈ pressureSizes ++ psiSizes, BuiltIn s!!"Pressure" e.1 ∧ e.1 ∉ gaugeNames ∧ CleanName e.1 ∧
    ∃ t E, readingOf e.1 = some ⟨t, 0, 0, false⟩ ∧ t = e.2 * E ∧ t ≠ 0 ∧ e.2 ≠ 0 ∧
      (1 - 1 / 30000000000 ≤ E ∧ E ≤ 1) := by
  intro e he
  rcases List.mem_append.1 he with he | he
  · obtain ⟨h1, h2, h3, h4, h5⟩ := pressure_size e he
    exact ⟨h2, h3, h5, e.2, 1, h1, (mul_one _).symm, h4, h4, by norm_num, le_refl _⟩
  · have := List.all_eq_true.1 psi_check e he
    simp only [Bool.and_eq_true, decide_eq_true_eq, Bool.not_eq_true', ← Bool.not_eq_true, List.contains_iff_mem] at this
    obtain ⟨⟨⟨h1, h2⟩, h3⟩, h5⟩ := this
    have hne : psiSize ≠ 0 := by unfold psiSize; norm_num
    refine ⟨builtIn_mem (List.contains_iff_mem.2 h2) (by decide), h3, Demo.cleanName_of (psi_clean e he), psiHere, psiHere / psiSize, h1,
      ?_, by unfold psiHere; norm_num, by rw [h5]; exact hne, ?_⟩
    · rw [h5]; field_simp
    · unfold psiHere psiSize; norm_num

/-- pressures in pascals, bars and psi convert by their sizes to one part in ten thousand millions -/
theorem pressure_factor {w : World} (hw : Started w) (hφ : w.fvf ≠ some 0) {cs : List Call} (hcs : ∀ c ∈ cs, Asks c) {a b : Str}
    {sa sb : Rat} (ma : (a, sa) ∈ pressureSizes ++ psiSizes) (mb : (b, sb) ∈ pressureSizes ++ psiSizes) (uc : Option Bool) (x : Rat) :
    ∃ y E, (convert (some x) (some a) (some b) uc (session cs w)).1 = .ok (some (.num y)) ∧ abs (E - 1) ≤ 1 / 10000000000 ∧
      y = x * (E * (sa / sb)) := by
  obtain ⟨b1, g1, c1, t, D, r1, rfl, _, _, d1, d2⟩ := pressure_near _ ma
  obtain ⟨b2, g2, c2, t, E, r2, rfl, nz, n2, e1, e2⟩ := pressure_near _ mb
  obtain ⟨y, h, e⟩ := pressure_answer hw hφ hcs b1 b2 g1 g2 c1 c2 uc x
  simp only [shippedReading, r1, r2, Reading.at, Bool.false_eq_true, if_false, zpow_zero, mul_one, add_zero] at e
  have hE : E ≠ 0 := by intro h; rw [h] at e1; norm_num at e1
  have hE0 : 0 < E := lt_of_lt_of_le (by norm_num) e1
  refine ⟨y, D / E, h, ?_, ?_⟩
  · rw [abs_le]
    constructor
    · rw [le_sub_iff_add_le, le_div_iff₀ hE0]; nlinarith
    · rw [sub_le_iff_le_add, div_le_iff₀ hE0]; nlinarith
  · have : y = x * (sa * D) / (sb * E) := eq_div_of_mul_eq nz (by rw [mul_comm, e, mul_comm])
    rw [this]
    field_simp

/-- C95 with psi: pressures in pascals, bars and psi convert by their sizes to one part in ten thousand millions, whatever was asked
before. -/
theorem C95_psi {w : World} (hw : Started w) (hφ : w.fvf ≠ some 0) {cs : List Call} (hcs : ∀ c ∈ cs, Asks c) {a b : Str}
    {sa sb : Rat} (ma : (a, sa) ∈ pressureSizes ++ psiSizes) (mb : (b, sb) ∈ pressureSizes ++ psiSizes) (uc : Option Bool) (x : Rat) :
    ∃ y, (convert (some x) (some a) (some b) uc (session cs w)).1 = .ok (some (.num y)) ∧
      abs (y - x * sa / sb) ≤ abs (x * sa / sb) / 10000000000 := by
  obtain ⟨y, E, h1, h2, rfl⟩ := pressure_factor hw hφ hcs ma mb uc x
  refine ⟨_, h1, ?_⟩
  rw [show x * (E * (sa / sb)) - x * sa / sb = (E - 1) * (x * sa / sb) by ring, abs_mul]
  calc _ ≤ 1 / 10000000000 * abs (x * sa / sb) := mul_le_mul_of_nonneg_right h2 (abs_nonneg _)
    _ = _ := by ring

/-- 30 psi are 206.8427 kPa -/
example : ∃ w, Started w ∧ ∃ y, (convert (some 30) (some s!!"psi") (some s!!"kPa") none w).1 = .ok (some (.num y)) ∧
    2068427 / 10000 ≤ y ∧ y ≤ 2068428 / 10000 := by
  obtain ⟨w, hw, hp, hf⟩ := started_ex
  obtain ⟨y, h1, h2⟩ := C95_psi hw (by rw [hf]; decide) (cs := []) (by simp) (a := s!!"psi") (b := s!!"kPa") (sa := psiSize) (sb := 1000)
    (by decide +kernel) (by decide +kernel) none 30
  refine ⟨w, hw, y, h1, ?_⟩
  rw [abs_le] at h2
  have : |30 * psiSize / 1000| = 30 * psiSize / 1000 := abs_of_pos (by unfold psiSize; norm_num)
  rw [this] at h2
  unfold psiSize at h2
  constructor <;> norm_num at h2 ⊢ <;> linarith [h2.1, h2.2]

example : ∃ w, Started w ∧ ∀ uc, numOf (convert (some 2) (some s!!"atm") (some s!!"mbar") uc
    (session [.convert (some 1) (some s!!"psig") (some s!!"bar") none] w)).1 = some (20265 / 10) := by
  obtain ⟨w, hw, hp, hf⟩ := started_ex
  refine ⟨w, hw, fun uc => ?_⟩
  rw [C95_exact hw (by rw [hf]; decide) (by simp [Asks]) (a := s!!"atm") (b := s!!"mbar") (sa := 101325) (sb := 100)
    (by decide +kernel) (by decide +kernel) uc 2]
  simp only [numOf]
  norm_num

example : ∃ w, Started w ∧ ∃ y, (convert (some 30) (some s!!"psi") (some s!!"kPa") none w).1 = .ok (some (.num y)) ∧
    (convert (some y) (some s!!"kPa") (some s!!"psi") none w).1 = .ok (some (.num 30)) := by
  obtain ⟨w, hw, hp, hf⟩ := started_ex
  exact ⟨w, hw, C95_there_and_back hw (by rw [hf]; decide) (cs := []) (ds := []) (by simp) (by simp)
    (builtIn_mem (by decide +kernel) (by decide)) (builtIn_mem (by decide +kernel) (by decide)) (by decide +kernel) (by decide +kernel)
    (Demo.cleanName_of (by decide)) (Demo.cleanName_of (by decide)) none none 30⟩

/-! ### where the pressures go wrong -/

/-- the names next to 'bars' and to 'bara' in the network -/
def barsNext : List Str := [s!!"bar gauge", s!!"BARS"]
def baraNext : List Str := [s!!"absolute bar", s!!"BARA"] ++ shippedPrefixes.si.map (fun e => e.1 ++ s!!"bara")

def nextOk (d : Str × Str) : Bool :=
  (d.1 != s!!"bars" || barsNext.contains d.2) && (d.2 != s!!"bars" || barsNext.contains d.1) &&
  (d.1 != s!!"bara" || baraNext.contains d.2) && (d.2 != s!!"bara" || baraNext.contains d.1) &&
  (!barsNext.contains d.1 || !baraNext.contains d.2 || d == (s!!"bar gauge", s!!"absolute bar")) &&
  (!barsNext.contains d.2 || !baraNext.contains d.1 || d == (s!!"absolute bar", s!!"bar gauge"))

theorem next_kinds : ((labelDecls 6).all fun d => nextOk (d.1, d.2.1)) = true := by decide +kernel

theorem next_explicit : (explicitConversions.all fun d => nextOk (d.1, d.2.1)) = true := by decide +kernel

theorem next_label : ((s!!"bars" :: s!!"bara" :: barsNext ++ baraNext).all fun s => labelOf s == some 6) = true := by decide +kernel

theorem next_decl {a b : Str} {c : Cv} (h : (a, b, c) ∈ shipped) : nextOk (a, b) = true := by
  by_cases hl : labelOf a = some 6
  · rcases decl_of_label h hl with h | ⟨e, h, _⟩
    · exact List.all_eq_true.1 next_kinds _ h
    · exact List.all_eq_true.1 next_explicit _ h
  · have hb : labelOf b ≠ some 6 := by rw [← decl_label h]; exact hl
    have no : ∀ s, labelOf s ≠ some 6 → s ≠ s!!"bars" ∧ s ≠ s!!"bara" ∧ barsNext.contains s = false ∧ baraNext.contains s = false := by
      intro s hs
      have key : s ∉ (s!!"bars" :: s!!"bara" :: barsNext ++ baraNext) := fun hm =>
        hs (by simpa using List.all_eq_true.1 next_label s hm)
      simp only [List.mem_append, List.mem_cons, not_or] at key
      refine ⟨key.1.1, key.1.2.1, ?_, ?_⟩
      · rw [← Bool.not_eq_true, List.contains_iff_mem]; exact key.1.2.2
      · rw [← Bool.not_eq_true, List.contains_iff_mem]; exact key.2
    obtain ⟨a1, a2, a3, a4⟩ := no a hl
    obtain ⟨b1, b2, b3, b4⟩ := no b hb
    simp only [nextOk, a3, b3]
    simp [a1, a2, b1, b2]

theorem next_link {n : Net} (hn : ShippedNetwork n) {a b : Str} (h : LinkedName n a b) :
    (a = s!!"bars" → b ∈ barsNext) ∧ (b = s!!"bara" → a ∈ baraNext) ∧
      (a ∈ barsNext → b ∈ baraNext → a = s!!"bar gauge" ∧ b = s!!"absolute bar") := by
  rcases hn.linked.1 h with ⟨c, hc⟩ | ⟨_, _, c, hc⟩ <;>
  · have := next_decl hc
    simp only [nextOk, Bool.and_eq_true, Bool.or_eq_true, bne_iff_ne, List.contains_iff_mem, Bool.not_eq_true', ← Bool.not_eq_true,
      beq_iff_eq, Prod.mk.injEq] at this
    obtain ⟨⟨⟨⟨⟨h1, h2⟩, h3⟩, h4⟩, h5⟩, h6⟩ := this
    refine ⟨?_, ?_, ?_⟩
    · intro e; subst e; simp_all
    · intro e; subst e; simp_all
    · intro e1 e2
      first
      | exact (h5.resolve_left (by simp [e1, e2]))
      | exact (h6.resolve_left (by simp [e1, e2])).symm

theorem between_bars : (barsNext.all fun y => !baraNext.contains y && y != s!!"bara") = true ∧
    labelCv 6 s!!"bars" s!!"bar gauge" = some (.fn .x) ∧
    labelCv 6 s!!"bar gauge" s!!"absolute bar" = some (.fn (.add .x (.lit (101325 / 100000)))) ∧
    labelCv 6 s!!"absolute bar" s!!"bara" = some (.fn .x) := by
  decide +kernel

theorem bars_labels : labelOf s!!"bars" = some 6 ∧ labelOf s!!"bar gauge" = some 6 ∧ labelOf s!!"absolute bar" = some 6 := by decide +kernel

theorem bars_path {n : Net} (hn : ShippedNetwork n) {p : List Str} {f : Fn} (hal : AlongNames n p f)
    (h1 : p.head? = some s!!"bars") (h2 : p.getLast? = some s!!"bara") (hlen : p.length ≤ 4) (fvf : Option Rat) (x : Rat) :
    f fvf x = .ok (x + 101325 / 100000) := by
  obtain ⟨b2, c1, c2, c3⟩ := between_bars
  obtain ⟨g1, g2, g3⟩ := bars_labels
  cases hal with
  | single => simp only [List.head?_cons, List.getLast?_singleton] at h1 h2; rw [h1] at h2; exact absurd h2 (by decide)
  | @step a y p1 f1 k1 d1 al1 =>
    simp only [List.head?_cons, Option.some.injEq] at h1
    subst h1
    have hy := (next_link hn ⟨_, d1⟩).1 rfl
    have hy' := List.all_eq_true.1 b2 y hy
    simp only [Bool.and_eq_true, Bool.not_eq_true', ← Bool.not_eq_true, List.contains_iff_mem, bne_iff_ne] at hy'
    generalize hp1 : y :: p1 = l1 at al1
    cases al1 with
    | single =>
      cases hp1
      rw [List.getLast?_cons_cons] at h2
      simp only [List.getLast?_singleton, Option.some.injEq] at h2
      exact absurd h2 hy'.2
    | @step y' z p2 f2 k2 d2 al2 =>
      cases hp1
      rw [List.getLast?_cons_cons, List.getLast?_cons_cons] at h2
      generalize hp2 : z :: p2 = l2 at al2
      cases al2 with
      | single =>
        cases hp2
        simp only [List.getLast?_singleton, Option.some.injEq] at h2
        exact absurd ((next_link hn ⟨_, d2⟩).2.1 h2) hy'.1
      | @step z' t p3 f3 k3 d3 al3 =>
        cases hp2
        rw [List.getLast?_cons_cons] at h2
        generalize hp3 : t :: p3 = l3 at al3
        cases al3 with
        | single =>
          cases hp3
          simp only [List.getLast?_singleton, Option.some.injEq] at h2
          subst h2
          have hz := (next_link hn ⟨_, d3⟩).2.1 rfl
          obtain ⟨rfl, rfl⟩ := (next_link hn ⟨_, d2⟩).2.2 hy hz
          rw [(hn.at g1 c1).1 d1, (hn.at g2 c2).1 d2, (hn.at g3 c3).1 d3]
          rfl
        | step => cases hp3; simp at hlen

/-- C95 fails between gauge and absolute pressures, and a psi is not quite a psi: after `import unyts` one 'bars' is
2.01325 absolute bar, though one 'bar' is one absolute bar; and a bar is 14.50377377322 psi, which is not 14.503773773022
(a digit is missing in database.py:478). -/
theorem C95_bars_fails {w : World} (hw : Started w) (hφ : w.fvf ≠ some 0) {cs : List Call} (hcs : ∀ c ∈ cs, Asks c)
    (uc : Option Bool) :
    numOf (convert (some 1) (some s!!"bars") (some s!!"bara") uc (session cs w)).1 = some (201325 / 100000) ∧
    numOf (convert (some 1) (some s!!"bar") (some s!!"bara") uc (session cs w)).1 = some 1 ∧
    numOf (convert (some 1) (some s!!"bar") (some s!!"psi") uc (session cs w)).1 = some (1450377377322 / 100000000000) ∧
    (1450377377322 / 100000000000 : Rat) ≠ 100000 / psiSize := by
  have hn := hw.shipped.network
  have cl : ∀ s ∈ [s!!"bars", s!!"bara", s!!"bar", s!!"psi"], CleanName s := by
    intro s hs
    simp only [List.mem_cons, List.not_mem_nil, or_false] at hs
    rcases hs with rfl | rfl | rfl | rfl <;> exact Demo.cleanName_of (by decide)
  have bl : ∀ s ∈ [s!!"bars", s!!"bara", s!!"bar", s!!"psi"], BuiltIn s!!"Pressure" s := by
    have : (fun l => [s!!"bars", s!!"bara", s!!"bar", s!!"psi"].all fun s => l.contains s) (basicNames s!!"Pressure") = true := by
      decide +kernel
    intro s hs
    exact builtIn_mem (List.all_eq_true.1 this s hs) (by decide)
  refine ⟨?_, ?_, ?_, by unfold psiSize; norm_num⟩
  · have hr := C87_connected_partial hn (by decide) (bl s!!"bars" (by simp)) (bl s!!"bara" (by simp))
    obtain ⟨na, nb, p, f, y, e1, e2, hp, hmin, hal, hy, hres⟩ := C94_shipped hw hcs (bl s!!"bars" (by simp)) (by decide)
      (cl _ (by simp)) (cl _ (by simp)) (by decide) hr uc 1
    obtain ⟨i1, i2⟩ := isPath_ends hp
    obtain ⟨_, c1, c2, c3⟩ := between_bars
    obtain ⟨g1, g2, g3⟩ := bars_labels
    have l1 : LinkedName w.net s!!"bars" s!!"bar gauge" := hn.linked_at g1 (by rw [c1]; rfl)
    have l2 : LinkedName w.net s!!"bar gauge" s!!"absolute bar" := hn.linked_at g2 (by rw [c2]; rfl)
    have l3 : LinkedName w.net s!!"absolute bar" s!!"bara" := hn.linked_at g3 (by rw [c3]; rfl)
    obtain ⟨⟨u1, m1, k1⟩, u2, m2, k2⟩ := node_of_link hn.wf l1
    obtain ⟨_, u3, m3, k3⟩ := node_of_link hn.wf l2
    obtain ⟨_, u4, m4, k4⟩ := node_of_link hn.wf l3
    have ha : na ∈ w.net.nodes := by
      have := hp.1
      cases this with
      | single => rw [e1] at e2; exact absurd e2 (by decide)
      | step e _ => exact Net.linked_src e
    have hb : nb ∈ w.net.nodes := Net.reach_mem_nodes hn.wf (fun _ _ h => h) ha ⟨p, hp.1⟩
    have j1 : u1 = na := hn.distinct _ m1 _ ha (k1.trans e1.symm)
    have j4 : u4 = nb := hn.distinct _ m4 _ hb (k4.trans e2.symm)
    subst j1
    subst j4
    have hlen := hmin [u1, u2, u3, u4] (.step (linked_of_name hn.wf hn.distinct m1 m2 (by rw [k1, k2]; exact l1))
      (.step (linked_of_name hn.wf hn.distinct m2 m3 (by rw [k2, k3]; exact l2))
      (.step (linked_of_name hn.wf hn.distinct m3 m4 (by rw [k3, k4]; exact l3)) (.single u4))))
    have := bars_path hn (along_names hal) (by rw [List.head?_map, i1, Option.map_some, e1])
      (by rw [List.getLast?_map, i2, Option.map_some, e2]) (by simpa using hlen) w.fvf 1
    rw [this] at hy
    cases hy
    rw [hres]
    simp only [numOf]
    norm_num
  · rw [C95_exact hw hφ hcs (a := s!!"bar") (b := s!!"bara") (sa := 100000) (sb := 100000) (by decide +kernel) (by decide +kernel) uc 1]
    simp only [numOf]
    norm_num
  · obtain ⟨y, h, e⟩ := pressure_answer hw hφ hcs (bl s!!"bar" (by simp)) (bl s!!"psi" (by simp)) (by decide +kernel)
      (by decide +kernel) (cl _ (by simp)) (cl _ (by simp)) uc 1
    have r1 : readingOf s!!"bar" = some ⟨100000, 0, 0, false⟩ := by decide +kernel
    have r2 : readingOf s!!"psi" = some ⟨5000000000000000 / 725188688661, 0, 0, false⟩ := by decide +kernel
    simp only [shippedReading, r1, r2, Reading.at, Bool.false_eq_true, if_false, zpow_zero, mul_one, add_zero] at e
    rw [h]
    simp only [numOf, Option.some.injEq]
    linarith

end Unyts

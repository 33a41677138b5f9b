import Verif.Props.SetConversion
import Verif.Props.Loader
import Verif.Lemmas.UnitClass

/-
C64: `convert` on the network that ships with the library.
-/
namespace Unyts
open Spec
set_option maxRecDepth 1000000

theorem soundKind_label {k a : Str} (h : UnitOfKind k a) (hk : SoundKind k) :
    labelOf a ≠ some 3 ∧ labelOf a ≠ some 6 := by
  obtain ⟨q, h1, h2⟩ := unit_label h
  have : ∀ x ∈ kindLabels, x.1 ∉ unsoundKinds → x.2 ≠ 3 ∧ x.2 ≠ 6 := by decide +kernel
  have := this _ h2 hk
  rw [h1]
  simpa using this

/-- the part of the shipped network without pressures, volumes and weights is consistent -/
theorem Spec.ShippedNetwork.consistent {n : Net} (h : ShippedNetwork n) {fvf : Option Rat} (hφ : fvf ≠ some 0) :
    ConsistentOn n fvf (fun u => labelOf u.name ≠ some 3 ∧ labelOf u.name ≠ some 6)
      (fun u => shippedReading (fvfOr1 fvf) u.name) where
  stays := by
    intro a b f ha hd
    rw [← h.label ⟨f, a, b, rfl, rfl, hd⟩]
    exact ha
  inj := by
    intro u x y _ e
    exact shippedReading_inj (fvfOr1_ne hφ) u.name e
  edge := by
    intro a b f x y ha hd hf
    refine h.reads ⟨a, b, rfl, rfl, hd⟩ (fun hm => ?_) hφ hf
    rcases fault_label _ hm with hp | hp
    · have : ∀ p ∈ pressureFaults, labelOf p.1 = some 6 := by decide +kernel
      exact ha.2 (this _ hp)
    · exact ha.1 hp

theorem shipped_convert {w : World} (hw : Reachable w) (hn : ShippedNetwork w.net) (hφ : w.fvf ≠ some 0) {cs : List Call}
    (hcs : ∀ c ∈ cs, Asks c) {k a b : Str} (ka : UnitOfKind k a) (sk : SoundKind k) (ha : CleanName a) (hb : CleanName b)
    (oa : Ordinary w.dic a) (hd : ¬ DensityPair w.dic a b) {uc : Option Bool} {x : Rat} {c : Conv} {w' : World}
    (hr : convert (some x) (some a) (some b) uc (session cs w) = (.ok (some c), w')) :
    ∃ y, c = .num y ∧ shippedReading (fvfOr1 w.fvf) b y = shippedReading (fvfOr1 w.fvf) a x := by
  have hs := sound_of_reachable hw
  have hbase := base_session hcs hs.1.wf
  have hk : ∀ c ∈ cs, KeepsAmple c := by intro c hc; have := hcs c hc; cases c <;> trivial
  obtain ⟨y, hy, e⟩ := convert_reads_on (soundAmple_session cs hk hs)
    (by rw [hbase.net, hbase.fvf]; exact hn.consistent hφ) ha hb (by rw [hbase.dic]; exact oa) (by rw [hbase.dic]; exact hd)
    (by intro na hna; rw [(getNode_mem hna).2]; exact soundKind_label ka sk) hr
  refine ⟨y, hy, ?_⟩
  rcases e with ⟨rfl, rfl⟩ | ⟨na, nb, h1, h2, h3⟩
  · rfl
  · rw [(getNode_mem h1).2, (getNode_mem h2).2] at h3
    exact h3

/-! ## C64 -/

/-- C64, round trip: with the built-in units, in any state a session leaves and after any further conversions, the
number converted from `a` to `b`, converted back, is the number one started with. -/
theorem C64_round_trip_partial {w : World} (hw : Reachable w) (hn : ShippedNetwork w.net) (hφ : w.fvf ≠ some 0)
    {k l a b : Str} (ka : UnitOfKind k a) (sk : SoundKind k) (lb : UnitOfKind l b) (sl : SoundKind l)
    (ha : CleanName a) (hb : CleanName b) (oa : Ordinary w.dic a) (ob : Ordinary w.dic b) (hd : ¬ DensityPair w.dic a b)
    {cs ds : List Call} (hcs : ∀ c ∈ cs, Asks c) (hds : ∀ c ∈ ds, Asks c) {uc uc' : Option Bool} {x y : Rat} {c : Conv}
    {w1 w2 : World} (r1 : convert (some x) (some a) (some b) uc (session cs w) = (.ok (some (.num y)), w1))
    (r2 : convert (some y) (some b) (some a) uc' (session ds w) = (.ok (some c), w2)) : c = .num x := by
  obtain ⟨_, hy, e1⟩ := shipped_convert hw hn hφ hcs ka sk ha hb oa hd r1
  cases hy
  obtain ⟨z, rfl, e2⟩ := shipped_convert hw hn hφ hds lb sl hb ha ob (fun ⟨u1, u2, h⟩ => hd ⟨u2, u1, h.symm⟩) r2
  rw [shippedReading_inj (fvfOr1_ne hφ) a (e2.trans e1)]

/-- C64, transitivity: converting from `a` to `b` and the answer on to `c` gives the number converting from `a` to `c`
gives, whatever else was converted before, between or after. -/
theorem C64_transitive_partial {w : World} (hw : Reachable w) (hn : ShippedNetwork w.net) (hφ : w.fvf ≠ some 0)
    {k l a b c : Str} (ka : UnitOfKind k a) (sk : SoundKind k) (lb : UnitOfKind l b) (sl : SoundKind l)
    (ha : CleanName a) (hb : CleanName b) (hc : CleanName c) (oa : Ordinary w.dic a) (ob : Ordinary w.dic b)
    (dab : ¬ DensityPair w.dic a b) (dbc : ¬ DensityPair w.dic b c) (dac : ¬ DensityPair w.dic a c)
    {cs ds es : List Call} (hcs : ∀ c ∈ cs, Asks c) (hds : ∀ c ∈ ds, Asks c) (hes : ∀ c ∈ es, Asks c)
    {uc1 uc2 uc3 : Option Bool} {x y : Rat} {z z' : Conv} {w1 w2 w3 : World}
    (r1 : convert (some x) (some a) (some b) uc1 (session cs w) = (.ok (some (.num y)), w1))
    (r2 : convert (some y) (some b) (some c) uc2 (session ds w) = (.ok (some z), w2))
    (r3 : convert (some x) (some a) (some c) uc3 (session es w) = (.ok (some z'), w3)) : z' = z := by
  obtain ⟨_, hy, e1⟩ := shipped_convert hw hn hφ hcs ka sk ha hb oa dab r1
  cases hy
  obtain ⟨q, rfl, e2⟩ := shipped_convert hw hn hφ hds lb sl hb hc ob dbc r2
  obtain ⟨q', rfl, e3⟩ := shipped_convert hw hn hφ hes ka sk ha hc oa dac r3
  rw [shippedReading_inj (fvfOr1_ne hφ) c (e3.trans (e2.trans e1).symm)]

/-- C64, one answer: whatever the algorithm, the cache and the calls made before, the answer is the same number. -/
theorem C64_one_answer_partial {w w' : World} (hw : Reachable w) (hw' : Reachable w') (hn : ShippedNetwork w.net)
    (hn' : w'.net = w.net) (hf : w'.fvf = w.fvf) (hdic : w'.dic = w.dic) (hφ : w.fvf ≠ some 0) {k a b : Str}
    (ka : UnitOfKind k a) (sk : SoundKind k) (ha : CleanName a) (hb : CleanName b) (oa : Ordinary w.dic a)
    (hd : ¬ DensityPair w.dic a b) {uc uc' : Option Bool} {x : Rat} {c c' : Conv} {w1 w2 : World}
    (r1 : convert (some x) (some a) (some b) uc w = (.ok (some c), w1))
    (r2 : convert (some x) (some a) (some b) uc' w' = (.ok (some c'), w2)) : c' = c := by
  obtain ⟨y, rfl, e1⟩ := shipped_convert hw hn hφ (cs := []) (by simp) ka sk ha hb oa hd r1
  obtain ⟨z, rfl, e2⟩ := shipped_convert hw' (hn' ▸ hn) (hf ▸ hφ) (cs := []) (by simp) ka sk ha hb (hdic ▸ oa)
    (by rw [hdic]; exact hd) r2
  rw [hf] at e2
  rw [shippedReading_inj (fvfOr1_ne hφ) b (e2.trans e1.symm)]

/-- What BFS answers for two units with a direct conversion, the first time they are asked for. -/
theorem convert_direct {w : World} (hg : WF w.net) (hdn : DistinctNames w.net) (hp : Ample w.par) (halg : w.par.algorithm = .bfs)
    {a b : Str} (ha : CleanName a) (hb : CleanName b) (hab : a ≠ b) (oa : Ordinary w.dic a) (hd : ¬ DensityPair w.dic a b)
    (hm : w.memory = []) {f : Fn} (hf : DirectName w.net a b f) (x : Rat) :
    (convert (some x) (some a) (some b) none w).1 = (f w.fvf x).map fun y => some (.num y) := by
  obtain ⟨na, nb, e1, e2, hf⟩ := hf
  have m1 : na ∈ w.net.nodes := by
    obtain ⟨l, hl, _⟩ := hf
    exact List.mem_map.2 ⟨_, hl, rfl⟩
  have m2 : nb ∈ w.net.nodes := hg.closed _ _ _ hf
  have get : ∀ {u : UNode} {s : Str}, u ∈ w.net.nodes → u.name = s → w.net.getNode s = .ok u := by
    intro u s hu e
    unfold Net.getNode
    cases hh : w.net.nodes.find? (fun n => decide (n.name = s)) with
    | none =>
      have := List.find?_eq_none.1 hh u hu
      simp [e] at this
    | some v =>
      have h1 := List.mem_of_find?_eq_some hh
      have h2 := List.find?_some hh
      simp only [decide_eq_true_eq] at h2
      rw [hdn u hu v h1 (e.trans h2.symm)]
  have hne : na ≠ nb := by rintro rfl; exact hab (e1.symm.trans e2)
  refine convert_of_search hg hp ha hb hab oa hd (by simp [memHit, hm, Py.dictGet]) hf ?_ x
  exact search_bfs (w := { w with previous := [] }) hg halg (get m1 e1) (get m2 e2) hne ⟨_, hf⟩

/-- C64 fails for volumes: in a fresh process with BFS a UK gallon is 4 quarts, 4 quarts are 8 pints, 8 pints are
32 gills, 32 gills are 128 fluid ounces, but a UK gallon is 160 fluid ounces. -/
theorem C64_volume_fails {w : World} (hw : Fresh w) (hn : ShippedNetwork w.net) (halg : w.par.algorithm = .bfs)
    (ho : ∀ u, Ordinary w.dic u) (hd : ∀ a b, ¬ DensityPair w.dic a b) :
    numOf (convert (some 1) (some s!!"gallonUK") (some s!!"quartUK") none w).1 = some 4 ∧
    numOf (convert (some 4) (some s!!"quartUK") (some s!!"pintUK") none w).1 = some 8 ∧
    numOf (convert (some 8) (some s!!"pintUK") (some s!!"gillUK") none w).1 = some 32 ∧
    numOf (convert (some 32) (some s!!"gillUK") (some s!!"fluid ounce UK") none w).1 = some 128 ∧
    numOf (convert (some 1) (some s!!"gallonUK") (some s!!"fluid ounce UK") none w).1 = some 160 := by
  have key : ∀ (a b : Str) (c : Cv), CleanName a → CleanName b → a ≠ b → DirectName w.net a b c.eval → ∀ x,
      (convert (some x) (some a) (some b) none w).1 = (c.eval w.fvf x).map fun y => some (.num y) :=
    fun a b c ha hb hab hf x => convert_direct hw.wf hn.distinct hw.ample halg ha hb hab (ho a) (hd a b) hw.memory hf x
  rw [key _ _ _ (Demo.cleanName_of (by decide)) (Demo.cleanName_of (by decide)) (by decide)
        (hn.written (c := .fn (.times 4)) (by decide) (by decide +kernel)),
    key _ _ _ (Demo.cleanName_of (by decide)) (Demo.cleanName_of (by decide)) (by decide)
        (hn.written (c := .fn (.times 2)) (by decide) (by decide +kernel)),
    key _ _ _ (Demo.cleanName_of (by decide)) (Demo.cleanName_of (by decide)) (by decide)
        (hn.written (c := .fn (.times 4)) (by decide) (by decide +kernel)),
    key _ _ _ (Demo.cleanName_of (by decide)) (Demo.cleanName_of (by decide)) (by decide)
        (hn.written (c := .fn (.times 4)) (by decide) (by decide +kernel)),
    key _ _ _ (Demo.cleanName_of (by decide)) (Demo.cleanName_of (by decide)) (by decide)
        (hn.written (c := .fn (.times 160)) (by decide) (by decide +kernel))]
  refine ⟨?_, ?_, ?_, ?_, ?_⟩ <;> simp [Cv.eval, CExp.times, CExp.eval, bind, Except.bind, Except.map, numOf] <;> norm_num

/-- a process that meets the hypotheses of C64, and the answers it gives: 2 days are 48 hours -/
example : ∃ w : World, Fresh w ∧ Reachable w ∧ ShippedNetwork w.net ∧ w.par.algorithm = .bfs ∧ w.fvf ≠ some 0 ∧
    (∀ u, Ordinary w.dic u) ∧ (∀ a b, ¬ DensityPair w.dic a b) ∧
    UnitOfKind s!!"Time_NAMES_REVERSE" s!!"day" ∧ UnitOfKind s!!"Time_NAMES_REVERSE" s!!"hour" ∧
    SoundKind s!!"Time_NAMES_REVERSE" ∧
    numOf (convert (some 2) (some s!!"day") (some s!!"hour") none w).1 = some 48 := by
  obtain ⟨n, h⟩ := ShippedNetwork.ex
  let w : World := { net := n, par := { algorithm := .bfs } }
  have hf : Fresh w := ⟨h.wf, rfl, rfl, by constructor <;> simp [w]⟩
  refine ⟨w, hf, ⟨w, [], hf, by simp, rfl⟩, h, rfl, by simp [w], Demo.ordinary, Demo.noDensity,
    unitOfKind (by decide +kernel), unitOfKind (by decide +kernel), by unfold SoundKind; decide, ?_⟩
  rw [convert_direct (w := w) h.wf h.distinct hf.ample rfl (Demo.cleanName_of (by decide)) (Demo.cleanName_of (by decide))
    (by decide) (Demo.ordinary _) (Demo.noDensity _ _) rfl (h.written (c := .fn (.times 24)) (by decide) (by decide +kernel))]
  simp [Cv.eval, CExp.times, CExp.eval, bind, Except.bind, Except.map, numOf]; norm_num

/-! ## C76 -/

def standardOk (l : List (Str × Rat)) : Bool :=
  match l.head? with
  | none => true
  | some h => match readingOf h.1 with
    | none => false
    | some r => decide (r.s ≠ 0) && decide (h.2 ≠ 0) && l.all fun e =>
        decide (readingOf e.1 = some ⟨e.2 * (r.s / h.2), 0, 0, false⟩) && decide (labelOf e.1 ≠ some 3) &&
          decide (labelOf e.1 ≠ some 6)

theorem standard_ok : standardSizes.all standardOk = true := by decide +kernel

/-- a listed unit reads as a multiple of its standard size -/
theorem standard_reading : ∀ l ∈ standardSizes, ∃ k, k ≠ 0 ∧ ∀ e ∈ l,
    readingOf e.1 = some ⟨e.2 * k, 0, 0, false⟩ ∧ labelOf e.1 ≠ some 3 ∧ labelOf e.1 ≠ some 6 := by
  intro l hl
  have := List.all_eq_true.1 standard_ok l hl
  unfold standardOk at this
  cases l with
  | nil => exact ⟨1, by decide, by simp⟩
  | cons h t =>
    simp only [List.head?_cons] at this
    split at this
    · cases this
    · next r hr =>
      simp only [Bool.and_eq_true, decide_eq_true_eq, List.all_eq_true] at this
      exact ⟨r.s / h.2, div_ne_zero this.1.1 this.1.2, fun e he => ⟨(this.2 e he).1.1, (this.2 e he).1.2, (this.2 e he).2⟩⟩

/-- C76. Between two units of the same list of standard sizes, the only number `convert` can answer is the one the
standard defines: `x` times the size of `a` over the size of `b`. In any state any session leaves, with any algorithm
and any cache. -/
theorem C76_standard_partial {w : World} (hw : Reachable w) (hn : ShippedNetwork w.net) (hφ : w.fvf ≠ some 0)
    {l : List (Str × Rat)} (hl : l ∈ standardSizes) {a b : Str} {sa sb : Rat} (ma : (a, sa) ∈ l) (mb : (b, sb) ∈ l)
    (oa : Ordinary w.dic a) (hd : ¬ DensityPair w.dic a b) {uc : Option Bool} {x : Rat} {c : Conv} {w' : World}
    (hr : convert (some x) (some a) (some b) uc w = (.ok (some c), w')) : c = .num (x * sa / sb) := by
  obtain ⟨k, hk, h⟩ := standard_reading l hl
  obtain ⟨h1, h2⟩ := h _ ma
  obtain ⟨h3, _⟩ := h _ mb
  have clean : ∀ l ∈ standardSizes, ∀ e ∈ l, '(' ∉ e.1 ∧ ')' ∉ e.1 ∧
    (∀ c ∈ e.1.head?.toList ++ e.1.getLast?.toList, c ∉ [' ', '"', '\'']) ∧ e.1 ≠ s!!"Empty" ∧ '/' ∉ e.1 ∧ '*' ∉ e.1 := by
    decide +kernel
  have sne : ∀ l ∈ standardSizes, ∀ e ∈ l, e.2 ≠ 0 := by decide +kernel
  obtain ⟨y, rfl, e⟩ := convert_reads_on (sound_of_reachable hw) (hn.consistent hφ) (Demo.cleanName_of (clean l hl _ ma))
    (Demo.cleanName_of (clean l hl _ mb)) oa hd (by intro na hna; rw [(getNode_mem hna).2]; exact h2) hr
  have e' : shippedReading (fvfOr1 w.fvf) b y = shippedReading (fvfOr1 w.fvf) a x := by
    rcases e with ⟨rfl, rfl⟩ | ⟨na, nb, g1, g2, g3⟩
    · rfl
    · rw [(getNode_mem g1).2, (getNode_mem g2).2] at g3; exact g3
  have nb : sb ≠ 0 := sne l hl _ mb
  simp only [shippedReading, h1, h3, Reading.at, Bool.false_eq_true, if_false, zpow_zero, mul_one, add_zero] at e'
  congr 1
  field_simp
  apply mul_left_cancel₀ hk
  rw [← mul_assoc, mul_comm k y, mul_assoc, mul_comm k sb, mul_comm y, e']
  ring

/-- C76 fails for the light year, which the library takes for the sixtieth part of the distance light travels in a
Julian year: it lacks the seconds of a minute. -/
theorem C76_light_year_fails {w : World} (hw : Fresh w) (hn : ShippedNetwork w.net) (halg : w.par.algorithm = .bfs)
    (ho : Ordinary w.dic s!!"light year") (hd : ¬ DensityPair w.dic s!!"light year" s!!"meter") (x : Rat) :
    (convert (some x) (some s!!"light year") (some s!!"meter") none w).1 =
      .ok (some (.num (x * (299792458 * (36525 / 100 * 24 * 60 * 60)) / 60))) := by
  rw [convert_direct hw.wf hn.distinct hw.ample halg (Demo.cleanName_of (by decide)) (Demo.cleanName_of (by decide))
    (by decide) ho hd hw.memory (hn.written (c := .fn (.mul (.mul (.mul (.mul .x (.lit 299792458)) (.lit (1461 / 4))) (.lit 24)) (.lit 60))) (by decide) (by decide +kernel))]
  simp [Cv.eval, CExp.eval, bind, Except.bind, Except.map]
  ring

example : ∃ w : World, Reachable w ∧ ShippedNetwork w.net ∧ w.fvf ≠ some 0 ∧ (∀ u, Ordinary w.dic u) ∧
    (∀ a b, ¬ DensityPair w.dic a b) ∧
    numOf (convert (some 5) (some s!!"foot") (some s!!"inch") none w).1 = some (5 * (381 / 1250) / (127 / 5000)) := by
  obtain ⟨n, h⟩ := ShippedNetwork.ex
  let w : World := { net := n, par := { algorithm := .bfs } }
  have hf : Fresh w := ⟨h.wf, rfl, rfl, by constructor <;> simp [w]⟩
  refine ⟨w, ⟨w, [], hf, by simp, rfl⟩, h, by simp [w], Demo.ordinary, Demo.noDensity, ?_⟩
  rw [convert_direct (w := w) h.wf h.distinct hf.ample rfl (Demo.cleanName_of (by decide)) (Demo.cleanName_of (by decide))
    (by decide) (Demo.ordinary _) (Demo.noDensity _ _) rfl (h.written (c := .fn (.times 12)) (by decide) (by decide +kernel))]
  simp [Cv.eval, CExp.times, CExp.eval, bind, Except.bind, Except.map, numOf]; norm_num

end Unyts

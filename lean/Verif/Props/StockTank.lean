import Verif.Props.Densities
import Verif.Props.Wholes

/- C119 for the stock tank barrel and the pound: 'lb/stb' is a unit of the library, reached by 'lb/ft3'. -/
namespace Unyts
open Spec
set_option maxRecDepth 1000000

/-- the names joined to a name of a quantity are those it is declared with -/
theorem near_declared {n : Net} (h : ShippedNetwork n) {q : Nat} {u c : Str} (hq : labelOf u = some q) {S : List Str}
    (h1 : ∀ t ∈ labelDecls q, (t.1 = u → t.2.1 ∈ S) ∧ (t.2.1 = u → t.1 ∈ S))
    (h2 : ∀ t ∈ explicitConversions, (t.1 = u → t.2.1 ∈ S) ∧ (t.2.1 = u → t.1 ∈ S)) (hl : LinkedName n c u) : c ∈ S := by
  rcases h.linked.1 hl with ⟨k, hk⟩ | ⟨_, _, k, hk⟩
  · rcases decl_of_label hk ((decl_label hk).trans hq) with h | ⟨e, he, _⟩
    · exact (h1 _ h).2 rfl
    · exact (h2 _ he).2 rfl
  · rcases decl_of_label hk hq with h | ⟨e, he, _⟩
    · exact (h1 _ h).1 rfl
    · exact (h2 _ he).1 rfl

theorem lbstb_near : ∀ t ∈ labelDecls 10, (t.1 = s!!"lb/stb" → t.2.1 ∈ [s!!"lb/ft3", s!!"LB/STB"]) ∧
    (t.2.1 = s!!"lb/stb" → t.1 ∈ [s!!"lb/ft3", s!!"LB/STB"]) := by decide +kernel
theorem lbstb_near' : ∀ t ∈ explicitConversions, (t.1 = s!!"lb/stb" → t.2.1 ∈ [s!!"lb/ft3", s!!"LB/STB"]) ∧
    (t.2.1 = s!!"lb/stb" → t.1 ∈ [s!!"lb/ft3", s!!"LB/STB"]) := by decide +kernel
theorem capital_near : ∀ t ∈ labelDecls 10, (t.1 = s!!"LB/STB" → t.2.1 ∈ [s!!"lb/stb"]) ∧ (t.2.1 = s!!"LB/STB" → t.1 ∈ [s!!"lb/stb"]) := by
  decide +kernel
theorem capital_near' : ∀ t ∈ explicitConversions, (t.1 = s!!"LB/STB" → t.2.1 ∈ [s!!"lb/stb"]) ∧ (t.2.1 = s!!"LB/STB" → t.1 ∈ [s!!"lb/stb"]) := by
  decide +kernel

/-- from g/cm3 to lb/stb the library goes by lb/ft3 -/
theorem density_lbstb {w : World} (hw : Started w) {cs : List Call} (hcs : ∀ c ∈ cs, Asks c) (uc : Option Bool)
    (hm : uc.getD w.par.cache = false ∨ ∀ c ∈ cs, AsksNames w c) (d : Rat) :
    (convert (some d) (some s!!"g/cm3") (some s!!"lb/stb") uc (session cs w)).1 =
      .ok (some (.num (d * (31213980288072303 / 500000000000000) * (701823 / 125000)))) := by
  have hn := hw.shipped.network
  have la : labelOf s!!"g/cm3" = some 10 := by decide +kernel
  have lc : labelOf s!!"lb/ft3" = some 10 := by decide +kernel
  have lb : labelOf s!!"lb/stb" = some 10 := by decide +kernel
  have cv1 : labelCv 10 s!!"g/cm3" s!!"lb/ft3" = some (.fn (.mul .x (.lit (31213980288072303 / 500000000000000)))) := by decide +kernel
  have cv2 : labelCv 10 s!!"lb/ft3" s!!"lb/stb" = some (.fn (.mul .x (.lit (701823 / 125000)))) := by decide +kernel
  have l1 : LinkedName w.net s!!"g/cm3" s!!"lb/ft3" := hn.linked_at la (by rw [cv1]; rfl)
  have l2 : LinkedName w.net s!!"lb/ft3" s!!"lb/stb" := hn.linked_at lc (by rw [cv2]; rfl)
  obtain ⟨na, nc, ea, ec, hd1⟩ := (hn.at la cv1).2 rfl
  obtain ⟨nc', nb, ec', eb, hd2⟩ := (hn.at lc cv2).2 rfl
  have mem : ∀ {x y : UNode} {f}, Direct w.net x y f → x ∈ w.net.nodes ∧ y ∈ w.net.nodes := by
    intro x y f hd
    refine ⟨?_, hw.fresh.wf.closed _ _ _ hd⟩
    obtain ⟨l, hl, _⟩ := hd
    exact List.mem_map.2 ⟨_, hl, rfl⟩
  obtain rfl := hn.distinct _ (mem hd1).2 _ (mem hd2).1 (ec.trans ec'.symm)
  have back : ∀ {a b : Str} {x y : UNode}, x ∈ w.net.nodes → y ∈ w.net.nodes → x.name = a → y.name = b → LinkedName w.net a b →
      (a, b) ∉ Spec.oneWay → Linked w.net y x := by
    intro a b x y mx my ex ey hl ho
    obtain ⟨f, x', y', ex', ey', hf⟩ := (hn.back hl).2 ho
    obtain rfl := hn.distinct _ my _ (mem hf).1 (ey.trans ex'.symm)
    obtain rfl := hn.distinct _ mx _ (mem hf).2 (ex.trans ey'.symm)
    exact ⟨f, hf⟩
  have fa : ∀ f ∈ factors s!!"g/cm3", f.2 ≠ [] := by decide +kernel
  have fb : ∀ f ∈ factors s!!"lb/stb", f.2 ≠ [] := by decide +kernel
  obtain ⟨q, f, hq, hlen, hal, h⟩ := C106_two_steps hw.fresh hw.algorithm hn.distinct hw.edges (by have := hw.generations; omega) hcs
    (a := s!!"g/cm3") (b := s!!"lb/stb") (cleanUnit_of (by decide)) (cleanUnit_of (by decide)) (by decide)
    (hw.shipped.ordinary_any (hn.linked_names l1).1 fa (by rw [la]; simp) (by rw [la]; simp))
    (hw.shipped.ordinary_any (hn.linked_names l2).2 fb (by rw [lb]; simp) (by rw [lb]; simp))
    (not_swapped (by decide)) (not_tempRatios hw fun _ => by decide +kernel)
    (hw.shipped.noDensity_any fa fb (by rw [la]; simp) (by rw [lb]; simp))
    (hm.imp id fun h => ⟨h, fun h => absurd h.1 (by unfold Spec.SimpleName; decide)⟩) (ea ▸ getNode_of_mem hn.distinct (mem hd1).1)
    (eb ▸ getNode_of_mem hn.distinct (mem hd2).2)
    ⟨⟨_, hd1⟩, back (mem hd1).1 (mem hd1).2 ea ec l1 (by decide)⟩ ⟨⟨_, hd2⟩, back (mem hd2).1 (mem hd2).2 ec eb l2 (by decide)⟩ d
  have hne : na ≠ nb := by rintro rfl; rw [ea] at eb; exact absurd eb (by decide)
  have name : ∀ {x : UNode}, Linked w.net x nb → x.name ∈ [s!!"lb/ft3", s!!"LB/STB"] := by
    rintro x ⟨k, hk⟩
    exact near_declared hn lb lbstb_near lbstb_near' ⟨k, x, nb, rfl, eb, hk⟩
  have hqq : q = [na, nc, nb] := by
    obtain ⟨hc, _⟩ := hq
    cases hc with
    | single => exact absurd rfl hne
    | @step _ m _ p e1 hc =>
      cases hc with
      | single =>
        have := name e1
        rw [ea] at this
        exact absurd this (by decide)
      | @step _ m' _ p' e2 hc =>
        have hp' : p' = [nb] ∧ m' = nb := by
          cases hc with
          | single => exact ⟨rfl, rfl⟩
          | step _ hc => cases hc <;> simp at hlen
        obtain ⟨rfl, rfl⟩ := hp'
        obtain ⟨k, hk⟩ := e1
        have hm' := name e2
        simp only [List.mem_cons, List.not_mem_nil, or_false] at hm'
        rcases hm' with hm' | hm'
        · rw [hn.distinct _ (mem hk).2 _ (mem hd1).2 (hm'.trans ec.symm)]
        · have := near_declared hn (by decide +kernel) capital_near capital_near' ⟨k, na, m, rfl, hm', hk⟩
          rw [ea] at this
          exact absurd this (by decide)
  subst hqq
  have e1 := hn.along_unique hal (.step hd1 (.step hd2 (.single nb)))
  rw [h, e1]
  rfl

/-- the density in the ratio of a weight and a volume, whichever -/
theorem density_all {w : World} {a b : Str} {sa sb : Rat} (hw : Started w) (hg : 17 ≤ w.par.maxGenerations) (hφ : w.fvf ≠ some 0)
    (ma : (a, sa) ∈ volumeSizes) (mb : (b, sb) ∈ weightSizes)
    {cs : List Call} (hcs : ∀ c ∈ cs, Asks c)
    (uc : Option Bool) (hm : uc.getD w.par.cache = false ∨ ∀ c ∈ cs, AsksNames w c) (d : Rat) :
    ∃ y, (convert (some d) (some s!!"g/cm3") (some (b ++ '/' :: a)) uc (session cs w)).1 = .ok (some (.num y)) ∧
      Close 1 y (d * (1000 * sa / sb)) := by
  by_cases hn : (b ++ '/' :: a) = s!!"lb/stb"
  · have cb := sized_clean (Or.inr (Or.inr rfl)) _ mb
    obtain ⟨rfl, rfl⟩ := cut_first (x' := s!!"lb") (y' := s!!"stb") hn cb.2.1 (by decide)
    refine ⟨_, density_lbstb hw hcs uc hm d, ?_⟩
    obtain rfl : sb = _ := weight_two.2 _ mb rfl
    have : ∀ f ∈ volumeSizes, f.1 = s!!"stb" → f.2 = 42 * 231 * cubicInch := by decide +kernel
    obtain rfl : sa = _ := this _ ma rfl
    unfold Close cubicInch
    rw [mul_assoc, ← mul_sub, abs_mul, abs_mul]
    norm_num
    have := abs_nonneg d
    linarith
  · exact density_ratio hw hg hφ ma mb hn hcs uc hm d

/-- C119. After `import unyts` and `set_density(d)`, with the number in g/cm3, whatever was asked since: `x` of a volume
converts to the weight `d` times as many grams as it has cubic centimeters, to one part in a million. -/
theorem C119_weight {L : Lib} {a b : Str} {sa sb : Rat} (hw : Started L.w) (hg : 17 ≤ L.w.par.maxGenerations) (hφ : L.w.fvf ≠ some 0) (d : Rat)
    {u : Str} (hu : Py.lower u ∈ [s!!"g/cc", s!!"g/cm3", s!!"g/cm³"]) (ma : (a, sa) ∈ volumeSizes) (mb : (b, sb) ∈ weightSizes)
    {cs : List Call} (hcs : ∀ c ∈ cs, Asks c)
    (uc : Option Bool) (hm : uc.getD L.w.par.cache = false ∨ ∀ c ∈ cs, AsksNames L.w c) (x : Rat) :
    ∃ L' y, setDensity (.num d) u L = (.ok (), L') ∧
      (convert (some x) (some a) (some b) uc (session cs L'.w)).1 = .ok (some (.num y)) ∧ Close 1 y (x * d * (1000 * sa / sb)) := by
  have hw' : Started { L.w with par := { L.w.par with density := some d } } :=
    ⟨⟨hw.fresh.wf, hw.fresh.memory, hw.fresh.previous, hw.fresh.ample⟩, hw.shipped, hw.algorithm, hw.edges, hw.generations⟩
  obtain ⟨y, h1, h2⟩ := weigh hw' rfl ma mb hcs uc (density_all hw' hg hφ ma mb hcs uc hm d) x
  exact ⟨_, y, C119_stored d hu L, h1, h2⟩

/-- the hypotheses are met: after the import and `set_density(0.85)`, three barrels weigh 405.4 kg -/
example : ∃ L : Lib, Started L.w ∧ ∃ L' y, setDensity (.num (85 / 100)) gcm3 L = (.ok (), L') ∧
    (convert (some 3) (some s!!"bbl") (some s!!"kg") none (session [.convertible s!!"m" s!!"ft" none] L'.w)).1 = .ok (some (.num y)) ∧
    |y - 4054 / 10| < 1 / 10 := by
  obtain ⟨w, hw, hp, hf⟩ := started_ex
  refine ⟨⟨w, [], [], [], fun _ => [], 0⟩, hw, ?_⟩
  obtain ⟨L', y, h1, h2, h3⟩ := C119_weight (L := ⟨w, [], [], [], fun _ => [], 0⟩) hw (by rw [hp]; decide) (by rw [hf]; simp) (85 / 100)
    (u := gcm3) (by decide) (a := s!!"bbl") (b := s!!"kg") (sa := barrel) (sb := 1000) (by decide +kernel) (by decide +kernel)
    (cs := [.convertible s!!"m" s!!"ft" none]) (by simp [Asks]) none
    (Or.inr (by simp only [List.mem_singleton, forall_eq]; exact ⟨by unfold Spec.SimpleName; decide, by unfold Spec.SimpleName; decide, by rw [hp]; rfl⟩)) 3
  refine ⟨L', y, h1, h2, ?_⟩
  unfold Close barrel gallonUS cubicInch at h3
  norm_num at h3
  rw [abs_le] at h3
  rw [abs_lt]
  constructor <;> linarith [h3.1, h3.2]

/-- C119. After `import unyts`, whatever was asked and whatever densities were set, in any order, once a density is set: `x` of a
volume converts to the weight that the density set last gives it, to one part in a million. -/
theorem C119_history {L : Lib} {d0 : Rat} (hw : Started L.w) (hg : 17 ≤ L.w.par.maxGenerations) (hφ : L.w.fvf ≠ some 0)
    (hd : L.w.par.density = some d0) {l : List Doing} (hl : ∀ c ∈ questions l, Asks c) {a b : Str} {sa sb : Rat} (ma : (a, sa) ∈ volumeSizes)
    (mb : (b, sb) ∈ weightSizes) (uc : Option Bool)
    (hm : uc.getD L.w.par.cache = false ∨ ∀ c ∈ questions l, AsksNames L.w c) (x : Rat) :
    ∃ y, (convert (some x) (some a) (some b) uc (history l L).w).1 = .ok (some (.num y)) ∧
      Close 1 y (x * lastDensity d0 l * (1000 * sa / sb)) := by
  rw [(C119_last hw.fresh.wf hd hl).1]
  have hw' : Started { L.w with par := { L.w.par with density := some (lastDensity d0 l) } } :=
    ⟨⟨hw.fresh.wf, hw.fresh.memory, hw.fresh.previous, hw.fresh.ample⟩, hw.shipped, hw.algorithm, hw.edges, hw.generations⟩
  exact weigh hw' rfl ma mb hl uc (density_all hw' hg hφ ma mb hl uc hm _) x

/-- the hypotheses are met: with the density 1.1, a conversion, the density 0.8, three cubic centimeters of the fluid are 2.4 grams -/
example : ∃ L : Lib, Started L.w ∧ ∃ y, (convert (some 3) (some s!!"cm3") (some s!!"g") (some false)
    (history [.weigh (11 / 10), .ask (.convert (some 5) (some s!!"cm3") (some s!!"g") none), .weigh (4 / 5)] L).w).1 = .ok (some (.num y)) ∧
      Close 1 y (12 / 5) := by
  obtain ⟨w, hw, hp, hf⟩ := started_ex
  have hw' : Started { w with par := { w.par with density := some 1 } } :=
    ⟨⟨hw.fresh.wf, hw.fresh.memory, hw.fresh.previous, hw.fresh.ample⟩, hw.shipped, hw.algorithm, hw.edges, hw.generations⟩
  refine ⟨⟨{ w with par := { w.par with density := some 1 } }, [], [], [], fun _ => [], 0⟩, hw', ?_⟩
  obtain ⟨y, h1, h2⟩ := C119_history (L := ⟨{ w with par := { w.par with density := some 1 } }, [], [], [], fun _ => [], 0⟩) hw'
    (by show 17 ≤ w.par.maxGenerations; rw [hp]; decide) (by show w.fvf ≠ _; rw [hf]; simp) rfl
    (l := [.weigh (11 / 10), .ask (.convert (some 5) (some s!!"cm3") (some s!!"g") none), .weigh (4 / 5)])
    (by intro c hc; simp only [questions, List.mem_singleton] at hc; subst hc; trivial)
    (a := s!!"cm3") (sa := 1 / 1000) (b := s!!"g") (sb := 1) (by decide +kernel) (by decide +kernel) (some false) (Or.inl rfl) 3
  refine ⟨y, h1, ?_⟩
  rw [show (12 / 5 : Rat) = 3 * lastDensity 1 [.weigh (11 / 10), .ask (.convert (some 5) (some s!!"cm3") (some s!!"g") none), .weigh (4 / 5)] *
    (1000 * (1 / 1000) / 1) by norm_num [lastDensity]]
  exact h2

end Unyts

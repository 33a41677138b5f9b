import Verif.Props.StockTank

/- C119 for a density given in pounds per cubic foot or per stock tank barrel: units of the network itself. -/
namespace Unyts
open Spec
set_option maxRecDepth 1000000

/-- a conversion declared one way only is reversed the other way -/
theorem reversed_at {n : Net} (h : ShippedNetwork n) {a b : Str} {q : Nat} (la : labelOf a = some q) (lb : labelOf b = some q)
    {c : Cv} (hc : labelCv q a b = some c) (hr : labelCv q b a = none) (ho : (a, b) ∉ Spec.oneWay) :
    DirectName n b a c.rev.eval := by
  obtain ⟨f, hf⟩ := (h.back (h.linked_at la (by rw [hc]; rfl))).2 ho
  obtain ⟨c', hc', rfl⟩ := h.shows.1 hf
  have e : c' = c.rev := by
    unfold shippedCv withReverse at hc'
    rw [first_shipped lb, hr, first_shipped la, hc, Option.none_or] at hc'
    split at hc'
    · cases hc'; rfl
    · cases hc'
  rw [← e]
  exact hf

/-- one pound per cubic foot in g/cm3 is one over this -/
def poundsPerFoot : Rat := 31213980288072303 / 500000000000000
/-- pounds per stock tank barrel in one pound per cubic foot -/
def barrelFeet : Rat := 701823 / 125000

theorem pound_steps {n : Net} (h : ShippedNetwork n) :
    DirectName n s!!"lb/ft3" s!!"g/cm3" (fun _ x => .ok (x / poundsPerFoot)) ∧
    DirectName n s!!"lb/stb" s!!"lb/ft3" (fun _ x => .ok (x / barrelFeet)) := by
  have la : labelOf s!!"g/cm3" = some 10 := by decide +kernel
  have lc : labelOf s!!"lb/ft3" = some 10 := by decide +kernel
  have lb : labelOf s!!"lb/stb" = some 10 := by decide +kernel
  have d1 := reversed_at h la lc (c := .fn (.mul .x (.lit (31213980288072303 / 500000000000000)))) (by decide +kernel) (by decide +kernel)
    (by decide)
  have d2 := reversed_at h lc lb (c := .fn (.mul .x (.lit (701823 / 125000)))) (by decide +kernel) (by decide +kernel) (by decide)
  have e1 : (Cv.fn (.mul .x (.lit (31213980288072303 / 500000000000000)))).rev.eval = fun _ x => .ok (x / poundsPerFoot) := by
    funext fvf x
    show (pdiv x (1 * (31213980288072303 / 500000000000000)) : Res Rat) = _
    unfold pdiv poundsPerFoot
    rw [if_neg (by norm_num), one_mul]
  have e2 : (Cv.fn (.mul .x (.lit (701823 / 125000)))).rev.eval = fun _ x => .ok (x / barrelFeet) := by
    funext fvf x
    show (pdiv x (1 * (701823 / 125000)) : Res Rat) = _
    unfold pdiv barrelFeet
    rw [if_neg (by norm_num), one_mul]
  rw [e1] at d1
  rw [e2] at d2
  exact ⟨d1, d2⟩

theorem linked_of_direct {n : Net} {a b : Str} {f : Fn} (h : DirectName n a b f) : LinkedName n a b := ⟨f, h⟩

/-- what a density in pounds is in g/cm3, and that the search finds it -/
theorem pound_given {w : World} (hw : Started w) {cs : List Call} (hcs : ∀ c ∈ cs, Asks c) (uc : Option Bool)
    (hm : uc.getD w.par.cache = false ∨ ∀ c ∈ cs, AsksNames w c) {u : Str} {k : Rat}
    (hu : (u, k) ∈ [(s!!"lb/ft3", 1 / poundsPerFoot), (s!!"lb/stb", 1 / barrelFeet / poundsPerFoot), (s!!"g/cc", 1)]) :
    (∀ d, (convert (some d) (some u) (some s!!"g/cm3") uc (session cs w)).1 = .ok (some (.num (d * k)))) ∧
      ∃ q, (searchNetwork u s!!"g/cm3" (session cs w)).1 = .ok (some q) := by
  have hn := hw.shipped.network
  obtain ⟨⟨nc, na, ec, ea, hd1⟩, ⟨nb, nc', eb, ec', hd2⟩⟩ := pound_steps hn
  have mem : ∀ {x y : UNode} {f}, Direct w.net x y f → x ∈ w.net.nodes ∧ y ∈ w.net.nodes := by
    intro x y f hd
    refine ⟨?_, hw.fresh.wf.closed _ _ _ hd⟩
    obtain ⟨l, hl, _⟩ := hd
    exact List.mem_map.2 ⟨_, hl, rfl⟩
  obtain rfl := hn.distinct _ (mem hd1).1 _ (mem hd2).2 (ec.trans ec'.symm)
  have back : ∀ {a b : Str} {x y : UNode} {f}, Direct w.net x y f → x.name = a → y.name = b → (a, b) ∉ Spec.oneWay →
      Linked w.net y x := by
    intro a b x y f hd ex ey ho
    obtain ⟨f, x', y', ex', ey', hf⟩ := (hn.back (a := a) (b := b) ⟨f, x, y, ex, ey, hd⟩).2 ho
    obtain rfl := hn.distinct _ (mem hd).2 _ (mem hf).1 (ey.trans ex'.symm)
    obtain rfl := hn.distinct _ (mem hd).1 _ (mem hf).2 (ex.trans ey'.symm)
    exact ⟨f, hf⟩
  have l1 : LinkedName w.net s!!"lb/ft3" s!!"g/cm3" := ⟨_, nc, na, ec, ea, hd1⟩
  have l2 : LinkedName w.net s!!"lb/stb" s!!"lb/ft3" := ⟨_, nb, nc, eb, ec, hd2⟩
  have la : labelOf s!!"g/cm3" = some 10 := by decide +kernel
  have lc : labelOf s!!"lb/ft3" = some 10 := by decide +kernel
  have lb : labelOf s!!"lb/stb" = some 10 := by decide +kernel
  have fa : ∀ f ∈ factors s!!"g/cm3", f.2 ≠ [] := by decide +kernel
  have fb : ∀ f ∈ factors s!!"lb/stb", f.2 ≠ [] := by decide +kernel
  have fc : ∀ f ∈ factors s!!"lb/ft3", f.2 ≠ [] := by decide +kernel
  have g1 := ec ▸ getNode_of_mem hn.distinct (mem hd1).1
  have g2 := ea ▸ getNode_of_mem hn.distinct (mem hd1).2
  have g3 := eb ▸ getNode_of_mem hn.distinct (mem hd2).1
  have gen : 0 ≤ w.par.maxGenerations := by have := hw.generations; omega
  simp only [List.mem_cons, List.not_mem_nil, or_false, Prod.mk.injEq] at hu
  rcases hu with ⟨rfl, rfl⟩ | ⟨rfl, rfl⟩ | ⟨rfl, rfl⟩
  · refine ⟨fun d => ?_, ?_⟩
    · exact C106_direct hw.fresh hw.algorithm hn.distinct hw.edges gen hcs
        (a := s!!"lb/ft3") (b := s!!"g/cm3") (cleanUnit_of (by decide)) (cleanUnit_of (by decide)) (by decide)
        (hw.shipped.ordinary_any (hn.linked_names l1).1 fc (by rw [lc]; simp) (by rw [lc]; simp))
        (hw.shipped.ordinary_any (hn.linked_names l1).2 fa (by rw [la]; simp) (by rw [la]; simp))
        (not_swapped (by decide)) (not_tempRatios hw fun _ => by decide +kernel)
        (hw.shipped.noDensity_any fc fa (by rw [lc]; simp) (by rw [la]; simp))
        (hm.imp id fun h => ⟨h, fun h => absurd h.1 (by unfold Spec.SimpleName; decide)⟩) g1 g2 hd1 (back hd1 ec ea (by decide))
        (by show (Except.ok _ : Res Rat) = _; rw [mul_one_div])
    · obtain ⟨q, hq, _⟩ := session_near hw.fresh hcs hw.algorithm hn.distinct hw.edges gen g1 g2
        (p := [nc, na]) (.step ⟨⟨_, hd1⟩, back hd1 ec ea (by decide)⟩ (.single na)) (noEarly_short (by simp))
        (by have := hw.generations; simp; omega)
      exact ⟨q, hq⟩
  · have b1 := back hd2 eb ec (by decide)
    have b2 := back hd1 ec ea (by decide)
    refine ⟨fun d => ?_, ?_⟩
    · obtain ⟨q, f, hq, hlen, hal, h⟩ := C106_two_steps hw.fresh hw.algorithm hn.distinct hw.edges gen hcs
        (a := s!!"lb/stb") (b := s!!"g/cm3") (cleanUnit_of (by decide)) (cleanUnit_of (by decide)) (by decide)
        (hw.shipped.ordinary_any (hn.linked_names l2).1 fb (by rw [lb]; simp) (by rw [lb]; simp))
        (hw.shipped.ordinary_any (hn.linked_names l1).2 fa (by rw [la]; simp) (by rw [la]; simp))
        (not_swapped (by decide)) (not_tempRatios hw fun _ => by decide +kernel)
        (hw.shipped.noDensity_any fb fa (by rw [lb]; simp) (by rw [la]; simp))
        (hm.imp id fun h => ⟨h, fun h => absurd h.1 (by unfold Spec.SimpleName; decide)⟩) g3 g2
        ⟨⟨_, hd2⟩, b1⟩ ⟨⟨_, hd1⟩, b2⟩ d
      have hne : nb ≠ na := by rintro rfl; rw [eb] at ea; exact absurd ea (by decide)
      have lk : ∀ {x : UNode} {y : UNode} {a : Str}, Linked w.net x y → y.name = a → LinkedName w.net x.name a := by
        rintro x y a ⟨k, hk⟩ ey
        exact ⟨k, x, y, rfl, ey, hk⟩
      have flip : ∀ {x y : UNode}, Linked w.net x y → x.name = s!!"lb/stb" → LinkedName w.net y.name s!!"lb/stb" := by
        rintro x y ⟨k, hk⟩ ex
        refine (hn.back (a := s!!"lb/stb") ⟨k, x, y, ex, rfl, hk⟩).2 ?_
        intro hh
        simp only [Spec.oneWay, List.mem_cons, Prod.mk.injEq, List.not_mem_nil, or_false] at hh
        rcases hh with ⟨h, _⟩ | ⟨h, _⟩ | ⟨h, _⟩ <;> exact absurd h (by decide)
      have hqq : q = [nb, nc, na] := by
        obtain ⟨hc, _⟩ := hq
        cases hc with
        | single => exact absurd rfl hne
        | @step _ m _ p e1 hc =>
          cases hc with
          | single =>
            have := near_declared hn lb lbstb_near lbstb_near' (flip e1 eb)
            rw [ea] at this
            exact absurd this (by decide)
          | @step _ m' _ p' e2 hc =>
            have hp' : p' = [na] ∧ m' = na := by
              cases hc with
              | single => exact ⟨rfl, rfl⟩
              | step _ hc => cases hc <;> simp at hlen
            obtain ⟨rfl, rfl⟩ := hp'
            have hm' := near_declared hn lb lbstb_near lbstb_near' (flip e1 eb)
            obtain ⟨k, hk⟩ := e1
            simp only [List.mem_cons, List.not_mem_nil, or_false] at hm'
            rcases hm' with hm' | hm'
            · rw [hn.distinct _ (mem hk).2 _ (mem hd2).2 (hm'.trans ec.symm)]
            · obtain ⟨k2, hk2⟩ := e2
              have hl : LinkedName w.net s!!"LB/STB" s!!"g/cm3" := ⟨k2, m, m', hm', ea, hk2⟩
              have hl' := (hn.back hl).2 (by decide)
              have := near_declared hn (by decide +kernel) capital_near capital_near' hl'
              exact absurd this (by decide)
      subst hqq
      have e1 := hn.along_unique hal (.step hd2 (.step hd1 (.single na)))
      rw [h, e1]
      show (Except.ok (some (Conv.num (d / barrelFeet / poundsPerFoot))) : Res (Option Conv)) = _
      rw [show d * (1 / barrelFeet / poundsPerFoot) = d / barrelFeet / poundsPerFoot by ring]
    · obtain ⟨q, hq, _⟩ := session_near hw.fresh hcs hw.algorithm hn.distinct hw.edges gen g3 g2
        (p := [nb, nc, na]) (.step ⟨⟨_, hd2⟩, b1⟩ (.step ⟨⟨_, hd1⟩, b2⟩ (.single na))) (noEarly_short (by simp))
        (by have := hw.generations; simp; omega)
      exact ⟨q, hq⟩
  · have lg : labelOf s!!"g/cc" = some 10 := by decide +kernel
    have cv : labelCv 10 s!!"g/cc" s!!"g/cm3" = some (.fn .x) := by decide +kernel
    obtain ⟨ng, na', eg, ea', hd3⟩ := (hn.at lg cv).2 rfl
    refine ⟨fun d => ?_, ?_⟩
    · rw [mul_one]
      exact direct_shipped hw hcs (q := 10) (by decide) lg la cv (by decide) (cleanUnit_of (by decide)) (cleanUnit_of (by decide))
        (by decide) (by decide +kernel) fa (not_swapped (by decide +kernel)) (by decide +kernel)
        (fun h => absurd h.1 (by unfold Spec.SimpleName; decide)) uc hm rfl
    · obtain ⟨q, hq, _⟩ := session_near hw.fresh hcs hw.algorithm hn.distinct hw.edges gen
        (eg ▸ getNode_of_mem hn.distinct (mem hd3).1) (ea' ▸ getNode_of_mem hn.distinct (mem hd3).2)
        (p := [ng, na']) (.step ⟨⟨_, hd3⟩, back hd3 eg ea' (by decide)⟩ (.single na')) (noEarly_short (by simp))
        (by have := hw.generations; simp; omega)
      exact ⟨q, hq⟩

/-- the units `set_density` takes as g/cm3 -/
theorem same_density : ∀ b ∈ weightSizes, ∀ a ∈ volumeSizes, Py.lower (b.1 ++ '/' :: a.1) ∈ densityUnits → b.2 / a.2 / 1000 = 1 := by
  decide +kernel

/-- a density by the pound is what the sizes say -/
theorem pound_sizes {a b : Str} {sa sb : Rat} (ma : (a, sa) ∈ volumeSizes) (mb : (b, sb) ∈ weightSizes)
    (h : (b ++ '/' :: a) ∈ [s!!"g/cc", s!!"lb/ft3", s!!"lb/stb"]) :
    ∃ k, (b ++ '/' :: a, k) ∈ [(s!!"lb/ft3", 1 / poundsPerFoot), (s!!"lb/stb", 1 / barrelFeet / poundsPerFoot), (s!!"g/cc", 1)] ∧
      ∀ d, Close 1 (d * k) (d * (sb / sa / 1000)) := by
  have cb := sized_clean (Or.inr (Or.inr rfl)) _ mb
  obtain ⟨_, s4, s5⟩ := volume_three b _ ma
  have s1 := weight_two.1 _ mb
  have s2 := weight_two.2 _ mb
  have s3 : ∀ f ∈ volumeSizes, f.1 = s!!"stb" → f.2 = 42 * 231 * cubicInch := by decide +kernel
  simp only [List.mem_cons, List.not_mem_nil, or_false] at h
  rcases h with h | h | h
  · obtain ⟨rfl, rfl⟩ := cut_first (x' := s!!"g") (y' := s!!"cc") h cb.2.1 (by decide)
    obtain rfl : sb = _ := s1 rfl
    obtain rfl : sa = _ := s4 rfl
    refine ⟨1, by simp, fun d => ?_⟩
    norm_num [Close]
    positivity
  · obtain ⟨rfl, rfl⟩ := cut_first (x' := s!!"lb") (y' := s!!"ft3") h cb.2.1 (by decide)
    obtain rfl : sb = _ := s2 rfl
    obtain rfl : sa = _ := s5 rfl
    refine ⟨1 / poundsPerFoot, by simp, fun d => ?_⟩
    unfold Close cubicFoot cubicInch poundsPerFoot
    rw [← mul_sub, abs_mul, abs_mul]
    norm_num
    have := abs_nonneg d
    linarith
  · obtain ⟨rfl, rfl⟩ := cut_first (x' := s!!"lb") (y' := s!!"stb") h cb.2.1 (by decide)
    obtain rfl : sb = _ := s2 rfl
    obtain rfl : sa = _ := s3 _ ma rfl
    refine ⟨1 / barrelFeet / poundsPerFoot, by simp, fun d => ?_⟩
    unfold Close cubicInch barrelFeet poundsPerFoot
    rw [← mul_sub, abs_mul, abs_mul]
    norm_num
    have := abs_nonneg d
    linarith

section
variable {w : World} {L : Lib} {a b : Str} {sa sb : Rat}

/-- C119. After `import unyts`, when only conversions between single names were asked for, a density in any weight per volume,
given to `set_density` as a number and a unit, is stored in g/cm3, to one part in a million. -/
theorem C119_given (hw : Started w) (hg : 17 ≤ w.par.maxGenerations) (hφ : w.fvf ≠ some 0) (hN : AskedNames w L)
    (ma : (a, sa) ∈ volumeSizes) (mb : (b, sb) ∈ weightSizes) (d : Rat) :
    ∃ y, (setDensity (.num d) (b ++ '/' :: a) L).1 = .ok () ∧ (setDensity (.num d) (b ++ '/' :: a) L).2.w.par.density = some y ∧
      Close 1 y (d * (sb / sa / 1000)) := by
  by_cases hl : Py.lower (b ++ '/' :: a) ∈ densityUnits
  · have := same_density _ mb _ ma hl
    dsimp only at this
    rw [C119_stored d hl, this]
    refine ⟨d, rfl, rfl, ?_⟩
    norm_num [Close]
    positivity
  by_cases hn : (b ++ '/' :: a) ∈ [s!!"g/cc", s!!"lb/ft3", s!!"lb/stb"]
  · obtain ⟨k, hk, hc⟩ := pound_sizes ma mb hn
    obtain ⟨_, cs, hcs, e⟩ := hN
    have hask : ∀ c ∈ cs, Asks c := fun c hc => asksNames_asks (hcs c hc)
    have hy := (pound_given hw hask none (Or.inr hcs) hk).1 d
    have h := (C119_converted d hl L (by rw [e, (base_session hask hw.fresh.wf).net]; exact hw.fresh.wf)).1 (d * k)
      (convert (some d) (some (b ++ '/' :: a)) (some s!!"g/cm3") none L.w).2 (Prod.ext (by rw [e]; exact hy) rfl)
    exact ⟨d * k, h.1, h.2, hc d⟩
  · refine C119_sizes_partial hw hg hφ hN ma mb (fun h => ?_) hl d
    rw [List.mem_cons] at h
    rcases h with h | h
    · exact hl (by rw [h]; decide)
    · exact hn h

/-- a product or a ratio is converted to itself: the quantity stays -/
theorem to_itself (hw : Started w) (hN : AskedNames w L) {v k : Str} (cv : CleanUnit v) (hs : ¬ Spec.SimpleName v)
    (hv : ∃ c ∈ v, c ≠ '*' ∧ c ≠ '/') (hd : ¬ DensityPair w.dic v v) (hk : v ∈ L.names k) (x : Rat) :
    ∃ L', Quantity.to ⟨.std k, v, x⟩ v L = (.ok (.qty ⟨.std k, v, x⟩), L') := by
  obtain ⟨_, cs, hcs, e⟩ := hN
  have hask : ∀ c ∈ cs, Asks c := fun c hc => asksNames_asks (hcs c hc)
  have hask' : ∀ c ∈ cs ++ [Call.convertible v v none], Asks c := by
    intro c hc
    rw [List.mem_append, List.mem_singleton] at hc
    rcases hc with hc | rfl
    · exact hask c hc
    · trivial
  have hr := self_of_reachable (hw.reachable hask)
  rw [← e] at hr
  have hprev : (v, v) ∉ L.w.previous := by
    intro hp
    rw [e] at hp
    rcases prev_session hw.fresh.wf hw.fresh.ample hcs hp with h | h
    · rw [hw.fresh.previous] at h; cases h
    · exact hs h.1
  obtain ⟨p, hp⟩ := converterTop_self hr (operands_ne_nil hv) hprev none 1
  have h1 : (convertible v v none L.w).1 = .ok true := by
    unfold convertible
    rw [show converterTop none (some 1) v v L.w = (.ok (some (.num 1, p)), (converterTop none (some 1) v v L.w).2) from Prod.ext hp rfl]
    rfl
  have e2 : (convertible v v none L.w).2 = session (cs ++ [.convertible v v none]) w := by
    rw [session_append, ← e]; rfl
  have h2 := C11_self _ (hw.reachable hask') v cv hv (by rw [(base_session hask' hw.fresh.wf).dic]; exact hd) none x
  rw [← e2] at h2
  generalize hwx : (convertible v v none L.w).2 = wx at h2
  unfold Quantity.to
  have : ∀ m m' : PyM Lib Obj, (if (⟨.std k, v, x⟩ : Quantity).unitless then m else m') L = m' L := by
    intro m m'; rw [if_neg]; simp [Quantity.unitless]
  refine ⟨{ L with w := (convert (some x) (some v) (some v) none wx).2 }, (this _ _).trans ?_⟩
  have e1 : libConvertible v v L = (.ok true, { L with w := wx }) := by
    unfold libConvertible onWorld; rw [show convertible v v none L.w = (.ok true, wx) from Prod.ext h1 hwx]
  have e3 : libConvert .wrongValue x v v { L with w := wx } = (.ok x, { L with w := (convert (some x) (some v) (some v) none wx).2 }) := by
    unfold libConvert
    rw [PyM.run_bind_ok (a := some (.num x)) (s' := { L with w := (convert (some x) (some v) (some v) none wx).2 })]
    · rfl
    · unfold onWorld
      show (match convert (some x) (some v) (some v) none wx with | (r, w') => (r, { L with w := w' })) = _
      rw [show convert (some x) (some v) (some v) none wx = (.ok (some (.num x)), (convert (some x) (some v) (some v) none wx).2) from
        Prod.ext h2 rfl]
  rw [PyM.run_bind_ok e1, if_pos rfl]
  dsimp only
  rw [PyM.run_bind_ok e3, PyM.run_bind_ok (a := ⟨.std k, v, x⟩) (s' := { L with w := (convert (some x) (some v) (some v) none wx).2 })]
  · rfl
  · have : v ∈ ({ L with w := (convert (some x) (some v) (some v) none wx).2 } : Lib).names k := hk
    simp [construct, Kind.key, this]

/-- C119, for a density given as a quantity: `Density(62.4, 'lb/ft3')` say. -/
theorem C119_given_quantity (hw : Started w) (hg : 17 ≤ w.par.maxGenerations) (hφ : w.fvf ≠ some 0) (hN : AskedNames w L)
    (hL : ShippedClasses L) (ma : (a, sa) ∈ volumeSizes) (mb : (b, sb) ∈ weightSizes) (d : Rat) (u : Str) :
    ∃ y, (setDensity (.qty ⟨.std s!!"Density", b ++ '/' :: a, d⟩) u L).1 = .ok () ∧
      (setDensity (.qty ⟨.std s!!"Density", b ++ '/' :: a, d⟩) u L).2.w.par.density = some y ∧ Close 1 y (d * (sb / sa / 1000)) := by
  have fin : ∀ {y : Rat} {L'}, Quantity.to ⟨.std s!!"Density", b ++ '/' :: a, d⟩ s!!"g/cm3" L =
      (.ok (.qty ⟨.std s!!"Density", s!!"g/cm3", y⟩), L') → Close 1 y (d * (sb / sa / 1000)) →
      ∃ y, (setDensity (.qty ⟨.std s!!"Density", b ++ '/' :: a, d⟩) u L).1 = .ok () ∧
        (setDensity (.qty ⟨.std s!!"Density", b ++ '/' :: a, d⟩) u L).2.w.par.density = some y ∧ Close 1 y (d * (sb / sa / 1000)) := by
    intro y L' h1 hc
    have hd : densityNumber (.qty ⟨.std s!!"Density", b ++ '/' :: a, d⟩) u L = (.ok (y, s!!"g/cm3"), L') := by
      unfold densityNumber gcm3
      dsimp only
      rw [if_pos rfl, PyM.run_bind_ok h1]
      rfl
    have hs : setDensity (.qty ⟨.std s!!"Density", b ++ '/' :: a, d⟩) u L = storeDensity y L' := by
      unfold setDensity
      rw [PyM.run_bind_ok hd]
      dsimp only
      rw [if_pos (by decide)]
    rw [hs]
    exact ⟨y, rfl, rfl, hc⟩
  by_cases hn : (b ++ '/' :: a) = s!!"g/cm3"
  · have := same_density _ mb _ ma (by rw [hn]; decide)
    dsimp only at this
    obtain ⟨L', h1⟩ := to_itself hw hN (v := s!!"g/cm3") (cleanUnit_of (by decide)) (by unfold Spec.SimpleName; decide)
      ⟨'g', by simp, by decide⟩ (hw.shipped.noDensity_signed (by unfold Spec.SimpleName; decide) (by unfold Spec.SimpleName; decide)
        (by decide +kernel) (by decide +kernel)) (density_listed hL).2 d
    refine fin (y := d) (L' := L') (by rw [hn]; exact h1) ?_
    rw [this]
    norm_num [Close]
    positivity
  by_cases hp : (b ++ '/' :: a) ∈ [s!!"g/cc", s!!"lb/ft3", s!!"lb/stb"]
  swap
  · exact C119_quantity_partial hw hg hφ hN hL ma mb (by rw [List.mem_cons]; exact not_or.2 ⟨hn, hp⟩) d u
  obtain ⟨k, hk, hc⟩ := pound_sizes ma mb hp
  obtain ⟨_, cs, hcs, e⟩ := id hN
  have hask : ∀ c ∈ cs, Asks c := fun c hc => asksNames_asks (hcs c hc)
  obtain ⟨hy, q, hq⟩ := pound_given hw hask none (Or.inr hcs) hk
  have hn' := hw.shipped.network
  have la : labelOf s!!"g/cm3" = some 10 := by decide +kernel
  have fa : ∀ f ∈ factors s!!"g/cm3", f.2 ≠ [] := by decide +kernel
  have key : ∀ v, CleanUnit v → v ≠ s!!"g/cm3" → (LinkedName w.net v s!!"g/cm3" ∨ LinkedName w.net v s!!"lb/ft3") → labelOf v = some 10 →
      (∀ f ∈ factors v, f.2 ≠ []) → ¬ Spec.SimpleName v → ¬ Swapped v s!!"g/cm3" →
      (∀ f, (factors v).head? = some f → labelOf f.2 ≠ some 1) → (searchNetwork v s!!"g/cm3" (session cs w)).1 = .ok (some q) →
      (∀ d, (convert (some d) (some v) (some s!!"g/cm3") none (session cs w)).1 = .ok (some (.num (d * k)))) →
      ∃ L', Quantity.to ⟨.std s!!"Density", v, d⟩ s!!"g/cm3" L = (.ok (.qty ⟨.std s!!"Density", s!!"g/cm3", d * k⟩), L') := by
    intro v cv hv hl lv fv sv sw tv hq hy
    obtain ⟨w', h1, _⟩ := to_whole hw hN cv (cleanUnit_of (by decide)) hv
      (hw.shipped.ordinary_any (hl.elim (fun h => (hn'.linked_names h).1) (fun h => (hn'.linked_names h).1)) fv (by rw [lv]; simp) (by rw [lv]; simp))
      (hw.shipped.ordinary_any (hn'.linked_names (linked_of_direct (pound_steps hn').1)).2 fa (by rw [la]; simp) (by rw [la]; simp)) sw
      (not_tempRatios hw fun _ => tv) (hw.shipped.noDensity_any fv fa (by rw [lv]; simp) (by rw [la]; simp)) (fun h => sv h.1)
      (by rw [e]; exact hq) (density_listed hL).2 (g := fun x => x * k) (fun x => by rw [e]; exact hy x) d
    exact ⟨_, h1⟩
  have h1 : ∃ L', Quantity.to ⟨.std s!!"Density", b ++ '/' :: a, d⟩ s!!"g/cm3" L = (.ok (.qty ⟨.std s!!"Density", s!!"g/cm3", d * k⟩), L') := by
    generalize b ++ '/' :: a = v at *
    simp only [List.mem_cons, List.not_mem_nil, or_false] at hp
    rcases hp with rfl | rfl | rfl
    · exact key _ (cleanUnit_of (by decide)) hn (Or.inl (hn'.linked_at (q := 10) (by decide +kernel) (by decide +kernel))) (by decide +kernel) (by decide +kernel)
        (by unfold Spec.SimpleName; decide) (not_swapped (by decide +kernel)) (by decide +kernel) hq hy
    · exact key _ (cleanUnit_of (by decide)) hn (Or.inl (linked_of_direct (pound_steps hn').1)) (by decide +kernel) (by decide +kernel)
        (by unfold Spec.SimpleName; decide) (not_swapped (by decide +kernel)) (by decide +kernel) hq hy
    · exact key _ (cleanUnit_of (by decide)) hn (Or.inr (linked_of_direct (pound_steps hn').2)) (by decide +kernel) (by decide +kernel)
        (by unfold Spec.SimpleName; decide) (not_swapped (by decide +kernel)) (by decide +kernel) hq hy
  obtain ⟨L', h1⟩ := h1
  exact fin h1 (hc d)

end

/-- the hypotheses are met: `set_density(62.4, 'lb/ft3')` stores 0.99955, `set_density(Density(350, 'lb/stb'))` stores 0.99857 -/
example : ∃ L : Lib, AskedNames L.w L ∧ ∃ y, (setDensity (.num (624 / 10)) s!!"lb/ft3" L).1 = .ok () ∧
    (setDensity (.num (624 / 10)) s!!"lb/ft3" L).2.w.par.density = some y ∧ |y - 99955 / 100000| < 1 / 100000 := by
  obtain ⟨w, hw, hp, hf⟩ := started_ex
  have hN : AskedNames w ⟨w, [], [], [], fun _ => [], 0⟩ := ⟨by rw [hp], [], by simp, rfl⟩
  refine ⟨⟨w, [], [], [], fun _ => [], 0⟩, hN, ?_⟩
  obtain ⟨y, h1, h2, h3⟩ := C119_given hw (by rw [hp]; decide) (by rw [hf]; simp) hN (a := s!!"ft3") (b := s!!"lb") (sa := cubicFoot)
    (sb := 45359237 / 100000) (by decide +kernel) (by decide +kernel) (624 / 10)
  refine ⟨y, h1, h2, ?_⟩
  unfold Close cubicFoot cubicInch at h3
  norm_num at h3
  rw [abs_le] at h3
  rw [abs_lt]
  constructor <;> linarith [h3.1, h3.2]

end Unyts

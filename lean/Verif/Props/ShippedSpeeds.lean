import Verif.Props.ShippedProducts
import Verif.Lemmas.PartsTop

/- C101: quantities whose unit is a ratio, on the shipped library. -/
namespace Unyts
open Spec Quantity
set_option maxRecDepth 1000000

section
variable {w : World} {cs : List Call} {a b : Str} {r : Rat}

theorem asksNames_asks {c : Call} (h : AsksNames w c) : Asks c := by cases c <;> trivial

/-- the converter on a unit of several names, the first time -/
theorem parts_asked (hw : Started w) (hcs : ∀ c ∈ cs, AsksNames w c) (sa : ¬ Spec.SimpleName a) {uc : Option Bool}
    (hu : Unfound (session cs w) uc a b) (fa : ∀ f ∈ factors a, f.2 ≠ []) (fb : ∀ f ∈ factors b, f.2 ≠ []) {ks : List Rat} {w2 : World}
    (hp : PartsConvert uc (searchNetwork a b (session cs w)).2 (factors a) (factors b) ks w2) :
    ∃ w3 p, SameBase (session cs w) w3 ∧ Py.dictGet w3.memory (a, b) = some (some (scaleFn ks.prod, p)) ∧ (a, b) ∈ w3.previous ∧
      ∀ x, converterTop uc (some x) a b (session cs w) = (.ok (some (.num (x * ks.prod), p)), w3) := by
  have hask : ∀ c ∈ cs, Asks c := fun c hc => asksNames_asks (hcs c hc)
  have ff : ∀ {l : List Factor}, (∀ f ∈ l, f.2 ≠ []) → l.filter (fun f => decide (f.2 ≠ [])) = l := by
    intro l h
    exact List.filter_eq_self.2 fun f hf => by simpa using h f hf
  refine converterTop_unfound (sound_of_reachable (hw.reachable hask)) hu ?_ (by rw [ff fa, ff fb]; exact hp) ?_
  · intro hp
    rcases prev_session hw.fresh.wf hw.fresh.ample hcs hp with h | h
    · rw [hw.fresh.previous] at h; cases h
    · exact sa h.1
  · have hne : factors a ≠ [] := readFactors_ne a false []
    generalize factors a = fa, factors b = fb at hp hne
    cases hp with
    | nil => exact absurd rfl hne
    | cons => simp

theorem ratio_asked (hw : Started w) (hcs : ∀ c ∈ cs, AsksNames w c) (sa : ¬ Spec.SimpleName a)
    (ht : Together (OneIs w) (factors a) (factors b) r) (hT : ∀ f ∈ factors a, ¬ BuiltIn s!!"Temperature" f.2)
    (hsw : ¬ Swapped a b) (hnr : ¬ Reach (LinkedName w.net) a b) (uc : Option Bool) :
    ∃ w3 p, SameBase (session cs w) w3 ∧ Py.dictGet w3.memory (a, b) = some (some (scaleFn r, p)) ∧ (a, b) ∈ w3.previous ∧
      ∀ x, converterTop uc (some x) a b (session cs w) = (.ok (some (.num (x * r), p)), w3) := by
  have hask : ∀ c ∈ cs, Asks c := fun c hc => asksNames_asks (hcs c hc)
  obtain ⟨hu, fa, fb, ks, w2, h1, rfl⟩ := parts_ready hw hask sa ht hT hsw hnr uc (Or.inr hcs)
  exact parts_asked hw hcs sa hu fa fb h1

/-- the factors have standard sizes -/
theorem standard_noTemp (ht : Together StandardRatio (factors a) (factors b) r) : ∀ f ∈ factors a, ¬ BuiltIn s!!"Temperature" f.2 := by
  intro f hf hb
  obtain ⟨t, k, l, sf, st, hl, mf, _, _⟩ := (together_mem ht).1 f hf
  refine (sized_label hl _ mf).2.1 ?_
  obtain ⟨n, h1, q, h2, h3⟩ := builtIn_label hb
  have : ∀ e ∈ kindLabels, e.1 = s!!"Temperature" → e.2 = 1 := by decide +kernel
  rw [h1]
  refine congrArg some (this (q, n) h2 ?_)
  split at h3
  · exact absurd h3 (by decide)
  · exact h3.symm

/-- C101. After `import unyts` and questions about single names, `convertible` says yes about ratios and products of units
with a standard size, where each factor is of the same quantity as the factor in its place. -/
theorem C101_question_partial (hw : Started w) (hg : 17 ≤ w.par.maxGenerations) (hφ : w.fvf ≠ some 0)
    (hcs : ∀ c ∈ cs, AsksNames w c) (sa : ¬ Spec.SimpleName a) (ht : Together StandardRatio (factors a) (factors b) r)
    (hsw : ¬ Swapped a b) (hnr : ¬ Reach (LinkedName w.net) a b) (uc : Option Bool) :
    (convertible a b uc (session cs w)).1 = .ok true := by
  obtain ⟨w3, p, _, _, _, h⟩ := ratio_asked hw hcs sa (together_mono (fun _ _ _ h => standardRatio_oneIs hw hg hφ h) ht)
    (standard_noTemp ht) hsw hnr uc
  unfold convertible
  rw [h 1]
  rfl

/-- C101 fails the second time: asked again, `convertible` says no about every such pair. -/
theorem C101_second_question_fails (hw : Started w) (hg : 17 ≤ w.par.maxGenerations) (hφ : w.fvf ≠ some 0)
    (hcs : ∀ c ∈ cs, AsksNames w c) (sa : ¬ Spec.SimpleName a) (ht : Together StandardRatio (factors a) (factors b) r)
    (hsw : ¬ Swapped a b) (hnr : ¬ Reach (LinkedName w.net) a b) (uc uc' : Option Bool) :
    (convertible a b uc (session cs w)).1 = .ok true ∧
      (convertible a b uc' (session (cs ++ [.convertible a b uc]) w)).1 = .ok false := by
  refine ⟨C101_question_partial hw hg hφ hcs sa ht hsw hnr uc, ?_⟩
  obtain ⟨w3, p, _, _, h3, h⟩ := ratio_asked hw hcs sa (together_mono (fun _ _ _ h => standardRatio_oneIs hw hg hφ h) ht)
    (standard_noTemp ht) hsw hnr uc
  rw [session_append]
  show (convertible a b uc' (convertible a b uc (session cs w)).2).1 = _
  have : (convertible a b uc (session cs w)).2 = w3 := by unfold convertible; rw [h 1]
  rw [this, convertible_tried h3]

end

/-! ### quantities -/

section
variable {w0 : World} {L : Lib} {a b k : Str} {r : Rat}

/-- The conversion of a quantity: after questions about single names, a quantity whose unit has several factors converts to another
such unit of its class, by the standard sizes of the factors. Then the library converts to that unit again. -/
theorem to_asked (hw : Started w0) (hc : w0.par.cache = true) {cs : List Call} (hcs : ∀ c ∈ cs, AsksNames w0 c) (e : L.w = session cs w0)
    (ca : CleanUnit a) (cb : CleanUnit b) (hu : Unfound (session cs w0) none a b)
    (hk : ∃ w3 p, SameBase (session cs w0) w3 ∧ Py.dictGet w3.memory (a, b) = some (some (scaleFn r, p)) ∧ (a, b) ∈ w3.previous ∧
      ∀ x, converterTop none (some x) a b (session cs w0) = (.ok (some (.num (x * r), p)), w3)) (hb : b ∈ L.names k) (x : Rat) :
    ∃ w', Quantity.to ⟨.std k, a, x⟩ b L = (.ok (.qty ⟨.std k, b, x * r⟩), { L with w := w' }) ∧
      (Running w0 L → Running w0 { L with w := w' }) ∧
      ∀ y, Quantity.to ⟨.std k, a, y⟩ b { L with w := w' } = (.ok (.qty ⟨.std k, b, y * r⟩), { L with w := w' }) := by
  have hask : ∀ c ∈ cs, Asks c := fun c hc => asksNames_asks (hcs c hc)
  obtain ⟨w3, p, hb3, hm3, h3, h⟩ := hk
  have hbase := base_session hask hw.fresh.wf
  have wf3 : WF w3.net := by rw [hb3.net, hbase.net]; exact hw.fresh.wf
  let w4 : World := { w3 with previous := [] }
  have hit : ∀ y, converterTop none (some y) a b w4 = (.ok (some (.num (y * r), p)), w4) := by
    intro y
    rw [converterTop_hit (w := w4) (a := a) (b := b) (f := scaleFn r) (p := p) (by show Ample w3.par; rw [hb3.par, hbase.par]; exact hw.fresh.ample)
      (by unfold resolveCache; show (none : Option Bool).getD w3.par.cache = true; rw [hb3.par, hbase.par]; exact hc)
      (by show ¬ TempRatios w3.dic a b; rw [hb3.dic]; exact hu.notTemp) hm3 (by simp [w4])]
    rfl
  have conv : ∀ (wx : World), { wx with previous := [] } = w4 → ∀ y, convert (some y) (some a) (some b) none wx =
      (.ok (some (.num (y * r))), w4) := by
    intro wx hx y
    have hd : ¬ DensityPair wx.dic a b := by
      have : ({ wx with previous := [] } : World).dic = w4.dic := by rw [hx]
      change wx.dic = w3.dic at this
      rw [this, hb3.dic]; exact hu.notDensity
    have hwf : WF wx.net := by
      have : ({ wx with previous := [] } : World).net = w4.net := by rw [hx]
      change wx.net = w3.net at this
      rw [this]; exact wf3
    rw [convert_clean ca cb, convertClean_eq hwf hd, hx, hit y]
    rfl
  have ask4 : convertible a b none w4 = (.ok true, w4) := by unfold convertible; rw [hit 1]; rfl
  have ask : convertible a b none (session cs w0) = (.ok true, w3) := by unfold convertible; rw [h 1]; rfl
  have core : ∀ (L' : Lib) (wx : World) (y : Rat), convertible a b none L'.w = (.ok true, wx) → { wx with previous := [] } = w4 →
      L'.dict = L.dict → Quantity.to ⟨.std k, a, y⟩ b L' = (.ok (.qty ⟨.std k, b, y * r⟩), { L' with w := w4 }) := by
    intro L' wx y h1 h2 h3
    unfold Quantity.to
    have : ∀ m m' : PyM Lib Obj, (if (⟨.std k, a, y⟩ : Quantity).unitless then m else m') L' = m' L' := by
      intro m m'; rw [if_neg]; simp [unitless]
    refine (this _ _).trans ?_
    have e1 : libConvertible a b L' = (.ok true, { L' with w := wx }) := by
      unfold libConvertible onWorld; rw [h1]
    have e2 : libConvert .wrongValue y a b { L' with w := wx } = (.ok (y * r), { L' with w := w4 }) := by
      unfold libConvert
      rw [PyM.run_bind_ok (a := some (.num (y * r))) (s' := { L' with w := w4 })]
      · rfl
      · unfold onWorld
        rw [conv wx h2 y]
    have hmem : b ∈ ({ L' with w := w4 } : Lib).names k := by
      unfold Lib.names; rw [show ({ L' with w := w4 } : Lib).dict = L.dict from h3]; exact hb
    rw [PyM.run_bind_ok e1, if_pos rfl]
    dsimp only
    rw [PyM.run_bind_ok e2, PyM.run_bind_ok (a := ⟨.std k, b, y * r⟩) (s' := { L' with w := w4 })]
    · rfl
    · simp [construct, Kind.key, hmem]
  have hrun : Running w0 L → Running w0 { L with w := w4 } := by
    intro hR
    have r1 := hR.of_world hw.fresh.wf (c := .convertible a b none) trivial
    have r2 := r1.of_world hw.fresh.wf (c := .convert (some 1) (some a) (some b) none) trivial
    have e2 : (Call.convert (some 1) (some a) (some b) none).run ((Call.convertible a b none).run L.w) = w4 := by
      show (convert (some 1) (some a) (some b) none (convertible a b none L.w).2).2 = w4
      rw [e, ask, conv w3 rfl 1]
    have e3 : ({ L with w := w4 } : Lib) = { { L with w := (Call.convertible a b none).run L.w } with
        w := (Call.convert (some 1) (some a) (some b) none).run ((Call.convertible a b none).run L.w) } := by rw [e2]
    rw [e3]; exact r2
  exact ⟨w4, core L w3 x (by rw [e]; exact ask) rfl rfl, hrun, fun y => core { L with w := w4 } w4 y ask4 rfl rfl⟩

theorem to_parts (hw : Started w0) (hg : 17 ≤ w0.par.maxGenerations) (hφ : w0.fvf ≠ some 0) (hN : AskedNames w0 L)
    (sa : ¬ Spec.SimpleName a) (ca : CleanUnit a) (cb : CleanUnit b) (ht : Together StandardRatio (factors a) (factors b) r)
    (hsw : ¬ Swapped a b) (hnr : ¬ Reach (LinkedName w0.net) a b) (hb : b ∈ L.names k) (x : Rat) :
    ∃ w', Quantity.to ⟨.std k, a, x⟩ b L = (.ok (.qty ⟨.std k, b, x * r⟩), { L with w := w' }) ∧
      (Running w0 L → Running w0 { L with w := w' }) ∧
      ∀ y, Quantity.to ⟨.std k, a, y⟩ b { L with w := w' } = (.ok (.qty ⟨.std k, b, y * r⟩), { L with w := w' }) := by
  obtain ⟨hc, cs, hcs, e⟩ := hN
  have hask : ∀ c ∈ cs, Asks c := fun c hc => asksNames_asks (hcs c hc)
  have ht' := together_mono (fun _ _ _ h => standardRatio_oneIs hw hg hφ h) ht
  obtain ⟨hu, _⟩ := parts_ready hw hask sa ht' (standard_noTemp ht) hsw hnr none (Or.inr hcs)
  exact to_asked hw hc hcs e ca cb hu (ratio_asked hw hcs sa ht' (standard_noTemp ht) hsw hnr none) hb x

/-- after the question, the quantity is not converted -/
theorem to_tried {q : Quantity} (hq : q.unitless = false) (hu : q.kind ≠ .user) (h : (q.unit, b) ∈ L.w.previous) :
    (Quantity.to q b L).1 = .error .wrongUnits := by
  suffices hs : Quantity.to q b L = (.error .wrongUnits, L) by rw [hs]
  unfold Quantity.to
  have : ∀ m m' : PyM Lib Obj, (if q.unitless then m else m') L = m' L := by
    intro m m'; rw [if_neg]; simp [hq]
  refine (this _ _).trans ?_
  have e1 : libConvertible q.unit b L = (.ok false, L) := by
    unfold libConvertible onWorld; rw [convertible_tried h]
  rw [PyM.run_bind_ok e1]
  simp only [Bool.false_eq_true, if_false]
  rw [if_neg hu]
  rfl

theorem sizeList_of_table {n : Str} {l : List (Str × Rat)} (hn : (n, l) ∈ sizeTables) : SizeList l := by
  rcases table_list _ hn with h | h | h
  · exact Or.inl h
  · cases h; exact Or.inr (Or.inl rfl)
  · cases h; exact Or.inr (Or.inr rfl)

theorem table_written : ∀ e ∈ sizeTables, ∀ f ∈ e.2, f.1 ≠ [] := by decide +kernel

theorem ratio_differ : ∀ e ∈ ratioTable, ∀ t ∈ sizeTables, e.1 = t.1 → e.1 ≠ e.2.1 := by decide +kernel

end

section
variable {w0 : World} {L : Lib} {p q k a1 a2 b1 b2 : Str} {lp lq : List (Str × Rat)} {s t : Str → Rat}

/-- what the conversion of one ratio to another needs to know -/
theorem ratio_ready (hw : Started w0) (hg : 17 ≤ w0.par.maxGenerations) (hφ : w0.fvf ≠ some 0) (hp : (p, lp) ∈ sizeTables)
    (hq : (q, lq) ∈ sizeTables) (hT : (p, q, k) ∈ ratioTable) (ha1 : (a1, s a1) ∈ lp) (ha2 : (a2, t a2) ∈ lq) (hb1 : (b1, s b1) ∈ lp)
    (hb2 : (b2, t b2) ∈ lq) :
    ¬ Spec.SimpleName (over a1 a2) ∧ CleanUnit (over a1 a2) ∧ CleanUnit (over b1 b2) ∧ ¬ Swapped (over a1 a2) (over b1 b2) ∧
      Together StandardRatio (factors (over a1 a2)) (factors (over b1 b2)) (s a1 / s b1 * (1 / (t a2 / t b2))) := by
  have hP := gauged_table hw hg hφ hp s
  have hQ := gauged_table hw hg hφ hq t
  have na1 : a1 ≠ [] := table_written _ hp _ ha1
  have na2 : a2 ≠ [] := table_written _ hq _ ha2
  have nb1 : b1 ≠ [] := table_written _ hp _ hb1
  have nb2 : b2 ≠ [] := table_written _ hq _ hb2
  refine ⟨fun h => h.1 (by simp [over]), ?_, ?_, ?_, ?_⟩
  · rw [over_eq]; exact cleanUnit_ratio (hP.clean _ ha1) (hQ.clean _ ha2) na1 na2 _ (Or.inl rfl)
  · rw [over_eq]; exact cleanUnit_ratio (hP.clean _ hb1) (hQ.clean _ hb2) nb1 nb2 _ (Or.inl rfl)
  · rintro ⟨x, y, z, u, hx, hy, hz, hu, e1, e2, h1, _⟩
    have ex : ∀ m n : Str, m ++ '/' :: n = m ++ ['/'] ++ n := by simp
    replace e1 := e1.trans (ex x y)
    replace e2 := e2.trans (ex z u)
    unfold over at e1 e2
    have f1 := splitOn_pair (hP.clean _ ha1).2.1 (hQ.clean _ ha2).2.1
    have f2 := splitOn_pair (hP.clean _ hb1).2.1 (hQ.clean _ hb2).2.1
    have g1 := splitOn_pair hx hy
    have g2 := splitOn_pair hz hu
    rw [e1, g1] at f1
    rw [e2, g2] at f2
    simp only [List.cons.injEq, and_true] at f1 f2
    rw [f1.1, f2.2, hP.strip _ ha1, hQ.strip _ hb2] at h1
    exact ratio_differ _ hT _ hp rfl (hQ.only _ hb2 _ (h1 ▸ hP.built _ ha1))
  · rw [over_eq, over_eq, factors_ratio (hP.clean _ ha1).2 (hQ.clean _ ha2).2, factors_ratio (hP.clean _ hb1).2 (hQ.clean _ hb2).2]
    exact .num ⟨lp, _, _, sizeList_of_table hp, ha1, hb1, rfl⟩ (.den ⟨lq, _, _, sizeList_of_table hq, ha2, hb2, rfl⟩
      (div_ne_zero (hQ.pos _ ha2).ne' (hQ.pos _ hb2).ne') .nil)

/-- C101. After `import unyts` and questions about single names, a quantity whose unit is a ratio converts to another ratio
of its class by the standard sizes of the four units; afterwards every quantity in that unit converts the same way. -/
theorem C101_ratio_partial (hw : Started w0) (hg : 17 ≤ w0.par.maxGenerations) (hφ : w0.fvf ≠ some 0) (hL : Running w0 L)
    (hN : AskedNames w0 L) (hp : (p, lp) ∈ sizeTables) (hq : (q, lq) ∈ sizeTables) (hT : (p, q, k) ∈ ratioTable)
    (ha1 : (a1, s a1) ∈ lp) (ha2 : (a2, t a2) ∈ lq) (hb1 : (b1, s b1) ∈ lp) (hb2 : (b2, t b2) ∈ lq)
    (hn : ∀ k', BuiltIn k' (over a1 a2) → k' = k)
    (hnr : ¬ Reach (LinkedName w0.net) (over a1 a2) (over b1 b2)) (x : Rat) :
    ∃ L', (do let v ← units x (over a1 a2); v.to (over b1 b2)) L =
        (.ok (.qty ⟨.std k, over b1 b2, x * (s a1 / s b1) / (t a2 / t b2)⟩), L') ∧
      ∀ y, (do let v ← units y (over a1 a2); v.to (over b1 b2)) L' =
        (.ok (.qty ⟨.std k, over b1 b2, y * (s a1 / s b1) / (t a2 / t b2)⟩), L') := by
  have hP := gauged_table hw hg hφ hp s
  have hQ := gauged_table hw hg hφ hq t
  obtain ⟨sa, ca, cb, hsw, ht⟩ := ratio_ready hw hg hφ hp hq hT ha1 ha2 hb1 hb2
  have hd := hL.2
  have mk : ∀ (L' : Lib), ShippedClasses L' → ∀ y, units y (over a1 a2) L' = (.ok ⟨.std k, over a1 a2, y⟩, L') := fun L' h' y =>
    C81_ratio_partial h' hT ⟨hP.built _ ha1, (hP.listed _ ha1).1⟩ ⟨hQ.built _ ha2, (hQ.listed _ ha2).1⟩ (hP.clean _ ha1).2
      (hQ.clean _ ha2).2 hn y
  have hmem : over b1 b2 ∈ L.names k := by
    obtain ⟨n, h, _⟩ := hd
    obtain ⟨l, hl, hm⟩ := (h.lists k (over b1 b2)).2 (Or.inl (Or.inr (composed_of_table (B := ListedUnit) hT
      ⟨hP.built _ hb1, (hP.listed _ hb1).1⟩ ⟨hQ.built _ hb2, (hQ.listed _ hb2).1⟩)))
    unfold Lib.names; rw [hl]; exact hm
  obtain ⟨w', h1, h3, h2⟩ := to_parts hw hg hφ hN sa ca cb ht hsw hnr hmem x
  have e : ∀ y, y * (s a1 / s b1 * (1 / (t a2 / t b2))) = y * (s a1 / s b1) / (t a2 / t b2) := fun y => by
    rw [← mul_assoc, mul_one_div]
  refine ⟨{ L with w := w' }, ?_, fun y => ?_⟩
  · rw [PyM.run_bind_ok (mk L hd x), h1, e]
  · rw [PyM.run_bind_ok (mk _ (h3 hL).2 y), h2, e]

/-- C101 fails after the question: where `convertible` was asked about the two ratios, and said yes, the quantity is refused
the conversion. -/
theorem C101_after_question_fails (hw : Started w0) (hg : 17 ≤ w0.par.maxGenerations) (hφ : w0.fvf ≠ some 0) (hL : Running w0 L)
    (hN : AskedNames w0 L) (hp : (p, lp) ∈ sizeTables) (hq : (q, lq) ∈ sizeTables) (hT : (p, q, k) ∈ ratioTable)
    (ha1 : (a1, s a1) ∈ lp) (ha2 : (a2, t a2) ∈ lq) (hb1 : (b1, s b1) ∈ lp) (hb2 : (b2, t b2) ∈ lq)
    (hn : ∀ k', BuiltIn k' (over a1 a2) → k' = k)
    (hnr : ¬ Reach (LinkedName w0.net) (over a1 a2) (over b1 b2)) (x : Rat) :
    (libConvertible (over a1 a2) (over b1 b2) L).1 = .ok true ∧
      ((do let _ ← libConvertible (over a1 a2) (over b1 b2); let v ← units x (over a1 a2); v.to (over b1 b2)) L).1 =
        .error .wrongUnits := by
  have hP := gauged_table hw hg hφ hp s
  have hQ := gauged_table hw hg hφ hq t
  obtain ⟨sa, ca, cb, hsw, ht⟩ := ratio_ready hw hg hφ hp hq hT ha1 ha2 hb1 hb2
  have hd := (hL.of_world hw.fresh.wf (c := .convertible (over a1 a2) (over b1 b2) none) trivial).2
  obtain ⟨hc, cs, hcs, e⟩ := hN
  obtain ⟨w3, _, _, _, h3, h⟩ := ratio_asked hw hcs sa (together_mono (fun _ _ _ h => standardRatio_oneIs hw hg hφ h) ht)
    (standard_noTemp ht) hsw hnr none
  have hq : libConvertible (over a1 a2) (over b1 b2) L = (.ok true, { L with w := w3 }) := by
    unfold libConvertible onWorld convertible
    rw [e, h 1]; rfl
  have hx : (Call.convertible (over a1 a2) (over b1 b2) none).run L.w = w3 := by
    show (convertible _ _ _ _).2 = _
    unfold convertible; rw [e, h 1]
  rw [hx] at hd
  refine ⟨by rw [hq], ?_⟩
  rw [PyM.run_bind_ok hq, PyM.run_bind_ok (C81_ratio_partial hd hT ⟨hP.built _ ha1, (hP.listed _ ha1).1⟩
    ⟨hQ.built _ ha2, (hQ.listed _ ha2).1⟩ (hP.clean _ ha1).2 (hQ.clean _ ha2).2 hn x)]
  exact to_tried rfl (by simp) h3

/-- C101. A quotient of quantities in the unit asked for: `(units(x, a1) / units(y, a2)).to('b1/b2')` is the quotient of the
amounts, measured in that ratio. -/
theorem C101_quotient_partial (hw : Started w0) (hg : 17 ≤ w0.par.maxGenerations) (hφ : w0.fvf ≠ some 0) (hL : Operating w0 L)
    (hN : AskedNames w0 L) (hp : (p, lp) ∈ sizeTables) (hq : (q, lq) ∈ sizeTables) (hT : (p, q, k) ∈ ratioTable)
    (hd : divTo (.std p) (.std q) = none) (ha1 : (a1, s a1) ∈ lp) (ha2 : (a2, t a2) ∈ lq) (hb1 : (b1, s b1) ∈ lp)
    (hb2 : (b2, t b2) ∈ lq) (oa1 : OneName p a1) (oa2 : OneName q a2) (hr : ¬ Reach (LinkedName w0.net) a1 a2)
    (hn : ∀ k', BuiltIn k' (over a1 a2) → k' = k)
    (hnr : ¬ Reach (LinkedName w0.net) (over a1 a2) (over b1 b2)) (x : Rat) {y : Rat} (hy : y ≠ 0) :
    ((do let u ← units x a1; let v ← units y a2; let z ← Program.quantity (← u.div v); z.to (over b1 b2)) L).1 =
        .ok (.qty ⟨.std k, over b1 b2, (x * s a1 / (y * t a2)) / (s b1 / t b2)⟩) := by
  have hP := gauged_table hw hg hφ hp s
  have hQ := gauged_table hw hg hφ hq t
  obtain ⟨L1, g1, h1⟩ := C100_class_partial hw hL oa1 oa2 hr hd hT hn x hy
  obtain ⟨L2, h2, -⟩ := C101_ratio_partial hw hg hφ g1.1.1 (g1.2 hN) hp hq hT ha1 ha2 hb1 hb2 hn hnr (x / y)
  rw [PyM.run_bind_ok (C81_ratio_partial g1.1.1.2 hT ⟨oa1.unit, oa1.odd.1⟩ ⟨oa2.unit, oa2.odd.1⟩ oa1.clean.2 oa2.clean.2 hn (x / y))] at h2
  rw [PyM.run_bind_ok (oa1.units hL x), PyM.run_bind_ok (oa2.units hL y)] at h1 ⊢
  rw [PyM.run_bind_ok h1]
  have e2 : (do let z ← Program.quantity (.qty ⟨.std k, over a1 a2, x / y⟩); z.to (over b1 b2)) L1 =
      Quantity.to ⟨.std k, over a1 a2, x / y⟩ (over b1 b2) L1 := rfl
  rw [e2, h2]
  have p1 := (hP.pos _ ha1).ne'
  have p2 := (hQ.pos _ ha2).ne'
  have p3 := (hP.pos _ hb1).ne'
  have p4 := (hQ.pos _ hb2).ne'
  have ev : x / y * (s a1 / s b1) / (t a2 / t b2) = x * s a1 / (y * t a2) / (s b1 / t b2) := by field_simp
  rw [ev]

end

/-! ### concrete cases -/

/-- the sizes of times, by name -/
def timeSize (u : Str) : Rat := (Py.dictGet standardSizes[1] u).getD 0

/-- 90 km in 3 days, in feet per hour; and 5 km/day. A question about the two units first, and the conversion is refused. -/
example : ∃ w L, Started w ∧ Operating w L ∧ AskedNames w L ∧
    ((do let u ← units 90 s!!"km"; let v ← units 3 s!!"day"; let z ← Program.quantity (← u.div v); z.to s!!"ft/hour") L).1 =
      .ok (.qty ⟨.std s!!"Velocity", s!!"ft/hour", 30 * 1000 / 24 / (381 / 1250)⟩) ∧
    ((do let v ← units 5 s!!"km/day"; v.to s!!"ft/hour") L).1 =
      .ok (.qty ⟨.std s!!"Velocity", s!!"ft/hour", 5 * 1000 / 24 / (381 / 1250)⟩) ∧
    ((do let _ ← libConvertible s!!"km/day" s!!"ft/hour"; let v ← units 5 s!!"km/day"; v.to s!!"ft/hour") L).1 = .error .wrongUnits := by
  obtain ⟨w, hw, hp, hf⟩ := started_ex
  obtain ⟨L, e, hL⟩ := hw.operating
  have hN : AskedNames w L := ⟨by rw [hp], [], by simp, e⟩
  have hg : 17 ≤ w.par.maxGenerations := by rw [hp]; decide
  have hφ : w.fvf ≠ some 0 := by rw [hf]; decide
  have h1 : lengthSize s!!"km" = 1000 := by decide +kernel
  have h2 : lengthSize s!!"ft" = 381 / 1250 := by decide +kernel
  have h3 : timeSize s!!"day" = 86400 := by decide +kernel
  have h4 : timeSize s!!"hour" = 3600 := by decide +kernel
  have m1 : (s!!"km", lengthSize s!!"km") ∈ standardSizes[0] := by decide +kernel
  have m2 : (s!!"day", timeSize s!!"day") ∈ standardSizes[1] := by decide +kernel
  have m3 : (s!!"ft", lengthSize s!!"ft") ∈ standardSizes[0] := by decide +kernel
  have m4 : (s!!"hour", timeSize s!!"hour") ∈ standardSizes[1] := by decide +kernel
  have hn : ¬ ∃ q, BuiltIn q (over s!!"km" s!!"day") := not_builtIn (by decide +kernel)
  have hnr : ¬ Reach (LinkedName w.net) (over s!!"km" s!!"day") (over s!!"ft" s!!"hour") :=
    apart_of_unknown hw.shipped.network (by decide) (by decide +kernel)
  have t1 : (s!!"Length", standardSizes[0]) ∈ sizeTables := by decide +kernel
  have t2 : (s!!"Time", standardSizes[1]) ∈ sizeTables := by decide +kernel
  have t3 : (s!!"Length", s!!"Time", s!!"Velocity") ∈ ratioTable := by decide
  refine ⟨w, L, hw, hL, hN, ?_, ?_, ?_⟩
  · have := C101_quotient_partial hw hg hφ hL hN t1 t2 t3 rfl m1 m2 m3 m4 km_name day_name (km_day_apart hw.shipped.network)
      (fun k' hk => (hn ⟨_, hk⟩).elim) hnr 90 (y := 3) (by norm_num)
    rw [h1, h2, h3, h4] at this
    refine this.trans ?_
    norm_num [over]
  · obtain ⟨L', h, _⟩ := C101_ratio_partial hw hg hφ hL.1 hN t1 t2 t3 m1 m2 m3 m4
      (fun k' hk => (hn ⟨_, hk⟩).elim) hnr 5
    rw [h1, h2, h3, h4] at h
    refine (congrArg Prod.fst h).trans ?_
    norm_num [over]
  · exact (C101_after_question_fails hw hg hφ hL.1 hN t1 t2 t3 m1 m2 m3 m4
      (fun k' hk => (hn ⟨_, hk⟩).elim) hnr 5).2

/-- a product of four units, asked twice -/
example : ∃ w, Started w ∧ (convertible s!!"lb*mile/day/ft" s!!"kg*km/h/m" none w).1 = .ok true ∧
    (convertible s!!"lb*mile/day/ft" s!!"kg*km/h/m" none (session [.convertible s!!"lb*mile/day/ft" s!!"kg*km/h/m" none] w)).1 =
      .ok false := by
  obtain ⟨w, hw, hp, hf⟩ := started_ex
  exact ⟨w, hw, C101_second_question_fails hw (by rw [hp]; decide) (by rw [hf]; decide) (cs := []) (by simp)
    (a := s!!"lb*mile/day/ft") (b := s!!"kg*km/h/m") (fun h => h.1 (by decide))
    (.num ⟨weightSizes, 45359237 / 100000, 1000, Or.inr (Or.inr rfl), by decide +kernel, by decide +kernel, rfl⟩
      (.num ⟨standardSizes[0], 201168 / 125, 1000, Or.inl (List.getElem_mem _), by decide +kernel, by decide +kernel, rfl⟩
      (.den ⟨standardSizes[1], 86400, 3600, Or.inl (List.getElem_mem _), by decide +kernel, by decide +kernel, rfl⟩ (by norm_num)
      (.den ⟨standardSizes[0], 381 / 1250, 1, Or.inl (List.getElem_mem _), by decide +kernel, by decide +kernel, rfl⟩ (by norm_num)
      .nil))))
    (not_swapped (by decide)) (apart_of_unknown hw.shipped.network (by decide) (by decide +kernel)) none none⟩

end Unyts

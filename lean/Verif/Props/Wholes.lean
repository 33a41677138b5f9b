import Verif.Props.Constants

/- C106 for quantities: products and ratios that are names of the network. C119: the density as a quantity. -/
namespace Unyts
open Spec Quantity
set_option maxRecDepth 1000000

/-- the conversion along a path of the shipped network is one function -/
theorem Spec.ShippedNetwork.along_unique {n : Net} (h : ShippedNetwork n) {q : List UNode} {f g : Fn} (hf : Along n q f) (hg : Along n q g) :
    f = g := by
  induction hf generalizing g with
  | single a => cases hg; rfl
  | @step a b p f1 f2 hd _ ih =>
    cases hg with
    | @step _ _ _ g1 g2 hd' hg =>
      obtain ⟨c, e1, e2⟩ := h.shows.1 (show DirectName n a.name b.name f1 from ⟨a, b, rfl, rfl, hd⟩)
      obtain ⟨c', e1', e2'⟩ := h.shows.1 (show DirectName n a.name b.name g1 from ⟨a, b, rfl, rfl, hd'⟩)
      rw [e1] at e1'
      cases e1'
      subst e2
      subst e2'
      rw [ih hg]

/-- the first conversion between two names with a path between them, products and ratios included -/
theorem whole_asked {w : World} (hs : SoundAmple w) (hn : ShippedNetwork w.net) {a b : Str} (hne : a ≠ b) (oa : Ordinary w.dic a) (ob : Ordinary w.dic b)
    (hsw : ¬ Swapped a b) (ht : ¬ TempRatios w.dic a b) (hm : Py.dictGet w.memory (a, b) = none) (hp : (a, b) ∉ w.previous)
    {q : List UNode} (hq : (searchNetwork a b w).1 = .ok (some q)) {f : Fn} (hf : Along w.net q f) (uc : Option Bool) (v : Option Rat) :
    converterTop uc v a b w = (ansRes v f (q.map Step.node) w.fvf, ((searchNetwork a b w).2.remember a b (some (f, q.map Step.node)))) := by
  obtain ⟨n, hn'⟩ := ample_budget hs.2
  rcases networkConversion_spec (w := w) hs.1.wf v a b with ⟨e, h1, _⟩ | ⟨h1, _⟩ | ⟨p, f', na, nb, h1, g1, g2, g3, g4, h2⟩
  · rw [hq] at h1; cases h1
  · rw [hq] at h1; cases h1
  · rw [hq] at h1
    simp only [Except.ok.injEq, Option.some.injEq] at h1
    subst h1
    obtain rfl := hn.along_unique hf g4
    rw [converterTop_eq]
    rw [show _ = n + 2 from hn']
    refine converter_of_getConv hp (ansRes_not_none _ _ _ _) ?_
    rw [getConv_eq n uc v w (tempParts_none ht), memHit_none (Or.inr hm)]
    simp only
    rw [quick_none hne oa ob hsw]
    simp only
    rw [h2]
    unfold storeAnswer
    rw [PyM.run_bind_ok (PyM.run_modify _ _), answer_eq]
    refine Prod.ext ?_ rfl
    simp only [remember_fvf, (searchNetwork_quiet a b w).fvf]

/-- The conversion of a quantity whose unit is a product or a ratio, when the network joins the two units: after questions
about single names, it is what `convert` says, and the library goes on saying so. -/
theorem to_whole {w0 : World} {L : Lib} (hw : Started w0) (hN : AskedNames w0 L) {a b k : Str} (ca : CleanUnit a) (cb : CleanUnit b)
    (hab : a ≠ b) (oa : Ordinary w0.dic a) (ob : Ordinary w0.dic b) (hsw : ¬ Swapped a b) (ht : ¬ TempRatios w0.dic a b)
    (hd : ¬ DensityPair w0.dic a b) (hs : ¬ (Spec.SimpleName a ∧ Spec.SimpleName b)) {q : List UNode}
    (hq : (searchNetwork a b L.w).1 = .ok (some q)) (hb : b ∈ L.names k) {g : Rat → Rat}
    (hg : ∀ x, (convert (some x) (some a) (some b) none L.w).1 = .ok (some (.num (g x)))) (x : Rat) :
    ∃ w', Quantity.to ⟨.std k, a, x⟩ b L = (.ok (.qty ⟨.std k, b, g x⟩), { L with w := w' }) ∧
      (Running w0 L → Running w0 { L with w := w' }) ∧
      ∀ y, Quantity.to ⟨.std k, a, y⟩ b { L with w := w' } = (.ok (.qty ⟨.std k, b, g y⟩), { L with w := w' }) := by
  obtain ⟨hc, cs, hcs, e⟩ := hN
  have hask : ∀ c ∈ cs, Asks c := fun c hc => asksNames_asks (hcs c hc)
  have hbase := base_session hask hw.fresh.wf
  rw [← e] at hbase
  have hn : ShippedNetwork L.w.net := by rw [hbase.net]; exact hw.shipped.network
  have hsound : SoundAmple L.w := by rw [e]; exact sound_of_reachable (hw.reachable hask)
  have hmem : Py.dictGet L.w.memory (a, b) = none := by
    have := (alike_session hw.fresh.wf hw.fresh.ample hcs).abs a b (by rw [hw.fresh.memory]; rfl) (Or.inl hs)
    rw [e]; exact this
  have hprev : (a, b) ∉ L.w.previous := by
    intro hp
    rw [e] at hp
    rcases prev_session hw.fresh.wf hw.fresh.ample hcs hp with h | h
    · rw [hw.fresh.previous] at h; cases h
    · exact hs h
  obtain ⟨na, nb, f, _, _, _, hal, hconv⟩ := convert_whole hsound ca cb hab (by rw [hbase.dic]; exact oa) (by rw [hbase.dic]; exact ob) hsw
    (by rw [hbase.dic]; exact ht) (by rw [hbase.dic]; exact hd) (uc := none) (Or.inr hmem) hq (some 1)
  have hfx : ∀ x, f L.w.fvf x = .ok (g x) := by
    intro x
    obtain ⟨_, _, f', _, _, _, hal', hconv'⟩ := convert_whole hsound ca cb hab (by rw [hbase.dic]; exact oa) (by rw [hbase.dic]; exact ob) hsw
      (by rw [hbase.dic]; exact ht) (by rw [hbase.dic]; exact hd) (uc := none) (Or.inr hmem) hq (some x)
    obtain rfl := hn.along_unique hal hal'
    rw [hg x] at hconv'
    cases hf : f L.w.fvf x with
    | error e => simp only [ansRes, hf, Except.map, finish] at hconv'; cases hconv'
    | ok y =>
      simp only [ansRes, hf, Except.map, finish] at hconv'
      cases hconv'
      rfl
  have hfirst := whole_asked hsound hn hab (by rw [hbase.dic]; exact oa) (by rw [hbase.dic]; exact ob) hsw (by rw [hbase.dic]; exact ht) hmem hprev hq hal none
  generalize hw3 : ((searchNetwork a b L.w).2.remember a b (some (f, q.map Step.node))) = w3 at hfirst
  have hb3 : SameBase L.w w3 := by
    have := base_convertTop hsound.1.wf none (some 1) a b
    rw [hfirst (some 1)] at this
    exact this
  have hm3 : Py.dictGet w3.memory (a, b) = some (some (f, q.map Step.node)) := by rw [← hw3]; exact remember_get _ _ _ _
  have hp3 : (a, b) ∉ w3.previous := by
    rw [← hw3, remember_previous, (searchNetwork_quiet a b L.w).previous]; exact hprev
  have wf3 : WF w3.net := by rw [hb3.net]; exact hsound.1.wf
  let w4 : World := { w3 with previous := [] }
  have hit : ∀ y, converterTop none (some y) a b w4 = (.ok (some (.num (g y), q.map Step.node)), w4) := by
    intro y
    rw [converterTop_hit (w := w4) (a := a) (b := b) (f := f) (p := q.map Step.node) (by show Ample w3.par; rw [hb3.par]; exact hsound.2)
      (by unfold resolveCache; show (none : Option Bool).getD w3.par.cache = true; rw [hb3.par, hbase.par]; exact hc)
      (by show ¬ TempRatios w3.dic a b; rw [hb3.dic, hbase.dic]; exact ht) hm3 (by simp [w4])]
    have : f w4.fvf y = .ok (g y) := by show f w3.fvf y = _; rw [hb3.fvf]; exact hfx y
    simp [ansRes, this, Except.map]
  have conv : ∀ (wx : World), { wx with previous := [] } = w4 → ∀ y, convert (some y) (some a) (some b) none wx =
      (.ok (some (.num (g y))), w4) := by
    intro wx hx y
    have hd : ¬ DensityPair wx.dic a b := by
      have : ({ wx with previous := [] } : World).dic = w4.dic := by rw [hx]
      change wx.dic = w3.dic at this
      rw [this, hb3.dic, hbase.dic]; exact hd
    have hwf : WF wx.net := by
      have : ({ wx with previous := [] } : World).net = w4.net := by rw [hx]
      change wx.net = w3.net at this
      rw [this]; exact wf3
    rw [convert_clean ca cb, convertClean_eq hwf hd, hx, hit y]
    rfl
  have ask4 : convertible a b none w4 = (.ok true, w4) := by unfold convertible; rw [hit 1]; rfl
  have ask : convertible a b none L.w = (.ok true, w3) := by
    unfold convertible
    rw [hfirst (some 1)]
    simp [ansRes, hfx 1, Except.map]
  have core : ∀ (L' : Lib) (wx : World) (y : Rat), convertible a b none L'.w = (.ok true, wx) → { wx with previous := [] } = w4 →
      L'.dict = L.dict → Quantity.to ⟨.std k, a, y⟩ b L' = (.ok (.qty ⟨.std k, b, g y⟩), { L' with w := w4 }) := by
    intro L' wx y h1 h2 h3
    unfold Quantity.to
    have : ∀ m m' : PyM Lib Obj, (if (⟨.std k, a, y⟩ : Quantity).unitless then m else m') L' = m' L' := by
      intro m m'; rw [if_neg]; simp [unitless]
    refine (this _ _).trans ?_
    have e1 : libConvertible a b L' = (.ok true, { L' with w := wx }) := by
      unfold libConvertible onWorld; rw [h1]
    have e2 : libConvert .wrongValue y a b { L' with w := wx } = (.ok (g y), { L' with w := w4 }) := by
      unfold libConvert
      rw [PyM.run_bind_ok (a := some (.num (g y))) (s' := { L' with w := w4 })]
      · rfl
      · unfold onWorld
        rw [conv wx h2 y]
    have hmem : b ∈ ({ L' with w := w4 } : Lib).names k := by
      unfold Lib.names; rw [show ({ L' with w := w4 } : Lib).dict = L.dict from h3]; exact hb
    rw [PyM.run_bind_ok e1, if_pos rfl]
    dsimp only
    rw [PyM.run_bind_ok e2, PyM.run_bind_ok (a := ⟨.std k, b, g y⟩) (s' := { L' with w := w4 })]
    · rfl
    · simp [construct, Kind.key, hmem]
  have hrun : Running w0 L → Running w0 { L with w := w4 } := by
    intro hR
    have r1 := hR.of_world hw.fresh.wf (c := .convertible a b none) trivial
    have r2 := r1.of_world hw.fresh.wf (c := .convert (some 1) (some a) (some b) none) trivial
    have e2 : (Call.convert (some 1) (some a) (some b) none).run ((Call.convertible a b none).run L.w) = w4 := by
      show (convert (some 1) (some a) (some b) none (convertible a b none L.w).2).2 = w4
      rw [ask, conv w3 rfl 1]
    have e3 : ({ L with w := w4 } : Lib) = { { L with w := (Call.convertible a b none).run L.w } with
        w := (Call.convert (some 1) (some a) (some b) none).run ((Call.convertible a b none).run L.w) } := by rw [e2]
    rw [e3]; exact r2
  exact ⟨w4, core L w3 x ask rfl rfl, hrun, fun y => core { L with w := w4 } w4 y ask4 rfl rfl⟩

/-- C106 for quantities. After `import unyts` and questions about single names, a quantity whose unit, or the new unit, is a
product or a ratio of the list converts by the sizes, `x` of `a` to `x` times the size of `a` over the size of `b`, and the
library converts between the two units from then on. -/
theorem C106_quantity_partial {w0 : World} {L : Lib} (hw : Started w0) (hφ : w0.fvf ≠ some 0) (hN : AskedNames w0 L)
    {l : List (Str × Rat)} (hl : l ∈ compoundSizes) {a b k : Str} {sa sb : Rat} (ma : (a, sa) ∈ l) (mb : (b, sb) ∈ l) (hab : a ≠ b)
    (hs : ¬ (Spec.SimpleName a ∧ Spec.SimpleName b)) (hb : b ∈ L.names k) (x : Rat) :
    ∃ L', Quantity.to ⟨.std k, a, x⟩ b L = (.ok (.qty ⟨.std k, b, x * sa / sb⟩), L') ∧ (Running w0 L → Running w0 L') ∧
      ∀ y, Quantity.to ⟨.std k, a, y⟩ b L' = (.ok (.qty ⟨.std k, b, y * sa / sb⟩), L') := by
  have hn := hw.shipped.network
  obtain ⟨hc, cs, hcs, e⟩ := id hN
  have hask : ∀ c ∈ cs, Asks c := fun c hc => asksNames_asks (hcs c hc)
  obtain ⟨ca, fa, ea, ta⟩ := compound_clean l hl _ ma
  obtain ⟨cb, fb, _, _⟩ := compound_clean l hl _ mb
  obtain ⟨k', q, hk, hq, hall⟩ := compound_reading hl
  obtain ⟨_, la, _⟩ := hall _ ma
  obtain ⟨_, lb, _⟩ := hall _ mb
  simp only at la lb fa fb ta
  simp only [List.mem_cons, List.not_mem_nil, or_false, not_or] at hq
  have := List.all_eq_true.1 (List.all_eq_true.1 (List.all_eq_true.1 compound_fits l hl) _ ma) _ mb
  rw [Bool.or_eq_true] at this
  rcases this with h | this
  · exact absurd (code_inj (Nat.eq_of_beq_eq_true h)) hab
  rw [Bool.and_eq_true, decide_eq_true_eq] at this
  obtain ⟨hfit, hsw⟩ := this
  obtain ⟨p, hp, hlen, he⟩ := hn.fits hfit
  obtain ⟨c, hac, hca⟩ : ∃ c, LinkedName w0.net a c ∧ LinkedName w0.net c a := by
    cases hp with
    | single => exact absurd rfl hab
    | step e _ => exact ⟨_, e⟩
  have one : ∀ {a b : Str} {p}, Chain (fun x y => LinkedName w0.net x y ∧ LinkedName w0.net y x) a b p →
      a = b ∨ IsName a ∧ IsName b := by
    intro a b p hp
    induction hp with
    | single => exact Or.inl rfl
    | step e hp ih =>
      refine Or.inr ⟨(hn.linked_names e.1).1, ?_⟩
      rcases ih with rfl | h
      · exact (hn.linked_names e.1).2
      · exact h.2
  obtain ⟨isA, isB⟩ := (one hp).resolve_left hab
  obtain ⟨f, na, nc, ena, enc, hf⟩ := hac
  have mna : na ∈ w0.net.nodes := by obtain ⟨l, hl, _⟩ := hf; exact List.mem_map.2 ⟨_, hl, rfl⟩
  obtain ⟨nb, q', mnb, enb, hch, hql⟩ := chain_bothWays hw.fresh.wf hn.distinct hp mna ena
  obtain ⟨r, hr, _⟩ := session_near hw.fresh hask hw.algorithm hn.distinct hw.edges (by have := hw.generations; omega)
    (a := a) (b := b) (by rw [← ena]; exact getNode_of_mem hn.distinct mna) ((show nb.name = b from enb) ▸ getNode_of_mem hn.distinct mnb) hch
    (by rw [hql]; exact he) (by have := hw.generations; omega)
  obtain ⟨w', h1, h2, h3⟩ := to_whole hw hN (cleanUnit_of ca) (cleanUnit_of cb) hab
    (hw.shipped.ordinary_any isA fa (by rw [la]; simp [hq]) (by rw [la]; simp [hq]))
    (hw.shipped.ordinary_any isB fb (by rw [lb]; simp [hq]) (by rw [lb]; simp [hq])) (not_swapped hsw)
    (not_tempRatios hw fun h f hf => ta h f (by rw [hf]; simp))
    (hw.shipped.noDensity_any fa fb (by rw [la]; simp [hq]) (by rw [lb]; simp [hq])) hs (by rw [e]; exact hr) hb
    (g := fun x => x * sa / sb) (fun x => by rw [e]; exact C106_exact_partial hw hφ hask hl ma mb none (Or.inr hcs) x) x
  exact ⟨_, h1, h2, h3⟩

/-- the hypotheses are met: after `import unyts`, `Energy(2, 'kW*h').to('Joule')` is 7 200 000 Joule -/
example : ∃ L : Lib, Started L.w ∧ ∃ L', Quantity.to ⟨.std s!!"Energy", s!!"kW*h", 2⟩ s!!"Joule" L =
    (.ok (.qty ⟨.std s!!"Energy", s!!"Joule", 7200000⟩), L') := by
  obtain ⟨w, hw, hp, hf⟩ := started_ex
  refine ⟨⟨w, [(s!!"Energy", [s!!"Joule", s!!"kW*h"])], [], [], fun _ => [], 0⟩, hw, ?_⟩
  have hN : AskedNames w ⟨w, [(s!!"Energy", [s!!"Joule", s!!"kW*h"])], [], [], fun _ => [], 0⟩ := ⟨by rw [hp], [], by simp, rfl⟩
  obtain ⟨L', h, _⟩ := C106_quantity_partial hw (by rw [hf]; simp) hN (l := compoundSizes[14]) (List.getElem_mem _) (k := s!!"Energy")
    (a := s!!"kW*h") (sa := 3600000) (b := s!!"Joule") (sb := 1) (by decide +kernel) (by decide +kernel) (by decide)
    (fun h => absurd h.1 (by unfold Spec.SimpleName; decide)) (show s!!"Joule" ∈ [s!!"Joule", s!!"kW*h"] from List.mem_cons_self) 2
  refine ⟨L', h.trans ?_⟩
  norm_num

/-- C119: what `get_density` returns can be given to `set_density`, and the density stays what it was. -/
theorem C119_round_trip {w0 : World} {L : Lib} (hw : Started w0) (hN : AskedNames w0 L) (hL : ShippedClasses L) {d : Rat}
    (hd : L.w.par.density = some d) (u : Str) :
    ((do let q ← getDensity; setDensity (.qty q) u) L).1 = .ok () ∧
      ((do let q ← getDensity; setDensity (.qty q) u) L).2.w.par = L.w.par := by
  obtain ⟨hc, cs, hcs, e⟩ := id hN
  have hask : ∀ c ∈ cs, Asks c := fun c hc => asksNames_asks (hcs c hc)
  have hbase := base_session hask hw.fresh.wf
  have hn := hw.shipped.network
  have la : labelOf s!!"g/cc" = some 10 := by decide +kernel
  have lb : labelOf s!!"g/cm3" = some 10 := by decide +kernel
  have cv : labelCv 10 s!!"g/cc" s!!"g/cm3" = some (.fn .x) := by decide +kernel
  have ca : CleanUnit s!!"g/cc" := cleanUnit_of (by decide)
  have cb : CleanUnit s!!"g/cm3" := cleanUnit_of (by decide)
  have fa : ∀ f ∈ factors s!!"g/cc", f.2 ≠ [] := by decide +kernel
  have fb : ∀ f ∈ factors s!!"g/cm3", f.2 ≠ [] := by decide +kernel
  have hsw : ¬ Swapped s!!"g/cc" s!!"g/cm3" := not_swapped (by decide +kernel)
  have hl : LinkedName w0.net s!!"g/cc" s!!"g/cm3" := hn.linked_at la (by rw [cv]; rfl)
  obtain ⟨na, nb, ea, eb, hdir⟩ := (hn.at la cv).2 rfl
  have mna : na ∈ w0.net.nodes := by obtain ⟨l, hl, _⟩ := hdir; exact List.mem_map.2 ⟨_, hl, rfl⟩
  have mnb := hw.fresh.wf.closed _ _ _ hdir
  have hback : Linked w0.net nb na := by
    obtain ⟨f, x, y, ex, ey, hf⟩ := (hn.back hl).2 (by decide)
    have mx : x ∈ w0.net.nodes := by obtain ⟨l, hl, _⟩ := hf; exact List.mem_map.2 ⟨_, hl, rfl⟩
    obtain rfl := hn.distinct _ mnb _ mx (eb.trans ex.symm)
    obtain rfl := hn.distinct _ mna _ (hw.fresh.wf.closed _ _ _ hf) (ea.trans ey.symm)
    exact ⟨f, hf⟩
  obtain ⟨r, hr, _⟩ := session_near hw.fresh hask hw.algorithm hn.distinct hw.edges (by have := hw.generations; omega)
    (a := s!!"g/cc") (b := s!!"g/cm3") (ea ▸ getNode_of_mem hn.distinct mna) (eb ▸ getNode_of_mem hn.distinct mnb)
    (p := [na, nb]) (.step ⟨⟨_, hdir⟩, hback⟩ (.single nb)) (noEarly_short (by simp)) (by have := hw.generations; simp; omega)
  have hT : ∀ f, (factors s!!"g/cc").head? = some f → labelOf f.2 ≠ some 1 := by decide +kernel
  obtain ⟨w', h1, _⟩ := to_whole hw hN ca cb (by decide) (hw.shipped.ordinary_any (hn.linked_names hl).1 fa (by rw [la]; simp) (by rw [la]; simp))
    (hw.shipped.ordinary_any (hn.linked_names hl).2 fb (by rw [lb]; simp) (by rw [lb]; simp)) hsw (not_tempRatios hw fun _ => hT)
    (hw.shipped.noDensity_any fa fb (by rw [la]; simp) (by rw [lb]; simp)) (fun h => absurd h.1 (by unfold Spec.SimpleName; decide))
    (by rw [e]; exact hr) (density_listed hL).2 (g := id)
    (fun x => by
      rw [e]
      exact direct_shipped hw hask (q := 10) (by decide) la lb cv (by decide) ca cb (by decide) fa fb hsw hT
        (fun h => absurd h.1 (by unfold Spec.SimpleName; decide)) none (Or.inr hcs) rfl) d
  have hb := (densityTo_base (q := ⟨.std s!!"Density", s!!"g/cc", d⟩) rfl s!!"g/cm3" (L := L)
    (by rw [e, hbase.net]; exact hw.fresh.wf)).1
  rw [h1] at hb
  have hnum : densityNumber (.qty ⟨.std s!!"Density", s!!"g/cc", d⟩) u L = (.ok (d, s!!"g/cm3"), { L with w := w' }) := by
    unfold densityNumber gcm3
    dsimp only
    rw [if_pos rfl, PyM.run_bind_ok h1]
    rfl
  have hs : setDensity (.qty ⟨.std s!!"Density", s!!"g/cc", d⟩) u L = storeDensity d { L with w := w' } := by
    unfold setDensity
    rw [PyM.run_bind_ok hnum]
    dsimp only
    rw [if_pos (by decide)]
  rw [PyM.run_bind_ok (getDensity_some hd (density_listed hL).1), hs]
  refine ⟨rfl, ?_⟩
  show ({ w'.par with density := some d } : Params) = L.w.par
  have : w'.par = L.w.par := hb.par
  rw [this, ← hd]

end Unyts

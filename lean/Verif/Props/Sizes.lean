import Verif.Lemmas.Sizes
import Verif.Spec.DemoSpeed
import Mathlib.Algebra.BigOperators.Ring.List

/-
C71: conversions of units of several names keep to the sizes of the units.
-/
namespace Unyts
open Spec
set_option maxRecDepth 1000000

variable {κ : Type}

theorem started_tinv {M : Measures κ} {w0 : World} (h0 : Fresh w0) (he : w0.edgesStr = none) {cs : List Call}
    (hc : ∀ c ∈ cs, KeepsFvf c) (F : M.Fits (session cs w0).net (session cs w0).dic (session cs w0).fvf)
    (hd : (session cs w0).dic = w0.dic) (hf : (session cs w0).fvf = w0.fvf) :
    TInv (session cs w0).net (session cs w0).dic (session cs w0).fvf M.GoodUnits (M.BadUnits (session cs w0).dic)
      M.sizeOf (session cs w0) := by
  refine F.typed.session hc ⟨h0.wf, ?_, hd.symm, hf.symm, ?_, ?_⟩ fun _ _ _ h => h
  · exact (session_grows cs h0.wf).2
  · intro l hl; rw [he] at hl; cases hl
  · intro a b e h; rw [h0.memory] at h; cases h

theorem run_keeps {c : Call} (hc : KeepsFvf c) {w : World} (hg : WF w.net) :
    (c.run w).dic = w.dic ∧ (c.run w).fvf = w.fvf := by
  have asks : Asks c → (c.run w).dic = w.dic ∧ (c.run w).fvf = w.fvf := by
    intro h
    have := base_asks h hg
    exact ⟨this.dic, this.fvf⟩
  cases c with
  | convert v a b uc => exact asks trivial
  | convertible a b uc => exact asks trivial
  | simPandas v a b uc => exact asks trivial
  | search a b => exact asks trivial
  | setUnit a =>
    obtain ⟨g, h1, _⟩ := setUnit_spec hg a
    simp only [Call.run, setUnitW, h1, and_self]
  | setConversion a b f rev =>
    obtain ⟨g, na, nb, h1, _⟩ := setConversion_spec hg a b f rev
    simp only [Call.run, setConversionW, h1, and_self]
  | setFvf b => cases hc
  | cleanMemory => exact ⟨rfl, rfl⟩
  | settings p => exact ⟨rfl, rfl⟩

theorem session_keeps {cs : List Call} (hc : ∀ c ∈ cs, KeepsFvf c) {w : World} (hg : WF w.net) :
    (session cs w).dic = w.dic ∧ (session cs w).fvf = w.fvf := by
  induction cs generalizing w with
  | nil => exact ⟨rfl, rfl⟩
  | cons c cs ih =>
    obtain ⟨h1, h2⟩ := run_keeps (hc c List.mem_cons_self) hg
    obtain ⟨h3, h4⟩ := ih (fun c' h => hc c' (List.mem_cons_of_mem _ h)) (run_grows c hg).1
    exact ⟨h3.trans h1, h4.trans h2⟩

theorem sizeOf_ne {M : Measures κ} {g : Net} {d : Dict} {fvf : Option Rat} (F : M.Fits g d fvf) {u : Str}
    (h : M.Covers u) : M.sizeOf u ≠ 0 := by
  rw [Measures.sizeOf_covers h]
  refine List.prod_ne_zero fun e => ?_
  obtain ⟨f, hf, e⟩ := List.mem_map.1 e
  obtain ⟨k, hk⟩ := Option.isSome_iff_exists.1 (h.kind hf)
  have := (F.name _ _ hk).2.2.1
  unfold Measures.factorSize at e
  split at e
  · exact this (by simpa using e)
  · exact this e

/-- C71. Take measures that agree with the network: every conversion of the network between names of the quantity in
question, or of another of the kinds, multiplies by the quotient of the sizes. Then, after any session that starts in a
fresh process (conversions, questions, new units and conversions, settings, in any number and order, with any algorithm
and cache), when the library converts between two units of the quantity, be they single names, ratios or products, the
answer is the number times the quotient of the sizes of the units. -/
theorem C71_sizes_partial (M : Measures κ) {w0 : World} (h0 : Fresh w0) (he : w0.edgesStr = none) {cs : List Call}
    (hc : ∀ c ∈ cs, KeepsFvf c) {w : World} (hw : w = session cs w0) (F : M.Fits w.net w.dic w.fvf) {a b : Str}
    (ha : CleanUnit a) (hb : CleanUnit b) (ca : M.Covers a) (cb : M.Covers b) (hd : ¬ DensityPair w.dic a b)
    {uc : Option Bool} {x : Rat} {c : Conv} {w' : World}
    (h : convert (some x) (some a) (some b) uc w = (.ok (some c), w')) :
    c = .num (x * M.sizeOf a / M.sizeOf b) := by
  subst hw
  obtain ⟨k1, k2⟩ := session_keeps hc h0.wf
  have hT := started_tinv h0 he hc F k1 k2
  obtain ⟨_, y, rfl, e⟩ := F.typed.convert hT ha hb hd (Or.inl (Or.inl ⟨ca, cb⟩)) h
  rw [← e, mul_div_assoc, div_self (sizeOf_ne F cb), mul_one]

/-- C71, consequence: whatever was converted before, between or after, converting to `b` and on to `c` gives what
converting to `c` gives; in particular (`c = a`) there and back gives the number one started with. -/
theorem C71_transitive_partial (M : Measures κ) {w0 : World} (h0 : Fresh w0) (he : w0.edgesStr = none)
    {cs ds es : List Call} (hc : ∀ c ∈ cs, KeepsFvf c) (hds : ∀ c ∈ ds, Asks c) (hes : ∀ c ∈ es, Asks c) {w : World}
    (hw : w = session cs w0) (F : M.Fits w.net w.dic w.fvf) {a b c : Str} (ha : CleanUnit a) (hb : CleanUnit b)
    (hcc : CleanUnit c) (ca : M.Covers a) (cb : M.Covers b) (cc : M.Covers c) (dab : ¬ DensityPair w.dic a b)
    (dbc : ¬ DensityPair w.dic b c) {uc1 uc2 : Option Bool} {x y : Rat} {z : Conv} {w1 w2 : World}
    (r1 : convert (some x) (some a) (some b) uc1 (session ds w) = (.ok (some (.num y)), w1))
    (r2 : convert (some y) (some b) (some c) uc2 (session es w) = (.ok (some z), w2)) :
    z = .num (x * M.sizeOf a / M.sizeOf c) := by
  have keeps : ∀ c, Asks c → KeepsFvf c := by intro c hc; cases c <;> trivial
  have step : ∀ ds : List Call, (∀ c ∈ ds, Asks c) → session ds w = session (cs ++ ds) w0 ∧
      SameBase w (session ds w) := by
    intro ds hds
    refine ⟨by rw [hw]; unfold session; rw [List.foldl_append], base_session hds ?_⟩
    rw [hw]; exact (session_grows cs h0.wf).1
  have both : ∀ ds : List Call, (∀ c ∈ ds, Asks c) → ∀ c ∈ cs ++ ds, KeepsFvf c := by
    intro ds hds c hc'
    rcases List.mem_append.1 hc' with h | h
    · exact hc c h
    · exact keeps c (hds c h)
  obtain ⟨e1, b1⟩ := step ds hds
  obtain ⟨e2, b2⟩ := step es hes
  have h1 := C71_sizes_partial M h0 he (both ds hds) e1 (by rw [b1.net, b1.dic, b1.fvf]; exact F) ha hb ca cb
    (by rw [b1.dic]; exact dab) r1
  have h2 := C71_sizes_partial M h0 he (both es hes) e2 (by rw [b2.net, b2.dic, b2.fvf]; exact F) hb hcc cb cc
    (by rw [b2.dic]; exact dbc) r2
  rw [h2]
  simp only [Conv.num.injEq] at h1
  rw [h1, div_mul_cancel₀ _ (sizeOf_ne F cb)]

/-- C71, the other direction: a unit of the quantity is never converted to a ratio or product that lacks, for each form
of the quantity, one of its kinds (`hl`; outer blanks apart). -/
theorem C71_other_quantity (M : Measures κ) {w0 : World} (h0 : Fresh w0) (he : w0.edgesStr = none) {cs : List Call}
    (hc : ∀ c ∈ cs, KeepsFvf c) {w : World} (hw : w = session cs w0) (F : M.Fits w.net w.dic w.fvf) {a b : Str}
    (ha : CleanUnit a) (hb : CleanUnit b) (ca : M.Covers a) (sb : ¬ SimpleName b)
    (nb : Py.lower b ∉ w.dic.dimensionless)
    (hl : ∀ τ ∈ M.forms, ∃ p ∈ τ, ∀ t ∈ factors b, M.kind (Py.stripWs t.2) ≠ some p.2)
    (hd : ¬ DensityPair w.dic a b) {uc : Option Bool} {v : Option Rat} {c : Conv} {w' : World} :
    convert v (some a) (some b) uc w ≠ (.ok (some c), w') := by
  intro h
  subst hw
  obtain ⟨k1, k2⟩ := session_keeps hc h0.wf
  have hT := started_tinv h0 he hc F k1 k2
  have hp : isPair b = true := by
    cases h : isPair b with
    | true => rfl
    | false => exact absurd (simple_iff_not_isPair.2 h) sb
  have hbad : M.BadUnits (session cs w0).dic a b := ⟨Or.inl ⟨ca, ca⟩, Or.inr ⟨ca, hp, nb, hl⟩⟩
  obtain ⟨hg, _⟩ := F.typed.convert hT ha hb hd (Or.inr hbad) h
  exact F.typed.apart hbad (by
    rcases hg with hg | ⟨k, h1, _, _, h2, h3⟩
    · exact Or.inl hg
    · exact Or.inr ⟨k, h1, h2, h3⟩)

/-- C71, the same for single names: names of different kinds are never converted to each other. -/
theorem C71_other_kind (M : Measures κ) {w0 : World} (h0 : Fresh w0) (he : w0.edgesStr = none) {cs : List Call}
    (hc : ∀ c ∈ cs, KeepsFvf c) {w : World} (hw : w = session cs w0) (F : M.Fits w.net w.dic w.fvf) {a b : Str}
    (ha : CleanName a) (hb : CleanName b) {k : κ} (ka : M.kind a = some k) (kb : M.kind b ≠ some k)
    (hd : ¬ DensityPair w.dic a b) {uc : Option Bool} {v : Option Rat} {c : Conv} {w' : World} :
    convert v (some a) (some b) uc w ≠ (.ok (some c), w') := by
  intro h
  subst hw
  obtain ⟨k1, k2⟩ := session_keeps hc h0.wf
  have hT := started_tinv h0 he hc F k1 k2
  have hn : ¬ M.GoodUnits a b := by
    intro hg
    obtain ⟨k', h1, h2⟩ := (F.same_kind ha.2 hb.2).1 hg
    rw [ka] at h1
    cases h1
    exact kb h2
  have hbad : M.BadUnits (session cs w0).dic a b :=
    ⟨(F.same_kind ha.2 ha.2).2 ⟨k, ka, ka⟩, Or.inl ⟨ha.2, hb.2, hn⟩⟩
  exact hn (F.typed.convert hT ha.1 hb.1 hd (Or.inr hbad) h).1

/-- a session: another algorithm, then a conversion -/
def DemoSpeed.calls : List Call :=
  [.settings { algorithm := .bfs }, .convert (some 1) (some s!!"km/h") (some s!!"kph") none]

theorem DemoSpeed.keeps : ∀ c ∈ DemoSpeed.calls, KeepsFvf c := by
  intro c hc
  simp only [calls, List.mem_cons, List.not_mem_nil, or_false] at hc
  rcases hc with rfl | rfl <;> trivial

theorem DemoSpeed.later_net : (session DemoSpeed.calls DemoSpeed.world).net = DemoSpeed.net :=
  (base_asks (c := .convert (some 1) (some s!!"km/h") (some s!!"kph") none) trivial
    (w := Call.run (.settings { algorithm := .bfs }) DemoSpeed.world) DemoSpeed.wf).net

/-- The hypotheses are met: kilometres and metres, hours and seconds, and a name for kilometres per hour, after a
session that changes the algorithm and converts. -/
example : Fresh DemoSpeed.world ∧ DemoSpeed.world.edgesStr = none ∧
    DemoSpeed.measures.Fits (session DemoSpeed.calls DemoSpeed.world).net (session DemoSpeed.calls DemoSpeed.world).dic
      (session DemoSpeed.calls DemoSpeed.world).fvf ∧
    DemoSpeed.measures.Covers s!!"kph" ∧ DemoSpeed.measures.Covers s!!"m/s" ∧
    CleanUnit s!!"kph" ∧ CleanUnit s!!"m/s" ∧
    ¬ DensityPair (session DemoSpeed.calls DemoSpeed.world).dic s!!"kph" s!!"m/s" := by
  obtain ⟨e1, e2⟩ := session_keeps DemoSpeed.keeps DemoSpeed.fresh.wf
  refine ⟨DemoSpeed.fresh, rfl, ?_,
    DemoSpeed.covers_of (τ := [(false, 2)]) (by decide) (by decide),
    DemoSpeed.covers_of (τ := [(false, 0), (true, 1)]) (by decide) (by decide),
    Demo.cleanUnit_of (by decide), Demo.cleanUnit_of (by decide), by rw [e1]; exact Demo.noDensity _ _⟩
  rw [e1, e2, DemoSpeed.later_net]
  exact DemoSpeed.fits _

/-- and the library does answer, by way of the ratio `km/h`: 36 kph are 10 m/s -/
example : numOf (convert (some 36) (some s!!"kph") (some s!!"m/s") none (session DemoSpeed.calls DemoSpeed.world)).1 =
      some 10 ∧
    36 * DemoSpeed.measures.sizeOf s!!"kph" / DemoSpeed.measures.sizeOf s!!"m/s" = 10 ∧
    numOf (convert (some 10) (some s!!"m/s") (some s!!"kph") none DemoSpeed.world).1 = some 36 ∧
    numOf (convert (some 1) (some s!!"m/h") (some s!!"km/s") none DemoSpeed.world).1 = some (1 / 3600000) := by
  decide +kernel

/-- and for the direction never taken: `km/h` and `km*m` -/
example : ∀ τ ∈ DemoSpeed.measures.forms, ∃ p ∈ τ, ∀ t ∈ factors s!!"km*m",
    DemoSpeed.measures.kind (Py.stripWs t.2) ≠ some p.2 := by decide

/-- C71, what fails without the conditions on the forms. Signs are not looked at when parts are matched: a kilometre
"is" a thousandth of `h/m*m*m/h`, which is a metre; and a ratio is inverted when the target is written with the same two
names in the opposite order, though both measure the same: 5 km/m are 5000, that is 5 000 000 m/km, not 1/5. -/
theorem C71_sizes_fails :
    numOf (convert (some 1) (some s!!"km") (some s!!"h/m*m*m/h") none DemoSpeed.world).1 = some (1 / 1000) ∧
    DemoSpeed.measures.sizeOf s!!"km" / DemoSpeed.measures.sizeOf s!!"h/m*m*m/h" = 1000 ∧
    numOf (convert (some 5) (some s!!"km/m") (some s!!"m/km") none DemoSpeed.world).1 = some (1 / 5) ∧
    5 * DemoSpeed.measures.sizeOf s!!"km/m" / DemoSpeed.measures.sizeOf s!!"m/km" = 5000000 := by decide +kernel

end Unyts

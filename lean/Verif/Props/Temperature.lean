import Verif.Lemmas.ConvParts
import Verif.Lemmas.ConvSelf
import Verif.Model.Temperature
import Verif.Spec.DemoWorld
import Mathlib.Tactic.FieldSimp
import Mathlib.Tactic.NormNum
import Mathlib.Tactic.Linarith

/-
C23, C54: temperatures and temperature gradients.
-/
namespace Unyts
open Spec

/-! ### C54 -/

/-- size of a degree of each scale, in kelvins -/
def degree (s : Str) : Rat :=
  if s = s!!"Celsius" ∨ s = s!!"Kelvin" then 1 else 5 / 9

/-- reading of the absolute zero on each scale -/
def absoluteZero (s : Str) : Rat :=
  if s = s!!"Celsius" then -27315 / 100 else if s = s!!"Fahrenheit" then -45967 / 100 else 0

/-- the absolute temperature, in kelvins, of a reading on a scale -/
def kelvins (n : UNode) (x : Rat) : Rat := (x - absoluteZero n.name) * degree n.name

theorem temperature_cases {a b : UNode} {f : Fn} (h : Direct temperatureNet a b f) :
    (a = celsius ∧ b = kelvin ∧ f = fun _ t => .ok (t + 27315 / 100)) ∨
    (a = celsius ∧ b = fahrenheit ∧ f = fun _ t => .ok (t * 9 / 5 + 32)) ∨
    (a = kelvin ∧ b = celsius ∧ f = fun _ t => .ok (t - 27315 / 100)) ∨
    (a = kelvin ∧ b = rankine ∧ f = fun _ t => .ok (t * 9 / 5)) ∨
    (a = fahrenheit ∧ b = celsius ∧ f = fun _ t => .ok ((t - 32) * 5 / 9)) ∨
    (a = fahrenheit ∧ b = rankine ∧ f = fun _ t => .ok (t + 45967 / 100)) ∨
    (a = rankine ∧ b = fahrenheit ∧ f = fun _ t => .ok (t - 45967 / 100)) ∨
    (a = rankine ∧ b = kelvin ∧ f = fun _ t => .ok (t * 5 / 9)) := by
  obtain ⟨l, hl, hf⟩ := h
  simp only [temperatureNet, List.mem_cons, List.not_mem_nil, or_false, Prod.mk.injEq] at hl
  rcases hl with ⟨rfl, rfl⟩ | ⟨rfl, rfl⟩ | ⟨rfl, rfl⟩ | ⟨rfl, rfl⟩ <;>
    simp only [List.mem_cons, List.not_mem_nil, or_false, Prod.mk.injEq] at hf <;>
    rcases hf with ⟨rfl, rfl⟩ | ⟨rfl, rfl⟩ <;> simp

theorem degree_ne (s : Str) : degree s ≠ 0 := by unfold degree; split <;> norm_num

/-- C54. The eight conversions agree with the absolute temperature: the number and its conversion are the same
temperature. -/
theorem C54_absolute (fvf : Option Rat) : Consistent temperatureNet fvf kelvins where
  inj := by
    intro n x y h
    have := mul_right_cancel₀ (degree_ne n.name) h
    linarith
  edge := by
    intro a b f x y h hf
    have z1 : absoluteZero celsius.name = -27315 / 100 := by rfl
    have z2 : absoluteZero kelvin.name = 0 := by rfl
    have z3 : absoluteZero fahrenheit.name = -45967 / 100 := by rfl
    have z4 : absoluteZero rankine.name = 0 := by rfl
    have d1 : degree celsius.name = 1 := by rfl
    have d2 : degree kelvin.name = 1 := by rfl
    have d3 : degree fahrenheit.name = 5 / 9 := by rfl
    have d4 : degree rankine.name = 5 / 9 := by rfl
    rcases temperature_cases h with h | h | h | h | h | h | h | h <;> obtain ⟨rfl, rfl, rfl⟩ := h <;>
      simp only [Except.ok.injEq] at hf <;> subst hf <;>
      simp only [kelvins, z1, z2, z3, z4, d1, d2, d3, d4] <;> linarith

/-- C54. Converting along any cycle, of any length, returns the original number. -/
theorem C54_cycles (fvf : Option Rat) (a : UNode) (p : List UNode) (f : Fn) (hp : Along temperatureNet p f)
    (h1 : p.head? = some a) (h2 : p.getLast? = some a) (x : Rat) : f fvf x = .ok x := by
  have htot : ∀ (p : List UNode) (f : Fn), Along temperatureNet p f → ∀ x, ∃ y, f fvf x = .ok y := by
    intro p f hp
    induction hp with
    | single a => intro x; exact ⟨x, rfl⟩
    | @step a b p f h hd _ ih =>
      intro x
      have : ∃ y, f fvf x = .ok y := by
        rcases temperature_cases hd with h | h | h | h | h | h | h | h <;> obtain ⟨_, _, rfl⟩ := h <;> exact ⟨_, rfl⟩
      obtain ⟨y, hy⟩ := this
      obtain ⟨z, hz⟩ := ih y
      refine ⟨z, ?_⟩
      show (f fvf x).bind (h fvf) = _
      rw [hy]; exact hz
  obtain ⟨y, hy⟩ := htot p f hp x
  rw [hy, (C54_absolute fvf).inj a y x (Along.reads (C54_absolute fvf) hp h1 h2 hy)]

/-- C54. Two chains of conversions between the same scales give the same number. -/
theorem C54_chains (fvf : Option Rat) (a b : UNode) (p q : List UNode) (f g : Fn) (hp : Along temperatureNet p f)
    (hq : Along temperatureNet q g) (p1 : p.head? = some a) (p2 : p.getLast? = some b) (q1 : q.head? = some a)
    (q2 : q.getLast? = some b) (x y z : Rat) (hy : f fvf x = .ok y) (hz : g fvf x = .ok z) : y = z :=
  (C54_absolute fvf).inj b y z ((Along.reads (C54_absolute fvf) hp p1 p2 hy).trans
    (Along.reads (C54_absolute fvf) hq q1 q2 hz).symm)

example : (do let p ← temperatureNet.bfs fahrenheit kelvin
              match p with
              | some p => applyConversion temperatureNet none 212 p
              | none => .error .noConversionFound) = .ok (37315/100) ∧
    kelvins fahrenheit 212 = 37315/100 ∧ kelvins celsius 100 = 37315/100 := by decide +kernel

/-! ### C23 -/

/-- C23, the table: between any two names of two scales the library's ratio is the ratio of the sizes of the degrees. -/
theorem C23_table : ∀ s1 ∈ temperatureNames, ∀ t1 ∈ s1.2, ∀ s2 ∈ temperatureNames, ∀ t2 ∈ s2.2,
    Py.dictGet temperatureRatioConversions (t1, t2) = some (degree s1.1 / degree s2.1) := by
  decide +kernel

/-- C23, what the size of a degree means: along any chain of the built-in conversions, a difference of temperatures is
converted with the ratio of the sizes of the degrees, the offsets cancel. -/
theorem C23_differences (fvf : Option Rat) (a b : UNode) (p : List UNode) (f : Fn) (hp : Along temperatureNet p f)
    (h1 : p.head? = some a) (h2 : p.getLast? = some b) (x δ y z : Rat) (hy : f fvf x = .ok y)
    (hz : f fvf (x + δ) = .ok z) : z - y = δ * (degree a.name / degree b.name) := by
  have e1 := Along.reads (C54_absolute fvf) hp h1 h2 hy
  have e2 := Along.reads (C54_absolute fvf) hp h1 h2 hz
  unfold kelvins at e1 e2
  have hb := degree_ne b.name
  field_simp
  linarith

theorem budget3 {p : Params} (h1 : 2 ≤ p.maxRecursion) (h2 : 17 ≤ p.pyLimit) : ∃ n, topBudget p = n + 3 := by
  refine ⟨topBudget p - 3, ?_⟩
  simp only [topBudget, recLimit]
  omega

theorem memHit_resolved (w : World) (uc : Option Bool) (a b : Str) :
    memHit w (some (resolveCache w uc)) a b = memHit w uc a b := by
  unfold memHit resolveCache; rfl

theorem tempParts_of {d : Dict} {t1 d1 t2 d2 : Str} (a1 : '/' ∉ t1) (a2 : '/' ∉ d1) (a3 : '/' ∉ t2) (a4 : '/' ∉ d2)
    (m1 : t1 ∈ d.temperature) (m2 : t2 ∈ d.temperature) :
    tempParts d (t1 ++ '/' :: d1) (t2 ++ '/' :: d2) = some (t1, d1, t2, d2) := by
  unfold tempParts
  rw [ratioParts_ratio a1 a2, ratioParts_ratio a3 a4]
  simp [m1, m2]

theorem quick1_ordinary {w : World} {a b : Str} (hne : a ≠ b) (oa : Ordinary w.dic a) : quick1 w.dic w.net a b = none := by
  unfold quick1
  rw [if_neg hne, if_neg (fun h => oa.date h.1), if_neg (fun h => oa.dimensionless h.1),
    if_neg (fun h => oa.percentage h.1), if_neg (fun h => oa.dimensionless h.1)]

/-- C23. A temperature divided by a unit converts to a temperature divided by another with the number the table holds
for the two temperatures, divided by the conversion of one unit of the denominator. (The pair of units is new or the
cache is off; the limits leave room for two nested calls: the library starts with 12.) -/
theorem C23_gradient (w w1 : World) (hw : Reachable w) (hr : 2 ≤ w.par.maxRecursion) (hl : 17 ≤ w.par.pyLimit)
    (t1 d1 t2 d2 : Str) (c1 : CleanUnit (t1 ++ '/' :: d1)) (c2 : CleanUnit (t2 ++ '/' :: d2)) (n1 : '/' ∉ t1)
    (n2 : '/' ∉ t2) (h1 : CleanName d1) (h2 : CleanName d2) (m1 : t1 ∈ w.dic.temperature) (m2 : t2 ∈ w.dic.temperature)
    (hne : t1 ++ '/' :: d1 ≠ t2 ++ '/' :: d2) (oa : Ordinary w.dic (t1 ++ '/' :: d1)) (uc : Option Bool)
    (hf : uc.getD w.par.cache = false ∨ Py.dictGet w.memory (t1 ++ '/' :: d1, t2 ++ '/' :: d2) = none)
    (hd : ¬ DensityPair w.dic (t1 ++ '/' :: d1) (t2 ++ '/' :: d2)) (hd' : ¬ DensityPair w.dic d1 d2) (k den : Rat)
    (hk : Py.dictGet w.dic.tempRatio (t1, t2) = some k)
    (hden : convert (some 1) (some d1) (some d2) uc w = (.ok (some (.num den)), w1)) (h0 : den ≠ 0) (x : Rat) :
    (convert (some x) (some (t1 ++ '/' :: d1)) (some (t2 ++ '/' :: d2)) uc w).1 = .ok (some (.num (x * k / den))) := by
  have hs := sound_of_reachable hw
  obtain ⟨n, hn⟩ := budget3 hr hl
  obtain ⟨p, hp⟩ := getConv_of_convert hs h1 h2 hd' hden n []
  have hg : getConv (n + 2) uc (some x) (t1 ++ '/' :: d1) (t2 ++ '/' :: d2) { w with previous := [] } =
      (ansRes (some x) (fun _ x => pdiv (x * k) den) ([.str ['*'], .num k, .str ['/'], .num 1] ++ p)
        (w1.withPrev []).fvf, w1.withPrev []) := by
    rw [getConv_temp (n + 1) uc (some x) (t1 := t1) (d1 := d1) (t2 := t2) (d2 := d2) { w with previous := [] }
      (memHit_none (w := { w with previous := [] }) hf) (quick1_ordinary (w := { w with previous := [] }) hne oa)
      (tempParts_of n1 h1.2.1 n2 h2.2.1 m1 m2)]
    refine tempConversion_ok (w := { w with previous := [] }) hk ?_
    have hp' : getConv (n + 1) uc (some 1) d1 d2 { w with previous := [] } = (.ok (some (.num den, p)), w1.withPrev []) := hp
    rw [← hp', getConv_eq n _ (some 1) { w with previous := [] } (tempParts_noSlash h1.2.1),
      getConv_eq n uc (some 1) { w with previous := [] } (tempParts_noSlash h1.2.1), memHit_resolved]
  rw [convert_of_getConv hs.1.wf c1 c2 hd hn (ansRes_not_none _ _ _ _) hg]
  have : pdiv (x * k) den = .ok (x * k / den) := by rw [pdiv, if_neg h0]
  simp only [ansRes, this]
  rfl

/-- C23 with the library's table: between names of the four scales the factor is the ratio of the sizes of the degrees
over the conversion of the denominator. -/
theorem C23_library (w w1 : World) (hw : Reachable w) (hr : 2 ≤ w.par.maxRecursion) (hl : 17 ≤ w.par.pyLimit)
    (htab : w.dic.tempRatio = temperatureRatioConversions) (s1 s2 : Str × List Str) (hs1 : s1 ∈ temperatureNames)
    (hs2 : s2 ∈ temperatureNames) (t1 d1 t2 d2 : Str) (k1 : t1 ∈ s1.2) (k2 : t2 ∈ s2.2)
    (m1 : t1 ∈ w.dic.temperature) (m2 : t2 ∈ w.dic.temperature) (h1 : CleanName d1) (h2 : CleanName d2) (e1 : d1 ≠ [])
    (e2 : d2 ≠ []) (hne : t1 ++ '/' :: d1 ≠ t2 ++ '/' :: d2) (oa : Ordinary w.dic (t1 ++ '/' :: d1)) (uc : Option Bool)
    (hf : uc.getD w.par.cache = false ∨ Py.dictGet w.memory (t1 ++ '/' :: d1, t2 ++ '/' :: d2) = none)
    (hd : ¬ DensityPair w.dic (t1 ++ '/' :: d1) (t2 ++ '/' :: d2)) (hd' : ¬ DensityPair w.dic d1 d2) (den : Rat)
    (hden : convert (some 1) (some d1) (some d2) uc w = (.ok (some (.num den)), w1)) (h0 : den ≠ 0) (x : Rat) :
    (convert (some x) (some (t1 ++ '/' :: d1)) (some (t2 ++ '/' :: d2)) uc w).1 =
      .ok (some (.num (x * (degree s1.1 / degree s2.1) / den))) := by
  have hcl : ∀ s ∈ temperatureNames, ∀ t ∈ s.2, '(' ∉ t ∧ ')' ∉ t ∧
      (∀ c ∈ t.head?.toList ++ t.getLast?.toList, c ∉ [' ', '"', '\'']) ∧ t ≠ s!!"Empty" ∧ '/' ∉ t ∧ '*' ∉ t ∧ t ≠ [] := by
    decide +kernel
  have q1 := hcl s1 hs1 t1 k1
  have q2 := hcl s2 hs2 t2 k2
  have cn1 : CleanName t1 := Demo.cleanName_of ⟨q1.1, q1.2.1, q1.2.2.1, q1.2.2.2.1, q1.2.2.2.2.1, q1.2.2.2.2.2.1⟩
  have cn2 : CleanName t2 := Demo.cleanName_of ⟨q2.1, q2.2.1, q2.2.2.1, q2.2.2.2.1, q2.2.2.2.2.1, q2.2.2.2.2.2.1⟩
  exact C23_gradient w w1 hw hr hl t1 d1 t2 d2 (cleanUnit_ratio cn1 h1 q1.2.2.2.2.2.2 e1 '/' (Or.inl rfl))
    (cleanUnit_ratio cn2 h2 q2.2.2.2.2.2.2 e2 '/' (Or.inl rfl)) cn1.2.1 cn2.2.1 h1 h2 m1 m2 hne oa uc hf hd hd' _ den
    (by rw [htab]; exact C23_table s1 hs1 t1 k1 s2 hs2 t2 k2) hden h0 x

/-- C23, where it fails: for temperatures the table does not list (the loader adds spellings such as 'CELSIUS' to the
dictionary after the table has been written, dictionaries.py:560-565) the answer is KeyError for every number. -/
theorem C23_missing_spelling (w : World) (hw : Reachable w)
    (t1 d1 t2 d2 : Str) (c1 : CleanUnit (t1 ++ '/' :: d1)) (c2 : CleanUnit (t2 ++ '/' :: d2)) (n1 : '/' ∉ t1)
    (n2 : '/' ∉ t2) (n3 : '/' ∉ d1) (n4 : '/' ∉ d2) (m1 : t1 ∈ w.dic.temperature) (m2 : t2 ∈ w.dic.temperature)
    (hne : t1 ++ '/' :: d1 ≠ t2 ++ '/' :: d2) (oa : Ordinary w.dic (t1 ++ '/' :: d1)) (uc : Option Bool)
    (hf : uc.getD w.par.cache = false ∨ Py.dictGet w.memory (t1 ++ '/' :: d1, t2 ++ '/' :: d2) = none)
    (hd : ¬ DensityPair w.dic (t1 ++ '/' :: d1) (t2 ++ '/' :: d2))
    (hk : Py.dictGet w.dic.tempRatio (t1, t2) = none) (x : Rat) :
    (convert (some x) (some (t1 ++ '/' :: d1)) (some (t2 ++ '/' :: d2)) uc w).1.map (fun _ => ()) = .error .keyError := by
  have hs := sound_of_reachable hw
  obtain ⟨n, hn⟩ := ample_budget hs.2
  have hg : getConv (n + 1) uc (some x) (t1 ++ '/' :: d1) (t2 ++ '/' :: d2) { w with previous := [] } =
      (.error .keyError, { w with previous := [] }) := by
    rw [getConv_temp n uc (some x) (t1 := t1) (d1 := d1) (t2 := t2) (d2 := d2) { w with previous := [] }
      (memHit_none (w := { w with previous := [] }) hf) (quick1_ordinary (w := { w with previous := [] }) hne oa)
      (tempParts_of n1 n3 n2 n4 m1 m2)]
    unfold tempConversion
    have hk' : Py.dictGet ({ w with previous := [] } : World).dic.tempRatio (t1, t2) = none := hk
    rw [PyM.run_bind_ok (PyM.run_get _), hk']
    rfl
  rw [convert_of_getConv hs.1.wf c1 c2 hd hn (by simp) hg]
  rfl

/-- a process with the temperatures of the library and the lengths of the example network -/
def warmWorld : World :=
  { Demo.world with dic := { temperature := s!!"CELSIUS" :: temperatureNames.flatMap (·.2), tempRatio := temperatureRatioConversions } }

example : Reachable warmWorld := ⟨warmWorld, [], ⟨Demo.wf, rfl, rfl, by unfold Ample; decide⟩, by simp, rfl⟩

example : numOf (convert (some 1) (some s!!"ft") (some s!!"yd") none warmWorld).1 = some (1/3) ∧
    numOf (convert (some 10) (some s!!"Kelvin/ft") (some s!!"deg F/yd") none warmWorld).1 = some 54 ∧
    s!!"CELSIUS" ∈ warmWorld.dic.temperature ∧
    Py.dictGet warmWorld.dic.tempRatio (s!!"CELSIUS", s!!"Kelvin") = none ∧
    (convert (some 10) (some s!!"CELSIUS/ft") (some s!!"Kelvin/yd") none warmWorld).1.map (fun _ => ()) =
      .error .keyError := by
  decide +kernel

end Unyts

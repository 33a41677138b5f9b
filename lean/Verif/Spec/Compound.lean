import Verif.Spec.Session
import Verif.Spec.UnitString

/- Vocabulary about units made of several names. -/
namespace Unyts.Spec

/-- `a` and `b` are ratios of each other's terms in the opposite order, up to outer blanks: the library inverts the
number. -/
def Swapped (a b : Str) : Prop := ∃ x y z t, '/' ∉ x ∧ '/' ∉ y ∧ '/' ∉ z ∧ '/' ∉ t ∧ a = x ++ '/' :: y ∧
  b = z ++ '/' :: t ∧ Py.stripWs x = Py.stripWs t ∧ Py.stripWs y = Py.stripWs z

/-- `a` and `b` are both a temperature divided by something. -/
def TempRatios (d : Dict) (a b : Str) : Prop := ∃ t1 d1 t2 d2, '/' ∉ t1 ∧ '/' ∉ d1 ∧ '/' ∉ t2 ∧ '/' ∉ d2 ∧
  a = t1 ++ '/' :: d1 ∧ b = t2 ++ '/' :: d2 ∧ t1 ∈ d.temperature ∧ t2 ∈ d.temperature

/-- The library knows no conversion of the whole unit `a` to the whole unit `b`: they are different, fall under no
special rule, are not both names of the network, and nothing is remembered about them (or the cache is not used). -/
structure NotWhole (w : World) (uc : Option Bool) (a b : Str) : Prop where
  ne : a ≠ b
  ordA : Ordinary w.dic a
  ordB : Ordinary w.dic b
  notSwapped : ¬ Swapped a b
  notTemp : ¬ TempRatios w.dic a b
  notDensity : ¬ DensityPair w.dic a b
  unknown : ¬ ((∃ n ∈ w.net.nodes, n.name = a) ∧ ∃ n ∈ w.net.nodes, n.name = b)
  forgotten : uc.getD w.par.cache = false ∨ Py.dictGet w.memory (a, b) = none

/-- A ratio of exactly two terms. -/
def IsRatio (a : Str) : Prop := ∃ x y, '/' ∉ x ∧ '/' ∉ y ∧ a = x ++ '/' :: y

/-- The factors `fs` convert one by one to the factors `ts`: one unit of each is converted with `convert`, in the state
the previous conversion left, and gives the number listed in `ks`, inverted for the factors in the denominator. `w'` is
the state after the last. -/
inductive PartsConvert (uc : Option Bool) : World → List Factor → List Factor → List Rat → World → Prop
  | nil (w : World) : PartsConvert uc w [] [] [] w
  | cons {w w1 w2 : World} {den : Bool} {f t : Str} {fs ts : List Factor} {k : Rat} {ks : List Rat} :
      CleanName f → CleanName t → ¬ DensityPair w.dic f t →
      convert (some 1) (some f) (some t) uc w = (.ok (some (.num k)), w1) → (den = true → k ≠ 0) →
      PartsConvert uc w1 fs ts ks w2 →
      PartsConvert uc w ((den, f) :: fs) ((den, t) :: ts) ((if den then 1 / k else k) :: ks) w2

end Unyts.Spec

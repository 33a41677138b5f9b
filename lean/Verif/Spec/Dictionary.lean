import Verif.Model.Dictionary

/- Vocabulary about the dictionary of units: which names it lists, and which ratios and products it is meant to list. -/
namespace Unyts.Spec

/-- `u in dictionary[k]` -/
def Lists (d : UnitDict) (k u : Str) : Prop := ∃ l, Py.dictGet d k = some l ∧ u ∈ l

/-- `a/b` -/
def over (a b : Str) : Str := a ++ ['/'] ++ b

/-- `a*b` -/
def starred (a b : Str) : Str := a ++ ['*'] ++ b

/-- The ratios and products of basic units, by kind: `B k u` says that `u` is a basic unit of the kind `k`. -/
inductive Composed (B : Str → Str → Prop) : Str → Str → Prop
  /-- volume, weight or data per time -/
  | volumeRate : B s!!"Volume" v → B s!!"Time" t → Composed B s!!"Rate" (over v t)
  | weightRate : B s!!"Weight" v → B s!!"Time" t → Composed B s!!"Rate" (over v t)
  | dataRate : B s!!"Data" v → B s!!"Time" t → Composed B s!!"Rate" (over v t)
  | volumeRatio : B s!!"Volume" v → B s!!"Volume" t → Composed B s!!"VolumeRatio" (over v t)
  | density : B s!!"Mass" m → B s!!"Volume" v → Composed B s!!"Density" (over m v)
  | velocity : B s!!"Length" l → B s!!"Time" t → Composed B s!!"Velocity" (over l t)
  | acceleration : B s!!"Length" l → B s!!"Time" t → B s!!"Time" t' → t ≠ t' →
      Composed B s!!"Acceleration" (over (over l t) t')
  | accelerationSquare : B s!!"Length" l → B s!!"Time" t → Composed B s!!"Acceleration" (over l (t ++ ['2']))
  | productivityIndex : B s!!"Volume" v → B s!!"Time" t → B s!!"Pressure" p →
      Composed B s!!"ProductivityIndex" (over (over v t) p)
  | pressureGradient : B s!!"Pressure" p → B s!!"Length" l → Composed B s!!"PressureGradient" (over p l)
  | pressure : B s!!"Weight" w → B s!!"Area" a → Composed B s!!"Pressure" (over w a)
  | temperatureGradient : B s!!"Temperature" t → B s!!"Length" l → Composed B s!!"TemperatureGradient" (over t l)
  /-- energy per time, voltage times current in both orders, current squared times resistance in both orders -/
  | powerEnergy : B s!!"Energy" e → B s!!"Time" t → Composed B s!!"Power" (over e t)
  | powerVI : B s!!"Voltage" v → B s!!"Current" i → Composed B s!!"Power" (starred v i)
  | powerIV : B s!!"Voltage" v → B s!!"Current" i → Composed B s!!"Power" (starred i v)
  | powerIIR : B s!!"Resistance" r → B s!!"Current" i → Composed B s!!"Power" (starred (i ++ ['2']) r)
  | powerRII : B s!!"Resistance" r → B s!!"Current" i → Composed B s!!"Power" (starred r (i ++ ['2']))
  | frequency : B s!!"Time" t → Composed B s!!"Frequency" (over ['1'] t)
  | conductance : B s!!"Resistance" r → Composed B s!!"Conductance" (over ['1'] r)
  | capacitance : B s!!"Charge" q → B s!!"Voltage" v → Composed B s!!"Capacitance" (over q v)
  | chargeFV : B s!!"Capacitance" f → B s!!"Voltage" v → Composed B s!!"Charge" (starred f v)
  | chargeVF : B s!!"Capacitance" f → B s!!"Voltage" v → Composed B s!!"Charge" (starred v f)
  | voltageIR : B s!!"Resistance" r → B s!!"Current" i → Composed B s!!"Voltage" (starred i r)
  | voltageRI : B s!!"Resistance" r → B s!!"Current" i → Composed B s!!"Voltage" (starred r i)
  /-- any power, basic or composed -/
  | voltagePI : B s!!"Power" p → B s!!"Current" i → Composed B s!!"Voltage" (over p i)
  | voltageCI : Composed B s!!"Power" p → B s!!"Current" i → Composed B s!!"Voltage" (over p i)
  | currentVR : B s!!"Resistance" r → B s!!"Voltage" v → Composed B s!!"Current" (over v r)
  | currentPV : B s!!"Power" p → B s!!"Voltage" v → Composed B s!!"Current" (over p v)
  | currentCV : Composed B s!!"Power" p → B s!!"Voltage" v → Composed B s!!"Current" (over p v)
  | resistance : B s!!"Current" i → B s!!"Voltage" v → Composed B s!!"Resistance" (over v i)

/-- `u` is a basic unit of the kind `k` or composed of basic units. -/
def Known (B : Str → Str → Prop) (k u : Str) : Prop := B k u ∨ Composed B k u

/-- `u` is `v` with its two factors in the other order. -/
def OtherOrder (u v : Str) : Prop := ∃ a b, u = starred a b ∧ v = starred b a ∧ ∀ c ∈ ['/', '*'], c ∉ a ∧ c ∉ b

/-- A kind the library composes from others needs them. -/
def neededKinds : List Str :=
  [s!!"Volume", s!!"Time", s!!"Weight", s!!"Data", s!!"Mass", s!!"Length", s!!"Area", s!!"Pressure", s!!"Temperature",
   s!!"Energy", s!!"Voltage", s!!"Current", s!!"Resistance", s!!"Charge", s!!"Capacitance"]

end Unyts.Spec

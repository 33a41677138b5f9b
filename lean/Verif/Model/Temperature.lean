import Verif.Model.Network

/-
The temperatures of the database: names and degree sizes (dictionaries.py:120-131, 555-565) and the direct conversions
between the four scales (database.py:375-384).
-/
namespace Unyts

/-- `dictionary['Temperature_NAMES']` with the key of each scale first, as `((t1,) + dictionary[...][t1])`
(dictionaries.py:122-127, 562) -/
def temperatureNames : List (Str × List Str) := [
  (s!!"Celsius", [s!!"Celsius", s!!"Centigrade", s!!"C", s!!"deg C", s!!"degC", s!!"degrees C"]),
  (s!!"Fahrenheit", [s!!"Fahrenheit", s!!"F", s!!"deg F", s!!"degF", s!!"degrees F"]),
  (s!!"Kelvin", [s!!"Kelvin", s!!"K", s!!"deg K", s!!"degK", s!!"degrees K"]),
  (s!!"Rankine", [s!!"Rankine", s!!"R", s!!"deg R", s!!"degR", s!!"degrees R"])]

/-- `temperature_ratio_factors` (dictionaries.py:555-559) -/
def temperatureRatioFactor (t : Str) : Rat :=
  if t = s!!"Celsius" then 9 else if t = s!!"Fahrenheit" then 5 else if t = s!!"Kelvin" then 9 else 5

/-- `temperature_ratio_conversions` (dictionaries.py:560-565) -/
def temperatureRatioConversions : List ((Str × Str) × Rat) :=
  temperatureNames.flatMap fun s1 => s1.2.flatMap fun t1 =>
    temperatureNames.flatMap fun s2 => s2.2.map fun t2 =>
      ((t1, t2), temperatureRatioFactor s1.1 / temperatureRatioFactor s2.1)

def celsius : UNode := ⟨0, s!!"Celsius"⟩
def kelvin : UNode := ⟨1, s!!"Kelvin"⟩
def fahrenheit : UNode := ⟨2, s!!"Fahrenheit"⟩
def rankine : UNode := ⟨3, s!!"Rankine"⟩

/-- The eight conversions between the scales (database.py:376-384), as a network of their own; the decimal constants
are exact. -/
def temperatureNet : Net where
  edges := [
    (celsius, [(kelvin, fun _ t => .ok (t + 27315 / 100)), (fahrenheit, fun _ t => .ok (t * 9 / 5 + 32))]),
    (kelvin, [(celsius, fun _ t => .ok (t - 27315 / 100)), (rankine, fun _ t => .ok (t * 9 / 5))]),
    (fahrenheit, [(celsius, fun _ t => .ok ((t - 32) * 5 / 9)), (rankine, fun _ t => .ok (t + 45967 / 100))]),
    (rankine, [(fahrenheit, fun _ t => .ok (t - 45967 / 100)), (kelvin, fun _ t => .ok (t * 5 / 9))])]
  nextId := 4

end Unyts

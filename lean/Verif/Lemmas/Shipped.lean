import Verif.Lemmas.ShippedTable
import Verif.Lemmas.LoaderTop
import Verif.Model.Shipped

/- Facts about the shipped data, checked by the kernel. -/
namespace Unyts
open Spec
set_option maxRecDepth 1000000

/-- where the ends of the conversions written one by one are declared -/
def endWitness : List (Str × List Str) := [
  (s!!"Dimensionless_fractions_NAMES_REVERSE_UPPER", [s!!"fraction"]),
  (s!!"Percentage_NAMES_REVERSE", [s!!"percentage"]),
  (s!!"Time_NAMES_REVERSE", [s!!"second", s!!"millisecond", s!!"minute", s!!"hour", s!!"day", s!!"month", s!!"week", s!!"year", s!!"lustrum", s!!"decade", s!!"century"]),
  (s!!"Temperature_NAMES", [s!!"Celsius", s!!"Kelvin", s!!"Fahrenheit", s!!"Rankine"]),
  (s!!"Length_UK_NAMES_REVERSE", [s!!"yard", s!!"inch", s!!"thou", s!!"tenth", s!!"foot", s!!"chain", s!!"furlong", s!!"mile", s!!"league", s!!"nautical league", s!!"nautical mile", s!!"rod"]),
  (s!!"Length_NAMES_REVERSE_UPPER", [s!!"meter", s!!"astronomical unit", s!!"parsec", s!!"light year"]),
  (s!!"Velocity", [s!!"mile per hour", s!!"kilometer per hour"]),
  (s!!"Area_NAMES_REVERSE_UPPER", [s!!"square kilometer", s!!"square meter"]),
  (s!!"Area_UK_NAMES_REVERSE_UPPER", [s!!"square mile", s!!"acre", s!!"square yard", s!!"square rod", s!!"square foot", s!!"square inch", s!!"square thou", s!!"square tenth", s!!"square chain", s!!"square furlong", s!!"square league"]),
  (s!!"Permeability_NAMES_REVERSE", [s!!"Darcy"]),
  (s!!"Area_SI", [s!!"µm2"]),
  (s!!"Volume_NAMES_SPACES_REVERSE", [s!!"litre", s!!"cubic centimeter", s!!"cubic inch", s!!"liter", s!!"cubic foot", s!!"cubic meter", s!!"standard cubic foot", s!!"standard cubic meter", s!!"standard barrel", s!!"reservoir cubic meter", s!!"reservoir barrel", s!!"cubic thou", s!!"cubic tenth", s!!"cubic yard", s!!"cubic chain", s!!"cubic furlong", s!!"cubic mile", s!!"cubic league"]),
  (s!!"Volume_UK_NAMES_REVERSE", [s!!"gill", s!!"fluid ounce", s!!"pint", s!!"quart", s!!"gallonUS", s!!"gallonUK", s!!"quartUK", s!!"fluid ounce UK", s!!"gillUK", s!!"pintUK", s!!"USgal"]),
  (s!!"Pressure_NAMES_REVERSE_UPPER_SPACES", [s!!"psi gauge", s!!"absolute psi", s!!"bar gauge", s!!"absolute bar", s!!"bar", s!!"psi", s!!"atmosphere", s!!"Torr", s!!"kilogram/square centimeter"]),
  (s!!"Pressure_NAMES_REVERSE", [s!!"Pascal"]),
  (s!!"Weight_UK_NAMES_REVERSE", [s!!"grain", s!!"pennyweight", s!!"dram", s!!"pound", s!!"stone", s!!"quarter", s!!"weight ounce", s!!"long hundredweight", s!!"short hundredweight", s!!"short ton", s!!"long ton"]),
  (s!!"Weight_PLURALwS_UPPER_LOWER_SPACES", [s!!"milligrams"]),
  (s!!"Weight_NAMES_REVERSE", [s!!"metric ton", s!!"kilogram", s!!"gram"]),
  (s!!"Mass", [s!!"kilogram mass"]),
  (s!!"Force_NAMES_REVERSE_SPACES_RECURSIVE_UPPER", [s!!"kilogram force", s!!"Dyne", s!!"Newton"]),
  (s!!"Energy_NAMES_REVERSE_SPACES_UPPER_LOWER", [s!!"Joule", s!!"gram calorie", s!!"Kilojoule", s!!"kilowatt hour", s!!"British thermal unit"]),
  (s!!"Power_NAMES_REVERSE_UPPER", [s!!"Horsepower", s!!"Watt"]),
  (s!!"Density_NAMES_REVERSE_LOWER_UPPER", [s!!"API", s!!"SgO", s!!"SgW", s!!"SgG"]),
  (s!!"Density_NAMES_REVERSE_UPPER", [s!!"g/cc", s!!"kg/m3", s!!"lb/ft3", s!!"g/cm3", s!!"lb/stb"]),
  (s!!"PressureGradient_NAMES_REVERSE", [s!!"psia/ft", s!!"psig/ft", s!!"bara/m", s!!"barg/m"]),
  (s!!"PressureGradient", [s!!"psi/ft", s!!"bar/m"]),
  (s!!"Viscosity_NAMES_REVERSE_UPPER", [s!!"Pa*s", s!!"Poise"]),
  (s!!"dataBYTE_NAMES_REVERSE", [s!!"byte"]),
  (s!!"dataBIT_NAMES_REVERSE", [s!!"bit"])]

theorem endWitness_ok : (endWitness.all fun w => match Py.dictGet rawDictionary w.1 with
    | some v => w.2.all fun s => (nodesOf (kindInstrs shippedPrefixes w.1 v)).contains s
    | none => false) = true := by decide +kernel

theorem ends_in_witness : (explicitConversions.all fun e => (endWitness.flatMap Prod.snd).contains e.1 &&
    (endWitness.flatMap Prod.snd).contains e.2.1) = true := by decide +kernel

theorem reverse_in_kind : (rawDictionary.all fun e => !(Py.subStr s!!"_REVERSE" e.1) ||
    e.2.keys.all fun s => (nodesOf (kindInstrs shippedPrefixes e.1 e.2)).contains s) = true := by decide +kernel

theorem keys_nodup : (rawDictionary.map Prod.fst).Nodup := by decide +kernel

theorem bases_ok : (rawDictionary.all fun e => !(e.1.contains '_') || (match Py.dictGet rawDictionary (kindBase e.1) with
    | some (.names _) => true | _ => false)) = true := by decide +kernel

theorem tables_ok : (rawDictionary.all fun e => !(Py.subStr s!!"_NAMES" e.1) || (match e.2 with
    | .table _ => true | .names _ => false)) = true := by decide +kernel

theorem mem_dictNames {P : Prefixes} {d : RawDict} {k : Str} {v : RawVal} {s : Str} (h : (k, v) ∈ d)
    (hs : s ∈ nodesOf (kindInstrs P k v)) : s ∈ dictNames P d :=
  List.mem_flatMap.2 ⟨_, h, hs⟩

theorem shipped_loadable : Loadable shippedPrefixes explicitConversions rawDictionary where
  nodup := keys_nodup
  base := by
    intro k v hk hu
    have := List.all_eq_true.1 bases_ok _ hk
    simp only [List.contains_iff_mem.2 hu, Bool.not_true, Bool.false_or] at this
    split at this
    · next l hl => exact ⟨l, dictGet_mem hl⟩
    · cases this
  table := by
    intro k v hk hn
    have := List.all_eq_true.1 tables_ok _ hk
    simp only [hn, Bool.not_true, Bool.false_or] at this
    split at this
    · next t => exact ⟨t, rfl⟩
    · cases this
  ends := by
    have key : ∀ s, s ∈ endWitness.flatMap Prod.snd → s ∈ dictNames shippedPrefixes rawDictionary := by
      intro s hs
      obtain ⟨w, hw, hs⟩ := List.mem_flatMap.1 hs
      have := List.all_eq_true.1 endWitness_ok _ hw
      split at this
      · next v hv =>
        exact mem_dictNames (dictGet_mem hv) (List.contains_iff_mem.1 (List.all_eq_true.1 this s hs))
      · cases this
    intro e he
    have := List.all_eq_true.1 ends_in_witness e he
    rw [Bool.and_eq_true] at this
    exact ⟨key _ (List.contains_iff_mem.1 this.1), key _ (List.contains_iff_mem.1 this.2)⟩
  rev := by
    intro u hu
    unfold reverseKeys at hu
    obtain ⟨e, he, hu⟩ := List.mem_flatMap.1 hu
    split at hu
    · next hr =>
      have := List.all_eq_true.1 reverse_in_kind e he
      simp only [hr, Bool.not_true, Bool.false_or] at this
      exact mem_dictNames (k := e.1) (v := e.2) he (List.contains_iff_mem.1 (List.all_eq_true.1 this u hu))
    · simp at hu
  noVolume := by decide +kernel
  data := by decide +kernel

end Unyts

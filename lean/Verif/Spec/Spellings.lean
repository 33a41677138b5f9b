import Verif.Spec.Shipped

/- Vocabulary about the ways to write a unit. -/
namespace Unyts.Spec

/-- `t` is another way to write `s` in the shipped tables of units: `s` is the name of an entry of a table and `t` one of its other
names, or `t` is a name of an entry in capitals, in small letters, with its blanks replaced, or in the plural, where the key of the
table says so (dictionaries.py:85-560, database.py:94-356). Left out: 'psi' and 'bar' are listed as gauge pressures and
as absolute pressures. -/
inductive Respelled : Str → Str → Prop
  | names {k : Str} {t : List (Str × List Str)} {m : Str} {l : List Str} {s : Str} : (k, RawVal.table t) ∈ rawDictionary →
      Py.subStr s!!"_NAMES" k = true → (m, l) ∈ t → s ∈ l → (m, s) ∉ [(s!!"psi gauge", s!!"psi"), (s!!"bar gauge", s!!"bar")] → Respelled m s
  | capitals {k : Str} {v : RawVal} {m : Str} {l : List Str} {s : Str} : (k, v) ∈ rawDictionary → Py.subStr s!!"_UPPER" k = true →
      (m, l) ∈ v.entries → s ∈ m :: l → Respelled s (Py.upper s)
  | small {k : Str} {v : RawVal} {m : Str} {l : List Str} {s : Str} : (k, v) ∈ rawDictionary → Py.subStr s!!"_LOWER" k = true →
      (m, l) ∈ v.entries → s ∈ m :: l → Respelled s (Py.lower s)
  | blanks {k : Str} {v : RawVal} {m : Str} {l : List Str} {s : Str} {c : Char} : (k, v) ∈ rawDictionary →
      Py.subStr s!!"_SPACES" k = true → (m, l) ∈ v.entries → s ∈ m :: l → c ∈ ['-', '_'] → Respelled s (Py.replaceC ' ' [c] s)
  | plural {k : Str} {v : RawVal} {m : Str} {l : List Str} : (k, v) ∈ rawDictionary → Py.subStr s!!"_PLURALwS" k = true →
      (m, l) ∈ v.entries → Respelled m (m ++ s!!"s")

/-- Two ways to write one unit: the first becomes the second by respelling, any number of times, there or back. -/
inductive SameUnit : Str → Str → Prop
  | refl (s : Str) : SameUnit s s
  | there {s t u : Str} : SameUnit s t → Respelled t u → SameUnit s u
  | back {s t u : Str} : SameUnit s t → Respelled u t → SameUnit s u

/-- The UK measures below the gallon, whose conversions contradict each other. -/
def ukMeasures : List Str :=
  [s!!"FLUID OUNCE UK", s!!"FLUID OUNCE UKS", s!!"GILLUK", s!!"GILLUKS", s!!"PINTUK", s!!"PINTUKS", s!!"QUARTUK",
   s!!"QUARTUKS", s!!"UKgill", s!!"UKpint", s!!"UKquart", s!!"fl oz UK", s!!"fluid ounce UK",
   s!!"fluid ounce UKs", s!!"fluid ounce uk", s!!"fluid ounce uks", s!!"giUK", s!!"gillUK", s!!"gillUKs",
   s!!"gilluk", s!!"gilluks", s!!"ounceUK", s!!"ozUK", s!!"pintUK", s!!"pintUKs", s!!"pintuk", s!!"pintuks",
   s!!"ptUK", s!!"qtUK", s!!"quartUK", s!!"quartUKs", s!!"quartuk", s!!"quartuks"]

end Unyts.Spec

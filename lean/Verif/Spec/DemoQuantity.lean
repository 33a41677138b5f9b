import Verif.Spec.DemoWorld
import Verif.Spec.Quantity
import Verif.Lemmas.UnitClass

/- Small concrete libraries used in the examples about quantities. -/
namespace Unyts.Demo
open Spec

/-- a dictionary of three classes -/
def dict : UnitDict :=
  [(s!!"Dimensionless", [s!!"fraction", s!!"unitless"]), (s!!"Percentage", [s!!"%", s!!"percent"]),
   (s!!"Length", [s!!"in", s!!"ft", s!!"yd", s!!"mi"])]

/-- the library over `Demo.world` -/
def lib : Lib :=
  { w := world, dict := dict, allUnits := dict.flatMap (·.2), unitless := [s!!"fraction", s!!"unitless"],
    sf := fun _ => [], depth := 100 }

def oneYard : Quantity := ⟨.std s!!"Length", s!!"yd", 1⟩
def oneFoot : Quantity := ⟨.std s!!"Length", s!!"ft", 1⟩

/-- the length of each unit in inches, by name -/
def sizeOf (u : Str) : Rat :=
  if u = s!!"ft" then 12 else if u = s!!"yd" then 36 else if u = s!!"mi" then 63360 else 1

theorem consistentOf (fvf : Option Rat) : Consistent net fvf fun n => inSize sizeOf n.name where
  inj := by
    intro n x y h
    refine mul_right_cancel₀ (b := sizeOf n.name) ?_ h
    unfold sizeOf
    repeat' split
    all_goals decide
  edge := by
    intro a b f x y h hf
    have s1 : sizeOf inch.name = 1 := by decide
    have s2 : sizeOf foot.name = 12 := by decide
    have s3 : sizeOf yard.name = 36 := by decide
    have s4 : sizeOf mile.name = 63360 := by decide
    rcases direct_cases h with h | h | h | h | h | h <;> obtain ⟨rfl, rfl, rfl⟩ := h <;>
      simp only [times, Except.ok.injEq] at hf <;> subst hf <;> simp only [inSize, s1, s2, s3, s4] <;> ring

theorem converts_lib {a b : Str} (ha : CleanName a) (hb : CleanName b) : ConvertsAs lib.w (inSize sizeOf) a b :=
  convertsAs_names reachable (consistentOf _) ha hb (ordinary a) (noDensity a b)

def celsius : UNode := ⟨0, s!!"c"⟩
def kelvin : UNode := ⟨1, s!!"k"⟩

/-- two temperatures that differ in their zero -/
def tempLib : Lib :=
  { lib with
    w := { net := { edges := [(celsius, [(kelvin, fun _ x => .ok (x + 273))]), (kelvin, [(celsius, fun _ x => .ok (x - 273))])],
                    nextId := 2 }, par := { algorithm := .bfs } }
    dict := [(s!!"Temperature", [s!!"c", s!!"k"])], allUnits := [s!!"c", s!!"k"] }

/-- a conversion in one direction only: one `big` is ten `small` -/
def oneWayLib : Lib :=
  { lib with
    w := { net := { edges := [(⟨0, s!!"big"⟩, [(⟨1, s!!"small"⟩, times 10)]), (⟨1, s!!"small"⟩, [])], nextId := 2 },
           par := { algorithm := .bfs } }
    dict := [(s!!"Length", [s!!"big", s!!"small"])], allUnits := [s!!"big", s!!"small"] }

/-- a class of ratios of units -/
def ratioLib : Lib := { lib with dict := [(s!!"Gradient", [s!!"in/g", s!!"ft/g"])], allUnits := [s!!"in/g", s!!"ft/g"] }

instance (L : Lib) (q : Quantity) : Decidable (Valid L q) := by unfold Valid; split <;> infer_instance

end Unyts.Demo

import Verif.Lemmas.Recursion
import Verif.Lemmas.ConvHistory
import Verif.Spec.DemoWorld

/-
C25: conversions terminate within the recursion limit.
-/
namespace Unyts
open Spec

/-- C25. Whatever the network, the memory, the units and the settings: a conversion makes no call nested deeper than
max_recursion + 2 levels (one level when max_recursion is negative). What such a call would do (loop for ever, raise,
answer something), is irrelevant to the answer and to the state left: `converterTop`, which is what `convert`,
`convertible` and `convert_for_SimPandas` call, does what the code does when nesting is cut at any depth `n` from that
on. -/
theorem C25_nesting (w : World) (beyond : CallM) (n : Nat) (h0 : 1 ≤ n) (hn : w.par.maxRecursion + 2 ≤ n)
    (uc : Option Bool) (v : Option Rat) (a b : Str) :
    converterDeep beyond n none uc v a b w = converterTop uc v a b w := by
  refine (eqOn_converter (P := w.par) beyond (topBudget w.par) n (Or.inl ?_) none rfl ?_ uc v a b w rfl).1
  · simp only [topBudget, recLimit]; omega
  · simp only [recLimit]; omega

/-- C25. The calls at level max_recursion + 2 do nothing: replacing them by "nothing found" changes nothing, so at most
max_recursion + 1 nested levels do any work. -/
theorem C25_work (w : World) (n : Nat) (hn : w.par.maxRecursion + 1 ≤ n) (uc : Option Bool) (v : Option Rat) (a b : Str) :
    converterDeep (pure none) n none uc v a b w = converterTop uc v a b w := by
  refine (eqOn_converter (P := w.par) (pure none) (topBudget w.par) n (Or.inr ⟨?_, rfl⟩) none rfl ?_ uc v a b w rfl).1
  · simp only [topBudget, recLimit]; omega
  · simp only [recLimit]; omega

/-- C25. The interpreter's own limit is respected too: no more than getrecursionlimit() - 14 nested levels do any
work. -/
theorem C25_interpreter (w : World) (n : Nat) (hn : w.par.pyLimit - 14 ≤ n) (uc : Option Bool) (v : Option Rat)
    (a b : Str) : converterDeep (pure none) n none uc v a b w = converterTop uc v a b w := by
  refine (eqOn_converter (P := w.par) (pure none) (topBudget w.par) n (Or.inr ⟨?_, rfl⟩) none rfl ?_ uc v a b w rfl).1
  · simp only [topBudget, recLimit]; omega
  · simp only [recLimit]; omega

/-- C25. With recursion_limit(0) or less nothing is ever converted: converting needs two levels. -/
theorem C25_limit_zero (w w' : World) (h : w.par.maxRecursion ≤ 0) (uc : Option Bool) (v : Option Rat) (a b : Str)
    (r : Conv × Path) : converterTop uc v a b w ≠ (.ok (some r), w') := by
  rw [← C25_work w 1 (by omega), converterDeep]
  dsimp only
  split
  · simp
  · split
    · simp
    · unfold converterBody
      have hg : getConvDeep (pure none) 0 (some (recLimit w.par none)) uc v a b w = (.ok none, w) := rfl
      rw [PyM.run_bind_ok hg]
      simp only
      rw [PyM.run_bind_ok (PyM.run_modify _ _)]
      exact indirect_none (fun _ _ _ _ => rfl) (fun _ _ _ _ => rfl) (fun _ _ _ _ => rfl) v a b _ w' r

/-- the answer of a conversion when it is a number -/
def answerOf (r : Res (Option (Conv × Path))) : Option Rat :=
  match r with
  | .ok (some (.num q, _)) => some q
  | _ => none

/-- Cut after one level not even names are converted; with the default limit of 12 the property asks for 14. -/
example : (converterDeep (PyM.raise .recursionError) 1 none none (some 2) s!!"mi" s!!"in" Demo.world).1.map (fun _ => ()) =
      .error .recursionError ∧
    answerOf (converterDeep (PyM.raise .recursionError) 2 none none (some 2) s!!"mi" s!!"in" Demo.world).1 = some 126720 ∧
    answerOf (converterDeep (PyM.raise .recursionError) 14 none none (some 2) s!!"mi/yd" s!!"in/ft" Demo.world).1 =
      some 42240 := by decide +kernel

end Unyts

import Verif.Spec.Demo
import Verif.Spec.Session
import Mathlib.Tactic.Ring
import Mathlib.Algebra.Order.Field.Rat

/- A small concrete process used in the examples beside the theorems. -/
namespace Unyts.Demo
open Spec

/-- the process that has loaded `Demo.net`, with BFS -/
def world : World := { net := net, par := { algorithm := .bfs } }

/-- the same with the default algorithm -/
def leanWorld : World := { net := net }

theorem fresh : Fresh world := ⟨wf, rfl, rfl, by unfold Ample; decide⟩
theorem leanFresh : Fresh leanWorld := ⟨wf, rfl, rfl, by unfold Ample; decide⟩

theorem reachable : Reachable world := ⟨world, [], fresh, by simp, rfl⟩

/-- the length of each unit in inches -/
def size (n : UNode) : Rat :=
  if n = inch then 1 else if n = foot then 12 else if n = yard then 36 else if n = mile then 63360 else 1

theorem size_ne (n : UNode) : size n ≠ 0 := by
  unfold size
  repeat' split
  all_goals decide

theorem consistent (fvf : Option Rat) : Consistent net fvf (fun n x => x * size n) where
  inj := by
    intro n x y h
    exact mul_right_cancel₀ (size_ne n) h
  edge := by
    intro a b f x y h hf
    have s1 : size inch = 1 := by decide
    have s2 : size foot = 12 := by decide
    have s3 : size yard = 36 := by decide
    have s4 : size mile = 63360 := by decide
    rcases direct_cases h with h | h | h | h | h | h <;> obtain ⟨rfl, rfl, rfl⟩ := h <;>
      simp only [times, Except.ok.injEq] at hf <;> subst hf <;> simp only [s1, s2, s3, s4] <;> ring

theorem cleanName_of {u : Str} (h : '(' ∉ u ∧ ')' ∉ u ∧
    (∀ c ∈ u.head?.toList ++ u.getLast?.toList, c ∉ [' ', '"', '\'']) ∧ u ≠ s!!"Empty" ∧ '/' ∉ u ∧ '*' ∉ u) :
    CleanName u := by
  obtain ⟨h2, h3, h4, h5, h6, h7⟩ := h
  refine ⟨⟨h2, h3, ?_, h5⟩, h6, h7⟩
  intro c hc
  refine h4 c ?_
  rw [List.mem_append, Option.mem_toList, Option.mem_toList]
  exact hc

theorem cleanUnit_of {u : Str} (h : '(' ∉ u ∧ ')' ∉ u ∧
    (∀ c ∈ u.head?.toList ++ u.getLast?.toList, c ∉ [' ', '"', '\'']) ∧ u ≠ s!!"Empty") :
    CleanUnit u := by
  obtain ⟨h2, h3, h4, h5⟩ := h
  refine ⟨h2, h3, ?_, h5⟩
  intro c hc
  refine h4 c ?_
  rw [List.mem_append, Option.mem_toList, Option.mem_toList]
  exact hc

theorem clean_in : CleanName s!!"in" := cleanName_of (by decide)
theorem clean_ft : CleanName s!!"ft" := cleanName_of (by decide)
theorem clean_yd : CleanName s!!"yd" := cleanName_of (by decide)
theorem clean_mi : CleanName s!!"mi" := cleanName_of (by decide)
theorem clean_g : CleanName s!!"g" := cleanName_of (by decide)

/-- every name is ordinary for the empty dictionaries -/
theorem ordinary (u : Str) : Ordinary ({} : Dict) u :=
  ⟨List.not_mem_nil, List.not_mem_nil, List.not_mem_nil⟩

theorem noDensity (a b : Str) : ¬ DensityPair ({} : Dict) a b := by
  rintro ⟨_, _, ⟨h, _⟩ | ⟨h, _⟩⟩ <;> exact List.not_mem_nil h

end Unyts.Demo

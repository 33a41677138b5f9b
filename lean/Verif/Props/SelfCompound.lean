import Verif.Props.SetConversion
import Verif.Lemmas.PartsTop
import Verif.Props.ShippedSpeeds

/-
C73 (what has been converted is convertible) for a unit and itself, products and ratios included.
-/
namespace Unyts
open Spec

/-- C73, a unit and itself, products and ratios included: after any number of questions about single names, any unit that
holds a name is convertible to itself, with any setting of the cache.
Partial: see `C73_self_fails` for histories that hold questions about ratios. -/
theorem C73_self_partial (w : World) (hw : Fresh w) (cs : List Call) (hcs : ∀ c ∈ cs, AsksNames w c) (u : Str)
    (hu : ∃ c ∈ u, c ≠ '*' ∧ c ≠ '/') (uc : Option Bool) :
    (convertible u u uc (session cs w)).1 = .ok true := by
  have keep : ∀ c ∈ cs, KeepsAmple c := fun c hc => by
    have := hcs c hc
    cases c <;> trivial
  have hr : Reachable (session cs w) := ⟨w, cs, hw, keep, rfl⟩
  by_cases hs : Spec.SimpleName u
  · exact C11_convertible _ hr u hs uc
  have hprev : (u, u) ∉ (session cs w).previous := by
    intro hp
    rcases prev_session hw.wf hw.ample hcs hp with h | h
    · rw [hw.previous] at h; cases h
    · exact hs h.1
  obtain ⟨p, hp⟩ := converterTop_self (self_of_reachable hr) (operands_ne_nil hu) hprev uc 1
  unfold convertible
  rw [show converterTop uc (some 1) u u (session cs w) =
    (.ok (some (.num 1, p)), (converterTop uc (some 1) u u (session cs w)).2) from Prod.ext hp rfl]
  rfl

/-- C73 fails for a ratio and itself: with recursion_limit(1), after one conversion between two ratios that was
not found, convertible('x/y', 'x/y') is False in a state in which convert(7, 'x/y', 'x/y') is 7, also right after
that conversion, and goes on being False when the limit is raised again. -/
theorem C73_self_fails :
    (let w := session [.convert (some 1) (some s!!"x/y") (some s!!"r/s") none]
        { net := Unyts.oneWay, par := { algorithm := .bfs, maxRecursion := 1 } }
     (convertible s!!"x/y" s!!"x/y" none w).1 = .ok false ∧
     numOf (convert (some 7) (some s!!"x/y") (some s!!"x/y") none w).1 = some 7 ∧
     (convertible s!!"x/y" s!!"x/y" none (convert (some 7) (some s!!"x/y") (some s!!"x/y") none w).2).1 = .ok false ∧
     (convertible s!!"x/y" s!!"x/y" none (session [.settings { algorithm := .bfs }] w)).1 = .ok false) := by
  decide +kernel

/-- the hypotheses are met: a name of the library over one that is not, after a question about names -/
example : (convertible s!!"ft/parsec" s!!"ft/parsec" none
    (session [.convertible s!!"parsec" s!!"ft" none] Demo.world)).1 = .ok true :=
  C73_self_partial _ Demo.fresh _ (by
    intro c hc
    rw [List.mem_singleton] at hc
    subst hc
    exact ⟨⟨by decide, by decide⟩, ⟨by decide, by decide⟩, by decide⟩) _ ⟨'f', by decide, by decide, by decide⟩ _

end Unyts

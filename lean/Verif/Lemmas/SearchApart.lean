import Verif.Lemmas.FindsOn
import Verif.Lemmas.ConvParts

/- Searches between names that no conversions join. -/
namespace Unyts
open Spec

theorem noNode {g : Net} {a : Str} {e : PyErr} (h : g.getNode a = .error e) : g.hasName a = false := by
  cases hh : g.hasName a with
  | false => rfl
  | true =>
    exfalso
    unfold Net.hasName at hh
    unfold Net.getNode at h
    cases hf : g.nodes.find? (fun n => decide (n.name = a)) with
    | none =>
      obtain ⟨n, hn, hna⟩ := List.any_eq_true.1 hh
      exact absurd hna (by simpa using List.find?_eq_none.1 hf n hn)
    | some n => rw [hf] at h; cases h

theorem leanBfs_answers (g : Net) (es : List (Str × List Str)) (m : Int) (na nb : UNode) : ∃ r, leanBfs g es m na nb = .ok r := by
  cases hl : leanBfs g es m na nb with
  | ok r => exact ⟨r, rfl⟩
  | error e =>
    exfalso
    unfold leanBfs at hl
    simp only at hl
    split at hl
    · cases hl
    · rcases slim_bfs_spec (g := g) (start := na) (tgt := nb)
        (sel := leanSelection es g.hasName na.name nb.name m) with ⟨q, hq, _⟩ | ⟨hq, _⟩ <;>
      · rw [hq] at hl; cases hl

theorem bfs_answers {g : Net} (hg : WF g) {na nb : UNode} (ma : na ∈ g.nodes) : ∃ r, g.bfs na nb = .ok r := by
  rcases Net.bfs_spec hg ma (tgt := nb) with ⟨p, hp, _⟩ | ⟨hn, _⟩
  · exact ⟨_, hp⟩
  · exact ⟨_, hn⟩

/-- with the three algorithms the search raises no exception -/
theorem search_answers {w : World} (hg : WF w.net) (ha : w.par.algorithm ∈ [Algorithm.bfs, .lean, .hybrid]) (a b : Str) :
    ∃ r, (searchNetwork a b w).1 = .ok r := by
  unfold searchNetwork
  split
  · next hh =>
    rw [Bool.and_eq_true] at hh
    cases h1 : w.net.getNode a with
    | error e => have := noNode h1; rw [hh.1] at this; cases this
    | ok na =>
      cases h2 : w.net.getNode b with
      | error e => have := noNode h2; rw [hh.2] at this; cases this
      | ok nb =>
        obtain ⟨r1, b1⟩ := bfs_answers hg (nb := nb) (getNode_mem h1).1
        simp only [List.mem_cons, List.not_mem_nil, or_false] at ha
        rcases ha with ha | ha | ha <;> simp only [ha]
        · exact ⟨_, b1⟩
        · exact leanBfs_answers _ _ _ _ _
        · simp only [net_ite, es_ite]
          obtain ⟨r2, l1⟩ := leanBfs_answers w.net w.es w.par.maxGenerations na nb
          rw [b1, l1]
          unfold hybridChoice
          cases r1 <;> cases r2 <;> simp [bind, Except.bind, pure, Except.pure]
  · exact ⟨none, rfl⟩

/-- no path is found where there is none -/
theorem search_apart {w : World} (hg : WF w.net) (ha : w.par.algorithm ∈ [Algorithm.bfs, .lean, .hybrid]) {a b : Str}
    (hr : ∀ na nb, w.net.getNode a = .ok na → w.net.getNode b = .ok nb → ¬ Reach (Linked w.net) na nb) :
    (searchNetwork a b w).1 = .ok none := by
  obtain ⟨r, h⟩ := search_answers hg ha a b
  cases r with
  | none => exact h
  | some p =>
    obtain ⟨na, nb, h1, h2, h3⟩ := searchNetwork_path (Prod.ext h rfl : searchNetwork a b w = (.ok (some p), (searchNetwork a b w).2))
    exact absurd ⟨p, h3.1⟩ (hr na nb h1 h2)

end Unyts

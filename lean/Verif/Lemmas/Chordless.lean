import Verif.Lemmas.Lean
import Verif.Spec.Chordless

/- BFS and lean_BFS take every short cut. -/
namespace Unyts
open Spec

theorem Chain.cut {E : α → α → Prop} {a b u : α} {ys : List α} : ∀ {xs : List α}, Chain E a b (xs ++ u :: ys) →
    Chain E a u (xs ++ [u]) ∧ Chain E u b (u :: ys)
  | [], h => by
    have : a = u := by have := h.head; simpa using this.symm
    subst this
    exact ⟨.single a, h⟩
  | x :: xs, h => by
    rw [List.cons_append] at h
    generalize hq : xs ++ u :: ys = q at h
    cases h with
    | single => simp at hq
    | step e h =>
      subst hq
      obtain ⟨h1, h2⟩ := Chain.cut h
      exact ⟨.step e h1, h2⟩

/-- a shortest walk takes every short cut -/
theorem chordless_of_shortest {E F : α → α → Prop} {a b : α} {p : List α} (hp : Chain E a b p)
    (hs : ∀ q, Chain E a b q → p.length ≤ q.length) (hF : ∀ u v w, E u w → F u v → E u v) : Chordless F p := by
  intro xs u ys v zs e huv
  subst e
  obtain ⟨h1, h2⟩ := Chain.cut hp
  have hE : E u v := by
    generalize hq : ys ++ v :: zs = q at h2
    cases h2 with
    | single => simp at hq
    | step e _ => exact hF _ _ _ e huv
  have h3 : Chain E v b (v :: zs) := by
    have := Chain.cut (xs := xs ++ u :: ys) (by simpa using hp)
    exact this.2
  have h4 := Chain.append h1 (Chain.step hE h3)
  have := hs _ h4
  simp only [List.length_append, List.length_cons, List.length_nil] at this
  exact List.length_eq_zero_iff.1 (by omega)

theorem slim_source {g : Net} {sel : List Str} {a b : UNode} (h : edgeOf (slimChildren g sel) a b) : a.name ∈ sel := by
  obtain ⟨l, hl, hb⟩ := h
  unfold slimChildren at hl
  cases hg : Py.dictGet (g.edges.filter fun e => e.1.name ∈ sel) a with
  | none => rw [hg] at hl; cases hl; cases hb
  | some l' => simpa using (List.mem_filter.1 (dictGet_mem hg)).2

theorem leanBfs_chordless {g : Net} (hg : WF g) {es : List (Str × List Str)} {m : Int} {start tgt : UNode} {p : List UNode}
    (h : leanBfs g es m start tgt = .ok (some p)) : Chordless (Linked g) p := by
  unfold leanBfs at h
  simp only at h
  split at h
  · cases h
  · rcases slim_bfs_spec (g := g) (start := start) (tgt := tgt)
      (sel := leanSelection es g.hasName start.name tgt.name m) with ⟨q, hq, hpath, hshort⟩ | ⟨hq, _⟩
    · rw [hq] at h
      cases h
      exact chordless_of_shortest hpath.1 hshort fun u v w e huv => slim_of_linked hg huv (slim_source e)
    · rw [hq] at h; cases h

theorem bfs_chordless {g : Net} (hg : WF g) {start tgt : UNode} (hs : start ∈ g.nodes) {p : List UNode}
    (h : g.bfs start tgt = .ok (some p)) : Chordless (Linked g) p := by
  rcases Net.bfs_spec hg hs (tgt := tgt) with ⟨q, hq, hpath, hshort⟩ | ⟨hq, _⟩
  · rw [hq] at h
    cases h
    exact chordless_of_shortest hpath.1 hshort fun _ _ _ _ h => h
  · rw [hq] at h; cases h

end Unyts

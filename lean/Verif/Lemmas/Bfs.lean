import Verif.Model.Searches
import Verif.Lemmas.Graph

namespace Unyts
open Spec

set_option linter.unusedSectionVars false

variable {α : Type _} [DecidableEq α]

theorem pairwise_of_all {β : Type _} {R : β → β → Prop} (h : ∀ a b, R a b) : ∀ l : List β, l.Pairwise R
  | [] => .nil
  | x :: xs => .cons (fun b _ => h x b) (pairwise_of_all h xs)

/-- The edges of a graph given by `children_of`. -/
def edgeOf (ch : α → Res (List α)) (a b : α) : Prop := ∃ cs, ch a = .ok cs ∧ b ∈ cs

/-- Invariant of the BFS loop. -/
structure BfsInv (ch : α → Res (List α)) (start tgt : α) (q vis : List (List α)) : Prop where
  start_in : [start] ∈ vis ∨ [start] ∈ q
  path : ∀ p, p ∈ vis ∨ p ∈ q → ∃ l, IsPath (edgeOf ch) start l p
  closed : ∀ p ∈ vis, ∀ l, p.getLast? = some l → l ≠ tgt ∧
    ∀ c, edgeOf ch l c → c ∉ p → (p ++ [c] ∈ vis ∨ p ++ [c] ∈ q)
  sorted : q.Pairwise (fun a b => a.length ≤ b.length)
  spread : ∀ a ∈ q, ∀ b ∈ q, a.length ≤ b.length + 1

theorem BfsInv.init (ch : α → Res (List α)) (start tgt : α) : BfsInv ch start tgt [[start]] [] where
  start_in := Or.inr (by simp)
  path := by
    intro p hp
    simp at hp
    subst hp
    exact ⟨start, .single _, by simp⟩
  closed := by simp
  sorted := by simp
  spread := by simp

/-- Every path is visited or has a prefix, not longer than it, in the queue. -/
theorem BfsInv.cover {ch : α → Res (List α)} {start tgt : α} {q vis : List (List α)}
    (h : BfsInv ch start tgt q vis) {l : α} {p : List α} (hp : IsPath (edgeOf ch) start l p) :
    p ∈ vis ∨ ∃ p' ∈ q, p'.length ≤ p.length := by
  obtain ⟨hc, hn⟩ := hp
  generalize hlen : p.length = n
  induction n generalizing p l with
  | zero => exact absurd (List.length_eq_zero_iff.1 hlen) hc.ne_nil
  | succ n ih =>
    rcases hc.unsnoc with ⟨rfl, rfl⟩ | ⟨b, q', hq', e, rfl⟩
    · rcases h.start_in with hs | hs
      · exact Or.inl hs
      · exact Or.inr ⟨_, hs, by simp⟩
    · have hnd : q'.Nodup := (List.nodup_append.1 hn).1
      have hcn : l ∉ q' := by
        intro hm
        have := (List.nodup_append.1 hn).2.2 l hm l (by simp)
        exact this rfl
      rcases ih hq' hnd (by simpa using hlen) with hv | ⟨p', hp', hl⟩
      · rcases (h.closed q' hv b hq'.last).2 l e hcn with hv' | hq2
        · exact Or.inl hv'
        · exact Or.inr ⟨_, hq2, by simp at hlen ⊢; omega⟩
      · exact Or.inr ⟨p', hp', by omega⟩

/-- one expansion step keeps the invariant -/
theorem BfsInv.expand {ch : α → Res (List α)} {start tgt : α} {q vis : List (List α)} {p : List α}
    (h : BfsInv ch start tgt (p :: q) vis) {last : α} {cs : List α} (hl : p.getLast? = some last)
    (hne : last ≠ tgt) (hcs : ch last = .ok cs) :
    BfsInv ch start tgt (q ++ (cs.filter (· ∉ p)).map (fun c => p ++ [c])) (vis ++ [p]) where
  start_in := by
    rcases h.start_in with hs | hs
    · exact Or.inl (by simp [hs])
    · rcases List.mem_cons.1 hs with hs | hs
      · exact Or.inl (by simp [hs])
      · exact Or.inr (by simp [hs])
  path := by
    intro p' hp'
    have key : p' ∈ vis ∨ p' ∈ p :: q ∨ ∃ c ∈ cs, c ∉ p ∧ p ++ [c] = p' := by
      rcases hp' with hp' | hp'
      · rcases List.mem_append.1 hp' with hp' | hp'
        · exact Or.inl hp'
        · exact Or.inr (Or.inl (by simp at hp'; simp [hp']))
      · rcases List.mem_append.1 hp' with hp' | hp'
        · exact Or.inr (Or.inl (by simp [hp']))
        · right; right
          simp only [List.mem_map, List.mem_filter, decide_eq_true_eq] at hp'
          obtain ⟨c, ⟨h1, h2⟩, h3⟩ := hp'
          exact ⟨c, h1, h2, h3⟩
    rcases key with hk | hk | ⟨c, hc, hcp, rfl⟩
    · exact h.path p' (Or.inl hk)
    · exact h.path p' (Or.inr hk)
    · obtain ⟨l, hpath, hnd⟩ := h.path p (Or.inr (by simp))
      have : l = last := by
        have := hpath.last; rw [hl] at this; exact (Option.some.inj this).symm
      subst this
      refine ⟨c, hpath.snoc ⟨cs, hcs, hc⟩, ?_⟩
      rw [List.nodup_append]
      refine ⟨hnd, by simp, ?_⟩
      intro a ha b hb
      simp at hb
      subst hb
      rintro rfl
      exact hcp ha
  closed := by
    intro p' hp' l hl'
    rcases List.mem_append.1 hp' with hp' | hp'
    · refine ⟨(h.closed p' hp' l hl').1, fun c hc hcp => ?_⟩
      rcases (h.closed p' hp' l hl').2 c hc hcp with hv | hq
      · exact Or.inl (by simp [hv])
      · rcases List.mem_cons.1 hq with hq | hq
        · exact Or.inl (by simp [hq])
        · exact Or.inr (by simp [hq])
    · simp at hp'
      subst hp'
      rw [hl] at hl'
      cases hl'
      refine ⟨hne, fun c hc hcp => ?_⟩
      obtain ⟨cs', hcs', hm⟩ := hc
      rw [hcs] at hcs'
      cases hcs'
      refine Or.inr (List.mem_append.2 (Or.inr ?_))
      simp only [List.mem_map, List.mem_filter, decide_eq_true_eq]
      exact ⟨c, ⟨hm, hcp⟩, rfl⟩
  sorted := by
    have hs := h.sorted
    rw [List.pairwise_cons] at hs
    rw [List.pairwise_append]
    refine ⟨hs.2, ?_, ?_⟩
    · rw [List.pairwise_map]
      exact pairwise_of_all (by intro a b; simp) _
    · intro a ha b hb
      simp only [List.mem_map] at hb
      obtain ⟨c, _, rfl⟩ := hb
      have := h.spread a (by simp [ha]) p (by simp)
      simpa using this
  spread := by
    have hs := h.sorted
    rw [List.pairwise_cons] at hs
    have hlow : ∀ b ∈ q ++ (cs.filter (· ∉ p)).map (fun c => p ++ [c]), p.length ≤ b.length := by
      intro b hb
      rcases List.mem_append.1 hb with hb | hb
      · exact hs.1 b hb
      · simp only [List.mem_map] at hb
        obtain ⟨c, _, rfl⟩ := hb
        simp
    have hup : ∀ b ∈ q ++ (cs.filter (· ∉ p)).map (fun c => p ++ [c]), b.length ≤ p.length + 1 := by
      intro b hb
      rcases List.mem_append.1 hb with hb | hb
      · exact h.spread b (by simp [hb]) p (by simp)
      · simp only [List.mem_map] at hb
        obtain ⟨c, _, rfl⟩ := hb
        simp
    intro a ha b hb
    have := hlow b hb
    have := hup a ha
    omega

theorem BfsInv.skip {ch : α → Res (List α)} {start tgt : α} {q vis : List (List α)} {p : List α}
    (h : BfsInv ch start tgt (p :: q) vis) (hp : p ∈ vis) : BfsInv ch start tgt q vis where
  start_in := by
    rcases h.start_in with hs | hs
    · exact Or.inl hs
    · rcases List.mem_cons.1 hs with hs | hs
      · exact Or.inl (hs ▸ hp)
      · exact Or.inr hs
  path := fun p' hp' => h.path p' (hp'.imp_right (List.mem_cons_of_mem _))
  closed := by
    intro p' hp' l hl
    refine ⟨(h.closed p' hp' l hl).1, fun c hc hcp => ?_⟩
    rcases (h.closed p' hp' l hl).2 c hc hcp with hv | hq
    · exact Or.inl hv
    · rcases List.mem_cons.1 hq with hq | hq
      · exact Or.inl (hq ▸ hp)
      · exact Or.inr hq
  sorted := (List.pairwise_cons.1 h.sorted).2
  spread := fun a ha b hb => h.spread a (by simp [ha]) b (by simp [hb])

/-- What the loop returns, under the invariant. -/
theorem bfsLoop_correct {ch : α → Res (List α)} {start tgt : α} {n : Nat} {q vis : List (List α)}
    (h : BfsInv ch start tgt q vis) {r : Res (Option (List α))} (hr : bfsLoop ch tgt n q vis = some r) :
    (∀ p, r = .ok (some p) → IsPath (edgeOf ch) start tgt p ∧
      ∀ p', Chain (edgeOf ch) start tgt p' → p.length ≤ p'.length) ∧
    (r = .ok none → ¬ Reach (edgeOf ch) start tgt) ∧
    (∀ e, r = .error e → ∃ x, Reach (edgeOf ch) start x ∧ ch x = .error e) := by
  induction n generalizing q vis with
  | zero => simp [bfsLoop] at hr
  | succ n ih =>
    cases q with
    | nil =>
      simp only [bfsLoop, Option.some.injEq] at hr
      subst hr
      refine ⟨by simp, ?_, by simp⟩
      rintro _ ⟨p, hp⟩
      obtain ⟨p', hp', _, _⟩ := hp.to_path
      rcases h.cover hp' with hv | ⟨_, hm, _⟩
      · exact (h.closed p' hv tgt hp'.1.last).1 rfl
      · simp at hm
    | cons p q =>
      unfold bfsLoop at hr
      split at hr
      · next hv => exact ih (h.skip hv) hr
      · obtain ⟨l, hpath⟩ := h.path p (Or.inr (by simp))
        rw [hpath.1.last] at hr
        simp only at hr
        split at hr
        · next hlt =>
          subst hlt
          cases hr
          refine ⟨?_, by simp, by simp⟩
          intro p' hp'
          cases hp'
          refine ⟨hpath, ?_⟩
          intro p' hp'
          obtain ⟨p2, hp2, hl2, _⟩ := hp'.to_path
          rcases h.cover hp2 with hv2 | ⟨p3, hm, hl3⟩
          · exact absurd rfl (h.closed p2 hv2 l hp2.1.last).1
          · have : p.length ≤ p3.length := by
              rcases List.mem_cons.1 hm with rfl | hm
              · exact Nat.le_refl _
              · exact (List.pairwise_cons.1 h.sorted).1 p3 hm
            omega
        · next hlt =>
          split at hr
          · next e he =>
            cases hr
            refine ⟨by simp, by simp, ?_⟩
            intro e' he'
            cases he'
            exact ⟨l, ⟨p, hpath.1⟩, he⟩
          · next cs hcs => exact ih (h.expand hpath.1.last hlt hcs) hr

/-- Measure of a queue. -/
def qWeight (N D : Nat) (q : List (List α)) : Nat := (q.map (fun p => (D + 1) ^ (N + 1 - p.length))).sum

theorem nodup_length_le_of_subset {U : List α} {p : List α} (hp : p.Nodup) (hs : ∀ x ∈ p, x ∈ U) :
    p.length ≤ U.length := by
  induction p generalizing U with
  | nil => simp
  | cons x xs ih =>
    rw [List.nodup_cons] at hp
    have hx : x ∈ U := hs x (by simp)
    have := ih (U := U.erase x) hp.2 (by
      intro y hy
      refine (List.mem_erase_of_ne ?_).2 (hs y (by simp [hy]))
      rintro rfl
      exact hp.1 hy)
    rw [List.length_erase_of_mem hx] at this
    have : 0 < U.length := List.length_pos_of_mem hx
    simp only [List.length_cons]
    omega

theorem qWeight_append (N D : Nat) (a b : List (List α)) :
    qWeight N D (a ++ b) = qWeight N D a + qWeight N D b := by
  simp [qWeight]

theorem sum_map_const_le {β : Type _} (l : List β) (f : β → Nat) (k : Nat) (h : ∀ x ∈ l, f x ≤ k) :
    (l.map f).sum ≤ l.length * k := by
  induction l with
  | nil => simp
  | cons x xs ih =>
    simp only [List.map_cons, List.sum_cons, List.length_cons]
    have h1 := h x (by simp)
    have h2 := ih (fun y hy => h y (by simp [hy]))
    rw [Nat.add_mul]
    omega

/-- The fuel is enough: the loop does not run out of it. -/
theorem bfsLoop_terminates {ch : α → Res (List α)} {start tgt : α} {U : List α} {D : Nat}
    (hU : ∀ x, Reach (edgeOf ch) start x → x ∈ U)
    (hD : ∀ x cs, ch x = .ok cs → cs.length ≤ D)
    {n : Nat} {q vis : List (List α)} (h : BfsInv ch start tgt q vis) (hn : qWeight U.length D q < n) :
    bfsLoop ch tgt n q vis ≠ none := by
  induction n generalizing q vis with
  | zero => omega
  | succ n ih =>
    cases q with
    | nil => simp [bfsLoop]
    | cons p q =>
      have hw : qWeight U.length D (p :: q) = (D + 1) ^ (U.length + 1 - p.length) + qWeight U.length D q := by
        simp [qWeight]
      have hpos : 0 < (D + 1) ^ (U.length + 1 - p.length) := Nat.pow_pos (by omega)
      unfold bfsLoop
      split
      · next hv => exact ih (h.skip hv) (by omega)
      · obtain ⟨l, hpath⟩ := h.path p (Or.inr (by simp))
        rw [hpath.1.last]
        simp only
        split
        · simp
        · next hlt =>
          split
          · simp
          · next cs hcs =>
            refine ih (h.expand hpath.1.last hlt hcs) ?_
            rw [qWeight_append]
            have hsub : ∀ x ∈ p, x ∈ U := by
              intro x hx
              obtain ⟨p1, _, h1, _⟩ := hpath.1.split hx
              exact hU x ⟨p1, h1⟩
            have hple := nodup_length_le_of_subset hpath.2 hsub
            have hb : qWeight U.length D ((cs.filter (· ∉ p)).map (fun c => p ++ [c])) ≤
                D * (D + 1) ^ (U.length - p.length) := by
              unfold qWeight
              rw [List.map_map]
              refine Nat.le_trans (sum_map_const_le _ _ ((D + 1) ^ (U.length - p.length)) ?_) ?_
              · intro c _
                simp only [Function.comp, List.length_append, List.length_singleton]
                have : U.length + 1 - (p.length + 1) = U.length - p.length := by omega
                rw [this]
                exact Nat.le_refl _
              · refine Nat.mul_le_mul_right _ ?_
                exact Nat.le_trans (List.length_filter_le _ _) (hD l cs hcs)
            have hpow : (D + 1) ^ (U.length + 1 - p.length) = (D + 1) ^ (U.length - p.length) * (D + 1) := by
              rw [show U.length + 1 - p.length = (U.length - p.length) + 1 by omega, Nat.pow_succ]
            have hpos2 : 0 < (D + 1) ^ (U.length - p.length) := Nat.pow_pos (by omega)
            have : (D + 1) ^ (U.length - p.length) * (D + 1) =
                D * (D + 1) ^ (U.length - p.length) + (D + 1) ^ (U.length - p.length) := by
              rw [Nat.mul_add, Nat.mul_one, Nat.mul_comm]
            omega

/-- BFS with enough fuel: full specification. -/
theorem bfs_spec {ch : α → Res (List α)} {start tgt : α} {U : List α} {N D : Nat}
    (hU : ∀ x, Reach (edgeOf ch) start x → x ∈ U) (hN : U.length ≤ N)
    (hD : ∀ x cs, ch x = .ok cs → cs.length ≤ D)
    (hok : ∀ x, Reach (edgeOf ch) start x → ∃ cs, ch x = .ok cs) :
    (∃ p, bfs ch N D start tgt = .ok (some p) ∧ IsPath (edgeOf ch) start tgt p ∧
      ∀ p', Chain (edgeOf ch) start tgt p' → p.length ≤ p'.length) ∨
    (bfs ch N D start tgt = .ok none ∧ ¬ Reach (edgeOf ch) start tgt) := by
  have hinit := BfsInv.init ch start tgt
  have hfuel : qWeight U.length D [[start]] < bfsFuel N D := by
    simp only [qWeight, List.map_cons, List.map_nil, List.sum_cons, List.sum_nil, List.length_singleton, bfsFuel]
    have : (D + 1) ^ (U.length + 1 - 1) ≤ (D + 1) ^ N := Nat.pow_le_pow_right (by omega) (by omega)
    omega
  have ht := bfsLoop_terminates (tgt := tgt) hU hD hinit hfuel
  unfold bfs
  cases hr : bfsLoop ch tgt (bfsFuel N D) [[start]] [] with
  | none => exact absurd hr ht
  | some r =>
    obtain ⟨h1, h2, h3⟩ := bfsLoop_correct hinit hr
    cases r with
    | error e =>
      obtain ⟨x, hx, hxe⟩ := h3 e rfl
      obtain ⟨cs, hcs⟩ := hok x hx
      rw [hxe] at hcs; cases hcs
    | ok o =>
      cases o with
      | none => exact Or.inr ⟨rfl, h2 rfl⟩
      | some p => exact Or.inl ⟨p, rfl, h1 p rfl⟩

/-- Whatever BFS returns is a genuine path, with any fuel. -/
theorem bfs_sound {ch : α → Res (List α)} {start tgt : α} {N D : Nat} {p : List α}
    (h : bfs ch N D start tgt = .ok (some p)) : IsPath (edgeOf ch) start tgt p := by
  unfold bfs at h
  split at h
  · next r hr =>
    subst h
    exact ((bfsLoop_correct (BfsInv.init ch start tgt) hr).1 p rfl).1
  · simp at h

end Unyts

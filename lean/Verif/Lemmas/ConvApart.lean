import Verif.Lemmas.SearchApart

/- Questions about names that no conversions join. -/
namespace Unyts
open Spec

/-- a question about two different names that are not joined is answered with no -/
theorem convertible_apart {w : World} (h : SoundAmple w) (halg : w.par.algorithm ∈ [Algorithm.bfs, .lean, .hybrid]) {a b : Str}
    (ha : SimpleName a) (hb : SimpleName b) (oa : Ordinary w.dic a) (hab : a ≠ b)
    (hr : ∀ na nb, w.net.getNode a = .ok na → w.net.getNode b = .ok nb → ¬ Reach (Linked w.net) na nb)
    (uc : Option Bool) : (convertible a b uc w).1 = .ok false := by
  obtain ⟨n, hn⟩ := ample_budget h.2
  have hnone : (converterTop uc (some 1) a b w).1 = .ok none := by
    rw [converterTop_eq, hn]
    by_cases hpr : (a, b) ∈ w.previous
    · rw [converter]; dsimp only; rw [if_pos hpr]
    · rcases converter_simple h.1.wf ha hb n uc (some 1) hpr with ⟨h1, h0⟩ | ⟨_, w2, _, _, _, h1⟩
      · exfalso
        obtain ⟨_, _, hcase⟩ := getConv_direct h.1.wf n uc (some 1) (tempParts_noSlash ha.1)
          (rfl : getConv (n + 1) uc (some 1) a b w = _)
        rcases hcase with ⟨f, p, _, _, h4, h5, _⟩ | ⟨e, _, _, _, _, hse⟩ | ⟨h3, _, _⟩
        · cases hm : memHit w uc a b with
          | none =>
            rcases h4 hm with hq | ⟨na', nb', q, g1, g2, g3, _⟩
            · exact hab (quick_ordinary (w := w) ha hb oa hq).1
            · exact hr _ _ g1 g2 ⟨_, g3.1⟩
          | some e =>
            have he := h5 e hm
            subst he
            unfold memHit at hm
            split at hm
            · obtain ⟨na', nb', q, g1, g2, g3, _⟩ := h.1.path a b f p ha hb hm
              exact hr _ _ g1 g2 ⟨_, g3.1⟩
            · cases hm
        · obtain ⟨r, hr'⟩ := search_answers h.1.wf halg a b
          rw [hr'] at hse; cases hse
        · exact h0 h3
      · rw [h1]
  unfold convertible
  cases hc : converterTop uc (some 1) a b w with
  | mk r w' =>
    rw [hc] at hnone
    simp only at hnone
    subst hnone
    rfl

end Unyts

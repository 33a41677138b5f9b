import Verif.Lemmas.LoaderKinds

/- The reverse pass of `_load_network`, and `_clean_network`. -/
namespace Unyts
open Spec

/-- the conversions after the reverse pass over the names `us` -/
def withReverse (R : Str → Str → Option Cv) (us : List Str) (a b : Str) : Option Cv :=
  (R a b).or (if a ≠ b ∧ b ∈ us then (R b a).map Cv.rev else none)

theorem withReverse_nil (R : Str → Str → Option Cv) : withReverse R [] = R := by
  funext a b; simp [withReverse]

theorem withReverse_cons (R : Str → Str → Option Cv) (u : Str) (us : List Str) :
    withReverse (withReverse R [u]) us = withReverse R (u :: us) := by
  funext a b
  unfold withReverse
  cases hab : R a b with
  | some c => simp
  | none =>
    simp only [Option.none_or, List.mem_cons, List.not_mem_nil, or_false]
    by_cases hne : a = b
    · simp [hne]
    · have hne' : b ≠ a := fun h => hne h.symm
      by_cases hbu : b = u
      · subst hbu
        simp only [hne, ne_eq, not_false_eq_true, true_and, true_or, if_true]
        cases hba : R b a with
        | some c => simp
        | none =>
          by_cases hau : a = b
          · exact absurd hau hne
          · simp
      · simp only [hne, ne_eq, not_false_eq_true, true_and, hbu, if_false, Option.none_or, false_or]
        split
        · cases hba : R b a with
          | some c => simp
          | none =>
            simp only [Option.none_or, Option.map_none]
            split <;> rfl
        · rfl

theorem reverseEdges_cons {n c : UNode} {f : Fn} {r : List (UNode × Fn)} {g : Net} (h : n ≠ c) :
    reverseEdges n ((c, f) :: r) g = (do let g ← g.addEdge c n (revFn f); reverseEdges n r g) := by
  simp only [reverseEdges]
  rw [if_pos h]

theorem reverseEdges_self {n : UNode} {f : Fn} {r : List (UNode × Fn)} {g : Net} :
    reverseEdges n ((n, f) :: r) g = reverseEdges n r g := by
  simp [reverseEdges]

/-- the loop over the children of one node -/
theorem reverseEdges_spec {n : UNode} {u : Str} {l : List (UNode × Fn)} {g : Net} (t : Tidy g)
    (hu : g.getNode u = .ok n) (hl : ∀ e ∈ l, g.getNode e.1.name = .ok e.1) (hnd : (l.map Prod.fst).Nodup) :
    ∃ g', reverseEdges n l g = .ok g' ∧ Tidy g' ∧ g'.nodes = g.nodes ∧
      ∀ x y k, DirectName g' x y k ↔ DirectName g x y k ∨
        (y = u ∧ x ≠ u ∧ ¬ LinkedName g x u ∧ ∃ c f, (c, f) ∈ l ∧ c.name = x ∧ k = revFn f) := by
  induction l generalizing g with
  | nil =>
    refine ⟨g, rfl, t, rfl, fun x y k => ?_⟩
    simp
  | cons e l ih =>
    obtain ⟨c, f⟩ := e
    simp only [List.map_cons, List.nodup_cons] at hnd
    have hc := hl (c, f) (by simp)
    simp only at hc
    have en := (Net.getNode_ok hu).2
    by_cases hnc : n = c
    · subst hnc
      obtain ⟨g', h1, h2, h3, h4⟩ := ih t hu (fun e he => hl e (by simp [he])) hnd.2
      refine ⟨g', by rw [reverseEdges_self]; exact h1, h2, h3, fun x y k => ?_⟩
      rw [h4]
      apply or_congr Iff.rfl
      constructor
      · rintro ⟨e1, e2, e3, c, f', hm, e4, e5⟩
        exact ⟨e1, e2, e3, c, f', by simp [hm], e4, e5⟩
      · rintro ⟨e1, e2, e3, c, f', hm, e4, e5⟩
        rcases List.mem_cons.1 hm with hm | hm
        · cases hm; exact absurd (e4.symm.trans en) e2
        · exact ⟨e1, e2, e3, c, f', hm, e4, e5⟩
    · have hcu : c.name ≠ u := by
        intro h
        rw [h, hu] at hc
        cases hc
        exact hnc rfl
      have hg := Net.addEdge_ok (revFn f) (Net.getNode_ok hc).1 (Net.getNode_ok hu).1
      have t1 := t.addEdge hc hu hg
      have nd : Net.nodes ⟨Net.appendEdge g.edges c n (revFn f), g.nextId⟩ = g.nodes := Net.nodes_addEdge
      have d1 := fun x y k => directName_addEdge t hc hu hg (x := x) (y := y) (k := k)
      obtain ⟨g', h1, h2, h3, h4⟩ := ih t1 (by rw [Net.getNode_congr nd]; exact hu)
        (fun e he => by rw [Net.getNode_congr nd]; exact hl e (by simp [he])) hnd.2
      refine ⟨g', ?_, h2, h3.trans nd, fun x y k => ?_⟩
      · rw [reverseEdges_cons hnc, hg]
        exact h1
      · rw [h4, d1]
        constructor
        · rintro ((h | ⟨rfl, rfl, e3, e4⟩) | ⟨rfl, e2, e3, c', f', hm, e4, e5⟩)
          · exact Or.inl h
          · exact Or.inr ⟨rfl, hcu, e4, c, f, by simp, rfl, e3⟩
          · refine Or.inr ⟨rfl, e2, fun ⟨k, hk⟩ => e3 ⟨k, (d1 _ _ _).2 (Or.inl hk)⟩, c', f', by simp [hm], e4, e5⟩
        · rintro (h | ⟨rfl, e2, e3, c', f', hm, e4, e5⟩)
          · exact Or.inl (Or.inl h)
          · rcases List.mem_cons.1 hm with hm1 | hm2
            · cases hm1
              exact Or.inl (Or.inr ⟨e4.symm, rfl, e5, e4 ▸ e3⟩)
            · refine Or.inr ⟨rfl, e2, ?_, c', f', hm2, e4, e5⟩
              rintro ⟨k', hk'⟩
              rcases (d1 _ _ _).1 hk' with h | ⟨h1, _, _, _⟩
              · exact e3 ⟨k', h⟩
              · have e6 := hl (c', f') (by simp [hm])
                rw [e4, h1, hc] at e6
                cases e6
                exact hnd.1 (List.mem_map.2 ⟨_, hm2, rfl⟩)

/-- one name of the reverse pass -/
theorem reverseName_spec {g : Net} {R} {u : Str} (t : Tidy g) (hs : Shows g R) (hu : u ∈ g.nodes.map UNode.name) :
    ∃ g', reverseName g u = .ok g' ∧ Tidy g' ∧ g'.nodes = g.nodes ∧ Shows g' (withReverse R [u]) := by
  obtain ⟨n, hn⟩ := Net.getNode_of_hasName (hasName_iff_mem.2 hu)
  obtain ⟨mn, en⟩ := Net.getNode_ok hn
  have hlk : ∃ l, g.lookup n = some l := by
    cases h : g.lookup n with
    | none => exact absurd mn (dictGet_none.1 h)
    | some l => exact ⟨l, rfl⟩
  obtain ⟨l, hl⟩ := hlk
  have hml : (n, l) ∈ g.edges := dictGet_mem hl
  obtain ⟨g', h1, h2, h3, h4⟩ := reverseEdges_spec t hn (fun e he => t.dst n e.1 e.2 ⟨l, hml, he⟩) (t.wf.single _ _ hml)
  refine ⟨g', ?_, h2, h3, ?_⟩
  · simp only [reverseName, hn, bind, Except.bind, hl]
    exact h1
  · intro x y k
    have hch : ∀ x k, (∃ c f, (c, f) ∈ l ∧ c.name = x ∧ k = revFn f) ↔ ∃ f, DirectName g u x f ∧ k = revFn f := by
      intro x k
      constructor
      · rintro ⟨c, f, hm, rfl, rfl⟩
        exact ⟨f, ⟨n, c, en, rfl, l, hml, hm⟩, rfl⟩
      · rintro ⟨f, ⟨na, nb, e1, rfl, hd⟩, rfl⟩
        have e2 := t.src _ _ _ hd
        rw [e1, hn] at e2
        cases e2
        obtain ⟨l', hl', hf'⟩ := hd
        have : l = l' := by
          have h1 := dictGet_of_mem t.wf.keys hml
          have h2 := dictGet_of_mem t.wf.keys hl'
          rw [h1] at h2; simpa using h2
        subst this
        exact ⟨nb, f, hf', rfl, rfl⟩
    rw [h4, hs x y k, hs.linked, hch]
    unfold withReverse
    constructor
    · rintro (⟨c, e1, e2⟩ | ⟨rfl, e2, e3, f, hf, rfl⟩)
      · exact ⟨c, by simp [e1], e2⟩
      · obtain ⟨c, e4, rfl⟩ := (hs _ _ _).1 hf
        refine ⟨.rev c, ?_, rfl⟩
        cases hr : R x y with
        | some c => simp [hr] at e3
        | none => simp [e2, e4]
    · rintro ⟨c, e1, e2⟩
      cases hr : R x y with
      | some c' =>
        rw [hr, Option.some_or] at e1
        cases e1
        exact Or.inl ⟨_, rfl, e2⟩
      | none =>
        rw [hr, Option.none_or] at e1
        split at e1
        · next hx =>
          obtain ⟨hxy, hyu⟩ := hx
          simp only [List.mem_singleton] at hyu
          subst hyu
          cases hyx : R y x with
          | none => rw [hyx] at e1; cases e1
          | some c2 =>
            rw [hyx] at e1
            cases e1
            exact Or.inr ⟨rfl, hxy, by simp [hr], c2.eval, (hs _ _ _).2 ⟨c2, hyx, rfl⟩, e2⟩
        · cases e1

theorem reverseAll_spec {us : List Str} {g : Net} {R} (t : Tidy g) (hs : Shows g R)
    (hu : ∀ u ∈ us, u ∈ g.nodes.map UNode.name) :
    ∃ g', reverseAll us g = .ok g' ∧ Tidy g' ∧ g'.nodes = g.nodes ∧ Shows g' (withReverse R us) := by
  induction us generalizing g R with
  | nil => exact ⟨g, rfl, t, rfl, by rw [withReverse_nil]; exact hs⟩
  | cons u us ih =>
    obtain ⟨g1, h1, t1, n1, s1⟩ := reverseName_spec t hs (hu u (by simp))
    obtain ⟨g2, h2, t2, n2, s2⟩ := ih t1 s1 (by rw [n1]; exact fun u h => hu u (by simp [h]))
    refine ⟨g2, ?_, t2, n2.trans n1, by rw [← withReverse_cons]; exact s2⟩
    simp only [reverseAll, h1, bind, Except.bind]
    exact h2

/-! ## `_clean_network` -/

theorem direct_clean {g : Net} {a b : UNode} {f : Fn} : Direct (cleanNetwork g) a b f ↔ Direct g a b f := by
  unfold Direct cleanNetwork
  constructor
  · rintro ⟨l, hl, hf⟩
    exact ⟨l, (List.mem_filter.1 hl).1, hf⟩
  · rintro ⟨l, hl, hf⟩
    refine ⟨l, List.mem_filter.2 ⟨hl, ?_⟩, hf⟩
    cases l with
    | nil => simp at hf
    | cons => rfl

theorem directName_clean {g : Net} {a b : Str} {f : Fn} :
    DirectName (cleanNetwork g) a b f ↔ DirectName g a b f := by
  unfold DirectName
  simp only [direct_clean]

theorem mem_nodes_clean {g : Net} {n : UNode} : n ∈ (cleanNetwork g).nodes ↔ ∃ b f, Direct g n b f := by
  unfold Net.nodes cleanNetwork Direct
  simp only [List.mem_map, List.mem_filter]
  constructor
  · rintro ⟨⟨n', l⟩, ⟨hl, hne⟩, rfl⟩
    cases l with
    | nil => simp at hne
    | cons e l => exact ⟨e.1, e.2, _, hl, by simp⟩
  · rintro ⟨b, f, l, hl, hf⟩
    refine ⟨(n, l), ⟨hl, ?_⟩, rfl⟩
    cases l with
    | nil => simp at hf
    | cons => rfl

theorem nodes_clean_sublist (g : Net) : (cleanNetwork g).nodes.Sublist g.nodes :=
  List.Sublist.map _ List.filter_sublist

/-- a clean network has one node per name -/
theorem distinct_clean {g : Net} (t : Tidy g) : DistinctNames (cleanNetwork g) := by
  intro a ha b hb hab
  obtain ⟨a', f, h1⟩ := mem_nodes_clean.1 ha
  obtain ⟨b', f', h2⟩ := mem_nodes_clean.1 hb
  have e1 := t.src _ _ _ h1
  have e2 := t.src _ _ _ h2
  rw [hab, e2] at e1
  cases e1
  rfl

/-- a clean network is well formed if every name with a conversion to it has one from it -/
theorem wf_clean {g : Net} (t : Tidy g) (h : ∀ a b, LinkedName g a b → ∃ c, LinkedName g b c) : WF (cleanNetwork g) where
  keys := t.wf.keys.sublist (nodes_clean_sublist g)
  old n hn := t.wf.old n ((nodes_clean_sublist g).subset hn)
  closed := by
    intro a b f hd
    rw [direct_clean] at hd
    obtain ⟨c, f', nb, nc, e1, rfl, hd'⟩ := h a.name b.name ⟨f, a, b, rfl, rfl, hd⟩
    have e2 := t.src _ _ _ hd'
    rw [e1, t.dst _ _ _ hd] at e2
    cases e2
    exact mem_nodes_clean.2 ⟨nc, f', hd'⟩
  single a l hl := t.wf.single a l (List.mem_filter.1 hl).1

end Unyts

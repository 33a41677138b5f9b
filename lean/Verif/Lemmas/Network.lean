import Verif.Spec.Network
import Verif.Lemmas.Bfs

namespace Unyts
open Spec

theorem dictGet_mem [DecidableEq κ] {d : List (κ × υ)} {k : κ} {v : υ} (h : Py.dictGet d k = some v) :
    (k, v) ∈ d := by
  induction d with
  | nil => simp [Py.dictGet] at h
  | cons e r ih =>
    obtain ⟨k', v'⟩ := e
    unfold Py.dictGet at h
    split at h
    · next hk => subst hk; cases h; simp
    · simp [ih h]

theorem dictGet_of_mem [DecidableEq κ] {d : List (κ × υ)} (hn : (d.map Prod.fst).Nodup) {k : κ} {v : υ}
    (h : (k, v) ∈ d) : Py.dictGet d k = some v := by
  induction d with
  | nil => simp at h
  | cons e r ih =>
    obtain ⟨k', v'⟩ := e
    simp only [List.map_cons, List.nodup_cons] at hn
    rcases List.mem_cons.1 h with h | h
    · cases h; simp [Py.dictGet]
    · have : k' ≠ k := by
        rintro rfl
        exact hn.1 (List.mem_map.2 ⟨_, h, rfl⟩)
      simp [Py.dictGet, this, ih hn.2 h]

theorem dictGet_none [DecidableEq κ] {d : List (κ × υ)} {k : κ} :
    Py.dictGet d k = none ↔ k ∉ d.map Prod.fst := by
  induction d with
  | nil => simp [Py.dictGet]
  | cons e r ih =>
    obtain ⟨k', v'⟩ := e
    unfold Py.dictGet
    split
    · next h => simp [h]
    · next h =>
      rw [ih]
      simp only [List.map_cons, List.mem_cons, not_or]
      exact ⟨fun hh => ⟨fun e => h e.symm, hh⟩, fun hh => hh.2⟩

namespace Net

theorem childrenOf_ok {g : Net} {n : UNode} {cs : List UNode} (h : g.childrenOf n = .ok cs) :
    ∃ l, (n, l) ∈ g.edges ∧ cs = l.map Prod.fst := by
  unfold childrenOf at h
  split at h
  · cases h
  · next l hl => cases h; exact ⟨l, dictGet_mem hl, rfl⟩

theorem childrenOf_of_node {g : Net} {n : UNode} (h : n ∈ g.nodes) : ∃ cs, g.childrenOf n = .ok cs := by
  unfold childrenOf lookup
  cases hd : Py.dictGet g.edges n with
  | none => exact absurd h (dictGet_none.1 hd)
  | some l => exact ⟨_, rfl⟩

theorem linked_of_edgeOf {g : Net} {a b : UNode} (h : edgeOf g.childrenOf a b) : Linked g a b := by
  obtain ⟨cs, hcs, hb⟩ := h
  obtain ⟨l, hl, rfl⟩ := childrenOf_ok hcs
  obtain ⟨⟨b', f⟩, hf, rfl⟩ := List.mem_map.1 hb
  exact ⟨f, l, hl, hf⟩

theorem edgeOf_iff {g : Net} (hg : WF g) {a b : UNode} : edgeOf g.childrenOf a b ↔ Linked g a b := by
  refine ⟨linked_of_edgeOf, ?_⟩
  rintro ⟨f, l, hl, hf⟩
  refine ⟨l.map Prod.fst, ?_, List.mem_map.2 ⟨_, hf, rfl⟩⟩
  unfold childrenOf lookup
  rw [dictGet_of_mem hg.keys hl]

/-- all nodes a search can meet -/
def univ (g : Net) (start : UNode) : List UNode :=
  start :: g.edges.flatMap fun e => e.1 :: e.2.map Prod.fst

theorem univ_length (g : Net) (start : UNode) : (g.univ start).length = g.fuelN := by
  unfold univ fuelN
  have : ∀ es : List (UNode × List (UNode × Fn)),
      (es.flatMap fun e => e.1 :: e.2.map Prod.fst).length = (es.map fun e => 1 + e.2.length).sum := by
    intro es
    induction es with
    | nil => rfl
    | cons e r ih =>
      simp only [List.flatMap_cons, List.length_append, List.length_cons, List.length_map, List.map_cons,
        List.sum_cons, ih]
      omega
  simp only [List.length_cons, this]
  omega

theorem foldl_max_le {l : List Nat} {a x : Nat} (h : x ∈ l ∨ x ≤ a) : x ≤ l.foldl max a := by
  induction l generalizing a with
  | nil => simpa using h
  | cons y ys ih =>
    simp only [List.foldl_cons]
    apply ih
    rcases h with h | h
    · rcases List.mem_cons.1 h with h | h
      · right; omega
      · left; exact h
    · right; omega

theorem fuelD_ge {g : Net} {n : UNode} {l : List (UNode × Fn)} (h : (n, l) ∈ g.edges) : l.length ≤ g.fuelD :=
  foldl_max_le (Or.inl (List.mem_map.2 ⟨_, h, rfl⟩))

theorem linked_mem_univ {g : Net} {start a b : UNode} (h : Linked g a b) : b ∈ g.univ start := by
  obtain ⟨f, l, hl, hf⟩ := h
  refine List.mem_cons_of_mem _ (List.mem_flatMap.2 ⟨_, hl, ?_⟩)
  exact List.mem_cons_of_mem _ (List.mem_map.2 ⟨_, hf, rfl⟩)

theorem reach_mem_univ {g : Net} {E : UNode → UNode → Prop} (hE : ∀ a b, E a b → Linked g a b)
    {start x : UNode} (h : Reach E start x) : x ∈ g.univ start := by
  obtain ⟨p, hp⟩ := h
  rcases hp.unsnoc with ⟨_, rfl⟩ | ⟨b, q, _, e, _⟩
  · simp [univ]
  · exact linked_mem_univ (hE _ _ e)

theorem reach_mem_nodes {g : Net} (hg : WF g) {E : UNode → UNode → Prop} (hE : ∀ a b, E a b → Linked g a b)
    {start x : UNode} (hs : start ∈ g.nodes) (h : Reach E start x) : x ∈ g.nodes := by
  obtain ⟨p, hp⟩ := h
  rcases hp.unsnoc with ⟨_, rfl⟩ | ⟨b, q, _, e, _⟩
  · exact hs
  · obtain ⟨f, hf⟩ := hE _ _ e
    exact hg.closed _ _ _ hf

/-- Full specification of `BFS` on a well-formed network. -/
theorem bfs_spec {g : Net} (hg : WF g) {start tgt : UNode} (hs : start ∈ g.nodes) :
    (∃ p, g.bfs start tgt = .ok (some p) ∧ IsPath (Linked g) start tgt p ∧
      ∀ p', Chain (Linked g) start tgt p' → p.length ≤ p'.length) ∨
    (g.bfs start tgt = .ok none ∧ ¬ Reach (Linked g) start tgt) := by
  have hE : edgeOf g.childrenOf = Linked g := by
    funext a b; exact propext (edgeOf_iff hg)
  have := Unyts.bfs_spec (ch := g.childrenOf) (start := start) (tgt := tgt) (U := g.univ start)
    (N := g.fuelN) (D := g.fuelD)
    (fun x hx => reach_mem_univ (fun a b => linked_of_edgeOf) hx)
    (Nat.le_of_eq (univ_length g start))
    (by
      intro x cs hcs
      obtain ⟨l, hl, rfl⟩ := childrenOf_ok hcs
      simpa using fuelD_ge hl)
    (fun x hx => childrenOf_of_node (reach_mem_nodes hg (fun a b => linked_of_edgeOf) hs hx))
  rw [hE] at this
  exact this

theorem bfs_sound {g : Net} {start tgt : UNode} {p : List UNode} (h : g.bfs start tgt = .ok (some p)) :
    IsPath (Linked g) start tgt p :=
  let h' := Unyts.bfs_sound h
  ⟨h'.1.mono (fun _ _ => linked_of_edgeOf), h'.2⟩

end Net
end Unyts

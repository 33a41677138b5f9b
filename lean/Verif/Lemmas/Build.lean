import Verif.Lemmas.Lean

/- `set_unit` and `set_conversion` keep networks well formed. -/
namespace Unyts
open Spec

namespace Net

theorem wf_empty : WF Net.empty :=
  ⟨by simp [empty, nodes], by simp [empty, nodes], by simp [Direct, empty], by simp [empty]⟩

/-- `add_node(UNode(name))` always succeeds and appends a node without conversions. -/
theorem addName_ok {g : Net} (hg : WF g) (name : Str) :
    g.addName name = .ok ⟨g.edges ++ [(⟨g.nextId, name⟩, [])], g.nextId + 1⟩ := by
  unfold addName fresh addNode
  have : (⟨g.nextId, name⟩ : UNode) ∉ g.nodes := by
    intro h
    exact absurd (hg.old _ h) (by simp)
  simp only [nodes] at this
  simp [nodes, this]

theorem wf_addName {g : Net} (hg : WF g) (name : Str) :
    WF ⟨g.edges ++ [(⟨g.nextId, name⟩, [])], g.nextId + 1⟩ where
  keys := by
    simp only [nodes, List.map_append, List.map_cons, List.map_nil]
    rw [List.nodup_append]
    refine ⟨hg.keys, by simp, ?_⟩
    intro a ha b hb hab
    simp at hb
    subst hb hab
    exact absurd (hg.old _ ha) (by simp)
  old := by
    intro n hn
    simp only [nodes, List.map_append, List.mem_append, List.map_cons, List.map_nil, List.mem_singleton] at hn
    rcases hn with hn | rfl
    · have := hg.old _ hn; simp; omega
    · simp
  closed := by
    rintro a b f ⟨l, hl, hf⟩
    simp only [List.mem_append, List.mem_singleton] at hl
    rcases hl with hl | hl
    · simp only [nodes, List.map_append, List.mem_append]
      exact Or.inl (hg.closed _ _ _ ⟨l, hl, hf⟩)
    · cases hl; simp at hf
  single := by
    intro a l hl
    simp only [List.mem_append, List.mem_singleton] at hl
    rcases hl with hl | hl
    · exact hg.single _ _ hl
    · cases hl; simp

theorem appendEdge_fst (es : List (UNode × List (UNode × Fn))) (src dst : UNode) (f : Fn) :
    (appendEdge es src dst f).map Prod.fst = es.map Prod.fst := by
  unfold appendEdge
  rw [List.map_map]
  apply List.map_congr_left
  rintro ⟨k, l⟩ _
  simp only [Function.comp]
  split <;> rfl

theorem mem_appendEdge {es : List (UNode × List (UNode × Fn))} {src dst : UNode} {f : Fn} {k : UNode}
    {l' : List (UNode × Fn)} : (k, l') ∈ appendEdge es src dst f ↔
      ∃ l, (k, l) ∈ es ∧ l' = if k = src ∧ dst ∉ l.map Prod.fst then l ++ [(dst, f)] else l := by
  unfold appendEdge
  rw [List.mem_map]
  constructor
  · rintro ⟨⟨k0, l⟩, hm, he⟩
    simp only at he
    by_cases hc : k0 = src ∧ dst ∉ l.map Prod.fst
    · rw [if_pos hc] at he
      simp only [Prod.mk.injEq] at he
      obtain ⟨rfl, rfl⟩ := he
      exact ⟨l, hm, by rw [if_pos hc]⟩
    · rw [if_neg hc] at he
      simp only [Prod.mk.injEq] at he
      obtain ⟨rfl, rfl⟩ := he
      exact ⟨l, hm, by rw [if_neg hc]⟩
  · rintro ⟨l, hm, rfl⟩
    refine ⟨_, hm, ?_⟩
    simp only
    split <;> rfl

theorem nodes_addEdge {g : Net} {src dst : UNode} {f : Fn} :
    Net.nodes ⟨appendEdge g.edges src dst f, g.nextId⟩ = g.nodes := by
  unfold nodes
  exact appendEdge_fst _ _ _ _

theorem addEdge_ok {g : Net} {src dst : UNode} (f : Fn) (hs : src ∈ g.nodes) (hd : dst ∈ g.nodes) :
    g.addEdge src dst f = .ok ⟨appendEdge g.edges src dst f, g.nextId⟩ := by
  unfold addEdge
  rw [if_pos ⟨hs, hd⟩]

/-- the conversions after `add_edge` -/
theorem direct_addEdge {g : Net} (hg : WF g) {src dst : UNode} {f : Fn} (hs : src ∈ g.nodes) {a b : UNode}
    {h : Fn} : Direct ⟨appendEdge g.edges src dst f, g.nextId⟩ a b h ↔
      Direct g a b h ∨ (a = src ∧ b = dst ∧ h = f ∧ ¬ Linked g src dst) := by
  have hnl : ∀ l, (src, l) ∈ g.edges → (dst ∈ l.map Prod.fst ↔ Linked g src dst) := by
    intro l hl
    constructor
    · intro hm
      obtain ⟨⟨d, f'⟩, hf, rfl⟩ := List.mem_map.1 hm
      exact ⟨f', l, hl, hf⟩
    · rintro ⟨f', l', hl', hf'⟩
      have : l = l' := by
        have h1 := dictGet_of_mem hg.keys hl
        have h2 := dictGet_of_mem hg.keys hl'
        rw [h1] at h2; simpa using h2
      subst this
      exact List.mem_map.2 ⟨_, hf', rfl⟩
  constructor
  · rintro ⟨l', hl', hf'⟩
    obtain ⟨l, hl, rfl⟩ := mem_appendEdge.1 hl'
    split at hf'
    · next hc =>
      obtain ⟨rfl, hnd⟩ := hc
      rcases List.mem_append.1 hf' with h | h
      · exact Or.inl ⟨l, hl, h⟩
      · simp only [List.mem_singleton, Prod.mk.injEq] at h
        exact Or.inr ⟨rfl, h.1, h.2, fun hh => hnd ((hnl l hl).2 hh)⟩
    · exact Or.inl ⟨l, hl, hf'⟩
  · rintro (⟨l, hl, hf⟩ | ⟨rfl, rfl, rfl, hno⟩)
    · refine ⟨_, mem_appendEdge.2 ⟨l, hl, rfl⟩, ?_⟩
      split
      · exact List.mem_append.2 (Or.inl hf)
      · exact hf
    · obtain ⟨⟨k, l⟩, hl, rfl⟩ := List.mem_map.1 hs
      refine ⟨_, mem_appendEdge.2 ⟨l, hl, rfl⟩, ?_⟩
      rw [if_pos ⟨rfl, fun hm => hno ((hnl l hl).1 hm)⟩]
      simp

theorem wf_addEdge {g : Net} (hg : WF g) {src dst : UNode} {f : Fn} (hs : src ∈ g.nodes) (hd : dst ∈ g.nodes) :
    WF ⟨appendEdge g.edges src dst f, g.nextId⟩ where
  keys := by rw [nodes_addEdge]; exact hg.keys
  old := by intro n hn; rw [nodes_addEdge] at hn; exact hg.old n hn
  closed := by
    intro a b h hh
    rw [nodes_addEdge]
    rcases (direct_addEdge hg hs).1 hh with h | ⟨_, rfl, _, _⟩
    · exact hg.closed _ _ _ h
    · exact hd
  single := by
    intro a l' hl'
    obtain ⟨l, hl, rfl⟩ := mem_appendEdge.1 hl'
    split
    · next hc =>
      rw [List.map_append, List.nodup_append]
      refine ⟨hg.single _ _ hl, by simp, ?_⟩
      intro x hx y hy hxy
      simp at hy
      subst hy hxy
      exact hc.2 hx
    · exact hg.single _ _ hl

theorem getNode_ok {g : Net} {s : Str} {n : UNode} (h : g.getNode s = .ok n) :
    n ∈ g.nodes ∧ n.name = s := by
  unfold getNode at h
  split at h
  · next n' hn =>
    cases h
    exact ⟨List.mem_of_find?_eq_some hn, by simpa using List.find?_some hn⟩
  · cases h

theorem getNode_of_hasName {g : Net} {s : Str} (h : g.hasName s = true) : ∃ n, g.getNode s = .ok n := by
  unfold hasName at h
  unfold getNode
  rw [List.any_eq_true] at h
  obtain ⟨n, hn, he⟩ := h
  cases hf : g.nodes.find? (fun n => n.name = s) with
  | none => rw [List.find?_eq_none] at hf; exact absurd he (hf n hn)
  | some m => exact ⟨m, rfl⟩

theorem getNode_distinct {g : Net} (hd : DistinctNames g) {n : UNode} (hn : n ∈ g.nodes) :
    g.getNode n.name = .ok n := by
  obtain ⟨m, hm⟩ := getNode_of_hasName (hasName_of_mem hn)
  obtain ⟨h1, h2⟩ := getNode_ok hm
  rw [hm, hd m h1 n hn h2]

/-- what `get_node` returns does not depend on the nodes added later -/
theorem getNode_append {g : Net} {s : Str} {n : UNode} (h : g.getNode s = .ok n)
    (es : List (UNode × List (UNode × Fn))) (k : Nat) :
    Net.getNode ⟨g.edges ++ es, k⟩ s = .ok n := by
  unfold getNode nodes at *
  simp only [List.map_append, List.find?_append]
  split at h
  · next n' hn => cases h; rw [hn]; rfl
  · cases h

theorem getNode_congr {g g' : Net} (h : g.nodes = g'.nodes) (s : Str) : g.getNode s = g'.getNode s := by
  unfold getNode; rw [h]

theorem hasName_congr {g g' : Net} (h : g.nodes = g'.nodes) (s : Str) : g.hasName s = g'.hasName s := by
  unfold hasName; rw [h]

end Net

/-- Everything `set_conversion` does to a well-formed network. -/
theorem setConversion_spec {g : Net} (hg : WF g) (a b : Str) (f : Fn) (rev : Option Fn) :
    ∃ g' na nb, setConversion g a b f rev = .ok g' ∧ WF g' ∧
      g'.nodes = g.nodes ++ [⟨g.nextId, a⟩, ⟨g.nextId + 1, b⟩] ∧
      g'.getNode a = .ok na ∧ g'.getNode b = .ok nb ∧
      (∀ s n, g.getNode s = .ok n → g'.getNode s = .ok n) ∧
      (∀ x y h, Direct g' x y h ↔ Direct g x y h ∨
        (x = na ∧ y = nb ∧ h = f ∧ ¬ Linked g na nb) ∨
        (x = nb ∧ y = na ∧ h = rev.getD (revFn f) ∧ ¬ Linked g nb na ∧ na ≠ nb)) := by
  let g1 : Net := ⟨g.edges ++ [(⟨g.nextId, a⟩, [])], g.nextId + 1⟩
  have w1 : WF g1 := Net.wf_addName hg a
  have e1 : g.addName a = .ok g1 := Net.addName_ok hg a
  let g2 : Net := ⟨g1.edges ++ [(⟨g1.nextId, b⟩, [])], g1.nextId + 1⟩
  have w2 : WF g2 := Net.wf_addName w1 b
  have e2 : g1.addName b = .ok g2 := Net.addName_ok w1 b
  have hn2 : g2.nodes = g.nodes ++ [⟨g.nextId, a⟩, ⟨g.nextId + 1, b⟩] := by
    simp [g2, g1, Net.nodes]
  have ha : g2.hasName a = true := by
    have : (⟨g.nextId, a⟩ : UNode) ∈ g2.nodes := by rw [hn2]; simp
    simpa using Net.hasName_of_mem this
  have hb : g2.hasName b = true := by
    have : (⟨g.nextId + 1, b⟩ : UNode) ∈ g2.nodes := by rw [hn2]; simp
    simpa using Net.hasName_of_mem this
  obtain ⟨na, hna⟩ := Net.getNode_of_hasName ha
  obtain ⟨nb, hnb⟩ := Net.getNode_of_hasName hb
  have mna := (Net.getNode_ok hna).1
  have mnb := (Net.getNode_ok hnb).1
  let g3 : Net := ⟨Net.appendEdge g2.edges na nb f, g2.nextId⟩
  have w3 : WF g3 := Net.wf_addEdge w2 mna mnb
  have n3 : g3.nodes = g2.nodes := Net.nodes_addEdge
  let r := rev.getD (revFn f)
  let g4 : Net := ⟨Net.appendEdge g3.edges nb na r, g3.nextId⟩
  have w4 : WF g4 := Net.wf_addEdge w3 (n3 ▸ mnb) (n3 ▸ mna)
  have n4 : g4.nodes = g2.nodes := Net.nodes_addEdge.trans n3
  have d2 : ∀ x y h, Direct g2 x y h ↔ Direct g x y h := by
    intro x y h
    unfold Direct
    constructor
    · rintro ⟨l, hl, hf⟩
      simp only [g2, g1, List.append_assoc, List.mem_append, List.mem_singleton] at hl
      rcases hl with hl | hl | hl
      · exact ⟨l, hl, hf⟩
      · cases hl; simp at hf
      · cases hl; simp at hf
    · rintro ⟨l, hl, hf⟩
      exact ⟨l, by simp [g2, g1, hl], hf⟩
  have l2 : ∀ x y, Linked g2 x y ↔ Linked g x y := fun x y => exists_congr (d2 x y)
  refine ⟨g4, na, nb, ?_, w4, n4.trans hn2, ?_, ?_, ?_, ?_⟩
  · unfold setConversion
    simp only [e1, e2, bind, Except.bind, hna, hnb]
    rw [Net.addEdge_ok f mna mnb]
    exact Net.addEdge_ok r (n3 ▸ mnb) (n3 ▸ mna)
  · rw [Net.getNode_congr n4]; exact hna
  · rw [Net.getNode_congr n4]; exact hnb
  · intro s n h
    rw [Net.getNode_congr n4]
    have : g2 = ⟨g.edges ++ [(⟨g.nextId, a⟩, []), (⟨g.nextId + 1, b⟩, [])], g.nextId + 2⟩ := by
      simp [g2, g1]
    rw [this]
    exact Net.getNode_append h _ _
  · intro x y h
    rw [Net.direct_addEdge w3 (n3 ▸ mnb), Net.direct_addEdge w2 mna, d2]
    have l3 : Linked g3 nb na ↔ Linked g nb na ∨ (nb = na ∧ na = nb ∧ ¬ Linked g na nb) := by
      unfold Linked
      constructor
      · rintro ⟨f', hf'⟩
        rcases (Net.direct_addEdge w2 mna).1 hf' with h | ⟨h1, h2, _, h3⟩
        · exact Or.inl ⟨f', (d2 _ _ _).1 h⟩
        · exact Or.inr ⟨h1, h2, fun h => h3 ((l2 _ _).2 h)⟩
      · rintro (⟨f', hf'⟩ | ⟨h1, h2, h3⟩)
        · exact ⟨f', (Net.direct_addEdge w2 mna).2 (Or.inl ((d2 _ _ _).2 hf'))⟩
        · exact ⟨f, (Net.direct_addEdge w2 mna).2 (Or.inr ⟨h1, h2, rfl, fun h => h3 ((l2 _ _).1 h)⟩)⟩
    rw [l2, l3]
    constructor
    · rintro ((h | h) | ⟨h1, h2, h3, h4⟩)
      · exact Or.inl h
      · exact Or.inr (Or.inl h)
      · refine Or.inr (Or.inr ⟨h1, h2, h3, fun h => h4 (Or.inl h), fun h => ?_⟩)
        subst h
        by_cases hl : Linked g na na
        · exact h4 (Or.inl hl)
        · exact h4 (Or.inr ⟨rfl, rfl, hl⟩)
    · rintro (h | h | ⟨h1, h2, h3, h4, h5⟩)
      · exact Or.inl (Or.inl h)
      · exact Or.inl (Or.inr h)
      · exact Or.inr ⟨h1, h2, h3, fun h => h.elim h4 (fun h => h5 h.2.1)⟩

/-- Everything `set_unit` does to a well-formed network. -/
theorem setUnit_spec {g : Net} (hg : WF g) (a : Str) :
    ∃ g', setUnit g a = .ok g' ∧ WF g' ∧ g'.nodes = g.nodes ++ [⟨g.nextId, a⟩] ∧
      (∀ s n, g.getNode s = .ok n → g'.getNode s = .ok n) ∧
      (∀ x y h, Direct g' x y h ↔ Direct g x y h) := by
  refine ⟨_, Net.addName_ok hg a, Net.wf_addName hg a, by simp [Net.nodes], ?_, ?_⟩
  · intro s n h
    exact Net.getNode_append h _ _
  · intro x y h
    unfold Direct
    constructor
    · rintro ⟨l, hl, hf⟩
      simp only [List.mem_append, List.mem_singleton] at hl
      rcases hl with hl | hl
      · exact ⟨l, hl, hf⟩
      · cases hl; simp at hf
    · rintro ⟨l, hl, hf⟩
      exact ⟨l, by simp [hl], hf⟩

/-- The two calls with which a user changes the network. -/
inductive Edit where
  | unit (a : Str)
  | conv (a b : Str) (f : Fn) (rev : Option Fn)

/-- Perform one edit. -/
def Edit.apply (g : Net) : Edit → Res Net
  | .unit a => setUnit g a
  | .conv a b f r => setConversion g a b f r

/-- Networks obtained from the empty one by any sequence of set_unit / set_conversion. -/
def applyEdits (g : Net) : List Edit → Res Net
  | [] => .ok g
  | e :: es => do
    let g ← e.apply g
    applyEdits g es

theorem applyEdits_wf {g : Net} (hg : WF g) (es : List Edit) : ∃ g', applyEdits g es = .ok g' ∧ WF g' := by
  induction es generalizing g with
  | nil => exact ⟨g, rfl, hg⟩
  | cons e es ih =>
    cases e with
    | unit a =>
      obtain ⟨g', h, w, _⟩ := setUnit_spec hg a
      obtain ⟨g2, h2, w2⟩ := ih w
      exact ⟨g2, by simp [applyEdits, Edit.apply, h, bind, Except.bind, h2], w2⟩
    | conv a b f r =>
      obtain ⟨g', _, _, h, w, _⟩ := setConversion_spec hg a b f r
      obtain ⟨g2, h2, w2⟩ := ih w
      exact ⟨g2, by simp [applyEdits, Edit.apply, h, bind, Except.bind, h2], w2⟩

/-- Every history of edits succeeds and gives a well-formed network. -/
theorem reachable_wf (es : List Edit) : ∃ g, applyEdits Net.empty es = .ok g ∧ WF g :=
  applyEdits_wf Net.wf_empty es

end Unyts

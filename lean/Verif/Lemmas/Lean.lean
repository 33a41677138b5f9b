import Verif.Lemmas.Network

/- Lemmas about `_get_descendants` and `lean_BFS`. -/
namespace Unyts.Spec
variable {α : Type _} {E : α → α → Prop}

theorem Chain.within_of_mem {a b y : α} {p : List α} (h : Chain E a b p) (hy : y ∈ p) {m : Nat}
    (hl : p.length ≤ m + 1) : Within E m a y := by
  induction h generalizing m with
  | single a => simp at hy; subst hy; exact Within.refl _ _
  | @step a b c p e h ih =>
    rcases List.mem_cons.1 hy with rfl | hy
    · exact Within.refl _ _
    · cases m with
      | zero => exact absurd h.ne_nil (by simp at hl; simp [hl])
      | succ m =>
        obtain ⟨q, hq, hql⟩ := ih hy (m := m) (by simp at hl; omega)
        exact ⟨a :: q, .step e hq, by simp; omega⟩

/-- A vertex of the chain that is close to every other one. -/
theorem Chain.center {a b : α} {p : List α} (h : Chain E a b p) {n m : Nat} (hl : p.length ≤ n + m + 1) :
    ∃ x, Within E n a x ∧ Within E m x b ∧ ∀ y ∈ p, Within E n y x ∨ Within E m x y := by
  induction n generalizing a p with
  | zero =>
    exact ⟨a, Within.refl _ _, ⟨p, h, by omega⟩, fun y hy => Or.inr (h.within_of_mem hy (by omega))⟩
  | succ n ih =>
    cases h with
    | single => exact ⟨b, Within.refl _ _, Within.refl _ _, by simp; exact Or.inl (Within.refl _ _)⟩
    | @step _ b' _ p e h =>
      obtain ⟨x, ⟨q, hq, hql⟩, h2, h3⟩ := ih h (by simp at hl; omega)
      have h1 : Within E (n + 1) a x := ⟨a :: q, .step e hq, by simp; omega⟩
      refine ⟨x, h1, h2, fun y hy => ?_⟩
      rcases List.mem_cons.1 hy with rfl | hy
      · exact Or.inl h1
      · rcases h3 y hy with h | h
        · exact Or.inl (h.mono (by omega))
        · exact Or.inr h

end Unyts.Spec

namespace Unyts
open Spec

/-- edges of a dictionary of names -/
def strEdge (es : List (Str × List Str)) (a b : Str) : Prop := ∃ l, (a, l) ∈ es ∧ b ∈ l

theorem mem_roundOnce {es : List (Str × List Str)} {c : List Str} {x : Str} :
    x ∈ roundOnce es c ↔ x ∈ c ∨ ∃ y ∈ c, strEdge es y x := by
  unfold roundOnce
  rw [Py.mem_union]
  apply or_congr Iff.rfl
  simp only [List.mem_flatMap]
  constructor
  · rintro ⟨e, he, hx⟩
    split at hx
    · next h => exact ⟨e.1, h, e.2, he, hx⟩
    · simp at hx
  · rintro ⟨y, hy, l, hl, hx⟩
    exact ⟨_, hl, by simp [hy, hx]⟩

/-- the turns of the loop of `_get_descendants` compute a ball -/
theorem mem_rounds {es : List (Str × List Str)} {n : Nat} {u x : Str} :
    x ∈ rounds es n [u] ↔ Within (strEdge es) n u x := by
  induction n generalizing x with
  | zero => rw [Within.zero]; simp [rounds, eq_comm]
  | succ n ih =>
    rw [rounds, mem_roundOnce, Within.succ]
    simp only [ih]

theorem pairSplit_simple {u : Str} (h : SimpleName u) : pairSplit u = none := by
  unfold pairSplit
  rw [Py.splitOn_of_not_mem h.1, Py.splitOn_of_not_mem h.2]

theorem mem_getDescendants_simple {es : List (Str × List Str)} {has : Str → Bool} {u : Str} (hs : SimpleName u)
    (hh : has u = true) (n : Nat) (comb : Bool) {x : Str} :
    x ∈ getDescendants es has u n comb ↔ Within (strEdge es) n u x := by
  unfold getDescendants getDescendantsF
  by_cases h0 : (n : Int) = 0
  · have : n = 0 := by omega
    subst this
    simp [Within.zero, eq_comm]
  · rw [if_neg h0]
    simp only [hh, if_true, Int.toNat_natCast, pairSplit_simple hs, ite_self]
    rw [Py.mem_union, Py.mem_union, mem_rounds]
    constructor
    · rintro (h | h | h)
      · simp at h; subst h; exact Within.refl _ _
      · exact h
      · simp at h
    · intro h; exact Or.inr (Or.inl h)

namespace Net

theorem dictSet_fresh [DecidableEq κ] {d : List (κ × υ)} {k : κ} {v : υ} (h : k ∉ d.map Prod.fst) :
    Py.dictSet d k v = d ++ [(k, v)] := by
  induction d with
  | nil => rfl
  | cons e r ih =>
    obtain ⟨k', v'⟩ := e
    simp only [List.map_cons, List.mem_cons, not_or] at h
    rw [Py.dictSet, if_neg (fun e => h.1 e.symm), ih h.2, List.cons_append]

theorem foldl_dictSet_fresh [DecidableEq κ] {β : Type _} (es : List β) (kf : β → κ) (vf : β → υ) :
    ∀ d : List (κ × υ), (d.map Prod.fst ++ es.map kf).Nodup →
      es.foldl (fun d e => Py.dictSet d (kf e) (vf e)) d = d ++ es.map (fun e => (kf e, vf e)) := by
  induction es with
  | nil => intro d _; simp
  | cons e r ih =>
    intro d hn
    simp only [List.foldl_cons, List.map_cons]
    have hk : kf e ∉ d.map Prod.fst := by
      intro hm
      rw [List.nodup_append] at hn
      exact hn.2.2 _ hm _ (by simp) rfl
    rw [dictSet_fresh hk, ih]
    · simp
    · simpa using hn

theorem names_nodup {g : Net} (hg : WF g) (hd : DistinctNames g) : (g.edges.map fun e => e.1.name).Nodup := by
  have h1 : (g.edges.map fun e => e.1.name) = g.nodes.map UNode.name := by simp [nodes]
  rw [h1]
  clear h1
  have := hg.keys
  unfold DistinctNames at hd
  generalize g.nodes = l at *
  induction l with
  | nil => simp
  | cons x xs ih =>
    rw [List.nodup_cons] at this
    rw [List.map_cons, List.nodup_cons]
    refine ⟨?_, ih (fun a ha b hb => hd a (by simp [ha]) b (by simp [hb])) this.2⟩
    intro hm
    obtain ⟨y, hy, he⟩ := List.mem_map.1 hm
    exact this.1 (hd y (by simp [hy]) x (by simp) he ▸ hy)

/-- with distinct names the dictionary of names is the network read through names -/
theorem edgesStr_distinct {g : Net} (hg : WF g) (hd : DistinctNames g) :
    g.edgesStr = g.edges.map (fun e => (e.1.name, e.2.map fun c => c.1.name)) := by
  unfold edgesStr
  rw [foldl_dictSet_fresh g.edges (fun e => e.1.name) (fun e => e.2.map fun c => c.1.name) []]
  · simp
  · simpa using names_nodup hg hd

theorem strEdge_iff {g : Net} (hg : WF g) (hd : DistinctNames g) {a b : Str} :
    strEdge g.edgesStr a b ↔ ∃ na nb, Linked g na nb ∧ na.name = a ∧ nb.name = b := by
  unfold strEdge
  rw [edgesStr_distinct hg hd]
  constructor
  · rintro ⟨l, hl, hb⟩
    obtain ⟨⟨na, cs⟩, he, heq⟩ := List.mem_map.1 hl
    simp only [Prod.mk.injEq] at heq
    obtain ⟨rfl, rfl⟩ := heq
    obtain ⟨⟨nb, f⟩, hf, rfl⟩ := List.mem_map.1 hb
    exact ⟨na, nb, ⟨f, cs, he, hf⟩, rfl, rfl⟩
  · rintro ⟨na, nb, ⟨f, cs, he, hf⟩, rfl, rfl⟩
    exact ⟨_, List.mem_map.2 ⟨_, he, rfl⟩, List.mem_map.2 ⟨_, hf, rfl⟩⟩

theorem linked_src {g : Net} {a b : UNode} (h : Linked g a b) : a ∈ g.nodes := by
  obtain ⟨f, l, hl, _⟩ := h
  exact List.mem_map.2 ⟨_, hl, rfl⟩

theorem linked_dst {g : Net} (hg : WF g) {a b : UNode} (h : Linked g a b) : b ∈ g.nodes := by
  obtain ⟨f, hf⟩ := h
  exact hg.closed _ _ _ hf

/-- balls in the graph of names and in the network agree -/
theorem within_names {g : Net} (hg : WF g) (hd : DistinctNames g) {a : UNode} (ha : a ∈ g.nodes) {n : Nat}
    {x : Str} :
    Within (strEdge g.edgesStr) n a.name x ↔ ∃ b ∈ g.nodes, Within (Linked g) n a b ∧ b.name = x := by
  induction n generalizing x with
  | zero =>
    rw [Within.zero]
    constructor
    · rintro rfl; exact ⟨a, ha, Within.refl _ _, rfl⟩
    · rintro ⟨b, _, hb, rfl⟩; rw [Within.zero] at hb; rw [hb]
  | succ n ih =>
    rw [Within.succ]
    constructor
    · rintro (h | ⟨y, hy, he⟩)
      · obtain ⟨b, hb, hw, rfl⟩ := ih.1 h
        exact ⟨b, hb, hw.mono (by omega), rfl⟩
      · obtain ⟨b, hb, hw, rfl⟩ := ih.1 hy
        obtain ⟨na, nb, hl, hna, rfl⟩ := (strEdge_iff hg hd).1 he
        have : na = b := hd _ (linked_src hl) _ hb hna
        subst this
        exact ⟨nb, linked_dst hg hl, Within.succ.2 (Or.inr ⟨_, hw, hl⟩), rfl⟩
    · rintro ⟨b, hb, hw, rfl⟩
      rcases Within.succ.1 hw with h | ⟨c, hc, he⟩
      · exact Or.inl (ih.2 ⟨b, hb, h, rfl⟩)
      · exact Or.inr ⟨c.name, ih.2 ⟨c, linked_src he, hc, rfl⟩, (strEdge_iff hg hd).2 ⟨_, _, he, rfl, rfl⟩⟩

theorem hasName_of_mem {g : Net} {n : UNode} (h : n ∈ g.nodes) : g.hasName n.name = true := by
  unfold hasName
  rw [List.any_eq_true]
  exact ⟨n, h, by simp⟩

end Net

theorem mem_desc_node {g : Net} (hg : WF g) (hd : DistinctNames g) (hsn : ∀ n ∈ g.nodes, SimpleName n.name)
    {a : UNode} (ha : a ∈ g.nodes) {n : Nat} {comb : Bool} {x : Str} :
    x ∈ getDescendants g.edgesStr g.hasName a.name n comb ↔
      ∃ b ∈ g.nodes, Within (Linked g) n a b ∧ b.name = x := by
  rw [mem_getDescendants_simple (hsn a ha) (Net.hasName_of_mem ha), Net.within_names hg hd ha]

theorem slim_sub {g : Net} {sel : List Str} {a b : UNode} (h : edgeOf (slimChildren g sel) a b) :
    Linked g a b := by
  obtain ⟨cs, hcs, hb⟩ := h
  unfold slimChildren at hcs
  split at hcs
  · cases hcs; simp at hb
  · next l hl =>
    cases hcs
    obtain ⟨⟨b', f⟩, hf, rfl⟩ := List.mem_map.1 hb
    exact ⟨f, l, (List.mem_filter.1 (dictGet_mem hl)).1, hf⟩

theorem slim_of_linked {g : Net} (hg : WF g) {sel : List Str} {a b : UNode} (h : Linked g a b)
    (ha : a.name ∈ sel) : edgeOf (slimChildren g sel) a b := by
  obtain ⟨f, l, hl, hf⟩ := h
  refine ⟨l.map Prod.fst, ?_, List.mem_map.2 ⟨_, hf, rfl⟩⟩
  unfold slimChildren
  have hn : ((g.edges.filter fun e => e.1.name ∈ sel).map Prod.fst).Nodup := by
    refine List.Nodup.sublist ?_ hg.keys
    exact List.Sublist.map _ List.filter_sublist
  rw [dictGet_of_mem hn (List.mem_filter.2 ⟨hl, by simpa using ha⟩)]

theorem slim_bfs_spec {g : Net} {sel : List Str} {start tgt : UNode} :
    (∃ p, bfs (slimChildren g sel) g.fuelN g.fuelD start tgt = .ok (some p) ∧
      IsPath (edgeOf (slimChildren g sel)) start tgt p ∧
      ∀ p', Chain (edgeOf (slimChildren g sel)) start tgt p' → p.length ≤ p'.length) ∨
    (bfs (slimChildren g sel) g.fuelN g.fuelD start tgt = .ok none ∧
      ¬ Reach (edgeOf (slimChildren g sel)) start tgt) := by
  refine bfs_spec (U := g.univ start) (fun x hx => Net.reach_mem_univ (fun a b => slim_sub) hx)
    (Nat.le_of_eq (Net.univ_length g start)) ?_ ?_
  · intro x cs hcs
    unfold slimChildren at hcs
    split at hcs
    · cases hcs; simp
    · next l hl =>
      cases hcs
      simpa using Net.fuelD_ge (List.mem_filter.1 (dictGet_mem hl)).1
  · intro x _
    unfold slimChildren
    split <;> exact ⟨_, rfl⟩

theorem leanBfs_sound {g : Net} {es : List (Str × List Str)} {m : Int} {start tgt : UNode} {p : List UNode}
    (h : leanBfs g es m start tgt = .ok (some p)) : IsPath (Linked g) start tgt p := by
  unfold leanBfs at h
  simp only at h
  split at h
  · cases h
  · have h' := bfs_sound h
    exact ⟨h'.1.mono (fun _ _ => slim_sub), h'.2⟩

/-- `leanLoop` stops at the first generation with a common descendant, or at the last one -/
theorem leanLoop_spec {desc : Str → Int → List Str} {a b : Str} :
    ∀ {gs : List Int} {acc : List Str × Int}, gs ≠ [] →
      ∃ g ∈ gs, leanLoop desc a b gs acc = (Py.inter (desc a (g + 1)) (desc b (g + 1)), g + 1) ∧
        (Py.inter (desc a (g + 1)) (desc b (g + 1)) ≠ [] ∨ gs.getLast? = some g)
  | [], _, h => absurd rfl h
  | g :: gs, _, _ => by
    unfold leanLoop
    simp only
    by_cases hsel : Py.inter (desc a (g + 1)) (desc b (g + 1)) = []
    · rw [if_neg (by simpa using hsel)]
      cases gs with
      | nil => exact ⟨g, by simp, by simp [leanLoop], Or.inr (by simp)⟩
      | cons g2 gs =>
        obtain ⟨g', hg', h1, h2⟩ := leanLoop_spec (desc := desc) (a := a) (b := b) (gs := g2 :: gs)
          (acc := (Py.inter (desc a (g + 1)) (desc b (g + 1)), g + 1)) (by simp)
        exact ⟨g', by simp [hg'], h1, by simpa using h2⟩
    · rw [if_pos hsel]
      exact ⟨g, by simp, rfl, Or.inl hsel⟩

theorem generationsList_ne (m : Int) : generationsList m ≠ [] := by simp [generationsList]

theorem generationsList_last (m : Int) : (generationsList m).getLast? = some m := by
  simp [generationsList]

theorem generationsList_nonneg {m : Int} (hm : 0 ≤ m) {g : Int} (h : g ∈ generationsList m) : 0 ≤ g := by
  unfold generationsList at h
  simp only [List.mem_append, List.mem_filter, List.mem_cons, List.not_mem_nil, or_false] at h
  omega

/-- the selection of `lean_BFS` covers every vertex of every short enough chain -/
theorem leanSelection_covers {g : Net} (hg : WF g) (h2 : TwoWay (Linked g)) (hd : DistinctNames g)
    (hsn : ∀ n ∈ g.nodes, SimpleName n.name) {m : Int} (hm : 0 ≤ m) {a b : UNode} (ha : a ∈ g.nodes)
    (hb : b ∈ g.nodes) {p : List UNode} (hp : Chain (Linked g) a b p)
    (hmin : ∀ p', Chain (Linked g) a b p' → p.length ≤ p'.length)
    (hlen : (p.length : Int) ≤ 2 * (m + 1) + 1) :
    ∀ x ∈ p, x.name ∈ leanSelection g.edgesStr g.hasName a.name b.name m := by
  obtain ⟨gen, hgm, hl, hor⟩ := leanLoop_spec
    (desc := fun u g' => getDescendants g.edgesStr g.hasName u g' true) (a := a.name) (b := b.name)
    (acc := ([], 0)) (generationsList_ne m)
  have hg0 := generationsList_nonneg hm hgm
  obtain ⟨r, hr⟩ : ∃ r : Nat, gen + 1 = (r : Int) := ⟨(gen + 1).toNat, by omega⟩
  simp only [hr] at hl hor
  -- the chain is at most 2r long
  have hshort : p.length ≤ r + r + 1 := by
    rcases hor with hne | hlast
    · obtain ⟨x, hx⟩ := List.exists_mem_of_ne_nil _ hne
      rw [Py.mem_inter, mem_desc_node hg hd hsn ha, mem_desc_node hg hd hsn hb] at hx
      obtain ⟨⟨y, hy, hay, rfl⟩, z, hz, hbz, hyz⟩ := hx
      have : z = y := hd _ hz _ hy hyz
      subst this
      obtain ⟨q, hq, hql⟩ := hay.trans (hbz.symm h2)
      have := hmin q hq
      omega
    · rw [generationsList_last] at hlast
      have : m = gen := by simpa using hlast
      omega
  obtain ⟨x, hax, hxb, hall⟩ := hp.center hshort
  have hxn : x ∈ g.nodes := by
    obtain ⟨q, hq, _⟩ := hax
    exact Net.reach_mem_nodes hg (fun _ _ h => h) ha ⟨q, hq⟩
  have hxsel : x.name ∈ Py.inter (getDescendants g.edgesStr g.hasName a.name r true)
      (getDescendants g.edgesStr g.hasName b.name r true) := by
    rw [Py.mem_inter, mem_desc_node hg hd hsn ha, mem_desc_node hg hd hsn hb]
    exact ⟨⟨x, hxn, hax, rfl⟩, x, hxn, hxb.symm h2, rfl⟩
  intro y hy
  unfold leanSelection
  rw [hl]
  simp only
  rw [Py.mem_union]
  refine Or.inr (List.mem_flatMap.2 ⟨x.name, hxsel, ?_⟩)
  rw [mem_desc_node hg hd hsn hxn]
  have hxy : Within (Linked g) r x y := by
    rcases hall y hy with h | h
    · exact h.symm h2
    · exact h
  have hxy' := hxy
  obtain ⟨q, hq, _⟩ := hxy'
  exact ⟨y, Net.reach_mem_nodes hg (fun _ _ h => h) hxn ⟨q, hq⟩, hxy, rfl⟩

/-- `lean_BFS` finds a shortest path whenever the distance is at most `2 * (m + 1)`. -/
theorem leanBfs_complete {g : Net} (hg : WF g) (h2 : TwoWay (Linked g)) (hd : DistinctNames g)
    (hsn : ∀ n ∈ g.nodes, SimpleName n.name) {m : Int} (hm : 0 ≤ m) {a b : UNode} (ha : a ∈ g.nodes)
    (hb : b ∈ g.nodes) {p : List UNode} (hp : Chain (Linked g) a b p)
    (hmin : ∀ p', Chain (Linked g) a b p' → p.length ≤ p'.length)
    (hlen : (p.length : Int) ≤ 2 * (m + 1) + 1) :
    ∃ q, leanBfs g g.edgesStr m a b = .ok (some q) ∧ q.length = p.length := by
  have hcov := leanSelection_covers hg h2 hd hsn hm ha hb hp hmin hlen
  unfold leanBfs
  simp only
  generalize leanSelection g.edgesStr g.hasName a.name b.name m = sel at hcov
  have hne : (g.edges.filter fun e => e.1.name ∈ sel) ≠ [] := by
    obtain ⟨⟨k, l⟩, he, rfl⟩ := List.mem_map.1 ha
    exact List.ne_nil_of_mem (List.mem_filter.2 ⟨he, by simpa using hcov _ hp.head_mem⟩)
  rw [if_neg hne]
  have hslim : Chain (edgeOf (slimChildren g sel)) a b p :=
    hp.mono_on (fun x hx y e => slim_of_linked hg e (hcov x hx))
  rcases slim_bfs_spec (g := g) (sel := sel) (start := a) (tgt := b) with ⟨q, hq, hpath, hsh⟩ | ⟨_, hno⟩
  · refine ⟨q, hq, ?_⟩
    have h1 := hsh p hslim
    have h3 := hmin q (hpath.1.mono (fun _ _ => slim_sub))
    omega
  · exact absurd ⟨p, hslim⟩ hno

end Unyts

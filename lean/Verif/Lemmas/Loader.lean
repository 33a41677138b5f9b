import Verif.Spec.Loader
import Verif.Lemmas.Build

/- What the statements of `_load_network` do to the network. -/
namespace Unyts
open Spec

/-- `R a b` is the conversion from `a` to `b`. -/
def Shows (g : Net) (R : Str → Str → Option Cv) : Prop :=
  ∀ a b f, DirectName g a b f ↔ ∃ c, R a b = some c ∧ f = c.eval

theorem tidy_empty : Tidy Net.empty :=
  ⟨Net.wf_empty, fun _ _ _ h => by obtain ⟨l, hl, _⟩ := h; simp [Net.empty] at hl,
   fun _ _ _ h => by obtain ⟨l, hl, _⟩ := h; simp [Net.empty] at hl⟩

theorem shows_empty : Shows Net.empty (fun _ _ => none) := by
  intro a b f
  constructor
  · rintro ⟨_, _, _, _, l, hl, _⟩; simp [Net.empty] at hl
  · rintro ⟨c, h, _⟩; cases h

theorem direct_addName {g : Net} {n : UNode} {k : Nat} {a b : UNode} {f : Fn} :
    Direct ⟨g.edges ++ [(n, [])], k⟩ a b f ↔ Direct g a b f := by
  unfold Direct
  constructor
  · rintro ⟨l, hl, hf⟩
    simp only [List.mem_append, List.mem_singleton] at hl
    rcases hl with hl | hl
    · exact ⟨l, hl, hf⟩
    · cases hl; simp at hf
  · rintro ⟨l, hl, hf⟩
    exact ⟨l, by simp [hl], hf⟩

theorem Spec.Tidy.addName {g g' : Net} (h : Tidy g) {s : Str} (e : g.addName s = .ok g') : Tidy g' := by
  rw [Net.addName_ok h.wf] at e
  cases e
  refine ⟨Net.wf_addName h.wf s, ?_, ?_⟩
  · intro na nb f hd
    exact Net.getNode_append (h.src na nb f (direct_addName.1 hd)) _ _
  · intro na nb f hd
    exact Net.getNode_append (h.dst na nb f (direct_addName.1 hd)) _ _

theorem Shows.addName {g g' : Net} {R} (w : WF g) (h : Shows g R) {s : Str} (e : g.addName s = .ok g') :
    Shows g' R := by
  rw [Net.addName_ok w] at e
  cases e
  intro a b f
  rw [← h a b f]
  unfold DirectName
  simp only [direct_addName]

theorem nodes_addName {g g' : Net} (w : WF g) {s : Str} (e : g.addName s = .ok g') :
    g'.nodes.map UNode.name = g.nodes.map UNode.name ++ [s] := by
  rw [Net.addName_ok w] at e
  cases e
  simp [Net.nodes]

theorem addEdge_eq {g g' : Net} {na nb : UNode} {f : Fn} (e : g.addEdge na nb f = .ok g') :
    na ∈ g.nodes ∧ nb ∈ g.nodes ∧ g' = ⟨Net.appendEdge g.edges na nb f, g.nextId⟩ := by
  unfold Net.addEdge at e
  split at e
  · next h => cases e; exact ⟨h.1, h.2, rfl⟩
  · cases e

theorem Spec.Tidy.addEdge {g g' : Net} (h : Tidy g) {a b : Str} {na nb : UNode} {f : Fn}
    (ha : g.getNode a = .ok na) (hb : g.getNode b = .ok nb) (e : g.addEdge na nb f = .ok g') : Tidy g' := by
  obtain ⟨ma, mb, rfl⟩ := addEdge_eq e
  have hn := @Net.nodes_addEdge g na nb f
  have ea := (Net.getNode_ok ha).2
  have eb := (Net.getNode_ok hb).2
  refine ⟨Net.wf_addEdge h.wf ma mb, ?_, ?_⟩
  · intro x y k hd
    rw [Net.getNode_congr hn]
    rcases (Net.direct_addEdge h.wf ma).1 hd with hd | ⟨rfl, rfl, _, _⟩
    · exact h.src _ _ _ hd
    · rw [ea, ha]
  · intro x y k hd
    rw [Net.getNode_congr hn]
    rcases (Net.direct_addEdge h.wf ma).1 hd with hd | ⟨rfl, rfl, _, _⟩
    · exact h.dst _ _ _ hd
    · rw [eb, hb]

/-- in a tidy network a link between names is a link between the first nodes of these names -/
theorem Spec.Tidy.directName {g : Net} (h : Tidy g) {a b : Str} {na nb : UNode} {f : Fn}
    (ha : g.getNode a = .ok na) (hb : g.getNode b = .ok nb) : DirectName g a b f ↔ Direct g na nb f := by
  have ea := (Net.getNode_ok ha).2
  have eb := (Net.getNode_ok hb).2
  constructor
  · rintro ⟨xa, xb, rfl, rfl, hd⟩
    have h1 := h.src _ _ _ hd
    have h2 := h.dst _ _ _ hd
    rw [ha] at h1; rw [hb] at h2
    cases h1; cases h2
    exact hd
  · intro hd
    exact ⟨na, nb, ea, eb, hd⟩

/-- the conversions after `add_edge` between the first nodes of two names -/
theorem directName_addEdge {g g' : Net} (t : Tidy g) {a b : Str} {na nb : UNode} {f : Fn}
    (ha : g.getNode a = .ok na) (hb : g.getNode b = .ok nb) (e : g.addEdge na nb f = .ok g') {x y : Str} {k : Fn} :
    DirectName g' x y k ↔ DirectName g x y k ∨ (x = a ∧ y = b ∧ k = f ∧ ¬ LinkedName g a b) := by
  have ea := (Net.getNode_ok ha).2
  have eb := (Net.getNode_ok hb).2
  have hl : LinkedName g a b ↔ Linked g na nb := exists_congr fun f => t.directName ha hb
  obtain ⟨ma, mb, rfl⟩ := addEdge_eq e
  constructor
  · rintro ⟨xa, xb, rfl, rfl, hd⟩
    rcases (Net.direct_addEdge t.wf ma).1 hd with hd | ⟨rfl, rfl, h3, h4⟩
    · exact Or.inl ⟨_, _, rfl, rfl, hd⟩
    · exact Or.inr ⟨ea, eb, h3, fun h => h4 (hl.1 h)⟩
  · rintro (⟨xa, xb, h1, h2, hd⟩ | ⟨rfl, rfl, h3, h4⟩)
    · exact ⟨_, _, h1, h2, (Net.direct_addEdge t.wf ma).2 (Or.inl hd)⟩
    · exact ⟨_, _, ea, eb, (Net.direct_addEdge t.wf ma).2 (Or.inr ⟨rfl, rfl, h3, fun h => h4 (hl.2 h)⟩)⟩

theorem Shows.linked {g : Net} {R} (h : Shows g R) {a b : Str} : LinkedName g a b ↔ (R a b).isSome := by
  unfold LinkedName
  rw [Option.isSome_iff_exists]
  constructor
  · rintro ⟨f, hf⟩
    obtain ⟨c, hc, _⟩ := (h a b f).1 hf
    exact ⟨c, hc⟩
  · rintro ⟨c, hc⟩
    exact ⟨c.eval, (h a b _).2 ⟨c, hc, rfl⟩⟩

theorem Shows.addEdge {g g' : Net} {R} (t : Tidy g) (h : Shows g R) {a b : Str} {na nb : UNode} {c : Cv}
    (ha : g.getNode a = .ok na) (hb : g.getNode b = .ok nb) (e : g.addEdge na nb c.eval = .ok g') :
    Shows g' (fun x y => (R x y).or (if a = x ∧ b = y then some c else none)) := by
  intro x y f
  rw [directName_addEdge t ha hb e, h x y f, h.linked]
  show _ ↔ ∃ c', (R x y).or (if a = x ∧ b = y then some c else none) = some c' ∧ f = c'.eval
  constructor
  · rintro (⟨c', h1, h2⟩ | ⟨rfl, rfl, h3, h4⟩)
    · exact ⟨c', by simp [h1], h2⟩
    · refine ⟨c, ?_, h3⟩
      cases hr : R x y with
      | none => simp
      | some z => simp [hr] at h4
  · rintro ⟨c', h1, h2⟩
    cases hr : R x y with
    | some z =>
      rw [hr, Option.some_or] at h1
      cases h1
      exact Or.inl ⟨_, rfl, h2⟩
    | none =>
      rw [hr, Option.none_or] at h1
      split at h1
      · next hx =>
        cases h1
        exact Or.inr ⟨hx.1.symm, hx.2.symm, h2, by simp [hx.1, hx.2, hr]⟩
      · cases h1

/-! ## Sequences of statements -/

/-- the conversions declared by a sequence of statements -/
def declsOf (is : List Instr) : List (Str × Str × Cv) :=
  is.filterMap fun i => match i with | .edge a b c => some (a, b, c) | _ => none

/-- the names of the nodes added by a sequence of statements -/
def nodesOf (is : List Instr) : List Str :=
  is.filterMap fun i => match i with | .node s => some s | _ => none

/-- the kinds whose lists a sequence of statements extends -/
def basesOf (is : List Instr) : List Str :=
  is.filterMap fun i => match i with | .append b _ => some b | _ => none

/-- the first declaration for a pair of names: the others are dropped -/
def first (ds : List (Str × Str × Cv)) (a b : Str) : Option Cv :=
  (ds.find? fun d => decide (d.1 = a ∧ d.2.1 = b)).map fun d => d.2.2

theorem first_append (ds es : List (Str × Str × Cv)) (a b : Str) :
    first (ds ++ es) a b = (first ds a b).or (first es a b) := by
  unfold first
  rw [List.find?_append]
  cases ds.find? fun d => decide (d.1 = a ∧ d.2.1 = b) <;> rfl

theorem first_one (x y : Str) (c : Cv) (a b : Str) :
    first [(x, y, c)] a b = if x = a ∧ y = b then some c else none := by
  unfold first
  by_cases h : x = a ∧ y = b
  · simp [h]
  · rw [if_neg h]
    simp [h]

theorem first_some {ds : List (Str × Str × Cv)} {a b : Str} {c : Cv} (h : first ds a b = some c) :
    (a, b, c) ∈ ds := by
  unfold first at h
  cases hf : ds.find? fun d => decide (d.1 = a ∧ d.2.1 = b) with
  | none => rw [hf] at h; cases h
  | some d =>
    rw [hf] at h
    have h1 := List.find?_some hf
    have h2 := List.mem_of_find?_eq_some hf
    obtain ⟨x, y, z⟩ := d
    simp only [decide_eq_true_eq] at h1
    simp only [Option.map_some, Option.some.injEq] at h
    rw [← h1.1, ← h1.2, ← h]
    exact h2

theorem first_isSome {ds : List (Str × Str × Cv)} {a b : Str} :
    (first ds a b).isSome ↔ ∃ c, (a, b, c) ∈ ds := by
  constructor
  · intro h
    obtain ⟨c, hc⟩ := Option.isSome_iff_exists.1 h
    exact ⟨c, first_some hc⟩
  · rintro ⟨c, hc⟩
    unfold first
    rw [Option.isSome_map, List.find?_isSome]
    exact ⟨_, hc, by simp⟩

/-- the state of the loops: tidy, and showing the conversions declared so far -/
structure Built (g : Net) (ds : List (Str × Str × Cv)) (ns : List Str) : Prop where
  tidy : Tidy g
  shows : Shows g (first ds)
  names : g.nodes.map UNode.name = ns

theorem built_empty : Built Net.empty [] [] := ⟨tidy_empty, shows_empty, rfl⟩

theorem hasName_iff_mem {g : Net} {s : Str} : g.hasName s = true ↔ s ∈ g.nodes.map UNode.name := by
  unfold Net.hasName
  simp [List.any_eq_true]

theorem Built.getNode {g : Net} {ds ns} (h : Built g ds ns) {s : Str} (hs : s ∈ ns) :
    ∃ n, g.getNode s = .ok n :=
  Net.getNode_of_hasName (hasName_iff_mem.2 (h.names ▸ hs))

theorem exec_node {s : Str} {st st' : LoadState} (e : (Instr.node s).exec st = .ok st') :
    ∃ g, st.net.addName s = .ok g ∧ st' = ⟨g, st.dict⟩ := by
  simp only [Instr.exec, bind, Except.bind] at e
  split at e
  · cases e
  · next g hg => cases e; exact ⟨g, hg, rfl⟩

theorem exec_edge {a b : Str} {c : Cv} {st st' : LoadState} (e : (Instr.edge a b c).exec st = .ok st') :
    ∃ na nb g, st.net.getNode a = .ok na ∧ st.net.getNode b = .ok nb ∧ st.net.addEdge na nb c.eval = .ok g ∧
      st' = ⟨g, st.dict⟩ := by
  simp only [Instr.exec, bind, Except.bind] at e
  split at e
  · cases e
  · next na hna =>
    split at e
    · cases e
    · next nb hnb =>
      split at e
      · cases e
      · next g hg => cases e; exact ⟨na, nb, g, hna, hnb, hg, rfl⟩

theorem exec_append {b s : Str} {st st' : LoadState} (e : (Instr.append b s).exec st = .ok st') :
    ∃ l, Py.dictGet st.dict b = some (.names l) ∧
      st' = ⟨st.net, Py.dictSet st.dict b (.names (l ++ [s]))⟩ := by
  simp only [Instr.exec] at e
  split at e
  · cases e
  · cases e
  · next l hl => cases e; exact ⟨l, hl, rfl⟩

theorem execAll_cons {i : Instr} {is : List Instr} {st st' : LoadState} (e : execAll (i :: is) st = .ok st') :
    ∃ st1, i.exec st = .ok st1 ∧ execAll is st1 = .ok st' := by
  simp only [execAll, bind, Except.bind] at e
  split at e
  · cases e
  · next st1 h1 => exact ⟨st1, h1, e⟩

theorem Instr.exec_built {i : Instr} {st st' : LoadState} {ds ns} (h : Built st.net ds ns)
    (e : i.exec st = .ok st') :
    Built st'.net (ds ++ declsOf [i]) (ns ++ nodesOf [i]) := by
  cases i with
  | node s =>
    obtain ⟨g, hn, rfl⟩ := exec_node e
    simp only [declsOf, nodesOf, List.filterMap_cons, List.filterMap_nil, List.append_nil]
    exact ⟨h.tidy.addName hn, h.shows.addName h.tidy.wf hn, by rw [nodes_addName h.tidy.wf hn, h.names]⟩
  | edge a b c =>
    obtain ⟨na, nb, g, ha, hb, hg, rfl⟩ := exec_edge e
    simp only [declsOf, nodesOf, List.filterMap_cons, List.filterMap_nil, List.append_nil]
    refine ⟨h.tidy.addEdge ha hb hg, ?_, ?_⟩
    · have := h.shows.addEdge h.tidy ha hb hg
      intro x y f
      rw [this x y f, first_append, first_one]
    · obtain ⟨_, _, rfl⟩ := addEdge_eq hg
      rw [Net.nodes_addEdge, h.names]
  | append b s =>
    obtain ⟨l, _, rfl⟩ := exec_append e
    simp only [declsOf, nodesOf, List.filterMap_cons, List.filterMap_nil, List.append_nil]
    exact h
  | fail x => cases e

theorem declsOf_append (is js : List Instr) : declsOf (is ++ js) = declsOf is ++ declsOf js := List.filterMap_append
theorem nodesOf_append (is js : List Instr) : nodesOf (is ++ js) = nodesOf is ++ nodesOf js := List.filterMap_append
theorem basesOf_append (is js : List Instr) : basesOf (is ++ js) = basesOf is ++ basesOf js := List.filterMap_append

theorem execAll_built {is : List Instr} {st st' : LoadState} {ds ns} (h : Built st.net ds ns)
    (e : execAll is st = .ok st') :
    Built st'.net (ds ++ declsOf is) (ns ++ nodesOf is) := by
  induction is generalizing st ds ns with
  | nil => cases e; simpa [declsOf, nodesOf] using h
  | cons i is ih =>
    obtain ⟨st1, h1, e⟩ := execAll_cons e
    have := ih (Instr.exec_built h h1) e
    rw [show i :: is = [i] ++ is from rfl, declsOf_append, nodesOf_append, ← List.append_assoc, ← List.append_assoc]
    exact this

/-! ## The dictionary while it is loaded -/

theorem keys_dictSet {d : RawDict} {k : Str} {v : RawVal} (h : k ∈ d.map Prod.fst) :
    (Py.dictSet d k v).map Prod.fst = d.map Prod.fst := by
  induction d with
  | nil => simp at h
  | cons e r ih =>
    obtain ⟨k', v'⟩ := e
    unfold Py.dictSet
    split
    · next hk => simp [hk]
    · next hk =>
      have : k ∈ r.map Prod.fst := by
        simp only [List.map_cons, List.mem_cons] at h
        rcases h with h | h
        · exact absurd h.symm hk
        · exact h
      simp [ih this]

/-- the dictionary during the loops: same kinds; the lists of the kinds without flags grow, the rest is as it was -/
structure Grown (d d' : RawDict) : Prop where
  keys : d'.map Prod.fst = d.map Prod.fst
  same : ∀ k, '_' ∈ k → Py.dictGet d' k = Py.dictGet d k
  more : ∀ k l, Py.dictGet d k = some (.names l) → ∃ l', Py.dictGet d' k = some (.names (l ++ l'))
  table : ∀ k t, Py.dictGet d k = some (.table t) → Py.dictGet d' k = some (.table t)

theorem Grown.refl (d : RawDict) : Grown d d := ⟨rfl, fun _ _ => rfl, fun _ l h => ⟨[], by simpa using h⟩, fun _ _ h => h⟩

theorem Grown.trans {a b c : RawDict} (h : Grown a b) (k : Grown b c) : Grown a c where
  keys := k.keys.trans h.keys
  same s hs := (k.same s hs).trans (h.same s hs)
  more s l hl := by
    obtain ⟨l1, h1⟩ := h.more s l hl
    obtain ⟨l2, h2⟩ := k.more s _ h1
    exact ⟨l1 ++ l2, by rw [h2, List.append_assoc]⟩
  table s t ht := k.table s t (h.table s t ht)

theorem Instr.exec_grown {i : Instr} {st st' : LoadState} (hb : ∀ b ∈ basesOf [i], '_' ∉ b)
    (e : i.exec st = .ok st') : Grown st.dict st'.dict := by
  cases i with
  | node s => obtain ⟨g, hn, rfl⟩ := exec_node e; exact .refl _
  | edge a b c => obtain ⟨na, nb, g, ha, hb, hg, rfl⟩ := exec_edge e; exact .refl _
  | append b s =>
    obtain ⟨l, hl, rfl⟩ := exec_append e
    have hb' : '_' ∉ b := hb b (by simp [basesOf])
    refine ⟨keys_dictSet ?_, ?_, ?_, ?_⟩
    · exact List.mem_map.2 ⟨_, dictGet_mem hl, rfl⟩
    · intro k hk
      exact Py.dictGet_dictSet_other _ _ (by rintro rfl; exact hb' hk)
    · intro k l' hl'
      by_cases hkb : k = b
      · subst hkb
        rw [hl] at hl'
        cases hl'
        exact ⟨[s], Py.dictGet_dictSet_same _ _ _⟩
      · exact ⟨[], by rw [List.append_nil]; exact (Py.dictGet_dictSet_other _ _ hkb).trans hl'⟩
    · intro k t ht
      have hkb : k ≠ b := by rintro rfl; rw [hl] at ht; cases ht
      exact (Py.dictGet_dictSet_other _ _ hkb).trans ht
  | fail x => cases e

theorem execAll_grown {is : List Instr} {st st' : LoadState} (hb : ∀ b ∈ basesOf is, '_' ∉ b)
    (e : execAll is st = .ok st') : Grown st.dict st'.dict := by
  induction is generalizing st with
  | nil => cases e; exact .refl _
  | cons i is ih =>
    obtain ⟨st1, h1, e⟩ := execAll_cons e
    rw [show i :: is = [i] ++ is from rfl, basesOf_append] at hb
    exact (Instr.exec_grown (fun b h => hb b (List.mem_append.2 (Or.inl h))) h1).trans
      (ih (fun b h => hb b (List.mem_append.2 (Or.inr h))) e)

end Unyts

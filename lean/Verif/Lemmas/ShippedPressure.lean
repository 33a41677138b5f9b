import Verif.Lemmas.ConvStraight
import Verif.Lemmas.ShippedVolume
import Verif.Lemmas.ShippedLabel
import Verif.Spec.Pressures

/- Pressures of the shipped network: a shortest path between absolute pressures passes no gauge pressure. -/
namespace Unyts
open Spec
set_option maxRecDepth 1000000

/-! ### excursions of shortest paths -/

theorem Chain.edge {α : Type} {E : α → α → Prop} {a b u v : α} {xs zs : List α} (h : Chain E a b (xs ++ u :: v :: zs)) : E u v := by
  have := (Chain.cut h).2
  generalize hq : v :: zs = q at this
  cases this with
  | single => cases hq
  | step e h' =>
    subst hq
    have := h'.head
    simp only [List.head?_cons, Option.some.injEq] at this
    rw [this]; exact e

/-- a list that begins and ends inside but is not inside has an excursion -/
theorem excursion {α : Type} {T : α → Prop} : ∀ {p : List α} {a : α}, T a → (∀ b, (a :: p).getLast? = some b → T b) →
    (∃ x ∈ p, ¬ T x) → ∃ xs u ys v zs, a :: p = xs ++ u :: (ys ++ v :: zs) ∧ T u ∧ T v ∧ ys ≠ [] ∧ ∀ y ∈ ys, ¬ T y := by
  classical
  intro p
  induction p with
  | nil => rintro a _ _ ⟨x, hx, _⟩; cases hx
  | cons c p ih =>
    intro a ha hl hx
    rw [List.getLast?_cons_cons] at hl
    by_cases hc : T c
    · obtain ⟨x, hx, hn⟩ := hx
      have hx' : x ∈ p := by
        rcases List.mem_cons.1 hx with rfl | h
        · exact absurd hc hn
        · exact h
      obtain ⟨xs, u, ys, v, zs, e, h⟩ := ih hc hl ⟨x, hx', hn⟩
      exact ⟨a :: xs, u, ys, v, zs, by rw [e]; rfl, h⟩
    · -- the excursion starts here
      have key : ∀ (l : List α) (c : α), ¬ T c → (∀ b, (c :: l).getLast? = some b → T b) →
          ∃ ys v zs, c :: l = ys ++ v :: zs ∧ T v ∧ ys ≠ [] ∧ ∀ y ∈ ys, ¬ T y := by
        intro l
        induction l with
        | nil => intro c hc hl; exact absurd (hl c rfl) hc
        | cons d l ih =>
          intro c hc hl
          rw [List.getLast?_cons_cons] at hl
          by_cases hd : T d
          · exact ⟨[c], d, l, rfl, hd, by simp, by simpa using hc⟩
          · obtain ⟨ys, v, zs, e, hv, _, hy⟩ := ih d hd hl
            refine ⟨c :: ys, v, zs, by rw [e]; rfl, hv, by simp, ?_⟩
            intro y hy'
            rcases List.mem_cons.1 hy' with rfl | h
            · exact hc
            · exact hy y h
      obtain ⟨ys, v, zs, e, hv, hne, hy⟩ := key p c hc hl
      exact ⟨[], a, ys, v, zs, by rw [e]; rfl, ha, hv, hne, hy⟩

/-- no stretch of a shortest path is longer than another way between its ends -/
theorem shortest_segment {α : Type} {E : α → α → Prop} {a b : α} {xs ys zs : List α} {u v : α} {r : List α}
    (hp : Chain E a b (xs ++ u :: (ys ++ v :: zs))) (hs : ∀ q, Chain E a b q → (xs ++ u :: (ys ++ v :: zs)).length ≤ q.length)
    (hr : Chain E u v r) : ys.length + 2 ≤ r.length := by
  have h1 := (Chain.cut hp).1
  have h2 : Chain E v b (v :: zs) := (Chain.cut (xs := xs ++ u :: ys) (by simpa using hp)).2
  obtain ⟨r', rfl⟩ := hr.eq_cons
  have h3 := Chain.append (Chain.append h1 hr) h2
  have := hs _ h3
  simp only [List.length_append, List.length_cons, List.length_nil] at this ⊢
  omega

/-! ### between absolute and gauge pressures -/

/-- the conversions between absolute and gauge pressures -/
def crossings : List (Str × Str) :=
  [(s!!"absolute psi", s!!"psi gauge"), (s!!"absolute bar", s!!"bar gauge"), (s!!"psi", s!!"psi gauge"), (s!!"bar", s!!"bar gauge")]

def crossOk (l : List Str) (a b : Str) : Bool :=
  l.contains a == l.contains b || crossings.contains (a, b) || crossings.contains (b, a)

theorem cross_kinds : (fun l => (labelDecls 6).all fun d => crossOk l d.1 d.2.1) gaugeNames = true := by decide +kernel

theorem cross_explicit : (fun l => explicitConversions.all fun d => crossOk l d.1 d.2.1) gaugeNames = true := by decide +kernel

theorem gauge_label : (gaugeNames.all fun s => labelOf s == some 6) = true := by decide +kernel

theorem cross_decl {a b : Str} {c : Cv} (h : (a, b, c) ∈ shipped) : crossOk gaugeNames a b = true := by
  by_cases hl : labelOf a = some 6
  · rcases decl_of_label h hl with h | ⟨e, h, _⟩
    · exact List.all_eq_true.1 cross_kinds _ h
    · exact List.all_eq_true.1 cross_explicit _ h
  · have hb : labelOf b ≠ some 6 := by rw [← decl_label h]; exact hl
    have no : ∀ s, labelOf s ≠ some 6 → gaugeNames.contains s = false := by
      intro s hs
      rw [← Bool.not_eq_true, List.contains_iff_mem]
      intro hm
      exact hs (by simpa using List.all_eq_true.1 gauge_label s hm)
    unfold crossOk
    rw [no a hl, no b hb]; rfl

theorem crossings_gauge : ∀ d ∈ crossings, d.1 ∉ gaugeNames ∧ d.2 ∈ gaugeNames := by decide +kernel

theorem crossOk_iff {a b : Str} (h : crossOk gaugeNames a b = true) :
    (a ∉ gaugeNames → b ∈ gaugeNames → (a, b) ∈ crossings) ∧ (a ∈ gaugeNames → b ∉ gaugeNames → (b, a) ∈ crossings) := by
  unfold crossOk at h
  simp only [Bool.or_eq_true, beq_iff_eq, List.contains_iff_mem] at h
  refine ⟨fun h1 h2 => ?_, fun h1 h2 => ?_⟩
  · rcases h with (h | h) | h
    · have := List.contains_iff_mem.2 h2
      rw [← h, List.contains_iff_mem] at this
      exact absurd this h1
    · exact h
    · exact absurd (crossings_gauge _ h).2 h1
  · rcases h with (h | h) | h
    · have := List.contains_iff_mem.2 h1
      rw [h, List.contains_iff_mem] at this
      exact absurd this h2
    · exact absurd (crossings_gauge _ h).2 h2
    · exact h

theorem Spec.ShippedNetwork.cross {n : Net} (h : ShippedNetwork n) {a b : Str} (hl : LinkedName n a b) :
    (a ∉ gaugeNames → b ∈ gaugeNames → (a, b) ∈ crossings) ∧ (a ∈ gaugeNames → b ∉ gaugeNames → (b, a) ∈ crossings) := by
  rcases h.linked.1 hl with ⟨c, hc⟩ | ⟨_, _, c, hc⟩
  · exact crossOk_iff (cross_decl hc)
  · have := crossOk_iff (cross_decl hc)
    exact ⟨fun h1 h2 => this.2 h2 h1, fun h1 h2 => this.1 h2 h1⟩

/-- the absolute ends of the crossings are next to each other, or next but one -/
theorem posts_near : ((labelCv 6 s!!"absolute bar" s!!"absolute psi").isSome &&
    (labelCv 6 s!!"psi" s!!"bar").isSome && (labelCv 6 s!!"bar" s!!"psi").isSome && (labelCv 6 s!!"absolute psi" s!!"psi").isSome &&
    (labelCv 6 s!!"absolute bar" s!!"bar").isSome) = true := by decide +kernel

theorem posts_label : labelOf s!!"absolute psi" = some 6 ∧ labelOf s!!"absolute bar" = some 6 ∧ labelOf s!!"psi" = some 6 ∧
    labelOf s!!"bar" = some 6 := by decide +kernel

/-- between the absolute ends of two crossings: the same, linked, or linked to a third, and then the gauge ends differ -/
theorem Spec.ShippedNetwork.posts {n : Net} (h : ShippedNetwork n) {d e : Str × Str} (hd : d ∈ crossings) (he : e ∈ crossings) :
    d.1 = e.1 ∨ LinkedName n d.1 e.1 ∨ d.2 ≠ e.2 ∧ ∃ m, LinkedName n d.1 m ∧ LinkedName n m e.1 := by
  have := posts_near
  simp only [Bool.and_eq_true] at this
  obtain ⟨⟨⟨⟨k2, k3⟩, k4⟩, k5⟩, k7⟩ := this
  obtain ⟨l1, l2, l3, l4⟩ := posts_label
  have h2 := h.linked_at l2 k2
  have h1 := (h.back h2).2 (by decide)
  have h3 := h.linked_at l3 k3
  have h4 := h.linked_at l4 k4
  have h5 := h.linked_at l1 k5
  have h6 := (h.back h5).2 (by decide)
  have h7 := h.linked_at l2 k7
  have h8 := (h.back h7).2 (by decide)
  simp only [crossings, List.mem_cons, List.not_mem_nil, or_false] at hd he
  rcases hd with rfl | rfl | rfl | rfl <;> rcases he with rfl | rfl | rfl | rfl
  · exact Or.inl rfl
  · exact Or.inr (Or.inl (h1))
  · exact Or.inr (Or.inl (h5))
  · exact Or.inr (Or.inr ⟨by decide, s!!"psi", h5, h3⟩)
  · exact Or.inr (Or.inl (h2))
  · exact Or.inl rfl
  · exact Or.inr (Or.inr ⟨by decide, s!!"bar", h7, h4⟩)
  · exact Or.inr (Or.inl (h7))
  · exact Or.inr (Or.inl (h6))
  · exact Or.inr (Or.inr ⟨by decide, s!!"bar", h3, h8⟩)
  · exact Or.inl rfl
  · exact Or.inr (Or.inl (h3))
  · exact Or.inr (Or.inr ⟨by decide, s!!"psi", h4, h6⟩)
  · exact Or.inr (Or.inl (h8))
  · exact Or.inr (Or.inl (h4))
  · exact Or.inl rfl

/-- a shortest path between pressures that are no gauge pressures passes no gauge pressure -/
theorem Spec.ShippedNetwork.pressure_path {n : Net} (h : ShippedNetwork n) {a b : UNode} {p : List UNode}
    (hp : IsPath (Linked n) a b p) (hs : Shortest n p) (ha : a.name ∉ gaugeNames) (hb : b.name ∉ gaugeNames) :
    ∀ x ∈ p, x.name ∉ gaugeNames := by
  by_contra hcon
  push Not at hcon
  obtain ⟨x, hx, hxg⟩ := hcon
  obtain ⟨e1, e2⟩ := isPath_ends hp
  have hmin := fun q => hs a b q e1 e2
  obtain ⟨p', rfl⟩ := hp.1.eq_cons
  have hx' : x ∈ p' := by
    rcases List.mem_cons.1 hx with rfl | hx
    · exact absurd hxg ha
    · exact hx
  obtain ⟨xs, u, ys, v, zs, e, hu, hv, hne, hy⟩ := excursion (T := fun u : UNode => u.name ∉ gaugeNames) ha
    (by intro c hc; rw [e2] at hc; cases hc; exact hb) ⟨x, hx', by simpa using hxg⟩
  rw [e] at hp hmin
  obtain ⟨y0, ys0, rfl⟩ := List.exists_cons_of_ne_nil hne
  have l0 : Linked n u y0 := Chain.edge (xs := xs) (zs := ys0 ++ v :: zs) (by simpa using hp.1)
  obtain ⟨ysl, yl, hyl⟩ : ∃ ysl yl, y0 :: ys0 = ysl ++ [yl] := by
    rcases List.eq_nil_or_concat (y0 :: ys0) with h | ⟨l, z, h⟩
    · cases h
    · exact ⟨l, z, by rw [h, List.concat_eq_append]⟩
  have l1 : Linked n yl v := by
    rw [hyl] at hp
    exact Chain.edge (xs := xs ++ u :: ysl) (zs := zs) (by simpa using hp.1)
  have g0 : y0.name ∈ gaugeNames := by simpa using hy y0 (by simp)
  have g1 : yl.name ∈ gaugeNames := by simpa using hy yl (by rw [hyl]; simp)
  have c0 := (h.cross (linkedName_of l0)).1 hu g0
  have c1 := (h.cross (linkedName_of l1)).2 g1 hv
  have mu := Net.linked_src l0
  have mv := Net.linked_dst h.wf l1
  rcases h.posts c0 c1 with k | k | ⟨kne, m, k1, k2⟩
  · have : u = v := h.distinct _ mu _ mv k
    subst this
    have := hp.2
    simp [List.nodup_append] at this
  · have := shortest_segment hp.1 hmin (.step (linked_of_name h.wf h.distinct mu mv k) (.single v))
    simp at this
  · obtain ⟨_, z, mz, ez⟩ := node_of_link h.wf k1
    subst ez
    have := shortest_segment hp.1 hmin (.step (linked_of_name h.wf h.distinct mu mz k1)
      (.step (linked_of_name h.wf h.distinct mz mv k2) (.single v)))
    simp only [List.length_cons, List.length_nil] at this
    have : ys0 = [] := List.length_eq_zero_iff.1 (by omega)
    subst this
    have : yl = y0 := by
      cases ysl with
      | nil => simpa using hyl.symm
      | cons w l => simp at hyl
    rw [this] at kne
    exact kne rfl

theorem pressure_faults : (fun l => shippedFaults.all fun d => l.contains d.1 || l.contains d.2 || labelOf d.1 != some 6)
    gaugeNames = true := by decide +kernel

theorem pressure_avoids {n : Net} (h : ShippedNetwork n) {a b : UNode} {p : List UNode} (hp : Chain (Linked n) a b p)
    (ha : labelOf a.name = some 6) (hg : ∀ x ∈ p, x.name ∉ gaugeNames) : Avoids shippedFaults (p.map UNode.name) := by
  induction hp with
  | single x => trivial
  | @step a b' c p e ch ih =>
    have hb : labelOf b'.name = some 6 := by rw [← h.label (linkedName_of e)]; exact ha
    have := ih hb fun x hx => hg x (List.mem_cons_of_mem _ hx)
    obtain ⟨q, rfl⟩ := ch.eq_cons
    refine ⟨?_, this⟩
    intro hm
    have := List.all_eq_true.1 pressure_faults _ hm
    simp only [Bool.or_eq_true, List.contains_iff_mem, bne_iff_ne] at this
    rcases this with (h1 | h1) | h1
    · exact hg a (by simp) h1
    · exact hg b' (by simp) h1
    · exact h1 ha

/-- after `import unyts` the conversions of ordinary quantities take shortest paths -/
theorem Spec.ShippedWorld.straight {w : World} (hw : Fresh w) (h : ShippedWorld w)
    (halg : w.par.algorithm ∈ [Algorithm.bfs, .lean, .hybrid]) (hes : w.edgesStr = none) (hm : 6 ≤ w.par.maxGenerations) :
    StraightAmple (fun a b p => SmoothNames a b → Shortest w.net p) w := by
  have hn := h.network
  obtain ⟨m, hm'⟩ : ∃ m : Nat, w.par.maxGenerations = m := ⟨w.par.maxGenerations.toNat, by omega⟩
  refine straight_on hw halg hn.twoWayOn hn.distinct (fun _ _ _ h => h.1.2) (by unfold World.es; rw [hes]; rfl) hm' ?_
  intro a b ha hr
  exact (hn.nearOn ha hr).mono (by omega)

end Unyts

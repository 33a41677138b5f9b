import Verif.Lemmas.ShippedTotal
import Verif.Lemmas.ShippedClass
import Verif.Lemmas.ConvSimple
import Verif.Spec.Islands

/- The special rules of the converter do not touch the names of most quantities of the shipped library. -/
namespace Unyts
open Spec
set_option maxRecDepth 1000000

theorem lowerC_eq_star {c : Char} (h : Py.lowerC c = '*') : c = '*' := by
  have key : ∀ (lo hi : Char), lo ≤ c → c ≤ hi → 42 < lo.toNat → hi.toNat < 1000 → Char.ofNat (c.toNat + 32) ≠ '*' := by
    intro lo hi h1 h2 h3 h4 h
    have h1' : lo.toNat ≤ c.toNat := h1
    have h2' : c.toNat ≤ hi.toNat := h2
    have e := toNat_ofNat_small (n := c.toNat + 32) (by omega)
    rw [h] at e
    have : ('*' : Char).toNat = 42 := rfl
    omega
  unfold Py.lowerC at h
  split at h
  · next hc => exact absurd h (key _ _ hc.1 hc.2 (by decide) (by decide))
  · split at h
    · next hc => exact absurd h (key _ _ hc.1 hc.2.1 (by decide) (by decide))
    · split at h
      · next hc => exact absurd h (key _ _ hc.1 hc.2 (by decide) (by decide))
      · exact h

theorem lower_unsigned {a : Str} (h : SimpleName a) : Unsigned (Py.lower a) := by
  refine ⟨fun hm => h.1 (slash_mem_lower.1 hm), fun hm => ?_⟩
  unfold Py.lower at hm
  obtain ⟨c, hc, e⟩ := List.mem_map.1 hm
  rw [lowerC_eq_star e] at hc
  exact h.2 hc

/-- the capitals do not turn a name into a dimensionless one -/
theorem lower_labels : (rawDictionary.all fun e => (nodesOf (kindInstrs shippedPrefixes e.1 e.2)).all fun s =>
    labelOf s == some 32 || !(labelOf (Py.lower s) == some 32)) = true := by decide +kernel

theorem isName_lower {s : Str} (h : IsName s) (hs : labelOf s ≠ some 32) : labelOf (Py.lower s) ≠ some 32 := by
  obtain ⟨⟨k, v⟩, he, h⟩ := List.mem_flatMap.1 h
  have := List.all_eq_true.1 (List.all_eq_true.1 lower_labels _ he) s h
  rw [Bool.or_eq_true] at this
  rcases this with h | h
  · exact absurd (by simpa using h) hs
  · simpa using h

/-- the number of a quantity -/
theorem builtIn_label {q u : Str} (h : BuiltIn q u) : ∃ l, labelOf u = some l ∧
    ∃ b, (b, l) ∈ kindLabels ∧ q = if b = s!!"dataBYTE" ∨ b = s!!"dataBIT" then s!!"Data" else b := by
  obtain ⟨k, hk, rfl⟩ := h
  obtain ⟨l, h1, h2⟩ := unit_label hk
  exact ⟨l, h1, _, h2, rfl⟩

theorem kind_numbers : ∀ x ∈ kindLabels, (x.1 ∈ [s!!"Volume", s!!"Weight"] ↔ x.2 = 3) ∧
    (x.1 ∈ [s!!"Density", s!!"PressureGradient"] ↔ x.2 = 10) ∧ (x.1 ∈ [s!!"Dimensionless", s!!"Percentage"] ↔ x.2 = 32) ∧
    (x.1 = s!!"Date" ↔ x.2 = 34) ∧ (x.1 = s!!"Pressure" ↔ x.2 = 6) := by decide +kernel

theorem builtIn_numbers {q u : Str} (h : BuiltIn q u) : (q ∈ [s!!"Volume", s!!"Weight"] ↔ labelOf u = some 3) ∧
    (q ∈ [s!!"Density", s!!"PressureGradient"] ↔ labelOf u = some 10) ∧
    (q ∈ [s!!"Dimensionless", s!!"Percentage"] ↔ labelOf u = some 32) ∧ (q = s!!"Date" ↔ labelOf u = some 34) ∧
    (q = s!!"Pressure" ↔ labelOf u = some 6) := by
  obtain ⟨l, h1, b, h2, rfl⟩ := builtIn_label h
  have := kind_numbers _ h2
  rw [h1]
  simp only [Option.some.injEq]
  split
  · next hb =>
    simp only at this
    obtain ⟨t1, t2, t3, t4, t5⟩ := this
    rw [← t1, ← t2, ← t3, ← t4, ← t5]
    rcases hb with rfl | rfl <;> decide
  · exact this

theorem builtIn_isName {q u : Str} (h : BuiltIn q u) : IsName u := by
  obtain ⟨k, hk, _⟩ := h
  exact unit_isName hk

theorem kindStart_mem {d : UnitDict} {k u : Str} : u ∈ kindStart d k ↔ Lists d k u := by
  unfold kindStart Lists
  cases Py.dictGet d k with
  | none => simp
  | some l => simp

/-- no date, no dimensionless name, no percentage -/
theorem Spec.ShippedWorld.ordinary {w : World} (h : ShippedWorld w) {u : Str} (hs : SimpleName u) (hn : IsName u)
    (h1 : labelOf u ≠ some 32) (h2 : labelOf u ≠ some 34) : Ordinary w.dic u := by
  obtain ⟨d, hd, hw⟩ := h
  rw [hw]
  have hl := isName_lower hn h1
  constructor
  · intro hm
    have := ((hd.unsigned (u := u) hs).1 (kindStart_mem.1 hm)).1
    exact h2 ((builtIn_numbers this).2.2.2.1.1 rfl)
  · intro hm
    have := ((hd.unsigned (lower_unsigned hs)).1 (kindStart_mem.1 hm)).1
    exact hl ((builtIn_numbers this).2.2.1.1 (by decide))
  · intro hm
    have := ((hd.unsigned (lower_unsigned hs)).1 (kindStart_mem.1 hm)).1
    exact hl ((builtIn_numbers this).2.2.1.1 (by decide))

theorem Spec.ShippedWorld.noDensity {w : World} (h : ShippedWorld w) {a b : Str} (hs : SimpleName a)
    (ha : labelOf a ≠ some 3) : ¬ DensityPair w.dic a b := by
  obtain ⟨d, hd, hw⟩ := h
  rw [hw]
  rintro ⟨_, _, ⟨hm, _⟩ | ⟨_, hm⟩⟩
  · have := ((hd.unsigned (u := a) hs).1 (kindStart_mem.1 hm)).1
    exact ha ((builtIn_numbers this).1.1 (by decide))
  · have := ((hd.unsigned (u := a) hs).1 (kindStart_mem.1 hm)).1
    exact ha ((builtIn_numbers this).1.1 (by decide))

theorem Spec.ShippedWorld.network {w : World} (h : ShippedWorld w) : ShippedNetwork w.net := by
  obtain ⟨d, hd, _⟩ := h
  exact hd.network

theorem getNode_of_mem {g : Net} (hd : DistinctNames g) {u : UNode} (hu : u ∈ g.nodes) : g.getNode u.name = .ok u := by
  unfold Net.getNode
  cases hh : g.nodes.find? (fun n => decide (n.name = u.name)) with
  | none =>
    have := List.find?_eq_none.1 hh u hu
    simp at this
  | some v =>
    have h1 := List.mem_of_find?_eq_some hh
    have h2 := List.find?_some hh
    simp only [decide_eq_true_eq] at h2
    rw [hd u hu v h1 h2.symm]

/-- two names that are joined by conversions are nodes, and the nodes are joined -/
theorem reach_nodes {g : Net} (hg : WF g) (hd : DistinctNames g) {a b : Str} (h : Reach (LinkedName g) a b) (hab : a ≠ b) :
    ∃ na nb, g.getNode a = .ok na ∧ g.getNode b = .ok nb ∧ na.name = a ∧ nb.name = b ∧ Reach (Linked g) na nb := by
  obtain ⟨p, hp⟩ := h
  obtain ⟨c, f, x, y, ex, ey, hf⟩ : ∃ c, LinkedName g a c := by
    cases hp with
    | single => exact absurd rfl hab
    | step e _ => exact ⟨_, e⟩
  have mx : x ∈ g.nodes := by obtain ⟨l, hl, _⟩ := hf; exact List.mem_map.2 ⟨_, hl, rfl⟩
  obtain ⟨nb, q, mb, eb, hc, _⟩ := chain_nodes hg hd hp mx ex
  exact ⟨x, nb, ex ▸ getNode_of_mem hd mx, eb ▸ getNode_of_mem hd mb, ex, eb, q, hc⟩

/-- two simple smooth names -/
def SmoothNames (a b : Str) : Prop := (SimpleName a ∧ Smooth a) ∧ SimpleName b ∧ Smooth b

theorem Spec.ShippedWorld.finds {w : World} (hw : Fresh w) (h : ShippedWorld w)
    (halg : w.par.algorithm ∈ [Algorithm.bfs, .lean, .hybrid]) (hes : w.edgesStr = none) (hm : 6 ≤ w.par.maxGenerations) :
    FindsInvOn SmoothNames w := by
  refine findsInvOn_fresh hw ?_ fun _ _ h => ⟨h.1.1, h.2.1⟩
  have hn := h.network
  obtain ⟨m, hm'⟩ : ∃ m : Nat, w.par.maxGenerations = m := ⟨w.par.maxGenerations.toNat, by omega⟩
  refine finds_on hw.wf halg hn.twoWayOn hn.distinct (fun _ _ h => ⟨h.1.1, h.2.1⟩) (fun _ _ _ h => h.1.2)
    (by unfold World.es; rw [hes]; rfl) hm' ?_
  intro a b ha hr
  exact (hn.nearOn ha hr).mono (by omega)

end Unyts

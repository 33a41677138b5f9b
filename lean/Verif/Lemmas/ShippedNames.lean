import Verif.Lemmas.ShippedLib

/- Which quantities the names of the shipped dictionary belong to. -/
namespace Unyts
open Spec
set_option maxRecDepth 1000000

/-- the names with nodes of the kinds with base `b` -/
def basicNames (b : Str) : List Str :=
  (rawDictionary.filter fun e => kindBase e.1 == b).flatMap fun e => (kindInstrs shippedPrefixes e.1 e.2).filterMap fun i =>
    match i with | .node s => some s | _ => none

theorem mem_basicNames {b u : Str} : u ∈ basicNames b ↔ ∃ k, UnitOfKind k u ∧ kindBase k = b := by
  unfold basicNames
  rw [List.mem_flatMap]
  constructor
  · rintro ⟨⟨k, v⟩, he, hi⟩
    obtain ⟨he, hb⟩ := List.mem_filter.1 he
    obtain ⟨i, hi, hu⟩ := List.mem_filterMap.1 hi
    split at hu
    · cases hu; exact ⟨k, ⟨v, he, hi⟩, by simpa using hb⟩
    · cases hu
  · rintro ⟨k, ⟨v, he, hi⟩, rfl⟩
    exact ⟨(k, v), List.mem_filter.2 ⟨he, by simp⟩, List.mem_filterMap.2 ⟨_, hi, rfl⟩⟩

/-- the names two kinds have in common are among `l` -/
def commonIn (a b : Str) (l : List Str) : Bool := (basicNames a).all fun s => l.contains s || !(basicNames b).contains s

theorem commonIn_iff {a b : Str} {l : List Str} (h : commonIn a b l = true) {u : Str} (ha : u ∈ basicNames a)
    (hb : u ∈ basicNames b) : u ∈ l := by
  have := List.all_eq_true.1 h u ha
  simp only [Bool.or_eq_true, List.contains_iff_mem, Bool.not_eq_true', ← Bool.not_eq_true, hb, not_true_eq_false,
    or_false] at this
  exact this

def headed (c : Char) (l : List Str) : List Str := l.filter fun s => match s with | [] => false | x :: _ => x == c

/-- `commonIn` initial by initial: far fewer comparisons -/
def commonBy (cs : List Char) (a b : Str) (l : List Str) : Bool :=
  ((basicNames a).all fun s => match s with | [] => false | x :: _ => cs.contains x) &&
    cs.all fun c => (headed c (basicNames a)).all fun s => l.contains s || !(headed c (basicNames b)).contains s

theorem commonBy_commonIn {cs : List Char} {a b : Str} {l : List Str} (h : commonBy cs a b l = true) : commonIn a b l = true := by
  unfold commonBy at h
  rw [Bool.and_eq_true] at h
  refine List.all_eq_true.2 fun s hs => ?_
  have h1 := List.all_eq_true.1 h.1 s hs
  cases s with
  | nil => cases h1
  | cons x t =>
    have h2 := List.all_eq_true.1 (List.all_eq_true.1 h.2 x (List.contains_iff_mem.1 h1)) (x :: t)
      (List.mem_filter.2 ⟨hs, by simp⟩)
    rw [Bool.or_eq_true] at h2 ⊢
    refine h2.imp_right fun h3 => ?_
    rw [Bool.not_eq_true', ← Bool.not_eq_true, List.contains_iff_mem] at h3 ⊢
    exact fun h4 => h3 (List.mem_filter.2 ⟨h4, by simp⟩)

theorem common_ounce : commonIn s!!"Weight" s!!"Volume" [s!!"oz", s!!"ounce", s!!"ounces", s!!"OUNCE", s!!"OUNCES"] = true :=
  commonBy_commonIn (cs := s!!"gkmuµTKpdowl#sqUctGMPDOSQLRYZEhnfazyr") (by decide +kernel)
theorem common_f : commonIn s!!"Capacitance" s!!"Temperature" [s!!"F"] = true := by decide +kernel
theorem common_area : commonIn s!!"Permeability" s!!"Area" [] = true := by decide +kernel
theorem common_gradient : commonIn s!!"PressureGradient" s!!"Density"
    [s!!"psi/ft", s!!"psia/ft", s!!"psig/ft", s!!"bar/m", s!!"bara/m", s!!"barg/m"] = true := by decide +kernel
theorem common_mass : commonIn s!!"Mass" s!!"Force" [] = true := by decide +kernel
theorem common_percent : commonIn s!!"Percentage" s!!"Dimensionless" [] = true := by decide +kernel

theorem builtIn_base {q u : Str} (h : BuiltIn q u) :
    ∃ k, UnitOfKind k u ∧ quantityOf k = q := h

/-- a name belongs to one quantity, with the exceptions listed -/
theorem builtIn_unique {q q' u : Str} (h : BuiltIn q u) (h' : BuiltIn q' u) :
    q = q' ∨ SharedName q q' u ∨ SharedName q' q u := by
  obtain ⟨k, hk, rfl⟩ := h
  obtain ⟨k', hk', rfl⟩ := h'
  obtain ⟨n, hn, hm⟩ := unit_label hk
  obtain ⟨n', hn', hm'⟩ := unit_label hk'
  rw [hn] at hn'
  cases hn'
  have hb := mem_basicNames.2 ⟨k, hk, rfl⟩
  have hb' := mem_basicNames.2 ⟨k', hk', rfl⟩
  have key : ∀ {a b : Str}, (a, b) ∈ mergedKinds → ∀ {k k' : Str}, kindBase k = a → kindBase k' = b →
      UnitOfKind k u → UnitOfKind k' u → u ∈ basicNames a → u ∈ basicNames b →
      quantityOf k = quantityOf k' ∨ SharedName (quantityOf k) (quantityOf k') u := by
    intro a b hab k k' e e' hk hk' h1 h2
    simp only [mergedKinds, List.mem_cons, List.not_mem_nil, or_false, Prod.mk.injEq] at hab
    have hq : ∀ {k b : Str}, kindBase k = b → b ≠ s!!"dataBYTE" → b ≠ s!!"dataBIT" → quantityOf k = b := by
      intro k b e h1 h2
      unfold quantityOf
      rw [e, if_neg (by simp [h1, h2])]
    rcases hab with ⟨rfl, rfl⟩ | ⟨rfl, rfl⟩ | ⟨rfl, rfl⟩ | ⟨rfl, rfl⟩ | ⟨rfl, rfl⟩ | ⟨rfl, rfl⟩ | ⟨rfl, rfl⟩ | ⟨rfl, rfl⟩
    · right; rw [hq e (by decide) (by decide), hq e' (by decide) (by decide)]
      exact .ounce (commonIn_iff common_ounce h2 h1)
    · right; rw [hq e (by decide) (by decide), hq e' (by decide) (by decide)]
      have := commonIn_iff common_f h2 h1
      rw [List.mem_singleton] at this
      subst this
      exact .f
    · exact absurd (commonIn_iff common_area h2 h1) (by simp)
    · right; rw [hq e (by decide) (by decide), hq e' (by decide) (by decide)]
      exact .gradient (commonIn_iff common_gradient h2 h1)
    · exact absurd (commonIn_iff common_mass h1 h2) (by simp)
    · right; rw [hq e (by decide) (by decide)]
      have := hq e' (by decide) (by decide)
      rw [this]
      exact .ohm ⟨k', hk', this⟩
    · left; unfold quantityOf; rw [e, e', if_pos (.inl rfl), if_pos (.inr rfl)]
    · exact absurd (commonIn_iff common_percent h2 h1) (by simp)
  rcases labels_merged _ hm _ hm' rfl with e | e | e
  · left; unfold quantityOf; simp only at e; rw [e]
  · rcases key e rfl rfl hk hk' hb hb' with h | h
    · exact .inl h
    · exact .inr (.inl h)
  · rcases key e rfl rfl hk' hk hb' hb with h | h
    · exact .inl h.symm
    · exact .inr (.inr h)

end Unyts

import Verif.Spec.Fractions
import Verif.Props.Arguments

/- What the shipped library does with fractions and percentages. -/
namespace Unyts
open Spec Quantity

theorem fraction_names : ∀ u ∈ fractionNames ++ percentNames,
    '/' ∉ u ∧ '*' ∉ u ∧ u ∉ unlistedUnits ∧ u ∉ ambiguousNames ∧ u ≠ [] ∧ Py.stripWs u = u ∧ evalName u = .ok u ∧
      (u ∈ fractionNames → u ∉ percentNames) := by decide

theorem fraction_fractions : (fractionNames.all fun u => onlyIn s!!"Dimensionless" u && (allNames s!!"Dimensionless").contains u) = true := by
  decide +kernel

theorem fraction_percents : (percentNames.all fun u => onlyIn s!!"Percentage" u && (allNames s!!"Percentage").contains u) = true := by
  decide +kernel

/-- the class of the quantities in the unit `u` -/
def shareKind (u : Str) : Kind := if u ∈ percentNames then .percentage else .dimensionless

theorem share_key {u : Str} (hu : u ∈ fractionNames ++ percentNames) :
    onlyIn (shareKind u).key u = true ∧ u ∈ allNames (shareKind u).key := by
  by_cases h : u ∈ percentNames
  · have := List.all_eq_true.1 fraction_percents u h
    rw [Bool.and_eq_true, List.contains_iff_mem] at this
    rw [shareKind, if_pos h]; exact this
  · have := List.all_eq_true.1 fraction_fractions u ((List.mem_append.1 hu).resolve_right h)
    rw [Bool.and_eq_true, List.contains_iff_mem] at this
    rw [shareKind, if_neg h]; exact this

theorem share_lists {L : Lib} (h : ShippedClasses L) {u : Str} (hu : u ∈ fractionNames ++ percentNames) (k : Str) :
    Lists L.dict k u ↔ k = (shareKind u).key := by
  obtain ⟨n, hn, -⟩ := h
  obtain ⟨h1, h2, h3, -⟩ := fraction_names u hu
  obtain ⟨k1, k2⟩ := share_key hu
  rw [hn.unsigned ⟨h1, h2⟩]
  constructor
  · exact fun hb => onlyIn_iff k1 hb.1
  · rintro rfl
    exact ⟨mem_allNames k2, h3⟩

theorem share_names {L : Lib} (h : ShippedClasses L) {u : Str} (hu : u ∈ fractionNames ++ percentNames) (k : Str) :
    u ∈ L.names k ↔ k = (shareKind u).key := by
  rw [← share_lists h hu k]
  constructor
  · intro hm
    unfold Lib.names at hm
    cases hf : Py.dictGet L.dict k with
    | none => rw [hf] at hm; cases hm
    | some l => rw [hf] at hm; exact ⟨l, hf, hm⟩
  · rintro ⟨l, hl, hm⟩
    unfold Lib.names; rw [hl]; exact hm

/-- the number a quantity in the unit `u` holds, given `v` -/
def shareValue (u : Str) (v : Rat) : Rat := if u ∈ percentNames then v / 100 else v

theorem share_construct {L : Lib} (h : ShippedClasses L) {u : Str} (hu : u ∈ fractionNames ++ percentNames) (v : Rat) :
    construct (shareKind u) v u L = (.ok ⟨shareKind u, u, shareValue u v⟩, L) := by
  have hm := (share_names h hu _).2 rfl
  unfold shareKind shareValue at *
  by_cases hp : u ∈ percentNames
  · simp only [hp, if_true] at hm ⊢
    simp only [construct, if_pos hm, if_true]
  · simp only [hp, if_false] at hm ⊢
    simp only [construct, if_pos hm]
    simp

theorem share_units {L : Lib} (h : ShippedClasses L) {u : Str} (hu : u ∈ fractionNames ++ percentNames) (v : Rat) :
    units v u L = (.ok ⟨shareKind u, u, shareValue u v⟩, L) := by
  have hun := uncertain_same h
  obtain ⟨-, -, -, h4, h5, h6, h7, -⟩ := fraction_names u hu
  have hl := (share_lists h hu _).2 rfl
  have hc := share_construct h hu 0
  have only := share_lists h hu
  obtain ⟨n, hn, -⟩ := h
  obtain ⟨pre, post, hk, hp⟩ := keys_split (lists_key hn hl)
  obtain ⟨l, hf⟩ := hn.find hk hl fun k' hk' hl' => hp (by rw [← (only k').1 hl']; exact hk')
  have hun' : u ∉ L.w.dic.uncertain := by rw [hun]; exact h4
  have key : ∀ m m' : PyM Lib Quantity, (if u ∈ L.w.dic.uncertain then m else m') L = m' L := fun m m' => by rw [if_neg hun']
  unfold units unitsNamed
  rw [h6]
  refine (key (construct .base v u) _).trans ?_
  have h2 : kindOf (shareKind u).key = .ok (shareKind u) := by
    unfold shareKind; by_cases hp : u ∈ percentNames
    · rw [if_pos hp]; decide
    · rw [if_neg hp]; decide
  simp only [Option.isSome_none, Bool.false_eq_true, if_false]
  simp only [bind, hf, PyM.lift, h7, h2, hc, pure]
  unfold shareKind shareValue
  by_cases hp : u ∈ percentNames <;> simp [hp]

theorem share_unitless (u : Str) (v : Rat) : (⟨shareKind u, u, v⟩ : Quantity).unitless = true := by
  unfold shareKind unitless; by_cases hp : u ∈ percentNames <;> simp [hp]

theorem share_to {L : Lib} (h : ShippedClasses L) {u : Str} (hu : u ∈ fractionNames ++ percentNames) {q : Quantity}
    (hq : q.unitless = true) : q.to u L = (.ok (.qty ⟨shareKind u, u, q.value⟩), L) := by
  obtain ⟨-, -, -, -, h5, -⟩ := fraction_names u hu
  have h1 := share_names h hu
  have hc := fun v => share_construct h hu v
  unfold Quantity.to toUnitless
  rw [if_pos hq, PyM.run_bind_ok (PyM.run_get _)]
  unfold shareKind shareValue at *
  by_cases hp : u ∈ percentNames
  · simp only [hp, if_true] at hc h1 ⊢
    have hm := (h1 s!!"Percentage").2 (by decide)
    rw [if_neg h5, if_pos hm]
    simp only [bind, hc, pure]
    simp
  · simp only [hp, if_false] at hc h1 ⊢
    have hm := (h1 s!!"Dimensionless").2 (by decide)
    have hm' : u ∉ L.names s!!"Percentage" := fun hm => absurd ((h1 _).1 hm) (by decide)
    rw [if_neg h5, if_neg hm', if_pos hm]
    simp only [bind, hc, pure]

end Unyts

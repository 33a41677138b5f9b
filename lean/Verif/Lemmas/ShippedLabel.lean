import Verif.Lemmas.ShippedKinds

/- The conversions of one quantity are declared by the kinds of that quantity, or one by one. -/
namespace Unyts
open Spec
set_option maxRecDepth 1000000

/-- the kinds of the quantity number `q` -/
def labelDict (q : Nat) : RawDict := rawDictionary.filter fun e => kindLabel e.1 == some q

/-- the conversions declared by them -/
def labelDecls (q : Nat) : List (Str × Str × Cv) := dictDecls shippedPrefixes (labelDict q)

theorem kind_label {e} (he : e ∈ rawDictionary) {a b : Str} {c : Cv} (h : (a, b, c) ∈ declsOf (kindInstrs shippedPrefixes e.1 e.2)) :
    labelOf a = kindLabel e.1 := by
  have := List.all_eq_true.1 labels_kinds e he
  rw [Bool.and_eq_true] at this
  have := List.all_eq_true.1 this.2 _ (mem_declsOf.1 h)
  simp only [instrLabel, Bool.and_eq_true, beq_iff_eq] at this
  exact this.1

/-- a conversion of this quantity is declared by one of its kinds or written one by one -/
theorem decl_of_label {a b : Str} {c : Cv} {q : Nat} (h : (a, b, c) ∈ shipped) (hl : labelOf a = some q) :
    (a, b, c) ∈ labelDecls q ∨ ∃ e, (a, b, e) ∈ explicitConversions ∧ c = .fn e := by
  rcases List.mem_append.1 h with h | h
  · obtain ⟨e, he, h⟩ := List.mem_flatMap.1 h
    refine Or.inl (List.mem_flatMap.2 ⟨e, List.mem_filter.2 ⟨he, ?_⟩, h⟩)
    rw [beq_iff_eq, ← kind_label he h, hl]
  · obtain ⟨e, he, h⟩ := List.mem_map.1 h
    cases h
    exact Or.inr ⟨_, he, rfl⟩

theorem first_flatMap_filter {α : Type} (f : α → List (Str × Str × Cv)) (p : α → Bool) (a b : Str) :
    ∀ l : List α, (∀ e ∈ l, p e = false → first (f e) a b = none) → first (l.flatMap f) a b = first ((l.filter p).flatMap f) a b
  | [], _ => rfl
  | e :: l, h => by
    have ih := first_flatMap_filter f p a b l fun e' he => h e' (List.mem_cons_of_mem _ he)
    rw [List.flatMap_cons, first_append, ih]
    cases hp : p e with
    | true => rw [List.filter_cons_of_pos hp, List.flatMap_cons, first_append]
    | false => rw [List.filter_cons_of_neg (by simp [hp]), h e (by simp) hp, Option.none_or]

/-- the conversion of this quantity, searched among its declarations only -/
def labelCv (q : Nat) (a b : Str) : Option Cv :=
  (first (labelDecls q) a b).or (first (explDecls explicitConversions) a b)

theorem first_shipped {a b : Str} {q : Nat} (hl : labelOf a = some q) : first shipped a b = labelCv q a b := by
  have : first (dictDecls shippedPrefixes rawDictionary) a b = first (labelDecls q) a b := by
    refine first_flatMap_filter _ _ a b _ ?_
    intro e he hp
    cases hf : first (declsOf (kindInstrs shippedPrefixes e.1 e.2)) a b with
    | none => rfl
    | some c =>
      have := kind_label he (first_some hf)
      rw [hl] at this
      rw [← this] at hp
      simp at hp
  show first (dictDecls shippedPrefixes rawDictionary ++ explDecls explicitConversions) a b = _
  rw [first_append, this]; rfl

theorem Spec.ShippedNetwork.at {n : Net} (h : ShippedNetwork n) {a b : Str} {q : Nat} (hl : labelOf a = some q) {c : Cv}
    (hc : labelCv q a b = some c) : ∀ {f}, DirectName n a b f ↔ f = c.eval := by
  intro f
  rw [h.shows]
  have : shippedCv a b = some c := by
    show (first shipped a b).or _ = _
    rw [first_shipped hl, hc]; rfl
  rw [this]
  constructor
  · rintro ⟨c', e, rfl⟩; cases e; rfl
  · rintro rfl; exact ⟨c, rfl, rfl⟩

/-- two units of one quantity are linked when one of the ways is declared, apart from three -/
theorem Spec.ShippedNetwork.linked_at {n : Net} (h : ShippedNetwork n) {a b : Str} {q : Nat} (hl : labelOf a = some q)
    (hc : (labelCv q a b).isSome = true) : LinkedName n a b := by
  obtain ⟨c, hc⟩ := Option.isSome_iff_exists.1 hc
  exact ⟨c.eval, (h.at hl hc).2 rfl⟩

end Unyts

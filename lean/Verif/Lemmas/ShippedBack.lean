import Verif.Lemmas.ShippedReadings

/- Both directions of the conversions of a loaded network. -/
namespace Unyts
open Spec
set_option maxRecDepth 1000000

theorem mem_reverseKeys {d : RawDict} {u : Str} : u ∈ reverseKeys d ↔ Reversed d u := by
  unfold reverseKeys Reversed
  rw [List.mem_flatMap]
  constructor
  · rintro ⟨e, he, h⟩
    split at h
    · next hr => exact ⟨e.1, e.2, he, hr, h⟩
    · simp at h
  · rintro ⟨k, v, he, hr, h⟩
    exact ⟨(k, v), he, by simp only [hr, if_true]; exact h⟩

/-- a declared conversion has one back, unless it is one of `X` -/
theorem decl_back {P : Prefixes} {expl : List (Str × Str × CExp)} {d : RawDict} {X : List (Str × Str)}
    (hs : ∀ k v, (k, v) ∈ d → Py.subStr s!!"_SPACES" k = true → ∀ a ∈ v.keys, ' ' ∈ a → Reversed d a)
    (he : ∀ e ∈ expl, Reversed d e.1 ∨ (∃ e' ∈ expl, e'.1 = e.2.1 ∧ e'.2.1 = e.1) ∨ (e.1, e.2.1) ∈ X)
    {a b : Str} {c : Cv} (h : (a, b, c) ∈ allDecls P expl d) (hX : (a, b) ∉ X) :
    a ∈ reverseKeys d ∨ ∃ c', (b, a, c') ∈ allDecls P expl d := by
  unfold allDecls at h ⊢
  rcases List.mem_append.1 h with h | h
  · unfold dictDecls at h
    obtain ⟨e, hm, h⟩ := List.mem_flatMap.1 h
    rcases kind_both_ways P e.1 e.2 h with ⟨c', h'⟩ | ⟨h1, h2, h3⟩
    · exact Or.inr ⟨c', List.mem_append.2 (Or.inl (List.mem_flatMap.2 ⟨e, hm, h'⟩))⟩
    · exact Or.inl (mem_reverseKeys.2 (hs e.1 e.2 hm h1 a h2 h3))
  · unfold explDecls at h
    obtain ⟨e, hm, h⟩ := List.mem_map.1 h
    cases h
    rcases he e hm with h | ⟨e', h1, h2, h3⟩ | h
    · exact Or.inl (mem_reverseKeys.2 h)
    · refine Or.inr ⟨.fn e'.2.2, List.mem_append.2 (Or.inr (List.mem_map.2 ⟨e', h1, ?_⟩))⟩
      rw [h2, h3]
    · exact absurd h hX

theorem load_back {P : Prefixes} {expl : List (Str × Str × CExp)} {d d' : RawDict} {g : Net} {X : List (Str × Str)}
    (hd : (d.map Prod.fst).Nodup) (h : loadNetwork P expl d = .ok (g, d'))
    (hs : ∀ k v, (k, v) ∈ d → Py.subStr s!!"_SPACES" k = true → ∀ a ∈ v.keys, ' ' ∈ a → Reversed d a)
    (he : ∀ e ∈ expl, Reversed d e.1 ∨ (∃ e' ∈ expl, e'.1 = e.2.1 ∧ e'.2.1 = e.1) ∨ (e.1, e.2.1) ∈ X)
    {a b : Str} (hl : LinkedName g a b) (hX : (a, b) ∉ X) : LinkedName g b a := by
  obtain ⟨t, s⟩ := load_spec hd h
  rw [s.linked, withReverse_some] at hl ⊢
  by_cases hab : a = b
  · subst hab
    exact hl
  · rcases hl with ⟨c, hc⟩ | ⟨h1, h2, c, hc⟩
    · rcases decl_back hs he hc hX with h | h
      · exact Or.inr ⟨fun h => hab h.symm, h, c, hc⟩
      · exact Or.inl h
    · exact Or.inl ⟨c, hc⟩

theorem spaces_reversed : (rawDictionary.all fun e => !(Py.subStr s!!"_SPACES" e.1) ||
    e.2.keys.all fun a => !(a.contains ' ') || (reverseKeys rawDictionary).contains a) = true := by decide +kernel

theorem expl_reversed : (explicitConversions.all fun e => (reverseKeys rawDictionary).contains e.1 ||
    (explicitConversions.any fun r => r.1 == e.2.1 && r.2.1 == e.1) || oneWay.contains (e.1, e.2.1)) = true := by
  decide +kernel

theorem shipped_back {g : Net} {d : RawDict} (h : loadShipped = .ok (g, d)) {a b : Str} (hl : LinkedName g a b)
    (hX : (a, b) ∉ oneWay) : LinkedName g b a := by
  refine load_back keys_nodup h ?_ ?_ hl hX
  · intro k v hk hs a ha hb
    have h1 := List.all_eq_true.1 spaces_reversed _ hk
    simp only [hs, Bool.not_true, Bool.false_or] at h1
    have h2 := List.all_eq_true.1 h1 a ha
    simp only [List.contains_iff_mem.2 hb, Bool.not_true, Bool.false_or] at h2
    exact mem_reverseKeys.1 (List.contains_iff_mem.1 h2)
  · intro e he
    have h1 := List.all_eq_true.1 expl_reversed _ he
    rw [Bool.or_eq_true, Bool.or_eq_true] at h1
    rcases h1 with (h1 | h1) | h1
    · exact Or.inl (mem_reverseKeys.1 (List.contains_iff_mem.1 h1))
    · obtain ⟨r, hr, h2⟩ := List.any_eq_true.1 h1
      simp only [Bool.and_eq_true, beq_iff_eq] at h2
      exact Or.inr (Or.inl ⟨r, hr, h2.1, h2.2⟩)
    · exact Or.inr (Or.inr (List.contains_iff_mem.1 h1))

theorem oneWay_undeclared : (rawDictionary.all fun e => (declsOf (kindInstrs shippedPrefixes e.1 e.2)).all fun x =>
    !(oneWay.contains (x.2.1, x.1))) = true := by decide +kernel

theorem oneWay_unwritten : (explicitConversions.all fun x => !(oneWay.contains (x.2.1, x.1))) = true := by decide +kernel

theorem oneWay_unreversed : (oneWay.all fun x => !((reverseKeys rawDictionary).contains x.1)) = true := by decide +kernel

theorem oneWay_written : (oneWay.all fun x => explicitConversions.any fun e => e.1 == x.1 && e.2.1 == x.2) = true := by
  decide +kernel

theorem undeclared {a b : Str} (h : (a, b) ∈ oneWay) {c : Cv} :
    (b, a, c) ∉ allDecls shippedPrefixes explicitConversions rawDictionary := by
  intro hm
  unfold allDecls at hm
  rcases List.mem_append.1 hm with hm | hm
  · unfold dictDecls at hm
    obtain ⟨e, he, hm⟩ := List.mem_flatMap.1 hm
    have := List.all_eq_true.1 (List.all_eq_true.1 oneWay_undeclared e he) _ hm
    rw [Bool.not_eq_true', ← Bool.not_eq_true, List.contains_iff_mem] at this
    exact this h
  · unfold explDecls at hm
    obtain ⟨e, he, hm⟩ := List.mem_map.1 hm
    cases hm
    have := List.all_eq_true.1 oneWay_unwritten e he
    rw [Bool.not_eq_true', ← Bool.not_eq_true, List.contains_iff_mem] at this
    exact this h

/-- the three exceptions are conversions of the network, and have none back -/
theorem oneWay_one_way {g : Net} {d : RawDict} (h : loadShipped = .ok (g, d)) {a b : Str} (hX : (a, b) ∈ oneWay) :
    LinkedName g a b ∧ ¬ LinkedName g b a := by
  obtain ⟨t, s⟩ := shipped_shows h
  rw [s.linked, s.linked, withReverse_some, withReverse_some]
  constructor
  · have := List.all_eq_true.1 oneWay_written _ hX
    obtain ⟨e, he, h2⟩ := List.any_eq_true.1 this
    simp only [Bool.and_eq_true, beq_iff_eq] at h2
    refine Or.inl ⟨.fn e.2.2, List.mem_append.2 (Or.inr (List.mem_map.2 ⟨e, he, ?_⟩))⟩
    rw [h2.1, h2.2]
  · rintro (⟨c, hc⟩ | ⟨_, h2, _⟩)
    · exact undeclared hX hc
    · have := List.all_eq_true.1 oneWay_unreversed _ hX
      rw [Bool.not_eq_true', ← Bool.not_eq_true, List.contains_iff_mem] at this
      exact this h2

end Unyts

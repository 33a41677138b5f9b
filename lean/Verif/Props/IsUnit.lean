import Verif.Model.IsUnit

/-
C56: which strings `is_unit` accepts.
-/
namespace Unyts

/-! ### Specification -/

/-- `u` is one of the names listed under a kind (internal kinds have an underscore in their key). -/
def KnownName (d : UnitDict) (u : Str) : Prop := ∃ kind names, (kind, names) ∈ d ∧ '_' ∉ kind ∧ u ∈ names

/-- Products and quotients of strings satisfying `K`. -/
inductive ProductOf (K : Str → Prop) : Str → Prop
  | name {u : Str} (h : K u) : ProductOf K u
  | mul {a b : Str} (ha : ProductOf K a) (hb : ProductOf K b) : ProductOf K (a ++ '*' :: b)
  | div {a b : Str} (ha : ProductOf K a) (hb : ProductOf K b) : ProductOf K (a ++ '/' :: b)

/-- a known name that is not itself written as a product or quotient -/
def SimpleName (d : UnitDict) (u : Str) : Prop := KnownName d u ∧ '/' ∉ u ∧ '*' ∉ u

/-! ### Proofs -/

theorem inDict_iff (d : UnitDict) (u : Str) : inDict d u = true ↔ KnownName d u := by
  unfold inDict KnownName
  rw [List.any_eq_true]
  constructor
  · rintro ⟨⟨k, l⟩, h1, h2⟩
    simp only [Bool.and_eq_true, Bool.not_eq_true', List.contains_eq_mem, decide_eq_false_iff_not,
      decide_eq_true_eq] at h2
    exact ⟨k, l, h1, h2.1, h2.2⟩
  · rintro ⟨k, l, h1, h2, h3⟩
    exact ⟨(k, l), h1, by simp [h2, h3]⟩

theorem unitParts_nil : unitParts [] = [[]] := rfl

theorem unitParts_cons (x : Char) (xs : Str) :
    unitParts (x :: xs) = if x = '/' ∨ x = '*' then [] :: unitParts xs
      else match unitParts xs with
        | [] => [[x]]
        | p :: ps => (x :: p) :: ps := by
  unfold unitParts
  by_cases h1 : x = '/'
  · subst h1
    rw [if_pos (Or.inl rfl)]
    rfl
  · rw [Py.splitOn, if_neg h1]
    cases h : Py.splitOn '/' xs with
    | nil => exact absurd h (Py.splitOn_ne_nil _ _)
    | cons p ps =>
      simp only [List.flatMap_cons]
      rw [Py.splitOn]
      by_cases h2 : x = '*'
      · rw [if_pos h2, if_pos (Or.inr h2)]
        rfl
      · rw [if_neg h2, if_neg (by rintro (h | h) <;> contradiction)]
        cases h3 : Py.splitOn '*' p with
        | nil => exact absurd h3 (Py.splitOn_ne_nil _ _)
        | cons q qs => rfl

theorem unitParts_ne_nil (u : Str) : unitParts u ≠ [] := by
  cases u with
  | nil => simp [unitParts_nil]
  | cons x xs =>
    rw [unitParts_cons]
    split
    · simp
    · split <;> simp

theorem unitParts_append (a b : Str) (x : Char) (hx : x = '/' ∨ x = '*') :
    unitParts (a ++ x :: b) = unitParts a ++ unitParts b := by
  induction a with
  | nil => rw [List.nil_append, unitParts_cons, if_pos hx]; rfl
  | cons y ys ih =>
    rw [List.cons_append, unitParts_cons, ih, unitParts_cons]
    split
    · rfl
    · cases h : unitParts ys with
      | nil => exact absurd h (unitParts_ne_nil ys)
      | cons p ps => rfl

theorem unitParts_simple {u : Str} (h1 : '/' ∉ u) (h2 : '*' ∉ u) : unitParts u = [u] := by
  unfold unitParts
  rw [Py.splitOn_of_not_mem h1]
  simp [Py.splitOn_of_not_mem h2]

/-- a string is made of its parts -/
theorem product_of_parts {K : Str → Prop} (u : Str) (h : ∀ p ∈ unitParts u, K p) : ProductOf K u := by
  generalize hn : u.length = n
  induction n using Nat.strongRecOn generalizing u with
  | ind n ih =>
    by_cases hs : '/' ∈ u ∨ '*' ∈ u
    · have : ∃ a x b, u = a ++ x :: b ∧ (x = '/' ∨ x = '*') := by
        rcases hs with hs | hs
        · obtain ⟨a, b, rfl⟩ := List.append_of_mem hs
          exact ⟨a, _, b, rfl, Or.inl rfl⟩
        · obtain ⟨a, b, rfl⟩ := List.append_of_mem hs
          exact ⟨a, _, b, rfl, Or.inr rfl⟩
      obtain ⟨a, x, b, rfl, hx⟩ := this
      rw [unitParts_append a b x hx] at h
      rw [List.length_append, List.length_cons] at hn
      have ha := ih a.length (by omega) a (fun p hp => h p (List.mem_append.2 (Or.inl hp))) rfl
      have hb := ih b.length (by omega) b (fun p hp => h p (List.mem_append.2 (Or.inr hp))) rfl
      rcases hx with rfl | rfl
      · exact .div ha hb
      · exact .mul ha hb
    · have h1 : '/' ∉ u := fun h => hs (Or.inl h)
      have h2 : '*' ∉ u := fun h => hs (Or.inr h)
      rw [unitParts_simple h1 h2] at h
      exact .name (h u (by simp))

theorem parts_noSep {u p : Str} (h : p ∈ unitParts u) : '/' ∉ p ∧ '*' ∉ p := by
  unfold unitParts at h
  obtain ⟨q, hq, hp⟩ := List.mem_flatMap.1 h
  refine ⟨fun hh => Py.mem_splitOn_no_sep hq ?_, Py.mem_splitOn_no_sep hp⟩
  have : p.Sublist q := by
    clear hq h
    induction q generalizing p with
    | nil => simp [Py.splitOn] at hp; subst hp; exact List.Sublist.refl _
    | cons x xs ih =>
      unfold Py.splitOn at hp
      split at hp
      · rcases List.mem_cons.1 hp with rfl | hp
        · exact List.nil_sublist _
        · exact (ih hp hh).cons x
      · cases hs : Py.splitOn '*' xs with
        | nil => exact absurd hs (Py.splitOn_ne_nil _ _)
        | cons r rs =>
          rw [hs] at hp ih
          rcases List.mem_cons.1 hp with rfl | hp
          · by_cases hr : '/' ∈ r
            · exact (ih List.mem_cons_self hr).cons_cons x
            · have : r.Sublist xs := by
                have hj := Py.join_splitOn '*' xs
                rw [hs] at hj
                rw [← hj]
                cases rs with
                | nil => exact List.Sublist.refl _
                | cons _ _ => exact List.sublist_append_left _ _
              exact this.cons_cons x
          · exact (ih (List.mem_cons_of_mem _ hp) hh).cons x
  exact this.subset hh

theorem ProductOf.mono {K L : Str → Prop} (hKL : ∀ u, K u → ProductOf L u) {u : Str} (h : ProductOf K u) : ProductOf L u := by
  induction h with
  | name h => exact hKL _ h
  | mul _ _ ha hb => exact .mul ha hb
  | div _ _ ha hb => exact .div ha hb

theorem parts_of_product {d : UnitDict} {u : Str} (h : ProductOf (SimpleName d) u) : ∀ p ∈ unitParts u, KnownName d p := by
  induction h with
  | name h =>
    rw [unitParts_simple h.2.1 h.2.2]
    intro p hp
    rw [List.mem_singleton.1 hp]
    exact h.1
  | mul _ _ ha hb =>
    intro p hp
    rw [unitParts_append _ _ _ (Or.inr rfl)] at hp
    rcases List.mem_append.1 hp with hp | hp
    · exact ha p hp
    · exact hb p hp
  | div _ _ ha hb =>
    intro p hp
    rw [unitParts_append _ _ _ (Or.inl rfl)] at hp
    rcases List.mem_append.1 hp with hp | hp
    · exact ha p hp
    · exact hb p hp

/-- C56, exactly: between blanks, `is_unit` accepts the known names and the products and quotients of known names that
are not themselves products or quotients, and nothing else. -/
theorem C56_exact (d : UnitDict) (s : Str) :
    isUnit d s = true ↔ KnownName d (Py.stripWs s) ∨ ProductOf (SimpleName d) (Py.stripWs s) := by
  unfold isUnit
  simp only
  split
  · next h => exact ⟨fun _ => Or.inl ((inDict_iff d _).1 h), fun _ => rfl⟩
  · next h =>
    have hk : ¬ KnownName d (Py.stripWs s) := fun hh => h ((inDict_iff d _).2 hh)
    split
    · next hs =>
      rw [List.all_eq_true]
      constructor
      · intro hall
        exact Or.inr (product_of_parts _ fun p hp => ⟨(inDict_iff d p).1 (hall p hp), parts_noSep hp⟩)
      · rintro (hh | hh)
        · exact absurd hh hk
        · intro p hp
          exact (inDict_iff d p).2 (parts_of_product hh p hp)
    · next hs =>
      simp only [List.contains_eq_mem, Bool.or_eq_true, decide_eq_true_eq, not_or] at hs
      constructor
      · intro hh; cases hh
      · rintro (hh | hh)
        · exact absurd hh hk
        · have := parts_of_product hh (Py.stripWs s) (by rw [unitParts_simple hs.1 hs.2]; simp)
          exact absurd this hk

/-- C56: nothing but products and quotients of known names is accepted. -/
theorem C56_sound (d : UnitDict) (s : Str) (h : isUnit d s = true) : ProductOf (KnownName d) (Py.stripWs s) := by
  rcases (C56_exact d s).1 h with h | h
  · exact .name h
  · exact h.mono fun u hu => .name hu.1

/-- C56, what holds of the other direction: all products and quotients of known names are accepted, if every known name
that is written as a product or quotient is one of known simple names. -/
theorem C56_complete_partial (d : UnitDict) (hd : ∀ u, KnownName d u → ProductOf (SimpleName d) u) (s : Str) :
    isUnit d s = true ↔ ProductOf (KnownName d) (Py.stripWs s) := by
  refine ⟨C56_sound d s, fun h => ?_⟩
  rw [C56_exact]
  exact Or.inr (h.mono hd)

/-- C56 fails in general: '1/s' is a known name (a frequency), '1' is not, and '1/s*m' is refused. -/
theorem C56_fails : ∃ d s, ProductOf (KnownName d) (Py.stripWs s) ∧ isUnit d s = false :=
  ⟨[(s!!"Frequency", [s!!"Hz", s!!"1/s"]), (s!!"Length", [s!!"m"])], s!!"1/s*m",
    .mul (a := s!!"1/s") (b := s!!"m") (.name ⟨s!!"Frequency", [s!!"Hz", s!!"1/s"], by decide, by decide, by decide⟩)
      (.name ⟨s!!"Length", [s!!"m"], by decide, by decide, by decide⟩), by decide⟩

example : isUnit [(s!!"Length", [s!!"m"]), (s!!"Time", [s!!"s"]), (s!!"Time_SI", [s!!"x"])] s!!" m/s*m " = true ∧
    isUnit [(s!!"Length", [s!!"m"]), (s!!"Time", [s!!"s"]), (s!!"Time_SI", [s!!"x"])] s!!"m/x" = false := by decide

/-- a dictionary with a compound name that meets the hypothesis of `C56_complete_partial` -/
example : ∀ u, KnownName [(s!!"Length", [s!!"m"]), (s!!"Area", [s!!"m*m"])] u →
    ProductOf (SimpleName [(s!!"Length", [s!!"m"]), (s!!"Area", [s!!"m*m"])]) u := by
  have hm : SimpleName [(s!!"Length", [s!!"m"]), (s!!"Area", [s!!"m*m"])] s!!"m" :=
    ⟨⟨s!!"Length", [s!!"m"], by decide, by decide, by decide⟩, by decide, by decide⟩
  rintro u ⟨k, l, h1, _, h3⟩
  simp only [List.mem_cons, Prod.mk.injEq, List.not_mem_nil, or_false] at h1
  rcases h1 with ⟨rfl, rfl⟩ | ⟨rfl, rfl⟩
  · rw [List.mem_singleton.1 h3]; exact .name hm
  · rw [List.mem_singleton.1 h3]; exact .mul (a := s!!"m") (b := s!!"m") (.name hm) (.name hm)

end Unyts

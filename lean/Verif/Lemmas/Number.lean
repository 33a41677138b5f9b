import Verif.Model.Number

namespace Unyts

theorem digit_char {d : Nat} (h : d < 10) :
    isDecimal (Char.ofNat ('0'.toNat + d)) = true ∧ digitVal (Char.ofNat ('0'.toNat + d)) = d := by
  match d, h with
  | 0, _ | 1, _ | 2, _ | 3, _ | 4, _ | 5, _ | 6, _ | 7, _ | 8, _ | 9, _ => decide

theorem natStr_digits (n : Nat) : ∀ c ∈ natStr n, isDecimal c = true := by
  induction n using Nat.strongRecOn with
  | _ n ih =>
    intro c hc
    rw [natStr_eq] at hc
    split at hc
    · next h =>
      simp only [List.mem_singleton] at hc
      subst hc
      exact (digit_char h).1
    · next h =>
      rcases List.mem_append.1 hc with hc | hc
      · exact ih (n / 10) (by omega) c hc
      · simp only [List.mem_singleton] at hc
        subst hc
        exact (digit_char (by omega)).1

theorem natStr_ne_nil (n : Nat) : natStr n ≠ [] := by
  rw [natStr_eq]
  split <;> simp

theorem digitsVal_append (a : Str) (c : Char) : digitsVal (a ++ [c]) = digitsVal a * 10 + digitVal c := by
  simp [digitsVal, List.foldl_append]

theorem digitsVal_natStr (n : Nat) : digitsVal (natStr n) = n := by
  induction n using Nat.strongRecOn with
  | _ n ih =>
    rw [natStr_eq]
    split
    · next h => simp only [digitsVal, List.foldl_cons, List.foldl_nil, (digit_char h).2]; omega
    · next h =>
      rw [digitsVal_append, ih (n / 10) (by omega), (digit_char (by omega)).2]
      omega

/-- the characters that are not decimal digits -/
theorem notDecimal_ne {c d : Char} (hc : isDecimal c = true) (hd : isDecimal d = false) : c ≠ d := by
  rintro rfl; rw [hc] at hd; cases hd

theorem unUnderscore_id {s : Str} (h : '_' ∉ s) (p : Bool) : unUnderscore p s = some s := by
  induction s generalizing p with
  | nil => rfl
  | cons c r ih =>
    simp only [List.mem_cons, not_or] at h
    rw [unUnderscore, if_neg (fun e => h.1 e.symm), ih h.2]
    rfl

theorem takeSign_digits {s : Str} (h : ∀ c ∈ s, isDecimal c = true) : takeSign s = (false, s) := by
  cases s with
  | nil => rfl
  | cons c r =>
    have hc := h c (by simp)
    have h1 : c ≠ '-' := notDecimal_ne hc (by decide)
    have h2 : c ≠ '+' := notDecimal_ne hc (by decide)
    unfold takeSign
    split
    · next heq => cases heq; exact absurd rfl h1
    · next heq => cases heq; exact absurd rfl h2
    · rfl

/-- digits with an optional leading minus sign -/
def signed (neg : Bool) (ds : Str) : Str := if neg then '-' :: ds else ds

theorem signed_chars {neg : Bool} {ds : Str} (h : ∀ c ∈ ds, isDecimal c = true) :
    ∀ c ∈ signed neg ds, isDecimal c = true ∨ c = '-' := by
  intro c hc
  cases neg
  · exact Or.inl (h c hc)
  · rcases List.mem_cons.1 hc with h1 | h1
    · exact Or.inr h1
    · exact Or.inl (h c h1)

theorem not_mem_signed {neg : Bool} {ds : Str} (h : ∀ c ∈ ds, isDecimal c = true) {d : Char}
    (hd : isDecimal d = false) (hm : d ≠ '-') : d ∉ signed neg ds := by
  intro hc
  rcases signed_chars h d hc with h1 | h1
  · rw [h1] at hd; cases hd
  · exact hm h1

theorem wsChars_notDecimal : ∀ c ∈ Py.wsChars, isDecimal c = false ∧ c ≠ '-' := by decide

theorem stripWs_signed {neg : Bool} {ds : Str} (h : ∀ c ∈ ds, isDecimal c = true) :
    Py.stripWs (signed neg ds) = signed neg ds := by
  apply Py.strip_of_none
  intro c hc hw
  obtain ⟨h1, h2⟩ := wsChars_notDecimal c hw
  rcases signed_chars h c hc with h3 | h3
  · rw [h3] at h1; cases h1
  · exact h2 h3

theorem pyInt_signed {neg : Bool} {ds : Str} (h : ∀ c ∈ ds, isDecimal c = true) (hne : ds ≠ []) :
    pyInt (signed neg ds) = some (if neg then -(digitsVal ds : Int) else digitsVal ds) := by
  unfold pyInt
  rw [stripWs_signed h, unUnderscore_id (not_mem_signed h (by decide) (by decide))]
  have hall : ds.all isDecimal = true := by simpa using h
  cases neg
  · simp only [signed, Bool.false_eq_true, if_false]
    rw [takeSign_digits h]
    simp [hne, hall]
  · have : takeSign ('-' :: ds) = (true, ds) := rfl
    simp only [signed, if_true, this]
    simp [hne, hall]

theorem intStr_signed (n : Int) : intStr n = signed (decide (n < 0)) (natStr n.natAbs) := by
  unfold intStr signed
  by_cases h : n < 0 <;> simp [h]

theorem pyInt_intStr (n : Int) : pyInt (intStr n) = some n := by
  rw [intStr_signed, pyInt_signed (natStr_digits _) (natStr_ne_nil _), digitsVal_natStr]
  by_cases h : n < 0 <;> simp [h] <;> omega

theorem lowerC_decimal {c : Char} (h : isDecimal c = true ∨ c = '-') : Py.lowerC c = c := by
  rcases h with h | h
  · unfold isDecimal at h
    simp only [Bool.and_eq_true, decide_eq_true_eq] at h
    have h9 : c.toNat ≤ 57 := h.2
    have hA : ¬ ('A' ≤ c ∧ c ≤ 'Z') := by
      rintro ⟨h1, _⟩; have : 65 ≤ c.toNat := h1; omega
    have hB : ¬ ('À' ≤ c ∧ c ≤ 'Þ' ∧ c ≠ '×') := by
      rintro ⟨h1, _⟩; have : 192 ≤ c.toNat := h1; omega
    have hC : ¬ ('Α' ≤ c ∧ c ≤ 'Ω') := by
      rintro ⟨h1, _⟩; have : 913 ≤ c.toNat := h1; omega
    unfold Py.lowerC
    rw [if_neg hA, if_neg hB, if_neg hC]
  · subst h; decide

theorem upperC_decimal {c : Char} (h : isDecimal c = true ∨ c = '-') : Py.upperC c = c := by
  rcases h with h | h
  · unfold isDecimal at h
    simp only [Bool.and_eq_true, decide_eq_true_eq] at h
    have h9 : c.toNat ≤ 57 := h.2
    have hA : ¬ ('a' ≤ c ∧ c ≤ 'z') := by
      rintro ⟨h1, _⟩; have : 97 ≤ c.toNat := h1; omega
    have hB : ¬ ('à' ≤ c ∧ c ≤ 'þ' ∧ c ≠ '÷') := by
      rintro ⟨h1, _⟩; have : 224 ≤ c.toNat := h1; omega
    have hC : ¬ ('α' ≤ c ∧ c ≤ 'ω' ∧ c ≠ 'ς') := by
      rintro ⟨h1, _⟩; have : 945 ≤ c.toNat := h1; omega
    have hD : ¬ (c = 'µ') := by
      intro h1; rw [h1] at h9; exact absurd h9 (by decide)
    unfold Py.upperC
    rw [if_neg hA, if_neg hB, if_neg hC, if_neg hD]
  · subst h; decide

theorem map_id_of {f : Char → Char} {s : Str} (h : ∀ c ∈ s, f c = c) : s.map f = s := by
  induction s with
  | nil => rfl
  | cons c r ih => rw [List.map_cons, h c (by simp), ih (fun x hx => h x (by simp [hx]))]

theorem replaceC_none {c : Char} {r s : Str} (h : c ∉ s) : Py.replaceC c r s = s := by
  induction s with
  | nil => rfl
  | cons x xs ih =>
    simp only [List.mem_cons, not_or] at h
    have := ih h.2
    unfold Py.replaceC at this ⊢
    rw [List.flatMap_cons, this, if_neg (fun e => h.1 e.symm)]
    rfl

theorem replaceC_append (c : Char) (r a b : Str) :
    Py.replaceC c r (a ++ b) = Py.replaceC c r a ++ Py.replaceC c r b := by
  simp [Py.replaceC]

theorem replaceC_cons_self (c : Char) (r b : Str) : Py.replaceC c r (c :: b) = r ++ Py.replaceC c r b := by
  simp [Py.replaceC]

theorem replaceC_cons_ne {c x : Char} (h : x ≠ c) (r b : Str) : Py.replaceC c r (x :: b) = x :: Py.replaceC c r b := by
  simp [Py.replaceC, h]

end Unyts

import Verif.Model.Converter
import Verif.Lemmas.Strings
import Verif.Spec.UnitString
import Verif.Spec.Network

/- The operands `_converter` finds in a unit string are the factors of the string. -/
namespace Unyts
open Spec

theorem sepsSU : sortSep (dedup [['*'], ['/']]) = [['*'], ['/']] := by decide

theorem subStr_opsU {x : Str} (hx : x ≠ []) (h1 : '*' ∉ x) (h2 : '/' ∉ x) : Py.subStr x ['*', '/'] = false := by
  match x, hx with
  | c :: r, _ =>
    simp only [List.mem_cons, not_or] at h1 h2
    simp only [Py.subStr, List.isPrefixOf, Bool.or_eq_false_iff, List.isEmpty_cons]
    refine ⟨?_, ?_, trivial⟩
    · simp [beq_eq_false_iff_ne.2 (fun e => h1.1 e.symm)]
    · simp [beq_eq_false_iff_ne.2 (fun e => h2.1 e.symm)]

theorem scanSU (n : Nat) (s cur : Str) (hn : s.length ≤ n) (c1 : '*' ∉ cur) (c2 : '/' ∉ cur) :
    ∃ r, scan [['*'], ['/']] n s cur = some r ∧ ∀ prev : Str,
      operands prev (r.filter fun part => decide (part ∉ [] ++ [[]])) =
        (readFactors (decide (prev = ['/'])) cur s).filter (fun f => decide (f.2 ≠ [])) := by
  induction n generalizing s cur with
  | zero =>
    have : s = [] := List.length_eq_zero_iff.1 (by omega)
    subst this
    refine ⟨[cur], by simp [scan], fun prev => ?_⟩
    by_cases hc : cur = []
    · subst hc; simp [operands, readFactors]
    · simp [hc, operands, readFactors, subStr_opsU hc c1 c2]
  | succ n ih =>
    cases s with
    | nil =>
      refine ⟨[cur], by simp [scan], fun prev => ?_⟩
      by_cases hc : cur = []
      · subst hc; simp [operands, readFactors]
      · simp [hc, operands, readFactors, subStr_opsU hc c1 c2]
    | cons c s =>
      simp only [List.length_cons] at hn
      have key : ∀ (op : Char), op = '*' ∨ op = '/' → ∀ (rest : List Str) (prev : Str),
          operands prev ((cur :: [op] :: rest).filter fun part => decide (part ∉ [] ++ [[]])) =
          ([(decide (prev = ['/']), cur)].filter (fun f => decide (f.2 ≠ []))) ++
            operands [op] (rest.filter fun part => decide (part ∉ [] ++ [[]])) := by
        intro op hop rest prev
        have hsub : Py.subStr [op] ['*', '/'] = true := by rcases hop with rfl | rfl <;> decide
        by_cases hc : cur = []
        · subst hc
          simp [operands, hsub]
        · simp [hc, operands, subStr_opsU hc c1 c2, hsub]
      by_cases h1 : c = '*'
      · subst h1
        have hm : firstMatch [['*'], ['/']] ('*' :: s) = some ['*'] := rfl
        obtain ⟨r, hr, hop⟩ := ih s [] (by omega) (by simp) (by simp)
        refine ⟨cur :: ['*'] :: r, ?_, fun prev => ?_⟩
        · simp only [scan, hm]
          simpa using hr
        · rw [key '*' (Or.inl rfl), hop]
          have : decide ((['*'] : Str) = ['/']) = false := by decide
          rw [this, readFactors, if_pos rfl, List.filter_cons, List.filter_cons]
          split <;> simp
      · by_cases h2 : c = '/'
        · subst h2
          have hm : firstMatch [['*'], ['/']] ('/' :: s) = some ['/'] := rfl
          obtain ⟨r, hr, hop⟩ := ih s [] (by omega) (by simp) (by simp)
          refine ⟨cur :: ['/'] :: r, ?_, fun prev => ?_⟩
          · simp only [scan, hm]
            simpa using hr
          · rw [key '/' (Or.inr rfl), hop]
            have : decide ((['/'] : Str) = ['/']) = true := by decide
            rw [this, readFactors, if_neg h1, if_pos rfl, List.filter_cons, List.filter_cons]
            split <;> simp
        · have hm : firstMatch [['*'], ['/']] (c :: s) = none := by
            have e1 : ('*' == c) = false := beq_eq_false_iff_ne.2 (fun e => h1 e.symm)
            have e2 : ('/' == c) = false := beq_eq_false_iff_ne.2 (fun e => h2 e.symm)
            simp [firstMatch, List.isPrefixOf, e1, e2]
          obtain ⟨r, hr, hop⟩ := ih s (cur ++ [c]) (by omega) (by simp [c1, Ne.symm h1]) (by simp [c2, Ne.symm h2])
          refine ⟨r, ?_, fun prev => ?_⟩
          · simp only [scan, hm]
            exact hr
          · rw [hop, readFactors, if_neg h1, if_neg h2]

/-- The operands of a unit string are its factors (empty ones are skipped). -/
theorem operands_eq (u : Str) :
    operands [] (splitUnit u) = (factors u).filter (fun f => decide (f.2 ≠ [])) := by
  unfold splitUnit multiSplit multiSplitOrd
  rw [sepsSU]
  obtain ⟨r, hr, hop⟩ := scanSU u.length u [] (Nat.le_refl _) (by simp) (by simp)
  rw [hr]
  have := hop []
  simp only [Option.map_some, Option.getD_some]
  exact this

theorem readFactors_simple {den : Bool} {cur s : Str} (h1 : '*' ∉ s) (h2 : '/' ∉ s) :
    readFactors den cur s = [(den, cur ++ s)] := by
  induction s generalizing cur with
  | nil => simp [readFactors]
  | cons c s ih =>
    simp only [List.mem_cons, not_or] at h1 h2
    rw [readFactors, if_neg (Ne.symm h1.1), if_neg (Ne.symm h2.1), ih h1.2 h2.2]
    simp

theorem readFactors_sep {den : Bool} {cur s t : Str} (op : Char) (hop : op = '*' ∨ op = '/') (h1 : '*' ∉ s)
    (h2 : '/' ∉ s) : readFactors den cur (s ++ op :: t) = (den, cur ++ s) :: readFactors (decide (op = '/')) [] t := by
  induction s generalizing cur with
  | nil => rcases hop with rfl | rfl <;> simp [readFactors]
  | cons c s ih =>
    simp only [List.mem_cons, not_or] at h1 h2
    rw [List.cons_append, readFactors, if_neg (Ne.symm h1.1), if_neg (Ne.symm h2.1), ih h1.2 h2.2]
    simp

theorem operands_simple {u : Str} (h : SimpleName u) (hne : u ≠ []) : operands [] (splitUnit u) = [(false, u)] := by
  rw [operands_eq, factors, readFactors_simple h.2 h.1]
  simp [hne]

theorem operands_ratio {a b : Str} (ha : SimpleName a) (hb : SimpleName b) (hna : a ≠ []) (hnb : b ≠ []) :
    operands [] (splitUnit (a ++ '/' :: b)) = [(false, a), (true, b)] := by
  rw [operands_eq, factors, readFactors_sep '/' (Or.inr rfl) ha.2 ha.1, readFactors_simple hb.2 hb.1]
  simp [hna, hnb]

theorem operands_product {a b : Str} (ha : SimpleName a) (hb : SimpleName b) (hna : a ≠ []) (hnb : b ≠ []) :
    operands [] (splitUnit (a ++ '*' :: b)) = [(false, a), (false, b)] := by
  rw [operands_eq, factors, readFactors_sep '*' (Or.inl rfl) ha.2 ha.1, readFactors_simple hb.2 hb.1]
  simp [hna, hnb]

theorem mem_readFactors {den : Bool} {cur s : Str} (h1 : SimpleName cur) {f : Factor}
    (hf : f ∈ readFactors den cur s) : SimpleName f.2 := by
  induction s generalizing den cur with
  | nil => simp [readFactors] at hf; subst hf; exact h1
  | cons c s ih =>
    rw [readFactors] at hf
    have hnil : SimpleName [] := by simp [SimpleName]
    split at hf
    · rcases List.mem_cons.1 hf with rfl | h
      · exact h1
      · exact ih hnil h
    · split at hf
      · rcases List.mem_cons.1 hf with rfl | h
        · exact h1
        · exact ih hnil h
      · next c1 c2 =>
        refine ih ?_ hf
        unfold SimpleName at h1 ⊢
        simp [h1, Ne.symm c1, Ne.symm c2]

/-- every operand is a simple name -/
theorem operand_simple {u : Str} {f : Factor} (hf : f ∈ operands [] (splitUnit u)) : SimpleName f.2 := by
  rw [operands_eq] at hf
  exact mem_readFactors (by simp [SimpleName]) (List.mem_filter.1 hf).1

end Unyts

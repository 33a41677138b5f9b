import Verif.Model.Operations
import Verif.Lemmas.Number
import Verif.Lemmas.Reduce
import Verif.Spec.Names

namespace Unyts
open Spec

theorem isDigit_of_decimal {c : Char} (h : isDecimal c = true) : isDigit c = true := by simp [isDigit, h]

theorem ubpLoop_bare {u : Str} (h : ∀ c ∈ u, isDigit c = false ∧ c ∉ ['-', '+', '.', '/']) (r bas pow : Str) :
    ubpLoop (u ++ r) bas pow [] false = ubpLoop r (bas ++ u) pow [] false := by
  induction u generalizing bas with
  | nil => simp
  | cons c u ih =>
    obtain ⟨h1, h2⟩ := h c (by simp)
    simp only [List.mem_cons, List.not_mem_nil, or_false, not_or] at h2
    rw [List.cons_append, ubpLoop, h1]
    simp only [Bool.false_eq_true, if_false, Bool.false_and]
    rw [if_neg (by simp [h2]), if_neg h2.2.2.2, ih (fun x hx => h x (by simp [hx]))]
    simp

/-- nothing but base characters: the power stays empty -/
theorem ubpLoop_nopow {s : Str} (h : ∀ c ∈ s, isDigit c = false ∧ c ∉ ['-', '+', '.']) (bas : Str) (inv : Bool) :
    ∃ inv', ubpLoop s bas [] [] inv = (bas ++ s, [], inv') := by
  induction s generalizing bas inv with
  | nil => exact ⟨inv, by simp [ubpLoop]⟩
  | cons c s ih =>
    obtain ⟨h1, h2⟩ := h c (by simp)
    obtain ⟨inv', hi⟩ := ih (fun x hx => h x (by simp [hx])) (bas ++ [c]) (if c = '/' then !inv else inv)
    refine ⟨inv', ?_⟩
    rw [ubpLoop, h1]
    simp only [Bool.false_eq_true, if_false, List.isEmpty_nil, Bool.not_true, Bool.and_false, List.append_nil]
    rw [if_neg h2, hi]
    simp

theorem ubpLoop_digits {ds : Str} (h : ∀ c ∈ ds, isDecimal c = true) (hne : ds ≠ []) (bas pow oth : Str) :
    ubpLoop ds bas pow oth false = (bas, pow ++ oth ++ ds, false) := by
  induction ds generalizing pow oth with
  | nil => exact absurd rfl hne
  | cons c r ih =>
    rw [ubpLoop, if_pos (isDigit_of_decimal (h c (by simp)))]
    cases r with
    | nil => simp [ubpLoop]
    | cons d r =>
      rw [ih (fun x hx => h x (by simp [hx])) (by simp)]
      simp

theorem ubpLoop_intStr (n : Int) (bas : Str) : ubpLoop (intStr n) bas [] [] false = (bas, intStr n, false) := by
  have hd := natStr_digits n.natAbs
  have hne := natStr_ne_nil n.natAbs
  unfold intStr
  split
  · rw [ubpLoop, if_neg (by decide), if_pos (by decide), ubpLoop_digits hd hne]
    rfl
  · rw [ubpLoop_digits hd hne]; rfl

theorem intStr_chars (n : Int) : ∀ c ∈ intStr n, isDecimal c = true ∨ c = '-' := by
  rw [intStr_signed]; exact signed_chars (natStr_digits _)

theorem not_mem_intStr (n : Int) {d : Char} (h : isDecimal d = false) (h2 : d ≠ '-') : d ∉ intStr n := by
  rw [intStr_signed]; exact not_mem_signed (natStr_digits _) h h2

theorem intStr_ne_nil (n : Int) : intStr n ≠ [] := by
  unfold intStr; split
  · simp
  · exact natStr_ne_nil _

theorem parsePow_intStr (n : Int) : parsePow (intStr n) = .ok (.int n) := by
  unfold parsePow
  rw [if_neg (not_mem_intStr n (by decide) (by decide)), pyInt_intStr]

theorem Spec.BareName.noSlash {u : Str} (h : BareName u) : '/' ∉ u := fun hm => (h.1 _ hm).2 (by simp)

theorem isEmpty_false {s : Str} (h : s ≠ []) : s.isEmpty = false := by
  cases s with
  | nil => exact absurd rfl h
  | cons => rfl

theorem unitBasePower_power {u : Str} (h : BareName u) (n : Int) :
    unitBasePower (withPower u n) = .ok (u, .int n) := by
  have hs : '/' ∉ withPower u n := by
    unfold withPower
    rw [List.mem_append, not_or]
    exact ⟨h.noSlash, not_mem_intStr n (by decide) (by decide)⟩
  unfold unitBasePower
  rw [Py.splitOn_of_not_mem hs]
  simp only [List.length_singleton]
  rw [if_neg (by simp)]
  unfold withPower
  rw [ubpLoop_bare h.1, List.nil_append, ubpLoop_intStr]
  simp only [Bool.false_and, Bool.false_eq_true, if_false, isEmpty_false (intStr_ne_nil n), parsePow_intStr]
  rfl

/-- names without digits have power 1 -/
theorem unitBasePower_nopow {s : Str} (h : ∀ c ∈ s, isDigit c = false ∧ c ∉ ['-', '+', '.'])
    (hn : ¬ ((Py.splitOn '/' s).length = 2 ∧ isNumber ((Py.splitOn '/' s).headD []) = true)) :
    unitBasePower s = .ok (s, .int 1) := by
  unfold unitBasePower
  rw [if_neg hn]
  obtain ⟨inv, hi⟩ := ubpLoop_nopow h [] false
  rw [hi]
  simp

theorem unitBasePower_bare {u : Str} (h : BareName u) : unitBasePower u = .ok (u, .int 1) := by
  apply unitBasePower_nopow
  · intro c hc
    obtain ⟨h1, h2⟩ := h.1 c hc
    simp only [List.mem_cons, List.not_mem_nil, or_false, not_or] at h2 ⊢
    exact ⟨h1, h2.1, h2.2.1, h2.2.2.1⟩
  · rw [Py.splitOn_of_not_mem h.noSlash]; simp

theorem strip_ne_nil {cs : List Char} {s : Str} {c : Char} (hc : c ∈ s) (hn : c ∉ cs) : Py.strip cs s ≠ [] := by
  have key : ∀ s : Str, c ∈ s → c ∈ Py.lstrip cs s := by
    intro s
    induction s with
    | nil => simp
    | cons x xs ih =>
      intro h
      unfold Py.lstrip
      split
      · next hx =>
        rcases List.mem_cons.1 h with rfl | h
        · exact absurd hx hn
        · exact ih h
      · exact h
  intro h
  have : c ∈ Py.strip cs s := by
    unfold Py.strip Py.rstrip
    exact List.mem_reverse.2 (key _ (List.mem_reverse.2 (key s hc)))
  rw [h] at this
  simp at this

theorem normBlank_some {u : Str} {c : Char} (hc : c ∈ u) (hn : c ∉ blankParens) : normBlank (some u) = u := by
  unfold normBlank
  simp only
  rw [if_neg (strip_ne_nil hc hn)]

theorem normBlank_bare {u : Str} (h : BareName u) (r : Str) : normBlank (some (u ++ r)) = u ++ r := by
  obtain ⟨c, hc, hn⟩ := h.2
  exact normBlank_some (List.mem_append_left _ hc) hn

theorem splitOn_length_one {c : Char} {s : Str} (h : c ∉ s) : (Py.splitOn c s).length = 1 := by
  rw [Py.splitOn_of_not_mem h]; rfl

theorem normUnit_of {u : Str} {c : Char} (hc : c ∈ u) (hn : c ∉ blankParens)
    (hr : ¬ ((Py.splitOn '/' u).length = 2 ∧ (Py.splitOn '/' u).headD [] = (Py.splitOn '/' u).tail.headD [])) :
    normUnit (some u) = u := by
  unfold normUnit
  simp only [normBlank_some hc hn]
  rw [if_neg hr]

theorem normUnit_noSlash {u : Str} {c : Char} (hc : c ∈ u) (hn : c ∉ blankParens) (hs : '/' ∉ u) :
    normUnit (some u) = u := normUnit_of hc hn (by rw [splitOn_length_one hs]; simp)

theorem normUnit_bare {u : Str} (h : BareName u) : normUnit (some u) = u := by
  obtain ⟨c, hc, hn⟩ := h.2
  exact normUnit_noSlash hc hn h.noSlash

theorem wrapOps_simple {u : Str} (h : BasicName u) : wrapOps u = u := by
  unfold wrapOps
  rw [if_neg]
  rintro (hm | hm | hm)
  all_goals exact h.2.notOp _ hm (by decide)

@[simp] theorem Pow.is_int (n m : Int) : (Pow.int n).is m = decide (n = m) := by
  unfold Pow.is Pow.toRat
  rw [Bool.eq_iff_iff, beq_iff_eq, decide_eq_true_eq, Rat.intCast_inj]

end Unyts

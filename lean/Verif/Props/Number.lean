import Verif.Lemmas.Number
import Verif.Lemmas.Reduce
import Verif.Spec.Number

/- C49-C51: reading numbers. -/
namespace Unyts
open Spec

private theorem splitOn_append (c : Char) (a b : Str) :
    Py.splitOn c (a ++ c :: b) = Py.splitOn c a ++ Py.splitOn c b := by
  induction a with
  | nil => simp [Py.splitOn]
  | cons x xs ih =>
    rw [List.cons_append, Py.splitOn, ih]
    by_cases hx : x = c
    · rw [if_pos hx]; simp [Py.splitOn, hx]
    · rw [if_neg hx]
      cases hsp : Py.splitOn c xs with
      | nil => exact absurd hsp (Py.splitOn_ne_nil _ _)
      | cons p ps => simp [Py.splitOn, hx, hsp]

private theorem pad3_digits {m : Nat} : ∀ c ∈ pad3 m, isDecimal c = true := by
  intro c hc
  simp only [pad3, List.mem_cons, List.not_mem_nil, or_false] at hc
  rcases hc with rfl | rfl | rfl <;> exact (digit_char (by omega)).1

private theorem digitsVal_pad3 (a : Str) {m : Nat} (h : m < 1000) : digitsVal (a ++ pad3 m) = digitsVal a * 1000 + m := by
  have e : a ++ pad3 m = ((a ++ [Char.ofNat ('0'.toNat + m / 100 % 10)]) ++ [Char.ofNat ('0'.toNat + m / 10 % 10)]) ++
      [Char.ofNat ('0'.toNat + m % 10)] := by simp [pad3]
  rw [e, digitsVal_append, digitsVal_append, digitsVal_append, (digit_char (by omega)).2, (digit_char (by omega)).2,
    (digit_char (by omega)).2]
  omega

private theorem pad3_no {t : Char} (ht : isDecimal t = false) (m : Nat) : t ∉ pad3 m := by
  intro h
  have := pad3_digits t h
  rw [this] at ht; cases ht

private theorem natStr_no {t : Char} (ht : isDecimal t = false) (m : Nat) : t ∉ natStr m := by
  intro h
  have := natStr_digits m t h
  rw [this] at ht; cases ht

/-- the digits without separators -/
theorem group_spec (t : Char) (ht : isDecimal t = false) (n : Nat) :
    (∀ c ∈ groupStr t n, isDecimal c = true ∨ c = t) ∧
    (∀ c ∈ Py.replaceC t [] (groupStr t n), isDecimal c = true) ∧
    Py.replaceC t [] (groupStr t n) ≠ [] ∧
    digitsVal (Py.replaceC t [] (groupStr t n)) = n ∧
    (∀ p ∈ (Py.splitOn t (groupStr t n)).tail, p.length = 3) ∧
    (∃ c r, groupStr t n = c :: r ∧ isDecimal c = true) ∧
    (∃ c r, groupStr t n = r ++ [c] ∧ isDecimal c = true) ∧
    (t ∈ groupStr t n ↔ 1000 ≤ n) := by
  induction n using Nat.strongRecOn with
  | _ n ih =>
    rw [groupStr]
    split
    · next h =>
      have hno := natStr_no ht n
      have hd := natStr_digits n
      have hne := natStr_ne_nil n
      rw [replaceC_none hno, Py.splitOn_of_not_mem hno]
      refine ⟨fun c hc => Or.inl (hd c hc), hd, hne, digitsVal_natStr n, by simp, ?_, ?_, ?_⟩
      · obtain ⟨c, r, hcr⟩ := List.exists_cons_of_ne_nil hne
        exact ⟨c, r, hcr, hd c (by simp [hcr])⟩
      · exact ⟨(natStr n).getLast hne, (natStr n).dropLast, (List.dropLast_concat_getLast hne).symm,
          hd _ (List.getLast_mem hne)⟩
      · exact ⟨fun hm => absurd hm hno, fun hn => by omega⟩
    · next h =>
      obtain ⟨h1, h2, h3, h4, h5, ⟨c, r, h6, h6'⟩, h7, h8⟩ := ih (n / 1000) (by omega)
      have hno := pad3_no ht (n % 1000)
      have e : Py.replaceC t [] (groupStr t (n / 1000) ++ t :: pad3 (n % 1000)) =
          Py.replaceC t [] (groupStr t (n / 1000)) ++ pad3 (n % 1000) := by
        rw [replaceC_append, replaceC_cons_self, replaceC_none hno, List.nil_append]
      rw [e]
      refine ⟨?_, ?_, ?_, ?_, ?_, ?_, ?_, ?_⟩
      · intro c hc
        rcases List.mem_append.1 hc with hc | hc
        · exact h1 c hc
        · rcases List.mem_cons.1 hc with hc | hc
          · exact Or.inr hc
          · exact Or.inl (pad3_digits c hc)
      · intro c hc
        rcases List.mem_append.1 hc with hc | hc
        · exact h2 c hc
        · exact pad3_digits c hc
      · simp [h3]
      · rw [digitsVal_pad3 _ (by omega), h4]; omega
      · intro p hp
        rw [splitOn_append, Py.splitOn_of_not_mem hno] at hp
        rw [List.tail_append_of_ne_nil (Py.splitOn_ne_nil _ _)] at hp
        rcases List.mem_append.1 hp with hp | hp
        · exact h5 p hp
        · simp only [List.mem_singleton] at hp; subst hp; rfl
      · exact ⟨c, r ++ t :: pad3 (n % 1000), by rw [h6]; rfl, h6'⟩
      · exact ⟨_, groupStr t (n / 1000) ++ t :: [Char.ofNat ('0'.toNat + n % 1000 / 100 % 10),
          Char.ofNat ('0'.toNat + n % 1000 / 10 % 10)], by simp [pad3], (digit_char (d := n % 1000 % 10) (by omega)).1⟩
      · constructor
        · intro _; omega
        · intro _; simp

/-- what the automatic or given separator has to be -/
private def GoodSep (t : Char) : Prop :=
  isDecimal t = false ∧ Py.lowerC t = t ∧ Py.upperC t ≠ 'E' ∧ t ∉ ['-', '(', ')', 'j', 'e', '.']

private theorem toNumber_gen (t : Char) (ht : GoodSep t) (th : Option Char)
    (hth : th = some t ∨ (th = none ∧ t ∈ autoThousands)) (neg : Bool) (n : Nat) (G : Str)
    (g1 : ∀ c ∈ G, isDecimal c = true ∨ c = t) (g2 : ∀ c ∈ Py.replaceC t [] G, isDecimal c = true)
    (g3 : Py.replaceC t [] G ≠ []) (g4 : digitsVal (Py.replaceC t [] G) = n)
    (g5 : ∀ p ∈ (Py.splitOn t G).tail, p.length = 3) {c0 : Char} {r0 : Str} (g6 : G = c0 :: r0)
    (g6' : isDecimal c0 = true) {c1 : Char} {r1 : Str} (g7 : G = r1 ++ [c1]) (g7' : isDecimal c1 = true) :
    toNumber (signed neg G) none th = .ok (.int (if neg then -(n : Int) else n)) := by
  obtain ⟨hdec, hlow, -, hbad⟩ := ht
  simp only [List.mem_cons, List.not_mem_nil, or_false, not_or] at hbad
  obtain ⟨b1, b2, b3, b4, b5, b6⟩ := hbad
  have chars : ∀ c ∈ signed neg G, isDecimal c = true ∨ c = '-' ∨ c = t := by
    intro c hc
    cases neg
    · rcases g1 c hc with h | h <;> simp [h]
    · rcases List.mem_cons.1 hc with h | h
      · simp [h]
      · rcases g1 c h with h | h <;> simp [h]
  have no : ∀ d : Char, isDecimal d = false → d ≠ '-' → d ≠ t → d ∉ signed neg G := by
    intro d h1 h2 h3 hm
    rcases chars d hm with h | h | h
    · rw [h] at h1; cases h1
    · exact h2 h
    · exact h3 h
  have hstrip : Py.stripWs (signed neg G) = signed neg G := by
    apply strip_ends
    · intro c hc hw
      obtain ⟨w1, w2⟩ := wsChars_notDecimal c hw
      cases neg
      · rw [signed, if_neg (by simp), g6] at hc
        cases hc; rw [g6'] at w1; cases w1
      · rw [signed, if_pos rfl] at hc
        cases hc; exact w2 rfl
    · intro c hc hw
      obtain ⟨w1, w2⟩ := wsChars_notDecimal c hw
      have : (signed neg G).getLast? = some c1 := by
        cases neg
        · rw [signed, if_neg (by simp), g7]; simp
        · rw [signed, if_pos rfl, g7]; simp [List.getLast?_cons]
      rw [this] at hc
      cases hc; rw [g7'] at w1; cases w1
  have hlower : Py.lower (signed neg G) = signed neg G := by
    apply map_id_of
    intro c hc
    rcases chars c hc with h | h | h
    · exact lowerC_decimal (Or.inl h)
    · exact lowerC_decimal (Or.inr h)
    · rw [h]; exact hlow
  have hp1 := no '(' (by decide) (by decide) (Ne.symm b2)
  have hp2 := no ')' (by decide) (by decide) (Ne.symm b3)
  have hj := no 'j' (by decide) (by decide) (Ne.symm b4)
  have he := no 'e' (by decide) (by decide) (Ne.symm b5)
  have hdot := no '.' (by decide) (by decide) (Ne.symm b6)
  have hparen : parenNegative (signed neg G) = .ok (signed neg G) := by
    unfold parenNegative; rw [if_neg hp1, if_neg hp2]
  -- the string without the separator
  have hrep : Py.replaceC t [] (signed neg G) = signed neg (Py.replaceC t [] G) := by
    cases neg
    · rfl
    · exact replaceC_cons_ne (Ne.symm b1) _ _
  have nodec : ∀ d ∈ autoDecimals, d ∉ signed neg (Py.replaceC t [] G) := by
    intro d hd
    apply not_mem_signed g2
    · revert d; decide
    · revert d; decide
  have hfind : autoDecimals.find? (fun d => decide (d ∈ signed neg (Py.replaceC t [] G))) = none := by
    rw [List.find?_eq_none]
    intro d hd
    simpa using nodec d hd
  have hcheck : ∀ ts : Option Char, (ts = some t ∨ ts = none) → validateFmt '.' ts (signed neg G) = .ok true := by
    intro ts hts
    unfold validateFmt
    rw [if_neg hj]
    unfold checkFmt
    rw [Py.splitOn_of_not_mem hdot]
    have htail : ∀ p ∈ (Py.splitOn t (signed neg G)).tail, p.length = 3 := by
      cases neg
      · exact g5
      · intro p hp
        rw [signed, if_pos rfl, Py.splitOn, if_neg (Ne.symm b1)] at hp
        cases hsp : Py.splitOn t G with
        | nil => exact absurd hsp (Py.splitOn_ne_nil _ _)
        | cons q qs =>
          rw [hsp] at hp
          exact g5 p (by rw [hsp]; exact hp)
    rcases hts with rfl | rfl
    · have hany : ((Py.splitOn t (signed neg G)).tail).any (fun part => decide (part.length ≠ 3)) = false := by
        rw [List.any_eq_false]
        intro p hp
        simp [htail p hp]
      simp only [List.length_singleton, List.headD_cons, hany, if_neg he]
      rfl
    · simp only [List.length_singleton, if_neg he]
      rfl
  have hcast : caster (signed neg (Py.replaceC t [] G)) = .ok (.int (if neg then -(n : Int) else n)) := by
    unfold caster
    rw [pyInt_signed g2 g3, g4]
  have hupper : ¬ ('E' ∈ Py.upper (signed neg (Py.replaceC t [] G)) ∧ '.' ∉ signed neg (Py.replaceC t [] G)) := by
    rintro ⟨h, _⟩
    have : Py.upper (signed neg (Py.replaceC t [] G)) = signed neg (Py.replaceC t [] G) :=
      map_id_of (fun c hc => upperC_decimal (signed_chars g2 c hc))
    rw [this] at h
    exact not_mem_signed g2 (by decide) (by decide) h
  have hclean : cleaner none th (signed neg G) = .ok (some (signed neg (Py.replaceC t [] G))) := by
    unfold cleaner
    simp only [hstrip, hlower, hparen]
    show (if _ then _ else _) = _
    rw [if_neg (by rintro ⟨_, _, _, h⟩; exact hdot h)]
    rcases hth with rfl | ⟨rfl, hauto⟩
    · simp only [hrep, hfind]
      show (validateFmt '.' (some t) (signed neg G)).map _ = _
      rw [hcheck _ (Or.inl rfl)]
      rfl
    · by_cases hn : t ∈ G
      · have hin : t ∈ signed neg G := by
          have := hn
          cases neg
          · exact this
          · exact List.mem_cons_of_mem _ this
        have hft : autoThousands.find? (fun d => decide (d ∈ signed neg G)) = some t := by
          have honly : ∀ d ∈ autoThousands, d ∈ signed neg G → d = t := by
            intro d hd hm
            rcases chars d hm with h | h | h
            · have hx : ∀ d ∈ autoThousands, isDecimal d = false := by decide
              rw [hx d hd] at h; cases h
            · exfalso; subst h; revert hd; decide
            · exact h
          cases hf : autoThousands.find? (fun d => decide (d ∈ signed neg G)) with
          | none =>
            rw [List.find?_eq_none] at hf
            exact absurd hin (by simpa using hf t hauto)
          | some d =>
            have h1 := List.find?_some hf
            have h2 := List.mem_of_find?_eq_some hf
            rw [honly d h2 (by simpa using h1)]
        simp only [hft, hrep, hfind]
        show (validateFmt '.' (some t) (signed neg G)).map _ = _
        rw [hcheck _ (Or.inl rfl)]
        rfl
      · have hnot : t ∉ G := hn
        have hsame : Py.replaceC t [] G = G := replaceC_none hnot
        have hft : autoThousands.find? (fun d => decide (d ∈ signed neg G)) = none := by
          rw [List.find?_eq_none]
          intro d hd
          have : d ∉ signed neg G := by
            rw [← hsame]
            apply not_mem_signed g2
            · revert d; decide
            · revert d; decide
          simpa using this
        rw [hsame] at hfind
        simp only [hft, hfind]
        show (validateFmt '.' none (signed neg G)).map _ = _
        rw [hcheck _ (Or.inr rfl), hsame]
        rfl
  unfold toNumber
  rw [hclean]
  show (caster _).map _ = _
  rw [hcast]
  show Except.ok (if _ then _ else _) = _
  rw [if_neg hupper]

private theorem toNumber_group (t : Char) (ht : GoodSep t) (th : Option Char)
    (hth : th = some t ∨ (th = none ∧ t ∈ autoThousands)) (neg : Bool) (n : Nat) :
    toNumber (signed neg (groupStr t n)) none th = .ok (.int (if neg then -(n : Int) else n)) := by
  obtain ⟨g1, g2, g3, g4, g5, ⟨c0, r0, g6, g6'⟩, ⟨c1, r1, g7, g7'⟩, g8⟩ := group_spec t ht.1 n
  exact toNumber_gen t ht th hth neg n _ g1 g2 g3 g4 g5 g6 g6' g7 g7'

private theorem groupInt_signed (t : Char) (n : Int) : groupInt t n = signed (decide (n < 0)) (groupStr t n.natAbs) := by
  unfold groupInt signed
  by_cases h : n < 0 <;> simp [h]

private theorem neg_natAbs (n : Int) : (if (decide (n < 0)) = true then -(n.natAbs : Int) else n.natAbs) = n := by
  by_cases h : n < 0 <;> simp [h] <;> omega

/-- C50: an integer written with one of the separators `'`, backtick, `´` or a blank between groups of three
digits is read as that integer. -/
theorem C50_thousands_separator (n : Int) (t : Char) (ht : t ∈ ['\'', '`', '´', ' ']) :
    toNumber (groupInt t n) = .ok (.int n) := by
  rw [groupInt_signed, toNumber_group t (by revert t; unfold GoodSep; decide) none (Or.inr ⟨rfl, ht⟩), neg_natAbs]

/-- C50, with the separator given: any separator that is not a digit, a sign, a parenthesis, the period or
one of the letters of exponents and imaginary parts. -/
theorem C50_given_separator (n : Int) (t : Char) (h1 : isDecimal t = false) (h2 : Py.lowerC t = t)
    (h3 : Py.upperC t ≠ 'E') (h4 : t ∉ ['-', '(', ')', 'j', 'e', '.']) :
    toNumber (groupInt t n) none (some t) = .ok (.int n) := by
  rw [groupInt_signed, toNumber_group t ⟨h1, h2, h3, h4⟩ (some t) (Or.inl rfl), neg_natAbs]

/-- The period has to be excluded: two groups are rejected although the caller named the separator. -/
theorem C50_given_period_fails :
    groupInt '.' 1234567 = s!!"1.234.567" ∧
    toNumber (groupInt '.' 1234567) none (some '.') = .error .valueError := by decide +kernel

/-- The comma is not among the automatic separators: `1,234` is read as 1.234. -/
theorem C50_comma_is_decimal :
    groupInt ',' 1234 = s!!"1,234" ∧ toNumber s!!"1,234" = .ok (.float (.fin (617 / 500))) := by decide +kernel

example : groupInt '\'' (-1234567) = s!!"-1'234'567" ∧ toNumber s!!"-1'234'567" = .ok (.int (-1234567)) := by
  decide +kernel
example : isDecimal ',' = false ∧ Py.lowerC ',' = ',' ∧ Py.upperC ',' ≠ 'E' ∧ ',' ∉ ['-', '(', ')', 'j', 'e', '.'] := by
  decide

/-- C49: reading back what `str` writes. -/
theorem C49_to_number_str (n : Int) : toNumber (intStr n) = .ok (.int n) := by
  rw [intStr_signed]
  have hno : '\'' ∉ natStr n.natAbs := natStr_no (by decide) _
  have hd := natStr_digits n.natAbs
  have hne := natStr_ne_nil n.natAbs
  obtain ⟨c, r, hcr⟩ := List.exists_cons_of_ne_nil hne
  have hrep : Py.replaceC '\'' [] (natStr n.natAbs) = natStr n.natAbs := replaceC_none hno
  have := toNumber_gen '\'' (by unfold GoodSep; decide) none (Or.inr ⟨rfl, by decide⟩) (decide (n < 0)) n.natAbs
    (natStr n.natAbs) (fun c hc => Or.inl (hd c hc)) (by rw [hrep]; exact hd) (by rw [hrep]; exact hne)
    (by rw [hrep]; exact digitsVal_natStr _) (by rw [Py.splitOn_of_not_mem hno]; simp) hcr (hd c (by simp [hcr]))
    (List.dropLast_concat_getLast hne).symm (hd _ (List.getLast_mem hne))
  rw [this, neg_natAbs]

example : intStr (-1203) = s!!"-1203" ∧ toNumber s!!"-1203" = .ok (.int (-1203)) := by decide +kernel

/-- C51: a natural number between parentheses is read as its opposite. -/
theorem C51_parentheses_negative (n : Nat) : toNumber ('(' :: natStr n ++ [')']) = .ok (.int (-(n : Int))) := by
  have hd := natStr_digits n
  have hne := natStr_ne_nil n
  have chars : ∀ c ∈ '(' :: natStr n ++ [')'], isDecimal c = true ∨ c = '(' ∨ c = ')' := by
    intro c hc
    simp only [List.cons_append, List.mem_cons, List.mem_append, List.not_mem_nil, or_false] at hc
    rcases hc with h | h | h
    · simp [h]
    · exact Or.inl (hd c h)
    · simp [h]
  have no : ∀ d : Char, isDecimal d = false → d ≠ '(' → d ≠ ')' → d ∉ '(' :: natStr n ++ [')'] := by
    intro d h1 h2 h3 hm
    rcases chars d hm with h | h | h
    · rw [h] at h1; cases h1
    · exact h2 h
    · exact h3 h
  have hstrip : Py.stripWs ('(' :: natStr n ++ [')']) = '(' :: natStr n ++ [')'] := by
    apply Py.strip_of_none
    intro c hc hw
    have hx : ∀ c ∈ Py.wsChars, isDecimal c = false ∧ c ≠ '(' ∧ c ≠ ')' := by decide
    obtain ⟨h1, h2, h3⟩ := hx c hw
    exact no c h1 h2 h3 hc
  have hlower : Py.lower ('(' :: natStr n ++ [')']) = '(' :: natStr n ++ [')'] := by
    apply map_id_of
    intro c hc
    rcases chars c hc with h | rfl | rfl
    · exact lowerC_decimal (Or.inl h)
    · decide
    · decide
  have hj := no 'j' (by decide) (by decide) (by decide)
  have he := no 'e' (by decide) (by decide) (by decide)
  have hdot := no '.' (by decide) (by decide) (by decide)
  have hmin := no '-' (by decide) (by decide) (by decide)
  have h1 : '(' ∉ natStr n := natStr_no (by decide) n
  have h2 : ')' ∉ natStr n := natStr_no (by decide) n
  have hc1 : ('(' :: natStr n ++ [')']).count '(' = 1 := by
    simp [List.count_eq_zero_of_not_mem h1]
  have hc2 : ('(' :: natStr n ++ [')']).count ')' = 1 := by
    simp [List.count_eq_zero_of_not_mem h2]
  have hrep : Py.replaceC ')' [] (Py.replaceC '(' [] ('(' :: natStr n ++ [')'])) = natStr n := by
    rw [replaceC_append, replaceC_cons_self, replaceC_none h1, List.nil_append, replaceC_append, replaceC_none h2]
    simp [Py.replaceC]
  have hparen : parenNegative ('(' :: natStr n ++ [')']) = .ok (signed true (natStr n)) := by
    unfold parenNegative
    rw [if_pos (by simp), if_neg (by simp), if_neg hj, if_pos ⟨hc1, hc2, by simp, by simp [List.getLast?_cons]⟩, if_pos hmin,
      hrep]
    rfl
  have hsd : ∀ d : Char, isDecimal d = false → d ≠ '-' → d ∉ signed true (natStr n) :=
    fun d h1 h2 => not_mem_signed hd h1 h2
  have hft : autoThousands.find? (fun d => decide (d ∈ '(' :: natStr n ++ [')'])) = none := by
    rw [List.find?_eq_none]
    intro d hdm
    have hx : ∀ c ∈ autoThousands, isDecimal c = false ∧ c ≠ '(' ∧ c ≠ ')' := by decide
    obtain ⟨a, b, c⟩ := hx d hdm
    simpa using no d a b c
  have hfd : autoDecimals.find? (fun d => decide (d ∈ signed true (natStr n))) = none := by
    rw [List.find?_eq_none]
    intro d hdm
    have hx : ∀ c ∈ autoDecimals, isDecimal c = false ∧ c ≠ '-' := by decide
    obtain ⟨a, b⟩ := hx d hdm
    simpa using hsd d a b
  have hval : validateFmt '.' none ('(' :: natStr n ++ [')']) = .ok true := by
    unfold validateFmt
    rw [if_neg hj]
    unfold checkFmt
    rw [Py.splitOn_of_not_mem hdot]
    simp only [List.length_singleton, if_neg he]
    rfl
  have hclean : cleaner none none ('(' :: natStr n ++ [')']) = .ok (some (signed true (natStr n))) := by
    unfold cleaner
    simp only [hstrip, hlower, hparen]
    show (if _ then _ else _) = _
    rw [if_neg (by rintro ⟨_, _, _, h⟩; exact hsd '.' (by decide) (by decide) h)]
    simp only [hft, hfd]
    show (validateFmt '.' none _).map _ = _
    rw [hval]
    rfl
  unfold toNumber
  rw [hclean]
  show (caster _).map _ = _
  have hcast : caster (signed true (natStr n)) = .ok (.int (-(n : Int))) := by
    unfold caster
    rw [pyInt_signed hd hne, digitsVal_natStr]
    rfl
  rw [hcast]
  show Except.ok (if _ then _ else _) = _
  rw [if_neg]
  rintro ⟨h, _⟩
  rw [show Py.upper (signed true (natStr n)) = signed true (natStr n) from
    map_id_of (fun c hc => upperC_decimal (signed_chars hd c hc))] at h
  exact hsd 'E' (by decide) (by decide) h

/-- C51 does not extend to grouped numbers: the closing parenthesis is counted as part of the last group. -/
theorem C51_grouped_parentheses_fail : toNumber s!!"(1'234)" = .error .valueError := by decide +kernel

/-- Numbers with a negative exponent and purely imaginary numbers cannot be read. -/
theorem C49_negative_exponent_fails :
    toNumber s!!"1e-5" = .error .valueError ∧ toNumber s!!"5j" = .error .typeError := by decide +kernel

example : '(' :: natStr 15 ++ [')'] = s!!"(15)" ∧ toNumber s!!"(15)" = .ok (.int (-15)) := by decide +kernel

end Unyts

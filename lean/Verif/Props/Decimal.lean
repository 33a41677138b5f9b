import Verif.Lemmas.Number
import Verif.Lemmas.Reduce
import Verif.Spec.Decimal
import Mathlib.Data.Rat.Lemmas
import Mathlib.Tactic.Ring
import Mathlib.Tactic.FieldSimp
import Mathlib.Tactic.NormNum

/- C77: numbers with decimals and exponents. -/
namespace Unyts
open Spec

private theorem takeWhile_digits {ds r : Str} (h : ∀ c ∈ ds, isDecimal c = true) (hr : ∀ c, r.head? = some c → isDecimal c = false) :
    (ds ++ r).takeWhile isDecimal = ds ∧ (ds ++ r).dropWhile isDecimal = r := by
  induction ds with
  | nil =>
    cases r with
    | nil => exact ⟨rfl, rfl⟩
    | cons c r => simp [hr c rfl]
  | cons c ds ih =>
    have := ih (fun x hx => h x (by simp [hx]))
    simp [h c (by simp), this]

private theorem takeSign_minus {neg : Bool} {s : Str} {c : Char} {r : Str} (hs : s = c :: r) (hc : isDecimal c = true) :
    takeSign (minus neg s) = (neg, s) := by
  subst hs
  have h1 : c ≠ '-' := notDecimal_ne hc (by decide)
  have h2 : c ≠ '+' := notDecimal_ne hc (by decide)
  cases neg
  · show takeSign (c :: r) = _
    unfold takeSign
    split
    · next heq => cases heq; exact absurd rfl h1
    · next heq => cases heq; exact absurd rfl h2
    · rfl
  · rfl

private theorem dropWord_digit {w : Str} {x c : Char} {r : Str} (hw : w.head? = some x) (hx : isDecimal x = false)
    (hc : isDecimal c = true) : dropWord w (c :: r) = none := by
  cases w with
  | nil => cases hw
  | cons y w =>
    cases hw
    unfold dropWord
    rw [if_neg]
    intro h
    have : x = Py.lowerC c := by
      simp only [Py.lower, List.map_cons, List.isPrefixOf, Bool.and_eq_true, beq_iff_eq] at h
      exact h.1
    rw [lowerC_decimal (Or.inl hc)] at this
    rw [this, hc] at hx
    cases hx

/-- decimals, if any -/
def fracPart : Option Str → Str
  | none => []
  | some fp => '.' :: fp

/-- the exponent, if any -/
def expPart : Option Str → Str
  | none => []
  | some es => 'e' :: es

def expVal : Option Str → Nat
  | none => 0
  | some es => digitsVal es

private theorem floatPrefix_decimal {neg : Bool} {ip : Str} {fp es : Option Str} (hi : ∀ c ∈ ip, isDecimal c = true)
    (hne : ip ≠ []) (hf : ∀ f, fp = some f → ∀ c ∈ f, isDecimal c = true)
    (he : ∀ e, es = some e → e ≠ [] ∧ ∀ c ∈ e, isDecimal c = true) :
    floatPrefix (minus neg (ip ++ (fracPart fp ++ expPart es))) =
      some (.fin (minusVal neg ((digitsVal (ip ++ fp.getD []) : Rat) * pow10 (expVal es - (fp.getD []).length))), []) := by
  obtain ⟨c, r, hcr⟩ := List.exists_cons_of_ne_nil hne
  have hc := hi c (by simp [hcr])
  have hexp : takeExp (expPart es) = ((expVal es : Int), []) := by
    cases es with
    | none => rfl
    | some e =>
      obtain ⟨he1, he2⟩ := he e rfl
      unfold takeExp expPart
      simp only [true_or, if_true, takeSign_digits he2]
      have := takeWhile_digits (r := []) he2 (by simp)
      rw [List.append_nil] at this
      rw [this.1, this.2, if_neg he1]
      rfl
  have hex0 : ∀ c, (expPart es).head? = some c → isDecimal c = false := by
    intro c hc
    cases es with
    | none => cases hc
    | some e => cases hc; decide
  unfold floatPrefix
  rw [takeSign_minus (c := c) (r := r ++ (fracPart fp ++ expPart es)) (by rw [hcr]; rfl) hc]
  have hsplit : ip ++ (fracPart fp ++ expPart es) = c :: (r ++ (fracPart fp ++ expPart es)) := by rw [hcr]; rfl
  simp only
  rw [hsplit, dropWord_digit rfl (by decide) hc, dropWord_digit rfl (by decide) hc, dropWord_digit rfl (by decide) hc, ← hsplit]
  cases fp with
  | none =>
    have h0 : fracPart none ++ expPart es = expPart es := rfl
    rw [h0]
    obtain ⟨t1, t2⟩ := takeWhile_digits hi hex0
    simp only [t1, t2]
    cases es with
    | none =>
      simp only [expPart, hne, false_and, if_false] at hexp ⊢
      rw [hexp]
      rfl
    | some e =>
      simp only [expPart, hne, false_and, if_false] at hexp ⊢
      show some (PyFloat.fin (if neg = true then -(_ * pow10 ((takeExp ('e' :: e)).1 - _)) else _ * pow10 ((takeExp ('e' :: e)).1 - _)),
        (takeExp ('e' :: e)).2) = _
      rw [hexp]
      rfl
  | some f =>
    have hf' := hf f rfl
    have h0 : fracPart (some f) ++ expPart es = '.' :: (f ++ expPart es) := rfl
    rw [h0]
    obtain ⟨t1, t2⟩ := takeWhile_digits (r := '.' :: (f ++ expPart es)) hi (by intro c h; cases h; decide)
    obtain ⟨t3, t4⟩ := takeWhile_digits (r := expPart es) hf' hex0
    simp only [t1, t2, t3, t4, hne, false_and, if_false, hexp]
    rfl

private theorem chars_of {neg : Bool} {ip : Str} {fp es : Option Str} (hi : ∀ c ∈ ip, isDecimal c = true)
    (hf : ∀ f, fp = some f → ∀ c ∈ f, isDecimal c = true) (he : ∀ e, es = some e → e ≠ [] ∧ ∀ c ∈ e, isDecimal c = true) :
    ∀ c ∈ minus neg (ip ++ (fracPart fp ++ expPart es)), isDecimal c = true ∨ c = '-' ∨ (c = '.' ∧ fp ≠ none) ∨ (c = 'e' ∧ es ≠ none) := by
  intro c hc
  have : c ∈ ip ++ (fracPart fp ++ expPart es) ∨ c = '-' := by
    cases neg
    · exact .inl hc
    · rcases List.mem_cons.1 hc with h | h
      · exact .inr h
      · exact .inl h
  rcases this with h | h
  · rcases List.mem_append.1 h with h | h
    · exact .inl (hi c h)
    · rcases List.mem_append.1 h with h | h
      · cases fp with
        | none => cases h
        | some f =>
          rcases List.mem_cons.1 h with h | h
          · exact .inr (.inr (.inl ⟨h, by simp⟩))
          · exact .inl (hf f rfl c h)
      · cases es with
        | none => cases h
        | some e =>
          rcases List.mem_cons.1 h with h | h
          · exact .inr (.inr (.inr ⟨h, by simp⟩))
          · exact .inl ((he e rfl).2 c h)
  · exact .inr (.inl h)

theorem caster_decimal {neg : Bool} {ip : Str} {fp es : Option Str} (hi : ∀ c ∈ ip, isDecimal c = true)
    (hne : ip ≠ []) (hf : ∀ f, fp = some f → ∀ c ∈ f, isDecimal c = true)
    (he : ∀ e, es = some e → e ≠ [] ∧ ∀ c ∈ e, isDecimal c = true) (hx : fp ≠ none ∨ es ≠ none) :
    caster (minus neg (ip ++ (fracPart fp ++ expPart es))) =
      .ok (.float (.fin (minusVal neg ((digitsVal (ip ++ fp.getD []) : Rat) * pow10 (expVal es - (fp.getD []).length))))) := by
  have ch := chars_of (neg := neg) hi hf he
  have hws : Py.stripWs (minus neg (ip ++ (fracPart fp ++ expPart es))) = minus neg (ip ++ (fracPart fp ++ expPart es)) := by
    apply Py.strip_of_none
    intro c hc hw
    have hx : ∀ c ∈ Py.wsChars, isDecimal c = false ∧ c ≠ '-' ∧ c ≠ '.' ∧ c ≠ 'e' := by decide
    obtain ⟨h1, h2, h3, h4⟩ := hx c hw
    rcases ch c hc with h | h | h | h
    · rw [h] at h1; cases h1
    · exact h2 h
    · exact h3 h.1
    · exact h4 h.1
  have hund : '_' ∉ minus neg (ip ++ (fracPart fp ++ expPart es)) := by
    intro h
    rcases ch _ h with h | h | h | h
    · revert h; decide
    · revert h; decide
    · revert h; simp
    · revert h; simp
  obtain ⟨c, r, hcr⟩ := List.exists_cons_of_ne_nil hne
  have hint : pyInt (minus neg (ip ++ (fracPart fp ++ expPart es))) = none := by
    unfold pyInt
    rw [hws, unUnderscore_id hund]
    simp only
    rw [takeSign_minus (c := c) (r := r ++ (fracPart fp ++ expPart es)) (by rw [hcr]; rfl) (hi c (by simp [hcr]))]
    simp only
    rw [if_neg]
    rintro ⟨-, h⟩
    rw [List.all_eq_true] at h
    rcases hx with hx | hx
    · cases fp with
      | none => exact hx rfl
      | some f => exact absurd (h '.' (by simp [fracPart])) (by decide)
    · cases es with
      | none => exact hx rfl
      | some e => exact absurd (h 'e' (by simp [expPart])) (by decide)
  unfold caster
  rw [hint]
  have : pyFloat (minus neg (ip ++ (fracPart fp ++ expPart es))) = some (.fin (minusVal neg ((digitsVal (ip ++ fp.getD []) : Rat) * pow10 (expVal es - (fp.getD []).length)))) := by
    unfold pyFloat
    rw [hws, unUnderscore_id hund]
    simp only
    rw [floatPrefix_decimal hi hne hf he]
  rw [this]

private theorem digitsVal_frac (ip fp : Str) : ((digitsVal (ip ++ fp) : Nat) : Rat) = (digitsVal ip + fraction fp) * 10 ^ fp.length := by
  induction fp generalizing ip with
  | nil => simp [fraction]
  | cons c fp ih =>
    have := ih (ip ++ [c])
    rw [List.append_assoc] at this
    rw [show ip ++ c :: fp = ip ++ ([c] ++ fp) from rfl, this, digitsVal_append, fraction, List.length_cons]
    unfold digitVal
    push_cast
    ring

theorem value_frac (ip fp : Str) (m : Nat) :
    ((digitsVal (ip ++ fp) : Nat) : Rat) * pow10 (m - fp.length) = (digitsVal ip + fraction fp) * 10 ^ m := by
  rw [digitsVal_frac]
  unfold pow10
  have h10 : (10 : Rat) ≠ 0 := by norm_num
  split
  · next h =>
    have e : ((m : Int) - fp.length).natAbs = fp.length - m := by omega
    have e2 : fp.length = (fp.length - m) + m := by omega
    rw [e]
    rw [show (10 : Rat) ^ fp.length = 10 ^ (fp.length - m) * 10 ^ m by rw [← pow_add, ← e2]]
    field_simp
  · next h =>
    have e : ((m : Int) - fp.length).natAbs = m - fp.length := by omega
    have e2 : m = (m - fp.length) + fp.length := by omega
    rw [e]
    rw [show (10 : Rat) ^ m = 10 ^ (m - fp.length) * 10 ^ fp.length by rw [← pow_add, ← e2]]
    ring

/-- what `cleaner` is given: decimals with the sign `sep`, and the letter `x` before the exponent -/
private def rawFrac (sep : Char) : Option Str → Str
  | none => []
  | some fp => sep :: fp

private def rawExp (x : Char) : Option Str → Str
  | none => []
  | some es => x :: es

private theorem lower_minus {neg : Bool} {ip : Str} {fp es : Option Str} {sep x : Char}
    (hi : ∀ c ∈ ip, isDecimal c = true) (hf : ∀ f, fp = some f → ∀ c ∈ f, isDecimal c = true)
    (he : ∀ e, es = some e → e ≠ [] ∧ ∀ c ∈ e, isDecimal c = true) (hs : sep ∈ ['.', ',', 'p']) (hx : x ∈ ['e', 'E']) :
    Py.lower (minus neg (ip ++ (rawFrac sep fp ++ rawExp x es))) = minus neg (ip ++ (rawFrac sep fp ++ expPart es)) := by
  have hd : ∀ {s : Str}, (∀ c ∈ s, isDecimal c = true) → Py.lower s = s := fun h =>
    map_id_of fun c hc => lowerC_decimal (.inl (h c hc))
  have hmap : ∀ a b : Str, Py.lower (a ++ b) = Py.lower a ++ Py.lower b := fun a b => List.map_append
  have h1 : Py.lower (rawFrac sep fp) = rawFrac sep fp := by
    cases fp with
    | none => rfl
    | some f =>
      show Py.lowerC sep :: Py.lower f = _
      rw [hd (hf f rfl)]
      have : ∀ c ∈ ['.', ',', 'p'], Py.lowerC c = c := by decide
      rw [this sep hs]; rfl
  have h2 : Py.lower (rawExp x es) = expPart es := by
    cases es with
    | none => rfl
    | some e =>
      show Py.lowerC x :: Py.lower e = _
      rw [hd (he e rfl).2]
      have : ∀ c ∈ ['e', 'E'], Py.lowerC c = 'e' := by decide
      rw [this x hx]; rfl
  have : Py.lower (ip ++ (rawFrac sep fp ++ rawExp x es)) = ip ++ (rawFrac sep fp ++ expPart es) := by
    rw [hmap, hmap, hd hi, h1, h2]
  cases neg
  · exact this
  · show Py.lowerC '-' :: Py.lower _ = _
    rw [this]; rfl

private theorem raw_chars {neg : Bool} {ip : Str} {fp es : Option Str} {sep x : Char} (hi : ∀ c ∈ ip, isDecimal c = true)
    (hf : ∀ f, fp = some f → ∀ c ∈ f, isDecimal c = true) (he : ∀ e, es = some e → e ≠ [] ∧ ∀ c ∈ e, isDecimal c = true) :
    ∀ c ∈ minus neg (ip ++ (rawFrac sep fp ++ rawExp x es)),
      isDecimal c = true ∨ c = '-' ∨ (c = sep ∧ fp ≠ none) ∨ (c = x ∧ es ≠ none) := by
  intro c hc
  have : c ∈ ip ++ (rawFrac sep fp ++ rawExp x es) ∨ c = '-' := by
    cases neg
    · exact .inl hc
    · rcases List.mem_cons.1 hc with h | h
      · exact .inr h
      · exact .inl h
  rcases this with h | h
  · rcases List.mem_append.1 h with h | h
    · exact .inl (hi c h)
    · rcases List.mem_append.1 h with h | h
      · cases fp with
        | none => cases h
        | some f =>
          rcases List.mem_cons.1 h with h | h
          · exact .inr (.inr (.inl ⟨h, by simp⟩))
          · exact .inl (hf f rfl c h)
      · cases es with
        | none => cases h
        | some e =>
          rcases List.mem_cons.1 h with h | h
          · exact .inr (.inr (.inr ⟨h, by simp⟩))
          · exact .inl ((he e rfl).2 c h)
  · exact .inr (.inl h)

private theorem digit_facts {c : Char} (h : isDecimal c = true) (d : Char) (hd : isDecimal d = false) : c ≠ d := notDecimal_ne h hd

private theorem splitOn_minus {c : Char} {neg : Bool} {a b : Str} (hc : isDecimal c = false) (hm : c ≠ '-') (ha : c ∉ a)
    (hb : c ∉ b) : Py.splitOn c (minus neg (a ++ c :: b)) = [minus neg a, b] := by
  have app : ∀ (a : Str), c ∉ a → Py.splitOn c (a ++ c :: b) = [a, b] := by
    intro a ha
    induction a with
    | nil => rw [List.nil_append, Py.splitOn, if_pos rfl, Py.splitOn_of_not_mem hb]
    | cons y ys ih =>
      simp only [List.mem_cons, not_or] at ha
      rw [List.cons_append, Py.splitOn, if_neg (Ne.symm ha.1), ih ha.2]
  cases neg
  · exact app a ha
  · exact app ('-' :: a) (by simp [ha, hm])

private theorem cleaner_decimal {neg : Bool} {ip : Str} {fp es : Option Str} {sep x : Char}
    (hi : ∀ c ∈ ip, isDecimal c = true) (hf : ∀ f, fp = some f → ∀ c ∈ f, isDecimal c = true)
    (he : ∀ e, es = some e → e ≠ [] ∧ ∀ c ∈ e, isDecimal c = true) (hs : sep ∈ ['.', ',', 'p']) (hx : x ∈ ['e', 'E']) :
    cleaner none none (minus neg (ip ++ (rawFrac sep fp ++ rawExp x es))) =
      .ok (some (minus neg (ip ++ (fracPart fp ++ expPart es)))) := by
  have ch := raw_chars (neg := neg) (sep := sep) (x := x) hi hf he
  have hws : Py.stripWs (minus neg (ip ++ (rawFrac sep fp ++ rawExp x es))) =
      minus neg (ip ++ (rawFrac sep fp ++ rawExp x es)) := by
    apply Py.strip_of_none
    intro c hc hw
    have h0 : ∀ c ∈ Py.wsChars, isDecimal c = false ∧ c ≠ '-' ∧ c ∉ ['.', ',', 'p'] ∧ c ∉ ['e', 'E'] := by decide
    obtain ⟨h1, h2, h3, h4⟩ := h0 c hw
    rcases ch c hc with h | h | h | h
    · rw [h] at h1; cases h1
    · exact h2 h
    · exact h3 (h.1 ▸ hs)
    · exact h4 (h.1 ▸ hx)
  have hlow := lower_minus (neg := neg) hi hf he hs hx
  -- the cleaned string
  have ch2 := raw_chars (neg := neg) (sep := sep) (x := 'e') hi hf he
  have hr : rawExp 'e' es = expPart es := by cases es <;> rfl
  rw [hr] at ch2
  have no : ∀ d, isDecimal d = false → d ∉ ['-', '.', ',', 'p', 'e'] → d ∉ minus neg (ip ++ (rawFrac sep fp ++ expPart es)) := by
    intro d h1 h2 hd
    simp only [List.mem_cons, List.not_mem_nil, or_false, not_or] at h2 hs
    rcases ch2 d hd with h | h | h | h
    · rw [h] at h1; cases h1
    · exact h2.1 h
    · obtain ⟨rfl, -⟩ := h
      rcases hs with h | h | h
      · exact h2.2.1 h
      · exact h2.2.2.1 h
      · exact h2.2.2.2.1 h
    · exact h2.2.2.2.2 h.1
  have hp1 := no '(' (by decide) (by decide)
  have hp2 := no ')' (by decide) (by decide)
  have hj := no 'j' (by decide) (by decide)
  have hparen : parenNegative (minus neg (ip ++ (rawFrac sep fp ++ expPart es))) =
      .ok (minus neg (ip ++ (rawFrac sep fp ++ expPart es))) := by
    unfold parenNegative; rw [if_neg hp1, if_neg hp2]
  have hth : autoThousands.find? (fun d => decide (d ∈ minus neg (ip ++ (rawFrac sep fp ++ expPart es)))) = none := by
    rw [List.find?_eq_none]
    intro d hd
    have h0 : ∀ d ∈ autoThousands, isDecimal d = false ∧ d ∉ ['-', '.', ',', 'p', 'e'] := by decide
    simpa using no d (h0 d hd).1 (h0 d hd).2
  have honly : ∀ d ∈ autoDecimals, d ∈ minus neg (ip ++ (rawFrac sep fp ++ expPart es)) → d = sep ∧ fp ≠ none := by
    intro d hd hm
    have h0 : ∀ d ∈ autoDecimals, isDecimal d = false ∧ d ≠ '-' ∧ d ≠ 'e' := by decide
    obtain ⟨h1, h2, h3⟩ := h0 d hd
    rcases ch2 d hm with h | h | h | h
    · rw [h] at h1; cases h1
    · exact absurd h h2
    · exact h
    · exact absurd h.1 h3
  have hsep : isDecimal sep = false ∧ sep ≠ '-' ∧ sep ≠ 'e' ∧ sep ≠ 'j' ∧ sep ∈ autoDecimals := by
    have h0 : ∀ d ∈ ['.', ',', 'p'], isDecimal d = false ∧ d ≠ '-' ∧ d ≠ 'e' ∧ d ≠ 'j' ∧ d ∈ autoDecimals := by decide
    exact h0 sep hs
  have nodigit : ∀ {s : Str} {d : Char}, (∀ c ∈ s, isDecimal c = true) → isDecimal d = false → d ∉ s := by
    intro s d h1 h2 h3
    rw [h1 d h3] at h2; cases h2
  have noexp : ∀ d, isDecimal d = false → d ≠ 'e' → d ∉ expPart es := by
    intro d h1 h2 h3
    cases es with
    | none => cases h3
    | some e =>
      rcases List.mem_cons.1 h3 with h | h
      · exact h2 h
      · exact nodigit (he e rfl).2 h1 h
  -- the check
  have hcheck : ∀ ds : Char, ds = sep ∨ (ds = '.' ∧ fp = none) →
      validateFmt ds none (minus neg (ip ++ (rawFrac sep fp ++ expPart es))) = .ok true := by
    intro ds hds
    unfold validateFmt
    rw [if_neg hj]
    unfold checkFmt
    have hlen : ¬ (Py.splitOn ds (minus neg (ip ++ (rawFrac sep fp ++ expPart es)))).length > 2 := by
      cases fp with
      | none =>
        rw [Py.splitOn_of_not_mem]
        · simp
        · intro hm
          have hd : ds ∈ autoDecimals := by
            rcases hds with rfl | ⟨rfl, -⟩
            · exact hsep.2.2.2.2
            · decide
          exact (honly ds hd hm).2 rfl
      | some f =>
        have hds : ds = sep := by
          rcases hds with h | ⟨-, h⟩
          · exact h
          · cases h
        subst hds
        have : ip ++ (rawFrac ds (some f) ++ expPart es) = ip ++ ds :: (f ++ expPart es) := rfl
        rw [this, splitOn_minus hsep.1 hsep.2.1 (nodigit hi hsep.1)]
        · simp
        · rw [List.mem_append, not_or]
          exact ⟨nodigit (hf f rfl) hsep.1, noexp ds hsep.1 hsep.2.2.1⟩
    rw [if_neg hlen]
    simp only [Bool.false_eq_true, if_false]
    cases es with
    | none =>
      rw [if_neg]
      · rfl
      · intro hm
        rcases ch2 'e' hm with h | h | h | h
        · revert h; decide
        · revert h; decide
        · exact hsep.2.2.1 h.1.symm
        · exact h.2 rfl
    | some e =>
      obtain ⟨he1, he2⟩ := he e rfl
      have hmem : 'e' ∈ minus neg (ip ++ (rawFrac sep fp ++ expPart (some e))) := by
        cases neg <;> simp [minus, expPart]
      rw [if_pos hmem, if_neg hj]
      have hsp : Py.splitOn 'e' (minus neg (ip ++ (rawFrac sep fp ++ expPart (some e)))) =
          [minus neg (ip ++ rawFrac sep fp), e] := by
        have : ip ++ (rawFrac sep fp ++ expPart (some e)) = (ip ++ rawFrac sep fp) ++ 'e' :: e := by simp [expPart]
        rw [this, splitOn_minus (by decide) (by decide)]
        · rw [List.mem_append, not_or]
          refine ⟨nodigit hi (by decide), ?_⟩
          cases fp with
          | none => simp [rawFrac]
          | some f =>
            simp only [rawFrac, List.mem_cons, not_or]
            exact ⟨Ne.symm hsep.2.2.1, nodigit (hf f rfl) (by decide)⟩
        · exact nodigit he2 (by decide)
      rw [hsp]
      have hdig : strIsDigit e = true := by
        unfold strIsDigit
        simp only [Bool.and_eq_true, Bool.not_eq_true', List.isEmpty_eq_false_iff, List.all_eq_true]
        exact ⟨he1, fun c hc => by unfold isDigit; rw [he2 c hc]; rfl⟩
      simp [hdig, List.getLastD]
      rfl
  unfold cleaner
  simp only [hws, hlow, hparen]
  show (if _ then _ else _) = _
  rw [if_neg (by
    rintro ⟨_, _, h1, h2⟩
    have e1 := (honly ',' (by decide) h1).1
    have e2 := (honly '.' (by decide) h2).1
    rw [← e2] at e1
    exact absurd e1 (by decide))]
  simp only [hth]
  cases fp with
  | none =>
    have hfd : autoDecimals.find? (fun d => decide (d ∈ minus neg (ip ++ (rawFrac sep none ++ expPart es)))) = none := by
      rw [List.find?_eq_none]
      intro d hd
      have : d ∉ minus neg (ip ++ (rawFrac sep none ++ expPart es)) := fun hm => (honly d hd hm).2 rfl
      simpa using this
    simp only [hfd]
    show (validateFmt '.' none _).map _ = _
    rw [hcheck '.' (.inr ⟨rfl, rfl⟩)]
    rfl
  | some f =>
    have hmem : sep ∈ minus neg (ip ++ (rawFrac sep (some f) ++ expPart es)) := by
      cases neg <;> simp [minus, rawFrac]
    have hfd : autoDecimals.find? (fun d => decide (d ∈ minus neg (ip ++ (rawFrac sep (some f) ++ expPart es)))) = some sep := by
      cases hfd : autoDecimals.find? (fun d => decide (d ∈ minus neg (ip ++ (rawFrac sep (some f) ++ expPart es)))) with
      | none =>
        rw [List.find?_eq_none] at hfd
        exact absurd hmem (by simpa using hfd sep hsep.2.2.2.2)
      | some d =>
        have h1 := List.find?_some hfd
        have h2 := List.mem_of_find?_eq_some hfd
        rw [(honly d h2 (by simpa using h1)).1]
    simp only [hfd]
    have hrest : sep ∉ f ++ expPart es := by
      rw [List.mem_append, not_or]
      exact ⟨nodigit (hf f rfl) hsep.1, noexp sep hsep.1 hsep.2.2.1⟩
    have hip := nodigit hi hsep.1
    have e : ip ++ (rawFrac sep (some f) ++ expPart es) = ip ++ sep :: (f ++ expPart es) := rfl
    have hcount : ¬ ((minus neg (ip ++ (rawFrac sep (some f) ++ expPart es))).count sep > 1 ∧
        'j' ∉ minus neg (ip ++ (rawFrac sep (some f) ++ expPart es))) := by
      rintro ⟨h, -⟩
      have : (minus neg (ip ++ (rawFrac sep (some f) ++ expPart es))).count sep = 1 := by
        rw [e]
        have h0 : (ip ++ sep :: (f ++ expPart es)).count sep = 1 := by
          rw [List.count_append, List.count_cons_self, List.count_eq_zero_of_not_mem hip, List.count_eq_zero_of_not_mem hrest]
        cases neg
        · exact h0
        · show ('-' :: _).count sep = 1
          rw [List.count_cons_of_ne (Ne.symm hsep.2.1), h0]
      omega
    rw [if_neg hcount]
    show (validateFmt sep none _).map _ = _
    rw [hcheck sep (.inl rfl)]
    have hrep : Py.replaceC sep ['.'] (minus neg (ip ++ (rawFrac sep (some f) ++ expPart es))) =
        minus neg (ip ++ (fracPart (some f) ++ expPart es)) := by
      rw [e]
      have h0 : Py.replaceC sep ['.'] (ip ++ sep :: (f ++ expPart es)) = ip ++ (fracPart (some f) ++ expPart es) := by
        rw [replaceC_append, replaceC_none hip, replaceC_cons_self, replaceC_none hrest]
        rfl
      cases neg
      · exact h0
      · show Py.replaceC sep ['.'] ('-' :: _) = _
        rw [replaceC_cons_ne (Ne.symm hsep.2.1), h0]
        rfl
    rw [hrep]
    rfl

private theorem toNumber_decimal {neg : Bool} {ip : Str} {fp es : Option Str} {sep x : Char}
    (hi : ∀ c ∈ ip, isDecimal c = true) (hne : ip ≠ []) (hf : ∀ f, fp = some f → ∀ c ∈ f, isDecimal c = true)
    (he : ∀ e, es = some e → e ≠ [] ∧ ∀ c ∈ e, isDecimal c = true) (hs : sep ∈ ['.', ',', 'p']) (hx : x ∈ ['e', 'E'])
    (hy : fp ≠ none ∨ es ≠ none) :
    toNumber (minus neg (ip ++ (rawFrac sep fp ++ rawExp x es))) =
      (let q : Rat := minusVal neg ((digitsVal ip + fraction (fp.getD [])) * 10 ^ expVal es)
      if fp = none ∧ q.den = 1 then .ok (.int q.num) else .ok (.float (.fin q))) := by
  have hv : ((digitsVal (ip ++ fp.getD []) : Rat) * pow10 (expVal es - (fp.getD []).length)) =
      (digitsVal ip + fraction (fp.getD [])) * 10 ^ expVal es := value_frac ip (fp.getD []) (expVal es)
  unfold toNumber
  rw [cleaner_decimal hi hf he hs hx]
  show (caster _).map _ = _
  rw [caster_decimal hi hne hf he hy, hv]
  generalize minusVal neg ((digitsVal ip + fraction (fp.getD [])) * 10 ^ expVal es) = q
  show Except.ok _ = _
  cases fp with
  | none =>
    have hE : 'E' ∈ Py.upper (minus neg (ip ++ (fracPart none ++ expPart es))) ∧
        '.' ∉ minus neg (ip ++ (fracPart none ++ expPart es)) := by
      constructor
      · cases es with
        | none => simp at hy
        | some e =>
          refine List.mem_map.2 ⟨'e', ?_, by decide⟩
          cases neg <;> simp [minus, expPart]
      · intro h
        rcases chars_of (neg := neg) hi hf he '.' h with h | h | h | h
        · revert h; decide
        · revert h; decide
        · exact h.2 rfl
        · revert h; simp
    simp only [if_pos hE, true_and]
    split <;> rfl
  | some f =>
    have hE : ¬ ('E' ∈ Py.upper (minus neg (ip ++ (fracPart (some f) ++ expPart es))) ∧
        '.' ∉ minus neg (ip ++ (fracPart (some f) ++ expPart es))) := by
      rintro ⟨-, h⟩
      apply h
      cases neg <;> simp [minus, fracPart]
    simp only [if_neg hE]
    rw [if_neg (by simp)]

/-- C77: an integer with an exponent is read as that integer times the power of ten. -/
theorem C77_exponent (n : Int) (m : Nat) (x : Char) (hx : x ∈ ['e', 'E']) :
    toNumber (intStr n ++ x :: natStr m) = .ok (.int (n * 10 ^ m)) := by
  have e : intStr n ++ x :: natStr m = minus (decide (n < 0)) (natStr n.natAbs ++ (rawFrac '.' none ++ rawExp x (some (natStr m)))) := by
    rw [intStr_signed]
    unfold signed minus
    by_cases h : n < 0 <;> simp [h, rawFrac, rawExp]
  rw [e, toNumber_decimal (natStr_digits _) (natStr_ne_nil _) (by simp)
    (by rintro e ⟨⟩; exact ⟨natStr_ne_nil _, natStr_digits _⟩) (by simp) hx (by simp)]
  have hq : minusVal (decide (n < 0)) (((digitsVal (natStr n.natAbs) : Nat) + fraction (none.getD [])) * 10 ^ expVal (some (natStr m))) =
      ((n * 10 ^ m : Int) : Rat) := by
    simp only [digitsVal_natStr, expVal, Option.getD_none, fraction, add_zero]
    unfold minusVal
    by_cases h : n < 0
    · have : (n : Rat) = -(n.natAbs : Rat) := by
        have : n = -(n.natAbs : Int) := by omega
        rw [← Int.cast_natCast (R := Rat), ← Int.cast_neg, ← this]
      rw [decide_eq_true h, if_pos rfl]; push_cast; rw [this]; ring
    · have : (n : Rat) = (n.natAbs : Rat) := by
        have : n = (n.natAbs : Int) := by omega
        rw [← Int.cast_natCast (R := Rat), ← this]
      rw [decide_eq_false h, if_neg (by simp)]; push_cast; rw [this]
  simp only [hq]
  rw [if_pos ⟨trivial, Rat.den_intCast _⟩, Rat.num_intCast]

/-- C77: a number with decimals, after `.`, `,` or `p`, is read as its value. -/
theorem C77_decimals (neg : Bool) (n : Nat) (sep : Char) (hs : sep ∈ ['.', ',', 'p']) (ds : Str)
    (hd : ∀ c ∈ ds, isDecimal c = true) :
    toNumber (minus neg (natStr n ++ sep :: ds)) = .ok (.float (.fin (minusVal neg (n + fraction ds)))) := by
  have e : natStr n ++ sep :: ds = natStr n ++ (rawFrac sep (some ds) ++ rawExp 'e' none) := by simp [rawFrac, rawExp]
  rw [e, toNumber_decimal (natStr_digits _) (natStr_ne_nil _) (by rintro f ⟨⟩; exact hd) (by simp) hs (by simp) (by simp)]
  simp [digitsVal_natStr, expVal]

/-- C77: with decimals and an exponent. -/
theorem C77_scientific (neg : Bool) (n m : Nat) (sep x : Char) (hs : sep ∈ ['.', ',', 'p']) (hx : x ∈ ['e', 'E']) (ds : Str)
    (hd : ∀ c ∈ ds, isDecimal c = true) :
    toNumber (minus neg (natStr n ++ sep :: (ds ++ x :: natStr m))) =
      .ok (.float (.fin (minusVal neg ((n + fraction ds) * 10 ^ m)))) := by
  have e : natStr n ++ sep :: (ds ++ x :: natStr m) = natStr n ++ (rawFrac sep (some ds) ++ rawExp x (some (natStr m))) := by
    simp [rawFrac, rawExp]
  rw [e, toNumber_decimal (natStr_digits _) (natStr_ne_nil _) (by rintro f ⟨⟩; exact hd)
    (by rintro e ⟨⟩; exact ⟨natStr_ne_nil _, natStr_digits _⟩) hs hx (by simp)]
  simp [digitsVal_natStr, expVal]

/-- C77 fails for a negative exponent: it is not accepted. -/
theorem C77_negative_exponent_fails : toNumber s!!"1.5e-3" = .error .valueError := by decide +kernel

/-- A comma before a point is never a separator of thousands: `1,234.5` is read as 1.2345. -/
theorem C77_english_thousands_fails : toNumber s!!"1,234.5" = .ok (.float (.fin (2469 / 2000))) ∧
    toNumber s!!"1.234,5" = .ok (.float (.fin (2469 / 2))) := by decide +kernel

example : minus true (natStr 12 ++ ',' :: s!!"05") = s!!"-12,05" ∧ fraction s!!"05" = 1 / 20 ∧
    toNumber s!!"-12,05" = .ok (.float (.fin (-241 / 20))) := by decide +kernel
example : toNumber s!!"-1e3" = .ok (.int (-1000)) ∧ toNumber s!!"2.5E2" = .ok (.float (.fin 250)) := by decide +kernel

end Unyts

import Verif.Props.Number
import Verif.Props.Decimal
import Verif.Spec.Marks

/- C124: numbers with a separator of thousands and a decimal mark. -/
namespace Unyts
open Spec

theorem splitOn_mark {c : Char} {a b : Str} (ha : c ∉ a) (hb : c ∉ b) : Py.splitOn c (a ++ c :: b) = [a, b] := by
  induction a with
  | nil => simp [Py.splitOn, Py.splitOn_of_not_mem hb]
  | cons x xs ih =>
    rw [List.mem_cons, not_or] at ha
    rw [List.cons_append, Py.splitOn, if_neg (Ne.symm ha.1), ih ha.2]

/-- the search for the separator of thousands in `cleaner` -/
def thousandStep (th : Option Char) (clean new : Str) : Option Char × Str :=
  match th with
  | none =>
    match autoThousands.find? (· ∈ clean) with
    | some t => (some t, Py.replaceC t [] new)
    | none => (none, new)
  | some t => (some t, Py.replaceC t [] new)

/-- the search for the decimal mark in `cleaner` -/
def decimalStep (dec : Option Char) (clean new : Str) : Res (Char × Str) :=
  match dec with
  | none =>
    match autoDecimals.find? (· ∈ new) with
    | some d => if new.count d > 1 ∧ 'j' ∉ new then .error .valueError else .ok (d, Py.replaceC d ['.'] new)
    | none => .ok ('.', new)
  | some d => if clean.count d > 1 then .error .valueError else .ok (d, Py.replaceC d ['.'] new)

theorem cleaner_steps (dec th : Option Char) (s clean new : Str) (hc : Py.lower (Py.stripWs s) = clean) (hn : parenNegative clean = .ok new) :
    cleaner dec th s = if (th = none ∨ th = some '.') ∧ (dec = none ∨ dec = some ',') ∧ ',' ∈ new ∧ '.' ∈ new then
        (validateFmt ',' (some '.') clean).map fun v => some (if v then Py.replaceC ',' ['.'] (Py.replaceC '.' [] new) else new)
      else (decimalStep dec clean (thousandStep th clean new).2).bind fun dn =>
        (validateFmt dn.1 (thousandStep th clean new).1 clean).map fun v => if v then some dn.2 else none := by
  subst hc
  unfold cleaner
  simp only [hn]
  rfl

theorem find_only {l : List Char} {p : Str} {t : Char} (hl : t ∈ l) (ht : t ∈ p) (h : ∀ x ∈ l, x ∈ p → x = t) :
    l.find? (fun x => decide (x ∈ p)) = some t := by
  cases hf : l.find? (fun x => decide (x ∈ p)) with
  | none =>
    rw [List.find?_eq_none] at hf
    exact absurd ht (by simpa using hf t hl)
  | some x =>
    rw [h x (List.mem_of_find?_eq_some hf) (by simpa using List.find?_some hf)]

theorem replaceC_gone (t : Char) (l : Str) : t ∉ Py.replaceC t [] l := by
  induction l with
  | nil => simp [Py.replaceC]
  | cons x l ih =>
    by_cases hx : x = t
    · subst hx; rw [replaceC_cons_self]; exact ih
    · rw [replaceC_cons_ne hx, List.mem_cons]; exact not_or.2 ⟨Ne.symm hx, ih⟩

theorem splitOn_before {t : Char} (s : SignStyle) (ht : t ∉ ['-', '(', ')', 'j', 'e']) (G : Str) :
    (Py.splitOn t (s.before ++ G)).tail = (Py.splitOn t G).tail := by
  have key : ∀ x : Char, x ≠ t → (Py.splitOn t (x :: G)).tail = (Py.splitOn t G).tail := by
    intro x hx
    rw [Py.splitOn, if_neg hx]
    cases hsp : Py.splitOn t G with
    | nil => exact absurd hsp (Py.splitOn_ne_nil _ _)
    | cons p ps => rfl
  cases s with
  | plain => rfl
  | minus => exact key _ (by rintro rfl; simp at ht)
  | paren => exact key _ (by rintro rfl; simp at ht)

section
variable {t d : Char} {G ds : Str}

/-- what the written number is made of -/
theorem marked_chars (s : SignStyle) (g1 : ∀ c ∈ G, isDecimal c = true ∨ c = t) (hd : ∀ c ∈ ds, isDecimal c = true) :
    ∀ c ∈ s.before ++ (G ++ d :: ds) ++ s.after, isDecimal c = true ∨ c = t ∨ c = d ∨ c = '-' ∨ c = '(' ∨ c = ')' := by
  intro c hc
  simp only [List.mem_append, List.mem_cons] at hc
  rcases hc with (h | h | h | h) | h
  · cases s <;> simp [SignStyle.before] at h <;> simp [h]
  · rcases g1 c h with h | h <;> simp [h]
  · simp [h]
  · exact Or.inl (hd c h)
  · cases s <;> simp [SignStyle.after] at h <;> simp [h]

theorem marked_no (s : SignStyle) (g1 : ∀ c ∈ G, isDecimal c = true ∨ c = t) (hd : ∀ c ∈ ds, isDecimal c = true) {x : Char}
    (h1 : isDecimal x = false) (h2 : x ≠ t) (h3 : x ≠ d) (h4 : x ∉ ['-', '(', ')']) : x ∉ s.before ++ (G ++ d :: ds) ++ s.after := by
  intro h
  simp only [List.mem_cons, List.not_mem_nil, or_false, not_or] at h4
  rcases marked_chars s g1 hd x h with h | h | h | h | h | h
  · rw [h] at h1; cases h1
  · exact h2 h
  · exact h3 h
  · exact h4.1 h
  · exact h4.2.1 h
  · exact h4.2.2 h

theorem marked_strip (s : SignStyle) (hd : ∀ c ∈ ds, isDecimal c = true) (hw : d ∉ Py.wsChars) {c0 : Char} {r0 : Str} (g6 : G = c0 :: r0)
    (g6' : isDecimal c0 = true) : Py.stripWs (s.before ++ (G ++ d :: ds) ++ s.after) = s.before ++ (G ++ d :: ds) ++ s.after := by
  have ws : ∀ c ∈ Py.wsChars, isDecimal c = false ∧ c ≠ '-' ∧ c ≠ '(' ∧ c ≠ ')' := by decide
  apply strip_ends
  · intro c hc hx
    obtain ⟨w1, w2, w3, _⟩ := ws c hx
    cases s
    · rw [g6] at hc; cases hc; rw [g6'] at w1; cases w1
    · cases hc; exact w2 rfl
    · cases hc; exact w3 rfl
  · intro c hc hx
    obtain ⟨w1, w2, w3, w4⟩ := ws c hx
    have last : ∀ p : Str, (p ++ (G ++ d :: ds)).getLast? = some c → False := by
      intro p hp
      have : c = d ∨ c ∈ ds := by
        rw [← List.append_assoc, List.getLast?_append, List.getLast?_cons] at hp
        simp only [Option.some_or, Option.some.injEq] at hp
        cases hds : ds with
        | nil => rw [hds] at hp; left; simpa using hp.symm
        | cons y ys =>
          right
          rw [hds] at hp
          rw [← hp]
          cases h : (y :: ys).getLast? with
          | none => simp at h
          | some z => exact List.mem_of_getLast? h
      rcases this with rfl | h
      · exact hw hx
      · rw [hd c h] at w1; cases w1
    cases s
    · rw [SignStyle.after, List.append_nil] at hc; exact last _ hc
    · rw [SignStyle.after, List.append_nil] at hc; exact last _ hc
    · rw [SignStyle.after, List.getLast?_append] at hc
      cases hc; exact w4 rfl

theorem marked_lower (s : SignStyle) (ht : Mark t) (hm : Mark d) (g1 : ∀ c ∈ G, isDecimal c = true ∨ c = t) (hd : ∀ c ∈ ds, isDecimal c = true) :
    Py.lower (s.before ++ (G ++ d :: ds) ++ s.after) = s.before ++ (G ++ d :: ds) ++ s.after := by
  apply map_id_of
  intro c hc
  rcases marked_chars s g1 hd c hc with h | rfl | rfl | rfl | rfl | rfl
  · exact lowerC_decimal (Or.inl h)
  · exact ht.2.1
  · exact hm.2.1
  · decide
  · decide
  · decide

theorem paren_around {X : Str} (i1 : '(' ∉ X) (i2 : ')' ∉ X) (i3 : '-' ∉ X) (i4 : 'j' ∉ X) :
    parenNegative ('(' :: X ++ [')']) = .ok ('-' :: X) := by
  have hrep : Py.replaceC ')' [] (Py.replaceC '(' [] ('(' :: X ++ [')'])) = X := by
    rw [replaceC_append, replaceC_cons_self, replaceC_none i1, List.nil_append, replaceC_append, replaceC_none i2]
    simp [Py.replaceC]
  unfold parenNegative
  rw [if_pos (by simp), if_neg (by simp), if_neg (by simp [i4]), if_pos ⟨by simp [List.count_eq_zero_of_not_mem i1],
    by simp [List.count_eq_zero_of_not_mem i2], by simp, by simp [List.getLast?_cons]⟩, if_pos (by simp [i3]), hrep]

theorem marked_sign (s : SignStyle) (ht : Mark t) (hm : Mark d) (g1 : ∀ c ∈ G, isDecimal c = true ∨ c = t) (hd : ∀ c ∈ ds, isDecimal c = true) :
    parenNegative (s.before ++ (G ++ d :: ds) ++ s.after) = .ok (minus s.neg (G ++ d :: ds)) := by
  have inner : ∀ x ∈ ['-', '(', ')', 'j'], x ∉ G ++ d :: ds := by
    intro x hx h
    have hx' : isDecimal x = false := (by decide : ∀ x ∈ ['-', '(', ')', 'j'], isDecimal x = false) x hx
    have hx2 : x ∈ ['-', '(', ')', 'j', 'e'] := (by decide : ∀ x ∈ ['-', '(', ')', 'j'], x ∈ ['-', '(', ')', 'j', 'e']) x hx
    simp only [List.mem_append, List.mem_cons] at h
    rcases h with h | rfl | h
    · rcases g1 x h with h | rfl
      · rw [h] at hx'; cases hx'
      · exact ht.2.2 hx2
    · exact hm.2.2 hx2
    · rw [hd x h] at hx'; cases hx'
  have i1 := inner '(' (by decide)
  have i2 := inner ')' (by decide)
  have i3 := inner '-' (by decide)
  have i4 := inner 'j' (by decide)
  cases s with
  | plain =>
    simp only [SignStyle.before, SignStyle.after, List.nil_append, List.append_nil]
    unfold parenNegative
    rw [if_neg i1, if_neg i2]; rfl
  | minus =>
    simp only [SignStyle.before, SignStyle.after, List.append_nil]
    unfold parenNegative
    rw [if_neg (by rw [List.singleton_append, List.mem_cons]; exact not_or.2 ⟨by decide, i1⟩),
      if_neg (by rw [List.singleton_append, List.mem_cons]; exact not_or.2 ⟨by decide, i2⟩)]
    rfl
  | paren => exact paren_around i1 i2 i3 i4

/-- the check of the format, with the decimal mark written once -/
theorem marked_check (s : SignStyle) (ht : Mark t) (hm : Mark d) (hne : t ≠ d) (g1 : ∀ c ∈ G, isDecimal c = true ∨ c = t)
    (hd : ∀ c ∈ ds, isDecimal c = true) (ts : Option Char) (hts : ts = some t ∨ ts = none) :
    validateFmt d ts (s.before ++ (G ++ d :: ds) ++ s.after) =
      if ts = some t ∧ ∃ p ∈ (Py.splitOn t G).tail, p.length ≠ 3 then .error .valueError else .ok true := by
  have hj := marked_no (x := 'j') (d := d) s g1 hd (by decide) (by rintro rfl; exact ht.2.2 (by decide)) (by rintro rfl; exact hm.2.2 (by decide)) (by decide)
  have he := marked_no (x := 'e') (d := d) s g1 hd (by decide) (by rintro rfl; exact ht.2.2 (by decide)) (by rintro rfl; exact hm.2.2 (by decide)) (by decide)
  have n1 : d ∉ s.before ++ G := by
    intro h
    rcases List.mem_append.1 h with h | h
    · have := hm.2.2
      cases s <;> simp [SignStyle.before] at h <;> simp [h] at this
    · rcases g1 d h with h | h
      · rw [hm.1] at h; cases h
      · exact hne h.symm
  have n2 : d ∉ ds ++ s.after := by
    intro h
    rcases List.mem_append.1 h with h | h
    · have := hd d h
      rw [hm.1] at this; cases this
    · have := hm.2.2
      cases s <;> simp [SignStyle.after] at h <;> simp [h] at this
  have hsp : Py.splitOn d (s.before ++ (G ++ d :: ds) ++ s.after) = [s.before ++ G, ds ++ s.after] := by
    rw [show s.before ++ (G ++ d :: ds) ++ s.after = (s.before ++ G) ++ d :: (ds ++ s.after) by simp]
    exact splitOn_mark n1 n2
  unfold validateFmt
  rw [if_neg hj]
  unfold checkFmt
  rw [hsp]
  simp only [List.length_cons, List.length_nil, List.headD_cons, if_neg he]
  rcases hts with rfl | rfl
  · simp only [splitOn_before s ht.2.2, true_and]
    by_cases h : ∃ p ∈ (Py.splitOn t G).tail, p.length ≠ 3
    · rw [if_pos h]
      have : ((Py.splitOn t G).tail).any (fun part => decide (part.length ≠ 3)) = true := by
        rw [List.any_eq_true]
        obtain ⟨p, hp, hl⟩ := h
        exact ⟨p, hp, by simpa using hl⟩
      simp only [this]
      rfl
    · rw [if_neg h]
      have : ((Py.splitOn t G).tail).any (fun part => decide (part.length ≠ 3)) = false := by
        rw [List.any_eq_false]
        intro p hp
        simp only [decide_eq_true_eq]
        exact fun hl => h ⟨p, hp, hl⟩
      simp only [this]
      rfl
  · rw [if_neg (by simp)]
    rfl

/-- what `cleaner` hands to the casts: the digits with a period, or the refusal of a wrong group -/
theorem marked_clean (s : SignStyle) (ht : Mark t) (hm : Mark d) (hne : t ≠ d) (hw : d ∉ Py.wsChars) (g1 : ∀ c ∈ G, isDecimal c = true ∨ c = t)
    (hd : ∀ c ∈ ds, isDecimal c = true) {c0 : Char} {r0 : Str} (g6 : G = c0 :: r0) (g6' : isDecimal c0 = true)
    {th dec : Option Char} (told : Told t d th dec) :
    cleaner dec th (s.before ++ (G ++ d :: ds) ++ s.after) =
      if ∃ p ∈ (Py.splitOn t G).tail, p.length ≠ 3 then .error .valueError
      else .ok (some (minus s.neg (Py.replaceC t [] G ++ '.' :: ds))) := by
  have strip := marked_strip s hd hw g6 g6'
  have lower := marked_lower s ht hm g1 hd
  have sign := marked_sign s ht hm g1 hd
  have check := fun ts hts => marked_check s ht hm hne g1 hd ts hts
  have noS := fun (x : Char) h1 h2 h3 h4 => marked_no (x := x) (d := d) s g1 hd h1 h2 h3 h4
  have mt : t ∉ ds := fun h => by have := hd t h; rw [ht.1] at this; cases this
  have md : d ∉ ds := fun h => by have := hd d h; rw [hm.1] at this; cases this
  have mdG : d ∉ G := fun h => by
    rcases g1 d h with h | h
    · rw [hm.1] at h; cases h
    · exact hne h.symm
  have minus_no : ∀ {x : Char} {a : Str}, x ≠ '-' → x ∉ a → x ∉ minus s.neg a := by
    intro x a h1 h2
    unfold minus
    split
    · rw [List.mem_cons]; exact not_or.2 ⟨h1, h2⟩
    · exact h2
  have tm : t ≠ '-' := by rintro rfl; exact ht.2.2 (by decide)
  have dm : d ≠ '-' := by rintro rfl; exact hm.2.2 (by decide)
  have rep_minus : ∀ {x : Char} {r a : Str}, x ≠ '-' → Py.replaceC x r (minus s.neg a) = minus s.neg (Py.replaceC x r a) := by
    intro x r a h
    unfold minus
    split
    · exact replaceC_cons_ne (Ne.symm h) _ _
    · rfl
  -- the digits
  have repT : Py.replaceC t [] (minus s.neg (G ++ d :: ds)) = minus s.neg (Py.replaceC t [] G ++ d :: ds) := by
    rw [rep_minus tm, replaceC_append, replaceC_cons_ne (Ne.symm hne), replaceC_none mt]
  have mdD : d ∉ Py.replaceC t [] G := by
    intro h
    have : ∀ (l : Str), d ∈ Py.replaceC t [] l → d ∈ l := by
      intro l
      induction l with
      | nil => intro h; exact h
      | cons x l ih =>
        by_cases hx : x = t
        · subst hx; rw [replaceC_cons_self]; intro h; exact List.mem_cons_of_mem _ (ih h)
        · rw [replaceC_cons_ne hx]
          intro h
          rcases List.mem_cons.1 h with h | h
          · exact h ▸ List.mem_cons_self
          · exact List.mem_cons_of_mem _ (ih h)
    exact mdG (this _ h)
  have repD : Py.replaceC d ['.'] (minus s.neg (Py.replaceC t [] G ++ d :: ds)) = minus s.neg (Py.replaceC t [] G ++ '.' :: ds) := by
    rw [rep_minus dm, replaceC_append, replaceC_none mdD, replaceC_cons_self, replaceC_none md]
    rfl
  have cntS : (s.before ++ (G ++ d :: ds) ++ s.after).count d = 1 := by
    have h1 : (s.before).count d = 0 := by
      apply List.count_eq_zero_of_not_mem
      have := hm.2.2
      intro h
      cases s <;> simp [SignStyle.before] at h <;> simp [h] at this
    have h2 : (s.after).count d = 0 := by
      apply List.count_eq_zero_of_not_mem
      have := hm.2.2
      intro h
      cases s <;> simp [SignStyle.after] at h <;> simp [h] at this
    simp [List.count_append, h1, h2, List.count_eq_zero_of_not_mem mdG, List.count_eq_zero_of_not_mem md]
  have cntN : (minus s.neg (Py.replaceC t [] G ++ d :: ds)).count d = 1 := by
    have : (Py.replaceC t [] G ++ d :: ds).count d = 1 := by
      simp [List.count_append, List.count_eq_zero_of_not_mem mdD, List.count_eq_zero_of_not_mem md]
    unfold minus
    split
    · rw [List.count_cons, this]; simp [Ne.symm dm]
    · exact this
  have whole : ∀ {a : Str}, ∀ x ∈ minus s.neg (G ++ a), x = '-' ∨ x ∈ G ∨ x ∈ a := by
    intro a x hx
    unfold minus at hx
    split at hx
    · rcases List.mem_cons.1 hx with h | h
      · exact Or.inl h
      · exact Or.inr (List.mem_append.1 h)
    · exact Or.inr (List.mem_append.1 hx)
  have noN : ∀ (x : Char), isDecimal x = false → x ≠ t → x ≠ d → x ≠ '-' → x ∉ minus s.neg (G ++ d :: ds) := by
    intro x h1 h2 h3 h4 hx
    rcases whole x hx with h | h | h
    · exact h4 h
    · rcases g1 x h with h | h
      · rw [h] at h1; cases h1
      · exact h2 h
    · rcases List.mem_cons.1 h with h | h
      · exact h3 h
      · rw [hd x h] at h1; cases h1
  have noF : ∀ (x : Char), isDecimal x = false → x ≠ t → x ≠ d → x ≠ '-' → x ∉ minus s.neg (Py.replaceC t [] G ++ d :: ds) := by
    intro x h1 h2 h3 h4 hx
    rw [← repT] at hx
    have sub : ∀ (l : Str), x ∈ Py.replaceC t [] l → x ∈ l := by
      intro l
      induction l with
      | nil => intro h; exact h
      | cons y l ih =>
        by_cases hy : y = t
        · subst hy; rw [replaceC_cons_self]; intro h; exact List.mem_cons_of_mem _ (ih h)
        · rw [replaceC_cons_ne hy]
          intro h
          rcases List.mem_cons.1 h with h | h
          · exact h ▸ List.mem_cons_self
          · exact List.mem_cons_of_mem _ (ih h)
    exact noN x h1 h2 h3 h4 (sub _ hx)
  have tauto : th = some t ∨ th = none ∧ (t ∈ autoThousands ∧ ∀ x ∈ autoThousands, x ≠ d) ∨ th = none ∧ dec = none ∧ t = '.' ∧ d = ',' := by
    rcases told with h | h | h | h | h
    · exact Or.inl h.1
    · exact Or.inl h.1
    · exact Or.inr (Or.inl ⟨h.1, h.2.2.1, fun x hx hxd => h.2.2.2 (hxd ▸ hx)⟩)
    · exact Or.inr (Or.inl ⟨h.1, h.2.2.1, fun x hx hxd => (by decide : ∀ x ∈ autoThousands, x ∉ [',', 'p', '.']) x hx (hxd ▸ h.2.2.2)⟩)
    · exact Or.inr (Or.inr h)
  have dauto : dec = some d ∨ dec = none ∧ d ∈ autoDecimals := by
    rcases told with h | h | h | h | h
    · exact Or.inl h.2
    · exact Or.inr ⟨h.2.1, h.2.2⟩
    · exact Or.inl h.2.1
    · exact Or.inr ⟨h.2.1, h.2.2.2⟩
    · exact Or.inr ⟨h.2.1, by rw [h.2.2.2]; decide⟩
  have bad : ∀ (ts : Option Char), (ts = some t ∨ ts = none ∧ t ∉ G) →
      ((validateFmt d ts (s.before ++ (G ++ d :: ds) ++ s.after)).map fun v => if v then some (minus s.neg (Py.replaceC t [] G ++ '.' :: ds)) else none) =
      if ∃ p ∈ (Py.splitOn t G).tail, p.length ≠ 3 then .error .valueError
      else .ok (some (minus s.neg (Py.replaceC t [] G ++ '.' :: ds))) := by
    intro ts hts
    rcases hts with rfl | ⟨rfl, hn⟩
    · rw [check _ (Or.inl rfl)]
      by_cases h : ∃ p ∈ (Py.splitOn t G).tail, p.length ≠ 3
      · rw [if_pos ⟨rfl, h⟩, if_pos h]; rfl
      · rw [if_neg (fun hh => h hh.2), if_neg h]; rfl
    · rw [check _ (Or.inr rfl), if_neg (by rintro ⟨h, _⟩; cases h), if_neg (by rw [Py.splitOn_of_not_mem hn]; rintro ⟨p, hp, _⟩; cases hp)]
      rfl
  rw [cleaner_steps dec th _ _ _ (by rw [strip, lower]) sign]
  by_cases hfirst : (th = none ∨ th = some '.') ∧ (dec = none ∨ dec = some ',') ∧ ',' ∈ minus s.neg (G ++ d :: ds) ∧ '.' ∈ minus s.neg (G ++ d :: ds)
  · rw [if_pos hfirst]
    have htd : t = '.' ∧ d = ',' := by
      obtain ⟨f1, _, f3, f4⟩ := hfirst
      have a1 : t = ',' ∨ d = ',' := by
        by_contra h
        rw [not_or] at h
        exact noN ',' (by decide) (Ne.symm h.1) (Ne.symm h.2) (by decide) f3
      have a2 : t = '.' ∨ d = '.' := by
        by_contra h
        rw [not_or] at h
        exact noN '.' (by decide) (Ne.symm h.1) (Ne.symm h.2) (by decide) f4
      have a3 : t ≠ ',' := by
        rintro rfl
        rcases tauto with h | h | h
        · rw [h] at f1; revert f1; decide
        · exact absurd h.2.1 (by decide)
        · exact absurd h.2.2.1 (by decide)
      have hd' := a1.resolve_left a3
      refine ⟨a2.resolve_right fun h => ?_, hd'⟩
      rw [hd'] at h; exact absurd h (by decide)
    obtain ⟨rfl, rfl⟩ := htd
    have := bad (some '.') (Or.inl rfl)
    rw [repT, repD]
    rw [← this, check _ (Or.inl rfl)]
    by_cases h : ∃ p ∈ (Py.splitOn '.' G).tail, p.length ≠ 3
    · rw [if_pos ⟨rfl, h⟩]; rfl
    · rw [if_neg (fun hh => h hh.2)]; rfl
  · rw [if_neg hfirst]
    have hts : ∃ ts, (ts = some t ∨ ts = none ∧ t ∉ G) ∧ thousandStep th (s.before ++ (G ++ d :: ds) ++ s.after) (minus s.neg (G ++ d :: ds)) =
        (ts, minus s.neg (Py.replaceC t [] G ++ d :: ds)) := by
      unfold thousandStep
      rcases tauto with rfl | ⟨rfl, ha, notd⟩ | ⟨rfl, rfl, rfl, rfl⟩
      · exact ⟨some t, Or.inl rfl, by dsimp only; rw [repT]⟩
      · by_cases hin : t ∈ G
        · refine ⟨some t, Or.inl rfl, ?_⟩
          have : autoThousands.find? (fun x => decide (x ∈ s.before ++ (G ++ d :: ds) ++ s.after)) = some t :=
            find_only ha (by simp [hin]) (fun x hx hS => by
              have hx' := (by decide : ∀ x ∈ autoThousands, isDecimal x = false ∧ x ∉ ['-', '(', ')']) x hx
              by_contra hxt
              exact noS x hx'.1 hxt (notd x hx) hx'.2 hS)
          rw [this]; dsimp only; rw [repT]
        · refine ⟨none, Or.inr ⟨rfl, hin⟩, ?_⟩
          have : autoThousands.find? (fun x => decide (x ∈ s.before ++ (G ++ d :: ds) ++ s.after)) = none := by
            rw [List.find?_eq_none]
            intro x hx
            have hx' := (by decide : ∀ x ∈ autoThousands, isDecimal x = false ∧ x ∉ ['-', '(', ')']) x hx
            by_cases hxt : x = t
            · subst hxt
              have : x ∉ s.before ++ (G ++ d :: ds) ++ s.after := by
                have h1 := hx'.2
                simp only [List.mem_append, List.mem_cons, not_or]
                refine ⟨⟨?_, hin, hne, mt⟩, ?_⟩
                · intro h; cases s <;> simp [SignStyle.before] at h <;> simp [h] at h1
                · intro h; cases s <;> simp [SignStyle.after] at h <;> simp [h] at h1
              simpa using this
            · simpa using noS x hx'.1 hxt (notd x hx) hx'.2
          rw [this, replaceC_none hin]
      · have hin : '.' ∉ G := by
          intro h
          refine hfirst ⟨Or.inl rfl, Or.inl rfl, ?_, ?_⟩
          · unfold minus; split <;> simp
          · unfold minus; split <;> simp [h]
        refine ⟨none, Or.inr ⟨rfl, hin⟩, ?_⟩
        have : autoThousands.find? (fun x => decide (x ∈ s.before ++ (G ++ ',' :: ds) ++ s.after)) = none := by
          rw [List.find?_eq_none]
          intro x hx
          have hx' := (by decide : ∀ x ∈ autoThousands, isDecimal x = false ∧ x ≠ '.' ∧ x ≠ ',' ∧ x ∉ ['-', '(', ')']) x hx
          simpa using noS x hx'.1 hx'.2.1 hx'.2.2.1 hx'.2.2.2
        rw [this, replaceC_none hin]
    obtain ⟨ts, hts, hm'⟩ := hts
    have hdec : decimalStep dec (s.before ++ (G ++ d :: ds) ++ s.after) (minus s.neg (Py.replaceC t [] G ++ d :: ds)) =
        .ok (d, minus s.neg (Py.replaceC t [] G ++ '.' :: ds)) := by
      unfold decimalStep
      rcases dauto with rfl | ⟨rfl, hda⟩
      · dsimp only
        rw [cntS, repD, if_neg (by decide)]
      · have : autoDecimals.find? (fun x => decide (x ∈ minus s.neg (Py.replaceC t [] G ++ d :: ds))) = some d := by
          refine find_only hda (by unfold minus; split <;> simp) (fun x hx hS => ?_)
          have hx' := (by decide : ∀ x ∈ autoDecimals, isDecimal x = false ∧ x ≠ '-') x hx
          by_contra hxd
          by_cases hxt : x = t
          · subst hxt
            exact minus_no hx'.2 (by
              rw [List.mem_append, List.mem_cons, not_or, not_or]
              exact ⟨replaceC_gone x G, hne, mt⟩) hS
          · exact noF x hx'.1 hxt hxd hx'.2 hS
        dsimp only
        rw [this]
        dsimp only
        rw [cntN, repD, if_neg (by simp)]
    rw [hm', hdec]
    exact bad ts hts

/-- the number behind the text -/
theorem marked_cast (s : SignStyle) {n : Nat} (g2 : ∀ c ∈ Py.replaceC t [] G, isDecimal c = true) (g3 : Py.replaceC t [] G ≠ [])
    (g4 : digitsVal (Py.replaceC t [] G) = n) (hd : ∀ c ∈ ds, isDecimal c = true) :
    caster (minus s.neg (Py.replaceC t [] G ++ '.' :: ds)) = .ok (.float (.fin (minusVal s.neg (n + fraction ds)))) := by
  have h := caster_decimal (neg := s.neg) (fp := some ds) (es := none) g2 g3 (by rintro f ⟨⟩; exact hd) (by simp) (by simp)
  have e : Py.replaceC t [] G ++ (fracPart (some ds) ++ expPart none) = Py.replaceC t [] G ++ '.' :: ds := by simp [fracPart, expPart]
  rw [e] at h
  rw [h]
  have := value_frac (Py.replaceC t [] G) ds 0
  rw [pow_zero, mul_one, g4] at this
  simp only [expVal, Option.getD_some]
  rw [this]

end

/-- reading a number with marks, its sign in one of the three styles -/
theorem marked_number (s : SignStyle) {t d : Char} {th dec : Option Char} (ht : Mark t) (hm : Mark d) (hne : t ≠ d) (hw : d ∉ Py.wsChars)
    (told : Told t d th dec) (n : Nat) {ds : Str} (hd : ∀ c ∈ ds, isDecimal c = true) :
    toNumber (s.before ++ withMarks t d n ds ++ s.after) dec th = .ok (.float (.fin (minusVal s.neg (n + fraction ds)))) := by
  obtain ⟨g1, g2, g3, g4, g5, ⟨c0, r0, g6, g6'⟩, _⟩ := group_spec t ht.1 n
  unfold toNumber withMarks
  rw [marked_clean s ht hm hne hw g1 hd g6 g6' told, if_neg (by rintro ⟨p, hp, h⟩; exact h (g5 p hp))]
  show (caster _).map _ = _
  rw [marked_cast s g2 g3 g4 hd]
  show Except.ok (if _ then _ else _) = _
  rw [if_neg]
  rintro ⟨-, h⟩
  apply h
  unfold minus
  split <;> simp

/-- C124. A number written with a separator of thousands and a decimal mark, both given to `to_number` or found by it, is read
exactly: `1'234.5` and, with the marks given, `1,234.5`. -/
theorem C124_marks {t d : Char} {th dec : Option Char} (ht : Mark t) (hm : Mark d) (hne : t ≠ d) (hw : d ∉ Py.wsChars)
    (told : Told t d th dec) (n : Nat) {ds : Str} (hd : ∀ c ∈ ds, isDecimal c = true) :
    toNumber (withMarks t d n ds) dec th = .ok (.float (.fin (n + fraction ds))) := by
  have := marked_number .plain ht hm hne hw told n hd
  simpa [SignStyle.before, SignStyle.after, SignStyle.neg, minusVal] using this

/-- C124, negative numbers: with a minus, or between parentheses. -/
theorem C124_negative {t d : Char} {th dec : Option Char} (ht : Mark t) (hm : Mark d) (hne : t ≠ d) (hw : d ∉ Py.wsChars)
    (told : Told t d th dec) (n : Nat) {ds : Str} (hd : ∀ c ∈ ds, isDecimal c = true) :
    toNumber ('-' :: withMarks t d n ds) dec th = .ok (.float (.fin (-(n + fraction ds)))) ∧
    toNumber ('(' :: withMarks t d n ds ++ [')']) dec th = .ok (.float (.fin (-(n + fraction ds)))) := by
  constructor
  · have := marked_number .minus ht hm hne hw told n hd
    rwa [SignStyle.after, List.append_nil] at this
  · exact marked_number .paren ht hm hne hw told n hd

theorem joinGroups_split {t : Char} {gs : List Str} (h : ∀ g ∈ gs, t ∉ g) (hne : gs ≠ []) : Py.splitOn t (joinGroups t gs) = gs := by
  induction gs with
  | nil => exact absurd rfl hne
  | cons g gs ih =>
    cases gs with
    | nil => exact Py.splitOn_of_not_mem (h g (by simp))
    | cons g' gs =>
      have ih := ih (fun x hx => h x (List.mem_cons_of_mem _ hx)) (by simp)
      have key : ∀ (a : Str), t ∉ a → Py.splitOn t (a ++ t :: joinGroups t (g' :: gs)) = a :: g' :: gs := by
        intro a
        induction a with
        | nil => intro _; simp [Py.splitOn, ih]
        | cons x a iha =>
          intro ha
          rw [List.mem_cons, not_or] at ha
          rw [List.cons_append, Py.splitOn, if_neg (Ne.symm ha.1), iha ha.2]
      exact key g (h g (by simp))

/-- C124, the refusal: when a group after the first is not of three digits, ValueError. -/
theorem C124_refused {t d : Char} {th dec : Option Char} (ht : Mark t) (hm : Mark d) (hne : t ≠ d) (hw : d ∉ Py.wsChars)
    (told : Told t d th dec) {g : Str} {gs : List Str} (hg : g ≠ []) (hgs : ∀ p ∈ g :: gs, ∀ c ∈ p, isDecimal c = true)
    (hbad : ∃ p ∈ gs, p.length ≠ 3) {ds : Str} (hd : ∀ c ∈ ds, isDecimal c = true) (s : SignStyle) :
    toNumber (s.before ++ (joinGroups t (g :: gs) ++ d :: ds) ++ s.after) dec th = .error .valueError := by
  have nt : ∀ p ∈ g :: gs, t ∉ p := fun p hp h => by have := hgs p hp t h; rw [ht.1] at this; cases this
  have g1 : ∀ (l : List Str), (∀ p ∈ l, ∀ c ∈ p, isDecimal c = true) → ∀ c ∈ joinGroups t l, isDecimal c = true ∨ c = t := by
    intro l
    induction l with
    | nil => intro _ c hc; cases hc
    | cons p l ih =>
      intro h c hc
      cases l with
      | nil => exact Or.inl (h p (by simp) c hc)
      | cons p' l =>
        rcases List.mem_append.1 hc with hc | hc
        · exact Or.inl (h p (by simp) c hc)
        · rcases List.mem_cons.1 hc with hc | hc
          · exact Or.inr hc
          · exact ih (fun q hq => h q (List.mem_cons_of_mem _ hq)) c hc
  obtain ⟨c0, r0, hcr⟩ := List.exists_cons_of_ne_nil hg
  have g6 : ∃ r, joinGroups t (g :: gs) = c0 :: r := by
    cases gs with
    | nil => exact ⟨r0, hcr⟩
    | cons p l => exact ⟨r0 ++ t :: joinGroups t (p :: l), by rw [joinGroups, hcr]; rfl; simp⟩
  obtain ⟨r, g6⟩ := g6
  unfold toNumber
  rw [marked_clean s ht hm hne hw (g1 _ hgs) hd g6 (hgs g (by simp) c0 (by simp [hcr])) told, joinGroups_split nt (by simp), List.tail_cons,
    if_pos hbad]
  rfl

/-- Where the groups are not looked at: separators after the decimal mark, a first group of any length, and nothing but the last
group before a closing parenthesis, which is then one too long. -/
theorem C124_groups_fail :
    toNumber s!!"1.234,567,8" (some '.') (some ',') = .ok (.float (.fin (12345678 / 10000000))) ∧
    toNumber s!!"1234,567.5" (some '.') (some ',') = .ok (.float (.fin (2469135 / 2))) ∧
    toNumber s!!"(1,234)" (some '.') (some ',') = .error .valueError := by decide +kernel

/-- the hypotheses are met -/
example : withMarks ',' '.' 1234567 s!!"05" = s!!"1,234,567.05" ∧ Mark ',' ∧ Mark '.' ∧ ('.' ∉ Py.wsChars) ∧ fraction s!!"05" = 1 / 20 ∧
    Told ',' '.' (some ',') (some '.') ∧ Told '.' ',' none none ∧ Told '\'' '.' none none ∧
    toNumber s!!"(1,234,567.05)" (some '.') (some ',') = .ok (.float (.fin (-(1234567 + 1 / 20)))) ∧
    toNumber s!!"1.234,5" = .ok (.float (.fin (2469 / 2))) ∧
    joinGroups ',' [s!!"1", s!!"23", s!!"456"] = s!!"1,23,456" := by
  refine ⟨by decide +kernel, by decide, by decide, by decide, by decide +kernel, Or.inl ⟨rfl, rfl⟩, ?_, ?_, by decide +kernel, by decide +kernel, by decide⟩
  · exact Or.inr (Or.inr (Or.inr (Or.inr ⟨rfl, rfl, rfl, rfl⟩)))
  · exact Or.inr (Or.inr (Or.inr (Or.inl ⟨rfl, rfl, by decide, by decide⟩)))

end Unyts

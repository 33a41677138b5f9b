import Verif.Spec.QuantityText
import Verif.Props.UnitClass
import Verif.Lemmas.Typed
import Verif.Lemmas.ShippedClass

/-
C122, C123: the text of a quantity, and the assignments to its fields.
-/
namespace Unyts
open Spec Quantity

/-! ### C122 -/

theorem evalName_quotable {u : Str} (h : QuotableName u) : evalName u = .ok u := by
  unfold evalName
  refine literal_plainChars ?_ ?_
  · intro c hc
    exact ⟨fun e => h.backslash (e ▸ hc), fun e => h.newline (e ▸ hc), fun e => h.return (e ▸ hc)⟩
  · split
    · rename_i hq
      exact h.quotes.resolve_left (fun hn => hn hq)
    · assumption

theorem quotable_strip {u : Str} (h : QuotableName u) : QuotableName (Py.stripWs u) where
  backslash := fun hm => h.backslash (stripWs_mem hm)
  newline := fun hm => h.newline (stripWs_mem hm)
  «return» := fun hm => h.return (stripWs_mem hm)
  quotes := h.quotes.imp (fun hn hm => hn (stripWs_mem hm)) (fun hn hm => hn (stripWs_mem hm))

theorem units_strip (v : Rat) (u : Str) : units v (Py.stripWs u) = units v u := by
  unfold units unitsNamed
  rw [stripWs_idem]

/-- C122. `str(units(v, u))` is the number, an underscore and the unit without outer blanks, for percentages too; the number
alone when there is no unit. -/
theorem C122_text (T : Rat → Str) (L L' : Lib) (v : Rat) (u : Str) (hb : '\\' ∉ u) (q : Quantity)
    (h : units v u L = (.ok q, L')) :
    q.str T = T v ++ (if Py.stripWs u = [] ∧ q.kind ≠ .percentage then [] else '_' :: Py.stripWs u) ∧
      q.repr T = T v ++ '_' :: Py.stripWs u := by
  obtain ⟨h1, h2, -, -⟩ := C42_keeps_partial L L' v u hb q h
  unfold Quantity.str Quantity.repr
  unfold shown at h2
  rw [h1, stripWs_idem]
  by_cases hk : q.kind = .percentage
  · simp only [hk, if_true] at h2 ⊢
    simp [h2]
  · simp only [hk, if_false] at h2 ⊢
    by_cases hs : Py.stripWs u = []
    · simp [hs, h2, hk]
    · simp [hs, h2, hk]

theorem readText_text {n u : Str} (hn : '_' ∉ n) : readText (n ++ '_' :: u) = (n, u) := by
  unfold readText
  induction n with
  | nil => simp
  | cons c n ih =>
    have hc : c ≠ '_' := fun e => hn (by simp [e])
    have ih := ih (fun e => hn (List.mem_cons_of_mem _ e))
    simp only [Prod.mk.injEq] at ih
    simp only [List.cons_append, Prod.mk.injEq]
    rw [List.takeWhile_cons_of_pos (by simpa using hc), List.dropWhile_cons_of_pos (by simpa using hc), ih.1, ih.2]
    exact ⟨rfl, rfl⟩

theorem readText_bare {n : Str} (hn : '_' ∉ n) : readText n = (n, []) := by
  unfold readText
  induction n with
  | nil => rfl
  | cons c n ih =>
    have hc : c ≠ '_' := fun e => hn (by simp [e])
    have ih := ih (fun e => hn (List.mem_cons_of_mem _ e))
    simp only [Prod.mk.injEq] at ih
    simp only [Prod.mk.injEq]
    rw [List.takeWhile_cons_of_pos (by simpa using hc), List.dropWhile_cons_of_pos (by simpa using hc), ih.1, ih.2]
    exact ⟨rfl, rfl⟩

/-- C122. The text of a quantity made by `units` gives back its number and its unit: cut at the first underscore. -/
theorem C122_read (T : Rat → Str) (number : Str → Rat) (hT : Writes T number) (L L' : Lib) (v : Rat) (u : Str)
    (hb : '\\' ∉ u) (q : Quantity) (h : units v u L = (.ok q, L')) :
    number (readText (q.str T)).1 = v ∧ (readText (q.str T)).2 = Py.stripWs u ∧
      readText (q.repr T) = readText (q.str T) := by
  obtain ⟨h1, h2⟩ := C122_text T L L' v u hb q h
  rw [h1, h2, readText_text (hT.plain v)]
  split
  · rename_i hs
    rw [List.append_nil, readText_bare (hT.plain v), hs.1]
    exact ⟨hT.back v, rfl, rfl⟩
  · rw [readText_text (hT.plain v)]
    exact ⟨hT.back v, rfl, rfl⟩

/-- C122. Two quantities with the same text, made at any two moments, have the same number in the same unit. -/
theorem C122_tells (T : Rat → Str) (number : Str → Rat) (hT : Writes T number) (L1 L1' L2 L2' : Lib) (v1 v2 : Rat)
    (u1 u2 : Str) (hb1 : '\\' ∉ u1) (hb2 : '\\' ∉ u2) (p q : Quantity) (h1 : units v1 u1 L1 = (.ok p, L1'))
    (h2 : units v2 u2 L2 = (.ok q, L2')) (hs : p.str T = q.str T) : shown p = shown q ∧ p.unit = q.unit := by
  obtain ⟨a1, a2, -⟩ := C122_read T number hT L1 L1' v1 u1 hb1 p h1
  obtain ⟨b1, b2, -⟩ := C122_read T number hT L2 L2' v2 u2 hb2 q h2
  obtain ⟨c1, c2, -⟩ := C42_keeps_partial L1 L1' v1 u1 hb1 p h1
  obtain ⟨d1, d2, -⟩ := C42_keeps_partial L2 L2' v2 u2 hb2 q h2
  rw [hs] at a1 a2
  exact ⟨by rw [c2, d2, ← a1, b1], by rw [c1, d1, ← a2, b2]⟩

theorem addUser_mem {L : Lib} {u : Str} (h : u ∈ L.names s!!"UserUnits") : L.addUser u = L := by
  unfold Lib.addUser; rw [if_pos h]

/-- The same name again makes a quantity of the same class in the same unit. -/
theorem units_again (L L' : Lib) (v x : Rat) (u : Str) (hu : QuotableName u) (hkeys : (L.dict.map Prod.fst).Nodup)
    (q : Quantity) (h : units v u L = (.ok q, L')) :
    units x q.unit L' = (.ok { q with value := if q.kind = .percentage then x / 100 else x }, L') := by
  have hunit := (C42_keeps_partial L L' v u hu.backslash q h).1
  rw [hunit, units_strip]
  have hev := evalName_quotable (quotable_strip hu)
  unfold units unitsNamed at h ⊢
  rw [PyM.run_bind_ok (PyM.run_get _)] at h ⊢
  by_cases hun : Py.stripWs u ∈ L.w.dic.uncertain
  · simp only [hun, if_true] at h
    obtain ⟨e1, e2, e3, e4⟩ := construct_ok h
    simp only [reduceCtorEq, if_false] at e2 e3 e4
    subst e4
    simp only [hun, if_true]
    simp only [construct] at h ⊢
    split at h
    · rename_i hin
      rw [if_pos hin]
      cases h
      rfl
    · cases h
  · simp only [hun, if_false] at h
    cases hf : List.find? (fun e : Str × List Str => decide (Py.stripWs u ∈ e.2)) L.dict with
    | none =>
      rw [hf] at h
      simp only [construct, stripWs_idem] at h
      cases h
      have hnone : ∀ e ∈ L.dict, Py.stripWs u ∉ e.2 := by
        intro e he hm
        have := List.find?_eq_none.1 hf e he
        simp at this
        exact this hm
      have hnot : Py.stripWs u ∉ L.names s!!"UserUnits" := by
        intro hm
        unfold Lib.names at hm
        cases hg : Py.dictGet L.dict s!!"UserUnits" with
        | none => rw [hg] at hm; simp at hm
        | some l =>
          rw [hg] at hm
          exact hnone _ (dictGet_mem hg) hm
      have hd : (L.addUser (Py.stripWs u)).dict =
          Py.dictSet L.dict s!!"UserUnits" (L.names s!!"UserUnits" ++ [Py.stripWs u]) := by
        unfold Lib.addUser; rw [if_neg hnot]
      have hw : (L.addUser (Py.stripWs u)).w = L.w := by unfold Lib.addUser; rw [if_neg hnot]
      have hin : Py.stripWs u ∈ (L.addUser (Py.stripWs u)).names s!!"UserUnits" := by
        unfold Lib.names
        rw [hd, dictGet_set_eq]
        simp
      generalize hL : L.addUser (Py.stripWs u) = M at hd hw hin
      rw [hw]
      simp only [hun, if_false]
      cases hf2 : List.find? (fun e : Str × List Str => decide (Py.stripWs u ∈ e.2)) M.dict with
      | none =>
        exfalso
        unfold Lib.names at hin
        cases hg : Py.dictGet M.dict s!!"UserUnits" with
        | none => rw [hg] at hin; simp at hin
        | some l =>
          rw [hg] at hin
          have := List.find?_eq_none.1 hf2 _ (dictGet_mem hg)
          simp at this
          exact this hin
      | some e =>
        obtain ⟨key, l⟩ := e
        have hm := List.mem_of_find?_eq_some hf2
        have hl : Py.stripWs u ∈ l := by have := List.find?_some hf2; simpa using this
        rw [hd] at hm
        rcases mem_dictSet_or hm with hm | ⟨rfl, -⟩
        · exact absurd hl (hnone _ hm)
        simp only [Option.isSome_none, Bool.false_eq_true, if_false]
        rw [PyM.run_bind_ok (a := Py.stripWs u) (s' := M) (by rw [hev]; rfl),
          PyM.run_bind_ok (show PyM.lift (kindOf s!!"UserUnits") M = (.ok Kind.user, M) from rfl),
          PyM.run_bind_ok (a := (⟨.user, Py.stripWs u, 0⟩ : Quantity)) (s' := M)
            (by simp only [construct, stripWs_idem]; rw [addUser_mem hin])]
        rfl
    | some e =>
      obtain ⟨key, l⟩ := e
      rw [hf] at h
      simp only [Option.isSome_none, Bool.false_eq_true, if_false] at h
      have hm := List.mem_of_find?_eq_some hf
      have hl : Py.stripWs u ∈ l := by have := List.find?_some hf; simpa using this
      rw [PyM.run_bind_ok (a := Py.stripWs u) (s' := L) (by rw [hev]; rfl)] at h
      obtain ⟨k, L2, h2, h4⟩ := PyM.bind_ok h
      clear h
      obtain ⟨r, L3, h3, h⟩ := PyM.bind_ok h4
      clear h4
      have e2 : kindOf key = .ok k ∧ L2 = L := by unfold PyM.lift at h2; simp at h2; exact ⟨h2.1, h2.2.symm⟩
      obtain ⟨ek, rfl⟩ := e2
      have hq : q = { r with value := if k = .percentage then v / 100 else v } ∧ L' = L3 := by
        have h : (Except.ok { r with value := if k = .percentage then v / 100 else v }, L3) =
          ((Except.ok q : Res Quantity), L') := h
        simp only [Prod.mk.injEq, Except.ok.injEq] at h
        exact ⟨h.1.symm, h.2.symm⟩
      obtain ⟨rfl, rfl⟩ := hq
      obtain ⟨c1, c2, c3, c4⟩ := construct_ok h3
      have hL3 : L' = L2 := by
        rw [c4]
        split
        · rename_i hku
          subst hku
          have hkey : key = s!!"UserUnits" := by
            unfold kindOf at ek
            split at ek
            · cases ek
            · split at ek
              · cases ek
              · split at ek
                · assumption
                · split at ek
                  · cases ek
                  · split at ek <;> cases ek
          refine addUser_mem ?_
          rw [stripWs_idem]
          unfold Lib.names
          rw [← hkey, dictGet_of_mem hkeys hm]
          exact hl
        · rfl
      subst hL3
      simp only [hun, if_false]
      rw [hf]
      simp only [Option.isSome_none, Bool.false_eq_true, if_false]
      rw [PyM.run_bind_ok (a := Py.stripWs u) (s' := L') (by rw [hev]; rfl),
        PyM.run_bind_ok (a := k) (s' := L') (by rw [ek]; rfl), PyM.run_bind_ok h3]
      simp only at hunit
      simp only [c1, ← hunit]
      rfl

/-- C122. Reading the text of a quantity back with `units` makes the same quantity: same class, same unit, same number. -/
theorem C122_round_trip (T : Rat → Str) (number : Str → Rat) (hT : Writes T number) (L L' : Lib) (v : Rat) (u : Str)
    (hu : QuotableName u) (hkeys : (L.dict.map Prod.fst).Nodup) (q : Quantity) (h : units v u L = (.ok q, L')) :
    units (number (readText (q.str T)).1) (readText (q.str T)).2 L' = (.ok q, L') := by
  obtain ⟨h1, h2, -⟩ := C122_read T number hT L L' v u hu.backslash q h
  obtain ⟨g1, g2, -, -⟩ := C42_keeps_partial L L' v u hu.backslash q h
  rw [h1, h2, ← g1, units_again L L' v v u hu hkeys q h]
  unfold shown at g2
  congr 2
  obtain ⟨k, un, x⟩ := q
  simp only [Quantity.mk.injEq, true_and]
  simp only at g2
  split
  · rename_i hk
    rw [if_pos hk] at g2
    rw [← g2]; ring
  · rename_i hk
    rw [if_neg hk] at g2
    exact g2.symm

/-- how whole numbers are written, for the example: `7` as seven strokes -/
def exText (x : Rat) : Str := if 0 ≤ x ∧ x.den = 1 then List.replicate x.num.toNat '|' else ['?']

example : (units 4 s!!" % " Demo.lib).1 = .ok ⟨.percentage, s!!"%", 1 / 25⟩ ∧
    (⟨.percentage, s!!"%", 1 / 25⟩ : Quantity).str exText = s!!"||||_%" ∧
    readText s!!"||||_%" = (s!!"||||", s!!"%") ∧
    (units 3 s!!"my_unit " Demo.lib).1 = .ok ⟨.user, s!!"my_unit", 3⟩ ∧
    (⟨.user, s!!"my_unit", 3⟩ : Quantity).str exText = s!!"|||_my_unit" ∧
    readText s!!"|||_my_unit" = (s!!"|||", s!!"my_unit") := by decide +kernel

example : QuotableName s!!"my_unit " := ⟨by decide, by decide, by decide, by decide⟩
example : (Demo.lib.dict.map Prod.fst).Nodup := by decide

/-- some way of writing numbers meets the hypothesis -/
example : ∃ (T : Rat → Str) (number : Str → Rat), Writes T number := by
  -- the numerator and the denominator in strokes, separated by signs
  have hnum : ∃ T : Rat → Str, (∀ x, '_' ∉ T x) ∧ Function.Injective T := by
    refine ⟨fun x => (if x.num < 0 then ['-'] else []) ++ List.replicate x.num.natAbs '|' ++
      '/' :: List.replicate x.den '|', ?_, ?_⟩
    · intro x
      simp only [List.mem_append, List.mem_cons, List.mem_replicate, not_or]
      refine ⟨⟨?_, by simp⟩, by decide, by simp⟩
      split <;> simp
    · intro x y h
      simp only at h
      have hc : ∀ (c : Char) (z : Rat), List.count c ((if z.num < 0 then ['-'] else []) ++
          List.replicate z.num.natAbs '|' ++ '/' :: List.replicate z.den '|') =
          (if z.num < 0 ∧ c = '-' then 1 else 0) + (if c = '|' then z.num.natAbs + z.den else 0) +
            (if c = '/' then 1 else 0) := by
        intro c z
        by_cases h1 : c = '-'
        · subst h1; by_cases hz : z.num < 0 <;> simp [hz, List.count_replicate]
        · by_cases h2 : c = '|'
          · subst h2; by_cases hz : z.num < 0 <;> simp [hz]
          · by_cases h3 : c = '/'
            · subst h3; by_cases hz : z.num < 0 <;> simp [hz, List.count_replicate]
            · by_cases hz : z.num < 0 <;>
                simp [hz, h1, h2, h3, Ne.symm h1, Ne.symm h2, Ne.symm h3, List.count_replicate]
      have hs : (x.num < 0) ↔ (y.num < 0) := by
        have a := hc '-' x
        rw [h, hc '-' y] at a
        by_cases h1 : x.num < 0 <;> by_cases h2 : y.num < 0 <;> simp [h1, h2] at a ⊢
      have hd : x.den = y.den := by
        have a := congrArg (fun l : Str => (l.reverse.takeWhile (· ≠ '/')).length) h
        have key : ∀ (p : Str) (n : Nat),
            ((p ++ '/' :: List.replicate n '|').reverse.takeWhile (· ≠ '/')).length = n := by
          intro p n
          rw [List.reverse_append, List.reverse_cons, List.reverse_replicate, List.append_assoc]
          induction n with
          | zero => simp
          | succ n ih =>
            rw [List.replicate_succ, List.cons_append, List.takeWhile_cons_of_pos (by decide), List.length_cons, ih]
        simpa only [key] using a
      have hn : x.num.natAbs = y.num.natAbs := by
        have a := hc '|' x
        rw [h, hc '|' y] at a
        simp at a
        omega
      apply Rat.ext _ hd
      omega
  obtain ⟨T, h1, h2⟩ := hnum
  exact ⟨T, Function.invFun T, h1, Function.leftInverse_invFun h2⟩

/-! ### C123 -/

/-- C123, partial. `q.values = x` changes the number and nothing else: the quantity shows x, unless it is a percentage. -/
theorem C123_values_partial (L : Lib) (q : Quantity) (x : Rat) (hv : Valid L q) :
    (q.setValues x).get = x ∧ (q.setValues x).unit = q.unit ∧ (q.setValues x).kind = q.kind ∧
      Valid L (q.setValues x) ∧ shown (q.setValues x) = (if q.kind = .percentage then x * 100 else x) :=
  ⟨rfl, rfl, rfl, hv, rfl⟩

/-- C123, partial. `q.units = u` keeps the number and the class; the class accepts the new unit if it is one of its names. -/
theorem C123_units_partial (L : Lib) (q : Quantity) (u : Str) :
    (q.setUnits u).get = q.get ∧ shown (q.setUnits u) = shown q ∧ (q.setUnits u).getUnit = u ∧
      (q.setUnits u).kind = q.kind ∧
      (∀ n, q.kind = .std n → (Valid L (q.setUnits u) ↔ u ∈ L.names n)) := by
  refine ⟨rfl, rfl, rfl, rfl, ?_⟩
  rintro n hn
  obtain ⟨k, un, x⟩ := q
  cases hn
  rfl

/-- C123 fails: `q.units = 'kg'` makes a length in kilograms (any name is taken), and `q.values = 50` makes a percentage of
5000. -/
theorem C123_fails :
    Valid Demo.lib ⟨.std s!!"Length", s!!"ft", 5⟩ ∧
    ¬ Valid Demo.lib ((⟨.std s!!"Length", s!!"ft", 5⟩ : Quantity).setUnits s!!"kg") ∧
    Valid Demo.lib ⟨.percentage, s!!"%", 1 / 10⟩ ∧
    shown ((⟨.percentage, s!!"%", 1 / 10⟩ : Quantity).setValues 50) = 5000 := by
  refine ⟨by decide, by decide +kernel, by decide, ?_⟩
  show (50 : Rat) * 100 = 5000
  norm_num

end Unyts

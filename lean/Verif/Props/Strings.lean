import Verif.Lemmas.Paren

/- C28-C33: splitting and reducing unit strings. -/
namespace Unyts
open Spec

/-! ### C28 splitting loses nothing -/

/-- C28: with no removals the parts joined give the string back; the call always returns when `''` is not
a separator. -/
theorem C28_multi_split_join (s : Str) (sep : List Str) (hne : [] ∉ sep) :
    ∃ parts, multiSplit s sep [] = some parts ∧ parts.flatten = s := by
  obtain ⟨r, hr⟩ := scan_some (l := dedup sep) (by rwa [mem_dedup]) (n := s.length) (s := s) (cur := []) (Nat.le_refl _)
  refine ⟨r.filter fun part => decide (part ∉ dedup [] ++ [[]]), by
    unfold multiSplit multiSplitOrd; rw [hr]; rfl, ?_⟩
  have hf := scan_flatten hr
  rw [List.nil_append] at hf
  rw [← hf]
  clear hr hf
  induction r with
  | nil => rfl
  | cons p r ih =>
    by_cases hp : p = []
    · subst hp; simpa [dedup] using ih
    · simpa [dedup, hp] using ih

/-- Removing parts removes whole parts only: what is left is the list without them. -/
theorem C28_remove_filters (s : Str) (sep rem : List Str) (parts : List Str)
    (h : multiSplit s sep [] = some parts) :
    multiSplit s sep rem = some (parts.filter fun p => decide (p ∉ rem)) := by
  unfold multiSplit multiSplitOrd at h ⊢
  cases hr : scan (sortSep (dedup sep)) s.length s [] with
  | none => simp [hr] at h
  | some r =>
    rw [hr] at h
    simp only [Option.map_some, Option.some.injEq] at h ⊢
    rw [← h, List.filter_filter]
    apply List.filter_congr
    intro p _
    have h0 : dedup [] = [] := rfl
    simp [mem_dedup, h0]

/-- The empty separator really has to be excluded: the code then never moves on. -/
theorem C28_empty_separator_hangs : multiSplit ['a'] [[]] [] = none := by decide

example : multiSplit s!!"kg*m/s**2" [['*'], ['/'], ['*', '*']] [] =
    some [s!!"kg", s!!"*", s!!"m", s!!"/", s!!"s", s!!"**", s!!"2"] := by decide +kernel

/-! ### C29 the order of separators does not matter -/

/-- C29: any two enumerations of the same separators (and of the same removals), repetitions included,
give the same result. -/
theorem C29_multi_split_order (s : Str) (seps seps' rem rem' : List Str)
    (h : ∀ x, x ∈ seps ↔ x ∈ seps') (hr : ∀ x, x ∈ rem ↔ x ∈ rem') :
    multiSplitOrd s seps rem = multiSplitOrd s seps' rem' := by
  unfold multiSplitOrd
  rw [scan_congr h]
  congr 1
  funext l
  apply List.filter_congr
  intro p _
  simp [hr]

example : multiSplitOrd s!!"a**b*c" [['*'], ['*', '*']] [] = some [s!!"a", s!!"**", s!!"b", s!!"*", s!!"c"] ∧
    multiSplitOrd s!!"a**b*c" [['*', '*'], ['*'], ['*']] [] = some [s!!"a", s!!"**", s!!"b", s!!"*", s!!"c"] := by
  decide +kernel

/-! ### C30 parts are atomic -/

/-- C30: every part is a separator, or a non-empty string in which no separator occurs. -/
theorem C30_multi_split_atomic (s : Str) (sep rem : List Str) (hne : [] ∉ sep) (parts : List Str)
    (h : multiSplit s sep rem = some parts) :
    ∀ p ∈ parts, p ∈ sep ∨ (p ≠ [] ∧ ∀ se ∈ sep, ¬ se <:+: p) := by
  unfold multiSplit multiSplitOrd at h
  cases hr : scan (sortSep (dedup sep)) s.length s [] with
  | none => simp [hr] at h
  | some r =>
    rw [hr] at h
    simp only [Option.map_some, Option.some.injEq] at h
    subst h
    intro p hp
    obtain ⟨hpr, hpk⟩ := List.mem_filter.1 hp
    have hne' : [] ∉ dedup sep := by rwa [mem_dedup]
    rcases scan_atomic hne' hr (by simp) p hpr with h1 | h1
    · exact Or.inl (mem_dedup.1 h1)
    · refine Or.inr ⟨?_, fun se hse => h1 se (mem_dedup.2 hse)⟩
      rintro rfl
      simp at hpk

example : [] ∉ opSeps ∧ multiSplit s!!"(a*b)" opSeps [] = some [s!!"(", s!!"a", s!!"*", s!!"b", s!!")"] := by
  decide +kernel

/-! ### C31 reduce_units preserves the dimension -/

/-- C31, the part that holds: no factor is repeated (a name may still appear above and below). -/
theorem C31_reduce_units_dimension_partial (u : Str) (h : PlainProduct u) (hnd : (factors u).Nodup) :
    dimOf (reduceUnits u) = dimOf u := by
  by_cases hs : '/' ∈ u
  · rw [reduceUnits_plain h hs]
    cases hr : ruF (factors u) 0 [] with
    | nil => rfl
    | cons f fs =>
      have hsub : ∀ g ∈ f :: fs, PlainName g.2 := fun g hg => h g (ruF_sub g (by rw [hr]; exact hg))
      funext x
      unfold dimOf
      by_cases hx : x = ['1']
      · simp [hx]
      · rw [if_neg hx, if_neg hx]
        have e : expo (factors (finishStr (f :: fs))) x = expo (f :: fs) x := by
          rw [factors_finish hsub]
          split
          · rw [expo_cons]; simp [Ne.symm hx]
          · rfl
        rw [e, ← hr, ruF_nodup hnd, expo_cancel hnd]
  · have hno : reduceUnits u = u := by
      unfold reduceUnits
      simp [hs]
    rw [hno]

/-- C31 fails when a factor is repeated: `a*a/a*b` becomes `b`, although it denotes `a*b`. -/
theorem C31_reduce_units_repeated_fails :
    PlainProduct s!!"a*a/a*b" ∧ reduceUnits s!!"a*a/a*b" = s!!"b" ∧
      dimOf s!!"a*a/a*b" s!!"a" = 1 ∧ dimOf s!!"b" s!!"a" = 0 := by
  unfold PlainProduct PlainName; decide +kernel

/-- C31 fails also for accelerations: `m/s/s*s` becomes `m`, although it denotes `m/s`. -/
theorem C31_reduce_units_acceleration_fails :
    PlainProduct s!!"m/s/s*s" ∧ reduceUnits s!!"m/s/s*s" = s!!"m" ∧ dimOf s!!"m/s/s*s" s!!"s" = -1 := by
  unfold PlainProduct PlainName; decide +kernel

example : PlainProduct s!!"kg*m/kg/s" ∧ (factors s!!"kg*m/kg/s").Nodup ∧ reduceUnits s!!"kg*m/kg/s" = s!!"m/s" := by
  unfold PlainProduct PlainName; decide +kernel
example : reduceUnits s!!"a*b/c/a/b" = s!!"1/c" := by decide +kernel

/-! ### C32 reduce_units removes what can be cancelled -/

/-- C32: in the result no name is both a numerator and a denominator, unless the code left the string as
it was; when a `/` is present that happens only if everything cancelled. (The name `1` that the code itself
writes before a leading '/' is not counted.) -/
theorem C32_reduce_units_reduced (u : Str) (h : PlainProduct u) (hs : '/' ∈ u) :
    (reduceUnits u = u ∧ ∀ x, (false, x) ∈ factors u → (true, x) ∈ factors u) ∨
    ∀ x, x ≠ ['1'] → ¬ ((false, x) ∈ factors (reduceUnits u) ∧ (true, x) ∈ factors (reduceUnits u)) := by
  rw [reduceUnits_plain h hs]
  cases hr : ruF (factors u) 0 [] with
  | nil =>
    left
    exact ⟨rfl, fun x hx => by simpa [flip1] using ruF_empty hr _ hx⟩
  | cons f fs =>
    right
    have hsub : ∀ g ∈ f :: fs, PlainName g.2 := fun g hg => h g (ruF_sub g (by rw [hr]; exact hg))
    rintro x hx ⟨h1, h2⟩
    simp only at h1 h2
    rw [factors_finish hsub] at h1 h2
    have h1' : (false, x) ∈ f :: fs := by
      split at h1
      · rcases List.mem_cons.1 h1 with h1 | h1
        · exact absurd (congrArg Prod.snd h1) hx
        · exact h1
      · exact h1
    have h2' : (true, x) ∈ f :: fs := by
      split at h2
      · rcases List.mem_cons.1 h2 with h2 | h2
        · exact absurd (congrArg Prod.fst h2) (by simp)
        · exact h2
      · exact h2
    rw [← hr] at h1' h2'
    exact ruF_reduced _ h1' (by simpa [flip1] using h2')

/-- C32: reducing again changes nothing (names are not the number 1 in the denominator). -/
theorem C32_reduce_units_idempotent (u : Str) (h : PlainProduct u) (h1 : (true, ['1']) ∉ factors u) :
    reduceUnits (reduceUnits u) = reduceUnits u := by
  by_cases hs : '/' ∈ u
  · cases hr : ruF (factors u) 0 [] with
    | nil =>
      have e : reduceUnits u = u := by rw [reduceUnits_plain h hs, hr]
      rw [e, e]
    | cons f fs =>
      have e : reduceUnits u = finishStr (f :: fs) := by rw [reduceUnits_plain h hs, hr]
      have hsub : ∀ g ∈ f :: fs, PlainName g.2 := fun g hg => h g (ruF_sub g (by rw [hr]; exact hg))
      have hred : ∀ g ∈ f :: fs, flip1 g ∉ f :: fs := by rw [← hr]; exact ruF_reduced
      have h1' : (true, ['1']) ∉ f :: fs := fun hm => h1 (ruF_sub _ (by rw [hr]; exact hm))
      have h1p : PlainName ['1'] := by unfold PlainName; decide
      rw [e]
      by_cases hs2 : '/' ∈ finishStr (f :: fs)
      · have hfac := factors_finish hsub
        have hpp : PlainProduct (finishStr (f :: fs)) := by
          intro g hg
          rw [hfac] at hg
          split at hg
          · rcases List.mem_cons.1 hg with rfl | hg
            · exact h1p
            · exact hsub g hg
          · exact hsub g hg
        have hred2 : ∀ g ∈ factors (finishStr (f :: fs)), flip1 g ∉ factors (finishStr (f :: fs)) := by
          rw [hfac]
          split
          · next hf =>
            intro g hg hgf
            rcases List.mem_cons.1 hg with rfl | hg
            · rcases List.mem_cons.1 hgf with hgf | hgf
              · exact absurd (congrArg Prod.fst hgf) (by simp [flip1])
              · exact h1' (by simpa [flip1] using hgf)
            · rcases List.mem_cons.1 hgf with hgf | hgf
              · have : g = (true, ['1']) := by rw [← flip1_flip1 g, hgf]; rfl
                exact h1' (this ▸ hg)
              · exact hred g hg hgf
          · exact hred
        rw [reduceUnits_plain hpp hs2, ruF_fixed hred2, hfac]
        by_cases hf : f.1 = true
        · rw [if_pos hf]
          have hp3 : ∀ g ∈ (false, ['1']) :: f :: fs, PlainName g.2 := by
            intro g hg
            rcases List.mem_cons.1 hg with rfl | hg
            · exact h1p
            · exact hsub g hg
          show finishStr _ = _
          rw [finish_cons hp3, finish_cons hsub, if_pos hf]; rfl
        · rw [if_neg hf]
      · generalize finishStr (f :: fs) = w at hs2
        unfold reduceUnits
        simp [hs2]
  · have hno : reduceUnits u = u := by
      unfold reduceUnits
      simp [hs]
    rw [hno, hno]

example : PlainProduct s!!"m*kg/s/kg" ∧ '/' ∈ s!!"m*kg/s/kg" ∧ (true, ['1']) ∉ factors s!!"m*kg/s/kg" ∧
    reduceUnits s!!"m*kg/s/kg" = s!!"m/s" ∧ reduceUnits s!!"m/s" = s!!"m/s" := by
  unfold PlainProduct PlainName; decide +kernel

/-! ### C33 reduce_parentheses -/

/-- C33: a different number of opening and closing parentheses raises ValueError, whatever the string. -/
theorem C33_unbalanced_raises (u : Str) (h : u.count '(' ≠ u.count ')') :
    reduceParentheses u = .error .valueError := by
  unfold reduceParentheses
  have : ¬ ('(' ∉ u ∧ ')' ∉ u) := by
    rintro ⟨h1, h2⟩
    rw [List.count_eq_zero_of_not_mem h1, List.count_eq_zero_of_not_mem h2] at h
    exact h rfl
  rw [if_neg this]
  split
  · rfl
  · rw [if_pos (by omega)]

/-- C33: whatever the string, if it has no operator other than '*' and '/', the result has no parentheses. -/
theorem C33_no_parentheses_left (u r : Str) (hop : '^' ∉ u ∧ '+' ∉ u ∧ '-' ∉ u ∧ ¬ ['*', '*'] <:+: u)
    (h : reduceParentheses u = .ok r) : '(' ∉ r ∧ ')' ∉ r := by
  unfold reduceParentheses at h
  split at h
  · next hp => cases h; exact hp
  · split at h
    · cases h
    · split at h
      · cases h
      · split at h
        · next hx =>
          exfalso
          rcases hx with hx | hx | hx | hx
          · exact hop.1 hx
          · exact hop.2.2.2 (subStr_iff.1 hx)
          · exact hop.2.1 hx
          · exact hop.2.2.1 hx
        · cases hl : rpLoop (opTokens u) false false with
          | error e => rw [hl] at h; cases h
          | ok l =>
            rw [hl] at h
            cases h
            have hat : ∀ t ∈ opTokens u, t ≠ ['('] → t ≠ [')'] → '(' ∉ t ∧ ')' ∉ t := by
              intro t ht h1 h2
              unfold opTokens at ht
              cases hm : multiSplit u opSeps [[' ']] with
              | none => rw [hm] at ht; simp at ht
              | some parts =>
                rw [hm] at ht
                rcases C30_multi_split_atomic u opSeps [[' ']] (by decide) parts hm t ht with h3 | ⟨_, h3⟩
                · simp only [opSeps, List.mem_cons, List.not_mem_nil, or_false] at h3
                  rcases h3 with h3 | h3 | h3 | h3 | h3 | h3 | h3 | h3 <;> subst h3 <;>
                    first | exact absurd rfl h1 | exact absurd rfl h2 | decide
                · constructor
                  · intro hc
                    exact h3 ['('] (by decide) (singleton_infix hc)
                  · intro hc
                    exact h3 [')'] (by decide) (singleton_infix hc)
            have := rpLoop_noParens hat hl
            constructor <;>
            · intro hc
              obtain ⟨t, ht, hct⟩ := List.mem_flatten.1 hc
              first | exact (this t ht).1 hct | exact (this t ht).2 hct

/-- C33, the part that holds: if nothing is divided by a parenthesis, or one parenthesis free of further
parentheses divides and only names follow it, the result is free of parentheses and means the same.
(The full property, for every expression, is false: see below.) -/
theorem C33_reduce_parentheses_meaning_partial (e : UExpr) (h : e.WF) (hn : e.NoDivParen ∨ e.DivOnce) :
    ∃ r, reduceParentheses e.write = .ok r ∧ '(' ∉ r ∧ ')' ∉ r ∧ dimOf r = e.dim := by
  have fin : ∀ (ts : List Str) (fs : List Factor), toks fs = ['*'] :: ts → (∃ n r, fs = (false, n) :: r) →
      (∀ f ∈ fs, PlainName f.2) → (∀ x, x ≠ ['1'] → expo fs x = e.dim x) →
      '(' ∉ ts.flatten ∧ ')' ∉ ts.flatten ∧ dimOf ts.flatten = e.dim := by
    rintro ts fs ht ⟨n, r, hfs⟩ hp hx
    have hfac := factors_of_toks hfs ht hp
    obtain ⟨h1, h2⟩ := noParens_of_plain (u := ts.flatten) (by rw [PlainProduct, hfac]; exact hp)
    refine ⟨h1, h2, ?_⟩
    funext x
    unfold dimOf
    split
    · next h => rw [h, dim_one]
    · next h => rw [hfac, hx x h]
  by_cases hpar : '(' ∈ e.write ∨ ')' ∈ e.write
  · rw [reduceParentheses_write h hpar]
    rcases hn with hn | hn
    · obtain ⟨inp, hl⟩ := rpLoop_noDiv h hn [] false
      rw [List.append_nil] at hl
      rw [hl]
      refine ⟨(ftoks e).flatten, by simp [rpLoop, Except.map], ?_⟩
      exact fin _ (ffac e) (toks_ffac h hn) (ffac_head e) (ffac_plain h) (fun x hx => expo_ffac e hx)
    · have hl := rpLoop_divOnce h hn [] false
      rw [List.append_nil] at hl
      rw [hl]
      refine ⟨(dtoks e).flatten, by simp [rpLoop, Except.map], ?_⟩
      exact fin _ (ffac e) (toks_ffac_divOnce h hn) (ffac_head e) (ffac_plain h) (fun x hx => expo_ffac e hx)
  · have hf := flat_of_noParen hpar
    have hr : reduceParentheses e.write = .ok e.write := by
      unfold reduceParentheses
      rw [if_pos (by simpa [not_or] using hpar)]
    refine ⟨e.write, hr, ?_⟩
    have := fin _ (ffac e) (toks_ffac h (flat_noDiv hf)) (ffac_head e) (ffac_plain h) (fun x hx => expo_ffac e hx)
    rw [write_eq, utoks_flat hf]
    exact this

/-- C33 fails for a parenthesis nested in a divisor: `a/((b*c)*d)` gives `a/b/c*d`. -/
theorem C33_nested_divisor_fails :
    reduceParentheses s!!"a/((b*c)*d)" = .ok s!!"a/b/c*d" ∧
    dimOf s!!"a/b/c*d" s!!"d" = 1 ∧
    (UExpr.bin (.name s!!"a") true (.paren (.bin (.paren (.bin (.name s!!"b") false (.name s!!"c"))) false
      (.name s!!"d")))).write = s!!"a/((b*c)*d)" ∧
    (UExpr.bin (.name s!!"a") true (.paren (.bin (.paren (.bin (.name s!!"b") false (.name s!!"c"))) false
      (.name s!!"d")))).dim s!!"d" = -1 := by decide +kernel

/-- C33 fails for a second parenthesis after a divisor: `a/(b*c)*(d*e)` gives `a/b/c*d/e`. -/
theorem C33_second_parenthesis_fails :
    reduceParentheses s!!"a/(b*c)*(d*e)" = .ok s!!"a/b/c*d/e" ∧
    dimOf s!!"a/b/c*d/e" s!!"e" = -1 ∧
    (UExpr.bin (.bin (.name s!!"a") true (.paren (.bin (.name s!!"b") false (.name s!!"c")))) false
      (.paren (.bin (.name s!!"d") false (.name s!!"e")))).dim s!!"e" = 1 := by decide +kernel

/-- A trailing '/' beside parentheses raises IndexError. -/
theorem C33_trailing_slash_indexError : reduceParentheses s!!"(a)/" = .error .indexError := by decide +kernel

example : ((UExpr.bin (.bin (.name s!!"stb") true (.paren (.bin (.name s!!"day") false (.name s!!"psi")))) false
    (.name s!!"cP"))).DivOnce ∧
    reduceParentheses s!!"stb/(day*psi)*cP" = .ok s!!"stb/day/psi*cP" := by
  refine ⟨?_, by decide +kernel⟩
  simp [UExpr.DivOnce, UExpr.NoDivParen, UExpr.Flat]
example : (UExpr.bin (.paren (.bin (.name s!!"a") false (.name s!!"b"))) true (.name s!!"c")).NoDivParen ∧
    reduceParentheses s!!"(a*b)/c" = .ok s!!"a*b/c" := by
  refine ⟨by simp [UExpr.NoDivParen, UExpr.isParen], by decide +kernel⟩
example : s!!"a/(b".count '(' ≠ s!!"a/(b".count ')' := by decide +kernel

end Unyts

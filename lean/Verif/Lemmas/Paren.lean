import Verif.Lemmas.Reduce

namespace Unyts
open Spec

/-- tokens of an expression -/
def utoks : UExpr → List Str
  | .name n => [n]
  | .bin l d r => utoks l ++ [opOf d] :: utoks r
  | .paren e => ['('] :: (utoks e ++ [[')']])

theorem write_eq (e : UExpr) : e.write = (utoks e).flatten := by
  induction e with
  | name n => simp [UExpr.write, utoks]
  | bin l d r ihl ihr => simp [UExpr.write, utoks, ihl, ihr, opOf]
  | paren e ih => simp [UExpr.write, utoks, ih]

theorem utoks_head {e : UExpr} (h : e.WF) : ∃ t ts, utoks e = t :: ts ∧ (PlainName t ∨ t = ['(']) := by
  induction e with
  | name n => exact ⟨n, [], rfl, Or.inl h⟩
  | bin l d r ihl ihr =>
    obtain ⟨t, ts, he, ht⟩ := ihl h.1
    exact ⟨t, _, by rw [utoks, he, List.cons_append], ht⟩
  | paren e ih => exact ⟨_, _, rfl, Or.inr rfl⟩

theorem PlainName_ne_op {w : Str} (h : PlainName w) {c : Char} (hc : c ∈ opChars) : w ≠ [c] := by
  intro e
  exact h.notOp c (by rw [e]; simp) hc

theorem tokSeq_utoks {e : UExpr} (h : e.WF) : ∀ rest, TokSeq rest →
    (∀ t, rest.head? = some t → ∃ c ∈ opChars, t = [c]) → TokSeq (utoks e ++ rest) := by
  induction e with
  | name n => intro rest hr ho; exact .word h ho hr
  | bin l d r ihl ihr =>
    intro rest hr ho
    simp only [utoks, List.append_assoc, List.cons_append]
    apply ihl h.1
    · refine .op (opOf_mem d) ?_ (ihr h.2.1 rest hr ho)
      intro _ he
      obtain ⟨t, ts, ht, hp⟩ := utoks_head h.2.1
      rw [ht] at he
      simp at he
      rcases hp with hp | hp
      · exact PlainName_ne_op hp (by decide) he
      · rw [hp] at he; simp at he
    · intro t ht; simp at ht; exact ⟨_, opOf_mem d, ht.symm⟩
  | paren e ih =>
    intro rest hr ho
    simp only [utoks, List.cons_append, List.append_assoc]
    refine .op (by decide) (fun h => absurd h (by decide)) (ih h _ (.op (by decide) (fun h => absurd h (by decide)) hr) ?_)
    intro t ht; simp at ht; exact ⟨')', by decide, ht.symm⟩

theorem opTokens_write {e : UExpr} (h : e.WF) : opTokens e.write = utoks e := by
  have := tokSeq_utoks h [] .nil (by simp)
  rw [List.append_nil] at this
  rw [write_eq, opTokens_flatten this]

theorem subStr_word {w : Str} (hw : ∀ c ∈ w, c ≠ '*') (s : Str) (hs : Py.subStr ['*', '*'] s = false) :
    Py.subStr ['*', '*'] (w ++ s) = false := by
  induction w with
  | nil => exact hs
  | cons c w ih =>
    rw [List.cons_append, Py.subStr, ih (fun x hx => hw x (by simp [hx]))]
    have := hw c (by simp)
    simp [List.isPrefixOf, Ne.symm this]

theorem no_starstar {ts : List Str} (h : TokSeq ts) : Py.subStr ['*', '*'] ts.flatten = false := by
  induction h with
  | nil => rfl
  | @op c ts hc hst hts ih =>
    simp only [List.flatten_cons, List.singleton_append, Py.subStr, ih, Bool.or_false]
    by_cases hc' : c = '*'
    · subst hc'
      cases hf : ts.flatten with
      | nil => rfl
      | cons d r =>
        have : d ≠ '*' := by
          rintro rfl
          exact hst rfl (hts.head_star (by rw [hf]; rfl))
        simp [List.isPrefixOf, Ne.symm this]
    · simp [List.isPrefixOf, Ne.symm hc']
  | @word w ts hw _ _ ih =>
    rw [List.flatten_cons]
    exact subStr_word (fun c hc => (hw.noSep c hc).1) _ ih

/-- tokens without the parentheses -/
def ftoks : UExpr → List Str
  | .name n => [n]
  | .bin l d r => ftoks l ++ [opOf d] :: ftoks r
  | .paren e => ftoks e

/-- factors, left to right, when nothing is divided by a parenthesis -/
def ffac : UExpr → List Factor
  | .name n => [(false, n)]
  | .bin l d r => ffac l ++ (if d then (ffac r).map flip1 else ffac r)
  | .paren e => ffac e

theorem subStr_parens {w : Str} (h : PlainName w) : Py.subStr w ['(', ')'] = false := by
  obtain ⟨c, r, rfl⟩ := List.exists_cons_of_ne_nil h.1
  have hc := h.notOp c (by simp)
  have h1 : c ≠ '(' := by rintro rfl; exact hc (by decide)
  have h2 : c ≠ ')' := by rintro rfl; exact hc (by decide)
  simp [Py.subStr, List.isPrefixOf, h1, h2]

theorem subStr_ops {w : Str} (h : PlainName w) : Py.subStr w ['*', '/'] = false := by
  obtain ⟨c, r, rfl⟩ := List.exists_cons_of_ne_nil h.1
  have hc := h.notOp c (by simp)
  have h1 : c ≠ '*' := by rintro rfl; exact hc (by decide)
  have h2 : c ≠ '/' := by rintro rfl; exact hc (by decide)
  simp [Py.subStr, List.isPrefixOf, h1, h2]

theorem rpLoop_word {w : Str} (h : PlainName w) (ts : List Str) (inv inp : Bool) :
    rpLoop (w :: ts) inv inp = (rpLoop ts inv inp).map ([w] ++ ·) := by
  rw [rpLoop]
  simp only [subStr_parens h, subStr_ops h, Bool.false_and, Bool.false_eq_true, if_false, Bool.not_false, if_true,
    if_neg (PlainName_ne_op h (c := '/') (by decide)), if_neg (PlainName_ne_op h (c := '(') (by decide)),
    if_neg (PlainName_ne_op h (c := ')') (by decide))]

theorem rpLoop_open (ts : List Str) (inv inp : Bool) :
    rpLoop (['('] :: ts) inv inp = rpLoop ts inv true := by
  rw [rpLoop]
  have h1 : Py.subStr ['('] ['*', '/'] = false := by decide
  have h2 : Py.subStr ['('] ['(', ')'] = true := by decide
  simp only [h1, h2, Bool.false_and, Bool.false_eq_true, if_false, Bool.not_true]
  rw [if_neg (by decide)]
  cases rpLoop ts inv true <;> rfl

theorem rpLoop_close (ts : List Str) (inv inp : Bool) :
    rpLoop ([')'] :: ts) inv inp = rpLoop ts inv false := by
  rw [rpLoop]
  have h1 : Py.subStr [')'] ['*', '/'] = false := by decide
  have h2 : Py.subStr [')'] ['(', ')'] = true := by decide
  simp only [h1, h2, Bool.false_and, Bool.false_eq_true, if_false, Bool.not_true]
  rw [if_neg (by decide), if_neg (by decide)]
  cases rpLoop ts inv false <;> rfl

/-- an operator before something that is not an opening parenthesis, or '*' -/
theorem rpLoop_op {d : Bool} {t : Str} {ts : List Str} (h : d = true → t ≠ ['(']) (inv inp : Bool) :
    rpLoop ([opOf d] :: t :: ts) inv inp =
      (rpLoop (t :: ts) inv inp).map ([if inp && inv then [opOf (!d)] else [opOf d]] ++ ·) := by
  rw [rpLoop]
  have h1 : Py.subStr [opOf d] ['*', '/'] = true := by cases d <;> decide
  have h2 : Py.subStr [opOf d] ['(', ')'] = false := by cases d <;> decide
  have h3 : [opOf d] ≠ ['('] := by cases d <;> decide
  have h4 : [opOf d] ≠ [')'] := by cases d <;> decide
  simp only [h1, h2, Bool.true_and, Bool.not_false, if_true, if_neg h3, if_neg h4]
  cases d with
  | false =>
    have : ¬ [opOf false] = ['/'] := by decide
    simp only [if_neg this]
    cases inp <;> cases inv <;> rfl
  | true =>
    have : [opOf true] = ['/'] := by decide
    simp only [this, if_true, List.head?_cons, if_neg (h rfl)]
    cases inp <;> cases inv <;> rfl

/-- '/' before an opening parenthesis toggles the inversion -/
theorem rpLoop_div_open {ts : List Str} (inv inp : Bool) :
    rpLoop (['/'] :: ['('] :: ts) inv inp =
      (rpLoop ts (!inv) true).map ([if inp && inv then ['*'] else ['/']] ++ ·) := by
  rw [rpLoop]
  have h1 : Py.subStr ['/'] ['*', '/'] = true := by decide
  have h2 : Py.subStr ['/'] ['(', ')'] = false := by decide
  simp only [h1, h2, Bool.true_and, Bool.not_false, if_true, rpLoop_open]
  cases inp <;> cases inv <;> rfl

theorem map_map_res (r : Res (List Str)) (a b : List Str) :
    (r.map (a ++ ·)).map (b ++ ·) = r.map ((b ++ a) ++ ·) := by
  cases r <;> simp [Except.map]

theorem map_nil_res (r : Res (List Str)) : r.map ([] ++ ·) = r := by
  cases r <;> simp [Except.map]

theorem rpLoop_noDiv {e : UExpr} (h : e.WF) (hn : e.NoDivParen) : ∀ (rest : List Str) (inp : Bool),
    ∃ inp', rpLoop (utoks e ++ rest) false inp = (rpLoop rest false inp').map (ftoks e ++ ·) := by
  induction e with
  | name n => intro rest inp; exact ⟨inp, rpLoop_word h rest false inp⟩
  | bin l d r ihl ihr =>
    intro rest inp
    obtain ⟨t, ts, ht, hp⟩ := utoks_head h.2.1
    obtain ⟨inp1, h1⟩ := ihl h.1 hn.1 ([opOf d] :: utoks r ++ rest) inp
    obtain ⟨inp2, h2⟩ := ihr h.2.1 hn.2.1 rest inp1
    refine ⟨inp2, ?_⟩
    have hop : d = true → t ≠ ['('] := by
      intro hd he
      have := hn.2.2 hd
      cases r with
      | name n => simp [utoks] at ht; exact PlainName_ne_op h.2.1 (by decide) (ht.1.trans he)
      | bin _ _ _ => exact absurd h.2.2 (by simp [UExpr.isBin])
      | paren _ => simp [UExpr.isParen] at this
    simp only [utoks, List.append_assoc, List.cons_append] at h1 ⊢
    rw [h1, ht, List.cons_append, rpLoop_op hop, ← List.cons_append, ← ht, h2]
    simp only [map_map_res, ftoks, Bool.and_false]
    simp
  | paren e ih =>
    intro rest inp
    obtain ⟨inp1, h1⟩ := ih h hn ([')'] :: rest) true
    refine ⟨false, ?_⟩
    simp only [utoks, List.cons_append, List.append_assoc, rpLoop_open, List.nil_append]
    rw [h1]
    simp only [rpLoop_close]
    rfl

/-- a flat expression inside a division -/
def itoks : UExpr → List Str
  | .name n => [n]
  | .bin l d r => itoks l ++ [opOf (!d)] :: itoks r
  | .paren e => itoks e

theorem rpLoop_flat {e : UExpr} (h : e.WF) (hf : e.Flat) (rest : List Str) (inv inp : Bool) :
    rpLoop (utoks e ++ rest) inv inp =
      (rpLoop rest inv inp).map ((if inp && inv then itoks e else ftoks e) ++ ·) := by
  induction e generalizing rest with
  | name n =>
    have := rpLoop_word h rest inv inp
    simpa [utoks, itoks, ftoks] using this
  | bin l d r ihl ihr =>
    cases r with
    | bin _ _ _ => exact absurd h.2.2 (by simp [UExpr.isBin])
    | paren _ => exact absurd hf.2 (by simp [UExpr.Flat])
    | name n =>
      simp only [utoks, List.append_assoc, List.cons_append, List.nil_append]
      rw [ihl h.1 hf.1, rpLoop_op (fun _ => PlainName_ne_op h.2.1 (by decide)), rpLoop_word h.2.1]
      simp only [map_map_res, ftoks, itoks]
      cases inp <;> cases inv <;> simp
  | paren e ih => exact absurd hf (by simp [UExpr.Flat])

theorem flat_noDiv {e : UExpr} (hf : e.Flat) : e.NoDivParen := by
  induction e with
  | name n => trivial
  | bin l d r ihl ihr =>
    refine ⟨ihl hf.1, ihr hf.2, fun _ => ?_⟩
    cases r with
    | paren _ => exact absurd hf.2 (by simp [UExpr.Flat])
    | _ => rfl
  | paren e ih => exact absurd hf (by simp [UExpr.Flat])

theorem toks_append (a b : List Factor) : toks (a ++ b) = toks a ++ toks b := by simp [toks]

theorem toks_ffac {e : UExpr} (h : e.WF) (hn : e.NoDivParen) : toks (ffac e) = ['*'] :: ftoks e := by
  induction e with
  | name n => rfl
  | bin l d r ihl ihr =>
    rw [ffac, toks_append, ihl h.1 hn.1]
    cases d with
    | false => simp [ihr h.2.1 hn.2.1, ftoks, opOf]
    | true =>
      cases r with
      | name n => simp [ffac, flip1, toks, ftoks, opOf]
      | bin _ _ _ => exact absurd h.2.2 (by simp [UExpr.isBin])
      | paren _ => exact absurd (hn.2.2 rfl) (by simp [UExpr.isParen])
  | paren e ih => exact ih h hn

theorem toks_flip_ffac {e : UExpr} (h : e.WF) (hf : e.Flat) : toks ((ffac e).map flip1) = ['/'] :: itoks e := by
  induction e with
  | name n => rfl
  | bin l d r ihl ihr =>
    rw [ffac, List.map_append, toks_append, ihl h.1 hf.1]
    cases r with
    | name n => cases d <;> simp [ffac, flip1, toks, itoks, opOf]
    | bin _ _ _ => exact absurd h.2.2 (by simp [UExpr.isBin])
    | paren _ => exact absurd hf.2 (by simp [UExpr.Flat])
  | paren e ih => exact absurd hf (by simp [UExpr.Flat])

theorem ffac_plain {e : UExpr} (h : e.WF) : ∀ f ∈ ffac e, PlainName f.2 := by
  induction e with
  | name n => intro f hf; simp [ffac] at hf; subst hf; exact h
  | bin l d r ihl ihr =>
    intro f hf
    rw [ffac, List.mem_append] at hf
    rcases hf with hf | hf
    · exact ihl h.1 f hf
    · cases d
      · exact ihr h.2.1 f (by simpa using hf)
      · simp only [if_true] at hf
        obtain ⟨g, hg, rfl⟩ := List.mem_map.1 hf
        exact ihr h.2.1 g hg
  | paren e ih => exact ih h

theorem ffac_head (e : UExpr) : ∃ n fs, ffac e = (false, n) :: fs := by
  induction e with
  | name n => exact ⟨n, [], rfl⟩
  | bin l d r ihl ihr =>
    obtain ⟨n, fs, h⟩ := ihl
    exact ⟨n, _, by rw [ffac, h, List.cons_append]⟩
  | paren e ih => exact ih

theorem expo_flip (fs : List Factor) (x : Str) : expo (fs.map flip1) x = - expo fs x := by
  induction fs with
  | nil => simp [expo]
  | cons f r ih =>
    rw [List.map_cons, expo_cons, expo_cons, ih]
    obtain ⟨d, n⟩ := f
    simp only [flip1]
    by_cases hn : n = x
    · cases d <;> simp [hn] <;> omega
    · simp [hn]

theorem expo_ffac (e : UExpr) {x : Str} (hx : x ≠ ['1']) : expo (ffac e) x = e.dim x := by
  induction e with
  | name n => simp [ffac, expo, UExpr.dim, hx]
  | bin l d r ihl ihr =>
    rw [ffac, expo_append, UExpr.dim, ihl]
    cases d
    · simp [ihr]
    · simp [expo_flip, ihr]; omega
  | paren e ih => exact ih

theorem dim_one (e : UExpr) : e.dim ['1'] = 0 := by
  induction e with
  | name n => simp [UExpr.dim]
  | bin l d r ihl ihr => simp [UExpr.dim, ihl, ihr]
  | paren e ih => exact ih

/-- the string whose tokens are those of the factors, without the leading '*' -/
theorem factors_of_toks {fs : List Factor} {ts : List Str} {n : Str} {r : List Factor} (hfs : fs = (false, n) :: r)
    (h : toks fs = ['*'] :: ts) (hp : ∀ f ∈ fs, PlainName f.2) : factors ts.flatten = fs := by
  subst hfs
  have : ts = n :: toks r := by
    have e : toks ((false, n) :: r) = ['*'] :: n :: toks r := rfl
    rw [e] at h; simpa using h.symm
  subst this
  rw [List.flatten_cons, toks_flatten, factors_render (hp (false, n) (by simp)) (fun f hf => hp f (by simp [hf]))]

theorem mem_of_factors {u : Str} {c : Char} (hc : c ∈ u) : c = '*' ∨ c = '/' ∨ ∃ f ∈ factors u, c ∈ f.2 := by
  have hc' : c ∈ ((factors u).map tok1).flatten := by rw [factors_write]; simp [hc]
  rw [List.mem_flatten] at hc'
  obtain ⟨t, ht, hct⟩ := hc'
  obtain ⟨f, hf, rfl⟩ := List.mem_map.1 ht
  rcases List.mem_cons.1 hct with rfl | hct
  · cases f.1
    · exact Or.inl rfl
    · exact Or.inr (Or.inl rfl)
  · exact Or.inr (Or.inr ⟨f, hf, hct⟩)

theorem noParens_of_plain {u : Str} (h : PlainProduct u) : '(' ∉ u ∧ ')' ∉ u := by
  constructor <;>
  · intro hc
    rcases mem_of_factors hc with h1 | h1 | ⟨f, hf, hcf⟩
    · simp at h1
    · simp at h1
    · exact absurd ((h f hf).notOp _ hcf) (by decide)

theorem count_parens {e : UExpr} (h : e.WF) : e.write.count '(' = e.write.count ')' := by
  induction e with
  | name n =>
    have h1 : '(' ∉ n := fun hc => (h : PlainName n).notOp _ hc (by decide)
    have h2 : ')' ∉ n := fun hc => (h : PlainName n).notOp _ hc (by decide)
    simp [UExpr.write, List.count_eq_zero_of_not_mem h1, List.count_eq_zero_of_not_mem h2]
  | bin l d r ihl ihr =>
    have := ihl h.1
    have := ihr h.2.1
    cases d <;> simp [UExpr.write] <;> omega
  | paren e ih => have := ih h; simp [UExpr.write]; omega

theorem write_chars {e : UExpr} (h : e.WF) : '^' ∉ e.write ∧ '+' ∉ e.write ∧ '-' ∉ e.write := by
  induction e with
  | name n =>
    refine ⟨?_, ?_, ?_⟩ <;> exact fun hc => (h : PlainName n).notOp _ hc (by decide)
  | bin l d r ihl ihr =>
    have h1 := ihl h.1
    have h2 := ihr h.2.1
    cases d <;> simp [UExpr.write, h1, h2]
  | paren e ih => have := ih h; simp [UExpr.write, this]

/-- the code runs its loop on a written expression with parentheses -/
theorem reduceParentheses_write {e : UExpr} (h : e.WF) (hp : '(' ∈ e.write ∨ ')' ∈ e.write) :
    reduceParentheses e.write = (rpLoop (utoks e) false false).map List.flatten := by
  unfold reduceParentheses
  have hc := count_parens h
  have hw := write_chars h
  have hs : Py.subStr ['*', '*'] e.write = false := by
    have := tokSeq_utoks h [] .nil (by simp)
    rw [List.append_nil] at this
    rw [write_eq]; exact no_starstar this
  rw [if_neg (by intro h; rcases hp with hp | hp <;> simp_all), if_neg (by omega), if_neg (by omega),
    if_neg (by simp [hw, hs]), opTokens_write h]

/-- without parentheses the written expression is its flat form -/
theorem flat_of_noParen {e : UExpr} (hp : ¬ ('(' ∈ e.write ∨ ')' ∈ e.write)) : e.Flat := by
  induction e with
  | name n => trivial
  | bin l d r ihl ihr =>
    simp only [UExpr.write, List.mem_append, List.mem_cons] at hp
    refine ⟨ihl ?_, ihr ?_⟩
    · intro h; exact hp (h.elim (fun h => Or.inl (Or.inl h)) (fun h => Or.inr (Or.inl h)))
    · intro h; exact hp (h.elim (fun h => Or.inl (Or.inr (Or.inr h))) (fun h => Or.inr (Or.inr (Or.inr h))))
  | paren e ih => exact absurd (by simp [UExpr.write]) hp

theorem utoks_flat {e : UExpr} (h : e.Flat) : utoks e = ftoks e := by
  induction e with
  | name n => rfl
  | bin l d r ihl ihr => rw [utoks, ftoks, ihl h.1, ihr h.2]
  | paren e ih => exact absurd h (by simp [UExpr.Flat])

/-! ### one division by a parenthesis -/

/-- tokens after the division was distributed -/
def dtoks : UExpr → List Str
  | .name n => [n]
  | .bin l d (.name n) => dtoks l ++ [[opOf d], n]
  | .bin l d (.paren q) => ftoks l ++ [opOf d] :: (if d then itoks q else dtoks q)
  | .bin _ _ (.bin _ _ _) => []
  | .paren e => dtoks e

theorem rpLoop_divOnce {e : UExpr} (h : e.WF) (hd : e.DivOnce) : ∀ (rest : List Str) (inp : Bool),
    rpLoop (utoks e ++ rest) false inp = (rpLoop rest true false).map (dtoks e ++ ·) := by
  induction e with
  | name n => exact absurd hd (by simp [UExpr.DivOnce])
  | bin l d r ihl ihr =>
    intro rest inp
    cases r with
    | name n =>
      simp only [utoks, List.append_assoc, List.cons_append, List.nil_append]
      rw [ihl h.1 hd, rpLoop_op (fun _ => PlainName_ne_op h.2.1 (by decide)), rpLoop_word h.2.1]
      simp only [map_map_res, dtoks]
      simp
    | bin _ _ _ => exact absurd h.2.2 (by simp [UExpr.isBin])
    | paren q =>
      obtain ⟨hl, hq⟩ := hd
      simp only [utoks, List.append_assoc, List.cons_append, List.nil_append]
      obtain ⟨inp1, h1⟩ := rpLoop_noDiv h.1 hl ([opOf d] :: ['('] :: (utoks q ++ ([')'] :: rest))) inp
      rw [h1]
      rcases hq with ⟨rfl, hq⟩ | ⟨rfl, hq⟩
      · have : [opOf true] = ['/'] := by decide
        rw [this, rpLoop_div_open, rpLoop_flat (e := q) h.2.1 hq, rpLoop_close]
        simp only [map_map_res, dtoks, this]
        simp
      · rw [rpLoop_op (by simp)]
        have := ihr h.2.1 hq rest inp1
        simp only [utoks, List.append_assoc, List.cons_append, List.nil_append] at this
        rw [this]
        simp only [map_map_res, dtoks]
        simp
  | paren e ih =>
    intro rest inp
    simp only [utoks, List.cons_append, List.append_assoc, rpLoop_open, List.nil_append]
    rw [ih h hd, rpLoop_close]
    rfl

theorem toks_ffac_divOnce {e : UExpr} (h : e.WF) (hd : e.DivOnce) : toks (ffac e) = ['*'] :: dtoks e := by
  induction e with
  | name n => rfl
  | bin l d r ihl ihr =>
    cases r with
    | name n =>
      rw [ffac, toks_append, ihl h.1 hd]
      cases d <;> simp [ffac, flip1, toks, dtoks, opOf]
    | bin _ _ _ => exact absurd h.2.2 (by simp [UExpr.isBin])
    | paren q =>
      obtain ⟨hl, hq⟩ := hd
      rw [ffac, toks_append, toks_ffac h.1 hl]
      rcases hq with ⟨rfl, hq⟩ | ⟨rfl, hq⟩
      · have := toks_flip_ffac (e := q) h.2.1 hq
        simp only [if_true, ffac, this, dtoks]
        rfl
      · have := ihr h.2.1 hq
        simp only [ffac, dtoks] at this ⊢
        simp [this, opOf]
  | paren e ih => exact ih h hd

/-! ### no parenthesis is left -/

theorem subStr_iff {a s : Str} : Py.subStr a s = true ↔ a <:+: s := by
  induction s with
  | nil => cases a <;> simp [Py.subStr]
  | cons c s ih =>
    rw [Py.subStr, Bool.or_eq_true, ih, List.infix_cons_iff, List.isPrefixOf_iff_prefix]

theorem singleton_infix {c : Char} {s : Str} (h : c ∈ s) : [c] <:+: s := by
  obtain ⟨a, b, rfl⟩ := List.append_of_mem h
  exact ⟨a, b, by simp⟩

theorem rpLoop_noParens {ts : List Str} (h : ∀ t ∈ ts, t ≠ ['('] → t ≠ [')'] → '(' ∉ t ∧ ')' ∉ t) :
    ∀ {inv inp : Bool} {l : List Str}, rpLoop ts inv inp = .ok l → ∀ t ∈ l, '(' ∉ t ∧ ')' ∉ t := by
  induction ts with
  | nil => intro inv inp l hl; cases hl; simp
  | cons t ts ih =>
    intro inv inp l hl
    have ih' := @ih (fun t ht => h t (by simp [ht]))
    have hout : ∀ (out : List Str) (inv' inp' : Bool), (∀ x ∈ out, '(' ∉ x ∧ ')' ∉ x) →
        (rpLoop ts inv' inp').map (out ++ ·) = .ok l → ∀ t ∈ l, '(' ∉ t ∧ ')' ∉ t := by
      intro out inv' inp' ho hr
      cases hl' : rpLoop ts inv' inp' with
      | error e => rw [hl'] at hr; cases hr
      | ok l' =>
        rw [hl'] at hr
        cases hr
        intro x hx
        rcases List.mem_append.1 hx with hx | hx
        · exact ho x hx
        · exact ih' hl' x hx
    have ho : ∀ x ∈ (if Py.subStr t ['*', '/'] && inp && inv then [if t = ['/'] then ['*'] else ['/']]
        else if !Py.subStr t ['(', ')'] then [t] else [] : List Str), '(' ∉ x ∧ ')' ∉ x := by
      intro x hx
      split at hx
      · split at hx <;> simp at hx <;> subst hx <;> decide
      · split at hx
        · next hs =>
          simp only [List.mem_singleton] at hx
          subst hx
          refine h x (by simp) ?_ ?_ <;> (rintro rfl; revert hs; decide)
        · simp at hx
    rw [rpLoop] at hl
    generalize hg : (if Py.subStr t ['*', '/'] && inp && inv then [if t = ['/'] then ['*'] else ['/']]
        else if !Py.subStr t ['(', ')'] then [t] else [] : List Str) = out at hl ho
    split at hl
    · split at hl
      · cases hl
      · split at hl <;> exact hout _ _ _ ho hl
    · split at hl
      · exact hout _ _ _ ho hl
      · split at hl <;> exact hout _ _ _ ho hl

end Unyts

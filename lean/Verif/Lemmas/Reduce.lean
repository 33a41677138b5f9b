import Verif.Lemmas.Strings
import Verif.Spec.UnitString

namespace Unyts
open Spec

/-! ### tokenising -/

/-- token lists in which words are separated by operators and no '*' follows a '*' -/
inductive TokSeq : List Str → Prop
  | nil : TokSeq []
  | op {c : Char} {ts : List Str} : c ∈ opChars → (c = '*' → ts.head? ≠ some ['*']) → TokSeq ts → TokSeq ([c] :: ts)
  | word {w : Str} {ts : List Str} : PlainName w → (∀ t, ts.head? = some t → ∃ c ∈ opChars, t = [c]) →
      TokSeq ts → TokSeq (w :: ts)

theorem Spec.PlainName.notOp {w : Str} (h : PlainName w) : ∀ c ∈ w, c ∉ opChars := h.2.2

theorem TokSeq.head_star {ts : List Str} (h : TokSeq ts) (hs : ts.flatten.head? = some '*') :
    ts.head? = some ['*'] := by
  cases h with
  | nil => simp at hs
  | op hc _ _ => simp at hs; subst hs; rfl
  | @word w ts hw _ _ =>
    obtain ⟨c, r, rfl⟩ := List.exists_cons_of_ne_nil hw.1
    simp at hs
    subst hs
    exact absurd (hw.notOp '*' (by simp)) (by decide)

def keepTok (p : Str) : Bool := decide (p ∉ dedup [[' ']] ++ [[]])

theorem keepTok_op {c : Char} (h : c ∈ opChars) : keepTok [c] = true := by
  simp only [opChars, List.mem_cons, List.not_mem_nil, or_false] at h
  rcases h with rfl | rfl | rfl | rfl | rfl | rfl | rfl <;> decide

theorem keepTok_word {w : Str} (h : PlainName w) : keepTok w = true := by
  unfold keepTok
  simp only [decide_eq_true_eq, List.mem_append, mem_dedup, List.mem_singleton]
  rintro (h1 | h1)
  · exact h.2.1 h1
  · exact h.1 h1

theorem scan_tokSeq {ts : List Str} (h : TokSeq ts) :
    ∀ (n : Nat) (cur : Str), ts.flatten.length ≤ n →
      (cur = [] ∨ ∀ t, ts.head? = some t → ∃ c ∈ opChars, t = [c]) →
      ∃ l, scan (sortSep (dedup opSeps)) n ts.flatten cur = some l ∧
        l.filter keepTok = [cur].filter keepTok ++ ts := by
  induction h with
  | nil => intro n cur _ _; exact ⟨[cur], by cases n <;> simp [scan], by simp⟩
  | @op c ts hc hst hts ih =>
    intro n cur hn _
    simp only [List.flatten_cons, List.singleton_append, List.length_cons] at hn ⊢
    obtain ⟨n, rfl⟩ : ∃ k, n = k + 1 := ⟨n - 1, by omega⟩
    rw [scan_op hc (fun e he => hst e (hts.head_star he))]
    obtain ⟨l, hl, hf⟩ := ih n [] (by omega) (Or.inl rfl)
    rw [hl]
    refine ⟨_, rfl, ?_⟩
    have h0 : keepTok [] = false := by decide
    simp only [List.filter_cons, keepTok_op hc, List.filter_nil, if_true, hf, h0]
    cases keepTok cur <;> simp
  | @word w ts hw hop hts ih =>
    intro n cur hn hcur
    have hcur : cur = [] := by
      rcases hcur with h | h
      · exact h
      · obtain ⟨c, hc, hwc⟩ := h w (by simp)
        exact absurd hc (hw.notOp c (by rw [hwc]; simp))
    subst hcur
    simp only [List.flatten_cons, List.length_append] at hn ⊢
    obtain ⟨n, rfl⟩ : ∃ k, n = w.length + k := ⟨n - w.length, by omega⟩
    rw [scan_plain hw.notOp]
    obtain ⟨l, hl, hf⟩ := ih n ([] ++ w) (by omega) (Or.inr hop)
    refine ⟨l, hl, ?_⟩
    have h0 : keepTok [] = false := by decide
    rw [hf]
    simp [keepTok_word hw, h0]

theorem opTokens_flatten {ts : List Str} (h : TokSeq ts) : opTokens ts.flatten = ts := by
  unfold opTokens multiSplit multiSplitOrd
  obtain ⟨l, hl, hf⟩ := scan_tokSeq h ts.flatten.length [] (Nat.le_refl _) (Or.inl rfl)
  rw [hl]
  have h0 : keepTok [] = false := by decide
  have : l.filter keepTok = ts := by rw [hf]; simp [h0]
  exact this

/-! ### factors -/

def opOf (d : Bool) : Char := if d then '/' else '*'

/-- the tokens of a list of factors -/
def toks (fs : List Factor) : List Str := fs.flatMap fun f => [[opOf f.1], f.2]

/-- one factor with its operator -/
def tok1 (f : Factor) : Str := opOf f.1 :: f.2

theorem pairUp_toks (fs : List Factor) : pairUp (toks fs) = fs.map tok1 := by
  induction fs with
  | nil => rfl
  | cons f r ih =>
    have : toks (f :: r) = [opOf f.1] :: f.2 :: toks r := rfl
    rw [this, pairUp, ih]; rfl

theorem toks_flatten (fs : List Factor) : (toks fs).flatten = (fs.map tok1).flatten := by
  induction fs with
  | nil => rfl
  | cons f r ih =>
    have : toks (f :: r) = [opOf f.1] :: f.2 :: toks r := rfl
    rw [this]; simp [ih, tok1]

theorem opOf_mem (d : Bool) : opOf d ∈ opChars := by cases d <;> decide

theorem tokSeq_toks {fs : List Factor} (h : ∀ f ∈ fs, PlainName f.2) : TokSeq (toks fs) := by
  induction fs with
  | nil => exact .nil
  | cons f r ih =>
    have e : toks (f :: r) = [opOf f.1] :: f.2 :: toks r := rfl
    have hf := h f (by simp)
    rw [e]
    refine .op (opOf_mem _) ?_ (.word hf ?_ (ih (fun g hg => h g (by simp [hg]))))
    · intro _ he
      simp at he
      exact absurd (hf.notOp '*' (by rw [he]; simp)) (by decide)
    · intro t ht
      cases r with
      | nil => simp [toks] at ht
      | cons g r' =>
        have : toks (g :: r') = [opOf g.1] :: g.2 :: toks r' := rfl
        rw [this] at ht
        simp at ht
        exact ⟨_, opOf_mem _, ht.symm⟩

theorem readFactors_write (den : Bool) (cur s : Str) :
    ((readFactors den cur s).map tok1).flatten = opOf den :: (cur ++ s) := by
  induction s generalizing den cur with
  | nil => simp [readFactors, tok1]
  | cons c r ih =>
    unfold readFactors
    split
    · next h => subst h; simp [tok1, ih, opOf]
    · split
      · next h => subst h; simp [tok1, ih, opOf]
      · rw [ih]; simp

theorem factors_write (u : Str) : ((factors u).map tok1).flatten = '*' :: u := readFactors_write false [] u

theorem pairs_of_plain {u : Str} (h : PlainProduct u) :
    pairUp (opTokens ('*' :: u)) = (factors u).map tok1 := by
  rw [← factors_write, ← toks_flatten, opTokens_flatten (tokSeq_toks h), pairUp_toks]

theorem readFactors_name {w : Str} (hw : ∀ c ∈ w, c ≠ '*' ∧ c ≠ '/') (den : Bool) (cur s : Str) :
    readFactors den cur (w ++ s) = readFactors den (cur ++ w) s := by
  induction w generalizing cur with
  | nil => simp
  | cons c w ih =>
    have hc := hw c (by simp)
    simp only [List.cons_append, readFactors, if_neg hc.1, if_neg hc.2]
    rw [ih (fun x hx => hw x (by simp [hx]))]
    simp

theorem Spec.PlainName.noSep {w : Str} (h : PlainName w) : ∀ c ∈ w, c ≠ '*' ∧ c ≠ '/' := by
  intro c hc
  constructor <;> (intro e; subst e; exact absurd (h.notOp _ hc) (by decide))

theorem readFactors_tok {fs : List Factor} (h : ∀ f ∈ fs, PlainName f.2) (den : Bool) (cur : Str) :
    readFactors den cur (fs.map tok1).flatten = (den, cur) :: fs := by
  induction fs generalizing den cur with
  | nil => simp [readFactors]
  | cons f r ih =>
    obtain ⟨d, w⟩ := f
    have hw := h (d, w) (by simp)
    have hr : ∀ f ∈ r, PlainName f.2 := fun f hf => h f (by simp [hf])
    simp only [List.map_cons, List.flatten_cons, tok1, List.cons_append]
    cases d with
    | false =>
      simp only [opOf, Bool.false_eq_true, if_false, readFactors, if_true]
      rw [readFactors_name hw.noSep, ih hr]; simp
    | true =>
      have : ('/' : Char) ≠ '*' := by decide
      simp only [opOf, if_true, readFactors, if_neg this]
      rw [readFactors_name hw.noSep, ih hr]; simp

theorem factors_render {w : Str} (hw : PlainName w) {fs : List Factor} (h : ∀ f ∈ fs, PlainName f.2) :
    factors (w ++ (fs.map tok1).flatten) = (false, w) :: fs := by
  unfold factors
  rw [readFactors_name hw.noSep, readFactors_tok h]; simp

/-! ### the loop of reduce_units -/

def flip1 (f : Factor) : Factor := (!f.1, f.2)

theorem flip1_flip1 (f : Factor) : flip1 (flip1 f) = f := by simp [flip1]
theorem flip1_ne (f : Factor) : flip1 f ≠ f := by
  intro h; have := congrArg Prod.fst h; simp [flip1] at this

theorem changeOp_tok1 (f : Factor) : changeOp (tok1 f) = tok1 (flip1 f) := by
  obtain ⟨d, n⟩ := f
  cases d <;> rfl

theorem tok1_inj {f g : Factor} (h : tok1 f = tok1 g) : f = g := by
  obtain ⟨d, n⟩ := f
  obtain ⟨d', n'⟩ := g
  cases d <;> cases d' <;> simp [tok1, opOf] at h ⊢ <;> exact h

theorem mem_map_tok1 {f : Factor} {fs : List Factor} : tok1 f ∈ fs.map tok1 ↔ f ∈ fs := by
  simp only [List.mem_map]
  exact ⟨fun ⟨g, hg, he⟩ => tok1_inj he ▸ hg, fun h => ⟨f, h, rfl⟩⟩

/-- `ruLoop` on factors -/
def ruF : List Factor → Nat → List Nat → List Factor
  | [], _, _ => []
  | t :: ts, i, ignore =>
    if i ∈ ignore then ruF ts (i + 1) ignore
    else if flip1 t ∈ ts then ruF ts (i + 1) (ignore ++ [ts.idxOf (flip1 t) + i + 1])
    else t :: ruF ts (i + 1) ignore

theorem idxOf_map_tok1 (f : Factor) (fs : List Factor) : (fs.map tok1).idxOf (tok1 f) = fs.idxOf f := by
  induction fs with
  | nil => rfl
  | cons g r ih =>
    simp only [List.map_cons, List.idxOf_cons]
    by_cases h : g = f
    · subst h; simp
    · have : tok1 g ≠ tok1 f := fun e => h (tok1_inj e)
      have e1 : (tok1 g == tok1 f) = false := by simpa using this
      have e2 : (g == f) = false := by simpa using h
      rw [e1, e2, ih]

theorem ruLoop_map (fs : List Factor) (i : Nat) (ig : List Nat) :
    ruLoop (fs.map tok1) i ig = (ruF fs i ig).map tok1 := by
  induction fs generalizing i ig with
  | nil => rfl
  | cons t ts ih =>
    simp only [List.map_cons, ruLoop, ruF, changeOp_tok1, mem_map_tok1, idxOf_map_tok1]
    split
    · exact ih _ _
    · split
      · exact ih _ _
      · rw [ih]; rfl

theorem ruF_sub {fs : List Factor} {i : Nat} {ig : List Nat} : ∀ f ∈ ruF fs i ig, f ∈ fs := by
  induction fs generalizing i ig with
  | nil => simp [ruF]
  | cons t ts ih =>
    intro f hf
    unfold ruF at hf
    split at hf
    · exact List.mem_cons_of_mem _ (ih f hf)
    · split at hf
      · exact List.mem_cons_of_mem _ (ih f hf)
      · rcases List.mem_cons.1 hf with rfl | hf
        · simp
        · exact List.mem_cons_of_mem _ (ih f hf)

/-- nothing cancels with a kept factor -/
theorem ruF_reduced {fs : List Factor} {i : Nat} {ig : List Nat} :
    ∀ f ∈ ruF fs i ig, flip1 f ∉ ruF fs i ig := by
  induction fs generalizing i ig with
  | nil => simp [ruF]
  | cons t ts ih =>
    unfold ruF
    split
    · exact ih
    · split
      · exact ih
      · next hno =>
        intro f hf hff
        rcases List.mem_cons.1 hf with rfl | hf
        · rcases List.mem_cons.1 hff with h | h
          · exact flip1_ne _ h
          · exact hno (ruF_sub _ h)
        · rcases List.mem_cons.1 hff with h | h
          · exact hno (ruF_sub _ (by rw [← h, flip1_flip1]; exact hf))
          · exact ih f hf h

/-- a list in which nothing cancels is kept as it is -/
theorem ruF_fixed {fs : List Factor} (h : ∀ f ∈ fs, flip1 f ∉ fs) (i : Nat) : ruF fs i [] = fs := by
  induction fs generalizing i with
  | nil => rfl
  | cons t ts ih =>
    unfold ruF
    have h1 : flip1 t ∉ ts := fun hh => h t (by simp) (by simp [hh])
    simp only [List.not_mem_nil, if_false, if_neg h1]
    rw [ih (fun f hf hff => h f (by simp [hf]) (by simp [hff]))]

/-- a factor that is dropped has its counterpart somewhere -/
theorem ruF_kept_or (pre ts : List Factor) (ig : List Nat)
    (hig : ∀ k, (hk : k < ts.length) → pre.length + k ∈ ig → flip1 ts[k] ∈ pre) :
    ∀ t ∈ ts, t ∈ ruF ts pre.length ig ∨ flip1 t ∈ pre ++ ts := by
  induction ts generalizing pre ig with
  | nil => simp
  | cons t ts ih =>
    have hlen : (pre ++ [t]).length = pre.length + 1 := by simp
    have happ : (pre ++ [t]) ++ ts = pre ++ t :: ts := by simp
    have step : ∀ ig' : List Nat,
        (∀ k, (hk : k < ts.length) → pre.length + 1 + k ∈ ig' → flip1 ts[k] ∈ pre ++ [t]) →
        ∀ x ∈ ts, x ∈ ruF ts (pre.length + 1) ig' ∨ flip1 x ∈ pre ++ t :: ts := by
      intro ig' hig' x hx
      have := ih (pre ++ [t]) ig' (by rw [hlen]; exact hig') x hx
      rwa [hlen, happ] at this
    have hold : ∀ k, (hk : k < ts.length) → pre.length + 1 + k ∈ ig → flip1 ts[k] ∈ pre ++ [t] := by
      intro k hk hm
      have := hig (k + 1) (by simp; omega) (by rw [Nat.add_comm k 1, ← Nat.add_assoc]; exact hm)
      simp only [List.getElem_cons_succ] at this
      simp [this]
    intro x hx
    unfold ruF
    split
    · next hi =>
      rcases List.mem_cons.1 hx with rfl | hx
      · right
        have := hig 0 (by simp) (by simpa using hi)
        simp only [List.getElem_cons_zero] at this
        simp [this]
      · exact step ig hold x hx
    · split
      · next hm =>
        rcases List.mem_cons.1 hx with rfl | hx
        · right; simp [hm]
        · refine step _ ?_ x hx
          intro k hk hmem
          rcases List.mem_append.1 hmem with hmem | hmem
          · exact hold k hk hmem
          · simp only [List.mem_singleton] at hmem
            have hk' : k = ts.idxOf (flip1 t) := by omega
            subst hk'
            rw [List.getElem_idxOf, flip1_flip1]
            simp
      · rcases List.mem_cons.1 hx with rfl | hx
        · left; simp
        · rcases step ig hold x hx with h | h
          · left; simp [h]
          · exact Or.inr h

theorem ruF_empty {fs : List Factor} (h : ruF fs 0 [] = []) : ∀ f ∈ fs, flip1 f ∈ fs := by
  intro f hf
  have := ruF_kept_or [] fs [] (by simp) f hf
  rcases this with h' | h'
  · rw [show ([] : List Factor).length = 0 from rfl, h] at h'; simp at h'
  · simpa using h'

/-- without repeated factors exactly the factors without counterpart are kept -/
theorem ruF_nodup_aux (pre ts : List Factor) (hnd : (pre ++ ts).Nodup) (ig : List Nat)
    (hig : ∀ k, (hk : k < ts.length) → (pre.length + k ∈ ig ↔ flip1 ts[k] ∈ pre)) :
    ruF ts pre.length ig = ts.filter (fun t => decide (flip1 t ∉ pre ++ ts)) := by
  induction ts generalizing pre ig with
  | nil => rfl
  | cons t ts ih =>
    have hnd' : ((pre ++ [t]) ++ ts).Nodup := by simpa using hnd
    have hlen : (pre ++ [t]).length = pre.length + 1 := by simp
    have happ : (pre ++ [t]) ++ ts = pre ++ t :: ts := by simp
    have h0 := hig 0 (by simp)
    simp only [Nat.add_zero, List.getElem_cons_zero] at h0
    have hts_nd : ts.Nodup := by
      have := (List.nodup_append.1 hnd).2.1
      exact (List.nodup_cons.1 this).2
    have htn : t ∉ ts := by
      have := (List.nodup_append.1 hnd).2.1
      exact (List.nodup_cons.1 this).1
    -- the rest of the loop, for a list of ignored indices that is right for the longer prefix
    have step : ∀ ig' : List Nat, (∀ k, (hk : k < ts.length) →
        (pre.length + 1 + k ∈ ig' ↔ flip1 ts[k] ∈ pre ++ [t])) →
        ruF ts (pre.length + 1) ig' = ts.filter (fun t' => decide (flip1 t' ∉ pre ++ t :: ts)) := by
      intro ig' h
      have := ih (pre ++ [t]) hnd' ig' (by simpa [hlen] using h)
      rw [hlen, happ] at this
      exact this
    unfold ruF
    rw [List.filter_cons]
    by_cases hin : pre.length ∈ ig
    · have hpre := h0.1 hin
      rw [if_pos hin, if_neg (by simp [hpre])]
      apply step
      intro k hk
      have hk' := hig (k + 1) (by simpa using hk)
      simp only [List.getElem_cons_succ] at hk'
      have : pre.length + (k + 1) = pre.length + 1 + k := by omega
      rw [this] at hk'
      rw [hk']
      simp only [List.mem_append, List.mem_singleton]
      refine ⟨Or.inl, fun h => h.elim id (fun h => ?_)⟩
      -- ts[k] would be the counterpart of t, which is in pre: a repetition
      have e : ts[k] = flip1 t := by rw [← h, flip1_flip1]
      exact absurd rfl ((List.nodup_append.1 hnd).2.2 _ hpre (flip1 t)
        (List.mem_cons_of_mem _ (e ▸ List.getElem_mem hk)))
    · have hpre : flip1 t ∉ pre := fun h => hin (h0.2 h)
      rw [if_neg hin]
      by_cases hts : flip1 t ∈ ts
      · rw [if_pos hts, if_neg (by simp [hts])]
        apply step
        intro k hk
        have hk' := hig (k + 1) (by simpa using hk)
        simp only [List.getElem_cons_succ] at hk'
        have e1 : pre.length + (k + 1) = pre.length + 1 + k := by omega
        rw [e1] at hk'
        simp only [List.mem_append, List.mem_singleton, hk']
        apply or_congr Iff.rfl
        constructor
        · intro h
          have : k = ts.idxOf (flip1 t) := by omega
          subst this
          rw [List.getElem_idxOf, flip1_flip1]
        · intro h
          have e : ts[k] = flip1 t := by rw [← h, flip1_flip1]
          have : ts.idxOf (flip1 t) = k := by
            rw [← e]
            exact hts_nd.idxOf_getElem k hk
          omega
      · have hself : flip1 t ≠ t := flip1_ne t
        rw [if_neg hts, if_pos (by simp [hpre, hts, hself])]
        congr 1
        apply step
        intro k hk
        have hk' := hig (k + 1) (by simpa using hk)
        simp only [List.getElem_cons_succ] at hk'
        have e1 : pre.length + (k + 1) = pre.length + 1 + k := by omega
        rw [e1] at hk'
        rw [hk']
        simp only [List.mem_append, List.mem_singleton]
        refine ⟨Or.inl, fun h => h.elim id (fun h => ?_)⟩
        have e : ts[k] = flip1 t := by rw [← h, flip1_flip1]
        exact absurd (e ▸ List.getElem_mem hk) hts

theorem ruF_nodup {fs : List Factor} (h : fs.Nodup) :
    ruF fs 0 [] = fs.filter (fun t => decide (flip1 t ∉ fs)) := by
  have := ruF_nodup_aux [] fs (by simpa using h) [] (by simp)
  simpa using this

/-! ### exponents -/

theorem expo_nil (x : Str) : expo [] x = 0 := rfl

theorem expo_cons (f : Factor) (fs : List Factor) (x : Str) :
    expo (f :: fs) x = (if f.2 = x then (if f.1 then -1 else 1) else 0) + expo fs x := by
  simp [expo]

theorem expo_append (fs gs : List Factor) (x : Str) : expo (fs ++ gs) x = expo fs x + expo gs x := by
  simp [expo, List.sum_append]

theorem expo_nodup {fs : List Factor} (h : fs.Nodup) (x : Str) :
    expo fs x = (if (false, x) ∈ fs then 1 else 0) - (if (true, x) ∈ fs then 1 else 0) := by
  induction fs with
  | nil => simp [expo_nil]
  | cons f r ih =>
    obtain ⟨hf, hr⟩ := List.nodup_cons.1 h
    rw [expo_cons, ih hr]
    obtain ⟨d, n⟩ := f
    by_cases hn : n = x
    · subst hn
      cases d
      · simp only [List.mem_cons, Prod.mk.injEq]
        simp [hf]
        omega
      · simp only [List.mem_cons, Prod.mk.injEq]
        simp [hf]
        omega
    · have hn' : ¬ x = n := fun e => hn e.symm
      simp [hn, hn']

theorem expo_cancel {fs : List Factor} (h : fs.Nodup) (x : Str) :
    expo (fs.filter (fun t => decide (flip1 t ∉ fs))) x = expo fs x := by
  rw [expo_nodup h, expo_nodup (h.sublist List.filter_sublist)]
  simp only [List.mem_filter, flip1, decide_eq_true_eq, Bool.not_false, Bool.not_true]
  by_cases h1 : (false, x) ∈ fs <;> by_cases h2 : (true, x) ∈ fs <;> simp [h1, h2]

/-! ### stripping -/

theorem strip_ends {cs : List Char} {s : Str} (h1 : ∀ c, s.head? = some c → c ∉ cs)
    (h2 : ∀ c, s.getLast? = some c → c ∉ cs) : Py.strip cs s = s := by
  unfold Py.strip Py.rstrip
  have e1 : Py.lstrip cs s = s := by
    cases s with
    | nil => rfl
    | cons x xs => exact Py.lstrip_of_head_not_mem (h1 x rfl)
  rw [e1]
  have e2 : Py.lstrip cs s.reverse = s.reverse := by
    cases hr : s.reverse with
    | nil => rfl
    | cons x xs =>
      refine Py.lstrip_of_head_not_mem (h2 x ?_)
      rw [List.getLast?_eq_head?_reverse, hr]; rfl
  rw [e2, List.reverse_reverse]

theorem flatten_tok_last {fs : List Factor} (h : ∀ f ∈ fs, PlainName f.2) (hne : fs ≠ []) :
    ∀ c, ((fs.map tok1).flatten).getLast? = some c → c ∉ opChars := by
  induction fs with
  | nil => exact absurd rfl hne
  | cons f r ih =>
    intro c hc
    have hf := h f (by simp)
    cases r with
    | nil =>
      simp only [List.map_cons, List.map_nil, List.flatten_cons, List.flatten_nil, List.append_nil, tok1] at hc
      rw [List.getLast?_cons] at hc
      cases hl : f.2.getLast? with
      | none => rw [List.getLast?_eq_none_iff] at hl; exact absurd hl hf.1
      | some d =>
        rw [hl] at hc
        simp at hc
        subst hc
        exact hf.notOp _ (List.mem_of_getLast? hl)
    | cons g r' =>
      rw [List.map_cons, List.flatten_cons, List.getLast?_append] at hc
      have hne' : (((g :: r').map tok1).flatten).getLast? ≠ none := by
        rw [Ne, List.getLast?_eq_none_iff]; simp [tok1]
      cases hl : (((g :: r').map tok1).flatten).getLast? with
      | none => exact absurd hl hne'
      | some d =>
        rw [hl] at hc
        simp at hc
        subst hc
        exact ih (fun f hf => h f (by simp [hf])) (by simp) _ hl

/-- the final clean-up of reduce_units on a non-empty list of plain factors -/
def finishStr (fs : List Factor) : Str :=
  let result := Py.strip ['*'] (fs.map tok1).flatten
  if result.head? = some '/' then '1' :: result else result

theorem finish_cons {f : Factor} {fs : List Factor} (h : ∀ g ∈ f :: fs, PlainName g.2) :
    finishStr (f :: fs) =
      if f.1 then '1' :: ((f :: fs).map tok1).flatten else f.2 ++ (fs.map tok1).flatten := by
  have hlast := flatten_tok_last h (by simp)
  obtain ⟨d, w⟩ := f
  have hw := h (d, w) (by simp)
  obtain ⟨c, r, hcr⟩ := List.exists_cons_of_ne_nil hw.1
  simp only at hcr
  have hcop : c ∉ opChars := hw.notOp c (by simp only; rw [hcr]; simp)
  have hnotstar : ∀ c, c ∉ opChars → c ∉ ['*'] := by
    intro c hc h; simp at h; subst h; exact hc (by decide)
  unfold finishStr
  cases d with
  | true =>
    have e : Py.strip ['*'] (((true, w) :: fs).map tok1).flatten = (((true, w) :: fs).map tok1).flatten := by
      apply strip_ends
      · intro x hx; simp [tok1, opOf] at hx; subst hx; decide
      · intro x hx; exact hnotstar x (hlast x hx)
    rw [e]
    simp [tok1, opOf]
  | false =>
    have e : Py.strip ['*'] (((false, w) :: fs).map tok1).flatten = w ++ (fs.map tok1).flatten := by
      have hsplit : (((false, w) :: fs).map tok1).flatten = ['*'] ++ (w ++ (fs.map tok1).flatten) ++ [] := by
        simp [tok1, opOf]
      rw [hsplit, Py.strip_decorate (by simp) (by simp)]
      apply strip_ends
      · intro x hx; rw [hcr] at hx; simp at hx; subst hx; exact hnotstar c hcop
      · intro x hx
        apply hnotstar x
        apply hlast x
        rw [hsplit, List.append_nil, List.getLast?_append, hx]; rfl
    rw [e, if_neg]
    · simp
    · rw [hcr]
      simp
      intro e; subst e; exact hcop (by decide)

theorem factors_finish {f : Factor} {fs : List Factor} (h : ∀ g ∈ f :: fs, PlainName g.2) :
    factors (finishStr (f :: fs)) = if f.1 then (false, ['1']) :: f :: fs else f :: fs := by
  rw [finish_cons h]
  obtain ⟨d, w⟩ := f
  cases d with
  | true =>
    have h1 : PlainName ['1'] := by unfold PlainName; decide
    simpa using factors_render h1 h
  | false => simpa using factors_render (h (false, w) (by simp)) (fun g hg => h g (by simp [hg]))

theorem reduceUnits_plain {u : Str} (h : PlainProduct u) (hs : '/' ∈ u) :
    reduceUnits u = match ruF (factors u) 0 [] with
      | [] => u
      | f :: fs => finishStr (f :: fs) := by
  have hno : ¬ ('+' ∈ u ∨ '-' ∈ u) := by
    have key : ∀ c ∈ u, c ∉ ['+', '-'] := by
      intro c hc
      have hc' : c ∈ ((factors u).map tok1).flatten := by rw [factors_write]; simp [hc]
      rw [List.mem_flatten] at hc'
      obtain ⟨t, ht, hct⟩ := hc'
      obtain ⟨f, hf, rfl⟩ := List.mem_map.1 ht
      rcases List.mem_cons.1 hct with rfl | hct
      · cases f.1 <;> decide
      · have := (h f hf).notOp c hct
        intro hh
        apply this
        simp at hh
        rcases hh with rfl | rfl <;> decide
    rintro (h | h) <;> exact absurd (key _ h) (by simp)
  unfold reduceUnits
  rw [if_neg hno, if_pos hs, pairs_of_plain h, ruLoop_map]
  cases ruF (factors u) 0 [] with
  | nil => simp
  | cons f fs => simp [finishStr]

end Unyts

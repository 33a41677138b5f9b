import Verif.Model.Strings

namespace Unyts

/-! ### the bubble sort -/

theorem bubblePass_perm (n : Nat) (l : List Str) : (bubblePass n l).Perm l := by
  induction n generalizing l with
  | zero => rw [bubblePass.eq_def]
  | succ n ih =>
    match l with
    | [] => rw [bubblePass.eq_def]
    | [a] => rw [bubblePass.eq_def]
    | a :: b :: r =>
      rw [bubblePass]
      split
      · exact ((ih (a :: r)).cons b).trans (List.Perm.swap a b r)
      · exact (ih (b :: r)).cons a

theorem bubblePass_append (n : Nat) (pre suf : List Str) (h : pre.length = n + 1) :
    bubblePass n (pre ++ suf) = bubblePass n pre ++ suf := by
  induction n generalizing pre with
  | zero => simp [bubblePass]
  | succ n ih =>
    match pre, h with
    | a :: b :: r, h =>
      simp only [List.cons_append, bubblePass]
      split
      · rw [← List.cons_append, ih (a :: r) (by simpa using h)]; rfl
      · rw [← List.cons_append, ih (b :: r) (by simpa using h)]; rfl

/-- a full pass puts a shortest element last -/
theorem bubblePass_last (n : Nat) (l : List Str) (h : l.length = n + 1) :
    ∃ q m, bubblePass n l = q ++ [m] ∧ ∀ x ∈ q, m.length ≤ x.length := by
  induction n generalizing l with
  | zero =>
    match l, h with
    | [a], _ => exact ⟨[], a, by simp [bubblePass], by simp⟩
  | succ n ih =>
    match l, h with
    | a :: b :: r, h =>
      rw [bubblePass]
      split
      · next hlt =>
        obtain ⟨q, m, hq, hm⟩ := ih (a :: r) (by simpa using h)
        refine ⟨b :: q, m, by rw [hq]; rfl, ?_⟩
        intro x hx
        rcases List.mem_cons.1 hx with rfl | hx
        · -- m is not longer than a
          have ha : a ∈ q ++ [m] := hq ▸ (bubblePass_perm n (a :: r)).mem_iff.2 (by simp)
          rcases List.mem_append.1 ha with ha | ha
          · have := hm a ha; omega
          · simp at ha; subst ha; omega
        · exact hm x hx
      · next hge =>
        obtain ⟨q, m, hq, hm⟩ := ih (b :: r) (by simpa using h)
        refine ⟨a :: q, m, by rw [hq]; rfl, ?_⟩
        intro x hx
        rcases List.mem_cons.1 hx with rfl | hx
        · have hb : b ∈ q ++ [m] := hq ▸ (bubblePass_perm n (b :: r)).mem_iff.2 (by simp)
          rcases List.mem_append.1 hb with hb | hb
          · have := hm b hb; omega
          · simp at hb; subst hb; omega
        · exact hm x hx

theorem bubblePasses_perm (n : Nat) (l : List Str) : (bubblePasses n l).Perm l := by
  induction n generalizing l with
  | zero => rw [bubblePasses]
  | succ n ih => rw [bubblePasses]; exact (ih _).trans (bubblePass_perm _ _)

/-- longest first -/
def LongFirst (l : List Str) : Prop := l.Pairwise (fun a b => b.length ≤ a.length)

theorem bubblePasses_sorted (n : Nat) (pre suf : List Str) (h : pre.length = n + 1) (hs : LongFirst suf)
    (hps : ∀ x ∈ pre, ∀ y ∈ suf, y.length ≤ x.length) : LongFirst (bubblePasses n (pre ++ suf)) := by
  induction n generalizing pre suf with
  | zero =>
    match pre, h with
    | [a], _ =>
      rw [bubblePasses]
      exact List.Pairwise.cons (fun y hy => hps a (by simp) y hy) hs
  | succ n ih =>
    rw [bubblePasses, bubblePass_append _ _ _ h]
    obtain ⟨q, m, hq, hm⟩ := bubblePass_last (n + 1) pre h
    have hmem : ∀ x, x ∈ q ++ [m] → x ∈ pre := fun x hx =>
      (bubblePass_perm (n + 1) pre).mem_iff.1 (hq ▸ hx)
    have hlen : (q ++ [m]).length = n + 2 := by
      rw [← hq, (bubblePass_perm (n + 1) pre).length_eq, h]
    rw [hq, List.append_assoc]
    apply ih
    · simp at hlen; omega
    · exact List.Pairwise.cons (fun y hy => hps m (hmem m (by simp)) y hy) hs
    · intro x hx y hy
      rcases List.mem_cons.1 hy with rfl | hy
      · exact hm x hx
      · exact hps x (hmem x (by simp [hx])) y hy

theorem sortSep_sorted (l : List Str) : LongFirst (sortSep l) := by
  unfold sortSep
  match l with
  | [] => exact .nil
  | a :: r =>
    have := bubblePasses_sorted r.length (a :: r) [] (by simp) .nil (by simp)
    simpa using this

theorem mem_sortSep {l : List Str} {x : Str} : x ∈ sortSep l ↔ x ∈ l := (bubblePasses_perm _ l).mem_iff

/-! ### the separator found at a position -/

theorem firstMatch_some {l : List Str} {s se : Str} (h : firstMatch (sortSep l) s = some se) :
    se ∈ l ∧ se <+: s ∧ ∀ x ∈ l, x <+: s → x.length ≤ se.length := by
  unfold firstMatch at h
  have h1 := List.mem_of_find?_eq_some h
  have h2 := List.find?_some h
  refine ⟨mem_sortSep.1 h1, by simpa using h2, ?_⟩
  intro x hx hpx
  have hsorted := sortSep_sorted l
  have hx' := mem_sortSep.2 hx
  generalize sortSep l = ls at *
  induction ls with
  | nil => simp at h1
  | cons a r ih =>
    unfold LongFirst at hsorted
    rw [List.pairwise_cons] at hsorted
    simp only [List.find?_cons] at h
    by_cases ha : a.isPrefixOf s = true
    · rw [ha] at h
      cases h
      rcases List.mem_cons.1 hx' with rfl | hx'
      · omega
      · exact hsorted.1 x hx'
    · have ha' : a.isPrefixOf s = false := by cases hh : a.isPrefixOf s <;> simp_all
      rw [ha'] at h
      rcases List.mem_cons.1 hx' with rfl | hx'
      · exact absurd (List.isPrefixOf_iff_prefix.2 hpx) ha
      · exact ih h (List.mem_of_find?_eq_some h) hsorted.2 hx'

theorem firstMatch_none {l : List Str} {s : Str} (h : firstMatch (sortSep l) s = none) {x : Str} (hx : x ∈ l) :
    ¬ x <+: s := by
  unfold firstMatch at h
  rw [List.find?_eq_none] at h
  have := h x (mem_sortSep.2 hx)
  simpa using this

theorem prefix_same_length {a b s : Str} (ha : a <+: s) (hb : b <+: s) (h : a.length = b.length) : a = b := by
  obtain ⟨x, hx⟩ := ha
  obtain ⟨y, hy⟩ := hb
  have := hx.trans hy.symm
  exact (List.append_inj this h).1

/-- the separator found depends only on the set of separators -/
theorem firstMatch_congr {l l' : List Str} (h : ∀ x, x ∈ l ↔ x ∈ l') (s : Str) :
    firstMatch (sortSep l) s = firstMatch (sortSep l') s := by
  cases h1 : firstMatch (sortSep l) s with
  | none =>
    cases h2 : firstMatch (sortSep l') s with
    | none => rfl
    | some b =>
      obtain ⟨hb, hp, _⟩ := firstMatch_some h2
      exact absurd hp (firstMatch_none h1 ((h b).2 hb))
  | some a =>
    obtain ⟨ha, hpa, hla⟩ := firstMatch_some h1
    cases h2 : firstMatch (sortSep l') s with
    | none => exact absurd hpa (firstMatch_none h2 ((h a).1 ha))
    | some b =>
      obtain ⟨hb, hpb, hlb⟩ := firstMatch_some h2
      have h3 := hla b ((h b).2 hb) hpb
      have h4 := hlb a ((h a).1 ha) hpa
      rw [prefix_same_length hpa hpb (by omega)]

/-! ### the scan -/

theorem scan_congr {l l' : List Str} (h : ∀ x, x ∈ l ↔ x ∈ l') (n : Nat) (s cur : Str) :
    scan (sortSep l) n s cur = scan (sortSep l') n s cur := by
  induction n generalizing s cur with
  | zero => cases s <;> simp [scan]
  | succ n ih =>
    cases s with
    | nil => simp [scan]
    | cons c cs => simp only [scan, firstMatch_congr h, ih]

theorem scan_flatten {l : List Str} {n : Nat} {s cur : Str} {r : List Str}
    (h : scan (sortSep l) n s cur = some r) : r.flatten = cur ++ s := by
  induction n generalizing s cur r with
  | zero =>
    cases s with
    | nil => simp [scan] at h; subst h; simp
    | cons c cs => simp [scan] at h
  | succ n ih =>
    cases s with
    | nil => simp [scan] at h; subst h; simp
    | cons c cs =>
      simp only [scan] at h
      split at h
      · next se hse =>
        obtain ⟨_, ⟨t, ht⟩, _⟩ := firstMatch_some hse
        rw [Option.map_eq_some_iff] at h
        obtain ⟨r', hr', rfl⟩ := h
        have := ih hr'
        simp only [List.flatten_cons, this, List.nil_append]
        rw [← ht, List.drop_left]
      · rw [ih h]; simp

theorem scan_some {l : List Str} (hne : [] ∉ l) {n : Nat} {s cur : Str} (hn : s.length ≤ n) :
    ∃ r, scan (sortSep l) n s cur = some r := by
  induction n generalizing s cur with
  | zero =>
    have : s = [] := List.length_eq_zero_iff.1 (by omega)
    subst this
    exact ⟨[cur], by simp [scan]⟩
  | succ n ih =>
    cases s with
    | nil => exact ⟨[cur], by simp [scan]⟩
    | cons c cs =>
      simp only [scan]
      split
      · next se hse =>
        obtain ⟨hm, _, _⟩ := firstMatch_some hse
        have : se.length ≠ 0 := fun h => hne (List.length_eq_zero_iff.1 h ▸ hm)
        obtain ⟨r, hr⟩ := ih (s := (c :: cs).drop se.length) (cur := []) (by simp at hn ⊢; omega)
        exact ⟨_, by rw [hr]; rfl⟩
      · exact ih (by simpa using hn)

/-- every piece is a separator or contains none -/
theorem scan_atomic {l : List Str} (hne : [] ∉ l) {n : Nat} {s cur : Str} {r : List Str}
    (h : scan (sortSep l) n s cur = some r)
    (hcur : ∀ k, k < cur.length → ∀ se ∈ l, ¬ se <+: cur.drop k ++ s) :
    ∀ p ∈ r, p ∈ l ∨ ∀ se ∈ l, ¬ se <:+: p := by
  have fin : ∀ {cur s : Str}, (∀ k, k < cur.length → ∀ se ∈ l, ¬ se <+: cur.drop k ++ s) →
      ∀ se ∈ l, ¬ se <:+: cur := by
    rintro cur s hc se hse ⟨a, b, hab⟩
    have hlen : a.length < cur.length := by
      have : se.length ≠ 0 := fun h => hne (List.length_eq_zero_iff.1 h ▸ hse)
      rw [← hab]; simp; omega
    refine hc a.length hlen se hse ⟨b ++ s, ?_⟩
    rw [← hab, List.append_assoc, List.drop_left]
    simp
  induction n generalizing s cur r with
  | zero =>
    cases s with
    | nil =>
      simp [scan] at h; subst h
      intro p hp; simp at hp; subst hp; exact Or.inr (fin hcur)
    | cons c cs => simp [scan] at h
  | succ n ih =>
    cases s with
    | nil =>
      simp [scan] at h; subst h
      intro p hp; simp at hp; subst hp; exact Or.inr (fin hcur)
    | cons c cs =>
      simp only [scan] at h
      split at h
      · next se hse =>
        rw [Option.map_eq_some_iff] at h
        obtain ⟨r', hr', rfl⟩ := h
        intro p hp
        rcases List.mem_cons.1 hp with rfl | hp
        · exact Or.inr (fin hcur)
        · rcases List.mem_cons.1 hp with rfl | hp
          · exact Or.inl (firstMatch_some hse).1
          · exact ih hr' (by simp) p hp
      · next hno =>
        refine ih h ?_
        intro k hk se hse hpre
        rw [List.length_append, List.length_singleton] at hk
        by_cases hk' : k < cur.length
        · rw [List.drop_append_of_le_length (by omega)] at hpre
          refine hcur k hk' se hse ?_
          simpa using hpre
        · have : k = cur.length := by omega
          subst this
          rw [List.drop_left] at hpre
          exact firstMatch_none hno hse (by simpa using hpre)

theorem mem_dedup {l : List Str} {x : Str} : x ∈ dedup l ↔ x ∈ l := by
  unfold dedup
  have : ∀ (l acc : List Str), x ∈ l.foldl (fun acc x => if x ∈ acc then acc else acc ++ [x]) acc ↔
      x ∈ acc ∨ x ∈ l := by
    intro l
    induction l with
    | nil => simp
    | cons a r ih =>
      intro acc
      rw [List.foldl_cons, ih]
      split
      · next h =>
        constructor
        · rintro (h | h)
          · exact Or.inl h
          · exact Or.inr (List.mem_cons_of_mem _ h)
        · rintro (h' | h')
          · exact Or.inl h'
          · rcases List.mem_cons.1 h' with rfl | h'
            · exact Or.inl h
            · exact Or.inr h'
      · simp [or_assoc]
  simpa using this l []

/-! ### tokens of products and quotients -/

/-- characters of a plain unit name: none of the operators, no blank -/
def opChars : List Char := ['+', '-', '*', '/', '^', '(', ')']

theorem mem_opSeps {x : Str} (h : x ∈ dedup opSeps) :
    x = ['+'] ∨ x = ['-'] ∨ x = ['*'] ∨ x = ['/'] ∨ x = ['^'] ∨ x = ['*', '*'] ∨ x = ['('] ∨ x = [')'] := by
  rw [mem_dedup] at h
  simpa [opSeps] using h

theorem opSep_head {x : Str} (h : x ∈ dedup opSeps) : ∃ c r, x = c :: r ∧ c ∈ opChars := by
  rcases mem_opSeps h with rfl | rfl | rfl | rfl | rfl | rfl | rfl | rfl <;>
    exact ⟨_, _, rfl, by decide⟩

/-- no separator starts with a plain character -/
theorem firstMatch_plain {c : Char} {cs : Str} (h : c ∉ opChars) :
    firstMatch (sortSep (dedup opSeps)) (c :: cs) = none := by
  cases hm : firstMatch (sortSep (dedup opSeps)) (c :: cs) with
  | none => rfl
  | some se =>
    obtain ⟨h1, ⟨t, ht⟩, _⟩ := firstMatch_some hm
    obtain ⟨d, r, rfl, hd⟩ := opSep_head h1
    simp at ht
    exact absurd (ht.1 ▸ hd) h

/-- an operator not followed by '*' is a token by itself -/
theorem firstMatch_op {c : Char} {cs : Str} (h : c ∈ opChars) (h2 : c = '*' → cs.head? ≠ some '*') :
    firstMatch (sortSep (dedup opSeps)) (c :: cs) = some [c] := by
  have hin : [c] ∈ dedup opSeps := by
    rw [mem_dedup]
    simp only [opChars, List.mem_cons, List.not_mem_nil, or_false] at h
    rcases h with rfl | rfl | rfl | rfl | rfl | rfl | rfl <;> simp [opSeps]
  cases hm : firstMatch (sortSep (dedup opSeps)) (c :: cs) with
  | none => exact absurd ⟨cs, rfl⟩ (firstMatch_none hm hin)
  | some se =>
    obtain ⟨h1, ⟨t, ht⟩, hl⟩ := firstMatch_some hm
    have := mem_opSeps h1
    rcases this with rfl | rfl | rfl | rfl | rfl | rfl | rfl | rfl <;> simp at ht
    · rw [ht.1]
    · rw [ht.1]
    · rw [ht.1]
    · rw [ht.1]
    · rw [ht.1]
    · exact absurd (by rw [← ht.2]; rfl) (h2 ht.1.symm)
    · rw [ht.1]
    · rw [ht.1]

/-- scanning a plain name only accumulates it -/
theorem scan_plain {w : Str} (hw : ∀ c ∈ w, c ∉ opChars) (n : Nat) (s cur : Str) :
    scan (sortSep (dedup opSeps)) (w.length + n) (w ++ s) cur =
      scan (sortSep (dedup opSeps)) n s (cur ++ w) := by
  induction w generalizing cur with
  | nil => simp
  | cons c w ih =>
    have : (c :: w).length + n = (w.length + n) + 1 := by simp; omega
    rw [this, List.cons_append, scan, firstMatch_plain (hw c (by simp))]
    simp only
    rw [ih (fun x hx => hw x (by simp [hx]))]
    simp

theorem scan_op {c : Char} (h : c ∈ opChars) {s : Str} (h2 : c = '*' → s.head? ≠ some '*') (n : Nat) (cur : Str) :
    scan (sortSep (dedup opSeps)) (n + 1) (c :: s) cur =
      (scan (sortSep (dedup opSeps)) n s []).map (fun r => cur :: [c] :: r) := by
  rw [scan, firstMatch_op h h2]
  simp

/-- more fuel does not change the result -/
theorem scan_fuel {l : List Str} {n m : Nat} {s cur : Str} {r : List Str} (h : scan l n s cur = some r)
    (hnm : n ≤ m) : scan l m s cur = some r := by
  induction n generalizing m s cur r with
  | zero =>
    cases s with
    | nil => cases m <;> simpa [scan] using h
    | cons c cs => simp [scan] at h
  | succ n ih =>
    obtain ⟨m, rfl⟩ : ∃ k, m = k + 1 := ⟨m - 1, by omega⟩
    cases s with
    | nil => simpa [scan] using h
    | cons c cs =>
      simp only [scan] at h ⊢
      split at h
      · next se hse =>
        rw [Option.map_eq_some_iff] at h
        obtain ⟨r', hr', rfl⟩ := h
        rw [ih hr' (by omega)]
        rfl
      · next hno => exact ih h (by omega)

end Unyts

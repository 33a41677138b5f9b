/-
Python run-time layer used by the model: strings, dictionaries, exceptions.

Trusted reading of Python (nothing here is code of /repo):
* `str` is a list of Unicode characters;
* `dict` is an association list in insertion order, overwriting in place;
* `set` is a list used only through membership;
* an exception is a value of `PyErr`; state survives an exception.
-/

namespace Unyts

/-- Python `str`. -/
abbrev Str := List Char

/-- String literal of the model. -/
macro:max "s!!" s:str : term => do
  let cs := s.getString.toList.map fun c => Lean.Syntax.mkCharLit c
  `(([$(cs.toArray),*] : List Char))

/-- The exceptions the modelled code can raise (`/repo/src/unyts/errors.py:14-31` and Python built-ins). -/
inductive PyErr where
  | noConversionFound | wrongUnits | wrongValue | noFVF
  | valueError | typeError | keyError | nameError | indexError | attributeError
  | zeroDivision | notImplemented | recursionError | assertionError | fileNotFound | jsonDecode
  /-- the code blocks on `input()` (no interactive user in the model) -/
  | needsInput
deriving DecidableEq, Repr

/-- Result of a Python call. -/
abbrev Res (α : Type) := Except PyErr α

instance [DecidableEq α] : DecidableEq (Res α) := fun a b =>
  match a, b with
  | .ok x, .ok y => if h : x = y then isTrue (by rw [h]) else isFalse (by intro e; cases e; exact h rfl)
  | .error x, .error y => if h : x = y then isTrue (by rw [h]) else isFalse (by intro e; cases e; exact h rfl)
  | .ok _, .error _ => isFalse (by intro e; cases e)
  | .error _, .ok _ => isFalse (by intro e; cases e)

namespace Py

/-- `s.split(c)` for a one-character separator: always at least one part. -/
def splitOn (c : Char) : Str → List Str
  | [] => [[]]
  | x :: xs =>
    if x = c then [] :: splitOn c xs
    else match splitOn c xs with
      | [] => [[x]]
      | p :: ps => (x :: p) :: ps

/-- `c.join(parts)` for a one-character joiner. -/
def joinWith (c : Char) : List Str → Str
  | [] => []
  | [p] => p
  | p :: q :: ps => p ++ c :: joinWith c (q :: ps)

/-- `a in b` for strings (substring test). -/
def subStr (a : Str) : Str → Bool
  | [] => a.isEmpty
  | b :: bs => a.isPrefixOf (b :: bs) || subStr a bs

/-- `s.lstrip(chars)`. -/
def lstrip (cs : List Char) : Str → Str
  | [] => []
  | x :: xs => if x ∈ cs then lstrip cs xs else x :: xs

/-- `s.rstrip(chars)`. -/
def rstrip (cs : List Char) (s : Str) : Str := (lstrip cs s.reverse).reverse

/-- `s.strip(chars)`. -/
def strip (cs : List Char) (s : Str) : Str := rstrip cs (lstrip cs s)

/-- White space removed by `str.strip()` with no argument (the Latin-1 part of Python's set). -/
def wsChars : List Char :=
  [' ', '\t', '\n', '\r', '\x0b', '\x0c', '\x1c', '\x1d', '\x1e', '\x1f', '\u0085', '\u00a0']

/-- `s.strip()`. -/
def stripWs (s : Str) : Str := strip wsChars s

/-- `str.lower` on one character: ASCII, Latin-1 and Greek capitals (other letters are left as they are). -/
def lowerC (c : Char) : Char :=
  if 'A' ≤ c ∧ c ≤ 'Z' then Char.ofNat (c.toNat + 32)
  else if 'À' ≤ c ∧ c ≤ 'Þ' ∧ c ≠ '×' then Char.ofNat (c.toNat + 32)
  else if 'Α' ≤ c ∧ c ≤ 'Ω' then Char.ofNat (c.toNat + 32)
  else c

/-- `str.upper` on one character: ASCII, Latin-1 and Greek (other letters are left as they are). -/
def upperC (c : Char) : Char :=
  if 'a' ≤ c ∧ c ≤ 'z' then Char.ofNat (c.toNat - 32)
  else if 'à' ≤ c ∧ c ≤ 'þ' ∧ c ≠ '÷' then Char.ofNat (c.toNat - 32)
  else if 'α' ≤ c ∧ c ≤ 'ω' ∧ c ≠ 'ς' then Char.ofNat (c.toNat - 32)
  else if c = 'µ' then 'Μ' /- the micro sign becomes the Greek capital -/
  else c

/-- `s.lower()`. -/
def lower (s : Str) : Str := s.map lowerC

/-- `s.upper()`. -/
def upper (s : Str) : Str := s.map upperC

/-- `s.replace(c, r)` for a one-character pattern. -/
def replaceC (c : Char) (r : Str) (s : Str) : Str := s.flatMap fun x => if x = c then r else [x]

/-- `d[k] = v` on a dictionary. -/
def dictSet [DecidableEq κ] (d : List (κ × υ)) (k : κ) (v : υ) : List (κ × υ) :=
  match d with
  | [] => [(k, v)]
  | (k', v') :: r => if k' = k then (k', v) :: r else (k', v') :: dictSet r k v

/-- `d.get(k)`. -/
def dictGet [DecidableEq κ] (d : List (κ × υ)) (k : κ) : Option υ :=
  match d with
  | [] => none
  | (k', v') :: r => if k' = k then some v' else dictGet r k

/-- Set union of sets represented by lists. -/
def union [DecidableEq α] (a b : List α) : List α := a ++ b.filter (· ∉ a)

/-- Set intersection of sets represented by lists. -/
def inter [DecidableEq α] (a b : List α) : List α := a.filter (· ∈ b)

section lemmas

theorem mem_union [DecidableEq α] {a b : List α} {x : α} : x ∈ union a b ↔ x ∈ a ∨ x ∈ b := by
  unfold union
  simp only [List.mem_append, List.mem_filter, decide_eq_true_eq]
  constructor
  · rintro (h | ⟨h, _⟩) <;> simp [h]
  · intro h
    by_cases ha : x ∈ a
    · exact Or.inl ha
    · rcases h with h | h
      · exact Or.inl h
      · exact Or.inr ⟨h, ha⟩

theorem mem_inter [DecidableEq α] {a b : List α} {x : α} : x ∈ inter a b ↔ x ∈ a ∧ x ∈ b := by
  unfold inter; simp

theorem splitOn_ne_nil (c : Char) (s : Str) : splitOn c s ≠ [] := by
  cases s with
  | nil => simp [splitOn]
  | cons x xs =>
    unfold splitOn
    split
    · simp
    · split <;> simp

theorem splitOn_of_not_mem {c : Char} {s : Str} (h : c ∉ s) : splitOn c s = [s] := by
  induction s with
  | nil => rfl
  | cons x xs ih =>
    simp only [List.mem_cons, not_or] at h
    unfold splitOn
    rw [if_neg (fun e => h.1 e.symm), ih h.2]

theorem splitOn_append_sep {c : Char} {a b : Str} (h : c ∉ a) :
    splitOn c (a ++ c :: b) = a :: splitOn c b := by
  induction a with
  | nil => simp [splitOn]
  | cons x xs ih =>
    simp only [List.mem_cons, not_or] at h
    have := ih h.2
    simp only [List.cons_append]
    rw [splitOn, if_neg (fun e => h.1 e.symm), this]

theorem join_splitOn (c : Char) (s : Str) : joinWith c (splitOn c s) = s := by
  induction s with
  | nil => rfl
  | cons x xs ih =>
    unfold splitOn
    split
    · next h =>
      subst h
      cases hsp : splitOn x xs with
      | nil => exact absurd hsp (splitOn_ne_nil _ _)
      | cons p ps => rw [hsp] at ih; simp [joinWith, ih]
    · cases hsp : splitOn c xs with
      | nil => exact absurd hsp (splitOn_ne_nil _ _)
      | cons p ps =>
        rw [hsp] at ih
        cases ps with
        | nil => simp only [joinWith] at ih ⊢; rw [ih]
        | cons q qs => simp only [joinWith, List.cons_append] at ih ⊢; rw [ih]

theorem mem_splitOn_no_sep {c : Char} {s p : Str} (h : p ∈ splitOn c s) : c ∉ p := by
  induction s generalizing p with
  | nil => simp [splitOn] at h; simp [h]
  | cons x xs ih =>
    unfold splitOn at h
    split at h
    · rcases List.mem_cons.1 h with h | h
      · simp [h]
      · exact ih h
    · next hx =>
      cases hsp : splitOn c xs with
      | nil => exact absurd hsp (splitOn_ne_nil _ _)
      | cons q qs =>
        rw [hsp] at h ih
        simp only [List.mem_cons] at h
        rcases h with h | h
        · subst h
          simp only [List.mem_cons, not_or]
          exact ⟨fun e => hx e.symm, ih (by simp)⟩
        · exact ih (by simp [h])

theorem dictGet_dictSet_same [DecidableEq κ] (d : List (κ × υ)) (k : κ) (v : υ) :
    dictGet (dictSet d k v) k = some v := by
  induction d with
  | nil => simp [dictSet, dictGet]
  | cons e r ih =>
    obtain ⟨k', v'⟩ := e
    by_cases h : k' = k <;> simp [dictSet, dictGet, h, ih]

theorem dictGet_dictSet_other [DecidableEq κ] (d : List (κ × υ)) {k k₂ : κ} (v : υ) (h : k₂ ≠ k) :
    dictGet (dictSet d k v) k₂ = dictGet d k₂ := by
  induction d with
  | nil => simp [dictSet, dictGet, Ne.symm h]
  | cons e r ih =>
    obtain ⟨k', v'⟩ := e
    by_cases hk : k' = k
    · subst hk; simp [dictSet, dictGet, Ne.symm h]
    · by_cases h2 : k' = k₂
      · subst h2; simp [dictSet, dictGet, hk]
      · simp [dictSet, dictGet, hk, h2, ih]

theorem lstrip_of_head_not_mem {cs : List Char} {x : Char} {xs : Str} (h : x ∉ cs) :
    lstrip cs (x :: xs) = x :: xs := by simp [lstrip, h]

theorem lstrip_all {cs : List Char} {s : Str} (h : ∀ c ∈ s, c ∈ cs) : lstrip cs s = [] := by
  induction s with
  | nil => rfl
  | cons x xs ih =>
    simp only [List.mem_cons, forall_eq_or_imp] at h
    simp [lstrip, h.1, ih h.2]

theorem lstrip_append {cs : List Char} {a b : Str} (h : ∀ c ∈ a, c ∈ cs) :
    lstrip cs (a ++ b) = lstrip cs b := by
  induction a with
  | nil => rfl
  | cons x xs ih =>
    simp only [List.mem_cons, forall_eq_or_imp] at h
    simp [lstrip, h.1, ih h.2]

theorem lstrip_of_none {cs : List Char} {s : Str} (h : ∀ c ∈ s, c ∉ cs) : lstrip cs s = s := by
  cases s with
  | nil => rfl
  | cons x xs => exact lstrip_of_head_not_mem (h x (by simp))

theorem strip_of_none {cs : List Char} {s : Str} (h : ∀ c ∈ s, c ∉ cs) : strip cs s = s := by
  unfold strip rstrip
  rw [lstrip_of_none h, lstrip_of_none (by simpa using h), List.reverse_reverse]

/-- Decorating with stripped characters on the left and right does not change the stripped string. -/
theorem strip_decorate {cs : List Char} {a s b : Str} (ha : ∀ c ∈ a, c ∈ cs) (hb : ∀ c ∈ b, c ∈ cs) :
    strip cs (a ++ s ++ b) = strip cs s := by
  unfold strip rstrip
  rw [List.append_assoc, lstrip_append ha]
  by_cases h : lstrip cs s = []
  · have hall : ∀ c ∈ s, c ∈ cs := by
      clear ha hb
      induction s with
      | nil => simp
      | cons x xs ih =>
        unfold lstrip at h
        split at h
        · next hx => simp only [List.mem_cons, forall_eq_or_imp]; exact ⟨hx, ih h⟩
        · simp at h
    rw [lstrip_append hall, lstrip_all hb, h]
  · have : lstrip cs (s ++ b) = lstrip cs s ++ b := by
      clear ha hb
      induction s with
      | nil => simp [lstrip] at h
      | cons x xs ih =>
        unfold lstrip at h ⊢
        simp only [List.cons_append]
        split
        · next hx => simp only [hx, if_true] at h; simpa [lstrip, hx] using ih h
        · simp
    rw [this, List.reverse_append, lstrip_append (by simpa using hb)]

end lemmas
end Py
end Unyts

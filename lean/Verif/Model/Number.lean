import Verif.Py

/-
Numbers written as strings: the built-in `int`, `float`, `complex` and `str`, and model of
`/repo/src/unyts/helpers/is_number.py` and `/repo/src/unyts/helpers/caster.py`.

Simplifications: decimal digits are the ASCII ones (Python also takes other Unicode decimals); a float is the
exact rational it spells (no rounding, no overflow); a complex number is only known to be one.
-/
namespace Unyts

/-- a decimal digit, as accepted by `int` and `float` -/
def isDecimal (c : Char) : Bool := '0' ≤ c && c ≤ '9'

/-- `c.isdigit()`: decimal digits and the superscript digits -/
def isDigit (c : Char) : Bool := isDecimal c || c ∈ ['⁰', '¹', '²', '³', '⁴', '⁵', '⁶', '⁷', '⁸', '⁹']

def digitVal (c : Char) : Nat := c.toNat - '0'.toNat

/-- the value of a string of digits -/
def digitsVal (ds : Str) : Nat := ds.foldl (fun n c => n * 10 + digitVal c) 0

/-- Removes the underscores if each stands between two digits, as `int`, `float` and `complex` demand;
`prev` says whether the previous character is a digit. -/
def unUnderscore (prev : Bool) : Str → Option Str
  | [] => some []
  | c :: r =>
    if c = '_' then
      if prev && r.head?.any isDecimal then unUnderscore false r else none
    else (unUnderscore (isDecimal c) r).map (c :: ·)

/-- an optional sign -/
def takeSign : Str → Bool × Str
  | '-' :: r => (true, r)
  | '+' :: r => (false, r)
  | s => (false, s)

/-- Python's `int(s)`; `none` is ValueError. -/
def pyInt (s : Str) : Option Int :=
  match unUnderscore false (Py.stripWs s) with
  | none => none
  | some t =>
    let (neg, ds) := takeSign t
    if ds ≠ [] ∧ ds.all isDecimal then some (if neg then -(digitsVal ds : Int) else digitsVal ds) else none

/-- a float value: finite, or inf / nan -/
inductive PyFloat where
  | fin (q : Rat)
  | nonfinite
deriving DecidableEq, Repr

/-- 10 ^ e -/
def pow10 (e : Int) : Rat := if e < 0 then 1 / ((10 : Rat) ^ e.natAbs) else (10 : Rat) ^ e.natAbs

/-- The exponent part: `e[sign]digits`; if it is not complete nothing is consumed. -/
def takeExp (s : Str) : Int × Str :=
  match s with
  | c :: r =>
    if c = 'e' ∨ c = 'E' then
      let (neg, t) := takeSign r
      let ds := t.takeWhile isDecimal
      if ds = [] then (0, s) else ((if neg then -(digitsVal ds : Int) else digitsVal ds), t.dropWhile isDecimal)
    else (0, s)
  | [] => (0, s)

/-- drops the prefix `w` (lower case), ignoring letter case -/
def dropWord (w s : Str) : Option Str :=
  if w.isPrefixOf (Py.lower s) then some (s.drop w.length) else none

/-- `PyOS_string_to_double`: the longest float at the start of `s`, and the rest. -/
def floatPrefix (s : Str) : Option (PyFloat × Str) :=
  let (neg, t) := takeSign s
  match dropWord ['i', 'n', 'f', 'i', 'n', 'i', 't', 'y'] t with
  | some r => some (.nonfinite, r)
  | none =>
    match dropWord ['i', 'n', 'f'] t with
    | some r => some (.nonfinite, r)
    | none =>
      match dropWord ['n', 'a', 'n'] t with
      | some r => some (.nonfinite, r)
      | none =>
        let ip := t.takeWhile isDecimal
        let r1 := t.dropWhile isDecimal
        let (fp, r2) := match r1 with
          | '.' :: r => (r.takeWhile isDecimal, r.dropWhile isDecimal)
          | _ => ([], r1)
        if ip = [] ∧ fp = [] then none
        else
          let (e, r3) := takeExp r2
          let m : Rat := (digitsVal (ip ++ fp) : Rat) * pow10 (e - fp.length)
          some (.fin (if neg then -m else m), r3)

/-- Python's `float(s)`; `none` is ValueError. -/
def pyFloat (s : Str) : Option PyFloat :=
  match unUnderscore false (Py.stripWs s) with
  | none => none
  | some t =>
    match floatPrefix t with
    | some (v, []) => some v
    | _ => none

def isJ (c : Char) : Bool := c = 'j' || c = 'J'

/-- What `complex(s)` reads after blanks and the opening parenthesis (CPython `complex_from_string_inner`):
the rest of the string after the number. -/
def complexBody (s : Str) : Option Str :=
  match floatPrefix s with
  | some (_, r) =>
    match r with
    | c :: r' =>
      if c = '+' ∨ c = '-' then
        let r2 := match floatPrefix r with
          | some (_, r2) => r2
          | none => r'
        match r2 with
        | j :: r3 => if isJ j then some r3 else none
        | [] => none
      else if isJ c then some r' else some r
    | [] => some []
  | none =>
    let t := match s with
      | '+' :: r => r
      | '-' :: r => r
      | _ => s
    match t with
    | j :: r => if isJ j then some r else none
    | [] => none

/-- Whether Python's `complex(s)` succeeds. -/
def pyComplexOk (s : Str) : Bool :=
  match unUnderscore false (Py.stripWs s) with
  | none => false
  | some t =>
    match t with
    | '(' :: r =>
      match complexBody (Py.lstrip Py.wsChars r) with
      | some r2 => Py.lstrip Py.wsChars r2 == [')']
      | none => false
    | _ => complexBody t == some []

/-- `is_number` (is_number.py:15-39). -/
def isNumber (s : Str) : Bool := pyComplexOk s

/-- the result of `caster` and `to_number` -/
inductive PyNum where
  | int (n : Int)
  | float (v : PyFloat)
  | complex
deriving DecidableEq, Repr

/-- `caster` (caster.py:15-44). -/
def caster (s : Str) : Res PyNum :=
  match pyInt s with
  | some n => .ok (.int n)
  | none =>
    match pyFloat s with
    | some v => .ok (.float v)
    | none => if pyComplexOk s then .ok .complex else .error .valueError

/-- `s.isdigit()` -/
def strIsDigit (s : Str) : Bool := !s.isEmpty && s.all isDigit

/-- `check` (caster.py:114-133). -/
def checkFmt (ds : Char) (ts : Option Char) (s : Str) : Res Unit :=
  let last := (Py.splitOn 'e' s).getLastD []
  if (Py.splitOn ds s).length > 2 then .error .valueError
  else if (match ts with
      | some t => ((Py.splitOn t ((Py.splitOn ds s).headD [])).tail).any (fun part => part.length ≠ 3)
      | none => false) then .error .valueError
  else if 'e' ∈ s then
    if 'j' ∈ s then
      if s.count 'j' > 1 ∨ s.getLast? ≠ some 'j' then .error .valueError
      else if strIsDigit last.dropLast then .ok () else .error .valueError
    else if strIsDigit last then .ok () else .error .valueError
  else .ok ()

/-- `validate` (caster.py:89-141): `false` stands for the `None` it returns when nothing is checked. -/
def validateFmt (ds : Char) (ts : Option Char) (s : Str) : Res Bool :=
  let both (c : Char) : Res Bool :=
    let parts := Py.splitOn c (Py.strip ['+', '-'] s)
    (checkFmt ds ts (parts.headD [])).bind fun _ => (checkFmt ds ts (parts.tail.headD [])).map fun _ => true
  if 'j' ∈ s then
    if '+' ∈ Py.strip ['+', '-'] s then both '+'
    else if '-' ∈ Py.strip ['+', '-'] s then both '-'
    else .ok false
  else (checkFmt ds ts s).map fun _ => true

/-- The treatment of parentheses (caster.py:146-163). -/
def parenNegative (s : Str) : Res Str :=
  if '(' ∈ s then
    if ')' ∉ s then .error .valueError
    else if 'j' ∈ s then .ok s
    else if s.count '(' = 1 ∧ s.count ')' = 1 ∧ s.head? = some '(' ∧ s.getLast? = some ')' then
      if '-' ∉ s then .ok ('-' :: Py.replaceC ')' [] (Py.replaceC '(' [] s)) else .error .valueError
    else .ok s
  else if ')' ∈ s then .error .valueError
  else .ok s

/-- The thousands separators looked for automatically (caster.py:173). -/
def autoThousands : List Char := ['\'', '`', '´', ' ']

/-- The decimal signs looked for automatically (caster.py:183). -/
def autoDecimals : List Char := [',', 'p', '.']

/-- `cleaner` (caster.py:75-196) with `parenthesis_means_negative=True`; `none` for `'auto'`, otherwise the
one-character sign (longer signs are not modelled). The result `none` stands for the `None` returned when
`validate` returns `None`. -/
def cleaner (decimal thousand : Option Char) (s : Str) : Res (Option Str) :=
  let clean := Py.lower (Py.stripWs s)
  (parenNegative clean).bind fun new =>
  if (thousand = none ∨ thousand = some '.') ∧ (decimal = none ∨ decimal = some ',') ∧ ',' ∈ new ∧ '.' ∈ new then
    (validateFmt ',' (some '.') clean).map fun v =>
      some (if v then Py.replaceC ',' ['.'] (Py.replaceC '.' [] new) else new)
  else
    let tsNew : Option Char × Str :=
      match thousand with
      | none =>
        match autoThousands.find? (· ∈ clean) with
        | some t => (some t, Py.replaceC t [] new)
        | none => (none, new)
      | some t => (some t, Py.replaceC t [] new)
    let dsNew : Res (Char × Str) :=
      match decimal with
      | none =>
        match autoDecimals.find? (· ∈ tsNew.2) with
        | some d => if tsNew.2.count d > 1 ∧ 'j' ∉ tsNew.2 then .error .valueError
            else .ok (d, Py.replaceC d ['.'] tsNew.2)
        | none => .ok ('.', tsNew.2)
      | some d => if clean.count d > 1 then .error .valueError else .ok (d, Py.replaceC d ['.'] tsNew.2)
    dsNew.bind fun dn => (validateFmt dn.1 tsNew.1 clean).map fun v => if v then some dn.2 else none

/-- `to_number` (caster.py:47-217) on a string. `caster(None)` is a TypeError. -/
def toNumber (s : Str) (decimal thousand : Option Char := none) : Res PyNum :=
  (cleaner decimal thousand s).bind fun c =>
  match c with
  | none => .error .typeError
  | some t =>
    (caster t).map fun v =>
    if 'E' ∈ Py.upper t ∧ '.' ∉ t then
      match v with
      | .float (.fin q) => if q.den = 1 then .int q.num else v
      | _ => v
    else v

/-- the last `fuel + 1` decimal digits of `n`, without leading zeros -/
def natStrF : (fuel : Nat) → Nat → Str
  | 0, n => [Char.ofNat ('0'.toNat + n % 10)]
  | f + 1, n =>
    if n < 10 then [Char.ofNat ('0'.toNat + n)] else natStrF f (n / 10) ++ [Char.ofNat ('0'.toNat + n % 10)]

/-- `str(n)` of a natural number (`natStr_eq` below is the usual recursion) -/
def natStr (n : Nat) : Str := natStrF n n

theorem natStrF_eq (f g n : Nat) (hf : n ≤ f) (hg : n ≤ g) : natStrF f n = natStrF g n := by
  induction f generalizing g n with
  | zero =>
    have : n = 0 := by omega
    subst this
    cases g <;> rfl
  | succ f ih =>
    cases g with
    | zero =>
      have : n = 0 := by omega
      subst this
      rfl
    | succ g =>
      simp only [natStrF]
      split
      · rfl
      · rw [ih g (n / 10) (by omega) (by omega)]

theorem natStr_eq (n : Nat) : natStr n =
    if n < 10 then [Char.ofNat ('0'.toNat + n)] else natStr (n / 10) ++ [Char.ofNat ('0'.toNat + n % 10)] := by
  unfold natStr
  cases n with
  | zero => rfl
  | succ n =>
    rw [natStrF]
    split
    · rfl
    · rw [natStrF_eq n ((n + 1) / 10) _ (by omega) (by omega)]

/-- `str(n)` -/
def intStr (n : Int) : Str := if n < 0 then '-' :: natStr n.natAbs else natStr n.natAbs

end Unyts

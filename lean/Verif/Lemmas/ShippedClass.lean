import Verif.Lemmas.ShippedOrder
import Verif.Lemmas.Clean

/- How the names of the shipped dictionary are written, and which kinds list them. -/
namespace Unyts
open Spec
set_option maxRecDepth 1000000

/-- no blank at the ends, no character that a Python string has to escape -/
def plainName (u : Str) : Bool :=
  (match u.head? with | none => false | some c => !Py.wsChars.contains c) &&
  (match u.getLast? with | none => false | some c => !Py.wsChars.contains c) &&
  u.all fun c => c != '\\' && c != '\n' && c != '\r'

/-- no quotes -/
def unquoted (u : Str) : Bool := u.all fun c => c != '\'' && c != '"'

/-- not both quotes -/
def oneQuote (u : Str) : Bool := !(u.contains '\'' && u.contains '"')

theorem names_plain : (rawDictionary.all fun e => (kindInstrs shippedPrefixes e.1 e.2).all fun i =>
    match i with
    | .node s => (plainName s || (s == [] && kindBase e.1 == s!!"Dimensionless")) && oneQuote s &&
      (unquoted s || kindBase e.1 == s!!"Length") && s != ['1']
    | _ => true) = true := by decide +kernel

theorem times_plain : (basicNames s!!"Time").all (fun s => !(s.getLast? == some '2')) = true := by decide +kernel

theorem keys_plain : (shippedKeys.all fun k => !k.contains '_') = true := by decide +kernel

theorem quantity_kinds : (rawDictionary.all fun e => ((quantityOf e.1 == s!!"Dimensionless") == (kindBase e.1 == s!!"Dimensionless")) &&
    ((quantityOf e.1 == s!!"Length") == (kindBase e.1 == s!!"Length"))) = true := by decide +kernel

theorem builtIn_writing {q u : Str} (h : BuiltIn q u) :
    (plainName u = true ∨ u = [] ∧ q = s!!"Dimensionless") ∧ oneQuote u = true ∧ (unquoted u = true ∨ q = s!!"Length") ∧ u ≠ ['1'] := by
  obtain ⟨k, ⟨v, hv, hi⟩, rfl⟩ := h
  have h1 := List.all_eq_true.1 (List.all_eq_true.1 names_plain _ hv) _ hi
  have h2 := List.all_eq_true.1 quantity_kinds _ hv
  simp only [Bool.and_eq_true, Bool.or_eq_true, beq_iff_eq, bne_iff_ne, ne_eq] at h1 h2
  obtain ⟨⟨⟨ha, hb⟩, hc⟩, hd⟩ := h1
  refine ⟨ha.imp id fun h => ⟨h.1, ?_⟩, hb, hc.imp id fun h => ?_, hd⟩
  · have := h2.1; rw [show (kindBase k == s!!"Dimensionless") = true by simpa using h.2] at this; simpa using this
  · have := h2.2; rw [show (kindBase k == s!!"Length") = true by simpa using h] at this; simpa using this

theorem plain_ends {u : Str} (h : plainName u = true) : u ≠ [] ∧ (∀ c, u.head? = some c ∨ u.getLast? = some c → c ∉ Py.wsChars) ∧
    ∀ c ∈ u, c ≠ '\\' ∧ c ≠ '\n' ∧ c ≠ '\r' := by
  unfold plainName at h
  simp only [Bool.and_eq_true] at h
  obtain ⟨⟨h1, h2⟩, h3⟩ := h
  refine ⟨?_, ?_, ?_⟩
  · rintro rfl; simp at h1
  · rintro c (hc | hc)
    · rw [hc] at h1; simpa using h1
    · rw [hc] at h2; simpa using h2
  · intro c hc
    have := List.all_eq_true.1 h3 c hc
    simpa [and_assoc] using this

theorem plain_of {u : Str} (h0 : u ≠ []) (h1 : ∀ c, u.head? = some c ∨ u.getLast? = some c → c ∉ Py.wsChars)
    (h2 : ∀ c ∈ u, c ≠ '\\' ∧ c ≠ '\n' ∧ c ≠ '\r') : plainName u = true := by
  unfold plainName
  cases hh : u.head? with
  | none => simp [List.head?_eq_none_iff] at hh; exact absurd hh h0
  | some c =>
    cases hl : u.getLast? with
    | none => simp [List.getLast?_eq_none_iff] at hl; exact absurd hl h0
    | some c' =>
      have e1 := h1 c (Or.inl hh)
      have e2 := h1 c' (Or.inr hl)
      simp only [Bool.and_eq_true, List.all_eq_true, bne_iff_ne, ne_eq]
      refine ⟨⟨by simpa using e1, by simpa using e2⟩, fun x hx => ?_⟩
      have := h2 x hx
      exact ⟨⟨this.1, this.2.1⟩, this.2.2⟩

theorem plain_strip {u : Str} (h : plainName u = true) : Py.stripWs u = u := Py.strip_of_ends (plain_ends h).2.1

theorem plain_join {a b : Str} {c : Char} (hc : c ≠ '\\' ∧ c ≠ '\n' ∧ c ≠ '\r') (ha : plainName a = true) (hb : plainName b = true) :
    plainName (a ++ [c] ++ b) = true := by
  obtain ⟨a0, a1, a2⟩ := plain_ends ha
  obtain ⟨b0, b1, b2⟩ := plain_ends hb
  refine plain_of (by simp) ?_ ?_
  · rintro x (hx | hx)
    · obtain ⟨y, ys, rfl⟩ := List.exists_cons_of_ne_nil a0
      exact a1 x (Or.inl (by simpa using hx))
    · refine b1 x (Or.inr ?_)
      rw [List.getLast?_append_of_ne_nil _ b0] at hx
      exact hx
  · intro x hx
    simp only [List.mem_append, List.mem_singleton] at hx
    rcases hx with (hx | rfl) | hx
    · exact a2 x hx
    · exact hc
    · exact b2 x hx

theorem plain_snoc {a : Str} (ha : plainName a = true) : plainName (a ++ ['2']) = true := by
  obtain ⟨a0, a1, a2⟩ := plain_ends ha
  refine plain_of (by simp) ?_ ?_
  · rintro x (hx | hx)
    · obtain ⟨y, ys, rfl⟩ := List.exists_cons_of_ne_nil a0
      exact a1 x (Or.inl (by simpa using hx))
    · simp at hx; subst hx; decide
  · intro x hx
    simp only [List.mem_append, List.mem_singleton] at hx
    rcases hx with hx | rfl
    · exact a2 x hx
    · decide

theorem unquoted_iff {u : Str} : unquoted u = true ↔ '\'' ∉ u ∧ '"' ∉ u := by
  unfold unquoted
  simp only [List.all_eq_true, Bool.and_eq_true, bne_iff_ne, ne_eq]
  constructor
  · exact fun h => ⟨fun hc => (h _ hc).1 rfl, fun hc => (h _ hc).2 rfl⟩
  · rintro ⟨h1, h2⟩ c hc
    exact ⟨fun e => h1 (e ▸ hc), fun e => h2 (e ▸ hc)⟩

theorem oneQuote_iff {u : Str} : oneQuote u = true ↔ '\'' ∉ u ∨ '"' ∉ u := by
  unfold oneQuote
  simp only [Bool.not_eq_true', Bool.and_eq_false_iff, List.contains_eq_mem, decide_eq_false_iff_not]

theorem unquoted_append {a b : Str} : unquoted (a ++ b) = (unquoted a && unquoted b) := by
  unfold unquoted; rw [List.all_append]

theorem oneQuote_left {a b : Str} (ha : oneQuote a = true) (hb : unquoted b = true) : oneQuote (a ++ b) = true := by
  rw [oneQuote_iff] at *; rw [unquoted_iff] at hb
  simp only [List.mem_append, not_or]
  exact ha.imp (fun h => ⟨h, hb.1⟩) (fun h => ⟨h, hb.2⟩)

theorem oneQuote_right {a b : Str} (ha : unquoted a = true) (hb : oneQuote b = true) : oneQuote (a ++ b) = true := by
  rw [oneQuote_iff] at *; rw [unquoted_iff] at ha
  simp only [List.mem_append, not_or]
  exact hb.imp (fun h => ⟨ha.1, h⟩) (fun h => ⟨ha.2, h⟩)

theorem literal_plainChars {q : Char} : ∀ {u : Str}, (∀ c ∈ u, c ≠ '\\' ∧ c ≠ '\n' ∧ c ≠ '\r') → q ∉ u → literal q u = .ok u
  | [], _, _ => rfl
  | c :: r, h, hq => by
    have hc := h c (by simp)
    have ih := literal_plainChars (u := r) (fun c hc => h c (by simp [hc])) (by simp at hq; exact hq.2)
    have hcq : c ≠ q := by simp at hq; exact fun e => hq.1 e.symm
    rw [literal.eq_3 _ _ _ (by intro c' r' e; exact absurd e hc.1), if_neg (by simp [hcq, hc]), ih]
    rfl

theorem evalName_plain {u : Str} (h : ∀ c ∈ u, c ≠ '\\' ∧ c ≠ '\n' ∧ c ≠ '\r') (hq : oneQuote u = true) : evalName u = .ok u := by
  unfold evalName
  rw [oneQuote_iff] at hq
  split
  · next hc => exact literal_plainChars h (hq.resolve_left fun hn => hn hc)
  · next hc => exact literal_plainChars h hc

/-- names that are well written, `strict` if they have no quotes -/
def wellWritten (u : Str) : Prop := plainName u = true ∧ oneQuote u = true

theorem known_written {k u : Str} (h : Composed ListedUnit k u) : wellWritten u ∧ (k = s!!"Power" → unquoted u = true) := by
  have hb : ∀ {q u : Str}, ListedUnit q u → q ≠ s!!"Dimensionless" → plainName u = true := fun h hq =>
    (builtIn_writing h.1).1.resolve_right fun h => hq h.2
  have hq : ∀ {q u : Str}, ListedUnit q u → q ≠ s!!"Length" → unquoted u = true := fun h hq =>
    (builtIn_writing h.1).2.2.1.resolve_right hq
  have ho : ∀ {q u : Str}, ListedUnit q u → oneQuote u = true := fun h => (builtIn_writing h.1).2.1
  have hu1 : ∀ {u : Str}, unquoted u = true → oneQuote u = true := fun h =>
    oneQuote_iff.2 (Or.inl (unquoted_iff.1 h).1)
  have s1 : unquoted ['/'] = true := by decide
  have s2 : unquoted ['*'] = true := by decide
  have s3 : unquoted ['2'] = true := by decide
  have s4 : unquoted ['1'] = true := by decide
  have s5 : plainName ['1'] = true := by decide
  have j1 : ∀ {a b : Str}, plainName a = true → plainName b = true → plainName (over a b) = true := plain_join (by decide)
  have j2 : ∀ {a b : Str}, plainName a = true → plainName b = true → plainName (starred a b) = true := plain_join (by decide)
  have o1 : ∀ {a b : Str}, oneQuote a = true → unquoted b = true → oneQuote (over a b) = true := fun ha hb =>
    oneQuote_left (oneQuote_left ha s1) hb
  have o2 : ∀ {a b : Str}, unquoted a = true → oneQuote b = true → oneQuote (over a b) = true := fun ha hb =>
    oneQuote_right (by rw [unquoted_append, ha, s1]; rfl) hb
  have u1 : ∀ {a b : Str}, unquoted a = true → unquoted b = true → unquoted (over a b) = true := fun ha hb => by
    unfold over; rw [unquoted_append, unquoted_append, ha, hb, s1]; rfl
  have u2 : ∀ {a b : Str}, unquoted a = true → unquoted b = true → unquoted (starred a b) = true := fun ha hb => by
    unfold starred; rw [unquoted_append, unquoted_append, ha, hb, s2]; rfl
  have u3 : ∀ {a : Str}, unquoted a = true → unquoted (a ++ ['2']) = true := fun ha => by
    rw [unquoted_append, ha, s3]; rfl
  have fin : ∀ {k u : Str}, plainName u = true → unquoted u = true → wellWritten u ∧ (k = s!!"Power" → unquoted u = true) :=
    fun h1 h2 => ⟨⟨h1, hu1 h2⟩, fun _ => h2⟩
  have lfin : ∀ {k u : Str}, plainName u = true → oneQuote u = true → k ≠ s!!"Power" →
      wellWritten u ∧ (k = s!!"Power" → unquoted u = true) := fun h1 h2 h3 => ⟨⟨h1, h2⟩, fun e => absurd e h3⟩
  induction h with
  | volumeRate x y => exact fin (j1 (hb x (by decide)) (hb y (by decide))) (u1 (hq x (by decide)) (hq y (by decide)))
  | weightRate x y => exact fin (j1 (hb x (by decide)) (hb y (by decide))) (u1 (hq x (by decide)) (hq y (by decide)))
  | dataRate x y => exact fin (j1 (hb x (by decide)) (hb y (by decide))) (u1 (hq x (by decide)) (hq y (by decide)))
  | volumeRatio x y => exact fin (j1 (hb x (by decide)) (hb y (by decide))) (u1 (hq x (by decide)) (hq y (by decide)))
  | density x y => exact fin (j1 (hb x (by decide)) (hb y (by decide))) (u1 (hq x (by decide)) (hq y (by decide)))
  | pressure x y => exact fin (j1 (hb x (by decide)) (hb y (by decide))) (u1 (hq x (by decide)) (hq y (by decide)))
  | powerEnergy x y => exact fin (j1 (hb x (by decide)) (hb y (by decide))) (u1 (hq x (by decide)) (hq y (by decide)))
  | capacitance x y => exact fin (j1 (hb x (by decide)) (hb y (by decide))) (u1 (hq x (by decide)) (hq y (by decide)))
  | voltagePI x y => exact fin (j1 (hb x (by decide)) (hb y (by decide))) (u1 (hq x (by decide)) (hq y (by decide)))
  | currentPV x y => exact fin (j1 (hb x (by decide)) (hb y (by decide))) (u1 (hq x (by decide)) (hq y (by decide)))
  | currentVR x y => exact fin (j1 (hb y (by decide)) (hb x (by decide))) (u1 (hq y (by decide)) (hq x (by decide)))
  | resistance x y => exact fin (j1 (hb y (by decide)) (hb x (by decide))) (u1 (hq y (by decide)) (hq x (by decide)))
  | powerVI x y => exact fin (j2 (hb x (by decide)) (hb y (by decide))) (u2 (hq x (by decide)) (hq y (by decide)))
  | chargeFV x y => exact fin (j2 (hb x (by decide)) (hb y (by decide))) (u2 (hq x (by decide)) (hq y (by decide)))
  | powerIV x y => exact fin (j2 (hb y (by decide)) (hb x (by decide))) (u2 (hq y (by decide)) (hq x (by decide)))
  | chargeVF x y => exact fin (j2 (hb y (by decide)) (hb x (by decide))) (u2 (hq y (by decide)) (hq x (by decide)))
  | voltageIR x y => exact fin (j2 (hb y (by decide)) (hb x (by decide))) (u2 (hq y (by decide)) (hq x (by decide)))
  | voltageRI x y => exact fin (j2 (hb x (by decide)) (hb y (by decide))) (u2 (hq x (by decide)) (hq y (by decide)))
  | powerIIR x y => exact fin (j2 (plain_snoc (hb y (by decide))) (hb x (by decide))) (u2 (u3 (hq y (by decide))) (hq x (by decide)))
  | powerRII x y => exact fin (j2 (hb x (by decide)) (plain_snoc (hb y (by decide)))) (u2 (hq x (by decide)) (u3 (hq y (by decide))))
  | frequency x => exact fin (j1 s5 (hb x (by decide))) (u1 s4 (hq x (by decide)))
  | conductance x => exact fin (j1 s5 (hb x (by decide))) (u1 s4 (hq x (by decide)))
  | productivityIndex x y z => exact fin (j1 (j1 (hb x (by decide)) (hb y (by decide))) (hb z (by decide))) (u1 (u1 (hq x (by decide)) (hq y (by decide))) (hq z (by decide)))
  | voltageCI _ y ih => exact fin (j1 ih.1.1 (hb y (by decide))) (u1 (ih.2 rfl) (hq y (by decide)))
  | currentCV _ y ih => exact fin (j1 ih.1.1 (hb y (by decide))) (u1 (ih.2 rfl) (hq y (by decide)))
  | velocity x y => exact lfin (j1 (hb x (by decide)) (hb y (by decide))) (o1 (ho x) (hq y (by decide))) (by decide)
  | acceleration x y z _ => exact lfin (j1 (j1 (hb x (by decide)) (hb y (by decide))) (hb z (by decide))) (o1 (o1 (ho x) (hq y (by decide))) (hq z (by decide))) (by decide)
  | accelerationSquare x y => exact lfin (j1 (hb x (by decide)) (plain_snoc (hb y (by decide)))) (o1 (ho x) (u3 (hq y (by decide)))) (by decide)
  | pressureGradient x y => exact lfin (j1 (hb x (by decide)) (hb y (by decide))) (o2 (hq x (by decide)) (ho y)) (by decide)
  | temperatureGradient x y => exact lfin (j1 (hb x (by decide)) (hb y (by decide))) (o2 (hq x (by decide)) (ho y)) (by decide)

theorem over_inj {a b x y : Str} (h : over x y = over a b) (ha : '/' ∉ a) (hb : '/' ∉ b) : x = a ∧ y = b := by
  have hc : (over x y).count '/' = 1 := by
    rw [h]; unfold over
    rw [List.count_append, List.count_append, List.count_eq_zero_of_not_mem ha, List.count_eq_zero_of_not_mem hb]; rfl
  unfold over at hc
  rw [List.count_append, List.count_append, show List.count '/' ['/'] = 1 from rfl] at hc
  have hx : '/' ∉ x := List.count_eq_zero.1 (by omega)
  have hy : '/' ∉ y := List.count_eq_zero.1 (by omega)
  have := splitOn_pair (c := '/') hx hy
  unfold over at h
  rw [h, splitOn_pair ha hb] at this
  simp only [List.cons.injEq, and_true] at this
  exact ⟨this.1.symm, this.2.symm⟩

theorem over_signed (a b : Str) : ¬ Unsigned (over a b) := fun h => h.1 (by simp [over])
theorem starred_signed (a b : Str) : ¬ Unsigned (starred a b) := fun h => h.2 (by simp [starred])

theorem composed_signed {B : Str → Str → Prop} {k u : Str} (h : Composed B k u) : ¬ Unsigned u := by
  cases h <;> first | exact over_signed _ _ | exact starred_signed _ _

/-- how a ratio of two names without signs can be composed -/
theorem composed_ratio {B : Str → Str → Prop} {k a b : Str} (h : Composed B k (over a b)) (ha : Unsigned a) (hb : Unsigned b) :
    (∃ p q, (p, q, k) ∈ ratioTable ∧ B p a ∧ B q b) ∨ a = ['1'] ∨ B s!!"Length" a ∧ ∃ t, B s!!"Time" t ∧ b = t ++ ['2'] := by
  generalize hu : over a b = u at h
  have st : ∀ {x y : Str}, over a b = starred x y → False := fun e => by
    have : '*' ∈ over a b := by rw [e]; simp [starred]
    simp [over, ha.2, hb.2] at this
  cases h with
  | acceleration x y z _ =>
    obtain ⟨e, -⟩ := over_inj hu.symm ha.1 hb.1
    subst e; exact absurd ha (over_signed _ _)
  | productivityIndex x y z =>
    obtain ⟨e, -⟩ := over_inj hu.symm ha.1 hb.1
    subst e; exact absurd ha (over_signed _ _)
  | accelerationSquare x y =>
    obtain ⟨rfl, rfl⟩ := over_inj hu.symm ha.1 hb.1
    exact Or.inr (Or.inr ⟨x, _, y, rfl⟩)
  | frequency x =>
    obtain ⟨rfl, rfl⟩ := over_inj hu.symm ha.1 hb.1
    exact Or.inr (Or.inl rfl)
  | conductance x =>
    obtain ⟨rfl, rfl⟩ := over_inj hu.symm ha.1 hb.1
    exact Or.inr (Or.inl rfl)
  | voltageCI x y =>
    obtain ⟨rfl, rfl⟩ := over_inj hu.symm ha.1 hb.1
    exact absurd ha (composed_signed x)
  | currentCV x y =>
    obtain ⟨rfl, rfl⟩ := over_inj hu.symm ha.1 hb.1
    exact absurd ha (composed_signed x)
  | currentVR x y =>
    obtain ⟨rfl, rfl⟩ := over_inj hu.symm ha.1 hb.1
    exact Or.inl ⟨_, _, by decide, y, x⟩
  | resistance x y =>
    obtain ⟨rfl, rfl⟩ := over_inj hu.symm ha.1 hb.1
    exact Or.inl ⟨_, _, by decide, y, x⟩
  | _ x y =>
    first
      | exact (st hu).elim
      | (obtain ⟨rfl, rfl⟩ := over_inj hu.symm ha.1 hb.1; exact Or.inl ⟨_, _, by decide, x, y⟩)

/-- two quantities with names in common -/
def sharedKinds : List (Str × Str) :=
  [(s!!"Volume", s!!"Weight"), (s!!"Temperature", s!!"Capacitance"), (s!!"Density", s!!"PressureGradient"),
   (s!!"Resistance", s!!"Impedance")]

theorem shared_kinds {q q' u : Str} (h : SharedName q q' u) : (q, q') ∈ sharedKinds := by
  cases h <;> decide

def sameOrShared (q q' : Str) : Bool := q == q' || sharedKinds.contains (q, q') || sharedKinds.contains (q', q)

theorem same_or_shared {q q' u : Str} (h : BuiltIn q u) (h' : BuiltIn q' u) : sameOrShared q q' = true := by
  unfold sameOrShared
  rcases builtIn_unique h h' with rfl | h | h
  · simp
  · simp [shared_kinds h]
  · simp [shared_kinds h]

theorem table_unique : (ratioTable.all fun r => ratioTable.all fun s =>
    !(sameOrShared r.1 s.1 && sameOrShared r.2.1 s.2.1) || r.2.2 == s.2.2) = true := by decide +kernel

theorem time_two {t : Str} (h : BuiltIn s!!"Time" (t ++ ['2'])) : False := by
  obtain ⟨k, hk, hq⟩ := h
  have hkb : kindBase k = s!!"Time" := by
    unfold quantityOf at hq
    split at hq
    · cases hq
    · exact hq
  have := List.all_eq_true.1 times_plain _ (mem_basicNames.2 ⟨k, hk, hkb⟩)
  simp at this

theorem length_rows : (ratioTable.all fun r => !sameOrShared r.1 s!!"Length" || r.2.1 == s!!"Time") = true := by decide +kernel

theorem known_unsigned {B : Str → Str → Prop} {k u : Str} (h : Known B k u) (hu : Unsigned u) : B k u :=
  h.resolve_right fun c => composed_signed c hu

theorem swapped_star {u v : Str} (h : OtherOrder u v) : '*' ∈ u ∧ '*' ∈ v := by
  obtain ⟨a, b, rfl, rfl, -⟩ := h
  simp [starred]

theorem Spec.ShippedLibrary.unsigned {n : Net} {d : UnitDict} (h : ShippedLibrary n d) {k u : Str} (hu : Unsigned u) :
    Lists d k u ↔ ListedUnit k u := by
  rw [h.lists]
  constructor
  · rintro (hk | ⟨v, -, hs⟩)
    · exact known_unsigned hk hu
    · exact absurd (swapped_star hs).1 hu.2
  · exact fun hl => Or.inl (Or.inl hl)

/-- a ratio of two basic names is listed under the ratio of their quantities only -/
theorem Spec.ShippedLibrary.ratio {n : Net} {d : UnitDict} (h : ShippedLibrary n d) {p q k k' a b : Str}
    (hT : (p, q, k) ∈ ratioTable) (ha : ListedUnit p a) (hb : ListedUnit q b) (ua : Unsigned a) (ub : Unsigned b)
    (hn : ∀ k', BuiltIn k' (over a b) → k' = k) (hl : Lists d k' (over a b)) : k' = k := by
  rw [h.lists] at hl
  rcases hl with (hl | hl) | ⟨v, -, hs⟩
  · exact hn _ hl.1
  · rcases composed_ratio hl ua ub with ⟨p', q', hT', ha', hb'⟩ | rfl | ⟨ha', t, ht, rfl⟩
    · have := List.all_eq_true.1 (List.all_eq_true.1 table_unique _ hT) _ hT'
      simp only [same_or_shared ha.1 ha'.1, same_or_shared hb.1 hb'.1, Bool.and_self, Bool.not_true, Bool.false_or, beq_iff_eq] at this
      exact this.symm
    · exact absurd rfl (builtIn_writing ha.1).2.2.2
    · have := List.all_eq_true.1 length_rows _ hT
      simp only [same_or_shared ha.1 ha'.1, Bool.not_true, Bool.false_or, beq_iff_eq] at this
      subst this
      exact (time_two hb.1).elim
  · have := (swapped_star hs).1
    simp [over, ua.2, ub.2] at this

theorem composed_of_table {B : Str → Str → Prop} {p q k a b : Str} (h : (p, q, k) ∈ ratioTable) (ha : B p a) (hb : B q b) :
    Composed B k (over a b) := by
  simp only [ratioTable, List.mem_cons, Prod.mk.injEq, List.not_mem_nil, or_false] at h
  rcases h with ⟨rfl, rfl, rfl⟩ | ⟨rfl, rfl, rfl⟩ | ⟨rfl, rfl, rfl⟩ | ⟨rfl, rfl, rfl⟩ | ⟨rfl, rfl, rfl⟩ | ⟨rfl, rfl, rfl⟩ |
    ⟨rfl, rfl, rfl⟩ | ⟨rfl, rfl, rfl⟩ | ⟨rfl, rfl, rfl⟩ | ⟨rfl, rfl, rfl⟩ | ⟨rfl, rfl, rfl⟩ | ⟨rfl, rfl, rfl⟩ |
    ⟨rfl, rfl, rfl⟩ | ⟨rfl, rfl, rfl⟩ | ⟨rfl, rfl, rfl⟩
  · exact .volumeRate ha hb
  · exact .weightRate ha hb
  · exact .dataRate ha hb
  · exact .volumeRatio ha hb
  · exact .density ha hb
  · exact .velocity ha hb
  · exact .pressureGradient ha hb
  · exact .pressure ha hb
  · exact .temperatureGradient ha hb
  · exact .powerEnergy ha hb
  · exact .capacitance ha hb
  · exact .voltagePI ha hb
  · exact .currentVR hb ha
  · exact .currentPV ha hb
  · exact .resistance hb ha

/-- the characters of listed names -/
theorem Spec.ShippedLibrary.written {n : Net} {d : UnitDict} (h : ShippedLibrary n d) {k u : Str} (hl : Lists d k u) :
    (∀ c ∈ u, c ≠ '\\' ∧ c ≠ '\n' ∧ c ≠ '\r') ∧ oneQuote u = true := by
  have hk : ∀ {k u : Str}, Known ListedUnit k u → (∀ c ∈ u, c ≠ '\\' ∧ c ≠ '\n' ∧ c ≠ '\r') ∧ oneQuote u = true := by
    rintro k u (hb | hc)
    · obtain ⟨h1, h2, -⟩ := builtIn_writing hb.1
      refine ⟨?_, h2⟩
      rcases h1 with h1 | ⟨rfl, -⟩
      · exact (plain_ends h1).2.2
      · simp
    · obtain ⟨⟨h1, h2⟩, -⟩ := known_written hc
      exact ⟨(plain_ends h1).2.2, h2⟩
  rw [h.lists] at hl
  rcases hl with hl | ⟨v, hv, a, b, rfl, rfl, -⟩
  · exact hk hl
  · obtain ⟨h1, h2⟩ := hk hv
    have hm : ∀ c, c ∈ starred a b ↔ c ∈ starred b a := by
      intro c; simp only [starred, List.mem_append]; exact ⟨fun h => by rcases h with (h | h) | h <;> simp [h], fun h => by rcases h with (h | h) | h <;> simp [h]⟩
    refine ⟨fun c hc => h1 c ((hm c).1 hc), ?_⟩
    rw [oneQuote_iff] at h2 ⊢
    simpa only [hm] using h2

theorem uncertain_same {L : Lib} (h : ShippedClasses L) : L.w.dic.uncertain = ambiguousNames := by
  obtain ⟨n, -, h⟩ := h
  rw [h]; rfl

/-- the class is that of the first quantity that lists the name -/
theorem units_first {L : Lib} (h : ShippedClasses L) {pre post : List Str} {k u s : Str} (hk : shippedKeys = pre ++ k :: post)
    (hc : k ∈ stdClasses) (hs : Py.stripWs s = u) (hl : Lists L.dict k u) (hno : ∀ k' ∈ pre, ¬ Lists L.dict k' u)
    (hu : u ∉ ambiguousNames) (v : Rat) : units v s L = (.ok ⟨.std k, u, v⟩, L) := by
  have hun := uncertain_same h
  obtain ⟨n, hn, -⟩ := h
  obtain ⟨l, hf⟩ := hn.find hk hl hno
  obtain ⟨hw, hq⟩ := hn.written hl
  have hkind : kindOf k = .ok (.std k) := by
    have key : (stdClasses.all fun k => decide (kindOf k = .ok (.std k))) = true := by decide +kernel
    simpa using List.all_eq_true.1 key _ hc
  have hmem : u ∈ L.names k := by
    obtain ⟨l, hl, hu⟩ := hl
    unfold Lib.names; rw [hl]; exact hu
  have hun' : u ∉ L.w.dic.uncertain := by rw [hun]; exact hu
  have key : ∀ m m' : PyM Lib Quantity, (if u ∈ L.w.dic.uncertain then m else m') L = m' L := fun m m' => by rw [if_neg hun']
  unfold units unitsNamed
  rw [hs]
  refine (key (construct .base v u) _).trans ?_
  simp only [Option.isSome_none, Bool.false_eq_true, if_false]
  simp only [bind, hf, PyM.lift, evalName_plain hw hq, hkind,
    construct, Kind.key, pure, reduceCtorEq, hmem, if_true, if_false]

theorem keys_split {k : Str} (h : k ∈ shippedKeys) : ∃ pre post, shippedKeys = pre ++ k :: post ∧ k ∉ pre := by
  obtain ⟨pre, post, e⟩ := List.append_of_mem h
  refine ⟨pre, post, e, fun hp => ?_⟩
  have hn : shippedKeys.Nodup := by decide
  rw [e] at hn
  exact (List.nodup_append.1 hn).2.2 k hp k (by simp) rfl

theorem lists_key {n : Net} {d : UnitDict} (h : ShippedLibrary n d) {k u : Str} (hl : Lists d k u) : k ∈ shippedKeys := by
  rw [← h.keys]
  obtain ⟨l, hl, -⟩ := hl
  exact List.mem_map.2 ⟨_, dictGet_mem hl, rfl⟩

theorem units_only {L : Lib} (h : ShippedClasses L) {k u s : Str}
    (hc : k ∈ stdClasses) (hs : Py.stripWs s = u) (hl : Lists L.dict k u) (hno : ∀ k', Lists L.dict k' u → k' = k)
    (hu : u ∉ ambiguousNames) (v : Rat) : units v s L = (.ok ⟨.std k, u, v⟩, L) := by
  obtain ⟨n, hn, -⟩ := id h
  obtain ⟨pre, post, e, hp⟩ := keys_split (lists_key hn hl)
  exact units_first h e hc hs hl (fun k' hk' hl' => hp (hno k' hl' ▸ hk')) hu v

end Unyts

import Verif.Props.Tuples
import Verif.Lemmas.Given
import Verif.Props.Repeat
import Verif.Spec.Arrays

/- C12 from the same state, C117: arrays convert element by element, C118: quantities with arrays. -/
namespace Unyts
open Spec Quantity

theorem convertClean_given (uc : Option Bool) (x : Rat) (a b : Str) (w : World) :
    convertClean uc (some x) a b w = given x (convertClean uc none a b w) := by
  unfold convertClean
  rw [PyM.run_bind_ok (PyM.run_modify _ _), PyM.run_bind_ok (PyM.run_modify _ _)]
  have h := density_given uc x a b { w with previous := [] }
  cases hd : densityConversion uc none a b { w with previous := [] } with
  | mk r w1 =>
  rw [hd] at h
  cases r with
  | error e => simp only [PyM.run_bind]; rw [h, hd]; rfl
  | ok r =>
    cases r with
    | some cp =>
      obtain ⟨c, p⟩ := cp
      simp only [PyM.run_bind]
      rw [h, hd]
      cases c with
      | num y => rfl
      | fn f =>
        simp only [givenC]
        cases hf : f w1.fvf x with
        | error e => show (Except.error e, w1) = ((f w1.fvf x).map _, w1); rw [hf]; rfl
        | ok y => show (Except.ok _, w1) = ((f w1.fvf x).map _, w1); rw [hf]; rfl
    | none =>
      have h2 : converterTop uc (some x) a b w1 = givenC x (converterTop uc none a b w1) := converter_given (topBudget w1.par) uc x a b w1
      simp only [PyM.run_bind]
      rw [h, hd]
      simp only [givenC]
      cases ht : converterTop uc none a b w1 with
      | mk r w2 =>
      rw [ht] at h2
      cases r with
      | error e => rw [PyM.run_bind_error h2, PyM.run_bind_error ht]; rfl
      | ok r =>
        rw [PyM.run_bind_ok ht]
        cases r with
        | none =>
          rw [PyM.run_bind_ok h2]
          simp only
          rw [PyM.run_bind_ok (PyM.run_get _)]
          split <;> rfl
        | some cp =>
          obtain ⟨c, p⟩ := cp
          cases c with
          | num y => rw [PyM.run_bind_ok h2]; rfl
          | fn f =>
            simp only [givenC] at h2
            show _ = ((f w2.fvf x).map _, w2)
            cases hf : f w2.fvf x with
            | error e => rw [hf] at h2; rw [PyM.run_bind_error h2]; rfl
            | ok y => rw [hf] at h2; rw [PyM.run_bind_ok h2]; rfl

/-- C12 from the same state, without conditions on the state, the units or the cache: `convert(x, a, b)` does what
`convert(None, a, b)` does, then calls the function it returned with x; also exceptions and None are the same, and the library is
left in the same state. -/
theorem C12_here (x : Rat) (a b : Option Str) (uc : Option Bool) (w : World) :
    convert (some x) a b uc w = given x (convert none a b uc w) := by
  unfold convert
  rw [PyM.run_bind_ok (PyM.run_get _), PyM.run_bind_ok (PyM.run_get _)]
  cases cleanInput w.par a b with
  | error e => rfl
  | ok xy => rw [PyM.run_bind_ok (PyM.run_lift_ok _ _), PyM.run_bind_ok (PyM.run_lift_ok _ _)]; exact convertClean_given uc x _ _ w


/-! ### C117 -/

theorem mapM_forall {f : Rat → Res Rat} {xs ys : List Rat} :
    xs.mapM f = .ok ys ↔ List.Forall₂ (fun x y => f x = .ok y) xs ys := by
  induction xs generalizing ys with
  | nil =>
    simp only [List.mapM_nil, pure, Except.pure, Except.ok.injEq]
    constructor
    · rintro rfl; exact .nil
    · intro h; cases h; rfl
  | cons x xs ih =>
    rw [List.mapM_cons]
    cases hx : f x with
    | error e =>
      constructor
      · intro h; cases h
      · intro h
        cases h with
        | cons h1 _ => rw [hx] at h1; cases h1
    | ok y =>
      cases hr : xs.mapM f with
      | error e =>
        constructor
        · intro h; cases h
        · intro h
          cases h with
          | cons h1 h2 => rw [ih.2 h2] at hr; cases hr
      | ok r =>
        constructor
        · intro h; cases h; exact .cons hx (ih.1 hr)
        · intro h
          cases h with
          | cons h1 h2 =>
            rw [hx] at h1
            rw [ih.2 h2] at hr
            cases h1; cases hr; rfl

/-- `convert(None, a, b)` never returns a number -/
theorem C12_never_number {a b : Option Str} {uc : Option Bool} {w w' : World} {q : Rat} :
    convert none a b uc w ≠ (.ok (some (.num q)), w') := by
  intro h
  obtain ⟨x, y, _, h2⟩ := convert_ok h
  exact convertClean_noNum h2

/-- C117. `convert(array, a, b)` answers an array exactly when `convert(x, a, b)` would answer a number for each element, asked in the
same state; its elements are these numbers, and the library is left as by each of them. Whatever the state, the units and the
cache. -/
theorem C117_elements (x : Rat) (xs ys : List Rat) (a b : Option Str) (uc : Option Bool) (w w' : World) :
    convertArray (x :: xs) a b uc w = (.ok (some ys), w') ↔
      List.Forall₂ (fun x y => convert (some x) a b uc w = (.ok (some (.num y)), w')) (x :: xs) ys := by
  have key : ∀ (f : Fn) (w1 : World), convert none a b uc w = (.ok (some (.fn f)), w1) → ∀ z y,
      (convert (some z) a b uc w = (.ok (some (.num y)), w') ↔ f w1.fvf z = .ok y ∧ w1 = w') := by
    intro f w1 h z y
    rw [C12_here, h]
    simp only [given]
    cases f w1.fvf z <;> simp [Except.map]
  unfold convertArray
  cases hc : convert none a b uc w with
  | mk r w1 =>
  have nothing : (∀ z y, convert (some z) a b uc w ≠ (.ok (some (.num y)), w')) →
      ¬ List.Forall₂ (fun x y => convert (some x) a b uc w = (.ok (some (.num y)), w')) (x :: xs) ys := by
    rintro h hf
    cases hf with
    | cons h1 _ => exact h _ _ h1
  cases r with
  | error e =>
    rw [PyM.run_bind_error hc]
    refine ⟨fun h => (by cases h), fun h => absurd h (nothing fun z y h2 => ?_)⟩
    rw [C12_here, hc] at h2
    cases h2
  | ok r =>
    rw [PyM.run_bind_ok hc]
    cases r with
    | none =>
      refine ⟨fun h => (by cases h), fun h => absurd h (nothing fun z y h2 => ?_)⟩
      rw [C12_here, hc] at h2
      cases h2
    | some c =>
      cases c with
      | num q => exact absurd hc C12_never_number
      | fn f =>
        simp only
        rw [PyM.run_bind_ok (PyM.run_get _)]
        simp only [key f w1 hc]
        cases hm : (x :: xs).mapM (Conv.call (.fn f) w1.fvf) with
        | error e =>
          refine ⟨fun h => (by cases h), fun h => ?_⟩
          have := (mapM_forall (f := Conv.call (.fn f) w1.fvf)).2 (h.imp fun _ _ h => h.1)
          rw [hm] at this; cases this
        | ok zs =>
          have hz := mapM_forall.1 hm
          rw [PyM.run_bind_ok (PyM.run_lift_ok _ _)]
          constructor
          · intro h
            cases h
            exact hz.imp fun _ _ h => ⟨h, rfl⟩
          · intro h
            have := (mapM_forall (f := Conv.call (.fn f) w1.fvf)).2 (h.imp fun _ _ h => h.1)
            rw [hm] at this
            cases this
            cases h with
            | cons h1 _ => obtain rfl := h1.2; rfl

/-- C117. With the cache in use, converting the array at once gives the numbers that converting its elements one after the other
gives. -/
theorem C117_one_by_one {w w' : World} (hg : WF w.net) {uc : Option Bool} (hc : uc.getD w.par.cache = true) {a b : Option Str}
    {xs ys : List Rat} (h : convertArray xs a b uc w = (.ok (some ys), w')) :
    (oneByOne a b uc xs w).1 = .ok (ys.map fun y => some (.num y)) := by
  have main : ∀ (xs ys : List Rat) (w w1 : World) (f : Fn), WF w.net → uc.getD w.par.cache = true →
      convert none a b uc w = (.ok (some (.fn f)), w1) → List.Forall₂ (fun x y => f w1.fvf x = .ok y) xs ys →
      (oneByOne a b uc xs w).1 = .ok (ys.map fun y => some (.num y)) := by
    intro xs
    induction xs with
    | nil => intro ys w w1 f _ _ _ h; cases h; rfl
    | cons x xs ih =>
      intro ys w w1 f hg hc hn hf
      cases hf with
      | @cons _ y _ ys h1 h2 =>
        have e1 : convert (some x) a b uc w = (.ok (some (.num y)), w1) := by
          rw [C12_here, hn]; simp only [given, h1]; rfl
        obtain ⟨s, t, hcl, hcc⟩ := convert_ok hn
        obtain ⟨hb, _⟩ := convertClean_again hg hc hcc
        obtain ⟨hfv, hagain⟩ := C12_function_and_number w hg uc hc a b f w1 hn
        unfold oneByOne
        rw [PyM.run_bind_ok e1]
        have rest : (oneByOne a b uc xs w1).1 = .ok (ys.map fun y => some (.num y)) := by
          cases xs with
          | nil => cases h2; rfl
          | cons z zs =>
            have : ∃ g w2, convert none a b uc w1 = (.ok (some (.fn g)), w2) := by
              cases h2 with
              | cons h3 _ =>
                have := hagain z _ (by rw [← hfv]; exact h3)
                rw [C12_here] at this
                cases hq : convert none a b uc w1 with
                | mk r w2 =>
                rw [hq] at this
                cases r with
                | error e => cases this
                | ok r =>
                  cases r with
                  | none => cases this
                  | some c =>
                    cases c with
                    | num q => exact absurd hq C12_never_number
                    | fn g => exact ⟨g, w2, rfl⟩
            obtain ⟨g, w2, hq⟩ := this
            refine ih ys w1 w2 g (by rw [hb.net]; exact hg) (by rw [hb.par]; exact hc) hq (h2.imp fun z y hz => ?_)
            have := hagain z y (by rw [← hfv]; exact hz)
            rw [C12_here, hq] at this
            simp only [given] at this
            cases hgz : g w2.fvf z with
            | error e => rw [hgz] at this; cases this
            | ok q => rw [hgz] at this; cases this; rfl
        cases ho : oneByOne a b uc xs w1 with
        | mk r w2 =>
        rw [ho] at rest
        simp only at rest
        subst rest
        rw [PyM.run_bind_ok ho]
        rfl
  unfold convertArray at h
  cases hn : convert none a b uc w with
  | mk r w1 =>
  cases r with
  | error e => rw [PyM.run_bind_error hn] at h; cases h
  | ok r =>
    rw [PyM.run_bind_ok hn] at h
    cases r with
    | none => cases h
    | some c =>
      cases c with
      | num q => exact absurd hn C12_never_number
      | fn f =>
        simp only at h
        rw [PyM.run_bind_ok (PyM.run_get _)] at h
        cases hm : xs.mapM (Conv.call (.fn f) w1.fvf) with
        | error e => rw [hm] at h; cases h
        | ok zs =>
          rw [hm, PyM.run_bind_ok (PyM.run_lift_ok _ _)] at h
          cases h
          exact main xs ys w _ f hg hc hn (mapM_forall.1 hm)

/-- arrays by the conversions of all the numbers -/
theorem convertArray_of {a b : Option Str} {uc : Option Bool} {w : World} {g : Rat → Rat}
    (h : ∀ x, (convert (some x) a b uc w).1 = .ok (some (.num (g x)))) (xs : List Rat) :
    convertArray xs a b uc w = (.ok (some (xs.map g)), (convert (some 0) a b uc w).2) := by
  have h0 := h 0
  cases hn : convert none a b uc w with
  | mk r w1 =>
  cases r with
  | error e => rw [C12_here, hn] at h0; cases h0
  | ok r =>
    cases r with
    | none => rw [C12_here, hn] at h0; cases h0
    | some c =>
      cases c with
      | num q => exact absurd hn C12_never_number
      | fn f =>
        have hf : ∀ x, f w1.fvf x = .ok (g x) := by
          intro x
          have := h x
          rw [C12_here, hn] at this
          simp only [given] at this
          cases hx : f w1.fvf x with
          | error e => rw [hx] at this; cases this
          | ok q => rw [hx] at this; cases this; rfl
        unfold convertArray
        rw [PyM.run_bind_ok hn]
        simp only
        rw [PyM.run_bind_ok (PyM.run_get _)]
        have hm : xs.mapM (Conv.call (.fn f) w1.fvf) = .ok (xs.map g) := by
          refine mapM_forall.2 ?_
          induction xs with
          | nil => exact .nil
          | cons x xs ih => exact .cons (hf x) ih
        rw [hm, PyM.run_bind_ok (PyM.run_lift_ok _ _), C12_here, hn]
        simp only [given, hf]
        rfl

/-- C117 on the shipped library: after `import unyts` and any conversions and questions, an array in one unit with a standard size
converts to the array of the exact numbers in another. -/
theorem C117_exact {w0 : World} (hw : Started w0) (hg : 17 ≤ w0.par.maxGenerations) (hφ : w0.fvf ≠ some 0) {n : Str}
    {l : List (Str × Rat)} (hn : (n, l) ∈ sizeTables) {a b : Str} {sa sb : Rat} (ha : (a, sa) ∈ l) (hb : (b, sb) ∈ l)
    {cs : List Call} (hcs : ∀ c ∈ cs, Asks c) (xs : List Rat) :
    (convertArray xs (some a) (some b) none (session cs w0)).1 = .ok (some (xs.map (· * sa / sb))) := by
  by_cases hab : a = b
  · subst hab
    have hs : sa = sb := by
      have : ∀ e ∈ sizeTables, ∀ u ∈ e.2, ∀ v ∈ e.2, u.1 = v.1 → u.2 = v.2 := by decide +kernel
      exact this _ hn _ ha _ hb rfl
    subst hs
    have hG := gauged_table hw hg hφ hn (fun _ => sa)
    exact congrArg Prod.fst (convertArray_of (hG.conv a a ha ha cs hcs) xs)
  · have hG := gauged_table hw hg hφ hn (fun u => if u = a then sa else sb)
    have := hG.conv a b (by simpa using ha) (by simpa [Ne.symm hab] using hb) cs hcs
    simp only [if_true, if_neg (Ne.symm hab)] at this
    exact congrArg Prod.fst (convertArray_of this xs)


/-! ### C118 -/

theorem Spec.ArrProgram.names_atItem (e : ArrProgram) (i : Nat) : (e.atItem i).names = (e.atItem 0).names := by
  induction e <;> simp_all [ArrProgram.atItem, Program.names]

theorem Spec.ArrProgram.unit_atItem (e : ArrProgram) (i : Nat) : (e.atItem i).unit = (e.atItem 0).unit := by
  induction e <;> simp_all [ArrProgram.atItem, Program.unit]

theorem Spec.ArrProgram.defined_atItem (e : ArrProgram) (i : Nat) : (e.atItem i).Defined ↔ (e.atItem 0).Defined := by
  induction e <;> simp_all [ArrProgram.atItem, Program.Defined]

theorem zipArrays_same {α : Type} (op : Rat → Rat → α) (m : Nat) (f g : Nat → Rat) :
    zipArrays op ((List.range m).map f) ((List.range m).map g) = .ok ((List.range m).map fun i => op (f i) (g i)) := by
  unfold zipArrays
  rw [if_pos (by simp)]
  congr 1
  induction List.range m with
  | nil => rfl
  | cons a l ih => simp [ih]

section
variable {w0 : World} {n : Str} {P : Str → Prop} {size : Str → Rat}

theorem Gauged.unitsArr (h : Gauged w0 n P size) {L : Lib} (hL : Running w0 L) {u : Str} (hu : P u) (xs : List Rat) :
    unitsArr xs u L = (.ok ⟨.std n, u, xs⟩, L) := by
  unfold Unyts.unitsArr
  rw [PyM.run_bind_ok (h.units hL hu 0)]
  rfl

theorem Gauged.constructArr (h : Gauged w0 n P size) {L : Lib} (hL : Running w0 L) {u : Str} (hu : P u) (xs : List Rat) :
    constructArr (.std n) xs u L = (.ok ⟨.std n, u, xs⟩, L) := by
  unfold Unyts.constructArr
  rw [PyM.run_bind_ok (h.construct hL hu 0)]
  rfl

theorem Gauged.convertArr (h : Gauged w0 n P size) (hg : WF w0.net) {L : Lib} (hL : Running w0 L) {a b : Str} (ha : P a) (hb : P b)
    (er : PyErr) (xs : List Rat) :
    ∃ L', libConvertArr er xs a b L = (.ok (xs.map (· * size a / size b)), L') ∧ Running w0 L' := by
  obtain ⟨cs, hcs, e⟩ := hL.1
  refine ⟨{ L with w := (Call.convert (some 0) (some a) (some b) none).run L.w }, ?_,
    hL.of_world hg (c := .convert (some 0) (some a) (some b) none) trivial⟩
  unfold libConvertArr
  rw [PyM.run_bind_ok (a := some (xs.map (· * size a / size b)))
    (s' := { L with w := (Call.convert (some 0) (some a) (some b) none).run L.w })]
  · rfl
  · unfold onWorld
    rw [e, convertArray_of (h.conv a b ha hb cs hcs)]
    rfl

theorem Gauged.toArr (h : Gauged w0 n P size) (hg : WF w0.net) {L : Lib} (hL : Running w0 L) {a b : Str} (ha : P a) (hb : P b)
    (xs : List Rat) :
    ∃ L', ArrQ.to ⟨.std n, a, xs⟩ b L = (.ok ⟨.std n, b, xs.map (· * size a / size b)⟩, L') ∧ Running w0 L' := by
  obtain ⟨L1, e1, r1⟩ := h.convertible hg hL ha hb
  obtain ⟨L2, e2, r2⟩ := h.convertArr hg r1 ha hb .wrongValue xs
  refine ⟨L2, ?_, r2⟩
  unfold ArrQ.to
  have : ∀ m m' : PyM Lib ArrQ, (if (⟨.std n, a, xs⟩ : ArrQ).kind = .dimensionless ∨ (⟨.std n, a, xs⟩ : ArrQ).kind = .percentage
      then m else m') L = m' L := by
    intro m m'; rw [if_neg]; simp
  refine (this _ _).trans ?_
  rw [PyM.run_bind_ok e1, if_pos rfl]
  dsimp only
  rw [PyM.run_bind_ok e2]
  exact h.constructArr r2 hb _

theorem Gauged.addArr (h : Gauged w0 n P size) (hg : WF w0.net) {L : Lib} (hL : Running w0 L) {a b : Str} (ha : P a) (hb : P b)
    (op : Rat → Rat → Rat) {m : Nat} (f g : Nat → Rat) :
    ∃ L', ArrQ.addLike op ⟨.std n, a, (List.range m).map f⟩ ⟨.std n, b, (List.range m).map g⟩ L =
      (.ok ⟨.std n, a, (List.range m).map fun i => op (f i) (g i * size b / size a)⟩, L') ∧ Running w0 L' := by
  unfold ArrQ.addLike
  rw [if_pos rfl]
  by_cases hab : a = b
  · subst hab
    refine ⟨L, ?_, hL⟩
    rw [if_pos rfl, zipArrays_same, PyM.run_bind_ok (PyM.run_lift_ok _ _), h.constructArr hL ha]
    simp only [mul_div_cancel_right₀ _ (h.pos a ha).ne']
  · obtain ⟨L1, e1, r1⟩ := h.convertible hg hL hb ha
    obtain ⟨L2, e2, r2⟩ := h.convertArr hg r1 hb ha .typeError ((List.range m).map g)
    refine ⟨L2, ?_, r2⟩
    rw [if_neg hab, PyM.run_bind_ok e1, if_pos rfl, PyM.run_bind_ok e2, List.map_map, zipArrays_same,
      PyM.run_bind_ok (PyM.run_lift_ok _ _), h.constructArr r2 ha]
    rfl

theorem Gauged.each (h : Gauged w0 n P size) {L : Lib} (hL : Running w0 L) {a : Str} (ha : P a) (f : Rat → Rat) (m : Nat) (g : Nat → Rat) :
    ArrQ.each f ⟨.std n, a, (List.range m).map g⟩ L = (.ok ⟨.std n, a, (List.range m).map fun i => f (g i)⟩, L) := by
  unfold ArrQ.each
  simp only [reduceCtorEq, if_false, List.map_map]
  exact h.constructArr hL ha _

/-- programs with arrays compute element by element -/
theorem Gauged.runArr (h : Gauged w0 n P size) (hg : WF w0.net) (e : ArrProgram) {m : Nat} (hm : e.Sized m)
    (he : ∀ u ∈ (e.atItem 0).names, P u) (hz : (e.atItem 0).Defined) {L : Lib} (hL : Running w0 L) :
    P (e.atItem 0).unit ∧ ∃ L', e.run L = (.ok ⟨.std n, (e.atItem 0).unit,
      (List.range m).map fun i => (e.atItem i).amount size / size (e.atItem 0).unit⟩, L') ∧ Running w0 L' := by
  induction e generalizing L with
  | units xs u =>
    have hu := he u (by simp [ArrProgram.atItem, Program.names])
    refine ⟨hu, L, ?_, hL⟩
    simp only [ArrProgram.run, ArrProgram.atItem, Program.unit, Program.amount]
    rw [h.unitsArr hL hu]
    simp only [mul_div_cancel_right₀ _ (h.pos u hu).ne']
    congr 3
    simp only [ArrProgram.Sized] at hm
    subst hm
    refine List.ext_getElem (by simp) fun i h1 h2 => ?_
    simp [h1]
  | add e f ihe ihf =>
    obtain ⟨pe, L1, e1, r1⟩ := ihe hm.1 (fun u hu => he u (by simp [ArrProgram.atItem, Program.names, hu])) hz.1 hL
    obtain ⟨pf, L2, e2, r2⟩ := ihf hm.2 (fun u hu => he u (by simp [ArrProgram.atItem, Program.names, hu])) hz.2 r1
    obtain ⟨L3, e3, r3⟩ := h.addArr hg r2 pe pf (· + ·) (m := m) (fun i => (e.atItem i).amount size / size (e.atItem 0).unit)
      (fun i => (f.atItem i).amount size / size (f.atItem 0).unit)
    refine ⟨pe, L3, ?_, r3⟩
    simp only [ArrProgram.run, ArrProgram.atItem, Program.unit, Program.amount]
    rw [PyM.run_bind_ok e1, PyM.run_bind_ok e2, e3]
    simp only [div_mul_cancel₀ _ (h.pos _ pf).ne', add_div]
  | sub e f ihe ihf =>
    obtain ⟨pe, L1, e1, r1⟩ := ihe hm.1 (fun u hu => he u (by simp [ArrProgram.atItem, Program.names, hu])) hz.1 hL
    obtain ⟨pf, L2, e2, r2⟩ := ihf hm.2 (fun u hu => he u (by simp [ArrProgram.atItem, Program.names, hu])) hz.2 r1
    obtain ⟨L3, e3, r3⟩ := h.addArr hg r2 pe pf (· - ·) (m := m) (fun i => (e.atItem i).amount size / size (e.atItem 0).unit)
      (fun i => (f.atItem i).amount size / size (f.atItem 0).unit)
    refine ⟨pe, L3, ?_, r3⟩
    simp only [ArrProgram.run, ArrProgram.atItem, Program.unit, Program.amount]
    rw [PyM.run_bind_ok e1, PyM.run_bind_ok e2, e3]
    simp only [div_mul_cancel₀ _ (h.pos _ pf).ne', sub_div]
  | neg e ih =>
    obtain ⟨pe, L1, e1, r1⟩ := ih hm he hz hL
    refine ⟨pe, L1, ?_, r1⟩
    simp only [ArrProgram.run, ArrProgram.atItem, Program.unit, Program.amount]
    rw [PyM.run_bind_ok e1, h.each r1 pe]
    simp only [neg_div]
  | abs e ih =>
    obtain ⟨pe, L1, e1, r1⟩ := ih hm he hz hL
    refine ⟨pe, L1, ?_, r1⟩
    simp only [ArrProgram.run, ArrProgram.atItem, Program.unit, Program.amount]
    rw [PyM.run_bind_ok e1, h.each r1 pe]
    have := h.pos _ pe
    congr 3
    refine List.map_congr_left fun i _ => ?_
    have key : (e.atItem i).amount size / size (e.atItem 0).unit < 0 ↔ (e.atItem i).amount size < 0 := by rw [div_lt_iff₀ this, zero_mul]
    simp only [key]
    split <;> simp [neg_div]
  | «to» e u ih =>
    obtain ⟨pe, L1, e1, r1⟩ := ih hm (fun v hv => he v (by simp [ArrProgram.atItem, Program.names, hv])) hz hL
    have hu := he u (by simp [ArrProgram.atItem, Program.names])
    obtain ⟨L2, e2, r2⟩ := h.toArr hg r1 pe hu ((List.range m).map fun i => (e.atItem i).amount size / size (e.atItem 0).unit)
    refine ⟨hu, L2, ?_, r2⟩
    simp only [ArrProgram.run, ArrProgram.atItem, Program.unit, Program.amount]
    rw [PyM.run_bind_ok e1, e2, List.map_map]
    congr 3
    refine List.map_congr_left fun i _ => ?_
    simp only [Function.comp, div_mul_cancel₀ _ (h.pos _ pe).ne']
  | addNum e x ih =>
    obtain ⟨pe, L1, e1, r1⟩ := ih hm he hz hL
    refine ⟨pe, L1, ?_, r1⟩
    simp only [ArrProgram.run, ArrProgram.atItem, Program.unit, Program.amount]
    rw [PyM.run_bind_ok e1, h.each r1 pe]
    simp only [add_div, e.unit_atItem, mul_div_cancel_right₀ _ (h.pos _ pe).ne']
  | subNum e x ih =>
    obtain ⟨pe, L1, e1, r1⟩ := ih hm he hz hL
    refine ⟨pe, L1, ?_, r1⟩
    simp only [ArrProgram.run, ArrProgram.atItem, Program.unit, Program.amount]
    rw [PyM.run_bind_ok e1, h.each r1 pe]
    simp only [sub_div, e.unit_atItem, mul_div_cancel_right₀ _ (h.pos _ pe).ne']
  | mulNum e x ih =>
    obtain ⟨pe, L1, e1, r1⟩ := ih hm he hz hL
    refine ⟨pe, L1, ?_, r1⟩
    simp only [ArrProgram.run, ArrProgram.atItem, Program.unit, Program.amount]
    rw [PyM.run_bind_ok e1, h.each r1 pe]
    simp only [mul_div_right_comm]
  | divNum e x ih =>
    obtain ⟨pe, L1, e1, r1⟩ := ih hm he hz.1 hL
    have hx : x ≠ 0 := hz.2
    refine ⟨pe, L1, ?_, r1⟩
    simp only [ArrProgram.run, ArrProgram.atItem, Program.unit, Program.amount]
    rw [PyM.run_bind_ok e1]
    unfold ArrQ.divNum
    have hd : ((List.range m).map fun i => (e.atItem i).amount size / size (e.atItem 0).unit).mapM (pdiv · x) =
        .ok ((List.range m).map fun i => (e.atItem i).amount size / size (e.atItem 0).unit / x) := by
      refine mapM_forall.2 ?_
      induction List.range m with
      | nil => exact .nil
      | cons a l ih => exact .cons (by simp [pdiv, hx]) ih
    simp only
    rw [hd, PyM.run_bind_ok (PyM.run_lift_ok _ _), if_neg (by simp), h.unitsArr r1 pe]
    simp only [div_right_comm]

theorem Gauged.compareArr (h : Gauged w0 n P size) (hg : WF w0.net) {L : Lib} (hL : Running w0 L) {a b : Str} (ha : P a) (hb : P b)
    (c : Cmp) (m : Nat) (f g : Nat → Rat) :
    ∃ L', ArrQ.compare c ⟨.std n, a, (List.range m).map f⟩ ⟨.std n, b, (List.range m).map g⟩ L =
      (.ok ((List.range m).map fun i => c.holds (f i * size a) (g i * size b)), L') ∧ Running w0 L' := by
  obtain ⟨L1, e1, r1⟩ := h.toArr hg hL hb ha ((List.range m).map g)
  refine ⟨L1, ?_, r1⟩
  unfold ArrQ.compare
  rw [if_pos rfl]
  simp only
  rw [PyM.run_bind_ok e1]
  simp only [List.map_map]
  rw [zipArrays_same]
  show (Except.ok _, L1) = _
  congr 2
  refine List.map_congr_left fun i _ => ?_
  have := h.pos a ha
  cases c <;> simp [Cmp.holds, lt_div_iff₀ this, le_div_iff₀ this, div_lt_iff₀ this, div_le_iff₀ this, eq_div_iff this.ne']

end

/-! Without conditions on the library -/

theorem lift_inv {α : Type} {r : Res α} {L L' : Lib} {x : α} (h : PyM.lift r L = (.ok x, L')) : r = .ok x ∧ L' = L := by
  cases r with
  | error e => cases h
  | ok y => cases h; exact ⟨rfl, rfl⟩

theorem forall₂_getD {R : Rat → Rat → Prop} {xs ys : List Rat} (h : List.Forall₂ R xs ys) :
    ys.length = xs.length ∧ ∀ i < xs.length, R (xs.getD i 0) (ys.getD i 0) := by
  induction h with
  | nil => exact ⟨rfl, fun i hi => absurd hi (by simp)⟩
  | cons h1 h2 ih =>
    refine ⟨by simp [ih.1], fun i hi => ?_⟩
    cases i with
    | zero => simpa using h1
    | succ i => simpa using ih.2 i (by simpa using hi)

theorem getD_map (xs : List Rat) (f : Rat → Rat) {i : Nat} (hi : i < xs.length) : (xs.map f).getD i 0 = f (xs.getD i 0) := by
  simp [hi]

theorem construct_other {k : Kind} {u : Str} {L L' : Lib} {q : Quantity} {v : Rat} (h : Unyts.construct k v u L = (.ok q, L')) (x : Rat) :
    Unyts.construct k x u L = (.ok { q with value := if k = .percentage then x / 100 else x }, L') := by
  unfold Unyts.construct at *
  cases k <;> simp only at h ⊢
  case user => cases h; simp
  all_goals
    split at h
    · cases h; simp_all
    · cases h

theorem units_other {u : Str} {L L' : Lib} {q : Quantity} {v : Rat} (h : Unyts.units v u L = (.ok q, L')) (x : Rat) :
    Unyts.units x u L = (.ok { q with value := if q.kind = .percentage then x / 100 else x }, L') := by
  unfold Unyts.units unitsNamed at *
  rw [PyM.run_bind_ok (PyM.run_get _)] at h ⊢
  split at h
  · rename_i hu
    rw [if_pos hu, construct_other h x]
    have := (construct_ok h).1
    rw [this]
  · rename_i hu
    rw [if_neg hu]
    cases hf : L.dict.find? fun e => Py.stripWs u ∈ e.2 with
    | none =>
      rw [hf] at h
      dsimp only at h ⊢
      rw [construct_other h x, (construct_ok h).1]
    | some kl =>
      obtain ⟨key, l⟩ := kl
      rw [hf] at h
      dsimp only at h ⊢
      rw [if_neg (by simp)] at h ⊢
      obtain ⟨s, L1, h1, h⟩ := PyM.bind_ok h
      rw [PyM.run_bind_ok h1]
      obtain ⟨k, L2, h2, h⟩ := PyM.bind_ok h
      rw [PyM.run_bind_ok h2]
      obtain ⟨q0, L3, h3, h⟩ := PyM.bind_ok h
      rw [PyM.run_bind_ok h3]
      cases h
      rw [← (construct_ok h3).1]
      rfl

theorem constructArr_at {k : Kind} {xs : List Rat} {u : Str} {L L' : Lib} {q : ArrQ} (h : constructArr k xs u L = (.ok q, L')) :
    q.values.length = xs.length ∧ ∀ i < xs.length, Unyts.construct k (xs.getD i 0) u L = (.ok (q.at i), L') := by
  unfold constructArr at h
  obtain ⟨q0, L1, h1, h⟩ := PyM.bind_ok h
  cases h
  refine ⟨by dsimp only; split <;> simp, fun i hi => ?_⟩
  rw [construct_other h1, ArrQ.at]
  dsimp only
  split
  · rw [getD_map _ _ hi]
  · rfl

theorem unitsArr_at {xs : List Rat} {u : Str} {L L' : Lib} {q : ArrQ} (h : unitsArr xs u L = (.ok q, L')) :
    q.values.length = xs.length ∧ ∀ i < xs.length, Unyts.units (xs.getD i 0) u L = (.ok (q.at i), L') := by
  unfold unitsArr at h
  obtain ⟨q0, L1, h1, h⟩ := PyM.bind_ok h
  cases h
  refine ⟨by dsimp only; split <;> simp, fun i hi => ?_⟩
  rw [units_other h1, ArrQ.at]
  dsimp only
  split
  · rw [getD_map _ _ hi]
  · rfl

theorem libConvertArr_at {e : PyErr} {xs ys : List Rat} {a b : Str} {L L' : Lib} (h : libConvertArr e xs a b L = (.ok ys, L')) :
    ys.length = xs.length ∧ ∀ i < xs.length, libConvert e (xs.getD i 0) a b L = (.ok (ys.getD i 0), L') := by
  unfold libConvertArr at h
  obtain ⟨r, L1, h1, h⟩ := PyM.bind_ok h
  cases r with
  | none => cases h
  | some zs =>
    cases h
    cases xs with
    | nil =>
      refine ⟨?_, fun i hi => absurd hi (by simp)⟩
      unfold onWorld convertArray at h1
      simp only [Prod.mk.injEq] at h1
      obtain ⟨h1, -⟩ := h1
      cases hn : convert none (some a) (some b) none L.w with
      | mk r w1 =>
      cases r with
      | error e => rw [PyM.run_bind_error hn] at h1; cases h1
      | ok r =>
        rw [PyM.run_bind_ok hn] at h1
        cases r with
        | none => cases h1
        | some c => cases h1; rfl
    | cons x xs =>
      unfold onWorld at h1
      simp only [Prod.mk.injEq] at h1
      obtain ⟨h1, h2⟩ := h1
      have := (C117_elements x xs ys (some a) (some b) none L.w _).1 (Prod.ext h1 rfl)
      obtain ⟨h3, h4⟩ := forall₂_getD this
      refine ⟨h3, fun i hi => ?_⟩
      unfold libConvert
      rw [PyM.run_bind_ok (a := some (.num (ys.getD i 0))) (s' := L')]
      · rfl
      · unfold onWorld
        rw [h4 i hi, ← h2]

theorem to_at {q r : ArrQ} {u : Str} {L L' : Lib} (h : q.to u L = (.ok r, L')) :
    r.values.length = q.values.length ∧ ∀ i < q.values.length, (q.at i).to u L = (.ok (.qty (r.at i)), L') := by
  unfold ArrQ.to at h
  split at h
  · cases h
  rename_i hk
  obtain ⟨t, L1, h1, h⟩ := PyM.bind_ok h
  have start : ∀ i (m m' : PyM Lib Obj), (if (q.at i).unitless then m else m') = m' := by
    intro i m m'; rw [if_neg]; simpa [Quantity.unitless, ArrQ.at] using hk
  cases t with
  | true =>
    rw [if_pos rfl] at h
    have key : (∃ e ys L2, libConvertArr e q.values q.unit u L1 = (.ok ys, L2) ∧ q.kind = .base ∧ e = .typeError ∧ unitsArr ys u L2 = (.ok r, L')) ∨
        ∃ e ys L2, libConvertArr e q.values q.unit u L1 = (.ok ys, L2) ∧ q.kind ≠ .base ∧ e = .wrongValue ∧ constructArr q.kind ys u L2 = (.ok r, L') := by
      cases hq : q.kind <;> rw [hq] at h <;> dsimp only at h <;> obtain ⟨ys, L2, h2, h⟩ := PyM.bind_ok h
      case base => exact .inl ⟨_, ys, L2, h2, rfl, rfl, h⟩
      all_goals exact .inr ⟨_, ys, L2, h2, (by simp), rfl, h⟩
    rcases key with ⟨e, ys, L2, h2, hb, rfl, h3⟩ | ⟨e, ys, L2, h2, hb, rfl, h3⟩
    · obtain ⟨l2, c2⟩ := libConvertArr_at h2
      obtain ⟨l3, c3⟩ := unitsArr_at h3
      refine ⟨l3.trans l2, fun i hi => ?_⟩
      unfold Quantity.to
      rw [start]
      rw [PyM.run_bind_ok (show libConvertible (q.at i).unit u L = _ from h1), if_pos rfl]
      simp only [ArrQ.at, hb]
      rw [PyM.run_bind_ok (c2 i hi), PyM.run_bind_ok (c3 i (by omega))]
      rfl
    · obtain ⟨l2, c2⟩ := libConvertArr_at h2
      obtain ⟨l3, c3⟩ := constructArr_at h3
      refine ⟨l3.trans l2, fun i hi => ?_⟩
      unfold Quantity.to
      rw [start]
      rw [PyM.run_bind_ok (show libConvertible (q.at i).unit u L = _ from h1), if_pos rfl]
      have := c3 i (by omega)
      cases hq : q.kind <;> simp only [ArrQ.at, hq] <;> first | (exact absurd hq hb) | skip
      all_goals
        rw [hq] at this
        rw [PyM.run_bind_ok (c2 i hi), PyM.run_bind_ok this]
        rfl
  | false =>
    rw [if_neg (by simp)] at h
    split at h
    · rename_i hu
      cases h
      refine ⟨rfl, fun i _ => ?_⟩
      unfold Quantity.to
      rw [start, PyM.run_bind_ok (show libConvertible (q.at i).unit u L = _ from h1), if_neg (by simp), if_pos (by exact hu)]
      rfl
    · cases h

theorem zipArrays_at {op : Rat → Rat → Rat} {xs ys zs : List Rat} (hl : xs.length = ys.length) (h : zipArrays op xs ys = .ok zs) :
    zs.length = xs.length ∧ ∀ i < xs.length, zs.getD i 0 = op (xs.getD i 0) (ys.getD i 0) := by
  unfold zipArrays at h
  rw [if_pos hl] at h
  cases h
  refine ⟨by simp [hl], fun i hi => ?_⟩
  have : i < ys.length := hl ▸ hi
  simp [List.getD_eq_getElem?_getD, hi, this]

theorem addLike_at {op : Rat → Rat → Rat} {p q r : ArrQ} (hl : p.values.length = q.values.length) {L L' : Lib}
    (h : p.addLike op q L = (.ok r, L')) :
    r.values.length = p.values.length ∧ ∀ i < p.values.length, (p.at i).addLike op (q.at i) L = (.ok (.qty (r.at i)), L') := by
  unfold ArrQ.addLike at h
  split at h
  swap
  · cases h
  rename_i hk
  unfold Quantity.addLike
  split at h
  · rename_i hu
    obtain ⟨zs, L1, h1, h⟩ := PyM.bind_ok h
    obtain ⟨hz, eL⟩ := lift_inv h1
    rw [eL] at h
    obtain ⟨l1, c1⟩ := zipArrays_at hl hz
    obtain ⟨l2, c2⟩ := constructArr_at h
    refine ⟨l2.trans l1, fun i hi => ?_⟩
    have ck := fun i (hi : i < p.values.length) => (show op (p.at i).value (q.at i).value = zs.getD i 0 from (c1 i hi).symm)
    rw [if_pos (show (q.at i).kind = (p.at i).kind from hk), if_pos (show (p.at i).unit = (q.at i).unit from hu), ck i hi, PyM.run_bind_ok (show Unyts.construct (p.at i).kind _ (p.at i).unit L = _ from c2 i (by omega))]
    rfl
  · rename_i hu
    obtain ⟨t, L1, h1, h⟩ := PyM.bind_ok h
    cases t with
    | true =>
      rw [if_pos rfl] at h
      obtain ⟨ys, L2, h2, h⟩ := PyM.bind_ok h
      obtain ⟨zs, L3, h3, h⟩ := PyM.bind_ok h
      obtain ⟨hz, eL⟩ := lift_inv h3
      rw [eL] at h
      obtain ⟨ly, cy⟩ := libConvertArr_at h2
      obtain ⟨l1, c1⟩ := zipArrays_at (hl.trans ly.symm) hz
      obtain ⟨l2, c2⟩ := constructArr_at h
      refine ⟨l2.trans l1, fun i hi => ?_⟩
      have ck := fun i (hi : i < p.values.length) => (show op (p.at i).value (ys.getD i 0) = zs.getD i 0 from (c1 i hi).symm)
      rw [if_pos (show (q.at i).kind = (p.at i).kind from hk), if_neg (show ¬ (p.at i).unit = (q.at i).unit from hu), PyM.run_bind_ok (show libConvertible (q.at i).unit (p.at i).unit L = _ from h1), if_pos rfl, PyM.run_bind_ok (show libConvert _ (q.at i).value (q.at i).unit (p.at i).unit L1 = _ from cy i (by omega)), ck i hi,
        PyM.run_bind_ok (show Unyts.construct (p.at i).kind _ (p.at i).unit L2 = _ from c2 i (by omega))]
      rfl
    | false =>
      rw [if_neg (by simp)] at h
      obtain ⟨t, L2, h2, h⟩ := PyM.bind_ok h
      cases t with
      | false => rw [if_neg (by simp)] at h; cases h
      | true =>
        rw [if_pos rfl] at h
        obtain ⟨ys, L3, h3, h⟩ := PyM.bind_ok h
        obtain ⟨zs, L4, h4, h⟩ := PyM.bind_ok h
        obtain ⟨hz, eL⟩ := lift_inv h4
        rw [eL] at h
        obtain ⟨ly, cy⟩ := libConvertArr_at h3
        obtain ⟨l1, c1⟩ := zipArrays_at (hl.symm.trans ly.symm) hz
        obtain ⟨l2, c2⟩ := constructArr_at h
        refine ⟨by omega, fun i hi => ?_⟩
        have ck := fun i (hi : i < p.values.length) => (show op (q.at i).value (ys.getD i 0) = zs.getD i 0 from (c1 i (by omega)).symm)
        rw [if_pos (show (q.at i).kind = (p.at i).kind from hk), if_neg (show ¬ (p.at i).unit = (q.at i).unit from hu), PyM.run_bind_ok (show libConvertible (q.at i).unit (p.at i).unit L = _ from h1), if_neg (by simp), PyM.run_bind_ok (show libConvertible (p.at i).unit (q.at i).unit L1 = _ from h2), if_pos rfl,
          PyM.run_bind_ok (show libConvert _ (p.at i).value (p.at i).unit (q.at i).unit L2 = _ from cy i hi), ck i hi, PyM.run_bind_ok (show Unyts.construct (p.at i).kind _ (q.at i).unit L3 = _ from c2 i (by omega))]
        rfl

theorem each_at {f : Rat → Rat} {q r : ArrQ} {L L' : Lib} (h : q.each f L = (.ok r, L')) :
    r.values.length = q.values.length ∧ ∀ i < q.values.length,
      Unyts.construct q.kind (if q.kind = .percentage then f (q.at i).value * 100 else f (q.at i).value) q.unit L = (.ok (r.at i), L') := by
  unfold ArrQ.each at h
  obtain ⟨l, c⟩ := constructArr_at h
  rw [List.length_map] at l c
  refine ⟨l, fun i hi => ?_⟩
  have := c i hi
  rwa [getD_map _ _ hi] at this

theorem divNum_at {q r : ArrQ} {x : Rat} {L L' : Lib} (h : q.divNum x L = (.ok r, L')) :
    r.values.length = q.values.length ∧ ∀ i < q.values.length, (q.at i).divNum x L = (.ok (r.at i), L') := by
  unfold ArrQ.divNum at h
  obtain ⟨ys, L1, h1, h⟩ := PyM.bind_ok h
  obtain ⟨hz, eL⟩ := lift_inv h1
  rw [eL] at h
  obtain ⟨l1, c1⟩ := forall₂_getD (mapM_forall.1 hz)
  have first : ∀ i < q.values.length, PyM.lift (pdiv (q.at i).value x) L = (.ok (ys.getD i 0), L) := by
    intro i hi
    simp only [ArrQ.at, c1 i hi]
    exact PyM.run_lift_ok _ _
  split at h
  · rename_i hk
    obtain ⟨l, c⟩ := constructArr_at h
    rw [List.length_map] at l c
    refine ⟨by omega, fun i hi => ?_⟩
    unfold Quantity.divNum
    have := c i (by omega)
    rw [getD_map _ _ (by omega)] at this
    rw [PyM.run_bind_ok (first i hi)]
    simpa [ArrQ.at, hk] using this
  · rename_i hk
    obtain ⟨l, c⟩ := unitsArr_at h
    refine ⟨by omega, fun i hi => ?_⟩
    unfold Quantity.divNum
    have := c i (by omega)
    rw [PyM.run_bind_ok (first i hi)]
    simpa [ArrQ.at, hk] using this

/-- C118. A computation with quantities that hold arrays of one length, when it gives a result, gives the quantity whose elements are
what the same computation gives on the elements, started in the same state; and it leaves the library as each of them does. Whatever
the state and the units. -/
theorem C118_elements (e : ArrProgram) {m : Nat} (hm : e.Sized m) {L L' : Lib} {q : ArrQ} (h : e.run L = (.ok q, L')) :
    q.len = m ∧ ∀ i < m, (e.atItem i).run L = (.ok (q.at i), L') := by
  unfold ArrQ.len
  induction e generalizing L L' q with
  | units xs u =>
    obtain ⟨l, c⟩ := unitsArr_at h
    simp only [ArrProgram.Sized] at hm
    exact ⟨l.trans hm, fun i hi => c i (by omega)⟩
  | add e f ihe ihf =>
    obtain ⟨p, L1, h1, h⟩ := PyM.bind_ok h
    obtain ⟨r, L2, h2, h⟩ := PyM.bind_ok h
    obtain ⟨l1, c1⟩ := ihe hm.1 h1
    obtain ⟨l2, c2⟩ := ihf hm.2 h2
    obtain ⟨l3, c3⟩ := addLike_at (l1.trans l2.symm) h
    refine ⟨l3.trans l1, fun i hi => ?_⟩
    simp only [ArrProgram.atItem, Program.run]
    rw [PyM.run_bind_ok (c1 i hi), PyM.run_bind_ok (c2 i hi), PyM.run_bind_ok (by unfold Quantity.add; exact c3 i (by omega))]
    rfl
  | sub e f ihe ihf =>
    obtain ⟨p, L1, h1, h⟩ := PyM.bind_ok h
    obtain ⟨r, L2, h2, h⟩ := PyM.bind_ok h
    obtain ⟨l1, c1⟩ := ihe hm.1 h1
    obtain ⟨l2, c2⟩ := ihf hm.2 h2
    obtain ⟨l3, c3⟩ := addLike_at (l1.trans l2.symm) h
    refine ⟨l3.trans l1, fun i hi => ?_⟩
    simp only [ArrProgram.atItem, Program.run]
    rw [PyM.run_bind_ok (c1 i hi), PyM.run_bind_ok (c2 i hi), PyM.run_bind_ok (by unfold Quantity.sub; exact c3 i (by omega))]
    rfl
  | neg e ih =>
    obtain ⟨p, L1, h1, h⟩ := PyM.bind_ok h
    obtain ⟨l1, c1⟩ := ih hm h1
    obtain ⟨l2, c2⟩ := each_at h
    refine ⟨l2.trans l1, fun i hi => ?_⟩
    simp only [ArrProgram.atItem, Program.run]
    rw [PyM.run_bind_ok (c1 i hi), ← c2 i (by omega)]
    cases hk : p.kind <;> simp [Quantity.neg, ArrQ.at, hk]
  | abs e ih =>
    obtain ⟨p, L1, h1, h⟩ := PyM.bind_ok h
    obtain ⟨l1, c1⟩ := ih hm h1
    obtain ⟨l2, c2⟩ := each_at h
    refine ⟨l2.trans l1, fun i hi => ?_⟩
    simp only [ArrProgram.atItem, Program.run]
    rw [PyM.run_bind_ok (c1 i hi), ← c2 i (by omega)]
    cases hk : p.kind <;> simp [Quantity.abs, ArrQ.at, hk]
  | «to» e u ih =>
    obtain ⟨p, L1, h1, h⟩ := PyM.bind_ok h
    obtain ⟨l1, c1⟩ := ih hm h1
    obtain ⟨l2, c2⟩ := to_at h
    refine ⟨l2.trans l1, fun i hi => ?_⟩
    simp only [ArrProgram.atItem, Program.run]
    rw [PyM.run_bind_ok (c1 i hi), PyM.run_bind_ok (c2 i (by omega))]
    rfl
  | addNum e x ih =>
    obtain ⟨p, L1, h1, h⟩ := PyM.bind_ok h
    obtain ⟨l1, c1⟩ := ih hm h1
    obtain ⟨l2, c2⟩ := each_at h
    refine ⟨l2.trans l1, fun i hi => ?_⟩
    simp only [ArrProgram.atItem, Program.run]
    rw [PyM.run_bind_ok (c1 i hi), ← c2 i (by omega)]
    cases hk : p.kind <;> simp [Quantity.addNum, ArrQ.at, hk]
  | subNum e x ih =>
    obtain ⟨p, L1, h1, h⟩ := PyM.bind_ok h
    obtain ⟨l1, c1⟩ := ih hm h1
    obtain ⟨l2, c2⟩ := each_at h
    refine ⟨l2.trans l1, fun i hi => ?_⟩
    simp only [ArrProgram.atItem, Program.run]
    rw [PyM.run_bind_ok (c1 i hi), ← c2 i (by omega)]
    cases hk : p.kind <;> simp [Quantity.subNum, ArrQ.at, hk]
  | mulNum e x ih =>
    obtain ⟨p, L1, h1, h⟩ := PyM.bind_ok h
    obtain ⟨l1, c1⟩ := ih hm h1
    obtain ⟨l2, c2⟩ := each_at h
    refine ⟨l2.trans l1, fun i hi => ?_⟩
    simp only [ArrProgram.atItem, Program.run]
    rw [PyM.run_bind_ok (c1 i hi), ← c2 i (by omega)]
    cases hk : p.kind <;> simp [Quantity.mulNum, ArrQ.at, hk]
  | divNum e x ih =>
    obtain ⟨p, L1, h1, h⟩ := PyM.bind_ok h
    obtain ⟨l1, c1⟩ := ih hm h1
    obtain ⟨l2, c2⟩ := divNum_at h
    refine ⟨l2.trans l1, fun i hi => ?_⟩
    simp only [ArrProgram.atItem, Program.run]
    rw [PyM.run_bind_ok (c1 i hi), c2 i (by omega)]

/-- C118 for comparisons: two quantities with arrays of one length compare element by element. -/
theorem C118_compare (c : Cmp) (p q : ArrQ) (hl : p.len = q.len) {L L' : Lib} {bs : List Bool} (h : p.compare c q L = (.ok bs, L')) :
    bs.length = p.len ∧ ∀ i < p.len, (p.at i).compare c (q.at i) L = (.ok (bs.getD i false), L') := by
  unfold ArrQ.len at *
  unfold ArrQ.compare at h
  split at h
  swap
  · cases h
  rename_i hk
  obtain ⟨r, L1, h1, h⟩ := PyM.bind_ok h
  obtain ⟨hz, eL⟩ := lift_inv h
  obtain ⟨l1, c1⟩ := to_at h1
  unfold zipArrays at hz
  rw [if_pos (by omega)] at hz
  cases hz
  refine ⟨by simp; omega, fun i hi => ?_⟩
  have h2 : i < r.values.length := by omega
  unfold Quantity.compare
  rw [if_pos (show (p.at i).kind = (q.at i).kind from hk), PyM.run_bind_ok (show (q.at i).to (p.at i).unit L = _ from c1 i (by omega)), eL]
  show (Except.ok _, L1) = _
  simp [List.getD_eq_getElem?_getD, hi, h2, ArrQ.at]

/-- C118. The elements of a quantity with an array: `q[i]`, also counted from the end, is the quantity of the element, of the same class
and unit, percentages included; beyond the array it is an IndexError. -/
theorem C118_item {L : Lib} {q : ArrQ} (hq : Valid L ⟨q.kind, q.unit, 0⟩) (i : Int) :
    q.item i L = if 0 ≤ i ∧ i < q.len then (.ok (q.at i.toNat), L)
      else if i < 0 ∧ -(q.len : Int) ≤ i then (.ok (q.at (i + q.len).toNat), L) else (.error .indexError, L) := by
  have make : ∀ x, Unyts.construct q.kind (if q.kind = .percentage then x * 100 else x) q.unit L = (.ok ⟨q.kind, q.unit, x⟩, L) := by
    intro x
    refine (construct_valid hq _).trans ?_
    dsimp only
    split <;> simp
  unfold ArrQ.item
  by_cases h1 : (q.len : Int) ≤ i
  · rw [if_pos h1, if_neg (by omega), if_neg (by omega)]; rfl
  rw [if_neg h1]
  by_cases h2 : i < 0
  · rw [if_neg (show ¬ (0 ≤ i ∧ i < q.len) by omega)]
    simp only [if_pos h2]
    by_cases h3 : -(q.len : Int) ≤ i
    · rw [if_neg (show ¬ i + (q.len : Int) < 0 by omega), if_pos ⟨h2, h3⟩]
      have h4 : (i + q.len).toNat < q.values.length := by unfold ArrQ.len at *; omega
      rw [List.getElem?_eq_getElem h4]
      refine (make _).trans ?_
      simp [ArrQ.at, h4]
    · rw [if_pos (show i + (q.len : Int) < 0 by omega), if_neg (show ¬ (i < 0 ∧ -(q.len : Int) ≤ i) by omega)]; rfl
  · rw [if_pos (show 0 ≤ i ∧ i < q.len by omega)]
    simp only [if_neg h2]
    have h4 : i.toNat < q.values.length := by unfold ArrQ.len at *; omega
    rw [List.getElem?_eq_getElem h4]
    refine (make _).trans ?_
    simp [ArrQ.at, h4]

theorem zipArrays_unequal (op : Rat → Rat → Rat) (xs ys : List Rat) (hl : xs.length ≠ ys.length) :
    zipArrays op xs ys = if xs.length = 1 then .ok (ys.map (op (xs.getD 0 0)))
      else if ys.length = 1 then .ok (xs.map (op · (ys.getD 0 0))) else .error .valueError := by
  unfold zipArrays
  rw [if_neg hl]
  match xs, ys, hl with
  | [x], ys, _ => simp
  | [], [y], _ => simp
  | x :: x' :: xs, [y], _ => simp
  | [], [], h => exact absurd rfl h
  | [], y :: y' :: ys, _ => simp
  | x :: x' :: xs, [], _ => simp
  | x :: x' :: xs, y :: y' :: ys, _ => simp

/-- C118. Arrays of different lengths in one unit are added and subtracted when one of them has one element, which then counts for every
element of the other; otherwise it is a ValueError. -/
theorem C118_lengths {L : Lib} {op : Rat → Rat → Rat} {p q : ArrQ} (hk : q.kind = p.kind) (hu : p.unit = q.unit) (hl : p.len ≠ q.len) :
    p.addLike op q L =
      if p.len = 1 then constructArr p.kind (q.values.map (op (p.values.getD 0 0))) p.unit L
      else if q.len = 1 then constructArr p.kind (p.values.map (op · (q.values.getD 0 0))) p.unit L
      else (.error .valueError, L) := by
  unfold ArrQ.len at *
  unfold ArrQ.addLike
  rw [if_pos hk, if_pos hu]
  rw [zipArrays_unequal op _ _ hl]
  split
  · exact PyM.run_bind_ok (PyM.run_lift_ok _ _)
  · split
    · exact PyM.run_bind_ok (PyM.run_lift_ok _ _)
    · rfl

/-- C118. One number counts as an array of length 1, but its element cannot be taken: TypeError, for 0 and for every index from the
end. -/
theorem C118_scalar_item_fails (q : Quantity) (L : Lib) (i : Int) (hi : i ≤ 0) : q.item i L = (.error .typeError, L) := by
  unfold Quantity.item
  rw [if_neg (by omega)]; rfl

/-- C118. Iterating over a quantity gives the stored numbers, without unit: for a percentage the fractions, not what it shows. -/
theorem C118_iter (q : ArrQ) : q.iter.length = q.len ∧ ∀ i < q.len, q.iter.getD i 0 = (q.at i).value := ⟨rfl, fun _ _ => rfl⟩

theorem C118_iter_fails : ∃ q : ArrQ, q.kind = .percentage ∧ q.len = 2 ∧ ∃ i < q.len, q.iter.getD i 0 ≠ shown (q.at i) :=
  ⟨⟨.percentage, s!!"%", [1/2, 1/4]⟩, rfl, rfl, 0, by decide, by simp [ArrQ.iter, shown, ArrQ.at]⟩

/-- C118 on the shipped library: a computation with arrays, written with units that have a standard size, gives after `import unyts` and
any conversions and questions a quantity of the class in the unit of the first operand, with the exact amount in each element. -/
theorem C118_exact_partial {w0 : World} (hw : Started w0) (hg : 17 ≤ w0.par.maxGenerations) (hφ : w0.fvf ≠ some 0) {n : Str}
    {l : List (Str × Rat)} (hn : (n, l) ∈ sizeTables) (size : Str → Rat) (e : ArrProgram) {m : Nat} (hm : e.Sized m)
    (he : ∀ u ∈ (e.atItem 0).names, (u, size u) ∈ l) (hz : (e.atItem 0).Defined) {L : Lib} (hL : Running w0 L) :
    ∃ L' q, e.run L = (.ok q, L') ∧ Running w0 L' ∧ q.kind = .std n ∧ q.unit = (e.atItem 0).unit ∧ q.len = m ∧
      ∀ i < m, q.values.getD i 0 = (e.atItem i).amount size / size (e.atItem 0).unit := by
  obtain ⟨_, L', h1, h2⟩ := (gauged_table hw hg hφ hn size).runArr hw.fresh.wf e hm he hz hL
  refine ⟨L', _, h1, h2, rfl, rfl, by simp [ArrQ.len], fun i hi => ?_⟩
  simp [List.getD_eq_getElem?_getD, hi]

/-- C118 on the shipped library for comparisons, element by element by the amounts -/
theorem C118_exact_compare_partial {w0 : World} (hw : Started w0) (hg : 17 ≤ w0.par.maxGenerations) (hφ : w0.fvf ≠ some 0) {n : Str}
    {l : List (Str × Rat)} (hn : (n, l) ∈ sizeTables) (size : Str → Rat) (e f : ArrProgram) {m : Nat} (hm : e.Sized m ∧ f.Sized m)
    (he : ∀ u ∈ (e.atItem 0).names ++ (f.atItem 0).names, (u, size u) ∈ l) (hz : (e.atItem 0).Defined ∧ (f.atItem 0).Defined) (c : Cmp)
    {L : Lib} (hL : Running w0 L) :
    ∃ L', (do let p ← e.run; let q ← f.run; p.compare c q) L =
      (.ok ((List.range m).map fun i => c.holds ((e.atItem i).amount size) ((f.atItem i).amount size)), L') ∧ Running w0 L' := by
  have hG := gauged_table hw hg hφ hn size
  obtain ⟨pe, L1, e1, r1⟩ := hG.runArr hw.fresh.wf e hm.1 (fun u hu => he u (List.mem_append_left _ hu)) hz.1 hL
  obtain ⟨pf, L2, e2, r2⟩ := hG.runArr hw.fresh.wf f hm.2 (fun u hu => he u (List.mem_append_right _ hu)) hz.2 r1
  obtain ⟨L3, e3, r3⟩ := hG.compareArr hw.fresh.wf r2 pe pf c m (fun i => (e.atItem i).amount size / size (e.atItem 0).unit)
    (fun i => (f.atItem i).amount size / size (f.atItem 0).unit)
  refine ⟨L3, ?_, r3⟩
  rw [PyM.run_bind_ok e1, PyM.run_bind_ok e2, e3]
  simp only [div_mul_cancel₀ _ (hG.pos _ pe).ne', div_mul_cancel₀ _ (hG.pos _ pf).ne']

/-- C118 for all the built-in units of the classes with proportional units, on single names that belong to one class; see
`C97_sizes_partial`. -/
theorem C118_sizes_partial : ∃ size : Str → Rat, (∀ n ∈ amountQuantities, ∀ u, BuiltIn n u → 0 < size u) ∧
    ∀ w0, Started w0 → w0.fvf ≠ some 0 → ∀ n ∈ amountQuantities, ∀ (e : ArrProgram) (m : Nat), e.Sized m → (e.atItem 0).Defined →
      (∀ u ∈ (e.atItem 0).names, BuiltIn n u ∧ CleanName u ∧ ∀ q, BuiltIn q u → q = n) →
      (∀ a ∈ (e.atItem 0).names, ∀ b ∈ (e.atItem 0).names, Reach (LinkedName w0.net) a b) → ∀ L, Running w0 L →
      ∃ L', e.run L = (.ok ⟨.std n, (e.atItem 0).unit,
        (List.range m).map fun i => (e.atItem i).amount size / size (e.atItem 0).unit⟩, L') ∧ Running w0 L' := by
  refine ⟨scaleOf, fun n hn u hu => (amount_reading hn hu).2, ?_⟩
  intro w0 hw hφ n hn e m hm hz he hr L hL
  exact ((gauged_amount hw hφ hn (P := (· ∈ (e.atItem 0).names)) he fun a b ha hb => hr a ha b hb).runArr hw.fresh.wf e hm
    (fun _ h => h) hz hL).2

/-- `units([1, 2, 3], 'mile') + units([5280, 0, -5280], 'foot')`, the arrays as NumPy's -/
def hike : ArrProgram := .add (.units [1, 2, 3] s!!"mile") (.units [5280, 0, -5280] s!!"foot")

theorem hike_sized : hike.Sized 3 := ⟨rfl, rfl⟩

theorem hike_names : ∀ u ∈ (hike.atItem 0).names, (u, lengthSize u) ∈ standardSizes[0] := by decide +kernel

theorem hike_amount : ∀ i < 3, (hike.atItem i).amount lengthSize / lengthSize s!!"mile" = [2, 2, 2].getD i 0 := by
  have h1 : lengthSize s!!"mile" = 201168 / 125 := by decide +kernel
  have h2 : lengthSize s!!"foot" = 381 / 1250 := by decide +kernel
  intro i hi
  match i, hi with
  | 0, _ => simp only [hike, ArrProgram.atItem, Program.amount, h1, h2]; norm_num
  | 1, _ => simp only [hike, ArrProgram.atItem, Program.amount, h1, h2]; norm_num
  | 2, _ => simp only [hike, ArrProgram.atItem, Program.amount, h1, h2]; norm_num

example : ∃ w L, Started w ∧ Running w L ∧ ∃ q, (hike.run L).1 = .ok q ∧ q.kind = .std s!!"Length" ∧ q.unit = s!!"mile" ∧
    q.len = 3 ∧ ∀ i < 3, q.values.getD i 0 = 2 ∧ ((hike.atItem i).run L).1 = .ok ⟨.std s!!"Length", s!!"mile", 2⟩ := by
  obtain ⟨w, hw, hp, hf⟩ := started_ex
  obtain ⟨L, _, hL⟩ := hw.running
  obtain ⟨L1, q, h1, _, h3, h4, h5, h6⟩ := C118_exact_partial hw (by rw [hp]; decide) (by rw [hf]; decide) (n := s!!"Length")
    (by decide +kernel) lengthSize hike hike_sized hike_names ⟨trivial, trivial⟩ hL
  have e : ∀ i < 3, q.values.getD i 0 = 2 := by
    intro i hi
    rw [h6 i hi, show (hike.atItem 0).unit = s!!"mile" from rfl, hike_amount i hi]
    match i, hi with
    | 0, _ => rfl
    | 1, _ => rfl
    | 2, _ => rfl
  refine ⟨w, L, hw, hL, q, by rw [h1], h3, h4, h5, fun i hi => ⟨e i hi, ?_⟩⟩
  rw [(C118_elements hike hike_sized h1).2 i hi]
  simp only [ArrQ.at, e i hi, h3, h4]
  rfl

/- `convert([1, 2], 'mi', 'in')` and with compound units, in the small library of Demo; the elements one after the other -/
example : (convertArray [1, 2] (some s!!"mi") (some s!!" in") none Demo.world).1 = .ok (some [63360, 126720]) ∧
    (convertArray [1, 2] (some s!!"mi/g") (some s!!"in/g") none Demo.world).1 = .ok (some [63360, 126720]) ∧
    (convertArray [] (some s!!"mi") (some s!!"in") none Demo.world).1 = .ok (some []) := by decide +kernel

end Unyts

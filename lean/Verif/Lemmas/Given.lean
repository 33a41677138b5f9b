import Verif.Lemmas.Conv

/- The value given to the converter only decides what is done with the conversion found. -/
namespace Unyts
open Spec

/-- what `_converter` does with a number, when it answers `r` for None -/
def givenC (x : Rat) : Res (Option (Conv × Path)) × World → Res (Option (Conv × Path)) × World
  | (.ok (some (.fn f, p)), w) => ((f w.fvf x).map fun y => some (.num y, p), w)
  | r => r

theorem answer_given (x : Rat) (f : Fn) (p : Path) (w : World) : answer (some x) f p w = givenC x (answer none f p w) := rfl

theorem storeAnswer_given (x : Rat) (a b : Str) (f : Fn) (p : Path) (w : World) :
    storeAnswer (some x) a b f p w = givenC x (storeAnswer none a b f p w) := rfl

theorem network_given (x : Rat) (a b : Str) (w : World) :
    networkConversion (some x) a b w = givenC x (networkConversion none a b w) := by
  unfold networkConversion
  cases hs : searchNetwork a b w with
  | mk r w1 =>
  cases r with
  | error e => rw [PyM.run_bind_error hs, PyM.run_bind_error hs]; rfl
  | ok r =>
    rw [PyM.run_bind_ok hs, PyM.run_bind_ok hs]
    cases r with
    | none => rfl
    | some p =>
      simp only
      rw [PyM.run_bind_ok (PyM.run_get _), PyM.run_bind_ok (PyM.run_get _)]
      cases hf : lambdaConversion w1.net p with
      | error e => rfl
      | ok f =>
        rw [PyM.run_bind_ok (PyM.run_lift_ok _ _), PyM.run_bind_ok (PyM.run_lift_ok _ _),
          PyM.run_bind_ok (PyM.run_modify _ _), PyM.run_bind_ok (PyM.run_modify _ _), lambda_apply hf]
        show (PyM.lift (f w1.fvf x) >>= _) _ = ((f w1.fvf x).map _, _)
        cases f w1.fvf x <;> rfl

theorem temp_given (inner : Option Rat → Str → Str → CallM) (x : Rat) (t1 d1 t2 d2 : Str) (w : World) :
    tempConversion inner (some x) t1 d1 t2 d2 w = givenC x (tempConversion inner none t1 d1 t2 d2 w) := by
  unfold tempConversion
  rw [PyM.run_bind_ok (PyM.run_get _), PyM.run_bind_ok (PyM.run_get _)]
  cases Py.dictGet w.dic.tempRatio (t1, t2) with
  | none => rfl
  | some k =>
    simp only
    cases hi : inner (some 1) d1 d2 w with
    | mk r w1 =>
    cases r with
    | error e => rw [PyM.run_bind_error hi, PyM.run_bind_error hi]; rfl
    | ok r =>
      rw [PyM.run_bind_ok hi, PyM.run_bind_ok hi]
      cases r with
      | none => simp only; split <;> rfl
      | some cp =>
        obtain ⟨c, p⟩ := cp
        simp only
        cases hc : c.toNum with
        | error e => rfl
        | ok den => rw [PyM.run_bind_ok (PyM.run_lift_ok _ _), PyM.run_bind_ok (PyM.run_lift_ok _ _), answer_given]

theorem getConv_given (n : Nat) (uc : Option Bool) (x : Rat) (a b : Str) (w : World) :
    getConv n uc (some x) a b w = givenC x (getConv n uc none a b w) := by
  cases n with
  | zero => rfl
  | succ n =>
    simp only [getConv]
    unfold getConvBody
    cases (if resolveCache w uc then Py.dictGet w.memory (a, b) else none) with
    | some e =>
      cases e with
      | none => rfl
      | some e => exact answer_given x e.1 e.2 w
    | none =>
      simp only
      cases quick1 w.dic w.net a b with
      | some e => exact answer_given x e.1 e.2 w
      | none =>
        simp only
        cases tempParts w.dic a b with
        | some t => exact temp_given _ x _ _ _ _ w
        | none =>
          simp only
          cases quick2 w.dic a b with
          | some e => exact answer_given x e.1 e.2 w
          | none => exact network_given x a b w

theorem indirect_given (gc cv cvDef : Option Rat → Str → Str → CallM) (x : Rat) (a b : Str) (w : World) :
    indirect gc cv cvDef (some x) a b w = givenC x (indirect gc cv cvDef none a b w) := by
  unfold indirect
  cases h1 : splitStage gc a b w with
  | mk r w1 =>
  cases r with
  | error e => rw [PyM.run_bind_error h1, PyM.run_bind_error h1]; rfl
  | ok r =>
    rw [PyM.run_bind_ok h1, PyM.run_bind_ok h1]
    cases r with
    | some e => exact storeAnswer_given x a b e.1 e.2 w1
    | none =>
      simp only
      cases h2 : pairStage cv a b w1 with
      | mk r w2 =>
      cases r with
      | error e => rw [PyM.run_bind_error h2, PyM.run_bind_error h2]; rfl
      | ok r =>
        rw [PyM.run_bind_ok h2, PyM.run_bind_ok h2]
        cases r with
        | some e => exact storeAnswer_given x a b e.1 e.2 w2
        | none =>
          simp only
          cases h3 : ratioStage cvDef a b w2 with
          | mk r w3 =>
          cases r with
          | error e => rw [PyM.run_bind_error h3, PyM.run_bind_error h3]; rfl
          | ok r =>
            rw [PyM.run_bind_ok h3, PyM.run_bind_ok h3]
            cases r with
            | some e => exact storeAnswer_given x a b e.1 e.2 w3
            | none => rfl

theorem converter_given (n : Nat) (uc : Option Bool) (x : Rat) (a b : Str) (w : World) :
    converter n uc (some x) a b w = givenC x (converter n uc none a b w) := by
  cases n with
  | zero => rfl
  | succ n =>
    simp only [converter]
    by_cases hp : (a, b) ∈ w.previous
    · simp only [if_pos hp]; rfl
    · simp only [if_neg hp]
      unfold converterBody
      have h := getConv_given n uc x a b w
      cases hg : getConv n uc none a b w with
      | mk r w1 =>
      rw [hg] at h
      cases r with
      | error e => rw [PyM.run_bind_error h, PyM.run_bind_error hg]; rfl
      | ok r =>
        cases r with
        | none =>
          rw [PyM.run_bind_ok h, PyM.run_bind_ok hg]
          simp only
          rw [PyM.run_bind_ok (PyM.run_modify _ _), PyM.run_bind_ok (PyM.run_modify _ _), indirect_given]
        | some cp =>
          obtain ⟨c, p⟩ := cp
          rw [PyM.run_bind_ok hg]
          cases c with
          | num y => rw [PyM.run_bind_ok h]; rfl
          | fn f =>
            simp only [givenC] at h
            show _ = ((f w1.fvf x).map _, w1)
            cases hf : f w1.fvf x with
            | error e => rw [hf] at h; rw [PyM.run_bind_error h]; rfl
            | ok y => rw [hf] at h; rw [PyM.run_bind_ok h]; rfl

theorem density_given (uc : Option Bool) (x : Rat) (a b : Str) (w : World) :
    densityConversion uc (some x) a b w = givenC x (densityConversion uc none a b w) := by
  unfold densityConversion
  rw [PyM.run_bind_ok (PyM.run_get _), PyM.run_bind_ok (PyM.run_get _)]
  split
  · cases w.par.density with
    | none => rfl
    | some d =>
      simp only
      cases h : converterTop uc (some d) gcm3 (b ++ '/' :: a) w with
      | mk r w1 =>
      cases r with
      | error e => rw [PyM.run_bind_error h, PyM.run_bind_error h]; rfl
      | ok r => rw [PyM.run_bind_ok h, PyM.run_bind_ok h, answer_given]
  · split
    · cases w.par.density with
      | none => rfl
      | some d =>
        simp only
        cases h : converterTop uc (some d) gcm3 (a ++ '/' :: b) w with
        | mk r w1 =>
        cases r with
        | error e => rw [PyM.run_bind_error h, PyM.run_bind_error h]; rfl
        | ok r => rw [PyM.run_bind_ok h, PyM.run_bind_ok h, answer_given]
    · rfl

/-- the answer is not a number -/
def NoNum : Res (Option (Conv × Path)) × World → Prop
  | (.ok (some (.num _, _)), _) => False
  | _ => True

theorem answer_noNum (f : Fn) (p : Path) (w : World) : NoNum (answer none f p w) := trivial

theorem network_noNum (a b : Str) (w : World) : NoNum (networkConversion none a b w) := by
  unfold networkConversion
  cases hs : searchNetwork a b w with
  | mk r w1 =>
  cases r with
  | error e => rw [PyM.run_bind_error hs]; trivial
  | ok r =>
    rw [PyM.run_bind_ok hs]
    cases r with
    | none => trivial
    | some p =>
      simp only
      rw [PyM.run_bind_ok (PyM.run_get _)]
      cases hf : lambdaConversion w1.net p with
      | error e => trivial
      | ok f => trivial

theorem temp_noNum (inner : Option Rat → Str → Str → CallM) (t1 d1 t2 d2 : Str) (w : World) :
    NoNum (tempConversion inner none t1 d1 t2 d2 w) := by
  unfold tempConversion
  rw [PyM.run_bind_ok (PyM.run_get _)]
  cases Py.dictGet w.dic.tempRatio (t1, t2) with
  | none => trivial
  | some k =>
    simp only
    cases hi : inner (some 1) d1 d2 w with
    | mk r w1 =>
    cases r with
    | error e => rw [PyM.run_bind_error hi]; trivial
    | ok r =>
      rw [PyM.run_bind_ok hi]
      cases r with
      | none => simp only; split <;> trivial
      | some cp =>
        obtain ⟨c, p⟩ := cp
        simp only
        cases hc : c.toNum with
        | error e => trivial
        | ok den => trivial

theorem getConv_noNum (n : Nat) (uc : Option Bool) (a b : Str) (w : World) : NoNum (getConv n uc none a b w) := by
  cases n with
  | zero => trivial
  | succ n =>
    simp only [getConv]
    unfold getConvBody
    cases (if resolveCache w uc then Py.dictGet w.memory (a, b) else none) with
    | some e =>
      cases e with
      | none => trivial
      | some e => trivial
    | none =>
      simp only
      cases quick1 w.dic w.net a b with
      | some e => trivial
      | none =>
        simp only
        cases tempParts w.dic a b with
        | some t => exact temp_noNum _ _ _ _ _ w
        | none =>
          simp only
          cases quick2 w.dic a b with
          | some e => trivial
          | none => exact network_noNum a b w

theorem indirect_noNum (gc cv cvDef : Option Rat → Str → Str → CallM) (a b : Str) (w : World) :
    NoNum (indirect gc cv cvDef none a b w) := by
  unfold indirect
  cases h1 : splitStage gc a b w with
  | mk r w1 =>
  cases r with
  | error e => rw [PyM.run_bind_error h1]; trivial
  | ok r =>
    rw [PyM.run_bind_ok h1]
    cases r with
    | some e => trivial
    | none =>
      simp only
      cases h2 : pairStage cv a b w1 with
      | mk r w2 =>
      cases r with
      | error e => rw [PyM.run_bind_error h2]; trivial
      | ok r =>
        rw [PyM.run_bind_ok h2]
        cases r with
        | some e => trivial
        | none =>
          simp only
          cases h3 : ratioStage cvDef a b w2 with
          | mk r w3 =>
          cases r with
          | error e => rw [PyM.run_bind_error h3]; trivial
          | ok r =>
            rw [PyM.run_bind_ok h3]
            cases r with
            | some e => trivial
            | none => trivial

theorem converter_noNum (n : Nat) (uc : Option Bool) (a b : Str) (w : World) : NoNum (converter n uc none a b w) := by
  cases n with
  | zero => trivial
  | succ n =>
    simp only [converter]
    by_cases hp : (a, b) ∈ w.previous
    · simp only [if_pos hp]; trivial
    · simp only [if_neg hp]
      unfold converterBody
      have h := getConv_noNum n uc a b w
      cases hg : getConv n uc none a b w with
      | mk r w1 =>
      rw [hg] at h
      cases r with
      | error e => rw [PyM.run_bind_error hg]; trivial
      | ok r =>
        rw [PyM.run_bind_ok hg]
        cases r with
        | none =>
          simp only
          rw [PyM.run_bind_ok (PyM.run_modify _ _)]
          exact indirect_noNum _ _ _ _ _ _
        | some cp => exact h

theorem density_noNum (uc : Option Bool) (a b : Str) (w : World) : NoNum (densityConversion uc none a b w) := by
  unfold densityConversion
  rw [PyM.run_bind_ok (PyM.run_get _)]
  split
  · cases w.par.density with
    | none => trivial
    | some d =>
      simp only
      cases h : converterTop uc (some d) gcm3 (b ++ '/' :: a) w with
      | mk r w1 =>
      cases r with
      | error e => rw [PyM.run_bind_error h]; trivial
      | ok r => rw [PyM.run_bind_ok h]; trivial
  · split
    · cases w.par.density with
      | none => trivial
      | some d =>
        simp only
        cases h : converterTop uc (some d) gcm3 (a ++ '/' :: b) w with
        | mk r w1 =>
        cases r with
        | error e => rw [PyM.run_bind_error h]; trivial
        | ok r => rw [PyM.run_bind_ok h]; trivial
    · trivial

theorem convertClean_noNum {uc : Option Bool} {a b : Str} {w w' : World} {q : Rat} :
    convertClean uc none a b w ≠ (.ok (some (.num q)), w') := by
  unfold convertClean
  rw [PyM.run_bind_ok (PyM.run_modify _ _)]
  simp only [PyM.run_bind]
  have h := density_noNum uc a b { w with previous := [] }
  cases hd : densityConversion uc none a b { w with previous := [] } with
  | mk r w1 =>
  rw [hd] at h
  cases r with
  | error e => intro h2; cases h2
  | ok r =>
    cases r with
    | some cp =>
      obtain ⟨c, p⟩ := cp
      intro h2
      cases c with
      | num y => exact h
      | fn f => cases h2
    | none =>
      have h2 : NoNum (converterTop uc none a b w1) := converter_noNum (topBudget w1.par) uc a b w1
      simp only
      cases ht : converterTop uc none a b w1 with
      | mk r w2 =>
      rw [ht] at h2
      cases r with
      | error e => rw [PyM.run_bind_error ht]; intro h3; cases h3
      | ok r =>
        rw [PyM.run_bind_ok ht]
        cases r with
        | none =>
          simp only
          rw [PyM.run_bind_ok (PyM.run_get _)]
          split <;> (intro h3; cases h3)
        | some cp =>
          obtain ⟨c, p⟩ := cp
          intro h3
          cases c with
          | num y => exact h2
          | fn f => cases h3

end Unyts

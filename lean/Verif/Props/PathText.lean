import Verif.Model.PathText
import Verif.Props.UnitClass
import Verif.Spec.DemoWorld

/-
C92: the path `convert` shows is a chain of direct conversions from the first unit to the second, and the answer is
what they give one after the other.
-/
namespace Unyts
open Spec

theorem pathTurns_nodes (sf : Rat → Str) : ∀ (q : List UNode) (r : Str) (n : UNode),
    pathTurns sf r ((n :: q).map Step.node) = r ++ List.intercalate s!!" > " ((n :: q).map (·.name))
  | [], r, n => by simp [pathTurns, pathTurn, List.intercalate]
  | m :: q, r, n => by
    have ih := pathTurns_nodes sf q (r ++ n.name ++ s!!" > ") m
    simp only [List.map_cons, pathTurns, pathTurn, List.isEmpty_cons, Bool.false_eq_true, if_false] at ih ⊢
    rw [ih]
    simp [List.intercalate]

/-- C92: `convert` answers the same with and without looking at the path. -/
theorem C92_same (sf : Rat → Str) (v : Option Rat) (a b : Option Str) (uc : Option Bool) (w : World) :
    convert v a b uc w = (((convertShown sf v a b uc w).1).map (Option.map Prod.fst), (convertShown sf v a b uc w).2) := by
  unfold convert convertShown convertClean
  rw [PyM.run_bind_ok (PyM.run_get _), PyM.run_bind_ok (PyM.run_get _)]
  cases hc : cleanInput w.par a b with
  | error e => rw [PyM.run_bind_error (show PyM.lift (.error e) w = (.error e, w) from rfl), PyM.run_bind_error (show PyM.lift (.error e) w = (.error e, w) from rfl)]; rfl
  | ok xy =>
    obtain ⟨x, y⟩ := xy
    rw [PyM.run_bind_ok (PyM.run_lift_ok _ _), PyM.run_bind_ok (PyM.run_lift_ok _ _)]
    simp only
    rw [PyM.run_bind_ok (PyM.run_modify _ _), PyM.run_bind_ok (PyM.run_modify _ _)]
    simp only [PyM.run_bind]
    generalize densityConversion uc v x y { w with previous := [] } = d
    obtain ⟨rd, w1⟩ := d
    cases rd with
    | error e => rfl
    | ok r =>
      cases r with
      | some r => rfl
      | none =>
        simp only
        cases ht : converterTop uc v x y w1 with
        | mk rt w2 =>
        cases rt with
        | error e => rw [PyM.run_bind_error ht, PyM.run_bind_error ht]; rfl
        | ok r =>
          rw [PyM.run_bind_ok ht, PyM.run_bind_ok ht]
          cases r with
          | some r => rfl
          | none =>
            simp only
            rw [PyM.run_bind_ok (PyM.run_get _), PyM.run_bind_ok (PyM.run_get _)]
            by_cases hr : w2.par.raiseError = true
            · simp only [hr, if_true]; rfl
            · simp only [hr, if_false]; rfl

theorem stripWs_ends {s : Str} (h : Py.stripWs s = s) (c : Char) (hc : s.head? = some c ∨ s.getLast? = some c) :
    c ∉ Py.wsChars := by
  rw [← h] at hc
  unfold Py.stripWs Py.strip Py.rstrip at hc
  rcases hc with hc | hc
  · obtain ⟨p, hp⟩ := lstrip_suffix Py.wsChars (Py.lstrip Py.wsChars s).reverse
    apply lstrip_head (s := s)
    rw [← List.reverse_reverse (Py.lstrip Py.wsChars s), hp, List.reverse_append, List.head?_append, hc]
    rfl
  · rw [List.getLast?_reverse] at hc
    exact lstrip_head hc

theorem intercalate_head {s : Str} : ∀ {l : List Str} {a : Str}, l.head? = some a → a ≠ [] →
    (List.intercalate s l).head? = a.head?
  | [x], a, h, ha => by cases h; simp [List.intercalate]
  | x :: y :: l, a, h, ha => by
    cases h
    cases x with
    | nil => exact absurd rfl ha
    | cons c t => simp [List.intercalate]

theorem intercalate_last {s : Str} : ∀ {l : List Str} {b : Str}, l.getLast? = some b → b ≠ [] →
    (List.intercalate s l).getLast? = b.getLast?
  | [x], b, h, hb => by cases h; simp [List.intercalate]
  | x :: y :: l, b, h, hb => by
    rw [List.getLast?_cons_cons] at h
    have ih := intercalate_last (s := s) h hb
    have e : List.intercalate s (x :: y :: l) = x ++ s ++ List.intercalate s (y :: l) := by simp [List.intercalate]
    rw [e, List.getLast?_append, ih]
    cases hl : b.getLast? with
    | none => exact absurd (List.getLast?_eq_none_iff.1 hl) hb
    | some c => rfl

/-- what `convert` shows comes from the answer of `_converter` -/
theorem convertShown_clean {w : World} (hw : WF w.net) {a b : Str} (ha : CleanUnit a) (hb : CleanUnit b) (hd : ¬ DensityPair w.dic a b)
    {sf : Rat → Str} {v : Option Rat} {uc : Option Bool} {c : Conv} {t : Str} {w' : World}
    (h : convertShown sf v (some a) (some b) uc w = (.ok (some (c, t)), w')) :
    ∃ p, converterTop uc v a b { w with previous := [] } = (.ok (some (c, p)), w') ∧ t = printPath sf p := by
  unfold convertShown at h
  rw [PyM.run_bind_ok (PyM.run_get _), cleanInput_clean _ ha hb, PyM.run_bind_ok (PyM.run_lift_ok _ _)] at h
  simp only at h
  rw [PyM.run_bind_ok (PyM.run_modify _ _), PyM.run_bind_ok (density_none (w := { w with previous := [] }) hd uc v)] at h
  simp only at h
  obtain ⟨r, w1, h1, h2⟩ := PyM.bind_ok h
  cases r with
  | none =>
    simp only at h2
    rw [PyM.run_bind_ok (PyM.run_get _)] at h2
    split at h2 <;> cases h2
  | some r =>
    obtain ⟨c', p⟩ := r
    cases h2
    exact ⟨p, h1, rfl⟩

/-- C92: whenever `convert` answers a number for two different ordinary single names, the text it leaves in
`last_path_str` is the list, joined by arrows, of the names of a chain of direct conversions from the first unit to the
second, and the answer is the result of these conversions one after the other. -/
theorem C92_path {w : World} (hw : Reachable w) {a b : Str} (ca : CleanName a) (cb : CleanName b) (hab : a ≠ b)
    (oa : Ordinary w.dic a) (hd : ¬ DensityPair w.dic a b) (sa : a ≠ [] ∧ Py.stripWs a = a)
    (sb : b ≠ [] ∧ Py.stripWs b = b)
    {sf : Rat → Str} {uc : Option Bool} {x : Rat} {c : Conv} {t : Str} {w' : World}
    (h : convertShown sf (some x) (some a) (some b) uc w = (.ok (some (c, t)), w')) :
    ∃ na nb q f y, w.net.getNode a = .ok na ∧ w.net.getNode b = .ok nb ∧ IsPath (Linked w.net) na nb q ∧
      t = List.intercalate s!!" > " (q.map (·.name)) ∧ Along w.net q f ∧ f w.fvf x = .ok y ∧ c = .num y := by
  have hs := sound_of_reachable hw
  obtain ⟨p, h1, rfl⟩ := convertShown_clean hs.1.wf ca.1 cb.1 hd h
  obtain ⟨f, h3, h4⟩ := converterTop_simple (soundAmple_prev hs) ca.2 cb.2 h1
  rcases h4 with h4 | ⟨na, nb, q, g1, g2, hq, hal, rfl⟩
  · exact absurd (quick_ordinary (w := { w with previous := [] }) ca.2 cb.2 oa h4).1 hab
  · obtain ⟨_, h5⟩ := ansRes_ok h3
    rcases h5 with ⟨h5, _⟩ | ⟨x', y, hx, hf, rfl⟩
    · cases h5
    · cases hx
      refine ⟨na, nb, q, f, y, g1, g2, hq, ?_, hal, hf, rfl⟩
      obtain ⟨e1, e2⟩ := isPath_ends hq
      have ea := (getNode_mem g1).2
      have eb := (getNode_mem g2).2
      obtain ⟨q', rfl⟩ := hq.1.eq_cons
      have hne : q' ≠ [] := by
        rintro rfl
        simp only [List.getLast?_singleton, Option.some.injEq] at e2
        exact hab (by rw [← ea, ← eb, e2])
      have hp : printPath sf ((na :: q').map Step.node) = Py.stripWs (pathTurns sf s!!"    " ((na :: q').map Step.node)) := by
        cases q' with
        | nil => exact absurd rfl hne
        | cons m r => rfl
      rw [hp, pathTurns_nodes]
      have l1 : ((na :: q').map (·.name)).head? = some a := by rw [List.head?_map, e1]; simp [ea]
      have l2 : ((na :: q').map (·.name)).getLast? = some b := by rw [List.getLast?_map, e2]; simp [eb]
      have k1 := intercalate_head (s := s!!" > ") l1 sa.1
      have k2 := intercalate_last (s := s!!" > ") l2 sb.1
      have := strip_around (cs := Py.wsChars) (p := s!!"    ") (q := []) (u := List.intercalate s!!" > " ((na :: q').map (·.name)))
        (fun h0 => by rw [h0] at k1; exact sa.1 (List.head?_eq_none_iff.1 k1.symm)) (by
        intro c hc
        rw [k1, k2] at hc
        rcases hc with hc | hc
        · exact stripWs_ends sa.2 c (Or.inl hc)
        · exact stripWs_ends sb.2 c (Or.inr hc))
      rw [List.append_nil] at this
      refine this.trans ?_
      rw [show Py.lstrip Py.wsChars s!!"    " = [] from by decide]
      simp [Py.lstrip]

example : CleanName s!!"mi" ∧ CleanName s!!"in" ∧ Reachable Demo.world ∧ Ordinary Demo.world.dic s!!"mi" ∧
    ¬ DensityPair Demo.world.dic s!!"mi" s!!"in" ∧
    (convertShown (fun _ => []) (some 1) (some s!!"mi") (some s!!"in") none Demo.world).1.toOption.map
      (·.map fun r => (r.1.toNum.toOption, r.2)) = some (some (some 63360, s!!"mi > yd > ft > in")) :=
  ⟨Demo.clean_mi, Demo.clean_in, Demo.reachable, Demo.ordinary _, Demo.noDensity _ _, by decide +kernel⟩

/-- the names of a chain of units, joined by arrows -/
def Spec.arrows (q : List UNode) : Str := List.intercalate s!!" > " (q.map (·.name))

/-- a path of chains (one per factor of a compound unit) with signs between them -/
def Spec.pieces (q : List UNode) (l : List (Str × List UNode)) : Path :=
  q.map Step.node ++ l.flatMap fun e => .str e.1 :: e.2.map Step.node

/-- the text of such a path: the chains with arrows, the signs between spaces -/
def Spec.piecesText (q : List UNode) (l : List (Str × List UNode)) : Str :=
  arrows q ++ l.flatMap fun e => [' '] ++ e.1 ++ [' '] ++ arrows e.2

theorem pathTurns_before (sf : Rat → Str) {rest : Path} (hr : rest ≠ []) : ∀ (q : List UNode) (r : Str) (n : UNode),
    pathTurns sf r ((n :: q).map Step.node ++ rest) = pathTurns sf (r ++ arrows (n :: q) ++ s!!" > ") rest
  | [], r, n => by
    cases rest with
    | nil => exact absurd rfl hr
    | cons x t => simp [pathTurns, pathTurn, arrows, List.intercalate]
  | m :: q, r, n => by
    have ih := pathTurns_before sf hr q (r ++ n.name ++ s!!" > ") m
    simp only [List.map_cons, List.cons_append, pathTurns, pathTurn, List.isEmpty_cons, Bool.false_eq_true, if_false] at ih ⊢
    rw [ih]
    simp [arrows, List.intercalate]

theorem cutArrow_arrow (s : Str) : cutArrow (s ++ s!!" > ") = s := by
  unfold cutArrow
  simp

theorem pathTurns_pieces (sf : Rat → Str) : ∀ (l : List (Str × List UNode)) (q : List UNode) (r : Str), q ≠ [] →
    (∀ e ∈ l, e.1 ∉ [s!!"(1)", s!!"(v)"] ∧ e.2 ≠ []) → pathTurns sf r (pieces q l) = r ++ piecesText q l
  | [], q, r, hq, _ => by
    cases q with
    | nil => exact absurd rfl hq
    | cons n q =>
      have := pathTurns_nodes sf q r n
      simp only [pieces, piecesText, List.flatMap_nil, List.append_nil]
      exact this
  | e :: l, q, r, hq, hl => by
    cases q with
    | nil => exact absurd rfl hq
    | cons n q =>
      obtain ⟨h1, h2⟩ := hl e (by simp)
      have e0 : pieces (n :: q) (e :: l) = (n :: q).map Step.node ++ (.str e.1 :: pieces e.2 l) := by
        simp [pieces]
      rw [e0, pathTurns_before sf (by simp)]
      have ih := pathTurns_pieces sf l e.2 (r ++ arrows (n :: q) ++ [' '] ++ e.1 ++ [' ']) h2 (fun e he => hl e (by simp [he]))
      have e1 : ∀ b, pathTurn sf b (r ++ arrows (n :: q) ++ s!!" > ") (.str e.1) = r ++ arrows (n :: q) ++ [' '] ++ e.1 ++ [' '] := by
        intro b
        simp only [pathTurn, if_pos h1, cutArrow_arrow]
      rw [pathTurns, e1, ih]
      simp [piecesText]

/-- C92: the text shown for a compound unit lists the chain of conversions of each factor with arrows between the units, and
the signs of the compound unit between them. -/
theorem C92_text (sf : Rat → Str) {q : List UNode} (hq : q ≠ []) {l : List (Str × List UNode)} (hl : l ≠ [])
    (h : ∀ e ∈ l, e.1 ∉ [s!!"(1)", s!!"(v)"] ∧ e.2 ≠ []) :
    printPath sf (pieces q l) = Py.stripWs (s!!"    " ++ piecesText q l) := by
  have h2 : ∀ s, pieces q l ≠ [s] := by
    intro s hs
    cases q with
    | nil => exact hq rfl
    | cons n q =>
      cases l with
      | nil => exact hl rfl
      | cons e l =>
        have := congrArg List.length hs
        simp [pieces] at this
  unfold printPath
  split
  · rename_i s hs; exact absurd hs (h2 s)
  · rw [pathTurns_pieces sf l q _ hq h]

example : printPath (fun _ => []) (pieces [⟨0, s!!"km"⟩, ⟨1, s!!"m"⟩] [(s!!"/", [⟨2, s!!"h"⟩, ⟨3, s!!"min"⟩, ⟨4, s!!"s"⟩])]) =
    s!!"km > m / h > min > s" := by decide +kernel

end Unyts

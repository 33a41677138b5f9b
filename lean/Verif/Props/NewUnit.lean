import Verif.Lemmas.ConvApart
import Verif.Lemmas.Clean
import Verif.Props.Convert
import Verif.Props.Searches

/-
C127: a unit that is only named, by set_unit or not at all, converts to nothing and nothing converts to it.
-/
namespace Unyts
open Spec

/-! ### Specification -/

/-- no direct conversion leads from or to what the text `u` names -/
def Unlinked (g : Net) (u : Str) : Prop := ∀ na nb f, Direct g na nb f → na.name ≠ u ∧ nb.name ≠ u

/-- the call gives no conversion to the unit `u`: any call but a set_conversion with `u` on one side -/
def LeavesAlone (u : Str) : Call → Prop
  | .setConversion a b _ _ => a ≠ u ∧ b ≠ u
  | .settings p => Ample p
  | _ => True

/-! ### Proofs -/

theorem unlinked_unknown {g : Net} (hg : WF g) {u : Str} (hu : g.hasName u = false) : Unlinked g u := by
  have nn : ∀ n ∈ g.nodes, n.name ≠ u := by
    intro n hn e
    unfold Net.hasName at hu
    rw [List.any_eq_false] at hu
    exact hu n hn (by simp [e])
  rintro na nb f ⟨l, hl, hk⟩
  exact ⟨nn _ (List.mem_map.2 ⟨_, hl, rfl⟩), nn _ (hg.closed _ _ _ ⟨l, hl, hk⟩)⟩

/-- what the calls leave as it was -/
theorem leavesAlone_call {u : Str} {c : Call} (hc : LeavesAlone u c) {w : World} (h : SoundAmple w)
    (hu : Unlinked w.net u) : Unlinked (c.run w).net u ∧ (c.run w).dic = w.dic := by
  have asks : Asks c → Unlinked (c.run w).net u ∧ (c.run w).dic = w.dic := fun ha => by
    have hb := base_asks ha h.1.wf
    exact ⟨by rw [hb.net]; exact hu, hb.dic⟩
  cases c with
  | convert => exact asks trivial
  | convertible => exact asks trivial
  | simPandas => exact asks trivial
  | search => exact asks trivial
  | setUnit a =>
    obtain ⟨g, h1, _, _, _, h4⟩ := setUnit_spec h.1.wf a
    simp only [Call.run, setUnitW, h1]
    exact ⟨fun na nb f hf => hu na nb f ((h4 na nb f).1 hf), trivial⟩
  | setConversion a b f rev =>
    obtain ⟨g, na, nb, h1, _, _, h3, h4, _, h6⟩ := setConversion_spec h.1.wf a b f rev
    simp only [Call.run, setConversionW, h1]
    refine ⟨fun x y k hk => ?_, trivial⟩
    have ea := (getNode_mem h3).2
    have eb := (getNode_mem h4).2
    rcases (h6 x y k).1 hk with hk | ⟨rfl, rfl, _⟩ | ⟨rfl, rfl, _⟩
    · exact hu x y k hk
    · rw [ea, eb]; exact hc
    · rw [ea, eb]; exact ⟨hc.2, hc.1⟩
  | setFvf b => exact ⟨hu, rfl⟩
  | cleanMemory => exact ⟨hu, rfl⟩
  | settings p => exact ⟨hu, rfl⟩

theorem leavesAlone_session {u : Str} (cs : List Call) (hc : ∀ c ∈ cs, LeavesAlone u c) {w : World} (h : SoundAmple w)
    (hu : Unlinked w.net u) :
    SoundAmple (session cs w) ∧ Unlinked (session cs w).net u ∧ (session cs w).dic = w.dic := by
  induction cs generalizing w with
  | nil => exact ⟨h, hu, rfl⟩
  | cons c cs ih =>
    have hc1 := hc c List.mem_cons_self
    have hk : KeepsAmple c := by cases c <;> first | exact hc1 | trivial
    obtain ⟨h1, h2⟩ := leavesAlone_call hc1 h hu
    obtain ⟨h3, h4, h5⟩ := ih (fun c' h' => hc c' (List.mem_cons_of_mem _ h')) (soundAmple_call hk h) h1
    exact ⟨h3, h4, h5.trans h2⟩

theorem unlinked_apart {g : Net} {a b : Str} (hab : a ≠ b) (hu : Unlinked g a ∨ Unlinked g b) :
    ∀ na nb, g.getNode a = .ok na → g.getNode b = .ok nb → ¬ Reach (Linked g) na nb := by
  rintro na nb h1 h2 ⟨p, hp⟩
  have ea := (getNode_mem h1).2
  have eb := (getNode_mem h2).2
  have key : ∀ {x y : UNode} {p}, Chain (Linked g) x y p → x.name = a → y.name = b → False := by
    intro x y p hc
    induction hc with
    | single x => intro e1 e2; exact hab (e1.symm.trans e2)
    | @step x z y p e hc ih =>
      intro e1 e2
      obtain ⟨f, hf⟩ := e
      rcases hu with hu | hu
      · exact (hu _ _ _ hf).1 e1
      · -- the last step of the chain leads to what `b` names
        have last : ∀ {x y : UNode} {p}, Chain (Linked g) x y p → y.name = b → x.name ≠ b → False := by
          intro x y p hc
          induction hc with
          | single x => intro e1 e2; exact e2 e1
          | @step x z y p e hc ih =>
            intro e1 e2
            obtain ⟨f, hf⟩ := e
            exact ih e1 (hu _ _ _ hf).2
        exact last (.step ⟨f, hf⟩ hc) e2 (by rw [e1]; exact hab)
  exact key hp ea eb

/-- the converter on two names that no conversions join finds nothing -/
theorem converterTop_apart {w : World} (h : SoundAmple w) (halg : w.par.algorithm ∈ [Algorithm.bfs, .lean, .hybrid])
    {a b : Str} (ha : Spec.SimpleName a) (hb : Spec.SimpleName b) (oa : Ordinary w.dic a) (hab : a ≠ b)
    (hr : ∀ na nb, w.net.getNode a = .ok na → w.net.getNode b = .ok nb → ¬ Reach (Linked w.net) na nb)
    (uc : Option Bool) (v : Option Rat) : (converterTop uc v a b w).1 = .ok none := by
  obtain ⟨n, hn⟩ := ample_budget h.2
  rw [converterTop_eq, hn]
  by_cases hpr : (a, b) ∈ w.previous
  · rw [converter]; dsimp only; rw [if_pos hpr]
  · rcases converter_simple h.1.wf ha hb n uc v hpr with ⟨h1, h0⟩ | ⟨_, w2, _, _, _, h1⟩
    · exfalso
      obtain ⟨_, _, hcase⟩ := getConv_direct h.1.wf n uc v (tempParts_noSlash ha.1)
        (rfl : getConv (n + 1) uc v a b w = _)
      rcases hcase with ⟨f, p, _, _, h4, h5, _⟩ | ⟨e, _, _, _, _, hse⟩ | ⟨h3, _, _⟩
      · cases hm : memHit w uc a b with
        | none =>
          rcases h4 hm with hq | ⟨na', nb', q, g1, g2, g3, _⟩
          · exact hab (quick_ordinary (w := w) ha hb oa hq).1
          · exact hr _ _ g1 g2 ⟨_, g3.1⟩
        | some e =>
          have he := h5 e hm
          subst he
          unfold memHit at hm
          split at hm
          · obtain ⟨na', nb', q, g1, g2, g3, _⟩ := h.1.path a b f p ha hb hm
            exact hr _ _ g1 g2 ⟨_, g3.1⟩
          · cases hm
      · obtain ⟨r, hr'⟩ := search_answers h.1.wf halg a b
        rw [hr'] at hse; cases hse
      · exact h0 h3
    · rw [h1]

/-- C127. A name that no conversion was ever defined for, whether the library knows it or not: after any calls, in any
number and order, that define no conversion for it either (set_unit, set_conversion between other units, conversions,
questions, settings), it converts to no other unit and no other unit converts to it. Whatever the number, convert raises
NoConversionFound, or gives None with raise_error off, and convertible says False. -/
theorem C127_alone (w : World) (hw : Reachable w) (u : Str) (hu : Unlinked w.net u) (cs : List Call)
    (hcs : ∀ c ∈ cs, LeavesAlone u c)
    (halg : (session cs w).par.algorithm ∈ [Algorithm.bfs, .lean, .hybrid]) (a b : Str) (hab : a ≠ b) (hau : a = u ∨ b = u)
    (ca : CleanName a) (cb : CleanName b) (oa : Ordinary w.dic a) (hd : ¬ DensityPair w.dic a b) (uc : Option Bool) :
    (∀ v, (convert v (some a) (some b) uc (session cs w)).1 =
      if (session cs w).par.raiseError then .error .noConversionFound else .ok none) ∧
    (convertible a b uc (session cs w)).1 = .ok false := by
  obtain ⟨h1, h2, h3⟩ := leavesAlone_session cs hcs (sound_of_reachable hw) hu
  have hr := unlinked_apart hab (hau.imp (fun e => e ▸ h2) (fun e => e ▸ h2))
  rw [← h3] at oa hd
  refine ⟨fun v => ?_, convertible_apart h1 halg ca.2 cb.2 oa hab hr uc⟩
  rw [convert_clean ca.1 cb.1, convertClean_eq h1.1.wf hd,
    converterTop_apart (w := { session cs w with previous := [] }) (soundAmple_prev h1) halg ca.2 cb.2 oa hab hr]
  rfl

/-- C127 for a name that is new: set_unit makes it known and no more. -/
theorem C127_set_unit (w : World) (hw : Reachable w) (u : Str) (hu : w.net.hasName u = false) (cs : List Call)
    (hcs : ∀ c ∈ cs, LeavesAlone u c)
    (halg : (session (.setUnit u :: cs) w).par.algorithm ∈ [Algorithm.bfs, .lean, .hybrid]) (b : Str) (hub : u ≠ b)
    (cu : CleanName u) (cb : CleanName b) (ou : Ordinary w.dic u) (ob : Ordinary w.dic b) (hd : ¬ DensityPair w.dic u b)
    (uc : Option Bool) :
    (setUnitW u w).2.net.hasName u = true ∧
    (convertible u b uc (session (.setUnit u :: cs) w)).1 = .ok false ∧
    (convertible b u uc (session (.setUnit u :: cs) w)).1 = .ok false ∧
    ∀ v, (convert v (some u) (some b) uc (session (.setUnit u :: cs) w)).1 =
        (if (session (.setUnit u :: cs) w).par.raiseError then .error .noConversionFound else .ok none) ∧
      (convert v (some b) (some u) uc (session (.setUnit u :: cs) w)).1 =
        (if (session (.setUnit u :: cs) w).par.raiseError then .error .noConversionFound else .ok none) := by
  have hg := (sound_of_reachable hw).1.wf
  have hc : ∀ c ∈ Call.setUnit u :: cs, LeavesAlone u c := by
    intro c hc
    rcases List.mem_cons.1 hc with rfl | hc
    · trivial
    · exact hcs c hc
  have h1 := C127_alone w hw u (unlinked_unknown hg hu) _ hc halg u b hub (Or.inl rfl) cu cb ou hd uc
  have h2 := C127_alone w hw u (unlinked_unknown hg hu) _ hc halg b u hub.symm (Or.inr rfl) cb cu ob
    (fun ⟨x, y, h⟩ => hd ⟨y, x, h.symm⟩) uc
  refine ⟨?_, h1.2, h2.2, fun v => ⟨h1.1 v, h2.1 v⟩⟩
  obtain ⟨g, e, _, hn, _⟩ := setUnit_spec hg u
  simp only [setUnitW, e]
  unfold Net.hasName
  rw [hn, List.any_eq_true]
  exact ⟨⟨w.net.nextId, u⟩, by simp, by simp⟩

/-- the hypotheses are met: a new unit in the small library, after conversions and a conversion between other units -/
example :
    (convertible s!!"cubit" s!!"ft" none (session [.setUnit s!!"cubit", .convert (some 1) (some s!!"ft") (some s!!"in") none,
      .setConversion s!!"ft" s!!"span" (Demo.times (4 / 3)) none] Demo.leanWorld)).1 = .ok false ∧
    (convert (some 3) (some s!!"ft") (some s!!"cubit") none (session [.setUnit s!!"cubit",
      .convert (some 1) (some s!!"ft") (some s!!"in") none, .setConversion s!!"ft" s!!"span" (Demo.times (4 / 3)) none]
        Demo.leanWorld)).1 = .error .noConversionFound := by
  have := C127_set_unit Demo.leanWorld ⟨_, [], Demo.leanFresh, by simp, rfl⟩ s!!"cubit" (by decide +kernel)
    [.convert (some 1) (some s!!"ft") (some s!!"in") none, .setConversion s!!"ft" s!!"span" (Demo.times (4 / 3)) none]
    (by
      intro c hc
      simp only [List.mem_cons, List.not_mem_nil, or_false] at hc
      rcases hc with rfl | rfl
      · trivial
      · exact ⟨by decide, by decide⟩) (by decide +kernel) s!!"ft" (by decide) (Demo.cleanName_of (by decide))
    (Demo.cleanName_of (by decide)) ⟨by decide, by decide, by decide⟩ ⟨by decide, by decide, by decide⟩
    (by unfold DensityPair; decide) none
  refine ⟨this.2.1, ?_⟩
  rw [(this.2.2.2 (some 3)).2, if_pos (by decide +kernel)]

end Unyts

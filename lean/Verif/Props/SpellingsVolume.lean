import Verif.Props.Spellings
import Verif.Props.ShippedPrefixes
import Verif.Spec.Volumes

/- C104 for volumes and gauge pressures. -/
namespace Unyts
open Spec
set_option maxRecDepth 1000000

/-- the pair of names is among the conversions with these codes -/
def codeIn (ds : List (Nat × Nat)) (x y : Nat) : Bool := ds.any fun d => Nat.beq d.1 x && Nat.beq d.2 y

def respellLinked (k : Str) (v : RawVal) (ds : List (Nat × Nat)) : Bool :=
  v.entries.all fun p => (respellings k p).all fun q => q.1 == q.2 || codeIn ds (code q.1 1) (code q.2 1)

def kindCodes (k : Str) (v : RawVal) : List (Nat × Nat) :=
  (kindInstrs shippedPrefixes k v).filterMap fun i => match i with | .edge a b _ => some (code a 1, code b 1) | _ => none

def respellClear (k : Str) (v : RawVal) : Bool :=
  v.entries.all fun p => (respellings k p).all fun q => !Spec.oneWay.contains q && !shippedFaults.contains q && !shippedFaults.contains (q.2, q.1)

theorem respell_linked : (rawDictionary.all fun e => respellLinked e.1 e.2 (kindCodes e.1 e.2)) = true := by decide +kernel

theorem respell_clear : (rawDictionary.all fun e => respellClear e.1 e.2) = true := by decide +kernel

theorem respelled_decl {a b : Str} (h : Respelled a b) (hab : a ≠ b) : ∃ c, (a, b, c) ∈ shipped := by
  obtain ⟨k, v, e, h1, h2, h3⟩ := respelled_mem h
  have := List.all_eq_true.1 (List.all_eq_true.1 (List.all_eq_true.1 respell_linked _ h1) _ h2) _ h3
  simp only [Bool.or_eq_true, beq_iff_eq, hab, false_or, codeIn, List.any_eq_true, Bool.and_eq_true, Nat.beq_eq] at this
  obtain ⟨d, hd, e1, e2⟩ := this
  obtain ⟨i, hi, hm⟩ := List.mem_filterMap.1 hd
  cases i with
  | edge a' b' c =>
    simp only [Option.some.injEq] at hm
    subst hm
    rw [code_inj e1, code_inj e2] at hi
    exact ⟨c, List.mem_append_left _ (List.mem_flatMap.2 ⟨_, h1, mem_declsOf.2 hi⟩)⟩
  | _ => cases hm

theorem respelled_clear {a b : Str} (h : Respelled a b) : (a, b) ∉ Spec.oneWay ∧ (a, b) ∉ shippedFaults ∧ (b, a) ∉ shippedFaults := by
  obtain ⟨k, v, e, h1, h2, h3⟩ := respelled_mem h
  have := List.all_eq_true.1 (List.all_eq_true.1 (List.all_eq_true.1 respell_clear _ h1) _ h2) _ h3
  simp only [Bool.and_eq_true, List.contains_iff_mem, Bool.not_eq_true', ← Bool.not_eq_true] at this
  exact ⟨this.1.1, this.1.2, this.2⟩

/-- C104: the shipped network joins two ways to write a unit in one step, in both directions. -/
theorem C104_joined {n : Net} (hn : ShippedNetwork n) {a b : Str} (h : Respelled a b) (hab : a ≠ b) :
    LinkedName n a b ∧ LinkedName n b a := by
  have hl : LinkedName n a b := hn.linked.2 (Or.inl (respelled_decl h hab))
  exact ⟨hl, (hn.back hl).2 (respelled_clear h).1⟩

theorem isRes_same {a b : Str} (h : readingOf a = readingOf b) : isRes a = isRes b := by unfold isRes; rw [h]

/-- C104, also for volumes and gauge pressures: converting between the name of a unit and another way to write it changes nothing. -/
theorem C104_respelled_partial {w : World} (hw : Started w) (hg : 17 ≤ w.par.maxGenerations) (hφ : w.fvf ≠ some 0) {cs : List Call}
    (hcs : ∀ c ∈ cs, Asks c) {q a b : Str} (ha : BuiltIn q a) (hb : BuiltIn q b) (h : Respelled a b ∨ Respelled b a)
    (hq : q ∉ [s!!"Density", s!!"PressureGradient", s!!"Dimensionless", s!!"Percentage", s!!"Date"])
    (hwt : q = s!!"Volume" → ¬ BuiltIn s!!"Weight" a ∧ ¬ BuiltIn s!!"Weight" b)
    (ca : CleanName a) (cb : CleanName b) (uc : Option Bool) (x : Rat) :
    (convert (some x) (some a) (some b) uc (session cs w)).1 = .ok (some (.num x)) := by
  have hn := hw.shipped.network
  have hsame : readingOf a = readingOf b ∧ islandOf a = islandOf b := by
    rcases h with h | h
    · exact ⟨(respelled_same h).1, (respelled_same h).2.1⟩
    · exact ⟨(respelled_same h).1.symm, (respelled_same h).2.1.symm⟩
  obtain ⟨hR, hI⟩ := hsame
  have fin : ∀ y, shippedReading (fvfOr1 w.fvf) b y = shippedReading (fvfOr1 w.fvf) a x → y = x := by
    intro y hy
    have : shippedReading (fvfOr1 w.fvf) b = shippedReading (fvfOr1 w.fvf) a := by
      funext z; unfold shippedReading; rw [hR]
    rw [this] at hy
    exact shippedReading_inj (fvfOr1_ne hφ) a hy
  by_cases hv : q = s!!"Volume"
  · subst hv
    obtain ⟨la, lb⟩ := hwt rfl
    have fa : Fluid a := ⟨ha, la, ca⟩
    have fb : Fluid b := ⟨hb, lb, cb⟩
    by_cases hab : a = b
    · subst hab
      obtain ⟨⟨y, w', hy⟩, _⟩ := liquid_found hw hg hφ hcs fa fb rfl (Or.inl rfl) uc x
      obtain ⟨_, h32, _⟩ := fa.numbers
      obtain ⟨c, hc⟩ := List.exists_mem_of_ne_nil _ (builtIn_ne_nil ha h32)
      have hbase := base_session hcs hw.fresh.wf
      refine C11_self _ (hw.reachable hcs) a ca.1 ⟨c, hc, ?_, ?_⟩ (by rw [hbase.dic]; exact hw.shipped.liquid_noDensity fa fb) uc x
      · rintro rfl; exact ca.2.2 hc
      · rintro rfl; exact ca.2.1 hc
    · have hl : LinkedName w.net a b ∧ (a, b) ∉ shippedFaults := by
        rcases h with h | h
        · exact ⟨(C104_joined hn h hab).1, (respelled_clear h).2.1⟩
        · exact ⟨(C104_joined hn h (Ne.symm hab)).2, (respelled_clear h).2.2⟩
      obtain ⟨⟨f, hf⟩, hX⟩ := hl
      obtain ⟨y, h1, h2⟩ := volume_direct hw hg hφ hcs fa fb hab (isRes_same hR) hf uc x
      rw [h1, fin y (hn.reads hf hX hφ h2)]
  · have hq' : q ∉ [s!!"Volume", s!!"Density", s!!"PressureGradient", s!!"Dimensionless", s!!"Percentage", s!!"Date"] := by
      rw [List.mem_cons, not_or]; exact ⟨hv, hq⟩
    by_cases hp : q = s!!"Pressure"
    · subst hp
      obtain ⟨hs, h32, h34⟩ := special_label ha (by decide)
      by_cases hab : a = b
      · subst hab
        obtain ⟨c, hc⟩ := List.exists_mem_of_ne_nil _ (builtIn_ne_nil ha h32)
        have hbase := base_session hcs hw.fresh.wf
        refine C11_self _ (hw.reachable hcs) a ca.1 ⟨c, hc, ?_, ?_⟩ (by rw [hbase.dic]; exact hw.shipped.noDensity ca.2 hs.1) uc x
        · rintro rfl; exact ca.2.2 hc
        · rintro rfl; exact ca.2.1 hc
      · have hl : LinkedName w.net a b ∧ (a, b) ∉ shippedFaults := by
          rcases h with h | h
          · exact ⟨(C104_joined hn h hab).1, (respelled_clear h).2.1⟩
          · exact ⟨(C104_joined hn h (Ne.symm hab)).2, (respelled_clear h).2.2⟩
        obtain ⟨⟨f, hf⟩, hX⟩ := hl
        obtain ⟨y, w', hr⟩ := C88_answers_partial hw hcs ha (by decide) ca cb ⟨_, .step ⟨f, hf⟩ (.single _)⟩ uc x
        obtain ⟨na, nb, rfl, rfl, hd⟩ := id hf
        obtain ⟨_, e, hy⟩ := C94_direct hw.fresh hw.notDfs hcs ca cb (hw.shipped.ordinary ca.2 (builtIn_isName ha) h32 h34)
          (hw.shipped.noDensity ca.2 hs.1) hab (getNode_of_mem hn.distinct (Net.linked_src ⟨_, hd⟩))
          (getNode_of_mem hn.distinct (Net.linked_dst hn.wf ⟨_, hd⟩)) hd hr
        cases e
        rw [hr, fin y (hn.reads hf hX hφ hy)]
    · exact sameReading_convert hw hg hφ hcs ha hb hR hI hq' (fun h => absurd h hp) ca cb uc x

theorem volume_linear : ((basicNames s!!"Volume").all fun u => (readingOf u).any fun r => decide (r.o = 0) && !r.api) = true := by
  decide +kernel

theorem uk_same : ukNames = ukMeasures := rfl

/-- C104 for volumes written in any two ways: nothing changes but for one part in a million, whatever way the search takes. -/
theorem C104_volume_partial {w : World} (hw : Started w) (hg : 17 ≤ w.par.maxGenerations) (hφ : w.fvf ≠ some 0) {cs : List Call}
    (hcs : ∀ c ∈ cs, Asks c) {a b : Str} (ha : BuiltIn s!!"Volume" a) (hb : BuiltIn s!!"Volume" b) (h : SameUnit a b)
    (la : ¬ BuiltIn s!!"Weight" a) (lb : ¬ BuiltIn s!!"Weight" b) (ua : a ∉ ukMeasures) (ub : b ∉ ukMeasures)
    (ca : CleanName a) (cb : CleanName b) (uc : Option Bool) (x : Rat) :
    (∃ y, (convert (some x) (some a) (some b) uc (session cs w)).1 = .ok (some (.num y)) ∧ Close 1 y x) ∧
    (convertible a b uc (session cs w)).1 = .ok true := by
  obtain ⟨hR, hI, hL⟩ := sameUnit_same h
  have uk : ∀ {u}, u ∉ ukMeasures → isUk u = false := fun hu => by
    rw [← Bool.not_eq_true]; exact fun h => hu (uk_same ▸ uk_mem h)
  have fa : Liquid a := ⟨⟨ha, la, ca⟩, uk ua⟩
  have fb : Liquid b := ⟨⟨hb, lb, cb⟩, uk ub⟩
  obtain ⟨⟨y, w', hy⟩, hc⟩ := liquid_found hw hg hφ hcs fa.toFluid fb.toFluid hI (Or.inl (isRes_same hR)) uc x
  refine ⟨⟨y, by rw [hy], ?_⟩, hc⟩
  have hbase := base_session hcs hw.fresh.wf
  have hsh : ShippedWorld (session cs w) := by
    obtain ⟨d, h1, h2⟩ := hw.shipped
    exact ⟨d, by rw [hbase.net]; exact h1, by rw [hbase.dic]; exact h2⟩
  obtain ⟨z, E, hz, hE, _, h⟩ := liquid_answer (hw.reachable hcs) hsh (by rw [hbase.fvf]; exact hφ) fa fb hy
  cases hz
  refine close_of (hE.trans (by norm_num)) ?_
  have hl := List.all_eq_true.1 volume_linear _ (builtIn_name ha (by decide))
  obtain ⟨r, hr, h1⟩ := (Option.any_eq_true ..).1 hl
  simp only [Bool.and_eq_true, decide_eq_true_eq, Bool.not_eq_true'] at h1
  rw [hbase.fvf] at h
  have hs : r.s * fvfOr1 w.fvf ^ r.e ≠ 0 := mul_ne_zero (readingOf_scale hr) (zpow_ne_zero _ (fvfOr1_ne hφ))
  simp only [shippedReading, ← hR, hr, Reading.at, h1.2, Bool.false_eq_true, if_false, h1.1, add_zero] at h
  apply mul_left_cancel₀ hs
  rw [h]
  ring

/-! ### concrete cases -/

theorem stb_fluid : Fluid s!!"stb" := fluid_of (by decide +kernel) (by decide +kernel) (Demo.cleanName_of (by decide))
theorem bbl_fluid : Fluid s!!"BBL" := fluid_of (by decide +kernel) (by decide +kernel) (Demo.cleanName_of (by decide))

/-- a barrel is a barrel, and a pound per square inch of gauge pressure is a psig -/
example : ∃ w, Started w ∧ ∀ uc x, (convert (some x) (some s!!"bbl") (some s!!"BBL") uc
      (session [.convert (some 1) (some s!!"stb") (some s!!"kg") none] w)).1 = .ok (some (.num x)) ∧
    (convert (some x) (some s!!"psig") (some s!!"psi gauge") uc w).1 = .ok (some (.num x)) := by
  obtain ⟨w, hw, hp, hf⟩ := started_ex
  have fb : Fluid s!!"bbl" := fluid_of (by decide +kernel) (by decide +kernel) (Demo.cleanName_of (by decide))
  refine ⟨w, hw, fun uc x => ⟨?_, ?_⟩⟩
  · exact C104_respelled_partial hw (by rw [hp]; decide) (by rw [hf]; decide) (by simp [Asks]) fb.volume bbl_fluid.volume
      (Or.inl (respelled_of (by decide +kernel))) (by decide) (fun _ => ⟨fb.light, bbl_fluid.light⟩) fb.clean bbl_fluid.clean uc x
  · exact C104_respelled_partial hw (by rw [hp]; decide) (by rw [hf]; decide) (cs := []) (by simp) (q := s!!"Pressure")
      (builtIn_mem (by decide +kernel) (by decide)) (builtIn_mem (by decide +kernel) (by decide))
      (Or.inr (respelled_of (by decide +kernel))) (by decide) (fun h => absurd h (by decide)) (Demo.cleanName_of (by decide))
      (Demo.cleanName_of (by decide)) uc x

/-- a stb is a BBL, to one part in a million -/
example : ∃ w, Started w ∧ ∀ uc x, ∃ y, (convert (some x) (some s!!"stb") (some s!!"BBL") uc w).1 = .ok (some (.num y)) ∧ Close 1 y x := by
  obtain ⟨w, hw, hp, hf⟩ := started_ex
  refine ⟨w, hw, fun uc x => (C104_volume_partial hw (by rw [hp]; decide) (by rw [hf]; decide) (cs := []) (by simp) stb_fluid.volume
    bbl_fluid.volume ?_ stb_fluid.light bbl_fluid.light (by decide) (by decide) stb_fluid.clean bbl_fluid.clean uc x).1⟩
  exact .there (.there (.back (.refl _) (respelled_of (s := s!!"barrel") (by decide +kernel))) (respelled_of (t := s!!"bbl") (by decide +kernel)))
    (respelled_of (by decide +kernel))

end Unyts

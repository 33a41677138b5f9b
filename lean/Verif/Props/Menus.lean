import Verif.Spec.Menus
import Verif.Props.Parameters

/-
C121: the menus of the window show the settings in use.
-/
namespace Unyts.Gui

/-! ### A session chooses threads or processes, never both -/

theorem run_modes (m : Machine) (p q : Proc) (k k' : IniDisk) (c : ParamCall) (h : c.run m p k = .ok (q, k')) :
    q.multiprocessing = (choosesProcesses c).getD p.multiprocessing ∧
      q.threading = ((choosesProcesses c).map (! ·)).getD p.threading := by
  cases c with
  | setParallel arg =>
    simp only [ParamCall.run, bind, Except.bind] at h
    split at h
    · cases h
    · rename_i q' hq
      cases h
      cases arg with
      | null => cases hq; exact ⟨rfl, rfl⟩
      | bool b => cases hq; exact ⟨rfl, rfl⟩
      | int n => cases hq
      | num n => cases hq
      | str s =>
        simp only [parallelTo] at hq
        simp only [choosesProcesses]
        split at hq
        · cases hq
        · rename_i c r hc
          simp only [hc, List.head?_cons]
          split at hq
          · rename_i ht; cases hq; subst ht; exact ⟨rfl, rfl⟩
          · split at hq
            · rename_i hm; cases hq; simp [hm]
            · rename_i hm; cases hq; simp [hm]
  | recursionLimit l =>
    cases l with
    | null => cases h; exact ⟨rfl, rfl⟩
    | _ =>
      simp only [ParamCall.run, bind, Except.bind] at h
      split at h
      · cases h
      · cases h; exact ⟨rfl, rfl⟩
  | generationsLimit l =>
    cases l with
    | null => cases h; exact ⟨rfl, rfl⟩
    | _ =>
      simp only [ParamCall.run, bind, Except.bind] at h
      split at h
      · cases h
      · cases h; exact ⟨rfl, rfl⟩
  | setAlgorithm a =>
    simp only [ParamCall.run] at h
    split at h
    · cases h
    · split at h
      · split at h <;> (cases h; exact ⟨rfl, rfl⟩)
      · cases h; exact ⟨rfl, rfl⟩
  | setUserFolder o =>
    cases o with
    | none => cases h; exact ⟨rfl, rfl⟩
    | some path =>
      simp only [ParamCall.run] at h
      split at h <;> (cases h; exact ⟨rfl, rfl⟩)
  | _ => cases h; exact ⟨rfl, rfl⟩

theorem run_refused (m : Machine) (p : Proc) (k : IniDisk) (c : ParamCall) (e : PyErr) (h : c.run m p k = .error e) :
    choosesProcesses c = none := by
  cases c with
  | setParallel arg =>
    simp only [ParamCall.run, bind, Except.bind] at h
    split at h
    · rename_i hq
      cases arg with
      | null => cases hq
      | bool b => cases hq
      | int n => rfl
      | num n => rfl
      | str s =>
        simp only [parallelTo] at hq
        simp only [choosesProcesses]
        split at hq
        · rename_i hc; simp only [hc, List.head?_nil]
        · split at hq
          · cases hq
          · split at hq <;> cases hq
    · cases h
  | _ => rfl

theorem session_modes (m : Machine) (calls : List ParamCall) (x : Proc × IniDisk) :
    (runParamCalls m calls x).1.multiprocessing =
        (calls.reverse.findSome? choosesProcesses).getD x.1.multiprocessing ∧
      (runParamCalls m calls x).1.threading =
        ((calls.reverse.findSome? choosesProcesses).map (! ·)).getD x.1.threading := by
  induction calls generalizing x with
  | nil => exact ⟨rfl, rfl⟩
  | cons c cs ih =>
    have key : ∃ y : Proc × IniDisk, runParamCalls m (c :: cs) x = runParamCalls m cs y ∧
        y.1.multiprocessing = (choosesProcesses c).getD x.1.multiprocessing ∧
        y.1.threading = ((choosesProcesses c).map (! ·)).getD x.1.threading := by
      cases hy : c.run m x.1 x.2 with
      | ok y =>
        refine ⟨y, ?_, run_modes m x.1 y.1 x.2 y.2 c hy⟩
        simp only [runParamCalls, hy]
      | error e =>
        refine ⟨x, ?_, ?_⟩
        · simp only [runParamCalls, hy]
        · rw [run_refused m x.1 x.2 c e hy]
          exact ⟨rfl, rfl⟩
    obtain ⟨y, hy, k1, k2⟩ := key
    rw [hy, List.reverse_cons, List.findSome?_append, (ih y).1, (ih y).2, k1, k2]
    cases hcs : cs.reverse.findSome? choosesProcesses with
    | some b => exact ⟨rfl, rfl⟩
    | none => cases hc : choosesProcesses c <;> simp [hc]

/-- C121. In any process, after any calls on its settings, the window opens unless the last accepted `set_parallel` chose
processes; then `start_gui()` raises AttributeError. -/
theorem C121_opens_partial (m : Machine) (k k0 : IniDisk) (p0 : Proc) (hs : startParams m k = .ok (p0, k0))
    (calls : List ParamCall) :
    (openMenu (runParamCalls m calls (p0, k0)).1 (runParamCalls m calls (p0, k0)).2 = .error .attributeError ↔
      OnProcesses calls) ∧
    ((∃ w, openMenu (runParamCalls m calls (p0, k0)).1 (runParamCalls m calls (p0, k0)).2 = .ok w) ↔
      ¬ OnProcesses calls) := by
  have ht : p0.threading = true := by
    simp only [startParams, bind, Except.bind] at hs
    split at hs
    · cases hs
    · cases hs; rfl
  have h2 := (session_modes m calls (p0, k0)).2
  simp only [openMenu, h2, ht, OnProcesses]
  cases calls.reverse.findSome? choosesProcesses with
  | none => simp
  | some b => cases b <;> simp

/-- C121 fails after `set_parallel('processes')`: the window cannot be opened. -/
theorem C121_opens_fails (m : Machine) (p : Proc) (k : IniDisk) :
    openMenu (runParamCalls m [.setParallel (.str s!!"processes")] (p, k)).1
      (runParamCalls m [.setParallel (.str s!!"processes")] (p, k)).2 = .error .attributeError := by
  rfl

/-! ### The ticks -/

/-- what stays true while the window is open -/
structure Sound (w : Menu) : Prop where
  honest : Honest w
  threading : w.proc.threading = true
  multiprocessing : w.proc.multiprocessing = false
  offers : w.ticks.offersMp = false

theorem tickedAlgorithms_iff (t : Ticks) (a : Str) : a ∈ tickedAlgorithms t ↔
    (t.bfs = true ∧ a = s!!"BFS") ∨ (t.lean = true ∧ a = s!!"lean_BFS") ∨ (t.dfs = true ∧ a = s!!"DFS") ∨
      (t.hybrid = true ∧ a = s!!"hybrid_BFS") := by
  obtain ⟨_, _, _, _, b, l, d, h, _, _, _, _, _, _⟩ := t
  cases b <;> cases l <;> cases d <;> cases h <;> simp [tickedAlgorithms]

theorem opened_sound (p : Proc) (k : IniDisk) (hm : p.multiprocessing = false) (w : Menu)
    (h : openMenu p k = .ok w) : Sound w := by
  simp only [openMenu] at h
  split at h
  · cases h
  · rename_i ht
    have ht : p.threading = true := by simpa using ht
    cases h
    refine ⟨⟨?_, rfl, rfl, rfl, rfl, ?_, ?_, fun h => h⟩, ht, hm, hm⟩
    · intro a
      rw [tickedAlgorithms_iff]
      simp only [decide_eq_true_eq, algorithms, List.mem_cons, List.not_mem_nil, or_false]
      constructor
      · rintro (⟨h, rfl⟩ | ⟨h, rfl⟩ | ⟨h, rfl⟩ | ⟨h, rfl⟩) <;> simp [h]
      · rintro ⟨rfl | rfl | rfl | rfl, h⟩ <;> simp [h]
    · simp [ht, hm, tickOf]
    · simp [hm]

theorem truthy_not (x : JVal) : (switchTo x .null).truthy = !x.truthy := rfl

theorem set_algorithm_run (m : Machine) (w : Menu) (a : Str) (ha : a ∈ algorithms) (ht : w.proc.threading = true) :
    w.call m (.setAlgorithm a) =
      { w with
        proc := { w.proc with set := { w.proc.set with algorithm := .str a } }
        disk := saveParams m { w.proc.set with algorithm := .str a } } := by
  simp [Menu.call, ParamCall.run, ha, ht]

theorem repeatUnless_proc (w : Menu) (a : Str) : (w.repeatUnless a).proc = w.proc := by
  unfold Menu.repeatUnless; split <;> rfl

theorem repeatUnless_ticks (w : Menu) (a : Str) :
    (w.repeatUnless a).ticks = { w.ticks with again := (w.repeatUnless a).ticks.again } := by
  unfold Menu.repeatUnless; split <;> rfl

theorem repeatUnless_again (w : Menu) (a : Str) :
    (w.repeatUnless a).ticks.again = (w.ticks.again || decide (w.proc.set.algorithm ≠ .str a)) := by
  unfold Menu.repeatUnless; split <;> simp_all

theorem click_sound (m : Machine) (w : Menu) (hw : Sound w) (c : Click) : Sound (c.run m w) := by
  obtain ⟨⟨ha, hc, hv, hp, ho, hth, hmp, hau⟩, ht, hm, hf⟩ := hw
  cases c with
  | rebuild => exact ⟨⟨ha, hc, hv, hp, ho, hth, hmp, hau⟩, ht, hm, hf⟩
  | path => exact ⟨⟨ha, hc, hv, by
      show (!w.ticks.path) = (switchTo w.proc.set.printPath .null).truthy
      rw [truthy_not, hp], ho, hth, hmp, hau⟩, ht, hm, hf⟩
  | verbose => exact ⟨⟨ha, hc, by
      show (!w.ticks.verbose) = (switchTo w.proc.set.verbose .null).truthy
      rw [truthy_not, hv], hp, ho, hth, hmp, hau⟩, ht, hm, hf⟩
  | cache => exact ⟨⟨ha, by
      show (!w.ticks.cache) = (switchTo w.proc.set.cache .null).truthy
      rw [truthy_not, hc], hv, hp, ho, hth, hmp, hau⟩, ht, hm, hf⟩
  | bfs =>
    have e := set_algorithm_run m (w.repeatUnless s!!"BFS") s!!"BFS" (by decide) (by rw [repeatUnless_proc]; exact ht)
    simp only [Click.run, e, repeatUnless_proc]
    rw [repeatUnless_ticks]
    refine ⟨⟨?_, hc, hv, hp, ho, hth, hmp, hau⟩, ht, hm, hf⟩
    intro a
    rw [tickedAlgorithms_iff]
    simp only [algorithms, List.mem_cons, List.not_mem_nil, or_false, JVal.str.injEq]
    constructor
    · rintro (⟨h, rfl⟩ | ⟨h, rfl⟩ | ⟨h, rfl⟩ | ⟨h, rfl⟩) <;> simp_all
    · rintro ⟨-, rfl⟩; simp
  | lean =>
    have e := set_algorithm_run m (w.repeatUnless s!!"lean_BFS") s!!"lean_BFS" (by decide)
      (by rw [repeatUnless_proc]; exact ht)
    simp only [Click.run, e, repeatUnless_proc]
    rw [repeatUnless_ticks]
    refine ⟨⟨?_, hc, hv, hp, ho, hth, hmp, hau⟩, ht, hm, hf⟩
    intro a
    rw [tickedAlgorithms_iff]
    simp only [algorithms, List.mem_cons, List.not_mem_nil, or_false, JVal.str.injEq]
    constructor
    · rintro (⟨h, rfl⟩ | ⟨h, rfl⟩ | ⟨h, rfl⟩ | ⟨h, rfl⟩) <;> simp_all
    · rintro ⟨-, rfl⟩; simp
  | dfs =>
    have e := set_algorithm_run m (w.repeatUnless s!!"DFS") s!!"DFS" (by decide) (by rw [repeatUnless_proc]; exact ht)
    simp only [Click.run, e, repeatUnless_proc]
    rw [repeatUnless_ticks]
    refine ⟨⟨?_, hc, hv, hp, ho, hth, hmp, hau⟩, ht, hm, hf⟩
    intro a
    rw [tickedAlgorithms_iff]
    simp only [algorithms, List.mem_cons, List.not_mem_nil, or_false, JVal.str.injEq]
    constructor
    · rintro (⟨h, rfl⟩ | ⟨h, rfl⟩ | ⟨h, rfl⟩ | ⟨h, rfl⟩) <;> simp_all
    · rintro ⟨-, rfl⟩; simp
  | hybrid =>
    have e := set_algorithm_run m (w.repeatUnless s!!"hybrid_BFS") s!!"hybrid_BFS" (by decide)
      (by rw [repeatUnless_proc]; exact ht)
    simp only [Click.run, e, repeatUnless_proc]
    rw [repeatUnless_ticks]
    refine ⟨⟨?_, hc, hv, hp, ho, hth, hmp, hau⟩, ht, hm, hf⟩
    intro a
    rw [tickedAlgorithms_iff]
    simp only [algorithms, List.mem_cons, List.not_mem_nil, or_false, JVal.str.injEq]
    constructor
    · rintro (⟨h, rfl⟩ | ⟨h, rfl⟩ | ⟨h, rfl⟩ | ⟨h, rfl⟩) <;> simp_all
    · rintro ⟨-, rfl⟩; simp
  | th => exact ⟨⟨ha, hc, hv, hp, rfl, rfl, rfl, fun _ => rfl⟩, rfl, rfl, hf⟩
  | mp =>
    have e : Click.run m w .mp = w := by simp [Click.run, hf]
    rw [e]
    exact ⟨⟨ha, hc, hv, hp, ho, hth, hmp, hau⟩, ht, hm, hf⟩
  | off => exact ⟨⟨ha, hc, hv, hp, rfl, rfl, rfl, fun h => by cases h⟩, rfl, rfl, hf⟩
  | auto => exact ⟨⟨ha, hc, hv, hp, rfl, rfl, rfl, fun _ => rfl⟩, rfl, rfl, hf⟩
  | folder p =>
    simp only [Click.run]
    split
    · exact ⟨⟨ha, hc, hv, hp, ho, hth, hmp, hau⟩, ht, hm, hf⟩
    · split
      · rename_i hd
        simp only [Menu.call, ParamCall.run, hd, if_true]
        exact ⟨⟨ha, hc, hv, hp, ho, hth, hmp, hau⟩, ht, hm, hf⟩
      · exact ⟨⟨ha, hc, hv, hp, ho, hth, hmp, hau⟩, ht, hm, hf⟩
  | again => exact ⟨⟨ha, hc, hv, hp, ho, hth, hmp, hau⟩, ht, hm, hf⟩
  | answered => exact ⟨⟨ha, hc, hv, hp, ho, hth, hmp, hau⟩, ht, hm, hf⟩
  | failed => exact ⟨⟨ha, hc, hv, hp, ho, hth, hmp, hau⟩, ht, hm, hf⟩
  | constant => exact ⟨⟨ha, hc, hv, hp, ho, hth, hmp, hau⟩, ht, hm, hf⟩

theorem clicks_sound (m : Machine) (cs : List Click) (w : Menu) (hw : Sound w) : Sound (clicks m cs w) := by
  induction cs generalizing w with
  | nil => exact hw
  | cons c cs ih => exact ih _ (click_sound m w hw c)

theorem session_sound (m : Machine) (k k0 : IniDisk) (p0 : Proc) (hs : startParams m k = .ok (p0, k0))
    (calls : List ParamCall) (w : Menu)
    (h : openMenu (runParamCalls m calls (p0, k0)).1 (runParamCalls m calls (p0, k0)).2 = .ok w) : Sound w := by
  have hopen := ((C121_opens_partial m k k0 p0 hs calls).2.1 ⟨w, h⟩)
  have hp0 : p0.multiprocessing = false := by
    simp only [startParams, bind, Except.bind] at hs
    split at hs
    · cases hs
    · cases hs; rfl
  refine opened_sound _ _ ?_ w h
  rw [(session_modes m calls (p0, k0)).1]
  unfold OnProcesses at hopen
  cases hb : calls.reverse.findSome? choosesProcesses with
  | none => exact hp0
  | some b => cases b with
    | false => rfl
    | true => exact absurd hb hopen

/-- C121. Whatever was called before the window was opened, and whatever is clicked in it, in any order and any number of
times, the ticks of the menus 'Search algorithm' and 'Parallel', of 'Use cache', 'Verbose' and 'Show conversion path' say
what the settings are. -/
theorem C121_honest (m : Machine) (k k0 : IniDisk) (p0 : Proc) (hs : startParams m k = .ok (p0, k0))
    (calls : List ParamCall) (w : Menu)
    (h : openMenu (runParamCalls m calls (p0, k0)).1 (runParamCalls m calls (p0, k0)).2 = .ok w) (cs : List Click) :
    Honest (clicks m cs w) :=
  (clicks_sound m cs w (session_sound m k k0 p0 hs calls w h)).honest

/-- C121. A click on one of the four algorithms, at any moment, leaves that one, and no other, ticked and in use, and a
process started afterwards uses it too. -/
theorem C121_chosen (m : Machine) (k k0 : IniDisk) (p0 : Proc) (hs : startParams m k = .ok (p0, k0))
    (calls : List ParamCall) (w : Menu)
    (h : openMenu (runParamCalls m calls (p0, k0)).1 (runParamCalls m calls (p0, k0)).2 = .ok w) (cs : List Click)
    (c : Click) (a : Str)
    (hc : (c, a) ∈ [(Click.bfs, s!!"BFS"), (.lean, s!!"lean_BFS"), (.dfs, s!!"DFS"), (.hybrid, s!!"hybrid_BFS")]) :
    let w' := clicks m (cs ++ [c]) w
    tickedAlgorithms w'.ticks = [a] ∧ w'.proc.set.algorithm = .str a ∧
      (startParams m w'.disk).map (fun y => y.1.set.algorithm) = .ok (.str a) := by
  have happ : ∀ (l : List Click) (x : Menu), clicks m (l ++ [c]) x = c.run m (clicks m l x) := by
    intro l
    induction l with
    | nil => intro x; rfl
    | cons d l ih => intro x; exact ih _
  have ht := (clicks_sound m cs w (session_sound m k k0 p0 hs calls w h)).threading
  simp only [happ]
  generalize clicks m cs w = v at ht
  have hload : ∀ s : Settings,
      (startParams m (saveParams m s)).map (fun y => y.1.set.algorithm) = .ok s.algorithm := by
    intro s
    unfold startParams loadParams saveParams
    simp only [readFile, bind, Except.bind]
    split
    · rename_i e he
      split at he <;> cases he
    · rename_i y hy
      split at hy <;> (cases hy; rfl)
  simp only [List.mem_cons, Prod.mk.injEq, List.not_mem_nil, or_false] at hc
  rcases hc with ⟨rfl, rfl⟩ | ⟨rfl, rfl⟩ | ⟨rfl, rfl⟩ | ⟨rfl, rfl⟩
  all_goals
    simp only [Click.run]
    rw [set_algorithm_run m _ _ (by decide) (by rw [repeatUnless_proc]; exact ht)]
    exact ⟨rfl, rfl, hload _⟩

/-- C121. If the algorithm in use is not the one that was in use when the window was opened, or at any moment since, then
'repeat search' is ticked, unless a conversion was answered or the user unticked it in between. -/
theorem C121_repeat (m : Machine) (k k0 : IniDisk) (p0 : Proc) (hs : startParams m k = .ok (p0, k0))
    (calls : List ParamCall) (w : Menu)
    (h : openMenu (runParamCalls m calls (p0, k0)).1 (runParamCalls m calls (p0, k0)).2 = .ok w)
    (before after : List Click) (hu : Unanswered after)
    (hd : (clicks m (before ++ after) w).proc.set.algorithm ≠ (clicks m before w).proc.set.algorithm) :
    (clicks m (before ++ after) w).ticks.again = true := by
  have happ : ∀ (l l' : List Click) (x : Menu), clicks m (l ++ l') x = clicks m l' (clicks m l x) := by
    intro l
    induction l with
    | nil => intro l' x; rfl
    | cons d l ih => intro l' x; exact ih _ _
  have hv := clicks_sound m before w (session_sound m k k0 p0 hs calls w h)
  rw [happ] at hd ⊢
  generalize clicks m before w = v at hv hd
  -- one click
  have step : ∀ (x : Menu), Sound x → ∀ c, c ≠ Click.again → c ≠ .answered →
      (x.ticks.again = true → (c.run m x).ticks.again = true) ∧
      ((c.run m x).proc.set.algorithm ≠ x.proc.set.algorithm → (c.run m x).ticks.again = true) := by
    intro x hx c h1 h2
    have ht := hx.threading
    cases c with
    | bfs | lean | dfs | hybrid =>
      simp only [Click.run]
      rw [set_algorithm_run m _ _ (by decide) (by rw [repeatUnless_proc]; exact ht)]
      simp only [repeatUnless_again]
      refine ⟨fun h => by simp [h], fun h => ?_⟩
      have h' := Ne.symm h
      simp [h']
    | mp => rw [show Click.run m x .mp = x by simp [Click.run, hx.offers]]; exact ⟨id, fun h => absurd rfl h⟩
    | folder p =>
      simp only [Click.run]
      split
      · exact ⟨id, fun h => absurd rfl h⟩
      · split
        · rename_i hd
          simp only [Menu.call, ParamCall.run, hd, if_true]
          exact ⟨id, fun h => absurd rfl h⟩
        · exact ⟨id, fun h => absurd rfl h⟩
    | again => exact absurd rfl h1
    | answered => exact absurd rfl h2
    | failed | constant => exact ⟨fun _ => rfl, fun _ => rfl⟩
    | _ => exact ⟨id, fun h => absurd rfl h⟩
  have kept : ∀ (l : List Click) (x : Menu), Sound x → Unanswered l → x.ticks.again = true →
      (clicks m l x).ticks.again = true := by
    intro l
    induction l with
    | nil => intro x _ _ h; exact h
    | cons c l ih =>
      intro x hx hl h
      have hc1 : c ≠ Click.again := fun e => hl.1 (by rw [e]; exact List.mem_cons_self ..)
      have hc2 : c ≠ Click.answered := fun e => hl.2 (by rw [e]; exact List.mem_cons_self ..)
      exact ih _ (click_sound m x hx c)
        ⟨fun e => hl.1 (List.mem_cons_of_mem _ e), fun e => hl.2 (List.mem_cons_of_mem _ e)⟩
        ((step x hx c hc1 hc2).1 h)
  have go : ∀ (l : List Click) (x : Menu), Sound x → Unanswered l →
      (clicks m l x).proc.set.algorithm ≠ x.proc.set.algorithm → (clicks m l x).ticks.again = true := by
    intro l
    induction l with
    | nil => intro x _ _ h; exact absurd rfl h
    | cons c l ih =>
      intro x hx hl h
      have hc1 : c ≠ Click.again := fun e => hl.1 (by rw [e]; exact List.mem_cons_self ..)
      have hc2 : c ≠ Click.answered := fun e => hl.2 (by rw [e]; exact List.mem_cons_self ..)
      have hl' : Unanswered l :=
        ⟨fun e => hl.1 (List.mem_cons_of_mem _ e), fun e => hl.2 (List.mem_cons_of_mem _ e)⟩
      by_cases hs : (c.run m x).proc.set.algorithm = x.proc.set.algorithm
      · exact ih _ (click_sound m x hx c) hl' (by rw [hs]; exact h)
      · exact kept l _ (click_sound m x hx c) hl' ((step x hx c hc1 hc2).2 hs)
  exact go after v hv hu hd

/-- C121, partial: the tick of 'Rebuild on next start' says what the setting is when it was off as the window was opened,
and the opposite when it was on. -/
theorem C121_rebuild_partial (m : Machine) (p : Proc) (k : IniDisk) (w : Menu) (h : openMenu p k = .ok w)
    (cs : List Click) :
    (clicks m cs w).ticks.rebuild = ((clicks m cs w).proc.set.reload.truthy != p.set.reload.truthy) := by
  have hw : w.ticks.rebuild = false ∧ w.proc = p := by
    simp only [openMenu] at h
    split at h
    · cases h
    · cases h; exact ⟨rfl, rfl⟩
  have call : ∀ (x : Menu) (c : ParamCall), (∀ sw, c ≠ .reloadNextTime sw) → c ≠ .reload →
      (x.call m c).ticks = x.ticks ∧ (x.call m c).proc.set.reload = x.proc.set.reload := by
    intro x c h1 h2
    unfold Menu.call
    split
    · rename_i y hy
      refine ⟨rfl, ?_⟩
      obtain ⟨q, k'⟩ := y
      show q.set.reload = _
      cases c with
      | reloadNextTime sw => exact absurd rfl (h1 sw)
      | reload => exact absurd rfl h2
      | setParallel arg =>
        simp only [ParamCall.run, bind, Except.bind] at hy
        split at hy
        · cases hy
        · rename_i q' hq
          cases hy
          cases arg with
          | null => cases hq; rfl
          | bool b => cases hq; rfl
          | int n => cases hq
          | num n => cases hq
          | str s =>
            simp only [parallelTo] at hq
            split at hq
            · cases hq
            · split at hq
              · cases hq; rfl
              · split at hq <;> (cases hq; rfl)
      | recursionLimit l =>
        cases l with
        | null => cases hy; rfl
        | _ =>
          simp only [ParamCall.run, bind, Except.bind] at hy
          split at hy
          · cases hy
          · cases hy; rfl
      | generationsLimit l =>
        cases l with
        | null => cases hy; rfl
        | _ =>
          simp only [ParamCall.run, bind, Except.bind] at hy
          split at hy
          · cases hy
          · cases hy; rfl
      | setAlgorithm a =>
        simp only [ParamCall.run] at hy
        split at hy
        · cases hy
        · split at hy
          · split at hy <;> (cases hy; rfl)
          · cases hy; rfl
      | setUserFolder o =>
        cases o with
        | none => cases hy; rfl
        | some path =>
          simp only [ParamCall.run] at hy
          split at hy <;> (cases hy; rfl)
      | verbose sw =>
        cases hy
        cases sw <;> rfl
      | _ => cases hy; rfl
    · exact ⟨rfl, rfl⟩
  have rep : ∀ (x : Menu) a, (x.repeatUnless a).ticks.rebuild = x.ticks.rebuild ∧ (x.repeatUnless a).proc = x.proc := by
    intro x a
    unfold Menu.repeatUnless
    split <;> exact ⟨rfl, rfl⟩
  have step : ∀ (x : Menu) (b : Bool), x.ticks.rebuild = (x.proc.set.reload.truthy != b) → ∀ c : Click,
      (c.run m x).ticks.rebuild = ((c.run m x).proc.set.reload.truthy != b) := by
    intro x b hx c
    cases c with
    | rebuild =>
      show (!x.ticks.rebuild) = ((!x.proc.set.reload.truthy) != b)
      rw [hx]
      cases x.proc.set.reload.truthy <;> cases b <;> rfl
    | path | verbose | cache =>
      simp only [Click.run]
      rw [(call _ _ (by intro sw; simp) (by simp)).1, (call _ _ (by intro sw; simp) (by simp)).2]
      exact hx
    | bfs | lean | dfs | hybrid =>
      simp only [Click.run]
      rw [(call _ _ (by intro sw; simp) (by simp)).1, (call _ _ (by intro sw; simp) (by simp)).2, (rep _ _).1, (rep _ _).2]
      exact hx
    | th | off | auto =>
      simp only [Click.run]
      rw [(call _ _ (by intro sw; simp) (by simp)).1, (call _ _ (by intro sw; simp) (by simp)).2]
      exact hx
    | mp =>
      simp only [Click.run]
      split
      · simp only
        rw [(call _ _ (by intro sw; simp) (by simp)).1, (call _ _ (by intro sw; simp) (by simp)).2]
        exact hx
      · exact hx
    | folder p =>
      simp only [Click.run]
      split
      · exact hx
      · split
        · rw [(call _ _ (by intro sw; simp) (by simp)).1, (call _ _ (by intro sw; simp) (by simp)).2]
          exact hx
        · exact hx
    | _ => exact hx
  have go : ∀ (l : List Click) (x : Menu) (b : Bool), x.ticks.rebuild = (x.proc.set.reload.truthy != b) →
      (clicks m l x).ticks.rebuild = ((clicks m l x).proc.set.reload.truthy != b) := by
    intro l
    induction l with
    | nil => intro x b h; exact h
    | cons c l ih => intro x b h; exact ih _ b (step x b h c)
  refine go cs w _ ?_
  rw [hw.1, hw.2]
  cases p.set.reload.truthy <;> rfl

/-! ### A concrete session -/

/-- a computer with its settings as shipped -/
def exMachine : Machine := { home := s!!"/u/", isdir := fun s => decide (s = s!!"/data"), pyLimit := 1000 }

def exDisk : IniDisk := { ini := .absent, backup := .absent }

/-- the process at its start -/
def exProc : Proc := { set := loadMain exMachine defaultDict }

example : startParams exMachine exDisk = .ok (exProc, { exDisk with ini := .holds defaultDict }) := rfl

/-- the window after `set_algorithm('hybrid_BFS')` and `cache(False)` -/
def exCalls : List ParamCall := [.setAlgorithm s!!"hybrid_BFS", .cache (.bool false)]

example : ¬ OnProcesses exCalls := by decide
example : OnProcesses [.setParallel (.str s!!"Multi"), .cache .null] := by decide
example : Unanswered [Click.dfs, .cache, .th] := by unfold Unanswered; decide

example :
    (openMenu (runParamCalls exMachine exCalls (exProc, exDisk)).1 (runParamCalls exMachine exCalls (exProc, exDisk)).2).map
      (fun w => (tickedAlgorithms w.ticks, w.ticks.cache, w.ticks.again)) =
      .ok ([s!!"hybrid_BFS"], false, false) := by decide +kernel

example :
    (openMenu (runParamCalls exMachine exCalls (exProc, exDisk)).1 (runParamCalls exMachine exCalls (exProc, exDisk)).2).map
      (fun w => let w := clicks exMachine [.off, .dfs, .cache, .mp] w
                (tickedAlgorithms w.ticks, w.ticks.cache, w.ticks.again, w.ticks.off, w.ticks.th)) =
      .ok ([s!!"DFS"], true, true, true, false) := by decide +kernel

/-- C121 fails for 'Rebuild on next start': when it is on as the window opens it is shown off, and a click that turns it off
shows it on. -/
theorem C121_rebuild_fails :
    exProc.set.reload.truthy = true ∧
    ((openMenu exProc exDisk).map fun w => w.ticks.rebuild) = .ok false ∧
    ((openMenu exProc exDisk).map fun w =>
      ((clicks exMachine [.rebuild] w).ticks.rebuild, (clicks exMachine [.rebuild] w).proc.set.reload.truthy)) =
      .ok (true, false) := by decide +kernel

end Unyts.Gui

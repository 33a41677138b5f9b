import Verif.Model.Parameters
import Verif.Lemmas.Clean

/-
C44, C45, C47, C48: settings, their files, switches, the user folder.
-/
namespace Unyts

/-! ### C44 -/

/-- The calls that save the settings: every switch, a limit that is given, an algorithm that is accepted, the
density. -/
def ParamCall.Saves : ParamCall → Prop
  | printPath _ | cache _ | raiseError _ | verbose _ | reloadNextTime _ | reload | setDensity _ => True
  | recursionLimit l | generationsLimit l => l ≠ .null
  | setAlgorithm a => a ≠ s!!"hybrid_BFS"
  | setParallel _ | setUserFolder _ | setFvf _ => False

/-- A complete save leaves files from which a new process reads every setting as it was; the user folder as long as it
exists. -/
theorem load_saved (m : Machine) (s : Settings) (hf : s.folder = m.home ∨ m.isdir s.folder = true) :
    loadParams m (saveParams m s) = .ok (s, saveParams m s) := by
  have hfold : ∀ cur, loadFolder m (s.toDict m) cur = s.folder := by
    intro cur
    have hj : jget (s.toDict m) .folder .null = if s.folder = m.home then .null else .str s.folder := rfl
    unfold loadFolder
    rw [hj]
    by_cases h : s.folder = m.home
    · rw [if_pos h]; exact h.symm
    · rw [if_neg h]
      rcases hf with hf | hf
      · exact absurd hf h
      · simp [hf]
  have h1 : loadMain m (s.toDict m) = s := by
    have := hfold m.home
    obtain ⟨a1, a2, a3, a4, a5, a6, a7, a8, a9, a10, a11, a12, a13, a14, a15⟩ := s
    unfold loadMain
    rw [this]
    rfl
  have h2 : loadBackup m (s.toDict m) s = s := by
    have := hfold s.folder
    obtain ⟨a1, a2, a3, a4, a5, a6, a7, a8, a9, a10, a11, a12, a13, a14, a15⟩ := s
    unfold loadBackup
    rw [this]
    rfl
  unfold loadParams saveParams
  simp only [readFile]
  show (if (loadMain m (s.toDict m)).showVersion.truthy && true then _ else _) = _
  rw [h1]
  split
  · show Except.ok (loadBackup m (s.toDict m) s, _) = _
    rw [h2]
  · rfl

/-- C44. After any call that saves, in any state of the process and of the files, a new process starts and sees every
setting with the value it had, the user folder included as long as it still exists. -/
theorem C44_persist (m : Machine) (p q : Proc) (k k' : IniDisk) (c : ParamCall) (hc : c.Saves)
    (h : c.run m p k = .ok (q, k')) (m' : Machine) (hh : m'.home = m.home)
    (hf : q.set.folder = m.home ∨ m'.isdir q.set.folder = true) :
    startParams m' k' = .ok ({ set := q.set }, k') := by
  have key : k' = saveParams m q.set := by
    cases c with
    | recursionLimit l =>
      cases l with
      | null => exact absurd rfl hc
      | _ =>
        simp only [ParamCall.run, bind, Except.bind] at h
        split at h
        · cases h
        · cases h; rfl
    | generationsLimit l =>
      cases l with
      | null => exact absurd rfl hc
      | _ =>
        simp only [ParamCall.run, bind, Except.bind] at h
        split at h
        · cases h
        · cases h; rfl
    | setAlgorithm a =>
      have ha : a ≠ s!!"hybrid_BFS" := hc
      simp only [ParamCall.run] at h
      split at h
      · cases h
      · rw [if_neg (fun hh => ha hh.1)] at h
        cases h; rfl
    | setParallel _ => exact hc.elim
    | setUserFolder _ => exact hc.elim
    | setFvf _ => exact hc.elim
    | _ => simp only [ParamCall.run, Except.ok.injEq, Prod.mk.injEq] at h; obtain ⟨rfl, rfl⟩ := h; rfl
  subst key
  have e : saveParams m q.set = saveParams m' q.set := by unfold saveParams Settings.toDict; rw [hh]
  unfold startParams
  rw [e, load_saved m' q.set (by rw [hh]; exact hf)]
  rfl

/-- A session: calls one after the other; one that raises changes nothing. -/
def runParamCalls (m : Machine) : List ParamCall → Proc × IniDisk → Proc × IniDisk
  | [], x => x
  | c :: cs, x => runParamCalls m cs (match c.run m x.1 x.2 with | .ok y => y | .error _ => x)

/-- C44 over histories: after any session that ends with a call that saves, the next process sees the settings of the
end of the session. -/
theorem C44_history (m : Machine) (cs : List ParamCall) (c : ParamCall) (hc : c.Saves) (p : Proc) (k : IniDisk)
    (hok : ∃ y, c.run m (runParamCalls m cs (p, k)).1 (runParamCalls m cs (p, k)).2 = .ok y)
    (hf : (runParamCalls m (cs ++ [c]) (p, k)).1.set.folder = m.home ∨
      m.isdir (runParamCalls m (cs ++ [c]) (p, k)).1.set.folder = true) :
    startParams m (runParamCalls m (cs ++ [c]) (p, k)).2 =
      .ok ({ set := (runParamCalls m (cs ++ [c]) (p, k)).1.set }, (runParamCalls m (cs ++ [c]) (p, k)).2) := by
  have happ : ∀ cs' x, runParamCalls m (cs' ++ [c]) x =
      (match c.run m (runParamCalls m cs' x).1 (runParamCalls m cs' x).2 with
        | .ok y => y
        | .error _ => runParamCalls m cs' x) := by
    intro cs'
    induction cs' with
    | nil => intro x; rfl
    | cons a as ih => intro x; exact ih _
  obtain ⟨⟨q, k'⟩, hy⟩ := hok
  have e : runParamCalls m (cs ++ [c]) (p, k) = (q, k') := by rw [happ, hy]
  rw [e] at hf ⊢
  exact C44_persist m _ q _ k' c hc hy m rfl hf

/-- C44. A folder that no longer exists at the next start is replaced by the default one; nothing else changes. -/
theorem C44_folder_gone (m m' : Machine) (s : Settings) (hh : m'.home = m.home) (hn : s.folder ≠ m.home)
    (hf : m'.isdir s.folder = false) :
    startParams m' (saveParams m s) = .ok ({ set := { s with folder := m.home } }, saveParams m s) := by
  have hfold : loadFolder m' (s.toDict m) m.home = m.home := by
    have hj : jget (s.toDict m) .folder .null = if s.folder = m.home then .null else .str s.folder := rfl
    unfold loadFolder
    rw [hj, if_neg hn]
    simp [hf]
  have h1 : loadMain m' (s.toDict m) = { s with folder := m.home } := by
    obtain ⟨a1, a2, a3, a4, a5, a6, a7, a8, a9, a10, a11, a12, a13, a14, a15⟩ := s
    unfold loadMain
    rw [hh, hfold]
    rfl
  have h2 : loadBackup m' (s.toDict m) { s with folder := m.home } = { s with folder := m.home } := by
    obtain ⟨a1, a2, a3, a4, a5, a6, a7, a8, a9, a10, a11, a12, a13, a14, a15⟩ := s
    unfold loadBackup
    rw [hfold]
    rfl
  unfold startParams loadParams saveParams
  simp only [readFile]
  show ((if (loadMain m' (s.toDict m)).showVersion.truthy && true then _ else _) >>= _) = _
  rw [h1]
  split
  · show Except.ok (({ set := loadBackup m' (s.toDict m) _ } : Proc), _) = _
    rw [h2]
  · rfl

/-- C44, where it stops: set_parallel, set_user_folder and set_fvf write nothing, so on their own they are forgotten. -/
theorem C44_not_saved (m : Machine) (p q : Proc) (k k' : IniDisk) (c : ParamCall)
    (hc : (∃ x, c = .setParallel x) ∨ (∃ x, c = .setUserFolder x) ∨ ∃ x, c = .setFvf x)
    (h : c.run m p k = .ok (q, k')) : k' = k := by
  rcases hc with ⟨x, rfl⟩ | ⟨x, rfl⟩ | ⟨x, rfl⟩
  · simp only [ParamCall.run, bind, Except.bind] at h
    split at h
    · cases h
    · cases h; rfl
  · cases x with
    | none => cases h; rfl
    | some x =>
      simp only [ParamCall.run] at h
      split at h <;> (cases h; rfl)
  · cases h; rfl

/-- a machine with one extra folder, and the settings shipped with the library (parameters.ini) -/
def demoMachine : Machine := { home := s!!"/lib/unyts/", isdir := fun p => p = s!!"/data", pyLimit := 1000 }

def shippedParams : Settings := loadMain demoMachine defaultDict

example : (ParamCall.cache (.str s!!" OFF ")).Saves ∧
    ((ParamCall.run demoMachine { set := shippedParams } ⟨.absent, .absent⟩ (.cache (.str s!!" OFF "))).toOption.bind fun r =>
      (startParams demoMachine r.2).toOption.map fun s => (s.1.set.cache, s.1.set.algorithm)) =
      some (.bool false, .str s!!"lean_BFS") ∧
    ((ParamCall.run demoMachine { set := shippedParams } (saveParams demoMachine shippedParams) (.setParallel (.bool false))).toOption.bind
      fun r => (startParams demoMachine r.2).toOption.map fun s => (r.1.set.parallel, s.1.set.parallel)) =
      some (.bool false, .bool true) := by
  refine ⟨trivial, ?_⟩
  decide +kernel

/-! ### C45 -/

/-- C45, what holds: if the process dies before it has touched the ini file, or after it has completed it, the next
start succeeds and sees the old settings, respectively the new ones, provided the version banner has been shown (it is
shown, and the setting cleared, at the end of the first import). -/
theorem C45_other_points_partial (m : Machine) (s : Settings) (k : IniDisk)
    (hf : s.folder = m.home ∨ m.isdir s.folder = true) (hv : s.showVersion.truthy = false) :
    ∃ rest, saveSteps m s k = k :: { k with ini := .damaged } :: rest ∧
      ∀ k' ∈ rest, startParams m k' = .ok ({ set := s }, k') := by
  refine ⟨_, rfl, ?_⟩
  have h1 : loadMain m (s.toDict m) = s := by
    have hl := load_saved m s hf
    unfold loadParams saveParams at hl
    simp only [readFile] at hl
    have hfold : loadFolder m (s.toDict m) m.home = s.folder := by
      have hj : jget (s.toDict m) .folder .null = if s.folder = m.home then .null else .str s.folder := rfl
      unfold loadFolder
      rw [hj]
      by_cases h : s.folder = m.home
      · rw [if_pos h]; exact h.symm
      · rw [if_neg h]
        rcases hf with hf | hf
        · exact absurd hf h
        · simp [hf]
    obtain ⟨a1, a2, a3, a4, a5, a6, a7, a8, a9, a10, a11, a12, a13, a14, a15⟩ := s
    unfold loadMain
    rw [hfold]
    rfl
  have key : ∀ k', k'.ini = .holds (s.toDict m) → startParams m k' = .ok ({ set := s }, k') := by
    intro k' hk
    unfold startParams loadParams
    rw [hk]
    simp only [readFile]
    show ((if (loadMain m (s.toDict m)).showVersion.truthy && _ then _ else _) >>= _) = _
    rw [h1, hv]
    rfl
  intro k' hk
  simp only [List.mem_cons, List.not_mem_nil, or_false] at hk
  rcases hk with rfl | rfl | rfl <;> exact key _ rfl

/-- C45 fails: for all settings and files, if the process dies while the ini file is being written the next start
raises JSONDecodeError, whatever the backup holds. -/
theorem C45_fails (m : Machine) (s : Settings) (k : IniDisk) :
    ∃ k' ∈ saveSteps m s k, startParams m k' = .error .jsonDecode :=
  ⟨{ k with ini := .damaged }, by simp [saveSteps], rfl⟩

/-- C45 fails also while the backup is being written, as long as the version banner has not been shown. -/
theorem C45_fails_banner (m : Machine) (s : Settings) (k : IniDisk) (hv : s.showVersion.truthy = true) :
    startParams m { ini := .holds (s.toDict m), backup := .damaged } = .error .jsonDecode ∧
    ({ ini := .holds (s.toDict m), backup := .damaged } : IniDisk) ∈ saveSteps m s k := by
  refine ⟨?_, by simp [saveSteps]⟩
  unfold startParams loadParams
  simp only [readFile]
  have : (loadMain m (s.toDict m)).showVersion = s.showVersion := rfl
  show ((if (loadMain m (s.toDict m)).showVersion.truthy && _ then _ else _) >>= _) = _
  rw [this, hv]
  rfl

/-- A missing file is no problem, with any backup when the banner is off. -/
theorem C45_missing_ini (m : Machine) (b : File JDict) :
    ∃ p k', startParams m { ini := .absent, backup := b } = .ok (p, k') :=
  ⟨_, _, rfl⟩

example : shippedParams.showVersion.truthy = false ∧ shippedParams.folder = demoMachine.home ∧
    (startParams demoMachine ⟨.damaged, .holds defaultDict⟩).toOption.isNone = true := by decide +kernel

/-! ### C47 -/

/-- the four switches and what they read -/
inductive Switch where
  | printPath | cache | raiseError | reloadNextTime

def Switch.call : Switch → JVal → ParamCall
  | .printPath => .printPath
  | .cache => .cache
  | .raiseError => .raiseError
  | .reloadNextTime => .reloadNextTime

def Switch.read : Switch → Settings → JVal
  | .printPath, s => s.printPath
  | .cache, s => s.cache
  | .raiseError, s => s.raiseError
  | .reloadNextTime, s => s.reload

theorem switch_run (sw : Switch) (m : Machine) (p : Proc) (k : IniDisk) (arg : JVal) :
    ∃ q, (sw.call arg).run m p k = .ok (q, saveParams m q.set) ∧ sw.read q.set = switchTo (sw.read p.set) arg ∧
      (∀ sw', sw' ≠ sw → sw'.read q.set = sw'.read p.set) := by
  cases sw <;> exact ⟨_, rfl, rfl, by intro sw' h; cases sw' <;> first | rfl | exact absurd rfl h⟩

/-- C47. Called without argument a switch that is on goes off and conversely, called twice it comes back; the other
switches do not move. -/
theorem C47_toggle (sw : Switch) (m : Machine) (p : Proc) (k : IniDisk) (b : Bool) (hb : sw.read p.set = .bool b) :
    ∃ q k1 r k2, (sw.call .null).run m p k = .ok (q, k1) ∧ (sw.call .null).run m q k1 = .ok (r, k2) ∧
      sw.read q.set = .bool (!b) ∧ sw.read r.set = .bool b ∧
      ∀ sw', sw' ≠ sw → sw'.read q.set = sw'.read p.set ∧ sw'.read r.set = sw'.read p.set := by
  obtain ⟨q, h1, h2, h3⟩ := switch_run sw m p k .null
  obtain ⟨r, h4, h5, h6⟩ := switch_run sw m q (saveParams m q.set) .null
  refine ⟨q, _, r, _, h1, h4, ?_, ?_, ?_⟩
  · rw [h2, hb]; rfl
  · rw [h5, h2, hb]; simp [switchTo, JVal.truthy]
  · intro sw' hs
    exact ⟨h3 sw' hs, by rw [h6 sw' hs, h3 sw' hs]⟩

/-- The spelling `s` is one of "off", "no", "not" or nothing, in any letter case, between blanks. -/
def OffSpelling (s : Str) : Prop := ∃ p c q, s = p ++ c ++ q ∧ (∀ x ∈ p, x ∈ Py.wsChars) ∧ (∀ x ∈ q, x ∈ Py.wsChars) ∧
  Py.lower c ∈ [s!!"off", s!!"no", s!!"not", s!!""]

theorem lower_ws {x : Char} : Py.lowerC x ∈ Py.wsChars ↔ x ∈ Py.wsChars := by
  have hws : ∀ y ∈ Py.wsChars, y.toNat ≤ 32 ∨ y.toNat = 133 ∨ y.toNat = 160 := by decide
  have key : ∀ (lo hi : Char), lo ≤ x → x ≤ hi →
      (∀ n, lo.toNat ≤ n → n ≤ hi.toNat → 32 < n ∧ n < 1000 ∧ n ≠ 133 ∧ n ≠ 160 ∧ n + 32 ≠ 133 ∧ n + 32 ≠ 160) →
      (Char.ofNat (x.toNat + 32) ∈ Py.wsChars ↔ x ∈ Py.wsChars) := by
    intro lo hi h1 h2 h3
    have h := h3 x.toNat h1 h2
    have e := toNat_ofNat_small (n := x.toNat + 32) (by omega)
    constructor
    · intro hh
      have := hws _ hh
      omega
    · intro hh
      have := hws _ hh
      omega
  unfold Py.lowerC
  split
  · next hc =>
    refine key _ _ hc.1 hc.2 ?_
    intro n (h1 : 65 ≤ n) (h2 : n ≤ 90)
    omega
  · split
    · next hc =>
      refine key _ _ hc.1 hc.2.1 ?_
      intro n (h1 : 192 ≤ n) (h2 : n ≤ 222)
      omega
    · split
      · next hc =>
        refine key _ _ hc.1 hc.2 ?_
        intro n (h1 : 913 ≤ n) (h2 : n ≤ 937)
        omega
      · exact Iff.rfl

theorem lstrip_split (cs : List Char) (s : Str) : ∃ p, s = p ++ Py.lstrip cs s ∧ ∀ x ∈ p, x ∈ cs := by
  induction s with
  | nil => exact ⟨[], rfl, by simp⟩
  | cons x xs ih =>
    unfold Py.lstrip
    split
    · next h =>
      obtain ⟨p, h1, h2⟩ := ih
      refine ⟨x :: p, by rw [List.cons_append, ← h1], ?_⟩
      intro y hy
      rcases List.mem_cons.1 hy with rfl | hy
      · exact h
      · exact h2 y hy
    · exact ⟨[], rfl, by simp⟩

theorem strip_split (cs : List Char) (s : Str) :
    ∃ p q, s = p ++ Py.strip cs s ++ q ∧ (∀ x ∈ p, x ∈ cs) ∧ ∀ x ∈ q, x ∈ cs := by
  obtain ⟨p, h1, h2⟩ := lstrip_split cs s
  obtain ⟨q, h3, h4⟩ := lstrip_split cs (Py.lstrip cs s).reverse
  refine ⟨p, q.reverse, ?_, h2, by simpa using h4⟩
  have : Py.lstrip cs s = Py.strip cs s ++ q.reverse := by
    unfold Py.strip Py.rstrip
    rw [← List.reverse_append, ← h3, List.reverse_reverse]
  rw [List.append_assoc, ← this, ← h1]

theorem lstrip_lower (s : Str) : Py.lstrip Py.wsChars (Py.lower s) = Py.lower (Py.lstrip Py.wsChars s) := by
  induction s with
  | nil => rfl
  | cons x xs ih =>
    show Py.lstrip Py.wsChars (Py.lowerC x :: Py.lower xs) = _
    unfold Py.lstrip
    by_cases h : x ∈ Py.wsChars
    · rw [if_pos (lower_ws.2 h), if_pos h, ih]
    · rw [if_neg (fun hh => h (lower_ws.1 hh)), if_neg h]; rfl

theorem strip_lower (s : Str) : Py.stripWs (Py.lower s) = Py.lower (Py.stripWs s) := by
  unfold Py.stripWs Py.strip Py.rstrip
  have hr : ∀ t : Str, (Py.lower t).reverse = Py.lower t.reverse := fun t => by simp [Py.lower]
  rw [lstrip_lower, hr, lstrip_lower, hr]

theorem off_iff (s : Str) : Py.stripWs (Py.lower s) ∈ offSwitches ↔ OffSpelling s := by
  rw [strip_lower]
  constructor
  · intro h
    obtain ⟨p, q, h1, h2, h3⟩ := strip_split Py.wsChars s
    exact ⟨p, _, q, h1, h2, h3, h⟩
  · rintro ⟨p, c, q, rfl, hp, hq, hc⟩
    have hcw : ∀ x ∈ c, x ∉ Py.wsChars := by
      intro x hx hw
      have : Py.lowerC x ∈ Py.lower c := List.mem_map_of_mem hx
      have hw' := lower_ws.2 hw
      have hall : ∀ t ∈ [s!!"off", s!!"no", s!!"not", s!!""], ∀ y ∈ t, y ∉ Py.wsChars := by decide
      exact hall _ hc _ this hw'
    have : Py.stripWs (p ++ c ++ q) = c := by
      by_cases hne : c = []
      · subst hne
        unfold Py.stripWs Py.strip Py.rstrip
        rw [List.append_nil, Py.lstrip_all (s := p ++ q) (by
          intro x hx
          rcases List.mem_append.1 hx with hx | hx
          · exact hp x hx
          · exact hq x hx)]
        rfl
      · unfold Py.stripWs
        rw [strip_around hne]
        · rw [Py.lstrip_all hp, Py.lstrip_all (s := q.reverse) (by simpa using hq)]
          simp
        · intro x hx
          rcases hx with hx | hx
          · exact hcw x (List.mem_of_head? hx)
          · exact hcw x (List.mem_of_getLast? hx)
    rw [this]
    exact hc

/-- C47. Called with a string a switch goes off exactly for the off spellings, and on for any other string; called with
any other value it takes its truth value. -/
theorem C47_strings (sw : Switch) (m : Machine) (p : Proc) (k : IniDisk) (arg : JVal) (hn : arg ≠ .null) :
    ∃ q k1, (sw.call arg).run m p k = .ok (q, k1) ∧
      (∀ s, arg = .str s → (sw.read q.set = .bool false ↔ OffSpelling s) ∧
        (sw.read q.set = .bool true ↔ ¬ OffSpelling s)) ∧
      ((∀ s, arg ≠ .str s) → sw.read q.set = .bool arg.truthy) := by
  obtain ⟨q, h1, h2, _⟩ := switch_run sw m p k arg
  refine ⟨q, _, h1, ?_, ?_⟩
  · rintro s rfl
    rw [h2]
    simp only [switchTo, JVal.bool.injEq, decide_eq_false_iff_not, decide_eq_true_eq, off_iff]
    exact ⟨Classical.not_not, trivial⟩
  · intro hs
    rw [h2]
    cases arg with
    | null => exact absurd rfl hn
    | str s => exact absurd rfl (hs s)
    | _ => rfl

/-- C47. `verbose` follows the same rule, except that an integer also sets the level of detail, and turns the messages
on exactly when it is positive. -/
theorem C47_verbose (m : Machine) (p : Proc) (k : IniDisk) (arg : JVal) :
    ∃ q k1, (ParamCall.verbose arg).run m p k = .ok (q, k1) ∧
      (∀ b, arg = .null → p.set.verbose = .bool b → q.set.verbose = .bool (!b)) ∧
      (∀ n, arg = .int n → q.set.verboseDetails = .int n ∧ (q.set.verbose = .bool true ↔ 0 < n)) ∧
      (∀ s, arg = .str s → (q.set.verbose = .bool false ↔ OffSpelling s)) ∧
      ((∀ n, arg ≠ .int n) → q.set.verboseDetails = p.set.verboseDetails) ∧
      ∀ sw : Switch, sw.read q.set = sw.read p.set := by
  refine ⟨_, _, rfl, ?_, ?_, ?_, ?_, ?_⟩
  · rintro b rfl hb
    simp [verboseTo, switchTo, hb, JVal.truthy]
  · rintro n rfl
    simp [verboseTo]
  · rintro s rfl
    simp [verboseTo, switchTo, off_iff]
  · intro h
    cases arg with
    | int n => exact absurd rfl (h n)
    | _ => rfl
  · intro sw
    cases arg <;> cases sw <;> rfl

example : OffSpelling s!!" \tNoT " ∧ ¬ OffSpelling s!!"on" ∧ OffSpelling s!!"" ∧
    Switch.read .cache shippedParams = .bool true := by
  refine ⟨⟨s!!" \t", s!!"NoT", s!!" ", by decide, by decide, by decide, by decide⟩, ?_,
    ⟨[], [], [], by decide, by decide, by decide, by decide⟩, by decide⟩
  rw [← off_iff]
  decide

/-! ### C48 -/

/-- `f` is a file directly inside the folder `p`: the path of the folder, a slash, the name. -/
def Inside (p name f : Str) : Prop := f = p ++ '/' :: name ∨ (p.getLast? = some '/' ∧ f = p ++ name)

/-- C48, what holds: with no argument files go to the folder of the package; with the path of a folder that does not
exist nothing changes; with the root folder "/" they go to the root. -/
theorem C48_folder_partial (m : Machine) (p : Proc) (k : IniDisk) (name : Str) :
    (∀ q k', (ParamCall.setUserFolder none).run m p k = .ok (q, k') → q.set.folder = m.home) ∧
    (∀ d, m.isdir d = false → (ParamCall.setUserFolder (some d)).run m p k = .ok (p, k)) ∧
    (∀ d q k', m.isdir d = true → (ParamCall.setUserFolder (some d)).run m p k = .ok (q, k') →
      (Inside d name (q.set.folder ++ name) ↔ d = ['/'])) := by
  refine ⟨?_, ?_, ?_⟩
  · intro q k' h; cases h; rfl
  · intro d hd
    simp [ParamCall.run, hd]
  · intro d q k' hd h
    simp only [ParamCall.run, hd, if_true, Except.ok.injEq, Prod.mk.injEq] at h
    obtain ⟨rfl, rfl⟩ := h
    show Inside d name (folderOf d ++ name) ↔ _
    unfold folderOf Inside
    split
    · next hd' =>
      constructor
      · rintro (h | h)
        · have := congrArg List.length h
          simp at this
        · exact absurd h.1 hd'.1
      · rintro rfl
        exact absurd rfl hd'.1
    · next hd' =>
      have hne : d ≠ [] := by rintro rfl; simp at hd'
      constructor
      · rintro (h | h)
        · have := congrArg List.length h
          simp at this
          exact absurd this hne
        · have hl := congrArg List.length h.2
          simp only [List.length_append, List.length_cons, List.length_nil] at hl
          obtain ⟨c, rfl⟩ := List.length_eq_one_iff.1 (show d.length = 1 by omega)
          have := h.1
          simp at this
          rw [this]
      · rintro rfl
        exact Or.inr ⟨rfl, rfl⟩

/-- C48 fails for every existing folder but the root: the cache files are not written inside it. Without a final slash
the file is called `<folder><name>` beside it, with one it goes to the root of the file system. -/
theorem C48_fails (m : Machine) (p : Proc) (k : IniDisk) (d name : Str) (hd : m.isdir d = true) (hr : d ≠ ['/']) :
    ∃ q, (ParamCall.setUserFolder (some d)).run m p k = .ok (q, k) ∧ ¬ Inside d name (q.set.folder ++ name) ∧
      (q.set.folder ++ name = d ++ name ∨ q.set.folder ++ name = '/' :: name) := by
  refine ⟨{ p with set := { p.set with folder := folderOf d } }, by simp [ParamCall.run, hd], ?_, ?_⟩
  · intro h
    exact hr (((C48_folder_partial m p k name).2.2 d _ _ hd (by simp [ParamCall.run, hd]; rfl)).1 h)
  · show folderOf d ++ name = _ ∨ folderOf d ++ name = _
    unfold folderOf
    split
    · exact Or.inl rfl
    · exact Or.inr rfl

example : demoMachine.isdir s!!"/data" = true ∧
    ((ParamCall.setUserFolder (some s!!"/data")).run demoMachine { set := shippedParams } ⟨.absent, .absent⟩).toOption.map
      (fun r => r.1.set.folder ++ s!!"units_network.cache") = some s!!"/dataunits_network.cache" := by
  decide +kernel

end Unyts

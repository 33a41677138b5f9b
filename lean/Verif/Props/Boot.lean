import Verif.Model.Boot

/-
C46, C57, C58: starting the library with missing, damaged or half-written files; the saved search memory.
-/
namespace Unyts

variable {D N T U V : Type}

/-! ### Specification -/

/-- What a start that reads no cache gives: the network and the completed dictionary. -/
def Kit.Gives (k : Kit D N T U) (n : N) (dc : D) : Prop :=
  ∃ n1 d1, k.loadNet k.raw = .ok (n1, d1) ∧ n = k.cleanNet n1 ∧ dc = k.complete d1

/-- the file is missing or holds what is right -/
def File.Right (f : File α) (ok : α → Prop) : Prop := match f with
  | .absent => True
  | .damaged => False
  | .holds a => ok a

/-- the file is missing, damaged or holds what is right -/
def File.Sane (f : File α) (ok : α → Prop) : Prop := match f with
  | .holds a => ok a
  | _ => True

/-- Every cache file is missing or holds what the library wrote into it; any combination. -/
structure Disk.Right (k : Kit D N T U) (n : N) (dc : D) (d : Disk D N T U V) : Prop where
  net : d.net.Right fun x => x.1 = n
  dict : d.dict.Right fun x => x = dc
  temp : d.temp.Right fun x => x = k.temp
  unitless : d.unitless.Right fun x => x = k.unitless

/-- Every cache file is missing, damaged or holds what the library wrote into it; any combination. -/
structure Disk.Sane (k : Kit D N T U) (n : N) (dc : D) (d : Disk D N T U V) : Prop where
  net : d.net.Sane fun x => x.1 = n
  dict : d.dict.Sane fun x => x = dc
  temp : d.temp.Sane fun x => x = k.temp
  unitless : d.unitless.Sane fun x => x = k.unitless

theorem File.Right.sane {f : File α} {ok : α → Prop} (h : f.Right ok) : f.Sane ok := by
  cases f with
  | absent => trivial
  | damaged => exact h.elim
  | holds a => exact h

theorem Disk.Right.sane {k : Kit D N T U} {n : N} {dc : D} {d : Disk D N T U V} (h : d.Right k n dc) :
    d.Sane k n dc := ⟨h.net.sane, h.dict.sane, h.temp.sane, h.unitless.sane⟩

/-! ### What each stage does -/

theorem bind_ok {x : Boot σ α} {f : α → Boot σ β} {s : σ} {l : List σ} {a : α} {t : σ} (h : x s = (l, .ok a, t)) :
    (x >>= f) s = (l ++ (f a t).1, (f a t).2.1, (f a t).2.2) := by
  show Boot.bind x f s = _
  unfold Boot.bind
  rw [h]

theorem bind_error {x : Boot σ α} {f : α → Boot σ β} {s : σ} {l : List σ} {e : PyErr} {t : σ}
    (h : x s = (l, .error e, t)) : (x >>= f) s = (l, .error e, t) := by
  show Boot.bind x f s = _
  unfold Boot.bind
  rw [h]

/-- the ini file of the disk once a missing one has been written -/
def IniDisk.filled (i : IniDisk) : IniDisk :=
  match i.ini with
  | .absent => { i with ini := .holds defaultDict }
  | _ => i

theorem startParams_filled {m : Machine} {i i' : IniDisk} {p : Proc} (h : startParams m i = .ok (p, i')) :
    startParams m i.filled = .ok (p, i') ∧ i' = i.filled := by
  obtain ⟨f, b⟩ := i
  cases f with
  | absent => cases h; exact ⟨rfl, rfl⟩
  | damaged => cases h
  | holds d =>
    refine ⟨h, ?_⟩
    unfold startParams loadParams at h
    simp only [readFile] at h
    change ((if (loadMain m d).showVersion.truthy && b.present then _ else _) >>= _) = _ at h
    split at h
    · cases b with
      | absent => cases h
      | damaged => cases h
      | holds b => cases h; rfl
    · cases h; rfl

theorem startParams_filled_error {m : Machine} {i : IniDisk} {e : PyErr} (h : startParams m i = .error e) :
    startParams m i.filled = .error e := by
  obtain ⟨f, b⟩ := i
  cases f with
  | absent => cases h
  | damaged => exact h
  | holds d => exact h

theorem bootParams_ok {m : Machine} {d : Disk D N T U V} {p : Proc} {i' : IniDisk}
    (h : startParams m d.ini = .ok (p, i')) :
    bootParams m d = (match d.ini.ini with
      | .absent => [{ d with ini := { d.ini with ini := .damaged } }, { d with ini := d.ini.filled }]
      | _ => [], .ok p, { d with ini := d.ini.filled }) := by
  have hf := (startParams_filled h).1
  obtain ⟨⟨f, b⟩, dn, dd, dt, du, ds⟩ := d
  cases f with
  | absent =>
    change startParams m ⟨.holds defaultDict, b⟩ = _ at hf
    show (_, (startParams m ⟨.holds defaultDict, b⟩).map Prod.fst, _) = _
    rw [hf]
    rfl
  | damaged => cases h
  | holds x =>
    change startParams m ⟨.holds x, b⟩ = _ at hf
    show (_, (startParams m ⟨.holds x, b⟩).map Prod.fst, _) = _
    rw [hf]
    rfl

/-- the disk after `_load_dictionary` -/
def Disk.fixed (k : Kit D N T U) (p : Proc) (d : Disk D N T U V) : Disk D N T U V :=
  if p.set.cache.truthy then { d with temp := .holds k.temp, unitless := .holds k.unitless } else d

def Disk.fixedLog (k : Kit D N T U) (p : Proc) (d : Disk D N T U V) : List (Disk D N T U V) :=
  if p.set.cache.truthy then
    [{ d with temp := .damaged }, { d with temp := .holds k.temp },
      { d with temp := .holds k.temp, unitless := .damaged },
      { d with temp := .holds k.temp, unitless := .holds k.unitless }]
  else []

theorem loadDictionary_run (k : Kit D N T U) (p : Proc) (d : Disk D N T U V) :
    loadDictionary k p d = (d.fixedLog k p, .ok (k.raw, k.temp, k.unitless), d.fixed k p) := by
  unfold loadDictionary Disk.fixed Disk.fixedLog
  cases h : p.set.cache.truthy <;> rfl

/-- the disk after `save_params` -/
def Disk.saved (m : Machine) (s : Settings) (d : Disk D N T U V) : Disk D N T U V :=
  { d with ini := { ini := .holds (s.toDict m), backup := .holds (s.toDict m) } }

def Disk.savedLog (m : Machine) (s : Settings) (d : Disk D N T U V) : List (Disk D N T U V) :=
  [{ d with ini := { d.ini with ini := .damaged } }, { d with ini := { d.ini with ini := .holds (s.toDict m) } },
    { d with ini := { ini := .holds (s.toDict m), backup := .damaged } },
    { d with ini := { ini := .holds (s.toDict m), backup := .holds (s.toDict m) } }]

theorem bootSave_run (m : Machine) (s : Settings) (d : Disk D N T U V) :
    bootSave m s d = (d.savedLog m s, .ok (), d.saved m s) := rfl

/-- the disk after the network and dictionary caches were written (with cloudpickle) -/
def Disk.cached (p : Proc) (n : N) (mem : Memo V) (dic : D) (d : Disk D N T U V) : Disk D N T U V :=
  if p.set.cache.truthy then { d with net := .holds (n, mem), dict := .holds dic } else d

def Disk.cachedLog (p : Proc) (n : N) (mem : Memo V) (dic : D) (d : Disk D N T U V) : List (Disk D N T U V) :=
  if p.set.cache.truthy then
    [{ d with net := .damaged }, { d with net := .holds (n, mem) },
      { d with net := .holds (n, mem), dict := .damaged }, { d with net := .holds (n, mem), dict := .holds dic }]
  else []

theorem writeCaches_run {k : Kit D N T U} (hk : k.cloudpickle = true) (p : Proc) (n : N) (mem : Memo V) (dic : D)
    (d : Disk D N T U V) : writeCaches k p n mem dic d = (d.cachedLog p n mem dic, .ok (), d.cached p n mem dic) := by
  unfold writeCaches Disk.cached Disk.cachedLog
  rw [hk]
  cases h : p.set.cache.truthy <;> rfl

/-- the process once `reload_` has been set to `b` -/
def Proc.reloaded (p : Proc) (b : Bool) : Proc := { p with set := { p.set with reload := .bool b } }

theorem bootDict_cached {k : Kit D N T U} {p : Proc} {d : Disk D N T U V} {a : D} {b : T} {c : U}
    (hr : p.set.reload.truthy = false) (hn : d.net.present = true) (h1 : d.dict = .holds a) (h2 : d.temp = .holds b)
    (h3 : d.unitless = .holds c) : bootDict k p d = ([], .ok (p, a, b, c), d) := by
  have hc : (!p.set.reload.truthy && d.dict.present && d.net.present && d.temp.present && d.unitless.present) = true := by
    rw [hr, hn, h1, h2, h3]; rfl
  unfold bootDict
  rw [bind_ok (show Boot.look _ = ([], .ok _, _) from rfl)]
  rw [hc, h1, h2, h3]
  rfl

theorem bootDict_damaged {k : Kit D N T U} {p : Proc} {d : Disk D N T U V}
    (hr : p.set.reload.truthy = false) (hn : d.net.present = true) (h1 : d.dict.present = true)
    (h2 : d.temp.present = true) (h3 : d.unitless.present = true)
    (hd : ¬ ∃ a b c, d.dict = .holds a ∧ d.temp = .holds b ∧ d.unitless = .holds c) :
    bootDict k p d = (d.fixedLog k p, .ok (p.reloaded true, k.raw, k.temp, k.unitless), d.fixed k p) := by
  obtain ⟨i, dn, dd, dt, du, ds⟩ := d
  have hl := loadDictionary_run k (p.reloaded true) ⟨i, dn, dd, dt, du, ds⟩
  have key : ∀ x : Boot (Disk D N T U V) (Proc × D × T × U),
      x = (do let r ← loadDictionary k (p.reloaded true); pure (p.reloaded true, r)) →
      x ⟨i, dn, dd, dt, du, ds⟩ = (Disk.fixedLog k p ⟨i, dn, dd, dt, du, ds⟩,
        .ok (p.reloaded true, k.raw, k.temp, k.unitless), Disk.fixed k p ⟨i, dn, dd, dt, du, ds⟩) := by
    rintro x rfl
    rw [bind_ok hl]
    show (_ ++ [], _, _) = _
    rw [List.append_nil]
    rfl
  have hc : (!p.set.reload.truthy && dd.present && dn.present && dt.present && du.present) = true := by
    dsimp only at h1 h2 h3 hn
    rw [hr, hn, h1, h2, h3]; rfl
  unfold bootDict
  rw [bind_ok (show Boot.look _ = ([], .ok _, _) from rfl)]
  rw [hc]
  rw [← key _ rfl]
  cases dd with
  | absent => cases h1
  | damaged => rfl
  | holds a =>
    cases dt with
    | absent => cases h2
    | damaged => rfl
    | holds b =>
      cases du with
      | absent => cases h3
      | damaged => rfl
      | holds c => exact absurd ⟨a, b, c, rfl, rfl, rfl⟩ hd

theorem bootDict_build {k : Kit D N T U} {p : Proc} {d : Disk D N T U V}
    (h : ¬ (p.set.reload.truthy = false ∧ d.dict.present = true ∧ d.net.present = true ∧ d.temp.present = true ∧
      d.unitless.present = true)) :
    bootDict k p d = (d.fixedLog k p, .ok (p, k.raw, k.temp, k.unitless), d.fixed k p) := by
  have hl := loadDictionary_run k p d
  have hc : (!p.set.reload.truthy && d.dict.present && d.net.present && d.temp.present && d.unitless.present) = false := by
    rw [Bool.eq_false_iff]
    intro hh
    apply h
    simpa [and_assoc] using hh
  unfold bootDict
  rw [bind_ok (show Boot.look _ = ([], .ok _, _) from rfl)]
  rw [hc]
  show ([] ++ ((loadDictionary k p >>= fun r => pure (p, r)) d).1, ((loadDictionary k p >>= fun r => pure (p, r)) d).2.1,
    ((loadDictionary k p >>= fun r => pure (p, r)) d).2.2) = _
  rw [bind_ok hl]
  show (_ ++ [], _, _) = _
  rw [List.append_nil]
  rfl

/-- the test of database.py:786-790, with cloudpickle -/
def FromCache (p : Proc) (d : Disk D N T U V) : Prop :=
  p.set.reload.truthy = false ∧ d.net.present = true ∧ d.dict.present = true ∧ d.temp.present = true ∧
    d.unitless.present = true

instance (p : Proc) (d : Disk D N T U V) : Decidable (FromCache p d) := by unfold FromCache; infer_instance

theorem fromCache_test {k : Kit D N T U} (hk : k.cloudpickle = true) (p : Proc) (d : Disk D N T U V) :
    (!p.set.reload.truthy && d.net.present && (!k.cloudpickle || d.dict.present) && d.temp.present
      && d.unitless.present) = decide (FromCache p d) := by
  rw [hk, Bool.eq_iff_iff, decide_eq_true_iff]
  unfold FromCache
  simp [and_assoc]

theorem bootNet_cached {k : Kit D N T U} (hk : k.cloudpickle = true) {m : Machine} {p : Proc} {on : Bool} {dic : D}
    {d : Disk D N T U V} {n : N} {mem : Memo V} (hc : FromCache p d) (hn : d.net = .holds (n, mem)) :
    bootNet k m p on dic d = (d.savedLog m (p.reloaded false).set, .ok (p.reloaded false, n, mem, dic),
      d.saved m (p.reloaded false).set) := by
  unfold bootNet
  rw [bind_ok (show Boot.look d = ([], .ok d, d) from rfl)]
  rw [fromCache_test hk, decide_eq_true hc]
  obtain ⟨i, dn, dd, dt, du, ds⟩ := d
  dsimp only at hn
  subst hn
  rw [hk]
  rfl

theorem bootNet_stuck {k : Kit D N T U} (hk : k.cloudpickle = true) {m : Machine} {p : Proc} {on : Bool} {dic : D}
    {d : Disk D N T U V} (hc : FromCache p d) (hn : d.net = .damaged) :
    ∃ e, bootNet k m p on dic d = (d.fixedLog k p, .error e, d.fixed k p) := by
  unfold bootNet
  rw [bind_ok (show Boot.look d = ([], .ok d, d) from rfl)]
  rw [fromCache_test hk, decide_eq_true hc]
  have hl := loadDictionary_run k p d
  obtain ⟨i, dn, dd, dt, du, ds⟩ := d
  dsimp only at hn
  subst hn
  dsimp only [if_true, List.nil_append]
  rw [if_pos rfl]
  rw [bind_ok hl]
  cases h : k.loadNet dic with
  | error e =>
    refine ⟨e, ?_⟩
    show (_ ++ [], _, _) = _
    rw [List.append_nil]
    rfl
  | ok r =>
    refine ⟨.nameError, ?_⟩
    show (_ ++ ([] ++ []), _, _) = _
    rw [List.append_nil, List.append_nil]
    rfl

theorem bootNet_build {k : Kit D N T U} (hk : k.cloudpickle = true) {m : Machine} {p : Proc} {on : Bool} {dic d1 : D}
    {d : Disk D N T U V} {n1 : N} (hc : ¬ FromCache p d) (hn : k.loadNet dic = .ok (n1, d1)) :
    bootNet k m p on dic d =
      (d.savedLog m (p.reloaded false).set ++
        (d.saved m (p.reloaded false).set).cachedLog p (k.cleanNet n1) (newMemory k p on d) (k.complete d1),
       .ok (p.reloaded false, k.cleanNet n1, newMemory k p on d, k.complete d1),
       (d.saved m (p.reloaded false).set).cached p (k.cleanNet n1) (newMemory k p on d) (k.complete d1)) := by
  unfold bootNet
  rw [bind_ok (show Boot.look d = ([], .ok d, d) from rfl)]
  rw [fromCache_test hk, decide_eq_false hc]
  dsimp only [List.nil_append]
  rw [if_neg (by decide)]
  rw [bind_ok (show Boot.lift (k.loadNet dic) d = ([], .ok (n1, d1), d) by unfold Boot.lift; rw [hn])]
  dsimp only [List.nil_append]
  rw [bind_ok (bootSave_run m _ d), bind_ok (writeCaches_run hk _ _ _ _ _)]
  show (_ ++ (_ ++ []), _, _) = _
  rw [List.append_nil]
  rfl

theorem bootBanner_run (m : Machine) (p : Proc) (d : Disk D N T U V) :
    bootBanner m p d = if p.set.showVersion.truthy then
      (d.savedLog m { p.set with showVersion := .bool false },
        .ok { p with set := { p.set with showVersion := .bool false } },
        d.saved m { p.set with showVersion := .bool false })
    else ([], .ok p, d) := by
  unfold bootBanner
  cases h : p.set.showVersion.truthy <;> rfl

theorem boot_ok {k : Kit D N T U} {m : Machine} {d d0 d1 d2 d3 : Disk D N T U V} {l0 l1 l2 l3} {p0 p1 p2 p3 dic dic2 t u n mem}
    (h0 : bootParams m d = (l0, .ok p0, d0)) (h1 : bootDict k p0 d0 = (l1, .ok (p1, dic, t, u), d1))
    (h2 : bootNet k m p1 (!p0.set.reload.truthy) dic d1 = (l2, .ok (p2, n, mem, dic2), d2))
    (h3 : bootBanner m p2 d2 = (l3, .ok p3, d3)) :
    boot k m d = (l0 ++ (l1 ++ (l2 ++ (l3 ++ []))),
      .ok { proc := p3, dict := dic2, temp := t, unitless := u, net := n, memory := mem }, d3) := by
  unfold boot
  rw [bind_ok h0, bind_ok h1]
  dsimp only
  rw [bind_ok h2]
  dsimp only
  rw [bind_ok h3]
  rfl

theorem boot_error {k : Kit D N T U} {m : Machine} {d d0 d1 d2 : Disk D N T U V} {l0 l1 l2} {p0 p1 dic t u e}
    (h0 : bootParams m d = (l0, .ok p0, d0)) (h1 : bootDict k p0 d0 = (l1, .ok (p1, dic, t, u), d1))
    (h2 : bootNet k m p1 (!p0.set.reload.truthy) dic d1 = (l2, .error e, d2)) :
    boot k m d = (l0 ++ (l1 ++ l2), .error e, d2) := by
  unfold boot
  rw [bind_ok h0, bind_ok h1]
  dsimp only
  rw [bind_error h2]

/-- the settings read at the start say: use the caches -/
def Proc.usesCaches (p : Proc) : Prop := p.set.reload.truthy = false

/-- The combination of files from which an import raises: the network cache is damaged, the dictionary cache is there,
and either the three other caches are readable, or the cache is on and one of the two small caches is missing. -/
def Stuck (p : Proc) (d : Disk D N T U V) : Prop :=
  p.usesCaches ∧ d.net = .damaged ∧ d.dict.present = true ∧
    ((∃ a b c, d.dict = .holds a ∧ d.temp = .holds b ∧ d.unitless = .holds c) ∨
     (p.set.cache.truthy = true ∧ (d.temp.present = false ∨ d.unitless.present = false)))

/-- The combination of files after which the library is left with the dictionary that has not been completed: network
and dictionary caches are there, one of the small caches is missing, the cache is on. -/
def RawKept (p : Proc) (d : Disk D N T U V) : Prop :=
  p.usesCaches ∧ (∃ x, d.net = .holds x) ∧ d.dict.present = true ∧ p.set.cache.truthy = true ∧
    (d.temp.present = false ∨ d.unitless.present = false)

theorem Disk.Sane.fixed {k : Kit D N T U} {n : N} {dc : D} {d : Disk D N T U V} (h : d.Sane k n dc) (p : Proc) :
    (d.fixed k p).Sane k n dc ∧ ∀ x ∈ d.fixedLog k p, x.Sane k n dc := by
  obtain ⟨h1, h2, h3, h4⟩ := h
  unfold Disk.fixed Disk.fixedLog
  split
  · refine ⟨⟨h1, h2, rfl, rfl⟩, ?_⟩
    intro x hx
    simp only [List.mem_cons, List.not_mem_nil, or_false] at hx
    rcases hx with rfl | rfl | rfl | rfl
    · exact ⟨h1, h2, trivial, h4⟩
    · exact ⟨h1, h2, rfl, h4⟩
    · exact ⟨h1, h2, rfl, trivial⟩
    · exact ⟨h1, h2, rfl, rfl⟩
  · exact ⟨⟨h1, h2, h3, h4⟩, by simp⟩

theorem Disk.Right.fixed {k : Kit D N T U} {n : N} {dc : D} {d : Disk D N T U V} (h : d.Right k n dc) (p : Proc) :
    (d.fixed k p).Right k n dc := by
  obtain ⟨h1, h2, h3, h4⟩ := h
  unfold Disk.fixed
  split
  · exact ⟨h1, h2, rfl, rfl⟩
  · exact ⟨h1, h2, h3, h4⟩

theorem Disk.Sane.saved {k : Kit D N T U} {n : N} {dc : D} {d : Disk D N T U V} (h : d.Sane k n dc) (m : Machine)
    (s : Settings) : (d.saved m s).Sane k n dc ∧ ∀ x ∈ d.savedLog m s, x.Sane k n dc := by
  obtain ⟨h1, h2, h3, h4⟩ := h
  refine ⟨⟨h1, h2, h3, h4⟩, ?_⟩
  intro x hx
  simp only [Disk.savedLog, List.mem_cons, List.not_mem_nil, or_false] at hx
  rcases hx with rfl | rfl | rfl | rfl <;> exact ⟨h1, h2, h3, h4⟩

theorem Disk.Right.saved {k : Kit D N T U} {n : N} {dc : D} {d : Disk D N T U V} (h : d.Right k n dc) (m : Machine)
    (s : Settings) : (d.saved m s).Right k n dc := ⟨h.1, h.2, h.3, h.4⟩

theorem Disk.Sane.cached {k : Kit D N T U} {n : N} {dc : D} {d : Disk D N T U V} (h : d.Sane k n dc) (p : Proc)
    (mem : Memo V) : (d.cached p n mem dc).Sane k n dc ∧ ∀ x ∈ d.cachedLog p n mem dc, x.Sane k n dc := by
  obtain ⟨h1, h2, h3, h4⟩ := h
  unfold Disk.cached Disk.cachedLog
  split
  · refine ⟨⟨rfl, rfl, h3, h4⟩, ?_⟩
    intro x hx
    simp only [List.mem_cons, List.not_mem_nil, or_false] at hx
    rcases hx with rfl | rfl | rfl | rfl
    · exact ⟨trivial, h2, h3, h4⟩
    · exact ⟨rfl, h2, h3, h4⟩
    · exact ⟨rfl, trivial, h3, h4⟩
    · exact ⟨rfl, rfl, h3, h4⟩
  · exact ⟨⟨h1, h2, h3, h4⟩, by simp⟩

theorem Disk.Right.cached {k : Kit D N T U} {n : N} {dc : D} {d : Disk D N T U V} (h : d.Right k n dc) (p : Proc)
    (mem : Memo V) : (d.cached p n mem dc).Right k n dc := by
  obtain ⟨h1, h2, h3, h4⟩ := h
  unfold Disk.cached
  split
  · exact ⟨rfl, rfl, h3, h4⟩
  · exact ⟨h1, h2, h3, h4⟩

theorem banner_facts (m : Machine) (p : Proc) (d : Disk D N T U V) :
    ∃ l p' d', bootBanner m p d = (l, .ok p', d') ∧ (∀ k n dc, d.Sane (V := V) k n dc → d'.Sane k n dc ∧ ∀ x ∈ l, x.Sane k n dc) ∧
      (∀ k n dc, d.Right (V := V) k n dc → d'.Right k n dc) ∧
      ((∃ s, d.ini = saveParams m s) → ∃ s, d'.ini = saveParams m s) := by
  rw [bootBanner_run]
  split
  · exact ⟨_, _, _, rfl, fun k n dc h => h.saved m _, fun k n dc h => h.saved m _, fun _ => ⟨_, rfl⟩⟩
  · exact ⟨_, _, _, rfl, fun k n dc h => ⟨h, by simp⟩, fun k n dc h => h, fun h => h⟩

theorem cached_ini (m : Machine) (s : Settings) (d : Disk D N T U V) (p : Proc) (n : N) (mem : Memo V) (dic : D) :
    ((d.saved m s).cached p n mem dic).ini = saveParams m s := by
  unfold Disk.cached
  split <;> rfl

/-- What an import does, for every combination of files. -/
theorem boot_sane {k : Kit D N T U} (hk : k.cloudpickle = true) {n : N} {dc : D} (hg : k.Gives n dc) {m : Machine}
    {d : Disk D N T U V} (hs : d.Sane k n dc) {p : Proc} {i' : IniDisk} (h : startParams m d.ini = .ok (p, i')) :
    (Stuck p d → ∃ log e d', boot k m d = (log, .error e, d') ∧ d'.ini = d.ini.filled ∧ d'.net = .damaged ∧
      d'.dict = d.dict ∧ (d' = { d with ini := d.ini.filled } ∨ (d'.temp = .holds k.temp ∧ d'.unitless = .holds k.unitless))) ∧
    (¬ Stuck p d → ∃ log lib d', boot k m d = (log, .ok lib, d') ∧ lib.net = n ∧ lib.temp = k.temp ∧
      lib.unitless = k.unitless ∧ (RawKept p d → lib.dict = k.raw) ∧ (¬ RawKept p d → lib.dict = dc) ∧
      d'.Sane k n dc ∧ (d.Right k n dc → d'.Right k n dc) ∧ (∃ s, d'.ini = saveParams m s) ∧
      ∀ x ∈ log, x.Sane k n dc) := by
  obtain ⟨n1, d1, hg1, rfl, rfl⟩ := hg
  have h0 := bootParams_ok (D := D) (N := N) (T := T) (U := U) (V := V) h
  generalize hl0 : (match d.ini.ini with
      | .absent => [{ d with ini := { d.ini with ini := .damaged } }, { d with ini := d.ini.filled }]
      | _ => [] : List (Disk D N T U V)) = l0 at h0
  have hl0s : ∀ x ∈ l0, x.Sane k (k.cleanNet n1) (k.complete d1) := by
    rw [← hl0]
    obtain ⟨s1, s2, s3, s4⟩ := hs
    split
    · intro x hx
      simp only [List.mem_cons, List.not_mem_nil, or_false] at hx
      rcases hx with rfl | rfl <;> exact ⟨s1, s2, s3, s4⟩
    · simp
  have hs0 : Disk.Sane k (k.cleanNet n1) (k.complete d1) { d with ini := d.ini.filled } := ⟨hs.1, hs.2, hs.3, hs.4⟩
  have hr0 : d.Right k (k.cleanNet n1) (k.complete d1) →
      Disk.Right k (k.cleanNet n1) (k.complete d1) { d with ini := d.ini.filled } := fun h => ⟨h.1, h.2, h.3, h.4⟩
  generalize hd0 : ({ d with ini := d.ini.filled } : Disk D N T U V) = d0 at h0 hs0 hr0
  have en : d0.net = d.net := by rw [← hd0]
  have ed : d0.dict = d.dict := by rw [← hd0]
  have et : d0.temp = d.temp := by rw [← hd0]
  have eu : d0.unitless = d.unitless := by rw [← hd0]
  -- the branch that builds everything
  have build : ∀ (p1 : Proc) (l1 : List (Disk D N T U V)) (dk : Disk D N T U V),
      bootDict k p d0 = (l1, .ok (p1, k.raw, k.temp, k.unitless), dk) → ¬ FromCache p1 dk →
      dk.Sane k (k.cleanNet n1) (k.complete d1) → (∀ x ∈ l1, x.Sane k (k.cleanNet n1) (k.complete d1)) →
      (d.Right k (k.cleanNet n1) (k.complete d1) → dk.Right k (k.cleanNet n1) (k.complete d1)) →
      ∃ log lib d', boot k m d = (log, .ok lib, d') ∧ lib.net = k.cleanNet n1 ∧ lib.temp = k.temp ∧
        lib.unitless = k.unitless ∧ lib.dict = k.complete d1 ∧ d'.Sane k (k.cleanNet n1) (k.complete d1) ∧
        (d.Right k (k.cleanNet n1) (k.complete d1) → d'.Right k (k.cleanNet n1) (k.complete d1)) ∧
        (∃ s, d'.ini = saveParams m s) ∧ ∀ x ∈ log, x.Sane k (k.cleanNet n1) (k.complete d1) := by
    intro p1 l1 dk hb hc hsk hsl hrk
    have h2 := bootNet_build (V := V) hk (m := m) (on := !p.set.reload.truthy) hc hg1
    obtain ⟨l3, p3, d3, h3, hb1, hb2, hb3⟩ := banner_facts m (p1.reloaded false)
      ((dk.saved m (p1.reloaded false).set).cached p1 (k.cleanNet n1) (newMemory k p1 (!p.set.reload.truthy) dk)
        (k.complete d1))
    refine ⟨_, _, _, boot_ok h0 hb h2 h3, rfl, rfl, rfl, rfl, ?_, ?_, ?_, ?_⟩
    · exact (hb1 _ _ _ ((hsk.saved m _).1.cached p1 _).1).1
    · intro hr
      exact hb2 _ _ _ (((hrk hr).saved m _).cached p1 _)
    · exact hb3 ⟨_, cached_ini m _ dk p1 _ _ _⟩
    · intro x hx
      simp only [List.mem_append, List.not_mem_nil, or_false] at hx
      rcases hx with hx | hx | (hx | hx) | hx
      · exact hl0s x hx
      · exact hsl x hx
      · exact (hsk.saved m _).2 x hx
      · exact ((hsk.saved m _).1.cached p1 _).2 x hx
      · exact (hb1 _ _ _ ((hsk.saved m _).1.cached p1 _).1).2 x hx
  -- the branch that takes the network from its cache
  have cached : ∀ (dic : D) (l1 : List (Disk D N T U V)) (dk : Disk D N T U V),
      bootDict k p d0 = (l1, .ok (p, dic, k.temp, k.unitless), dk) → FromCache p dk → (∃ x, dk.net = .holds x) →
      dk.Sane k (k.cleanNet n1) (k.complete d1) → (∀ x ∈ l1, x.Sane k (k.cleanNet n1) (k.complete d1)) →
      (d.Right k (k.cleanNet n1) (k.complete d1) → dk.Right k (k.cleanNet n1) (k.complete d1)) →
      ∃ log lib d', boot k m d = (log, .ok lib, d') ∧ lib.net = k.cleanNet n1 ∧ lib.temp = k.temp ∧
        lib.unitless = k.unitless ∧ lib.dict = dic ∧ d'.Sane k (k.cleanNet n1) (k.complete d1) ∧
        (d.Right k (k.cleanNet n1) (k.complete d1) → d'.Right k (k.cleanNet n1) (k.complete d1)) ∧
        (∃ s, d'.ini = saveParams m s) ∧ ∀ x ∈ log, x.Sane k (k.cleanNet n1) (k.complete d1) := by
    rintro dic l1 dk hb hc ⟨⟨nn, mem⟩, hnn⟩ hsk hsl hrk
    have hnn' : nn = k.cleanNet n1 := by
      have := hsk.net
      rw [hnn] at this
      exact this
    subst hnn'
    have h2 := bootNet_cached hk (m := m) (on := !p.set.reload.truthy) (dic := dic) hc hnn
    obtain ⟨l3, p3, d3, h3, hb1, hb2, hb3⟩ := banner_facts m (p.reloaded false) (dk.saved m (p.reloaded false).set)
    refine ⟨_, _, _, boot_ok h0 hb h2 h3, rfl, rfl, rfl, rfl, ?_, ?_, ?_, ?_⟩
    · exact (hb1 _ _ _ (hsk.saved m _).1).1
    · intro hr
      exact hb2 _ _ _ ((hrk hr).saved m _)
    · exact hb3 ⟨_, rfl⟩
    · intro x hx
      simp only [List.mem_append, List.not_mem_nil, or_false] at hx
      rcases hx with hx | hx | hx | hx
      · exact hl0s x hx
      · exact hsl x hx
      · exact (hsk.saved m _).2 x hx
      · exact (hb1 _ _ _ (hsk.saved m _).1).2 x hx
  have ct : ∀ b, d0.temp = .holds b → b = k.temp := by
    intro b hb
    have := hs0.temp
    rw [hb] at this
    exact this
  have cu : ∀ b, d0.unitless = .holds b → b = k.unitless := by
    intro b hb
    have := hs0.unitless
    rw [hb] at this
    exact this
  have cd : ∀ b, d0.dict = .holds b → b = k.complete d1 := by
    intro b hb
    have := hs0.dict
    rw [hb] at this
    exact this
  by_cases hfc : FromCache p d0
  · have hnraw : ¬ RawKept p d := by
      rintro ⟨_, _, _, _, h5⟩
      rw [← et, ← eu] at h5
      rcases h5 with h5 | h5
      · rw [hfc.2.2.2.1] at h5; cases h5
      · rw [hfc.2.2.2.2] at h5; cases h5
    by_cases hall : ∃ a b c, d0.dict = .holds a ∧ d0.temp = .holds b ∧ d0.unitless = .holds c
    · obtain ⟨a, b, c, ha, hb, hc⟩ := hall
      have hbt := ct b hb
      have hcu := cu c hc
      have had := cd a ha
      subst hbt hcu had
      have h1 := bootDict_cached (k := k) hfc.1 hfc.2.1 ha hb hc
      cases hnet : d0.net with
      | absent => have := hfc.2.1; rw [hnet] at this; cases this
      | damaged =>
        have hst : Stuck p d := ⟨hfc.1, by rw [← en, hnet], by rw [← ed]; exact hfc.2.2.1,
          Or.inl ⟨_, _, _, by rw [← ed]; exact ha, by rw [← et]; exact hb, by rw [← eu]; exact hc⟩⟩
        refine ⟨fun _ => ?_, fun hh => absurd hst hh⟩
        obtain ⟨e, h2⟩ := bootNet_stuck hk (m := m) (on := !p.set.reload.truthy) (dic := k.complete d1) hfc hnet
        refine ⟨_, e, _, boot_error h0 h1 h2, ?_, ?_, ?_, ?_⟩
        · unfold Disk.fixed; split <;> rw [← hd0]
        · unfold Disk.fixed; split <;> exact hnet
        · unfold Disk.fixed; split <;> exact ed
        · unfold Disk.fixed
          split
          · exact Or.inr ⟨rfl, rfl⟩
          · exact Or.inl rfl
      | holds x =>
        refine ⟨fun hst => ?_, fun _ => ?_⟩
        · have := hst.2.1
          rw [← en, hnet] at this
          cases this
        · obtain ⟨log, lib, d', r1, r2, r3, r4, r5, r6, r7, r8, r9⟩ := cached _ _ _ h1 hfc ⟨x, hnet⟩ hs0 (by simp) hr0
          exact ⟨log, lib, d', r1, r2, r3, r4, fun hh => absurd hh hnraw, fun _ => r5, r6, r7, r8, r9⟩
    · have h1 := bootDict_damaged (k := k) hfc.1 hfc.2.1 hfc.2.2.1 hfc.2.2.2.1 hfc.2.2.2.2 hall
      refine ⟨fun hst => ?_, fun _ => ?_⟩
      · rcases hst.2.2.2 with ⟨a, b, c, ha, hb, hc⟩ | ⟨_, h5⟩
        · exact absurd ⟨a, b, c, by rw [ed]; exact ha, by rw [et]; exact hb, by rw [eu]; exact hc⟩ hall
        · rw [← et, ← eu] at h5
          rcases h5 with h5 | h5
          · rw [hfc.2.2.2.1] at h5; cases h5
          · rw [hfc.2.2.2.2] at h5; cases h5
      · obtain ⟨log, lib, d', r1, r2, r3, r4, r5, r6, r7, r8, r9⟩ := build _ _ _ h1 (fun hh => by
          have := hh.1; simp [Proc.reloaded, JVal.truthy] at this) (hs0.fixed p).1 (hs0.fixed p).2 (fun hr => (hr0 hr).fixed p)
        exact ⟨log, lib, d', r1, r2, r3, r4, fun hh => absurd hh hnraw, fun _ => r5, r6, r7, r8, r9⟩
  · have h1 := bootDict_build (k := k) (p := p) (d := d0) (fun hh => hfc ⟨hh.1, hh.2.2.1, hh.2.1, hh.2.2.2.1, hh.2.2.2.2⟩)
    have hnall : ¬ ∃ a b c, (d.dict = .holds a ∧ d.temp = .holds b ∧ d.unitless = .holds c) ∧ p.usesCaches ∧ d.net = .damaged := by
      rintro ⟨a, b, c, ⟨ha, hb, hc⟩, hu, hn⟩
      exact hfc ⟨hu, by rw [en, hn]; rfl, by rw [ed, ha]; rfl, by rw [et, hb]; rfl, by rw [eu, hc]; rfl⟩
    by_cases hc1 : FromCache p (d0.fixed k p)
    · have hcache : p.set.cache.truthy = true := by
        cases hcc : p.set.cache.truthy with
        | true => rfl
        | false =>
          rw [Disk.fixed, hcc] at hc1
          exact absurd hc1 hfc
      have en1 : (d0.fixed k p).net = d.net := by unfold Disk.fixed; split <;> exact en
      have ed1 : (d0.fixed k p).dict = d.dict := by unfold Disk.fixed; split <;> exact ed
      have hmiss : d.temp.present = false ∨ d.unitless.present = false := by
        cases hm1 : d.temp.present with
        | false => exact Or.inl rfl
        | true =>
          cases hm2 : d.unitless.present with
          | false => exact Or.inr rfl
          | true =>
            refine absurd ⟨hc1.1, ?_, ?_, ?_, ?_⟩ hfc
            · rw [en, ← en1]; exact hc1.2.1
            · rw [ed, ← ed1]; exact hc1.2.2.1
            · rw [et]; exact hm1
            · rw [eu]; exact hm2
      have hdp : d.dict.present = true := by rw [← ed1]; exact hc1.2.2.1
      cases hnet : d.net with
      | absent => have := hc1.2.1; rw [en1, hnet] at this; cases this
      | damaged =>
        have hst : Stuck p d := ⟨hc1.1, hnet, hdp, Or.inr ⟨hcache, hmiss⟩⟩
        refine ⟨fun _ => ?_, fun hh => absurd hst hh⟩
        obtain ⟨e, h2⟩ := bootNet_stuck hk (m := m) (on := !p.set.reload.truthy) (dic := k.raw) hc1 (en1.trans hnet)
        refine ⟨_, e, _, boot_error h0 h1 h2, ?_, ?_, ?_, ?_⟩
        · unfold Disk.fixed; rw [if_pos hcache, if_pos hcache, ← hd0]
        · unfold Disk.fixed; rw [if_pos hcache, if_pos hcache]; exact en.trans hnet
        · unfold Disk.fixed; rw [if_pos hcache, if_pos hcache]; exact ed
        · unfold Disk.fixed; rw [if_pos hcache, if_pos hcache]; exact Or.inr ⟨rfl, rfl⟩
      | holds x =>
        have hraw : RawKept p d := ⟨hc1.1, ⟨x, hnet⟩, hdp, hcache, hmiss⟩
        refine ⟨fun hst => ?_, fun _ => ?_⟩
        · have := hst.2.1
          rw [hnet] at this
          cases this
        · obtain ⟨log, lib, d', r1, r2, r3, r4, r5, r6, r7, r8, r9⟩ := cached _ _ _ h1 hc1 ⟨x, en1.trans hnet⟩ (hs0.fixed p).1
            (hs0.fixed p).2 (fun hr => (hr0 hr).fixed p)
          exact ⟨log, lib, d', r1, r2, r3, r4, fun _ => r5, fun hh => absurd hraw hh, r6, r7, r8, r9⟩
    · have hfix : p.usesCaches → d.net.present = true → d.dict.present = true → p.set.cache.truthy = true → False := by
        intro a1 a2 a3 a4
        apply hc1
        unfold Disk.fixed
        rw [if_pos a4]
        exact ⟨a1, by rw [← en] at a2; exact a2, by rw [← ed] at a3; exact a3, rfl, rfl⟩
      refine ⟨fun hst => ?_, fun _ => ?_⟩
      · obtain ⟨b1, b2, b3, b4⟩ := hst
        rcases b4 with ⟨a, b, c, b4⟩ | b4
        · exact absurd ⟨a, b, c, b4, b1, b2⟩ hnall
        · exact (hfix b1 (by rw [b2]; rfl) b3 b4.1).elim
      · obtain ⟨log, lib, d', r1, r2, r3, r4, r5, r6, r7, r8, r9⟩ := build _ _ _ h1 hc1 (hs0.fixed p).1 (hs0.fixed p).2
          (fun hr => (hr0 hr).fixed p)
        refine ⟨log, lib, d', r1, r2, r3, r4, fun hh => ?_, fun _ => r5, r6, r7, r8, r9⟩
        obtain ⟨b1, ⟨x, b2⟩, b3, b4, _⟩ := hh
        exact (hfix b1 (by rw [b2]; rfl) b3 b4).elim

/-! ### C46 -/

/-- Saved settings can always be read; the flags that decide about caches come back as they were. -/
theorem start_saved (m m' : Machine) (s : Settings) :
    ∃ p, startParams m' (saveParams m s) = .ok (p, saveParams m s) ∧ p.set.reload = s.reload ∧ p.set.cache = s.cache := by
  unfold startParams loadParams saveParams
  simp only [readFile]
  show ∃ p, ((if (loadMain m' (s.toDict m)).showVersion.truthy && true then _ else _) >>= _) = _ ∧ _
  split
  · exact ⟨_, rfl, rfl, rfl⟩
  · exact ⟨_, rfl, rfl, rfl⟩

/-- C46. Whatever subset of the cache files is missing, and whatever the settings are, the import succeeds and gives the
network that is built without any cache (the temperature ratios and the dimensionless names too), and leaves the files
in order. -/
theorem C46_network {k : Kit D N T U} (hk : k.cloudpickle = true) {n : N} {dc : D} (hg : k.Gives n dc) (m : Machine)
    (d : Disk D N T U V) (hr : d.Right k n dc) (hi : ∃ r, startParams m d.ini = .ok r) :
    ∃ log lib d', boot k m d = (log, .ok lib, d') ∧ lib.net = n ∧ lib.temp = k.temp ∧ lib.unitless = k.unitless ∧
      d'.Right k n dc ∧ ∃ r, startParams m d'.ini = .ok r := by
  obtain ⟨⟨p, i'⟩, hp⟩ := hi
  have hns : ¬ Stuck p d := by
    rintro ⟨_, h2, _⟩
    have := hr.net
    rw [h2] at this
    exact this
  obtain ⟨log, lib, d', r1, r2, r3, r4, _, _, _, r7, ⟨s, r8⟩, _⟩ := (boot_sane hk hg hr.sane hp).2 hns
  obtain ⟨q, hq, _⟩ := start_saved m m s
  exact ⟨log, lib, d', r1, r2, r3, r4, r7 hr, _, by rw [r8]; exact hq⟩

/-- What can happen to the files between two imports that were not interrupted: nothing yet; an import; the removal of
any of the cache files; a change of the settings; the search memory is saved (or its file damaged). -/
inductive CacheHistory (k : Kit D N T U) (m : Machine) : Disk D N T U V → Prop
  | fresh (i : IniDisk) (f : File (Memo V)) (h : ∃ r, startParams m i = .ok r) :
      CacheHistory k m ⟨i, .absent, .absent, .absent, .absent, f⟩
  | import {d} (h : CacheHistory k m d) : CacheHistory k m (boot k m d).2.2
  | removed {d} (h : CacheHistory k m d) (a b c e : Bool) : CacheHistory k m
      { d with net := if a then .absent else d.net, dict := if b then .absent else d.dict,
               temp := if c then .absent else d.temp, unitless := if e then .absent else d.unitless }
  | settings {d} (h : CacheHistory k m d) (s : Settings) : CacheHistory k m { d with ini := saveParams m s }
  | search {d} (h : CacheHistory k m d) (f : File (Memo V)) : CacheHistory k m { d with search := f }

/-- C46 over histories: after any sequence of imports, removals of cache files and changes of settings, the next import
succeeds and gives the same network as the first one. -/
theorem C46_history {k : Kit D N T U} (hk : k.cloudpickle = true) {n : N} {dc : D} (hg : k.Gives n dc) {m : Machine}
    {d : Disk D N T U V} (h : CacheHistory k m d) :
    ∃ log lib d', boot k m d = (log, .ok lib, d') ∧ lib.net = n := by
  have inv : d.Right k n dc ∧ ∃ r, startParams m d.ini = .ok r := by
    induction h with
    | fresh i f h => exact ⟨⟨trivial, trivial, trivial, trivial⟩, h⟩
    | «import» _ ih =>
      obtain ⟨log, lib, d', r1, _, _, _, r5, r6⟩ := C46_network hk hg m _ ih.1 ih.2
      rw [r1]
      exact ⟨r5, r6⟩
    | removed _ a b c e ih =>
      obtain ⟨⟨h1, h2, h3, h4⟩, h5⟩ := ih
      refine ⟨⟨?_, ?_, ?_, ?_⟩, h5⟩
      · cases a
        · exact h1
        · trivial
      · cases b
        · exact h2
        · trivial
      · cases c
        · exact h3
        · trivial
      · cases e
        · exact h4
        · trivial
    | settings _ s ih =>
      obtain ⟨q, hq, _⟩ := start_saved m m s
      exact ⟨⟨ih.1.1, ih.1.2, ih.1.3, ih.1.4⟩, _, hq⟩
    | search _ f ih => exact ⟨⟨ih.1.1, ih.1.2, ih.1.3, ih.1.4⟩, ih.2⟩
  obtain ⟨log, lib, d', r1, r2, _⟩ := C46_network hk hg m d inv.1 inv.2
  exact ⟨log, lib, d', r1, r2⟩

/-- The dictionary of names is also the one of a start without caches, in every case but one: the network and
dictionary caches are there, one of the two small caches is missing, the cache is on and no rebuild was asked for. -/
theorem C46_dictionary {k : Kit D N T U} (hk : k.cloudpickle = true) {n : N} {dc : D} (hg : k.Gives n dc) (m : Machine)
    (d : Disk D N T U V) (hr : d.Right k n dc) {p : Proc} {i' : IniDisk} (hi : startParams m d.ini = .ok (p, i')) :
    ∃ log lib d', boot k m d = (log, .ok lib, d') ∧ (¬ RawKept p d → lib.dict = dc) ∧ (RawKept p d → lib.dict = k.raw) := by
  have hns : ¬ Stuck p d := by
    rintro ⟨_, h2, _⟩
    have := hr.net
    rw [h2] at this
    exact this
  obtain ⟨log, lib, d', r1, _, _, _, r5, r6, _⟩ := (boot_sane hk hg hr.sane hi).2 hns
  exact ⟨log, lib, d', r1, r6, r5⟩

/-! ### A small library for the examples -/

/-- raw dictionary: the list of basic names; the network is the list of its nodes; completing adds a compound -/
def demoKit : Kit (List Str) (List Str) Nat Nat where
  raw := [s!!"m", s!!"s"]
  temp := 9
  unitless := 5
  loadNet := fun d => if s!!"m/s" ∈ d then .error .keyError else .ok (d, d)
  complete := fun d => s!!"m/s" :: d
  cleanNet := fun n => n
  cloudpickle := true

theorem demoKit_gives : demoKit.Gives [s!!"m", s!!"s"] [s!!"m/s", s!!"m", s!!"s"] := ⟨_, _, rfl, rfl, rfl⟩

def bootMachine : Machine := { home := s!!"/lib/unyts/", isdir := fun _ => false, pyLimit := 1000 }

/-- an empty disk -/
def emptyDisk : Disk (List Str) (List Str) Nat Nat Nat := ⟨⟨.absent, .absent⟩, .absent, .absent, .absent, .absent, .absent⟩

/-- the disk after the first import -/
def firstDisk : Disk (List Str) (List Str) Nat Nat Nat := (boot demoKit bootMachine emptyDisk).2.2

def fileNames (d : Disk D N T U V) : List Bool := [d.net.present, d.dict.present, d.temp.present, d.unitless.present]

/-- the dictionary an import gives -/
def dictOf (d : Disk D N T U V) (k : Kit D N T U) (m : Machine) : Option D := (boot k m d).2.1.toOption.map (·.dict)

example : CacheHistory demoKit bootMachine firstDisk ∧ fileNames firstDisk = [true, true, true, true] :=
  ⟨.import (.fresh ⟨.absent, .absent⟩ .absent ⟨_, rfl⟩), by decide +kernel⟩

/-- C46 does not extend to the dictionary: with only the small cache of dimensionless names removed, the next import
keeps the dictionary that lacks every compound name (the one after that is right again, since the missing file has been
written). -/
theorem C46_dictionary_fails :
    dictOf firstDisk demoKit bootMachine = some [s!!"m/s", s!!"m", s!!"s"] ∧
    dictOf { firstDisk with unitless := .absent } demoKit bootMachine = some [s!!"m", s!!"s"] ∧
    dictOf (boot demoKit bootMachine { firstDisk with unitless := .absent }).2.2 demoKit bootMachine =
      some [s!!"m/s", s!!"m", s!!"s"] := by decide +kernel

/-! ### C57 -/

/-- C57, exactly: with files missing or damaged in any combination and readable settings, the import fails if and only
if the combination is `Stuck`; otherwise it gives the right network. -/
theorem C57_exact {k : Kit D N T U} (hk : k.cloudpickle = true) {n : N} {dc : D} (hg : k.Gives n dc) {m : Machine}
    {d : Disk D N T U V} (hs : d.Sane k n dc) {p : Proc} {i' : IniDisk} (hi : startParams m d.ini = .ok (p, i')) :
    (Stuck p d ↔ ∃ e, (boot k m d).2.1 = .error e) ∧ (¬ Stuck p d ↔ ∃ lib, (boot k m d).2.1 = .ok lib ∧ lib.net = n) := by
  obtain ⟨h1, h2⟩ := boot_sane hk hg hs hi
  by_cases hst : Stuck p d
  · obtain ⟨log, e, d', r, _⟩ := h1 hst
    rw [r]
    exact ⟨⟨fun _ => ⟨e, rfl⟩, fun _ => hst⟩, ⟨fun hh => absurd hst hh, fun ⟨lib, hh, _⟩ => by cases hh⟩⟩
  · obtain ⟨log, lib, d', r, r2, _⟩ := h2 hst
    rw [r]
    exact ⟨⟨fun hh => absurd hh hst, fun ⟨e, hh⟩ => by cases hh⟩, ⟨fun _ => ⟨lib, rfl, r2⟩, fun _ => hst⟩⟩

/-- C57, what holds: when an import is interrupted at any point, the next import succeeds with the right network, unless
the interruption left the ini file unreadable or the files in the combination `Stuck`. -/
theorem C57_crash_partial {k : Kit D N T U} (hk : k.cloudpickle = true) {n : N} {dc : D} (hg : k.Gives n dc) {m : Machine}
    {d : Disk D N T U V} (hr : d.Right k n dc) (hi : ∃ r, startParams m d.ini = .ok r)
    (x : Disk D N T U V) (hx : x ∈ (boot k m d).1) {p : Proc} {i' : IniDisk} (hix : startParams m x.ini = .ok (p, i'))
    (hst : ¬ Stuck p x) : ∃ lib, (boot k m x).2.1 = .ok lib ∧ lib.net = n := by
  obtain ⟨⟨p0, i0⟩, hp⟩ := hi
  have hns : ¬ Stuck p0 d := by
    rintro ⟨_, h2, _⟩
    have := hr.net
    rw [h2] at this
    exact this
  obtain ⟨log, lib, d', r1, _, _, _, _, _, _, _, _, r9⟩ := (boot_sane hk hg hr.sane hp).2 hns
  rw [r1] at hx
  exact ((C57_exact hk hg (r9 x hx) hix).2.1 hst)

/-- any number of further imports -/
def bootTimes (k : Kit D N T U) (m : Machine) : Nat → Disk D N T U V → Disk D N T U V
  | 0, d => d
  | j + 1, d => bootTimes k m j (boot k m d).2.2

/-- C57 fails for good: once the network cache is damaged and the three others can be read, with settings that say to
use the caches, every later import raises. -/
theorem C57_stuck_forever {k : Kit D N T U} (hk : k.cloudpickle = true) {n : N} {dc : D} (hg : k.Gives n dc)
    {m : Machine} {d : Disk D N T U V} (hs : d.Sane k n dc) {p : Proc} {i' : IniDisk}
    (hi : startParams m d.ini = .ok (p, i')) (hu : p.set.reload.truthy = false) (hn : d.net = .damaged)
    (h1 : ∃ a, d.dict = .holds a) (h2 : ∃ b, d.temp = .holds b) (h3 : ∃ c, d.unitless = .holds c) (j : Nat) :
    ∃ e, (boot k m (bootTimes k m j d)).2.1 = .error e := by
  induction j generalizing d i' with
  | zero =>
    obtain ⟨a, h1⟩ := h1
    obtain ⟨b, h2⟩ := h2
    obtain ⟨c, h3⟩ := h3
    exact (C57_exact hk hg hs hi).1.1 ⟨hu, hn, by rw [h1]; rfl, Or.inl ⟨a, b, c, h1, h2, h3⟩⟩
  | succ j ih =>
    obtain ⟨a, h1⟩ := h1
    obtain ⟨b, h2⟩ := h2
    obtain ⟨c, h3⟩ := h3
    obtain ⟨log, e, d', r, ri, rn, rd, ro⟩ := (boot_sane hk hg hs hi).1 ⟨hu, hn, by rw [h1]; rfl, Or.inl ⟨a, b, c, h1, h2, h3⟩⟩
    have hi' : startParams m d'.ini = .ok (p, i') := by rw [ri]; exact (startParams_filled hi).1
    have hd : d'.dict = .holds a := rd.trans h1
    obtain ⟨s1, s2, s3, s4⟩ := hs
    show ∃ e, (boot k m (bootTimes k m j (boot k m d).2.2)).2.1 = .error e
    rw [r]
    rcases ro with rfl | ⟨ro1, ro2⟩
    · exact ih ⟨s1, s2, s3, s4⟩ hi' rn ⟨a, h1⟩ ⟨b, h2⟩ ⟨c, h3⟩
    · refine ih ⟨by rw [rn]; trivial, by rw [rd]; exact s2, by rw [ro1]; rfl, by rw [ro2]; rfl⟩ hi' rn ⟨a, hd⟩ ⟨_, ro1⟩ ⟨_, ro2⟩

/-- C57 fails: whenever a rebuild was asked for (`reload()`) with the cache on and a dictionary cache in place, the
import goes through a state of the files from which, if the process dies there, every later import raises. -/
theorem C57_fails {k : Kit D N T U} (hk : k.cloudpickle = true) {n : N} {dc : D} (hg : k.Gives n dc)
    (m : Machine) (d : Disk D N T U V) (hr : d.Right k n dc) {p : Proc} {i' : IniDisk}
    (hi : startParams m d.ini = .ok (p, i')) (hu : p.set.reload.truthy = true) (hc : p.set.cache.truthy = true)
    (hd : d.dict.present = true) :
    ∃ x ∈ (boot k m d).1, ∀ j, ∃ e, (boot k m (bootTimes k m j x)).2.1 = .error e := by
  obtain ⟨n1, d1, hg1, rfl, rfl⟩ := id hg
  have h0 := bootParams_ok (D := D) (N := N) (T := T) (U := U) (V := V) hi
  have h1 := bootDict_build (k := k) (p := p) (d := { d with ini := d.ini.filled }) (fun hh => by rw [hu] at hh; cases hh.1)
  have hnf : ¬ FromCache p (Disk.fixed k p { d with ini := d.ini.filled }) := fun hh => by
    have := hh.1; rw [hu] at this; cases this
  have h2 := bootNet_build (V := V) hk (m := m) (on := !p.set.reload.truthy) hnf hg1
  obtain ⟨l3, p3, d3, h3, _⟩ := banner_facts m (p.reloaded false)
    (((Disk.fixed k p { d with ini := d.ini.filled }).saved m (p.reloaded false).set).cached p (k.cleanNet n1)
      (newMemory k p (!p.set.reload.truthy) (Disk.fixed k p { d with ini := d.ini.filled })) (k.complete d1))
  have hb := boot_ok h0 h1 h2 h3
  refine ⟨{ (Disk.fixed k p { d with ini := d.ini.filled }).saved m (p.reloaded false).set with net := .damaged }, ?_, ?_⟩
  · rw [hb]
    have : ({ (Disk.fixed k p { d with ini := d.ini.filled }).saved m (p.reloaded false).set with net := .damaged } : Disk D N T U V) ∈
        ((Disk.fixed k p { d with ini := d.ini.filled }).saved m (p.reloaded false).set).cachedLog p (k.cleanNet n1)
        (newMemory k p (!p.set.reload.truthy) (Disk.fixed k p { d with ini := d.ini.filled })) (k.complete d1) := by
      unfold Disk.cachedLog
      rw [if_pos hc]
      exact List.mem_cons_self
    simp only [List.mem_append]
    exact Or.inr (Or.inr (Or.inl (Or.inr this)))
  · intro j
    obtain ⟨q, hq, hq1, _⟩ := start_saved m m (p.reloaded false).set
    have hdd : ∃ a, d.dict = .holds a := by
      have := hr.dict
      cases h : d.dict with
      | absent => rw [h] at hd; cases hd
      | damaged => rw [h] at this; exact this.elim
      | holds a => exact ⟨a, rfl⟩
    unfold Disk.fixed
    rw [if_pos hc]
    have hs : Disk.Sane k (k.cleanNet n1) (k.complete d1) (⟨saveParams m (p.reloaded false).set, .damaged, d.dict,
        .holds k.temp, .holds k.unitless, d.search⟩ : Disk D N T U V) := ⟨trivial, hr.sane.dict, rfl, rfl⟩
    exact C57_stuck_forever hk hg hs hq (by rw [hq1]; rfl) rfl hdd ⟨_, rfl⟩ ⟨_, rfl⟩ j

/-- The way out: after `delete_cache()` the import succeeds, as long as the settings can be read. -/
theorem C57_delete_cache {k : Kit D N T U} (hk : k.cloudpickle = true) {n : N} {dc : D} (hg : k.Gives n dc)
    (m : Machine) (d : Disk D N T U V) (hi : ∃ r, startParams m d.ini = .ok r) :
    ∃ lib, (boot k m (deleteCache d)).2.1 = .ok lib ∧ lib.net = n ∧ lib.dict = dc := by
  obtain ⟨⟨p, i'⟩, hp⟩ := hi
  obtain ⟨log, lib, d', r, r2, _, _, _, r6, _⟩ := (boot_sane (V := V) (d := deleteCache d) hk hg
    ⟨trivial, trivial, trivial, trivial⟩ hp).2 (by rintro ⟨_, h, _⟩; cases h)
  rw [r]
  exact ⟨lib, rfl, r2, r6 (by rintro ⟨_, ⟨x, h⟩, _⟩; cases h)⟩

example : (startParams bootMachine { firstDisk with ini := saveParams bootMachine { loadMain bootMachine defaultDict with reload := .bool true } }.ini).toOption.isSome = true ∧
    firstDisk.dict.present = true ∧ firstDisk.Right demoKit [s!!"m", s!!"s"] [s!!"m/s", s!!"m", s!!"s"] := by
  refine ⟨by decide +kernel, by decide +kernel, ?_⟩
  obtain ⟨log, lib, d', r1, _, _, _, r5, _⟩ := C46_network (V := Nat) rfl demoKit_gives bootMachine emptyDisk
    ⟨trivial, trivial, trivial, trivial⟩ ⟨_, rfl⟩
  unfold firstDisk
  rw [r1]
  exact r5

/-! ### C58 -/

/-- C58, what holds: `load()` brings back, over whatever is in memory, every entry of the last `save()`. -/
theorem C58_load_partial {k : Kit D N T U} (hk : k.cloudpickle = true) (l l' : Loaded D N T U V) (d : Disk D N T U V)
    (hd : (l.memory.map Prod.fst).Nodup) (key : Str × Str) (v : V) (h : (key, v) ∈ l.memory) :
    Py.dictGet (loadMemory k l' (saveMemory k l d)).memory key = some v := by
  have hupd : ∀ (b a : Memo V), (b.map Prod.fst).Nodup →
      (∀ v, (key, v) ∈ b → Py.dictGet (Memo.update a b) key = some v) ∧
      ((∀ v, (key, v) ∉ b) → Py.dictGet (Memo.update a b) key = Py.dictGet a key) := by
    intro b
    induction b with
    | nil => intro a _; exact ⟨fun v hv => by simp at hv, fun _ => rfl⟩
    | cons e b ih =>
      intro a hn
      simp only [List.map_cons, List.nodup_cons] at hn
      have ihb := ih (Py.dictSet a e.1 e.2) hn.2
      constructor
      · intro v hv
        rcases List.mem_cons.1 hv with rfl | hv
        · have : ∀ v', (key, v') ∉ b := fun v' hv' => hn.1 (List.mem_map.2 ⟨_, hv', rfl⟩)
          show Py.dictGet (Memo.update (Py.dictSet a key v) b) key = _
          rw [ihb.2 this, Py.dictGet_dictSet_same]
        · exact ihb.1 v hv
      · intro hv
        show Py.dictGet (Memo.update (Py.dictSet a e.1 e.2) b) key = _
        rw [ihb.2 (fun v hv' => hv v (List.mem_cons_of_mem _ hv')), Py.dictGet_dictSet_other]
        rintro rfl
        exact hv e.2 List.mem_cons_self
  unfold loadMemory saveMemory
  rw [hk]
  exact (hupd l.memory l'.memory hd).1 v h

/-- C58 fails: when the network comes from its cache, which is what a normal start does, the saved search memory is not
read; the memory is the one that was stored with the network, whatever `save()` wrote. -/
theorem C58_fails {k : Kit D N T U} (hk : k.cloudpickle = true) (m : Machine) (d : Disk D N T U V)
    {p : Proc} {i' : IniDisk} (hi : startParams m d.ini = .ok (p, i')) (hu : p.set.reload.truthy = false)
    {n : N} {mem : Memo V} (hn : d.net = .holds (n, mem)) {a : D} {b : T} {c : U} (h1 : d.dict = .holds a)
    (h2 : d.temp = .holds b) (h3 : d.unitless = .holds c) (l : Loaded D N T U V) :
    ∃ lib, (boot k m (saveMemory k l d)).2.1 = .ok lib ∧ lib.memory = mem := by
  have e : saveMemory k l d = { d with search := .holds l.memory } := by unfold saveMemory; rw [hk]; rfl
  rw [e]
  have h0 := bootParams_ok (D := D) (N := N) (T := T) (U := U) (V := V) (d := { d with search := .holds l.memory }) hi
  have hb := bootDict_cached (k := k) (d := { d with ini := d.ini.filled, search := .holds l.memory }) hu
    (by show d.net.present = true; rw [hn]; rfl) h1 h2 h3
  have hc := bootNet_cached hk (m := m) (on := !p.set.reload.truthy) (dic := a) (p := p)
    (d := { d with ini := d.ini.filled, search := .holds l.memory })
    ⟨hu, by show d.net.present = true; rw [hn]; rfl, by show d.dict.present = true; rw [h1]; rfl,
      by show d.temp.present = true; rw [h2]; rfl, by show d.unitless.present = true; rw [h3]; rfl⟩ hn
  obtain ⟨l3, p3, d3, h3, _⟩ := banner_facts m (p.reloaded false)
    (Disk.saved m (p.reloaded false).set { d with ini := d.ini.filled, search := .holds l.memory })
  rw [boot_ok h0 hb hc h3]
  exact ⟨_, rfl, rfl⟩

/-- C58: after `delete_cache()` there is nothing to bring back: `load()` leaves the memory as it is. -/
theorem C58_delete_cache (k : Kit D N T U) (l l' : Loaded D N T U V) (d : Disk D N T U V) :
    loadMemory k l' (deleteCache (saveMemory k l d)) = l' := by
  unfold loadMemory deleteCache
  rfl

/-- C58: `load(path)` looks for the default file before it reads `path`; without it nothing is loaded. -/
theorem C58_path_fails (k : Kit D N T U) (l l' : Loaded D N T U V) (d : Disk D N T U V)
    (files : List (Str × File (Memo V))) (path : Str) (h : d.search = .absent) :
    loadMemoryFrom k l' d (saveMemoryTo k l files path) path = l' := by
  unfold loadMemoryFrom
  rw [h]
  rfl

/-- the memory after the first import is empty, and stays so after a save of one entry and a new import -/
example : (let l : Loaded (List Str) (List Str) Nat Nat Nat :=
      ⟨{ set := loadMain bootMachine defaultDict }, [], 0, 0, [], [((s!!"m", s!!"s"), 7)]⟩
    ((boot demoKit bootMachine (saveMemory demoKit l firstDisk)).2.1.toOption.map (·.memory.length),
     (loadMemory demoKit l (saveMemory demoKit l firstDisk)).memory.length)) = (some 0, 1) := by decide +kernel

end Unyts

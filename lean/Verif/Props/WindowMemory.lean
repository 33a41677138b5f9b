import Verif.Model.WindowMemory
import Verif.Props.Boot
import Verif.Lemmas.Network

/-
C126: the searches made in the window are there when it is opened again.
-/
namespace Unyts

variable {D N T U V : Type}

/-! ### Specification -/

/-- what may happen to the files between closing the window and opening it again: starts of the library that end, with
or without an error, or are killed at any of the states they go through, and changes of the settings -/
inductive Between (k : Kit D N T U) (d : Disk D N T U V) : Disk D N T U V → Prop
  | same : Between k d d
  | start {e} (h : Between k d e) (m : Machine) : Between k d (boot k m e).2.2
  | killed {e} (h : Between k d e) (m : Machine) {t} (ht : t ∈ (boot k m e).1) : Between k d t
  | settings {e} (h : Between k d e) (m : Machine) (s : Settings) : Between k d { e with ini := saveParams m s }

/-- the memory knows everything the other one knew -/
def Remembers (a b : Memo V) : Prop := ∀ key v, Py.dictGet b key = some v → Py.dictGet a key = some v

/-! ### The saved memory is left alone by the starts -/

/-- every state written, and the last one, holds the saved memory of the first -/
def KeepsSearch (x : Boot (Disk D N T U V) α) : Prop :=
  ∀ d, (∀ t ∈ (x d).1, t.search = d.search) ∧ (x d).2.2.search = d.search

theorem keepsSearch_pure (a : α) : KeepsSearch (pure a : Boot (Disk D N T U V) α) :=
  fun _ => ⟨fun _ h => absurd h List.not_mem_nil, rfl⟩

theorem keepsSearch_look : KeepsSearch (Boot.look : Boot (Disk D N T U V) _) := fun _ => ⟨fun _ h => absurd h List.not_mem_nil, rfl⟩

theorem keepsSearch_lift (r : Res α) : KeepsSearch (Boot.lift r : Boot (Disk D N T U V) α) :=
  fun _ => ⟨fun _ h => absurd h List.not_mem_nil, rfl⟩

theorem keepsSearch_raise (e : PyErr) : KeepsSearch (Boot.raise e : Boot (Disk D N T U V) α) :=
  fun _ => ⟨fun _ h => absurd h List.not_mem_nil, rfl⟩

theorem keepsSearch_bind {x : Boot (Disk D N T U V) α} {f : α → Boot (Disk D N T U V) β} (hx : KeepsSearch x)
    (hf : ∀ a, KeepsSearch (f a)) : KeepsSearch (x >>= f) := by
  intro d
  obtain ⟨h1, h2⟩ := hx d
  show (∀ t ∈ (Boot.bind x f d).1, _) ∧ (Boot.bind x f d).2.2.search = _
  unfold Boot.bind
  generalize hr : x d = r at h1 h2
  obtain ⟨l, r, t⟩ := r
  cases r with
  | error e => exact ⟨h1, h2⟩
  | ok a =>
    obtain ⟨h3, h4⟩ := hf a t
    refine ⟨fun s hs => ?_, h4.trans h2⟩
    rcases List.mem_append.1 hs with hs | hs
    · exact h1 s hs
    · exact (h3 s hs).trans h2

/-- looking at the disk, then writing states with the same saved memory -/
theorem keepsSearch_look_bind {f : Disk D N T U V → Boot (Disk D N T U V) β}
    (hf : ∀ d d', d'.search = d.search → (∀ t ∈ (f d d').1, t.search = d.search) ∧ (f d d').2.2.search = d.search) :
    KeepsSearch (Boot.look >>= f) := by
  intro d
  exact hf d d rfl

theorem writes_put {e : Disk D N T U V} {f : Unit → Boot (Disk D N T U V) β} {d d' : Disk D N T U V}
    (he : e.search = d.search) (hf : ∀ d', d'.search = d.search → (∀ t ∈ (f () d').1, t.search = d.search) ∧ (f () d').2.2.search = d.search) :
    (∀ t ∈ ((Boot.put e >>= f) d').1, t.search = d.search) ∧ ((Boot.put e >>= f) d').2.2.search = d.search := by
  obtain ⟨h1, h2⟩ := hf e he
  refine ⟨fun t ht => ?_, h2⟩
  rcases List.mem_cons.1 ht with rfl | ht
  · exact he
  · exact h1 t ht

theorem writes_last {e : Disk D N T U V} {d d' : Disk D N T U V} (he : e.search = d.search) :
    (∀ t ∈ (Boot.put e d').1, t.search = d.search) ∧ (Boot.put e d').2.2.search = d.search :=
  ⟨fun t ht => by rw [List.mem_singleton.1 ht]; exact he, he⟩

theorem writes_keeps {x : Boot (Disk D N T U V) β} (hx : KeepsSearch x) {d d' : Disk D N T U V}
    (he : d'.search = d.search) : (∀ t ∈ (x d').1, t.search = d.search) ∧ (x d').2.2.search = d.search := by
  obtain ⟨h1, h2⟩ := hx d'
  exact ⟨fun t ht => (h1 t ht).trans he, h2.trans he⟩

theorem keepsSearch_bootParams (m : Machine) : KeepsSearch (bootParams m : Boot (Disk D N T U V) Proc) := by
  unfold bootParams
  refine keepsSearch_look_bind fun d d' h => ?_
  by_cases hp : d.ini.ini.present = false
  · simp only [hp, if_true]
    refine writes_put rfl fun d' _ => ?_
    exact writes_put rfl fun d' h => writes_keeps (keepsSearch_bind keepsSearch_look fun _ => keepsSearch_lift _) h
  · simp only [hp]
    exact writes_keeps (keepsSearch_bind keepsSearch_look fun _ => keepsSearch_lift _) h

theorem keepsSearch_bootSave (m : Machine) (s : Settings) : KeepsSearch (bootSave m s : Boot (Disk D N T U V) Unit) := by
  unfold bootSave
  exact keepsSearch_look_bind fun d d' _ => writes_put rfl fun d' _ => writes_put rfl fun d' _ =>
    writes_put rfl fun d' _ => writes_last rfl

theorem keepsSearch_loadDictionary (k : Kit D N T U) (p : Proc) :
    KeepsSearch (loadDictionary k p : Boot (Disk D N T U V) (D × T × U)) := by
  unfold loadDictionary
  by_cases hp : p.set.cache.truthy = true
  · simp only [hp, if_true]
    exact keepsSearch_look_bind fun d d' _ => writes_put rfl fun d' _ => writes_put rfl fun d' _ =>
      writes_put rfl fun d' _ => writes_put rfl fun d' h => writes_keeps (keepsSearch_pure _) h
  · simp only [hp]
    exact keepsSearch_pure _

theorem keepsSearch_bootDict (k : Kit D N T U) (p : Proc) :
    KeepsSearch (bootDict k p : Boot (Disk D N T U V) (Proc × D × T × U)) := by
  unfold bootDict
  refine keepsSearch_bind keepsSearch_look fun d => ?_
  split
  · split
    · exact keepsSearch_pure _
    · exact keepsSearch_bind (keepsSearch_loadDictionary k _) fun _ => keepsSearch_pure _
  · exact keepsSearch_bind (keepsSearch_loadDictionary k _) fun _ => keepsSearch_pure _

theorem keepsSearch_writeCaches (k : Kit D N T U) (p : Proc) (n : N) (mem : Memo V) (dic : D) :
    KeepsSearch (writeCaches k p n mem dic : Boot (Disk D N T U V) Unit) := by
  unfold writeCaches
  by_cases hp : p.set.cache.truthy = true
  · simp only [hp, if_true]
    have last : KeepsSearch (do
        let d ← Boot.look
        Boot.put { d with dict := .damaged }
        Boot.put { d with dict := .holds dic } : Boot (Disk D N T U V) Unit) :=
      keepsSearch_look_bind fun d d' _ => writes_put rfl fun d' _ => writes_last rfl
    by_cases hk : k.cloudpickle = true
    · simp only [hk, if_true]
      exact keepsSearch_look_bind fun d d' _ => writes_put rfl fun d' _ => writes_put rfl fun d' h => writes_keeps last h
    · simp only [hk]
      exact last
  · simp only [hp]
    exact keepsSearch_pure _

theorem keepsSearch_bootNet (k : Kit D N T U) (m : Machine) (p : Proc) (on : Bool) (dic : D) :
    KeepsSearch (bootNet k m p on dic : Boot (Disk D N T U V) _) := by
  unfold bootNet
  refine keepsSearch_bind keepsSearch_look fun d => ?_
  split
  · split
    · exact keepsSearch_bind (keepsSearch_bootSave m _) fun _ => keepsSearch_pure _
    · exact keepsSearch_bind (keepsSearch_loadDictionary k p) fun _ => keepsSearch_bind (keepsSearch_lift _) fun _ =>
        keepsSearch_raise _
  · refine keepsSearch_bind (keepsSearch_lift _) fun r => ?_
    exact keepsSearch_bind (keepsSearch_bootSave m _) fun _ => keepsSearch_bind (keepsSearch_writeCaches k _ _ _ _) fun _ =>
      keepsSearch_pure _

theorem keepsSearch_bootBanner (m : Machine) (p : Proc) :
    KeepsSearch (bootBanner m p : Boot (Disk D N T U V) Proc) := by
  unfold bootBanner
  split
  · exact keepsSearch_bind (keepsSearch_bootSave m _) fun _ => keepsSearch_pure _
  · exact keepsSearch_pure _

theorem keepsSearch_boot (k : Kit D N T U) (m : Machine) :
    KeepsSearch (boot k m : Boot (Disk D N T U V) (Loaded D N T U V)) := by
  unfold boot
  exact keepsSearch_bind (keepsSearch_bootParams m) fun _ => keepsSearch_bind (keepsSearch_bootDict k _) fun _ =>
    keepsSearch_bind (keepsSearch_bootNet k m _ _ _) fun _ => keepsSearch_bind (keepsSearch_bootBanner m _) fun _ =>
    keepsSearch_pure _

theorem between_search {k : Kit D N T U} {d e : Disk D N T U V} (h : Between k d e) : e.search = d.search := by
  induction h with
  | same => rfl
  | start _ m ih => exact ((keepsSearch_boot k m _).2).trans ih
  | killed _ m ht ih => exact ((keepsSearch_boot k m _).1 _ ht).trans ih
  | settings _ m s ih => exact ih

/-! ### The memory -/

theorem dictGet_update (key : Str × Str) : ∀ (b a : Memo V), (b.map Prod.fst).Nodup →
    Py.dictGet (Memo.update a b) key = match Py.dictGet b key with | some v => some v | none => Py.dictGet a key
  | [], a, _ => rfl
  | e :: b, a, hn => by
    simp only [List.map_cons, List.nodup_cons] at hn
    show Py.dictGet (Memo.update (Py.dictSet a e.1 e.2) b) key = _
    rw [dictGet_update key b _ hn.2]
    by_cases hk : e.1 = key
    · subst hk
      have : Py.dictGet b e.1 = none := dictGet_none.2 hn.1
      rw [this, Py.dictGet_dictSet_same]
      simp [Py.dictGet]
    · rw [Py.dictGet_dictSet_other _ _ (Ne.symm hk)]
      simp [Py.dictGet, hk]

/-- C126. After the window is closed with the cache on, whatever starts of the library follow, ended or killed at any
point, and whatever settings are saved in between: when the library is started again, not asked to reload, and the window
opened, it knows every search that was known when it was closed, and for other pairs what the start itself remembered;
no file is touched by opening it. -/
theorem C126_kept {k : Kit D N T U} (hk : k.cloudpickle = true) (l l' : Loaded D N T U V)
    (hc : l.proc.set.cache.truthy = true) (hd : (l.memory.map Prod.fst).Nodup) (d e e' : Disk D N T U V)
    (hb : Between k (closeWindow k l d).2.2 e) (m : Machine) (hm : memoryOn m e = true) (log : List (Disk D N T U V))
    (hboot : boot k m e = (log, .ok l', e')) :
    Remembers (openWindow k (memoryOn m e) l' e').1.memory l.memory ∧ (openWindow k (memoryOn m e) l' e').2 = e' ∧
    ∀ key, Py.dictGet l.memory key = none →
      Py.dictGet (openWindow k (memoryOn m e) l' e').1.memory key = Py.dictGet l'.memory key := by
  have hs := between_search (hb.start m)
  rw [hboot] at hs
  have h1 : (closeWindow k l d).2.2.search = .holds l.memory := by
    unfold closeWindow
    simp only [hc, hk, if_true]
    rfl
  rw [h1] at hs
  rw [hm]
  have h2 : (openWindow k true l' e').1.memory = l'.memory.update l.memory := by
    unfold openWindow loadMemory
    rw [if_pos rfl]
    rw [show e'.search = .holds l.memory from hs]
    simp [hk]
  refine ⟨fun key v h => ?_, rfl, fun key h => ?_⟩
  · rw [h2, dictGet_update key _ _ hd, h]
  · rw [h2, dictGet_update key _ _ hd, h]

/-- C126. Killed while it closes, the window leaves the files as they were, the saved memory damaged, or the memory
saved; in each case the next window opens, and it has lost nothing its own process found. -/
theorem C126_killed_closing (k : Kit D N T U) (l l' : Loaded D N T U V) (d t e : Disk D N T U V)
    (ht : t ∈ (closeWindow k l d).1) (hb : Between k t e) :
    (e.search = .damaged ∨ e.search = .holds l.memory) ∧
    (e.search = .damaged → (openWindow k true l' e).1 = l') := by
  have hs := between_search hb
  refine ⟨?_, fun h => ?_⟩
  · rw [hs]
    unfold closeWindow at ht
    by_cases hc : l.proc.set.cache.truthy = true
    · by_cases hk : k.cloudpickle = true
      · simp only [hc, hk, if_true] at ht
        change t ∈ [_, _] at ht
        simp only [List.mem_cons, List.not_mem_nil, or_false] at ht
        rcases ht with rfl | rfl
        · exact Or.inl rfl
        · exact Or.inr rfl
      · simp only [hc, hk, if_true] at ht
        cases ht
    · simp only [hc] at ht
      cases ht
  · unfold openWindow loadMemory
    rw [h]
    rfl

/-- C126. With the cache off closing changes no file. -/
theorem C126_cache_off (k : Kit D N T U) (l : Loaded D N T U V) (hc : l.proc.set.cache.truthy = false)
    (d : Disk D N T U V) : closeWindow k l d = ([], .ok (), d) := by
  unfold closeWindow
  simp only [hc]
  rfl

theorem bind_inv {x : Boot σ α} {f : α → Boot σ β} {s : σ} {b : β} (h : ((x >>= f) s).2.1 = .ok b) :
    ∃ a, (x s).2.1 = .ok a ∧ (f a (x s).2.2).2.1 = .ok b ∧ ((x >>= f) s).2.2 = (f a (x s).2.2).2.2 := by
  change (Boot.bind x f s).2.1 = .ok b at h
  show ∃ a, _ ∧ _ ∧ (Boot.bind x f s).2.2 = _
  unfold Boot.bind at *
  generalize hr : x s = r at h
  obtain ⟨l, r, t⟩ := r
  cases r with
  | error e => cases h
  | ok a => exact ⟨a, rfl, h, rfl⟩

/-- the settings of the process, which ask for no reload, are on the disk -/
def Settled (m : Machine) (p : Proc) (d : Disk D N T U V) : Prop :=
  p.set.reload.truthy = false ∧ d.ini = saveParams m p.set

theorem writeCaches_ini (k : Kit D N T U) (p : Proc) (n : N) (mem : Memo V) (dic : D) (d : Disk D N T U V) :
    (writeCaches k p n mem dic d).2.2.ini = d.ini := by
  unfold writeCaches
  by_cases hp : p.set.cache.truthy = true <;> by_cases hk : k.cloudpickle = true <;> simp only [hp, hk, if_true] <;> rfl

theorem bootNet_settled {k : Kit D N T U} {m : Machine} {p : Proc} {on : Bool} {dic : D} {d : Disk D N T U V}
    {r : Proc × N × Memo V × D} (h : (bootNet k m p on dic d).2.1 = .ok r) :
    Settled m r.1 (bootNet k m p on dic d).2.2 := by
  unfold bootNet at h ⊢
  obtain ⟨d0, h0, h1, e1⟩ := bind_inv h
  rw [e1]
  clear h e1
  split at h1
  · next hc =>
    simp only [hc, if_true]
    obtain ⟨x, hx⟩ : ∃ x, d0.net = x := ⟨_, rfl⟩
    obtain ⟨c, hk⟩ : ∃ c, k.cloudpickle = c := ⟨_, rfl⟩
    rcases x with _ | _ | ⟨n, mem⟩ <;> rcases c with _ | _ <;> simp only [hx, hk] at h1 ⊢
    all_goals first
      | (obtain ⟨_, _, h3, _⟩ := bind_inv h1
         obtain ⟨_, _, h5, _⟩ := bind_inv h3
         cases h5
         done)
      | (obtain ⟨_, h2, h3, e3⟩ := bind_inv h1
         refine (congrArg (Settled m r.1) e3).mpr ?_
         cases h3
         exact ⟨rfl, rfl⟩)
  · next hc =>
    simp only [hc]
    obtain ⟨a, h2, h3, e3⟩ := bind_inv h1
    refine (congrArg (Settled m r.1) e3).mpr ?_
    obtain ⟨_, h4, h5, e5⟩ := bind_inv h3
    refine (congrArg (Settled m r.1) e5).mpr ?_
    obtain ⟨_, h6, h7, e7⟩ := bind_inv h5
    refine (congrArg (Settled m r.1) e7).mpr ?_
    cases h7
    exact ⟨rfl, writeCaches_ini _ _ _ _ _ _⟩

theorem bootBanner_settled {m : Machine} {p q : Proc} {d : Disk D N T U V} (hs : Settled m p d)
    (h : (bootBanner m p d).2.1 = .ok q) : Settled m q (bootBanner m p d).2.2 := by
  rw [bootBanner_run] at h ⊢
  split at h
  · next hv =>
    rw [if_pos hv]
    cases h
    exact ⟨hs.1, rfl⟩
  · next hv =>
    rw [if_neg hv]
    cases h
    exact hs

/-- C126. After any start that ended without an error, the next one has the memory on: asking for a reload counts for
one start. -/
theorem C126_memory_on (k : Kit D N T U) (m m' : Machine) (d e : Disk D N T U V) (l : Loaded D N T U V)
    (log : List (Disk D N T U V)) (h : boot k m d = (log, .ok l, e)) : memoryOn m' e = true := by
  have h0 : (boot k m d).2.1 = .ok l := by rw [h]
  have he : (boot k m d).2.2 = e := by rw [h]
  unfold boot at h0 he
  obtain ⟨p0, _, h2, e2⟩ := bind_inv h0
  rw [e2] at he
  obtain ⟨⟨p1, dic, t, u⟩, _, h3, e3⟩ := bind_inv h2
  rw [e3] at he
  dsimp only at h3 he
  obtain ⟨⟨p2, n, mem, dic2⟩, h4, h5, e5⟩ := bind_inv h3
  rw [e5] at he
  dsimp only at h5 he
  have s1 := bootNet_settled h4
  obtain ⟨p3, h6, h7, e7⟩ := bind_inv h5
  rw [e7] at he
  have s2 := bootBanner_settled s1 h6
  change _ = e at he
  rw [show ∀ (a : Loaded D N T U V) (x : Disk D N T U V), ((pure a : Boot (Disk D N T U V) _) x).2.2 = x from fun _ _ => rfl] at he
  rw [he] at s2
  obtain ⟨q, hq, hr, _⟩ := start_saved m m' p3.set
  unfold memoryOn
  rw [s2.2, hq]
  simp [hr, s2.1]

/-- C126, when a reload was asked for: opening the window removes every cache file, those too that the start has just
written, and the saved searches. -/
theorem C126_reload (k : Kit D N T U) (m : Machine) (d e : Disk D N T U V) (l : Loaded D N T U V)
    (h : memoryOn m d = false) :
    openWindow k (memoryOn m d) l e =
      (l, { e with net := .absent, dict := .absent, temp := .absent, unitless := .absent, search := .absent }) := by
  rw [h]
  rfl

/-- C126. What one process exports another imports, whatever it has in memory, as long as the default file is there. -/
theorem C126_import {k : Kit D N T U} (hk : k.cloudpickle = true) (l l' : Loaded D N T U V) (d : Disk D N T U V)
    (files : List (Str × File (Memo V))) (path : Str) (hp : path ≠ []) (hd : (l.memory.map Prod.fst).Nodup)
    (hs : d.search ≠ .absent) :
    Remembers (importMemory k l' (some path) d (exportMemory k l (some path) files)).memory l.memory := by
  have h1 : exportMemory k l (some path) files = Py.dictSet files path (.holds l.memory) := by
    unfold exportMemory saveMemoryTo
    simp [hp, hk]
  have h2 : d.search.present = true := by
    cases hx : d.search with
    | absent => exact absurd hx hs
    | damaged => rfl
    | holds a => rfl
  intro key v h
  have h3 : importMemory k l' (some path) d (exportMemory k l (some path) files) =
      { l' with memory := l'.memory.update l.memory } := by
    rw [h1]
    unfold importMemory
    simp only [Py.dictGet_dictSet_same]
    unfold loadMemoryFrom
    simp only [h2, Py.dictGet_dictSet_same, hk, if_true]
    rfl
  rw [h3]
  show Py.dictGet (l'.memory.update l.memory) key = some v
  rw [dictGet_update key _ _ hd, h]

/-- C126 fails for the import when no memory was ever saved in the folder: nothing is read from the file chosen. -/
theorem C126_import_fails (k : Kit D N T U) (l' : Loaded D N T U V) (d : Disk D N T U V)
    (files : List (Str × File (Memo V))) (answer : Option Str) (hs : d.search = .absent) :
    importMemory k l' answer d files = l' := by
  unfold importMemory loadMemoryFrom
  rw [hs]
  cases answer with
  | none => rfl
  | some path =>
    dsimp only
    cases Py.dictGet files path with
    | none => rfl
    | some f => dsimp only; split <;> rfl

/-- a process of the small library with one search in memory, and one without -/
def demoLoaded (mem : Memo Nat) : Loaded (List Str) (List Str) Nat Nat Nat :=
  ⟨{ set := loadMain bootMachine defaultDict }, [], 0, 0, [], mem⟩

/-- C126 fails when a reload was asked for before the next start: the search saved at the closing is gone, and so are all
the caches that the start has just written. It fails when the closing is interrupted: a search that had been saved before
is lost. -/
theorem C126_fails :
    (let d := (closeWindow demoKit (demoLoaded [((s!!"m", s!!"s"), 7)]) firstDisk).2.2
     let e := { d with ini := saveParams bootMachine { (loadMain bootMachine defaultDict) with reload := .bool true } }
     (memoryOn bootMachine e,
      (openWindow demoKit (memoryOn bootMachine e) (demoLoaded []) (boot demoKit bootMachine e).2.2).1.memory.length,
      fileNames (boot demoKit bootMachine e).2.2,
      fileNames (openWindow demoKit (memoryOn bootMachine e) (demoLoaded []) (boot demoKit bootMachine e).2.2).2)) =
      (false, 0, [true, true, true, true], [false, false, false, false]) ∧
    (let d := (closeWindow demoKit (demoLoaded [((s!!"m", s!!"s"), 7)]) firstDisk).2.2
     ((closeWindow demoKit (demoLoaded [((s!!"m", s!!"s"), 7)]) d).1.map fun t =>
        (openWindow demoKit (memoryOn bootMachine t) (demoLoaded []) t).1.memory.length)) = [0, 1] := by
  decide +kernel

/-- the hypotheses of `C126_kept` are met: the search is known when the window is opened after a start that was killed
and one that ended -/
example :
    (let d := (closeWindow demoKit (demoLoaded [((s!!"m", s!!"s"), 7)]) firstDisk).2.2
     let e := ((boot demoKit bootMachine { d with unitless := .absent }).1[2]?).getD d
     (memoryOn bootMachine e, (openWindow demoKit (memoryOn bootMachine e) ((boot demoKit bootMachine e).2.1.toOption.getD (demoLoaded []))
        (boot demoKit bootMachine e).2.2).1.memory)) = (true, [((s!!"m", s!!"s"), 7)]) ∧
    (demoLoaded []).proc.set.cache.truthy = true := by decide +kernel

end Unyts

import Verif.Model.Hybrid

/- C06: hybrid_BFS is correct under every schedule. -/
namespace Unyts.Hybrid

/-- what a slot can hold -/
private def SlotOk (o : Res (Option P)) (done : Bool) (s : Slot P) : Prop :=
  s = bif done then written o else .empty

/-- what the caller knows at each point of the loop -/
private def PcOk (bo lo : Res (Option P)) (bd ld : Bool) : PC P → Prop
  | .lean2 => ld = true ∧ ∃ r, lo = .ok r
  | .lean3 => ld = true ∧ ∃ p, lo = .ok (some p)
  | .bfs2 => bd = true ∧ ∃ r, bo = .ok r
  | .bfs3 => bd = true ∧ ∃ p, bo = .ok (some p)
  | .both2 => bo = .ok none
  | .ret r => (r = .val none ∧ bo = .ok none ∧ lo = .ok none) ∨
      ∃ p, r = .val (some p) ∧ (bo = .ok (some p) ∨ lo = .ok (some p))
  | _ => True

private structure Inv (bo lo : Res (Option P)) (s : State P) : Prop where
  b : SlotOk bo s.bfsDone s.results.bfs
  l : SlotOk lo s.leanDone s.results.lean
  pc : PcOk bo lo s.bfsDone s.leanDone s.pc

private theorem Inv.ret {bo lo : Res (Option P)} {s : State P} (h : Inv bo lo s) (r : Slot P)
    (hr : s.pc = .ret r) : (r = .val none ∧ bo = .ok none ∧ lo = .ok none) ∨
      ∃ p, r = .val (some p) ∧ (bo = .ok (some p) ∨ lo = .ok (some p)) := by
  have := h.pc
  rw [hr] at this
  exact this

private theorem inv_init (bo lo : Res (Option P)) : Inv bo lo init := by
  constructor <;> simp [init, SlotOk, PcOk]

private theorem PcOk.mono {bo lo : Res (Option P)} {bd ld bd' ld' : Bool} (hb : bd = true → bd' = true)
    (hl : ld = true → ld' = true) {pc : PC P} (h : PcOk bo lo bd ld pc) : PcOk bo lo bd' ld' pc := by
  cases pc <;> simp only [PcOk] at h ⊢ <;> first | exact h | exact ⟨hb h.1, h.2⟩ | exact ⟨hl h.1, h.2⟩

private theorem slot_val {o : Res (Option P)} {d : Bool} {s : Slot P} (h : SlotOk o d s) {r : Option P}
    (hs : s = .val r) : d = true ∧ o = .ok r := by
  subst hs
  cases d
  · simp [SlotOk] at h
  · rcases o with e | r' <;> simp [SlotOk, written] at h
    exact ⟨rfl, by rw [h]⟩

private theorem inv_step {bo lo : Res (Option P)} {s : State P} (h : Inv bo lo s) (a : Actor) :
    Inv bo lo (step bo lo s a) := by
  obtain ⟨⟨sb, sl⟩, bd, ld, pc⟩ := s
  obtain ⟨hb, hl, hpc⟩ := h
  cases a with
  | bfs =>
    simp only [step]
    split
    · exact ⟨hb, hl, hpc⟩
    · exact ⟨by simp [SlotOk], hl, hpc.mono (fun _ => rfl) id⟩
  | lean =>
    simp only [step]
    split
    · exact ⟨hb, hl, hpc⟩
    · exact ⟨hb, by simp [SlotOk], hpc.mono id (fun _ => rfl)⟩
  | caller =>
    refine ⟨hb, hl, ?_⟩
    simp only [step] at *
    cases pc with
    | lean1 =>
      rcases sl with _ | r
      · trivial
      · exact ⟨(slot_val hl rfl).1, r, (slot_val hl rfl).2⟩
    | lean2 =>
      obtain ⟨hd, r, hr⟩ := hpc
      rcases sl with _ | _ | p
      · subst hd hr; simp [SlotOk, written] at hl
      · trivial
      · exact ⟨(slot_val hl rfl).1, p, (slot_val hl rfl).2⟩
    | lean3 =>
      obtain ⟨hd, p, hr⟩ := hpc
      subst hd hr
      simp only [SlotOk, written, cond_true] at hl
      exact Or.inr ⟨p, hl, Or.inr rfl⟩
    | bfs1 =>
      rcases sb with _ | r
      · trivial
      · exact ⟨(slot_val hb rfl).1, r, (slot_val hb rfl).2⟩
    | bfs2 =>
      obtain ⟨hd, r, hr⟩ := hpc
      rcases sb with _ | _ | p
      · subst hd hr; simp [SlotOk, written] at hb
      · trivial
      · exact ⟨(slot_val hb rfl).1, p, (slot_val hb rfl).2⟩
    | bfs3 =>
      obtain ⟨hd, p, hr⟩ := hpc
      subst hd hr
      simp only [SlotOk, written, cond_true] at hb
      exact Or.inr ⟨p, hb, Or.inl rfl⟩
    | both1 =>
      rcases sb with _ | _ | p
      · trivial
      · exact (slot_val hb rfl).2
      · trivial
    | both2 =>
      rcases sl with _ | _ | p
      · trivial
      · exact Or.inl ⟨rfl, hpc, (slot_val hl rfl).2⟩
      · trivial
    | ret r => exact hpc

private theorem inv_run (bo lo : Res (Option P)) (sched : List Actor) : Inv bo lo (run bo lo sched) := by
  unfold run
  generalize hs : (init : State P) = s0
  have h0 : Inv bo lo s0 := hs ▸ inv_init bo lo
  clear hs
  induction sched generalizing s0 with
  | nil => exact h0
  | cons a as ih => exact ih _ (inv_step h0 a)

/-- C06. Whatever the interleaving, a returned path is one of the two paths the searches computed. -/
theorem C06_returns_a_found_path (bo lo : Res (Option P)) (sched : List Actor) (p : P)
    (h : (run bo lo sched).pc = .ret (.val (some p))) : bo = .ok (some p) ∨ lo = .ok (some p) := by
  rcases (inv_run bo lo sched).ret _ h with ⟨h, _⟩ | ⟨q, hq, h⟩
  · cases h
  · cases hq; exact h

/-- C06. Whatever the interleaving, `None` is returned only if both searches found nothing. -/
theorem C06_none_means_both_failed (bo lo : Res (Option P)) (sched : List Actor)
    (h : (run bo lo sched).pc = .ret (.val none)) : bo = .ok none ∧ lo = .ok none := by
  rcases (inv_run bo lo sched).ret _ h with ⟨_, h⟩ | ⟨q, hq, _⟩
  · exact h
  · cases hq

/-- C06. The caller never returns the initial empty string. -/
theorem C06_never_returns_empty (bo lo : Res (Option P)) (sched : List Actor) :
    (run bo lo sched).pc ≠ .ret .empty := by
  intro h
  rcases (inv_run bo lo sched).ret _ h with ⟨h, _⟩ | ⟨q, hq, _⟩
  · cases h
  · cases hq

private theorem run_append (bo lo : Res (Option P)) (s t : List Actor) :
    run bo lo (s ++ t) = t.foldl (step bo lo) (run bo lo s) := by
  simp [run, List.foldl_append]

/-- C06. Once both searches have finished normally, the next nine steps of the caller end the call,
whatever happened before. -/
theorem C06_terminates (b l : Option P) (sched : List Actor)
    (hb : (run (.ok b) (.ok l) sched).bfsDone = true) (hl : (run (.ok b) (.ok l) sched).leanDone = true) :
    ∃ r, (run (.ok b) (.ok l) (sched ++ List.replicate 9 .caller)).pc = .ret r := by
  rw [run_append]
  have hi := inv_run (.ok b) (.ok l) sched
  generalize run (.ok b) (.ok l) sched = s at *
  obtain ⟨⟨sb, sl⟩, bd, ld, pc⟩ := s
  obtain ⟨h1, h2, -⟩ := hi
  simp only [SlotOk, written] at *
  subst hb hl
  simp only [cond_true] at h1 h2
  subst h1 h2
  rcases b with _ | b <;> rcases l with _ | l <;> cases pc <;>
    simp [List.replicate, step, callerStep]

/-- C06. Returned means returned: further steps of anybody do not change the answer. -/
theorem C06_stable (bo lo : Res (Option P)) (s t : List Actor) (r : Slot P)
    (h : (run bo lo s).pc = .ret r) : (run bo lo (s ++ t)).pc = .ret r := by
  rw [run_append]
  generalize run bo lo s = st at *
  induction t generalizing st with
  | nil => exact h
  | cons a as ih =>
    apply ih
    cases a <;> simp only [step]
    · split <;> exact h
    · split <;> exact h
    · rw [h]; rfl

/-- C06, what fails: if one search raises and the other finds nothing, the call never returns. -/
theorem C06_hangs_if_a_worker_raises (e : PyErr) (sched : List Actor) (r : Slot P) :
    (run (.ok (none : Option P)) (.error e) sched).pc ≠ .ret r ∧
    (run (.error e) (.ok (none : Option P)) sched).pc ≠ .ret r := by
  refine ⟨?_, ?_⟩ <;> intro h <;> rcases (inv_run _ _ sched).ret _ h with ⟨_, h1, h2⟩ | ⟨q, hq, h | h⟩ <;>
    simp_all

/-- C06, serial mode: a returned path is one of the two, `None` means that both found nothing, and with
searches that do not raise the caller returns within nine steps. -/
theorem C06_serial (bo lo : Res (Option P)) (n : Nat) (r : Slot P) (h : serialRun bo lo n = .ret r) :
    (r = .val none ∧ bo = .ok none ∧ lo = .ok none) ∨
    ∃ p, r = .val (some p) ∧ (bo = .ok (some p) ∨ lo = .ok (some p)) := by
  have key : ∀ n, (serialRun bo lo n = .lean2 → ∃ r, lo = .ok r) ∧
      (serialRun bo lo n = .lean3 → ∃ p, lo = .ok (some p)) ∧
      (serialRun bo lo n = .bfs1 → ¬ ∃ p, lo = .ok (some p)) ∧
      (serialRun bo lo n = .bfs2 → ∃ r, bo = .ok r ∧ ¬ ∃ p, lo = .ok (some p)) ∧
      (serialRun bo lo n = .bfs3 → ∃ p, bo = .ok (some p) ∧ ¬ ∃ p, lo = .ok (some p)) ∧
      (serialRun bo lo n = .both2 → bo = .ok none) ∧
      (∀ r, serialRun bo lo n = .ret r → (r = .val none ∧ bo = .ok none ∧ lo = .ok none) ∨
        ∃ p, r = .val (some p) ∧ (bo = .ok (some p) ∨ lo = .ok (some p))) := by
    intro n
    induction n with
    | zero => simp [serialRun]
    | succ n ih =>
      simp only [serialRun]
      generalize serialRun bo lo n = pc at *
      rcases bo with eb | (_ | pb) <;> rcases lo with el | (_ | pl) <;> cases pc <;>
        simp_all [callerStep, written, serialResults]
  exact (key n).2.2.2.2.2.2 r h

theorem C06_serial_terminates (b l : Option P) : ∃ r, serialRun (.ok b) (.ok l) 9 = .ret r := by
  rcases b with _ | b <;> rcases l with _ | l <;>
    simp [serialRun, serialResults, written, callerStep]

/-- A concrete interleaving: the caller polls between the two writes, and gets the path of BFS although
lean_BFS failed. -/
example : (run (.ok (some 7)) (.ok none) [.caller, .lean, .caller, .caller, .bfs, .caller, .caller, .caller,
    .caller, .caller, .caller]).pc = .ret (.val (some 7)) := by decide

/-- A concrete state in which both searches are done and the caller is still polling. -/
example : let s := run (.ok (some 7)) (.ok (none : Option Nat)) [.lean, .caller, .bfs]
    s.bfsDone = true ∧ s.leanDone = true ∧ s.pc = .lean2 := by decide

end Unyts.Hybrid

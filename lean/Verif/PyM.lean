import Verif.Py

/-
Python code that reads and writes a global state `σ` and may raise: the state survives the exception.
-/
namespace Unyts

/-- A stateful Python call. -/
def PyM (σ α : Type) := σ → Res α × σ

namespace PyM

instance : Monad (PyM σ) where
  pure a := fun s => (.ok a, s)
  bind m f := fun s =>
    match m s with
    | (.ok a, s') => f a s'
    | (.error e, s') => (.error e, s')

/-- `raise` -/
def raise (e : PyErr) : PyM σ α := fun s => (.error e, s)

/-- a pure call that may raise -/
def lift (r : Res α) : PyM σ α := fun s => (r, s)

def get : PyM σ σ := fun s => (.ok s, s)

def modify (f : σ → σ) : PyM σ Unit := fun s => (.ok (), f s)

@[simp] theorem run_pure (a : α) (s : σ) : (pure a : PyM σ α) s = (.ok a, s) := rfl

theorem run_bind (m : PyM σ α) (f : α → PyM σ β) (s : σ) :
    (m >>= f) s = match m s with | (.ok a, s') => f a s' | (.error e, s') => (.error e, s') := rfl

theorem run_bind_ok {m : PyM σ α} {f : α → PyM σ β} {s s' : σ} {a : α} (h : m s = (.ok a, s')) :
    (m >>= f) s = f a s' := by rw [run_bind, h]

theorem run_bind_error {m : PyM σ α} {f : α → PyM σ β} {s s' : σ} {e : PyErr} (h : m s = (.error e, s')) :
    (m >>= f) s = (.error e, s') := by rw [run_bind, h]

@[simp] theorem run_lift_ok (a : α) (s : σ) : (lift (.ok a) : PyM σ α) s = (.ok a, s) := rfl
@[simp] theorem run_get (s : σ) : (get : PyM σ σ) s = (.ok s, s) := rfl
@[simp] theorem run_modify (f : σ → σ) (s : σ) : (modify f : PyM σ Unit) s = (.ok (), f s) := rfl
@[simp] theorem run_raise (e : PyErr) (s : σ) : (raise e : PyM σ α) s = (.error e, s) := rfl

/-- A successful sequence: both parts succeed. -/
theorem bind_ok {m : PyM σ α} {f : α → PyM σ β} {s s2 : σ} {b : β} (h : (m >>= f) s = (.ok b, s2)) :
    ∃ a s1, m s = (.ok a, s1) ∧ f a s1 = (.ok b, s2) := by
  rw [run_bind] at h
  cases hm : m s with
  | mk r s1 =>
    rw [hm] at h
    cases r with
    | ok a => exact ⟨a, s1, rfl, h⟩
    | error e => simp at h

end PyM
end Unyts

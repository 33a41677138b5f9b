import Verif.Spec.Network

/- A small concrete network used in the examples beside the theorems:
inch <-> foot <-> yard <-> mile, gram alone. -/
namespace Unyts.Demo
open Spec

/-- `lambda x: x * k` -/
def times (k : Rat) : Fn := fun _ x => .ok (x * k)

def inch : UNode := ⟨0, s!!"in"⟩
def foot : UNode := ⟨1, s!!"ft"⟩
def yard : UNode := ⟨2, s!!"yd"⟩
def mile : UNode := ⟨3, s!!"mi"⟩
def gram : UNode := ⟨4, s!!"g"⟩

def net : Net where
  edges := [
    (inch, [(foot, times (1/12))]),
    (foot, [(inch, times 12), (yard, times (1/3))]),
    (yard, [(foot, times 3), (mile, times (1/1760))]),
    (mile, [(yard, times 1760)]),
    (gram, [])]
  nextId := 5

theorem direct_cases {a b : UNode} {f : Fn} (h : Direct net a b f) :
    (a = inch ∧ b = foot ∧ f = times (1/12)) ∨ (a = foot ∧ b = inch ∧ f = times 12) ∨
    (a = foot ∧ b = yard ∧ f = times (1/3)) ∨ (a = yard ∧ b = foot ∧ f = times 3) ∨
    (a = yard ∧ b = mile ∧ f = times (1/1760)) ∨ (a = mile ∧ b = yard ∧ f = times 1760) := by
  obtain ⟨l, hl, hf⟩ := h
  simp only [net, List.mem_cons, List.not_mem_nil, or_false, Prod.mk.injEq] at hl
  rcases hl with ⟨rfl, rfl⟩ | ⟨rfl, rfl⟩ | ⟨rfl, rfl⟩ | ⟨rfl, rfl⟩ | ⟨rfl, rfl⟩ <;>
    simp only [List.mem_cons, List.not_mem_nil, or_false, Prod.mk.injEq] at hf
  · simp [hf]
  · rcases hf with hf | hf <;> simp [hf]
  · rcases hf with hf | hf <;> simp [hf]
  · simp [hf]

theorem wf : WF net where
  keys := by decide
  old := by decide
  closed := by
    intro a b f h
    rcases direct_cases h with h | h | h | h | h | h <;> obtain ⟨rfl, rfl, _⟩ := h <;> decide
  single := by
    intro a l hl
    simp only [net, List.mem_cons, List.not_mem_nil, or_false, Prod.mk.injEq] at hl
    rcases hl with ⟨rfl, rfl⟩ | ⟨rfl, rfl⟩ | ⟨rfl, rfl⟩ | ⟨rfl, rfl⟩ | ⟨rfl, rfl⟩ <;>
      simp only [List.map_cons, List.map_nil] <;> decide

theorem distinct : DistinctNames net := by unfold DistinctNames; decide

theorem simpleNames : ∀ n ∈ net.nodes, SimpleName n.name := by unfold SimpleName; decide

theorem twoWay : TwoWay (Linked net) := by
  rintro a b ⟨f, h⟩
  rcases direct_cases h with h | h | h | h | h | h <;> obtain ⟨rfl, rfl, _⟩ := h
  · exact ⟨times 12, [(inch, times 12), (yard, times (1/3))], by simp [net], by simp⟩
  · exact ⟨times (1/12), [(foot, times (1/12))], by simp [net], by simp⟩
  · exact ⟨times 3, [(foot, times 3), (mile, times (1/1760))], by simp [net], by simp⟩
  · exact ⟨times (1/3), [(inch, times 12), (yard, times (1/3))], by simp [net], by simp⟩
  · exact ⟨times 1760, [(yard, times 1760)], by simp [net], by simp⟩
  · exact ⟨times (1/1760), [(foot, times 3), (mile, times (1/1760))], by simp [net], by simp⟩

theorem linked_inch_foot : Linked net inch foot := ⟨_, _, List.mem_cons_self, List.mem_cons_self⟩

end Unyts.Demo

import Verif.Model.Loader
import Verif.Spec.Network

/- Vocabulary about the network that `_load_network` builds, in terms of names. -/
namespace Unyts.Spec

/-- The network converts directly from the name `a` to the name `b` with `f`. -/
def DirectName (g : Net) (a b : Str) (f : Fn) : Prop := ∃ na nb, na.name = a ∧ nb.name = b ∧ Direct g na nb f

/-- The network converts directly from the name `a` to the name `b`. -/
def LinkedName (g : Net) (a b : Str) : Prop := ∃ f, DirectName g a b f

/-- Only the first node of each name takes part in conversions. -/
structure Tidy (g : Net) : Prop where
  wf : WF g
  src : ∀ na nb f, Direct g na nb f → g.getNode na.name = .ok na
  dst : ∀ na nb f, Direct g na nb f → g.getNode nb.name = .ok nb

/-- The dictionary lists the name `u` under a kind with the flag `_REVERSE`. -/
def Reversed (d : RawDict) (u : Str) : Prop := ∃ k v, (k, v) ∈ d ∧ Py.subStr s!!"_REVERSE" k = true ∧ u ∈ v.keys

/-- `AlongNames g p f`: applying one after the other the direct conversions along the chain of names `p` is `f`. -/
inductive AlongNames (g : Net) : List Str → Fn → Prop
  | single (a : Str) : AlongNames g [a] (fun _ x => .ok x)
  | step {a b : Str} {p : List Str} {f h : Fn} : DirectName g a b f → AlongNames g (b :: p) h →
      AlongNames g (a :: b :: p) (fun fvf x => (f fvf x).bind (h fvf))

/-- No two consecutive units of the chain are one of the pairs `X`. -/
def Avoids (X : List (Str × Str)) : List Str → Prop
  | a :: b :: p => (a, b) ∉ X ∧ Avoids X (b :: p)
  | _ => True

end Unyts.Spec

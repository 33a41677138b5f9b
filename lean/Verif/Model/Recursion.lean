import Verif.Model.Converter

/-
The recursion of `_get_conversion` and `_converter` as it is written, with the argument `recursion` that every call
passes on, instead of the budget of `Model/Converter.lean`.
-/
namespace Unyts

/-- `_get_conversion(..., recursion=r)` (converter.py:218-330) as it is written, at most `n` nested calls deep: what a
deeper call would do is `beyond`. The limit is read from the settings at every call. -/
def getConvDeep (beyond : CallM) : Nat → Option Int → Option Bool → Option Rat → Str → Str → CallM
  | 0, _, _, _, _, _ => beyond
  | n + 1, r, uc, v, a, b => fun w =>
    let k := recLimit w.par r
    if k < 0 then (.ok none, w)
    else getConvBody (getConvDeep beyond n (some k)) uc v a b w

/-- `_converter(..., recursion=r)` (converter.py:451-583) as it is written, at most `n` nested calls deep. -/
def converterDeep (beyond : CallM) : Nat → Option Int → Option Bool → Option Rat → Str → Str → CallM
  | 0, _, _, _, _, _ => beyond
  | n + 1, r, uc, v, a, b => fun w =>
    if (a, b) ∈ w.previous then (.ok none, w)
    else
      let k := recLimit w.par r
      if k < 0 then (.ok none, w)
      else converterBody (getConvDeep beyond n (some k)) (converterDeep beyond n (some k)) uc v a b w

end Unyts

/-
The API t-z curves in Kraft's form.

Models `src/openpile/utils/tz_curves.py` 228-323 (`api_clay_kraft`) and 472-571 (`api_sand_kraft`), including the
fact that they are compiled by numba while the function they call is not.
-/
import Verif.Model.Axial

namespace OpenPile.Axial

/-- Whether a function is decorated with `@njit` or left to the interpreter.  `api_clay_kraft` and `api_sand_kraft`
(tz_curves.py 228, 472), `_fmax_api_clay` and `_fmax_api_sand` (utils/misc.py 32, 76) are decorated,
`kraft_modification` (tz_curves.py 16-17) is not. -/
inductive Code
  | njit
  | python
deriving DecidableEq, Repr

/-- The result of calling a function from another one.  Library behaviour: numba compiles a decorated function when it
is first called, and raises `TypingError` if it refers to a function which is not compiled.  `jit` is false when
compilation is switched off (environment variable `NUMBA_DISABLE_JIT`). -/
def call {α : Type} (jit : Bool) (caller callee : Code) (r : Option α) : Option α :=
  match jit, caller, callee with
  | true, .njit, .python => none
  | _, _, _ => r

/-- `api_clay_kraft`, tz_curves.py 228-323: displacements and frictions (the docstring announces them in the other
order).  `none` is an exception or NaN. -/
noncomputable def apiClayKraft (jit : Bool) (sig Su D G0 alphaLimit res tens rf zif : ℝ) (len : ℕ) :
    Option (List ℝ × List ℝ) := do
  let f ← call jit .njit .njit (fmaxClay sig Su alphaLimit)
  call jit .njit .python (kraft f D G0 res tens rf zif len)

/-- `api_sand_kraft`, tz_curves.py 472-571. -/
noncomputable def apiSandKraft (jit : Bool) (sig delta D G0 k res tens rf zif : ℝ) (len : ℕ) :
    Option (List ℝ × List ℝ) := do
  let f ← call jit .njit .njit (fmaxSand sig delta k)
  call jit .njit .python (kraft f D G0 res tens rf zif len)

end OpenPile.Axial

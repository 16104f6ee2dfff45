import Verif.Model.Measure

/-!
# The Adam optimiser

`jax.example_libraries.optimizers.adam(step_size)` with its default `b1`, `b2` and `eps`, which
fit_utils.py:153 calls. The other models leave the optimiser arbitrary; this one is used for C104 and
C105. The library is not part of `/repo`; the update rule is that of its documentation (Kingma and Ba,
algorithm 1).
-/

namespace Diffmah.Fit

/-- One coordinate of the state: parameter, first and second moment -/
abbrev AdamCell := XR × XR × XR

/-- Update number `i` (from 0) of one coordinate with gradient `g`; `b1 = 0.9`, `b2 = 0.999`,
`eps = 1e-8`, as called from fit_utils.py:153,176 -/
noncomputable def adamCell (step_size : ℝ) (i : ℕ) (g : XR) (s : AdamCell) : AdamCell :=
  let m := XR.fin (1 - 0.9) * g + XR.fin 0.9 * s.2.1
  let v := XR.fin (1 - 0.999) * (g * g) + XR.fin 0.999 * s.2.2
  let mhat := m / XR.fin (1 - 0.9 ^ (i + 1))
  let vhat := v / XR.fin (1 - 0.999 ^ (i + 1))
  (s.1 - XR.fin step_size * mhat / (Measure.sqrt vhat + XR.fin 1e-8), m, v)

/-- `jax_opt.adam(step_size)`, fit_utils.py:153. Gradient and parameters have the same length. -/
noncomputable def jaxAdam (step_size : ℝ) : AdamOpt (List AdamCell) where
  init p := p.map fun x => (x, XR.fin 0, XR.fin 0)
  update i g st := List.zipWith (adamCell step_size i) g st
  get st := st.map Prod.fst

end Diffmah.Fit

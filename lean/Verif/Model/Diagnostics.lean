import Verif.Model.PopLoss
import Verif.Model.Scripts

/-!
# Model of `/repo/diffmah/diffmahpop_kernels/diagnostics`

Modelled files: plot_bestfit_cen_mahs.py and plot_bestfit_sat_mahs.py, copies of each other up to names,
titles, masses and the generator they call; modelled once, with a `Kind`. Line numbers are those of
plot_bestfit_cen_mahs.py. A figure is what matplotlib is asked to draw: for each panel its title and its
curves and bands in drawing order. Fonts, labels, legends, the limits of the axes and the file format are
not modelled, nor is a missing matplotlib (`NameError`). A table of targets is a list of `PopLoss.Bin`
(columns t_table, lgm_obs, t_obs, mean_log_mah, std_log_mah; the other columns are not used).
-/

namespace Diffmah

namespace Diagnostics

open Pop TPeak PopParams MC PopLoss Text Scripts

/-- A colour: a name, or the value of the colour map `cm.coolwarm` at a number -/
inductive Colour where
  | named : Str → Colour
  | coolwarm : ℝ → Colour

/-- What `ax.fill_between(t, lo, hi)` and `ax.plot(t, y, style, color)` draw -/
inductive Mark where
  | band : List ℝ → List ℝ → List ℝ → Mark
  | line : Str → Colour → List ℝ → List ℝ → Mark

structure Panel where
  title : Str
  marks : List Mark

/-- `np.argmin`: scan with the current best `(index, value)` -/
noncomputable def argminAux : List ℝ → ℕ → ℕ × ℝ → ℕ × ℝ
  | [], _, b => b
  | y :: l, i, b => argminAux l (i + 1) (if y < b.2 then (i, y) else b)

/-- `np.argmin(l)`: the first smallest entry; ValueError for an empty array. The numbers are finite. -/
noncomputable def argmin : List ℝ → Except PyErr ℕ
  | [] => .error .valueError
  | x :: l => .ok (argminAux l 1 (0, x)).1

/-- Entrywise arithmetic of two arrays; other shapes raise (the broadcasting of arrays of length one is
not modelled). -/
noncomputable def zipArr (f : ℝ → ℝ → ℝ) (x y : List ℝ) : Except PyErr (List ℝ) :=
  if x.length = y.length then .ok (List.zipWith f x y) else .error .valueError

/-- `ax.plot(t, y, style, color=colour)`: matplotlib raises if `t` and `y` differ in size -/
def plot (style : Str) (colour : Colour) (t y : List ℝ) : Except PyErr Mark :=
  if t.length = y.length then .ok (.line style colour t y) else .error .valueError

/-- `ax.fill_between(t, lo, hi, color="lightgray")` -/
def fill_between (t lo hi : List ℝ) : Except PyErr Mark :=
  if t.length = lo.length ∧ t.length = hi.length then .ok (.band t lo hi) else .error .valueError

/-- `column[ih]`, `table[ih]` -/
def row (data : List Bin) (ih : ℕ) : Except PyErr Bin :=
  match data[ih]? with
  | some b => .ok b
  | none => .error .indexError

/-- plot_bestfit_cen_mahs.py:18 -/
noncomputable def LGT0_SMDPL : ℝ := Real.logb 10 13.79

/-- `"k"` -/
def black : Colour := .named ['k']

variable (ext : Ext) (rng : Rng)

/-- plot_bestfit_cen_mahs.py:37-58 (also 60-82, 84-107, 130-151, 153-175, 177-200): the marks of one mass -/
noncomputable def massMarks (kind : Kind) (sample : List Bin) (params : NT ℝ) (lgm : ℝ) :
    RandM (List Mark) := do
  let ih ← RandM.lift (argmin (sample.map fun b => |b.lgm_obs - lgm|))
  let b ← RandM.lift (row sample ih)
  let ylo ← RandM.lift (zipArr (fun m s => m - s) b.target_mean_log_mah b.target_std_log_mah)
  let yhi ← RandM.lift (zipArr (fun m s => m + s) b.target_mean_log_mah b.target_std_log_mah)
  let m1 ← RandM.lift (fill_between b.tarr ylo yhi)
  let m2 ← RandM.lift (plot ['-'] black b.tarr b.target_mean_log_mah)
  let preds ← predict_mah_moments_singlebin ext rng kind params b.tarr b.lgm_obs b.t_obs (Key.root 0)
    LGT0_SMDPL
  let mean_log_mah := preds.map fun q => q.1
  let std_log_mah := preds.map fun q => q.2.1
  let ylo ← RandM.lift (zipArr (fun m s => m - s) mean_log_mah std_log_mah)
  let yhi ← RandM.lift (zipArr (fun m s => m + s) mean_log_mah std_log_mah)
  let m3 ← RandM.lift (plot ['-', '-'] black b.tarr mean_log_mah)
  let m4 ← RandM.lift (plot [':'] black b.tarr ylo)
  let m5 ← RandM.lift (plot [':'] black b.tarr yhi)
  return [m1, m2, m3, m4, m5]

/-- The three masses of the single panels: plot_bestfit_cen_mahs.py:38,62,86 and 131,155,179;
plot_bestfit_sat_mahs.py:39,63,87 (other masses for satellites at z=0) and 132,156,180 -/
noncomputable def panelMasses (kind : Kind) (z2 : Bool) : List ℝ :=
  match kind, z2 with
  | .sats, false => [11.25, 12.25, 13.5]
  | _, _ => [11.25, 12.75, 14.25]

open Classical in
/-- plot_bestfit_cen_mahs.py:34-35 (z=0) and 127-128 (z=2): the bins of the epoch -/
noncomputable def epoch (z2 : Bool) (data : List Bin) : List Bin :=
  if z2 then data.filter fun b => decide (|b.t_obs - 3| < 0.5)
  else data.filter fun b => decide (b.t_obs > 13.5)

/-- plot_bestfit_cen_mahs.py:111,204; plot_bestfit_sat_mahs.py:112,205 (without the LaTeX markup) -/
def epochTitle (kind : Kind) (z2 : Bool) : Str :=
  (match kind with | .cens => "host halos: z=".toList | .sats => "subhalos: z=".toList) ++
    (if z2 then ['2'] else ['0'])

/-- plot_bestfit_cen_mahs.py:114,207; plot_bestfit_sat_mahs.py:115,208 -/
def epochFile (kind : Kind) (z2 : Bool) : Str :=
  "diffmahpop_mu_var_single_panel_".toList ++
    (match kind with | .cens => "cens".toList | .sats => "sats".toList) ++
    (if z2 then "_z2.png".toList else "_z0.png".toList)

/-- `plot_singlepanel_mahs_centrals_z0` and `_z2`, plot_bestfit_cen_mahs.py:27-117, 120-210, and
`plot_singlepanel_mahs_satellites_z0` and `_z2`, plot_bestfit_sat_mahs.py:28-118, 121-211: the name of the
file that is written, and what it shows. The directory is made first if need be (line 113); that
the disk can be written is assumed. -/
noncomputable def plot_singlepanel (kind : Kind) (z2 : Bool) (data : List Bin) (params : NT ℝ)
    (drn : Str := "FIGS".toList) : RandM (Str × List Panel) := do
  let sample := epoch z2 data
  let marks ← RandM.all ((panelMasses kind z2).map fun lgm => massMarks ext rng kind sample params lgm)
  return (pathJoin drn (epochFile kind z2), [⟨epochTitle kind z2, marks.flatten⟩])

/-- plot_bestfit_cen_mahs.py:228-243 (249-264, 270-285, 291-306): one curve of a panel -/
noncomputable def residual (kind : Kind) (data : List Bin) (params : NT ℝ) (t_obs_panel lgm_obs_plot : ℝ)
    (colour : Colour) : RandM Mark := do
  let ih ← RandM.lift (argmin (data.map fun b => |b.t_obs - t_obs_panel| + |b.lgm_obs - lgm_obs_plot|))
  let b ← RandM.lift (row data ih)
  let preds ← predict_mah_moments_singlebin ext rng kind params b.tarr b.lgm_obs b.t_obs (Key.root 0)
    LGT0_SMDPL
  let d ← RandM.lift (zipArr (fun p t => p - t) (preds.map fun q => q.1) b.target_mean_log_mah)
  RandM.lift (plot ['-'] colour b.tarr d)

/-- The times of the panels and the formatted times in their titles, plot_bestfit_cen_mahs.py:221,226 -/
noncomputable def panelTimes : List (ℝ × Str) :=
  [(4.0, "4.0".toList), (7.0, "7.0".toList), (10.0, "10.0".toList), (13.0, "13.0".toList)]

/-- plot_bestfit_cen_mahs.py:216; plot_bestfit_sat_mahs.py:217 -/
noncomputable def residualMasses (kind : Kind) : List ℝ :=
  match kind with
  | .cens => linspace 11 14.5 15
  | .sats => linspace 11 13.5 15

/-- `plot_cen_mah_4panel_residuals`, plot_bestfit_cen_mahs.py:213-329, and
`plot_sat_mah_4panel_residuals`, plot_bestfit_sat_mahs.py:214-330: the curves of the panels. The dashed line
at zero that is added to every panel (line 320) is left out. -/
noncomputable def plot_4panel_residuals (kind : Kind) (data : List Bin) (params : NT ℝ)
    (drn : Str := "FIGS".toList) : RandM (Str × List Panel) := do
  let panels ← RandM.all (panelTimes.map fun tp => do
    let marks ← RandM.all (List.zipWith (fun lgm c => residual ext rng kind data params tp.1 lgm (.coolwarm c))
      (residualMasses kind) (linspace 0 1 15))
    return (⟨(match kind with | .cens => "host halos: t_obs = ".toList | .sats => "subhalos: t_obs = ".toList) ++
      tp.2, marks⟩ : Panel))
  return (pathJoin drn ("diffmahpop_mu_var_4panel_residuals_".toList ++
    (match kind with | .cens => "cens.png".toList | .sats => "sats.png".toList)), panels)

end Diagnostics

end Diffmah

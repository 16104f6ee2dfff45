import Verif.Model.Float32

/-!
# Derivatives of histories and accretion rates

`jax.jvp` of `mah_singlehalo`: the code of diffmah_kernels.py run on numbers that carry a tangent. The accretion rate is itself a
derivative, so here it is the reverse pass of `Model/Float32.lean` that is differentiated once more.
-/

namespace Diffmah

/-- The parameters `p` moving with the speed `v` -/
def MahParams.dual (p v : MahParams ℝ) : MahParams Dual :=
  ⟨⟨p.logm0, v.logm0⟩, ⟨p.logtc, v.logtc⟩, ⟨p.early_index, v.early_index⟩, ⟨p.late_index, v.late_index⟩, ⟨p.t_peak, v.t_peak⟩⟩

/-- The unbounded parameters `u` moving with the speed `v` -/
def MahUParams.dual (u v : MahUParams ℝ) : MahUParams Dual :=
  ⟨⟨u.u_logm0, v.u_logm0⟩, ⟨u.u_logtc, v.u_logtc⟩, ⟨u.u_early_index, v.u_early_index⟩, ⟨u.u_late_index, v.u_late_index⟩,
    ⟨u.u_t_peak, v.u_t_peak⟩⟩

/-- `jax.jvp(mah_singlehalo, (p, ts, lgt0), (v, dts, dlgt0))`, diffmah_kernels.py:32-57: the tangents of the accretion rates and of
the log masses -/
noncomputable def mah_singlehalo_jvp (p v : MahParams ℝ) (ts dts : List ℝ) (lgt0 dlgt0 : ℝ) : List ℝ × List ℝ :=
  let r := mah_singlehalo_rev (p.dual v) (List.zipWith Dual.mk ts dts) ⟨lgt0, dlgt0⟩
  (r.1.map Dual.d, r.2.map Dual.d)

/-- `jax.jvp(_diffmah_kern_u_params, (u, ts, lgt0), (v, dts, dlgt0))`, diffmah_kernels.py:298-303 -/
noncomputable def diffmah_kern_u_params_jvp (u v : MahUParams ℝ) (ts dts : List ℝ) (lgt0 dlgt0 : ℝ) : List ℝ × List ℝ :=
  let r := mah_singlehalo_rev (get_bounded_mah_params (u.dual v)) (List.zipWith Dual.mk ts dts) ⟨lgt0, dlgt0⟩
  (r.1.map Dual.d, r.2.map Dual.d)

end Diffmah

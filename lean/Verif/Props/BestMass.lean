import Verif.Props.FitterTarget

/-!
# C147: the best mass of a fit, and its mean residual
-/

namespace Diffmah.Fit

open XR hiding log10 pow10 ln sigm max lt le add sub mul div neg
open JOps Diffmah.Utils Spec

/-! ## Specification -/

/-- The halo whose history is compared with the target, for the unbounded parameters `u` -/
noncomputable def halo (u : VariedU ℝ) (ld : LossData ℝ) : MahParams ℝ :=
  get_bounded_mah_params ⟨u.u_logm0, u.u_logtc, u.u_early_index, u.u_late_index, ld.u_t_peak⟩

/-- The residuals: predicted minus target log mass at each target time -/
noncomputable def residuals (u : VariedU ℝ) (ld : LossData ℝ) : List ℝ :=
  (ld.t_target.zip ld.log_mah_target).map fun q => logmh_at_t_obs (halo u ld) q.1 ld.logt0 - q.2

/-! ## Lemmas -/

theorem mean_sq_shift (l : List ℝ) (hl : l ≠ []) (d : ℝ) :
    mean ((l.map (· + d)).map (· ^ 2)) = mean (l.map (· ^ 2)) + 2 * d * mean l + d ^ 2 := by
  have hs : ((l.map (· + d)).map (· ^ 2)).sum = (l.map (· ^ 2)).sum + 2 * d * l.sum + l.length * d ^ 2 := by
    clear hl
    induction l with
    | nil => simp
    | cons a l ih =>
      simp only [List.map_cons, List.sum_cons, List.length_cons, Nat.cast_add, Nat.cast_one, ih]
      ring
  have h0 : (l.length : ℝ) ≠ 0 := by
    rw [Nat.cast_ne_zero, ne_eq, List.length_eq_zero_iff]; exact hl
  unfold mean
  rw [hs]
  simp only [List.length_map]
  field_simp

theorem halo_shift (u : VariedU ℝ) (ld : LossData ℝ) (v : ℝ) :
    halo { u with u_logm0 := v } ld =
      { halo u ld with logm0 := (halo u ld).logm0 + ((halo { u with u_logm0 := v } ld).logm0 - (halo u ld).logm0) } := by
  rw [add_sub_cancel]; rfl

theorem residuals_shift (u : VariedU ℝ) (ld : LossData ℝ) (v : ℝ) :
    residuals { u with u_logm0 := v } ld =
      (residuals u ld).map (· + ((halo { u with u_logm0 := v } ld).logm0 - (halo u ld).logm0)) := by
  unfold residuals
  rw [List.map_map]
  refine List.map_congr_left fun q _ => ?_
  rw [halo_shift, C07_logm0_rescales]
  simp only [Function.comp, add_sub_cancel]
  ring

theorem loss_residuals (u : VariedU ℝ) (ld : LossData ℝ) : log_mah_loss_uparams u ld = mean ((residuals u ld).map (· ^ 2)) := by
  rw [C40_mean_square, residuals, List.map_map]; rfl

theorem residuals_ne {ld : LossData ℝ} (hlen : ld.t_target.length = ld.log_mah_target.length) (hne : ld.t_target ≠ [])
    (u : VariedU ℝ) : residuals u ld ≠ [] := by
  intro h
  have := congrArg List.length h
  rw [residuals, List.length_map, List.length_zip, ← hlen, min_self, List.length_nil, List.length_eq_zero_iff] at this
  exact hne this

/-- The loss along the mass -/
theorem loss_along_mass (u : VariedU ℝ) (ld : LossData ℝ) (hlen : ld.t_target.length = ld.log_mah_target.length)
    (hne : ld.t_target ≠ []) (v : ℝ) :
    log_mah_loss_uparams { u with u_logm0 := v } ld = log_mah_loss_uparams u ld +
      2 * ((halo { u with u_logm0 := v } ld).logm0 - (halo u ld).logm0) * mean (residuals u ld) +
        ((halo { u with u_logm0 := v } ld).logm0 - (halo u ld).logm0) ^ 2 := by
  rw [loss_residuals, residuals_shift, mean_sq_shift _ (residuals_ne hlen hne u), ← loss_residuals]

theorem halo_logm0 (u : VariedU ℝ) (ld : LossData ℝ) : (halo u ld).logm0 = 0.0 + (17.0 - 0.0) * Real.sigmoid (0.1 * (u.u_logm0 - 0.5 * (0.0 + 17.0))) :=
  rfl

theorem halo_logm0_deriv (u : VariedU ℝ) (ld : LossData ℝ) :
    ∃ b : ℝ, 0 < b ∧ HasDerivAt (fun v => (halo { u with u_logm0 := v } ld).logm0) b u.u_logm0 := by
  set z := 0.1 * (u.u_logm0 - 0.5 * (0.0 + 17.0 : ℝ)) with hz
  have h1 : HasDerivAt (fun v : ℝ => 0.1 * (v - 0.5 * (0.0 + 17.0))) (0.1 * 1) u.u_logm0 :=
    ((hasDerivAt_id u.u_logm0).sub_const _).const_mul _
  have h2 := HasDerivAt.comp (h₂ := Real.sigmoid) u.u_logm0 (Real.hasDerivAt_sigmoid _) h1
  refine ⟨_, ?_, (h2.const_mul (17.0 - 0.0)).const_add 0.0⟩
  have := Real.sigmoid_pos z
  have h3 : 0 < 1 - Real.sigmoid z := sub_pos.2 (Real.sigmoid_lt_one z)
  have h4 := mul_pos this h3
  change 0 < (17.0 - 0.0) * (Real.sigmoid z * (1 - Real.sigmoid z) * (0.1 * 1))
  norm_num
  linarith

/-! ## C147 -/

/-- C147. The component of the gradient for the mass vanishes exactly if the residuals average to zero. In particular they do at every
point where the optimiser stops because the gradient is zero. -/
theorem C147_mean_residual (u : VariedU ℝ) (ld : LossData ℝ) (hlen : ld.t_target.length = ld.log_mah_target.length)
    (hne : ld.t_target ≠ []) (ht : ∀ t ∈ ld.t_target, t ≠ 0) :
    (loss_and_grads_kern u ld).2.u_logm0 = 0 ↔ mean (residuals u ld) = 0 := by
  obtain ⟨-, hg, -⟩ := C41_gradient u ld hlen hne ht
  obtain ⟨b, hb, hd⟩ := halo_logm0_deriv u ld
  have hd' := hd.sub_const (halo u ld).logm0
  have e : (fun v => log_mah_loss_uparams ⟨v, u.u_logtc, u.u_early_index, u.u_late_index⟩ ld) = fun v =>
      log_mah_loss_uparams u ld + 2 * ((halo { u with u_logm0 := v } ld).logm0 - (halo u ld).logm0) * mean (residuals u ld) +
        ((halo { u with u_logm0 := v } ld).logm0 - (halo u ld).logm0) ^ 2 :=
    funext fun v => loss_along_mass u ld hlen hne v
  rw [e] at hg
  have h := (((hd'.const_mul 2).mul_const (mean (residuals u ld))).const_add (log_mah_loss_uparams u ld)).add (hd'.pow 2)
  have h0 : (halo { u with u_logm0 := u.u_logm0 } ld).logm0 - (halo u ld).logm0 = 0 := sub_self _
  have := hg.unique h
  rw [this]
  simp only [Nat.cast_ofNat, h0]
  have hb' := hb.ne'
  constructor
  · intro hz
    have : 2 * b * mean (residuals u ld) = 0 := by simpa using hz
    exact (mul_eq_zero.1 this).resolve_left (by positivity)
  · intro hz
    simp [hz]

/-- C147. If the residuals average to zero, the mass is the best one for the other parameters: every other mass has a loss that is larger
by the square of the difference of the log masses. -/
theorem C147_best_mass (u : VariedU ℝ) (ld : LossData ℝ) (hlen : ld.t_target.length = ld.log_mah_target.length)
    (hne : ld.t_target ≠ []) (h : mean (residuals u ld) = 0) (v : ℝ) :
    log_mah_loss_uparams { u with u_logm0 := v } ld =
      log_mah_loss_uparams u ld + ((halo { u with u_logm0 := v } ld).logm0 - (halo u ld).logm0) ^ 2 ∧
    (v ≠ u.u_logm0 → log_mah_loss_uparams u ld < log_mah_loss_uparams { u with u_logm0 := v } ld) := by
  have e : log_mah_loss_uparams { u with u_logm0 := v } ld =
      log_mah_loss_uparams u ld + ((halo { u with u_logm0 := v } ld).logm0 - (halo u ld).logm0) ^ 2 := by
    rw [loss_along_mass u ld hlen hne, h, mul_zero, add_zero]
  refine ⟨e, fun hv => ?_⟩
  rw [e]
  have hinj := (C18_strictly_increasing ⟨u.u_logm0, u.u_logtc, u.u_early_index, u.u_late_index, ld.u_t_peak⟩).1.injective
  have : (halo { u with u_logm0 := v } ld).logm0 - (halo u ld).logm0 ≠ 0 := fun h0 => hv (hinj (sub_eq_zero.1 h0))
  have := pow_pos (abs_pos.2 this) 2
  rw [sq_abs] at this
  linarith

/-- C147. The best mass is known in closed form: if the mass corrected by the mean residual is inside its bounds, it belongs to exactly
one unbounded value, for which the loss is smallest; the loss there is the variance of the residuals. -/
theorem C147_closed_form (u : VariedU ℝ) (ld : LossData ℝ) (hlen : ld.t_target.length = ld.log_mah_target.length)
    (hne : ld.t_target ≠ []) (h0 : 0 < (halo u ld).logm0 - mean (residuals u ld)) (h1 : (halo u ld).logm0 - mean (residuals u ld) < 17) :
    ∃! v, (halo { u with u_logm0 := v } ld).logm0 = (halo u ld).logm0 - mean (residuals u ld) ∧
      (∀ w, log_mah_loss_uparams { u with u_logm0 := v } ld ≤ log_mah_loss_uparams { u with u_logm0 := w } ld) ∧
      log_mah_loss_uparams { u with u_logm0 := v } ld = log_mah_loss_uparams u ld - mean (residuals u ld) ^ 2 := by
  have hinj := (C18_strictly_increasing ⟨u.u_logm0, u.u_logtc, u.u_early_index, u.u_late_index, ld.u_t_peak⟩).1.injective
  have hv : (halo { u with u_logm0 := get_unbounded_diffmah_param ((halo u ld).logm0 - mean (residuals u ld)) MAH_PBOUNDS.logm0 } ld).logm0 =
      (halo u ld).logm0 - mean (residuals u ld) := by
    change get_bounded_diffmah_param (get_unbounded_diffmah_param _ MAH_PBOUNDS.logm0) MAH_PBOUNDS.logm0 = _
    apply bounded_unbounded <;> norm_num [MAH_PBOUNDS] <;> linarith
  refine ⟨_, ⟨hv, fun w => ?_, ?_⟩, fun w hw => hinj (hw.1.trans hv.symm)⟩
  · rw [loss_along_mass u ld hlen hne, loss_along_mass u ld hlen hne w, hv]
    nlinarith [sq_nonneg ((halo { u with u_logm0 := w } ld).logm0 - (halo u ld).logm0 + mean (residuals u ld))]
  · rw [loss_along_mass u ld hlen hne, hv]
    ring

/-- Target data at two times that are one dex above and `r` below the history of the halo `u` -/
noncomputable def demoData (u : VariedU ℝ) (r : ℝ) : LossData ℝ :=
  ⟨[1, 5], [logmh_at_t_obs (halo u ⟨[], [], 3, 1⟩) 1 1 + 1, logmh_at_t_obs (halo u ⟨[], [], 3, 1⟩) 5 1 - r], 3, 1⟩

theorem demoData_residuals (u : VariedU ℝ) (r : ℝ) : residuals u (demoData u r) = [-1, r] := by
  have e : halo u (demoData u r) = halo u ⟨[], [], 3, 1⟩ := rfl
  simp [residuals, demoData] at e ⊢
  rw [e]
  constructor <;> ring

/-- Every halo has target data that meet the hypotheses of `C147_mean_residual` and `C147_best_mass` although no residual is zero. -/
example (u : VariedU ℝ) : ∃ ld : LossData ℝ, ld.t_target.length = ld.log_mah_target.length ∧ ld.t_target ≠ [] ∧
    (∀ t ∈ ld.t_target, t ≠ 0) ∧ mean (residuals u ld) = 0 ∧ residuals u ld = [-1, 1] :=
  ⟨demoData u 1, rfl, by simp [demoData], by simp [demoData], by rw [demoData_residuals]; norm_num [mean], demoData_residuals u 1⟩

/-- A halo and target data that meet the hypotheses of `C147_closed_form` with a mean residual of one dex -/
example : ∃ (u : VariedU ℝ) (ld : LossData ℝ), ld.t_target.length = ld.log_mah_target.length ∧ ld.t_target ≠ [] ∧
    0 < (halo u ld).logm0 - mean (residuals u ld) ∧ (halo u ld).logm0 - mean (residuals u ld) < 17 ∧ mean (residuals u ld) = 1 := by
  have hm : mean (residuals ⟨17 / 2, 0, 0, 0⟩ (demoData ⟨17 / 2, 0, 0, 0⟩ 3)) = 1 := by rw [demoData_residuals]; norm_num [mean]
  have hl : (halo ⟨17 / 2, 0, 0, 0⟩ (demoData ⟨17 / 2, 0, 0, 0⟩ 3)).logm0 = 17 / 2 := by
    rw [halo_logm0]; norm_num [Real.sigmoid_zero]
  exact ⟨⟨17 / 2, 0, 0, 0⟩, demoData ⟨17 / 2, 0, 0, 0⟩ 3, rfl, by simp [demoData], by rw [hm, hl]; norm_num,
    by rw [hm, hl]; norm_num, hm⟩

end Diffmah.Fit

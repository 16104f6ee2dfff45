import Verif.Props.BestMass

/-!
# C148: a fit can be stuck at a wrong minimum only because of the transition time
-/

namespace Diffmah.Fit

open XR hiding log10 pow10 ln sigm max lt le add sub mul div neg
open JOps Diffmah.Utils Spec

/-! ## Lemmas -/

/-- The time at which the mass of a halo is evaluated: growth stops at the peak time -/
noncomputable def clipTime (p : MahParams ℝ) (t : ℝ) : ℝ := if t < p.t_peak then t else p.t_peak

/-- The coefficients of the early and late index in the log mass at time `t` -/
noncomputable def coefEarly (p : MahParams ℝ) (logt0 t : ℝ) : ℝ :=
  (1 - Real.sigmoid (MAH_K * (log10 (clipTime p t) - p.logtc))) * (log10 (clipTime p t) - logt0)
noncomputable def coefLate (p : MahParams ℝ) (logt0 t : ℝ) : ℝ :=
  Real.sigmoid (MAH_K * (log10 (clipTime p t) - p.logtc)) * (log10 (clipTime p t) - logt0)

theorem log_mah_linear (p : MahParams ℝ) (t logt0 : ℝ) :
    logmh_at_t_obs p t logt0 = p.logm0 + p.early_index * coefEarly p logt0 t + p.late_index * coefLate p logt0 t := by
  have e : logmh_at_t_obs p t logt0 = if t < p.t_peak then log_mah_noq_kern p t logt0 else log_mah_noq_kern p p.t_peak logt0 := rfl
  have e2 : ∀ x, log_mah_noq_kern p x logt0 =
      (p.early_index + (p.late_index - p.early_index) * Real.sigmoid (MAH_K * (log10 x - p.logtc))) * (log10 x - logt0) + p.logm0 :=
    fun _ => rfl
  rw [e, e2, e2, coefEarly, coefLate, clipTime]
  split <;> ring

/-- The coefficients depend on the transition and peak times only -/
theorem coef_congr {p q : MahParams ℝ} (h1 : p.logtc = q.logtc) (h2 : p.t_peak = q.t_peak) (logt0 t : ℝ) :
    coefEarly p logt0 t = coefEarly q logt0 t ∧ coefLate p logt0 t = coefLate q logt0 t := by
  unfold coefEarly coefLate clipTime
  rw [h1, h2]
  exact ⟨rfl, rfl⟩

/-- The difference of the predictions of two haloes with the same transition and peak times -/
theorem pred_sub {u v : VariedU ℝ} (hv : v.u_logtc = u.u_logtc) (ld : LossData ℝ) (t : ℝ) :
    logmh_at_t_obs (halo v ld) t ld.logt0 = logmh_at_t_obs (halo u ld) t ld.logt0 + (((halo v ld).logm0 - (halo u ld).logm0) +
      ((halo v ld).early_index - (halo u ld).early_index) * coefEarly (halo u ld) ld.logt0 t +
      ((halo v ld).late_index - (halo u ld).late_index) * coefLate (halo u ld) ld.logt0 t) := by
  have h1 : (halo v ld).logtc = (halo u ld).logtc := by
    change get_bounded_diffmah_param v.u_logtc _ = get_bounded_diffmah_param u.u_logtc _; rw [hv]
  obtain ⟨ha, hb⟩ := coef_congr h1 (rfl : (halo v ld).t_peak = (halo u ld).t_peak) ld.logt0 t
  rw [log_mah_linear, log_mah_linear, ha, hb]
  ring

/-- The mean of a function over the target data -/
noncomputable def over (ld : LossData ℝ) (f : ℝ × ℝ → ℝ) : ℝ := mean ((ld.t_target.zip ld.log_mah_target).map f)

theorem over_add (ld : LossData ℝ) (f g : ℝ × ℝ → ℝ) : over ld (fun q => f q + g q) = over ld f + over ld g := by
  unfold over mean
  rw [List.sum_map_add, add_div]
  simp only [List.length_map]

theorem over_mul (ld : LossData ℝ) (c : ℝ) (f : ℝ × ℝ → ℝ) : over ld (fun q => c * f q) = c * over ld f := by
  unfold over mean
  rw [List.sum_map_mul_left, mul_div_assoc]
  simp only [List.length_map]

/-- The residual at a target point -/
noncomputable def res (u : VariedU ℝ) (ld : LossData ℝ) (q : ℝ × ℝ) : ℝ := logmh_at_t_obs (halo u ld) q.1 ld.logt0 - q.2

theorem loss_over (u : VariedU ℝ) (ld : LossData ℝ) : log_mah_loss_uparams u ld = over ld fun q => res u ld q ^ 2 :=
  C40_mean_square u ld

/-- The loss of another halo with the same transition time -/
theorem loss_expand {u v : VariedU ℝ} (hv : v.u_logtc = u.u_logtc) (ld : LossData ℝ) :
    log_mah_loss_uparams v ld = log_mah_loss_uparams u ld +
      2 * (((halo v ld).logm0 - (halo u ld).logm0) * over ld (res u ld) +
        ((halo v ld).early_index - (halo u ld).early_index) * over ld (fun q => res u ld q * coefEarly (halo u ld) ld.logt0 q.1) +
        ((halo v ld).late_index - (halo u ld).late_index) * over ld (fun q => res u ld q * coefLate (halo u ld) ld.logt0 q.1)) +
      over ld fun q => (logmh_at_t_obs (halo v ld) q.1 ld.logt0 - logmh_at_t_obs (halo u ld) q.1 ld.logt0) ^ 2 := by
  rw [loss_over, loss_over, ← over_mul, ← over_mul, ← over_mul, ← over_add, ← over_add, ← over_mul, ← over_add, ← over_add]
  congr 1
  funext q
  unfold res
  rw [pred_sub hv]
  ring

/-- The squared change of the predictions as a form in the changes of the indices -/
theorem form_expand {u v : VariedU ℝ} (hv : v.u_logtc = u.u_logtc) (hm : v.u_logm0 = u.u_logm0) (ld : LossData ℝ) :
    (over ld fun q => (logmh_at_t_obs (halo v ld) q.1 ld.logt0 - logmh_at_t_obs (halo u ld) q.1 ld.logt0) ^ 2) =
      ((halo v ld).early_index - (halo u ld).early_index) ^ 2 * over ld (fun q => coefEarly (halo u ld) ld.logt0 q.1 ^ 2) +
      ((halo v ld).early_index - (halo u ld).early_index) * ((halo v ld).late_index - (halo u ld).late_index) *
        over ld (fun q => 2 * coefEarly (halo u ld) ld.logt0 q.1 * coefLate (halo u ld) ld.logt0 q.1) +
      ((halo v ld).late_index - (halo u ld).late_index) ^ 2 * over ld (fun q => coefLate (halo u ld) ld.logt0 q.1 ^ 2) := by
  have h1 : (halo v ld).logm0 = (halo u ld).logm0 := by
    change get_bounded_diffmah_param v.u_logm0 _ = get_bounded_diffmah_param u.u_logm0 _; rw [hm]
  rw [← over_mul, ← over_mul, ← over_mul, ← over_add, ← over_add]
  congr 1
  funext q
  rw [pred_sub hv, h1]
  ring

/-- The derivative of the loss along a curve on which only the indices change -/
theorem loss_curve (u : VariedU ℝ) (ld : LossData ℝ) (c : ℝ → VariedU ℝ) {s e' l' : ℝ} (hc : ∀ x, (c x).u_logtc = u.u_logtc)
    (hm : ∀ x, (c x).u_logm0 = u.u_logm0) (hs : c s = u) (he : HasDerivAt (fun x => (halo (c x) ld).early_index) e' s)
    (hl : HasDerivAt (fun x => (halo (c x) ld).late_index) l' s) :
    HasDerivAt (fun x => log_mah_loss_uparams (c x) ld)
      (2 * (e' * over ld (fun q => res u ld q * coefEarly (halo u ld) ld.logt0 q.1) +
        l' * over ld (fun q => res u ld q * coefLate (halo u ld) ld.logt0 q.1))) s := by
  set R1 := over ld (fun q => res u ld q * coefEarly (halo u ld) ld.logt0 q.1)
  set R2 := over ld (fun q => res u ld q * coefLate (halo u ld) ld.logt0 q.1)
  set A := over ld (fun q => coefEarly (halo u ld) ld.logt0 q.1 ^ 2)
  set B := over ld (fun q => 2 * coefEarly (halo u ld) ld.logt0 q.1 * coefLate (halo u ld) ld.logt0 q.1)
  set C := over ld (fun q => coefLate (halo u ld) ld.logt0 q.1 ^ 2)
  have e : (fun x => log_mah_loss_uparams (c x) ld) = fun x => log_mah_loss_uparams u ld +
      2 * (((halo (c x) ld).early_index - (halo u ld).early_index) * R1 + ((halo (c x) ld).late_index - (halo u ld).late_index) * R2) +
      (((halo (c x) ld).early_index - (halo u ld).early_index) ^ 2 * A +
        ((halo (c x) ld).early_index - (halo u ld).early_index) * ((halo (c x) ld).late_index - (halo u ld).late_index) * B +
        ((halo (c x) ld).late_index - (halo u ld).late_index) ^ 2 * C) := by
    funext x
    have h1 : (halo (c x) ld).logm0 = (halo u ld).logm0 := by
      change get_bounded_diffmah_param (c x).u_logm0 _ = get_bounded_diffmah_param u.u_logm0 _; rw [hm]
    rw [loss_expand (hc x), form_expand (hc x) (hm x), h1, sub_self, zero_mul, zero_add]
  rw [e]
  have de := he.sub_const (halo u ld).early_index
  have dl := hl.sub_const (halo u ld).late_index
  have h := ((((de.mul_const R1).add (dl.mul_const R2)).const_mul 2).const_add (log_mah_loss_uparams u ld)).add
    ((((de.pow 2).mul_const A).add ((de.mul dl).mul_const B)).add ((dl.pow 2).mul_const C))
  refine h.congr_deriv ?_
  simp [hs]

theorem bounded_hasDerivAt {b : ℝ × ℝ} (hb : b.1 < b.2) (x : ℝ) :
    ∃ d : ℝ, 0 < d ∧ HasDerivAt (fun y => get_bounded_diffmah_param y b) d x := by
  have h1 : HasDerivAt (fun v : ℝ => BOUNDING_K * (v - 0.5 * (b.1 + b.2))) (BOUNDING_K * 1) x :=
    ((hasDerivAt_id x).sub_const _).const_mul _
  have h2 := HasDerivAt.comp (h₂ := Real.sigmoid) x (Real.hasDerivAt_sigmoid _) h1
  refine ⟨_, ?_, (h2.const_mul (b.2 - b.1)).const_add b.1⟩
  have h3 := mul_pos (Real.sigmoid_pos (BOUNDING_K * (x - 0.5 * (b.1 + b.2)))) (sub_pos.2 (Real.sigmoid_lt_one (BOUNDING_K * (x - 0.5 * (b.1 + b.2)))))
  exact mul_pos (sub_pos.2 hb) (mul_pos h3 (mul_pos BOUNDING_K_pos one_pos))

theorem early_hasDerivAt {late : ℝ} (hl : late < MAH_PBOUNDS.early_index.2) (x : ℝ) :
    ∃ d : ℝ, 0 < d ∧ HasDerivAt (fun y => sigmoid y (lit 0.0) (lit BOUNDING_K) late (lit MAH_PBOUNDS.early_index.2)) d x := by
  have h1 : HasDerivAt (fun v : ℝ => BOUNDING_K * (v - 0.0)) (BOUNDING_K * 1) x :=
    ((hasDerivAt_id x).sub_const _).const_mul _
  have h2 := HasDerivAt.comp (h₂ := Real.sigmoid) x (Real.hasDerivAt_sigmoid _) h1
  refine ⟨_, ?_, (h2.const_mul (MAH_PBOUNDS.early_index.2 - late)).const_add late⟩
  have h3 := mul_pos (Real.sigmoid_pos (BOUNDING_K * (x - 0.0))) (sub_pos.2 (Real.sigmoid_lt_one (BOUNDING_K * (x - 0.0))))
  exact mul_pos (sub_pos.2 hl) (mul_pos h3 (mul_pos BOUNDING_K_pos one_pos))

/-- The gradient vanishes where the residuals are orthogonal to the directions of the mass and of the indices. -/
theorem normal_equations (u : VariedU ℝ) (ld : LossData ℝ) (hlen : ld.t_target.length = ld.log_mah_target.length)
    (hne : ld.t_target ≠ []) (ht : ∀ t ∈ ld.t_target, t ≠ 0) :
    ((loss_and_grads_kern u ld).2.u_logm0 = 0 ∧ (loss_and_grads_kern u ld).2.u_early_index = 0 ∧
      (loss_and_grads_kern u ld).2.u_late_index = 0) ↔
    over ld (res u ld) = 0 ∧ over ld (fun q => res u ld q * coefEarly (halo u ld) ld.logt0 q.1) = 0 ∧
      over ld (fun q => res u ld q * coefLate (halo u ld) ld.logt0 q.1) = 0 := by
  obtain ⟨-, -, -, ge, gl⟩ := C41_gradient u ld hlen hne ht
  have hR0 : (loss_and_grads_kern u ld).2.u_logm0 = 0 ↔ over ld (res u ld) = 0 := C147_mean_residual u ld hlen hne ht
  have hlate : (halo u ld).late_index < MAH_PBOUNDS.early_index.2 :=
    (bounded_mem u.u_late_index (b := MAH_PBOUNDS.late_index) (by norm_num [MAH_PBOUNDS])).2.trans (by norm_num [MAH_PBOUNDS])
  obtain ⟨e', he', hde⟩ := early_hasDerivAt hlate u.u_early_index
  have k1 := ge.unique (loss_curve u ld (fun y => ⟨u.u_logm0, u.u_logtc, y, u.u_late_index⟩) (fun _ => rfl) (fun _ => rfl) rfl hde
    (hasDerivAt_const u.u_early_index (halo u ld).late_index))
  obtain ⟨l', hl', hdl⟩ := bounded_hasDerivAt (b := MAH_PBOUNDS.late_index) (by norm_num [MAH_PBOUNDS]) u.u_late_index
  have hde2 : HasDerivAt (fun y => (halo ⟨u.u_logm0, u.u_logtc, u.u_early_index, y⟩ ld).early_index)
      (l' + (0 - l') * Real.sigmoid (BOUNDING_K * (u.u_early_index - 0.0))) u.u_late_index :=
    hdl.add (((hasDerivAt_const _ MAH_PBOUNDS.early_index.2).sub hdl).mul_const (Real.sigmoid (BOUNDING_K * (u.u_early_index - 0.0))))
  have k2 := gl.unique (loss_curve u ld (fun y => ⟨u.u_logm0, u.u_logtc, u.u_early_index, y⟩) (fun _ => rfl) (fun _ => rfl) rfl hde2 hdl)
  rw [hR0, k1, k2, zero_mul, add_zero]
  constructor
  · rintro ⟨h0, h1, h2⟩
    have hR1 := (mul_eq_zero.1 ((mul_eq_zero.1 h1).resolve_left two_ne_zero)).resolve_left he'.ne'
    rw [hR1, mul_zero, zero_add] at h2
    exact ⟨h0, hR1, (mul_eq_zero.1 ((mul_eq_zero.1 h2).resolve_left two_ne_zero)).resolve_left hl'.ne'⟩
  · rintro ⟨h0, h1, h2⟩
    rw [h1, h2]
    simp [h0]

/-! ## C148 -/

/-- C148. Where the components of the gradient for the mass and the two indices vanish, the loss of every other halo with the same
transition time exceeds the loss by the mean squared difference of the two predictions. -/
theorem C148_stationary_excess (u : VariedU ℝ) (ld : LossData ℝ) (hlen : ld.t_target.length = ld.log_mah_target.length)
    (hne : ld.t_target ≠ []) (ht : ∀ t ∈ ld.t_target, t ≠ 0) (hm : (loss_and_grads_kern u ld).2.u_logm0 = 0)
    (he : (loss_and_grads_kern u ld).2.u_early_index = 0) (hl : (loss_and_grads_kern u ld).2.u_late_index = 0)
    (v : VariedU ℝ) (hv : v.u_logtc = u.u_logtc) :
    log_mah_loss_uparams v ld = log_mah_loss_uparams u ld + mean ((ld.t_target.zip ld.log_mah_target).map fun q =>
      (logmh_at_t_obs (halo v ld) q.1 ld.logt0 - logmh_at_t_obs (halo u ld) q.1 ld.logt0) ^ 2) := by
  obtain ⟨h0, h1, h2⟩ := (normal_equations u ld hlen hne ht).1 ⟨hm, he, hl⟩
  rw [loss_expand hv, h0, h1, h2]
  simp only [mul_zero, add_zero]
  rfl

/-- C148. Such a point is a global minimum among all haloes with its transition time, and every halo that is as good predicts the same
masses at all target times. -/
theorem C148_stationary_is_best (u : VariedU ℝ) (ld : LossData ℝ) (hlen : ld.t_target.length = ld.log_mah_target.length)
    (hne : ld.t_target ≠ []) (ht : ∀ t ∈ ld.t_target, t ≠ 0) (hm : (loss_and_grads_kern u ld).2.u_logm0 = 0)
    (he : (loss_and_grads_kern u ld).2.u_early_index = 0) (hl : (loss_and_grads_kern u ld).2.u_late_index = 0)
    (v : VariedU ℝ) (hv : v.u_logtc = u.u_logtc) :
    log_mah_loss_uparams u ld ≤ log_mah_loss_uparams v ld ∧
    (log_mah_loss_uparams v ld ≤ log_mah_loss_uparams u ld →
      ∀ t ∈ ld.t_target, logmh_at_t_obs (halo v ld) t ld.logt0 = logmh_at_t_obs (halo u ld) t ld.logt0) := by
  have e := C148_stationary_excess u ld hlen hne ht hm he hl v hv
  set L := (ld.t_target.zip ld.log_mah_target).map fun q =>
      (logmh_at_t_obs (halo v ld) q.1 ld.logt0 - logmh_at_t_obs (halo u ld) q.1 ld.logt0) ^ 2 with hL
  have hpos : ∀ x ∈ L, 0 ≤ x := by
    intro x hx
    obtain ⟨q, -, rfl⟩ := List.mem_map.1 hx
    positivity
  have hs := List.sum_nonneg hpos
  have hn : 0 < (L.length : ℝ) := by
    rw [hL, List.length_map, List.length_zip, ← hlen, min_self]
    exact_mod_cast List.length_pos_iff.2 hne
  refine ⟨?_, fun hle t htm => ?_⟩
  · rw [e]
    have : 0 ≤ mean L := div_nonneg hs hn.le
    linarith
  · have h0 : mean L ≤ 0 := by linarith
    have h1 : L.sum ≤ 0 := by
      by_contra hc
      exact absurd h0 (not_le.2 (div_pos (not_le.1 hc) hn))
    have hz : L.sum = 0 := le_antisymm h1 hs
    obtain ⟨i, hi, rfl⟩ := List.mem_iff_getElem.1 htm
    have hmem : (ld.t_target[i], ld.log_mah_target[i]'(hlen ▸ hi)) ∈ ld.t_target.zip ld.log_mah_target := by
      rw [List.mem_iff_getElem]
      exact ⟨i, by rw [List.length_zip, ← hlen, min_self]; exact hi, List.getElem_zip ..⟩
    have hx := List.single_le_sum hpos _ (List.mem_map.2 ⟨_, hmem, rfl⟩)
    rw [hz] at hx
    have := pow_eq_zero_iff (two_ne_zero) |>.1 (le_antisymm hx (sq_nonneg _))
    linarith

/-- C148. If the target includes today and two earlier times, and the halo has not peaked before today, the stationary point is the only
best one with its transition time. -/
theorem C148_unique (u : VariedU ℝ) (ld : LossData ℝ) (hlen : ld.t_target.length = ld.log_mah_target.length)
    (ht : ∀ t ∈ ld.t_target, t ≠ 0) (hm : (loss_and_grads_kern u ld).2.u_logm0 = 0)
    (he : (loss_and_grads_kern u ld).2.u_early_index = 0) (hl : (loss_and_grads_kern u ld).2.u_late_index = 0)
    {t1 t2 t0 : ℝ} (h1 : t1 ∈ ld.t_target) (h2 : t2 ∈ ld.t_target) (h0 : t0 ∈ ld.t_target) (hpos : 0 < t1) (h12 : t1 < t2)
    (h20 : t2 < t0) (htoday : ld.logt0 = Real.logb 10 t0) (hpeak : t0 ≤ (halo u ld).t_peak)
    (v : VariedU ℝ) (hv : v.u_logtc = u.u_logtc) (hne : v ≠ u) : log_mah_loss_uparams u ld < log_mah_loss_uparams v ld := by
  by_contra hcon
  have hs := (C148_stationary_is_best u ld hlen (List.ne_nil_of_mem h0) ht hm he hl v hv).2 (not_lt.1 hcon)
  set p := halo u ld with hp
  have key : ∀ t ∈ ld.t_target, ((halo v ld).logm0 - p.logm0) + ((halo v ld).early_index - p.early_index) * coefEarly p ld.logt0 t +
      ((halo v ld).late_index - p.late_index) * coefLate p ld.logt0 t = 0 := by
    intro t htm
    have := hs t htm
    rw [pred_sub hv] at this
    linarith
  have hclip : ∀ t ≤ t0, clipTime p t = t := by
    intro t htt
    unfold clipTime
    split
    · rfl
    · linarith
  have hlog : ∀ x : ℝ, (log10 x : ℝ) = Real.logb 10 x := fun _ => rfl
  have hm0 : (halo v ld).logm0 - p.logm0 = 0 := by
    have := key t0 h0
    simpa [coefEarly, coefLate, hclip t0 le_rfl, hlog, htoday] using this
  have hstep : ∀ t, t ∈ ld.t_target → 0 < t → t < t0 →
      ((halo v ld).early_index - p.early_index) * (1 - Real.sigmoid (MAH_K * (Real.logb 10 t - p.logtc))) +
        ((halo v ld).late_index - p.late_index) * Real.sigmoid (MAH_K * (Real.logb 10 t - p.logtc)) = 0 := by
    intro t htm ht0 hlt
    have := key t htm
    rw [hm0, coefEarly, coefLate, hclip t hlt.le, hlog, htoday, zero_add, ← mul_assoc, ← mul_assoc, ← add_mul] at this
    exact (mul_eq_zero.1 this).resolve_right (sub_neg.2 (Real.logb_lt_logb (by norm_num) ht0 hlt)).ne
  have k1 := hstep t1 h1 hpos (h12.trans h20)
  have k2 := hstep t2 h2 (hpos.trans h12) h20
  have hlt : Real.sigmoid (MAH_K * (Real.logb 10 t1 - p.logtc)) < Real.sigmoid (MAH_K * (Real.logb 10 t2 - p.logtc)) := by
    apply Real.sigmoid_strictMono
    have := Real.logb_lt_logb (b := 10) (by norm_num) hpos h12
    unfold MAH_K
    linarith
  set s1 := Real.sigmoid (MAH_K * (Real.logb 10 t1 - p.logtc))
  set s2 := Real.sigmoid (MAH_K * (Real.logb 10 t2 - p.logtc))
  have hdiff : (s2 - s1) * (((halo v ld).late_index - p.late_index) - ((halo v ld).early_index - p.early_index)) = 0 := by
    linear_combination k2 - k1
  have heq := (mul_eq_zero.1 hdiff).resolve_left (sub_pos.2 hlt).ne'
  have hde : (halo v ld).early_index - p.early_index = 0 := by linear_combination k1 - s1 * heq
  have hdl : (halo v ld).late_index - p.late_index = 0 := by linarith
  have ul : v.u_late_index = u.u_late_index :=
    (C18_strictly_increasing ⟨u.u_logm0, u.u_logtc, u.u_early_index, u.u_late_index, ld.u_t_peak⟩).2.2.2.1.injective (sub_eq_zero.1 hdl)
  have um : v.u_logm0 = u.u_logm0 :=
    (C18_strictly_increasing ⟨u.u_logm0, u.u_logtc, u.u_early_index, u.u_late_index, ld.u_t_peak⟩).1.injective (sub_eq_zero.1 hm0)
  have ue : v.u_early_index = u.u_early_index := by
    refine (C18_strictly_increasing ⟨u.u_logm0, u.u_logtc, u.u_early_index, u.u_late_index, ld.u_t_peak⟩).2.2.1.injective ?_
    have := sub_eq_zero.1 hde
    change sigmoid v.u_early_index _ _ (get_bounded_diffmah_param v.u_late_index _) _ = _ at this
    rw [ul] at this
    exact this
  apply hne
  cases v; cases u
  simp_all

/-- Every halo has target data, two of them after the peak time, for which the hypotheses of C148 hold although not all residuals
vanish. -/
example (u : VariedU ℝ) : ∃ ld : LossData ℝ, ld.t_target.length = ld.log_mah_target.length ∧ ld.t_target ≠ [] ∧
    (∀ t ∈ ld.t_target, t ≠ 0) ∧ (loss_and_grads_kern u ld).2.u_logm0 = 0 ∧ (loss_and_grads_kern u ld).2.u_early_index = 0 ∧
    (loss_and_grads_kern u ld).2.u_late_index = 0 ∧ residuals u ld = [0, 0, 0, -1, 1] ∧ (1 ∈ ld.t_target ∧ 5 ∈ ld.t_target ∧ 10 ∈ ld.t_target) ∧
    ld.logt0 = Real.logb 10 10 ∧ 10 ≤ (halo u ld).t_peak := by
  set p := halo u ⟨[], [], 10.025, 1⟩ with hp
  let ld : LossData ℝ := ⟨[1, 5, 10, 11, 13],
    [logmh_at_t_obs p 1 1, logmh_at_t_obs p 5 1, logmh_at_t_obs p 10 1, logmh_at_t_obs p 11 1 + 1, logmh_at_t_obs p 13 1 - 1],
    10.025, 1⟩
  have e : halo u ld = p := rfl
  have htp : p.t_peak = 10.025 := by
    change (0.05 : ℝ) + (20.0 - 0.05) * Real.sigmoid (0.1 * (10.025 - 0.5 * (0.05 + 20.0))) = 10.025
    norm_num [Real.sigmoid_zero]
  have hclip : clipTime p 11 = clipTime p 13 := by
    unfold clipTime; rw [htp]; norm_num
  have hr : residuals u ld = [0, 0, 0, -1, 1] := by
    change [logmh_at_t_obs p 1 1 - logmh_at_t_obs p 1 1, logmh_at_t_obs p 5 1 - logmh_at_t_obs p 5 1,
      logmh_at_t_obs p 10 1 - logmh_at_t_obs p 10 1, logmh_at_t_obs p 11 1 - (logmh_at_t_obs p 11 1 + 1), logmh_at_t_obs p 13 1 - (logmh_at_t_obs p 13 1 - 1)] = _
    simp
  have ho : ∀ f : ℝ → ℝ, f 11 = f 13 → over ld (fun q => res u ld q * f q.1) = 0 := by
    intro f hf
    have : over ld (fun q => res u ld q * f q.1) = mean [(logmh_at_t_obs p 1 1 - logmh_at_t_obs p 1 1) * f 1,
      (logmh_at_t_obs p 5 1 - logmh_at_t_obs p 5 1) * f 5, (logmh_at_t_obs p 10 1 - logmh_at_t_obs p 10 1) * f 10, (logmh_at_t_obs p 11 1 - (logmh_at_t_obs p 11 1 + 1)) * f 11,
      (logmh_at_t_obs p 13 1 - (logmh_at_t_obs p 13 1 - 1)) * f 13] := rfl
    rw [this, hf]
    simp [mean]
  have h0 : over ld (res u ld) = 0 := by simpa using ho (fun _ => 1) rfl
  have h1 := ho (coefEarly (halo u ld) ld.logt0) (by rw [e]; unfold coefEarly; rw [hclip])
  have h2 := ho (coefLate (halo u ld) ld.logt0) (by rw [e]; unfold coefLate; rw [hclip])
  have hnz : ∀ t ∈ ld.t_target, t ≠ 0 := by simp [ld]
  obtain ⟨g0, g1, g2⟩ := (normal_equations u ld rfl (by simp [ld]) hnz).2 ⟨h0, h1, h2⟩
  exact ⟨ld, rfl, by simp [ld], hnz, g0, g1, g2, hr, by simp [ld], by simp [ld, Real.logb_self_eq_one], by rw [e, htp]; norm_num⟩

end Diffmah.Fit

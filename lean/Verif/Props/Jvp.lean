import Verif.Model.Jvp
import Verif.Props.Float32Rate
import Verif.Props.FitterTarget

/-!
# C132: histories and rates are differentiated correctly in every argument
-/

namespace Diffmah

open JOps

/-! ## Specification -/

/-- `p + s v` -/
def MahParams.along (p v : MahParams ℝ) (s : ℝ) : MahParams ℝ :=
  ⟨p.logm0 + s * v.logm0, p.logtc + s * v.logtc, p.early_index + s * v.early_index, p.late_index + s * v.late_index,
    p.t_peak + s * v.t_peak⟩

/-- `u + s v` -/
def MahUParams.along (u v : MahUParams ℝ) (s : ℝ) : MahUParams ℝ :=
  ⟨u.u_logm0 + s * v.u_logm0, u.u_logtc + s * v.u_logtc, u.u_early_index + s * v.u_early_index,
    u.u_late_index + s * v.u_late_index, u.u_t_peak + s * v.u_t_peak⟩

/-- `ts + s dts` -/
noncomputable def timesAlong (ts dts : List ℝ) (s : ℝ) : List ℝ := List.zipWith (fun t dt => t + s * dt) ts dts

/-! ## Lemmas -/

theorem isAD_line (a b : ℝ) : IsAD (fun s => a + s * b) 0 ⟨a, b⟩ := by
  refine ⟨by simp, ?_⟩
  simpa using (((hasDerivAt_id (0 : ℝ)).mul_const b).const_add a)

theorem isAD_along (p v : MahParams ℝ) : IsADParams (fun s => p.along v s) 0 (p.dual v) :=
  ⟨isAD_line _ _, isAD_line _ _, isAD_line _ _, isAD_line _ _, isAD_line _ _⟩

theorem isAD_along_u (u v : MahUParams ℝ) :
    IsADParams (fun s => get_bounded_mah_params (u.along v s)) 0 (get_bounded_mah_params (u.dual v)) := by
  have hlate := Fit.isAD_bounded (isAD_line u.u_late_index v.u_late_index) MAH_PBOUNDS.late_index
  exact ⟨Fit.isAD_bounded (isAD_line _ _) _, Fit.isAD_bounded (isAD_line _ _) _,
    IsAD.sigmoid (isAD_line _ _) (IsAD.lit _ _) (IsAD.lit _ _) hlate (IsAD.lit _ _), hlate, Fit.isAD_bounded (isAD_line _ _) _⟩

theorem isAD_rate_noq {p : ℝ → MahParams ℝ} {x : ℝ} {P : MahParams Dual} (hp : IsADParams p x P) {t l : ℝ → ℝ} {T L : Dual}
    (ht : IsAD t x T) (hl : IsAD l x L) (h0 : t x ≠ 0) :
    IsAD (fun y => dmhdt_noq_grad_rev (p y) (t y) (l y)) x (dmhdt_noq_grad_rev P T L) := by
  have hlt := ht.log10 h0
  have hs := ((IsAD.lit MAH_K x).mul (hlt.sub hp.logtc)).sigm
  have hd := hp.late.sub hp.early
  have hi := hp.early.add (hd.mul hs)
  have hg := hlt.sub hl
  have hm := ((hi.mul hg).add hp.logm0).pow10
  have hG := ((IsAD.lit 10 x).ln (by change (10 : ℝ) ≠ 0; norm_num)).mul hm
  refine IsAD.div (IsAD.div ((hG.mul hi).add (((((hG.mul hg).mul hd).mul ((IsAD.lit 1 x).sub hs)).mul hs).mul (IsAD.lit MAH_K x)))
    (IsAD.lit (Real.log 10) x) ?_) ht h0
  exact (Real.log_pos (by norm_num)).ne'

/-- If `t - t_peak` does not change at first order along the curve because it does not change at all, or if it is not zero, the
code's branches are differentiated correctly. -/
theorem isAD_where {f g a b : ℝ → ℝ} {x : ℝ} {F G A B : Dual} (hf : IsAD f x F) (hg : IsAD g x G)
    (ha : IsAD a x A) (hb : IsAD b x B) (hne : f x ≠ g x ∨ ∀ y, f y - g y = f x - g x) :
    IsAD (fun y => jwhere (lt (f y) (g y)) (a y) (b y)) x (jwhere (lt F G) A B) := by
  rcases hne with h | h
  · exact IsAD.jwhere hf hg ha hb h
  · have hlt : (lt F G) ↔ f x < g x := by
      change F.v < G.v ↔ _; rw [hf.1, hg.1]
    have hy : ∀ y, (f y < g y) ↔ f x < g x := fun y => by
      rw [← sub_neg, h y, sub_neg]
    by_cases c : f x < g x
    · have e : (fun y => Diffmah.jwhere (lt (f y) (g y)) (a y) (b y)) = a := by
        funext y; exact if_pos ((hy y).2 c)
      rw [e, show Diffmah.jwhere (lt F G) A B = A from if_pos (hlt.2 c)]
      exact ha
    · have e : (fun y => Diffmah.jwhere (lt (f y) (g y)) (a y) (b y)) = b := by
        funext y; exact if_neg fun hh => c ((hy y).1 hh)
      rw [e, show Diffmah.jwhere (lt F G) A B = B from if_neg fun hh => c (hlt.1 hh)]
      exact hb

theorem rate_rev_eq (p : MahParams ℝ) {t : ℝ} (lgt0 : ℝ) (ht : 0 < t) :
    dmhdt_kern_scalar_rev p t lgt0 = dmhdt_kern_scalar p t lgt0 := by
  have h := congrArg (fun r => r.1[0]?) (F32.C122_same_function p [t] lgt0 (by simpa using ht))
  simpa [singlehalo_rate_getElem?, mah_singlehalo_rev] using h

/-- Both histories along any curve of parameters -/
theorem isAD_history {p : ℝ → MahParams ℝ} {P : MahParams Dual} (hp : IsADParams p 0 P) (hpk : 0 < (p 0).t_peak) {t dt : ℝ}
    (ht : 0 < t) (lgt0 dl : ℝ) (hne : t ≠ (p 0).t_peak ∨ ∀ s, (p s).t_peak = (p 0).t_peak + s * dt) :
    HasDerivAt (fun s => dmhdt_kern_scalar (p s) (t + s * dt) (lgt0 + s * dl))
      (dmhdt_kern_scalar_rev P ⟨t, dt⟩ ⟨lgt0, dl⟩).d 0 ∧
    HasDerivAt (fun s => log_mah_kern (p s) (t + s * dt) (lgt0 + s * dl)) (log_mah_kern P ⟨t, dt⟩ ⟨lgt0, dl⟩).d 0 := by
  have hT := isAD_line t dt
  have hL := isAD_line lgt0 dl
  have h0 : t + 0 * dt ≠ 0 := by simpa using ht.ne'
  have n1 : t + 0 * dt ≠ (p 0).t_peak ∨ ∀ s, (t + s * dt) - (p s).t_peak = (t + 0 * dt) - (p 0).t_peak := by
    rcases hne with h | h
    · exact Or.inl (by simpa using h)
    · exact Or.inr fun s => by rw [h s]; ring
  constructor
  · have h := isAD_where (f := fun s => (p s).t_peak) hp.t_peak hT (IsAD.lit 0.0 0)
      ((isAD_rate_noq hp hT hL h0).div (IsAD.lit 1e9 0) (by change (1e9 : ℝ) ≠ 0; norm_num))
      (n1.imp Ne.symm fun h s => by linarith [h s])
    refine h.2.congr_of_eventuallyEq ?_
    have hc : ContinuousAt (fun s : ℝ => t + s * dt) 0 := hT.2.continuousAt
    filter_upwards [hc.eventually (lt_mem_nhds (show (0 : ℝ) < t + 0 * dt by simpa using ht))] with s hs
    exact (rate_rev_eq (p s) (lgt0 + s * dl) hs).symm
  · exact (isAD_where hT hp.t_peak (isAD_log_mah_noq hp hT hL h0) (isAD_log_mah_noq hp hp.t_peak hL hpk.ne') n1).2

theorem zip_get {ts dts : List ℝ} {j : ℕ} {t dt : ℝ} (h1 : ts[j]? = some t) (h2 : dts[j]? = some dt) (s : ℝ) :
    (timesAlong ts dts s)[j]? = some (t + s * dt) ∧ (List.zipWith Dual.mk ts dts)[j]? = some ⟨t, dt⟩ := by
  constructor <;> simp [timesAlong, List.getElem?_zipWith, h1, h2]

theorem logmah_get (p : MahParams ℝ) (tarr : List ℝ) (lgt0 : ℝ) (j : ℕ) :
    (mah_singlehalo p tarr lgt0).2[j]? = tarr[j]?.map fun t => log_mah_kern p t lgt0 := by
  simp [mah_singlehalo, diffmah_kern]

/-! ## C132 -/

/-- C132. Every directional derivative of `mah_singlehalo`: whatever the speeds of the five parameters, of the times and of the
present day, the tangents of the accretion rate and of the log mass at each positive time other than the peak are the derivatives
of what the function returns. At the peak itself they are so too, as long as the time does not move relative to the peak. -/
theorem C132_directional (p v : MahParams ℝ) (ts dts : List ℝ) (lgt0 dlgt0 : ℝ) (hp : 0 < p.t_peak) (j : ℕ) (t dt : ℝ)
    (hj : ts[j]? = some t) (hdj : dts[j]? = some dt) (ht : 0 < t) (hne : t ≠ p.t_peak ∨ dt = v.t_peak) :
    ∃ rate' mass' : ℝ, (mah_singlehalo_jvp p v ts dts lgt0 dlgt0).1[j]? = some rate' ∧
      (mah_singlehalo_jvp p v ts dts lgt0 dlgt0).2[j]? = some mass' ∧
      HasDerivAt (fun s => (mah_singlehalo (p.along v s) (timesAlong ts dts s) (lgt0 + s * dlgt0)).1.getD j 0) rate' 0 ∧
      HasDerivAt (fun s => (mah_singlehalo (p.along v s) (timesAlong ts dts s) (lgt0 + s * dlgt0)).2.getD j 0) mass' 0 := by
  obtain ⟨h1, h2⟩ := isAD_history (isAD_along p v) (by simpa [MahParams.along] using hp) ht lgt0 dlgt0 (dt := dt)
    (hne.imp (fun h => by simpa [MahParams.along] using h) fun h s => by simp [MahParams.along, h])
  have e := fun s => zip_get hj hdj s
  refine ⟨(dmhdt_kern_scalar_rev (p.dual v) ⟨t, dt⟩ ⟨lgt0, dlgt0⟩).d, (log_mah_kern (p.dual v) ⟨t, dt⟩ ⟨lgt0, dlgt0⟩).d, ?_, ?_, ?_, ?_⟩
  · simp only [mah_singlehalo_jvp, mah_singlehalo_rev, List.getElem?_map, (e 0).2, Option.map_some]
  · simp only [mah_singlehalo_jvp, mah_singlehalo_rev, List.getElem?_map, (e 0).2, Option.map_some]
  · simp only [List.getD_eq_getElem?_getD, singlehalo_rate_getElem?, (e _).1, Option.map_some, Option.getD_some]
    exact h1
  · simp only [List.getD_eq_getElem?_getD, logmah_get, (e _).1, Option.map_some, Option.getD_some]
    exact h2

/-- C132. The same through the unbounded parameters, which are never too large for it. -/
theorem C132_unbounded (u v : MahUParams ℝ) (ts dts : List ℝ) (lgt0 dlgt0 : ℝ) (j : ℕ) (t dt : ℝ)
    (hj : ts[j]? = some t) (hdj : dts[j]? = some dt) (ht : 0 < t)
    (hne : t ≠ (get_bounded_mah_params u).t_peak ∨ dt = 0 ∧ v.u_t_peak = 0) :
    ∃ rate' mass' : ℝ, (diffmah_kern_u_params_jvp u v ts dts lgt0 dlgt0).1[j]? = some rate' ∧
      (diffmah_kern_u_params_jvp u v ts dts lgt0 dlgt0).2[j]? = some mass' ∧
      HasDerivAt (fun s => (diffmah_kern_u_params (u.along v s) (timesAlong ts dts s) (lgt0 + s * dlgt0)).1.getD j 0) rate' 0 ∧
      HasDerivAt (fun s => (diffmah_kern_u_params (u.along v s) (timesAlong ts dts s) (lgt0 + s * dlgt0)).2.getD j 0) mass' 0 := by
  have e0 : u.along v 0 = u := by simp [MahUParams.along]
  have hb : 0 < (get_bounded_mah_params (u.along v 0)).t_peak := by
    have h := (C12_bounded_params_valid (u.along v 0)).tpeak_lo
    norm_num at h
    linarith
  obtain ⟨h1, h2⟩ := isAD_history (isAD_along_u u v) hb ht lgt0 dlgt0 (dt := dt)
    (hne.imp (fun h => by rw [e0]; exact h) fun h s => by
      rw [h.1]; simp [MahUParams.along, get_bounded_mah_params, h.2])
  have e := fun s => zip_get hj hdj s
  have f : ∀ s, diffmah_kern_u_params (u.along v s) (timesAlong ts dts s) (lgt0 + s * dlgt0) =
      mah_singlehalo (get_bounded_mah_params (u.along v s)) (timesAlong ts dts s) (lgt0 + s * dlgt0) := fun s => rfl
  refine ⟨(dmhdt_kern_scalar_rev (get_bounded_mah_params (u.dual v)) ⟨t, dt⟩ ⟨lgt0, dlgt0⟩).d,
    (log_mah_kern (get_bounded_mah_params (u.dual v)) ⟨t, dt⟩ ⟨lgt0, dlgt0⟩).d, ?_, ?_, ?_, ?_⟩
  · simp only [diffmah_kern_u_params_jvp, mah_singlehalo_rev, List.getElem?_map, (e 0).2, Option.map_some]
  · simp only [diffmah_kern_u_params_jvp, mah_singlehalo_rev, List.getElem?_map, (e 0).2, Option.map_some]
  · simp only [f, List.getD_eq_getElem?_getD, singlehalo_rate_getElem?, (e _).1, Option.map_some, Option.getD_some]
    exact h1
  · simp only [f, List.getD_eq_getElem?_getD, logmah_get, (e _).1, Option.map_some, Option.getD_some]
    exact h2

/-- C132. The gradient of the log mass, in closed form: with `t'` the time or the peak, whichever is first, `x = log10 t' - lgt0`
and `s` the logistic function of `3.5 (log10 t' - logtc)`, the derivatives are `1` for `logm0`, `(1 - s) x` for the early index,
`s x` for the late index and `3.5 s (1 - s) (early - late) x` for `logtc`; the peak has no influence before it. -/
theorem C132_gradient (p v : MahParams ℝ) (ts : List ℝ) (lgt0 : ℝ) (j : ℕ) (t : ℝ) (hj : ts[j]? = some t) (ht : 0 < t)
    (hv : t < p.t_peak ∨ v.t_peak = 0) :
    let x := Real.logb 10 (min t p.t_peak) - lgt0
    let s := 1 / (1 + Real.exp (-(3.5 * (Real.logb 10 (min t p.t_peak) - p.logtc))))
    (mah_singlehalo_jvp p v ts (List.replicate ts.length 0) lgt0 0).2[j]? = some (v.logm0 + (1 - s) * x * v.early_index +
      s * x * v.late_index + 3.5 * s * (1 - s) * (p.early_index - p.late_index) * x * v.logtc) := by
  intro x s
  have hj' : (List.zipWith Dual.mk ts (List.replicate ts.length 0))[j]? = some ⟨t, 0⟩ := by
    have : j < ts.length := (List.getElem?_eq_some_iff.1 hj).1
    rw [List.getElem?_zipWith, hj, List.getElem?_replicate, if_pos this]
  simp only [mah_singlehalo_jvp, mah_singlehalo_rev, List.getElem?_map, hj', Option.map_some, Option.some.injEq]
  have key : ∀ (a b : ℝ), min t p.t_peak = a → b = 0 →
      (log_mah_noq_kern (p.dual v) ⟨a, b⟩ ⟨lgt0, 0⟩).d = v.logm0 + (1 - s) * x * v.early_index +
        s * x * v.late_index + 3.5 * s * (1 - s) * (p.early_index - p.late_index) * x * v.logtc := by
    intro a b ha hb
    subst hb
    have hs : Real.sigmoid (MAH_K * (Real.logb 10 a - p.logtc)) = s := by
      rw [← ha, Real.sigmoid_def, MAH_K]; exact (one_div _).symm
    have hx : Real.logb 10 a - lgt0 = x := by rw [← ha]
    change ((v.early_index + ((v.late_index - v.early_index) * Real.sigmoid (MAH_K * (Real.logb 10 a - p.logtc)) +
      (p.late_index - p.early_index) * ((0 * (Real.logb 10 a - p.logtc) + MAH_K * (0 / (a * Real.log 10) - v.logtc)) *
        (Real.sigmoid (MAH_K * (Real.logb 10 a - p.logtc)) * (1 - Real.sigmoid (MAH_K * (Real.logb 10 a - p.logtc))))))) *
      (Real.logb 10 a - lgt0) + (p.early_index + (p.late_index - p.early_index) *
        Real.sigmoid (MAH_K * (Real.logb 10 a - p.logtc))) * (0 / (a * Real.log 10) - 0)) + v.logm0 = _
    rw [hs, hx, MAH_K]
    ring
  by_cases c : t < p.t_peak
  · have e : log_mah_kern (p.dual v) ⟨t, 0⟩ ⟨lgt0, 0⟩ = log_mah_noq_kern (p.dual v) ⟨t, 0⟩ ⟨lgt0, 0⟩ := if_pos c
    rw [e]
    exact key t 0 (min_eq_left c.le) rfl
  · have e : log_mah_kern (p.dual v) ⟨t, 0⟩ ⟨lgt0, 0⟩ = log_mah_noq_kern (p.dual v) ⟨p.t_peak, v.t_peak⟩ ⟨lgt0, 0⟩ := if_neg c
    rw [e]
    exact key p.t_peak v.t_peak (min_eq_right (not_lt.1 c)) (hv.resolve_left c)

/-- C132. After the peak the accretion rate has no gradient at all. -/
theorem C132_no_gradient_after_peak (p v : MahParams ℝ) (ts dts : List ℝ) (lgt0 dlgt0 : ℝ) (j : ℕ) (t dt : ℝ)
    (hj : ts[j]? = some t) (hdj : dts[j]? = some dt) (h : p.t_peak < t) :
    (mah_singlehalo_jvp p v ts dts lgt0 dlgt0).1[j]? = some 0 := by
  have e := (zip_get hj hdj 0).2
  simp only [mah_singlehalo_jvp, mah_singlehalo_rev, List.getElem?_map, e, Option.map_some, Option.some.injEq]
  exact congrArg Dual.d (if_pos h)

/-- The default halo, moving in all its parameters, before, at and after its peak -/
example (v : MahParams ℝ) (hv : v.t_peak = 0) :
    (0 : ℝ) < DEFAULT_MAH_PARAMS.t_peak ∧ (∀ t ∈ [(1 : ℝ), 14, 15], 0 < t) ∧
    (∀ t ∈ [(1 : ℝ), 14, 15], t ≠ DEFAULT_MAH_PARAMS.t_peak ∨ (0 : ℝ) = v.t_peak) := by
  refine ⟨by norm_num [DEFAULT_MAH_PARAMS], ?_, fun _ _ => Or.inr hv.symm⟩
  intro t ht
  simp at ht
  rcases ht with rfl | rfl | rfl <;> norm_num

/-- Raising the late index of the default halo lowers its mass at 1.38 Gyr, with today at 13.8 Gyr. -/
example : ∃ r, (mah_singlehalo_jvp DEFAULT_MAH_PARAMS ⟨0, 0, 0, 1, 0⟩ [1.38] [0] (Real.logb 10 13.8) 0).2[0]? = some r ∧ r < 0 := by
  refine ⟨_, C132_gradient DEFAULT_MAH_PARAMS ⟨0, 0, 0, 1, 0⟩ [1.38] (Real.logb 10 13.8) 0 1.38 rfl (by norm_num) (Or.inr rfl), ?_⟩
  have hm : min (1.38 : ℝ) DEFAULT_MAH_PARAMS.t_peak = 1.38 := min_eq_left (by norm_num [DEFAULT_MAH_PARAMS])
  rw [hm]
  have hx : Real.logb 10 1.38 - Real.logb 10 13.8 < 0 := sub_neg.2 (Real.logb_lt_logb (by norm_num) (by norm_num) (by norm_num))
  have hs : (0 : ℝ) < 1 / (1 + Real.exp (-(3.5 * (Real.logb 10 1.38 - DEFAULT_MAH_PARAMS.logtc)))) := by positivity
  simp only [mul_zero, mul_one, zero_add, add_zero]
  exact mul_neg_of_pos_of_neg hs hx

end Diffmah

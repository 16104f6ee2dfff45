import Verif.Lemmas.XR
import Verif.Model.Utils
import Verif.Props.Kernels

/-!
# Parameter transforms and special values (C12-C16, C18-C20)
-/

namespace Diffmah

open Set XR

/-! ## C19, C20: the logistic helper -/

/-- C19. Strictly between the asymptotes (in either order). -/
theorem C19_sigmoid_between (x x0 k ylo yhi : ℝ) (h : ylo ≠ yhi) :
    min ylo yhi < sigmoid x x0 k ylo yhi ∧ sigmoid x x0 k ylo yhi < max ylo yhi := by
  rcases lt_or_gt_of_ne h with h | h
  · rw [min_eq_left h.le, max_eq_right h.le]; exact sigmoid_mem_Ioo h
  · rw [min_eq_right h.le, max_eq_left h.le]; exact sigmoid_mem_Ioo' h

/-- C19. Midpoint, monotonicity and limits. -/
theorem C19_sigmoid_shape (x0 k ylo yhi : ℝ) (hk : 0 < k) :
    sigmoid x0 x0 k ylo yhi = (ylo + yhi) / 2 ∧
    (ylo < yhi → StrictMono fun x => sigmoid x x0 k ylo yhi) ∧
    (yhi < ylo → StrictAnti fun x => sigmoid x x0 k ylo yhi) ∧
    Filter.Tendsto (fun x => sigmoid x x0 k ylo yhi) Filter.atBot (nhds ylo) ∧
    Filter.Tendsto (fun x => sigmoid x x0 k ylo yhi) Filter.atTop (nhds yhi) := by
  refine ⟨?_, sigmoid_strictMono hk, sigmoid_strictAnti hk, sigmoid_tendsto_atBot hk,
    sigmoid_tendsto_atTop hk⟩
  rw [sigmoid_real, sub_self, mul_zero, Real.sigmoid_zero]; ring

/-- C20. `_inverse_sigmoid` undoes `_sigmoid`. -/
theorem C20_inverse_of_sigmoid (x x0 k ylo yhi : ℝ) (hk : k ≠ 0) (h : ylo ≠ yhi) :
    inverse_sigmoid (sigmoid x x0 k ylo yhi) x0 k ylo yhi = x :=
  inverse_sigmoid_sigmoid hk h

/-- C20. `_sigmoid` undoes `_inverse_sigmoid` between the asymptotes. -/
theorem C20_sigmoid_of_inverse (y x0 k ylo yhi : ℝ) (hk : k ≠ 0)
    (h : min ylo yhi < y ∧ y < max ylo yhi) :
    sigmoid (inverse_sigmoid y x0 k ylo yhi) x0 k ylo yhi = y := by
  apply sigmoid_inverse_sigmoid hk
  rcases le_total ylo yhi with h' | h'
  · rw [min_eq_left h', max_eq_right h'] at h; exact Or.inl h
  · rw [min_eq_right h', max_eq_left h'] at h; exact Or.inr h

/-- C20. With special values: finite exactly between the asymptotes; the asymptotes themselves map
to `-inf` and `+inf`; everything else to NaN. -/
theorem C20_inverse_special_values (y x0 k ylo yhi : ℝ) (hk : 0 < k) (h : ylo < yhi) :
    (y < ylo ∨ yhi < y →
      inverse_sigmoid (fin y) (fin x0) (fin k) (fin ylo) (fin yhi) = nan) ∧
    (y = ylo → inverse_sigmoid (fin y) (fin x0) (fin k) (fin ylo) (fin yhi) = ninf) ∧
    (y = yhi → inverse_sigmoid (fin y) (fin x0) (fin k) (fin ylo) (fin yhi) = pinf) ∧
    (ylo < y → y < yhi → inverse_sigmoid (fin y) (fin x0) (fin k) (fin ylo) (fin yhi)
      = fin (inverse_sigmoid y x0 k ylo yhi)) := by
  refine ⟨inverse_sigmoid_out h, ?_, ?_, inverse_sigmoid_fin_in hk⟩
  · rintro rfl; exact inverse_sigmoid_lo hk h
  · rintro rfl; exact inverse_sigmoid_hi hk h

/-- C20. The copy in `utils.py` is the same pair of functions, over any number system. -/
theorem C20_utils_copy {α : Type} [Add α] [Sub α] [Mul α] [Div α] [JOps α] (x x0 k ylo yhi : α) :
    Utils.sigmoid x x0 k ylo yhi = sigmoid x x0 k ylo yhi ∧
    Utils.inverse_sigmoid x x0 k ylo yhi = inverse_sigmoid x x0 k ylo yhi :=
  ⟨rfl, rfl⟩

/-- C20. Hence the copies in `utils.py` invert each other too. -/
theorem C20_utils_round_trips (x y x0 k ylo yhi : ℝ) (hk : k ≠ 0) :
    (ylo ≠ yhi → Utils.inverse_sigmoid (Utils.sigmoid x x0 k ylo yhi) x0 k ylo yhi = x) ∧
    (min ylo yhi < y → y < max ylo yhi →
      Utils.sigmoid (Utils.inverse_sigmoid y x0 k ylo yhi) x0 k ylo yhi = y) := by
  simp only [(C20_utils_copy _ _ _ _ _).1, (C20_utils_copy _ _ _ _ _).2]
  exact ⟨C20_inverse_of_sigmoid x x0 k ylo yhi hk,
    fun h1 h2 => C20_sigmoid_of_inverse y x0 k ylo yhi hk ⟨h1, h2⟩⟩

example : (0 : ℝ) < 0.1 ∧ min (2 : ℝ) 1 < 1.5 ∧ (1.5 : ℝ) < max 2 1 := by norm_num

/-! ## C12 -/

theorem bounded_mem (u : ℝ) {b : ℝ × ℝ} (hb : b.1 < b.2) :
    b.1 < get_bounded_diffmah_param u b ∧ get_bounded_diffmah_param u b < b.2 :=
  sigmoid_mem_Ioo hb

/-- C12. Every finite unbounded tuple maps strictly inside the bounds, with `late < early`. -/
theorem C12_bounded_params_valid (u : MahUParams ℝ) : Spec.Valid (get_bounded_mah_params u) := by
  have h1 := bounded_mem u.u_logm0 (b := MAH_PBOUNDS.logm0) (by norm_num [MAH_PBOUNDS])
  have h2 := bounded_mem u.u_logtc (b := MAH_PBOUNDS.logtc) (by norm_num [MAH_PBOUNDS])
  have h3 := bounded_mem u.u_late_index (b := MAH_PBOUNDS.late_index) (by norm_num [MAH_PBOUNDS])
  have h4 := bounded_mem u.u_t_peak (b := MAH_PBOUNDS.t_peak) (by norm_num [MAH_PBOUNDS])
  set late := get_bounded_diffmah_param u.u_late_index MAH_PBOUNDS.late_index with hl
  have h5 : late < MAH_PBOUNDS.early_index.2 := by
    refine h3.2.trans ?_; norm_num [MAH_PBOUNDS]
  have h6 : sigmoid u.u_early_index (JOps.lit 0.0) (JOps.lit BOUNDING_K) late
      (JOps.lit MAH_PBOUNDS.early_index.2) ∈ Ioo late MAH_PBOUNDS.early_index.2 :=
    sigmoid_mem_Ioo h5
  have e1 : (get_bounded_mah_params u).early_index = sigmoid u.u_early_index (JOps.lit 0.0)
    (JOps.lit BOUNDING_K) late (JOps.lit MAH_PBOUNDS.early_index.2) := rfl
  have e2 : (get_bounded_mah_params u).late_index = late := rfl
  have e3 : (get_bounded_mah_params u).logm0 = get_bounded_diffmah_param u.u_logm0 MAH_PBOUNDS.logm0 := rfl
  have e4 : (get_bounded_mah_params u).logtc = get_bounded_diffmah_param u.u_logtc MAH_PBOUNDS.logtc := rfl
  have e5 : (get_bounded_mah_params u).t_peak = get_bounded_diffmah_param u.u_t_peak MAH_PBOUNDS.t_peak := rfl
  norm_num [MAH_PBOUNDS] at h1 h2 h3 h4 h6
  norm_num [MAH_PBOUNDS] at e1 e2 e3 e4 e5 hl
  constructor
  · constructor <;> norm_num <;> simp only [e1, e2, e3, e4, e5] <;> linarith [h1.1, h1.2, h2.1, h2.2, h3.1, h3.2, h4.1, h4.2, h6.1, h6.2]
  · rw [e1, e2]; exact h6.1

/-- C12 with special values: finite in, finite out. -/
theorem C12_bounded_params_finite (u : MahUParams ℝ) :
    ∃ p : MahParams ℝ, Spec.Valid p ∧ get_bounded_mah_params (u.map fin) = p.map fin :=
  ⟨_, C12_bounded_params_valid u, bounded_params_fin u⟩

/-! ## C13, C14 -/

theorem bounded_unbounded {y : ℝ} {b : ℝ × ℝ} (h1 : b.1 < y) (h2 : y < b.2) :
    get_bounded_diffmah_param (get_unbounded_diffmah_param y b) b = y :=
  sigmoid_inverse_sigmoid BOUNDING_K_pos.ne' (Or.inl ⟨h1, h2⟩)

theorem unbounded_bounded (u : ℝ) {b : ℝ × ℝ} (hb : b.1 < b.2) :
    get_unbounded_diffmah_param (get_bounded_diffmah_param u b) b = u :=
  inverse_sigmoid_sigmoid BOUNDING_K_pos.ne' hb.ne

/-- C13. Unbounding inverts bounding on all of `R^5`. -/
theorem C13_unbounded_of_bounded (u : MahUParams ℝ) :
    get_unbounded_mah_params (get_bounded_mah_params u) = u := by
  have hv := C12_bounded_params_valid u
  simp only [get_unbounded_mah_params, get_bounded_mah_params, get_u_early_late, get_early_late]
  ext
  · exact unbounded_bounded _ (by norm_num [MAH_PBOUNDS])
  · exact unbounded_bounded _ (by norm_num [MAH_PBOUNDS])
  · refine inverse_sigmoid_sigmoid BOUNDING_K_pos.ne' ?_
    have h3 := (bounded_mem u.u_late_index (b := MAH_PBOUNDS.late_index)
      (by norm_num [MAH_PBOUNDS])).2
    refine (h3.trans ?_).ne
    norm_num [MAH_PBOUNDS, JOps.lit]
  · exact unbounded_bounded _ (by norm_num [MAH_PBOUNDS])
  · exact unbounded_bounded _ (by norm_num [MAH_PBOUNDS])

/-- C14. Bounding inverts unbounding on valid parameters. -/
theorem C14_bounded_of_unbounded (p : MahParams ℝ) (hp : Spec.Valid p) :
    get_bounded_mah_params (get_unbounded_mah_params p) = p := by
  have := hp.logm0_lo; have := hp.logm0_hi; have := hp.logtc_lo; have := hp.logtc_hi
  have := hp.early_lo; have := hp.early_hi; have := hp.late_lo; have := hp.late_hi
  have := hp.tpeak_lo; have := hp.tpeak_hi; have := hp.late_lt_early
  have hlate : get_bounded_diffmah_param
      (get_unbounded_diffmah_param p.late_index MAH_PBOUNDS.late_index) MAH_PBOUNDS.late_index
      = p.late_index := by
    apply bounded_unbounded <;> norm_num [MAH_PBOUNDS] <;> norm_num at * <;> linarith
  simp only [get_unbounded_mah_params, get_bounded_mah_params, get_u_early_late, get_early_late,
    hlate]
  ext
  · apply bounded_unbounded <;> norm_num [MAH_PBOUNDS] <;> linarith
  · apply bounded_unbounded <;> norm_num [MAH_PBOUNDS] <;> linarith
  · apply sigmoid_inverse_sigmoid BOUNDING_K_pos.ne'
    left
    constructor
    · exact hp.late_lt_early
    · norm_num [MAH_PBOUNDS, JOps.lit]; linarith
  · rfl
  · apply bounded_unbounded <;> norm_num [MAH_PBOUNDS] <;> norm_num at * <;> linarith

/-- C14. The transform is a bijection from `R^5` onto the valid parameters. -/
theorem C14_bijection :
    BijOn (get_bounded_mah_params (α := ℝ)) univ {p | Spec.Valid p} :=
  ⟨fun u _ => C12_bounded_params_valid u,
   fun u _ v _ h => by rw [← C13_unbounded_of_bounded u, ← C13_unbounded_of_bounded v]; simp only [h],
   fun p hp => ⟨get_unbounded_mah_params p, trivial, C14_bounded_of_unbounded p hp⟩⟩

example : get_bounded_mah_params DEFAULT_MAH_U_PARAMS = DEFAULT_MAH_PARAMS :=
  C14_bounded_of_unbounded _ default_valid

/-! ## C15 -/

/-- C15. All five unbounded values are finite exactly when the parameters are valid. -/
theorem C15_finite_iff_valid (p : MahParams ℝ) :
    (IsFin (get_unbounded_mah_params (p.map fin)).u_logm0 ∧
     IsFin (get_unbounded_mah_params (p.map fin)).u_logtc ∧
     IsFin (get_unbounded_mah_params (p.map fin)).u_early_index ∧
     IsFin (get_unbounded_mah_params (p.map fin)).u_late_index ∧
     IsFin (get_unbounded_mah_params (p.map fin)).u_t_peak) ↔ Spec.Valid p := by
  have h1 := unbounded_isFin_iff (y := p.logm0) (b := MAH_PBOUNDS.logm0) (by norm_num [MAH_PBOUNDS])
  have h2 := unbounded_isFin_iff (y := p.logtc) (b := MAH_PBOUNDS.logtc) (by norm_num [MAH_PBOUNDS])
  have h3 := unbounded_isFin_iff (y := p.late_index) (b := MAH_PBOUNDS.late_index)
    (by norm_num [MAH_PBOUNDS])
  have h4 := unbounded_isFin_iff (y := p.t_peak) (b := MAH_PBOUNDS.t_peak)
    (by norm_num [MAH_PBOUNDS])
  simp only [get_unbounded_mah_params, MahParams.map, get_u_early_late, h1, h2, h3, h4, lit_fin]
  constructor
  · rintro ⟨a, b, c, d, e⟩
    norm_num [MAH_PBOUNDS] at a b d e
    have h5 := (inverse_sigmoid_isFin_iff (x0 := 0.0) BOUNDING_K_pos (y := p.early_index)
      (show p.late_index < MAH_PBOUNDS.early_index.2 by norm_num [MAH_PBOUNDS]; linarith [d.2])).1 c
    norm_num [MAH_PBOUNDS] at h5
    constructor
    · constructor <;> norm_num <;> linarith [a.1, a.2, b.1, b.2, d.1, d.2, e.1, e.2, h5.1, h5.2]
    · exact h5.1
  · intro hp
    have := hp.logm0_lo; have := hp.logm0_hi; have := hp.logtc_lo; have := hp.logtc_hi
    have := hp.early_lo; have := hp.early_hi; have hl := hp.late_lo; have := hp.late_hi
    have hx := hp.tpeak_lo; have := hp.tpeak_hi; have := hp.late_lt_early
    norm_num at hl hx
    refine ⟨?_, ?_, ?_, ?_, ?_⟩
    · norm_num [MAH_PBOUNDS]; constructor <;> linarith
    · norm_num [MAH_PBOUNDS]; constructor <;> linarith
    · rw [inverse_sigmoid_isFin_iff BOUNDING_K_pos]
      · norm_num [MAH_PBOUNDS]; constructor <;> linarith
      · norm_num [MAH_PBOUNDS]; linarith
    · norm_num [MAH_PBOUNDS]; constructor <;> linarith
    · norm_num [MAH_PBOUNDS]; constructor <;> linarith

/-- C15, entry by entry: an out-of-range parameter spoils its own entry. -/
theorem C15_entry_not_finite (p : MahParams ℝ) :
    (¬(0 < p.logm0 ∧ p.logm0 < 17) → ¬ IsFin (get_unbounded_mah_params (p.map fin)).u_logm0) ∧
    (¬(-1 < p.logtc ∧ p.logtc < 1) → ¬ IsFin (get_unbounded_mah_params (p.map fin)).u_logtc) ∧
    (¬(0.1 < p.late_index ∧ p.late_index < 5) →
      ¬ IsFin (get_unbounded_mah_params (p.map fin)).u_late_index) ∧
    (¬(0.05 < p.t_peak ∧ p.t_peak < 20) →
      ¬ IsFin (get_unbounded_mah_params (p.map fin)).u_t_peak) ∧
    (p.late_index < 10 → ¬(p.late_index < p.early_index ∧ p.early_index < 10) →
      ¬ IsFin (get_unbounded_mah_params (p.map fin)).u_early_index) := by
  have h1 := unbounded_isFin_iff (y := p.logm0) (b := MAH_PBOUNDS.logm0) (by norm_num [MAH_PBOUNDS])
  have h2 := unbounded_isFin_iff (y := p.logtc) (b := MAH_PBOUNDS.logtc) (by norm_num [MAH_PBOUNDS])
  have h3 := unbounded_isFin_iff (y := p.late_index) (b := MAH_PBOUNDS.late_index)
    (by norm_num [MAH_PBOUNDS])
  have h4 := unbounded_isFin_iff (y := p.t_peak) (b := MAH_PBOUNDS.t_peak)
    (by norm_num [MAH_PBOUNDS])
  simp only [get_unbounded_mah_params, MahParams.map, get_u_early_late, h1, h2, h3, h4, lit_fin]
  refine ⟨?_, ?_, ?_, ?_, ?_⟩
  · norm_num [MAH_PBOUNDS]
  · norm_num [MAH_PBOUNDS]
  · norm_num [MAH_PBOUNDS]
  · norm_num [MAH_PBOUNDS]
  · intro hl hn
    rw [inverse_sigmoid_isFin_iff BOUNDING_K_pos]
    · norm_num [MAH_PBOUNDS] at hn ⊢; exact hn
    · norm_num [MAH_PBOUNDS]; linarith

/-- C15 witness: a mass exactly on the upper bound. -/
example : ¬ IsFin (get_unbounded_mah_params
    (({ DEFAULT_MAH_PARAMS with logm0 := 17 } : MahParams ℝ).map fin)).u_logm0 :=
  (C15_entry_not_finite _).1 (by norm_num)

/-! ## C16 -/

/-- C16. With positive time and positive `t_peak` the history is finite (and is the real-valued
history of the other theorems). -/
theorem C16_finite_history (p : MahParams ℝ) (t lgt0 : ℝ) (ht : 0 < t) (htp : 0 < p.t_peak) :
    logmh_at_t_obs (p.map fin) (fin t) (fin lgt0) = fin (logmh_at_t_obs p t lgt0) := by
  simp only [logmh_at_t_obs, log_mah_kern]
  have e1 : (p.map fin).t_peak = fin p.t_peak := rfl
  rw [noq_fin p ht, e1, noq_fin p htp, lt_fin]
  by_cases h : t < p.t_peak
  · have e : jwhere (JOps.lt t p.t_peak) (log_mah_noq_kern p t lgt0)
        (log_mah_noq_kern p p.t_peak lgt0) = log_mah_noq_kern p t lgt0 := if_pos h
    rw [e, jwhere, if_pos h]
  · have e : jwhere (JOps.lt t p.t_peak) (log_mah_noq_kern p t lgt0)
        (log_mah_noq_kern p p.t_peak lgt0) = log_mah_noq_kern p p.t_peak lgt0 := if_neg h
    rw [e, jwhere, if_neg h]

/-- C16. At time zero the log mass is `-inf` and the mass is exactly zero. -/
theorem C16_zero_time (p : MahParams ℝ) (lgt0 : ℝ) (htp : 0 < p.t_peak) (he : 0 < p.early_index) :
    logmh_at_t_obs (p.map fin) (fin 0) (fin lgt0) = ninf ∧
    mah_kern (p.map fin) (fin 0) (fin lgt0) = fin 0 := by
  have h : logmh_at_t_obs (p.map fin) (fin 0) (fin lgt0) = ninf := by
    simp only [logmh_at_t_obs, log_mah_kern]
    have e1 : (p.map fin).t_peak = fin p.t_peak := rfl
    rw [jwhere, if_pos (by rw [e1, lt_fin]; exact htp)]
    simp only [log_mah_noq_kern, rolling_plaw_vs_t, log10_zero, rolling_plaw_vs_logt,
      power_law_index_vs_logt, MahParams.map, lit_fin, sigmoid]
    have e2 : (ninf - fin p.logtc : XR) = ninf := rfl
    have e3 : (fin MAH_K * ninf : XR) = ninf := by
      change ofSign (-MAH_K) = _; exact ofSign_neg (by norm_num [MAH_K])
    have e4 : (ninf - fin lgt0 : XR) = ninf := rfl
    rw [e2, e3, sigm_ninf, fin_sub, fin_mul, fin_add, e4, mul_zero, add_zero]
    have e5 : (fin p.early_index * ninf : XR) = ninf := by
      change ofSign (-p.early_index) = _; exact ofSign_neg (by linarith)
    rw [e5]; rfl
  refine ⟨h, ?_⟩
  have : mah_kern (p.map fin) (fin 0) (fin lgt0)
    = JOps.pow10 (logmh_at_t_obs (p.map fin) (fin 0) (fin lgt0)) := rfl
  rw [this, h]; rfl

/-- C16. Negative times give NaN (before the peak). -/
theorem C16_negative_time (p : MahParams ℝ) (t lgt0 : ℝ) (ht : t < 0) (htp : 0 < p.t_peak) :
    logmh_at_t_obs (p.map fin) (fin t) (fin lgt0) = nan := by
  simp only [logmh_at_t_obs, log_mah_kern]
  have e1 : (p.map fin).t_peak = fin p.t_peak := rfl
  rw [jwhere, if_pos (by rw [e1, lt_fin]; linarith)]
  simp [log_mah_noq_kern, rolling_plaw_vs_t, log10_neg ht, rolling_plaw_vs_logt]

example : 0 < DEFAULT_MAH_PARAMS.t_peak ∧ 0 < DEFAULT_MAH_PARAMS.early_index := by
  norm_num [DEFAULT_MAH_PARAMS]

/-! ## C18 -/

/-- C18. Each bounded parameter is strictly increasing in its own unbounded parameter and sweeps its
whole interval. -/
theorem C18_strictly_increasing (u : MahUParams ℝ) :
    (StrictMono fun x => (get_bounded_mah_params { u with u_logm0 := x }).logm0) ∧
    (StrictMono fun x => (get_bounded_mah_params { u with u_logtc := x }).logtc) ∧
    (StrictMono fun x => (get_bounded_mah_params { u with u_early_index := x }).early_index) ∧
    (StrictMono fun x => (get_bounded_mah_params { u with u_late_index := x }).late_index) ∧
    (StrictMono fun x => (get_bounded_mah_params { u with u_t_peak := x }).t_peak) := by
  refine ⟨?_, ?_, ?_, ?_, ?_⟩
  · exact sigmoid_strictMono BOUNDING_K_pos (by norm_num [MAH_PBOUNDS, JOps.lit])
  · exact sigmoid_strictMono BOUNDING_K_pos (by norm_num [MAH_PBOUNDS, JOps.lit])
  · have h3 := (bounded_mem u.u_late_index (b := MAH_PBOUNDS.late_index)
      (by norm_num [MAH_PBOUNDS])).2
    exact sigmoid_strictMono (x0 := JOps.lit 0.0) (yhi := MAH_PBOUNDS.early_index.2)
      BOUNDING_K_pos (h3.trans (by norm_num [MAH_PBOUNDS]))
  · exact sigmoid_strictMono BOUNDING_K_pos (by norm_num [MAH_PBOUNDS, JOps.lit])
  · exact sigmoid_strictMono BOUNDING_K_pos (by norm_num [MAH_PBOUNDS, JOps.lit])

/-- C18. The limits are the bounds; for `early_index` they are the current `late_index` and 10. -/
theorem C18_limits (u : MahUParams ℝ) :
    Filter.Tendsto (fun x => (get_bounded_mah_params { u with u_logm0 := x }).logm0)
      Filter.atBot (nhds 0) ∧
    Filter.Tendsto (fun x => (get_bounded_mah_params { u with u_logm0 := x }).logm0)
      Filter.atTop (nhds 17) ∧
    Filter.Tendsto (fun x => (get_bounded_mah_params { u with u_logtc := x }).logtc)
      Filter.atBot (nhds (-1)) ∧
    Filter.Tendsto (fun x => (get_bounded_mah_params { u with u_logtc := x }).logtc)
      Filter.atTop (nhds 1) ∧
    Filter.Tendsto (fun x => (get_bounded_mah_params { u with u_early_index := x }).early_index)
      Filter.atBot (nhds (get_bounded_mah_params u).late_index) ∧
    Filter.Tendsto (fun x => (get_bounded_mah_params { u with u_early_index := x }).early_index)
      Filter.atTop (nhds 10) ∧
    Filter.Tendsto (fun x => (get_bounded_mah_params { u with u_late_index := x }).late_index)
      Filter.atBot (nhds 0.1) ∧
    Filter.Tendsto (fun x => (get_bounded_mah_params { u with u_late_index := x }).late_index)
      Filter.atTop (nhds 5) ∧
    Filter.Tendsto (fun x => (get_bounded_mah_params { u with u_t_peak := x }).t_peak)
      Filter.atBot (nhds 0.05) ∧
    Filter.Tendsto (fun x => (get_bounded_mah_params { u with u_t_peak := x }).t_peak)
      Filter.atTop (nhds 20) := by
  have hb : ∀ b : ℝ × ℝ, Filter.Tendsto (fun x => get_bounded_diffmah_param x b) Filter.atBot
      (nhds b.1) := fun b => sigmoid_tendsto_atBot BOUNDING_K_pos
  have ht : ∀ b : ℝ × ℝ, Filter.Tendsto (fun x => get_bounded_diffmah_param x b) Filter.atTop
      (nhds b.2) := fun b => sigmoid_tendsto_atTop BOUNDING_K_pos
  refine ⟨?_, ?_, ?_, ?_, sigmoid_tendsto_atBot BOUNDING_K_pos, ?_, ?_, ?_, ?_, ?_⟩
  · have h := hb MAH_PBOUNDS.logm0
    rw [show MAH_PBOUNDS.logm0.1 = 0 by norm_num [MAH_PBOUNDS]] at h; exact h
  · have h := ht MAH_PBOUNDS.logm0
    rw [show MAH_PBOUNDS.logm0.2 = 17 by norm_num [MAH_PBOUNDS]] at h; exact h
  · have h := hb MAH_PBOUNDS.logtc
    rw [show MAH_PBOUNDS.logtc.1 = -1 by norm_num [MAH_PBOUNDS]] at h; exact h
  · have h := ht MAH_PBOUNDS.logtc
    rw [show MAH_PBOUNDS.logtc.2 = 1 by norm_num [MAH_PBOUNDS]] at h; exact h
  · have : Filter.Tendsto
        (fun x => (get_bounded_mah_params { u with u_early_index := x }).early_index)
        Filter.atTop (nhds (JOps.lit MAH_PBOUNDS.early_index.2)) :=
      sigmoid_tendsto_atTop (x0 := JOps.lit 0.0) (yhi := MAH_PBOUNDS.early_index.2)
        (ylo := get_bounded_diffmah_param u.u_late_index MAH_PBOUNDS.late_index) BOUNDING_K_pos
    rw [show (JOps.lit MAH_PBOUNDS.early_index.2 : ℝ) = 10 by norm_num [MAH_PBOUNDS, JOps.lit]] at this
    exact this
  · have h := hb MAH_PBOUNDS.late_index
    rw [show MAH_PBOUNDS.late_index.1 = 0.1 by norm_num [MAH_PBOUNDS]] at h; exact h
  · have h := ht MAH_PBOUNDS.late_index
    rw [show MAH_PBOUNDS.late_index.2 = 5 by norm_num [MAH_PBOUNDS]] at h; exact h
  · have h := hb MAH_PBOUNDS.t_peak
    rw [show MAH_PBOUNDS.t_peak.1 = 0.05 by norm_num [MAH_PBOUNDS]] at h; exact h
  · have h := ht MAH_PBOUNDS.t_peak
    rw [show MAH_PBOUNDS.t_peak.2 = 20 by norm_num [MAH_PBOUNDS]] at h; exact h

end Diffmah

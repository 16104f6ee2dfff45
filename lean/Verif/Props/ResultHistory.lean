import Verif.Props.Text
import Verif.Lemmas.Float32Err

/-!
# C118: the results file reproduces the fitted histories

A result line keeps six significant digits of each best-fit parameter. The history computed from
the line agrees with the fitted history to 5e-4 dex at every time from 0.05 Gyr on.
-/

namespace Diffmah

open Set

/-- The power law moves by at most 33 times the change of log-time. -/
theorem plaw_lipschitz {x0 m xc e l x y : ℝ} (he : |e| ≤ 10) (hl : |l| ≤ 10) (hel : |e - l| ≤ 10)
    (hx : |x - x0| ≤ 2.62) (hy : |y - x0| ≤ 2.62) :
    |rolling_plaw_vs_logt x x0 m xc e l - rolling_plaw_vs_logt y x0 m xc e l| ≤ 33 * |x - y| := by
  have h := Convex.norm_image_sub_le_of_norm_deriv_le (𝕜 := ℝ)
    (f := fun z => rolling_plaw_vs_logt z x0 m xc e l) (C := 33)
    (s := Icc (x0 - 2.62) (x0 + 2.62)) (x := y) (y := x)
    (fun z _ => (plaw_hasDerivAt z x0 m xc e l).differentiableAt)
    (fun z hz => by
      rw [(plaw_hasDerivAt z x0 m xc e l).deriv]
      have h0 := Real.sigmoid_pos (3.5 * (z - xc))
      have h1 := Real.sigmoid_lt_one (3.5 * (z - xc))
      generalize Real.sigmoid (3.5 * (z - xc)) = s at *
      have hz' : |z - x0| ≤ 2.62 := abs_le.2 ⟨by linarith [hz.1], by linarith [hz.2]⟩
      have e1 : e - (e - l) * (s * (1 + (1 - s) * (3.5 * (z - x0))))
          = ((1 - s) * e + s * l) - (e - l) * (s * (1 - s) * 3.5 * (z - x0)) := by ring
      rw [Real.norm_eq_abs, e1]
      have a1 : |(1 - s) * e + s * l| ≤ 10 := by
        have h2 := abs_le.1 he
        have h3 := abs_le.1 hl
        rw [abs_le]
        constructor <;> nlinarith
      have a2 : |s * (1 - s) * 3.5 * (z - x0)| ≤ 2.2925 := by
        rw [abs_mul, abs_of_nonneg (by positivity [sub_pos.2 h1])]
        have : s * (1 - s) ≤ 1 / 4 := by nlinarith [sq_nonneg (s - 1 / 2)]
        calc s * (1 - s) * 3.5 * |z - x0| ≤ 1 / 4 * 3.5 * 2.62 := by gcongr
          _ = 2.2925 := by norm_num
      have a3 : |(e - l) * (s * (1 - s) * 3.5 * (z - x0))| ≤ 10 * 2.2925 := by
        rw [abs_mul]; gcongr
      have := abs_sub ((1 - s) * e + s * l) ((e - l) * (s * (1 - s) * 3.5 * (z - x0)))
      linarith)
    (convex_Icc _ _)
    ⟨by linarith [(abs_le.1 hy).1], by linarith [(abs_le.1 hy).2]⟩
    ⟨by linarith [(abs_le.1 hx).1], by linarith [(abs_le.1 hx).2]⟩
  simpa only [Real.norm_eq_abs] using h

/-- Effect of small parameter changes at fixed log-time. -/
theorem plaw_params {x0 m xc e l m' xc' e' l' x : ℝ} (hx : |x - x0| ≤ 2.62)
    (hel : |e - l| ≤ 10) (hm : |m' - m| ≤ 8.5e-5) (hc : |xc' - xc| ≤ 5e-6)
    (he : |e' - e| ≤ 5e-5) (hl : |l' - l| ≤ 5e-5) :
    |rolling_plaw_vs_logt x x0 m' xc' e' l' - rolling_plaw_vs_logt x x0 m xc e l| ≤ 3.4e-4 := by
  rw [plaw_real, plaw_real]
  have hs := F32.sigmoid_lipschitz (3.5 * (x - xc')) (3.5 * (x - xc))
  have e0 : 3.5 * (x - xc') - 3.5 * (x - xc) = -(3.5 * (xc' - xc)) := by ring
  rw [e0, abs_neg, abs_mul, abs_of_pos (by norm_num : (0 : ℝ) < 3.5)] at hs
  have h0 := Real.sigmoid_pos (3.5 * (x - xc'))
  have h1 := Real.sigmoid_lt_one (3.5 * (x - xc'))
  generalize Real.sigmoid (3.5 * (x - xc')) = s' at *
  generalize Real.sigmoid (3.5 * (x - xc)) = s at *
  have e1 : (e' + (l' - e') * s') * (x - x0) + m' - ((e + (l - e) * s) * (x - x0) + m)
      = ((1 - s') * (e' - e) + s' * (l' - l) - (e - l) * (s' - s)) * (x - x0) + (m' - m) := by ring
  rw [e1]
  have a1 : |(1 - s') * (e' - e) + s' * (l' - l)| ≤ 5e-5 := by
    have h2 := abs_le.1 he
    have h3 := abs_le.1 hl
    rw [abs_le]
    constructor <;> nlinarith
  have a2 : |(e - l) * (s' - s)| ≤ 4.375e-5 := by
    rw [abs_mul]
    calc |e - l| * |s' - s| ≤ 10 * (1 / 4 * (3.5 * 5e-6)) := by
          gcongr
          exact hs.trans (by gcongr)
      _ = 4.375e-5 := by norm_num
  have a3 : |(1 - s') * (e' - e) + s' * (l' - l) - (e - l) * (s' - s)| ≤ 9.375e-5 := by
    refine (abs_sub _ _).trans ?_
    norm_num at a1 a2 ⊢
    linarith
  calc _ ≤ |((1 - s') * (e' - e) + s' * (l' - l) - (e - l) * (s' - s)) * (x - x0)| + |m' - m| :=
        abs_add_le _ _
    _ ≤ 9.375e-5 * 2.62 + 8.5e-5 := by
        rw [abs_mul]; gcongr
    _ ≤ 3.4e-4 := by norm_num

/-- `log10` of two numbers that agree to six digits. -/
theorem logb_close {a b : ℝ} (ha : 0 < a) (h : |b - a| ≤ 5e-6 * |a|) :
    0 < b ∧ |Real.logb 10 b - Real.logb 10 a| ≤ 2.6e-6 := by
  rw [abs_of_pos ha] at h
  have h' := abs_le.1 h
  norm_num at h'
  have hb : 0 < b := by linarith
  refine ⟨hb, ?_⟩
  have h10 : 2 ≤ Real.log 10 := by
    rw [Real.le_log_iff_exp_le (by norm_num), show (2 : ℝ) = 1 + 1 by norm_num, Real.exp_add]
    have := Real.exp_one_lt_d9
    have := Real.exp_pos 1
    nlinarith
  have key : ∀ {u v : ℝ}, 0 < u → 0 < v → v - u ≤ 5.1e-6 * u →
      Real.log v - Real.log u ≤ 5.1e-6 := by
    intro u v hu hv huv
    rw [← Real.log_div hv.ne' hu.ne']
    have := Real.log_le_sub_one_of_pos (div_pos hv hu)
    have h2 : v / u - 1 ≤ 5.1e-6 := by
      rw [div_sub_one hu.ne', div_le_iff₀ hu]; exact huv
    linarith
  have k1 := key ha hb (by norm_num; linarith)
  have k2 := key hb ha (by norm_num; linarith)
  simp only [Real.logb]
  rw [← sub_div, abs_div, abs_of_pos (by linarith : 0 < Real.log 10), div_le_iff₀ (by linarith)]
  rw [abs_le]
  norm_num at k1 k2 ⊢
  constructor <;> nlinarith

theorem logb_range {a : ℝ} (h1 : 0.049 ≤ a) (h2 : a ≤ 20.1) :
    -1.31 ≤ Real.logb 10 a ∧ Real.logb 10 a ≤ 1.31 := by
  have hp : 0 < a := by norm_num at h1; linarith
  have k : (20.1 : ℝ) ≤ 10 ^ (1.31 : ℝ) := by
    rw [show (1.31 : ℝ) = ((131 : ℕ) : ℝ) * ((100 : ℝ)⁻¹) by norm_num, Real.rpow_mul (by norm_num),
      Real.rpow_natCast, Real.le_rpow_inv_iff_of_pos (by norm_num) (by norm_num) (by norm_num)]
    norm_num
  have k' : (10 : ℝ) ^ (-1.31 : ℝ) ≤ 0.049 := by
    rw [show (-1.31 : ℝ) = ((-131 : ℤ) : ℝ) * ((100 : ℝ)⁻¹) by norm_num,
      Real.rpow_mul (by norm_num), Real.rpow_intCast,
      Real.rpow_inv_le_iff_of_pos (by positivity) (by norm_num) (by norm_num)]
    norm_num
  constructor
  · rw [Real.le_logb_iff_rpow_le (by norm_num) hp]; exact k'.trans h1
  · rw [Real.logb_le_iff_le_rpow (by norm_num) hp]; exact h2.trans k

theorem abs_logb_min_le {t a b d : ℝ} (ht : 0 < t) (ha : 0 < a) (hb : 0 < b)
    (h : |Real.logb 10 b - Real.logb 10 a| ≤ d) :
    |Real.logb 10 (min t b) - Real.logb 10 (min t a)| ≤ d := by
  have e : ∀ {u}, 0 < u → Real.logb 10 (min t u) = min (Real.logb 10 t) (Real.logb 10 u) := by
    intro u hu
    rcases le_total t u with h | h
    · rw [min_eq_left h, min_eq_left (logb_mono ht h)]
    · rw [min_eq_right h, min_eq_right (logb_mono hu h)]
  rw [e ha, e hb]
  refine le_trans ?_ h
  have := abs_min_sub_min_le_max (Real.logb 10 t) (Real.logb 10 b) (Real.logb 10 t)
    (Real.logb 10 a)
  rwa [sub_self, abs_zero, max_eq_right (abs_nonneg _)] at this

/-- **C118** (parameters to six digits). Parameters inside the bounds, changed by a relative error
of at most 5e-6 each, give the same history to 5e-4 dex, at every time from 0.05 Gyr on and for
every present time between 9 and 20 Gyr. -/
theorem C118_six_digits_suffice (p q : MahParams ℝ) (hp : Spec.InBox p)
    (h1 : |q.logm0 - p.logm0| ≤ 5e-6 * |p.logm0|) (h2 : |q.logtc - p.logtc| ≤ 5e-6 * |p.logtc|)
    (h3 : |q.early_index - p.early_index| ≤ 5e-6 * |p.early_index|)
    (h4 : |q.late_index - p.late_index| ≤ 5e-6 * |p.late_index|)
    (h5 : |q.t_peak - p.t_peak| ≤ 5e-6 * |p.t_peak|) (lgt0 t : ℝ) (h0 : (9 : ℝ) ≤ 10 ^ lgt0)
    (h0' : 10 ^ lgt0 ≤ (20 : ℝ)) (ht : 0.05 ≤ t) :
    |logmh_at_t_obs q t lgt0 - logmh_at_t_obs p t lgt0| ≤ 5e-4 := by
  obtain ⟨b1, b2, b3, b4, b5, b6, b7, b8, b9, b10⟩ := hp
  norm_num at b5 b7 b9 ht
  have htp : 0 < p.t_peak := by linarith
  have ht0 : 0 < t := by linarith
  obtain ⟨hqp, hlog⟩ := logb_close htp h5
  have hx := abs_logb_min_le ht0 htp hqp hlog
  have h5' := abs_le.1 h5
  rw [abs_of_pos htp] at h5'
  norm_num at h5'
  have rx := logb_range (a := min t p.t_peak) (by norm_num; constructor <;> linarith)
    (by norm_num; right; linarith)
  have ry := logb_range (a := min t q.t_peak) (by norm_num; constructor <;> linarith)
    (by norm_num; right; linarith)
  have r0 : 0 ≤ lgt0 ∧ lgt0 ≤ 1.31 := by
    constructor
    · by_contra hc
      have := Real.rpow_lt_one_of_one_lt_of_neg (x := 10) (by norm_num) (not_le.1 hc)
      linarith
    · have := (logb_range (a := 10 ^ lgt0) (by norm_num; linarith) (by norm_num; linarith)).2
      rwa [logb_pow10] at this
  simp only [logmh_at_t_obs]
  rw [log_mah_min q, log_mah_min p, noq_real, noq_real]
  generalize Real.logb 10 (min t p.t_peak) = x at *
  generalize Real.logb 10 (min t q.t_peak) = y at *
  have dx : |x - lgt0| ≤ 2.62 := abs_le.2 ⟨by linarith, by linarith⟩
  have dy : |y - lgt0| ≤ 2.62 := abs_le.2 ⟨by linarith, by linarith⟩
  have k1 : |p.early_index| ≤ 10 := abs_le.2 ⟨by linarith, by linarith⟩
  have k2 : |p.late_index| ≤ 10 := abs_le.2 ⟨by linarith, by linarith⟩
  have k3 : |p.early_index - p.late_index| ≤ 10 := abs_le.2 ⟨by linarith, by linarith⟩
  have k4 : |p.logm0| ≤ 17 := abs_le.2 ⟨by linarith, by linarith⟩
  have k5 : |p.logtc| ≤ 1 := abs_le.2 ⟨by linarith, by linarith⟩
  have A := plaw_params (x0 := lgt0) (m := p.logm0) (xc := p.logtc) (e := p.early_index)
    (l := p.late_index) (m' := q.logm0) (xc' := q.logtc) (e' := q.early_index)
    (l' := q.late_index) dy k3 (by norm_num at h1 ⊢; linarith) (by norm_num at h2 ⊢; linarith)
    (by norm_num at h3 ⊢; linarith) (by norm_num at h4 ⊢; linarith)
  have B := plaw_lipschitz (m := p.logm0) (xc := p.logtc) k1 k2 k3 dy dx
  have C := abs_sub_le (rolling_plaw_vs_logt y lgt0 q.logm0 q.logtc q.early_index q.late_index)
    (rolling_plaw_vs_logt y lgt0 p.logm0 p.logtc p.early_index p.late_index)
    (rolling_plaw_vs_logt x lgt0 p.logm0 p.logtc p.early_index p.late_index)
  norm_num at A B C hx ⊢
  linarith

namespace Text

open Diffmah.Utils Diffmah.Fit Spec

theorem closeSix_fin {x : ℝ} {y : XR} (h : CloseSix (.fin x) y) :
    ∃ z, y = .fin z ∧ |z - x| ≤ 5e-6 * |x| := by
  cases y with
  | fin z => exact ⟨z, rfl, h⟩
  | nan => exact h.elim
  | pinf => exact h.elim
  | ninf => exact h.elim

/-- **C118**. A fit whose best-fit parameters lie inside the bounds is written as a line from which
parameters are read back whose history agrees with the fitted one to 5e-4 dex. -/
theorem C118_history_from_file (r : FitResult) (p : MahParams ℝ) (hr : r.p_best = p.map XR.fin)
    (hp : Spec.InBox p) :
    ∃ (d : FitData) (q : MahParams ℝ), parse_outline (get_outline r) = .ok d ∧
      (⟨d.logm0, d.logtc, d.early_index, d.late_index, d.t_peak⟩ : MahParams XR) = q.map XR.fin ∧
      ∀ lgt0 t : ℝ, (9 : ℝ) ≤ 10 ^ lgt0 → 10 ^ lgt0 ≤ (20 : ℝ) → 0.05 ≤ t →
        |logmh_at_t_obs q t lgt0 - logmh_at_t_obs p t lgt0| ≤ 5e-4 := by
  obtain ⟨d, hd, c1, c2, c3, c4, c5, -⟩ := C42_roundtrip_partial r
  rw [hr] at c1 c2 c3 c4 c5
  obtain ⟨z1, e1, g1⟩ := closeSix_fin c1
  obtain ⟨z2, e2, g2⟩ := closeSix_fin c2
  obtain ⟨z3, e3, g3⟩ := closeSix_fin c3
  obtain ⟨z4, e4, g4⟩ := closeSix_fin c4
  obtain ⟨z5, e5, g5⟩ := closeSix_fin c5
  refine ⟨d, ⟨z1, z2, z3, z4, z5⟩, hd, by rw [e1, e2, e3, e4, e5]; rfl, ?_⟩
  intro lgt0 t h0 h0' ht
  exact C118_six_digits_suffice p ⟨z1, z2, z3, z4, z5⟩ hp g1 g2 g3 g4 g5 lgt0 t h0 h0' ht

end Text

/-- Triangle inequality for root-mean-square distances. -/
theorem rms_triangle {β : Type} (l : List β) (a b : β → ℝ) {δ : ℝ} (hδ : 0 ≤ δ)
    (h : ∀ x ∈ l, |b x - a x| ≤ δ) :
    Real.sqrt (Spec.mean (l.map fun x => b x ^ 2))
      ≤ Real.sqrt (Spec.mean (l.map fun x => a x ^ 2)) + δ := by
  set A := Spec.mean (l.map fun x => a x ^ 2) with hA
  have hA0 : 0 ≤ A := by
    refine div_nonneg (List.sum_nonneg ?_) (Nat.cast_nonneg _)
    intro y hy
    obtain ⟨x, -, rfl⟩ := List.mem_map.1 hy
    positivity
  -- for every positive weight
  have key : ∀ w : ℝ, 0 < w →
      Spec.mean (l.map fun x => b x ^ 2) ≤ (1 + w) * A + (1 + 1 / w) * δ ^ 2 := by
    intro w hw
    have hs : (l.map fun x => b x ^ 2).sum
        ≤ (1 + w) * (l.map fun x => a x ^ 2).sum + (1 + 1 / w) * δ ^ 2 * l.length := by
      clear hA
      clear_value A
      induction l with
      | nil => simp
      | cons x l ih =>
        have ih := ih (fun y hy => h y (List.mem_cons_of_mem _ hy))
        have hx := h x List.mem_cons_self
        have h2 : (b x - a x) ^ 2 ≤ δ ^ 2 := sq_le_sq' (by linarith [(abs_le.1 hx).1]) (abs_le.1 hx).2
        have h3 : b x ^ 2 ≤ (1 + w) * a x ^ 2 + (1 + 1 / w) * (b x - a x) ^ 2 := by
          have e : (1 + w) * a x ^ 2 + (1 + 1 / w) * (b x - a x) ^ 2 - b x ^ 2
              = (w * a x - (b x - a x)) ^ 2 / w := by field_simp; ring
          have : 0 ≤ (w * a x - (b x - a x)) ^ 2 / w := by positivity
          linarith
        have h4 : (1 + 1 / w) * (b x - a x) ^ 2 ≤ (1 + 1 / w) * δ ^ 2 := by gcongr
        simp only [List.map_cons, List.sum_cons, List.length_cons]
        push_cast
        linarith
    rcases Nat.eq_zero_or_pos l.length with hl | hl
    · have : l = [] := List.length_eq_zero_iff.1 hl
      subst this
      simp only [List.map_nil, Spec.mean, List.sum_nil, zero_div]
      positivity
    · have hl' : (0 : ℝ) < l.length := by exact_mod_cast hl
      have e : A * l.length = (l.map fun x => a x ^ 2).sum := by
        rw [hA, Spec.mean, List.length_map, div_mul_cancel₀ _ hl'.ne']
      rw [← e] at hs
      rw [Spec.mean, List.length_map, div_le_iff₀ hl']
      linarith
  have hB : Spec.mean (l.map fun x => b x ^ 2) ≤ (Real.sqrt A + δ) ^ 2 := by
    have hsq := Real.sq_sqrt hA0
    have hs0 := Real.sqrt_nonneg A
    generalize Real.sqrt A = s at *
    rw [← hsq] at key
    by_cases hs : s = 0
    · subst hs
      refine le_of_forall_pos_lt_add fun ε hε => ?_
      rcases hδ.eq_or_lt with rfl | hd
      · have := key 1 one_pos
        norm_num at this ⊢
        linarith
      · have hw : 0 < 2 * δ ^ 2 / ε := by positivity
        have := key _ hw
        have e2 : 1 / (2 * δ ^ 2 / ε) * δ ^ 2 = ε / 2 := by field_simp
        nlinarith
    · have hs' : 0 < s := lt_of_le_of_ne hs0 (Ne.symm hs)
      rcases hδ.eq_or_lt with rfl | hd
      · refine le_of_forall_pos_lt_add fun ε hε => ?_
        have hw : 0 < ε / (2 * s ^ 2) := by positivity
        have := key _ hw
        have e2 : ε / (2 * s ^ 2) * s ^ 2 = ε / 2 := by field_simp
        nlinarith
      · have := key (δ / s) (by positivity)
        have e1 : δ / s * s ^ 2 = δ * s := by field_simp
        have e2 : 1 / (δ / s) * δ ^ 2 = δ * s := by field_simp
        nlinarith
  calc Real.sqrt _ ≤ Real.sqrt ((Real.sqrt A + δ) ^ 2) := Real.sqrt_le_sqrt hB
    _ = Real.sqrt A + δ := Real.sqrt_sq (by positivity)

/-- **C118** (goodness of fit). On any set of target points the root-mean-square misfit of the
parameters in the file differs from that of the fitted parameters by at most 5e-4 dex. -/
theorem C118_misfit_from_file (r : Fit.FitResult) (p : MahParams ℝ)
    (hr : r.p_best = p.map XR.fin) (hp : Spec.InBox p) :
    ∃ (d : Text.FitData) (q : MahParams ℝ), Text.parse_outline (Text.get_outline r) = .ok d ∧
      (⟨d.logm0, d.logtc, d.early_index, d.late_index, d.t_peak⟩ : MahParams XR) = q.map XR.fin ∧
      ∀ (lgt0 : ℝ) (pts : List (ℝ × ℝ)), (9 : ℝ) ≤ 10 ^ lgt0 → 10 ^ lgt0 ≤ (20 : ℝ) →
        (∀ a ∈ pts, 0.05 ≤ a.1) →
        |Real.sqrt (Spec.mean (pts.map fun a => (logmh_at_t_obs q a.1 lgt0 - a.2) ^ 2)) -
          Real.sqrt (Spec.mean (pts.map fun a => (logmh_at_t_obs p a.1 lgt0 - a.2) ^ 2))| ≤ 5e-4 := by
  obtain ⟨d, q, h1, h2, h3⟩ := Text.C118_history_from_file r p hr hp
  refine ⟨d, q, h1, h2, fun lgt0 pts h0 h0' ht => ?_⟩
  have k1 := rms_triangle pts (fun a => logmh_at_t_obs p a.1 lgt0 - a.2)
    (fun a => logmh_at_t_obs q a.1 lgt0 - a.2) (δ := 5e-4) (by norm_num) (by
      intro a ha
      have := h3 lgt0 a.1 h0 h0' (ht a ha)
      simpa using this)
  have k2 := rms_triangle pts (fun a => logmh_at_t_obs q a.1 lgt0 - a.2)
    (fun a => logmh_at_t_obs p a.1 lgt0 - a.2) (δ := 5e-4) (by norm_num) (by
      intro a ha
      have := h3 lgt0 a.1 h0 h0' (ht a ha)
      rw [abs_sub_comm] at this
      simpa using this)
  rw [abs_le]
  constructor <;> linarith

/-- The default halo, written to a file. -/
example : ∃ r : Fit.FitResult, r.p_best = DEFAULT_MAH_PARAMS.map XR.fin ∧
    Spec.InBox DEFAULT_MAH_PARAMS ∧ (9 : ℝ) ≤ 10 ^ (1 : ℝ) ∧ (10 : ℝ) ^ (1 : ℝ) ≤ 20 :=
  ⟨⟨DEFAULT_MAH_PARAMS.map XR.fin, .fin 0.01, false, true, 0, ⟨[], [], .fin 0, .fin 1⟩⟩, rfl,
    default_valid.toInBox, by norm_num, by norm_num⟩

end Diffmah

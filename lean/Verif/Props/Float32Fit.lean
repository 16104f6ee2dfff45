import Verif.Lemmas.Float32Fit
import Verif.Lemmas.FitRev
import Verif.Props.Float32Rate

/-!
# Fits in single precision (C123)

The loss that the fitter minimises, on binary32 numbers, for every order in which JAX may add up the squares.
-/

namespace Diffmah.F32

open JOps XR
open Fit (VariedU LossData)

section

/-- The bounded parameters of any unbounded parameters without NaN, in single precision. -/
theorem bounded_box [Libm] (hs : Libm.Sane) (u : MahUParams F32) (h1 : u.u_logm0.v ≠ nan)
    (h2 : u.u_logtc.v ≠ nan) (h3 : u.u_early_index.v ≠ nan) (h4 : u.u_late_index.v ≠ nan)
    (h5 : u.u_t_peak.v ≠ nan) :
    ∃ p : MahParams ℝ, get_bounded_mah_params u = p.map num ∧ ClosedBox p ∧ p.late_index ≤ p.early_index := by
  obtain ⟨p, e, ⟨a1, a2⟩, ⟨b1, b2⟩, ⟨c1, c2⟩, ⟨d1, d2⟩, ⟨f1, f2⟩⟩ := C98_bounded_params hs u h1 h2 h3 h4 h5
  exact ⟨p, e, ⟨a1, a2, b1, b2, c1.le, c2, c1.le.trans d1, d2, f1.le, f2⟩, d1⟩

/-- C123, histories. In single precision every unbounded tuple without NaN, huge or infinite values included, is
a halo whose log masses at all times from 0.05 to 20 Gyr are within `2^-15` of the exact history of its bounded
parameters, and whose accretion rates are finite, not negative, and within 1% of the exact ones. -/
theorem C123_histories [Libm] (hs : Libm.Sane) (ha : Libm.AccurateRate) (u : MahUParams F32)
    (h1 : u.u_logm0.v ≠ nan) (h2 : u.u_logtc.v ≠ nan) (h3 : u.u_early_index.v ≠ nan)
    (h4 : u.u_late_index.v ≠ nan) (h5 : u.u_t_peak.v ≠ nan) :
    ∃ p : MahParams ℝ, get_bounded_mah_params u = p.map num ∧ p.late_index ≤ p.early_index ∧
      ∀ (tarr : List ℝ) (lgt0 : ℝ) (j : ℕ) (t : ℝ), (9 : ℝ) ≤ 10 ^ lgt0 → lgt0 ≤ 4 / 3 → tarr[j]? = some t →
        0.05 ≤ t → t ≤ 20 →
        ∃ M R m r : ℝ, (mah_singlehalo p tarr lgt0).1[j]? = some R ∧ (mah_singlehalo p tarr lgt0).2[j]? = some M ∧
          (mah_singlehalo_rev (get_bounded_mah_params u) (tarr.map num) (num lgt0)).1[j]? = some (num r) ∧
          (mah_singlehalo_rev (get_bounded_mah_params u) (tarr.map num) (num lgt0)).2[j]? = some (num m) ∧
          |m - M| ≤ 2 ^ (-15 : ℤ) ∧ 0 ≤ r ∧ |r - R| ≤ R / 100 + 2 ^ (-149 : ℤ) := by
  obtain ⟨p, e, hb, hle⟩ := bounded_box hs u h1 h2 h3 h4 h5
  refine ⟨p, e, hle, fun tarr lgt0 j t hg0 hg1 hj ht0 ht1 => ?_⟩
  obtain ⟨m, m1, m2⟩ := kern_near ha.toAccurate hb ht0 ht1 (lgt0_pos hg0) hg1
  have hM : (mah_singlehalo p tarr lgt0).2[j]? = some (log_mah_kern p t lgt0) := by
    simp only [mah_singlehalo, diffmah_kern, List.getElem?_map, hj, Option.map_some]
  have hm : (mah_singlehalo_rev (get_bounded_mah_params u) (tarr.map num) (num lgt0)).2[j]? = some (num m) := by
    rw [e]
    simp only [mah_singlehalo_rev, List.getElem?_map, hj, Option.map_some, m1]
  rw [singlehalo_rate_getElem?, hj]
  rcases lt_or_ge p.t_peak t with h | h
  · refine ⟨_, 0, m, 0, congrArg some (C06_rate_zero_after_peak p t lgt0 h), hM, ?_, hm, m2, le_rfl, ?_⟩
    · rw [e]
      exact C122_zero_after_peak (p.map num) _ _ j (num t) (by simp [hj]) h
    · have := two_zpow_pos (-149); simp
  · obtain ⟨y, y1, y2, y3, -⟩ := rate_before_peak ha p hb hle lgt0 hg0 hg1 t ht0 ht1
    refine ⟨_, _, m, y, congrArg some (if_neg (not_lt.2 h)), hM, ?_, hm, m2, y2, y3⟩
    rw [e]
    simp only [mah_singlehalo_rev, List.getElem?_map, hj, Option.map_some, Option.some.injEq]
    exact (if_neg (not_lt.2 h)).trans y1

theorem kern_abs_le {p : MahParams ℝ} (hp : ClosedBox p) {t lgt0 : ℝ} (ht0 : 0.05 ≤ t)
    (ht1 : t ≤ 20) (hg0 : 0 ≤ lgt0) (hg1 : lgt0 ≤ 4 / 3) : |log_mah_kern p t lgt0| ≤ 44 := by
  have key : ∀ s, 0.05 ≤ s → s ≤ 20 → |log_mah_noq_kern p s lgt0| ≤ 44 := by
    intro s h1 h2
    rw [noq_real, plaw_real]
    have hL := abs_logb_le h1 h2
    have hD : |Real.logb 10 s - lgt0| ≤ 8 / 3 := by
      rw [abs_le] at hL ⊢; constructor <;> linarith
    have s0 := Real.sigmoid_pos (3.5 * (Real.logb 10 s - p.logtc))
    have s1 := Real.sigmoid_lt_one (3.5 * (Real.logb 10 s - p.logtc))
    have a1 := hp.late_lo
    have a2 := hp.late_hi
    have a3 := hp.early_lo
    have a4 := hp.early_hi
    have hi : |p.early_index + (p.late_index - p.early_index) *
        Real.sigmoid (3.5 * (Real.logb 10 s - p.logtc))| ≤ 10 := by
      rw [abs_le]; constructor <;> nlinarith
    refine (abs_add_le _ _).trans ?_
    rw [abs_mul, abs_of_nonneg hp.logm0_lo]
    have := mul_le_mul hi hD (abs_nonneg _) (by norm_num)
    have := hp.logm0_hi
    linarith
  by_cases h : t < p.t_peak
  · rw [log_mah_lt h]; exact key t ht0 ht1
  · rw [log_mah_ge (not_lt.1 h)]; exact key _ hp.tpeak_lo hp.tpeak_hi

/-- One residual and its square. -/
theorem square_near [Libm] (ha : Libm.Accurate) {p : MahParams ℝ} (hp : ClosedBox p) {t lgt0 m : ℝ}
    (ht0 : 0.05 ≤ t) (ht1 : t ≤ 20) (hg0 : 0 ≤ lgt0) (hg1 : lgt0 ≤ 4 / 3) (hm : |m| ≤ 2 ^ (40 : ℕ)) :
    ∃ y, log_mah_kern (p.map num) (num t) (num lgt0) = num y ∧ |y - log_mah_kern p t lgt0| ≤ 2 ^ (-15 : ℤ) ∧
      num y - num m = num (round (y - m)) ∧ |round (y - m)| ≤ 2 ^ (41 : ℕ) ∧
      num (round (y - m)) * num (round (y - m)) = num (round (round (y - m) * round (y - m))) := by
  obtain ⟨y, h1, h2⟩ := kern_near ha hp ht0 ht1 hg0 hg1
  have hy := abs_of_near h2 (kern_abs_le hp ht0 ht1 hg0 hg1)
  have hd : |y - m| ≤ 2 ^ (41 : ℕ) := by
    refine (abs_sub _ _).trans ((add_le_add hy hm).trans ?_)
    norm_num
  have hr := round_abs_le hd
  refine ⟨y, h1, h2, sub_fin (hd.trans (pow_le127 (by norm_num))), hr, mul_fin ?_⟩
  rw [abs_mul]
  calc _ ≤ (2 : ℝ) ^ (41 : ℕ) * 2 ^ (41 : ℕ) := mul_le_mul hr hr (abs_nonneg _) (by positivity)
    _ ≤ _ := by norm_num

/-- What the theorems about the loss assume of the data: target times from 0.05 to 20 Gyr, log masses of any
size that could be meant, at least one and at most `2^24` of them, today between 1 and 21 Gyr. -/
structure GoodTarget (ts ms : List ℝ) (lgt0 : ℝ) : Prop where
  len : ts.length = ms.length
  ne : ts ≠ []
  le : ts.length ≤ 2 ^ 24
  times : ∀ t ∈ ts, 0.05 ≤ t ∧ t ≤ 20
  masses : ∀ m ∈ ms, |m| ≤ 2 ^ (40 : ℕ)
  lgt0_lo : 0 ≤ lgt0
  lgt0_hi : lgt0 ≤ 4 / 3

/-- The loss data on the platform. -/
def lossData (ts ms : List ℝ) (utp : F32) (lgt0 : ℝ) : LossData F32 :=
  ⟨ts.map num, ms.map num, utp, num lgt0⟩

/-- The loss in single precision, taken apart. -/
theorem loss_parts [Libm] (hs : Libm.Sane) (ha : Libm.Accurate) (sum : List F32 → F32)
    (hsum : ∀ l, SumOf l (sum l)) (u : VariedU F32) (utp : F32) (h1 : u.u_logm0.v ≠ nan)
    (h2 : u.u_logtc.v ≠ nan) (h3 : u.u_early_index.v ≠ nan) (h4 : u.u_late_index.v ≠ nan)
    (h5 : utp.v ≠ nan) (ts ms : List ℝ) (lgt0 : ℝ) (hd : GoodTarget ts ms lgt0) (k : ℤ) (hk : -26 ≤ k)
    (hk' : k ≤ 82) (p : MahParams ℝ)
    (hp : get_bounded_mah_params ⟨u.u_logm0, u.u_logtc, u.u_early_index, u.u_late_index, utp⟩ = p.map num)
    (hres : k = 82 ∨ ∀ t m, (t, m) ∈ ts.zip ms →
      |log_mah_kern p t lgt0 - m| + 2 ^ (-15 : ℤ) ≤ 2 ^ (k / 2) ∧ k = k / 2 + k / 2) :
    ClosedBox p ∧ ∃ S, log_mah_loss_with sum u (lossData ts ms utp lgt0) = num (round (S / ts.length)) ∧ 0 ≤ S ∧
      S ≤ ts.length * 2 ^ k ∧ ∀ t m, (t, m) ∈ ts.zip ms → ∃ y, |y - log_mah_kern p t lgt0| ≤ 2 ^ (-15 : ℤ) ∧
        round (round (y - m) * round (y - m)) ≤ S := by
  obtain ⟨p', e', hb, -⟩ := bounded_box hs ⟨u.u_logm0, u.u_logtc, u.u_early_index, u.u_late_index, utp⟩
    h1 h2 h3 h4 h5
  have hpp : p' = p := by
    rw [hp] at e'
    obtain ⟨a1, a2, a3, a4, a5⟩ := p
    obtain ⟨b1, b2, b3, b4, b5⟩ := p'
    simp only [MahParams.map, MahParams.mk.injEq] at e'
    obtain ⟨c1, c2, c3, c4, c5⟩ := e'
    cases c1; cases c2; cases c3; cases c4; cases c5; rfl
  subst hpp
  refine ⟨hb, ?_⟩
  have hn0 : 0 < ts.length := List.length_pos_iff.2 hd.ne
  have hmem : ∀ t m, (t, m) ∈ ts.zip ms → (0.05 ≤ t ∧ t ≤ 20) ∧ |m| ≤ 2 ^ (40 : ℕ) := fun t m h =>
    ⟨hd.times t (List.of_mem_zip h).1, hd.masses m (List.of_mem_zip h).2⟩
  have hsq : ∀ q ∈ ts.zip ms, ∃ y, |y - log_mah_kern p' q.1 lgt0| ≤ 2 ^ (-15 : ℤ) ∧
      |round (y - q.2)| ≤ 2 ^ (41 : ℕ) ∧
      (log_mah_kern (p'.map num) (num q.1) (num lgt0) - num q.2) *
        (log_mah_kern (p'.map num) (num q.1) (num lgt0) - num q.2) =
          num (round (round (y - q.2) * round (y - q.2))) := by
    rintro ⟨t, m⟩ hq
    obtain ⟨⟨q1, q2⟩, q3⟩ := hmem t m hq
    obtain ⟨y, y1, y2, y3, y4, y5⟩ := square_near ha hb q1 q2 hd.lgt0_lo hd.lgt0_hi q3
    exact ⟨y, y2, y4, by rw [y1, y3, y5]⟩
  have hlist : List.zipWith (fun p t : F32 => (p - t) * (p - t)) ((ts.map num).map fun t =>
      log_mah_kern (p'.map num) t (num lgt0)) (ms.map num) = (ts.zip ms).map fun q =>
        (log_mah_kern (p'.map num) (num q.1) (num lgt0) - num q.2) *
          (log_mah_kern (p'.map num) (num q.1) (num lgt0) - num q.2) := by
    rw [List.map_map, List.zipWith_map, ← List.map_uncurry_zip_eq_zipWith]; rfl
  obtain ⟨S, S1, -, S2, S3, S4⟩ := sum_nonneg_range (hsum ((ts.zip ms).map fun q =>
      (log_mah_kern (p'.map num) (num q.1) (num lgt0) - num q.2) *
          (log_mah_kern (p'.map num) (num q.1) (num lgt0) - num q.2))) k (by omega) (by omega)
      (by simpa [hd.len] using hd.le) (by
        intro x hx
        obtain ⟨⟨t, m⟩, hq, rfl⟩ := List.mem_map.1 hx
        obtain ⟨y, y1, y2, y3⟩ := hsq _ hq
        refine ⟨_, y3, rep_round _, round_nonneg (mul_self_nonneg _), round_le ?_ (rep_zpow (by omega))⟩
        rcases hres with rfl | hres
        · have := abs_le.1 y2
          calc round (y - m) * round (y - m) = |round (y - m)| * |round (y - m)| := (abs_mul_abs_self _).symm
            _ ≤ (2 : ℝ) ^ (41 : ℕ) * 2 ^ (41 : ℕ) := mul_le_mul y2 y2 (abs_nonneg _) (by positivity)
            _ = 2 ^ (82 : ℤ) := by norm_num
        · obtain ⟨r1, r2⟩ := hres t m hq
          have hy : |y - m| ≤ 2 ^ (k / 2) := by
            have : y - m = (y - log_mah_kern p' t lgt0) + (log_mah_kern p' t lgt0 - m) := by ring
            rw [this]
            refine (abs_add_le _ _).trans ?_
            rw [add_comm] at r1
            exact (add_le_add_left y1 _).trans r1
          have hr := round_abs_le_rep (rep_zpow (by omega)) hy
          calc round (y - m) * round (y - m) = |round (y - m)| * |round (y - m)| := (abs_mul_abs_self _).symm
            _ ≤ (2 : ℝ) ^ (k / 2) * 2 ^ (k / 2) := mul_le_mul hr hr (abs_nonneg _) (two_zpow_pos _).le
            _ = 2 ^ k := by rw [← zpow_add₀ (by norm_num), ← r2])
  have hlz : (ts.zip ms).length = ts.length := by simp [hd.len]
  rw [List.length_map, hlz] at S3
  refine ⟨S, ?_, S2, S3, fun t m hq => ?_⟩
  · unfold log_mah_loss_with mse_with lossData
    simp only [log_mah_kern_u_params, hp]
    rw [hlist, S1, List.length_map, hlz, lit_nat hd.le]
    have hnpos : (0 : ℝ) < ts.length := by exact_mod_cast hn0
    refine div_fin hnpos.ne' ?_
    rw [abs_of_nonneg (div_nonneg S2 hnpos.le), div_le_iff₀ hnpos, mul_comm]
    refine S3.trans (mul_le_mul_of_nonneg_left ?_ hnpos.le)
    have : (2 : ℝ) ^ k ≤ 2 ^ (127 : ℤ) := zpow_mono2 (by omega)
    exact_mod_cast this
  · obtain ⟨y, y1, -, y3⟩ := hsq _ hq
    refine ⟨y, y1, S4 _ ?_⟩
    rw [← y3]
    exact List.mem_map_of_mem (f := fun q : ℝ × ℝ => (log_mah_kern (p'.map num) (num q.1) (num lgt0) - num q.2) *
          (log_mah_kern (p'.map num) (num q.1) (num lgt0) - num q.2)) hq

/-- C123. The loss of the other theorems is the one that adds up the squares from left to right. Without roundings
the order does not matter. -/
theorem C123_same_function :
    (∀ (u : VariedU F32) (ld : LossData F32) [Libm],
      log_mah_loss_with (fun l => l.foldl (· + ·) (lit 0)) u ld = Fit.log_mah_loss_uparams u ld ∧
      ∀ l : List F32, SumOf l (l.foldl (· + ·) (lit 0))) ∧
    ∀ (sum : List ℝ → ℝ), (∀ l, SumOf l (sum l)) → ∀ (u : VariedU ℝ) (ld : LossData ℝ),
      log_mah_loss_with sum u ld = Fit.log_mah_loss_uparams u ld := by
  refine ⟨fun u ld _ => ⟨rfl, sumOf_foldl⟩, fun sum hsum u ld => ?_⟩
  unfold log_mah_loss_with mse_with Fit.log_mah_loss_uparams Fit.mse Fit.jmean
  simp only
  rw [sumOf_real (hsum _), sumOf_real (sumOf_foldl _)]

/-- C123, loss. Whatever point the optimiser tries, as long as none of its numbers is NaN, the loss in single
precision is finite and not negative, in whatever order the squares are added up. -/
theorem C123_loss_finite [Libm] (hs : Libm.Sane) (ha : Libm.Accurate) (sum : List F32 → F32)
    (hsum : ∀ l, SumOf l (sum l)) (u : VariedU F32) (utp : F32) (h1 : u.u_logm0.v ≠ nan)
    (h2 : u.u_logtc.v ≠ nan) (h3 : u.u_early_index.v ≠ nan) (h4 : u.u_late_index.v ≠ nan)
    (h5 : utp.v ≠ nan) (ts ms : List ℝ) (lgt0 : ℝ) (hd : GoodTarget ts ms lgt0) :
    ∃ y, log_mah_loss_with sum u (lossData ts ms utp lgt0) = num y ∧ 0 ≤ y := by
  obtain ⟨p, e, -⟩ := bounded_box hs ⟨u.u_logm0, u.u_logtc, u.u_early_index, u.u_late_index, utp⟩ h1 h2 h3 h4 h5
  obtain ⟨-, S, S1, S2, -⟩ := loss_parts hs ha sum hsum u utp h1 h2 h3 h4 h5 ts ms lgt0 hd 82 (by norm_num)
    (by norm_num) p e (.inl rfl)
  exact ⟨_, S1, round_nonneg (div_nonneg S2 (by positivity))⟩

/-- C123, a small loss is a close fit. In single precision the exact history of the bounded parameters passes each
of the `n` target points within the root of `n` times the reported loss, up to 0.1% and `2^-14` dex. -/
theorem C123_small_loss_close_fit [Libm] (hs : Libm.Sane) (ha : Libm.Accurate) (sum : List F32 → F32)
    (hsum : ∀ l, SumOf l (sum l)) (u : VariedU F32) (utp : F32) (h1 : u.u_logm0.v ≠ nan)
    (h2 : u.u_logtc.v ≠ nan) (h3 : u.u_early_index.v ≠ nan) (h4 : u.u_late_index.v ≠ nan)
    (h5 : utp.v ≠ nan) (ts ms : List ℝ) (lgt0 : ℝ) (hd : GoodTarget ts ms lgt0) (y : ℝ)
    (hy : log_mah_loss_with sum u (lossData ts ms utp lgt0) = num y) :
    ∃ p : MahParams ℝ,
      get_bounded_mah_params ⟨u.u_logm0, u.u_logtc, u.u_early_index, u.u_late_index, utp⟩ = p.map num ∧
      ∀ (j : ℕ) (t m : ℝ), ts[j]? = some t → ms[j]? = some m →
        |logmh_at_t_obs p t lgt0 - m| ≤ 1.001 * √(ts.length * y) + 2 ^ (-14 : ℤ) := by
  obtain ⟨p, e, -⟩ := bounded_box hs ⟨u.u_logm0, u.u_logtc, u.u_early_index, u.u_late_index, utp⟩ h1 h2 h3 h4 h5
  obtain ⟨-, S, S1, S2, S3, S4⟩ := loss_parts hs ha sum hsum u utp h1 h2 h3 h4 h5 ts ms lgt0 hd 82 (by norm_num)
    (by norm_num) p e (.inl rfl)
  refine ⟨p, e, fun j t m hj hm => ?_⟩
  have hz : (t, m) ∈ ts.zip ms := by
    apply List.mem_of_getElem? (i := j)
    rw [List.getElem?_zip_eq_some]; exact ⟨hj, hm⟩
  obtain ⟨x, x1, x2⟩ := S4 t m hz
  have hyS : y = round (S / ts.length) := by rw [hy] at S1; cases S1; rfl
  have hn : (0 : ℝ) < ts.length := by exact_mod_cast List.length_pos_iff.2 hd.ne
  have hn' : (ts.length : ℝ) ≤ 2 ^ 24 := by exact_mod_cast hd.le
  have hy0 : 0 ≤ y := by rw [hyS]; exact round_nonneg (div_nonneg S2 hn.le)
  -- the three roundings, backwards
  have a1 : |x - m| ≤ |round (x - m)| + (2 ^ (-24 : ℤ) * |x - m| + 2 ^ (-150 : ℤ)) := by
    have : x - m = round (x - m) - (round (x - m) - (x - m)) := by ring
    calc |x - m| = |round (x - m) - (round (x - m) - (x - m))| := by rw [← this]
      _ ≤ _ := (abs_sub _ _).trans (add_le_add le_rfl (round_rel _))
  generalize round (x - m) = d at x2 a1
  have a2 : d * d ≤ S + (2 ^ (-24 : ℤ) * (d * d) + 2 ^ (-150 : ℤ)) := by
    have := (abs_le.1 (round_rel (d * d))).1
    rw [abs_of_nonneg (mul_self_nonneg d)] at this
    linarith
  have a3 : S / ts.length ≤ y + (2 ^ (-24 : ℤ) * (S / ts.length) + 2 ^ (-150 : ℤ)) := by
    have := (abs_le.1 (round_rel (S / ts.length))).1
    rw [abs_of_nonneg (div_nonneg S2 hn.le), ← hyS] at this
    linarith
  have e24 : (2 : ℝ) ^ (-24 : ℤ) ≤ 0.0000001 := by norm_num
  have e150 : (2 : ℝ) ^ (-150 : ℤ) = 2 ^ (-120 : ℤ) * 2 ^ (-30 : ℤ) := by norm_num
  have e30 : (2 : ℝ) ^ (-30 : ℤ) = 1 / 2 ^ 24 * (1 / 64) := by norm_num
  have t0 := two_zpow_pos (-120)
  have b3 : S ≤ 1.0000002 * (ts.length * y) + 1 / 32 * 2 ^ (-120 : ℤ) := by
    have q0 : 0 ≤ S / ts.length := div_nonneg S2 hn.le
    have q1 : S / ts.length ≤ 1.0000002 * y + 1.0000002 * 2 ^ (-150 : ℤ) := by
      have : (2 : ℝ) ^ (-24 : ℤ) * (S / ts.length) ≤ 0.0000001 * (S / ts.length) :=
        mul_le_mul_of_nonneg_right e24 q0
      have p150 := two_zpow_pos (-150)
      linarith
    rw [div_le_iff₀ hn] at q1
    have q2 : (1.0000002 : ℝ) * 2 ^ (-150 : ℤ) * ts.length ≤ 1 / 32 * 2 ^ (-120 : ℤ) := by
      rw [e150, e30]
      have : (1.0000002 : ℝ) * (2 ^ (-120 : ℤ) * (1 / 2 ^ 24 * (1 / 64))) * ts.length =
          (1.0000002 / 64 * 2 ^ (-120 : ℤ)) * (ts.length / 2 ^ 24) := by ring
      rw [this]
      have h1 : (ts.length : ℝ) / 2 ^ 24 ≤ 1 := (div_le_one (by positivity)).2 hn'
      calc _ ≤ (1.0000002 / 64 * (2 : ℝ) ^ (-120 : ℤ)) * 1 :=
            mul_le_mul_of_nonneg_left h1 (by positivity)
        _ ≤ _ := by linarith
    linarith
  have b2 : d * d ≤ 1.000001 * (ts.length * y) + 2 ^ (-120 : ℤ) := by
    have : (2 : ℝ) ^ (-24 : ℤ) * (d * d) ≤ 0.0000001 * (d * d) :=
      mul_le_mul_of_nonneg_right e24 (mul_self_nonneg d)
    have q : (2 : ℝ) ^ (-150 : ℤ) ≤ 1 / 32 * 2 ^ (-120 : ℤ) := by
      rw [e150, e30]
      have : (2 : ℝ) ^ (-120 : ℤ) * (1 / 2 ^ 24 * (1 / 64)) = (1 / 2 ^ 24 * (1 / 64)) * 2 ^ (-120 : ℤ) := by ring
      rw [this]
      exact mul_le_mul_of_nonneg_right (by norm_num) t0.le
    have hny := mul_nonneg hn.le hy0
    have a2' := a2.trans (add_le_add le_rfl (add_le_add this q))
    generalize (2 : ℝ) ^ (-120 : ℤ) = z at a2' b3 t0 ⊢
    linarith only [a2', b3, t0, hny, mul_self_nonneg d]
  have hr := Real.sqrt_nonneg (ts.length * y)
  have hr2 := Real.mul_self_sqrt (mul_nonneg hn.le hy0)
  have b1 : |d| ≤ 1.000001 * √(ts.length * y) + 2 ^ (-60 : ℤ) := by
    have t60 := two_zpow_pos (-60)
    have e120 : (2 : ℝ) ^ (-120 : ℤ) = 2 ^ (-60 : ℤ) * 2 ^ (-60 : ℤ) := by norm_num
    rw [e120] at b2
    generalize (2 : ℝ) ^ (-60 : ℤ) = z at b2 t60 ⊢
    generalize √(ts.length * y) = w at hr hr2 ⊢
    rw [← hr2] at b2
    apply abs_le_of_sq_le_sq _ (by linarith [mul_nonneg (show (0 : ℝ) ≤ 1.000001 by norm_num) hr])
    have : (0 : ℝ) ≤ w * z := mul_nonneg hr t60.le
    nlinarith [mul_self_nonneg w]
  have b0 : |x - m| ≤ 1.001 * √(ts.length * y) + 2 ^ (-16 : ℤ) := by
    have : (2 : ℝ) ^ (-24 : ℤ) * |x - m| ≤ 0.0000001 * |x - m| := mul_le_mul_of_nonneg_right e24 (abs_nonneg _)
    have e : (2 : ℝ) ^ (-60 : ℤ) + 2 ^ (-150 : ℤ) ≤ 1 / 2 * 2 ^ (-16 : ℤ) := by norm_num
    have t16 := two_zpow_pos (-16)
    have a1' := a1.trans (add_le_add b1 (add_le_add this le_rfl))
    generalize (2 : ℝ) ^ (-16 : ℤ) = z at e t16 ⊢
    generalize (2 : ℝ) ^ (-60 : ℤ) = z1 at e a1'
    generalize (2 : ℝ) ^ (-150 : ℤ) = z2 at e a1'
    linarith only [a1', e, t16, hr]
  have : logmh_at_t_obs p t lgt0 - m = (x - m) - (x - log_mah_kern p t lgt0) := by
    unfold logmh_at_t_obs; ring
  rw [this]
  refine (abs_sub _ _).trans ((add_le_add b0 x1).trans ?_)
  have : (2 : ℝ) ^ (-16 : ℤ) + 2 ^ (-15 : ℤ) ≤ 2 ^ (-14 : ℤ) := by norm_num
  linarith

/-- C123, a close fit has a small loss. If the exact history of the bounded parameters passes all target points
within `2^k - 2^-14` dex, where `2^k` is at least `2^-13`, then the reported loss is at most `2^(2k)`. -/
theorem C123_close_fit_small_loss [Libm] (hs : Libm.Sane) (ha : Libm.Accurate) (sum : List F32 → F32)
    (hsum : ∀ l, SumOf l (sum l)) (u : VariedU F32) (utp : F32) (h1 : u.u_logm0.v ≠ nan)
    (h2 : u.u_logtc.v ≠ nan) (h3 : u.u_early_index.v ≠ nan) (h4 : u.u_late_index.v ≠ nan)
    (h5 : utp.v ≠ nan) (ts ms : List ℝ) (lgt0 : ℝ) (hd : GoodTarget ts ms lgt0) (p : MahParams ℝ)
    (hp : get_bounded_mah_params ⟨u.u_logm0, u.u_logtc, u.u_early_index, u.u_late_index, utp⟩ = p.map num)
    (k : ℤ) (hk : -13 ≤ k) (hk' : k ≤ 41)
    (hres : ∀ (j : ℕ) (t m : ℝ), ts[j]? = some t → ms[j]? = some m →
      |logmh_at_t_obs p t lgt0 - m| ≤ 2 ^ k - 2 ^ (-14 : ℤ)) :
    ∃ y, log_mah_loss_with sum u (lossData ts ms utp lgt0) = num y ∧ 0 ≤ y ∧ y ≤ 2 ^ (2 * k) := by
  obtain ⟨-, S, S1, S2, S3, -⟩ := loss_parts hs ha sum hsum u utp h1 h2 h3 h4 h5 ts ms lgt0 hd (2 * k) (by omega)
    (by omega) p hp (.inr fun t m hq => by
      obtain ⟨j, hj⟩ := List.mem_iff_getElem?.1 hq
      rw [List.getElem?_zip_eq_some] at hj
      have e2 : 2 * k / 2 = k := by omega
      rw [e2]
      refine ⟨?_, by omega⟩
      have := hres j t m hj.1 hj.2
      have e : (2 : ℝ) ^ (-15 : ℤ) ≤ 2 ^ (-14 : ℤ) := zpow_mono2 (by norm_num)
      rw [le_sub_iff_add_le] at this
      exact (add_le_add_right e _).trans this)
  have hn : (0 : ℝ) < ts.length := by exact_mod_cast List.length_pos_iff.2 hd.ne
  refine ⟨_, S1, round_nonneg (div_nonneg S2 hn.le), round_le ?_ (rep_zpow (by omega))⟩
  rw [div_le_iff₀ hn, mul_comm]
  exact S3

theorem goodTarget_example : GoodTarget [1, 5, 13] [10, 11, 12] 1 := by
  refine ⟨rfl, by simp, by norm_num, ?_, ?_, by norm_num, by norm_num⟩
  · simp only [List.mem_cons, List.not_mem_nil, or_false, forall_eq_or_imp, forall_eq]; norm_num
  · simp only [List.mem_cons, List.not_mem_nil, or_false, forall_eq_or_imp, forall_eq]; norm_num [abs_le]

/-- The hypotheses of C123 are met: by the correctly rounded platform, sums from left to right, a point with a huge
and two infinite numbers, and three masses, which its history passes within `2^7 - 2^-14` dex. -/
example : ∃ (L : Libm) (sum : List F32 → F32) (u : VariedU F32) (utp : F32) (ts ms : List ℝ) (lgt0 : ℝ)
    (p : MahParams ℝ), @Libm.Sane L ∧ @Libm.AccurateRate L ∧ (∀ l, SumOf l (sum l)) ∧
    u.u_logm0.v ≠ nan ∧ u.u_logtc.v ≠ nan ∧ u.u_early_index.v ≠ nan ∧ u.u_late_index.v ≠ nan ∧ utp.v ≠ nan ∧
    u.u_logm0 = num (10 ^ 30) ∧ u.u_logtc = ⟨pinf⟩ ∧ u.u_early_index = ⟨ninf⟩ ∧ GoodTarget ts ms lgt0 ∧
    (9 : ℝ) ≤ 10 ^ lgt0 ∧ ts.length = 3 ∧ @get_bounded_mah_params F32 _ _ _ (@F32.instJOpsOfLibm L)
      ⟨u.u_logm0, u.u_logtc, u.u_early_index, u.u_late_index, utp⟩ = p.map num ∧
    ∀ (j : ℕ) (t m : ℝ), ts[j]? = some t → ms[j]? = some m →
      |logmh_at_t_obs p t lgt0 - m| ≤ 2 ^ (7 : ℤ) - 2 ^ (-14 : ℤ) := by
  let _ := ideal
  obtain ⟨p, e, hp, -⟩ := bounded_box ideal_sane ⟨num (10 ^ 30), ⟨pinf⟩, ⟨ninf⟩, num 0, num 5⟩ (fun h => by cases h)
    (fun h => by cases h) (fun h => by cases h) (fun h => by cases h) (fun h => by cases h)
  refine ⟨ideal, fun l => l.foldl (· + ·) (lit 0), ⟨num (10 ^ 30), ⟨pinf⟩, ⟨ninf⟩, num 0⟩, num 5, [1, 5, 13],
    [10, 11, 12], 1, p, ideal_sane, ideal_accurateRate, sumOf_foldl, (fun h => by cases h), (fun h => by cases h),
    (fun h => by cases h), (fun h => by cases h), (fun h => by cases h), rfl, rfl, rfl, goodTarget_example, by norm_num, rfl,
    e, fun j t m ht hm => ?_⟩
  have h1 : 0.05 ≤ t ∧ t ≤ 20 := goodTarget_example.times t (List.mem_of_getElem? ht)
  have h2 : |m| ≤ 12 := by
    have := List.mem_of_getElem? hm
    simp only [List.mem_cons, List.not_mem_nil, or_false] at this
    rcases this with rfl | rfl | rfl <;> norm_num [abs_le]
  have h3 := kern_abs_le hp h1.1 h1.2 (lgt0 := 1) (by norm_num) (by norm_num)
  refine (abs_sub _ _).trans ((add_le_add h3 h2).trans ?_)
  norm_num

end

end Diffmah.F32

import Verif.Lemmas.Measure

/-!
# Properties of the population target measurements (C45, C46, C81, C82)
-/

namespace Diffmah.Measure

open JOps Diffmah.Utils Diffmah.Fit Spec
open XR (fin)

/-! ## Outlier mask -/

/-- The test of one halo at one time index, as the code computes it. -/
noncomputable def good (n_t : ℕ) (rows : List (List ℝ)) (logmp lim z_cut : ℝ) (it : ℕ)
    (row : List ℝ) : Bool :=
  let col := column it (log_mah_scaled n_t rows logmp)
  open Classical in
  decide (XR.lt (xabs ((fin ((row.map fun x => x - row.getD (n_t - 1) 0 + logmp).getD it 0)
    - trimmed_mean col lim) / trimmed_std col lim)) (fin z_cut))

theorem clean_step_map (n_t : ℕ) (rows : List (List ℝ)) (logmp lim z_cut : ℝ) (m : List ℝ → Bool)
    (it : ℕ) :
    clean_step (log_mah_scaled n_t rows logmp) lim z_cut (rows.map m) it
      = rows.map fun row => m row && good n_t rows logmp lim z_cut it row := by
  unfold clean_step good
  simp only
  generalize trimmed_mean (column it (log_mah_scaled n_t rows logmp)) lim = mu
  generalize trimmed_std (column it (log_mah_scaled n_t rows logmp)) lim = sd
  have hc : column it (log_mah_scaled n_t rows logmp) = rows.map fun row =>
      (row.map fun x => x - row.getD (n_t - 1) 0 + logmp).getD it 0 := by
    simp only [column, log_mah_scaled, List.map_map, Function.comp_def]
  rw [hc, List.map_map, List.zipWith_map, List.zipWith_self]
  rfl

theorem clean_fold (n_t : ℕ) (rows : List (List ℝ)) (logmp lim z_cut : ℝ) (its : List ℕ)
    (m : List ℝ → Bool) :
    its.foldl (clean_step (log_mah_scaled n_t rows logmp) lim z_cut) (rows.map m)
      = rows.map fun row => m row && its.all fun it => good n_t rows logmp lim z_cut it row := by
  induction its generalizing m with
  | nil => simp
  | cons it its ih =>
    rw [List.foldl_cons, clean_step_map, ih]
    refine List.map_congr_left fun row _ => ?_
    rw [List.all_cons, Bool.and_assoc]

theorem mask_eq (n_t : ℕ) (hn : n_t ≠ 0) (rows : List (List ℝ)) (logmp : ℝ) (it_min : ℕ)
    (lim z_cut : ℝ) :
    get_clean_sample_mask n_t rows logmp it_min lim z_cut
      = .ok (rows.map fun row => (List.range' it_min (n_t - 1 - it_min)).all fun it =>
          good n_t rows logmp lim z_cut it row) := by
  unfold get_clean_sample_mask
  rw [if_neg hn]
  simp only
  have : List.replicate rows.length true = rows.map fun _ => true := by
    rw [List.map_const']
  rw [this, clean_fold]
  simp

/-- Growth of a halo from time index `it` to the last one (minus sign), in dex. -/
noncomputable def growth (n_t it : ℕ) (row : List ℝ) : ℝ := row.getD it 0 - row.getD (n_t - 1) 0

theorem column_scaled (n_t : ℕ) (rows : List (List ℝ)) (hrows : ∀ row ∈ rows, row.length = n_t)
    (logmp : ℝ) (it : ℕ) (hit : it < n_t) :
    column it (log_mah_scaled n_t rows logmp) = (rows.map (growth n_t it)).map (· + logmp) := by
  unfold column log_mah_scaled
  rw [List.map_map, List.map_map]
  refine List.map_congr_left fun row hr => ?_
  have : it < row.length := by rw [hrows row hr]; exact hit
  simp [Function.comp, growth, this]

theorem good_iff (n_t : ℕ) (lim z_cut : ℝ) (it : ℕ) (hit : it < n_t) (rows : List (List ℝ))
    (hrows : ∀ row ∈ rows, row.length = n_t) (logmp : ℝ) (row : List ℝ) (hr : row ∈ rows) :
    good n_t rows logmp lim z_cut it row = true ↔
      ∃ t, IsTrimmed (rows.map (growth n_t it)) ⌊lim * (rows.length : ℝ)⌋₊ t ∧
          0 < std t ∧ |growth n_t it row - mean t| < z_cut * std t := by
  obtain ⟨i, hi, rfl⟩ := List.mem_iff_getElem.1 hr
  simp only [good, decide_eq_true_eq, zscore_iff, column_scaled n_t rows hrows logmp it hit]
  have hl : it < (rows[i]).length := by rw [hrows _ hr]; exact hit
  have e : (rows[i].map fun x => x - rows[i].getD (n_t - 1) 0 + logmp).getD it 0
      = growth n_t it rows[i] + logmp := by simp [hl, growth]
  rw [e]
  simp only [List.length_map]
  constructor
  · rintro ⟨t, ht, hs, hv⟩
    have hts : t = (t.map (· - logmp)).map (· + logmp) := by simp [List.map_map, Function.comp_def]
    have hlen0 : t ≠ [] := by rintro rfl; simp [std] at hs
    refine ⟨t.map (· - logmp), ?_, ?_, ?_⟩
    · obtain ⟨lo, hi, a1, a2, a3, a4⟩ := ht
      refine ⟨lo.map (· - logmp), hi.map (· - logmp), by simpa using a1, by simpa using a2, ?_, ?_⟩
      · have := a3.map (· - logmp)
        simpa [List.map_map, Function.comp_def] using this
      · have := (List.pairwise_map (f := (· - logmp)) (R := (· ≤ ·))).2 (a4.imp fun h => by linarith)
        simpa using this
    · rw [hts, std_shift] at hs; exact hs
    · rw [hts, std_shift, mean_shift (by simpa using hlen0)] at hv
      convert hv using 2; ring
  · rintro ⟨t, ht, hs, hv⟩
    have hlen0 : t ≠ [] := by rintro rfl; simp [std] at hs
    refine ⟨t.map (· + logmp), ?_, by rw [std_shift]; exact hs, ?_⟩
    · obtain ⟨lo, hi, a1, a2, a3, a4⟩ := ht
      refine ⟨lo.map (· + logmp), hi.map (· + logmp), by simpa using a1, by simpa using a2, ?_, ?_⟩
      · have := a3.map (· + logmp)
        simp only [List.map_append] at this
        exact this
      · have := (List.pairwise_map (f := (· + logmp)) (R := (· ≤ ·))).2 (a4.imp fun h => by linarith)
        simpa using this
    · rw [std_shift, mean_shift hlen0]
      convert hv using 2; ring

/-- **C46**. On a table with `n_t ≥ 1` columns a halo is kept if and only if at every time index in
`[it_min, n_t - 1)` its log mass relative to its own final mass is within `z_cut` standard deviations
of the population mean, where mean and standard deviation are those of the population without its
`⌊lim n⌋` smallest and largest members (a zero standard deviation removes every halo). -/
theorem C46_kept_iff (n_t : ℕ) (hn : n_t ≠ 0) (rows : List (List ℝ))
    (hrows : ∀ row ∈ rows, row.length = n_t) (logmp : ℝ) (it_min : ℕ) (lim z_cut : ℝ) :
    ∃ mask, get_clean_sample_mask n_t rows logmp it_min lim z_cut = .ok mask ∧
      mask.length = rows.length ∧
      ∀ (i : ℕ) (row : List ℝ), rows[i]? = some row →
        (mask[i]? = some true ↔ ∀ it, it_min ≤ it → it < n_t - 1 →
          ∃ t, IsTrimmed (rows.map fun r => r.getD it 0 - r.getD (n_t - 1) 0)
              ⌊lim * (rows.length : ℝ)⌋₊ t ∧
            0 < std t ∧ |row.getD it 0 - row.getD (n_t - 1) 0 - mean t| < z_cut * std t) := by
  refine ⟨_, mask_eq n_t hn rows logmp it_min lim z_cut, by simp, ?_⟩
  intro i row hi
  have hmem : row ∈ rows := List.mem_of_getElem? hi
  rw [List.getElem?_map, hi, Option.map_some]
  simp only [Option.some.injEq, List.all_eq_true, List.mem_range'_1]
  refine forall_congr' fun it => ?_
  constructor
  · intro h h1 h2
    exact (good_iff n_t lim z_cut it (by omega) rows hrows logmp row hmem).1 (h ⟨h1, by omega⟩)
  · intro h h1
    exact (good_iff n_t lim z_cut it (by omega) rows hrows logmp row hmem).2 (h h1.1 (by omega))

theorem good_congr (n_t : ℕ) (rows rows' : List (List ℝ)) (hrows : ∀ row ∈ rows, row.length = n_t)
    (hrows' : ∀ row ∈ rows', row.length = n_t) (logmp logmp' lim z_cut : ℝ) (it : ℕ) (hit : it < n_t)
    (hg : rows.map (growth n_t it) = rows'.map (growth n_t it)) (row row' : List ℝ)
    (hr : row ∈ rows) (hr' : row' ∈ rows') (hrow : growth n_t it row = growth n_t it row') :
    good n_t rows logmp lim z_cut it row = good n_t rows' logmp' lim z_cut it row' := by
  have hlen : rows.length = rows'.length := by simpa using congrArg List.length hg
  rw [Bool.eq_iff_iff, good_iff n_t lim z_cut it hit rows hrows logmp row hr,
    good_iff n_t lim z_cut it hit rows' hrows' logmp' row' hr', hg, hlen, hrow]

/-- **C46** (the sample mass is irrelevant). -/
theorem C46_logmp_irrelevant (n_t : ℕ) (rows : List (List ℝ))
    (hrows : ∀ row ∈ rows, row.length = n_t) (logmp logmp' : ℝ) (it_min : ℕ) (lim z_cut : ℝ) :
    get_clean_sample_mask n_t rows logmp it_min lim z_cut
      = get_clean_sample_mask n_t rows logmp' it_min lim z_cut := by
  by_cases hn : n_t = 0
  · unfold get_clean_sample_mask; rw [if_pos hn, if_pos hn]
  · rw [mask_eq n_t hn, mask_eq n_t hn]
    congr 1
    refine List.map_congr_left fun row hr => ?_
    rw [Bool.eq_iff_iff, List.all_eq_true, List.all_eq_true]
    refine forall_congr' fun it => forall_congr' fun hit => ?_
    rw [List.mem_range'_1] at hit
    rw [good_congr n_t rows rows hrows hrows logmp logmp' lim z_cut it (by omega) rfl row row hr hr
      rfl]

/-- **C46** (shifting a halo changes nothing). Adding a constant `c row` to each halo's log history
leaves the mask unchanged. -/
theorem C46_shift_invariant (n_t : ℕ) (rows : List (List ℝ))
    (hrows : ∀ row ∈ rows, row.length = n_t) (c : List ℝ → ℝ) (logmp : ℝ) (it_min : ℕ)
    (lim z_cut : ℝ) :
    get_clean_sample_mask n_t (rows.map fun row => row.map (· + c row)) logmp it_min lim z_cut
      = get_clean_sample_mask n_t rows logmp it_min lim z_cut := by
  by_cases hn : n_t = 0
  · unfold get_clean_sample_mask; rw [if_pos hn, if_pos hn]
  · rw [mask_eq n_t hn, mask_eq n_t hn, List.map_map]
    congr 1
    have hr' : ∀ row ∈ rows.map fun row => row.map (· + c row), row.length = n_t := by
      intro row h
      obtain ⟨r, hr, rfl⟩ := List.mem_map.1 h
      simpa using hrows r hr
    have hgrow : ∀ it < n_t, ∀ row ∈ rows,
        growth n_t it (row.map (· + c row)) = growth n_t it row := by
      intro it hit row hr
      have hl := hrows row hr
      have h1 : it < row.length := by omega
      have h2 : n_t - 1 < row.length := by omega
      simp [growth, h1, h2]
    refine List.map_congr_left fun row hr => ?_
    simp only [Function.comp]
    rw [Bool.eq_iff_iff, List.all_eq_true, List.all_eq_true]
    refine forall_congr' fun it => forall_congr' fun hit => ?_
    rw [List.mem_range'_1] at hit
    have hit' : it < n_t := by omega
    rw [good_congr n_t _ rows hr' hrows logmp logmp lim z_cut it hit' ?_ _ row
      (List.mem_map_of_mem hr) hr (hgrow it hit' row hr)]
    rw [List.map_map]
    exact List.map_congr_left fun r h => hgrow it hit' r h

/-- **C46** (no columns). IndexError. -/
theorem C46_no_columns (rows : List (List ℝ)) (logmp : ℝ) (it_min : ℕ) (lim z_cut : ℝ) :
    get_clean_sample_mask 0 rows logmp it_min lim z_cut = .error .indexError := rfl

/-- A population in which all haloes have the same growth loses all of them, since the standard
deviation is zero. -/
example : get_clean_sample_mask 3 [[10, 11, 12], [11, 12, 13]] 12 1 0.01 3 = .ok [false, false] := by
  obtain ⟨mask, h, hl, hk⟩ := C46_kept_iff 3 (by norm_num) [[10, 11, 12], [11, 12, 13]] (by simp) 12 1
    0.01 3
  have key : ∀ (i : ℕ) row, ([[10, 11, 12], [11, 12, 13]] : List (List ℝ))[i]? = some row →
      mask[i]? ≠ some true := by
    intro i row hi hm
    obtain ⟨t, ⟨lo, hi', h1, h2, h3, -⟩, hs, -⟩ := ((hk i row hi).1 hm) 1 le_rfl (by norm_num)
    have hk0 : ⌊(0.01 : ℝ) * (([[10, 11, 12], [11, 12, 13]] : List (List ℝ)).length : ℝ)⌋₊ = 0 := by
      rw [Nat.floor_eq_zero]; norm_num
    rw [hk0] at h1 h2
    have e1 := List.length_eq_zero_iff.1 h1
    have e2 := List.length_eq_zero_iff.1 h2
    subst e1; subst e2
    have hp : t.Perm [-1, -1] := by
      have : ([[10, 11, 12], [11, 12, 13]] : List (List ℝ)).map
          (fun r => r.getD 1 0 - r.getD (3 - 1) 0) = [-1, -1] := by norm_num
      rw [this] at h3
      simpa using h3
    have ht : t = [-1, -1] := by
      have : t = List.replicate 2 (-1) := List.perm_replicate.1 hp
      simpa using this
    rw [ht] at hs
    norm_num [std, sumSqDev, mean] at hs
  rw [h]
  congr 1
  match mask, hl with
  | [a, b], _ =>
    have ha := key 0 _ rfl
    have hb := key 1 _ rfl
    cases a <;> cases b <;> simp_all

/-- A population in which the mask keeps haloes. -/
example : ∃ mask, get_clean_sample_mask 2 [[0, 1], [0, 2]] 12 0 0 3 = .ok mask ∧
    mask[0]? = some true := by
  obtain ⟨mask, h, hl, hk⟩ := C46_kept_iff 2 (by norm_num) [[0, 1], [0, 2]] (by simp) 12 0 0 3
  refine ⟨mask, h, (hk 0 [0, 1] rfl).2 ?_⟩
  intro it _ hit
  have : it = 0 := by omega
  subst this
  refine ⟨[-2, -1], ⟨[], [], by simp, by simp, ?_, ?_⟩, ?_, ?_⟩
  · norm_num; exact List.Perm.swap _ _ _
  · norm_num
  · norm_num [std, sumSqDev, mean]
  · have hs : std [-2, -1] = 1 / 2 := by
      have : (sumSqDev [-2, -1] / (([-2, -1] : List ℝ).length : ℝ)) = (1 / 2) ^ 2 := by
        norm_num [sumSqDev, mean]
      unfold std
      rw [this, Real.sqrt_sq (by norm_num)]
    rw [hs]
    norm_num [mean]

/-! ## Target moments -/

theorem interp_ok (x : List ℝ) {xp : List ℝ} {fp : List XR} (h : xp.length = fp.length) (hne : xp ≠ []) :
    interp x xp fp = .ok (x.map (interp1 xp fp)) := by
  unfold interp; rw [if_pos ⟨h, hne⟩]

/-- All five outputs, entry by entry. -/
theorem measure_eq (n_t : ℕ) (hn : n_t ≠ 0) (mah dmhdt : List (List XR)) (lgt lgt_target : List ℝ)
    (hl : lgt.length = n_t) (logmp : ℝ) :
    measure_target_data n_t mah dmhdt lgt lgt_target logmp = .ok {
      mean_mah := lgt_target.map fun x => pow10 (interp1 lgt ((List.range n_t).map fun it =>
        log10 (jmean (xcolumn it (scale_rows n_t mah mah logmp)))) x)
      mean_log_mah := lgt_target.map fun x => pow10 (interp1 lgt ((List.range n_t).map fun it =>
        log10 (jmean ((xcolumn it (scale_rows n_t mah mah logmp)).map log10))) x)
      var_log_mah := lgt_target.map fun x =>
        interp1 lgt ((List.range n_t).map fun it =>
          npstd ((xcolumn it (scale_rows n_t mah mah logmp)).map log10)) x *
        interp1 lgt ((List.range n_t).map fun it =>
          npstd ((xcolumn it (scale_rows n_t mah mah logmp)).map log10)) x
      mean_dmhdt := lgt_target.map fun x => pow10 (interp1 lgt ((List.range n_t).map fun it =>
        log10 (jmean (xcolumn it (scale_rows n_t mah dmhdt logmp)))) x)
      var_dmhdt := lgt_target.map fun x =>
        pow10 (interp1 lgt ((List.range n_t).map fun it =>
          log10 (npstd (xcolumn it (scale_rows n_t mah dmhdt logmp)))) x) *
        pow10 (interp1 lgt ((List.range n_t).map fun it =>
          log10 (npstd (xcolumn it (scale_rows n_t mah dmhdt logmp)))) x) } := by
  have hne : lgt ≠ [] := by rintro rfl; simp at hl; omega
  unfold measure_target_data
  rw [if_neg hn]
  simp only
  rw [interp_ok _ (by simp [hl]) hne, interp_ok _ (by simp [hl]) hne, interp_ok _ (by simp [hl]) hne,
    interp_ok _ (by simp [hl]) hne, interp_ok _ (by simp [hl]) hne]
  simp only [bind, Except.bind, pure, Except.pure, List.map_map]
  rfl

theorem getD_range_map (n_t it : ℕ) (h : it < n_t) (f : ℕ → XR) :
    ((List.range n_t).map f).getD it .nan = f it := by simp [h]

/-- **C45**. At (and after) the final tabulated time the target mean mass is `10**logmp_sample`, the
mean log mass is `logmp_sample` and the variance of the log mass is zero, for every non-empty
population whose final masses are positive, whatever the rest of the histories (including NaN).
The mean log mass needs `logmp_sample ≥ 0`: it is NaN otherwise, since it is interpolated in the
log. -/
theorem C45_final_time (n_t : ℕ) (mah dmhdt : List (List XR)) (lgt lgt_target : List ℝ) (logmp : ℝ)
    (hn : n_t ≠ 0) (hlgt : lgt.length = n_t) (hne : mah ≠ [])
    (hlast : ∀ row ∈ mah, row.length = n_t ∧ ∃ m, 0 < m ∧ row[n_t - 1]? = some (fin m)) :
    ∃ out, measure_target_data n_t mah dmhdt lgt lgt_target logmp = .ok out ∧
      ∀ (k : ℕ) (x : ℝ), lgt_target[k]? = some x → (∀ t ∈ lgt, t ≤ x) →
        out.mean_mah[k]? = some (fin ((10 : ℝ) ^ logmp)) ∧
        (0 ≤ logmp → out.mean_log_mah[k]? = some (fin logmp)) ∧
        (logmp < 0 → out.mean_log_mah[k]? = some XR.nan) ∧
        out.var_log_mah[k]? = some (fin 0) := by
  refine ⟨_, measure_eq n_t hn mah dmhdt lgt lgt_target hlgt logmp, ?_⟩
  intro k x hk hx
  have hne' : lgt ≠ [] := by rintro rfl; simp at hlgt; omega
  have hmp' : (0 : ℝ) < (10 : ℝ) ^ logmp := by positivity
  have hcol : xcolumn (n_t - 1) (scale_rows n_t mah mah logmp)
      = (List.replicate mah.length ((10 : ℝ) ^ logmp)).map fin := by
    unfold xcolumn scale_rows
    simp only [List.zipWith_self, List.map_map, List.map_replicate]
    rw [← List.map_const' (l := mah)]
    refine List.map_congr_left fun row hr => ?_
    obtain ⟨hl, m, hm, h⟩ := hlast row hr
    have hd : row.getD (n_t - 1) .nan = fin m := by rw [List.getD_eq_getElem?_getD, h]; rfl
    simp only [Function.comp]
    rw [List.getD_eq_getElem?_getD, List.getElem?_map, h]
    simp only [Option.map_some, Option.getD_some, hd, XR.fin_mul]
    rw [XR.fin_div hm.ne', mul_div_cancel_right₀ _ hm.ne']
  have hlog : (xcolumn (n_t - 1) (scale_rows n_t mah mah logmp)).map log10
      = (List.replicate mah.length logmp).map fin := by
    rw [hcol]
    simp only [List.map_replicate, XR.log10_pos hmp']
    rw [Real.logb_rpow (by norm_num) (by norm_num)]
  have hlen : mah.length ≠ 0 := fun h => hne (List.length_eq_zero_iff.1 h)
  have hrep : ∀ a : ℝ, List.replicate mah.length a ≠ [] := by
    intro a h; have := congrArg List.length h; simp at this; exact hlen (by simpa using this)
  have hmean : ∀ a : ℝ, mean (List.replicate mah.length a) = a := by
    intro a
    unfold mean
    rw [List.sum_replicate, List.length_replicate, nsmul_eq_mul,
      mul_div_cancel_left₀ _ (by exact_mod_cast hlen)]
  have hstd : ∀ a : ℝ, std (List.replicate mah.length a) = 0 := by
    intro a
    unfold std sumSqDev
    rw [hmean]; simp
  have hi : ∀ f : ℕ → XR, interp1 lgt ((List.range n_t).map f) x = f (n_t - 1) := by
    intro f
    rw [interp1_last hne' hx, hlgt, getD_range_map n_t _ (by omega)]
  simp only [List.getElem?_map, hk, Option.map_some, hi, hlog]
  rw [hcol, jmean_fin (hrep _), jmean_fin (hrep _), npstd_fin (hrep _), hmean, hmean, hstd,
    pow10_log10 hmp'.le]
  refine ⟨rfl, fun h => by rw [pow10_log10 h], fun h => by rw [XR.log10_neg h, XR.pow10_nan], ?_⟩
  simp

/-- Two haloes, one of them with an unknown early mass, meet the hypotheses. -/
example : ∃ out, measure_target_data 2 [[fin 1, fin 5], [.nan, fin 7]] [[fin 1, fin 1], [fin 1, fin 1]]
    [0, 1] [1] 12 = .ok out ∧ out.mean_log_mah[0]? = some (fin 12) := by
  obtain ⟨out, h, hk⟩ := C45_final_time 2 [[fin 1, fin 5], [.nan, fin 7]]
    [[fin 1, fin 1], [fin 1, fin 1]] [0, 1] [1] 12 (by norm_num) rfl (by simp)
    (by
      intro row hr
      simp only [List.mem_cons, List.not_mem_nil, or_false] at hr
      rcases hr with rfl | rfl
      · exact ⟨rfl, 5, by norm_num, rfl⟩
      · exact ⟨rfl, 7, by norm_num, rfl⟩)
  exact ⟨out, h, (hk 0 1 rfl (by simp)).2.1 (by norm_num)⟩

/-- Column `it` of a table of numbers. -/
noncomputable def realColumn (n_t it : ℕ) (logmp : ℝ) (mah x : List (List ℝ)) : List ℝ :=
  List.zipWith (fun row m => (10 : ℝ) ^ logmp * row.getD it 0 / m.getD (n_t - 1) 0) x mah

theorem xcolumn_real (n_t it : ℕ) (hit : it < n_t) (logmp : ℝ) (mah x : List (List ℝ))
    (hx : ∀ row ∈ x, row.length = n_t)
    (hm : ∀ row ∈ mah, row.length = n_t ∧ row.getD (n_t - 1) 0 ≠ 0) :
    xcolumn it (scale_rows n_t (mah.map (List.map fin)) (x.map (List.map fin)) logmp)
      = (realColumn n_t it logmp mah x).map fin := by
  unfold xcolumn scale_rows realColumn
  simp only [List.zipWith_map, List.map_zipWith]
  induction x generalizing mah with
  | nil => simp
  | cons row x ih =>
    cases mah with
    | nil => simp
    | cons m mah =>
      simp only [List.zipWith_cons_cons]
      rw [ih mah (fun r h => hx r (List.mem_cons_of_mem _ h))
        (fun r h => hm r (List.mem_cons_of_mem _ h))]
      congr 1
      have h1 : it < row.length := by rw [hx row List.mem_cons_self]; exact hit
      obtain ⟨h2, h3⟩ := hm m List.mem_cons_self
      have h4 : n_t - 1 < m.length := by omega
      have h5 : m.getD (n_t - 1) 0 = m[n_t - 1] := List.getD_eq_getElem _ _ h4
      rw [h5] at h3
      simp [h1, h4, XR.fin_div h3]

/-- **C81**. At a tabulated time the targets are the moments of the population in which every halo's
history and growth rate are multiplied by `10**logmp_sample` over its own final mass: mean mass, mean
log mass (NaN if negative), variance of log mass, mean growth rate (NaN if negative) and variance of the
growth rate. -/
theorem C81_moments_at_nodes (n_t : ℕ) (mah dmhdt : List (List ℝ)) (lgt lgt_target : List ℝ)
    (logmp : ℝ) (hn : n_t ≠ 0) (hlgt : lgt.length = n_t) (hs : lgt.Pairwise (· < ·)) (hne : mah ≠ [])
    (hmah : ∀ row ∈ mah, row.length = n_t ∧ ∀ m ∈ row, 0 < m)
    (hd : dmhdt.length = mah.length) (hdm : ∀ row ∈ dmhdt, row.length = n_t) :
    ∃ out, measure_target_data n_t (mah.map (List.map fin)) (dmhdt.map (List.map fin)) lgt lgt_target
        logmp = .ok out ∧
      ∀ k it : ℕ, it < n_t → lgt_target[k]? = some (lgt.getD it 0) →
        let M := mah.map fun m => (10 : ℝ) ^ logmp * m.getD it 0 / m.getD (n_t - 1) 0
        let D := List.zipWith (fun d m => (10 : ℝ) ^ logmp * d.getD it 0 / m.getD (n_t - 1) 0) dmhdt mah
        out.mean_mah[k]? = some (fin (mean M)) ∧
        (0 ≤ mean (M.map (Real.logb 10)) →
          out.mean_log_mah[k]? = some (fin (mean (M.map (Real.logb 10))))) ∧
        (mean (M.map (Real.logb 10)) < 0 → out.mean_log_mah[k]? = some XR.nan) ∧
        out.var_log_mah[k]? = some (fin (std (M.map (Real.logb 10)) ^ 2)) ∧
        (0 ≤ mean D → out.mean_dmhdt[k]? = some (fin (mean D))) ∧
        (mean D < 0 → out.mean_dmhdt[k]? = some XR.nan) ∧
        out.var_dmhdt[k]? = some (fin (std D ^ 2)) := by
  refine ⟨_, measure_eq n_t hn _ _ lgt lgt_target hlgt logmp, ?_⟩
  intro k it hit hk M D
  have hlast : ∀ row ∈ mah, row.length = n_t ∧ row.getD (n_t - 1) 0 ≠ 0 := by
    intro row hr
    obtain ⟨h1, h2⟩ := hmah row hr
    have h3 : n_t - 1 < row.length := by omega
    refine ⟨h1, ?_⟩
    rw [List.getD_eq_getElem _ _ h3]
    exact (h2 _ (List.getElem_mem h3)).ne'
  have hM : realColumn n_t it logmp mah mah = M := by
    unfold realColumn; rw [List.zipWith_self]
  have hD : realColumn n_t it logmp mah dmhdt = D := rfl
  have cM := xcolumn_real n_t it hit logmp mah mah (fun r h => (hmah r h).1) hlast
  have cD := xcolumn_real n_t it hit logmp mah dmhdt hdm hlast
  rw [hM] at cM
  rw [hD] at cD
  have hMne : M ≠ [] := by simpa [M] using hne
  have hDne : D ≠ [] := by
    intro h
    have := congrArg List.length h
    simp only [D, List.length_zipWith, hd, min_self, List.length_nil] at this
    exact hne (List.length_eq_zero_iff.1 this)
  have hMpos : ∀ m ∈ M, 0 < m := by
    intro m hm
    obtain ⟨row, hr, rfl⟩ := List.mem_map.1 hm
    obtain ⟨h1, h2⟩ := hmah row hr
    have h3 : it < row.length := by omega
    have h4 : n_t - 1 < row.length := by omega
    rw [List.getD_eq_getElem _ _ h3, List.getD_eq_getElem _ _ h4]
    have := h2 _ (List.getElem_mem h3)
    have := h2 _ (List.getElem_mem h4)
    positivity
  clear_value M D
  have hlog : (M.map fin).map log10 = (M.map (Real.logb 10)).map fin := by
    rw [List.map_map, List.map_map]
    exact List.map_congr_left fun m hm => XR.log10_pos (hMpos m hm)
  have hi : ∀ f : ℕ → XR, interp1 lgt ((List.range n_t).map f) (lgt.getD it 0) = f it := by
    intro f
    rw [interp1_node hs (by omega), getD_range_map n_t _ hit]
  have hLne : M.map (Real.logb 10) ≠ [] := by simpa using hMne
  have hMmean : 0 ≤ mean M := div_nonneg (List.sum_nonneg fun m hm => (hMpos m hm).le) (by positivity)
  simp only [List.getElem?_map, hk, Option.map_some, hi, cM, cD, hlog]
  rw [jmean_fin hMne, jmean_fin hLne, jmean_fin hDne, npstd_fin hLne, npstd_fin hDne,
    pow10_log10 hMmean, pow10_log10 (a := std D) (Real.sqrt_nonneg _), XR.fin_mul, XR.fin_mul, ← pow_two, ← pow_two]
  refine ⟨rfl, fun h => ?_, fun h => ?_, rfl, fun h => ?_, fun h => ?_, rfl⟩
  · rw [pow10_log10 h]
  · rw [XR.log10_neg h, XR.pow10_nan]
  · rw [pow10_log10 h]
  · rw [XR.log10_neg h, XR.pow10_nan]

/-- Two haloes at two times meet the hypotheses of `C81_moments_at_nodes`. -/
example : ∃ out, measure_target_data 2 ([[1, 4], [2, 8]].map (List.map fin))
    ([[1, 1], [1, 1]].map (List.map fin)) [0, 1] [0] 12 = .ok out ∧
    out.mean_mah[0]? = some (fin ((10 : ℝ) ^ (12 : ℝ) / 4)) := by
  obtain ⟨out, h, hk⟩ := C81_moments_at_nodes 2 [[1, 4], [2, 8]] [[1, 1], [1, 1]] [0, 1] [0] 12
    (by norm_num) rfl (by norm_num) (by simp) (by
      intro row hr
      simp only [List.mem_cons, List.not_mem_nil, or_false] at hr
      rcases hr with rfl | rfl <;> norm_num) rfl (by simp)
  refine ⟨out, h, ?_⟩
  rw [(hk 0 0 (by norm_num) rfl).1]
  norm_num [mean]

/-- **C82**. Multiplying each halo's history and growth rate by its own positive constant changes no
output: the targets depend only on the shapes of the histories. -/
theorem C82_scale_free (n_t : ℕ) (mah dmhdt : List (List ℝ)) (lgt lgt_target : List ℝ) (logmp : ℝ)
    (cs : List ℝ) (hc : ∀ c ∈ cs, 0 < c) (hlen : cs.length = mah.length)
    (hd : dmhdt.length = mah.length)
    (hmah : ∀ row ∈ mah, row.length = n_t ∧ ∀ m ∈ row, 0 < m)
    (hdm : ∀ row ∈ dmhdt, row.length = n_t) (hlgt : lgt.length = n_t) :
    measure_target_data n_t ((List.zipWith (fun c row => row.map (c * ·)) cs mah).map (List.map fin))
        ((List.zipWith (fun c row => row.map (c * ·)) cs dmhdt).map (List.map fin)) lgt lgt_target logmp
      = measure_target_data n_t (mah.map (List.map fin)) (dmhdt.map (List.map fin)) lgt lgt_target
        logmp := by
  by_cases hn : n_t = 0
  · unfold measure_target_data; rw [if_pos hn, if_pos hn]
  have hrows : ∀ x : List (List ℝ), x.length = mah.length → (∀ row ∈ x, row.length = n_t) →
      scale_rows n_t ((List.zipWith (fun c row => row.map (c * ·)) cs mah).map (List.map fin))
        ((List.zipWith (fun c row => row.map (c * ·)) cs x).map (List.map fin)) logmp
      = scale_rows n_t (mah.map (List.map fin)) (x.map (List.map fin)) logmp := by
    intro x hx hxr
    unfold scale_rows
    simp only [List.zipWith_map]
    clear hd hdm
    induction cs generalizing mah x with
    | nil =>
      have : mah = [] := List.length_eq_zero_iff.1 hlen.symm
      subst this
      have : x = [] := List.length_eq_zero_iff.1 hx
      subst this; rfl
    | cons c cs ih =>
      cases mah with
      | nil => simp at hlen
      | cons m mah =>
        cases x with
        | nil => simp at hx
        | cons row x =>
          simp only [List.zipWith_cons_cons]
          rw [ih mah (fun c h => hc c (List.mem_cons_of_mem _ h)) (by simpa using hlen)
            (fun r h => hmah r (List.mem_cons_of_mem _ h)) x (by simpa using hx)
            (fun r h => hxr r (List.mem_cons_of_mem _ h))]
          congr 1
          have hcp := hc c List.mem_cons_self
          obtain ⟨h1, h2⟩ := hmah m List.mem_cons_self
          have h4 : n_t - 1 < m.length := by omega
          have h5 := h2 _ (List.getElem_mem h4)
          simp only [List.map_map]
          refine List.map_congr_left fun a _ => ?_
          have e1 : (List.map (fin ∘ fun x => c * x) m).getD (n_t - 1) .nan = fin (c * m[n_t - 1]) := by
            simp [h4]
          have e2 : (List.map fin m).getD (n_t - 1) .nan = fin m[n_t - 1] := by simp [h4]
          simp only [Function.comp] at e1 ⊢
          rw [e1, e2, XR.fin_mul, XR.fin_mul, XR.fin_div (by positivity), XR.fin_div h5.ne']
          congr 1
          field_simp
  rw [measure_eq n_t hn _ _ lgt lgt_target hlgt, measure_eq n_t hn _ _ lgt lgt_target hlgt,
    hrows mah rfl fun r h => (hmah r h).1, hrows dmhdt hd hdm]

end Diffmah.Measure

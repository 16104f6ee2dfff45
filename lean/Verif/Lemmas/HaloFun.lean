import Verif.Lemmas.MeasNum
import Verif.Props.NormalPop
import Verif.Props.TPeakLaw

/-!
# A Monte Carlo halo as a function of its random numbers

The two histories of a halo are bounded measurable functions of the uniform and normal numbers of its keys.
-/

set_option maxRecDepth 10000

namespace Diffmah

open Pop TPeak PopParams MC MeasureTheory ProbabilityTheory

/-- The drawn peak time is a monotone function of the uniform number. -/
theorem t_peak_fun {ext : Ext} (hext : ext.Lawful) (kind : Kind) {p : NT ℝ} (hp : p.map Prod.fst = FIELDS)
    (hb : AllInBounds p) (lgm t_obs : ℝ) (ht : 0 < t_obs) (lgt0 : ℝ) :
    ∃ T : ℝ → ℝ, Monotone T ∧ ∀ (rng : Rng) (key : Key), draw_t_peak ext rng kind p lgm t_obs key lgt0 =
      Except.ok (T (rng.uniform (Key.child key 2 0)), [Key.child key 2 0]) := by
  obtain ⟨c, hc, hcb⟩ := components_bounded hp hb
  unfold draw_t_peak
  rw [hc]
  cases kind
  · obtain ⟨F, -, hs, h⟩ := cen_value ext hcb.tp_cens lgm t_obs ((10 : ℝ) ^ lgt0)
    refine ⟨fun u => max (interp ext.interp_eps u (UTP_TABLE.map F) UTP_TABLE) UTP_MIN * (10 : ℝ) ^ lgt0, ?_,
      fun rng key => RandM.bind_of (ks := []) rfl (h rng _)⟩
    intro x y hxy
    apply mul_le_mul_of_nonneg_right _ (by positivity)
    apply max_le_max_right
    have hl : UTP_TABLE.length = (UTP_TABLE.map F).length := by simp
    exact interp_mono hext.eps_nonneg (hs.imp fun h => h.le) (utp_table_strict.imp fun h => h.le)
      (by rw [← hl, utp_table_length]; norm_num) hl hxy
  · obtain ⟨⟨loc, hl, l1, l2⟩, s, hs, s1, -⟩ := sat_params hcb.tp_sats lgm t_obs
    let xmin := max (loc - 4 * s) (X_MIN + UTP_EPS)
    let xmax := min (loc + 4 * s) (X_MAX - UTP_EPS)
    let tab := linspace xmin xmax NPTS_CDF_TABLE
    refine ⟨fun u => interp ext.interp_eps u (tp_cdf_kern ext tab loc s) tab * t_obs, ?_, fun rng key => ?_⟩
    · intro x y hxy
      apply mul_le_mul_of_nonneg_right _ ht.le
      have hmin : X_MIN + UTP_EPS = 0.1001 := by norm_num [X_MIN, UTP_EPS]
      have hmax : X_MAX - UTP_EPS = 0.9999 := by norm_num [X_MAX, UTP_EPS]
      have hlt : xmin < xmax := by
        simp only [xmin, xmax]
        rw [hmin, hmax]
        norm_num at l1 l2 s1
        apply max_lt <;> apply lt_min <;> norm_num <;> linarith
      have hst := linspace_strict hlt (n := NPTS_CDF_TABLE) (by norm_num [NPTS_CDF_TABLE])
      have hcdf : (tp_cdf_kern ext tab loc s).Pairwise (· ≤ ·) := by
        unfold tp_cdf_kern
        rw [List.pairwise_map]
        refine hst.imp ?_
        intro a b hab
        exact hext.cdf_mono _ _ _ _ (by norm_num at s1; linarith) _ _ hab.le
      have hlen : tab.length = (tp_cdf_kern ext tab loc s).length := by simp [tp_cdf_kern]
      exact interp_mono hext.eps_nonneg hcdf (hst.imp fun h => h.le)
        (by rw [← hlen]; simp only [tab]; rw [linspace_length]; norm_num [NPTS_CDF_TABLE]) hlen hxy
    · refine RandM.bind_of (ks := []) (ks' := [Key.child key 2 0]) rfl ?_
      unfold mc_tpeak_singlesat
      rw [hl, hs]
      exact RandM.bind_of (ks := []) rfl (RandM.bind_of (ks := []) rfl
        (RandM.bind_of (ks := [Key.child key 2 0]) (ks' := []) rfl rfl))

/-- A draw around mean parameters -/
noncomputable def drawn (C : Matrix (Fin 4) (Fin 4) ℝ) (e : MahParams ℝ) (z : Fin 4 → ℝ) : MahParams ℝ :=
  get_bounded_mah_params
    (let u := get_unbounded_mah_params e
     let v := multivariate_normal z [u.u_logm0, u.u_logtc, u.u_early_index, u.u_late_index] C
     ⟨v.getD 0 0, v.getD 1 0, v.getD 2 0, v.getD 3 0, u.u_t_peak⟩)

theorem scatter_normal (u : Key → ℝ) (us : Key → ℕ → List ℝ) (z : Key → Fin 4 → ℝ) (key : Key)
    (e : MahParams ℝ) (C : Matrix (Fin 4) (Fin 4) ℝ) :
    scatter (Rng.normal u us z) key e C = .ok (drawn C e (z key), [key]) := rfl

/-- One halo with a drawn peak time. -/
theorem halo_value {ext : Ext} (hext : ext.Lawful) (kind : Kind) {p : NT ℝ} (hp : p.map Prod.fst = FIELDS)
    (hb : AllInBounds p) {lgm t_obs lgt0 : ℝ} (hg : GoodInput kind lgm t_obs lgt0 none) :
    ∃ (T : ℝ → ℝ) (e l : ℝ → MahParams ℝ) (f : ℝ) (C : Matrix (Fin 4) (Fin 4) ℝ), Measurable T ∧
      (∀ x, mean_diffmah_params_early_t_peak kind p lgm t_obs (T x) = .ok (e x)) ∧
      (∀ x, mean_diffmah_params_late_t_peak kind p lgm t_obs (T x) = .ok (l x)) ∧
      (∀ x, Spec.Valid (e x)) ∧ (∀ x, Spec.Valid (l x)) ∧
      frac_early_cens_kern p lgm t_obs = .ok f ∧ 0 ≤ f ∧ f ≤ 1 ∧
      ∀ u us z key, ∃ ks, mc_diffmah_params_single ext (Rng.normal u us z) kind p lgm t_obs key lgt0 none =
        .ok ((drawn C (e (u (Key.child key 2 0))) (z (Key.child key 2 0)),
          drawn C (l (u (Key.child key 2 0))) (z (Key.child key 2 1)), f), ks) := by
  have ht : 0 < t_obs := by have := hg.2.2.1; norm_num at this; linarith
  obtain ⟨T, hT, hd⟩ := t_peak_fun hext kind hp hb lgm t_obs ht lgt0
  have hm : ∀ x, ∃ e l, mean_diffmah_params_early_t_peak kind p lgm t_obs (T x) = .ok e ∧
      mean_diffmah_params_late_t_peak kind p lgm t_obs (T x) = .ok l ∧ Spec.Valid e ∧ Spec.Valid l := by
    intro x
    let rng : Rng := Rng.normal (fun _ => x) (fun _ _ => []) fun _ _ => 0
    obtain ⟨e, l, f, ks, g1, g2, g3⟩ := good_mean ext rng hext kind p hp hb lgm t_obs (Key.root 0) lgt0 none hg
    obtain ⟨tp, e', l', f', h1, h2, h3⟩ := mean_res_none ext rng hext kind p hp hb lgm t_obs ht (Key.root 0) lgt0
    obtain ⟨e'', l'', f'', g6, g7, g8, -⟩ := mean_t_peak_ok hp hb kind lgm t_obs tp
    rw [g1] at h1
    obtain ⟨h1, -⟩ := RandM.ok_inj h1
    cases h1
    rw [h2] at g6
    cases g6
    rw [hd] at h3
    obtain ⟨h3, -⟩ := RandM.ok_inj h3
    have h3 : T x = tp := h3.symm
    rw [← h3] at g7 g8
    exact ⟨e, l, g7, g8, g2, g3⟩
  choose e l h1 h2 h3 h4 using hm
  obtain ⟨f, hf, f1, f2⟩ := C52_frac_early p hb.2.2.2.2.2.2.2.1 lgm t_obs
  obtain ⟨C, s, hC, -, hpd, -⟩ := C51_covariance p (Or.inr hp) hb.2.2.2.2.2.2.2.2 lgm
  refine ⟨T, e, l, f, C, hT.measurable, h1, h2, h3, h4, hf, by linarith, by linarith, ?_⟩
  intro u us z key
  refine ⟨[Key.child key 2 0, Key.child key 2 0] ++ [Key.child key 2 0, Key.child key 2 1], ?_⟩
  unfold mc_diffmah_params_single
  refine RandM.bind_of (b := (e (u (Key.child key 2 0)), l (u (Key.child key 2 0)), f))
    (ks := [Key.child key 2 0, Key.child key 2 0]) (ks' := [Key.child key 2 0, Key.child key 2 1]) ?_ ?_
  · change mean_diffmah_params ext _ kind p lgm t_obs key lgt0 = _
    unfold mean_diffmah_params
    refine RandM.bind_of (b := e (u (Key.child key 2 0))) (ks := [Key.child key 2 0]) (ks' := [Key.child key 2 0])
      ?_ ?_
    · unfold mean_diffmah_params_early
      refine RandM.bind_of (ks' := []) (hd _ key) ?_
      change RandM.lift (mean_diffmah_params_early_t_peak kind p lgm t_obs (T (u (Key.child key 2 0)))) = _
      rw [h1]; rfl
    refine RandM.bind_of (b := l (u (Key.child key 2 0))) (ks := [Key.child key 2 0]) (ks' := []) ?_ ?_
    · unfold mean_diffmah_params_late
      refine RandM.bind_of (ks' := []) (hd _ key) ?_
      change RandM.lift (mean_diffmah_params_late_t_peak kind p lgm t_obs (T (u (Key.child key 2 0)))) = _
      rw [h2]; rfl
    rw [hf]; rfl
  rw [hC]
  refine RandM.bind_of (ks := []) (ks' := [Key.child key 2 0, Key.child key 2 1]) rfl ?_
  refine RandM.bind_of (ks := [Key.child key 2 0]) (ks' := [Key.child key 2 1]) rfl ?_
  exact RandM.bind_of (ks := [Key.child key 2 1]) (ks' := []) rfl rfl

/-- Histories of valid parameters are bounded at each time. -/
theorem log_mah_bounded (t lgt0 : ℝ) : ∃ B : ℝ, ∀ p : MahParams ℝ, Spec.Valid p → |log_mah_kern p t lgt0| ≤ B := by
  have key : ∀ p : MahParams ℝ, Spec.Valid p → ∀ x, |log_mah_noq_kern p x lgt0| ≤ 10 * |Real.logb 10 x - lgt0| + 17 := by
    intro p hp x
    have e : log_mah_noq_kern p x lgt0 =
        (p.early_index + (p.late_index - p.early_index) * Real.sigmoid (MAH_K * (Real.logb 10 x - p.logtc))) *
          (Real.logb 10 x - lgt0) + p.logm0 := rfl
    rw [e]
    set s := Real.sigmoid (MAH_K * (Real.logb 10 x - p.logtc)) with hs
    have s0 : 0 < s := Real.sigmoid_pos _
    have s1 : s < 1 := Real.sigmoid_lt_one _
    have a1 := hp.early_hi
    have a2 := hp.late_lt_early
    have a3 := hp.late_lo
    have b1 := hp.logm0_lo
    have b2 := hp.logm0_hi
    norm_num at a3
    have c1 : 0 ≤ p.early_index + (p.late_index - p.early_index) * s := by nlinarith
    have c2 : p.early_index + (p.late_index - p.early_index) * s ≤ 10 := by nlinarith
    refine (abs_add_le _ _).trans (add_le_add ?_ ?_)
    · rw [abs_mul, abs_of_nonneg c1]
      exact mul_le_mul_of_nonneg_right c2 (abs_nonneg _)
    · rw [abs_of_pos b1]; exact b2.le
  refine ⟨max (10 * |Real.logb 10 t - lgt0| + 17)
    (10 * (max |Real.logb 10 0.05| |Real.logb 10 20| + |lgt0|) + 17), fun p hp => ?_⟩
  have e : log_mah_kern p t lgt0 = jwhere (t < p.t_peak) (log_mah_noq_kern p t lgt0)
    (log_mah_noq_kern p p.t_peak lgt0) := rfl
  rw [e]
  unfold jwhere
  split_ifs
  · exact (key p hp t).trans (le_max_left _ _)
  · refine ((key p hp _).trans ?_).trans (le_max_right _ _)
    have h1 := hp.tpeak_lo
    have h2 := hp.tpeak_hi
    have hpos : (0 : ℝ) < 0.05 := by norm_num
    have g1 : Real.logb 10 0.05 ≤ Real.logb 10 p.t_peak :=
      Real.logb_le_logb_of_le (by norm_num) hpos h1.le
    have g2 : Real.logb 10 p.t_peak ≤ Real.logb 10 20 :=
      Real.logb_le_logb_of_le (by norm_num) (by linarith) h2.le
    have g3 := abs_sub (Real.logb 10 p.t_peak) lgt0
    have g4 := abs_le_max_abs_abs g1 g2
    linarith

/-- The two histories of a halo at one time, as functions of the uniform number and the normal numbers. -/
theorem halo_fun {ext : Ext} (hext : ext.Lawful) (kind : Kind) {p : NT ℝ} (hp : p.map Prod.fst = FIELDS)
    (hb : AllInBounds p) {lgm t_obs lgt0 : ℝ} (hg : GoodInput kind lgm t_obs lgt0 none) :
    ∃ (xE xL : ℝ → ℝ × (Fin 4 → ℝ) → ℝ) (f : ℝ),
      (∀ t, Measurable (xE t)) ∧ (∀ t, Measurable (xL t)) ∧ 0 ≤ f ∧ f ≤ 1 ∧
      (∀ t, ∃ B, (∀ s, |xE t s| ≤ B) ∧ ∀ s, |xL t s| ≤ B) ∧
      ∀ u us z key tarr r ks,
        mc_diffmah_single ext (Rng.normal u us z) kind p tarr lgm t_obs key lgt0 = .ok (r, ks) →
        r.log_mah_early = tarr.map (fun t => xE t (u (Key.child key 2 0), z (Key.child key 2 0))) ∧
        r.log_mah_late = tarr.map (fun t => xL t (u (Key.child key 2 0), z (Key.child key 2 1))) ∧
        r.frac_early = f := by
  obtain ⟨T, e, l, f, C, hT, he, hl, ve, vl, hf, f0, f1, hs⟩ := halo_value hext kind hp hb hg
  have gen : ∀ m : ℝ → MahParams ℝ, (∃ m' : MahParams (MF (ℝ × (Fin 4 → ℝ))), ∀ s, m s.1 = m'.map (MF.eval s).φ) →
      ∀ t, Measurable fun s : ℝ × (Fin 4 → ℝ) => log_mah_kern (drawn C (m s.1) s.2) t lgt0 := by
    rintro m ⟨m', hm⟩ t
    obtain ⟨x', hx⟩ := MF.draw_meas m' (z := fun s => s.2) measurable_snd C
      (x := fun s => drawn C (m s.1) s.2) (fun s => by rw [← hm]; rfl)
    have : (fun s : ℝ × (Fin 4 → ℝ) => log_mah_kern (drawn C (m s.1) s.2) t lgt0) =
        fun s => log_mah_kern (x'.map (MF.eval s).φ) t lgt0 := by
      funext s; rw [← hx]
    rw [this]
    exact MF.log_mah_meas x' t lgt0
  let T' : MF (ℝ × (Fin 4 → ℝ)) := ⟨fun s => T s.1, hT.comp measurable_fst⟩
  refine ⟨fun t s => log_mah_kern (drawn C (e s.1) s.2) t lgt0, fun t s => log_mah_kern (drawn C (l s.1) s.2) t lgt0,
    f, gen e (MF.mean_early_meas kind p lgm t_obs T' fun s => he s.1),
    gen l (MF.mean_late_meas kind p lgm t_obs T' fun s => hl s.1), f0, f1, ?_, ?_⟩
  · intro t
    obtain ⟨B, hB⟩ := log_mah_bounded t lgt0
    exact ⟨B, fun s => hB _ (C12_bounded_params_valid _), fun s => hB _ (C12_bounded_params_valid _)⟩
  · intro u us z key tarr r ks h
    obtain ⟨h1, h2, h3⟩ := single_inv ext _ h
    obtain ⟨ks', hs⟩ := hs u us z key
    rw [hs] at h1
    obtain ⟨h1, -⟩ := RandM.ok_inj h1
    simp only [Prod.mk.injEq] at h1
    obtain ⟨r1, r2, r3⟩ := h1
    refine ⟨?_, ?_, r3⟩
    · rw [r1] at h2; exact congrArg Prod.snd h2
    · rw [r2] at h3; exact congrArg Prod.snd h3

end Diffmah

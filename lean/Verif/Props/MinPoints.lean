import Verif.Props.SixTimes

/-!
# C140: the least number of points a fit asks for is the right one

`NPTS_FIT_MIN` is 3, not counting the mass today. The mass today and the masses at three other times determine the
parameters, those at two other times never do. So a fit to a model history that has not peaked before today has one
exact solution whenever it is not skipped.
-/

namespace Diffmah

open Set Filter Topology

theorem quadratic_zero {a b c x y z : ℝ} (hxy : x ≠ y) (hxz : x ≠ z) (hyz : y ≠ z)
    (h1 : a * x ^ 2 + b * x + c = 0) (h2 : a * y ^ 2 + b * y + c = 0) (h3 : a * z ^ 2 + b * z + c = 0) :
    a = 0 ∧ b = 0 ∧ c = 0 := by
  have e1 : (x - y) * (a * (x + y) + b) = 0 := by linear_combination h1 - h2
  have e2 : (x - z) * (a * (x + z) + b) = 0 := by linear_combination h1 - h3
  have f1 := (mul_eq_zero.1 e1).resolve_left (sub_ne_zero.2 hxy)
  have f2 := (mul_eq_zero.1 e2).resolve_left (sub_ne_zero.2 hxz)
  have e3 : (y - z) * a = 0 := by linear_combination f1 - f2
  have ha := (mul_eq_zero.1 e3).resolve_left (sub_ne_zero.2 hyz)
  subst ha
  have hb : b = 0 := by linarith
  subst hb
  exact ⟨rfl, rfl, by linarith⟩

/-- The running index is determined by its values at three log-times. -/
theorem index_three {c e l c' e' l' x y z : ℝ} (hne : l ≠ e) (hxy : x ≠ y) (hxz : x ≠ z) (hyz : y ≠ z)
    (h : ∀ w ∈ ({x, y, z} : Set ℝ), e + (l - e) * Real.sigmoid (3.5 * (w - c))
      = e' + (l' - e') * Real.sigmoid (3.5 * (w - c'))) :
    c = c' ∧ e = e' ∧ l = l' := by
  set u := Real.exp (3.5 * c) with hu
  set u' := Real.exp (3.5 * c') with hu'
  have hup : 0 < u := Real.exp_pos _
  have hup' : 0 < u' := Real.exp_pos _
  have hsig : ∀ x c : ℝ, Real.sigmoid (3.5 * (x - c))
      = Real.exp (3.5 * x) / (Real.exp (3.5 * x) + Real.exp (3.5 * c)) := by
    intro x c
    rw [Real.sigmoid_def, show -(3.5 * (x - c)) = 3.5 * c - 3.5 * x by ring, Real.exp_sub]
    have := Real.exp_pos (3.5 * x)
    have := Real.exp_pos (3.5 * c)
    field_simp
  have key : ∀ w ∈ ({x, y, z} : Set ℝ), ((e - e') + ((l - e) - (l' - e'))) * Real.exp (3.5 * w) ^ 2
      + ((e - e') * (u + u') + ((l - e) * u' - (l' - e') * u)) * Real.exp (3.5 * w) + (e - e') * (u * u') = 0 := by
    intro w hw
    have h1 := h w hw
    rw [hsig, hsig, ← hu, ← hu'] at h1
    have hp := Real.exp_pos (3.5 * w)
    generalize Real.exp (3.5 * w) = v at *
    have a1 : v + u ≠ 0 := by positivity
    have a2 : v + u' ≠ 0 := by positivity
    field_simp at h1
    linear_combination h1
  have hinj : ∀ a b : ℝ, a ≠ b → Real.exp (3.5 * a) ≠ Real.exp (3.5 * b) := by
    intro a b hab he
    have := Real.exp_injective he
    exact hab (by linarith)
  obtain ⟨z1, z2, z3⟩ := quadratic_zero (hinj _ _ hxy) (hinj _ _ hxz) (hinj _ _ hyz)
    (key x (by simp)) (key y (by simp)) (key z (by simp))
  have hee : e - e' = 0 := (mul_eq_zero.1 z3).resolve_right (by positivity)
  have hd : l' - e' = l - e := by linarith
  have huu : u' = u := by
    rw [hee, hd] at z2
    have : (l - e) * (u' - u) = 0 := by linarith
    have := (mul_eq_zero.1 this).resolve_left (sub_ne_zero.2 hne)
    linarith
  have hcc : c' = c := by
    have := Real.exp_injective huu
    linarith
  exact ⟨hcc.symm, by linarith, by linarith⟩

/-- **C140**. Two haloes that have not peaked before today and have the same mass today and at three other times
before their peaks have the same parameters, apart from the peak time. -/
theorem C140_today_and_three (p q : MahParams ℝ) (lgt0 : ℝ) (hne : p.late_index ≠ p.early_index)
    (h0p : (10 : ℝ) ^ lgt0 ≤ p.t_peak) (h0q : (10 : ℝ) ^ lgt0 ≤ q.t_peak)
    (h0 : logmh_at_t_obs p ((10 : ℝ) ^ lgt0) lgt0 = logmh_at_t_obs q ((10 : ℝ) ^ lgt0) lgt0) (S : Finset ℝ)
    (hS : 3 ≤ S.card) (hpos : ∀ t ∈ S, 0 < t ∧ t ≠ 10 ^ lgt0) (hp : ∀ t ∈ S, t ≤ p.t_peak)
    (hq : ∀ t ∈ S, t ≤ q.t_peak) (h : ∀ t ∈ S, logmh_at_t_obs p t lgt0 = logmh_at_t_obs q t lgt0) :
    p.logm0 = q.logm0 ∧ p.logtc = q.logtc ∧ p.early_index = q.early_index ∧ p.late_index = q.late_index := by
  rw [C01_mass_today p lgt0 h0p, C01_mass_today q lgt0 h0q] at h0
  refine ⟨h0, ?_⟩
  obtain ⟨a, ha, b, hb, c, hc, hab, hac, hbc⟩ := Finset.two_lt_card.1 (show 2 < S.card by omega)
  have hinj : ∀ s ∈ S, ∀ t ∈ S, s ≠ t → Real.logb 10 s ≠ Real.logb 10 t := fun s hs t ht hst he =>
    hst (Real.logb_injOn_pos (by norm_num) (hpos s hs).1 (hpos t ht).1 he)
  refine index_three hne (hinj a ha b hb hab) (hinj a ha c hc hac) (hinj b hb c hc hbc) ?_
  have key : ∀ t ∈ S, p.early_index + (p.late_index - p.early_index) * Real.sigmoid (3.5 * (Real.logb 10 t - p.logtc))
      = q.early_index + (q.late_index - q.early_index) * Real.sigmoid (3.5 * (Real.logb 10 t - q.logtc)) := by
    intro t ht
    have h1 := h t ht
    simp only [logmh_at_t_obs] at h1
    rw [log_mah_le (hp t ht), log_mah_le (hq t ht), noq_real, noq_real, plaw_real, plaw_real, h0] at h1
    have hx : Real.logb 10 t - lgt0 ≠ 0 := by
      intro hz
      refine (hpos t ht).2 ?_
      rw [← pow10_logb (hpos t ht).1, sub_eq_zero.1 hz]
    exact mul_right_cancel₀ hx (by linarith)
  intro w hw
  simp only [mem_insert_iff, mem_singleton_iff] at hw
  rcases hw with rfl | rfl | rfl
  exacts [key a ha, key b hb, key c hc]

/-- The index at two given log-times does not determine a transition: close to any one there are others. -/
theorem exists_other_index {c e l x y : ℝ} (hxy : x ≠ y) {P : ℝ × ℝ × ℝ → Prop}
    (hP : ∀ᶠ w in 𝓝 (c, e, l), P w) :
    ∃ c' e' l', c' ≠ c ∧ P (c', e', l') ∧ ∀ w ∈ ({x, y} : Set ℝ),
      e' + (l' - e') * Real.sigmoid (3.5 * (w - c')) = e + (l - e) * Real.sigmoid (3.5 * (w - c)) := by
  set s : ℝ → ℝ → ℝ := fun c w => Real.sigmoid (3.5 * (w - c)) with hs
  have hcont : ∀ w, Continuous fun c => s c w := fun w =>
    continuous_sigmoid.comp (continuous_const.mul (continuous_const.sub continuous_id))
  have hden : ∀ c', s c' y - s c' x ≠ 0 := by
    intro c' h0
    have := Real.sigmoid_injective (sub_eq_zero.1 h0)
    exact hxy (by linarith)
  set D : ℝ → ℝ := fun c' => (l - e) * (s c y - s c x) / (s c' y - s c' x) with hD
  set E : ℝ → ℝ := fun c' => e + (l - e) * s c x - D c' * s c' x with hE
  have hDc : Continuous D := continuous_const.div ((hcont y).sub (hcont x)) hden
  have hEc : Continuous E := continuous_const.sub (hDc.mul (hcont x))
  have hD0 : D c = l - e := mul_div_cancel_right₀ _ (hden c)
  have hE0 : E c = e := by simp only [hE, hD0]; ring
  have hT : Tendsto (fun c' => (c', E c', E c' + D c')) (𝓝[≠] c) (𝓝 (c, e, l)) := by
    have : Continuous fun c' => (c', E c', E c' + D c') := continuous_id.prodMk (hEc.prodMk (hEc.add hDc))
    have h1 := this.tendsto c
    rw [hE0, hD0, show e + (l - e) = l by ring] at h1
    exact h1.mono_left nhdsWithin_le_nhds
  obtain ⟨c', h1, h2⟩ := ((hT.eventually hP).and self_mem_nhdsWithin).exists
  refine ⟨c', E c', E c' + D c', h2, h1, ?_⟩
  have hx : E c' + D c' * s c' x = e + (l - e) * s c x := by simp only [hE]; ring
  have hy : E c' + D c' * s c' y = e + (l - e) * s c y := by
    have : D c' * (s c' y - s c' x) = (l - e) * (s c y - s c x) := div_mul_cancel₀ _ (hden c')
    linear_combination hx + this
  intro w hw
  simp only [mem_insert_iff, mem_singleton_iff] at hw
  rw [add_sub_cancel_left]
  rcases hw with rfl | rfl
  exacts [hx, hy]

/-- **C140**, two times are not enough. Whatever the halo and the two times, there is another halo with the same
mass today, the same peak time and the same masses at both times. -/
theorem C140_two_are_not_enough (p : MahParams ℝ) (hp : Spec.Valid p) (lgt0 t1 t2 : ℝ) (h12 : t1 ≠ t2) (h1 : 0 < t1)
    (h2 : 0 < t2) (hp1 : t1 ≤ p.t_peak) (hp2 : t2 ≤ p.t_peak) :
    ∃ q : MahParams ℝ, Spec.Valid q ∧ q.logtc ≠ p.logtc ∧ q.logm0 = p.logm0 ∧ q.t_peak = p.t_peak ∧
      logmh_at_t_obs q t1 lgt0 = logmh_at_t_obs p t1 lgt0 ∧ logmh_at_t_obs q t2 lgt0 = logmh_at_t_obs p t2 lgt0 := by
  have hx : Real.logb 10 t1 ≠ Real.logb 10 t2 := fun he =>
    h12 (Real.logb_injOn_pos (by norm_num) h1 h2 he)
  have hP : ∀ᶠ w in 𝓝 (p.logtc, p.early_index, p.late_index), Spec.Valid ⟨p.logm0, w.1, w.2.1, w.2.2, p.t_peak⟩ := by
    have c1 : Continuous fun w : ℝ × ℝ × ℝ => w.1 := continuous_fst
    have c2 : Continuous fun w : ℝ × ℝ × ℝ => w.2.1 := continuous_fst.comp continuous_snd
    have c3 : Continuous fun w : ℝ × ℝ × ℝ => w.2.2 := continuous_snd.comp continuous_snd
    filter_upwards [(isOpen_lt continuous_const c1).mem_nhds hp.logtc_lo,
      (isOpen_lt c1 continuous_const).mem_nhds hp.logtc_hi,
      (isOpen_lt continuous_const c2).mem_nhds hp.early_lo, (isOpen_lt c2 continuous_const).mem_nhds hp.early_hi,
      (isOpen_lt continuous_const c3).mem_nhds hp.late_lo, (isOpen_lt c3 continuous_const).mem_nhds hp.late_hi,
      (isOpen_lt c3 c2).mem_nhds hp.late_lt_early] with w a1 a2 a3 a4 a5 a6 a7
    exact ⟨⟨hp.logm0_lo, hp.logm0_hi, a1, a2, a3, a4, a5, a6, hp.tpeak_lo, hp.tpeak_hi⟩, a7⟩
  obtain ⟨c', e', l', hne, hV, hw⟩ := exists_other_index hx hP
  have key : ∀ t, t ≤ p.t_peak → Real.logb 10 t ∈ ({Real.logb 10 t1, Real.logb 10 t2} : Set ℝ) →
      logmh_at_t_obs ⟨p.logm0, c', e', l', p.t_peak⟩ t lgt0 = logmh_at_t_obs p t lgt0 := by
    intro t ht hm
    simp only [logmh_at_t_obs]
    rw [log_mah_le (p := ⟨p.logm0, c', e', l', p.t_peak⟩) ht, log_mah_le ht, noq_real, noq_real, plaw_real, plaw_real,
      hw _ hm]
  exact ⟨_, hV, hne, rfl, rfl, key t1 hp1 (by simp), key t2 hp2 (by simp)⟩

/-- The hypotheses of C140 can be met: the default halo, whose peak is at 14 Gyr, with today at 12 Gyr and three other
times. -/
example : DEFAULT_MAH_PARAMS.late_index ≠ DEFAULT_MAH_PARAMS.early_index ∧ Spec.Valid DEFAULT_MAH_PARAMS ∧
    (10 : ℝ) ^ Real.logb 10 12 ≤ DEFAULT_MAH_PARAMS.t_peak ∧
    ∃ S : Finset ℝ, 3 ≤ S.card ∧ (∀ t ∈ S, 0 < t ∧ t ≠ 10 ^ Real.logb 10 12) ∧ ∀ t ∈ S, t ≤ DEFAULT_MAH_PARAMS.t_peak := by
  have h14 : DEFAULT_MAH_PARAMS.t_peak = 14 := by norm_num [DEFAULT_MAH_PARAMS]
  have h12 : (10 : ℝ) ^ Real.logb 10 12 = 12 := pow10_logb (by norm_num)
  rw [h12, h14]
  refine ⟨default_valid.late_lt_early.ne, default_valid, by norm_num, {3, 6, 9}, ?_, ?_, ?_⟩
  · rw [Finset.card_insert_of_notMem (by norm_num), Finset.card_insert_of_notMem (by norm_num), Finset.card_singleton]
  · intro t ht
    simp only [Finset.mem_insert, Finset.mem_singleton] at ht
    rcases ht with rfl | rfl | rfl <;> norm_num
  · intro t ht
    simp only [Finset.mem_insert, Finset.mem_singleton] at ht
    rcases ht with rfl | rfl | rfl <;> norm_num

end Diffmah

namespace Diffmah.Fit

open XR hiding log10 pow10 ln sigm max lt le add sub mul div neg
open JOps Spec

section

variable {S : Type} (lbfgs : (PVec → XR × PVec) → PVec → LbfgsResult) (adam : ℝ → AdamOpt S)
  (f4 : XR → XR) (grad : LossData XR → PVec → PVec) (nstep n_warmup : ℕ) (force : Bool)
  (dcut tmin : ℝ) {p : MahParams ℝ} {ts : List ℝ} {tl : ℝ}

/-- A fit that is not skipped has three target times before today, and today. -/
theorem three_targets (hp : Spec.Valid p) (hpos : ∀ t ∈ ts, 0 < t) (hsort : ts.Pairwise (· < ·))
    (htl : ts.getLast? = some tl) (h9 : 9 ≤ tl) (hpeak : tl ≤ p.t_peak) (htmin : 0 < tmin)
    (hmax : ∀ t ∈ ts, t ≤ tl) (tp : Option XR) (r : FitResult)
    (h : diffmah_fitter lbfgs adam f4 grad (ts.map fin) ((inputMass p ts tl).map fin) ninf (fin dcut)
      (fin tmin) nstep n_warmup tp force = .ok r) (hs : r.skip_fit = false) :
    fin tl ∈ r.loss_data.t_target ∧ ∃ Q : Finset ℝ, 3 ≤ Q.card ∧
      ∀ t ∈ Q, 0 < t ∧ t < tl ∧ fin t ∈ r.loss_data.t_target := by
  classical
  have htl0 : 0 < tl := by linarith
  have h0 : (9 : ℝ) ≤ 10 ^ Real.logb 10 tl := by rwa [pow10_logb htl0]
  have hinc := C03_strictly_increasing_until_peak p hp.toInBox hp.late_lt_early.le (Real.logb 10 tl) h0
  have hcount : 3 ≤ countBelowLast r.loss_data.log_mah_target := by
    by_contra hc
    have := (C29_skip_iff _ _ _ _ _ _ _ _ _ _ _ _ _ r h).2 (.inr (not_le.1 hc))
    rw [hs] at this; cases this
  obtain ⟨ml, target, hml, hM, -, -, -, -, hmono⟩ := C34_running_peak _ _ _ _ _ _ _ _ _ _ _ _ _ r h
    (floor := 0) rfl
  have hml' : ml = (10 : ℝ) ^ inputLog p tl tl := by
    have := input_last (p := p) (ts := ts) (tl := tl) htl
    rw [hml] at this; exact Option.some.inj this
  rw [input_zip, hml', flooredLog_zero_pow] at hmono
  set c : ℝ × ℝ → Bool := fun q =>
    decide (inputLog p tl tl - dcut < q.2 ∧ XR.lt ninf (XR.fin q.2) ∧ tmin ≤ q.1) with hc
  have hsel : insideCuts (inputLog p tl tl) dcut tmin ninf (ts.map fun t => (t, inputLog p tl t))
      = (ts.filter fun t => c (t, inputLog p tl t)).map fun t => (t, inputLog p tl t) := by
    unfold insideCuts
    rw [List.filter_map]
    rfl
  set L := ts.filter fun t => c (t, inputLog p tl t) with hL
  have hLs : L.Pairwise (· < ·) := hsort.sublist List.filter_sublist
  have hLmem : ∀ t ∈ L, t ∈ ts ∧ inputLog p tl tl - dcut < inputLog p tl t ∧ tmin ≤ t := by
    intro t ht
    obtain ⟨h1, h2⟩ := List.mem_filter.1 ht
    simp only [hc, decide_eq_true_eq] at h2
    exact ⟨h1, h2.1, h2.2.2⟩
  have hlt : ∀ a ∈ ts, ∀ b ∈ ts, a < b → inputLog p tl a < inputLog p tl b := fun a ha b hb hab =>
    hinc ⟨hpos a ha, (hmax a ha).trans hpeak⟩ ⟨hpos b hb, (hmax b hb).trans hpeak⟩ hab
  have ht := hmono (by
    rw [hsel, List.map_map, List.pairwise_map]
    refine hLs.imp_of_mem fun ha hb hab => ?_
    exact (hlt _ (hLmem _ ha).1 _ (hLmem _ hb).1 hab).le)
  rw [hsel, List.map_map] at ht
  rw [hM, ht] at hcount
  unfold countBelowLast at hcount
  split at hcount
  · omega
  rename_i last hlast
  have hl := List.mem_of_getLast? hlast
  rw [List.mem_map] at hl
  obtain ⟨y, hy, rfl⟩ := hl
  obtain ⟨ty, hty, rfl⟩ := List.mem_map.1 hy
  rw [List.map_map, List.filter_map, List.length_map] at hcount
  have hyle : inputLog p tl ty ≤ inputLog p tl tl := by
    rcases (hmax ty (hLmem ty hty).1).lt_or_eq with h1 | h1
    · exact (hlt _ (hLmem ty hty).1 _ (List.mem_of_getLast? htl) h1).le
    · rw [h1]
  set F := L.filter ((fun x => decide (XR.lt x (fin ((Prod.snd ∘ fun t => (t, inputLog p tl t)) ty)))) ∘
    (fin ∘ (Prod.snd ∘ fun t => (t, inputLog p tl t)))) with hF
  have hFmem : ∀ t ∈ F, t ∈ L ∧ inputLog p tl t < inputLog p tl ty := by
    intro t ht
    obtain ⟨h1, h2⟩ := List.mem_filter.1 ht
    refine ⟨h1, ?_⟩
    have : XR.lt (fin (inputLog p tl t)) (fin (inputLog p tl ty)) := by simpa using h2
    exact this
  have hnd : F.Nodup := (hLs.sublist List.filter_sublist).imp fun hab => hab.ne
  have htl' : tl ∈ ts := List.mem_of_getLast? htl
  have hQ : ∀ t ∈ F, 0 < t ∧ t < tl ∧ fin t ∈ r.loss_data.t_target := by
    intro t ht
    obtain ⟨h1, h2⟩ := hFmem t ht
    obtain ⟨h3, h4, h5⟩ := hLmem t h1
    refine ⟨hpos t h3, lt_of_le_of_ne (hmax t h3) ?_, ?_⟩
    · rintro rfl; linarith
    · exact target_mem lbfgs adam f4 grad nstep n_warmup force dcut tmin htl htmin tp r h h3 h5 h4
  refine ⟨?_, F.toFinset, by rw [List.toFinset_card_of_nodup hnd]; exact hcount, fun t ht =>
    hQ t (List.mem_toFinset.1 ht)⟩
  obtain ⟨t, htF⟩ : ∃ t, t ∈ F := List.exists_mem_of_length_pos (by omega)
  obtain ⟨h1, h2⟩ := hFmem t htF
  obtain ⟨h3, h4, h5⟩ := hLmem t h1
  exact target_mem lbfgs adam f4 grad nstep n_warmup force dcut tmin htl htmin tp r h htl' (h5.trans (hmax t h3))
    (by linarith)

theorem le_last (hsort : ts.Pairwise (· < ·)) (htl : ts.getLast? = some tl) : ∀ t ∈ ts, t ≤ tl := by
  intro t ht
  obtain ⟨j, hj, rfl⟩ := List.getElem_of_mem ht
  have hl : ts.length - 1 < ts.length := by omega
  have hlast : ts[ts.length - 1] = tl := by
    rw [List.getLast?_eq_getElem?, List.getElem?_eq_getElem hl] at htl
    exact Option.some.inj htl
  rcases Nat.lt_or_ge j (ts.length - 1) with hlt | hge
  · rw [← hlast]; exact (List.pairwise_iff_getElem.1 hsort j _ hj hl hlt).le
  · have : j = ts.length - 1 := by omega
    subst this; exact hlast.le

/-- **C140**, fits. For a history made by the model that has not peaked before its last time, every fit that is not
skipped has exactly one solution: the loss vanishes at the parameters of the halo and nowhere else. -/
theorem C140_every_fit_has_one_solution (hp : Spec.Valid p) (h05 : ∀ t ∈ ts, 0.05 < t)
    (hsort : ts.Pairwise (· < ·)) (htl : ts.getLast? = some tl) (h9 : 9 ≤ tl) (h20 : tl < 20)
    (hpeak : tl ≤ p.t_peak) (htmin : 0 < tmin)
    (hf4 : ∀ x : ℝ, ∃ y : ℝ, f4 (fin x) = fin y) (hft : ∀ t ∈ ts, f4 (fin t) = fin t)
    (hfm : ∀ a ∈ ts, ∀ b ∈ ts, f4 (fin (inputLog p tl a)) = f4 (fin (inputLog p tl b)) →
      inputLog p tl a = inputLog p tl b) (r : FitResult)
    (h : diffmah_fitter lbfgs adam f4 grad (ts.map fin) ((inputMass p ts tl).map fin) ninf (fin dcut)
      (fin tmin) nstep n_warmup none force = .ok r) (hs : r.skip_fit = false) :
    ∃ up : MahUParams ℝ, get_bounded_mah_params up = { p with t_peak := tl } ∧
      r.loss_data.u_t_peak = fin up.u_t_peak ∧
      ∀ v : VariedU ℝ, log_mah_loss_uparams ⟨fin v.u_logm0, fin v.u_logtc, fin v.u_early_index,
          fin v.u_late_index⟩ r.loss_data = fin 0
        ↔ v = ⟨up.u_logm0, up.u_logtc, up.u_early_index, up.u_late_index⟩ := by
  obtain ⟨up, hup, hut, h0, hall⟩ := C119_own_parameters_fit_exactly lbfgs adam f4 grad nstep n_warmup force dcut tmin
    hp h05 hsort htl h9 h20 (.inr hpeak) htmin hf4 hft hfm r h hs
  rw [min_eq_right hpeak] at hup
  have htl0 : 0 < tl := by linarith
  have hmax := le_last hsort htl
  have hpos : ∀ t ∈ ts, 0 < t := by
    intro t ht; have := h05 t ht; norm_num at this; linarith
  obtain ⟨hT, Q, hQ, hQt⟩ := three_targets lbfgs adam f4 grad nstep n_warmup force dcut tmin hp hpos hsort htl h9 hpeak
    htmin hmax none r h hs
  refine ⟨up, hup, hut, fun v => ⟨fun hv => ?_, by rintro rfl; exact h0⟩⟩
  obtain ⟨x, hx, -, hz⟩ := hall v
  rw [hv] at hx
  have hz' := hz (XR.fin.inj hx).symm
  set w : MahUParams ℝ := ⟨v.u_logm0, v.u_logtc, v.u_early_index, v.u_late_index, up.u_t_peak⟩ with hw
  have e5 : (get_bounded_mah_params up).t_peak = (get_bounded_mah_params w).t_peak := rfl
  have htk : (get_bounded_mah_params up).t_peak = tl := by rw [hup]
  have hin : ∀ t, t ≤ tl → inputLog p tl t = inputLog (get_bounded_mah_params up) tl t := by
    intro t ht
    simp only [inputLog, logmh_at_t_obs]
    rw [log_mah_le (ht.trans hpeak), log_mah_le (by rw [htk]; exact ht), hup]
    rfl
  have h10 := pow10_logb htl0
  obtain ⟨e1, e2, e3, e4⟩ := C140_today_and_three (get_bounded_mah_params up) (get_bounded_mah_params w)
    (Real.logb 10 tl) (C12_bounded_params_valid up).late_lt_early.ne (by rw [h10, htk]) (by rw [h10, ← e5, htk])
    (by rw [h10]; exact (hin tl le_rfl).symm.trans (hz' tl hT).symm) Q hQ
    (fun t ht => ⟨(hQt t ht).1, by rw [h10]; exact (hQt t ht).2.1.ne⟩)
    (fun t ht => by rw [htk]; exact (hQt t ht).2.1.le) (fun t ht => by rw [← e5, htk]; exact (hQt t ht).2.1.le)
    (fun t ht => (hin t (hQt t ht).2.1.le).symm.trans (hz' t (hQt t ht).2.2).symm)
  have e : up = w := by
    rw [← C13_unbounded_of_bounded up, MahParams.ext e1 e2 e3 e4 e5, C13_unbounded_of_bounded w]
  have g1 := congrArg MahUParams.u_logm0 e
  have g2 := congrArg MahUParams.u_logtc e
  have g3 := congrArg MahUParams.u_early_index e
  have g4 := congrArg MahUParams.u_late_index e
  simp only [hw] at g1 g2 g3 g4
  rw [g1, g2, g3, g4]

/-- **C140**, what a fit reports. For such a history the reported loss is zero exactly when the reported parameters are
those of the halo, whichever times and cuts were used, as long as the fit was not skipped. -/
theorem C140_zero_loss_iff_recovered (hp : Spec.Valid p) (h05 : ∀ t ∈ ts, 0.05 < t)
    (hsort : ts.Pairwise (· < ·)) (htl : ts.getLast? = some tl) (h9 : 9 ≤ tl) (h20 : tl < 20)
    (hpeak : tl ≤ p.t_peak) (htmin : 0 < tmin)
    (hf4 : ∀ x : ℝ, ∃ y : ℝ, f4 (fin x) = fin y) (hft : ∀ t ∈ ts, f4 (fin t) = fin t)
    (hfm : ∀ a ∈ ts, ∀ b ∈ ts, f4 (fin (inputLog p tl a)) = f4 (fin (inputLog p tl b)) →
      inputLog p tl a = inputLog p tl b) (r : FitResult)
    (h : diffmah_fitter lbfgs adam f4 grad (ts.map fin) ((inputMass p ts tl).map fin) ninf (fin dcut)
      (fin tmin) nstep n_warmup none force = .ok r) (hs : r.skip_fit = false)
    (hn : 1 ≤ nstep) (hbfgs : ∀ lg q, (lbfgs lg q).func = (lg (lbfgs lg q).x).1)
    (ho : ∀ s, SinglePrecision (adam s) f4)
    (hstart : ∀ u s, get_loss_data f4 (ts.map fin) ((inputMass p ts tl).map fin) ninf (fin dcut) (fin tmin) 3 none
      = .ok (u, r.loss_data, s) → u.map f4 = u ∧ FiniteAt (fit_lg grad r.loss_data) u)
    (q : MahParams ℝ) (hq : r.p_best = q.map fin) (hv : Spec.Valid q) :
    r.loss_best = fin 0 ↔ q = { p with t_peak := tl } := by
  obtain ⟨up, hup, hut, hiff⟩ := C140_every_fit_has_one_solution lbfgs adam f4 grad nstep n_warmup force dcut tmin
    hp h05 hsort htl h9 h20 hpeak htmin hf4 hft hfm r h hs
  rw [← hup]
  exact recovered_of_unique lbfgs adam f4 grad nstep n_warmup force dcut tmin htl (by linarith) r h hs hn hbfgs ho hstart
    q hq hv up hut hiff

end

/-- Four times, today and three before it, are enough: the default halo fitted on 3, 6, 9 and 12 Gyr has exactly one
solution. (The run beside `C135_fit`, which uses these times and ends on a positive loss, meets every hypothesis of the
theorem about reported parameters.) -/
example : ∃ r : FitResult,
    diffmah_fitter originLbfgs gdOpt id (fun _ _ => []) (([3, 6, 9, 12] : List ℝ).map fin)
      ((inputMass DEFAULT_MAH_PARAMS [3, 6, 9, 12] 12).map fin) ninf (fin 2.5) (fin 1) 200 1 none false = .ok r ∧
    r.skip_fit = false ∧ ∃ up : MahUParams ℝ, get_bounded_mah_params up = { DEFAULT_MAH_PARAMS with t_peak := 12 } ∧
      ∀ v : VariedU ℝ, log_mah_loss_uparams ⟨fin v.u_logm0, fin v.u_logtc, fin v.u_early_index,
          fin v.u_late_index⟩ r.loss_data = fin 0
        ↔ v = ⟨up.u_logm0, up.u_logtc, up.u_early_index, up.u_late_index⟩ := by
  obtain ⟨r, hr⟩ := origin_ok gdOpt id (fun _ _ => []) (([3, 6, 9, 12] : List ℝ).map fin)
    ((inputMass DEFAULT_MAH_PARAMS [3, 6, 9, 12] 12).map fin) ninf (fin 2.5) (fin 1) 200 1 none rfl (by simp)
  have htp : DEFAULT_MAH_PARAMS.t_peak = 14 := by norm_num [DEFAULT_MAH_PARAMS]
  have hskip := default_run_not_skipped _ _ _ r hr
  obtain ⟨up, h1, -, h3⟩ := C140_every_fit_has_one_solution originLbfgs _ id _ 200 1 false 2.5 1
    default_valid (ts := [3, 6, 9, 12]) (tl := 12)
    (by intro t ht; simp at ht; rcases ht with rfl | rfl | rfl | rfl <;> norm_num)
    (by norm_num) rfl (by norm_num) (by norm_num) (by rw [htp]; norm_num) (by norm_num) (fun x => ⟨x, rfl⟩)
    (fun _ _ => rfl) (fun a _ b _ h => XR.fin.inj h) r hr hskip
  exact ⟨r, hr, hskip, up, h1, h3⟩

end Diffmah.Fit

import Verif.Props.Moments

/-!
# Predicted and drawn histories never decrease (C138)

What a single halo obeys (its mass never decreases, and is constant once it has peaked) is obeyed by
the mean history the population model predicts, and by every history it draws.
-/

set_option maxRecDepth 10000

namespace Diffmah

open Pop TPeak PopParams MC

variable (ext : Ext) (rng : Rng)

theorem mixture_map {α : Type} (l : List α) (a b f : α → ℝ) :
    Spec.mixture (l.map a) (l.map b) (l.map f)
      = (l.map fun s => (f s / (l.length : ℝ), a s)) ++ l.map fun s => ((1 - f s) / (l.length : ℝ), b s) := by
  simp [Spec.mixture, List.zipWith_map, List.zipWith_self]

theorem wmean_mixture_mono {α : Type} (l : List α) (a b a' b' f : α → ℝ)
    (hf : ∀ q ∈ Spec.mixture (l.map a) (l.map b) (l.map f), 0 ≤ q.1)
    (ha : ∀ s ∈ l, a s ≤ a' s) (hb : ∀ s ∈ l, b s ≤ b' s) :
    Spec.wmean (Spec.mixture (l.map a) (l.map b) (l.map f))
      ≤ Spec.wmean (Spec.mixture (l.map a') (l.map b') (l.map f)) := by
  rw [mixture_map] at hf
  rw [mixture_map, mixture_map]
  simp only [Spec.wmean, List.map_append, List.sum_append, List.map_map]
  refine add_le_add (List.sum_le_sum fun s hs => ?_) (List.sum_le_sum fun s hs => ?_)
  · exact mul_le_mul_of_nonneg_left (ha s hs)
      (hf _ (List.mem_append_left _ (List.mem_map_of_mem hs)))
  · exact mul_le_mul_of_nonneg_left (hb s hs)
      (hf _ (List.mem_append_right _ (List.mem_map_of_mem hs)))

/-- Every halo sampled for the moments has valid parameters, and its masses are those of its
parameters. -/
theorem sample_valid (hext : ext.Lawful) (hr : rng.Lawful) {kind : Kind} {p : NT ℝ}
    (hp : p.map Prod.fst = FIELDS) (hb : AllInBounds p) {tarr : List ℝ} {lgm t_obs : ℝ} {key : Key}
    {lgt0 : ℝ} (hg : GoodInput kind lgm t_obs lgt0 none) {n : ℕ} {sample : List SingleHistories}
    {ks : List Key}
    (h : mc_diffmah_halo_sample ext rng kind p tarr lgm t_obs key lgt0 n = Except.ok (sample, ks)) :
    ∀ s ∈ sample, Spec.Valid s.params_early ∧ Spec.Valid s.params_late ∧
      s.log_mah_early = tarr.map (fun t => logmh_at_t_obs s.params_early t lgt0) ∧
      s.log_mah_late = tarr.map (fun t => logmh_at_t_obs s.params_late t lgt0) := by
  intro s hs
  obtain ⟨-, h1⟩ := sample_inv ext rng h
  obtain ⟨i, k, -, hi⟩ := h1 s hs
  obtain ⟨s', k', h2, hE, hL⟩ := single_ok ext rng hr kind p hp hb tarr lgm t_obs (Key.child key n i) lgt0
    (good_mean ext rng hext kind p hp hb _ _ _ _ _ hg)
  rw [hi] at h2
  obtain ⟨rfl, -⟩ := Prod.mk.inj (Except.ok.inj h2)
  obtain ⟨-, c1, c2⟩ := single_inv ext rng hi
  exact ⟨hE, hL, congrArg Prod.snd c1, congrArg Prod.snd c2⟩

theorem getD_map_of_getElem? {l : List ℝ} {i : ℕ} {t : ℝ} (f : ℝ → ℝ) (h : l[i]? = some t) :
    (l.map f).getD i 0 = f t := by
  simp [List.getD_eq_getElem?_getD, h]

/-- C138. The mean history predicted for haloes of a given mass never decreases: for any two
requested times, in whatever order they were requested, the mean log mass at the later one is at
least that at the earlier one. -/
theorem C138_mean_never_decreases (hext : ext.Lawful) (hr : rng.Lawful) (kind : Kind) (p : NT ℝ)
    (hp : p.map Prod.fst = FIELDS) (hb : AllInBounds p) (tarr : List ℝ) (lgm t_obs : ℝ) (key : Key)
    (lgt0 : ℝ) (hg : GoodInput kind lgm t_obs lgt0 none) (h9 : (9 : ℝ) ≤ 10 ^ lgt0)
    (out : List (ℝ × ℝ × ℝ)) (ks : List Key)
    (h : predict_mah_moments_singlebin ext rng kind p tarr lgm t_obs key lgt0 = Except.ok (out, ks))
    (i j : ℕ) (t1 t2 mean1 std1 f1 mean2 std2 f2 : ℝ)
    (hi : tarr[i]? = some t1) (hj : tarr[j]? = some t2) (h0 : 0 < t1) (h12 : t1 ≤ t2)
    (ho1 : out[i]? = some (mean1, std1, f1)) (ho2 : out[j]? = some (mean2, std2, f2)) :
    mean1 ≤ mean2 := by
  obtain ⟨sample, hs, -, -, -, hm⟩ := C62_moments_of_mixture ext rng kind p hb tarr lgm t_obs key lgt0
    out ks h
  obtain ⟨p1, rfl, hw, -, e1, -⟩ := hm i (List.getElem?_eq_some_iff.1 hi).1
  obtain ⟨p2, rfl, -, -, e2, -⟩ := hm j (List.getElem?_eq_some_iff.1 hj).1
  rw [ho1] at e1
  rw [ho2] at e2
  have e1' := congrArg Prod.fst (Option.some.inj e1)
  have e2' := congrArg Prod.fst (Option.some.inj e2)
  simp only at e1' e2'
  rw [e1', e2']
  have hv := sample_valid ext rng hext hr hp hb hg hs
  refine wmean_mixture_mono _ _ _ _ _ _ hw (fun s hs' => ?_) fun s hs' => ?_
  · obtain ⟨hE, -, c, -⟩ := hv s hs'
    simp only [c]
    rw [getD_map_of_getElem? _ hi, getD_map_of_getElem? _ hj]
    exact C03_never_decreases _ hE.toInBox hE.late_lt_early.le lgt0 h9 h0 (lt_of_lt_of_le h0 h12) h12
  · obtain ⟨-, hL, -, c⟩ := hv s hs'
    simp only [c]
    rw [getD_map_of_getElem? _ hi, getD_map_of_getElem? _ hj]
    exact C03_never_decreases _ hL.toInBox hL.late_lt_early.le lgt0 h9 h0 (lt_of_lt_of_le h0 h12) h12

/-- C138. Once every halo has peaked (peak times are below 20) nothing predicted changes: the mean
and the standard deviation are the same at all times from 20 on. -/
theorem C138_frozen (hext : ext.Lawful) (hr : rng.Lawful) (kind : Kind) (p : NT ℝ)
    (hp : p.map Prod.fst = FIELDS) (hb : AllInBounds p) (tarr : List ℝ) (lgm t_obs : ℝ) (key : Key)
    (lgt0 : ℝ) (hg : GoodInput kind lgm t_obs lgt0 none)
    (out : List (ℝ × ℝ × ℝ)) (ks : List Key)
    (h : predict_mah_moments_singlebin ext rng kind p tarr lgm t_obs key lgt0 = Except.ok (out, ks))
    (i j : ℕ) (t1 t2 : ℝ) (hi : tarr[i]? = some t1) (hj : tarr[j]? = some t2)
    (h1 : 20 ≤ t1) (h2 : 20 ≤ t2) : out[i]? = out[j]? := by
  obtain ⟨sample, hs, -, -, -, hm⟩ := C62_moments_of_mixture ext rng kind p hb tarr lgm t_obs key lgt0
    out ks h
  obtain ⟨p1, q1, -, -, e1, -⟩ := hm i (List.getElem?_eq_some_iff.1 hi).1
  obtain ⟨p2, q2, -, -, e2, -⟩ := hm j (List.getElem?_eq_some_iff.1 hj).1
  have hv := sample_valid ext rng hext hr hp hb hg hs
  have key1 : (sample.map fun s => s.log_mah_early.getD i 0) = sample.map fun s => s.log_mah_early.getD j 0 := by
    refine List.map_congr_left fun s hs' => ?_
    obtain ⟨hE, -, c, -⟩ := hv s hs'
    rw [c, getD_map_of_getElem? _ hi, getD_map_of_getElem? _ hj,
      C02_frozen_after_peak _ t1 lgt0 (by have := hE.tpeak_hi; linarith),
      C02_frozen_after_peak _ t2 lgt0 (by have := hE.tpeak_hi; linarith)]
  have key2 : (sample.map fun s => s.log_mah_late.getD i 0) = sample.map fun s => s.log_mah_late.getD j 0 := by
    refine List.map_congr_left fun s hs' => ?_
    obtain ⟨-, hL, -, c⟩ := hv s hs'
    rw [c, getD_map_of_getElem? _ hi, getD_map_of_getElem? _ hj,
      C02_frozen_after_peak _ t1 lgt0 (by have := hL.tpeak_hi; linarith),
      C02_frozen_after_peak _ t2 lgt0 (by have := hL.tpeak_hi; linarith)]
  rw [e1, e2, q1, q2, key1, key2]

/-- The hypotheses of C138 can be met, with a mean history at three times. -/
example : ∃ (ext : Ext) (rng : Rng) (p : NT ℝ) (out : List (ℝ × ℝ × ℝ)) (ks : List Key),
    ext.Lawful ∧ rng.Lawful ∧ p.map Prod.fst = FIELDS ∧ AllInBounds p ∧
      GoodInput .cens 12 10 1 none ∧ (9 : ℝ) ≤ 10 ^ (1 : ℝ) ∧
      predict_mah_moments_singlebin ext rng .cens p [1, 5, 13] 12 10 (Key.root 0) 1
        = Except.ok (out, ks) ∧ out.length = 3 := by
  obtain ⟨ext, hext⟩ := ext_lawful_exists
  obtain ⟨p, hp, hb⟩ := exists_allInBounds
  have hr : (⟨fun _ => 0, fun _ n => List.replicate n 0, fun _ m _ => m⟩ : Rng).Lawful := by
    refine ⟨by simp, by simp, ?_, by simp⟩
    intro k n x hx; rw [List.eq_of_mem_replicate hx]; norm_num
  have hg : GoodInput .cens 12 10 1 none := by norm_num [GoodInput]
  obtain ⟨out, ks, h, hl⟩ := predict_ok ext _ hext hr .cens p hp hb [1, 5, 13] 12 10 (Key.root 0) 1 hg
  exact ⟨ext, _, p, out, ks, hext, hr, hp, hb, hg, by norm_num, h, hl⟩

/-- C138, drawn histories. In range, a population of any size is drawn with one history per halo, and
at increasing positive times every drawn mass history never decreases and no accretion rate is
negative. -/
theorem C138_drawn (hext : ext.Lawful) (hr : rng.Lawful) (kind : Kind) (p : NT ℝ)
    (hp : p.map Prod.fst = FIELDS) (hb : AllInBounds p) (tarr lgm t_obs : List ℝ) (key : Key)
    (lgt0 : ℝ) (h9 : (9 : ℝ) ≤ 10 ^ lgt0) (h1 : t_obs.length = lgm.length)
    (hg : ∀ i < lgm.length, GoodInput kind (lgm.getD i 0) (t_obs.getD i 0) lgt0 none)
    (hpos : ∀ t ∈ tarr, 0 < t) (hsort : tarr.Pairwise (· ≤ ·)) :
    ∃ pop ks, mc_pop ext rng kind p tarr lgm t_obs key lgt0 = Except.ok (pop, ks) ∧
      pop.log_mah.length = lgm.length ∧ pop.dmhdt.length = lgm.length ∧
      (∀ m ∈ pop.log_mah, m.length = tarr.length ∧ m.Pairwise (· ≤ ·)) ∧
      (∀ r ∈ pop.dmhdt, r.length = tarr.length ∧ ∀ x ∈ r, 0 ≤ x) := by
  obtain ⟨pop, ks, h, hl, hv⟩ := C58_histories ext rng hr kind p hp hb tarr lgm t_obs key lgt0 h1
    (good_means ext rng hext kind p hp hb lgm t_obs _ lgt0 none hg)
  obtain ⟨h61, -⟩ := C61_histories_match ext rng hr kind p tarr lgm t_obs key lgt0 pop ks h
  unfold mah_halopop at h61
  split at h61
  · have e := Except.ok.inj h61
    have ed : pop.dmhdt = pop.mah_params.rows.map fun q => (mah_singlehalo q tarr lgt0).1 := by
      refine (congrArg Prod.fst e).symm.trans ?_; simp [mah_halopop_rows, mah_singlehalo]
    have em : pop.log_mah = pop.mah_params.rows.map fun q => (mah_singlehalo q tarr lgt0).2 := by
      refine (congrArg Prod.snd e).symm.trans ?_; simp [mah_halopop_rows, mah_singlehalo]
    refine ⟨pop, ks, h, by rw [em, List.length_map, hl], by rw [ed, List.length_map, hl], ?_, ?_⟩
    · intro m hm
      rw [em] at hm
      obtain ⟨q, hq, rfl⟩ := List.mem_map.1 hm
      have hV := hv q hq
      exact ⟨by simp [mah_singlehalo, diffmah_kern],
        C03_array q hV.toInBox hV.late_lt_early.le lgt0 h9 tarr hpos hsort⟩
    · intro r hr'
      rw [ed] at hr'
      obtain ⟨q, hq, rfl⟩ := List.mem_map.1 hr'
      have hV := hv q hq
      refine ⟨?_, C06_array_nonneg q hV.toInBox hV.late_lt_early.le lgt0 h9 tarr hpos⟩
      simp [mah_singlehalo, diffmah_kern, dmhdt_kern, dmhdt_noq_kern]
  · cases h61

/-- The hypotheses of `C138_drawn` can be met, for two haloes of different masses at three times. -/
example : ∃ (ext : Ext) (rng : Rng) (p : NT ℝ), ext.Lawful ∧ rng.Lawful ∧ p.map Prod.fst = FIELDS ∧
    AllInBounds p ∧ (9 : ℝ) ≤ 10 ^ (1 : ℝ) ∧
    (∀ i < ([12, 13] : List ℝ).length,
      GoodInput .cens (([12, 13] : List ℝ).getD i 0) (([10, 9] : List ℝ).getD i 0) 1 none) ∧
    (∀ t ∈ ([1, 5, 13] : List ℝ), 0 < t) ∧ ([1, 5, 13] : List ℝ).Pairwise (· ≤ ·) := by
  obtain ⟨ext, hext⟩ := ext_lawful_exists
  obtain ⟨p, hp, hb⟩ := exists_allInBounds
  have hr : (⟨fun _ => 0, fun _ n => List.replicate n 0, fun _ m _ => m⟩ : Rng).Lawful := by
    refine ⟨by simp, by simp, ?_, by simp⟩
    intro k n x hx; rw [List.eq_of_mem_replicate hx]; norm_num
  refine ⟨ext, _, p, hext, hr, hp, hb, by norm_num, ?_, by norm_num, by norm_num⟩
  intro i hi
  have : i = 0 ∨ i = 1 := by simp at hi; omega
  rcases this with rfl | rfl <;> norm_num [GoodInput]

end Diffmah

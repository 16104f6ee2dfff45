import Verif.Props.MCHist

/-!
# Predicted moments (C62) and the losses on them (C63)
-/

set_option maxRecDepth 10000

namespace Diffmah

open Pop TPeak PopParams MC PopLoss

variable (ext : Ext) (rng : Rng)

/-! ## Weighted points -/

theorem wsum_le {pts : List (ℝ × ℝ)} (hw : ∀ p ∈ pts, 0 ≤ p.1) {hi : ℝ} (h : ∀ p ∈ pts, p.2 ≤ hi) :
    (pts.map fun p => p.1 * p.2).sum ≤ (pts.map Prod.fst).sum * hi := by
  induction pts with
  | nil => simp
  | cons p pts ih =>
    have h1 := ih (fun q hq => hw q (List.mem_cons_of_mem _ hq)) fun q hq => h q (List.mem_cons_of_mem _ hq)
    have h2 := mul_le_mul_of_nonneg_left (h p (List.mem_cons_self ..)) (hw p (List.mem_cons_self ..))
    simp only [List.map_cons, List.sum_cons, add_mul]
    linarith

theorem le_wsum {pts : List (ℝ × ℝ)} (hw : ∀ p ∈ pts, 0 ≤ p.1) {lo : ℝ} (h : ∀ p ∈ pts, lo ≤ p.2) :
    (pts.map Prod.fst).sum * lo ≤ (pts.map fun p => p.1 * p.2).sum := by
  induction pts with
  | nil => simp
  | cons p pts ih =>
    have h1 := ih (fun q hq => hw q (List.mem_cons_of_mem _ hq)) fun q hq => h q (List.mem_cons_of_mem _ hq)
    have h2 := mul_le_mul_of_nonneg_left (h p (List.mem_cons_self ..)) (hw p (List.mem_cons_self ..))
    simp only [List.map_cons, List.sum_cons, add_mul]
    linarith

theorem wvar_expand (pts : List (ℝ × ℝ)) (m : ℝ) :
    (pts.map fun p => p.1 * (p.2 - m) ^ 2).sum
      = (pts.map fun p => p.1 * p.2 ^ 2).sum - 2 * m * (pts.map fun p => p.1 * p.2).sum
        + m ^ 2 * (pts.map Prod.fst).sum := by
  induction pts with
  | nil => simp
  | cons p pts ih =>
    simp only [List.map_cons, List.sum_cons, ih]
    ring

/-- What it means for weights and values to be a probability mixture with the given moments. -/
structure IsMixture (pts : List (ℝ × ℝ)) : Prop where
  nonneg : ∀ p ∈ pts, 0 ≤ p.1
  total : (pts.map Prod.fst).sum = 1

theorem IsMixture.mean_ge {pts : List (ℝ × ℝ)} (h : IsMixture pts) {lo : ℝ} (hl : ∀ p ∈ pts, lo ≤ p.2) :
    lo ≤ Spec.wmean pts := by
  have := le_wsum h.nonneg hl
  rwa [h.total, one_mul] at this

theorem IsMixture.mean_le {pts : List (ℝ × ℝ)} (h : IsMixture pts) {hi : ℝ} (hl : ∀ p ∈ pts, p.2 ≤ hi) :
    Spec.wmean pts ≤ hi := by
  have := wsum_le h.nonneg hl
  rwa [h.total, one_mul] at this

theorem IsMixture.var_eq {pts : List (ℝ × ℝ)} (h : IsMixture pts) :
    Spec.wvar pts = (pts.map fun p => p.1 * p.2 ^ 2).sum - Spec.wmean pts ^ 2 := by
  unfold Spec.wvar
  rw [wvar_expand, h.total]
  unfold Spec.wmean
  ring

theorem IsMixture.var_nonneg {pts : List (ℝ × ℝ)} (h : IsMixture pts) : 0 ≤ Spec.wvar pts := by
  refine List.sum_nonneg fun x hx => ?_
  obtain ⟨p, hp, rfl⟩ := List.mem_map.1 hx
  exact mul_nonneg (h.nonneg p hp) (sq_nonneg _)

theorem mixture_weights (n : ℝ) (e l f : List ℝ) (he : e.length = f.length) (hl : l.length = f.length) :
    ((List.zipWith (fun f x => (f / n, x)) f e ++ List.zipWith (fun f x => ((1 - f) / n, x)) f l).map
      Prod.fst).sum = f.length / n := by
  induction f generalizing e l with
  | nil => simp
  | cons a f ih =>
    cases e with
    | nil => simp at he
    | cons b e =>
      cases l with
      | nil => simp at hl
      | cons c l =>
        have := ih e l (by simpa using he) (by simpa using hl)
        simp only [List.zipWith_cons_cons, List.cons_append, List.map_cons, List.sum_cons,
          List.map_append, List.sum_append, List.length_cons, Nat.cast_add, Nat.cast_one] at this ⊢
        rw [add_div]
        have h2 : (1 - a) / n = 1 / n - a / n := sub_div _ _ _
        linarith

theorem mixture_isMixture (e l f : List ℝ) (he : e.length = f.length) (hl : l.length = f.length)
    (hn : f ≠ []) (hf : ∀ x ∈ f, 0 ≤ x ∧ x ≤ 1) : IsMixture (Spec.mixture e l f) := by
  have hpos : (0 : ℝ) < e.length := by
    rw [he]; exact_mod_cast List.length_pos_iff.2 hn
  constructor
  · intro p hp
    unfold Spec.mixture at hp
    rcases List.mem_append.1 hp with hp | hp
    · obtain ⟨i, hi, rfl⟩ := List.mem_iff_getElem.1 hp
      simp only [List.getElem_zipWith]
      exact div_nonneg (hf _ (List.getElem_mem _)).1 hpos.le
    · obtain ⟨i, hi, rfl⟩ := List.mem_iff_getElem.1 hp
      simp only [List.getElem_zipWith]
      exact div_nonneg (by linarith [(hf _ (List.getElem_mem (l := f) (n := i) (by
        simp at hi; omega))).2]) hpos.le
  · unfold Spec.mixture
    rw [mixture_weights _ e l f he hl, ← he, div_self hpos.ne']

theorem zip_sum (x f : List ℝ) (g : ℝ → ℝ) (h : ℝ → ℝ) (n : ℝ) :
    (List.zipWith (fun x w => g x * w) x (f.map fun f => h f * (1 / n))).sum
      = ((List.zipWith (fun f x => (h f / n, x)) f x).map fun p => p.1 * g p.2).sum := by
  induction x generalizing f with
  | nil => simp
  | cons a x ih =>
    cases f with
    | nil => simp
    | cons b f =>
      simp only [List.map_cons, List.zipWith_cons_cons, List.sum_cons, ih]
      ring

/-- The computed moments are the mean and standard deviation of the mixture. -/
theorem moments_eq (e l f : List ℝ) (h : l.length = e.length) :
    moments e l f = (Spec.wmean (Spec.mixture e l f), Real.sqrt (Spec.wvar (Spec.mixture e l f)), 0.5) := by
  have key : ∀ g : ℝ → ℝ,
      (List.zipWith (fun x w => g x * w) e (f.map fun f => f * (1 / (l.length : ℝ)))).sum +
      (List.zipWith (fun x w => g x * w) l ((f.map fun f => 1.0 - f).map fun f => f * (1 / (e.length : ℝ)))).sum
      = ((Spec.mixture e l f).map fun p => p.1 * g p.2).sum := by
    intro g
    have h1 := zip_sum e f g (fun f => f) (e.length : ℝ)
    have h2 := zip_sum l f g (fun f => 1 - f) (e.length : ℝ)
    rw [h, List.map_map]
    unfold Spec.mixture
    rw [List.map_append, List.sum_append, ← h1, ← h2]
    norm_num
    rfl
  unfold moments
  have hm := key fun x => x
  have hm' : (List.zipWith (· * ·) e (f.map fun f => f * (1 / (l.length : ℝ)))).sum +
      (List.zipWith (· * ·) l ((f.map fun f => 1.0 - f).map fun f => f * (1 / (e.length : ℝ)))).sum
      = Spec.wmean (Spec.mixture e l f) := hm
  have hv := key fun x => (x - Spec.wmean (Spec.mixture e l f)) ^ 2
  simp only [hm']
  rw [hv]
  rfl

/-! ## C62 -/

theorem sample_inv {kind : Kind} {p : NT ℝ} {tarr : List ℝ} {lgm t_obs : ℝ} {key : Key} {lgt0 : ℝ}
    {n : ℕ} {sample : List SingleHistories} {ks : List Key}
    (h : mc_diffmah_halo_sample ext rng kind p tarr lgm t_obs key lgt0 n = Except.ok (sample, ks)) :
    sample.length = n ∧ ∀ s ∈ sample, ∃ i k, i < n ∧
      mc_diffmah_single ext rng kind p tarr lgm t_obs (Key.child key n i) lgt0 = Except.ok (s, k) := by
  unfold mc_diffmah_halo_sample at h
  obtain ⟨kss, -, l1, l2, h5⟩ := RandM.all_inv h
  simp only [List.length_map, Key.split, List.length_range] at l1 l2
  refine ⟨l2, fun s hs => ?_⟩
  obtain ⟨i, hi⟩ := List.mem_iff_getElem?.1 hs
  have hi' : i < n := by rw [← l2]; exact (List.getElem?_eq_some_iff.1 hi).1
  obtain ⟨v, k, hv, -, h6⟩ := h5 i _ (by
    rw [Key.split, List.map_map, List.getElem?_map, List.getElem?_range hi']; rfl)
  rw [hi] at hv; cases hv
  refine ⟨i, k, hi', ?_⟩
  simpa only [Function.comp, add_zero] using h6

theorem single_frac {kind : Kind} {p : NT ℝ} {tarr : List ℝ} {lgm t_obs : ℝ} {key : Key} {lgt0 : ℝ}
    {s : SingleHistories} {ks : List Key}
    (h : mc_diffmah_single ext rng kind p tarr lgm t_obs key lgt0 = Except.ok (s, ks)) :
    frac_early_cens_kern p lgm t_obs = .ok s.frac_early := by
  obtain ⟨h1, -⟩ := single_inv ext rng h
  unfold mc_diffmah_params_single at h1
  obtain ⟨res, k1, k2, h2, h3, -⟩ := RandM.bind_inv h1
  obtain ⟨C, k3, k4, -, h4, -⟩ := RandM.bind_inv h3
  obtain ⟨E, k5, k6, -, h5, -⟩ := RandM.bind_inv h4
  obtain ⟨L, k7, k8, -, h6, -⟩ := RandM.bind_inv h5
  obtain ⟨h7, -⟩ := RandM.pure_inv h6
  have h8 : s.frac_early = res.2.2 := congrArg (fun r => r.2.2) h7
  replace h2 : mean_diffmah_params ext rng kind p lgm t_obs key lgt0 = Except.ok (res, k1) := h2
  unfold mean_diffmah_params at h2
  obtain ⟨e, k9, k10, -, h9, -⟩ := RandM.bind_inv h2
  obtain ⟨l, k11, k12, -, h10, -⟩ := RandM.bind_inv h9
  obtain ⟨f, k13, k14, h11, h12, -⟩ := RandM.bind_inv h10
  obtain ⟨h13, -⟩ := RandM.lift_inv h11
  obtain ⟨rfl, -⟩ := RandM.pure_inv h12
  rw [h13, h8]

/-- C62. For every sample the function draws: the early and late masses at every requested time and
the early fractions define a probability mixture (non-negative weights that sum to one), and the
returned moments at that time are its mean, which lies between the smallest and largest sampled log
mass, and its standard deviation, the square root of E[x^2] - mean^2 >= 0. -/
theorem C62_moments_of_mixture (kind : Kind) (p : NT ℝ) (hb : AllInBounds p) (tarr : List ℝ)
    (lgm t_obs : ℝ) (key : Key) (lgt0 : ℝ) (out : List (ℝ × ℝ × ℝ)) (ks : List Key)
    (h : predict_mah_moments_singlebin ext rng kind p tarr lgm t_obs key lgt0 = Except.ok (out, ks)) :
    ∃ sample, mc_diffmah_halo_sample ext rng kind p tarr lgm t_obs key lgt0 200 = Except.ok (sample, ks) ∧
      sample.length = 200 ∧ out.length = tarr.length ∧
      (∀ s ∈ sample, s.log_mah_early.length = tarr.length ∧ s.log_mah_late.length = tarr.length) ∧
      ∀ it < tarr.length, ∃ pts : List (ℝ × ℝ),
        pts = Spec.mixture (sample.map fun s => s.log_mah_early.getD it 0)
          (sample.map fun s => s.log_mah_late.getD it 0) (sample.map fun s => s.frac_early) ∧
        (∀ q ∈ pts, 0 ≤ q.1) ∧ (pts.map Prod.fst).sum = 1 ∧
        out[it]? = some (Spec.wmean pts, Real.sqrt (Spec.wvar pts), 0.5) ∧
        (∀ lo, (∀ q ∈ pts, lo ≤ q.2) → lo ≤ Spec.wmean pts) ∧
        (∀ hi, (∀ q ∈ pts, q.2 ≤ hi) → Spec.wmean pts ≤ hi) ∧
        Spec.wvar pts = (pts.map fun q => q.1 * q.2 ^ 2).sum - Spec.wmean pts ^ 2 ∧
        0 ≤ Spec.wvar pts := by
  unfold predict_mah_moments_singlebin at h
  obtain ⟨sample, k1, k2, h1, h2, rfl⟩ := RandM.bind_inv h
  obtain ⟨rfl, rfl⟩ := RandM.pure_inv h2
  obtain ⟨hl, hs⟩ := sample_inv ext rng h1
  refine ⟨sample, by rw [List.append_nil]; exact h1, hl, by simp, ?_, ?_⟩
  · intro s hs'
    obtain ⟨i, k, -, hi⟩ := hs s hs'
    obtain ⟨-, hc1, hc2⟩ := single_inv ext rng hi
    have e1 := congrArg (fun q => q.2.length) hc1
    have e2 := congrArg (fun q => q.2.length) hc2
    simp only [mah_singlehalo, diffmah_kern, List.length_map] at e1 e2
    exact ⟨e1, e2⟩
  · intro it hit
    have hmix := mixture_isMixture (sample.map fun s => s.log_mah_early.getD it 0)
      (sample.map fun s => s.log_mah_late.getD it 0) (sample.map fun s => s.frac_early)
      (by simp) (by simp) (by
        intro h0
        have := congrArg List.length h0
        simp [hl, NH_PER_M0BIN] at this) (by
        intro x hx
        obtain ⟨s, hs', rfl⟩ := List.mem_map.1 hx
        obtain ⟨i, k, -, hi⟩ := hs s hs'
        have hf := single_frac ext rng hi
        obtain ⟨f, hf', h4, h5⟩ := C52_frac_early p hb.2.2.2.2.2.2.2.1 lgm t_obs
        rw [hf] at hf'
        cases hf'
        constructor <;> linarith)
    refine ⟨_, rfl, hmix.nonneg, hmix.total, ?_, fun lo => hmix.mean_ge, fun hi => hmix.mean_le,
      hmix.var_eq, hmix.var_nonneg⟩
    rw [List.getElem?_map, List.getElem?_range hit]
    simp only [Option.map_some]
    rw [moments_eq _ _ _ (by simp [col])]
    simp only [col, List.map_map]
    rfl

/-- In range, the moments can be predicted. -/
theorem predict_ok (hext : ext.Lawful) (hr : rng.Lawful) (kind : Kind) (p : NT ℝ)
    (hp : p.map Prod.fst = FIELDS) (hb : AllInBounds p) (tarr : List ℝ)
    (lgm t_obs : ℝ) (key : Key) (lgt0 : ℝ) (hg : GoodInput kind lgm t_obs lgt0 none) :
    ∃ out ks, predict_mah_moments_singlebin ext rng kind p tarr lgm t_obs key lgt0
      = Except.ok (out, ks) ∧ out.length = tarr.length := by
  have hs : ∀ k : Key, ∃ s ks, mc_diffmah_single ext rng kind p tarr (lgm + 0) (t_obs + 0) k lgt0
      = Except.ok (s, ks) := by
    intro k
    obtain ⟨s, ks, h, -⟩ := single_ok ext rng hr kind p hp hb tarr (lgm + 0) (t_obs + 0) k lgt0
      (good_mean ext rng hext kind p hp hb _ _ _ _ _ (by simpa using hg))
    exact ⟨s, ks, h⟩
  choose v k hvk using hs
  have hall := RandM.all_of (key.split NH_PER_M0BIN)
    (fun k => mc_diffmah_single ext rng kind p tarr (lgm + 0) (t_obs + 0) k lgt0) v k fun i _ => hvk i
  exact ⟨_, _, RandM.bind_of hall rfl, by simp⟩

/-- The hypotheses of C62 can be met, at any number of times. -/
example (tarr : List ℝ) : ∃ (ext : Ext) (rng : Rng) (p : NT ℝ) (out : List (ℝ × ℝ × ℝ)) (ks : List Key),
    AllInBounds p ∧ predict_mah_moments_singlebin ext rng .cens p tarr 12 10 (Key.root 0) 1
      = Except.ok (out, ks) := by
  obtain ⟨ext, hext⟩ := ext_lawful_exists
  obtain ⟨p, hp, hb⟩ := exists_allInBounds
  have hr : (⟨fun _ => 0, fun _ n => List.replicate n 0, fun _ m _ => m⟩ : Rng).Lawful := by
    refine ⟨by simp, by simp, ?_, by simp⟩
    intro k n x hx; rw [List.eq_of_mem_replicate hx]; norm_num
  obtain ⟨out, ks, h, -⟩ := predict_ok ext _ hext hr .cens p hp hb tarr 12 10 (Key.root 0) 1
    (by norm_num [GoodInput])
  exact ⟨ext, _, p, out, ks, hb, h⟩

/-! ## C63 -/

theorem mse_inv {x y : List ℝ} {v : ℝ} (h : mse x y = .ok v) :
    x.length = y.length ∧ 0 ≤ v ∧ (v = 0 ↔ x = y) := by
  unfold mse at h
  split at h
  · rename_i hl
    have h' := Except.ok.inj h
    subst h'
    refine ⟨hl, ?_, ?_⟩
    · refine div_nonneg (List.sum_nonneg fun a ha => ?_) (Nat.cast_nonneg _)
      obtain ⟨b, -, rfl⟩ := List.mem_map.1 ha
      exact mul_self_nonneg b
    · have hz : ∀ (x y : List ℝ), x.length = y.length →
          0 ≤ ((List.zipWith (fun a b => b - a) x y).map fun a => a * a).sum ∧
          (((List.zipWith (fun a b => b - a) x y).map fun a => a * a).sum = 0 ↔ x = y) := by
        intro x
        induction x with
        | nil => intro y hy; cases y with
          | nil => simp
          | cons b y => simp at hy
        | cons a x ih =>
          intro y hy
          cases y with
          | nil => simp at hy
          | cons b y =>
            obtain ⟨h1, h2⟩ := ih y (by simpa using hy)
            have h3 := mul_self_nonneg (b - a)
            simp only [List.zipWith_cons_cons, List.map_cons, List.sum_cons, List.cons.injEq]
            refine ⟨by linarith, ⟨fun h4 => ?_, fun h4 => ?_⟩⟩
            · have h5 : (b - a) * (b - a) = 0 := by linarith
              have h6 : b - a = 0 := mul_self_eq_zero.1 h5
              exact ⟨by linarith, h2.1 (by linarith)⟩
            · rw [h4.1, h2.2 h4.2]; ring
      rw [div_eq_zero_iff, (hz x y hl).2]
      constructor
      · rintro (h | h)
        · exact h
        · have h0 : (List.zipWith (fun a b => b - a) x y).length = 0 := by exact_mod_cast h
          rw [List.length_zipWith, hl, min_self] at h0
          rw [List.length_eq_zero_iff.1 h0, List.length_eq_zero_iff.1 (hl.trans h0)]
      · exact Or.inl
  · cases h

/-- C63, one bin: the loss is non-negative, and zero exactly when the predicted mean and standard
deviation equal the targets at every time. -/
theorem C63_single_bin (kind : Kind) (p : NT ℝ) (bin : Bin) (key : Key) (lgt0 v : ℝ) (ks : List Key)
    (h : loss_mah_moments_singlebin ext rng kind p bin key lgt0 = Except.ok (v, ks)) :
    ∃ out, predict_mah_moments_singlebin ext rng kind p bin.tarr bin.lgm_obs bin.t_obs key lgt0
        = Except.ok (out, ks) ∧ 0 ≤ v ∧
      (v = 0 ↔ (out.map fun m => m.1) = bin.target_mean_log_mah ∧
        (out.map fun m => m.2.1) = bin.target_std_log_mah) := by
  unfold loss_mah_moments_singlebin at h
  obtain ⟨out, k1, k2, h1, h2, rfl⟩ := RandM.bind_inv h
  obtain ⟨a, k3, k4, h3, h4, rfl⟩ := RandM.bind_inv h2
  obtain ⟨h3', rfl⟩ := RandM.lift_inv h3
  obtain ⟨b, k5, k6, h5, h6, rfl⟩ := RandM.bind_inv h4
  obtain ⟨h5', rfl⟩ := RandM.lift_inv h5
  obtain ⟨rfl, rfl⟩ := RandM.pure_inv h6
  obtain ⟨-, a0, a1⟩ := mse_inv h3'
  obtain ⟨-, b0, b1⟩ := mse_inv h5'
  refine ⟨out, by simpa using h1, add_nonneg a0 b0, ?_⟩
  rw [← a1, ← b1]
  constructor
  · intro h; constructor <;> linarith
  · rintro ⟨rfl, rfl⟩; norm_num

/-- The prediction for a bin agrees with its targets. -/
def Agrees (kind : Kind) (p : NT ℝ) (lgt0 : ℝ) (bin : Bin) (key : Key) : Prop :=
  ∃ out ks, predict_mah_moments_singlebin ext rng kind p bin.tarr bin.lgm_obs bin.t_obs key lgt0
      = Except.ok (out, ks) ∧ (out.map fun m => m.1) = bin.target_mean_log_mah ∧
    (out.map fun m => m.2.1) = bin.target_std_log_mah

theorem sum_eq_zero_iff_of_nonneg {l : List ℝ} (h : ∀ x ∈ l, 0 ≤ x) : l.sum = 0 ↔ ∀ x ∈ l, x = 0 := by
  induction l with
  | nil => simp
  | cons a l ih =>
    have h1 := h a (List.mem_cons_self ..)
    have h2 := List.sum_nonneg fun x hx => h x (List.mem_cons_of_mem a hx)
    have h3 := ih fun x hx => h x (List.mem_cons_of_mem a hx)
    simp only [List.sum_cons, List.forall_mem_cons]
    rw [← h3]
    constructor
    · intro h4; constructor <;> linarith
    · rintro ⟨h4, h5⟩; linarith

/-- C63, many bins: the loss is non-negative, and zero exactly when in every bin the prediction made
with the bin's own key agrees with the bin's own targets. -/
theorem C63_many_bins (kind : Kind) (p : NT ℝ) (bins : List Bin) (hne : bins ≠ []) (key : Key)
    (lgt0 v : ℝ) (ks : List Key)
    (h : loss_mah_moments_multibin ext rng kind p bins key lgt0 = Except.ok (v, ks)) :
    0 ≤ v ∧ (v = 0 ↔ ∀ (i : ℕ) bin, bins[i]? = some bin →
      Agrees ext rng kind p lgt0 bin (Key.child key bins.length i)) := by
  unfold loss_mah_moments_multibin loss_mah_moments_multibin_kern at h
  obtain ⟨losses, k1, k2, h1, h2, rfl⟩ := RandM.bind_inv h
  obtain ⟨rfl, rfl⟩ := RandM.pure_inv h2
  obtain ⟨kss, -, l1, l2, h3⟩ := RandM.all_inv h1
  have hsl : (key.split bins.length).length = bins.length := by simp [Key.split]
  simp only [List.length_zipWith, hsl, min_self] at l1 l2
  have hbin : ∀ (i : ℕ) bin, bins[i]? = some bin → ∃ v k, losses[i]? = some v ∧
      loss_mah_moments_singlebin ext rng kind p bin (Key.child key bins.length i) lgt0
        = Except.ok (v, k) := by
    intro i bin hi
    have hi' := (List.getElem?_eq_some_iff.1 hi).1
    obtain ⟨v, k, hv, -, h4⟩ := h3 i _ (by
      rw [List.getElem?_zipWith, hi, Key.split, List.getElem?_map, List.getElem?_range hi']
      rfl)
    exact ⟨v, k, hv, h4⟩
  have hlb : ∀ (i : ℕ) v, losses[i]? = some v → ∃ bin, bins[i]? = some bin := by
    intro i v hv
    have hi' := (List.getElem?_eq_some_iff.1 hv).1
    exact ⟨_, List.getElem?_eq_getElem (by omega)⟩
  have hnn : ∀ x ∈ losses, 0 ≤ x := by
    intro x hx
    obtain ⟨i, hi⟩ := List.mem_iff_getElem?.1 hx
    obtain ⟨bin, hb⟩ := hlb i x hi
    obtain ⟨v, k, hv, h4⟩ := hbin i bin hb
    rw [hi] at hv; cases hv
    obtain ⟨out, -, h5, -⟩ := C63_single_bin ext rng kind p bin _ lgt0 x k h4
    exact h5
  refine ⟨div_nonneg (List.sum_nonneg hnn) (Nat.cast_nonneg _), ?_⟩
  have hn0 : (losses.length : ℝ) ≠ 0 := by
    rw [l2]; exact_mod_cast (List.length_pos_iff.2 hne).ne'
  rw [div_eq_zero_iff, or_iff_left hn0, sum_eq_zero_iff_of_nonneg hnn]
  constructor
  · intro hz i bin hb
    obtain ⟨v, k, hv, h4⟩ := hbin i bin hb
    obtain ⟨out, h5, -, h6⟩ := C63_single_bin ext rng kind p bin _ lgt0 v k h4
    exact ⟨out, k, h5, h6.1 (hz v (List.mem_of_getElem? hv))⟩
  · intro ha x hx
    obtain ⟨i, hi⟩ := List.mem_iff_getElem?.1 hx
    obtain ⟨bin, hb⟩ := hlb i x hi
    obtain ⟨v, k, hv, h4⟩ := hbin i bin hb
    rw [hi] at hv; cases hv
    obtain ⟨out, h5, -, h6⟩ := C63_single_bin ext rng kind p bin _ lgt0 x k h4
    obtain ⟨out', k', h7, h8⟩ := ha i bin hb
    rw [h5] at h7
    obtain ⟨rfl, -⟩ := RandM.ok_inj h7
    exact h6.2 h8

/-- C63, centrals and satellites: the combined loss is non-negative, and zero exactly when every
bin of both agrees. -/
theorem C63_censat (varied : NT ℝ) (bc bs : List Bin) (hc : bc ≠ []) (hs : bs ≠ []) (key : Key)
    (lgt0 v : ℝ) (ks : List Key)
    (h : loss_mah_moments_multibin_censat ext rng varied bc bs key lgt0 = Except.ok (v, ks)) :
    0 ≤ v ∧ ∃ p, DEFAULT_DIFFMAHPOP_PARAMS.replace varied = .ok p ∧
      (v = 0 ↔ (∀ (i : ℕ) bin, bc[i]? = some bin →
          Agrees ext rng .cens p lgt0 bin (Key.child (Key.child key 2 0) bc.length i)) ∧
        (∀ (i : ℕ) bin, bs[i]? = some bin →
          Agrees ext rng .sats p lgt0 bin (Key.child (Key.child key 2 1) bs.length i))) := by
  unfold loss_mah_moments_multibin_censat at h
  obtain ⟨p, k1, k2, h1, h2, rfl⟩ := RandM.bind_inv h
  obtain ⟨h1', rfl⟩ := RandM.lift_inv h1
  obtain ⟨a, k3, k4, h3, h4, rfl⟩ := RandM.bind_inv h2
  obtain ⟨b, k5, k6, h5, h6, rfl⟩ := RandM.bind_inv h4
  obtain ⟨rfl, rfl⟩ := RandM.pure_inv h6
  obtain ⟨a0, a1⟩ := C63_many_bins ext rng .cens p bc hc _ lgt0 a k3 h3
  obtain ⟨b0, b1⟩ := C63_many_bins ext rng .sats p bs hs _ lgt0 b k5 h5
  refine ⟨add_nonneg a0 b0, p, h1', ?_⟩
  rw [← a1, ← b1]
  constructor
  · intro h; constructor <;> linarith
  · rintro ⟨rfl, rfl⟩; norm_num

/-- C63 for the losses on unbounded parameters, which are those of the corresponding bounded
parameters. -/
theorem C63_u_params (u : NT ℝ) (bins bs : List Bin) (hc : bins ≠ []) (hs : bs ≠ []) (key : Key)
    (lgt0 v w : ℝ) (ks ks' : List Key)
    (h : loss_mah_moments_multibin_u_params ext rng u bins key lgt0 = Except.ok (v, ks))
    (h' : loss_mah_moments_multibin_censat_u_params ext rng u bins bs key lgt0 = Except.ok (w, ks')) :
    0 ≤ v ∧ 0 ≤ w ∧ ∃ d u' p, DEFAULT_DIFFMAHPOP_U_PARAMS = .ok d ∧ NT.replace d u = .ok u' ∧
      get_diffmahpop_params_from_u_params u' = .ok p ∧
      (v = 0 ↔ ∀ (i : ℕ) bin, bins[i]? = some bin →
        Agrees ext rng .cens p lgt0 bin (Key.child key bins.length i)) ∧
      ∃ q, DEFAULT_DIFFMAHPOP_PARAMS.replace p = .ok q ∧
        (w = 0 ↔ (∀ (i : ℕ) bin, bins[i]? = some bin →
            Agrees ext rng .cens q lgt0 bin (Key.child (Key.child key 2 0) bins.length i)) ∧
          (∀ (i : ℕ) bin, bs[i]? = some bin →
            Agrees ext rng .sats q lgt0 bin (Key.child (Key.child key 2 1) bs.length i))) := by
  unfold loss_mah_moments_multibin_u_params at h
  obtain ⟨d, k1, k2, h1, h2, rfl⟩ := RandM.bind_inv h
  obtain ⟨h1', rfl⟩ := RandM.lift_inv h1
  obtain ⟨u', k3, k4, h3, h4, rfl⟩ := RandM.bind_inv h2
  obtain ⟨h3', rfl⟩ := RandM.lift_inv h3
  obtain ⟨p, k5, k6, h5, h6, rfl⟩ := RandM.bind_inv h4
  obtain ⟨h5', rfl⟩ := RandM.lift_inv h5
  obtain ⟨a0, a1⟩ := C63_many_bins ext rng .cens p bins hc key lgt0 v k6 h6
  unfold loss_mah_moments_multibin_censat_u_params at h'
  obtain ⟨d', _, _, g1, g2, -⟩ := RandM.bind_inv h'
  obtain ⟨g1', -⟩ := RandM.lift_inv g1
  obtain ⟨u'', _, _, g3, g4, -⟩ := RandM.bind_inv g2
  obtain ⟨g3', -⟩ := RandM.lift_inv g3
  obtain ⟨p', _, k, g5, g6, -⟩ := RandM.bind_inv g4
  obtain ⟨g5', -⟩ := RandM.lift_inv g5
  obtain rfl : d = d' := Except.ok.inj (h1'.symm.trans g1')
  obtain rfl : u' = u'' := Except.ok.inj (h3'.symm.trans g3')
  obtain rfl : p = p' := Except.ok.inj (h5'.symm.trans g5')
  obtain ⟨b0, b1⟩ := C63_censat ext rng p bins bs hc hs key lgt0 w k g6
  exact ⟨a0, b0, d, u', p, h1', h3', h5', a1, b1⟩

/-! The losses can be computed, and both outcomes (zero and positive) occur. -/

theorem mse_ok (x y : List ℝ) (h : x.length = y.length) : ∃ v, mse x y = .ok v :=
  ⟨_, if_pos h⟩

theorem single_bin_ok (hext : ext.Lawful) (hr : rng.Lawful) (kind : Kind) (p : NT ℝ)
    (hp : p.map Prod.fst = FIELDS) (hb : AllInBounds p) (bin : Bin) (key : Key) (lgt0 : ℝ)
    (hg : GoodInput kind bin.lgm_obs bin.t_obs lgt0 none)
    (h1 : bin.target_mean_log_mah.length = bin.tarr.length)
    (h2 : bin.target_std_log_mah.length = bin.tarr.length) :
    ∃ v ks, loss_mah_moments_singlebin ext rng kind p bin key lgt0 = Except.ok (v, ks) := by
  obtain ⟨out, ks, h, hl⟩ := predict_ok ext rng hext hr kind p hp hb bin.tarr _ _ key lgt0 hg
  obtain ⟨v, hv⟩ := mse_ok (out.map fun m => m.1) bin.target_mean_log_mah (by simp [hl, h1])
  obtain ⟨w, hw⟩ := mse_ok (out.map fun m => m.2.1) bin.target_std_log_mah (by simp [hl, h2])
  refine ⟨v + w, ks ++ ([] ++ ([] ++ [])), RandM.bind_of h ?_⟩
  rw [hv]
  refine RandM.bind_of (ks := []) (ks' := []) rfl ?_
  rw [hw]
  exact RandM.bind_of (ks := []) (ks' := []) rfl rfl

theorem many_bins_ok (hext : ext.Lawful) (hr : rng.Lawful) (kind : Kind) (p : NT ℝ)
    (hp : p.map Prod.fst = FIELDS) (hb : AllInBounds p) (bins : List Bin) (key : Key) (lgt0 : ℝ)
    (hg : ∀ bin ∈ bins, GoodInput kind bin.lgm_obs bin.t_obs lgt0 none ∧
      bin.target_mean_log_mah.length = bin.tarr.length ∧
      bin.target_std_log_mah.length = bin.tarr.length) :
    ∃ v ks, loss_mah_moments_multibin ext rng kind p bins key lgt0 = Except.ok (v, ks) := by
  have hs : ∀ q : Bin × Key, ∃ v ks, q.1 ∈ bins →
      loss_mah_moments_singlebin ext rng kind p q.1 q.2 lgt0 = Except.ok (v, ks) := by
    intro q
    by_cases hq : q.1 ∈ bins
    · obtain ⟨g1, g2, g3⟩ := hg _ hq
      obtain ⟨v, ks, h⟩ := single_bin_ok ext rng hext hr kind p hp hb q.1 q.2 lgt0 g1 g2 g3
      exact ⟨v, ks, fun _ => h⟩
    · exact ⟨0, [], fun h => absurd h hq⟩
  choose v k hvk using hs
  have hall := RandM.all_of (bins.zip (key.split bins.length))
    (fun q => loss_mah_moments_singlebin ext rng kind p q.1 q.2 lgt0) v k
    fun q hq => hvk q (List.of_mem_zip hq).1
  have hz : (bins.zip (key.split bins.length)).map
      (fun q => loss_mah_moments_singlebin ext rng kind p q.1 q.2 lgt0)
      = List.zipWith (fun bin k => loss_mah_moments_singlebin ext rng kind p bin k lgt0) bins
        (key.split bins.length) := by
    rw [List.zip, List.map_zipWith]
  rw [hz] at hall
  exact ⟨_, _, RandM.bind_of hall rfl⟩

theorem replace_full {p : NT ℝ} (hp : p.map Prod.fst = FIELDS) :
    DEFAULT_DIFFMAHPOP_PARAMS.replace p = .ok p := by
  have h := NT.replace_block (pre := []) (mid := DEFAULT_DIFFMAHPOP_PARAMS) (post := []) (x := p)
    hp (by
      simp only [NT.fields, List.map_nil, List.nil_append, List.append_nil]
      exact C50_no_collision.1)
  simpa using h

/-- The hypotheses of the C63 theorems can be met, and a loss of zero and a positive loss both
occur. -/
theorem losses_run : ∃ (ext : Ext) (rng : Rng) (p : NT ℝ) (b0 b1 : Bin) (v : ℝ) (ks ks' ks'' : List Key),
    loss_mah_moments_multibin ext rng .cens p [b0] (Key.root 0) 1 = Except.ok (0, ks) ∧
    loss_mah_moments_multibin ext rng .cens p [b1] (Key.root 0) 1 = Except.ok (v, ks') ∧ 0 < v ∧
    ∃ w, loss_mah_moments_multibin_censat ext rng p [b0, b1] [b1] (Key.root 0) 1
      = Except.ok (w, ks'') := by
  obtain ⟨ext, hext⟩ := ext_lawful_exists
  obtain ⟨p, hp, hb⟩ := exists_allInBounds
  have hr : (⟨fun _ => 0, fun _ n => List.replicate n 0, fun _ m _ => m⟩ : Rng).Lawful := by
    refine ⟨by simp, by simp, ?_, by simp⟩
    intro k n x hx; rw [List.eq_of_mem_replicate hx]; norm_num
  have hgood : ∀ kind, GoodInput kind 12 10 1 none := by intro kind; cases kind <;> norm_num [GoodInput]
  obtain ⟨out, ks, h, hl⟩ := predict_ok ext _ hext hr .cens p hp hb [1, 2] 12 10
    (Key.child (Key.root 0) 1 0) 1 (hgood _)
  let b0 : Bin := ⟨[1, 2], 12, 10, out.map fun m => m.1, out.map fun m => m.2.1⟩
  let b1 : Bin := ⟨[1, 2], 12, 10, out.map fun m => m.1 + 1, out.map fun m => m.2.1⟩
  have hg0 : ∀ kind, GoodInput kind b0.lgm_obs b0.t_obs 1 none ∧
      b0.target_mean_log_mah.length = b0.tarr.length ∧ b0.target_std_log_mah.length = b0.tarr.length :=
    fun kind => ⟨hgood kind, by simp [b0, hl], by simp [b0, hl]⟩
  have hg1 : ∀ kind, GoodInput kind b1.lgm_obs b1.t_obs 1 none ∧
      b1.target_mean_log_mah.length = b1.tarr.length ∧ b1.target_std_log_mah.length = b1.tarr.length :=
    fun kind => ⟨hgood kind, by simp [b1, hl], by simp [b1, hl]⟩
  obtain ⟨v0, k0, e0⟩ := many_bins_ok ext _ hext hr .cens p hp hb [b0] (Key.root 0) 1 (by
    intro bin hbin; rw [List.mem_singleton] at hbin; subst hbin; exact hg0 _)
  obtain ⟨v1, k1, e1⟩ := many_bins_ok ext _ hext hr .cens p hp hb [b1] (Key.root 0) 1 (by
    intro bin hbin; rw [List.mem_singleton] at hbin; subst hbin; exact hg1 _)
  obtain ⟨v2, k2, e2⟩ := many_bins_ok ext _ hext hr .cens p hp hb [b0, b1] (Key.child (Key.root 0) 2 0) 1 (by
    intro bin hbin
    rcases List.mem_cons.1 hbin with rfl | hbin
    · exact hg0 _
    · rw [List.mem_singleton] at hbin; subst hbin; exact hg1 _)
  obtain ⟨v3, k3, e3⟩ := many_bins_ok ext _ hext hr .sats p hp hb [b1] (Key.child (Key.root 0) 2 1) 1 (by
    intro bin hbin; rw [List.mem_singleton] at hbin; subst hbin; exact hg1 _)
  have z0 := (C63_many_bins ext _ .cens p [b0] (by simp) _ 1 v0 k0 e0).2.2 (by
    intro i bin hi
    obtain ⟨rfl, rfl⟩ : i = 0 ∧ b0 = bin := by
      cases i with
      | zero => exact ⟨rfl, by simpa using hi⟩
      | succ i => simp at hi
    exact ⟨out, ks, h, rfl, rfl⟩)
  obtain ⟨nn1, z1⟩ := C63_many_bins ext _ .cens p [b1] (by simp) _ 1 v1 k1 e1
  have hv1 : v1 ≠ 0 := by
    intro hv
    obtain ⟨out', ks', h', h1, -⟩ := z1.1 hv 0 b1 rfl
    have h'' : predict_mah_moments_singlebin ext _ .cens p [1, 2] 12 10 (Key.child (Key.root 0) 1 0) 1
      = Except.ok (out', ks') := h'
    rw [h] at h''
    obtain ⟨rfl, -⟩ := RandM.ok_inj h''
    have h2 : out'.map (fun m => m.1) = out'.map (fun m => m.1 + 1) := h1
    cases out' with
    | nil => simp at hl
    | cons a l =>
      simp only [List.map_cons, List.cons.injEq] at h2
      linarith [h2.1]
  subst z0
  have hl1 : RandM.lift (DEFAULT_DIFFMAHPOP_PARAMS.replace p) = Except.ok (p, []) := by
    rw [replace_full hp]; rfl
  exact ⟨ext, _, p, b0, b1, v1, k0, k1, [] ++ (k2 ++ (k3 ++ [])), e0, e1,
    lt_of_le_of_ne nn1 (Ne.symm hv1), v2 + v3,
    RandM.bind_of hl1 (RandM.bind_of e2 (RandM.bind_of e3 rfl))⟩

end Diffmah

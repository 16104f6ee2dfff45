import Verif.Props.MCMean
import Verif.Props.TPeak

/-!
# Monte Carlo populations (C58-C62, C64)
-/

set_option maxRecDepth 10000

namespace Diffmah

open Pop TPeak PopParams MC

variable (ext : Ext) (rng : Rng)

/-! ## One halo -/

theorem scatter_ok (hr : rng.Lawful) (key : Key) (m : MahParams ℝ) (C : Matrix (Fin 4) (Fin 4) ℝ) :
    ∃ a b c d, rng.mvn key (first4 (get_unbounded_mah_params m)) C = [a, b, c, d] ∧
      scatter rng key m C = Except.ok (get_bounded_mah_params
        ⟨a, b, c, d, (get_unbounded_mah_params m).u_t_peak⟩, [key]) := by
  have hl : (rng.mvn key (first4 (get_unbounded_mah_params m)) C).length = 4 := hr.mvn_length _ _ _
  obtain ⟨a, b, c, d, habcd⟩ := List.length_eq_four.1 hl
  refine ⟨a, b, c, d, habcd, ?_⟩
  unfold scatter
  refine RandM.bind_of (ks := [key]) (ks' := []) rfl ?_
  refine RandM.bind_of (ks := []) (ks' := []) (b := ⟨a, b, c, d, (get_unbounded_mah_params m).u_t_peak⟩) ?_ rfl
  rw [habcd]; rfl

/-- What one halo's early (or late) draw is: valid parameters with the mean's peak time, whose four
other unbounded parameters are the generator's normal draw around the unbounded mean. -/
structure IsDraw (key : Key) (mean : MahParams ℝ) (C : Matrix (Fin 4) (Fin 4) ℝ) (x : MahParams ℝ) :
    Prop where
  valid : Spec.Valid x
  t_peak : x.t_peak = mean.t_peak
  normal : rng.mvn key (first4 (get_unbounded_mah_params mean)) C = first4 (get_unbounded_mah_params x)

theorem scatter_isDraw (hr : rng.Lawful) (key : Key) (m : MahParams ℝ) (hm : Spec.Valid m)
    (C : Matrix (Fin 4) (Fin 4) ℝ) :
    ∃ x, scatter rng key m C = Except.ok (x, [key]) ∧ IsDraw rng key m C x := by
  obtain ⟨a, b, c, d, h1, h2⟩ := scatter_ok rng hr key m C
  refine ⟨_, h2, C12_bounded_params_valid _, ?_, ?_⟩
  · have := congrArg MahParams.t_peak (C14_bounded_of_unbounded m hm)
    exact this
  · rw [C13_unbounded_of_bounded, h1]; rfl

/-- C58. One halo: whenever its mean parameters are valid, so are its early and late draws, for every
random stream. The two draws have the peak time of their means, and in the unbounded space are
normal draws around the unbounded means with the covariance of the population model. -/
theorem C58_single (hr : rng.Lawful) (kind : Kind) (p : NT ℝ) (hp : p.map Prod.fst = FIELDS)
    (hb : AllInBounds p) (lgm t_obs : ℝ) (key : Key) (lgt0 : ℝ) (tp : Option ℝ)
    (e l : MahParams ℝ) (f : ℝ) (ks : List Key)
    (hmean : mean_res ext rng kind p lgm t_obs key lgt0 tp = Except.ok ((e, l, f), ks))
    (he : Spec.Valid e) (hl : Spec.Valid l) :
    ∃ E L C, mc_diffmah_params_single ext rng kind p lgm t_obs key lgt0 tp
        = Except.ok ((E, L, f), ks ++ [Key.child key 2 0, Key.child key 2 1]) ∧
      get_diffmahpop_cov p lgm = .ok C ∧
      IsDraw rng (Key.child key 2 0) e C E ∧ IsDraw rng (Key.child key 2 1) l C L := by
  obtain ⟨C, -, hC, -⟩ := C51_covariance p (Or.inr hp) hb.2.2.2.2.2.2.2.2 lgm
  obtain ⟨E, hE, hE'⟩ := scatter_isDraw rng hr (Key.child key 2 0) e he C
  obtain ⟨L, hL, hL'⟩ := scatter_isDraw rng hr (Key.child key 2 1) l hl C
  refine ⟨E, L, C, ?_, hC, hE', hL'⟩
  unfold mc_diffmah_params_single
  refine RandM.bind_of hmean ?_
  rw [hC]
  refine RandM.bind_of (ks := []) (ks' := [Key.child key 2 0, Key.child key 2 1]) rfl ?_
  refine RandM.bind_of (ks := [Key.child key 2 0]) (ks' := [Key.child key 2 1]) hE ?_
  exact RandM.bind_of (ks := [Key.child key 2 1]) (ks' := []) hL rfl

/-- Inputs for which the mean parameters are valid whatever the (in-bounds) population parameters
and the random stream. -/
def GoodInput (kind : Kind) (lgm t_obs lgt0 : ℝ) (tp : Option ℝ) : Prop :=
  4.5 ≤ lgm ∧ lgm ≤ 13.4 ∧ 0.5 ≤ t_obs ∧ t_obs ≤ 15 ∧
  match tp, kind with
  | some tp, _ => 0.05 < tp ∧ tp < 20
  | none, .cens => 1 < (10 : ℝ) ^ lgt0 ∧ (10 : ℝ) ^ lgt0 < 20
  | none, .sats => True

theorem draw_t_peak_ok (hext : ext.Lawful) (kind : Kind) (p : NT ℝ)
    (hp : p.map Prod.fst = FIELDS) (hb : AllInBounds p) (lgm t_obs : ℝ) (ht : 0 < t_obs) (key : Key) (lgt0 : ℝ) :
    ∃ tp, draw_t_peak ext rng kind p lgm t_obs key lgt0 = Except.ok (tp, [Key.child key 2 0]) ∧
      (kind = .cens → 0.05 * (10 : ℝ) ^ lgt0 ≤ tp ∧ tp ≤ (10 : ℝ) ^ lgt0) ∧
      (kind = .sats → 0.1 * t_obs < tp ∧ tp < t_obs) := by
  obtain ⟨c, hc, hcb⟩ := components_bounded hp hb
  unfold draw_t_peak
  rw [hc]
  cases kind
  · obtain ⟨tp, h1, h2⟩ := C56_range ext rng hext c.tp_cens hcb.tp_cens lgm t_obs ((10 : ℝ) ^ lgt0)
      (by positivity) (Key.child key 2 0)
    exact ⟨tp, RandM.bind_of (ks := []) rfl h1, fun _ => h2, fun h => by cases h⟩
  · obtain ⟨tp, h1, h2⟩ := C57_range ext rng hext c.tp_sats hcb.tp_sats lgm t_obs ht (Key.child key 2 0)
    exact ⟨tp, RandM.bind_of (ks := []) rfl h1, fun h => (by cases h), fun _ => h2⟩

/-- C56 for the peak time that the population model draws for a central. -/
theorem C56_halo (hext : ext.Lawful) (p : NT ℝ) (hp : p.map Prod.fst = FIELDS) (hb : AllInBounds p)
    (lgm t_obs : ℝ) (ht : 0 < t_obs) (key : Key) (lgt0 : ℝ) :
    ∃ tp, draw_t_peak ext rng .cens p lgm t_obs key lgt0 = Except.ok (tp, [Key.child key 2 0]) ∧
      0.05 * (10 : ℝ) ^ lgt0 ≤ tp ∧ tp ≤ (10 : ℝ) ^ lgt0 := by
  obtain ⟨tp, h1, h2, -⟩ := draw_t_peak_ok ext rng hext .cens p hp hb lgm t_obs ht key lgt0
  exact ⟨tp, h1, h2 rfl⟩

/-- C57 for the peak time that the population model draws for a satellite. -/
theorem C57_halo (hext : ext.Lawful) (p : NT ℝ) (hp : p.map Prod.fst = FIELDS) (hb : AllInBounds p)
    (lgm t_obs : ℝ) (ht : 0 < t_obs) (key : Key) (lgt0 : ℝ) :
    ∃ tp, draw_t_peak ext rng .sats p lgm t_obs key lgt0 = Except.ok (tp, [Key.child key 2 0]) ∧
      0.1 * t_obs < tp ∧ tp < t_obs := by
  obtain ⟨tp, h1, -, h2⟩ := draw_t_peak_ok ext rng hext .sats p hp hb lgm t_obs ht key lgt0
  exact ⟨tp, h1, h2 rfl⟩

/-- The hypotheses of the two theorems are met by some parameters. -/
example : ∃ p : NT ℝ, p.map Prod.fst = FIELDS ∧ AllInBounds p := exists_allInBounds

theorem mean_res_none (hext : ext.Lawful) (kind : Kind) (p : NT ℝ)
    (hp : p.map Prod.fst = FIELDS) (hb : AllInBounds p) (lgm t_obs : ℝ) (ht : 0 < t_obs) (key : Key) (lgt0 : ℝ) :
    ∃ tp e l f, mean_res ext rng kind p lgm t_obs key lgt0 none
        = Except.ok ((e, l, f), [Key.child key 2 0, Key.child key 2 0]) ∧
      mean_diffmah_params_t_peak kind p lgm t_obs tp = .ok (e, l, f) ∧
      draw_t_peak ext rng kind p lgm t_obs key lgt0 = Except.ok (tp, [Key.child key 2 0]) := by
  obtain ⟨tp, htp, -⟩ := draw_t_peak_ok ext rng hext kind p hp hb lgm t_obs ht key lgt0
  obtain ⟨e, l, f, h, he, hl, hf, -⟩ := mean_t_peak_ok hp hb kind lgm t_obs tp
  refine ⟨tp, e, l, f, ?_, h, htp⟩
  show mean_diffmah_params ext rng kind p lgm t_obs key lgt0 = _
  unfold mean_diffmah_params
  refine RandM.bind_of (b := e) (ks := [Key.child key 2 0]) (ks' := [Key.child key 2 0]) ?_ ?_
  · unfold mean_diffmah_params_early
    refine RandM.bind_of (ks' := []) htp ?_
    rw [he]; rfl
  refine RandM.bind_of (b := l) (ks := [Key.child key 2 0]) (ks' := []) ?_ ?_
  · unfold mean_diffmah_params_late
    refine RandM.bind_of (ks' := []) htp ?_
    rw [hl]; rfl
  rw [hf]; rfl

theorem mean_res_some (kind : Kind) (p : NT ℝ)
    (hp : p.map Prod.fst = FIELDS) (hb : AllInBounds p) (lgm t_obs : ℝ) (key : Key) (lgt0 tp : ℝ) :
    ∃ e l f, mean_res ext rng kind p lgm t_obs key lgt0 (some tp) = Except.ok ((e, l, f), []) ∧
      mean_diffmah_params_t_peak kind p lgm t_obs tp = .ok (e, l, f) := by
  obtain ⟨e, l, f, h, -⟩ := mean_t_peak_ok hp hb kind lgm t_obs tp
  refine ⟨e, l, f, ?_, h⟩
  show RandM.lift (mean_diffmah_params_t_peak kind p lgm t_obs tp) = _
  rw [h]; rfl

/-- The mean parameters of a halo with good inputs are valid; the keys they use. -/
theorem good_mean (hext : ext.Lawful) (kind : Kind) (p : NT ℝ)
    (hp : p.map Prod.fst = FIELDS) (hb : AllInBounds p) (lgm t_obs : ℝ) (key : Key) (lgt0 : ℝ)
    (tp : Option ℝ) (hg : GoodInput kind lgm t_obs lgt0 tp) :
    ∃ e l f ks, mean_res ext rng kind p lgm t_obs key lgt0 tp = Except.ok ((e, l, f), ks) ∧
      Spec.Valid e ∧ Spec.Valid l := by
  obtain ⟨g1, g2, g3, g4, g5⟩ := hg
  have g3' : 0 < t_obs := by norm_num at g3; linarith
  have key' : ∀ t e l f, mean_diffmah_params_t_peak kind p lgm t_obs t = .ok (e, l, f) → 0.05 < t → t < 20 →
      Spec.Valid e ∧ Spec.Valid l := by
    intro t e l f h h1 h2
    obtain ⟨e', l', f', h', -, -, -, -, -, -, -, -, hv⟩ := C55_mean_params_partial p hp hb kind lgm t_obs t
    rw [h] at h'
    obtain ⟨rfl, rfl, rfl⟩ : e = e' ∧ l = l' ∧ f = f' := by
      have := Except.ok.inj h'; simpa using this
    exact hv g1 g2 g3'.le g4 h1 h2
  cases tp with
  | some t =>
    obtain ⟨e, l, f, h, h'⟩ := mean_res_some ext rng kind p hp hb lgm t_obs key lgt0 t
    exact ⟨e, l, f, _, h, key' t e l f h' g5.1 g5.2⟩
  | none =>
    obtain ⟨t, e, l, f, h, h', ht⟩ := mean_res_none ext rng hext kind p hp hb lgm t_obs g3' key lgt0
    obtain ⟨t', ht', hc, hs⟩ := draw_t_peak_ok ext rng hext kind p hp hb lgm t_obs g3' key lgt0
    rw [ht] at ht'
    obtain ⟨rfl, -⟩ := RandM.ok_inj ht'
    refine ⟨e, l, f, _, h, key' t' e l f h' ?_ ?_⟩
    · cases kind
      · have := hc rfl; norm_num at *; linarith
      · have := hs rfl; norm_num at *; linarith
    · cases kind
      · have := hc rfl; norm_num at *; linarith
      · have := hs rfl; norm_num at *; linarith

/-! ## Arrays -/

theorem stack_rows (rows : List (MahParams ℝ)) : (stack rows).rows = rows := by
  induction rows with
  | nil => rfl
  | cons r rows ih =>
    have := ih
    simp only [stack, MahPopArrays.rows] at this ⊢
    simp only [List.map_cons, List.zip_cons_cons, List.zipWith_cons_cons, this]

/-- All five arrays have `n` entries. -/
def Aligned (a : MahPopArrays) (n : ℕ) : Prop :=
  a.logm0.length = n ∧ a.logtc.length = n ∧ a.early_index.length = n ∧ a.late_index.length = n ∧
    a.t_peak.length = n

theorem stack_aligned (rows : List (MahParams ℝ)) : Aligned (stack rows) rows.length := by
  simp [Aligned, stack]

theorem whereArr_map {β γ : Type} (g : β → γ) (m : List Bool) (x y : List β) :
    whereArr m (x.map g) (y.map g) = (whereArr m x y).map g := by
  induction m generalizing x y with
  | nil => simp [whereArr]
  | cons b m ih =>
    cases x with
    | nil => simp [whereArr]
    | cons a x =>
      cases y with
      | nil => simp [whereArr]
      | cons c y =>
        have := ih x y
        simp only [whereArr] at this ⊢
        simp only [List.map_cons, List.zip_cons_cons, List.zipWith_cons_cons, this]
        cases b <;> rfl

theorem whereArr_length {β : Type} (m : List Bool) (x y : List β) (n : ℕ) (hm : m.length = n)
    (hx : x.length = n) (hy : y.length = n) : (whereArr m x y).length = n := by
  simp [whereArr, hm, hx, hy]

theorem whereArr_getElem {β : Type} {m : List Bool} {x y : List β} {i : ℕ} {b : Bool} {u v : β}
    (hm : m[i]? = some b) (hx : x[i]? = some u) (hy : y[i]? = some v) :
    (whereArr m x y)[i]? = some (if b then u else v) := by
  have hz : (x.zip y)[i]? = some (u, v) := List.getElem?_zip_eq_some.2 ⟨hx, hy⟩
  simp [whereArr, List.getElem?_zipWith, hm, hz]

/-- Selecting each array by the same mask selects whole rows. -/
theorem select_stack (m : List Bool) (x y : List (MahParams ℝ)) :
    mc_select_diffmah_params (stack x) (stack y) m = stack (whereArr m x y) := by
  simp only [mc_select_diffmah_params, stack, whereArr_map]

theorem below_getElem {u f : List ℝ} {i : ℕ} {a b : ℝ} (hu : u[i]? = some a) (hf : f[i]? = some b) :
    ∃ c, (below u f)[i]? = some c ∧ (c = true ↔ a < b) := by
  refine ⟨_, by simp [below, List.getElem?_zipWith, hu, hf]; rfl, by simp⟩

theorem below_length (u f : List ℝ) (h : u.length = f.length) : (below u f).length = f.length := by
  simp [below, h]

/-! ## C59 -/

/-- The data flow of `mc_diffmah_pop`: one call per halo, each with its own key, then one selection. -/
theorem pop_inv {kind : Kind} {p : NT ℝ} {lgm t_obs : List ℝ} {key : Key} {lgt0 : ℝ}
    {tp : Option (List ℝ)} {pop : HaloPop} {ks : List Key}
    (h : mc_diffmah_pop ext rng kind p lgm t_obs key lgt0 tp = Except.ok (pop, ks)) :
    ∃ (rows : List (MahParams ℝ × MahParams ℝ × ℝ)) (kss : List (List Key)),
      rows.length = lgm.length ∧ kss.length = lgm.length ∧
      ks = kss.flatten ++ [Key.child key 2 0] ∧
      (∀ i < lgm.length, ∃ r k, rows[i]? = some r ∧ kss[i]? = some k ∧
        mc_diffmah_params_single ext rng kind p (lgm.getD i 0) (t_obs.getD i 0)
          (Key.child (Key.child key 2 1) lgm.length i) lgt0 (tp.map fun t => t.getD i 0)
          = Except.ok (r, k)) ∧
      pop.mah_params_early = stack (rows.map fun r => r.1) ∧
      pop.mah_params_late = stack (rows.map fun r => r.2.1) ∧
      pop.frac_early_cens = rows.map (fun r => r.2.2) ∧
      pop.mc_early = below (rng.uniforms (Key.child key 2 0) lgm.length) (rows.map fun r => r.2.2) ∧
      pop.mah_params = stack (whereArr pop.mc_early (rows.map fun r => r.1) (rows.map fun r => r.2.1)) ∧
      t_obs.length = lgm.length ∧ (∀ t ∈ tp, t.length = lgm.length) := by
  unfold mc_diffmah_pop at h
  by_cases hc : t_obs.length = lgm.length ∧ (∀ t ∈ tp, t.length = lgm.length)
  · have h' := (if_pos hc).symm.trans h
    obtain ⟨rows, k1, k2, h1, h2, rfl⟩ := RandM.bind_inv h'
    obtain ⟨u, k3, k4, h3, h4, rfl⟩ := RandM.bind_inv h2
    obtain ⟨rfl, rfl⟩ := RandM.draw_inv h3
    obtain ⟨rfl, rfl⟩ := RandM.pure_inv h4
    obtain ⟨kss, rfl, l1, l2, h5⟩ := RandM.all_inv h1
    simp only [List.length_map, List.length_range] at l1 l2
    refine ⟨rows, kss, l2, l1, rfl, ?_, rfl, rfl, rfl, ?_, ?_, hc.1, hc.2⟩
    · intro i hi
      obtain ⟨r, k, hr, hk, he⟩ := h5 i _ (by rw [List.getElem?_map, List.getElem?_range hi]; rfl)
      beta_reduce at he
      rw [Key.split_getD _ _ hi] at he
      exact ⟨r, k, hr, hk, he⟩
    · simp only [List.length_map, l2]
    · exact select_stack _ _ _
  · have h' := (if_neg hc).symm.trans h
    cases h'

/-- C59. In every returned population, all arrays have one entry per halo, halo `i` is exactly row
`i` of the early sample if `mc_early[i]` and exactly row `i` of the late sample otherwise, and
`mc_early[i]` says whether the halo's uniform draw is below its early fraction. -/
theorem C59_early_or_late (hr : rng.Lawful) (kind : Kind) (p : NT ℝ) (lgm t_obs : List ℝ) (key : Key)
    (lgt0 : ℝ) (tp : Option (List ℝ)) (pop : HaloPop) (ks : List Key)
    (h : mc_diffmah_pop ext rng kind p lgm t_obs key lgt0 tp = Except.ok (pop, ks)) :
    Aligned pop.mah_params lgm.length ∧ Aligned pop.mah_params_early lgm.length ∧
    Aligned pop.mah_params_late lgm.length ∧ pop.mc_early.length = lgm.length ∧
    ∀ i < lgm.length, ∃ (b : Bool) (E L : MahParams ℝ) (f u : ℝ), pop.mc_early[i]? = some b ∧
      pop.mah_params_early.rows[i]? = some E ∧ pop.mah_params_late.rows[i]? = some L ∧
      pop.mah_params.rows[i]? = some (if b then E else L) ∧
      pop.frac_early_cens[i]? = some f ∧
      (rng.uniforms (Key.child key 2 0) lgm.length)[i]? = some u ∧ (b = true ↔ u < f) := by
  obtain ⟨rows, kss, l1, -, -, h1, h2, h3, h4, h5, h6, -⟩ := pop_inv ext rng h
  have hul : (rng.uniforms (Key.child key 2 0) lgm.length).length = lgm.length := hr.uniforms_length _ _
  have hml : pop.mc_early.length = lgm.length := by
    rw [h5, below_length _ _ (by simp [hul, l1])]; simp [l1]
  refine ⟨?_, ?_, ?_, hml, ?_⟩
  · rw [h6]
    have := stack_aligned (whereArr pop.mc_early (rows.map fun r => r.1) (rows.map fun r => r.2.1))
    rwa [whereArr_length _ _ _ lgm.length hml (by simp [l1]) (by simp [l1])] at this
  · rw [h2, ← l1]; simpa using stack_aligned (rows.map fun r => r.1)
  · rw [h3, ← l1]; simpa using stack_aligned (rows.map fun r => r.2.1)
  · intro i hi
    obtain ⟨r, k, hr', -, -⟩ := h1 i hi
    have hu : (rng.uniforms (Key.child key 2 0) lgm.length)[i]?
        = some ((rng.uniforms (Key.child key 2 0) lgm.length)[i]'(by omega)) :=
      List.getElem?_eq_getElem _
    have hE : (rows.map fun r => r.1)[i]? = some r.1 := by simp [hr']
    have hL : (rows.map fun r => r.2.1)[i]? = some r.2.1 := by simp [hr']
    have hf : (rows.map fun r => r.2.2)[i]? = some r.2.2 := by simp [hr']
    obtain ⟨b, hb, hb'⟩ := below_getElem hu hf
    rw [← h5] at hb
    refine ⟨b, r.1, r.2.1, r.2.2, _, hb, ?_, ?_, ?_, ?_, hu, hb'⟩
    · rw [h2, stack_rows]; exact hE
    · rw [h3, stack_rows]; exact hL
    · rw [h6, stack_rows]; exact whereArr_getElem hb hE hL
    · rw [h4]; exact hf

/-! ## C58, C60 -/

/-- The hypothesis of the population theorems: every halo has valid mean parameters. -/
def MeansValid (kind : Kind) (p : NT ℝ) (lgm t_obs : List ℝ) (key : ℕ → Key) (lgt0 : ℝ)
    (tp : Option (List ℝ)) : Prop :=
  ∀ i < lgm.length, ∃ e l f ks, mean_res ext rng kind p (lgm.getD i 0) (t_obs.getD i 0) (key i) lgt0
      (tp.map fun t => t.getD i 0) = Except.ok ((e, l, f), ks) ∧ Spec.Valid e ∧ Spec.Valid l

/-- The population call succeeds when every halo's mean parameters are valid. -/
theorem pop_ok (hr : rng.Lawful) (kind : Kind) (p : NT ℝ) (hp : p.map Prod.fst = FIELDS)
    (hb : AllInBounds p) (lgm t_obs : List ℝ) (key : Key) (lgt0 : ℝ) (tp : Option (List ℝ))
    (h1 : t_obs.length = lgm.length) (h2 : ∀ t ∈ tp, t.length = lgm.length)
    (hm : MeansValid ext rng kind p lgm t_obs (fun i => Key.child (Key.child key 2 1) lgm.length i) lgt0 tp) :
    ∃ pop ks, mc_diffmah_pop ext rng kind p lgm t_obs key lgt0 tp = Except.ok (pop, ks) := by
  have hs : ∀ i, ∃ r k, i < lgm.length → mc_diffmah_params_single ext rng kind p (lgm.getD i 0)
      (t_obs.getD i 0) (((Key.child key 2 1).split lgm.length).getD i (Key.child key 2 1)) lgt0
      (tp.map fun t => t.getD i 0) = Except.ok (r, k) := by
    intro i
    by_cases hi : i < lgm.length
    · obtain ⟨e, l, f, ks, h, he, hl⟩ := hm i hi
      obtain ⟨E, L, C, h3, -⟩ := C58_single ext rng hr kind p hp hb _ _ _ _ _ e l f ks h he hl
      rw [Key.split_getD _ _ hi]
      exact ⟨_, _, fun _ => h3⟩
    · exact ⟨(⟨0, 0, 0, 0, 0⟩, ⟨0, 0, 0, 0, 0⟩, 0), [], fun h => absurd h hi⟩
  choose v k hvk using hs
  have hall := RandM.all_of (List.range lgm.length) _ v k fun i hi => hvk i (List.mem_range.1 hi)
  have hd := RandM.draw_eq (Key.child key 2 0) (rng.uniforms (Key.child key 2 0)
    (((List.range lgm.length).map v).map fun r => r.2.2).length)
  refine ⟨⟨mc_select_diffmah_params (stack (((List.range lgm.length).map v).map fun r => r.1))
      (stack (((List.range lgm.length).map v).map fun r => r.2.1))
      (below (rng.uniforms (Key.child key 2 0)
        (((List.range lgm.length).map v).map fun r => r.2.2).length)
        (((List.range lgm.length).map v).map fun r => r.2.2)),
    stack (((List.range lgm.length).map v).map fun r => r.1),
    stack (((List.range lgm.length).map v).map fun r => r.2.1),
    ((List.range lgm.length).map v).map fun r => r.2.2,
    below (rng.uniforms (Key.child key 2 0)
        (((List.range lgm.length).map v).map fun r => r.2.2).length)
        (((List.range lgm.length).map v).map fun r => r.2.2)⟩,
    (List.range lgm.length).flatMap k ++ ([Key.child key 2 0] ++ []), ?_⟩
  unfold mc_diffmah_pop
  refine (if_pos ⟨h1, h2⟩).trans ?_
  refine RandM.bind_of hall ?_
  exact RandM.bind_of hd rfl

/-- C58. Populations: whenever every halo's mean parameters are valid, the call succeeds, and every
returned halo has valid parameters (strictly inside the bounds, late < early), as have all early and
late draws. -/
theorem C58_population (hr : rng.Lawful) (kind : Kind) (p : NT ℝ) (hp : p.map Prod.fst = FIELDS)
    (hb : AllInBounds p) (lgm t_obs : List ℝ) (key : Key) (lgt0 : ℝ) (tp : Option (List ℝ))
    (h1 : t_obs.length = lgm.length) (h2 : ∀ t ∈ tp, t.length = lgm.length)
    (hm : MeansValid ext rng kind p lgm t_obs (fun i => Key.child (Key.child key 2 1) lgm.length i) lgt0 tp) :
    ∃ pop ks, mc_diffmah_pop ext rng kind p lgm t_obs key lgt0 tp = Except.ok (pop, ks) ∧
      pop.mah_params.rows.length = lgm.length ∧
      (∀ x ∈ pop.mah_params.rows, Spec.Valid x) ∧ (∀ x ∈ pop.mah_params_early.rows, Spec.Valid x) ∧
      (∀ x ∈ pop.mah_params_late.rows, Spec.Valid x) := by
  obtain ⟨pop, ks, h⟩ := pop_ok ext rng hr kind p hp hb lgm t_obs key lgt0 tp h1 h2 hm
  obtain ⟨-, -, -, hml, h59⟩ := C59_early_or_late ext rng hr kind p lgm t_obs key lgt0 tp pop ks h
  obtain ⟨rows, kss, l1, -, -, g1, g2, g3, g4, g5, g6, -⟩ := pop_inv ext rng h
  have hv : ∀ (i : ℕ) r, rows[i]? = some r → Spec.Valid r.1 ∧ Spec.Valid r.2.1 := by
    intro i r hr'
    have hi : i < lgm.length := by
      rw [← l1]; exact (List.getElem?_eq_some_iff.1 hr').1
    obtain ⟨e, l, f, ks', h', he, hl⟩ := hm i hi
    obtain ⟨E, L, C, h3, -, hE, hL⟩ := C58_single ext rng hr kind p hp hb _ _ _ _ _ e l f ks' h' he hl
    obtain ⟨r', k, hr2, -, h4⟩ := g1 i hi
    rw [hr'] at hr2
    cases hr2
    rw [h3] at h4
    obtain ⟨rfl, -⟩ := RandM.ok_inj h4
    exact ⟨hE.valid, hL.valid⟩
  have hve : ∀ x ∈ pop.mah_params_early.rows, Spec.Valid x := by
    rw [g2, stack_rows]
    intro x hx
    obtain ⟨r, hr', rfl⟩ := List.mem_map.1 hx
    obtain ⟨i, hi⟩ := List.mem_iff_getElem?.1 hr'
    exact (hv i r hi).1
  have hvl : ∀ x ∈ pop.mah_params_late.rows, Spec.Valid x := by
    rw [g3, stack_rows]
    intro x hx
    obtain ⟨r, hr', rfl⟩ := List.mem_map.1 hx
    obtain ⟨i, hi⟩ := List.mem_iff_getElem?.1 hr'
    exact (hv i r hi).2
  have hlen : pop.mah_params.rows.length = lgm.length := by
    rw [g6, stack_rows]; exact whereArr_length _ _ _ _ hml (by simp [l1]) (by simp [l1])
  refine ⟨pop, ks, h, hlen, ?_, hve, hvl⟩
  intro x hx
  obtain ⟨i, hi⟩ := List.mem_iff_getElem?.1 hx
  obtain ⟨b, E, L, f, u, -, hE, hL, hx', -⟩ := h59 i (by
    rw [← hlen]; exact (List.getElem?_eq_some_iff.1 hi).1)
  rw [hi] at hx'
  cases hx'
  cases b
  · exact hvl _ (List.mem_of_getElem? hL)
  · exact hve _ (List.mem_of_getElem? hE)

theorem good_means (hext : ext.Lawful) (kind : Kind) (p : NT ℝ) (hp : p.map Prod.fst = FIELDS)
    (hb : AllInBounds p) (lgm t_obs : List ℝ) (key : ℕ → Key) (lgt0 : ℝ) (tp : Option (List ℝ))
    (hg : ∀ i < lgm.length, GoodInput kind (lgm.getD i 0) (t_obs.getD i 0) lgt0 (tp.map fun t => t.getD i 0)) :
    MeansValid ext rng kind p lgm t_obs key lgt0 tp :=
  fun i hi => good_mean ext rng hext kind p hp hb _ _ _ _ _ (hg i hi)

/-- C58. In particular every halo is valid, for every random stream and all in-bounds population
parameters, when the observed masses are in [4.5, 13.4], the observed times in [0.5, 15], and the
peak times given in (0.05, 20), or (centrals without peak times) the age of the Universe between 1
and 20. -/
theorem C58_in_range (hext : ext.Lawful) (hr : rng.Lawful) (kind : Kind) (p : NT ℝ)
    (hp : p.map Prod.fst = FIELDS) (hb : AllInBounds p) (lgm t_obs : List ℝ) (key : Key) (lgt0 : ℝ)
    (tp : Option (List ℝ)) (h1 : t_obs.length = lgm.length) (h2 : ∀ t ∈ tp, t.length = lgm.length)
    (hg : ∀ i < lgm.length, GoodInput kind (lgm.getD i 0) (t_obs.getD i 0) lgt0 (tp.map fun t => t.getD i 0)) :
    ∃ pop ks, mc_diffmah_pop ext rng kind p lgm t_obs key lgt0 tp = Except.ok (pop, ks) ∧
      pop.mah_params.rows.length = lgm.length ∧ (∀ x ∈ pop.mah_params.rows, Spec.Valid x) := by
  obtain ⟨pop, ks, h, h3, h4, -⟩ := C58_population ext rng hr kind p hp hb lgm t_obs key lgt0 tp h1 h2
    (good_means ext rng hext kind p hp hb lgm t_obs _ lgt0 tp hg)
  exact ⟨pop, ks, h, h3, h4⟩

theorem getElem?_of_getD {l : List ℝ} {i : ℕ} (h : i < l.length) : l[i]? = some (l.getD i 0) := by
  simp [h]

/-- C60. When peak times in (0.05, 20) are supplied and the mean parameters are valid, they are the
peak times of the returned haloes, whichever of the early and late draws is selected. -/
theorem C60_t_peak_honoured (hr : rng.Lawful) (kind : Kind) (p : NT ℝ) (hp : p.map Prod.fst = FIELDS)
    (hb : AllInBounds p) (lgm t_obs tp : List ℝ) (key : Key) (lgt0 : ℝ)
    (h1 : t_obs.length = lgm.length) (h2 : tp.length = lgm.length)
    (hm : MeansValid ext rng kind p lgm t_obs (fun i => Key.child (Key.child key 2 1) lgm.length i)
      lgt0 (some tp)) :
    ∃ pop ks, mc_diffmah_pop ext rng kind p lgm t_obs key lgt0 (some tp) = Except.ok (pop, ks) ∧
      pop.mah_params.t_peak = tp ∧ pop.mah_params_early.t_peak = tp ∧ pop.mah_params_late.t_peak = tp := by
  obtain ⟨pop, ks, h⟩ := pop_ok ext rng hr kind p hp hb lgm t_obs key lgt0 (some tp) h1
    (by simpa using h2) hm
  obtain ⟨-, -, -, hml, h59⟩ := C59_early_or_late ext rng hr kind p lgm t_obs key lgt0 _ pop ks h
  obtain ⟨rows, kss, l1, -, -, g1, g2, g3, g4, g5, g6, -⟩ := pop_inv ext rng h
  have hv : ∀ (i : ℕ) r, rows[i]? = some r → r.1.t_peak = tp.getD i 0 ∧ r.2.1.t_peak = tp.getD i 0 := by
    intro i r hr'
    have hi : i < lgm.length := by
      rw [← l1]; exact (List.getElem?_eq_some_iff.1 hr').1
    obtain ⟨e, l, f, ks', h', he, hl⟩ := hm i hi
    obtain ⟨E, L, C, h3, -, hE, hL⟩ := C58_single ext rng hr kind p hp hb _ _ _ _ _ e l f ks' h' he hl
    obtain ⟨r', k, hr2, -, h4⟩ := g1 i hi
    rw [hr'] at hr2
    cases hr2
    rw [h3] at h4
    obtain ⟨rfl, -⟩ := RandM.ok_inj h4
    obtain ⟨e', l', f', hmean, h5⟩ := mean_res_some ext rng kind p hp hb (lgm.getD i 0)
      (t_obs.getD i 0) (Key.child (Key.child key 2 1) lgm.length i) lgt0 (tp.getD i 0)
    have h6 : mean_res ext rng kind p (lgm.getD i 0) (t_obs.getD i 0)
      (Key.child (Key.child key 2 1) lgm.length i) lgt0 (some (tp.getD i 0))
        = Except.ok ((e, l, f), ks') := h'
    rw [h6] at hmean
    obtain ⟨hel, -⟩ := RandM.ok_inj hmean
    obtain ⟨rfl, rfl, rfl⟩ : e' = e ∧ l' = l ∧ f' = f := by simpa using hel
    obtain ⟨e'', l'', f'', h7, -, -, -, he'', hl''⟩ := mean_t_peak_ok hp hb kind (lgm.getD i 0)
      (t_obs.getD i 0) (tp.getD i 0)
    rw [h5] at h7
    obtain ⟨rfl, rfl, rfl⟩ : e' = e'' ∧ l' = l'' ∧ f' = f'' := by simpa using Except.ok.inj h7
    exact ⟨hE.t_peak.trans he''.t_peak, hL.t_peak.trans hl''.t_peak⟩
  have hcol : ∀ g : MahParams ℝ × MahParams ℝ × ℝ → MahParams ℝ,
      (∀ (i : ℕ) r, rows[i]? = some r → (g r).t_peak = tp.getD i 0) →
      (stack (rows.map g)).t_peak = tp := by
    intro g hg
    apply List.ext_getElem?
    intro i
    by_cases hi : i < lgm.length
    · obtain ⟨r, k, hr', -⟩ := g1 i hi
      have := hg i r hr'
      simp only [stack, List.map_map, List.getElem?_map, hr', Option.map_some, Function.comp]
      rw [this, getElem?_of_getD (by omega)]
    · rw [List.getElem?_eq_none (show tp.length ≤ i by omega), List.getElem?_eq_none]
      simp only [stack, List.length_map, l1]; omega
  have hE := hcol (fun r => r.1) fun i r h => (hv i r h).1
  have hL := hcol (fun r => r.2.1) fun i r h => (hv i r h).2
  refine ⟨pop, ks, h, ?_, by rw [g2]; exact hE, by rw [g3]; exact hL⟩
  rw [g6]
  apply List.ext_getElem?
  intro i
  by_cases hi : i < lgm.length
  · obtain ⟨r, k, hr', -⟩ := g1 i hi
    obtain ⟨b, hb'⟩ : ∃ b, pop.mc_early[i]? = some b := ⟨_, List.getElem?_eq_getElem (by omega)⟩
    have hw := whereArr_getElem (x := rows.map fun r => r.1) (y := rows.map fun r => r.2.1) hb'
      (by simp [hr']; rfl) (by simp [hr']; rfl)
    simp only [stack, List.getElem?_map, hw, Option.map_some]
    rw [getElem?_of_getD (by omega)]
    cases b
    · exact congrArg some (hv i r hr').2
    · exact congrArg some (hv i r hr').1
  · rw [List.getElem?_eq_none (show tp.length ≤ i by omega), List.getElem?_eq_none]
    simp only [stack, List.length_map]
    rw [whereArr_length _ _ _ lgm.length hml (by simp [l1]) (by simp [l1])]; omega

/-- C60. In range, the mean parameters are valid, so the supplied peak times are honoured. -/
theorem C60_in_range (hext : ext.Lawful) (hr : rng.Lawful) (kind : Kind) (p : NT ℝ)
    (hp : p.map Prod.fst = FIELDS) (hb : AllInBounds p) (lgm t_obs tp : List ℝ) (key : Key) (lgt0 : ℝ)
    (h1 : t_obs.length = lgm.length) (h2 : tp.length = lgm.length)
    (h3 : ∀ x ∈ lgm, 4.5 ≤ x ∧ x ≤ 13.4) (h4 : ∀ x ∈ t_obs, 0.5 ≤ x ∧ x ≤ 15)
    (h5 : ∀ x ∈ tp, 0.05 < x ∧ x < 20) :
    ∃ pop ks, mc_diffmah_pop ext rng kind p lgm t_obs key lgt0 (some tp) = Except.ok (pop, ks) ∧
      pop.mah_params.t_peak = tp := by
  have mem : ∀ (l : List ℝ) i, i < l.length → l.getD i 0 ∈ l := fun l i hi => by
    rw [List.getD_eq_getElem _ _ hi]; exact List.getElem_mem hi
  obtain ⟨pop, ks, h, h6, -⟩ := C60_t_peak_honoured ext rng hr kind p hp hb lgm t_obs tp key lgt0 h1 h2
    (good_means ext rng hext kind p hp hb lgm t_obs _ lgt0 _ fun i hi =>
      ⟨(h3 _ (mem lgm i hi)).1, (h3 _ (mem lgm i hi)).2, (h4 _ (mem t_obs i (by omega))).1,
        (h4 _ (mem t_obs i (by omega))).2, h5 _ (mem tp i (by omega))⟩)
  exact ⟨pop, ks, h, h6⟩

/-- The hypotheses of C58 and C60 can be met, with populations of any size. -/
example (n : ℕ) : ∃ (ext : Ext) (rng : Rng) (p : NT ℝ) (lgm t_obs tp : List ℝ), ext.Lawful ∧ rng.Lawful ∧
    p.map Prod.fst = FIELDS ∧ AllInBounds p ∧ lgm.length = n ∧ t_obs.length = n ∧ tp.length = n ∧
    (∀ i < n, GoodInput .cens (lgm.getD i 0) (t_obs.getD i 0) 1 none) ∧
    (∀ i < n, GoodInput .sats (lgm.getD i 0) (t_obs.getD i 0) 1 none) ∧
    (∀ i < n, GoodInput .cens (lgm.getD i 0) (t_obs.getD i 0) 1 (some (tp.getD i 0))) := by
  obtain ⟨ext, hext⟩ := ext_lawful_exists
  obtain ⟨p, hp, hb⟩ := exists_allInBounds
  refine ⟨ext, ⟨fun _ => 0, fun _ n => List.replicate n 0, fun _ m _ => m⟩, p, List.replicate n 12,
    List.replicate n 10, List.replicate n 3, hext, ⟨?_, ?_, ?_, ?_⟩, hp, hb, by simp, by simp, by simp,
    ?_, ?_, ?_⟩
  · simp
  · simp
  · intro k n x hx; rw [List.eq_of_mem_replicate hx]; norm_num
  · simp
  all_goals
    intro i hi
    simp only [List.getD_replicate _ hi]
    norm_num [GoodInput]

end Diffmah

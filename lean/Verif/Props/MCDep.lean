import Verif.Props.Moments

/-!
# What the population predictions depend on (C84), and the law of the scatter (C83)
-/

set_option maxRecDepth 10000

namespace Diffmah

open Pop TPeak PopParams MC

variable (ext : Ext) (rng : Rng)

/-! ## C83 -/

/-- C83. A halo drawn around valid means, in the unbounded space: its first four parameters are the
generator's multivariate normal draw, made with the halo's own key (one key for the early draw,
another for the late one), around the unbounded mean parameters, with the symmetric
positive-definite covariance of the observed mass. The peak time is not scattered. -/
theorem C83_scatter_is_normal (hr : rng.Lawful) (kind : Kind) (p : NT ℝ)
    (hp : p.map Prod.fst = FIELDS) (hb : AllInBounds p) (lgm t_obs : ℝ) (key : Key) (lgt0 : ℝ)
    (tp : Option ℝ) (e l : MahParams ℝ) (f : ℝ) (ks : List Key)
    (hmean : mean_res ext rng kind p lgm t_obs key lgt0 tp = Except.ok ((e, l, f), ks))
    (he : Spec.Valid e) (hl : Spec.Valid l) :
    ∃ (E L : MahParams ℝ) (C : Matrix (Fin 4) (Fin 4) ℝ) (k0 k1 : Key) (ks' : List Key),
      mc_diffmah_params_single ext rng kind p lgm t_obs key lgt0 tp = Except.ok ((E, L, f), ks') ∧
      get_diffmahpop_cov p lgm = .ok C ∧ C.IsSymm ∧ C.PosDef ∧ k0 ≠ k1 ∧
      (let u := get_unbounded_mah_params e
       let U := get_unbounded_mah_params E
       rng.mvn k0 [u.u_logm0, u.u_logtc, u.u_early_index, u.u_late_index] C
         = [U.u_logm0, U.u_logtc, U.u_early_index, U.u_late_index] ∧ U.u_t_peak = u.u_t_peak) ∧
      (let u := get_unbounded_mah_params l
       let U := get_unbounded_mah_params L
       rng.mvn k1 [u.u_logm0, u.u_logtc, u.u_early_index, u.u_late_index] C
         = [U.u_logm0, U.u_logtc, U.u_early_index, U.u_late_index] ∧ U.u_t_peak = u.u_t_peak) := by
  obtain ⟨E, L, C, h, hC, hE, hL⟩ := C58_single ext rng hr kind p hp hb lgm t_obs key lgt0 tp e l f ks
    hmean he hl
  obtain ⟨C', s, hC', hsym, hpd, -⟩ := C51_covariance p (Or.inr hp) hb.2.2.2.2.2.2.2.2 lgm
  rw [hC] at hC'
  cases hC'
  have tpk : ∀ a b : MahParams ℝ, a.t_peak = b.t_peak →
      (get_unbounded_mah_params a).u_t_peak = (get_unbounded_mah_params b).u_t_peak := by
    intro a b hab
    show get_unbounded_diffmah_param a.t_peak MAH_PBOUNDS.t_peak = get_unbounded_diffmah_param b.t_peak MAH_PBOUNDS.t_peak
    rw [hab]
  exact ⟨E, L, C, Key.child key 2 0, Key.child key 2 1, _, h, hC, hsym, hpd, by simp,
    ⟨hE.normal, tpk _ _ hE.t_peak⟩, ⟨hL.normal, tpk _ _ hL.t_peak⟩⟩

/-- The hypotheses of C83 can be met. -/
example : ∃ (ext : Ext) (rng : Rng) (p : NT ℝ) (e l : MahParams ℝ) (f : ℝ) (ks : List Key), rng.Lawful ∧
    p.map Prod.fst = FIELDS ∧ AllInBounds p ∧
    mean_res ext rng .cens p 12 10 (Key.root 0) 1 none = Except.ok ((e, l, f), ks) ∧
    Spec.Valid e ∧ Spec.Valid l := by
  obtain ⟨ext, hext⟩ := ext_lawful_exists
  obtain ⟨p, hp, hb⟩ := exists_allInBounds
  have hr : (⟨fun _ => 0, fun _ n => List.replicate n 0, fun _ m _ => m⟩ : Rng).Lawful := by
    refine ⟨by simp, by simp, ?_, by simp⟩
    intro k n x hx; rw [List.eq_of_mem_replicate hx]; norm_num
  obtain ⟨e, l, f, ks, h, he, hl⟩ := good_mean ext _ hext .cens p hp hb 12 10 (Key.root 0) 1 none
    (by norm_num [GoodInput])
  exact ⟨ext, _, p, e, l, f, ks, hr, hp, hb, h, he, hl⟩

/-! ## C84 -/

/-- The two parameter sets have the same values under all names ending in `sfx`. -/
def SameSfx (sfx : String) (p q : NT ℝ) : Prop :=
  ∀ base : String, p.lookup (base ++ sfx) = q.lookup (base ++ sfx)

theorem SameSfx.getattr {sfx : String} {p q : NT ℝ} (h : SameSfx sfx p q) (base : String) :
    p.getattr (base ++ sfx) = q.getattr (base ++ sfx) := by
  unfold NT.getattr; rw [h base]

theorem pred_logtc_congr {sfx : String} {p q : NT ℝ} (h : SameSfx sfx p q) (lgm t tp : ℝ) :
    pred_logtc_kern sfx p lgm t tp = pred_logtc_kern sfx q lgm t tp := by
  unfold pred_logtc_kern logtc_get_c0
  simp only [h.getattr]

theorem pred_early_index_congr {sfx : String} {p q : NT ℝ} (h : SameSfx sfx p q) (lgm t tp : ℝ) :
    pred_early_index_kern sfx p lgm t tp = pred_early_index_kern sfx q lgm t tp := by
  unfold pred_early_index_kern
  simp only [h.getattr]

theorem pred_late_index_congr {sfx : String} {p q : NT ℝ} (h : SameSfx sfx p q) (lgm : ℝ) :
    pred_late_index_kern sfx p lgm = pred_late_index_kern sfx q lgm := by
  unfold pred_late_index_kern
  simp only [h.getattr]

theorem pred_logm0_congr {sfx : String} {p q : NT ℝ} (h : SameSfx sfx p q) (lgm t tp : ℝ) :
    pred_logm0_kern sfx p lgm t tp = pred_logm0_kern sfx q lgm t tp := by
  unfold pred_logm0_kern pred_c0_kern pred_c1_kern
  simp only [h.getattr]

/-- Looking a name up in a component is looking it up in the full set. -/
theorem component_lookup {blocks : List (NT ℝ)} (hn : (NT.fields blocks.flatten).Nodup) {q : NT ℝ}
    (hq : q ∈ blocks) (n : String) :
    q.lookup n = if n ∈ q.fields then List.lookup n blocks.flatten else none := by
  split
  · rename_i h; exact lookup_block hn hq h
  · rename_i h; exact NT.lookup_none h

theorem components_same {p q : NT ℝ} (hp : p.map Prod.fst = FIELDS) (hq : q.map Prod.fst = FIELDS) :
    ∃ c d, get_component_model_params p = .ok c ∧ get_component_model_params q = .ok d ∧
      ∀ sfx, SameSfx sfx p q → SameSfx sfx c.logm0 d.logm0 ∧ SameSfx sfx c.logm0_sats d.logm0_sats ∧
        SameSfx sfx c.logtc d.logtc ∧ SameSfx sfx c.early_index d.early_index ∧
        SameSfx sfx c.late_index d.late_index := by
  obtain ⟨c, hc, hfl, hnames⟩ := C50_partition p hp
  obtain ⟨d, hd, hfl', hnames'⟩ := C50_partition q hq
  have hn : ∀ (x : NT ℝ) (c : ComponentParams ℝ), x.map Prod.fst = FIELDS → c.toList.flatten = x →
      (NT.fields c.toList.flatten).Nodup := by
    intro x c h1 h2
    rw [h2]
    show (x.map Prod.fst).Nodup
    rw [h1, FIELDS_eq]; exact NAMES_nodup
  have hnc := hn p c hp hfl
  have hnd := hn q d hq hfl'
  have hnn := hnames.trans hnames'.symm
  simp only [ComponentParams.toList, List.map_cons, List.map_nil, List.cons.injEq, and_true] at hnn
  obtain ⟨n1, n2, n3, n4, n5, n6, n7, n8, n9⟩ := hnn
  have main : ∀ (sfx : String) (a b : NT ℝ), SameSfx sfx p q → a ∈ c.toList → b ∈ d.toList →
      a.map Prod.fst = b.map Prod.fst → SameSfx sfx a b := by
    intro sfx a b h ha hb hab base
    have hab' : NT.fields a = NT.fields b := hab
    rw [component_lookup hnc ha, component_lookup hnd hb, hfl, hfl', h base, hab']
  refine ⟨c, d, hc, hd, fun sfx h => ⟨?_, ?_, ?_, ?_, ?_⟩⟩
  · exact main sfx _ _ h (by simp [ComponentParams.toList]) (by simp [ComponentParams.toList]) n3
  · exact main sfx _ _ h (by simp [ComponentParams.toList]) (by simp [ComponentParams.toList]) n4
  · exact main sfx _ _ h (by simp [ComponentParams.toList]) (by simp [ComponentParams.toList]) n5
  · exact main sfx _ _ h (by simp [ComponentParams.toList]) (by simp [ComponentParams.toList]) n6
  · exact main sfx _ _ h (by simp [ComponentParams.toList]) (by simp [ComponentParams.toList]) n7

/-- C84. The mean early-type parameters depend only on the population parameters whose names end in
`_early` and `_alpha` (centrals), and `_early_sats`, `_early` and `_alpha` (satellites); changing any
other parameter changes nothing. -/
theorem C84_early_depends (kind : Kind) (p q : NT ℝ) (hp : p.map Prod.fst = FIELDS)
    (hq : q.map Prod.fst = FIELDS) (h1 : SameSfx "_early" p q) (h2 : SameSfx "_alpha" p q)
    (h3 : kind = .sats → SameSfx "_early_sats" p q) (lgm t_obs tp : ℝ) :
    mean_diffmah_params_early_t_peak kind p lgm t_obs tp
      = mean_diffmah_params_early_t_peak kind q lgm t_obs tp := by
  obtain ⟨c, d, hc, hd, h⟩ := components_same hp hq
  unfold mean_diffmah_params_early_t_peak
  simp only [hc, hd, bind, Except.bind]
  unfold pred_early_index_early pred_late_index_early
  rw [pred_logtc_congr (h _ h1).2.2.1, pred_early_index_congr (h _ h2).2.2.2.1,
    pred_late_index_congr (h _ h2).2.2.2.2]
  cases kind
  · unfold pred_logm0_early pred_logm0_kern_early
    simp only
    rw [pred_logm0_congr (h _ h1).1]
  · unfold pred_logm0_early pred_logm0_kern_early_sats
    simp only
    rw [pred_logm0_congr (h _ (h3 rfl)).2.1]

/-- C84. The mean late-type parameters depend only on the population parameters whose names end in
`_late` and `_beta` (centrals), and `_late_sats`, `_late` and `_beta` (satellites). -/
theorem C84_late_depends (kind : Kind) (p q : NT ℝ) (hp : p.map Prod.fst = FIELDS)
    (hq : q.map Prod.fst = FIELDS) (h1 : SameSfx "_late" p q) (h2 : SameSfx "_beta" p q)
    (h3 : kind = .sats → SameSfx "_late_sats" p q) (lgm t_obs tp : ℝ) :
    mean_diffmah_params_late_t_peak kind p lgm t_obs tp
      = mean_diffmah_params_late_t_peak kind q lgm t_obs tp := by
  obtain ⟨c, d, hc, hd, h⟩ := components_same hp hq
  unfold mean_diffmah_params_late_t_peak
  simp only [hc, hd, bind, Except.bind]
  unfold pred_early_index_late pred_late_index_late
  rw [pred_logtc_congr (h _ h1).2.2.1, pred_early_index_congr (h _ h2).2.2.2.1,
    pred_late_index_congr (h _ h2).2.2.2.2]
  cases kind
  · unfold pred_logm0_late pred_logm0_kern_late
    simp only
    rw [pred_logm0_congr (h _ h1).1]
  · unfold pred_logm0_late pred_logm0_kern_late_sats
    simp only
    rw [pred_logm0_congr (h _ (h3 rfl)).2.1]

/-- C84 for the pair of means around which a halo is scattered, at a given peak time: the first
entry, which is the mean of early types, depends only on the parameters of early types. -/
theorem C84_mean_early (ext : Ext) (rng : Rng) (kind : Kind) (p q : NT ℝ) (hp : p.map Prod.fst = FIELDS)
    (hq : q.map Prod.fst = FIELDS) (h1 : SameSfx "_early" p q) (h2 : SameSfx "_alpha" p q)
    (h3 : kind = .sats → SameSfx "_early_sats" p q) (lgm t_obs tp lgt0 : ℝ) (key key' : Key)
    (r r' : MahParams ℝ × MahParams ℝ × ℝ) (ks ks' : List Key)
    (hr : mean_res ext rng kind p lgm t_obs key lgt0 (some tp) = Except.ok (r, ks))
    (hr' : mean_res ext rng kind q lgm t_obs key' lgt0 (some tp) = Except.ok (r', ks')) :
    r.1 = r'.1 := by
  have e := C84_early_depends kind p q hp hq h1 h2 h3 lgm t_obs tp
  replace hr := (RandM.lift_inv hr).1
  replace hr' := (RandM.lift_inv hr').1
  unfold mean_diffmah_params_t_peak at hr hr'
  simp only [bind, Except.bind] at hr hr'
  rw [e] at hr
  cases h4 : mean_diffmah_params_early_t_peak kind q lgm t_obs tp with
  | error x => rw [h4] at hr; cases hr
  | ok a =>
    rw [h4] at hr hr'
    simp only at hr hr'
    cases h5 : mean_diffmah_params_late_t_peak kind p lgm t_obs tp with
    | error x => rw [h5] at hr; cases hr
    | ok b =>
      cases h6 : mean_diffmah_params_late_t_peak kind q lgm t_obs tp with
      | error x => rw [h6] at hr'; cases hr'
      | ok b' =>
        rw [h5] at hr; rw [h6] at hr'
        simp only at hr hr'
        cases h7 : frac_early_cens_kern p lgm t_obs with
        | error x => rw [h7] at hr; cases hr
        | ok f =>
          cases h8 : frac_early_cens_kern q lgm t_obs with
          | error x => rw [h8] at hr'; cases hr'
          | ok f' =>
            rw [h7] at hr; rw [h8] at hr'
            cases hr; cases hr'; rfl

/-- C84, likewise: the second entry, the mean of late types, depends only on the parameters of late
types. -/
theorem C84_mean_late (ext : Ext) (rng : Rng) (kind : Kind) (p q : NT ℝ) (hp : p.map Prod.fst = FIELDS)
    (hq : q.map Prod.fst = FIELDS) (h1 : SameSfx "_late" p q) (h2 : SameSfx "_beta" p q)
    (h3 : kind = .sats → SameSfx "_late_sats" p q) (lgm t_obs tp lgt0 : ℝ) (key key' : Key)
    (r r' : MahParams ℝ × MahParams ℝ × ℝ) (ks ks' : List Key)
    (hr : mean_res ext rng kind p lgm t_obs key lgt0 (some tp) = Except.ok (r, ks))
    (hr' : mean_res ext rng kind q lgm t_obs key' lgt0 (some tp) = Except.ok (r', ks')) :
    r.2.1 = r'.2.1 := by
  have e := C84_late_depends kind p q hp hq h1 h2 h3 lgm t_obs tp
  replace hr := (RandM.lift_inv hr).1
  replace hr' := (RandM.lift_inv hr').1
  unfold mean_diffmah_params_t_peak at hr hr'
  simp only [bind, Except.bind] at hr hr'
  cases h4 : mean_diffmah_params_early_t_peak kind q lgm t_obs tp with
  | error x => rw [h4] at hr'; cases hr'
  | ok a =>
    cases h4' : mean_diffmah_params_early_t_peak kind p lgm t_obs tp with
    | error x => rw [h4'] at hr; cases hr
    | ok a' =>
      rw [h4'] at hr; rw [h4] at hr'
      simp only at hr hr'
      rw [e] at hr
      cases h6 : mean_diffmah_params_late_t_peak kind q lgm t_obs tp with
      | error x => rw [h6] at hr'; cases hr'
      | ok b' =>
        rw [h6] at hr hr'
        simp only at hr hr'
        cases h7 : frac_early_cens_kern p lgm t_obs with
        | error x => rw [h7] at hr; cases hr
        | ok f =>
          cases h8 : frac_early_cens_kern q lgm t_obs with
          | error x => rw [h8] at hr'; cases hr'
          | ok f' =>
            rw [h7] at hr; rw [h8] at hr'
            cases hr; cases hr'; rfl

theorem not_suffix {base : String} : base ++ "_early" ≠ "fec_lgm_x0" ∧ base ++ "_alpha" ≠ "fec_lgm_x0" ∧
    base ++ "_early_sats" ≠ "fec_lgm_x0" := by
  refine ⟨?_, ?_, ?_⟩ <;> intro h <;>
    · have := congrArg (fun s => s.toList.getLast?) h
      simp [String.toList_append] at this

/-- Different parameter sets meeting the hypotheses of C84 exist. -/
example : ∃ p q : NT ℝ, p.map Prod.fst = FIELDS ∧ q.map Prod.fst = FIELDS ∧ p ≠ q ∧
    SameSfx "_early" p q ∧ SameSfx "_alpha" p q ∧ SameSfx "_early_sats" p q := by
  let g : String → ℝ := fun n => if n = "fec_lgm_x0" then 2 else 1
  have hnd : FIELDS.Nodup := by rw [FIELDS_eq]; exact NAMES_nodup
  have hmem : "fec_lgm_x0" ∈ FIELDS := by rw [FIELDS_eq]; simp [NAMES]
  have hsame : ∀ sfx : String, (∀ base : String, base ++ sfx ≠ "fec_lgm_x0") →
      SameSfx sfx (FIELDS.map fun n => (n, (1 : ℝ))) (FIELDS.map fun n => (n, g n)) := by
    intro sfx h base
    by_cases hm : base ++ sfx ∈ FIELDS
    · rw [lookup_map_fn (fun _ => (1 : ℝ)) hnd hm, lookup_map_fn g hnd hm]
      simp [g, h base]
    · rw [NT.lookup_none, NT.lookup_none] <;>
        simpa [NT.fields, List.map_map, Function.comp_def] using hm
  refine ⟨FIELDS.map fun n => (n, 1), FIELDS.map fun n => (n, g n), ?_, ?_, ?_,
    hsame _ fun base => not_suffix.1, hsame _ fun base => not_suffix.2.1,
    hsame _ fun base => not_suffix.2.2⟩
  · rw [List.map_map]; exact List.map_id'' (fun _ => rfl) _
  · rw [List.map_map]; exact List.map_id'' (fun _ => rfl) _
  · intro he
    have h1 := lookup_map_fn (fun _ => (1 : ℝ)) hnd hmem
    have h2 := lookup_map_fn g hnd hmem
    rw [he, h2] at h1
    simp [g] at h1

end Diffmah

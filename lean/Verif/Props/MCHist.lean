import Verif.Props.MC

/-!
# Monte Carlo histories (C58, C59, C61) and use of random keys (C64)
-/

set_option maxRecDepth 10000

namespace Diffmah

open Pop TPeak PopParams MC

variable (ext : Ext) (rng : Rng)

/-- The histories of a single halo are those of its parameters. -/
def Consistent (tarr : List ℝ) (lgt0 : ℝ) (s : SingleHistories) : Prop :=
  (s.dmhdt_early, s.log_mah_early) = mah_singlehalo s.params_early tarr lgt0 ∧
  (s.dmhdt_late, s.log_mah_late) = mah_singlehalo s.params_late tarr lgt0

theorem single_inv {kind : Kind} {p : NT ℝ} {tarr : List ℝ} {lgm t_obs lgt0 : ℝ} {key : Key}
    {s : SingleHistories} {ks : List Key}
    (h : mc_diffmah_single ext rng kind p tarr lgm t_obs key lgt0 = Except.ok (s, ks)) :
    mc_diffmah_params_single ext rng kind p lgm t_obs key lgt0 none
      = Except.ok ((s.params_early, s.params_late, s.frac_early), ks) ∧ Consistent tarr lgt0 s := by
  unfold mc_diffmah_single at h
  obtain ⟨res, k1, k2, h1, h2, rfl⟩ := RandM.bind_inv h
  obtain ⟨rfl, rfl⟩ := RandM.pure_inv h2
  rw [List.append_nil]
  exact ⟨h1, rfl, rfl⟩

theorem split_dropLast (key : Key) (n : ℕ) {i : ℕ} (hi : i < n) :
    ((key.split (n + 1)).dropLast).getD i key = Key.child key (n + 1) i := by
  rw [List.getD_eq_getElem?_getD, List.getElem?_dropLast, if_pos (by simp [Key.split]; omega),
    ← List.getD_eq_getElem?_getD]
  exact Key.split_getD _ _ (by omega)

/-- The data flow of `mc_cenpop` / `mc_satpop`. -/
theorem hist_inv {kind : Kind} {p : NT ℝ} {tarr lgm t_obs : List ℝ} {key : Key} {lgt0 : ℝ}
    {pop : HaloHist} {ks : List Key}
    (h : mc_pop ext rng kind p tarr lgm t_obs key lgt0 = Except.ok (pop, ks)) :
    ∃ (rows : List SingleHistories) (kss : List (List Key)),
      rows.length = lgm.length ∧ kss.length = lgm.length ∧
      ks = kss.flatten ++ [Key.child key (lgm.length + 1) lgm.length] ∧
      (∀ i < lgm.length, ∃ r k, rows[i]? = some r ∧ kss[i]? = some k ∧
        mc_diffmah_single ext rng kind p tarr (lgm.getD i 0) (t_obs.getD i 0)
          (Key.child key (lgm.length + 1) i) lgt0 = Except.ok (r, k)) ∧
      ∃ m : List Bool,
        m = below (rng.uniforms (Key.child key (lgm.length + 1) lgm.length) lgm.length)
          (rows.map fun r => r.frac_early) ∧
        pop.mah_params = stack (whereArr m (rows.map fun r => r.params_early)
          (rows.map fun r => r.params_late)) ∧
        pop.dmhdt = whereArr m (rows.map fun r => r.dmhdt_early) (rows.map fun r => r.dmhdt_late) ∧
        pop.log_mah = whereArr m (rows.map fun r => r.log_mah_early)
          (rows.map fun r => r.log_mah_late) ∧
        t_obs.length = lgm.length := by
  unfold mc_pop at h
  have hd : ∀ i < lgm.length, ((key.split (lgm.length + 1)).dropLast).getD i key
      = Key.child key (lgm.length + 1) i := fun i hi => split_dropLast key _ hi
  have hu : (key.split (lgm.length + 1)).getD lgm.length key
      = Key.child key (lgm.length + 1) lgm.length := Key.split_getD _ _ (by omega)
  by_cases hc : t_obs.length = lgm.length
  · have h' := (if_pos hc).symm.trans h
    obtain ⟨rows, k1, k2, h1, h2, rfl⟩ := RandM.bind_inv h'
    obtain ⟨u, k3, k4, h3, h4, rfl⟩ := RandM.bind_inv h2
    obtain ⟨rfl, rfl⟩ := RandM.draw_inv h3
    obtain ⟨rfl, rfl⟩ := RandM.pure_inv h4
    obtain ⟨kss, rfl, l1, l2, h5⟩ := RandM.all_inv h1
    simp only [List.length_map, List.length_range] at l1 l2
    refine ⟨rows, kss, l2, l1, ?_, ?_, _, rfl, ?_, ?_, ?_, hc⟩
    · rw [hu]; rfl
    · intro i hi
      obtain ⟨r, k, hr, hk, he⟩ := h5 i _ (by rw [List.getElem?_map, List.getElem?_range hi]; rfl)
      beta_reduce at he
      rw [hd i hi] at he
      exact ⟨r, k, hr, hk, he⟩
    · rw [← hu]; exact select_stack _ _ _
    · rw [← hu]
    · rw [← hu]
  · have h' := (if_neg hc).symm.trans h
    cases h'

theorem below_length_of (u f : List ℝ) (n : ℕ) (hu : u.length = n) (hf : f.length = n) :
    (below u f).length = n := by
  rw [below_length _ _ (hu.trans hf.symm), hf]

theorem whereArr_zip {β γ δ : Type} (f : β → γ × δ) (m : List Bool) (x y : List β) :
    whereArr m (x.map fun a => (f a).1) (y.map fun a => (f a).1)
      = ((whereArr m x y).map f).map Prod.fst := by
  rw [List.map_map]; exact whereArr_map (fun a => (f a).1) m x y

/-- C61. The returned histories are exactly `mah_halopop` evaluated on the returned parameters. -/
theorem C61_histories_match (hr : rng.Lawful) (kind : Kind) (p : NT ℝ) (tarr lgm t_obs : List ℝ)
    (key : Key) (lgt0 : ℝ) (pop : HaloHist) (ks : List Key)
    (h : mc_pop ext rng kind p tarr lgm t_obs key lgt0 = Except.ok (pop, ks)) :
    mah_halopop pop.mah_params tarr lgt0 = .ok (pop.dmhdt, pop.log_mah) ∧
      pop.mah_params.rows.length = lgm.length := by
  obtain ⟨rows, kss, l1, -, -, h1, m, hm, h2, h3, h4, -⟩ := hist_inv ext rng h
  have hml : m.length = lgm.length := by
    rw [hm]; exact below_length_of _ _ _ (hr.uniforms_length _ _) (by simp [l1])
  have hcons : ∀ r ∈ rows, Consistent tarr lgt0 r := by
    intro r hr'
    obtain ⟨i, hi⟩ := List.mem_iff_getElem?.1 hr'
    obtain ⟨r', k, hr2, -, h5⟩ := h1 i (by rw [← l1]; exact (List.getElem?_eq_some_iff.1 hi).1)
    rw [hi] at hr2; cases hr2
    exact (single_inv ext rng h5).2
  constructor
  · have hal := stack_aligned (whereArr m (rows.map fun r => r.params_early) (rows.map fun r => r.params_late))
    rw [← h2] at hal
    obtain ⟨a1, a2, a3, a4, a5⟩ := hal
    unfold mah_halopop
    rw [if_pos ⟨by omega, by omega, by omega, by omega⟩, h2, stack_rows, h3, h4]
    unfold mah_halopop_rows
    have e1 : rows.map (fun r => r.dmhdt_early)
        = (rows.map fun r => r.params_early).map fun q => (diffmah_kern q tarr lgt0).1 := by
      rw [List.map_map]
      exact List.map_congr_left fun r hr' => congrArg Prod.fst (hcons r hr').1
    have e2 : rows.map (fun r => r.dmhdt_late)
        = (rows.map fun r => r.params_late).map fun q => (diffmah_kern q tarr lgt0).1 := by
      rw [List.map_map]
      exact List.map_congr_left fun r hr' => congrArg Prod.fst (hcons r hr').2
    have e3 : rows.map (fun r => r.log_mah_early)
        = (rows.map fun r => r.params_early).map fun q => (diffmah_kern q tarr lgt0).2 := by
      rw [List.map_map]
      exact List.map_congr_left fun r hr' => congrArg Prod.snd (hcons r hr').1
    have e4 : rows.map (fun r => r.log_mah_late)
        = (rows.map fun r => r.params_late).map fun q => (diffmah_kern q tarr lgt0).2 := by
      rw [List.map_map]
      exact List.map_congr_left fun r hr' => congrArg Prod.snd (hcons r hr').2
    rw [e1, e2, e3, e4, whereArr_map, whereArr_map]
    simp only [List.map_map]
    rfl
  · rw [h2, stack_rows]
    exact whereArr_length _ _ _ _ hml (by simp [l1]) (by simp [l1])

/-- C59 for `mc_cenpop` / `mc_satpop`: parameters, accretion rates and masses of halo `i` all come
from its early draw, or all from its late draw. -/
theorem C59_histories (hr : rng.Lawful) (kind : Kind) (p : NT ℝ) (tarr lgm t_obs : List ℝ)
    (key : Key) (lgt0 : ℝ) (pop : HaloHist) (ks : List Key)
    (h : mc_pop ext rng kind p tarr lgm t_obs key lgt0 = Except.ok (pop, ks)) :
    ∀ i < lgm.length, ∃ (s : SingleHistories) (k : List Key) (u : ℝ),
      mc_diffmah_single ext rng kind p tarr (lgm.getD i 0) (t_obs.getD i 0)
          (Key.child key (lgm.length + 1) i) lgt0 = Except.ok (s, k) ∧
      (rng.uniforms (Key.child key (lgm.length + 1) lgm.length) lgm.length)[i]? = some u ∧
      (u < s.frac_early → pop.mah_params.rows[i]? = some s.params_early ∧
        pop.dmhdt[i]? = some s.dmhdt_early ∧ pop.log_mah[i]? = some s.log_mah_early) ∧
      (s.frac_early ≤ u → pop.mah_params.rows[i]? = some s.params_late ∧
        pop.dmhdt[i]? = some s.dmhdt_late ∧ pop.log_mah[i]? = some s.log_mah_late) := by
  obtain ⟨rows, kss, l1, -, -, h1, m, hm, h2, h3, h4, -⟩ := hist_inv ext rng h
  intro i hi
  obtain ⟨s, k, hs, -, h5⟩ := h1 i hi
  have hul : (rng.uniforms (Key.child key (lgm.length + 1) lgm.length) lgm.length).length = lgm.length :=
    hr.uniforms_length _ _
  have hu : (rng.uniforms (Key.child key (lgm.length + 1) lgm.length) lgm.length)[i]?
      = some ((rng.uniforms (Key.child key (lgm.length + 1) lgm.length) lgm.length)[i]'(by omega)) :=
    List.getElem?_eq_getElem _
  have hg : ∀ {β : Type} (g : SingleHistories → β), (rows.map g)[i]? = some (g s) := by
    intro β g; simp [hs]
  obtain ⟨b, hb, hb'⟩ := below_getElem hu (hg fun r => r.frac_early)
  rw [← hm] at hb
  refine ⟨s, k, _, h5, hu, ?_, ?_⟩
  · intro hlt
    have hbt : b = true := hb'.2 hlt
    subst hbt
    rw [h2, stack_rows, h3, h4]
    exact ⟨whereArr_getElem hb (hg _) (hg _), whereArr_getElem hb (hg _) (hg _),
      whereArr_getElem hb (hg _) (hg _)⟩
  · intro hle
    have hbf : b = false := by
      cases b
      · rfl
      · exact absurd (hb'.1 rfl) (not_lt.2 hle)
    subst hbf
    rw [h2, stack_rows, h3, h4]
    exact ⟨whereArr_getElem hb (hg _) (hg _), whereArr_getElem hb (hg _) (hg _),
      whereArr_getElem hb (hg _) (hg _)⟩

theorem single_ok (hr : rng.Lawful) (kind : Kind) (p : NT ℝ) (hp : p.map Prod.fst = FIELDS)
    (hb : AllInBounds p) (tarr : List ℝ) (lgm t_obs : ℝ) (key : Key) (lgt0 : ℝ)
    (hm : ∃ e l f ks, mean_res ext rng kind p lgm t_obs key lgt0 none = Except.ok ((e, l, f), ks) ∧
      Spec.Valid e ∧ Spec.Valid l) :
    ∃ s ks, mc_diffmah_single ext rng kind p tarr lgm t_obs key lgt0 = Except.ok (s, ks) ∧
      Spec.Valid s.params_early ∧ Spec.Valid s.params_late := by
  obtain ⟨e, l, f, ks, h, he, hl⟩ := hm
  obtain ⟨E, L, C, h3, -, hE, hL⟩ := C58_single ext rng hr kind p hp hb _ _ _ _ _ e l f ks h he hl
  exact ⟨_, _, RandM.bind_of h3 rfl, hE.valid, hL.valid⟩

/-- C58 for `mc_cenpop` / `mc_satpop`: whenever every halo's mean parameters are valid the call
succeeds and every returned halo has valid parameters. -/
theorem C58_histories (hr : rng.Lawful) (kind : Kind) (p : NT ℝ) (hp : p.map Prod.fst = FIELDS)
    (hb : AllInBounds p) (tarr lgm t_obs : List ℝ) (key : Key) (lgt0 : ℝ)
    (h1 : t_obs.length = lgm.length)
    (hm : MeansValid ext rng kind p lgm t_obs (fun i => Key.child key (lgm.length + 1) i) lgt0 none) :
    ∃ pop ks, mc_pop ext rng kind p tarr lgm t_obs key lgt0 = Except.ok (pop, ks) ∧
      pop.mah_params.rows.length = lgm.length ∧ ∀ x ∈ pop.mah_params.rows, Spec.Valid x := by
  have hs : ∀ i, ∃ s k, i < lgm.length → mc_diffmah_single ext rng kind p tarr (lgm.getD i 0)
      (t_obs.getD i 0) (((key.split (lgm.length + 1)).dropLast).getD i key) lgt0 = Except.ok (s, k) := by
    intro i
    by_cases hi : i < lgm.length
    · obtain ⟨s, k, h, -⟩ := single_ok ext rng hr kind p hp hb tarr _ _ _ _ (hm i hi)
      refine ⟨s, k, fun _ => ?_⟩
      rw [split_dropLast key _ hi]
      exact h
    · exact ⟨⟨⟨0, 0, 0, 0, 0⟩, [], [], ⟨0, 0, 0, 0, 0⟩, [], [], 0⟩, [], fun h => absurd h hi⟩
  choose v k hvk using hs
  have hall := RandM.all_of (List.range lgm.length) _ v k fun i hi => hvk i (List.mem_range.1 hi)
  have hex : ∃ pop ks, mc_pop ext rng kind p tarr lgm t_obs key lgt0 = Except.ok (pop, ks) := by
    have hd := RandM.draw_eq ((key.split (lgm.length + 1)).getD lgm.length key)
      (rng.uniforms ((key.split (lgm.length + 1)).getD lgm.length key) lgm.length)
    let rows := (List.range lgm.length).map v
    let m := below (rng.uniforms ((key.split (lgm.length + 1)).getD lgm.length key) lgm.length)
      (rows.map fun r => r.frac_early)
    refine ⟨⟨mc_select_diffmah_params (stack (rows.map fun r => r.params_early))
        (stack (rows.map fun r => r.params_late)) m,
      whereArr m (rows.map fun r => r.dmhdt_early) (rows.map fun r => r.dmhdt_late),
      whereArr m (rows.map fun r => r.log_mah_early) (rows.map fun r => r.log_mah_late)⟩,
      (List.range lgm.length).flatMap k ++
        ([(key.split (lgm.length + 1)).getD lgm.length key] ++ []), ?_⟩
    unfold mc_pop
    refine (if_pos h1).trans ?_
    refine RandM.bind_of hall ?_
    exact RandM.bind_of hd rfl
  obtain ⟨pop, ks, h⟩ := hex
  have hlen := (C61_histories_match ext rng hr kind p tarr lgm t_obs key lgt0 pop ks h).2
  refine ⟨pop, ks, h, hlen, ?_⟩
  intro x hx
  obtain ⟨i, hi⟩ := List.mem_iff_getElem?.1 hx
  have hi' : i < lgm.length := by rw [← hlen]; exact (List.getElem?_eq_some_iff.1 hi).1
  obtain ⟨s, k', u, h2, -, h3, h4⟩ :=
    C59_histories ext rng hr kind p tarr lgm t_obs key lgt0 pop ks h i hi'
  obtain ⟨s', k'', h5, hE, hL⟩ := single_ok ext rng hr kind p hp hb tarr _ _ _ _ (hm i hi')
  rw [h2] at h5
  obtain ⟨rfl, -⟩ := RandM.ok_inj h5
  by_cases hlt : u < s'.frac_early
  · have := (h3 hlt).1
    rw [hi] at this; cases this; exact hE
  · have := (h4 (not_lt.1 hlt)).1
    rw [hi] at this; cases this; exact hL

/-- The hypotheses of the theorems on histories are met by in-range observations. -/
example : ∃ (ext : Ext) (rng : Rng) (p : NT ℝ) (pop : HaloHist) (ks : List Key), rng.Lawful ∧
    mc_pop ext rng .sats p [1, 5, 10] [11, 12] [9, 10] (Key.root 0) 1.14 = Except.ok (pop, ks) ∧
    pop.mah_params.rows.length = 2 := by
  obtain ⟨ext, hext⟩ := ext_lawful_exists
  obtain ⟨p, hp, hb⟩ := exists_allInBounds
  have hr : (⟨fun _ => 0, fun _ n => List.replicate n 0, fun _ m _ => m⟩ : Rng).Lawful := by
    refine ⟨by simp, by simp, ?_, by simp⟩
    intro k n x hx; rw [List.eq_of_mem_replicate hx]; norm_num
  obtain ⟨pop, ks, h, h2, -⟩ := C58_histories ext _ hr .sats p hp hb [1, 5, 10] [11, 12] [9, 10]
    (Key.root 0) 1.14 rfl (good_means ext _ hext .sats p hp hb _ _ _ _ none (by
      intro i hi
      have : i = 0 ∨ i = 1 := by simp at hi; omega
      rcases this with rfl | rfl <;> norm_num [GoodInput]))
  exact ⟨ext, _, p, pop, ks, hr, h, h2⟩

/-! ## C64: random keys -/

/-- Number of splits between the caller's key and this one. -/
def Key.depth : Key → ℕ
  | .root _ => 0
  | .child k _ _ => k.depth + 1

theorem scatter_inv {key : Key} {m x : MahParams ℝ} {C : Matrix (Fin 4) (Fin 4) ℝ} {ks : List Key}
    (h : scatter rng key m C = Except.ok (x, ks)) : ks = [key] := by
  unfold scatter at h
  obtain ⟨b, k1, k2, h1, h2, rfl⟩ := RandM.bind_inv h
  obtain ⟨-, rfl⟩ := RandM.draw_inv h1
  obtain ⟨b', k3, k4, h3, h4, rfl⟩ := RandM.bind_inv h2
  obtain ⟨-, rfl⟩ := RandM.lift_inv h3
  obtain ⟨-, rfl⟩ := RandM.pure_inv h4
  rfl

theorem single_keys {kind : Kind} {p : NT ℝ} {lgm t_obs lgt0 : ℝ} {key : Key} {tp : Option ℝ}
    {r : MahParams ℝ × MahParams ℝ × ℝ} {ks : List Key}
    (h : mc_diffmah_params_single ext rng kind p lgm t_obs key lgt0 tp = Except.ok (r, ks)) :
    ∃ e k, mean_res ext rng kind p lgm t_obs key lgt0 tp = Except.ok (e, k) ∧
      ks = k ++ [Key.child key 2 0, Key.child key 2 1] := by
  unfold mc_diffmah_params_single at h
  obtain ⟨e, k1, k2, h1, h2, rfl⟩ := RandM.bind_inv h
  obtain ⟨C, k3, k4, h3, h4, rfl⟩ := RandM.bind_inv h2
  obtain ⟨-, rfl⟩ := RandM.lift_inv h3
  obtain ⟨E, k5, k6, h5, h6, rfl⟩ := RandM.bind_inv h4
  have h5' := scatter_inv rng h5
  obtain ⟨L, k7, k8, h7, h8, rfl⟩ := RandM.bind_inv h6
  have h7' := scatter_inv rng h7
  obtain ⟨-, rfl⟩ := RandM.pure_inv h8
  refine ⟨e, k1, h1, ?_⟩
  rw [h5', h7']; rfl

theorem draw_t_peak_keys {kind : Kind} {p : NT ℝ} {lgm t_obs lgt0 tp : ℝ} {key : Key} {ks : List Key}
    (h : draw_t_peak ext rng kind p lgm t_obs key lgt0 = Except.ok (tp, ks)) :
    ks = [Key.child key 2 0] := by
  unfold draw_t_peak at h
  obtain ⟨c, k1, k2, h1, h2, rfl⟩ := RandM.bind_inv h
  obtain ⟨-, rfl⟩ := RandM.lift_inv h1
  cases kind
  · replace h2 : mc_tpeak_singlecen ext rng c.tp_cens lgm t_obs (Key.child key 2 0) ((10 : ℝ) ^ lgt0)
      = Except.ok (tp, k2) := h2
    unfold mc_tpeak_singlecen mc_utp_singlecen at h2
    obtain ⟨u, k3, k4, h3, h4, rfl⟩ := RandM.bind_inv h2
    obtain ⟨-, rfl⟩ := RandM.pure_inv h4
    obtain ⟨t, k5, k6, h5, h6, rfl⟩ := RandM.bind_inv h3
    obtain ⟨-, rfl⟩ := RandM.lift_inv h5
    obtain ⟨u', k7, k8, h7, h8, rfl⟩ := RandM.bind_inv h6
    obtain ⟨-, rfl⟩ := RandM.draw_inv h7
    obtain ⟨-, rfl⟩ := RandM.pure_inv h8
    rfl
  · replace h2 : mc_tpeak_singlesat ext rng c.tp_sats (Key.child key 2 0) lgm t_obs
      = Except.ok (tp, k2) := h2
    unfold mc_tpeak_singlesat mc_tp_pdf_singlesat at h2
    obtain ⟨u, k3, k4, h3, h4, rfl⟩ := RandM.bind_inv h2
    obtain ⟨-, rfl⟩ := RandM.lift_inv h3
    obtain ⟨t, k5, k6, h5, h6, rfl⟩ := RandM.bind_inv h4
    obtain ⟨-, rfl⟩ := RandM.lift_inv h5
    obtain ⟨u', k7, k8, h7, h8, rfl⟩ := RandM.bind_inv h6
    obtain ⟨-, rfl⟩ := RandM.pure_inv h8
    obtain ⟨u'', k9, k10, h9, h10, rfl⟩ := RandM.bind_inv h7
    obtain ⟨-, rfl⟩ := RandM.draw_inv h9
    obtain ⟨-, rfl⟩ := RandM.pure_inv h10
    rfl

/-- The keys consumed for one halo: with a supplied peak time the two children of its key, once
each; without, the first child three times (peak time for the early mean, peak time for the late
mean, early scatter) and the second once. -/
theorem single_keys_eq {kind : Kind} {p : NT ℝ} {lgm t_obs lgt0 : ℝ} {key : Key} {tp : Option ℝ}
    {r : MahParams ℝ × MahParams ℝ × ℝ} {ks : List Key}
    (h : mc_diffmah_params_single ext rng kind p lgm t_obs key lgt0 tp = Except.ok (r, ks)) :
    ks = match (generalizing := false) tp with
      | some _ => [Key.child key 2 0, Key.child key 2 1]
      | none => [Key.child key 2 0, Key.child key 2 0, Key.child key 2 0, Key.child key 2 1] := by
  obtain ⟨e, k, h1, rfl⟩ := single_keys ext rng h
  cases tp with
  | some t =>
    obtain ⟨-, rfl⟩ := RandM.lift_inv h1
    rfl
  | none =>
    replace h1 : mean_diffmah_params ext rng kind p lgm t_obs key lgt0 = Except.ok (e, k) := h1
    unfold mean_diffmah_params mean_diffmah_params_early mean_diffmah_params_late at h1
    obtain ⟨e1, k1, k2, h2, h3, rfl⟩ := RandM.bind_inv h1
    obtain ⟨e2, k3, k4, h4, h5, rfl⟩ := RandM.bind_inv h2
    obtain ⟨-, rfl⟩ := RandM.lift_inv h5
    have h4' := draw_t_peak_keys ext rng h4
    obtain ⟨e3, k5, k6, h6, h7, rfl⟩ := RandM.bind_inv h3
    obtain ⟨e4, k7, k8, h8, h9, rfl⟩ := RandM.bind_inv h6
    obtain ⟨-, rfl⟩ := RandM.lift_inv h9
    have h8' := draw_t_peak_keys ext rng h8
    obtain ⟨e5, k9, k10, h10, h11, rfl⟩ := RandM.bind_inv h7
    obtain ⟨-, rfl⟩ := RandM.lift_inv h10
    obtain ⟨-, rfl⟩ := RandM.pure_inv h11
    rw [h4', h8']; rfl

/-- C64 is false as stated: whenever a halo is generated without a supplied peak time, the key that
draws the peak time also draws the scatter of the early-type parameters. -/
theorem C64_key_reused (kind : Kind) (p : NT ℝ) (lgm t_obs : ℝ) (key : Key) (lgt0 : ℝ)
    (r : MahParams ℝ × MahParams ℝ × ℝ) (ks : List Key)
    (h : mc_diffmah_params_single ext rng kind p lgm t_obs key lgt0 none = Except.ok (r, ks)) :
    ¬ ks.Nodup ∧ (∃ tp, draw_t_peak ext rng kind p lgm t_obs key lgt0 = Except.ok (tp, [Key.child key 2 0])) ∧
      ∃ (e l : MahParams ℝ) (f : ℝ) (k : List Key) (C : Matrix (Fin 4) (Fin 4) ℝ),
        mean_res ext rng kind p lgm t_obs key lgt0 none = Except.ok ((e, l, f), k) ∧
        scatter rng (Key.child key 2 0) e C = Except.ok (r.1, [Key.child key 2 0]) := by
  have hk := single_keys_eq ext rng h
  refine ⟨by rw [hk]; simp, ?_, ?_⟩
  · obtain ⟨e, k, h1, rfl⟩ := single_keys ext rng h
    replace h1 : mean_diffmah_params ext rng kind p lgm t_obs key lgt0 = Except.ok (e, k) := h1
    unfold mean_diffmah_params mean_diffmah_params_early at h1
    obtain ⟨e1, k1, k2, h2, -, rfl⟩ := RandM.bind_inv h1
    obtain ⟨e2, k3, k4, h4, -, rfl⟩ := RandM.bind_inv h2
    have h4' := draw_t_peak_keys ext rng h4
    exact ⟨e2, by rw [h4, h4']⟩
  · unfold mc_diffmah_params_single at h
    obtain ⟨e, k1, k2, h1, h2, rfl⟩ := RandM.bind_inv h
    obtain ⟨C, k3, k4, h3, h4, rfl⟩ := RandM.bind_inv h2
    obtain ⟨E, k5, k6, h5, h6, rfl⟩ := RandM.bind_inv h4
    have h5' := scatter_inv rng h5
    obtain ⟨L, k7, k8, h7, h8, rfl⟩ := RandM.bind_inv h6
    obtain ⟨rfl, -⟩ := RandM.pure_inv h8
    exact ⟨e.1, e.2.1, e.2.2, k1, C, h1, by rw [h5, h5']⟩

/-- Keys of halo `i`: grandchildren of its parent key through child `i`. -/
theorem lane_ne {K : Key} {n i j a b : ℕ} (h : i ≠ j) :
    Key.child (Key.child K n i) 2 a ≠ Key.child (Key.child K n j) 2 b := by
  intro h'
  simp only [Key.child.injEq] at h'
  exact h h'.1.2.2

theorem single_keys_mem {kind : Kind} {p : NT ℝ} {lgm t_obs lgt0 : ℝ} {key : Key} {tp : Option ℝ}
    {r : MahParams ℝ × MahParams ℝ × ℝ} {ks : List Key}
    (h : mc_diffmah_params_single ext rng kind p lgm t_obs key lgt0 tp = Except.ok (r, ks)) :
    ∀ k ∈ ks, ∃ j, k = Key.child key 2 j := by
  rw [single_keys_eq ext rng h]
  intro k hk
  cases tp <;> simp only [List.mem_cons, List.not_mem_nil, or_false] at hk
  · rcases hk with rfl | rfl | rfl | rfl <;> exact ⟨_, rfl⟩
  · rcases hk with rfl | rfl <;> exact ⟨_, rfl⟩

/-- C64, the part that holds with or without supplied peak times: no key is shared by two haloes, nor
by a halo and the early/late selection. Missing: without supplied peak times, a key is used more than
once within each halo (`C64_key_reused`). -/
theorem C64_haloes_partial (kind : Kind) (p : NT ℝ) (lgm t_obs : List ℝ) (key : Key) (lgt0 : ℝ)
    (tp : Option (List ℝ)) (pop : HaloPop) (ks : List Key)
    (h : mc_diffmah_pop ext rng kind p lgm t_obs key lgt0 tp = Except.ok (pop, ks)) :
    ∃ (kss : List (List Key)) (ku : Key), kss.length = lgm.length ∧ ks = kss.flatten ++ [ku] ∧
      kss.Pairwise List.Disjoint ∧ ku ∉ kss.flatten ∧
      ∀ i < lgm.length, ∃ r k, kss[i]? = some k ∧
        mc_diffmah_params_single ext rng kind p (lgm.getD i 0) (t_obs.getD i 0)
          (Key.child (Key.child key 2 1) lgm.length i) lgt0 (tp.map fun t => t.getD i 0)
          = Except.ok (r, k) := by
  obtain ⟨rows, kss, l1, l2, hks, g1, -⟩ := pop_inv ext rng h
  have hmem : ∀ (i : ℕ) k, kss[i]? = some k → ∀ x ∈ k, ∃ j,
      x = Key.child (Key.child (Key.child key 2 1) lgm.length i) 2 j := by
    intro i k hk
    obtain ⟨r, k', -, hk', h'⟩ := g1 i (by rw [← l2]; exact (List.getElem?_eq_some_iff.1 hk).1)
    rw [hk] at hk'; cases hk'
    exact single_keys_mem ext rng h'
  refine ⟨kss, Key.child key 2 0, l2, hks, ?_, ?_, fun i hi => ?_⟩
  · rw [List.pairwise_iff_getElem]
    intro i j hi hj hij x hx hy
    obtain ⟨a, rfl⟩ := hmem i _ (List.getElem?_eq_getElem hi) x hx
    obtain ⟨b, hb⟩ := hmem j _ (List.getElem?_eq_getElem hj) _ hy
    exact lane_ne hij.ne hb
  · intro hx
    obtain ⟨k, hk, hx⟩ := List.mem_flatten.1 hx
    obtain ⟨i, hi⟩ := List.mem_iff_getElem?.1 hk
    obtain ⟨j, hj⟩ := hmem i k hi _ hx
    have := congrArg Key.depth hj
    simp only [Key.depth] at this
    omega
  · obtain ⟨r, k, -, hk, h'⟩ := g1 i hi
    exact ⟨r, k, hk, h'⟩

/-- C64, the part that holds: when peak times are supplied, no key is consumed twice in the whole
call. -/
theorem C64_supplied_t_peak_partial (kind : Kind) (p : NT ℝ) (lgm t_obs tp : List ℝ) (key : Key)
    (lgt0 : ℝ) (pop : HaloPop) (ks : List Key)
    (h : mc_diffmah_pop ext rng kind p lgm t_obs key lgt0 (some tp) = Except.ok (pop, ks)) :
    ks.Nodup := by
  obtain ⟨kss, ku, l, rfl, hd, hu, hs⟩ := C64_haloes_partial ext rng kind p lgm t_obs key lgt0 _ pop ks h
  refine List.nodup_append.2 ⟨List.nodup_flatten.2 ⟨?_, hd⟩, by simp, ?_⟩
  · intro k hk
    obtain ⟨i, hi⟩ := List.mem_iff_getElem?.1 hk
    obtain ⟨r, k', hk', h'⟩ := hs i (by rw [← l]; exact (List.getElem?_eq_some_iff.1 hi).1)
    rw [hi] at hk'; cases hk'
    rw [single_keys_eq ext rng h']
    simp
  · intro a ha b hb
    rw [List.mem_singleton] at hb
    subst hb
    exact fun hab => hu (hab ▸ ha)

/-- C64 for `mc_cenpop` / `mc_satpop`: no key is shared by two haloes, nor by a halo and the
early/late selection. Missing: as in `C64_haloes_partial`. -/
theorem C64_histories_partial (kind : Kind) (p : NT ℝ) (tarr lgm t_obs : List ℝ) (key : Key)
    (lgt0 : ℝ) (pop : HaloHist) (ks : List Key)
    (h : mc_pop ext rng kind p tarr lgm t_obs key lgt0 = Except.ok (pop, ks)) :
    ∃ (kss : List (List Key)) (ku : Key), kss.length = lgm.length ∧ ks = kss.flatten ++ [ku] ∧
      kss.Pairwise List.Disjoint ∧ ku ∉ kss.flatten ∧
      ∀ i < lgm.length, ∃ s k, kss[i]? = some k ∧
        mc_diffmah_single ext rng kind p tarr (lgm.getD i 0) (t_obs.getD i 0)
          (Key.child key (lgm.length + 1) i) lgt0 = Except.ok (s, k) := by
  obtain ⟨rows, kss, l1, l2, hks, g1, -⟩ := hist_inv ext rng h
  have hmem : ∀ (i : ℕ) k, kss[i]? = some k → ∀ x ∈ k, ∃ j,
      x = Key.child (Key.child key (lgm.length + 1) i) 2 j := by
    intro i k hk
    obtain ⟨r, k', -, hk', h'⟩ := g1 i (by rw [← l2]; exact (List.getElem?_eq_some_iff.1 hk).1)
    rw [hk] at hk'; cases hk'
    exact single_keys_mem ext rng (single_inv ext rng h').1
  refine ⟨kss, _, l2, hks, ?_, ?_, fun i hi => ?_⟩
  · rw [List.pairwise_iff_getElem]
    intro i j hi hj hij x hx hy
    obtain ⟨a, rfl⟩ := hmem i _ (List.getElem?_eq_getElem hi) x hx
    obtain ⟨b, hb⟩ := hmem j _ (List.getElem?_eq_getElem hj) _ hy
    exact lane_ne hij.ne hb
  · intro hx
    obtain ⟨k, hk, hx⟩ := List.mem_flatten.1 hx
    obtain ⟨i, hi⟩ := List.mem_iff_getElem?.1 hk
    obtain ⟨j, hj⟩ := hmem i k hi _ hx
    have := congrArg Key.depth hj
    simp only [Key.depth] at this
    omega
  · obtain ⟨r, k, -, hk, h'⟩ := g1 i hi
    exact ⟨r, k, hk, h'⟩

/-- C64 for the samples behind the predicted moments: no key is shared by two samples of a mass bin.
Missing: as in `C64_haloes_partial`. -/
theorem C64_sample_partial (kind : Kind) (p : NT ℝ) (tarr : List ℝ) (lgm t_obs : ℝ) (key : Key)
    (lgt0 : ℝ) (n_mc : ℕ) (rows : List SingleHistories) (ks : List Key)
    (h : mc_diffmah_halo_sample ext rng kind p tarr lgm t_obs key lgt0 n_mc = Except.ok (rows, ks)) :
    rows.length = n_mc ∧
    ∃ kss : List (List Key), kss.length = n_mc ∧ ks = kss.flatten ∧ kss.Pairwise List.Disjoint ∧
      ∀ i < n_mc, ∃ s k, rows[i]? = some s ∧ kss[i]? = some k ∧
        mc_diffmah_single ext rng kind p tarr lgm t_obs (Key.child key n_mc i) lgt0
          = Except.ok (s, k) := by
  obtain ⟨kss, hks, l1, l2, g⟩ := RandM.all_inv h
  rw [List.length_map, Key.split, List.length_map, List.length_range] at l1 l2
  have g1 : ∀ i < n_mc, ∃ s k, rows[i]? = some s ∧ kss[i]? = some k ∧
      mc_diffmah_single ext rng kind p tarr lgm t_obs (Key.child key n_mc i) lgt0
        = Except.ok (s, k) := by
    intro i hi
    obtain ⟨v, k, hv, hk, e⟩ := g i (mc_diffmah_single ext rng kind p tarr (lgm + 0) (t_obs + 0)
      (Key.child key n_mc i) lgt0) (by
        simp [Key.split, List.getElem?_map, List.getElem?_range hi])
    rw [add_zero, add_zero] at e
    exact ⟨v, k, hv, hk, e⟩
  have hmem : ∀ (i : ℕ) k, kss[i]? = some k → ∀ x ∈ k, ∃ j,
      x = Key.child (Key.child key n_mc i) 2 j := by
    intro i k hk
    obtain ⟨r, k', -, hk', h'⟩ := g1 i (by rw [← l1]; exact (List.getElem?_eq_some_iff.1 hk).1)
    rw [hk] at hk'; cases hk'
    exact single_keys_mem ext rng (single_inv ext rng h').1
  refine ⟨l2, kss, l1, hks, ?_, g1⟩
  rw [List.pairwise_iff_getElem]
  intro i j hi hj hij x hx hy
  obtain ⟨a, rfl⟩ := hmem i _ (List.getElem?_eq_getElem hi) x hx
  obtain ⟨b, hb⟩ := hmem j _ (List.getElem?_eq_getElem hj) _ hy
  exact lane_ne hij.ne hb

/-- The hypotheses of the C64 theorems can be met: calls with and without supplied peak times. -/
example : ∃ (ext : Ext) (rng : Rng) (p : NT ℝ) (pop pop' : HaloPop) (ks ks' : List Key),
    mc_diffmah_pop ext rng .cens p [11, 12] [9, 10] (Key.root 0) 1 none = Except.ok (pop, ks) ∧
    mc_diffmah_pop ext rng .cens p [11, 12] [9, 10] (Key.root 0) 1 (some [3, 4])
      = Except.ok (pop', ks') := by
  obtain ⟨ext, hext⟩ := ext_lawful_exists
  obtain ⟨p, hp, hb⟩ := exists_allInBounds
  have hr : (⟨fun _ => 0, fun _ n => List.replicate n 0, fun _ m _ => m⟩ : Rng).Lawful := by
    refine ⟨by simp, by simp, ?_, by simp⟩
    intro k n x hx; rw [List.eq_of_mem_replicate hx]; norm_num
  have hg : ∀ tp : Option (List ℝ), (∀ t ∈ tp, t = [3, 4]) → ∀ i < ([11, 12] : List ℝ).length,
      GoodInput .cens (([11, 12] : List ℝ).getD i 0) (([9, 10] : List ℝ).getD i 0) 1
        (tp.map fun t => t.getD i 0) := by
    intro tp htp i hi
    have : i = 0 ∨ i = 1 := by simp at hi; omega
    cases tp with
    | none => rcases this with rfl | rfl <;> norm_num [GoodInput]
    | some t =>
      rw [htp t rfl]
      rcases this with rfl | rfl <;> norm_num [GoodInput]
  obtain ⟨pop, ks, h, -⟩ := C58_in_range ext _ hext hr .cens p hp hb [11, 12] [9, 10] (Key.root 0) 1
    none rfl (by simp) (hg none (by simp))
  obtain ⟨pop', ks', h', -⟩ := C58_in_range ext _ hext hr .cens p hp hb [11, 12] [9, 10] (Key.root 0) 1
    (some [3, 4]) rfl (by simp) (hg _ (by simp))
  exact ⟨ext, _, p, pop, pop', ks, ks', h, h'⟩

end Diffmah

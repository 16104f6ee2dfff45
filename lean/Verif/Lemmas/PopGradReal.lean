import Verif.Lemmas.PopGradHom
import Verif.Lemmas.CompLoss

/-!
# On real numbers the generic population code is the model of MC.lean and PopLoss.lean
-/

namespace Diffmah

namespace PopGrad

open JOps JMinMax JFlow Pop TPeak PopParams MC

theorem randBindAssoc {β γ δ : Type} (m : RandM β) (f : β → RandM γ) (g : γ → RandM δ) :
    m >>= f >>= g = m >>= fun b => f b >>= g := by
  change RandM.bind (RandM.bind m f) g = RandM.bind m fun b => RandM.bind (f b) g
  unfold RandM.bind
  cases m with
  | error e => rfl
  | ok r =>
    obtain ⟨b, ks⟩ := r
    simp only
    cases h : f b with
    | error e => rfl
    | ok r =>
      obtain ⟨c, ks'⟩ := r
      simp only
      cases g c with
      | error e => rfl
      | ok r =>
        simp only [List.append_assoc]
        rfl

theorem mapv_lit_real (p : NT ℝ) : p.mapv (lit : ℝ → ℝ) = p := by
  unfold NT.mapv
  exact List.map_id p

theorem jsum_real (l : List ℝ) : jsum l = l.sum := by
  unfold jsum
  rw [CompLoss.foldl_add]
  change (0 : ℝ) + _ = _
  rw [zero_add]

theorem linspace_real (a b : ℝ) (n : ℕ) : linspace a b n = TPeak.linspace a b n := rfl

theorem where_nested (dx e a b x df : ℝ) [Decidable (|dx| ≤ e)] :
    whereAbsLe dx (lit e) a (b + x / whereAbsLe dx (lit e) (lit 1) dx * df) =
      if |dx| ≤ e then a else b + x / dx * df := by
  change jwhere (|dx| ≤ e) a (b + x / jwhere (|dx| ≤ e) 1 dx * df) = _
  unfold jwhere
  by_cases h : |dx| ≤ e
  · rw [if_pos h, if_pos h]
  · rw [if_neg h, if_neg h, if_neg h]

theorem where_lt (a b x y : ℝ) [Decidable (a < b)] : whereLt a b x y = if a < b then x else y := by
  change jwhere (a < b) x y = _
  unfold jwhere
  congr

theorem interp_real (eps x : ℝ) (xp fp : List ℝ) : interp eps x xp fp = TPeak.interp eps x xp fp := by
  unfold interp TPeak.interp
  simp only [JFlow.gather, where_nested, where_lt, gt_iff_lt]
  rfl

variable (ext : Ext) (rng : Rng)

theorem cen_real (p : NT ℝ) (lgm t : ℝ) (k : Key) (t0 : ℝ) :
    mc_tpeak_singlecen (Env.real ext rng) p lgm t k t0 = TPeak.mc_tpeak_singlecen ext rng p lgm t k t0 := by
  unfold mc_tpeak_singlecen TPeak.mc_tpeak_singlecen TPeak.mc_utp_singlecen
  rw [randBindAssoc]
  simp only [interp_real, show UTP_TABLE.map (lit : ℝ → ℝ) = UTP_TABLE from List.map_id _]
  congr 1

theorem sat_real (p : NT ℝ) (k : Key) (lgm t : ℝ) :
    mc_tpeak_singlesat (Env.real ext rng) p k lgm t = TPeak.mc_tpeak_singlesat ext rng p k lgm t := by
  unfold mc_tpeak_singlesat TPeak.mc_tpeak_singlesat TPeak.mc_tp_pdf_singlesat
  congr 1
  funext loc
  congr 1
  funext scale
  rw [randBindAssoc]
  simp only [interp_real]
  congr 1

theorem draw_real (kind : Kind) (p : NT ℝ) (lgm t : ℝ) (k : Key) (lgt0 : ℝ) :
    draw_t_peak (Env.real ext rng) kind p lgm t k lgt0 = MC.draw_t_peak ext rng kind p lgm t k lgt0 := by
  unfold draw_t_peak MC.draw_t_peak
  congr 1
  funext c
  cases kind
  · exact cen_real ext rng _ _ _ _ _
  · exact sat_real ext rng _ _ _ _

theorem cov_real (p : NT ℝ) (lgm : ℝ) :
    get_diffmahpop_cov p lgm = Except.map (fun c i j => c i j) (Pop.get_diffmahpop_cov p lgm) := by
  unfold get_diffmahpop_cov Pop.get_diffmahpop_cov
  rw [exceptMapBind]
  congr 1
  funext q
  obtain ⟨d, o⟩ := q
  change (if Utils.chol_ndim (List.replicate d.length (1 : ℝ) ++ o).length = 4 then _ else _) =
    Except.map _ (if Utils.chol_ndim (List.replicate d.length (1 : ℝ) ++ o).length = 4 then _ else _)
  split
  · rw [exceptMapPure]
    congr 1
    funext i j
    let C : Matrix (Fin 4) (Fin 4) ℝ := fun i j =>
      jwhere (Utils.get_cholesky_from_params (List.replicate d.length 1 ++ o) i j = 0)
        (Utils.get_cholesky_from_params (List.replicate d.length 1 ++ o) j i)
        (Utils.get_cholesky_from_params (List.replicate d.length 1 ++ o) i j)
    have e := Matrix.mul_diagonal (fun i : Fin 4 => d.getD i 0)
      (Matrix.diagonal (fun i : Fin 4 => d.getD i 0) * C) i j
    have e' := Matrix.diagonal_mul (fun i : Fin 4 => d.getD i 0) C i j
    refine Eq.trans ?_ e.symm
    refine Eq.trans ?_ (congrArg (· * d.getD j 0) e').symm
    change _ = d.getD i 0 *
      jwhere (Utils.get_cholesky_from_params (List.replicate d.length 1 ++ o) i j = 0)
        (Utils.get_cholesky_from_params (List.replicate d.length 1 ++ o) j i)
        (Utils.get_cholesky_from_params (List.replicate d.length 1 ++ o) i j) * d.getD j 0
    congr 2
    unfold corr_entry chol_entry Utils.get_cholesky_from_params
    simp only [JFlow.whereZero, jwhere, lit, Utils.chol_unity]
    rcases lt_trichotomy i j with h | h | h
    · have h' : ¬ (j : ℕ) ≤ i := by simpa using h
      have h'' : (i : ℕ) ≤ j := by simpa using h.le
      simp [h, h', h'']
    · subst h
      simp
    · have h' : ¬ (i : ℕ) ≤ j := by simpa using h
      have h'' : (j : ℕ) ≤ i := by simpa using h.le
      have h3 : ¬ i < j := h.not_gt
      simp [h, h', h'', h3]
  · rfl

theorem scatter_real (k : Key) (m : MahParams ℝ) (c : Matrix (Fin 4) (Fin 4) ℝ) :
    scatter (Env.real ext rng) k m (fun i j => c i j) = MC.scatter rng k m c := by
  unfold scatter MC.scatter
  simp only
  congr 1
  funext r
  match r with
  | [] => rfl
  | [_] => rfl
  | [_, _] => rfl
  | [_, _, _] => rfl
  | [_, _, _, _] => rfl
  | _ :: _ :: _ :: _ :: _ :: _ => rfl

theorem mean_real (kind : Kind) (p : NT ℝ) (lgm t : ℝ) (k : Key) (lgt0 : ℝ) :
    mean_diffmah_params (Env.real ext rng) kind p lgm t k lgt0 =
      MC.mean_diffmah_params ext rng kind p lgm t k lgt0 := by
  unfold mean_diffmah_params MC.mean_diffmah_params MC.mean_diffmah_params_early MC.mean_diffmah_params_late
  simp only [draw_real, randBindAssoc]

theorem params_single_real (kind : Kind) (p : NT ℝ) (lgm t : ℝ) (k : Key) (lgt0 : ℝ) :
    mc_diffmah_params_single (Env.real ext rng) kind p lgm t k lgt0 =
      MC.mc_diffmah_params_single ext rng kind p lgm t k lgt0 none := by
  unfold mc_diffmah_params_single MC.mc_diffmah_params_single
  rw [mean_real, cov_real]
  congr 1
  funext res
  rw [randLiftMap, randBindMap]
  simp only [scatter_real]

/-- The parts of a halo's histories that the loss uses. -/
def histories (s : SingleHistories) : List ℝ × List ℝ × ℝ := (s.log_mah_early, s.log_mah_late, s.frac_early)

theorem single_real (kind : Kind) (p : NT ℝ) (tarr : List ℝ) (lgm t : ℝ) (k : Key) (lgt0 : ℝ) :
    mc_diffmah_single (Env.real ext rng) kind p tarr lgm t k lgt0 =
      RandM.map histories (MC.mc_diffmah_single ext rng kind p tarr lgm t k lgt0) := by
  unfold mc_diffmah_single MC.mc_diffmah_single
  rw [params_single_real, randMapBind]
  rfl

theorem sample_real (kind : Kind) (p : NT ℝ) (tarr : List ℝ) (lgm t : ℝ) (k : Key) (lgt0 : ℝ) (n : ℕ) :
    mc_diffmah_halo_sample (Env.real ext rng) kind p tarr lgm t k lgt0 n =
      RandM.map (List.map histories) (MC.mc_diffmah_halo_sample ext rng kind p tarr lgm t k lgt0 n) := by
  unfold mc_diffmah_halo_sample MC.mc_diffmah_halo_sample
  rw [← randAllMap]
  simp only [single_real]
  rfl

theorem moments_real (x_e x_l f : List ℝ) :
    moments x_e x_l f = ((MC.moments x_e x_l f).1, (MC.moments x_e x_l f).2.1) := by
  unfold moments MC.moments
  simp only [jsum_real, lit, JFlow.sqrt, sq]

theorem predict_real (kind : Kind) (p : NT ℝ) (tarr : List ℝ) (lgm t : ℝ) (k : Key) (lgt0 : ℝ) :
    predict_mah_moments_singlebin (Env.real ext rng) kind p tarr lgm t k lgt0 =
      RandM.map (List.map fun m => (m.1, m.2.1))
        (MC.predict_mah_moments_singlebin ext rng kind p tarr lgm t k lgt0) := by
  unfold predict_mah_moments_singlebin MC.predict_mah_moments_singlebin
  rw [sample_real, randBindMap, randMapBind]
  congr 1
  funext res
  rw [randMapPure]
  congr 1
  rw [List.map_map (l := List.range tarr.length)]
  refine List.map_congr_left fun it _ => ?_
  rw [moments_real]
  simp only [Function.comp_def, List.map_map, histories, col]
  rfl

theorem mse_real (x y : List ℝ) : mse x y = PopLoss.mse x y := by
  unfold mse PopLoss.mse
  simp only [jsum_real]
  rfl

theorem singlebin_real (kind : Kind) (p : NT ℝ) (bin : PopLoss.Bin) (k : Key) (lgt0 : ℝ) :
    loss_mah_moments_singlebin (Env.real ext rng) kind p bin k lgt0 =
      PopLoss.loss_mah_moments_singlebin ext rng kind p bin k lgt0 := by
  unfold loss_mah_moments_singlebin PopLoss.loss_mah_moments_singlebin
  simp only [show ∀ l : List ℝ, l.map (lit : ℝ → ℝ) = l from fun l => List.map_id l]
  rw [predict_real, randBindMap]
  simp only [mse_real, List.map_map, Function.comp_def]
  rfl

theorem multibin_real (kind : Kind) (p : NT ℝ) (bins : List PopLoss.Bin) (k : Key) (lgt0 : ℝ) :
    loss_mah_moments_multibin (Env.real ext rng) kind p bins k lgt0 =
      PopLoss.loss_mah_moments_multibin ext rng kind p bins k lgt0 := by
  unfold loss_mah_moments_multibin PopLoss.loss_mah_moments_multibin PopLoss.loss_mah_moments_multibin_kern
  simp only [singlebin_real, jsum_real]
  rfl

theorem randLiftBind {β γ : Type} (m : Except PyErr β) (f : β → Except PyErr γ) :
    RandM.lift (m >>= f) = RandM.lift m >>= fun b => RandM.lift (f b) := by
  change _ = RandM.bind (RandM.lift m) fun b => RandM.lift (f b)
  cases m with
  | error e => rfl
  | ok b =>
    change RandM.lift (f b) = _
    unfold RandM.lift RandM.bind
    cases h : f b <;> simp [h] <;> rfl

theorem from_u_real (u : NT ℝ) :
    get_diffmahpop_params_from_u_params u = PopParams.get_diffmahpop_params_from_u_params u := by
  unfold get_diffmahpop_params_from_u_params PopParams.get_diffmahpop_params_from_u_params
  rw [mapv_lit_real]

theorem u_params_real (u : NT ℝ) (bins : List PopLoss.Bin) (k : Key) (lgt0 : ℝ) :
    loss_mah_moments_multibin_u_params (Env.real ext rng) u bins k lgt0 =
      PopLoss.loss_mah_moments_multibin_u_params ext rng u bins k lgt0 := by
  unfold loss_mah_moments_multibin_u_params PopLoss.loss_mah_moments_multibin_u_params params_of_u_params
  simp only [randLiftBind, randBindAssoc, mapv_lit_real, from_u_real, multibin_real]

theorem censat_real (p : NT ℝ) (bc bs : List PopLoss.Bin) (k : Key) (lgt0 : ℝ) :
    loss_mah_moments_multibin_censat (Env.real ext rng) p bc bs k lgt0 =
      PopLoss.loss_mah_moments_multibin_censat ext rng p bc bs k lgt0 := by
  unfold loss_mah_moments_multibin_censat PopLoss.loss_mah_moments_multibin_censat
  simp only [mapv_lit_real, multibin_real]

theorem censat_u_real (u : NT ℝ) (bc bs : List PopLoss.Bin) (k : Key) (lgt0 : ℝ) :
    loss_mah_moments_multibin_censat_u_params (Env.real ext rng) u bc bs k lgt0 =
      PopLoss.loss_mah_moments_multibin_censat_u_params ext rng u bc bs k lgt0 := by
  unfold loss_mah_moments_multibin_censat_u_params PopLoss.loss_mah_moments_multibin_censat_u_params
    params_of_u_params
  simp only [randLiftBind, randBindAssoc, mapv_lit_real, from_u_real, censat_real]

end PopGrad

end Diffmah

import Verif.Model.Fitter
import Verif.Lemmas.XR
import Verif.Lemmas.Kernels
import Verif.Lemmas.Dual

/-! # Lemmas about the fitter front end -/

namespace Diffmah.Fit

open XR hiding log10 pow10 ln sigm max lt le add sub mul div neg
open JOps Diffmah.Utils

/-! ## accumulate -/

/-- Real version of the accumulation loop. -/
noncomputable def raccFrom (acc : ℝ) : List ℝ → List ℝ
  | [] => []
  | x :: l => max acc x :: raccFrom (max acc x) l

noncomputable def racc : List ℝ → List ℝ
  | [] => []
  | x :: l => x :: raccFrom x l

theorem accumulateFrom_fin (a : ℝ) (l : List ℝ) :
    accumulateFrom (fin a) (l.map fin) = (raccFrom a l).map fin := by
  induction l generalizing a with
  | nil => rfl
  | cons x l ih =>
    simp only [List.map_cons, accumulateFrom, raccFrom]
    have : XR.max (fin a) (fin x) = fin (max a x) := rfl
    rw [this, ih]

theorem accumulate_fin (l : List ℝ) : accumulate (l.map fin) = (racc l).map fin := by
  cases l with
  | nil => rfl
  | cons x l => simp only [List.map_cons, accumulate, racc, accumulateFrom_fin]

@[simp] theorem raccFrom_length (a : ℝ) (l : List ℝ) : (raccFrom a l).length = l.length := by
  induction l generalizing a with
  | nil => rfl
  | cons x l ih => simp [raccFrom, ih]

@[simp] theorem racc_length (l : List ℝ) : (racc l).length = l.length := by
  cases l <;> simp [racc]

theorem raccFrom_get (a : ℝ) (l : List ℝ) (k : ℕ) (y : ℝ) (h : (raccFrom a l)[k]? = some y) :
    IsGreatest {x | x = a ∨ ∃ j ≤ k, l[j]? = some x} y := by
  induction l generalizing a k with
  | nil => simp [raccFrom] at h
  | cons x l ih =>
    rcases k with _ | k
    · simp only [raccFrom, List.getElem?_cons_zero, Option.some.injEq] at h
      subst h
      refine ⟨?_, ?_⟩
      · rcases le_total a x with h | h
        · exact .inr ⟨0, le_rfl, by simp [max_eq_right h]⟩
        · exact .inl (max_eq_left h)
      · rintro z (rfl | ⟨j, hj, hz⟩)
        · exact le_max_left _ _
        · obtain rfl : j = 0 := by omega
          simp only [List.getElem?_cons_zero, Option.some.injEq] at hz
          subst hz; exact le_max_right _ _
    · simp only [raccFrom, List.getElem?_cons_succ] at h
      obtain ⟨h1, h2⟩ := ih _ _ h
      refine ⟨?_, ?_⟩
      · rcases h1 with h1 | ⟨j, hj, hy⟩
        · rcases le_total a x with hle | hle
          · exact .inr ⟨0, by omega, by rw [h1, max_eq_right hle]; rfl⟩
          · exact .inl (by rw [h1, max_eq_left hle])
        · exact .inr ⟨j + 1, by omega, by simpa using hy⟩
      · rintro z (rfl | ⟨j, hj, hz⟩)
        · exact le_trans (le_max_left _ x) (h2 (.inl rfl))
        · rcases j with _ | j
          · simp only [List.getElem?_cons_zero, Option.some.injEq] at hz
            subst hz
            exact le_trans (le_max_right a _) (h2 (.inl rfl))
          · exact h2 (.inr ⟨j, by omega, by simpa using hz⟩)

/-- Entry `k` of the accumulation is the greatest of the first `k + 1` entries. -/
theorem racc_get (l : List ℝ) (k : ℕ) (y : ℝ) (h : (racc l)[k]? = some y) :
    IsGreatest {x | ∃ j ≤ k, l[j]? = some x} y := by
  cases l with
  | nil => simp [racc] at h
  | cons x l =>
    rcases k with _ | k
    · simp only [racc, List.getElem?_cons_zero, Option.some.injEq] at h
      subst h
      refine ⟨⟨0, le_rfl, rfl⟩, ?_⟩
      rintro z ⟨j, hj, hz⟩
      obtain rfl : j = 0 := by omega
      simp only [List.getElem?_cons_zero, Option.some.injEq] at hz
      exact hz.ge
    · simp only [racc, List.getElem?_cons_succ] at h
      obtain ⟨h1, h2⟩ := raccFrom_get _ _ _ _ h
      refine ⟨?_, ?_⟩
      · rcases h1 with h1 | ⟨j, hj, hy⟩
        · exact ⟨0, by omega, by rw [h1]; rfl⟩
        · exact ⟨j + 1, by omega, by simpa using hy⟩
      · rintro z ⟨j, hj, hz⟩
        rcases j with _ | j
        · simp only [List.getElem?_cons_zero, Option.some.injEq] at hz
          exact h2 (.inl hz.symm)
        · exact h2 (.inr ⟨j, by omega, by simpa using hz⟩)

/-! ## argmax of a boolean array -/

theorem argmaxBool_lt {α : Type} (c : α → Prop) (l : List α) (h : l ≠ []) :
    argmaxBool c l < l.length := by
  unfold argmaxBool
  simp only
  split
  · assumption
  · exact List.length_pos_of_ne_nil h

open Classical in
/-- If some entry satisfies `c`, the index is that of the first one. -/
theorem argmaxBool_spec {α : Type} (c : α → Prop) (l : List α) (h : ∃ x ∈ l, c x) :
    ∃ x, l[argmaxBool c l]? = some x ∧ c x ∧
      ∀ j < argmaxBool c l, ∀ y, l[j]? = some y → ¬ c y := by
  have hlt : l.findIdx (fun x => decide (c x)) < l.length := by
    rw [List.findIdx_lt_length]
    obtain ⟨x, hx, hc⟩ := h
    exact ⟨x, hx, by simpa using hc⟩
  have e : argmaxBool c l = l.findIdx fun x => decide (c x) := by
    unfold argmaxBool; exact if_pos hlt
  rw [e]
  refine ⟨_, List.getElem?_eq_getElem hlt, ?_, ?_⟩
  · have := List.findIdx_getElem (w := hlt)
    simpa using this
  · intro j hj y hy hc
    have hjl : j < l.length := by omega
    have := List.not_of_lt_findIdx hj
    rw [List.getElem?_eq_getElem hjl] at hy
    cases hy
    simp [hc] at this

/-! ## The front end, unfolded -/

theorem npmax_ok {l : List XR} (h : l ≠ []) : ∃ m, npmax l = .ok m := by
  obtain ⟨a, l, rfl⟩ := List.exists_cons_of_ne_nil h; exact ⟨_, rfl⟩

theorem check_ok {l : List XR} (h : l ≠ []) : ∃ m, check_for_logmah_vs_mah_mistake l = .ok m := by
  obtain ⟨m, hm⟩ := npmax_ok h
  refine ⟨XR.lt m (XR.fin 1e4), ?_⟩
  unfold check_for_logmah_vs_mah_mistake
  rw [hm]; rfl

open Classical in
/-- The selected points, as computed by the code. -/
noncomputable def selected (t_sim log_mah_sim : List XR) (logm0 lgm_min dlogm_cut t_fit_min : XR) :
    List (XR × XR) :=
  (t_sim.zip log_mah_sim).filter fun q =>
    decide (XR.lt (logm0 - dlogm_cut) q.2 ∧ XR.lt lgm_min q.2 ∧ XR.le t_fit_min q.1)

/-- The clipped log mass of one point. -/
noncomputable def clipLog (lgm_min m : XR) : XR :=
  log10 (jwhere (XR.le m (pow10 lgm_min)) (lit EPSILON + pow10 lgm_min) m)

theorem get_loss_data_eq (f4 : XR → XR) (t_sim mah_sim : List XR) (lgm_min dlogm_cut t_fit_min : XR)
    (npts_min : ℕ) (tp : Option XR) (t_last m_last : XR) (ht : t_sim.getLast? = some t_last)
    (hm : mah_sim.getLast? = some m_last) (hlen : mah_sim.length = t_sim.length) :
    let lm := get_clipped_log_mah mah_sim lgm_min
    let sel := selected t_sim lm (clipLog lgm_min m_last) lgm_min dlogm_cut t_fit_min
    let target := accumulate (sel.map Prod.snd)
    let tt := sel.map fun q => (pow10 (log10 q.1) : XR)
    let d := (DEFAULT_MAH_PARAMS.map XR.fin).map f4
    ∃ tpk, (tp = some tpk ∨ (tp = none ∧
        t_sim[argmaxBool (fun x => xeq x (f4 (clipLog lgm_min m_last))) (lm.map f4)]? = some tpk)) ∧
      get_loss_data f4 t_sim mah_sim lgm_min dlogm_cut t_fit_min npts_min tp = .ok
        (if compute_non_trivial_npts target < npts_min then
          (List.replicate 4 (XR.fin NOFIT_FILL),
            ⟨tt, target, XR.fin NOFIT_FILL, XR.fin NOFIT_FILL⟩, true)
        else
          let u := get_unbounded_mah_params
            (⟨f4 (clipLog lgm_min m_last), d.logtc, d.early_index, d.late_index, f4 tpk⟩ : MahParams XR)
          ([u.u_logm0, u.u_logtc, u.u_early_index, u.u_late_index],
            ⟨tt, target, u.u_t_peak, log10 t_last⟩, false)) := by
  intro lm sel target tt d
  have hne : mah_sim ≠ [] := by rintro rfl; simp at hm
  have htne : t_sim ≠ [] := by rintro rfl; simp at ht
  obtain ⟨w, hw⟩ := check_ok hne
  have hlm : lm.getLast? = some (clipLog lgm_min m_last) := by
    simp only [lm, get_clipped_log_mah, List.getLast?_map, hm, Option.map_some]; rfl
  have hidx : ∃ tpk, (tp = some tpk ∨ (tp = none ∧
      t_sim[argmaxBool (fun x => xeq x (f4 (clipLog lgm_min m_last))) (lm.map f4)]? = some tpk)) := by
    cases tp with
    | some t => exact ⟨t, .inl rfl⟩
    | none =>
      have : argmaxBool (fun x => xeq x (f4 (clipLog lgm_min m_last))) (lm.map f4) < t_sim.length := by
        have h1 : lm.map f4 ≠ [] := by simpa [lm, get_clipped_log_mah] using hne
        have := argmaxBool_lt (fun x => xeq x (f4 (clipLog lgm_min m_last))) _ h1
        simpa [lm, get_clipped_log_mah, hlen] using this
      exact ⟨_, .inr ⟨rfl, List.getElem?_eq_getElem this⟩⟩
  obtain ⟨tpk, htpk⟩ := hidx
  refine ⟨tpk, htpk, ?_⟩
  have htar : get_target_data t_sim lm lgm_min dlogm_cut t_fit_min
      = .ok (sel.map fun q => log10 q.1, target) := by
    unfold get_target_data; rw [hlm]; rfl
  have hlm4 : compute_indx_t_peak_singlehalo (lm.map f4) =
      .ok (argmaxBool (fun x => xeq x (f4 (clipLog lgm_min m_last))) (lm.map f4)) := by
    unfold compute_indx_t_peak_singlehalo
    rw [List.getLast?_map, hlm]; rfl
  have hmap : (sel.map fun q => (log10 q.1 : XR)).map pow10 = tt := by
    simp [tt, List.map_map, Function.comp_def]
  unfold get_loss_data
  simp only [bind, Except.bind, hw]
  simp only [show get_clipped_log_mah mah_sim lgm_min = lm from rfl, htar, hmap]
  split
  · rfl
  · rename_i hn
    simp only [ht, hlm]
    rcases htpk with rfl | ⟨rfl, hi⟩
    · rfl
    · simp only [hlm4, hi]; rfl

theorem get_loss_data_empty (f4 : XR → XR) (t_sim : List XR) (lgm_min dlogm_cut t_fit_min : XR)
    (npts_min : ℕ) (tp : Option XR) :
    get_loss_data f4 t_sim [] lgm_min dlogm_cut t_fit_min npts_min tp = .error .valueError := rfl

end Diffmah.Fit

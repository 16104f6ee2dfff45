import Verif.Lemmas.PopGrad
import Verif.Spec
import Verif.Lemmas.MC

/-!
# When a run of the population loss is regular

Away from ties the recording number system `Reg` computes what the reals compute, with all flags set:
`lit` commutes with each operation under a condition on its arguments.
-/

set_option linter.unusedSectionVars false

namespace Diffmah

open JOps JMinMax JFlow

/-! ### Values before they are clipped -/

namespace PopGrad

open Pop TPeak PopParams MC

section Raw
variable {α : Type} [Add α] [Sub α] [Mul α] [Div α] [JOps α] [JMinMax α]

theorem early_index_eq (s : String) (p : NT α) (l t q : α) : pred_early_index_kern s p l t q =
    early_index_raw s p l t q >>= fun r =>
      pure (clip r (MAH_PBOUNDS.early_index.1 + EPS) (MAH_PBOUNDS.early_index.2 - EPS)) := by
  unfold pred_early_index_kern early_index_raw
  simp only [bind_assoc, pure_bind]

theorem late_index_eq (s : String) (p : NT α) (l : α) : pred_late_index_kern s p l =
    late_index_raw s p l >>= fun r =>
      pure (clip r (MAH_PBOUNDS.late_index.1 + EPS) (MAH_PBOUNDS.late_index.2 - EPS)) := by
  unfold pred_late_index_kern late_index_raw
  simp only [bind_assoc, pure_bind]

theorem logtc_eq (s : String) (p : NT α) (l t q : α) : pred_logtc_kern s p l t q =
    logtc_raw s p l t q >>= fun r =>
      pure (clip r (MAH_PBOUNDS.logtc.1 + EPS) (MAH_PBOUNDS.logtc.2 - EPS)) := by
  unfold pred_logtc_kern logtc_raw
  simp only [bind_assoc, pure_bind]

theorem c0_eq (s : String) (p : NT α) (t q : α) : pred_c0_kern s p t q =
    c0_raw s p t q >>= fun r => pure (jmax r.1 r.2) := by
  unfold pred_c0_kern c0_raw
  simp only [bind_assoc, pure_bind]

theorem c1_eq (s : String) (p : NT α) (t q : α) : pred_c1_kern s p t q =
    c1_raw s p t q >>= fun r => pure (jmax r.1 r.2) := by
  unfold pred_c1_kern c1_raw
  simp only [bind_assoc, pure_bind]

end Raw

end PopGrad

namespace SigHom

open Pop TPeak PopParams MC PopGrad

variable {α β : Type} [Add α] [Sub α] [Mul α] [Div α] [JOps α] [JMinMax α] [JFlow α]
  [Add β] [Sub β] [Mul β] [Div β] [JOps β] [JMinMax β] [JFlow β]
  (h : SigHom α β)

theorem sig_slope (x t y x0 k lo hi : α) : h.φ (Utils.sig_slope x t y x0 k lo hi) =
    Utils.sig_slope (h.φ x) (h.φ t) (h.φ y) (h.φ x0) (h.φ k) (h.φ lo) (h.φ hi) := by
  simp only [Utils.sig_slope, h.add, h.sub, h.mul, h.usigmoid]

theorem frac_early (p : NT α) (l t : α) : frac_early_cens_kern (p.mapv h.φ) (h.φ l) (h.φ t) =
    Except.map h.φ (frac_early_cens_kern p l t) := by
  unfold frac_early_cens_kern; hnat [h.usigmoid, h.lit]

theorem early_raw (s : String) (p : NT α) (l t q : α) :
    early_index_raw s (p.mapv h.φ) (h.φ l) (h.φ t) (h.φ q) = Except.map h.φ (early_index_raw s p l t q) := by
  unfold early_index_raw get_early_index_ylo get_early_index_yhi; hnat [h.usigmoid, h.lit]

theorem late_raw (s : String) (p : NT α) (l : α) :
    late_index_raw s (p.mapv h.φ) (h.φ l) = Except.map h.φ (late_index_raw s p l) := by
  unfold late_index_raw; hnat [h.usigmoid, h.lit]

theorem logtc_raw (s : String) (p : NT α) (l t q : α) :
    PopGrad.logtc_raw s (p.mapv h.φ) (h.φ l) (h.φ t) (h.φ q) =
    Except.map h.φ (PopGrad.logtc_raw s p l t q) := by
  unfold PopGrad.logtc_raw logtc_get_c0
  hnat [h.sig_slope, h.lit, h.add, h.mul, h.sub, bind_assoc, pure_bind]

theorem c0_raw (s : String) (p : NT α) (t q : α) :
    PopGrad.c0_raw s (p.mapv h.φ) (h.φ t) (h.φ q) =
    Except.map (Prod.map h.φ h.φ) (PopGrad.c0_raw s p t q) := by
  unfold PopGrad.c0_raw
  hnat [h.sig_slope, h.lit, h.add, h.mul, h.sub, bind_assoc, pure_bind, Prod.map]

theorem c1_raw (s : String) (p : NT α) (t q : α) :
    PopGrad.c1_raw s (p.mapv h.φ) (h.φ t) (h.φ q) =
    Except.map (Prod.map h.φ h.φ) (PopGrad.c1_raw s p t q) := by
  unfold PopGrad.c1_raw
  hnat [h.sig_slope, h.lit, h.usigmoid, h.add, h.mul, h.sub, bind_assoc, pure_bind, Prod.map]

theorem frac_peaked (p : NT α) (u : List α) (l t : α) :
    frac_peaked_vs_lgm (p.mapv h.φ) (u.map h.φ) (h.φ l) (h.φ t) =
    Except.map (List.map h.φ) (frac_peaked_vs_lgm p u l t) := by
  unfold frac_peaked_vs_lgm get_utp_x0_from_lgm
  hnat [h.usigmoid, h.lit, bind_assoc, pure_bind, List.map_map, Function.comp_def]

theorem utp_loc (p : NT α) (l t : α) : get_utp_loc (p.mapv h.φ) (h.φ l) (h.φ t) =
    Except.map h.φ (get_utp_loc p l t) := by
  unfold get_utp_loc get_utp_loc_lgm_ylo; hnat [h.usigmoid, h.lit, bind_assoc, pure_bind]

theorem utp_scale (p : NT α) (l t : α) : get_utp_scale (p.mapv h.φ) (h.φ l) (h.φ t) =
    Except.map h.φ (get_utp_scale p l t) := by
  unfold get_utp_scale get_utp_scale_lgm_ylo; hnat [h.usigmoid, h.lit, bind_assoc, pure_bind]

theorem cov_params (p : NT α) (l : α) : get_cov_params (p.mapv h.φ) (h.φ l) =
    Except.map (fun q => (q.1.map h.φ, q.2.map h.φ)) (get_cov_params p l) := by
  unfold get_cov_params
  rw [NT.fields_mapv]
  hnat [h.usigmoid, h.lit, List.map_cons, List.map_nil]

end SigHom

namespace Reg

open Pop TPeak PopParams MC PopGrad

/-- A number with its flag set. -/
noncomputable def L (x : ℝ) : Reg := lit x

theorem L_def (x : ℝ) : L x = ⟨x, True⟩ := rfl

theorem eq_L {x : ℝ} {P : Prop} (h : P) : (⟨x, P⟩ : Reg) = L x := by rw [L_def, eq_true h]

theorem add_L (a b : ℝ) : L a + L b = L (a + b) := eq_L (by simp [L_def])
theorem sub_L (a b : ℝ) : L a - L b = L (a - b) := eq_L (by simp [L_def])
theorem mul_L (a b : ℝ) : L a * L b = L (a * b) := eq_L (by simp [L_def])
theorem div_L (a b : ℝ) (h : b ≠ 0) : L a / L b = L (a / b) := eq_L (by simp [L_def, h])
theorem sigm_L (a : ℝ) : sigm (L a) = L (Real.sigmoid a) := rfl
theorem pow10_L (a : ℝ) : pow10 (L a) = L ((10 : ℝ) ^ a) := rfl
theorem ln_L (a : ℝ) (h : 0 < a) : ln (L a) = L (Real.log a) := eq_L (by simp [L_def, h])
theorem log10_L (a : ℝ) (h : 0 < a) : log10 (L a) = L (Real.logb 10 a) := eq_L (by simp [L_def, h])
theorem jmax_L (a b : ℝ) (h : a ≠ b) : jmax (L a) (L b) = L (max a b) := eq_L (by simp [L_def, h])
theorem jmin_L (a b : ℝ) (h : a ≠ b) : jmin (L a) (L b) = L (min a b) := eq_L (by simp [L_def, h])
theorem sqrt_L (a : ℝ) (h : 0 < a) : sqrt (L a) = L (Real.sqrt a) := eq_L (by simp [L_def, h])
theorem whereLt_L (a b x y : ℝ) (h : a ≠ b) : whereLt (L a) (L b) (L x) (L y) = L (whereLt a b x y) :=
  eq_L (by simp [L_def, h])
theorem whereAbsLe_L (a b x y : ℝ) (h : |a| ≠ b) :
    whereAbsLe (L a) (L b) (L x) (L y) = L (whereAbsLe a b x y) :=
  eq_L (by simp [L_def, h])
theorem whereZero_L (a x y : ℝ) (h : a ≠ 0) : whereZero (L a) (L x) (L y) = L (whereZero a x y) :=
  eq_L (by simp [L_def, h])

theorem map_v_L (l : List ℝ) : (l.map L).map Reg.v = l := by
  rw [List.map_map]
  exact List.map_id l

theorem gather_L (x : ℝ) (xp : List ℝ) (k : ℕ → Reg) (k' : ℕ → ℝ)
    (hk : k (countLe x xp) = L (k' (countLe x xp))) (h : ∀ a ∈ xp, a ≠ x) :
    gather (L x) (xp.map L) k = L (gather x xp k') := by
  have e : gather (L x) (xp.map L) k = ⟨(k (countLe (L x).v ((xp.map L).map Reg.v))).v,
      (k (countLe (L x).v ((xp.map L).map Reg.v))).ok ∧ (L x).ok ∧ ∀ a ∈ xp.map L, a.ok ∧ a.v ≠ (L x).v⟩ := rfl
  rw [e, map_v_L]
  change (⟨(k (countLe x xp)).v, (k (countLe x xp)).ok ∧ True ∧ _⟩ : Reg) = _
  rw [hk]
  refine eq_L ⟨trivial, trivial, ?_⟩
  intro a ha
  obtain ⟨b, hb, rfl⟩ := List.mem_map.1 ha
  exact ⟨trivial, h b hb⟩

/-- Numbers with flags are computed by the operations that are differentiable everywhere. -/
noncomputable def sig : SigHom ℝ Reg where
  φ := L
  add a b := (add_L a b).symm
  sub a b := (sub_L a b).symm
  mul a b := (mul_L a b).symm
  lit _ := rfl
  sigm _ := rfl

theorem lit_L (r : ℝ) : (lit r : Reg) = L r := rfl

theorem getD_L (l : List ℝ) (i : ℕ) : (l.map L).getD i (lit 0) = L (l.getD i 0) := by
  rw [List.getD_eq_getElem?_getD, List.getD_eq_getElem?_getD, List.getElem?_map]
  cases l[i]? <;> rfl

theorem clip_L (x lo hi : ℝ) (h1 : x ≠ lo) (h2 : x ≠ hi) (h3 : lo ≠ hi) :
    Pop.clip (L x) lo hi = L (Pop.clip x lo hi) := by
  unfold Pop.clip
  rw [lit_L, lit_L, jmax_L _ _ h1, jmin_L]
  · rfl
  · rcases max_choice x lo with h | h <;> rw [h] <;> assumption

/-- Map under a condition on the value. -/
theorem bind_congr {β γ : Type} {m : Except PyErr β} {f g : β → Except PyErr γ}
    (h : ∀ b, m = .ok b → f b = g b) : m >>= f = m >>= g := by
  cases m with
  | error e => rfl
  | ok b => exact h b rfl

theorem early_index_L (s : String) (p : NT ℝ) (l t q : ℝ)
    (h : ∀ r, early_index_raw s p l t q = .ok r → r ≠ 0.101 ∧ r ≠ 9.999) :
    pred_early_index_kern s (p.mapv L) (L l) (L t) (L q) = Except.map L (pred_early_index_kern s p l t q) := by
  rw [early_index_eq, early_index_eq, exceptMapBind]
  rw [show early_index_raw s (p.mapv L) (L l) (L t) (L q) = _ from sig.early_raw s p l t q, exceptBindMap]
  apply bind_congr
  intro r hr
  rw [exceptMapPure]
  change pure (clip (L r) _ _) = _
  obtain ⟨h1, h2⟩ := h r hr
  rw [clip_L]
  · norm_num [MAH_PBOUNDS, EPS] at h1 ⊢; exact h1
  · norm_num [MAH_PBOUNDS, EPS] at h2 ⊢; exact h2
  · norm_num [MAH_PBOUNDS, EPS]

theorem late_index_L (s : String) (p : NT ℝ) (l : ℝ)
    (h : ∀ r, late_index_raw s p l = .ok r → r ≠ 0.101 ∧ r ≠ 4.999) :
    pred_late_index_kern s (p.mapv L) (L l) = Except.map L (pred_late_index_kern s p l) := by
  rw [late_index_eq, late_index_eq, exceptMapBind]
  rw [show late_index_raw s (p.mapv L) (L l) = _ from sig.late_raw s p l, exceptBindMap]
  apply bind_congr
  intro r hr
  rw [exceptMapPure]
  change pure (clip (L r) _ _) = _
  obtain ⟨h1, h2⟩ := h r hr
  rw [clip_L]
  · norm_num [MAH_PBOUNDS, EPS] at h1 ⊢; exact h1
  · norm_num [MAH_PBOUNDS, EPS] at h2 ⊢; exact h2
  · norm_num [MAH_PBOUNDS, EPS]

theorem logtc_L (s : String) (p : NT ℝ) (l t q : ℝ)
    (h : ∀ r, PopGrad.logtc_raw s p l t q = .ok r → r ≠ -0.999 ∧ r ≠ 0.999) :
    pred_logtc_kern s (p.mapv L) (L l) (L t) (L q) = Except.map L (pred_logtc_kern s p l t q) := by
  rw [logtc_eq, logtc_eq, exceptMapBind]
  rw [show PopGrad.logtc_raw s (p.mapv L) (L l) (L t) (L q) = _ from sig.logtc_raw s p l t q, exceptBindMap]
  apply bind_congr
  intro r hr
  rw [exceptMapPure]
  change pure (clip (L r) _ _) = _
  obtain ⟨h1, h2⟩ := h r hr
  rw [clip_L]
  · norm_num [MAH_PBOUNDS, EPS] at h1 ⊢; exact h1
  · norm_num [MAH_PBOUNDS, EPS] at h2 ⊢; exact h2
  · norm_num [MAH_PBOUNDS, EPS]

theorem c0_L (s : String) (p : NT ℝ) (t q : ℝ) (h : ∀ r, PopGrad.c0_raw s p t q = .ok r → r.1 ≠ r.2) :
    pred_c0_kern s (p.mapv L) (L t) (L q) = Except.map L (pred_c0_kern s p t q) := by
  rw [c0_eq, c0_eq, exceptMapBind]
  rw [show PopGrad.c0_raw s (p.mapv L) (L t) (L q) = _ from sig.c0_raw s p t q, exceptBindMap]
  apply bind_congr
  intro r hr
  change pure (jmax (L r.1) (L r.2)) = _
  rw [jmax_L _ _ (h r hr)]
  rfl

theorem c1_L (s : String) (p : NT ℝ) (t q : ℝ) (h : ∀ r, PopGrad.c1_raw s p t q = .ok r → r.1 ≠ r.2) :
    pred_c1_kern s (p.mapv L) (L t) (L q) = Except.map L (pred_c1_kern s p t q) := by
  rw [c1_eq, c1_eq, exceptMapBind]
  rw [show PopGrad.c1_raw s (p.mapv L) (L t) (L q) = _ from sig.c1_raw s p t q, exceptBindMap]
  apply bind_congr
  intro r hr
  change pure (jmax (L r.1) (L r.2)) = _
  rw [jmax_L _ _ (h r hr)]
  rfl

theorem logm0_L (s : String) (p : NT ℝ) (l t q : ℝ)
    (h0 : ∀ r, PopGrad.c0_raw s p t q = .ok r → r.1 ≠ r.2) (h1 : ∀ r, PopGrad.c1_raw s p t q = .ok r → r.1 ≠ r.2) :
    pred_logm0_kern s (p.mapv L) (L l) (L t) (L q) = Except.map L (pred_logm0_kern s p l t q) := by
  unfold pred_logm0_kern
  rw [c0_L s p t q h0, c1_L s p t q h1]
  simp only [exceptBindMap, exceptMapBind, exceptMapPure, lit_L, add_L, mul_L, sub_L]
  rfl

end Reg

namespace Reg

open Pop TPeak PopParams MC PopGrad

theorem mean_early_L (kind : Kind) (p : NT ℝ) (l t q : ℝ)
    (h : ∀ c, get_component_model_params p = .ok c → MeanNoTies kind c l t q) :
    mean_diffmah_params_early_t_peak kind (p.mapv L) (L l) (L t) (L q) =
    Except.map (MahParams.map L) (mean_diffmah_params_early_t_peak kind p l t q) := by
  unfold mean_diffmah_params_early_t_peak pred_logm0_early
  rw [get_component_model_params_mapv, exceptBindMap, exceptMapBind]
  apply bind_congr
  intro c hc
  have hn := h c hc
  have e1 := early_index_L "_alpha" c.early_index l t q (hn.early_index _ (by simp))
  have e2 := late_index_L "_alpha" c.late_index l (hn.late_index _ (by simp))
  have e3 := logtc_L "_early" c.logtc l t q (hn.logtc _ (by simp))
  cases kind
  · have e4 := logm0_L "_early" c.logm0 l t q (fun r hr => hn.logm0_cens rfl _ (by simp) r (.inl hr))
      (fun r hr => hn.logm0_cens rfl _ (by simp) r (.inr hr))
    simp only [pred_logm0_kern_early, pred_early_index_early, pred_late_index_early, ComponentParams.mapv]
    hnat [e1, e2, e3, e4]
    rfl
  · have e4 := logm0_L "_early_sats" c.logm0_sats l t q (fun r hr => hn.logm0_sats rfl _ (by simp) r (.inl hr))
      (fun r hr => hn.logm0_sats rfl _ (by simp) r (.inr hr))
    simp only [pred_logm0_kern_early_sats, pred_early_index_early, pred_late_index_early, ComponentParams.mapv]
    hnat [e1, e2, e3, e4]
    rfl

theorem mean_late_L (kind : Kind) (p : NT ℝ) (l t q : ℝ)
    (h : ∀ c, get_component_model_params p = .ok c → MeanNoTies kind c l t q) :
    mean_diffmah_params_late_t_peak kind (p.mapv L) (L l) (L t) (L q) =
    Except.map (MahParams.map L) (mean_diffmah_params_late_t_peak kind p l t q) := by
  unfold mean_diffmah_params_late_t_peak pred_logm0_late
  rw [get_component_model_params_mapv, exceptBindMap, exceptMapBind]
  apply bind_congr
  intro c hc
  have hn := h c hc
  have e1 := early_index_L "_beta" c.early_index l t q (hn.early_index _ (by simp))
  have e2 := late_index_L "_beta" c.late_index l (hn.late_index _ (by simp))
  have e3 := logtc_L "_late" c.logtc l t q (hn.logtc _ (by simp))
  cases kind
  · have e4 := logm0_L "_late" c.logm0 l t q (fun r hr => hn.logm0_cens rfl _ (by simp) r (.inl hr))
      (fun r hr => hn.logm0_cens rfl _ (by simp) r (.inr hr))
    simp only [pred_logm0_kern_late, pred_early_index_late, pred_late_index_late, ComponentParams.mapv]
    hnat [e1, e2, e3, e4]
    rfl
  · have e4 := logm0_L "_late_sats" c.logm0_sats l t q (fun r hr => hn.logm0_sats rfl _ (by simp) r (.inl hr))
      (fun r hr => hn.logm0_sats rfl _ (by simp) r (.inr hr))
    simp only [pred_logm0_kern_late_sats, pred_early_index_late, pred_late_index_late, ComponentParams.mapv]
    hnat [e1, e2, e3, e4]
    rfl

/-! ### Peak times -/

theorem linspace_L (a b : ℝ) (n : ℕ) (hn : 1 < n) :
    PopGrad.linspace (L a) (L b) n = (TPeak.linspace a b n).map L := by
  unfold PopGrad.linspace TPeak.linspace
  rw [List.map_map]
  apply List.map_congr_left
  intro i _
  have : ((n : ℝ) - 1) ≠ 0 := by
    have : (1 : ℝ) < n := by exact_mod_cast hn
    linarith
  simp only [Function.comp_apply, lit_L, sub_L, div_L _ _ this, mul_L, add_L]

theorem interp_L (eps x : ℝ) (xp fp : List ℝ) (h : InterpNoTies eps x xp) :
    PopGrad.interp eps (L x) (xp.map L) (fp.map L) = L (TPeak.interp eps x xp fp) := by
  obtain ⟨h0, h1, h2, h3⟩ := h
  have hpos : 0 < xp.length := List.length_pos_iff.2 h1
  have hmem : ∀ i, i < xp.length → xp.getD i 0 ≠ x := by
    intro i hi
    apply h2
    rw [List.getD_eq_getElem?_getD, List.getElem?_eq_getElem hi]
    exact List.getElem_mem hi
  rw [← interp_real]
  unfold PopGrad.interp
  simp only [List.length_map, getD_L]
  rw [gather_L x xp _ (fun c => whereAbsLe (xp.getD (min (max c 1) (xp.length - 1)) 0 -
      xp.getD (min (max c 1) (xp.length - 1) - 1) 0) (lit eps) (fp.getD (min (max c 1) (xp.length - 1) - 1) 0)
      (fp.getD (min (max c 1) (xp.length - 1) - 1) 0 + (x - xp.getD (min (max c 1) (xp.length - 1) - 1) 0) /
        whereAbsLe (xp.getD (min (max c 1) (xp.length - 1)) 0 -
          xp.getD (min (max c 1) (xp.length - 1) - 1) 0) (lit eps) (lit 1) (xp.getD (min (max c 1) (xp.length - 1)) 0 -
          xp.getD (min (max c 1) (xp.length - 1) - 1) 0) *
        (fp.getD (min (max c 1) (xp.length - 1)) 0 - fp.getD (min (max c 1) (xp.length - 1) - 1) 0))) ?_ h2]
  · rw [whereLt_L _ _ _ _ (hmem 0 hpos).symm, whereLt_L _ _ _ _ (hmem _ (by omega))]
    rfl
  · simp only [lit_L, sub_L]
    rw [whereAbsLe_L _ _ _ _ h3, div_L, mul_L, add_L, whereAbsLe_L _ _ _ _ h3]
    · rfl
    · change jwhere (_ ≤ eps) 1 _ ≠ (0 : ℝ)
      unfold jwhere
      split
      · exact one_ne_zero
      · next hh =>
        intro h
        rw [h] at hh
        simp only [abs_zero] at hh
        exact hh h0

theorem rand_bind_congr {β γ : Type} {m : RandM β} {f g : β → RandM γ}
    (h : ∀ b ks, m = .ok (b, ks) → f b = g b) : m >>= f = m >>= g := by
  change RandM.bind m f = RandM.bind m g
  rcases m with e | ⟨b, ks⟩
  · rfl
  · unfold RandM.bind
    simp only
    rw [h b ks rfl]

theorem lift_ok {β : Type} {m : Except PyErr β} {b : β} {ks : List Key} (h : RandM.lift m = .ok (b, ks)) :
    m = .ok b := by
  cases m with
  | error e => cases h
  | ok c => cases h; rfl

variable (ext : Ext) (rng : Rng)

theorem tpeak_cen_L (c : ComponentParams ℝ) (l t : ℝ) (k : Key) (t0 : ℝ)
    (h : DrawNoTies ext rng .cens c l t k) :
    PopGrad.mc_tpeak_singlecen (Env.real ext rng).reg (c.tp_cens.mapv L) (L l) (L t) k (L t0) =
    RandM.map L (PopGrad.mc_tpeak_singlecen (Env.real ext rng) c.tp_cens l t k t0) := by
  unfold PopGrad.mc_tpeak_singlecen
  rw [show (UTP_TABLE.map lit : List Reg) = UTP_TABLE.map L from rfl,
    show (UTP_TABLE.map lit : List ℝ) = UTP_TABLE from List.map_id _,
    show frac_peaked_vs_lgm (c.tp_cens.mapv L) (UTP_TABLE.map L) (L l) (L t) = _ from
      sig.frac_peaked c.tp_cens UTP_TABLE l t, randLiftMap, randBindMap, randMapBind]
  apply rand_bind_congr
  intro tab ks hks
  obtain ⟨h1, h2⟩ := h.cens rfl tab (lift_ok hks)
  rw [randMapBind]
  apply rand_bind_congr
  intro u ks' hu
  have hu' : u = rng.uniform k := by
    have := Except.ok.inj hu
    exact (congrArg Prod.fst this).symm
  subst hu'
  rw [randMapPure]
  change pure (jmax (PopGrad.interp ext.interp_eps (L (rng.uniform k)) (tab.map L) (UTP_TABLE.map L)) (L UTP_MIN) *
    L t0) = _
  rw [interp_L _ _ _ _ h1, jmax_L _ _ h2, mul_L, ← interp_real]
  rfl

theorem table_mem {x a b : ℝ} {n : ℕ} (hn : 1 < n) (hab : a < b) (h : x ∈ TPeak.linspace a b n) :
    a ≤ x ∧ x ≤ b := by
  unfold TPeak.linspace at h
  obtain ⟨i, hi, rfl⟩ := List.mem_map.1 h
  have hi' : i < n := List.mem_range.1 hi
  have h1 : (1 : ℝ) < n := by exact_mod_cast hn
  have h2 : (i : ℝ) ≤ (n : ℝ) - 1 := by
    have : i + 1 ≤ n := hi'
    have : ((i + 1 : ℕ) : ℝ) ≤ n := by exact_mod_cast this
    push_cast at this
    linarith
  have h3 : 0 < (n : ℝ) - 1 := by linarith
  have h4 : 0 ≤ (i : ℝ) := Nat.cast_nonneg i
  have h5 : (i : ℝ) * ((b - a) / ((n : ℝ) - 1)) = (i / ((n : ℝ) - 1)) * (b - a) := by ring
  have h6 : (i : ℝ) / ((n : ℝ) - 1) ≤ 1 := by rw [div_le_one h3]; exact h2
  have h7 : 0 ≤ (i : ℝ) / ((n : ℝ) - 1) := by positivity
  constructor
  · have : 0 ≤ (i : ℝ) / ((n : ℝ) - 1) * (b - a) := mul_nonneg h7 (by linarith)
    rw [h5]; linarith
  · have : (i : ℝ) / ((n : ℝ) - 1) * (b - a) ≤ 1 * (b - a) := mul_le_mul_of_nonneg_right h6 (by linarith)
    rw [h5]; linarith

theorem tpeak_sat_L (c : ComponentParams ℝ) (k : Key) (l t : ℝ) (h : DrawNoTies ext rng .sats c l t k) :
    PopGrad.mc_tpeak_singlesat (Env.real ext rng).reg (c.tp_sats.mapv L) k (L l) (L t) =
    RandM.map L (PopGrad.mc_tpeak_singlesat (Env.real ext rng) c.tp_sats k l t) := by
  unfold PopGrad.mc_tpeak_singlesat
  rw [show get_utp_loc (c.tp_sats.mapv L) (L l) (L t) = _ from sig.utp_loc c.tp_sats l t,
    show get_utp_scale (c.tp_sats.mapv L) (L l) (L t) = _ from sig.utp_scale c.tp_sats l t,
    randLiftMap, randLiftMap, randBindMap, randMapBind]
  apply rand_bind_congr
  intro loc ks hloc
  rw [randBindMap, randMapBind]
  apply rand_bind_congr
  intro scale ks' hscale
  obtain ⟨h1, h2, h3, h4, h5, h6⟩ := h.sats rfl loc scale (lift_ok hloc) (lift_ok hscale)
  rw [randMapBind]
  apply rand_bind_congr
  intro u ks'' hu
  have hu' : u = rng.uniform k := by
    have := Except.ok.inj hu
    exact (congrArg Prod.fst this).symm
  subst hu'
  rw [randMapPure]
  congr 1
  have hs : scale ≠ 0 := h1.ne'
  have e1 : jmax (L loc - lit 4 * L scale) (lit (X_MIN + UTP_EPS)) =
      L (max (loc - 4 * scale) (X_MIN + UTP_EPS)) := by
    rw [lit_L, lit_L, mul_L, sub_L, jmax_L _ _ h4]
  have e2 : jmin (L loc + lit 4 * L scale) (lit (X_MAX - UTP_EPS)) =
      L (min (loc + 4 * scale) (X_MAX - UTP_EPS)) := by
    rw [lit_L, lit_L, mul_L, add_L, jmin_L _ _ h5]
  set a := max (loc - 4 * scale) (X_MIN + UTP_EPS) with ha
  set b := min (loc + 4 * scale) (X_MAX - UTP_EPS) with hb
  have ha1 : X_MIN < a := lt_max_of_lt_right (by norm_num [X_MIN, UTP_EPS])
  have hb1 : b < X_MAX := min_lt_of_right_lt (by norm_num [X_MAX, UTP_EPS])
  have hab : a < b := by
    have : a < loc := max_lt (by linarith) h2
    have : loc < b := lt_min (by linarith) h3
    linarith
  have e3 : ((TPeak.linspace a b NPTS_CDF_TABLE).map L).map (fun x =>
      (Env.real ext rng).reg.truncnorm_cdf x ((lit X_MIN - L loc) / L scale) ((lit X_MAX - L loc) / L scale) (L loc)
        (L scale)) = (tp_cdf_kern ext (TPeak.linspace a b NPTS_CDF_TABLE) loc scale).map L := by
    unfold tp_cdf_kern
    rw [List.map_map, List.map_map]
    apply List.map_congr_left
    intro x hx
    obtain ⟨hx1, hx2⟩ := table_mem (by norm_num [NPTS_CDF_TABLE]) hab hx
    simp only [Function.comp_apply, lit_L, sub_L, div_L _ _ hs]
    refine eq_L ⟨trivial, trivial, trivial, trivial, trivial, h1, ?_, ?_⟩
    · change loc + (X_MIN - loc) / scale * scale < x
      rw [div_mul_cancel₀ _ hs]
      linarith
    · change x < loc + (X_MAX - loc) / scale * scale
      rw [div_mul_cancel₀ _ hs]
      linarith
  have key : PopGrad.interp ext.interp_eps (L (rng.uniform k))
      ((PopGrad.linspace (jmax (L loc - lit 4 * L scale) (lit (X_MIN + UTP_EPS)))
        (jmin (L loc + lit 4 * L scale) (lit (X_MAX - UTP_EPS))) NPTS_CDF_TABLE).map (fun x =>
      (Env.real ext rng).reg.truncnorm_cdf x ((lit X_MIN - L loc) / L scale) ((lit X_MAX - L loc) / L scale) (L loc)
        (L scale)))
      (PopGrad.linspace (jmax (L loc - lit 4 * L scale) (lit (X_MIN + UTP_EPS)))
        (jmin (L loc + lit 4 * L scale) (lit (X_MAX - UTP_EPS))) NPTS_CDF_TABLE) * L t =
      L (TPeak.interp ext.interp_eps (rng.uniform k)
        (tp_cdf_kern ext (TPeak.linspace a b NPTS_CDF_TABLE) loc scale) (TPeak.linspace a b NPTS_CDF_TABLE) * t) := by
    rw [e1, e2, linspace_L _ _ _ (by norm_num [NPTS_CDF_TABLE]), e3, interp_L _ _ _ _ h6, mul_L]
  refine key.trans ?_
  rw [← interp_real]
  rfl

theorem draw_L (kind : Kind) (p : NT ℝ) (l t : ℝ) (k : Key) (t0 : ℝ)
    (h : ∀ c, get_component_model_params p = .ok c → DrawNoTies ext rng kind c l t (Key.child k 2 0)) :
    PopGrad.draw_t_peak (Env.real ext rng).reg kind (p.mapv L) (L l) (L t) k (L t0) =
    RandM.map L (PopGrad.draw_t_peak (Env.real ext rng) kind p l t k t0) := by
  unfold PopGrad.draw_t_peak
  rw [get_component_model_params_mapv, randLiftMap, randBindMap, randMapBind]
  apply rand_bind_congr
  intro c ks hc
  have hn := h c (lift_ok hc)
  cases kind
  · simp only [pow10_L]
    exact tpeak_cen_L ext rng c l t _ _ hn
  · exact tpeak_sat_L ext rng c _ l t hn

/-! ### Scatter -/

theorem cov_L (p : NT ℝ) (l : ℝ)
    (h : ∀ C, PopGrad.get_diffmahpop_cov p l = .ok C → ∀ i j, C i j ≠ 0) :
    PopGrad.get_diffmahpop_cov (p.mapv L) (L l) =
    Except.map (fun s i j => L (s i j)) (PopGrad.get_diffmahpop_cov p l) := by
  have hdef := h
  unfold PopGrad.get_diffmahpop_cov at hdef ⊢
  rw [show get_cov_params (p.mapv L) (L l) = _ from sig.cov_params p l, exceptBindMap, exceptMapBind]
  apply bind_congr
  intro q hq
  rw [hq] at hdef
  obtain ⟨d, o⟩ := q
  have hx : List.replicate (d.map L).length (JOps.lit 1 : Reg) ++ o.map L =
      (List.replicate d.length (JOps.lit 1 : ℝ) ++ o).map L := by
    rw [List.map_append, List.map_replicate, List.length_map]
    rfl
  change (∀ C, (if Utils.chol_ndim (List.replicate d.length (JOps.lit 1 : ℝ) ++ o).length = 4 then
    _ else _) = Except.ok C → _) at hdef
  change (if Utils.chol_ndim (List.replicate (d.map L).length (JOps.lit 1 : Reg) ++ o.map L).length = 4 then
      _ else _) = Except.map _ (if Utils.chol_ndim (List.replicate d.length (JOps.lit 1 : ℝ) ++ o).length = 4 then
      _ else _)
  rw [hx, List.length_map]
  split
  · next hlen =>
    rw [if_pos hlen] at hdef
    have hC := hdef _ rfl
    rw [exceptMapPure]
    congr 1
    funext i j
    change (d.map L).getD i (lit 0) * corr_entry (List.replicate (d.map L).length (lit 1) ++ o.map L) i j *
      (d.map L).getD j (lit 0) = L (d.getD i 0 * corr_entry (List.replicate d.length (lit 1) ++ o) i j * d.getD j 0)
    rw [getD_L, getD_L, ← mul_L, ← mul_L, hx]
    congr 2
    have hij := hC i j
    unfold corr_entry chol_entry at hij ⊢
    simp only [List.length_map, getD_L]
    split
    · rfl
    · next hlt =>
      rw [if_neg hlt] at hij
      split
      · next hji =>
        rw [if_pos hji] at hij
        rw [lit_L, whereZero_L]
        · rfl
        · intro h0
          apply hij
          have : whereZero ((List.replicate d.length (JOps.lit 1 : ℝ) ++ o).getD (Utils.chol_indx
              (Utils.chol_ndim (List.replicate d.length (JOps.lit 1 : ℝ) ++ o).length) i j) (lit 0)) (lit 0)
              ((List.replicate d.length (JOps.lit 1 : ℝ) ++ o).getD (Utils.chol_indx
              (Utils.chol_ndim (List.replicate d.length (JOps.lit 1 : ℝ) ++ o).length) i j) (lit 0)) = (0 : ℝ) := by
            change jwhere (_ = (0 : ℝ)) 0 _ = (0 : ℝ)
            unfold jwhere
            exact if_pos h0
          rw [this, mul_zero, zero_mul]
      · rfl
  · rfl

theorem inv_L (y x0 k lo hi : ℝ) (h1 : lo < y) (h2 : y < hi) (hk : k ≠ 0) :
    inverse_sigmoid (L y) (L x0) (L k) (L lo) (L hi) = L (inverse_sigmoid y x0 k lo hi) := by
  have h3 : 0 < y - lo := by linarith
  have h4 : 0 < (hi - lo) / (y - lo) - 1 := by
    rw [sub_pos, lt_div_iff₀ h3]
    linarith
  unfold inverse_sigmoid
  simp only [lit_L, sub_L, div_L _ _ h3.ne']
  rw [ln_L _ h4, div_L _ _ hk, sub_L]
  rfl

theorem unbounded_param_L (y : ℝ) (b : ℝ × ℝ) (h1 : b.1 < y) (h2 : y < b.2) :
    get_unbounded_diffmah_param (L y) b = L (get_unbounded_diffmah_param y b) := by
  unfold get_unbounded_diffmah_param
  simp only [lit_L, add_L, mul_L]
  rw [inv_L _ _ _ _ _ h1 h2 (by norm_num [BOUNDING_K])]
  rfl

theorem unbounded_mah_L (m : MahParams ℝ) (h : Spec.Valid m) :
    get_unbounded_mah_params (m.map L) = (get_unbounded_mah_params m).map L := by
  obtain ⟨⟨a1, a2, a3, a4, a5, a6, a7, a8, a9, a10⟩, h⟩ := h
  unfold get_unbounded_mah_params get_u_early_late
  simp only [MahParams.map, MahUParams.map]
  rw [unbounded_param_L, unbounded_param_L, unbounded_param_L, unbounded_param_L, lit_L, lit_L, lit_L,
    inv_L _ _ _ _ _ h]
  · rfl
  all_goals (norm_num [MAH_PBOUNDS, BOUNDING_K] at *; try assumption)

theorem bounded_mah_L (u : MahUParams ℝ) :
    get_bounded_mah_params (u.map L) = (get_bounded_mah_params u).map L := by
  unfold get_bounded_mah_params get_early_late get_bounded_diffmah_param sigmoid
  simp only [MahParams.map, MahUParams.map, lit_L, sub_L, mul_L, add_L, sigm_L]
  rfl

theorem scatter_L (k : Key) (m : MahParams ℝ) (C : Fin 4 → Fin 4 → ℝ) (hm : Spec.Valid m)
    (hC : (Matrix.of C).PosDef) :
    PopGrad.scatter (Env.real ext rng).reg k (m.map L) (fun i j => L (C i j)) =
    RandM.map (MahParams.map L) (PopGrad.scatter (Env.real ext rng) k m C) := by
  unfold PopGrad.scatter
  simp only [unbounded_mah_L m hm, MahUParams.map, randMapBind]
  set u := get_unbounded_mah_params m with hu
  have e : (Env.real ext rng).reg.mvn k [L u.u_logm0, L u.u_logtc, L u.u_early_index, L u.u_late_index]
      (fun i j => L (C i j)) =
      ((Env.real ext rng).mvn k [u.u_logm0, u.u_logtc, u.u_early_index, u.u_late_index] C).map L := by
    change List.map _ ((Env.real ext rng).mvn k [u.u_logm0, u.u_logtc, u.u_early_index, u.u_late_index] C) = _
    apply List.map_congr_left
    intro y _
    refine eq_L ⟨?_, fun _ _ => trivial, hC⟩
    intro a ha
    simp only [List.mem_cons, List.not_mem_nil, or_false] at ha
    rcases ha with rfl | rfl | rfl | rfl <;> trivial
  rw [e, ← randMapDraw, randBindMap]
  congr 1
  funext r
  rcases r with _ | ⟨a, _ | ⟨b, _ | ⟨c, _ | ⟨d, _ | ⟨e, r⟩⟩⟩⟩⟩
  · rfl
  · rfl
  · rfl
  · rfl
  · change pure _ = pure _
    congr 1
    exact bounded_mah_L ⟨a, b, c, d, _⟩
  · rfl

/-! ### Histories -/

theorem noq_L (m : MahParams ℝ) (t l : ℝ) (ht : 0 < t) :
    log_mah_noq_kern (m.map L) (L t) (L l) = L (log_mah_noq_kern m t l) := by
  unfold log_mah_noq_kern rolling_plaw_vs_t rolling_plaw_vs_logt power_law_index_vs_logt sigmoid
  simp only [MahParams.map, lit_L, log10_L _ ht, sub_L, mul_L, add_L, sigm_L]
  rfl

theorem log_mah_L (m : MahParams ℝ) (t l : ℝ) (ht : 0 < t) (hp : 0 < m.t_peak) (h : t ≠ m.t_peak) :
    PopGrad.log_mah (m.map L) (L t) (L l) = L (PopGrad.log_mah m t l) := by
  unfold PopGrad.log_mah
  change whereLt (L t) (L m.t_peak) _ (log_mah_noq_kern (m.map L) (L m.t_peak) (L l)) = _
  rw [noq_L _ _ _ ht, noq_L _ _ _ hp, whereLt_L _ _ _ _ h]

end Reg

namespace Reg

open Pop TPeak PopParams MC PopGrad

variable (ext : Ext) (rng : Rng)

theorem mean_params_L (kind : Kind) (p : NT ℝ) (ts : List ℝ) (l t : ℝ) (k : Key) (t0 : ℝ)
    (h : HaloNoTies ext rng kind p ts l t k t0) :
    PopGrad.mean_diffmah_params (Env.real ext rng).reg kind (p.mapv L) (L l) (L t) k (L t0) =
    RandM.map (fun r => (r.1.map L, r.2.1.map L, L r.2.2))
      (PopGrad.mean_diffmah_params (Env.real ext rng) kind p l t k t0) := by
  unfold PopGrad.mean_diffmah_params
  rw [draw_L ext rng kind p l t k t0 h.draw, randBindMap, randMapBind]
  apply rand_bind_congr
  intro tp ks htp
  rw [draw_real] at htp
  rw [mean_early_L kind p l t tp (fun c hc => h.mean c tp ks hc htp), randLiftMap, randBindMap, randMapBind]
  congr 1; funext e
  rw [randBindMap, randMapBind]
  apply rand_bind_congr
  intro tp' ks' htp'
  rw [draw_real] at htp'
  rw [mean_late_L kind p l t tp' (fun c hc => h.mean c tp' ks' hc htp'), randLiftMap, randBindMap, randMapBind]
  congr 1; funext lt
  rw [show frac_early_cens_kern (p.mapv L) (L l) (L t) = _ from sig.frac_early p l t, randLiftMap, randBindMap,
    randMapBind]
  rfl

theorem mean_valid (kind : Kind) (p : NT ℝ) (ts : List ℝ) (l t : ℝ) (k : Key) (t0 : ℝ)
    (h : HaloNoTies ext rng kind p ts l t k t0) {r : MahParams ℝ × MahParams ℝ × ℝ} {ks : List Key}
    (hr : PopGrad.mean_diffmah_params (Env.real ext rng) kind p l t k t0 = .ok (r, ks)) :
    Spec.Valid r.1 ∧ Spec.Valid r.2.1 := by
  unfold PopGrad.mean_diffmah_params at hr
  simp only [draw_real] at hr
  obtain ⟨tp, k1, k2, h1, h2, -⟩ := RandM.bind_inv hr
  obtain ⟨e, k3, k4, h3, h4, -⟩ := RandM.bind_inv h2
  obtain ⟨tp', k5, k6, h5, h6, -⟩ := RandM.bind_inv h4
  obtain ⟨lt, k7, k8, h7, h8, -⟩ := RandM.bind_inv h6
  obtain ⟨f, k9, k10, h9, h10, -⟩ := RandM.bind_inv h8
  have := Except.ok.inj h10
  have hr' : r = (e, lt, f) := (congrArg Prod.fst this).symm
  subst hr'
  exact ⟨h.valid tp k1 e h1 (.inl (lift_ok h3)), h.valid tp' k5 lt h5 (.inr (lift_ok h7))⟩

theorem params_single_L (kind : Kind) (p : NT ℝ) (ts : List ℝ) (l t : ℝ) (k : Key) (t0 : ℝ)
    (h : HaloNoTies ext rng kind p ts l t k t0) :
    PopGrad.mc_diffmah_params_single (Env.real ext rng).reg kind (p.mapv L) (L l) (L t) k (L t0) =
    RandM.map (fun r => (r.1.map L, r.2.1.map L, L r.2.2))
      (PopGrad.mc_diffmah_params_single (Env.real ext rng) kind p l t k t0) := by
  have hcov : ∀ C, PopGrad.get_diffmahpop_cov p l = .ok C → (Matrix.of C).PosDef ∧ ∀ i j, C i j ≠ 0 := by
    intro C hC
    rw [cov_real] at hC
    rcases hD : Pop.get_diffmahpop_cov p l with e | D
    · rw [hD] at hC; cases hC
    · rw [hD] at hC
      cases hC
      exact h.cov D hD
  unfold PopGrad.mc_diffmah_params_single
  rw [mean_params_L ext rng kind p ts l t k t0 h, randBindMap, randMapBind]
  apply rand_bind_congr
  intro r ks hr
  obtain ⟨v1, v2⟩ := mean_valid ext rng kind p ts l t k t0 h hr
  rw [cov_L p l (fun C hC => (hcov C hC).2), randLiftMap, randBindMap, randMapBind]
  apply rand_bind_congr
  intro C ks' hC
  have hpd := (hcov C (lift_ok hC)).1
  rw [scatter_L ext rng _ _ _ v1 hpd, randBindMap, randMapBind]
  congr 1; funext e
  rw [scatter_L ext rng _ _ _ v2 hpd, randBindMap, randMapBind]
  rfl

theorem single_L (kind : Kind) (p : NT ℝ) (ts : List ℝ) (l t : ℝ) (k : Key) (t0 : ℝ) (hts : ∀ t ∈ ts, 0 < t)
    (h : HaloNoTies ext rng kind p ts l t k t0) :
    PopGrad.mc_diffmah_single (Env.real ext rng).reg kind (p.mapv L) (ts.map L) (L l) (L t) k (L t0) =
    RandM.map (fun r => (r.1.map L, r.2.1.map L, L r.2.2))
      (PopGrad.mc_diffmah_single (Env.real ext rng) kind p ts l t k t0) := by
  unfold PopGrad.mc_diffmah_single
  rw [params_single_L ext rng kind p ts l t k t0 h, randBindMap, randMapBind]
  apply rand_bind_congr
  intro r ks hr
  rw [params_single_real] at hr
  obtain ⟨e, lt, f⟩ := r
  obtain ⟨h1, h2, h3⟩ := h.times e lt f ks hr
  rw [randMapPure]
  congr 1
  simp only [List.map_map]
  refine Prod.ext ?_ (Prod.ext ?_ rfl)
  · apply List.map_congr_left
    intro t' ht'
    exact log_mah_L e t' t0 (hts t' ht') h1 (h3 t' ht').1
  · apply List.map_congr_left
    intro t' ht'
    exact log_mah_L lt t' t0 (hts t' ht') h2 (h3 t' ht').2

theorem all_congr {β γ δ : Type} (f : β → γ) (l : List δ) (g : δ → RandM γ) (g' : δ → RandM β)
    (h : ∀ a ∈ l, g a = RandM.map f (g' a)) :
    RandM.all (l.map g) = RandM.map (List.map f) (RandM.all (l.map g')) := by
  rw [← randAllMap]
  congr 1
  exact List.map_congr_left h

theorem sample_L (kind : Kind) (p : NT ℝ) (ts : List ℝ) (l t : ℝ) (k : Key) (t0 : ℝ) (n : ℕ)
    (hts : ∀ t ∈ ts, 0 < t) (h : ∀ k' ∈ k.split n, HaloNoTies ext rng kind p ts l t k' t0) :
    PopGrad.mc_diffmah_halo_sample (Env.real ext rng).reg kind (p.mapv L) (ts.map L) (L l) (L t) k (L t0) n =
    RandM.map (List.map fun r => (r.1.map L, r.2.1.map L, L r.2.2))
      (PopGrad.mc_diffmah_halo_sample (Env.real ext rng) kind p ts l t k t0 n) := by
  unfold PopGrad.mc_diffmah_halo_sample
  apply all_congr
  intro k' hk'
  have h0 : ∀ x : ℝ, x + lit 0 = x := fun x => add_zero x
  simp only [lit_L, add_L, h0]
  rw [show ∀ x : ℝ, x + 0 = x from fun x => add_zero x, show ∀ x : ℝ, x + 0 = x from fun x => add_zero x]
  exact single_L ext rng kind p ts l t k' t0 hts (h k' hk')

theorem foldl_L (l : List ℝ) (a : ℝ) : (l.map L).foldl (· + ·) (L a) = L (l.foldl (· + ·) a) := by
  induction l generalizing a with
  | nil => rfl
  | cons b l ih => rw [List.map_cons, List.foldl_cons, List.foldl_cons, add_L, ih]

theorem jsum_L (l : List ℝ) : PopGrad.jsum (l.map L) = L (PopGrad.jsum l) := by
  unfold PopGrad.jsum
  exact foldl_L l 0

theorem zipWith_L (f : ℝ → ℝ → ℝ) (g : Reg → Reg → Reg) (hfg : ∀ a b, g (L a) (L b) = L (f a b))
    (l m : List ℝ) : List.zipWith g (l.map L) (m.map L) = (List.zipWith f l m).map L := by
  rw [List.zipWith_map, List.map_zipWith]
  simp only [hfg]

theorem moments_L (xe xl f : List ℝ) (h : 0 < (PopGrad.moments xe xl f).2) :
    PopGrad.moments (xe.map L) (xl.map L) (f.map L) = Prod.map L L (PopGrad.moments xe xl f) := by
  have e1 : ∀ c : ℝ, (f.map L).map (fun x => x * (JOps.lit c : Reg)) =
      (f.map fun x => x * JOps.lit c).map L := by
    intro c
    simp only [List.map_map, Function.comp_def, lit_L, mul_L]
    rfl
  have e2 : ∀ c : ℝ, ((f.map L).map (fun x => (JOps.lit 1.0 : Reg) - x)).map (fun x => x * (JOps.lit c : Reg)) =
      ((f.map fun x => JOps.lit 1.0 - x).map fun x => x * JOps.lit c).map L := by
    intro c
    simp only [List.map_map, Function.comp_def, lit_L, mul_L, sub_L]
    rfl
  have e3 : ∀ (m : ℝ) (a b : List ℝ), List.zipWith (fun x w => (x - L m) * (x - L m) * w) (a.map L)
      (b.map L) = (List.zipWith (fun x w => (x - m) * (x - m) * w) a b).map L := by
    intro m a b
    exact zipWith_L _ _ (fun a b => by simp only [mul_L, sub_L]) a b
  have e4 : ∀ (a b : List ℝ), List.zipWith (· * ·) (a.map L) (b.map L) =
      (List.zipWith (· * ·) a b).map L := zipWith_L _ _ mul_L
  unfold PopGrad.moments at h ⊢
  simp only [List.length_map, e1, e2, e4, jsum_L, add_L, e3] at h ⊢
  rw [sqrt_L _ (Real.sqrt_pos.1 h)]
  rfl

theorem predict_L (kind : Kind) (p : NT ℝ) (bin : PopLoss.Bin) (k : Key) (t0 : ℝ)
    (h : BinNoTies ext rng kind p bin k t0) :
    PopGrad.predict_mah_moments_singlebin (Env.real ext rng).reg kind (p.mapv L) (bin.tarr.map L)
      (L bin.lgm_obs) (L bin.t_obs) k (L t0) =
    RandM.map (List.map (Prod.map L L)) (PopGrad.predict_mah_moments_singlebin (Env.real ext rng) kind p bin.tarr
      bin.lgm_obs bin.t_obs k t0) := by
  have hstd : ∀ ms ks, PopGrad.predict_mah_moments_singlebin (Env.real ext rng) kind p bin.tarr
      bin.lgm_obs bin.t_obs k t0 = .ok (ms, ks) → ∀ m ∈ ms, 0 < m.2 := by
    intro ms ks hms
    rw [predict_real] at hms
    have h4 := h.std
    rcases hp : MC.predict_mah_moments_singlebin ext rng kind p bin.tarr bin.lgm_obs bin.t_obs k t0 with e | ⟨ms', ks'⟩
    · rw [hp] at hms; cases hms
    · rw [hp] at hms h4
      have := Except.ok.inj hms
      have hm : ms = ms'.map fun m => (m.1, m.2.1) := (congrArg Prod.fst this).symm
      subst hm
      intro m hm
      obtain ⟨m', hm', rfl⟩ := List.mem_map.1 hm
      exact h4 ms' rfl m' hm'
  unfold PopGrad.predict_mah_moments_singlebin at hstd ⊢
  rw [sample_L ext rng kind p bin.tarr _ _ k t0 _ h.times h.halos, randBindMap, randMapBind]
  apply rand_bind_congr
  intro res ks hres
  rw [hres] at hstd
  have hstd' := hstd _ _ rfl
  rw [randMapPure]
  simp only [List.length_map, List.map_map, Function.comp_def]
  congr 1
  apply List.map_congr_left
  intro it hit
  have := hstd' _ (List.mem_map.2 ⟨it, hit, rfl⟩)
  rw [Prod.ext_iff] at *
  have := moments_L _ _ _ this
  simp only [List.map_map, Function.comp_def] at this
  simp only [getD_L]
  exact Prod.ext_iff.1 this

theorem mse_L (x y : List ℝ) (hx : x ≠ []) : PopGrad.mse (x.map L) (y.map L) = Except.map L (PopGrad.mse x y) := by
  unfold PopGrad.mse
  simp only [List.length_map]
  split
  · next hl =>
    rw [exceptMapOk, zipWith_L (fun a b => b - a) _ (fun a b => sub_L b a), List.map_map]
    have e : ∀ l : List ℝ, l.map ((fun a => a * a) ∘ L) = (l.map fun a => a * a).map L := by
      intro l
      simp only [List.map_map, Function.comp_def, mul_L]
    rw [e, jsum_L, lit_L, div_L]
    · simp only [List.length_map]; rfl
    · have : 0 < x.length := List.length_pos_iff.2 hx
      simp only [List.length_map, List.length_zipWith, ← hl, min_self]
      exact_mod_cast this.ne'
  · rfl

theorem singlebin_L (kind : Kind) (p : NT ℝ) (bin : PopLoss.Bin) (k : Key) (t0 : ℝ)
    (h : BinNoTies ext rng kind p bin k t0) :
    PopGrad.loss_mah_moments_singlebin (Env.real ext rng).reg kind (p.mapv L) bin k t0 =
    RandM.map L (PopGrad.loss_mah_moments_singlebin (Env.real ext rng) kind p bin k t0) := by
  unfold PopGrad.loss_mah_moments_singlebin
  have e0 : ∀ l : List ℝ, (l.map lit : List ℝ) = l := fun l => List.map_id l
  rw [show PopGrad.predict_mah_moments_singlebin (Env.real ext rng).reg kind (p.mapv L) (bin.tarr.map lit)
    (lit bin.lgm_obs) (lit bin.t_obs) k (lit t0) = _ from predict_L ext rng kind p bin k t0 h,
    randBindMap, randMapBind, e0]
  apply rand_bind_congr
  intro preds ks hp
  have hne : preds ≠ [] := by
    unfold PopGrad.predict_mah_moments_singlebin at hp
    obtain ⟨r, k1, k2, -, h2, -⟩ := RandM.bind_inv hp
    have := Except.ok.inj h2
    have hp' := (congrArg Prod.fst this).symm
    simp only at hp'
    rw [hp']
    intro h0
    have : bin.tarr.length = 0 := by simpa using h0
    exact h.nonempty (List.length_eq_zero_iff.1 this)
  have e1 : (preds.map (Prod.map L L)).map (fun p => p.1) = (preds.map fun p => p.1).map L := by
    simp [Function.comp_def]
  have e2 : (preds.map (Prod.map L L)).map (fun p => p.2) = (preds.map fun p => p.2).map L := by
    simp [Function.comp_def]
  rw [e1, e2, e0, e0, show (bin.target_mean_log_mah.map lit : List Reg) = bin.target_mean_log_mah.map L from rfl,
    show (bin.target_std_log_mah.map lit : List Reg) = bin.target_std_log_mah.map L from rfl,
    mse_L _ _ (by simpa using hne), mse_L _ _ (by simpa using hne), randLiftMap, randLiftMap]
  simp only [randBindMap, randMapBind, add_L, randMapPure]

theorem zip_congr {β γ δ ε : Type} (f : β → γ) (l : List δ) (m : List ε) (g : δ → ε → RandM γ) (g' : δ → ε → RandM β)
    (h : ∀ a ∈ l.zip m, g a.1 a.2 = RandM.map f (g' a.1 a.2)) :
    RandM.all (List.zipWith g l m) = RandM.map (List.map f) (RandM.all (List.zipWith g' l m)) := by
  have := all_congr f (l.zip m) (fun q => g q.1 q.2) (fun q => g' q.1 q.2) h
  simp only [List.zip, List.map_zipWith] at this
  exact this

theorem all_length {β : Type} : ∀ (l : List (RandM β)) (bs : List β) (ks : List Key),
    RandM.all l = .ok (bs, ks) → bs.length = l.length := by
  intro l
  induction l with
  | nil => intro bs ks h; cases h; rfl
  | cons a l ih =>
    intro bs ks h
    obtain ⟨b, k1, k2, -, h2, -⟩ := RandM.bind_inv (show (a >>= fun b => RandM.all l >>= fun bs =>
      (pure (b :: bs) : RandM (List β))) = _ from h)
    obtain ⟨bs', k3, k4, h3, h4, -⟩ := RandM.bind_inv h2
    have := congrArg Prod.fst (Except.ok.inj h4)
    simp only at this
    rw [← this, List.length_cons, List.length_cons, ih bs' k3 h3]

theorem multibin_L (kind : Kind) (p : NT ℝ) (bins : List PopLoss.Bin) (k : Key) (t0 : ℝ)
    (h : LossNoTies ext rng kind p bins k t0) :
    PopGrad.loss_mah_moments_multibin (Env.real ext rng).reg kind (p.mapv L) bins k t0 =
    RandM.map L (PopGrad.loss_mah_moments_multibin (Env.real ext rng) kind p bins k t0) := by
  unfold PopGrad.loss_mah_moments_multibin
  rw [zip_congr L bins (k.split bins.length) _ (fun bin k => PopGrad.loss_mah_moments_singlebin (Env.real ext rng) kind p bin k t0)
    (fun a ha => singlebin_L ext rng kind p a.1 a.2 t0 (h.bins a ha)), randBindMap, randMapBind]
  apply rand_bind_congr
  intro losses ks hl
  have hlen := all_length _ _ _ hl
  have hb : 0 < bins.length := List.length_pos_iff.2 h.nonempty
  have : (losses.length : ℝ) ≠ 0 := by
    rw [hlen, List.length_zipWith, Key.split, List.length_map, List.length_range, min_self]
    exact_mod_cast hb.ne'
  rw [randMapPure, jsum_L, lit_L, List.length_map, div_L _ _ this]
  rfl

end Reg

end Diffmah

import Verif.Lemmas.PopGradReg
import Verif.Props.MC
import Verif.Props.Moments

/-!
# Runs of the population loss that meet no tie
-/

set_option linter.unusedSectionVars false

namespace Diffmah

namespace PopGrad

open JOps JMinMax JFlow Pop TPeak PopParams MC

/-- The correlations of the population covariance. -/
def RHOS : List String := ["rho_logtc_logm0", "rho_early_logm0", "rho_early_logtc", "rho_late_logm0",
  "rho_late_logtc", "rho_late_early"]

variable (ext : Ext) (rng : Rng)

theorem haloNoTies_good (hext : ext.Lawful) (hr : rng.Lawful) (kind : Kind) (p : NT ℝ)
    (hp : p.map Prod.fst = FIELDS) (hb : AllInBounds p) (ts : List ℝ) (lgm t_obs : ℝ) (key : Key) (lgt0 : ℝ)
    (hg : GoodInput kind lgm t_obs lgt0 none) (hrho : ∀ q ∈ RHOS, p.lookup q ≠ some 0)
    (hd : ∀ c, get_component_model_params p = .ok c → DrawNoTies ext rng kind c lgm t_obs (Key.child key 2 0))
    (hm : ∀ c tp ks, get_component_model_params p = .ok c →
      MC.draw_t_peak ext rng kind p lgm t_obs key lgt0 = .ok (tp, ks) → MeanNoTies kind c lgm t_obs tp)
    (ht : ∀ tp ks, MC.draw_t_peak ext rng kind p lgm t_obs key lgt0 = .ok (tp, ks) → ∀ t ∈ ts, t ≠ tp) :
    HaloNoTies ext rng kind p ts lgm t_obs key lgt0 := by
  obtain ⟨g1, g2, g3, g4, g5⟩ := id hg
  have g3' : 0 < t_obs := by norm_num at g3; linarith
  obtain ⟨tp, htp, hc, hs⟩ := draw_t_peak_ok ext rng hext kind p hp hb lgm t_obs g3' key lgt0
  have uniq : ∀ tp' ks, MC.draw_t_peak ext rng kind p lgm t_obs key lgt0 = .ok (tp', ks) → tp' = tp := by
    intro tp' ks h
    rw [htp] at h
    exact (RandM.ok_inj h).1
  have hlo : 0.05 < tp := by
    cases kind
    · have := hc rfl; norm_num at *; linarith
    · have := hs rfl; norm_num at *; linarith
  have hhi : tp < 20 := by
    cases kind
    · have := hc rfl; norm_num at *; linarith
    · have := hs rfl; norm_num at *; linarith
  obtain ⟨e, l, f, hmean, he, hl, hf, he', hl'⟩ := mean_t_peak_ok hp hb kind lgm t_obs tp
  have ve := he'.valid g1 g2 g3'.le g4 hlo hhi
  have vl := hl'.valid g1 g2 g3'.le g4 hlo hhi
  refine ⟨hd, hm, ?_, ?_, ?_⟩
  · intro tp' ks m h h'
    rw [uniq tp' ks h] at h'
    rcases h' with h' | h'
    · rw [he] at h'; cases h'; exact ve
    · rw [hl] at h'; cases h'; exact vl
  · intro C hC
    obtain ⟨C', s, h1, h2, h3, h4, -, h6⟩ := C51_covariance p (Or.inr hp) hb.2.2.2.2.2.2.2.2 lgm
    rw [hC] at h1
    cases h1
    have hs0 : ∀ i, s i ≠ 0 := fun i => by have := (h4 i).1; norm_num at this; linarith
    refine ⟨h3, ?_⟩
    have low : ∀ i j : Fin 4, j < i → C i j ≠ 0 := by
      intro i j hij
      have hq : ∃ q, q ∈ RHOS ∧ (i, j, q) ∈ [((1 : Fin 4), (0 : Fin 4), "rho_logtc_logm0"), (2, 0, "rho_early_logm0"),
          (2, 1, "rho_early_logtc"), (3, 0, "rho_late_logm0"), (3, 1, "rho_late_logtc"),
          (3, 2, "rho_late_early")] := by
        fin_cases i <;> fin_cases j <;> simp at hij
        · exact ⟨"rho_logtc_logm0", by simp [RHOS], by simp⟩
        · exact ⟨"rho_early_logm0", by simp [RHOS], by simp⟩
        · exact ⟨"rho_early_logtc", by simp [RHOS], by simp⟩
        · exact ⟨"rho_late_logm0", by simp [RHOS], by simp⟩
        · exact ⟨"rho_late_logtc", by simp [RHOS], by simp⟩
        · exact ⟨"rho_late_early", by simp [RHOS], by simp⟩
      obtain ⟨q, hq1, hq2⟩ := hq
      obtain ⟨rho, hr1, -, hr2⟩ := h6 i j q hq2
      rw [hr2]
      refine mul_ne_zero (mul_ne_zero ?_ (hs0 i)) (hs0 j)
      intro h0
      exact hrho q hq1 (by rw [hr1, h0])
    intro i j
    rcases lt_trichotomy i j with h | h | h
    · rw [← h2.apply i j]
      exact low j i h
    · subst h
      rw [(h4 i).2.2]
      exact pow_ne_zero 2 (hs0 i)
    · exact low i j h
  · intro E L F ks hEL
    obtain ⟨tp2, e2, l2, f2, h1, h2, h3⟩ := mean_res_none ext rng hext kind p hp hb lgm t_obs g3' key lgt0
    rw [uniq tp2 _ h3, hmean] at h2
    cases h2
    obtain ⟨E', L', C, h4, -, h5, h6⟩ := C58_single ext rng hr kind p hp hb lgm t_obs key lgt0 none e l f _ h1 ve vl
    rw [h4] at hEL
    have := (RandM.ok_inj hEL).1
    obtain ⟨rfl, rfl, rfl⟩ : E = E' ∧ L = L' ∧ F = f := by simpa using this
    have a1 : E.t_peak = tp := h5.t_peak.trans he'.t_peak
    have a2 : L.t_peak = tp := h6.t_peak.trans hl'.t_peak
    have hpos : 0 < tp := by norm_num at hlo; linarith
    rw [a1, a2]
    exact ⟨hpos, hpos, fun t h => ⟨ht tp _ htp t h, ht tp _ htp t h⟩⟩

end PopGrad

end Diffmah

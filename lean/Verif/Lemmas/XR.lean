import Verif.Lemmas.Kernels

/-! The special-value interpretation agrees with the reals wherever the reals are defined. -/

namespace Diffmah

open JOps

namespace XR

@[simp] theorem fin_add (a b : ℝ) : (fin a + fin b : XR) = fin (a + b) := rfl
@[simp] theorem fin_sub (a b : ℝ) : (fin a - fin b : XR) = fin (a - b) := by
  change fin (a + -b) = fin (a - b); rw [sub_eq_add_neg]
@[simp] theorem fin_mul (a b : ℝ) : (fin a * fin b : XR) = fin (a * b) := rfl
theorem fin_div {a b : ℝ} (h : b ≠ 0) : (fin a / fin b : XR) = fin (a / b) := if_neg h
theorem fin_div_zero (a : ℝ) : (fin a / fin 0 : XR) = ofSign a := if_pos rfl
theorem ofSign_pos {a : ℝ} (h : 0 < a) : ofSign a = pinf := if_pos h
theorem ofSign_neg {a : ℝ} (h : a < 0) : ofSign a = ninf := by
  unfold ofSign; rw [if_neg (not_lt.2 h.le), if_pos h]
theorem ofSign_zero : ofSign 0 = nan := by simp [ofSign]
@[simp] theorem lit_fin (a : ℝ) : (JOps.lit a : XR) = fin a := rfl
@[simp] theorem sigm_fin (a : ℝ) : (JOps.sigm (fin a) : XR) = fin (Real.sigmoid a) := rfl
@[simp] theorem sigm_ninf : (JOps.sigm ninf : XR) = fin 0 := rfl
@[simp] theorem sigm_pinf : (JOps.sigm pinf : XR) = fin 1 := rfl
@[simp] theorem pow10_fin (a : ℝ) : (JOps.pow10 (fin a) : XR) = fin ((10 : ℝ) ^ a) := rfl
@[simp] theorem pow10_ninf : (JOps.pow10 ninf : XR) = fin 0 := rfl
theorem ln_pos {a : ℝ} (h : 0 < a) : (JOps.ln (fin a) : XR) = fin (Real.log a) := if_pos h
theorem ln_zero : (JOps.ln (fin 0) : XR) = ninf := by
  change ln (fin 0) = _; simp [ln]
theorem ln_neg {a : ℝ} (h : a < 0) : (JOps.ln (fin a) : XR) = nan := by
  change ln (fin a) = _; simp only [ln]; rw [if_neg (not_lt.2 h.le), if_neg h.ne]
theorem log10_pos {a : ℝ} (h : 0 < a) : (JOps.log10 (fin a) : XR) = fin (Real.logb 10 a) := if_pos h
theorem log10_zero : (JOps.log10 (fin 0) : XR) = ninf := by
  change log10 (fin 0) = _; simp [log10]
theorem log10_neg {a : ℝ} (h : a < 0) : (JOps.log10 (fin a) : XR) = nan := by
  change log10 (fin a) = _; simp only [log10]; rw [if_neg (not_lt.2 h.le), if_neg h.ne]
@[simp] theorem lt_fin (a b : ℝ) : (JOps.lt (fin a) (fin b) : Prop) = (a < b) := rfl

@[simp] theorem isFin_fin (a : ℝ) : IsFin (fin a) := trivial
@[simp] theorem not_isFin_nan : ¬ IsFin nan := id
@[simp] theorem not_isFin_pinf : ¬ IsFin pinf := id
@[simp] theorem not_isFin_ninf : ¬ IsFin ninf := id

theorem isFin_iff {x : XR} : IsFin x ↔ ∃ r, x = fin r := by
  cases x with
  | fin r => exact ⟨fun _ => ⟨r, rfl⟩, fun _ => trivial⟩
  | nan => exact ⟨fun h => h.elim, fun ⟨r, h⟩ => by cases h⟩
  | pinf => exact ⟨fun h => h.elim, fun ⟨r, h⟩ => by cases h⟩
  | ninf => exact ⟨fun h => h.elim, fun ⟨r, h⟩ => by cases h⟩

@[simp] theorem nan_add (x : XR) : nan + x = nan := by cases x <;> rfl
@[simp] theorem add_nan (x : XR) : x + nan = nan := by cases x <;> rfl
@[simp] theorem nan_sub (x : XR) : nan - x = nan := by cases x <;> rfl
@[simp] theorem sub_nan (x : XR) : x - nan = nan := by cases x <;> rfl
@[simp] theorem nan_mul (x : XR) : nan * x = nan := by cases x <;> rfl
@[simp] theorem mul_nan (x : XR) : x * nan = nan := by cases x <;> rfl
@[simp] theorem nan_div (x : XR) : nan / x = nan := by cases x <;> rfl
@[simp] theorem div_nan (x : XR) : x / nan = nan := by cases x <;> rfl
@[simp] theorem ln_nan : (JOps.ln nan : XR) = nan := rfl
@[simp] theorem sigm_nan : (JOps.sigm nan : XR) = nan := rfl
@[simp] theorem pow10_nan : (JOps.pow10 nan : XR) = nan := rfl
@[simp] theorem log10_nan : (JOps.log10 nan : XR) = nan := rfl

theorem fin_injective : Function.Injective fin := fun _ _ h => XR.fin.inj h

end XR

open XR

/-- The logistic is finite on finite arguments. -/
theorem sigmoid_fin (x x0 k ylo yhi : ℝ) :
    sigmoid (fin x) (fin x0) (fin k) (fin ylo) (fin yhi) = fin (sigmoid x x0 k ylo yhi) := by
  simp only [sigmoid, fin_sub, fin_mul, sigm_fin, fin_add]; rfl

theorem inverse_sigmoid_fin_in {y x0 k ylo yhi : ℝ} (hk : 0 < k) (h1 : ylo < y) (h2 : y < yhi) :
    inverse_sigmoid (fin y) (fin x0) (fin k) (fin ylo) (fin yhi)
      = fin (inverse_sigmoid y x0 k ylo yhi) := by
  have hy : y - ylo ≠ 0 := by linarith
  have hpos : 0 < (yhi - ylo) / (y - ylo) - 1 := by
    rw [sub_pos, one_lt_div (by linarith)]; linarith
  simp only [inverse_sigmoid, fin_sub, lit_fin, fin_div hy, ln_pos hpos, fin_div hk.ne']
  rfl

theorem inverse_sigmoid_lo {x0 k ylo yhi : ℝ} (hk : 0 < k) (h : ylo < yhi) :
    inverse_sigmoid (fin ylo) (fin x0) (fin k) (fin ylo) (fin yhi) = ninf := by
  have : ofSign (yhi - ylo) = pinf := ofSign_pos (by linarith)
  simp only [inverse_sigmoid, fin_sub, sub_self, fin_div_zero, this]
  change fin x0 - (JOps.ln (pinf - lit 1)) / fin k = ninf
  have e : (pinf - lit 1 : XR) = pinf := rfl
  have e2 : (JOps.ln (pinf : XR) : XR) = pinf := rfl
  have e3 : (pinf / fin k : XR) = pinf := if_neg (not_lt.2 hk.le)
  rw [e, e2, e3]; rfl

theorem inverse_sigmoid_hi {x0 k ylo yhi : ℝ} (hk : 0 < k) (h : ylo < yhi) :
    inverse_sigmoid (fin yhi) (fin x0) (fin k) (fin ylo) (fin yhi) = pinf := by
  have hy : yhi - ylo ≠ 0 := by linarith
  simp only [inverse_sigmoid, fin_sub, fin_div hy, div_self hy, lit_fin, sub_self, ln_zero]
  have e3 : (ninf / fin k : XR) = ninf := if_neg (not_lt.2 hk.le)
  rw [e3]; rfl

theorem inverse_sigmoid_out {y x0 k ylo yhi : ℝ} (h : ylo < yhi) (hy : y < ylo ∨ yhi < y) :
    inverse_sigmoid (fin y) (fin x0) (fin k) (fin ylo) (fin yhi) = nan := by
  have h0 : y - ylo ≠ 0 := by rcases hy with h' | h' <;> intro h'' <;> linarith
  have hneg : (yhi - ylo) / (y - ylo) - 1 < 0 := by
    rcases hy with h' | h'
    · have := div_neg_of_pos_of_neg (show 0 < yhi - ylo by linarith) (show y - ylo < 0 by linarith)
      linarith
    · have := (div_lt_one (show 0 < y - ylo by linarith)).2 (show yhi - ylo < y - ylo by linarith)
      linarith
  simp only [inverse_sigmoid, fin_sub, fin_div h0, lit_fin, ln_neg hneg, nan_div, sub_nan]

/-- The inverse logistic is finite exactly strictly between the asymptotes. -/
theorem inverse_sigmoid_isFin_iff {y x0 k ylo yhi : ℝ} (hk : 0 < k) (h : ylo < yhi) :
    IsFin (inverse_sigmoid (fin y) (fin x0) (fin k) (fin ylo) (fin yhi)) ↔ ylo < y ∧ y < yhi := by
  constructor
  · intro hf
    rcases lt_trichotomy y ylo with h1 | h1 | h1
    · rw [inverse_sigmoid_out h (Or.inl h1)] at hf; exact hf.elim
    · subst h1; rw [inverse_sigmoid_lo hk h] at hf; exact hf.elim
    · rcases lt_trichotomy y yhi with h2 | h2 | h2
      · exact ⟨h1, h2⟩
      · subst h2; rw [inverse_sigmoid_hi hk h] at hf; exact hf.elim
      · rw [inverse_sigmoid_out h (Or.inr h2)] at hf; exact hf.elim
  · rintro ⟨h1, h2⟩
    rw [inverse_sigmoid_fin_in hk h1 h2]; trivial

theorem BOUNDING_K_pos : 0 < BOUNDING_K := by norm_num [BOUNDING_K]

theorem bounded_fin (u : ℝ) (b : ℝ × ℝ) :
    get_bounded_diffmah_param (fin u) b = fin (get_bounded_diffmah_param u b) := by
  simp only [get_bounded_diffmah_param, lit_fin, fin_add, fin_mul, sigmoid_fin]; rfl

theorem unbounded_fin_in {y : ℝ} {b : ℝ × ℝ} (h1 : b.1 < y) (h2 : y < b.2) :
    get_unbounded_diffmah_param (fin y) b = fin (get_unbounded_diffmah_param y b) := by
  simp only [get_unbounded_diffmah_param, lit_fin, fin_add, fin_mul]
  rw [inverse_sigmoid_fin_in BOUNDING_K_pos h1 h2]; rfl

theorem unbounded_isFin_iff {y : ℝ} {b : ℝ × ℝ} (hb : b.1 < b.2) :
    IsFin (get_unbounded_diffmah_param (fin y) b) ↔ b.1 < y ∧ y < b.2 := by
  simp only [get_unbounded_diffmah_param, lit_fin, fin_add, fin_mul]
  exact inverse_sigmoid_isFin_iff BOUNDING_K_pos hb

theorem bounded_params_fin (u : MahUParams ℝ) :
    get_bounded_mah_params (u.map fin) = (get_bounded_mah_params u).map fin := by
  simp only [get_bounded_mah_params, MahUParams.map, MahParams.map, bounded_fin, get_early_late,
    lit_fin, sigmoid_fin]
  rfl

theorem noq_fin (p : MahParams ℝ) {t : ℝ} (ht : 0 < t) (lgt0 : ℝ) :
    log_mah_noq_kern (p.map fin) (fin t) (fin lgt0) = fin (log_mah_noq_kern p t lgt0) := by
  simp only [log_mah_noq_kern, rolling_plaw_vs_t, log10_pos ht, rolling_plaw_vs_logt,
    power_law_index_vs_logt, MahParams.map, lit_fin, sigmoid_fin, fin_sub, fin_mul, fin_add]
  rfl

end Diffmah

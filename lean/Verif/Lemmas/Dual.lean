import Verif.Model.Kernels
import Mathlib.Analysis.SpecialFunctions.Pow.Deriv
import Mathlib.Analysis.SpecialFunctions.Log.Deriv

/-! Soundness of the dual-number interpretation: tangents are derivatives. -/

namespace Diffmah

open JOps

/-- `D` carries the value and the derivative of `f` at `x`. -/
def IsAD (f : ℝ → ℝ) (x : ℝ) (D : Dual) : Prop := D.v = f x ∧ HasDerivAt f D.d x

namespace IsAD

variable {f g : ℝ → ℝ} {x : ℝ} {D E : Dual}

theorem var (x : ℝ) : IsAD (fun y => y) x (Dual.var x) := ⟨rfl, hasDerivAt_id x⟩

theorem const (c x : ℝ) : IsAD (fun _ => c) x (Dual.const c) := ⟨rfl, hasDerivAt_const x c⟩

theorem lit (c x : ℝ) : IsAD (fun _ => JOps.lit c) x (JOps.lit c) := ⟨rfl, hasDerivAt_const x c⟩

theorem add (hf : IsAD f x D) (hg : IsAD g x E) : IsAD (fun y => f y + g y) x (D + E) :=
  ⟨by change D.v + E.v = _; rw [hf.1, hg.1], hf.2.add hg.2⟩

theorem sub (hf : IsAD f x D) (hg : IsAD g x E) : IsAD (fun y => f y - g y) x (D - E) :=
  ⟨by change D.v - E.v = _; rw [hf.1, hg.1], hf.2.sub hg.2⟩

theorem mul (hf : IsAD f x D) (hg : IsAD g x E) : IsAD (fun y => f y * g y) x (D * E) := by
  refine ⟨by change D.v * E.v = _; rw [hf.1, hg.1], ?_⟩
  have := hf.2.mul hg.2
  change HasDerivAt _ (D.d * E.v + D.v * E.d) x
  rw [hf.1, hg.1]; exact this

theorem div (hf : IsAD f x D) (hg : IsAD g x E) (h0 : g x ≠ 0) :
    IsAD (fun y => f y / g y) x (D / E) := by
  refine ⟨by change D.v / E.v = _; rw [hf.1, hg.1], ?_⟩
  have := hf.2.div hg.2 h0
  change HasDerivAt _ ((D.d * E.v - D.v * E.d) / (E.v * E.v)) x
  rw [hf.1, hg.1, ← sq]; exact this

theorem sigm (hf : IsAD f x D) : IsAD (fun y => JOps.sigm (f y)) x (JOps.sigm D) := by
  refine ⟨by change Real.sigmoid D.v = _; rw [hf.1]; rfl, ?_⟩
  have := (Real.hasDerivAt_sigmoid (f x)).comp x hf.2
  change HasDerivAt _ (D.d * (Real.sigmoid D.v * (1 - Real.sigmoid D.v))) x
  rw [hf.1, mul_comm]; exact this

theorem ln (hf : IsAD f x D) (h0 : f x ≠ 0) : IsAD (fun y => JOps.ln (f y)) x (JOps.ln D) := by
  refine ⟨by change Real.log D.v = _; rw [hf.1]; rfl, ?_⟩
  have := hf.2.log h0
  change HasDerivAt _ (D.d / D.v) x
  rw [hf.1]; exact this

theorem log10 (hf : IsAD f x D) (h0 : f x ≠ 0) :
    IsAD (fun y => JOps.log10 (f y)) x (JOps.log10 D) := by
  refine ⟨by change Real.logb 10 D.v = _; rw [hf.1]; rfl, ?_⟩
  have := (hf.2.log h0).div_const (Real.log 10)
  change HasDerivAt _ (D.d / (D.v * Real.log 10)) x
  rw [hf.1, ← div_div]; exact this

theorem pow10 (hf : IsAD f x D) : IsAD (fun y => JOps.pow10 (f y)) x (JOps.pow10 D) := by
  refine ⟨by change (10 : ℝ) ^ D.v = _; rw [hf.1]; rfl, ?_⟩
  have := hf.2.const_rpow (a := 10) (by norm_num)
  change HasDerivAt _ (D.d * ((10 : ℝ) ^ D.v * Real.log 10)) x
  rw [hf.1, show D.d * ((10 : ℝ) ^ f x * Real.log 10) = Real.log 10 * D.d * (10 : ℝ) ^ f x by ring]
  exact this

theorem jwhere {f g a b : ℝ → ℝ} {x : ℝ} {F G A B : Dual} (hf : IsAD f x F) (hg : IsAD g x G)
    (ha : IsAD a x A) (hb : IsAD b x B) (hne : f x ≠ g x) :
    IsAD (fun y => jwhere (lt (f y) (g y)) (a y) (b y)) x (jwhere (lt F G) A B) := by
  have hlt : (lt F G) ↔ f x < g x := by
    change F.v < G.v ↔ _; rw [hf.1, hg.1]
  rcases lt_or_gt_of_ne hne with h | h
  · have e : ∀ᶠ y in nhds x, f y < g y :=
      hf.2.continuousAt.eventually_lt hg.2.continuousAt h
    have e2 : (fun y => Diffmah.jwhere (lt (f y) (g y)) (a y) (b y)) =ᶠ[nhds x] a := by
      filter_upwards [e] with y hy
      exact if_pos hy
    have e3 : Diffmah.jwhere (lt F G) A B = A := if_pos (hlt.2 h)
    rw [e3]
    exact ⟨by rw [ha.1]; exact e2.eq_of_nhds.symm, ha.2.congr_of_eventuallyEq e2⟩
  · have e : ∀ᶠ y in nhds x, g y < f y :=
      hg.2.continuousAt.eventually_lt hf.2.continuousAt h
    have e2 : (fun y => Diffmah.jwhere (lt (f y) (g y)) (a y) (b y)) =ᶠ[nhds x] b := by
      filter_upwards [e] with y hy
      exact if_neg (not_lt.2 hy.le)
    have e3 : Diffmah.jwhere (lt F G) A B = B := if_neg (fun hh => absurd (hlt.1 hh) (not_lt.2 h.le))
    rw [e3]
    exact ⟨by rw [hb.1]; exact e2.eq_of_nhds.symm, hb.2.congr_of_eventuallyEq e2⟩

/-- The kernels' logistic. -/
theorem sigmoid {X X0 K L H : Dual} {fx fx0 fk fl fh : ℝ → ℝ} (hx : IsAD fx x X)
    (hx0 : IsAD fx0 x X0) (hk : IsAD fk x K) (hl : IsAD fl x L) (hh : IsAD fh x H) :
    IsAD (fun y => Diffmah.sigmoid (fx y) (fx0 y) (fk y) (fl y) (fh y)) x
      (Diffmah.sigmoid X X0 K L H) :=
  hl.add ((hh.sub hl).mul ((hk.mul (hx.sub hx0)).sigm))

end IsAD

/-- A parameter tuple varying with one real variable. -/
structure IsADParams (p : ℝ → MahParams ℝ) (x : ℝ) (P : MahParams Dual) : Prop where
  logm0 : IsAD (fun y => (p y).logm0) x P.logm0
  logtc : IsAD (fun y => (p y).logtc) x P.logtc
  early : IsAD (fun y => (p y).early_index) x P.early_index
  late : IsAD (fun y => (p y).late_index) x P.late_index
  t_peak : IsAD (fun y => (p y).t_peak) x P.t_peak

theorem IsADParams.const (p : MahParams ℝ) (x : ℝ) :
    IsADParams (fun _ => p) x (p.map Dual.const) :=
  ⟨IsAD.const _ _, IsAD.const _ _, IsAD.const _ _, IsAD.const _ _, IsAD.const _ _⟩

theorem isAD_log_mah_noq {p : ℝ → MahParams ℝ} {x : ℝ} {P : MahParams Dual}
    (hp : IsADParams p x P) {t l : ℝ → ℝ} {T L : Dual} (ht : IsAD t x T) (hl : IsAD l x L)
    (h0 : t x ≠ 0) :
    IsAD (fun y => log_mah_noq_kern (p y) (t y) (l y)) x (log_mah_noq_kern P T L) := by
  have hlt := ht.log10 h0
  exact ((IsAD.sigmoid hlt hp.logtc (IsAD.lit _ _) hp.early hp.late).mul (hlt.sub hl)).add
    hp.logm0

theorem isAD_mah_noq {p : ℝ → MahParams ℝ} {x : ℝ} {P : MahParams Dual}
    (hp : IsADParams p x P) {t l : ℝ → ℝ} {T L : Dual} (ht : IsAD t x T) (hl : IsAD l x L)
    (h0 : t x ≠ 0) :
    IsAD (fun y => mah_noq_kern (p y) (t y) (l y)) x (mah_noq_kern P T L) :=
  (isAD_log_mah_noq hp ht hl h0).pow10

theorem isAD_log_mah {p : ℝ → MahParams ℝ} {x : ℝ} {P : MahParams Dual}
    (hp : IsADParams p x P) {t l : ℝ → ℝ} {T L : Dual} (ht : IsAD t x T) (hl : IsAD l x L)
    (h0 : t x ≠ 0) (h1 : (p x).t_peak ≠ 0) (hne : t x ≠ (p x).t_peak) :
    IsAD (fun y => log_mah_kern (p y) (t y) (l y)) x (log_mah_kern P T L) :=
  IsAD.jwhere ht hp.t_peak (isAD_log_mah_noq hp ht hl h0) (isAD_log_mah_noq hp hp.t_peak hl h1) hne

end Diffmah

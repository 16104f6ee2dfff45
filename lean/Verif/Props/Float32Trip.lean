import Verif.Lemmas.Float32Trip
import Verif.Lemmas.PopRound
import Verif.Props.Float32Pop

/-!
# C126: from parameters to unbounded parameters and back, in single precision

Over the reals the two transforms undo each other (C13, C14, C47), but only strictly between the bounds. In single
precision the logarithm, the division and the logistic function all round, a parameter on or next to a bound has
an infinite unbounded counterpart, and the two indices are transformed one inside the other. The theorems say how
much of a parameter survives. The converse, from unbounded parameters to parameters and back, has no such bound: all
large unbounded values share one bounded value (C121).
-/

namespace Diffmah.F32

set_option maxRecDepth 10000

open JOps XR Pop TPeak PopBounds

theorem ideal_accurateInverse : @Libm.AccurateInverse ideal := by
  let _ := ideal
  have r1 : rd (fin 1) = fin 1 := by rw [rd_fin (by norm_num), round_rep rep_one]
  have r0 : rd (fin 0) = fin 0 := by rw [rd_fin (by norm_num), round_zero]
  refine ⟨ideal_accurate, r1, r0, fun x h1 h2 => ?_, ?_, rfl⟩
  · have hx : 0 < x := lt_of_lt_of_le (two_zpow_pos _) h1
    have hb := log_bd h1 h2
    refine ⟨round (Real.log x), ?_, ?_⟩
    · change rd (XR.ln (fin x)) = _
      have : XR.ln (fin x) = fin (Real.log x) := ln_pos hx
      rw [this, rd_fin (hb.trans (by norm_num))]
    · refine (round_ε _).trans ?_
      have : (2 : ℝ) ^ (-22 : ℤ) = 4 * ε := by unfold ε; norm_num
      rw [this]
      have := ε_pos
      have := mul_nonneg this.le (abs_nonneg (Real.log x))
      linarith
  · change rd (XR.ln (fin 0)) = _
    have : XR.ln (fin 0) = ninf := ln_zero
    rw [this]; rfl

/-! ## One halo -/

/-- C126. Unbounding the parameters of a halo and bounding them again changes none of them noticeably: the mass,
the early index and the peak time by at most `2^-15`, the late index by `2^-17` and the transition time by `2^-18`.
All parameters within the bounds are covered, on the bounds as well, where the unbounded parameter is infinite, and
equal indices as well. -/
theorem C126_halo_round_trip [Libm] (ha : Libm.AccurateInverse) (logm0 logtc early late t_peak : ℝ)
    (hm0 : 0 ≤ logm0) (hm1 : logm0 ≤ 17) (hc0 : -1 ≤ logtc) (hc1 : logtc ≤ 1)
    (hl0 : round 0.1 ≤ late) (hl1 : late ≤ 5) (he0 : late ≤ early) (he1 : early ≤ 10)
    (ht0 : round 0.05 ≤ t_peak) (ht1 : t_peak ≤ 20) :
    ∃ logm0' logtc' early' late' t_peak' : ℝ,
      get_bounded_mah_params (get_unbounded_mah_params
        ⟨num logm0, num logtc, num early, num late, num t_peak⟩) =
      ⟨num logm0', num logtc', num early', num late', num t_peak'⟩ ∧
      |logm0' - logm0| ≤ 2 ^ (-15 : ℤ) ∧ |logtc' - logtc| ≤ 2 ^ (-18 : ℤ) ∧ |early' - early| ≤ 2 ^ (-15 : ℤ) ∧
      |late' - late| ≤ 2 ^ (-17 : ℤ) ∧ |t_peak' - t_peak| ≤ 2 ^ (-15 : ℤ) := by
  have e0 := ε_pos
  have e1 := ε_small
  have p0 : round (0.0 : ℝ) = 0 := by norm_num [round_zero]
  have p1 : round (1.0 : ℝ) = 1 := by norm_num [round_rep rep_one]
  have pm : round (-1.0 : ℝ) = -1 := by rw [round_neg, p1]
  have n (k : ℕ) (hk : k ≤ 100) : round (k : ℝ) = k := round_rep (rep_nat k (hk.trans (by norm_num)))
  have p17 : round (17.0 : ℝ) = 17 := by have := n 17 (by norm_num); norm_num at this ⊢; exact this
  have p5 : round (5.0 : ℝ) = 5 := by have := n 5 (by norm_num); norm_num at this ⊢; exact this
  have p10 : round (10.0 : ℝ) = 10 := by have := n 10 (by norm_num); norm_num at this ⊢; exact this
  have p20 : round (20.0 : ℝ) = 20 := by have := n 20 (by norm_num); norm_num at this ⊢; exact this
  have rt : round (0.1 : ℝ) = κ := by rw [round_tenth]; rfl
  have k0 := κ_lo
  have k1 := κ_hi
  have E15 : (2 : ℝ) ^ (-15 : ℤ) = 512 * ε := by unfold ε; norm_num
  have E17 : (2 : ℝ) ^ (-17 : ℤ) = 128 * ε := by unfold ε; norm_num
  have E18 : (2 : ℝ) ^ (-18 : ℤ) = 64 * ε := by unfold ε; norm_num
  obtain ⟨m', em, am⟩ := bounded_trip ha (b := MAH_PBOUNDS.logm0) ⟨by norm_num [MAH_PBOUNDS], by norm_num [MAH_PBOUNDS]⟩
    (y := logm0) (by rw [show MAH_PBOUNDS.logm0.1 = 0.0 from rfl, p0]; exact hm0)
    (by rw [show MAH_PBOUNDS.logm0.2 = 17.0 from rfl, p17]; exact hm1)
  obtain ⟨c', ec, ac⟩ := bounded_trip ha (b := MAH_PBOUNDS.logtc) ⟨by norm_num [MAH_PBOUNDS], by norm_num [MAH_PBOUNDS]⟩
    (y := logtc) (by rw [show MAH_PBOUNDS.logtc.1 = -1.0 from rfl, pm]; exact hc0)
    (by rw [show MAH_PBOUNDS.logtc.2 = 1.0 from rfl, p1]; exact hc1)
  obtain ⟨l', el, al⟩ := bounded_trip ha (b := MAH_PBOUNDS.late_index)
    ⟨by norm_num [MAH_PBOUNDS, abs_of_pos], by norm_num [MAH_PBOUNDS]⟩ (y := late) hl0
    (by rw [show MAH_PBOUNDS.late_index.2 = 5.0 from rfl, p5]; exact hl1)
  obtain ⟨t', et, at'⟩ := bounded_trip ha (b := MAH_PBOUNDS.t_peak)
    ⟨by norm_num [MAH_PBOUNDS, abs_of_pos], by norm_num [MAH_PBOUNDS]⟩ (y := t_peak) ht0
    (by rw [show MAH_PBOUNDS.t_peak.2 = 20.0 from rfl, p20]; exact ht1)
  have am' : |m' - logm0| ≤ 512 * ε := am.trans (by norm_num [MAH_PBOUNDS]; linarith)
  have ac' : |c' - logtc| ≤ 64 * ε := ac.trans (by norm_num [MAH_PBOUNDS]; linarith)
  have al' : |l' - late| ≤ 114 * ε := al.trans (by norm_num [MAH_PBOUNDS, abs_of_pos]; linarith)
  have at'' : |t' - t_peak| ≤ 512 * ε := at'.trans (by norm_num [MAH_PBOUNDS, abs_of_pos]; linarith)
  have W5 : 2 ^ (-10 : ℤ) ≤ 10 - late := by
    have : (2 : ℝ) ^ (-10 : ℤ) ≤ 1 := by norm_num
    linarith
  obtain ⟨s, hs1, hs2, hs3⟩ := trip_core ha (x0 := 0) (by norm_num) he0 he1 W5 (by linarith)
  have b1 := abs_le.1 al'
  have la : |l'| ≤ 5.01 := abs_le.2 ⟨by linarith only [b1.1, e1, k0, hl0, rt], by linarith only [b1.2, e1, hl1]⟩
  have wa : |10 - l'| ≤ 9.91 :=
    abs_le.2 ⟨by linarith only [b1.2, e1, hl1], by linarith only [b1.1, e1, k0, hl0, rt]⟩
  obtain ⟨e', ee, ae⟩ := trip_out (lo' := l') (δ := 114 * ε) hs2 hs3 al' (by linarith) (by norm_num)
  have ae' : |e' - early| ≤ 512 * ε := by
    refine ae.trans ?_
    have m1 := mul_le_mul_of_nonneg_left (show 10 - late ≤ 9.9001 by linarith) e0.le
    have m2 := mul_le_mul_of_nonneg_left wa e0.le
    have m3 := mul_le_mul_of_nonneg_left la e0.le
    linarith only [m1, m2, m3, e0]
  refine ⟨m', c', e', l', t', ?_, ?_, ?_, ?_, ?_, ?_⟩
  · have early : sigmoid (inverse_sigmoid (num early) (lit 0.0) (lit BOUNDING_K) (num late)
        (lit MAH_PBOUNDS.early_index.2)) (lit 0.0) (lit BOUNDING_K) (num l') (lit MAH_PBOUNDS.early_index.2) = num e' := by
      have z : (lit 0.0 : F32) = num 0 := by rw [lit_fin (by norm_num), p0]; rfl
      have t : (lit MAH_PBOUNDS.early_index.2 : F32) = num 10 := by
        rw [show MAH_PBOUNDS.early_index.2 = 10.0 from rfl, lit_fin (by norm_num [abs_of_pos]), p10]; rfl
      rw [z, t, show (BOUNDING_K : ℝ) = 0.1 from rfl, lit_κ]
      unfold sigmoid
      simp only
      rw [hs1]; exact ee
    unfold get_bounded_mah_params get_unbounded_mah_params get_early_late get_u_early_late
    simp only
    rw [em, ec, el, et, early]
  · rw [E15]; exact am'
  · rw [E18]; exact ac'
  · rw [E15]; exact ae'
  · rw [E17]; exact al'.trans (by linarith)
  · rw [E15]; exact at''

/-- The hypotheses of `C126_halo_round_trip` are met: by the default parameters, rounded, and by a halo on three of its
bounds. -/
example : ∃ L : Libm, @Libm.AccurateInverse L ∧
    (∃ logm0 logtc early late t_peak : ℝ, logm0 = round DEFAULT_MAH_PARAMS.logm0 ∧ 0 ≤ logm0 ∧ logm0 ≤ 17 ∧
      logtc = round DEFAULT_MAH_PARAMS.logtc ∧ -1 ≤ logtc ∧ logtc ≤ 1 ∧ early = round DEFAULT_MAH_PARAMS.early_index ∧
      late = round DEFAULT_MAH_PARAMS.late_index ∧ round 0.1 ≤ late ∧ late ≤ 5 ∧ late ≤ early ∧ early ≤ 10 ∧
      t_peak = round DEFAULT_MAH_PARAMS.t_peak ∧ round 0.05 ≤ t_peak ∧ t_peak ≤ 20) ∧
    ((0 : ℝ) ≤ 17 ∧ (17 : ℝ) ≤ 17 ∧ (-1 : ℝ) ≤ -1 ∧ (-1 : ℝ) ≤ 1 ∧ round 0.1 ≤ (5 : ℝ) ∧ (5 : ℝ) ≤ 5 ∧ (5 : ℝ) ≤ 5 ∧
      (5 : ℝ) ≤ 10 ∧ round 0.05 ≤ (20 : ℝ) ∧ (20 : ℝ) ≤ 20) := by
  have n (k : ℕ) (hk : k ≤ 100) : Rep (k : ℝ) := rep_nat k (hk.trans (by norm_num))
  refine ⟨ideal, ideal_accurateInverse, ⟨_, _, _, _, _, rfl, ?_, ?_, rfl, ?_, ?_, rfl, rfl, ?_, ?_, ?_, ?_, rfl, ?_, ?_⟩,
    by norm_num, le_rfl, le_rfl, by norm_num, round_le (by norm_num) (by exact_mod_cast n 5 (by norm_num)), le_rfl, le_rfl,
    by norm_num, round_le (by norm_num) (by exact_mod_cast n 20 (by norm_num)), le_rfl⟩
  · exact le_round (by norm_num [DEFAULT_MAH_PARAMS]) (by exact_mod_cast n 0 (by norm_num))
  · exact round_le (by norm_num [DEFAULT_MAH_PARAMS]) (by exact_mod_cast n 17 (by norm_num))
  · exact le_round (by norm_num [DEFAULT_MAH_PARAMS]) (rep_neg rep_one)
  · exact round_le (by norm_num [DEFAULT_MAH_PARAMS]) rep_one
  · exact round_mono (by norm_num [DEFAULT_MAH_PARAMS])
  · exact round_le (by norm_num [DEFAULT_MAH_PARAMS]) (by exact_mod_cast n 5 (by norm_num))
  · exact round_mono (by norm_num [DEFAULT_MAH_PARAMS])
  · exact round_le (by norm_num [DEFAULT_MAH_PARAMS]) (by exact_mod_cast n 10 (by norm_num))
  · exact round_mono (by norm_num [DEFAULT_MAH_PARAMS])
  · exact round_le (by norm_num [DEFAULT_MAH_PARAMS]) (by exact_mod_cast n 20 (by norm_num))

/-! ## Populations -/

/-- A component module with both transforms, on binary32 numbers. -/
structure TripModel32 where
  /-- default parameters, and (name, (lower, upper)) bounds -/
  comp : Component
  /-- `get_bounded_*_params` -/
  bounded : NT F32 → Except PyErr (NT F32)
  /-- `get_unbounded_*_params` -/
  unbounded : NT F32 → Except PyErr (NT F32)

/-- All modules with such a pair (except `late_index_bimod`, see C48). -/
noncomputable def TRIP_MODELS32 [Libm] : List TripModel32 :=
  COMPONENTS32.map (fun c => ⟨c, c.get_bounded, c.get_unbounded⟩) ++ [
    ⟨LOGTC_BIMOD, logtc_bimod_get_bounded, logtc_bimod_get_unbounded⟩,
    ⟨EARLY_INDEX_BIMOD, early_index_bimod_get_bounded, early_index_bimod_get_unbounded⟩,
    ⟨LOGM0_BIMOD, logm0_bimod_get_bounded, logm0_bimod_get_unbounded⟩,
    ⟨LOGM0_BIMOD_SATS, logm0_bimod_sats_get_bounded, logm0_bimod_sats_get_unbounded⟩,
    ⟨M0POP LGM0_C0_EARLY LGM0_C1_EARLY, m0pop_get_bounded LGM0_C0_EARLY LGM0_C1_EARLY,
      m0pop_get_unbounded LGM0_C0_EARLY LGM0_C1_EARLY⟩,
    ⟨M0POP LGM0_C0_LATE LGM0_C1_LATE, m0pop_get_bounded LGM0_C0_LATE LGM0_C1_LATE,
      m0pop_get_unbounded LGM0_C0_LATE LGM0_C1_LATE⟩,
    ⟨M0POP LGM0_C0_EARLY_SATS LGM0_C1_EARLY_SATS, m0pop_get_bounded LGM0_C0_EARLY_SATS LGM0_C1_EARLY_SATS,
      m0pop_get_unbounded LGM0_C0_EARLY_SATS LGM0_C1_EARLY_SATS⟩,
    ⟨M0POP LGM0_C0_LATE_SATS LGM0_C1_LATE_SATS, m0pop_get_bounded LGM0_C0_LATE_SATS LGM0_C1_LATE_SATS,
      m0pop_get_unbounded LGM0_C0_LATE_SATS LGM0_C1_LATE_SATS⟩]

/-- `p` has the module's names, and each of its values is a number between the rounded bounds. -/
def InRange32 (c : Component) (p : NT F32) : Prop :=
  p.map Prod.fst = c.pdict.map Prod.fst ∧
  ∀ b ∈ c.bounds, ∃ y : ℝ, p.lookup b.1 = some (num y) ∧ round b.2.1 ≤ y ∧ y ≤ round b.2.2

/-- `p'` has the names of `p`, and each of its values is within `2^-19` of the width of its range, and `2^-23` of its
lower bound, of the value in `p`. -/
def Near32 (c : Component) (p p' : NT F32) : Prop :=
  p'.map Prod.fst = p.map Prod.fst ∧
  ∀ b ∈ c.bounds, ∃ y y' : ℝ, p.lookup b.1 = some (num y) ∧ p'.lookup b.1 = some (num y') ∧
    |y' - y| ≤ 2 ^ (-19 : ℤ) * (b.2.2 - b.2.1) + 2 ^ (-23 : ℤ) * |b.2.1|

theorem comp_trip [Libm] (ha : Libm.AccurateInverse) {c : Component} (h : c.Wf) (hg : ∀ b ∈ c.bounds, Wide b.2)
    {p : NT F32} (hp : InRange32 c p) :
    ∃ u p', c.get_unbounded p = .ok u ∧ c.get_bounded u = .ok p' ∧ Near32 c p p' := by
  obtain ⟨hf, hv⟩ := hp
  have hpf : p.fields = c.fields := hf
  have hv1 := NT.getattrs_fields (p := p) (by rw [hpf]; exact h.nodup)
  rw [hpf] at hv1
  have hu := get_unbounded_eq h hv1
  have huf := get_unbounded_fields h hu
  obtain ⟨p', hp', hpf', -⟩ := comp_lookup h huf
  refine ⟨_, p', hu, hp', ?_, fun b hb => ?_⟩
  · exact hpf'.trans hpf.symm
  obtain ⟨y, hy, h1, h2⟩ := hv b hb
  obtain ⟨x, hx, hxu⟩ := get_unbounded_lookup h hu (n := b.1) (b := b.2) hb
  obtain ⟨z, hz, hzp⟩ := get_bounded_lookup h hp' (n := b.1) (b := b.2) hb
  rw [hxu] at hz
  rw [hy] at hx
  cases hx; cases hz
  obtain ⟨y', e, a⟩ := bounded_trip ha (hg b hb) h1 h2
  refine ⟨y, y', hy, by rw [hzp]; exact congrArg some e, a.trans ?_⟩
  have E19 : (2 : ℝ) ^ (-19 : ℤ) = 32 * ε := by unfold ε; norm_num
  have E23 : (2 : ℝ) ^ (-23 : ℤ) = 2 * ε := by unfold ε; norm_num
  rw [E19, E23]
  have e0 := ε_pos
  have m1 := mul_nonneg e0.le (abs_nonneg b.2.1)
  have m2 := mul_nonneg e0.le (show 0 ≤ b.2.2 - b.2.1 by linarith [(h.lt b hb)])
  linarith only [m1, m2]

theorem wide {lo hi : ℝ} (h1 : -20 ≤ lo) (h2 : lo ≤ 20) (h4 : hi ≤ 100) (h5 : 1 / 32 ≤ hi - lo) :
    Wide (lo, hi) :=
  ⟨by have := abs_le.2 ⟨h1, h2⟩; have := abs_le.2 ⟨(by linarith : -100 ≤ hi), h4⟩; simp only; linarith, h5⟩

local macro "wide_tac" : tactic => `(tactic| (
  simp only [withSuffix, List.map_cons, List.map_nil, List.forall_mem_cons, List.not_mem_nil, false_imp_iff,
    implies_true, and_true]
  repeat' apply And.intro
  all_goals exact wide (by norm_num) (by norm_num) (by norm_num) (by norm_num)))

theorem wide_early (sfx : String) : ∀ b ∈ EARLY_INDEX_BOUNDS_PDICT sfx, Wide b.2 := by
  unfold EARLY_INDEX_BOUNDS_PDICT; wide_tac
theorem wide_late (sfx : String) : ∀ b ∈ LATE_INDEX_BOUNDS_PDICT sfx, Wide b.2 := by
  unfold LATE_INDEX_BOUNDS_PDICT; wide_tac
theorem wide_logtc (sfx : String) : ∀ b ∈ LOGTC_BOUNDS_PDICT sfx, Wide b.2 := by
  unfold LOGTC_BOUNDS_PDICT; wide_tac
theorem wide_c0 (sfx : String) : ∀ b ∈ LGM0POP_C0_BOUNDS_DICT sfx, Wide b.2 := by
  unfold LGM0POP_C0_BOUNDS_DICT; wide_tac
theorem wide_c1 (sfx : String) : ∀ b ∈ LGM0POP_C1_BOUNDS_DICT sfx, Wide b.2 := by
  unfold LGM0POP_C1_BOUNDS_DICT; wide_tac

theorem components_wide : ∀ c ∈ COMPONENTS32, ∀ b ∈ c.bounds, Wide b.2 := by
  simp only [COMPONENTS32, List.forall_mem_cons (l := _ :: _), List.forall_mem_cons (l := [])]
  refine ⟨?_, ?_, ?_, wide_early _, wide_early _, wide_early _, wide_late _, wide_late _, wide_logtc _, wide_logtc _,
    wide_c0 _, wide_c1 _, wide_c0 _, wide_c1 _, wide_c0 _, wide_c1 _, wide_c0 _, wide_c1 _, ?_, ?_, ?_, ?_, by simp⟩
  · unfold COV COV_X0_BOUNDS RHO_BOUNDS STD_BOUNDS; wide_tac
  · unfold FTPT0 FTPT0_BOUNDS; wide_tac
  · unfold FEC F_BOUNDS; wide_tac
  · unfold TPCENS; wide_tac
  · unfold TPSATS; wide_tac
  · unfold UTP X_MIN X_MAX UTP_EPS; wide_tac
  · unfold TPCENS_OLD; wide_tac

theorem wide_app {c d : Component} (h1 : ∀ b ∈ c.bounds, Wide b.2) (h2 : ∀ b ∈ d.bounds, Wide b.2) :
    ∀ b ∈ (c.app d).bounds, Wide b.2 := by
  intro b hb
  rcases List.mem_append.1 hb with hb | hb
  · exact h1 b hb
  · exact h2 b hb

theorem m0pop_trip [Libm] (ha : Libm.AccurateInverse) {c0 c1 : Component} (h0 : c0.Wf) (h1 : c1.Wf)
    (h : (c0.fields ++ c1.fields).Nodup) (g0 : ∀ b ∈ c0.bounds, Wide b.2) (g1 : ∀ b ∈ c1.bounds, Wide b.2)
    {p : NT F32} (hp : InRange32 (M0POP c0 c1) p) :
    ∃ u p', m0pop_get_unbounded c0 c1 p = .ok u ∧ m0pop_get_bounded c0 c1 u = .ok p' ∧ Near32 (M0POP c0 c1) p p' := by
  have e : M0POP c0 c1 = c0.app c1 := merge2 h0 h1 h
  have e1 : ∀ u : NT F32, m0pop_get_bounded c0 c1 u = (M0POP c0 c1).get_bounded u := by
    intro u; unfold m0pop_get_bounded
    rw [e]; exact bimod2_bounded h0 h1 h u
  have e2 : m0pop_get_unbounded c0 c1 p = (M0POP c0 c1).get_unbounded p := by
    unfold m0pop_get_unbounded
    rw [e]; exact bimod2_unbounded h0 h1 h p
  simp only [e1, e2]
  exact comp_trip ha (by rw [e]; exact h0.app h1 h) (by rw [e]; exact wide_app g0 g1) hp

/-- C126, populations. For every module, and every set of its parameters within the rounded bounds (bounds included),
the transform to unbounded parameters succeeds, the transform back succeeds on its result, and no parameter has
moved by more than `2^-19` of the width of its range plus `2^-23` of its lower bound. -/
theorem C126_population_round_trip [Libm] (ha : Libm.AccurateInverse) : ∀ m ∈ TRIP_MODELS32, ∀ p : NT F32,
    InRange32 m.comp p → ∃ u p', m.unbounded p = .ok u ∧ m.bounded u = .ok p' ∧ Near32 m.comp p p' := by
  intro m hm p hp
  have g := components_wide
  rcases List.mem_append.1 hm with hm | hm
  · obtain ⟨c, hc, rfl⟩ := List.mem_map.1 hm
    exact comp_trip ha (components_wf c hc) (g c hc) hp
  · simp only [List.mem_cons, List.not_mem_nil, or_false] at hm
    rcases hm with rfl | rfl | rfl | rfl | rfl | rfl | rfl | rfl
    · obtain ⟨u, p', h1, h2, h3⟩ := comp_trip ha LOGTC_BIMOD_wf (by
        rw [LOGTC_BIMOD_eq]
        exact wide_app (g _ (by simp [COMPONENTS32])) (g _ (by simp [COMPONENTS32]))) hp
      exact ⟨u, p', (logtc_bimod_unbounded_eq p).trans h1, (logtc_bimod_bounded_eq u).trans h2, h3⟩
    · obtain ⟨u, p', h1, h2, h3⟩ := comp_trip ha EARLY_INDEX_BIMOD_wf (by
        rw [EARLY_INDEX_BIMOD_eq]
        exact wide_app (g _ (by simp [COMPONENTS32])) (g _ (by simp [COMPONENTS32]))) hp
      exact ⟨u, p', (early_index_bimod_unbounded_eq p).trans h1, (early_index_bimod_bounded_eq u).trans h2, h3⟩
    · obtain ⟨u, p', h1, h2, h3⟩ := comp_trip ha LOGM0_BIMOD_wf (by
        rw [LOGM0_BIMOD_eq]
        exact wide_app (wide_app (g _ (by simp [COMPONENTS32])) (g _ (by simp [COMPONENTS32])))
          (wide_app (g _ (by simp [COMPONENTS32])) (g _ (by simp [COMPONENTS32])))) hp
      exact ⟨u, p', (logm0_bimod_unbounded_eq p).trans h1, (logm0_bimod_bounded_eq u).trans h2, h3⟩
    · obtain ⟨u, p', h1, h2, h3⟩ := comp_trip ha LOGM0_BIMOD_SATS_wf (by
        rw [LOGM0_BIMOD_SATS_eq]
        exact wide_app (wide_app (g _ (by simp [COMPONENTS32])) (g _ (by simp [COMPONENTS32])))
          (wide_app (g _ (by simp [COMPONENTS32])) (g _ (by simp [COMPONENTS32])))) hp
      exact ⟨u, p', (logm0_bimod_sats_unbounded_eq p).trans h1, (logm0_bimod_sats_bounded_eq u).trans h2, h3⟩
    · exact m0pop_trip ha LGM0_C0_EARLY_wf LGM0_C1_EARLY_wf LGM0_EARLY_nodup
        (g _ (by simp [COMPONENTS32])) (g _ (by simp [COMPONENTS32])) hp
    · exact m0pop_trip ha LGM0_C0_LATE_wf LGM0_C1_LATE_wf LGM0_LATE_nodup
        (g _ (by simp [COMPONENTS32])) (g _ (by simp [COMPONENTS32])) hp
    · exact m0pop_trip ha LGM0_C0_EARLY_SATS_wf LGM0_C1_EARLY_SATS_wf LGM0_EARLY_SATS_nodup
        (g _ (by simp [COMPONENTS32])) (g _ (by simp [COMPONENTS32])) hp
    · exact m0pop_trip ha LGM0_C0_LATE_SATS_wf LGM0_C1_LATE_SATS_wf LGM0_LATE_SATS_nodup
        (g _ (by simp [COMPONENTS32])) (g _ (by simp [COMPONENTS32])) hp

/-- The hypotheses of `C126_population_round_trip` are met: by a set of peak-time parameters, two of them on their
bounds. -/
example : ∃ (L : Libm) (p : NT F32), @Libm.AccurateInverse L ∧ InRange32 TPCENS_OLD p ∧
    p.lookup "tpck_scale_mh_lo" = some (num (round 0.1)) ∧ p.lookup "tpck_scale_mh_hi" = some (num (round 0.9)) := by
  refine ⟨ideal, [("tpck_scale_boost_early", num (round 0.314)), ("tpck_scale_mh_lo", num (round 0.1)),
    ("tpck_scale_mh_hi", num (round 0.9))], ideal_accurateInverse, ⟨rfl, ?_⟩, rfl, rfl⟩
  unfold TPCENS_OLD
  simp only [List.forall_mem_cons, List.not_mem_nil, false_imp_iff, implies_true, and_true]
  exact ⟨⟨_, rfl, round_mono (by norm_num), round_mono (by norm_num)⟩,
    ⟨_, rfl, round_mono (by norm_num), round_mono (by norm_num)⟩,
    ⟨_, rfl, round_mono (by norm_num), round_mono (by norm_num)⟩⟩

end Diffmah.F32

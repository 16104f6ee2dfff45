import Verif.Props.MCDep

/-!
# Peak times fed back into the generators (C110)

A caller who fixes the peak times of a population gets the haloes that the generator would have made
with those peak times drawn. In particular, calling the generator again with the same key and the
peak times it returned reproduces the population exactly.
-/

set_option maxRecDepth 10000

namespace Diffmah

open Pop TPeak PopParams MC

variable (ext : Ext) (rng : Rng)

/-- C110. One halo: whatever peak time the generator draws, passing it as the halo's peak time, with
the same key, gives the same early draw, the same late draw and the same early fraction; and the
peak time that was drawn is the one of both draws. -/
theorem C110_one_halo (hext : ext.Lawful) (hr : rng.Lawful) (kind : Kind) (p : NT ℝ)
    (hp : p.map Prod.fst = FIELDS) (hb : AllInBounds p) (lgm t_obs : ℝ) (key : Key) (lgt0 : ℝ)
    (hg : GoodInput kind lgm t_obs lgt0 none) :
    ∃ E L f tp, (mc_diffmah_params_single ext rng kind p lgm t_obs key lgt0 none).val? = some (E, L, f) ∧
      (draw_t_peak ext rng kind p lgm t_obs key lgt0).val? = some tp ∧ E.t_peak = tp ∧ L.t_peak = tp ∧
      (mc_diffmah_params_single ext rng kind p lgm t_obs key lgt0 (some tp)).val? = some (E, L, f) := by
  obtain ⟨e, l, f, ks, hm, he, hl⟩ := good_mean ext rng hext kind p hp hb lgm t_obs key lgt0 none hg
  have ht : 0 < t_obs := by have := hg.2.2.1; norm_num at this; linarith
  obtain ⟨tp, e1, l1, f1, h1, h2, h3⟩ := mean_res_none ext rng hext kind p hp hb lgm t_obs ht key lgt0
  rw [hm] at h1
  obtain ⟨h1, -⟩ := RandM.ok_inj h1
  obtain ⟨rfl, rfl, rfl⟩ : e1 = e ∧ l1 = l ∧ f1 = f := by simpa using h1
  obtain ⟨e2, l2, f2, h4, h5⟩ := mean_res_some ext rng kind p hp hb lgm t_obs key lgt0 tp
  rw [h2] at h5
  obtain ⟨rfl, rfl, rfl⟩ : e1 = e2 ∧ l1 = l2 ∧ f1 = f2 := by simpa using Except.ok.inj h5
  obtain ⟨e3, l3, f3, h7, -, -, -, he3, hl3⟩ := mean_t_peak_ok hp hb kind lgm t_obs tp
  rw [h2] at h7
  obtain ⟨rfl, rfl, rfl⟩ : e1 = e3 ∧ l1 = l3 ∧ f1 = f3 := by simpa using Except.ok.inj h7
  obtain ⟨E, L, C, g1, -, g2, g3⟩ := C58_single ext rng hr kind p hp hb lgm t_obs key lgt0 none e1 l1 f1 ks hm he hl
  have g1' := g1
  unfold mc_diffmah_params_single at g1'
  obtain ⟨r, k1, k2, g4, g5, -⟩ := RandM.bind_inv g1'
  rw [hm] at g4
  obtain ⟨rfl, -⟩ := RandM.ok_inj g4
  have g6 : mc_diffmah_params_single ext rng kind p lgm t_obs key lgt0 (some tp)
      = Except.ok ((E, L, f1), [] ++ k2) := by
    unfold mc_diffmah_params_single
    exact RandM.bind_of h4 g5
  refine ⟨E, L, f1, tp, by rw [g1]; rfl, by rw [h3]; rfl, g2.t_peak.trans he3.t_peak,
    g3.t_peak.trans hl3.t_peak, by rw [g6]; rfl⟩

/-- C110. Populations: generating a population and generating it again with the same key and the peak
times of the first one give the same haloes, the same early and late samples, the same early
fractions and the same choices between early and late. -/
theorem C110_population (hext : ext.Lawful) (hr : rng.Lawful) (kind : Kind) (p : NT ℝ)
    (hp : p.map Prod.fst = FIELDS) (hb : AllInBounds p) (lgm t_obs : List ℝ) (key : Key) (lgt0 : ℝ)
    (h1 : t_obs.length = lgm.length)
    (hg : ∀ i < lgm.length, GoodInput kind (lgm.getD i 0) (t_obs.getD i 0) lgt0 none) :
    ∃ pop, (mc_diffmah_pop ext rng kind p lgm t_obs key lgt0 none).val? = some pop ∧
      (mc_diffmah_pop ext rng kind p lgm t_obs key lgt0 (some pop.mah_params.t_peak)).val? = some pop := by
  obtain ⟨pop, ks, hpop, hlen, hval⟩ := C58_in_range ext rng hext hr kind p hp hb lgm t_obs key lgt0 none h1
    (by simp) (by simpa using hg)
  obtain ⟨-, -, -, hml, -⟩ := C59_early_or_late ext rng hr kind p lgm t_obs key lgt0 _ pop ks hpop
  obtain ⟨rows, kss, l1, -, -, g1, g2, g3, g4, g5, g6, -⟩ := pop_inv ext rng hpop
  have htl : pop.mah_params.t_peak.length = lgm.length := by
    rw [g6]
    simp only [stack, List.length_map]
    exact whereArr_length _ _ _ lgm.length hml (by simp [l1]) (by simp [l1])
  have hrow : ∀ i < lgm.length, ∃ r, rows[i]? = some r ∧ 
      (mc_diffmah_params_single ext rng kind p (lgm.getD i 0) (t_obs.getD i 0)
        (Key.child (Key.child key 2 1) lgm.length i) lgt0 (some (pop.mah_params.t_peak.getD i 0))).val? = some r ∧
      0.05 < pop.mah_params.t_peak.getD i 0 ∧ pop.mah_params.t_peak.getD i 0 < 20 := by
    intro i hi
    obtain ⟨r, k, hr', -, hs⟩ := g1 i hi
    obtain ⟨E, L, f, tp, q1, -, q2, q3, q4⟩ := C110_one_halo ext rng hext hr kind p hp hb (lgm.getD i 0)
      (t_obs.getD i 0) (Key.child (Key.child key 2 1) lgm.length i) lgt0 (hg i hi)
    have q1' : r = (E, L, f) := by
      have : (mc_diffmah_params_single ext rng kind p (lgm.getD i 0) (t_obs.getD i 0)
        (Key.child (Key.child key 2 1) lgm.length i) lgt0 none).val? = some r := by
        rw [show mc_diffmah_params_single ext rng kind p (lgm.getD i 0) (t_obs.getD i 0)
          (Key.child (Key.child key 2 1) lgm.length i) lgt0 none = Except.ok (r, k) from hs]; rfl
      rw [this] at q1
      exact Option.some.inj q1
    subst q1'
    obtain ⟨b, hb'⟩ : ∃ b, pop.mc_early[i]? = some b := ⟨_, List.getElem?_eq_getElem (by omega)⟩
    have hw := whereArr_getElem (x := rows.map fun r => r.1) (y := rows.map fun r => r.2.1) hb'
      (by simp [hr']; rfl) (by simp [hr']; rfl)
    have hx : (if b then E else L).t_peak = tp := by cases b <;> [exact q3; exact q2]
    have hrw : pop.mah_params.rows[i]? = some (if b then E else L) := by
      rw [g6, stack_rows]; exact hw
    have hv := hval _ (List.mem_of_getElem? hrw)
    have htp : pop.mah_params.t_peak.getD i 0 = tp := by
      have : pop.mah_params.t_peak[i]? = some tp := by
        rw [g6]; simp only [stack, List.getElem?_map, hw, Option.map_some, hx]
      simp [List.getD, this]
    refine ⟨(E, L, f), hr', by rw [htp]; exact q4, ?_, ?_⟩
    · rw [htp, ← hx]; exact hv.tpeak_lo
    · rw [htp, ← hx]; exact hv.tpeak_hi
  refine ⟨pop, by rw [hpop]; rfl, ?_⟩
  obtain ⟨pop', ks', hpop', -⟩ := C58_in_range ext rng hext hr kind p hp hb lgm t_obs key lgt0
    (some pop.mah_params.t_peak) h1 (by simpa using htl) fun i hi => by
      obtain ⟨r, -, -, q1, q2⟩ := hrow i hi
      obtain ⟨a1, a2, a3, a4, -⟩ := hg i hi
      exact ⟨a1, a2, a3, a4, q1, q2⟩
  obtain ⟨rows', kss', l1', -, -, g1', g2', g3', g4', g5', g6', -⟩ := pop_inv ext rng hpop'
  have hrows : rows' = rows := by
    apply List.ext_getElem?
    intro i
    by_cases hi : i < lgm.length
    · obtain ⟨r, q1, q2, -⟩ := hrow i hi
      obtain ⟨r', k', q3, -, q4⟩ := g1' i hi
      rw [q1, q3]
      have : (mc_diffmah_params_single ext rng kind p (lgm.getD i 0) (t_obs.getD i 0)
        (Key.child (Key.child key 2 1) lgm.length i) lgt0 (some (pop.mah_params.t_peak.getD i 0))).val? = some r' := by
        rw [show mc_diffmah_params_single ext rng kind p (lgm.getD i 0) (t_obs.getD i 0)
          (Key.child (Key.child key 2 1) lgm.length i) lgt0 (some (pop.mah_params.t_peak.getD i 0))
            = Except.ok (r', k') from q4]; rfl
      rw [← this, q2]
    · rw [List.getElem?_eq_none (by omega), List.getElem?_eq_none (by omega)]
  subst hrows
  have : pop' = pop := by
    obtain ⟨a1, a2, a3, a4, a5⟩ := pop
    obtain ⟨b1, b2, b3, b4, b5⟩ := pop'
    simp only at g2 g3 g4 g5 g6 g2' g3' g4' g5' g6'
    rw [g6, g6', g2, g2', g3, g3', g4, g4', g5, g5']
  rw [hpop', this]; rfl

/-- The hypotheses can be met by populations of any size, of centrals and of satellites. -/
example (n : ℕ) : ∃ (ext : Ext) (rng : Rng) (p : NT ℝ) (lgm t_obs : List ℝ), ext.Lawful ∧ rng.Lawful ∧
    p.map Prod.fst = FIELDS ∧ AllInBounds p ∧ lgm.length = n ∧ t_obs.length = lgm.length ∧
    (∀ i < lgm.length, GoodInput .cens (lgm.getD i 0) (t_obs.getD i 0) 1 none) ∧
    (∀ i < lgm.length, GoodInput .sats (lgm.getD i 0) (t_obs.getD i 0) 1 none) := by
  obtain ⟨ext, hext⟩ := ext_lawful_exists
  obtain ⟨p, hp, hb⟩ := exists_allInBounds
  refine ⟨ext, ⟨fun _ => 0, fun _ n => List.replicate n 0, fun _ m _ => m⟩, p, List.replicate n 12,
    List.replicate n 10, hext, ⟨?_, ?_, ?_, ?_⟩, hp, hb, by simp, by simp, ?_, ?_⟩
  · simp
  · simp
  · intro k n x hx; rw [List.eq_of_mem_replicate hx]; norm_num
  · simp
  all_goals
    intro i hi
    rw [List.length_replicate] at hi
    simp only [List.getD_replicate _ hi]
    norm_num [GoodInput]

end Diffmah

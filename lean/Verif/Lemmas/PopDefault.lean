import Verif.Props.PopParams
import Verif.Lemmas.MC

/-!
# The default parameters of the population model
-/

namespace Diffmah

open Pop TPeak PopParams

/-- Default parameters and bounds agree in names, and each default lies inside its bounds. -/
def Pop.Component.Inside (c : Component) : Prop :=
  List.Forall₂ (fun kv b => kv.1 = b.1 ∧ b.2.1 < kv.2 ∧ kv.2 < b.2.2) c.pdict c.bounds

theorem Pop.Component.Inside.app {c d : Component} (hc : c.Inside) (hd : d.Inside) : (c.app d).Inside :=
  List.rel_append hc hd

theorem lookup_of_mem {l : NT ℝ} (hn : l.fields.Nodup) {k : String} {v : ℝ} (h : (k, v) ∈ l) :
    l.lookup k = some v := by
  induction l with
  | nil => simp at h
  | cons a l ih =>
    obtain ⟨k', v'⟩ := a
    have hn' : k' ∉ l.map Prod.fst ∧ (NT.fields l).Nodup := List.nodup_cons.1 hn
    rcases List.mem_cons.1 h with h | h2
    · cases h; simp
    · have hk : k ≠ k' := by
        rintro rfl
        exact hn'.1 (List.mem_map_of_mem (f := Prod.fst) h2)
      rw [List.lookup_cons, show (k == k') = false by simpa using hk]
      exact ih hn'.2 h2

theorem Pop.Component.Inside.bounded {c : Component} (hc : c.Inside) (hn : c.fields.Nodup) :
    Spec.Bounded c.bounds c.pdict := by
  intro b hb
  obtain ⟨i, hi, rfl⟩ := List.getElem_of_mem hb
  have hl := hc.length_eq
  obtain ⟨h1, h2, h3⟩ := (List.forall₂_iff_get.1 hc).2 i (by omega) hi
  refine ⟨(c.pdict[i]'(by omega)).2, ?_, h2, h3⟩
  apply lookup_of_mem hn
  simp only [List.get_eq_getElem] at h1
  rw [← h1]
  exact List.getElem_mem _

theorem TPCENS_inside : TPCENS.Inside := by unfold Pop.Component.Inside TPCENS; norm_num
theorem TPSATS_inside : TPSATS.Inside := by unfold Pop.Component.Inside TPSATS; norm_num
theorem FEC_inside : FEC.Inside := by unfold Pop.Component.Inside FEC F_BOUNDS; norm_num
theorem COV_inside : COV.Inside := by
  unfold Pop.Component.Inside COV STD_BOUNDS RHO_BOUNDS COV_X0_BOUNDS; norm_num
theorem LOGTC_EARLY_inside : LOGTC_EARLY.Inside := by
  unfold Pop.Component.Inside LOGTC_EARLY LOGTC_BOUNDS_PDICT withSuffix; norm_num
theorem LOGTC_LATE_inside : LOGTC_LATE.Inside := by
  unfold Pop.Component.Inside LOGTC_LATE LOGTC_BOUNDS_PDICT withSuffix; norm_num
theorem EARLY_INDEX_ALPHA_inside : EARLY_INDEX_ALPHA.Inside := by
  unfold Pop.Component.Inside EARLY_INDEX_ALPHA EARLY_INDEX_BOUNDS_PDICT withSuffix; norm_num
theorem EARLY_INDEX_BETA_inside : EARLY_INDEX_BETA.Inside := by
  unfold Pop.Component.Inside EARLY_INDEX_BETA EARLY_INDEX_BOUNDS_PDICT withSuffix; norm_num
theorem LATE_INDEX_ALPHA_inside : LATE_INDEX_ALPHA.Inside := by
  unfold Pop.Component.Inside LATE_INDEX_ALPHA LATE_INDEX_BOUNDS_PDICT withSuffix; norm_num
theorem LATE_INDEX_BETA_inside : LATE_INDEX_BETA.Inside := by
  unfold Pop.Component.Inside LATE_INDEX_BETA LATE_INDEX_BOUNDS_PDICT withSuffix; norm_num

theorem lgm0_c0_inside (s : String) {a b c d e : ℝ} (h : 0.01 < a ∧ a < 0.4 ∧ -0.15 < b ∧ b < -0.05 ∧
    0.5 < c ∧ c < 0.9 ∧ -0.1 < d ∧ d < -0.01 ∧ 1.5 < e ∧ e < 6) : (lgm0pop_c0 s a b c d e).Inside := by
  obtain ⟨h1, h2, h3, h4, h5, h6, h7, h8, h9, h10⟩ := h
  norm_num at h1 h2 h3 h4 h5 h6 h7 h8 h9 h10
  unfold Pop.Component.Inside lgm0pop_c0 LGM0POP_C0_BOUNDS_DICT withSuffix
  norm_num
  exact ⟨⟨h1, h2⟩, ⟨h3, h4⟩, ⟨h5, h6⟩, ⟨h7, h8⟩, h9, h10⟩

theorem lgm0_c1_inside (s : String) {a b c d e f : ℝ} (h : 0.001 < a ∧ a < 0.1 ∧ -0.05 < b ∧ b < -0.001 ∧
    4 < c ∧ c < 11 ∧ 0.02 < d ∧ d < 0.15 ∧ 0.001 < e ∧ e < 0.05 ∧ 3 < f ∧ f < 10) :
    (lgm0pop_c1 s a b c d e f).Inside := by
  obtain ⟨h1, h2, h3, h4, h5, h6, h7, h8, h9, h10, h11, h12⟩ := h
  norm_num at h1 h2 h3 h4 h5 h6 h7 h8 h9 h10 h11 h12
  unfold Pop.Component.Inside lgm0pop_c1 LGM0POP_C1_BOUNDS_DICT withSuffix
  norm_num
  exact ⟨⟨h1, h2⟩, ⟨h3, h4⟩, ⟨h5, h6⟩, ⟨h7, h8⟩, ⟨h9, h10⟩, h11, h12⟩

theorem catAll_inside {l : List Component} (h : ∀ c ∈ l, c.Inside) : (catAll l).Inside := by
  induction l with
  | nil => exact List.Forall₂.nil
  | cons c l ih =>
    rw [catAll_cons]
    exact (h c (by simp)).app (ih fun d hd => h d (by simp [hd]))

theorem FULL_inside : FULL.Inside := by
  apply catAll_inside
  simp only [NINE, List.forall_mem_cons, List.not_mem_nil, false_imp_iff, implies_true, and_true]
  rw [LOGM0_BIMOD_eq, LOGM0_BIMOD_SATS_eq, LOGTC_BIMOD_eq, EARLY_INDEX_BIMOD_eq, LATE_INDEX_BIMOD_eq]
  refine ⟨TPCENS_inside, TPSATS_inside,
    ((lgm0_c0_inside _ (by norm_num)).app (lgm0_c1_inside _ (by norm_num))).app
      ((lgm0_c0_inside _ (by norm_num)).app (lgm0_c1_inside _ (by norm_num))),
    ((lgm0_c0_inside _ (by norm_num)).app (lgm0_c1_inside _ (by norm_num))).app
      ((lgm0_c0_inside _ (by norm_num)).app (lgm0_c1_inside _ (by norm_num))),
    LOGTC_EARLY_inside.app LOGTC_LATE_inside, EARLY_INDEX_ALPHA_inside.app EARLY_INDEX_BETA_inside,
    LATE_INDEX_ALPHA_inside.app LATE_INDEX_BETA_inside, FEC_inside, COV_inside⟩

/-- The default parameters lie inside their bounds. -/
theorem default_inBounds : AllInBounds DEFAULT_DIFFMAHPOP_PARAMS := by
  rw [allInBounds_iff, DEFAULT_eq]
  exact FULL_inside.bounded FULL_nodup

/-- The components of the default parameters. -/
noncomputable def DEFAULT_COMPONENTS : ComponentParams ℝ where
  tp_cens := TPCENS.pdict
  tp_sats := TPSATS.pdict
  logm0 := LOGM0_BIMOD.pdict
  logm0_sats := LOGM0_BIMOD_SATS.pdict
  logtc := LOGTC_BIMOD.pdict
  early_index := EARLY_INDEX_BIMOD.pdict
  late_index := LATE_INDEX_BIMOD.pdict
  fec := FEC.pdict
  cov := COV.pdict

theorem flatten_inj {α : Type} : ∀ {l l' : List (List α)}, l.map List.length = l'.map List.length →
    l.flatten = l'.flatten → l = l'
  | [], [], _, _ => rfl
  | [], _ :: _, h, _ => by simp at h
  | _ :: _, [], h, _ => by simp at h
  | a :: l, b :: l', h, h' => by
    simp only [List.map_cons, List.cons.injEq, List.flatten_cons] at h h'
    obtain ⟨h1, h2⟩ := List.append_inj h' h.1
    rw [h1, flatten_inj h.2 h2]

theorem default_components : get_component_model_params DEFAULT_DIFFMAHPOP_PARAMS = .ok DEFAULT_COMPONENTS := by
  obtain ⟨c, h1, h2, h3⟩ := C50_partition DEFAULT_DIFFMAHPOP_PARAMS rfl
  rw [h1]
  have h4 : c.toList = DEFAULT_COMPONENTS.toList := by
    apply flatten_inj
    · have := congrArg (List.map List.length) h3
      rw [List.map_map, List.map_map] at this
      have e : (List.length ∘ fun d : NT ℝ => d.map Prod.fst) = List.length := by funext d; simp
      rw [e] at this
      exact this
    · rw [h2]
      exact C50_no_collision.2.2
  apply congrArg Except.ok
  simp only [ComponentParams.toList, List.cons.injEq, and_true] at h4
  obtain ⟨a1, a2, a3, a4, a5, a6, a7, a8, a9⟩ := h4
  exact ComponentParams.ext a1 a2 a3 a4 a5 a6 a7 a8 a9

end Diffmah

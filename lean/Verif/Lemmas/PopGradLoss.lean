import Verif.Lemmas.PopGradCov
import Verif.Lemmas.PopGradWit
import Verif.Lemmas.PopGradWitLoss

/-!
# Lemmas for the gradients of the population losses
-/

namespace Diffmah

namespace PopGrad

open JOps JMinMax JFlow Pop TPeak PopParams MC

section
variable {ext : Ext} {rng : Rng} {ED : Env Dual}

theorem regular_multibin (kind : Kind) (p : NT ℝ) (bins : List PopLoss.Bin) (k : Key) (lgt0 l : ℝ)
    (hl : (PopLoss.loss_mah_moments_multibin ext rng kind p bins k lgt0).val? = some l)
    (hn : LossNoTies ext rng kind p bins k lgt0) :
    ∃ ks, loss_mah_moments_multibin (Env.real ext rng).reg kind (p.mapv lit) bins k lgt0 = .ok (Reg.L l, ks) := by
  have h := Reg.multibin_L ext rng kind p bins k lgt0 hn
  rw [multibin_real] at h
  change loss_mah_moments_multibin (Env.real ext rng).reg kind (p.mapv lit) bins k lgt0 = _ at h
  rw [h]
  rcases hr : PopLoss.loss_mah_moments_multibin ext rng kind p bins k lgt0 with e | ⟨a, ks⟩
  · rw [hr] at hl; cases hl
  · rw [hr] at hl
    cases hl
    exact ⟨ks, rfl⟩

theorem regular_params (u p : NT ℝ) (hp : params_of_u_params u = .ok p) :
    params_of_u_params (u.mapv lit : NT Reg) = .ok (p.mapv lit) := by
  have := Reg.sig.params_of_u_params u
  rw [hp] at this
  exact this

theorem censat_val (p q : NT ℝ) (bc bs : List PopLoss.Bin) (k : Key) (lgt0 l : ℝ)
    (hq : DEFAULT_DIFFMAHPOP_PARAMS.replace p = .ok q)
    (hl : (PopLoss.loss_mah_moments_multibin_censat ext rng p bc bs k lgt0).val? = some l)
    (hc : LossNoTies ext rng .cens q bc (Key.child k 2 0) lgt0)
    (hs : LossNoTies ext rng .sats q bs (Key.child k 2 1) lgt0) :
    Regular (loss_mah_moments_multibin_censat (Env.real ext rng).reg (p.mapv lit) bc bs k lgt0) := by
  rcases hr : PopLoss.loss_mah_moments_multibin_censat ext rng p bc bs k lgt0 with e | ⟨a, ks⟩
  · rw [hr] at hl; cases hl
  unfold PopLoss.loss_mah_moments_multibin_censat at hr
  obtain ⟨q', k1, k2, h1, h2, -⟩ := RandM.bind_inv hr
  rw [hq] at h1
  cases h1
  obtain ⟨lc, k3, k4, h3, h4, -⟩ := RandM.bind_inv h2
  obtain ⟨ls, k5, k6, h5, h6, -⟩ := RandM.bind_inv h4
  obtain ⟨kc, hc'⟩ := regular_multibin .cens q bc _ lgt0 lc (by rw [h3]; rfl) hc
  obtain ⟨ks', hs'⟩ := regular_multibin .sats q bs _ lgt0 ls (by rw [h5]; rfl) hs
  have hq' : (DEFAULT_DIFFMAHPOP_PARAMS.mapv lit : NT Reg).replace (p.mapv lit) = .ok (q.mapv lit) := by
    have := NT.replace_mapv (lit : ℝ → Reg) DEFAULT_DIFFMAHPOP_PARAMS p
    rw [hq] at this
    exact this
  refine ⟨Reg.L lc + Reg.L ls, [] ++ (kc ++ (ks' ++ [])), ?_, ⟨trivial, trivial⟩⟩
  unfold loss_mah_moments_multibin_censat
  rw [hq']
  exact RandM.bind_of rfl (RandM.bind_of hc' (RandM.bind_of hs' rfl))

end

/-- The names that the bounding function of the late index does not read. -/
def DEAD : List String := ["u_late_index_x0_alpha", "u_late_index_ylo_alpha", "u_late_index_yhi_alpha"]

theorem lateAliasU_not_dead {n : String} : lateAliasU n ∉ DEAD := by
  unfold lateAliasU DEAD
  split_ifs with h1 h2 h3
  · decide
  · decide
  · decide
  · simp [h1, h2, h3]

theorem u_fields {u : NT ℝ} (hu : u.map Prod.fst = FIELDS.map ("u_" ++ ·)) : u.fields = FULL.upnames := by
  rw [NT.fields, hu, FIELDS_eq, ← FULL_fields]; rfl

theorem u_replace {base u : NT ℝ} (hb : base.fields = FULL.upnames) (hu : u.fields = FULL.upnames) :
    base.replace u = .ok u := by
  have h := NT.replace_block (pre := []) (mid := base) (post := []) (x := u) (by rw [hb, hu]) (by
    simp only [NT.fields_nil, List.nil_append, List.append_nil]
    rw [hb]; exact NAMES_U_nodup)
  simpa using h

theorem params_of_u_eq {u : NT ℝ} (hu : u.fields = FULL.upnames) :
    params_of_u_params u = PopParams.get_diffmahpop_params_from_u_params u := by
  obtain ⟨base, hb1, hb2⟩ := default_u_ok
  unfold params_of_u_params
  rw [hb1]
  change ((base.mapv lit).replace u >>= _) = _
  rw [mapv_lit_real, u_replace hb2 hu]
  change get_diffmahpop_params_from_u_params u = _
  rw [from_u_real]

theorem params_dead {u u' : NT ℝ} (hu : u.map Prod.fst = FIELDS.map ("u_" ++ ·))
    (hu' : u'.map Prod.fst = FIELDS.map ("u_" ++ ·)) (h : ∀ n, n ∉ DEAD → u.lookup n = u'.lookup n) :
    params_of_u_params u = params_of_u_params u' := by
  have a := u_fields hu
  have a' := u_fields hu'
  rw [params_of_u_eq a, params_of_u_eq a', from_u_eq a, from_u_eq a']
  congr 1
  have nd : u.fields.Nodup := by rw [a]; exact NAMES_U_nodup
  have nd' : u'.fields.Nodup := by rw [a']; exact NAMES_U_nodup
  apply NT.ext_lookup (by rw [aliasBy_fields, aliasBy_fields, a, a']) (by rw [aliasBy_fields]; exact nd)
  intro n hn
  rw [aliasBy_fields, a] at hn
  have hm := lateAliasU_mem hn
  rw [aliasBy_lookup _ nd (by rw [a]; exact hn) (by rw [a]; exact hm),
    aliasBy_lookup _ nd' (by rw [a']; exact hn) (by rw [a']; exact hm)]
  exact h _ lateAliasU_not_dead

theorem liftBindVal {β γ : Type} {m : Except PyErr β} {b : β} (hm : m = .ok b) {f : β → RandM γ} {c : γ}
    (h : (f b).val? = some c) : (RandM.lift m >>= f).val? = some c := by
  subst hm
  rcases hr : f b with e | ⟨a, ks⟩
  · rw [hr] at h; cases h
  · rw [hr] at h
    rw [RandM.bind_of (m := RandM.lift (.ok b)) (ks := []) (b := b) rfl hr]
    exact h

theorem bindVal {β γ : Type} {m : RandM β} {b : β} (hm : m.val? = some b) {f : β → RandM γ} {c : γ}
    (h : (f b).val? = some c) : (m >>= f).val? = some c := by
  rcases hm' : m with e | ⟨a, ks⟩
  · rw [hm'] at hm; cases hm
  rw [hm'] at hm
  cases hm
  rcases hr : f b with e | ⟨a, ks⟩
  · rw [hr] at h; cases h
  · rw [hr] at h
    rw [RandM.bind_of rfl hr]
    exact h

theorem cens_run (k : Key) : ∃ (u : NT ℝ) (l : ℝ), u.map Prod.fst = FIELDS.map ("u_" ++ ·) ∧
    params_of_u_params u = .ok DEFAULT_DIFFMAHPOP_PARAMS ∧
    (PopLoss.loss_mah_moments_multibin_u_params wExt wRng u [wBin, wBin] k 1).val? = some l := by
  obtain ⟨u, hu, hp⟩ := default_u_params
  obtain ⟨l, hl⟩ := loss_default .cens k
  refine ⟨u, l, hu, hp, ?_⟩
  rw [← u_params_real]
  unfold loss_mah_moments_multibin_u_params
  exact liftBindVal hp (by rw [multibin_real]; exact hl)

theorem censat_run (k : Key) : ∃ (u : NT ℝ) (l : ℝ), u.map Prod.fst = FIELDS.map ("u_" ++ ·) ∧
    params_of_u_params u = .ok DEFAULT_DIFFMAHPOP_PARAMS ∧
    DEFAULT_DIFFMAHPOP_PARAMS.replace DEFAULT_DIFFMAHPOP_PARAMS = .ok DEFAULT_DIFFMAHPOP_PARAMS ∧
    (PopLoss.loss_mah_moments_multibin_censat wExt wRng DEFAULT_DIFFMAHPOP_PARAMS [wBin, wBin] [wBin, wBin] k 1).val?
      = some l ∧
    (PopLoss.loss_mah_moments_multibin_censat_u_params wExt wRng u [wBin, wBin] [wBin, wBin] k 1).val? = some l := by
  obtain ⟨u, hu, hp⟩ := default_u_params
  obtain ⟨l1, hl1⟩ := loss_default .cens (Key.child k 2 0)
  obtain ⟨l2, hl2⟩ := loss_default .sats (Key.child k 2 1)
  have hq : DEFAULT_DIFFMAHPOP_PARAMS.replace DEFAULT_DIFFMAHPOP_PARAMS = .ok DEFAULT_DIFFMAHPOP_PARAMS :=
    replace_full rfl
  have h : (PopLoss.loss_mah_moments_multibin_censat wExt wRng DEFAULT_DIFFMAHPOP_PARAMS [wBin, wBin] [wBin, wBin] k 1).val?
      = some (l1 + l2) := by
    unfold PopLoss.loss_mah_moments_multibin_censat
    exact liftBindVal hq (bindVal hl1 (bindVal hl2 rfl))
  refine ⟨u, l1 + l2, hu, hp, hq, h, ?_⟩
  rw [← censat_u_real]
  unfold loss_mah_moments_multibin_censat_u_params
  exact liftBindVal hp (by rw [censat_real]; exact h)

theorem rho_prefix {i j : Fin 4} {q : String} (hq : (i, j, q) ∈ RHO_AT) :
    ("rho_".toList).isPrefixOf q.toList = true := by
  simp only [RHO_AT, List.mem_cons, List.not_mem_nil, or_false, Prod.mk.injEq] at hq
  rcases hq with ⟨-, -, rfl⟩ | ⟨-, -, rfl⟩ | ⟨-, -, rfl⟩ | ⟨-, -, rfl⟩ | ⟨-, -, rfl⟩ | ⟨-, -, rfl⟩ <;> rfl

theorem rho_mem {i j : Fin 4} {q : String} (hq : (i, j, q) ∈ RHO_AT) : ∃ v, (q, v) ∈ COV.pdict ∧ v ≠ 0 := by
  simp only [RHO_AT, List.mem_cons, List.not_mem_nil, or_false, Prod.mk.injEq] at hq
  rcases hq with ⟨-, -, rfl⟩ | ⟨-, -, rfl⟩ | ⟨-, -, rfl⟩ | ⟨-, -, rfl⟩ | ⟨-, -, rfl⟩ | ⟨-, -, rfl⟩
  · exact ⟨-0.227, by simp [COV], by norm_num⟩
  · exact ⟨0.290, by simp [COV], by norm_num⟩
  · exact ⟨0.210, by simp [COV], by norm_num⟩
  · exact ⟨0.290, by simp [COV], by norm_num⟩
  · exact ⟨-0.121, by simp [COV], by norm_num⟩
  · exact ⟨-0.290, by simp [COV], by norm_num⟩

theorem default_rho_ne : ∀ q ∈ RHO_AT, DEFAULT_DIFFMAHPOP_PARAMS.lookup q.2.2 ≠ some 0 := by
  rintro ⟨i, j, q⟩ hq
  obtain ⟨v, hv, h0⟩ := rho_mem hq
  rw [default_lookup (c := COV.pdict) (by simp [COMPONENT_PDICTS]) hv]
  simpa using h0

theorem rho_field {i j : Fin 4} {q : String} (hq : (i, j, q) ∈ RHO_AT) :
    ∃ n : ℕ, DEFAULT_DIFFMAHPOP_PARAMS.fields[n]? = some q := by
  obtain ⟨v, hv, -⟩ := rho_mem hq
  have h := default_lookup (c := COV.pdict) (by simp [COMPONENT_PDICTS]) hv
  exact List.mem_iff_getElem?.1 (List.mem_map.2 ⟨_, NT.mem_of_lookup h, rfl⟩)

theorem u_nodup {u : NT ℝ} (hu : u.map Prod.fst = FIELDS.map ("u_" ++ ·)) : u.fields.Nodup := by
  rw [u_fields hu]; exact NAMES_U_nodup

theorem dead_index {u : NT ℝ} (hu : u.map Prod.fst = FIELDS.map ("u_" ++ ·)) (n : String) (hn : n ∈ DEAD) :
    ∃ i : ℕ, u.fields[i]? = some n := by
  apply List.mem_iff_getElem?.1
  rw [u_fields hu]
  simp only [DEAD, List.mem_cons, List.not_mem_nil, or_false] at hn
  rcases hn with rfl | rfl | rfl
  · exact u_names_mem "late_index_x0_alpha" (by simp)
  · exact u_names_mem "late_index_ylo_alpha" (by simp)
  · exact u_names_mem "late_index_yhi_alpha" (by simp)

theorem setAt_u_fields {u : NT ℝ} (hu : u.map Prod.fst = FIELDS.map ("u_" ++ ·)) (i : ℕ) (y : ℝ) :
    (setAt u i y).map Prod.fst = FIELDS.map ("u_" ++ ·) := by
  have := setAt_fields u i y
  unfold NT.fields at this
  rw [this, hu]

theorem setAt_dead {u : NT ℝ} (hu : u.map Prod.fst = FIELDS.map ("u_" ++ ·)) (n : String) (hn : n ∈ DEAD) (i : ℕ)
    (hi : u.fields[i]? = some n) (y : ℝ) (m : String) (hm : m ∉ DEAD) : (setAt u i y).lookup m = u.lookup m := by
  have hne : m ≠ n := fun h => hm (h ▸ hn)
  rcases h : u.lookup m with _ | v
  · rcases h' : (setAt u i y).lookup m with _ | w
    · rfl
    · exfalso
      have h1 : m ∈ (setAt u i y).fields := by
        have := NT.mem_of_lookup h'
        exact List.mem_map.2 ⟨_, this, rfl⟩
      rw [setAt_fields] at h1
      obtain ⟨_, h2⟩ := NT.lookup_isSome h1
      rw [h] at h2
      cases h2
  · exact lookup_setAt_ne u (u_nodup hu) i y n m v hi hne h

theorem gradient_const {u g : NT ℝ} (hu : u.map Prod.fst = FIELDS.map ("u_" ++ ·)) {n : String} (hn : n ∈ DEAD)
    {f : NT ℝ → RandM ℝ} (hg : IsGradient f u g)
    (hc : ∀ i y, u.fields[i]? = some n → f (setAt u i y) = f u) : g.lookup n = some 0 := by
  obtain ⟨i, hi⟩ := dead_index hu n hn
  have hlt : i < u.length := by
    have := (List.getElem?_eq_some_iff.1 hi).1
    simpa [NT.fields] using this
  obtain ⟨h, h1, h2⟩ := hg.2 i hlt
  have hconst : ∀ y, h y = h 0 := by
    intro y
    have a := h1 y
    have b := h1 0
    rw [hc i y hi] at a
    rw [hc i 0 hi] at b
    rw [a] at b
    exact Option.some.inj b
  have hz : HasDerivAt h 0 (u.values.getD i 0) := by
    have : h = fun _ => h 0 := funext hconst
    rw [this]
    exact hasDerivAt_const _ _
  have hv := h2.unique hz
  have hgl : i < g.length := by
    have e := congrArg List.length hg.1
    simp only [NT.fields, List.length_map] at e
    omega
  have hgn : g[i].1 = n := by
    rw [← hg.1] at hi
    have := (List.getElem?_eq_some_iff.1 hi).2
    simpa [NT.fields] using this
  have : g.lookup n = some g[i].2 := by
    apply NT.lookup_of_mem (by rw [hg.1]; exact u_nodup hu)
    rw [← hgn]
    exact List.getElem_mem hgl
  rw [this, ← hv, List.getD_eq_getElem?_getD]
  simp [NT.values, hgl]

end PopGrad

end Diffmah

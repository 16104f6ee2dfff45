import Verif.Props.Moments

/-!
# Random keys of the population losses (C64)
-/

namespace Diffmah

open Pop TPeak PopParams MC PopLoss

variable (ext : Ext) (rng : Rng)

/-! ## Specification -/

/-- `x` is `k`, or comes from it by splitting, possibly more than once. -/
inductive Key.From (k : Key) : Key → Prop
  | refl : Key.From k k
  | child {x : Key} (n i : ℕ) : Key.From k x → Key.From k (.child x n i)

/-! ## Lemmas -/

theorem Key.From.trans {a b c : Key} (h1 : Key.From a b) (h2 : Key.From b c) : Key.From a c := by
  induction h2 with
  | refl => exact h1
  | child n i _ ih => exact ih.child n i

theorem Key.From.depth_le {a b : Key} (h : Key.From a b) : a.depth ≤ b.depth := by
  induction h with
  | refl => exact le_refl _
  | child n i _ ih => exact Nat.le_succ_of_le ih

theorem Key.From.eq_of_depth {a b : Key} (h : Key.From a b) (e : a.depth = b.depth) : a = b := by
  cases h with
  | refl => rfl
  | child n i h => have := h.depth_le; simp only [Key.depth] at e; omega

theorem Key.From.linear {a b x : Key} (h1 : Key.From a x) (h2 : Key.From b x) :
    Key.From a b ∨ Key.From b a := by
  induction h1 generalizing b with
  | refl => exact .inr h2
  | child n i h ih =>
    cases h2 with
    | refl => exact .inl (h.child n i)
    | child _ _ h2 => exact ih h2

theorem Key.From.child_inj {k x : Key} {n n' i i' : ℕ} (h1 : Key.From (.child k n i) x)
    (h2 : Key.From (.child k n' i') x) : n = n' ∧ i = i' := by
  have e : Key.child k n i = Key.child k n' i' := by
    rcases h1.linear h2 with h | h
    · exact h.eq_of_depth rfl
    · exact (h.eq_of_depth rfl).symm
  cases e; exact ⟨rfl, rfl⟩

theorem sample_keys {kind : Kind} {p : NT ℝ} {tarr : List ℝ} {lgm t_obs lgt0 : ℝ} {key : Key} {n_mc : ℕ}
    {rows : List SingleHistories} {ks : List Key}
    (h : mc_diffmah_halo_sample ext rng kind p tarr lgm t_obs key lgt0 n_mc = Except.ok (rows, ks)) :
    ∀ x ∈ ks, Key.From key x := by
  obtain ⟨-, kss, l, rfl, -, g⟩ := C64_sample_partial ext rng kind p tarr lgm t_obs key lgt0 n_mc rows ks h
  intro x hx
  obtain ⟨k, hk, hx⟩ := List.mem_flatten.1 hx
  obtain ⟨i, hi⟩ := List.mem_iff_getElem?.1 hk
  obtain ⟨s, k', -, hk', h'⟩ := g i (by rw [← l]; exact (List.getElem?_eq_some_iff.1 hi).1)
  rw [hi] at hk'; cases hk'
  obtain ⟨j, rfl⟩ := single_keys_mem ext rng (single_inv ext rng h').1 x hx
  exact (Key.From.refl.child _ _).child _ _

theorem singlebin_keys {kind : Kind} {p : NT ℝ} {bin : Bin} {key : Key} {lgt0 v : ℝ} {ks : List Key}
    (h : loss_mah_moments_singlebin ext rng kind p bin key lgt0 = Except.ok (v, ks)) :
    ∀ x ∈ ks, Key.From key x := by
  unfold loss_mah_moments_singlebin at h
  obtain ⟨p1, k1, k2, h1, h2, rfl⟩ := RandM.bind_inv h
  obtain ⟨a, k3, k4, h3, h4, rfl⟩ := RandM.bind_inv h2
  obtain ⟨-, rfl⟩ := RandM.lift_inv h3
  obtain ⟨b, k5, k6, h5, h6, rfl⟩ := RandM.bind_inv h4
  obtain ⟨-, rfl⟩ := RandM.lift_inv h5
  obtain ⟨-, rfl⟩ := RandM.pure_inv h6
  unfold predict_mah_moments_singlebin at h1
  obtain ⟨rows, k7, k8, h7, h8, rfl⟩ := RandM.bind_inv h1
  obtain ⟨-, rfl⟩ := RandM.pure_inv h8
  simpa using sample_keys ext rng h7

/-! ## Theorems -/

/-- C64 for the losses over many bins: no key is shared by two bins, and all keys come from the given
one. Missing: as in `C64_haloes_partial`. -/
theorem C64_bins_partial (kind : Kind) (p : NT ℝ) (bins : List Bin) (key : Key) (lgt0 v : ℝ)
    (ks : List Key) (h : loss_mah_moments_multibin ext rng kind p bins key lgt0 = Except.ok (v, ks)) :
    (∀ x ∈ ks, Key.From key x) ∧
    ∃ kss : List (List Key), kss.length = bins.length ∧ ks = kss.flatten ∧ kss.Pairwise List.Disjoint ∧
      ∀ (i : ℕ) bin, bins[i]? = some bin → ∃ l k k', kss[i]? = some k ∧
        loss_mah_moments_singlebin ext rng kind p bin k' lgt0 = Except.ok (l, k) := by
  unfold loss_mah_moments_multibin at h
  obtain ⟨ls, k1, k2, h1, h2, rfl⟩ := RandM.bind_inv h
  obtain ⟨-, rfl⟩ := RandM.pure_inv h2
  unfold loss_mah_moments_multibin_kern at h1
  obtain ⟨kss, hks, l1, l2, g⟩ := RandM.all_inv h1
  have hl : kss.length = bins.length := by rw [l1]; simp [Key.split]
  have g1 : ∀ (i : ℕ) bin, bins[i]? = some bin → ∃ l k, kss[i]? = some k ∧
      loss_mah_moments_singlebin ext rng kind p bin (Key.child key bins.length i) lgt0
        = Except.ok (l, k) := by
    intro i bin hb
    have hi := (List.getElem?_eq_some_iff.1 hb).1
    obtain ⟨v, k, -, hk, e⟩ := g i (loss_mah_moments_singlebin ext rng kind p bin
      (Key.child key bins.length i) lgt0) (by
        rw [List.getElem?_zipWith, hb]
        simp [Key.split, List.getElem?_map, List.getElem?_range hi])
    exact ⟨v, k, hk, e⟩
  have hmem : ∀ (i : ℕ) k, kss[i]? = some k → ∀ x ∈ k, Key.From (Key.child key bins.length i) x := by
    intro i k hk
    have hi : i < bins.length := by rw [← hl]; exact (List.getElem?_eq_some_iff.1 hk).1
    obtain ⟨l, k', hk', e⟩ := g1 i bins[i] (List.getElem?_eq_getElem hi)
    rw [hk] at hk'; cases hk'
    exact singlebin_keys ext rng e
  rw [List.append_nil]
  refine ⟨fun x hx => ?_, kss, hl, hks, ?_, fun i bin hb => ?_⟩
  · rw [hks] at hx
    obtain ⟨k, hk, hx⟩ := List.mem_flatten.1 hx
    obtain ⟨i, hi⟩ := List.mem_iff_getElem?.1 hk
    exact (Key.From.refl.child _ _).trans (hmem i k hi x hx)
  · rw [List.pairwise_iff_getElem]
    intro i j hi hj hij x hx hy
    exact hij.ne (Key.From.child_inj (hmem i _ (List.getElem?_eq_getElem hi) x hx)
      (hmem j _ (List.getElem?_eq_getElem hj) x hy)).2
  · obtain ⟨l, k, hk, e⟩ := g1 i bin hb
    exact ⟨l, k, _, hk, e⟩

/-- C64 for the loss over centrals and satellites: no key is shared by the two. Missing: as in
`C64_haloes_partial`. -/
theorem C64_censat_partial (varied : NT ℝ) (bc bs : List Bin) (key : Key) (lgt0 v : ℝ) (ks : List Key)
    (h : loss_mah_moments_multibin_censat ext rng varied bc bs key lgt0 = Except.ok (v, ks)) :
    ∃ p a b kc kc' ksat ksat', ks = kc' ++ ksat' ∧ kc'.Disjoint ksat' ∧
      loss_mah_moments_multibin ext rng .cens p bc kc lgt0 = Except.ok (a, kc') ∧
      loss_mah_moments_multibin ext rng .sats p bs ksat lgt0 = Except.ok (b, ksat') := by
  unfold loss_mah_moments_multibin_censat at h
  obtain ⟨p, k1, k2, h1, h2, rfl⟩ := RandM.bind_inv h
  obtain ⟨-, rfl⟩ := RandM.lift_inv h1
  obtain ⟨a, k3, k4, h3, h4, rfl⟩ := RandM.bind_inv h2
  obtain ⟨b, k5, k6, h5, h6, rfl⟩ := RandM.bind_inv h4
  obtain ⟨-, rfl⟩ := RandM.pure_inv h6
  refine ⟨p, a, b, _, k3, _, k5, by simp, fun x hx hy => ?_, h3, h5⟩
  have := Key.From.child_inj ((C64_bins_partial ext rng _ _ _ _ _ _ _ h3).1 x hx)
    ((C64_bins_partial ext rng _ _ _ _ _ _ _ h5).1 x hy)
  exact absurd this.2 (by norm_num)

/-- The hypotheses of these theorems are met by a call over two bins of centrals and one of satellites. -/
example : ∃ (ext : Ext) (rng : Rng) (p : NT ℝ) (bc bs : List Bin) (w : ℝ) (ks : List Key),
    bc.length = 2 ∧ bs.length = 1 ∧
    loss_mah_moments_multibin_censat ext rng p bc bs (Key.root 0) 1 = Except.ok (w, ks) := by
  obtain ⟨ext, rng, p, b0, b1, v, ks, ks', ks'', -, -, -, w, h⟩ := losses_run
  exact ⟨ext, rng, p, _, _, w, ks'', rfl, rfl, h⟩

end Diffmah

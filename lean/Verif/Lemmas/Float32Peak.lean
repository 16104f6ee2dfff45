import Verif.Model.Float32Peak
import Verif.Lemmas.Float32Mean
import Verif.Lemmas.Float32Fit
import Verif.Lemmas.Float32Cov

/-!
# Table lookup in single precision
-/

set_option maxRecDepth 10000

namespace Diffmah.F32

open JOps XR JMinMax JFlow Pop TPeak PopParams MC

/-! ## Binary search -/

section Search

variable (x : F32) (xp : List F32)

/-- The query sorts before entry `i`. -/
def Before (i : ℕ) : Prop := XR.sortLt x.v (xp.getD i ⟨.nan⟩).v

/-- What holds with `r` levels of the search to go. -/
def SearchInv (r : ℕ) (s : ℕ × ℕ) : Prop :=
  (s = (0, 0) ∧ Before x xp 0) ∨
  (s.1 < s.2 ∧ s.2 ≤ xp.length ∧ (s.2 = xp.length ∨ Before x xp s.2) ∧
    ((s.1 = 0 ∧ s.2 + 1 ≤ 2 ^ r) ∨ (¬ Before x xp s.1 ∧ s.2 - s.1 ≤ 2 ^ r)))

theorem searchStep_left {s : ℕ × ℕ} (h : Before x xp ((s.1 + s.2) / 2)) : searchStep x xp s = (s.1, (s.1 + s.2) / 2) :=
  if_pos h

theorem searchStep_right {s : ℕ × ℕ} (h : ¬ Before x xp ((s.1 + s.2) / 2)) : searchStep x xp s = ((s.1 + s.2) / 2, s.2) :=
  if_neg h

theorem searchStep_inv {r : ℕ} {s : ℕ × ℕ} (h : SearchInv x xp (r + 1) s) : SearchInv x xp r (searchStep x xp s) := by
  obtain ⟨l, u⟩ := s
  by_cases hb : Before x xp ((l + u) / 2)
  · rw [searchStep_left x xp hb]
    simp only
    rcases h with ⟨h, h0⟩ | ⟨h1, h2, h3, h4⟩
    · simp only [Prod.mk.injEq] at h
      obtain ⟨rfl, rfl⟩ := h
      exact Or.inl ⟨rfl, h0⟩
    · simp only [pow_succ] at h1 h2 h3 h4
      rcases h4 with ⟨h4, h5⟩ | ⟨h4, h5⟩
      · subst h4
        rcases Nat.eq_zero_or_pos ((0 + u) / 2) with hz | hz
        · rw [hz] at hb ⊢
          exact Or.inl ⟨rfl, hb⟩
        · exact Or.inr ⟨hz, by simp only; omega, Or.inr hb, Or.inl ⟨rfl, by simp only; omega⟩⟩
      · have hne : (l + u) / 2 ≠ l := fun he => h4 (he ▸ hb)
        exact Or.inr ⟨by simp only; omega, by simp only; omega, Or.inr hb, Or.inr ⟨h4, by simp only; omega⟩⟩
  · rw [searchStep_right x xp hb]
    simp only
    rcases h with ⟨h, h0⟩ | ⟨h1, h2, h3, h4⟩
    · simp only [Prod.mk.injEq] at h
      obtain ⟨rfl, rfl⟩ := h
      exact absurd h0 hb
    · simp only [pow_succ] at h1 h2 h3 h4
      refine Or.inr ⟨by simp only; omega, h2, h3, Or.inr ⟨hb, ?_⟩⟩
      simp only
      rcases h4 with ⟨h4, h5⟩ | ⟨h4, h5⟩ <;> omega

theorem search_iter (r : ℕ) {s : ℕ × ℕ} (h : SearchInv x xp r s) : SearchInv x xp 0 ((searchStep x xp)^[r] s) := by
  induction r generalizing s with
  | zero => exact h
  | succ r ih => exact ih (searchStep_inv x xp h)

/-- What the binary search finds, in any table: the query sorts before the entry at the result, if there is one, and not
before the entry preceding it, if there is one. -/
theorem searchsorted_spec (hn : 0 < xp.length) :
    (searchsorted x xp = 0 ∧ Before x xp 0) ∨
    (0 < searchsorted x xp ∧ searchsorted x xp ≤ xp.length ∧ ¬ Before x xp (searchsorted x xp - 1) ∧
      (searchsorted x xp = xp.length ∨ Before x xp (searchsorted x xp))) := by
  have h0 : SearchInv x xp (Nat.clog 2 (xp.length + 1)) (0, xp.length) :=
    Or.inr ⟨hn, le_rfl, Or.inl rfl, Or.inl ⟨rfl, Nat.le_pow_clog (by norm_num) _⟩⟩
  have h := search_iter x xp _ h0
  unfold searchsorted
  generalize (searchStep x xp)^[Nat.clog 2 (xp.length + 1)] (0, xp.length) = s at h
  obtain ⟨l, u⟩ := s
  rcases h with ⟨h, hb⟩ | ⟨h1, h2, h3, h4⟩
  · simp only [Prod.mk.injEq] at h
    exact Or.inl ⟨h.2, hb⟩
  · simp only [pow_zero] at h1 h2 h3 h4
    rcases h4 with ⟨h4, h5⟩ | ⟨h4, h5⟩
    · omega
    · have e : u - 1 = l := by omega
      exact Or.inr ⟨by simp only; omega, h2, by simp only [e]; exact h4, h3⟩

end Search

theorem before_num {x : ℝ} {X : List ℝ} {i : ℕ} (hi : i < X.length) :
    Before (num x) (X.map num) i ↔ x < X.getD i 0 := by
  have e : (X.map num).getD i ⟨.nan⟩ = num (X.getD i 0) := by
    rw [List.getD_eq_getElem _ _ (by simpa using hi), List.getD_eq_getElem _ _ hi, List.getElem_map]
  unfold Before XR.sortLt
  rw [e]
  change (XR.lt (fin x) (fin _) ∨ (fin _ = nan ∧ _)) ↔ _
  simp [XR.lt]

/-! ## Linear interpolation -/

theorem lit_zero_num [Libm] : (lit 0 : F32) = num 0 := by
  rw [lit_fin (by rw [abs_zero]; positivity), round_zero]; rfl

theorem whereLt_num (a b : ℝ) (x y : F32) : whereLt (num a) (num b) x y = if a < b then x else y := by
  change jwhere (XR.lt (fin a) (fin b)) x y = _
  unfold jwhere
  simp only [XR.lt]
  congr

theorem whereAbsLe_num (a b : ℝ) (x y : F32) : whereAbsLe (num a) (num b) x y = if |a| ≤ b then x else y := by
  change jwhere (XR.le (XR.abs (fin a)) (fin b)) x y = _
  unfold jwhere
  simp only [XR.le, XR.abs]
  congr

theorem gather_f32 (x : F32) (xp : List F32) (k : ℕ → F32) : gather x xp k = k (searchsorted x xp) := rfl

/-- A step of a linear interpolation. -/
theorem convex_step {lo hi f g r : ℝ} (hlo : -1 ≤ lo) (hhi : hi ≤ 2) (hf : lo ≤ f ∧ f ≤ hi) (hg : lo ≤ g ∧ g ≤ hi)
    (h0 : 0 ≤ r) (h1 : r ≤ 1) :
    ∃ y, num f + num r * (num g - num f) = num y ∧ lo - 10 * ε ≤ y ∧ y ≤ hi + 10 * ε := by
  have e0 := ε_pos
  have e1 := ε_le
  obtain ⟨f1, f2⟩ := hf
  obtain ⟨g1, g2⟩ := hg
  have hd : |g - f| ≤ 3 := abs_le.2 ⟨by linarith, by linarith⟩
  have big : (100 : ℝ) ≤ 2 ^ (127 : ℕ) := by norm_num
  have q1 : num g - num f = num (round (g - f)) := sub_fin (by linarith)
  have r1 := round_ε (g - f)
  have r1' := mul_le_mul_of_nonneg_left hd e0.le
  set d := round (g - f) with hdd
  have hd1 : |d - (g - f)| ≤ (31 / 10) * ε := by linarith
  have hd2 : |d| ≤ (31 / 10) := by
    have := abs_sub_abs_le_abs_sub d (g - f)
    linarith
  have hp : |r * d| ≤ (31 / 10) := by
    rw [abs_mul, abs_of_nonneg h0]
    nlinarith [abs_nonneg d]
  have q2 : num r * num d = num (round (r * d)) := mul_fin (by linarith)
  have r2 := round_ε (r * d)
  have r2' := mul_le_mul_of_nonneg_left hp e0.le
  set p := round (r * d) with hpp
  have hp1 : |p - r * d| ≤ (32 / 10) * ε := by linarith
  have hrd : |r * d - r * (g - f)| ≤ (31 / 10) * ε := by
    rw [← mul_sub, abs_mul, abs_of_nonneg h0]
    have := mul_le_mul_of_nonneg_right h1 (abs_nonneg (d - (g - f)))
    linarith
  have hS : |f + p - (f + r * (g - f))| ≤ (63 / 10) * ε := by
    have := abs_sub_le p (r * d) (r * (g - f))
    have e : f + p - (f + r * (g - f)) = p - r * (g - f) := by ring
    rw [e]; linarith
  have c1 : lo ≤ f + r * (g - f) := by nlinarith
  have c2 : f + r * (g - f) ≤ hi := by nlinarith
  obtain ⟨s1, s2⟩ := abs_le.1 hS
  have hs : |f + p| ≤ (21 / 10) := abs_le.2 ⟨by linarith, by linarith⟩
  have q3 : num f + num p = num (round (f + p)) := add_fin (by linarith)
  have r3 := round_ε (f + p)
  have r3' := mul_le_mul_of_nonneg_left hs e0.le
  have h3 : |round (f + p) - (f + p)| ≤ (22 / 10) * ε := by linarith
  obtain ⟨t1, t2⟩ := abs_le.1 h3
  refine ⟨round (f + p), by rw [q1, q2, q3], ?_, ?_⟩
  · linarith
  · linarith

/-- `jnp.interp` in single precision: whatever the table of abscissae, sorted or not, the result lies in the range of the table
of ordinates, up to rounding. -/
theorem interp_range [Libm] {eps x lo hi : ℝ} {X Y : List ℝ} (he0 : 0 ≤ eps) (he1 : eps ≤ 1) (hx : |x| ≤ 4)
    (hX : ∀ a ∈ X, |a| ≤ 4) (hlo : -1 ≤ lo) (hhi : hi ≤ 2) (hY : ∀ b ∈ Y, lo ≤ b ∧ b ≤ hi) (hn : 2 ≤ X.length)
    (hl : Y.length = X.length) :
    ∃ y, PopGrad.interp eps (num x) (X.map num) (Y.map num) = num y ∧ lo - 10 * ε ≤ y ∧ y ≤ hi + 10 * ε := by
  have e0 := ε_pos
  have gX : ∀ i, (X.map num).getD i (lit 0) = num (X.getD i 0) := fun i => by rw [lit_zero_num, List.getD_map]
  have gY : ∀ i, (Y.map num).getD i (lit 0) = num (Y.getD i 0) := fun i => by rw [lit_zero_num, List.getD_map]
  have mX : ∀ i, i < X.length → |X.getD i 0| ≤ 4 := fun i hi => hX _ (by
    rw [List.getD_eq_getElem _ _ hi]; exact List.getElem_mem hi)
  have mY : ∀ i, i < X.length → lo ≤ Y.getD i 0 ∧ Y.getD i 0 ≤ hi := fun i hi => hY _ (by
    rw [List.getD_eq_getElem _ _ (hl ▸ hi)]; exact List.getElem_mem _)
  have fine : ∀ i, i < X.length → ∃ y, num (Y.getD i 0) = num y ∧ lo - 10 * ε ≤ y ∧ y ≤ hi + 10 * ε := fun i hi =>
    ⟨_, rfl, by linarith [(mY i hi).1], by linarith [(mY i hi).2]⟩
  have hE : (lit eps : F32) = num (round eps) := lit_fin (by rw [abs_of_nonneg he0]; exact he1.trans (by norm_num))
  have hE0 : 0 ≤ round eps := by have := round_mono he0; rwa [round_zero] at this
  unfold PopGrad.interp
  simp only [gX, gY, hE, whereLt_num, List.length_map]
  split_ifs with c1 c2
  · exact fine _ (by omega)
  · exact fine _ (by omega)
  · push Not at c1 c2
    rw [gather_f32]
    have hs := searchsorted_spec (num x) (X.map num) (by rw [List.length_map]; omega)
    rw [List.length_map] at hs
    generalize searchsorted (num x) (X.map num) = c at hs
    rcases hs with ⟨-, hb⟩ | ⟨k1, k2, k3, k4⟩
    · rw [before_num (by omega)] at hb; linarith
    rw [before_num (by omega)] at k3
    push Not at k3
    -- the interval found, and the position in it
    obtain ⟨i, hi, hi1, hin, hcase⟩ : ∃ i, min (max c 1) (X.length - 1) = i ∧ 1 ≤ i ∧ i < X.length ∧
        ((X.getD (i - 1) 0 ≤ x ∧ x < X.getD i 0) ∨ x = X.getD i 0) := by
      rcases k4 with k4 | k4
      · refine ⟨X.length - 1, by omega, by omega, by omega, Or.inr ?_⟩
        rw [k4] at k3
        exact le_antisymm c1 k3
      · by_cases hc : c = X.length
        · refine ⟨X.length - 1, by omega, by omega, by omega, Or.inr ?_⟩
          rw [hc] at k3
          exact le_antisymm c1 k3
        · rw [before_num (by omega)] at k4
          exact ⟨c, by omega, by omega, by omega, Or.inl ⟨k3, k4⟩⟩
    simp only [hi]
    have a1 := mX i hin
    have a0 := mX (i - 1) (by omega)
    generalize hA : X.getD i 0 = A at *
    generalize hB : X.getD (i - 1) 0 = B at *
    have b1 : |A - B| ≤ 8 := (abs_sub _ _).trans (by linarith)
    have b2 : |x - B| ≤ 8 := (abs_sub _ _).trans (by linarith)
    have q1 : num A - num B = num (round (A - B)) := sub_fin (b1.trans (by norm_num))
    have q2 : num x - num B = num (round (x - B)) := sub_fin (b2.trans (by norm_num))
    rw [q1, q2]
    simp only [whereAbsLe_num]
    split_ifs with c3
    · exact fine _ (by omega)
    · push Not at c3
      have ne : round (A - B) ≠ 0 := fun h => by rw [h, abs_zero] at c3; linarith
      obtain ⟨h0, h1⟩ : 0 ≤ round (x - B) / round (A - B) ∧ round (x - B) / round (A - B) ≤ 1 := by
        rcases hcase with ⟨u1, u2⟩ | u
        · have m1 : round (x - B) ≤ round (A - B) := round_mono (by linarith)
          have m0 : 0 ≤ round (x - B) := by have := round_mono (show 0 ≤ x - B by linarith); rwa [round_zero] at this
          have mp : 0 < round (A - B) := lt_of_le_of_ne (m0.trans m1) (Ne.symm ne)
          exact ⟨div_nonneg m0 mp.le, (div_le_one mp).2 m1⟩
        · rw [u, div_self ne]; norm_num
      have q3 : num (round (x - B)) / num (round (A - B)) = num (round (round (x - B) / round (A - B))) :=
        div_fin ne (by rw [abs_of_nonneg h0]; exact h1.trans (by norm_num))
      rw [q3]
      have one : Rep (1 : ℝ) := ⟨1, 0, by norm_num, by norm_num, by norm_num⟩
      exact convex_step hlo hhi (mY _ (by omega)) (mY _ hin)
        (by have := round_mono h0; rwa [round_zero] at this) (round_le h1 one)

end Diffmah.F32

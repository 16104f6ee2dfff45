import Verif.Lemmas.PopKernels
import Mathlib.Data.List.GetD

/-!
# Lemmas about table interpolation and peak times
-/

namespace Diffmah

namespace TPeak

open Classical

/-- For a sorted table, the number of entries `≤ x` cuts the table in two. -/
theorem count_le_spec {xp : List ℝ} (hs : xp.Pairwise (· ≤ ·)) (x : ℝ) (i : ℕ) (hi : i < xp.length) :
    (i < (xp.filter fun a => decide (a ≤ x)).length ↔ xp[i] ≤ x) := by
  induction xp generalizing i with
  | nil => simp at hi
  | cons a t ih =>
    rw [List.pairwise_cons] at hs
    rw [List.filter_cons]
    by_cases ha : a ≤ x
    · rw [if_pos (by simpa using ha)]
      rcases i with _ | i
      · simp [ha]
      · simp only [List.length_cons, List.getElem_cons_succ]
        rw [← ih hs.2 i (by simpa using hi)]; omega
    · rw [if_neg (by simpa using ha)]
      have h0 : (t.filter fun a => decide (a ≤ x)) = [] := by
        rw [List.filter_eq_nil_iff]
        intro b hb
        have := hs.1 b hb
        simp; linarith
      rw [h0]
      have : ¬ (a :: t)[i] ≤ x := by
        rcases i with _ | i
        · simpa using ha
        · have := hs.1 (t[i]'(by simpa using hi)) (List.getElem_mem _)
          simp only [List.getElem_cons_succ]; linarith
      simp [this]

/-- What `interp` computes on a sorted table. -/
theorem interp_cases {eps x : ℝ} {xp fp : List ℝ} (hs : xp.Pairwise (· ≤ ·)) (hn : 2 ≤ xp.length) :
    (x < xp.getD 0 0 ∧ interp eps x xp fp = fp.getD 0 0) ∨
    (xp.getD (xp.length - 1) 0 < x ∧ interp eps x xp fp = fp.getD (xp.length - 1) 0) ∨
    ∃ j, j + 1 < xp.length ∧ xp.getD j 0 ≤ x ∧ x ≤ xp.getD (j + 1) 0 ∧
      (x < xp.getD (j + 1) 0 ∨ j + 1 = xp.length - 1) ∧
      interp eps x xp fp =
        if |xp.getD (j + 1) 0 - xp.getD j 0| ≤ eps then fp.getD j 0
        else fp.getD j 0 + (x - xp.getD j 0) / (xp.getD (j + 1) 0 - xp.getD j 0) *
          (fp.getD (j + 1) 0 - fp.getD j 0) := by
  have hget : ∀ i, i < xp.length → (i < (xp.filter fun a => decide (a ≤ x)).length ↔ xp.getD i 0 ≤ x) := by
    intro i hi
    rw [List.getD_eq_getElem _ _ hi]; exact count_le_spec hs x i hi
  set c := (xp.filter fun a => decide (a ≤ x)).length with hc
  have hcn : c ≤ xp.length := List.length_filter_le _ _
  by_cases h0 : x < xp.getD 0 0
  · left
    refine ⟨h0, ?_⟩
    unfold interp
    have hlast : ¬ xp.getD (xp.length - 1) 0 < x := by
      have h1 : ¬ (0 < c) := by rw [hget 0 (by omega)]; linarith
      have h2 := (hget (xp.length - 1) (by omega)).not
      have := h2.1 (by omega)
      linarith
    simp only
    rw [if_neg hlast, if_pos h0]
  · by_cases hl : xp.getD (xp.length - 1) 0 < x
    · right; left
      refine ⟨hl, ?_⟩
      unfold interp
      simp only
      rw [if_pos hl]
    · right; right
      have hc1 : 0 < c := (hget 0 (by omega)).2 (not_lt.1 h0)
      have hi : min (max c 1) (xp.length - 1) - 1 + 1 = min (max c 1) (xp.length - 1) := by omega
      refine ⟨min (max c 1) (xp.length - 1) - 1, by omega, ?_, ?_, ?_, ?_⟩
      · exact (hget _ (by omega)).1 (by omega)
      · rw [hi]
        by_cases hcc : c ≤ xp.length - 1
        · have : min (max c 1) (xp.length - 1) = c := by omega
          rw [this]
          have := (hget c (by omega)).not.1 (by omega)
          linarith
        · have : min (max c 1) (xp.length - 1) = xp.length - 1 := by omega
          rw [this]; linarith
      · rw [hi]
        by_cases hcc : c ≤ xp.length - 1
        · left
          have : min (max c 1) (xp.length - 1) = c := by omega
          rw [this]
          have := (hget c (by omega)).not.1 (by omega)
          linarith
        · right; omega
      · rw [hi]
        unfold interp
        simp only
        rw [if_neg hl, if_neg h0]

theorem lerp_mem {a b x f g : ℝ} (h1 : a ≤ x) (h2 : x ≤ b) (hab : a < b) (hf : f ≤ g) :
    f ≤ f + (x - a) / (b - a) * (g - f) ∧ f + (x - a) / (b - a) * (g - f) ≤ g := by
  have h3 : 0 ≤ (x - a) / (b - a) := div_nonneg (by linarith) (by linarith)
  have h4 : (x - a) / (b - a) ≤ 1 := by rw [div_le_one (by linarith)]; linarith
  constructor <;> nlinarith

theorem sorted_getD {l : List ℝ} (hs : l.Pairwise (· ≤ ·)) {i j : ℕ} (hij : i ≤ j) (hj : j < l.length) :
    l.getD i 0 ≤ l.getD j 0 := by
  rw [List.getD_eq_getElem _ _ (by omega), List.getD_eq_getElem _ _ hj]
  rcases Nat.lt_or_eq_of_le hij with h | h
  · exact List.pairwise_iff_getElem.1 hs i j (by omega) hj h
  · subst h; exact le_rfl

/-- Between two nodes, `interp` stays between their values. -/
theorem interp_seg {eps x : ℝ} {xp fp : List ℝ} {j : ℕ} (he : 0 ≤ eps)
    (hfj : fp.getD j 0 ≤ fp.getD (j + 1) 0) (h1 : xp.getD j 0 ≤ x) (h2 : x ≤ xp.getD (j + 1) 0)
    {v : ℝ} (hv : v = if |xp.getD (j + 1) 0 - xp.getD j 0| ≤ eps then fp.getD j 0
        else fp.getD j 0 + (x - xp.getD j 0) / (xp.getD (j + 1) 0 - xp.getD j 0) *
          (fp.getD (j + 1) 0 - fp.getD j 0)) :
    fp.getD j 0 ≤ v ∧ v ≤ fp.getD (j + 1) 0 := by
  subst hv
  split_ifs with h
  · exact ⟨le_rfl, hfj⟩
  · have hlt : xp.getD j 0 < xp.getD (j + 1) 0 := by
      rcases lt_or_eq_of_le (h1.trans h2) with hlt | heq
      · exact hlt
      · rw [heq] at h; simp at h; linarith
    exact lerp_mem h1 h2 hlt hfj

theorem interp_mem {eps x : ℝ} {xp fp : List ℝ} (he : 0 ≤ eps) (hs : xp.Pairwise (· ≤ ·))
    (hf : fp.Pairwise (· ≤ ·)) (hn : 2 ≤ xp.length) (hlen : fp.length = xp.length) :
    fp.getD 0 0 ≤ interp eps x xp fp ∧ interp eps x xp fp ≤ fp.getD (xp.length - 1) 0 := by
  rcases interp_cases (eps := eps) (x := x) (fp := fp) hs hn with ⟨-, h⟩ | ⟨-, h⟩ | ⟨j, hj, h1, h2, -, h⟩
  · rw [h]; exact ⟨le_rfl, sorted_getD hf (by omega) (by omega)⟩
  · rw [h]; exact ⟨sorted_getD hf (by omega) (by omega), le_rfl⟩
  · have := interp_seg he (sorted_getD hf (by omega) (by omega)) h1 h2 h
    exact ⟨(sorted_getD hf (by omega) (by omega)).trans this.1,
      this.2.trans (sorted_getD hf (by omega) (by omega))⟩

/-- On sorted tables, `interp` is non-decreasing. -/
theorem interp_mono {eps : ℝ} {xp fp : List ℝ} (he : 0 ≤ eps) (hs : xp.Pairwise (· ≤ ·))
    (hf : fp.Pairwise (· ≤ ·)) (hn : 2 ≤ xp.length) (hlen : fp.length = xp.length) {x y : ℝ}
    (hxy : x ≤ y) : interp eps x xp fp ≤ interp eps y xp fp := by
  have mem := fun z => interp_mem (x := z) he hs hf hn hlen
  rcases interp_cases (eps := eps) (x := x) (fp := fp) hs hn with ⟨-, h⟩ | ⟨hx, h⟩ | ⟨j, hj, h1, h2, h3, h⟩
  · rw [h]; exact (mem y).1
  · rcases interp_cases (eps := eps) (x := y) (fp := fp) hs hn with ⟨hy, h'⟩ | ⟨-, h'⟩ | ⟨k, hk, k1, k2, -, h'⟩
    · have := sorted_getD hs (i := 0) (j := xp.length - 1) (by omega) (by omega); linarith
    · rw [h, h']
    · have := sorted_getD hs (i := k + 1) (j := xp.length - 1) (by omega) (by omega); linarith
  · rcases interp_cases (eps := eps) (x := y) (fp := fp) hs hn with ⟨hy, h'⟩ | ⟨-, h'⟩ | ⟨k, hk, k1, k2, k3, h'⟩
    · have := sorted_getD hs (i := 0) (j := j) (by omega) (by omega); linarith
    · rw [h']; exact (mem x).2
    · have sx := interp_seg he (sorted_getD hf (by omega) (by omega)) h1 h2 h
      have sy := interp_seg he (sorted_getD hf (by omega) (by omega)) k1 k2 h'
      rcases lt_trichotomy j k with hjk | hjk | hjk
      · exact sx.2.trans ((sorted_getD hf (by omega) (by omega)).trans sy.1)
      · subst hjk
        rw [h, h']
        split_ifs with hc
        · exact le_rfl
        · have hd : 0 < xp.getD (j + 1) 0 - xp.getD j 0 := by
            rcases lt_or_eq_of_le (h1.trans h2) with hlt | heq
            · linarith
            · rw [heq] at hc; simp at hc; linarith
          have hg : 0 ≤ fp.getD (j + 1) 0 - fp.getD j 0 := by
            have := sorted_getD hf (i := j) (j := j + 1) (by omega) (by omega); linarith
          have : (x - xp.getD j 0) / (xp.getD (j + 1) 0 - xp.getD j 0)
              ≤ (y - xp.getD j 0) / (xp.getD (j + 1) 0 - xp.getD j 0) :=
            div_le_div_of_nonneg_right (by linarith) hd.le
          nlinarith
      · have := sorted_getD hs (i := k + 1) (j := j) (by omega) (by omega)
        have : x = y := by linarith
        rw [this]

/-- At a node of a strictly increasing table (other than the last), `interp` returns the node's
value. -/
theorem interp_node {eps : ℝ} {xp fp : List ℝ} (hs : xp.Pairwise (· < ·)) {i : ℕ}
    (hi : i + 1 < xp.length) : interp eps (xp.getD i 0) xp fp = fp.getD i 0 := by
  have hs' : xp.Pairwise (· ≤ ·) := hs.imp fun h => h.le
  have hlt : ∀ a b, a < b → b < xp.length → xp.getD a 0 < xp.getD b 0 := by
    intro a b hab hb
    rw [List.getD_eq_getElem _ _ (by omega), List.getD_eq_getElem _ _ hb]
    exact List.pairwise_iff_getElem.1 hs a b (by omega) hb hab
  rcases interp_cases (eps := eps) (x := xp.getD i 0) (fp := fp) hs' (by omega) with
    ⟨h, -⟩ | ⟨h, -⟩ | ⟨j, hj, h1, h2, h3, h⟩
  · have := sorted_getD hs' (i := 0) (j := i) (by omega) (by omega); linarith
  · have := sorted_getD hs' (i := i) (j := xp.length - 1) (by omega) (by omega); linarith
  · have hji : j = i := by
      by_contra hne
      rcases lt_or_gt_of_ne hne with hlt' | hgt
      · rcases h3 with h3 | h3
        · have := sorted_getD hs' (i := j + 1) (j := i) (by omega) (by omega); linarith
        · omega
      · have := hlt i j hgt (by omega); linarith
    subst hji
    rw [h]; simp

/-- At the last node the value is the last value, if the last interval is wider than `eps`. -/
theorem interp_last {eps : ℝ} {xp fp : List ℝ} (hs : xp.Pairwise (· < ·)) (hn : 2 ≤ xp.length)
    (hgap : eps < xp.getD (xp.length - 1) 0 - xp.getD (xp.length - 2) 0) :
    interp eps (xp.getD (xp.length - 1) 0) xp fp = fp.getD (xp.length - 1) 0 := by
  have hs' : xp.Pairwise (· ≤ ·) := hs.imp fun h => h.le
  have hlt : ∀ a b, a < b → b < xp.length → xp.getD a 0 < xp.getD b 0 := by
    intro a b hab hb
    rw [List.getD_eq_getElem _ _ (by omega), List.getD_eq_getElem _ _ hb]
    exact List.pairwise_iff_getElem.1 hs a b (by omega) hb hab
  rcases interp_cases (eps := eps) (x := xp.getD (xp.length - 1) 0) (fp := fp) hs' (by omega) with
    ⟨h, -⟩ | ⟨h, -⟩ | ⟨j, hj, h1, h2, h3, h⟩
  · have := sorted_getD hs' (i := 0) (j := xp.length - 1) (by omega) (by omega); linarith
  · exact absurd h (lt_irrefl _)
  · have hji : j + 1 = xp.length - 1 := by
      rcases h3 with h3 | h3
      · have := sorted_getD hs' (i := j + 1) (j := xp.length - 1) (by omega) (by omega); linarith
      · exact h3
    have hj2 : xp.length - 2 = j := by omega
    rw [h, hji]
    rw [hj2] at hgap
    have hpos : 0 < xp.getD (xp.length - 1) 0 - xp.getD j 0 := by
      have := hlt j (xp.length - 1) (by omega) (by omega); linarith
    rw [if_neg (by rw [abs_of_pos hpos]; linarith), div_self hpos.ne']; ring

/-! ### Tables -/

theorem linspace_length (a b : ℝ) (n : ℕ) : (linspace a b n).length = n := by simp [linspace]

theorem linspace_getD (a b : ℝ) {n i : ℕ} (hi : i < n) :
    (linspace a b n).getD i 0 = a + (i : ℝ) * ((b - a) / ((n : ℝ) - 1)) := by
  rw [List.getD_eq_getElem _ _ (by rw [linspace_length]; exact hi)]; simp [linspace]

theorem linspace_strict {a b : ℝ} (h : a < b) {n : ℕ} (hn : 2 ≤ n) :
    (linspace a b n).Pairwise (· < ·) := by
  unfold linspace
  rw [List.pairwise_map]
  refine List.pairwise_lt_range.imp ?_
  intro i j hij
  have h1 : (2 : ℝ) ≤ n := by exact_mod_cast hn
  have h2 : 0 < (b - a) / ((n : ℝ) - 1) := div_pos (by linarith) (by linarith)
  have h3 : (i : ℝ) < j := by exact_mod_cast hij
  nlinarith

theorem linspace_last (a b : ℝ) {n : ℕ} (hn : 2 ≤ n) : (linspace a b n).getD (n - 1) 0 = b := by
  rw [linspace_getD a b (by omega)]
  have h1 : (2 : ℝ) ≤ n := by exact_mod_cast hn
  have h2 : ((n - 1 : ℕ) : ℝ) = (n : ℝ) - 1 := by rw [Nat.cast_sub (by omega)]; simp
  have h3 : (n : ℝ) - 1 ≠ 0 := by intro h; linarith
  rw [h2, mul_div_cancel₀ _ h3]; ring

theorem map_sigmoid_strict {l : List ℝ} (hl : l.Pairwise (· < ·)) (x0 : ℝ) :
    (l.map fun x => Utils.sigmoid x x0 (JOps.lit 5.0) (JOps.lit 0.0) (JOps.lit 1.0)).Pairwise (· < ·) := by
  rw [List.pairwise_map]
  refine hl.imp ?_
  intro a b hab
  exact sigmoid_strictMono (x0 := x0) (k := 5.0) (ylo := 0.0) (yhi := 1.0) (by norm_num) (by norm_num) hab

theorem utp_table_strict : UTP_TABLE.Pairwise (· < ·) := linspace_strict (by norm_num) (by norm_num)

theorem utp_table_length : UTP_TABLE.length = 200 := linspace_length _ _ _

end TPeak

namespace RandM

variable {β γ : Type}

@[simp] theorem pure_eq (b : β) : (Pure.pure b : RandM β) = Except.ok (b, []) := rfl

theorem bind_eq (m : RandM β) (f : β → RandM γ) : (m >>= f) = RandM.bind m f := rfl

@[simp] theorem bind_ok (b : β) (ks : List Key) (f : β → RandM γ) :
    RandM.bind (Except.ok (b, ks)) f =
      match f b with
      | .error e => .error e
      | .ok (c, ks') => .ok (c, ks ++ ks') := rfl

@[simp] theorem bind_err (e : PyErr) (f : β → RandM γ) :
    RandM.bind (Except.error e) f = Except.error e := rfl

@[simp] theorem lift_ok (b : β) : RandM.lift (Except.ok b) = Except.ok (b, []) := rfl

@[simp] theorem lift_err (e : PyErr) : RandM.lift (β := β) (Except.error e) = Except.error e := rfl

@[simp] theorem draw_eq (k : Key) (b : β) : RandM.draw k b = Except.ok (b, [k]) := rfl

/-- If `m` returns `b` using keys `ks` and `f b` returns `c` using `ks'`, then `m >>= f` returns `c`
using `ks ++ ks'`. -/
theorem bind_of {m : RandM β} {f : β → RandM γ} {b : β} {c : γ} {ks ks' : List Key}
    (h1 : m = Except.ok (b, ks)) (h2 : f b = Except.ok (c, ks')) :
    (m >>= f) = Except.ok (c, ks ++ ks') := by
  subst h1
  show RandM.bind _ _ = _
  rw [bind_ok, h2]

/-- Lanes that all return. -/
theorem all_of {ι : Type} (l : List ι) (f : ι → RandM β) (v : ι → β) (ks : ι → List Key)
    (h : ∀ i ∈ l, f i = Except.ok (v i, ks i)) :
    RandM.all (l.map f) = Except.ok (l.map v, (l.map ks).flatten) := by
  induction l with
  | nil => rfl
  | cons i l ih =>
    simp only [List.map_cons, RandM.all]
    rw [h i (by simp), ih fun j hj => h j (by simp [hj])]
    simp only [RandM.bind, RandM.pure, List.flatten_cons, List.append_nil]
    rfl

end RandM

theorem Key.split_nodup (k : Key) (n : ℕ) : (k.split n).Nodup := by
  unfold Key.split
  apply List.Nodup.map _ List.nodup_range
  intro a b hab
  exact (Key.child.inj hab).2.2

theorem Key.split_getD (k d : Key) {n i : ℕ} (h : i < n) : (k.split n).getD i d = .child k n i := by
  simp [Key.split, h]

theorem split_lanes (k : Key) (n : ℕ) :
    ((List.range n).map fun i => [(k.split n).getD i k]).flatten = k.split n := by
  have e : ∀ l : List ℕ, (l.map fun i => [(k.split n).getD i k]).flatten
      = l.map fun i => (k.split n).getD i k := by
    intro l
    induction l with
    | nil => rfl
    | cons a l ih => simp only [List.map_cons, List.flatten_cons, ih, List.singleton_append]
  rw [e]
  apply List.ext_getElem (by simp [Key.split])
  intro i hi1 hi2
  simp only [List.length_map, List.length_range] at hi1
  simp [Key.split, hi1]

end Diffmah

import Verif.Props.Float32
import Verif.Lemmas.PopParams

/-!
# The bounds of the population parameters, rounded to single precision
-/

namespace Diffmah.F32.PopBounds

open JOps XR

theorem rnd_pos {x v : ℝ} {m e : ℤ} (he : -149 ≤ e) (hv : v = m * 2 ^ e) (h1 : 2 ^ (e + 23) ≤ x)
    (h2 : x < 2 ^ (e + 24)) (h3 : (m : ℝ) - 1 / 2 < x / 2 ^ e) (h4 : x / 2 ^ e < m + 1 / 2) :
    round x = v := by
  have hx : 0 < x := (two_zpow_pos _).trans_le h1
  rw [hv]
  exact round_eq he (by rwa [abs_of_pos hx]) (by rwa [abs_of_pos hx]) (by rw [abs_lt]; constructor <;> linarith)

theorem rnd_neg {x v : ℝ} {m e : ℤ} (he : -149 ≤ e) (hv : v = -(m * 2 ^ e)) (h1 : 2 ^ (e + 23) ≤ -x)
    (h2 : -x < 2 ^ (e + 24)) (h3 : (m : ℝ) - 1 / 2 < -x / 2 ^ e) (h4 : -x / 2 ^ e < m + 1 / 2) :
    round x = v := by
  have := rnd_pos he rfl h1 h2 h3 h4
  rw [round_neg] at this
  rw [hv, ← this, neg_neg]

local macro "rnd_pos_tac" m:term:max e:term:max : tactic =>
  `(tactic| (refine rnd_pos (m := $m) (e := $e) ?_ ?_ ?_ ?_ ?_ ?_ <;> norm_num))
local macro "rnd_neg_tac" m:term:max e:term:max : tactic =>
  `(tactic| (refine rnd_neg (m := $m) (e := $e) ?_ ?_ ?_ ?_ ?_ ?_ <;> norm_num))

theorem zero_tac {x : ℝ} (h : x = 0) : round x = 0 := by rw [h]; exact round_zero

/-- The upper bound recomputed as `lo + (hi - lo)` is not above the rounded upper bound. -/
def Top (b : ℝ × ℝ) : Prop := round (round b.1 + round (round b.2 - round b.1)) ≤ round b.2

/-- The recomputed upper bound is at most `2^-28` above the rounded upper bound. -/
def TopEsc (b : ℝ × ℝ) : Prop :=
  round (round b.1 + round (round b.2 - round b.1)) ≤ round b.2 + 2 ^ (-28 : ℤ)

theorem Top.esc {b : ℝ × ℝ} (h : Top b) : TopEsc b := by
  unfold Top at h; unfold TopEsc; linarith [two_zpow_pos (-28)]

theorem top_of {lo hi L H D : ℝ} (h1 : round lo = L) (h2 : round hi = H) (h3 : round (H - L) = D)
    (h4 : round (L + D) ≤ H) : Top (lo, hi) := by
  unfold Top; simp only; rw [h1, h2, h3]; exact h4

theorem esc_of {lo hi L H D T : ℝ} (h1 : round lo = L) (h2 : round hi = H) (h3 : round (H - L) ≤ D)
    (h4 : round (L + D) ≤ T) (h5 : T ≤ H + 2 ^ (-28 : ℤ)) : TopEsc (lo, hi) := by
  unfold TopEsc; simp only; rw [h1, h2]
  exact ((round_mono (by linarith)).trans h4).trans h5

theorem r0_01 : round (0.01 : ℝ) = (5368709 / 536870912 : ℝ) := (by rnd_pos_tac 10737418 (-30))
theorem r0_1 : round (0.1 : ℝ) = (13421773 / 134217728 : ℝ) := (by rnd_pos_tac 13421773 (-27))
theorem t0_01_to_0_1 : Top ((0.01 : ℝ), (0.1 : ℝ)) :=
  top_of r0_01 r0_1 (D := (3019899 / 33554432 : ℝ)) (by rnd_pos_tac 12079596 (-27))
    (le_of_eq (by rnd_pos_tac 13421773 (-27)))
theorem r0_25 : round (0.25 : ℝ) = (1 / 4 : ℝ) := (by rnd_pos_tac 8388608 (-25))
theorem t0_01_to_0_25 : Top ((0.01 : ℝ), (0.25 : ℝ)) :=
  top_of r0_01 r0_25 (D := (16106127 / 67108864 : ℝ)) (by rnd_pos_tac 16106127 (-26))
    (round_le (by norm_num) (r0_25 ▸ rep_round _))
theorem r5_0 : round (5.0 : ℝ) = (5 : ℝ) := (by rnd_pos_tac 10485760 (-21))
theorem r13_0 : round (13.0 : ℝ) = (13 : ℝ) := (by rnd_pos_tac 13631488 (-20))
theorem t5_0_to_13_0 : Top ((5.0 : ℝ), (13.0 : ℝ)) :=
  top_of r5_0 r13_0 (D := (8 : ℝ)) (by rnd_pos_tac 8388608 (-20))
    (round_le (by norm_num) (r13_0 ▸ rep_round _))
theorem r11_0 : round (11.0 : ℝ) = (11 : ℝ) := (by rnd_pos_tac 11534336 (-20))
theorem r14_0 : round (14.0 : ℝ) = (14 : ℝ) := (by rnd_pos_tac 14680064 (-20))
theorem t11_0_to_14_0 : Top ((11.0 : ℝ), (14.0 : ℝ)) :=
  top_of r11_0 r14_0 (D := (3 : ℝ)) (by rnd_pos_tac 12582912 (-22))
    (round_le (by norm_num) (r14_0 ▸ rep_round _))
theorem r1_0 : round (1.0 : ℝ) = (1 : ℝ) := (by rnd_pos_tac 8388608 (-23))
theorem r7_0 : round (7.0 : ℝ) = (7 : ℝ) := (by rnd_pos_tac 14680064 (-21))
theorem t1_0_to_7_0 : Top ((1.0 : ℝ), (7.0 : ℝ)) :=
  top_of r1_0 r7_0 (D := (6 : ℝ)) (by rnd_pos_tac 12582912 (-21))
    (round_le (by norm_num) (r7_0 ▸ rep_round _))
theorem r3_5 : round (3.5 : ℝ) = (7 / 2 : ℝ) := (by rnd_pos_tac 14680064 (-22))
theorem t1_0_to_3_5 : Top ((1.0 : ℝ), (3.5 : ℝ)) :=
  top_of r1_0 r3_5 (D := (5 / 2 : ℝ)) (by rnd_pos_tac 10485760 (-22))
    (round_le (by norm_num) (r3_5 ▸ rep_round _))
theorem r0_5 : round (0.5 : ℝ) = (1 / 2 : ℝ) := (by rnd_pos_tac 8388608 (-24))
theorem r3_0 : round (3.0 : ℝ) = (3 : ℝ) := (by rnd_pos_tac 12582912 (-22))
theorem t0_5_to_3_0 : Top ((0.5 : ℝ), (3.0 : ℝ)) :=
  top_of r0_5 r3_0 (D := (5 / 2 : ℝ)) (by rnd_pos_tac 10485760 (-22))
    (round_le (by norm_num) (r3_0 ▸ rep_round _))
theorem r2_0 : round (2.0 : ℝ) = (2 : ℝ) := (by rnd_pos_tac 8388608 (-22))
theorem r4_0 : round (4.0 : ℝ) = (4 : ℝ) := (by rnd_pos_tac 8388608 (-21))
theorem t2_0_to_4_0 : Top ((2.0 : ℝ), (4.0 : ℝ)) :=
  top_of r2_0 r4_0 (D := (2 : ℝ)) (by rnd_pos_tac 8388608 (-22))
    (round_le (by norm_num) (r4_0 ▸ rep_round _))
theorem r1_5 : round (1.5 : ℝ) = (3 / 2 : ℝ) := (by rnd_pos_tac 12582912 (-23))
theorem t1_5_to_4_0 : Top ((1.5 : ℝ), (4.0 : ℝ)) :=
  top_of r1_5 r4_0 (D := (5 / 2 : ℝ)) (by rnd_pos_tac 10485760 (-22))
    (round_le (by norm_num) (r4_0 ▸ rep_round _))
theorem t4_0_to_13_0 : Top ((4.0 : ℝ), (13.0 : ℝ)) :=
  top_of r4_0 r13_0 (D := (9 : ℝ)) (by rnd_pos_tac 9437184 (-20))
    (round_le (by norm_num) (r13_0 ▸ rep_round _))
theorem r12_0 : round (12.0 : ℝ) = (12 : ℝ) := (by rnd_pos_tac 12582912 (-20))
theorem t12_0_to_14_0 : Top ((12.0 : ℝ), (14.0 : ℝ)) :=
  top_of r12_0 r14_0 (D := (2 : ℝ)) (by rnd_pos_tac 8388608 (-22))
    (round_le (by norm_num) (r14_0 ▸ rep_round _))
theorem r11_5 : round (11.5 : ℝ) = (23 / 2 : ℝ) := (by rnd_pos_tac 12058624 (-20))
theorem t11_5_to_14_0 : Top ((11.5 : ℝ), (14.0 : ℝ)) :=
  top_of r11_5 r14_0 (D := (5 / 2 : ℝ)) (by rnd_pos_tac 10485760 (-22))
    (round_le (by norm_num) (r14_0 ▸ rep_round _))
theorem r0_2 : round (0.2 : ℝ) = (13421773 / 67108864 : ℝ) := (by rnd_pos_tac 13421773 (-26))
theorem t0_01_to_0_2 : Top ((0.01 : ℝ), (0.2 : ℝ)) :=
  top_of r0_01 r0_2 (D := (3187671 / 16777216 : ℝ)) (by rnd_pos_tac 12750684 (-26))
    (round_le (by norm_num) (r0_2 ▸ rep_round _))
theorem r0_9 : round (0.9 : ℝ) = (7549747 / 8388608 : ℝ) := (by rnd_pos_tac 15099494 (-24))
theorem t0_2_to_0_9 : Top ((0.2 : ℝ), (0.9 : ℝ)) :=
  top_of r0_2 r0_9 (D := (11744051 / 16777216 : ℝ)) (by rnd_pos_tac 11744051 (-24))
    (le_of_eq (by rnd_pos_tac 15099494 (-24)))
theorem r0_0 : round (0.0 : ℝ) = (0 : ℝ) := (zero_tac (by norm_num))
theorem r0_05 : round (0.05 : ℝ) = (13421773 / 268435456 : ℝ) := (by rnd_pos_tac 13421773 (-28))
theorem t0_0_to_0_05 : Top ((0.0 : ℝ), (0.05 : ℝ)) :=
  top_of r0_0 r0_05 (D := (13421773 / 268435456 : ℝ)) (by rnd_pos_tac 13421773 (-28))
    (round_le (by norm_num) (r0_05 ▸ rep_round _))
theorem r0_02 : round (0.02 : ℝ) = (5368709 / 268435456 : ℝ) := (by rnd_pos_tac 10737418 (-29))
theorem r0_15 : round (0.15 : ℝ) = (5033165 / 33554432 : ℝ) := (by rnd_pos_tac 10066330 (-26))
theorem t0_02_to_0_15 : Top ((0.02 : ℝ), (0.15 : ℝ)) :=
  top_of r0_02 r0_15 (D := (8724153 / 67108864 : ℝ)) (by rnd_pos_tac 8724153 (-26))
    (le_of_eq (by rnd_pos_tac 10066330 (-26)))
theorem rm0_25 : round (-0.25 : ℝ) = (-1 / 4 : ℝ) := (by rnd_neg_tac 8388608 (-25))
theorem tm0_25_to_0_0 : Top ((-0.25 : ℝ), (0.0 : ℝ)) :=
  top_of rm0_25 r0_0 (D := (1 / 4 : ℝ)) (by rnd_pos_tac 8388608 (-25))
    (round_le (by norm_num) (r0_0 ▸ rep_round _))
theorem t11_0_to_13_0 : Top ((11.0 : ℝ), (13.0 : ℝ)) :=
  top_of r11_0 r13_0 (D := (2 : ℝ)) (by rnd_pos_tac 8388608 (-22))
    (round_le (by norm_num) (r13_0 ▸ rep_round _))
theorem r0_4 : round (0.4 : ℝ) = (13421773 / 33554432 : ℝ) := (by rnd_pos_tac 13421773 (-25))
theorem t0_01_to_0_4 : Top ((0.01 : ℝ), (0.4 : ℝ)) :=
  top_of r0_01 r0_4 (D := (13086229 / 33554432 : ℝ)) (by rnd_pos_tac 13086229 (-25))
    (le_of_eq (by rnd_pos_tac 13421773 (-25)))
theorem rm0_15 : round (-0.15 : ℝ) = (-5033165 / 33554432 : ℝ) := (by rnd_neg_tac 10066330 (-26))
theorem rm0_05 : round (-0.05 : ℝ) = (-13421773 / 268435456 : ℝ) := (by rnd_neg_tac 13421773 (-28))
theorem em0_15_to_m0_05 : TopEsc ((-0.15 : ℝ), (-0.05 : ℝ)) :=
  esc_of rm0_15 rm0_05 (D := (6710887 / 67108864 : ℝ)) (round_le (by norm_num) ⟨13421774, -27, by norm_num, by norm_num, by norm_num⟩)
    (T := (-3355443 / 67108864 : ℝ)) (le_of_eq (by rnd_neg_tac 13421772 (-28))) (by norm_num)
theorem t0_5_to_0_9 : Top ((0.5 : ℝ), (0.9 : ℝ)) :=
  top_of r0_5 r0_9 (D := (3355443 / 8388608 : ℝ)) (by rnd_pos_tac 13421772 (-25))
    (round_le (by norm_num) (r0_9 ▸ rep_round _))
theorem rm0_1 : round (-0.1 : ℝ) = (-13421773 / 134217728 : ℝ) := (by rnd_neg_tac 13421773 (-27))
theorem rm0_01 : round (-0.01 : ℝ) = (-5368709 / 536870912 : ℝ) := (by rnd_neg_tac 10737418 (-30))
theorem em0_1_to_m0_01 : TopEsc ((-0.1 : ℝ), (-0.01 : ℝ)) :=
  esc_of rm0_1 rm0_01 (D := (3019899 / 33554432 : ℝ)) (le_of_eq (by rnd_pos_tac 12079596 (-27)))
    (T := (-1342177 / 134217728 : ℝ)) (le_of_eq (by rnd_neg_tac 10737416 (-30))) (by norm_num)
theorem r6_0 : round (6.0 : ℝ) = (6 : ℝ) := (by rnd_pos_tac 12582912 (-21))
theorem t1_5_to_6_0 : Top ((1.5 : ℝ), (6.0 : ℝ)) :=
  top_of r1_5 r6_0 (D := (9 / 2 : ℝ)) (by rnd_pos_tac 9437184 (-21))
    (round_le (by norm_num) (r6_0 ▸ rep_round _))
theorem r0_001 : round (0.001 : ℝ) = (8589935 / 8589934592 : ℝ) := (by rnd_pos_tac 8589935 (-33))
theorem t0_001_to_0_1 : Top ((0.001 : ℝ), (0.1 : ℝ)) :=
  top_of r0_001 r0_1 (D := (13287555 / 134217728 : ℝ)) (by rnd_pos_tac 13287555 (-27))
    (round_le (by norm_num) (r0_1 ▸ rep_round _))
theorem rm0_001 : round (-0.001 : ℝ) = (-8589935 / 8589934592 : ℝ) := (by rnd_neg_tac 8589935 (-33))
theorem em0_05_to_m0_001 : TopEsc ((-0.05 : ℝ), (-0.001 : ℝ)) :=
  esc_of rm0_05 rm0_001 (D := (6576669 / 134217728 : ℝ)) (le_of_eq (by rnd_pos_tac 13153338 (-28)))
    (T := (-268435 / 268435456 : ℝ)) (le_of_eq (by rnd_neg_tac 8589920 (-33))) (by norm_num)
theorem t4_0_to_11_0 : Top ((4.0 : ℝ), (11.0 : ℝ)) :=
  top_of r4_0 r11_0 (D := (7 : ℝ)) (by rnd_pos_tac 14680064 (-21))
    (round_le (by norm_num) (r11_0 ▸ rep_round _))
theorem t0_001_to_0_05 : Top ((0.001 : ℝ), (0.05 : ℝ)) :=
  top_of r0_001 r0_05 (D := (6576669 / 134217728 : ℝ)) (by rnd_pos_tac 13153338 (-28))
    (le_of_eq (by rnd_pos_tac 13421773 (-28)))
theorem r10_0 : round (10.0 : ℝ) = (10 : ℝ) := (by rnd_pos_tac 10485760 (-20))
theorem t3_0_to_10_0 : Top ((3.0 : ℝ), (10.0 : ℝ)) :=
  top_of r3_0 r10_0 (D := (7 : ℝ)) (by rnd_pos_tac 14680064 (-21))
    (round_le (by norm_num) (r10_0 ▸ rep_round _))
theorem t0_5_to_1_0 : Top ((0.5 : ℝ), (1.0 : ℝ)) :=
  top_of r0_5 r1_0 (D := (1 / 2 : ℝ)) (by rnd_pos_tac 8388608 (-24))
    (round_le (by norm_num) (r1_0 ▸ rep_round _))
theorem r1_8 : round (1.8 : ℝ) = (7549747 / 4194304 : ℝ) := (by rnd_pos_tac 15099494 (-23))
theorem t1_0_to_1_8 : Top ((1.0 : ℝ), (1.8 : ℝ)) :=
  top_of r1_0 r1_8 (D := (3355443 / 4194304 : ℝ)) (by rnd_pos_tac 13421772 (-24))
    (round_le (by norm_num) (r1_8 ▸ rep_round _))
theorem t5_0_to_10_0 : Top ((5.0 : ℝ), (10.0 : ℝ)) :=
  top_of r5_0 r10_0 (D := (5 : ℝ)) (by rnd_pos_tac 10485760 (-21))
    (round_le (by norm_num) (r10_0 ▸ rep_round _))
theorem r0_8 : round (0.8 : ℝ) = (13421773 / 16777216 : ℝ) := (by rnd_pos_tac 13421773 (-24))
theorem t0_4_to_0_8 : Top ((0.4 : ℝ), (0.8 : ℝ)) :=
  top_of r0_4 r0_8 (D := (13421773 / 33554432 : ℝ)) (by rnd_pos_tac 13421773 (-25))
    (round_le (by norm_num) (r0_8 ▸ rep_round _))
theorem t0_15_to_0_25 : Top ((0.15 : ℝ), (0.25 : ℝ)) :=
  top_of r0_15 r0_25 (D := (3355443 / 33554432 : ℝ)) (by rnd_pos_tac 13421772 (-27))
    (round_le (by norm_num) (r0_25 ▸ rep_round _))
theorem t6_0_to_11_0 : Top ((6.0 : ℝ), (11.0 : ℝ)) :=
  top_of r6_0 r11_0 (D := (5 : ℝ)) (by rnd_pos_tac 10485760 (-21))
    (round_le (by norm_num) (r11_0 ▸ rep_round _))
theorem t0_1_to_0_5 : Top ((0.1 : ℝ), (0.5 : ℝ)) :=
  top_of r0_1 r0_5 (D := (13421773 / 33554432 : ℝ)) (by rnd_pos_tac 13421773 (-25))
    (le_of_eq (by rnd_pos_tac 8388608 (-24)))
theorem r0_6 : round (0.6 : ℝ) = (5033165 / 8388608 : ℝ) := (by rnd_pos_tac 10066330 (-24))
theorem t0_1_to_0_6 : Top ((0.1 : ℝ), (0.6 : ℝ)) :=
  top_of r0_1 r0_6 (D := (1 / 2 : ℝ)) (by rnd_pos_tac 8388608 (-24))
    (round_le (by norm_num) (r0_6 ▸ rep_round _))
theorem t0_01_to_0_9 : Top ((0.01 : ℝ), (0.9 : ℝ)) :=
  top_of r0_01 r0_9 (D := (7465861 / 8388608 : ℝ)) (by rnd_pos_tac 14931722 (-24))
    (le_of_eq (by rnd_pos_tac 15099494 (-24)))
theorem t0_1_to_0_9 : Top ((0.1 : ℝ), (0.9 : ℝ)) :=
  top_of r0_1 r0_9 (D := (3355443 / 4194304 : ℝ)) (by rnd_pos_tac 13421772 (-24))
    (round_le (by norm_num) (r0_9 ▸ rep_round _))
theorem r100_0 : round (100.0 : ℝ) = (100 : ℝ) := (by rnd_pos_tac 13107200 (-17))
theorem t0_01_to_100_0 : Top ((0.01 : ℝ), (100.0 : ℝ)) :=
  top_of r0_01 r100_0 (D := (13105889 / 131072 : ℝ)) (by rnd_pos_tac 13105889 (-17))
    (round_le (by norm_num) (r100_0 ▸ rep_round _))
theorem rm0_3 : round (-0.3 : ℝ) = (-5033165 / 16777216 : ℝ) := (by rnd_neg_tac 10066330 (-25))
theorem r0_3 : round (0.3 : ℝ) = (5033165 / 16777216 : ℝ) := (by rnd_pos_tac 10066330 (-25))
theorem tm0_3_to_0_3 : Top ((-0.3 : ℝ), (0.3 : ℝ)) :=
  top_of rm0_3 r0_3 (D := (5033165 / 8388608 : ℝ)) (by rnd_pos_tac 10066330 (-24))
    (round_le (by norm_num) (r0_3 ▸ rep_round _))
theorem r0_99 : round (0.99 : ℝ) = (4152361 / 4194304 : ℝ) := (by rnd_pos_tac 16609444 (-24))
theorem t0_01_to_0_99 : Top ((0.01 : ℝ), (0.99 : ℝ)) :=
  top_of r0_01 r0_99 (D := (2055209 / 2097152 : ℝ)) (by rnd_pos_tac 16441672 (-24))
    (le_of_eq (by rnd_pos_tac 16609444 (-24)))
theorem r0_75 : round (0.75 : ℝ) = (3 / 4 : ℝ) := (by rnd_pos_tac 12582912 (-24))
theorem t0_25_to_0_75 : Top ((0.25 : ℝ), (0.75 : ℝ)) :=
  top_of r0_25 r0_75 (D := (1 / 2 : ℝ)) (by rnd_pos_tac 8388608 (-24))
    (round_le (by norm_num) (r0_75 ▸ rep_round _))
theorem r0_1001 : round (0.1001 : ℝ) = (13435195 / 134217728 : ℝ) := (by rnd_pos_tac 13435195 (-27))
theorem r0_9999 : round (0.9999 : ℝ) = (8387769 / 8388608 : ℝ) := (by rnd_pos_tac 16775538 (-24))
theorem t0_1001_to_0_9999 : Top ((0.1001 : ℝ), (0.9999 : ℝ)) :=
  top_of r0_1001 r0_9999 (D := (15096139 / 16777216 : ℝ)) (by rnd_pos_tac 15096139 (-24))
    (le_of_eq (by rnd_pos_tac 16775538 (-24)))
theorem r0_0001 : round (0.0001 : ℝ) = (13743895 / 137438953472 : ℝ) := (by rnd_pos_tac 13743895 (-37))
theorem t0_0001_to_1_0 : Top ((0.0001 : ℝ), (1.0 : ℝ)) :=
  top_of r0_0001 r1_0 (D := (8387769 / 8388608 : ℝ)) (by rnd_pos_tac 16775538 (-24))
    (round_le (by norm_num) (r1_0 ▸ rep_round _))

open Pop TPeak

/-- The parameters whose recomputed upper bound is above their rounded upper bound. -/
def ESCAPING : List String :=
  ["_early", "_late", "_early_sats", "_late_sats"].flatMap fun sfx =>
    ["lgm0pop_c0_ylo" ++ sfx, "lgm0pop_c0_clip_c1" ++ sfx, "lgm0pop_c1_ylo" ++ sfx]

/-- What is needed of one named bound. -/
structure Good (b : String × ℝ × ℝ) : Prop where
  lo : |b.2.1| ≤ 2 ^ (7 : ℕ)
  hi : |b.2.2| ≤ 2 ^ (7 : ℕ)
  esc : TopEsc b.2
  top : b.1 ∉ ESCAPING → Top b.2

theorem good_top {n : String} {lo hi : ℝ} (h : Top (lo, hi)) (h1 : |lo| ≤ 2 ^ (7 : ℕ))
    (h2 : |hi| ≤ 2 ^ (7 : ℕ)) : Good (n, lo, hi) := ⟨h1, h2, h.esc, fun _ => h⟩

theorem good_esc {n : String} {lo hi : ℝ} (hn : n ∈ ESCAPING) (h : TopEsc (lo, hi))
    (h1 : |lo| ≤ 2 ^ (7 : ℕ)) (h2 : |hi| ≤ 2 ^ (7 : ℕ)) : Good (n, lo, hi) :=
  ⟨h1, h2, h, fun h' => absurd hn h'⟩

local macro "abx" : term => `(abs_le.2 ⟨by norm_num, by norm_num⟩)
local macro "good_simp" : tactic => `(tactic| simp only [withSuffix, List.map_cons, List.map_nil,
  List.forall_mem_cons, List.not_mem_nil, false_imp_iff, implies_true, and_true])

theorem EARLY_INDEX_BOUNDS_PDICT_good (sfx : String) : ∀ b ∈ EARLY_INDEX_BOUNDS_PDICT sfx, Good b := by
  unfold EARLY_INDEX_BOUNDS_PDICT
  good_simp
  exact ⟨good_top t1_0_to_7_0 abx abx,
    good_top t1_0_to_3_5 abx abx,
    good_top t0_5_to_3_0 abx abx,
    good_top t2_0_to_4_0 abx abx,
    good_top t1_5_to_4_0 abx abx,
    good_top t4_0_to_13_0 abx abx,
    good_top t12_0_to_14_0 abx abx⟩

theorem LATE_INDEX_BOUNDS_PDICT_good (sfx : String) : ∀ b ∈ LATE_INDEX_BOUNDS_PDICT sfx, Good b := by
  unfold LATE_INDEX_BOUNDS_PDICT
  good_simp
  exact ⟨good_top t11_5_to_14_0 abx abx,
    good_top t0_01_to_0_2 abx abx,
    good_top t0_01_to_0_2 abx abx⟩

theorem LOGTC_BOUNDS_PDICT_good (sfx : String) : ∀ b ∈ LOGTC_BOUNDS_PDICT sfx, Good b := by
  unfold LOGTC_BOUNDS_PDICT
  good_simp
  exact ⟨good_top t0_2_to_0_9 abx abx,
    good_top t0_0_to_0_05 abx abx,
    good_top t0_02_to_0_15 abx abx,
    good_top tm0_25_to_0_0 abx abx,
    good_top t0_02_to_0_15 abx abx,
    good_top t11_0_to_13_0 abx abx⟩

theorem LGM0POP_C0_BOUNDS_DICT_good (sfx : String) (h0 : "lgm0pop_c0_ylo" ++ sfx ∈ ESCAPING) (h1 : "lgm0pop_c0_clip_c1" ++ sfx ∈ ESCAPING) : ∀ b ∈ LGM0POP_C0_BOUNDS_DICT sfx, Good b := by
  unfold LGM0POP_C0_BOUNDS_DICT
  good_simp
  exact ⟨good_top t0_01_to_0_4 abx abx,
    good_esc h0 em0_15_to_m0_05 abx abx,
    good_top t0_5_to_0_9 abx abx,
    good_esc h1 em0_1_to_m0_01 abx abx,
    good_top t1_5_to_6_0 abx abx⟩

theorem LGM0POP_C1_BOUNDS_DICT_good (sfx : String) (h0 : "lgm0pop_c1_ylo" ++ sfx ∈ ESCAPING) : ∀ b ∈ LGM0POP_C1_BOUNDS_DICT sfx, Good b := by
  unfold LGM0POP_C1_BOUNDS_DICT
  good_simp
  exact ⟨good_top t0_001_to_0_1 abx abx,
    good_esc h0 em0_05_to_m0_001 abx abx,
    good_top t4_0_to_11_0 abx abx,
    good_top t0_02_to_0_15 abx abx,
    good_top t0_001_to_0_05 abx abx,
    good_top t3_0_to_10_0 abx abx⟩

theorem COV_good : ∀ b ∈ COV.bounds, Good b := by
  unfold COV COV_X0_BOUNDS RHO_BOUNDS STD_BOUNDS
  good_simp
  exact ⟨good_top t0_01_to_100_0 abx abx,
    good_top t0_01_to_100_0 abx abx,
    good_top t0_01_to_100_0 abx abx,
    good_top t0_01_to_100_0 abx abx,
    good_top t0_01_to_100_0 abx abx,
    good_top t0_01_to_100_0 abx abx,
    good_top t0_01_to_100_0 abx abx,
    good_top t0_01_to_100_0 abx abx,
    good_top tm0_3_to_0_3 abx abx,
    good_top tm0_3_to_0_3 abx abx,
    good_top tm0_3_to_0_3 abx abx,
    good_top tm0_3_to_0_3 abx abx,
    good_top tm0_3_to_0_3 abx abx,
    good_top tm0_3_to_0_3 abx abx,
    good_top t11_5_to_14_0 abx abx,
    good_top t11_5_to_14_0 abx abx,
    good_top t11_5_to_14_0 abx abx,
    good_top t11_5_to_14_0 abx abx⟩

theorem FTPT0_good : ∀ b ∈ FTPT0.bounds, Good b := by
  unfold FTPT0 FTPT0_BOUNDS
  good_simp
  exact ⟨good_top t0_01_to_0_99 abx abx,
    good_top t0_01_to_0_1 abx abx,
    good_top t0_01_to_0_25 abx abx⟩

theorem FEC_good : ∀ b ∈ FEC.bounds, Good b := by
  unfold FEC F_BOUNDS
  good_simp
  rw [show ((1.0 : ℝ) / 4.0, (3.0 : ℝ) / 4.0) = (0.25, 0.75) by norm_num]
  exact ⟨good_top t5_0_to_13_0 abx abx,
    good_top t11_0_to_14_0 abx abx,
    good_top t0_25_to_0_75 abx abx,
    good_top t0_25_to_0_75 abx abx,
    good_top t0_25_to_0_75 abx abx,
    good_top t0_25_to_0_75 abx abx⟩

theorem TPCENS_good : ∀ b ∈ TPCENS.bounds, Good b := by
  unfold TPCENS 
  good_simp
  exact ⟨good_top t11_0_to_14_0 abx abx,
    good_top t3_0_to_10_0 abx abx,
    good_top t0_5_to_1_0 abx abx,
    good_top t1_0_to_1_8 abx abx,
    good_top t0_5_to_1_0 abx abx,
    good_top t1_0_to_1_8 abx abx⟩

theorem TPSATS_good : ∀ b ∈ TPSATS.bounds, Good b := by
  unfold TPSATS 
  good_simp
  exact ⟨good_top t5_0_to_10_0 abx abx,
    good_top t0_4_to_0_8 abx abx,
    good_top t0_15_to_0_25 abx abx,
    good_top t11_0_to_13_0 abx abx,
    good_top t6_0_to_11_0 abx abx,
    good_top t0_1_to_0_5 abx abx,
    good_top t0_1_to_0_6 abx abx⟩

theorem TPCENS_OLD_good : ∀ b ∈ TPCENS_OLD.bounds, Good b := by
  unfold TPCENS_OLD 
  good_simp
  exact ⟨good_top t0_01_to_0_9 abx abx,
    good_top t0_1_to_0_9 abx abx,
    good_top t0_1_to_0_9 abx abx⟩

theorem UTP_good : ∀ b ∈ UTP.bounds, Good b := by
  unfold UTP X_MIN X_MAX UTP_EPS
  good_simp
  rw [show ((0.1 : ℝ) + 1e-4, (1.0 : ℝ) - 1e-4) = (0.1001, 0.9999) by norm_num,
    show ((0.0 : ℝ) + 1e-4, (1.0 : ℝ)) = (0.0001, 1.0) by norm_num]
  exact ⟨good_top t0_1001_to_0_9999 abx abx, good_top t0_0001_to_1_0 abx abx⟩

/-! ### Bounding a tuple in single precision -/

theorem comp_lookup [Libm] {c : Component} (h : c.Wf) {u : NT F32} (hu : u.fields = c.upnames) :
    ∃ p, c.get_bounded u = .ok p ∧ p.fields = c.fields ∧
      ∀ b ∈ c.bounds, ∃ x, ("u_" ++ b.1, x) ∈ u ∧ p.lookup b.1 = some (get_bounded_param x b.2) := by
  have hv := NT.getattrs_fields (p := u) (by rw [hu]; exact h.upnodup)
  rw [hu] at hv
  have hp := get_bounded_eq h hv
  have hpf := get_bounded_fields h hp
  refine ⟨_, hp, hpf, ?_⟩
  intro b hb
  obtain ⟨i, hi, hbi⟩ := List.getElem_of_mem hb
  have hl := NT.getattrs_length hv
  rw [Component.upnames_length] at hl
  have hb' := h.bounds_length
  have hlen : i < c.fields.length := by rw [← hb']; simpa using hi
  have hfi : c.fields[i] = b.1 := by
    have : c.bounds.fields[i]? = some b.1 := by simp [NT.fields, hi, hbi]
    rw [h.same] at this
    simpa [hlen] using this
  have hul : i < u.length := by
    have : u.values.length = u.length := by simp [NT.values]
    omega
  refine ⟨u[i].2, ?_, ?_⟩
  · have : u[i].1 = "u_" ++ b.1 := by
      have h1 : u.fields[i]? = some u[i].1 := by simp [NT.fields, hul]
      rw [hu] at h1
      have h2 : c.upnames[i]? = some ("u_" ++ b.1) := by
        simp [Component.upnames, hlen, hfi]
      rw [h2] at h1
      exact (Option.some.inj h1).symm
    rw [← this]
    exact List.getElem_mem hul
  · apply NT.lookup_of_mem (by rw [hpf]; exact h.nodup)
    rw [← hfi]
    apply List.mem_of_getElem? (i := i)
    rw [List.getElem?_eq_getElem (by simp [hl, hb']; exact hlen)]
    simp [NT.values, hbi]

/-- The midpoint of two small bounds. -/
theorem mid_fin [Libm] {lo hi : ℝ} (b1 : |lo| ≤ 2 ^ (7 : ℕ)) (b2 : |hi| ≤ 2 ^ (7 : ℕ)) :
    (lit 0.5 : F32) * (lit lo + lit hi)
      = ⟨fin (round (1 / 2 * round (round lo + round hi)))⟩ ∧
    |round (1 / 2 * round (round lo + round hi))| ≤ 2 ^ (7 : ℕ) := by
  have e7 : (2 : ℝ) ^ (7 : ℕ) ≤ 2 ^ (127 : ℕ) := pow_le127 (by norm_num)
  have r1 := round_abs_le b1
  have r2 := round_abs_le b2
  have hsum : |round lo + round hi| ≤ 2 ^ (8 : ℕ) := by
    refine (abs_add_le _ _).trans ((add_le_add r1 r2).trans ?_); norm_num
  have hs' := round_abs_le hsum
  have hhalf : |1 / 2 * round (round lo + round hi)| ≤ 2 ^ (7 : ℕ) := by
    rw [abs_mul, abs_of_pos (by norm_num)]
    calc _ ≤ 1 / 2 * (2 : ℝ) ^ (8 : ℕ) := mul_le_mul_of_nonneg_left hs' (by norm_num)
      _ ≤ _ := by norm_num
  refine ⟨?_, round_abs_le hhalf⟩
  rw [lit_fin (b1.trans e7), lit_fin (b2.trans e7), add_fin (hsum.trans (pow_le127 (by norm_num))),
    lit_fin (a := 0.5) (by rw [abs_of_pos (by norm_num)]; norm_num), r0_5,
    mul_fin (hhalf.trans e7)]

theorem param_range [Libm] (hs : Libm.Sane) {u : F32} (hu : u.v ≠ nan) {b : ℝ × ℝ}
    (h : b.1 ≤ b.2) (b1 : |b.1| ≤ 2 ^ (7 : ℕ)) (b2 : |b.2| ≤ 2 ^ (7 : ℕ)) :
    ∃ y, get_bounded_param u b = num y ∧ Rep y ∧ round b.1 ≤ y ∧
      y ≤ round (round b.1 + round (round b.2 - round b.1)) := by
  have e7 : (2 : ℝ) ^ (7 : ℕ) ≤ 2 ^ (127 : ℕ) := pow_le127 (by norm_num)
  have e60 : (2 : ℝ) ^ (7 : ℕ) ≤ 2 ^ (60 : ℕ) := by norm_num
  have r1 := round_abs_le b1
  have r2 := round_abs_le b2
  unfold get_bounded_param
  simp only
  rw [(mid_fin b1 b2).1, lit_fin (b1.trans e7), lit_fin (b2.trans e7),
    lit_fin (a := K_BOUNDING) (by rw [K_BOUNDING, abs_of_pos (by norm_num)]; norm_num)]
  exact sigmoid_range hs hu (by rw [K_BOUNDING]; linarith [tenth_pos.1]) (rep_round _) (round_mono h)
    (r1.trans e60) (r2.trans e60)

/-- On a saturating platform the value `1000` is bounded to `lo + (hi - lo)`. -/
theorem param_saturates [Libm] (hsat : ∀ x, 20 ≤ x → Libm.sg (fin x) = fin 1) {b : ℝ × ℝ}
    (b1 : |b.1| ≤ 2 ^ (7 : ℕ)) (b2 : |b.2| ≤ 2 ^ (7 : ℕ)) :
    get_bounded_param (num 1000) b = num (round (round b.1 + round (round b.2 - round b.1))) := by
  have e7 : (2 : ℝ) ^ (7 : ℕ) ≤ 2 ^ (127 : ℕ) := pow_le127 (by norm_num)
  have r1 := round_abs_le b1
  have r2 := round_abs_le b2
  obtain ⟨hm, hmb⟩ := mid_fin b1 b2
  set mid := round (1 / 2 * round (round b.1 + round b.2))
  rw [abs_le] at hmb
  have m1 : |1000 - mid| ≤ 2 ^ (11 : ℕ) := by
    rw [abs_le]; constructor <;> norm_num at hmb ⊢ <;> linarith
  have m1' := round_abs_le m1
  have m2 : 800 ≤ round (1000 - mid) := by
    have : Rep (800 : ℝ) := by exact_mod_cast rep_nat 800 (by norm_num)
    exact le_round (by norm_num at hmb; linarith) this
  rw [abs_of_nonneg (by linarith)] at m1'
  have hb : 20 ≤ round 0.1 * round (1000 - mid) := by
    have := tenth_pos.1; nlinarith
  have hb2 : |round 0.1 * round (1000 - mid)| ≤ 2 ^ (127 : ℕ) := by
    rw [abs_of_pos (by linarith)]
    have := tenth_pos.2
    calc _ ≤ 0.11 * (2 : ℝ) ^ (11 : ℕ) :=
          mul_le_mul this.le m1' (by linarith) (by norm_num)
      _ ≤ _ := by norm_num
  have r20 : Rep (20 : ℝ) := by exact_mod_cast rep_nat 20 (by norm_num)
  have hd : |round b.2 - round b.1| ≤ 2 ^ (8 : ℕ) :=
    (abs_sub _ _).trans ((add_le_add r2 r1).trans (by norm_num))
  have hd' := round_abs_le hd
  have ht : |round b.1 + round (round b.2 - round b.1)| ≤ 2 ^ (9 : ℕ) :=
    (abs_add_le _ _).trans ((add_le_add r1 hd').trans (by norm_num))
  have e2 : (sigm ((⟨fin (round 0.1)⟩ : F32) * (num 1000 - ⟨fin mid⟩)) : F32) = ⟨fin 1⟩ := by
    unfold num
    rw [sub_fin (m1.trans (pow_le127 (by norm_num))), mul_fin hb2]
    exact congrArg F32.mk (hsat _ (le_round hb r20))
  unfold get_bounded_param Utils.sigmoid
  simp only
  rw [hm, lit_fin (b1.trans e7), lit_fin (b2.trans e7),
    lit_fin (a := K_BOUNDING) (by rw [K_BOUNDING, abs_of_pos (by norm_num)]; norm_num),
    show round K_BOUNDING = round 0.1 from rfl, e2, sub_fin (hd.trans (pow_le127 (by norm_num))),
    mul_fin (by rw [mul_one]; exact hd'.trans (pow_le127 (by norm_num))), mul_one,
    round_rep (rep_round _), add_fin (ht.trans (pow_le127 (by norm_num)))]
  rfl

theorem round_tie_up {m e : ℤ} (he : -149 ≤ e) (hm : ¬ Even m) (h1 : 2 ^ 23 ≤ m) (h2 : m < 2 ^ 24) :
    round (((m : ℝ) + 1 / 2) * 2 ^ e) = (m + 1) * 2 ^ e := by
  have h1' : (2 : ℝ) ^ (23 : ℤ) ≤ m := by rw [← c23]; exact_mod_cast h1
  have h2' : (m : ℝ) + 1 ≤ (2 : ℝ) ^ (24 : ℤ) := by
    have : ((m + 1 : ℤ) : ℝ) ≤ ((2 ^ 24 : ℤ) : ℝ) := by exact_mod_cast h2
    rw [c24] at this; push_cast at this; exact_mod_cast this
  have hpos : (0 : ℝ) < 2 ^ e := two_zpow_pos e
  have hm0 : (0 : ℝ) < m := lt_of_lt_of_le (two_zpow_pos _) h1'
  have hu : ulpExp (((m : ℝ) + 1 / 2) * 2 ^ e) = e := by
    apply ulpExp_eq he
    · rw [abs_of_pos (by positivity), add_comm e, zpow_add₀ (by norm_num)]
      exact mul_le_mul_of_nonneg_right (by linarith) hpos.le
    · rw [abs_of_pos (by positivity), add_comm e, zpow_add₀ (by norm_num)]
      exact mul_lt_mul_of_pos_right (by linarith) hpos
  unfold round
  rw [hu, mul_div_cancel_right₀ _ hpos.ne', rne_half, if_neg hm]
  push_cast; rfl

/-- The recomputed upper bound is above the rounded upper bound. -/
def Escapes (b : ℝ × ℝ) : Prop := round b.2 < round (round b.1 + round (round b.2 - round b.1))

theorem escapes_of {lo hi L H D T : ℝ} (h1 : round lo = L) (h2 : round hi = H) (h3 : round (H - L) = D)
    (h4 : round (L + D) = T) (h5 : H < T) : Escapes (lo, hi) := by
  unfold Escapes; simp only; rw [h1, h2, h3, h4]; exact h5

theorem x_c0_ylo : Escapes ((-0.15 : ℝ), (-0.05 : ℝ)) := by
  refine escapes_of rm0_15 rm0_05 (D := (6710887 / 67108864 : ℝ)) ?_
    (T := (-3355443 / 67108864 : ℝ)) (by rnd_neg_tac 13421772 (-28)) (by norm_num)
  have := round_tie_up (m := 13421773) (e := -27) (by norm_num) (by decide) (by norm_num) (by norm_num)
  norm_num at this ⊢
  exact this

theorem x_c0_clip_c1 : Escapes ((-0.1 : ℝ), (-0.01 : ℝ)) :=
  escapes_of rm0_1 rm0_01 (D := (3019899 / 33554432 : ℝ)) (by rnd_pos_tac 12079596 (-27))
    (T := (-1342177 / 134217728 : ℝ)) (by rnd_neg_tac 10737416 (-30)) (by norm_num)

theorem x_c1_ylo : Escapes ((-0.05 : ℝ), (-0.001 : ℝ)) :=
  escapes_of rm0_05 rm0_001 (D := (6576669 / 134217728 : ℝ)) (by rnd_pos_tac 13153338 (-28))
    (T := (-268435 / 268435456 : ℝ)) (by rnd_neg_tac 8589920 (-33)) (by norm_num)

end Diffmah.F32.PopBounds

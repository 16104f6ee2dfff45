import Verif.Model.Diagnostics
import Verif.Lemmas.Scripts
import Verif.SpecRows
import Verif.Props.Moments

/-!
# Figures that compare best fits with targets (C112)
-/

set_option maxRecDepth 10000

namespace Diffmah

open Pop TPeak PopParams MC PopLoss Text Scripts Diagnostics

theorem argminAux_spec (l : List ℝ) : ∀ (pre : List ℝ) (b : ℕ × ℝ), pre[b.1]? = some b.2 →
    (∀ c ∈ pre, b.2 ≤ c) → (∀ j < b.1, ∀ c, pre[j]? = some c → b.2 < c) →
    (pre ++ l)[(argminAux l pre.length b).1]? = some (argminAux l pre.length b).2 ∧
    (∀ c ∈ pre ++ l, (argminAux l pre.length b).2 ≤ c) ∧
    ∀ j < (argminAux l pre.length b).1, ∀ c, (pre ++ l)[j]? = some c → (argminAux l pre.length b).2 < c := by
  induction l with
  | nil => intro pre b h1 h2 h3; simpa [argminAux] using ⟨h1, h2, h3⟩
  | cons y l ih =>
    intro pre b h1 h2 h3
    have hb : b.1 < pre.length := (List.getElem?_eq_some_iff.1 h1).1
    have := ih (pre ++ [y]) (if y < b.2 then (pre.length, y) else b) (by
        split
        · simp
        · rw [List.getElem?_append_left hb]; exact h1) (by
        intro c hc
        rcases List.mem_append.1 hc with hc | hc
        · split
          · rename_i h; exact (h.le.trans (h2 c hc))
          · exact h2 c hc
        · rw [List.mem_singleton.1 hc]
          split
          · exact le_rfl
          · rename_i h; exact not_lt.1 h) (by
        intro j hj c hc
        split at hj
        · rename_i h
          rw [if_pos h]
          rw [List.getElem?_append_left hj] at hc
          exact lt_of_lt_of_le h (h2 c (List.mem_of_getElem? hc))
        · rename_i h
          rw [if_neg h]
          rw [List.getElem?_append_left (hj.trans hb)] at hc
          exact h3 j hj c hc)
    simpa [argminAux] using this

theorem argmin_ok {β : Type} {d : β → ℝ} {rows : List β} {i : ℕ} (h : argmin (rows.map d) = .ok i) :
    ∃ b, rows[i]? = some b ∧ Spec.FirstNearest d rows b := by
  cases rows with
  | nil => cases h
  | cons a l =>
    have h' := Except.ok.inj h
    obtain ⟨h1, h2, h3⟩ := argminAux_spec (l.map d) [d a] (0, d a) rfl (by simp) (by simp)
    simp only [List.length_cons, List.length_nil, zero_add] at h1 h2 h3
    rw [h'] at h1 h3
    rw [List.singleton_append, ← List.map_cons (f := d), List.getElem?_map] at h1
    obtain ⟨b, hb, hd⟩ := Option.map_eq_some_iff.1 h1
    refine ⟨b, hb, i, hb, ?_, ?_⟩
    · intro c hc
      rw [hd]
      exact h2 _ (by rw [List.singleton_append, ← List.map_cons (f := d)]; exact List.mem_map_of_mem hc)
    · intro j hj c hc
      rw [hd]
      exact h3 j hj _ (by
        rw [List.singleton_append, ← List.map_cons (f := d), List.getElem?_map, hc]; rfl)

theorem argmin_exists {l : List ℝ} (h : l ≠ []) : ∃ i, argmin l = .ok i := by
  cases l with
  | nil => exact absurd rfl h
  | cons a l => exact ⟨_, rfl⟩

theorem row_ok {data : List Bin} {i : ℕ} {b : Bin} (h : row data i = .ok b) : data[i]? = some b := by
  unfold row at h
  split at h
  · rename_i h'; cases h; exact h'
  · cases h

theorem zipArr_ok {f : ℝ → ℝ → ℝ} {x y z : List ℝ} (h : zipArr f x y = .ok z) :
    x.length = y.length ∧ z.length = x.length ∧
      ∀ (it : ℕ) a b, x[it]? = some a → y[it]? = some b → z[it]? = some (f a b) := by
  unfold zipArr at h
  split at h
  · rename_i hl
    cases h
    refine ⟨hl, by simp [hl], fun it a b ha hb => ?_⟩
    rw [List.getElem?_zipWith, ha, hb]
  · cases h

theorem plot_ok {style : Str} {c : Colour} {t y : List ℝ} {m : Mark} (h : plot style c t y = .ok m) :
    m = .line style c t y ∧ y.length = t.length := by
  unfold plot at h
  split at h
  · rename_i hl; cases h; exact ⟨rfl, hl.symm⟩
  · cases h

theorem fill_ok {t lo hi : List ℝ} {m : Mark} (h : fill_between t lo hi = .ok m) :
    m = .band t lo hi ∧ lo.length = t.length ∧ hi.length = t.length := by
  unfold fill_between at h
  split at h
  · rename_i hl; cases h; exact ⟨rfl, hl.1.symm, hl.2.symm⟩
  · cases h

variable (ext : Ext) (rng : Rng)

/-- The prediction for a bin: made for its own mass and time, at its own times, with seed 0 and the age of the
universe of the simulation -/
def PredictsBin (kind : Kind) (p : NT ℝ) (b : Bin) (preds : List (ℝ × ℝ × ℝ)) : Prop :=
  (predict_mah_moments_singlebin ext rng kind p b.tarr b.lgm_obs b.t_obs (Key.root 0)
    (Real.logb 10 13.79)).val? = some preds

/-- The five marks that compare the targets of a bin with a prediction: a band from the target mean minus to plus
the target standard deviation, the target mean, the predicted mean (dashed), and the predicted mean minus and
plus the predicted standard deviation (dotted). -/
def Compares (b : Bin) (preds : List (ℝ × ℝ × ℝ)) (marks : List Mark) : Prop :=
  ∃ lo hi pm plo phi : List ℝ,
    marks = [.band b.tarr lo hi, .line ['-'] (.named ['k']) b.tarr b.target_mean_log_mah,
      .line ['-', '-'] (.named ['k']) b.tarr pm, .line [':'] (.named ['k']) b.tarr plo,
      .line [':'] (.named ['k']) b.tarr phi] ∧
    (∀ y ∈ [lo, hi, b.target_mean_log_mah, pm, plo, phi], y.length = b.tarr.length) ∧
    (∀ (it : ℕ) m s, b.target_mean_log_mah[it]? = some m → b.target_std_log_mah[it]? = some s →
      lo[it]? = some (m - s) ∧ hi[it]? = some (m + s)) ∧
    ∀ (it : ℕ) m s f, preds[it]? = some (m, s, f) →
      pm[it]? = some m ∧ plo[it]? = some (m - s) ∧ phi[it]? = some (m + s)

theorem massMarks_inv {kind : Kind} {sample : List Bin} {p : NT ℝ} {lgm : ℝ} {marks : List Mark} {ks : List Key}
    (h : massMarks ext rng kind sample p lgm = .ok (marks, ks)) :
    ∃ b preds, Spec.FirstNearest (fun b : Bin => |b.lgm_obs - lgm|) sample b ∧
      PredictsBin ext rng kind p b preds ∧ Compares b preds marks := by
  unfold massMarks at h
  obtain ⟨ih, k1, k2, h1, h, -⟩ := RandM.bind_inv h
  obtain ⟨h1, -⟩ := RandM.lift_inv h1
  obtain ⟨b, k1, k2, h2, h, -⟩ := RandM.bind_inv h
  obtain ⟨h2, -⟩ := RandM.lift_inv h2
  obtain ⟨ylo, k1, k2, h3, h, -⟩ := RandM.bind_inv h
  obtain ⟨h3, -⟩ := RandM.lift_inv h3
  obtain ⟨yhi, k1, k2, h4, h, -⟩ := RandM.bind_inv h
  obtain ⟨h4, -⟩ := RandM.lift_inv h4
  obtain ⟨m1, k1, k2, h5, h, -⟩ := RandM.bind_inv h
  obtain ⟨h5, -⟩ := RandM.lift_inv h5
  obtain ⟨m2, k1, k2, h6, h, -⟩ := RandM.bind_inv h
  obtain ⟨h6, -⟩ := RandM.lift_inv h6
  obtain ⟨preds, k1, k2, h7, h, -⟩ := RandM.bind_inv h
  obtain ⟨plo, k3, k2, h8, h, -⟩ := RandM.bind_inv h
  obtain ⟨h8, -⟩ := RandM.lift_inv h8
  obtain ⟨phi, k3, k2, h9, h, -⟩ := RandM.bind_inv h
  obtain ⟨h9, -⟩ := RandM.lift_inv h9
  obtain ⟨m3, k3, k2, h10, h, -⟩ := RandM.bind_inv h
  obtain ⟨h10, -⟩ := RandM.lift_inv h10
  obtain ⟨m4, k3, k2, h11, h, -⟩ := RandM.bind_inv h
  obtain ⟨h11, -⟩ := RandM.lift_inv h11
  obtain ⟨m5, k3, k2, h12, h, -⟩ := RandM.bind_inv h
  obtain ⟨h12, -⟩ := RandM.lift_inv h12
  obtain ⟨rfl, -⟩ := RandM.pure_inv h
  obtain ⟨b', hb', hn⟩ := argmin_ok h1
  have hb := row_ok h2
  rw [hb'] at hb
  cases hb
  obtain ⟨rfl, l5, l5'⟩ := fill_ok h5
  obtain ⟨rfl, l6⟩ := plot_ok h6
  obtain ⟨rfl, l10⟩ := plot_ok h10
  obtain ⟨rfl, l11⟩ := plot_ok h11
  obtain ⟨rfl, l12⟩ := plot_ok h12
  refine ⟨b, preds, hn, ?_, ylo, yhi, _, plo, phi, rfl, ?_, ?_, ?_⟩
  · unfold PredictsBin
    have h7' : predict_mah_moments_singlebin ext rng kind p b.tarr b.lgm_obs b.t_obs (Key.root 0)
      (Real.logb 10 13.79) = .ok (preds, k1) := h7
    rw [h7']; rfl
  · simp [l5, l5', l6, l11, l12]
    simpa using l10
  · intro it m s hm hs
    exact ⟨(zipArr_ok h3).2.2 it m s hm hs, (zipArr_ok h4).2.2 it m s hm hs⟩
  · intro it m s f hq
    have e1 : (preds.map fun q => q.1)[it]? = some m := by rw [List.getElem?_map, hq]; rfl
    have e2 : (preds.map fun q => q.2.1)[it]? = some s := by rw [List.getElem?_map, hq]; rfl
    exact ⟨e1, (zipArr_ok h8).2.2 it m s e1 e2, (zipArr_ok h9).2.2 it m s e1 e2⟩

/-- The bins of an epoch: z = 0 (observed after 13.5 Gyr) or z = 2 (observed within half a Gyr of 3 Gyr) -/
def AtEpoch (z2 : Bool) (b : Bin) : Prop :=
  if z2 then 2.5 < b.t_obs ∧ b.t_obs < 3.5 else 13.5 < b.t_obs

open Classical in
theorem epoch_eq (z2 : Bool) (data : List Bin) : epoch z2 data = data.filter fun b => decide (AtEpoch z2 b) := by
  unfold epoch AtEpoch
  cases z2
  · simp
  · simp only [if_true]
    refine List.filter_congr fun b _ => ?_
    rw [decide_eq_decide, abs_lt]
    norm_num
    constructor <;> rintro ⟨h1, h2⟩ <;> constructor <;> linarith

open Classical in
/-- C112, one epoch. Whenever the figure is made it has one panel, with fifteen marks: five for each of three
nominal masses. Those five show the first of the bins of the epoch whose mass is closest to the nominal mass, and
compare that bin's own targets with the prediction for that bin. -/
theorem C112_epoch (kind : Kind) (z2 : Bool) (data : List Bin) (p : NT ℝ) (drn : Str) (file : Str)
    (panels : List Panel) (ks : List Key)
    (h : plot_singlepanel ext rng kind z2 data p drn = .ok ((file, panels), ks)) :
    ∃ title marks, panels = [⟨title, marks⟩] ∧ marks.length = 15 ∧
      ∀ (k : ℕ) lgm, (match kind, z2 with
          | .sats, false => [11.25, 12.25, 13.5]
          | _, _ => [11.25, 12.75, 14.25] : List ℝ)[k]? = some lgm →
        ∃ b preds, Spec.FirstNearest (fun b : Bin => |b.lgm_obs - lgm|)
            (data.filter fun b => decide (AtEpoch z2 b)) b ∧
          PredictsBin ext rng kind p b preds ∧ Compares b preds ((marks.drop (5 * k)).take 5) := by
  unfold plot_singlepanel at h
  obtain ⟨ms, k1, k2, h1, h, -⟩ := RandM.bind_inv h
  obtain ⟨hr, -⟩ := RandM.pure_inv h
  obtain ⟨rfl, rfl⟩ := Prod.mk.inj hr
  obtain ⟨kss, -, -, hl, hms⟩ := RandM.all_inv h1
  have hlen3 : (panelMasses kind z2).length = 3 := by cases kind <;> cases z2 <;> rfl
  rw [List.length_map, hlen3] at hl
  match ms, hl with
  | [a, b, c], _ =>
    have key : ∀ (k : ℕ) lgm v, (panelMasses kind z2)[k]? = some lgm → [a, b, c][k]? = some v →
        ∃ b preds, Spec.FirstNearest (fun b : Bin => |b.lgm_obs - lgm|)
            (data.filter fun b => decide (AtEpoch z2 b)) b ∧
          PredictsBin ext rng kind p b preds ∧ Compares b preds v := by
      intro k lgm v hk hv
      obtain ⟨v', ks', hv', -, hm⟩ := hms k _ (by rw [List.getElem?_map, hk]; rfl)
      rw [hv] at hv'
      cases hv'
      rw [epoch_eq] at hm
      exact massMarks_inv ext rng hm
    have len : ∀ (k : ℕ) v, k < 3 → [a, b, c][k]? = some v → v.length = 5 := by
      intro k v hk hv
      have hk' : k < (panelMasses kind z2).length := by omega
      obtain ⟨_, _, -, -, _, _, _, _, _, e, -⟩ := key k _ v (List.getElem?_eq_getElem hk') hv
      rw [e]; rfl
    have la := len 0 a (by norm_num) rfl
    have lb := len 1 b (by norm_num) rfl
    have lc := len 2 c (by norm_num) rfl
    refine ⟨_, _, rfl, by simp [la, lb, lc], ?_⟩
    intro k lgm hk
    have hk' : (panelMasses kind z2)[k]? = some lgm := by
      rw [← hk]; cases kind <;> cases z2 <;> rfl
    have hk3 : k < 3 := by
      rw [← hlen3]; exact (List.getElem?_eq_some_iff.1 hk').1
    refine key k lgm _ hk' ?_
    interval_cases k
    · show some a = some _
      rw [show [a, b, c].flatten = a ++ (b ++ c) by simp, List.drop_zero, List.take_left' la]
    · show some b = some _
      rw [show [a, b, c].flatten = a ++ (b ++ c) by simp, List.drop_left' la, List.take_left' lb]
    · show some c = some _
      rw [show [a, b, c].flatten = (a ++ b) ++ c by simp, List.drop_left' (by simp [la, lb]),
        List.take_of_length_le lc.le]

/-- A bin whose targets have the size of its times, of a mass and time at which halos are certain to be in range -/
def GoodBin (kind : Kind) (b : Bin) : Prop :=
  b.target_mean_log_mah.length = b.tarr.length ∧ b.target_std_log_mah.length = b.tarr.length ∧
    GoodInput kind b.lgm_obs b.t_obs (Real.logb 10 13.79) none

theorem argmin_row {d : Bin → ℝ} {rows : List Bin} (h : rows ≠ []) :
    ∃ i b, argmin (rows.map d) = .ok i ∧ row rows i = .ok b ∧ b ∈ rows := by
  obtain ⟨i, hi⟩ := argmin_exists (l := rows.map d) (by simpa using h)
  obtain ⟨b, hb, -⟩ := argmin_ok hi
  exact ⟨i, b, hi, by unfold row; rw [hb], List.mem_of_getElem? hb⟩

theorem massMarks_ok (hext : ext.Lawful) (hr : rng.Lawful) {kind : Kind} {sample : List Bin} {p : NT ℝ}
    (hp : p.map Prod.fst = FIELDS) (hb : AllInBounds p) (hne : sample ≠ []) (hg : ∀ b ∈ sample, GoodBin kind b)
    (lgm : ℝ) : ∃ marks ks, massMarks ext rng kind sample p lgm = .ok (marks, ks) := by
  obtain ⟨i, b, h1, h2, hm⟩ := argmin_row (d := fun b : Bin => |b.lgm_obs - lgm|) hne
  obtain ⟨l1, l2, hgi⟩ := hg b hm
  obtain ⟨out, ks, h3, h4⟩ := predict_ok ext rng hext hr kind p hp hb b.tarr b.lgm_obs b.t_obs (Key.root 0) _ hgi
  have lift : ∀ {β γ : Type} {e : Except PyErr β} {v : β} {f : β → RandM γ}, e = .ok v →
      (∃ c ks, f v = .ok (c, ks)) → ∃ c ks, (RandM.lift e >>= f) = .ok (c, ks) := by
    rintro β γ e v f rfl ⟨c, ks, h⟩; exact ⟨c, _, RandM.bind_of (ks := []) rfl h⟩
  have z : ∀ (f : ℝ → ℝ → ℝ) (x y : List ℝ), x.length = y.length → zipArr f x y = .ok (List.zipWith f x y) := by
    intro f x y h; unfold zipArr; rw [if_pos h]
  have pl : ∀ s c (x y : List ℝ), x.length = y.length → plot s c x y = .ok (.line s c x y) := by
    intro s c x y h; unfold plot; rw [if_pos h]
  have fi : ∀ (x y z : List ℝ), x.length = y.length → x.length = z.length → fill_between x y z = .ok (.band x y z) := by
    intro x y z h h'; unfold fill_between; rw [if_pos ⟨h, h'⟩]
  unfold massMarks
  refine lift h1 (lift h2 (lift (z _ _ _ (l1.trans l2.symm)) (lift (z _ _ _ (l1.trans l2.symm)) ?_)))
  refine lift (fi _ _ _ (by simp [l1, l2]) (by simp [l1, l2])) (lift (pl _ _ _ _ l1.symm) ?_)
  suffices h : ∀ {γ : Type} {f : List (ℝ × ℝ × ℝ) → RandM γ}, (∃ c ks, f out = .ok (c, ks)) →
      ∃ c ks, (predict_mah_moments_singlebin ext rng kind p b.tarr b.lgm_obs b.t_obs (Key.root 0) LGT0_SMDPL >>= f)
        = .ok (c, ks) by
    refine h (lift (z _ _ _ (by simp)) (lift (z _ _ _ (by simp)) ?_))
    refine lift (pl _ _ _ _ (by simp [h4])) (lift (pl _ _ _ _ (by simp [h4])) (lift (pl _ _ _ _ (by simp [h4])) ?_))
    exact ⟨_, _, rfl⟩
  rintro γ f ⟨c, ks', h⟩
  exact ⟨c, _, RandM.bind_of h3 h⟩

open Classical in
/-- C112, one epoch. In range the figure is made whenever the table has a bin of the epoch, and is saved under its
own name in the given directory; without such a bin a ValueError is raised and no figure is saved. -/
theorem C112_epoch_made (hext : ext.Lawful) (hr : rng.Lawful) (kind : Kind) (z2 : Bool) (data : List Bin) (p : NT ℝ)
    (hp : p.map Prod.fst = FIELDS) (hb : AllInBounds p) (hg : ∀ b ∈ data, AtEpoch z2 b → GoodBin kind b)
    (drn : Str) :
    ((∃ b ∈ data, AtEpoch z2 b) → ∃ file panels ks,
      plot_singlepanel ext rng kind z2 data p drn = .ok ((file, panels), ks) ∧ file = pathJoin drn
        (match kind, z2 with
          | .cens, false => "diffmahpop_mu_var_single_panel_cens_z0.png".toList
          | .cens, true => "diffmahpop_mu_var_single_panel_cens_z2.png".toList
          | .sats, false => "diffmahpop_mu_var_single_panel_sats_z0.png".toList
          | .sats, true => "diffmahpop_mu_var_single_panel_sats_z2.png".toList)) ∧
    ((∀ b ∈ data, ¬ AtEpoch z2 b) → plot_singlepanel ext rng kind z2 data p drn = .error .valueError) := by
  constructor
  · rintro ⟨b, hbm, hbe⟩
    have hmem : ∀ c, c ∈ epoch z2 data ↔ c ∈ data ∧ AtEpoch z2 c := by
      intro c; rw [epoch_eq, List.mem_filter, decide_eq_true_eq]
    have hne : epoch z2 data ≠ [] := List.ne_nil_of_mem ((hmem b).2 ⟨hbm, hbe⟩)
    have h1 := massMarks_ok ext rng hext hr hp hb hne (fun c hc => hg c ((hmem c).1 hc).1 ((hmem c).1 hc).2)
    choose v k hvk using h1
    refine ⟨_, _, _, RandM.bind_of (RandM.all_of _ _ v k fun lgm _ => hvk lgm) rfl, ?_⟩
    cases kind <;> cases z2 <;> rfl
  · intro h
    have : epoch z2 data = [] := by
      rw [epoch_eq, List.filter_eq_nil_iff]
      intro b hb; simpa using h b hb
    unfold plot_singlepanel
    rw [this]
    cases kind <;> cases z2 <;> rfl

/-- The largest log mass of the residual figures -/
noncomputable def topMass : Kind → ℝ
  | .cens => 14.5
  | .sats => 13.5

theorem residualMasses_get (kind : Kind) {i : ℕ} (hi : i < 15) :
    (residualMasses kind)[i]? = some (11 + (i : ℝ) / 14 * (topMass kind - 11)) := by
  cases kind
  · show (TPeak.linspace 11 14.5 15)[i]? = _
    rw [TPeak.linspace, List.getElem?_map, List.getElem?_range hi, Option.map_some, topMass]
    congr 1; push_cast; ring
  · show (TPeak.linspace 11 13.5 15)[i]? = _
    rw [TPeak.linspace, List.getElem?_map, List.getElem?_range hi, Option.map_some, topMass]
    congr 1; push_cast; ring

/-- C112, residuals. Whenever the figure is made it has four panels, for 4, 7, 10 and 13 Gyr, each with fifteen
curves, for equally spaced masses from 11 to 14.5 (satellites: 13.5), coloured from blue to red in that order. Each
curve shows the first of the bins closest to the panel's time and the curve's mass, and is the prediction for that
bin minus the bin's own target mean. -/
theorem C112_residuals (kind : Kind) (data : List Bin) (p : NT ℝ) (drn : Str) (file : Str)
    (panels : List Panel) (ks : List Key)
    (h : plot_4panel_residuals ext rng kind data p drn = .ok ((file, panels), ks)) :
    panels.length = 4 ∧ ∀ (k : ℕ) panel, panels[k]? = some panel → panel.marks.length = 15 ∧
      ∀ (i : ℕ) mark, panel.marks[i]? = some mark → ∃ b preds d,
        Spec.FirstNearest (fun b : Bin => |b.t_obs - (4 + 3 * k)| + |b.lgm_obs -
          (11 + i / 14 * (topMass kind - 11))|) data b ∧
        PredictsBin ext rng kind p b preds ∧ mark = .line ['-'] (.coolwarm (i / 14)) b.tarr d ∧
        d.length = b.tarr.length ∧ d.length = b.target_mean_log_mah.length ∧
        ∀ (it : ℕ) m s f m', preds[it]? = some (m, s, f) → b.target_mean_log_mah[it]? = some m' →
          d[it]? = some (m - m') := by
  unfold plot_4panel_residuals at h
  obtain ⟨ps, k1, k2, h1, h, -⟩ := RandM.bind_inv h
  obtain ⟨hr, -⟩ := RandM.pure_inv h
  obtain ⟨rfl, rfl⟩ := Prod.mk.inj hr
  obtain ⟨kss, -, -, hl, hps⟩ := RandM.all_inv h1
  rw [List.length_map] at hl
  refine ⟨hl, ?_⟩
  intro k panel hk
  have hk4 : k < 4 := by
    have := (List.getElem?_eq_some_iff.1 hk).1
    rw [hl] at this; exact this
  obtain ⟨tp, htp, htp'⟩ : ∃ tp, panelTimes[k]? = some tp ∧ tp.1 = 4 + 3 * k := by
    unfold panelTimes
    interval_cases k
    · exact ⟨_, rfl, by norm_num⟩
    · exact ⟨_, rfl, by norm_num⟩
    · exact ⟨_, rfl, by norm_num⟩
    · exact ⟨_, rfl, by norm_num⟩
  obtain ⟨panel', ks', hp', -, hm⟩ := hps k _ (by rw [List.getElem?_map, htp]; rfl)
  rw [hk] at hp'
  cases hp'
  obtain ⟨marks, k3, k4, h2, h3, -⟩ := RandM.bind_inv hm
  obtain ⟨rfl, -⟩ := RandM.pure_inv h3
  obtain ⟨kss', -, -, hl', hms⟩ := RandM.all_inv h2
  have hlm : (residualMasses kind).length = 15 := by cases kind <;> simp [residualMasses, linspace]
  have hlc : (linspace 0 1 15).length = 15 := by simp [linspace]
  rw [List.length_zipWith, hlm, hlc, min_self] at hl'
  refine ⟨hl', ?_⟩
  intro i mark hi
  have hi15 : i < 15 := by
    have := (List.getElem?_eq_some_iff.1 hi).1
    rw [hl'] at this; exact this
  have hc : (TPeak.linspace 0 1 15)[i]? = some ((i : ℝ) / 14) := by
    rw [TPeak.linspace, List.getElem?_map, List.getElem?_range hi15, Option.map_some]
    congr 1; push_cast; ring
  have hmass := residualMasses_get kind hi15
  obtain ⟨mark', ks'', hmk, -, hres⟩ := hms i _ (by rw [List.getElem?_zipWith, hmass, hc])
  rw [hi] at hmk
  cases hmk
  rw [htp'] at hres
  unfold Diagnostics.residual at hres
  obtain ⟨ih, k5, k6, e1, hres, -⟩ := RandM.bind_inv hres
  obtain ⟨e1, -⟩ := RandM.lift_inv e1
  obtain ⟨b, k5, k6, e2, hres, -⟩ := RandM.bind_inv hres
  obtain ⟨e2, -⟩ := RandM.lift_inv e2
  obtain ⟨preds, k5, k6, e3, hres, -⟩ := RandM.bind_inv hres
  obtain ⟨d, k7, k8, e4, hres, -⟩ := RandM.bind_inv hres
  obtain ⟨e4, -⟩ := RandM.lift_inv e4
  obtain ⟨e5, -⟩ := RandM.lift_inv hres
  obtain ⟨b', hb', hn⟩ := argmin_ok e1
  have hb := row_ok e2
  rw [hb'] at hb
  cases hb
  obtain ⟨rfl, l5⟩ := plot_ok e5
  obtain ⟨z1, z2, z3⟩ := zipArr_ok e4
  refine ⟨b, preds, d, hn, ?_, rfl, l5, z2.trans z1, ?_⟩
  · unfold PredictsBin
    have e3' : predict_mah_moments_singlebin ext rng kind p b.tarr b.lgm_obs b.t_obs (Key.root 0)
      (Real.logb 10 13.79) = .ok (preds, k5) := e3
    rw [e3']; rfl
  · intro it m s f m' hm hm'
    exact z3 it m m' (by rw [List.getElem?_map, hm]; rfl) hm'

theorem residual_ok (hext : ext.Lawful) (hr : rng.Lawful) {kind : Kind} {data : List Bin} {p : NT ℝ}
    (hp : p.map Prod.fst = FIELDS) (hb : AllInBounds p) (hne : data ≠ []) (hg : ∀ b ∈ data, GoodBin kind b)
    (t lgm : ℝ) (c : Colour) : ∃ m ks, Diagnostics.residual ext rng kind data p t lgm c = .ok (m, ks) := by
  obtain ⟨i, b, h1, h2, hm⟩ := argmin_row (d := fun b : Bin => |b.t_obs - t| + |b.lgm_obs - lgm|) hne
  obtain ⟨l1, l2, hgi⟩ := hg b hm
  obtain ⟨out, ks, h3, h4⟩ := predict_ok ext rng hext hr kind p hp hb b.tarr b.lgm_obs b.t_obs (Key.root 0) _ hgi
  have lift : ∀ {β γ : Type} {e : Except PyErr β} {v : β} {f : β → RandM γ}, e = .ok v →
      (∃ c ks, f v = .ok (c, ks)) → ∃ c ks, (RandM.lift e >>= f) = .ok (c, ks) := by
    rintro β γ e v f rfl ⟨c, ks, h⟩; exact ⟨c, _, RandM.bind_of (ks := []) rfl h⟩
  have z : zipArr (fun p t => p - t) (out.map fun q => q.1) b.target_mean_log_mah =
      .ok (List.zipWith (fun p t => p - t) (out.map fun q => q.1) b.target_mean_log_mah) := by
    unfold zipArr; rw [if_pos (by simp [h4, l1])]
  have pl : plot ['-'] c b.tarr (List.zipWith (fun p t => p - t) (out.map fun q => q.1) b.target_mean_log_mah) =
      .ok (.line ['-'] c b.tarr (List.zipWith (fun p t => p - t) (out.map fun q => q.1) b.target_mean_log_mah)) := by
    unfold plot; rw [if_pos (by simp [h4, l1])]
  unfold Diagnostics.residual
  refine lift h1 (lift h2 ?_)
  suffices h : ∀ {γ : Type} {f : List (ℝ × ℝ × ℝ) → RandM γ}, (∃ c ks, f out = .ok (c, ks)) →
      ∃ c ks, (predict_mah_moments_singlebin ext rng kind p b.tarr b.lgm_obs b.t_obs (Key.root 0) LGT0_SMDPL >>= f)
        = .ok (c, ks) by
    refine h (lift z ?_)
    rw [pl]
    exact ⟨_, _, rfl⟩
  rintro γ f ⟨c, ks', h⟩
  exact ⟨c, _, RandM.bind_of h3 h⟩

theorem all_ok {β : Type} {ms : List (RandM β)} (h : ∀ m ∈ ms, ∃ v ks, m = .ok (v, ks)) :
    ∃ vs ks, RandM.all ms = .ok (vs, ks) := by
  induction ms with
  | nil => exact ⟨_, _, rfl⟩
  | cons m ms ih =>
    obtain ⟨v, k, hv⟩ := h m (List.mem_cons_self ..)
    obtain ⟨vs, ks, hvs⟩ := ih fun m hm => h m (List.mem_cons_of_mem _ hm)
    exact ⟨_, _, RandM.bind_of hv (RandM.bind_of hvs rfl)⟩

/-- C112, residuals. In range the figure is made for every table that is not empty, and is saved under its own name
in the given directory, with the times of the panels in their titles; for an empty table a ValueError is raised and no
figure is saved. -/
theorem C112_residuals_made (hext : ext.Lawful) (hr : rng.Lawful) (kind : Kind) (data : List Bin) (p : NT ℝ)
    (hp : p.map Prod.fst = FIELDS) (hb : AllInBounds p) (hg : ∀ b ∈ data, GoodBin kind b) (drn : Str) :
    (data ≠ [] → ∃ file panels ks,
      plot_4panel_residuals ext rng kind data p drn = .ok ((file, panels), ks) ∧
      (file, panels.map Panel.title) = (match kind with
        | .cens => (pathJoin drn "diffmahpop_mu_var_4panel_residuals_cens.png".toList,
            ["host halos: t_obs = 4.0".toList, "host halos: t_obs = 7.0".toList,
              "host halos: t_obs = 10.0".toList, "host halos: t_obs = 13.0".toList])
        | .sats => (pathJoin drn "diffmahpop_mu_var_4panel_residuals_sats.png".toList,
            ["subhalos: t_obs = 4.0".toList, "subhalos: t_obs = 7.0".toList,
              "subhalos: t_obs = 10.0".toList, "subhalos: t_obs = 13.0".toList]))) ∧
    (data = [] → plot_4panel_residuals ext rng kind data p drn = .error .valueError) := by
  constructor
  · intro hne
    have h1 : ∀ t : ℝ, ∃ vs ks, RandM.all (List.zipWith (fun lgm c =>
        Diagnostics.residual ext rng kind data p t lgm (.coolwarm c)) (residualMasses kind)
          (TPeak.linspace 0 1 15)) = .ok (vs, ks) := by
      intro t
      refine all_ok fun m hm => ?_
      obtain ⟨i, hi⟩ := List.mem_iff_getElem?.1 hm
      rw [List.getElem?_zipWith_eq_some] at hi
      obtain ⟨lgm, c, -, -, rfl⟩ := hi
      exact residual_ok ext rng hext hr hp hb hne hg _ _ _
    choose v k hvk using h1
    cases kind
    · refine ⟨_, _, _, RandM.bind_of (RandM.all_of panelTimes _
        (fun tp => ⟨"host halos: t_obs = ".toList ++ tp.2, v tp.1⟩) (fun tp => k tp.1 ++ [])
        fun tp _ => RandM.bind_of (hvk tp.1) rfl) rfl, rfl⟩
    · refine ⟨_, _, _, RandM.bind_of (RandM.all_of panelTimes _
        (fun tp => ⟨"subhalos: t_obs = ".toList ++ tp.2, v tp.1⟩) (fun tp => k tp.1 ++ [])
        fun tp _ => RandM.bind_of (hvk tp.1) rfl) rfl, rfl⟩
  · rintro rfl
    cases kind <;> rfl

/-- C112, losses. A residual curve is a fair picture of the loss of the bin it shows: the mean of its squares is at
most the loss of that bin (with the same seed and age of the universe), and a bin without loss has a curve of zeros. -/
theorem C112_residual_loss (kind : Kind) (p : NT ℝ) (b : Bin) (preds : List (ℝ × ℝ × ℝ)) (d : List ℝ)
    (hpr : PredictsBin ext rng kind p b preds) (hd : d.length = b.target_mean_log_mah.length)
    (hdv : ∀ (it : ℕ) m s f m', preds[it]? = some (m, s, f) → b.target_mean_log_mah[it]? = some m' →
      d[it]? = some (m - m')) (v : ℝ) (ks : List Key)
    (hv : loss_mah_moments_singlebin ext rng kind p b (Key.root 0) (Real.logb 10 13.79) = .ok (v, ks)) :
    (d.map fun x => x ^ 2).sum / d.length ≤ v ∧ (v = 0 → ∀ x ∈ d, x = 0) := by
  unfold loss_mah_moments_singlebin at hv
  obtain ⟨out, k1, k2, h1, h2, rfl⟩ := RandM.bind_inv hv
  have : out = preds := by
    unfold PredictsBin at hpr
    rw [h1] at hpr
    exact Option.some.inj hpr
  subst this
  obtain ⟨a, k3, k4, h3, h4, rfl⟩ := RandM.bind_inv h2
  obtain ⟨h3', rfl⟩ := RandM.lift_inv h3
  obtain ⟨c, k5, k6, h5, h6, rfl⟩ := RandM.bind_inv h4
  obtain ⟨h5', rfl⟩ := RandM.lift_inv h5
  obtain ⟨rfl, rfl⟩ := RandM.pure_inv h6
  obtain ⟨la, a0, a1⟩ := mse_inv h3'
  obtain ⟨-, c0, -⟩ := mse_inv h5'
  have hl : out.length = b.target_mean_log_mah.length := by simpa using la
  have hz : d = List.zipWith (fun x y => x - y) (out.map fun q => q.1) b.target_mean_log_mah := by
    apply List.ext_getElem?
    intro it
    by_cases hit : it < d.length
    · obtain ⟨m, hm⟩ : ∃ m, out[it]? = some m := ⟨_, List.getElem?_eq_getElem (by omega)⟩
      obtain ⟨m', hm'⟩ : ∃ m', b.target_mean_log_mah[it]? = some m' := ⟨_, List.getElem?_eq_getElem (by omega)⟩
      obtain ⟨x, s, f⟩ := m
      rw [hdv it x s f m' hm hm', List.getElem?_zipWith, List.getElem?_map, hm, hm']
      rfl
    · rw [List.getElem?_eq_none (by omega), List.getElem?_eq_none (by simp; omega)]
  have ha : (d.map fun x => x ^ 2).sum / d.length = a := by
    unfold mse at h3'
    rw [if_pos la] at h3'
    have h3'' := Except.ok.inj h3'
    rw [← h3'', hz]
    have e : ∀ x y : List ℝ, (List.zipWith (fun x y => x - y) x y).map (fun x => x ^ 2) =
        (List.zipWith (fun a b => b - a) x y).map fun a => a * a := by
      intro x
      induction x with
      | nil => intro y; rfl
      | cons u x ih =>
        intro y
        cases y with
        | nil => rfl
        | cons w y => simp only [List.zipWith_cons_cons, List.map_cons, ih]; congr 1; ring
    rw [e]
    simp
  rw [ha]
  refine ⟨by linarith, ?_⟩
  intro hv0 x hx
  have ha0 : a = 0 := by linarith
  have heq := a1.1 ha0
  rw [hz, heq] at hx
  obtain ⟨i, hi⟩ := List.mem_iff_getElem?.1 hx
  rw [List.getElem?_zipWith_eq_some] at hi
  obtain ⟨u, w, hu, hw, rfl⟩ := hi
  rw [hu] at hw
  cases hw
  ring

/-- One of the figures: an epoch (`some z2`) or the residuals -/
noncomputable def figure (kind : Kind) (fig : Option Bool) (data : List Bin) (p : NT ℝ) (drn : Str) :
    RandM (Str × List Panel) :=
  match fig with
  | some z2 => plot_singlepanel ext rng kind z2 data p drn
  | none => plot_4panel_residuals ext rng kind data p drn

/-- The name of a figure -/
def figureName : Kind → Option Bool → Str
  | .cens, some false => "diffmahpop_mu_var_single_panel_cens_z0.png".toList
  | .cens, some true => "diffmahpop_mu_var_single_panel_cens_z2.png".toList
  | .sats, some false => "diffmahpop_mu_var_single_panel_sats_z0.png".toList
  | .sats, some true => "diffmahpop_mu_var_single_panel_sats_z2.png".toList
  | .cens, none => "diffmahpop_mu_var_4panel_residuals_cens.png".toList
  | .sats, none => "diffmahpop_mu_var_4panel_residuals_sats.png".toList

theorem figure_name {kind : Kind} {fig : Option Bool} {data : List Bin} {p : NT ℝ} {drn file : Str}
    {panels : List Panel} {ks : List Key} (h : figure ext rng kind fig data p drn = .ok ((file, panels), ks)) :
    file = dirPart drn ++ figureName kind fig := by
  rcases fig with _ | z2
  · obtain ⟨ps, k1, k2, -, h, -⟩ := RandM.bind_inv (show plot_4panel_residuals ext rng kind data p drn = _ from h)
    obtain ⟨hr, -⟩ := RandM.pure_inv h
    rw [(Prod.mk.inj hr).1]
    cases kind
    · exact pathJoin_eq drn (by decide)
    · exact pathJoin_eq drn (by decide)
  · obtain ⟨ps, k1, k2, -, h, -⟩ := RandM.bind_inv (show plot_singlepanel ext rng kind z2 data p drn = _ from h)
    obtain ⟨hr, -⟩ := RandM.pure_inv h
    rw [(Prod.mk.inj hr).1]
    cases kind <;> cases z2
    · exact pathJoin_eq drn (by decide)
    · exact pathJoin_eq drn (by decide)
    · exact pathJoin_eq drn (by decide)
    · exact pathJoin_eq drn (by decide)

/-- C112, files. Two figures saved in the same directory, from whatever tables and parameters, have the same name only
if they are the same kind of figure: the z = 0, z = 2 and residual figures of centrals and satellites never replace
each other. -/
theorem C112_files (drn : Str) (kind kind' : Kind) (fig fig' : Option Bool) (data data' : List Bin) (p p' : NT ℝ)
    (file : Str) (panels panels' : List Panel) (ks ks' : List Key)
    (h : figure ext rng kind fig data p drn = .ok ((file, panels), ks))
    (h' : figure ext rng kind' fig' data' p' drn = .ok ((file, panels'), ks')) :
    kind = kind' ∧ fig = fig' := by
  have he := (figure_name ext rng h).symm.trans (figure_name ext rng h')
  have he' := List.append_cancel_left he
  clear he h h'
  cases kind <;> cases kind' <;> rcases fig with _ | _ | _ <;> rcases fig' with _ | _ | _ <;>
    first
    | exact ⟨rfl, rfl⟩
    | exact absurd he' (by decide)

/-- The hypotheses of C112 can be met: a table of two bins, one of each epoch, for centrals and
satellites. -/
example (kind : Kind) : ∃ (ext : Ext) (rng : Rng) (p : NT ℝ) (data : List Bin), ext.Lawful ∧ rng.Lawful ∧
    p.map Prod.fst = FIELDS ∧ AllInBounds p ∧ (∀ b ∈ data, GoodBin kind b) ∧ (∃ b ∈ data, AtEpoch false b) ∧
    (∃ b ∈ data, AtEpoch true b) ∧ ∀ fig, ∃ file panels ks,
      figure ext rng kind fig data p "FIGS".toList = .ok ((file, panels), ks) := by
  obtain ⟨ext, hext⟩ := ext_lawful_exists
  obtain ⟨p, hp, hb⟩ := exists_allInBounds
  have hr : (⟨fun _ => 0, fun _ n => List.replicate n 0, fun _ m _ => m⟩ : Rng).Lawful := by
    refine ⟨by simp, by simp, ?_, by simp⟩
    intro k n x hx; rw [List.eq_of_mem_replicate hx]; norm_num
  have h10 : (10 : ℝ) ^ Real.logb 10 13.79 = 13.79 := Real.rpow_logb (by norm_num) (by norm_num) (by norm_num)
  have hg : ∀ b ∈ [(⟨[1, 13.7], 12, 13.7, [10, 12], [0.3, 0.1]⟩ : Bin), ⟨[1, 3], 11, 3, [10, 11], [0.3, 0.1]⟩],
      GoodBin kind b := by
    intro b hb
    simp only [List.mem_cons, List.not_mem_nil, or_false] at hb
    rcases hb with rfl | rfl <;> refine ⟨rfl, rfl, ?_⟩ <;> cases kind <;> norm_num [GoodInput, h10]
  have e0 : ∃ b ∈ [(⟨[1, 13.7], 12, 13.7, [10, 12], [0.3, 0.1]⟩ : Bin), ⟨[1, 3], 11, 3, [10, 11], [0.3, 0.1]⟩],
      AtEpoch false b := ⟨_, List.mem_cons_self .., by norm_num [AtEpoch]⟩
  have e2 : ∃ b ∈ [(⟨[1, 13.7], 12, 13.7, [10, 12], [0.3, 0.1]⟩ : Bin), ⟨[1, 3], 11, 3, [10, 11], [0.3, 0.1]⟩],
      AtEpoch true b := ⟨_, List.mem_cons_of_mem _ (List.mem_cons_self ..), by norm_num [AtEpoch]⟩
  refine ⟨ext, _, p, _, hext, hr, hp, hb, hg, e0, e2, ?_⟩
  rintro (_ | _ | _)
  · obtain ⟨f, ps, ks, h, -⟩ := (C112_residuals_made ext _ hext hr kind _ p hp hb hg _).1 (by simp)
    exact ⟨f, ps, ks, h⟩
  · obtain ⟨f, ps, ks, h, -⟩ := (C112_epoch_made ext _ hext hr kind false _ p hp hb (fun b h _ => hg b h) _).1 e0
    exact ⟨f, ps, ks, h⟩
  · obtain ⟨f, ps, ks, h, -⟩ := (C112_epoch_made ext _ hext hr kind true _ p hp hb (fun b h _ => hg b h) _).1 e2
    exact ⟨f, ps, ks, h⟩

end Diffmah

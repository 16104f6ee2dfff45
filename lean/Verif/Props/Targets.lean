import Verif.Model.Targets
import Verif.Props.Text

/-!
# Population target data (C72, C73, C75)
-/

namespace Diffmah.Targets

open Diffmah.Text Diffmah.IO Diffmah.Scripts
open Diffmah.Fit (FitResult)

/-! ## Specification -/

/-- `idx` lists, in increasing order, the numbers `i < n` with `keep i`. -/
def Chosen (n : ℕ) (keep : ℕ → Prop) (idx : List ℕ) : Prop :=
  idx.Pairwise (· < ·) ∧ ∀ i, i ∈ idx ↔ i < n ∧ keep i

/-- The entries of `col` at the positions `idx` -/
def pick {α : Type} (idx : List ℕ) (col : List α) : List α := idx.filterMap fun i => col[i]?

/-- `row'` is `row` shifted by a constant so that it ends at `m`. -/
def ShiftedTo (m : ℝ) (row row' : List ℝ) : Prop :=
  row'.length = row.length ∧ row'.getLast? = some m ∧
  ∀ (j k : ℕ) (a b a' b' : ℝ), row[j]? = some a → row[k]? = some b → row'[j]? = some a' → row'[k]? = some b' →
    b' - a' = b - a

/-! ## Masks -/

/-- The positions of the true entries -/
def idxOf (msk : List Bool) : List ℕ := (List.range msk.length).filter fun i => msk.getD i false

theorem idxOf_cons (b : Bool) (m : List Bool) :
    idxOf (b :: m) = (if b then [0] else []) ++ (idxOf m).map Nat.succ := by
  unfold idxOf
  rw [List.length_cons, List.range_succ_eq_map, List.filter_cons, List.filter_map]
  have e : ((fun i => (b :: m).getD i false) ∘ Nat.succ) = fun i => m.getD i false := by
    funext i; simp
  rw [e]
  cases b <;> simp

theorem pick_succ {α : Type} (a : α) (x : List α) (idx : List ℕ) :
    pick (idx.map Nat.succ) (a :: x) = pick idx x := by
  unfold pick
  rw [List.filterMap_map]
  congr 1

theorem maskRows_eq {α : Type} (msk : List Bool) (x : List α) (h : msk.length = x.length) :
    maskRows msk x = .ok (pick (idxOf msk) x) := by
  unfold maskRows
  rw [if_pos h]
  congr 1
  induction msk generalizing x with
  | nil => simp [idxOf, pick]
  | cons b m ih =>
    cases x with
    | nil => simp at h
    | cons a x =>
      have h' : m.length = x.length := by simpa using h
      rw [idxOf_cons, List.zip_cons_cons]
      have e : ∀ l, pick ((if b then [0] else []) ++ l) (a :: x)
          = (if b then [a] else []) ++ pick l (a :: x) := by
        intro l; cases b <;> simp [pick]
      rw [e, pick_succ, ← ih x h']
      cases b <;> simp

theorem chosen_idxOf (msk : List Bool) : Chosen msk.length (fun i => msk[i]? = some true) (idxOf msk) := by
  refine ⟨List.Pairwise.filter _ List.pairwise_lt_range, fun i => ?_⟩
  simp only [idxOf, List.mem_filter, List.mem_range, List.getD_eq_getElem?_getD]
  constructor
  · rintro ⟨h, h'⟩
    refine ⟨h, ?_⟩
    rw [List.getElem?_eq_getElem h] at h' ⊢
    simpa using h'
  · rintro ⟨h, h'⟩
    exact ⟨h, by rw [h']; rfl⟩

theorem lastColumn_ok (table : List (List ℝ)) (h : ∀ row ∈ table, row ≠ []) :
    lastColumn table = .ok (table.map fun row => row.getLast?.getD 0) := by
  apply mapM_ok
  intro row hr
  have := List.getLast?_eq_some_getLast (h row hr)
  rw [this]; rfl

/-! ## C72 -/

theorem shiftedTo (row : List ℝ) (hr : row ≠ []) (m : ℝ) :
    ShiftedTo m row (row.map fun x => x - (row.getLast?.getD 0 - m)) := by
  refine ⟨by simp, ?_, ?_⟩
  · have := List.getLast?_eq_some_getLast hr
    rw [List.getLast?_map, this]; simp
  · intro j k a b a' b' ha hb ha' hb'
    rw [List.getElem?_map, ha] at ha'
    rw [List.getElem?_map, hb] at hb'
    simp only [Option.map_some, Option.some.injEq] at ha' hb'
    rw [← ha', ← hb']; ring

/-- **C72** (rescaling). For a table of histories with at least one entry each, and one observed mass
per history or a single one for all, the result has one history per history, shifted by a constant so
that it ends exactly at its observed mass. -/
theorem C72_rescale (table : List (List ℝ)) (lgm : List ℝ) (hne : ∀ row ∈ table, row ≠ [])
    (hl : lgm.length = table.length ∨ lgm.length = 1) :
    ∃ out, rescale_target_log_mahs table lgm = .ok out ∧ out.length = table.length ∧
      ∀ i row row', table[i]? = some row → out[i]? = some row' →
        ∃ m, lgm[if lgm.length = 1 then 0 else i]? = some m ∧ ShiftedTo m row row' := by
  unfold rescale_target_log_mahs
  rw [lastColumn_ok table hne]
  simp only [bind, Except.bind]
  by_cases h : lgm.length = table.length
  · have e1 : bcast (fun x y : ℝ => x - y) (table.map fun row => row.getLast?.getD 0) lgm
        = .ok (List.zipWith (fun x y => x - y) (table.map fun row => row.getLast?.getD 0) lgm) := by
      unfold bcast; rw [if_pos (by simp [h])]
    rw [e1]
    simp only
    refine ⟨_, by unfold bcast; rw [if_pos (by simp [h])], by simp [h], ?_⟩
    intro i row row' hr hr'
    have hi : i < table.length := by
      by_contra hc; rw [List.getElem?_eq_none (by omega)] at hr; simp at hr
    have hm : lgm[i]? = some (lgm[i]'(by omega)) := List.getElem?_eq_getElem (by omega)
    refine ⟨lgm[i]'(by omega), ?_, ?_⟩
    · by_cases h1 : lgm.length = 1
      · rw [if_pos h1]
        have : i = 0 := by omega
        subst this; exact hm
      · rw [if_neg h1]; exact hm
    · rw [List.getElem?_zipWith, List.getElem?_zipWith, List.getElem?_map, hr, hm] at hr'
      simp only [Option.map_some, Option.some.injEq] at hr'
      rw [← hr']
      exact shiftedTo row (hne row (List.mem_of_getElem? hr)) _
  · have h1 : lgm.length = 1 := hl.resolve_left h
    obtain ⟨m, rfl⟩ := List.length_eq_one_iff.1 h1
    have e1 : bcast (fun x y : ℝ => x - y) (table.map fun row => row.getLast?.getD 0) [m]
        = .ok (table.map fun row => row.getLast?.getD 0 - m) := by
      unfold bcast
      rw [if_neg (by simpa using fun hh => h (by simpa using hh.symm))]
      cases table with
      | nil => simp
      | cons a l => cases l with
        | nil => simp at h
        | cons b l => simp
    rw [e1]
    simp only
    refine ⟨_, by unfold bcast; rw [if_pos (by simp)], by simp, ?_⟩
    intro i row row' hr hr'
    refine ⟨m, by simp, ?_⟩
    rw [List.getElem?_zipWith, List.getElem?_map, hr] at hr'
    simp only [Option.map_some, Option.some.injEq] at hr'
    rw [← hr']
    exact shiftedTo row (hne row (List.mem_of_getElem? hr)) _

/-- **C72** (rescaling, one history). A single history is rescaled to every one of several masses. -/
theorem C72_rescale_one (row : List ℝ) (hr : row ≠ []) (lgm : List ℝ) :
    ∃ out, rescale_target_log_mahs [row] lgm = .ok out ∧
      List.Forall₂ (fun m row' => ShiftedTo m row row') lgm out := by
  unfold rescale_target_log_mahs
  rw [lastColumn_ok [row] (by simpa using hr)]
  have key : ∃ out, bcast (fun (r : List ℝ) (d : ℝ) => r.map fun x => x - d) [row]
      (lgm.map fun m => row.getLast?.getD 0 - m) = .ok out ∧
      out = (lgm.map fun m => row.map fun x => x - (row.getLast?.getD 0 - m)) := by
    unfold bcast
    by_cases h : lgm.length = 1
    · obtain ⟨m, rfl⟩ := List.length_eq_one_iff.1 h
      exact ⟨_, rfl, rfl⟩
    · rw [if_neg (by simpa using fun hh => h hh.symm)]
      exact ⟨_, rfl, by simp [Function.comp_def]⟩
  have e1 : bcast (fun x y : ℝ => x - y) ([row].map fun row => row.getLast?.getD 0) lgm
      = .ok (lgm.map fun m => row.getLast?.getD 0 - m) := by
    unfold bcast
    by_cases h : lgm.length = 1
    · obtain ⟨m, rfl⟩ := List.length_eq_one_iff.1 h
      rfl
    · rw [if_neg (by simpa using fun hh => h hh.symm)]
      rfl
  obtain ⟨out, ho, ho'⟩ := key
  refine ⟨out, ?_, ?_⟩
  · simp only [bind, Except.bind]
    rw [e1]; exact ho
  · rw [ho', List.forall₂_map_right_iff, List.forall₂_same]
    exact fun m _ => shiftedTo row hr m

/-- **C72** (rescaling, wrong sizes). Any other number of masses is refused. -/
theorem C72_rescale_mismatch (table : List (List ℝ)) (lgm : List ℝ) (hne : ∀ row ∈ table, row ≠ [])
    (h1 : lgm.length ≠ table.length) (h2 : lgm.length ≠ 1) (h3 : table.length ≠ 1) :
    rescale_target_log_mahs table lgm = .error .valueError := by
  unfold rescale_target_log_mahs
  rw [lastColumn_ok table hne]
  simp only [bind, Except.bind]
  have e1 : bcast (fun x y : ℝ => x - y) (table.map fun row => row.getLast?.getD 0) lgm
      = .error .valueError := by
    unfold bcast
    rw [if_neg (by simpa using fun hh => h1 hh.symm)]
    cases table with
    | nil => cases lgm with
      | nil => simp at h1
      | cons b m => cases m <;> simp_all
    | cons a l => cases l with
      | nil => simp at h3
      | cons a' l => cases lgm with
        | nil => simp
        | cons b m => cases m <;> simp_all
  rw [e1]

/-- **C72** (empty histories). A table with an empty history is refused. -/
theorem C72_rescale_empty (table : List (List ℝ)) (lgm : List ℝ) (h : [] ∈ table) :
    rescale_target_log_mahs table lgm = .error .indexError := by
  unfold rescale_target_log_mahs
  have : lastColumn table = .error .indexError := by
    unfold lastColumn
    induction table with
    | nil => simp at h
    | cons a l ih =>
      rw [List.mapM_cons]
      cases a with
      | nil => rfl
      | cons x a =>
        rw [ih (by simpa using h)]
        rw [List.getLast?_eq_some_getLast (by simp : (x :: a) ≠ [])]; rfl
  rw [this]; rfl

/-- **C72** (selecting). The haloes selected are exactly those whose history ends within the bin of the
observed mass, in their original order, the same ones in every parameter column, in the peak times and
in the host column. -/
theorem C72_select {A U : Type} (table : List (List ℝ)) (lgm w : ℝ) (mah : List (List A))
    (t_peak : List A) (upid : List U) (hne : ∀ row ∈ table, row ≠ [])
    (hm : ∀ c ∈ mah, c.length = table.length) (ht : t_peak.length = table.length)
    (hu : upid.length = table.length) :
    ∃ idx, Chosen table.length (fun i => ∃ row x, table[i]? = some row ∧ row.getLast? = some x ∧
        |x - lgm| < w) idx ∧
      get_target_mah_params table lgm mah t_peak upid w
        = .ok (mah.map (pick idx), pick idx t_peak, pick idx upid) := by
  classical
  set msk := (table.map fun row => row.getLast?.getD 0).map fun x => decide (|x - lgm| < w) with hmsk
  have hlen : msk.length = table.length := by simp [hmsk]
  refine ⟨idxOf msk, ?_, ?_⟩
  · have hc := chosen_idxOf msk
    refine ⟨hc.1, fun i => ?_⟩
    rw [hc.2, hlen]
    apply and_congr_right
    intro hi
    have e : msk[i]? = some (decide (|table[i].getLast?.getD 0 - lgm| < w)) := by
      simp only [hmsk, List.getElem?_map, List.getElem?_eq_getElem hi, Option.map_some]
    have hl := List.getLast?_eq_some_getLast (hne _ (List.getElem_mem hi))
    show msk[i]? = some true ↔ ∃ row x, table[i]? = some row ∧ row.getLast? = some x ∧ |x - lgm| < w
    rw [e, List.getElem?_eq_getElem hi]
    constructor
    · intro h
      refine ⟨_, _, rfl, hl, ?_⟩
      rw [hl] at h; simpa using h
    · rintro ⟨row, x, hrow, hx, hw⟩
      cases hrow
      rw [hx]; simpa using hw
  · unfold get_target_mah_params
    rw [lastColumn_ok table hne]
    simp only [bind, Except.bind]
    have e : mah.mapM (maskRows msk) = .ok (mah.map (pick (idxOf msk))) :=
      mapM_ok _ _ _ fun c hc => maskRows_eq _ _ (by rw [hlen, hm c hc])
    have hmsk' : (table.map fun row => row.getLast?.getD 0).map (fun x => decide (|x - lgm| < w)) = msk := rfl
    have hd : ∀ (inst : ∀ x : ℝ, Decidable (|x - lgm| < w)),
        (table.map fun row => row.getLast?.getD 0).map (fun x => @decide (|x - lgm| < w) (inst x)) = msk := by
      intro inst; rw [← hmsk']; congr 1; funext x; congr
    rw [hd, e]
    simp only
    rw [maskRows_eq msk t_peak (by rw [hlen, ht])]
    simp only
    rw [maskRows_eq msk upid (by rw [hlen, hu])]
    rfl

/-- A table of three haloes for the examples -/
noncomputable def exampleTable : List (List ℝ) := [[10, 12], [9, 11.5], [11, 12.1]]

example : ∃ out, rescale_target_log_mahs exampleTable [12] = .ok out ∧ out.length = 3 := by
  obtain ⟨out, h, h', -⟩ := C72_rescale exampleTable [12] (by simp [exampleTable]) (.inr rfl)
  exact ⟨out, h, h'⟩

example : ∃ idx, get_target_mah_params exampleTable 12 [["a", "b", "c"], ["d", "e", "f"]]
    ["x", "y", "z"] [(1 : ℕ), 2, 3] 0.15 = .ok ([["a", "b", "c"], ["d", "e", "f"]].map (pick idx),
      pick idx ["x", "y", "z"], pick idx [1, 2, 3]) ∧ idx = [0, 2] := by
  obtain ⟨idx, ⟨hs, hm⟩, h⟩ := C72_select exampleTable 12 0.15 [["a", "b", "c"], ["d", "e", "f"]]
    ["x", "y", "z"] [(1 : ℕ), 2, 3] (by simp [exampleTable]) (by simp [exampleTable]) rfl rfl
  refine ⟨idx, h, ?_⟩
  have h0 : 0 ∈ idx := (hm 0).2 ⟨by simp [exampleTable], [10, 12], 12, rfl, rfl, by norm_num⟩
  have h1 : 1 ∉ idx := by
    rintro h; obtain ⟨-, row, x, hr, hx, hw⟩ := (hm 1).1 h
    simp only [exampleTable, List.getElem?_cons_succ, List.getElem?_cons_zero, Option.some.injEq] at hr
    subst hr
    simp only [List.getLast?_cons_cons, List.getLast?_singleton, Option.some.injEq] at hx
    subst hx; norm_num at hw
  have h2 : 2 ∈ idx := (hm 2).2 ⟨by simp [exampleTable], [11, 12.1], 12.1, rfl, rfl, by
    rw [abs_lt]; constructor <;> norm_num⟩
  have h3 : ∀ i ∈ idx, i < 3 := fun i hi => ((hm i).1 hi).1
  have hp : [0, 2].Pairwise (· < ·) := by decide
  refine List.Perm.eq_of_pairwise (le := (· < ·)) (fun a b _ _ h h' => absurd h (lt_asymm h')) hs hp ?_
  rw [List.perm_ext_iff_of_nodup (hs.imp fun h => h.ne) (by decide)]
  intro a
  constructor
  · intro ha
    have := h3 a ha
    interval_cases a
    · simp
    · exact absurd ha h1
    · simp
  · intro ha
    simp only [List.mem_cons, List.not_mem_nil, or_false] at ha
    rcases ha with rfl | rfl <;> assumption

/-! ## C73 -/

/-- A file of fits with the given columns -/
def Holds (data : H5) (loss : List XR) (cols : String → List XR) : Prop :=
  floatColumn data "loss" = .ok loss ∧ ∀ k ∈ MAH_FIELDS, floatColumn data k = .ok (cols k) ∧
    (cols k).length = loss.length

/-- **C73** (what is dropped). A halo is left out exactly when its stored loss equals -1, in every
column alike. The property asks that every halo the fitter skipped be left out; it is false, because
the fitter stores -99 for those (`C73_skipped_halo_kept`). -/
theorem C73_dropped_partial {U : Type} (data : H5) (loss : List XR) (cols : String → List XR)
    (upid : List U) (hd : Holds data loss cols) (hu : upid.length = loss.length) :
    ∃ idx, Chosen loss.length (fun i => loss[i]? ≠ some (XR.fin (-1))) idx ∧
      load_diffmah_subvolume data upid = .ok (MAH_FIELDS.map fun k => (k, pick idx (cols k)),
        pick idx (cols "t_peak"), pick idx upid) := by
  classical
  obtain ⟨hl, hc⟩ := hd
  set msk := loss.map fun x => decide (x ≠ XR.fin (-1)) with hmsk
  have hlen : msk.length = loss.length := by simp [hmsk]
  refine ⟨idxOf msk, ?_, ?_⟩
  · have h := chosen_idxOf msk
    refine ⟨h.1, fun i => ?_⟩
    rw [h.2, hlen]
    apply and_congr_right
    intro hi
    show msk[i]? = some true ↔ loss[i]? ≠ some (XR.fin (-1))
    simp only [hmsk, List.getElem?_map, List.getElem?_eq_getElem hi, Option.map_some,
      Option.some.injEq, decide_eq_true_eq, ne_eq]
  · unfold load_diffmah_subvolume
    rw [hl]
    simp only [bind, Except.bind]
    have hd : ∀ (inst : ∀ x : XR, Decidable (x ≠ XR.fin (-1))),
        loss.map (fun x => @decide (x ≠ XR.fin (-1)) (inst x)) = msk := by
      intro inst; rw [hmsk]; congr 1; funext x; congr
    rw [hd]
    rw [mapM_ok _ (fun k => pick (idxOf msk) (cols k)) MAH_FIELDS (by
      intro k hk
      rw [(hc k hk).1]
      exact maskRows_eq _ _ (by rw [hlen, (hc k hk).2]))]
    have hp := hc "t_peak" (by simp [MAH_FIELDS])
    simp only [NT.make, List.length_map, if_true, hp.1]
    rw [maskRows_eq msk (cols "t_peak") (by rw [hlen, hp.2])]
    simp only
    rw [maskRows_eq msk upid (by rw [hlen, hu])]
    simp [pure, Except.pure, MAH_FIELDS]

/-- The columns of the parameters in a file of results -/
def resultCols (ds : List FitData) : String → List XR
  | "logm0" => ds.map (·.logm0)
  | "logtc" => ds.map (·.logtc)
  | "early_index" => ds.map (·.early_index)
  | "late_index" => ds.map (·.late_index)
  | "t_peak" => ds.map (·.t_peak)
  | _ => []

theorem holds_results (ds : List FitData) :
    Holds (resultColumns ds) (ds.map (·.loss)) (resultCols ds) := by
  refine ⟨rfl, ?_⟩
  simp only [MAH_FIELDS, List.mem_cons, List.not_mem_nil, or_false]
  rintro k (rfl | rfl | rfl | rfl | rfl) <;> exact ⟨rfl, by simp [resultCols]⟩

/-- **C73** (negation). In the file written from any list of fits, every halo for which the fitter
stored its fill values is kept: the population contains a halo all of whose parameters are -99. -/
theorem C73_skipped_halo_kept {U : Type} (fits : List FitResult) (upid : List U)
    (hu : upid.length = fits.length) (k : ℕ) (r : FitResult) (hk : fits[k]? = some r)
    (hp : r.p_best = ⟨.fin (-99), .fin (-99), .fin (-99), .fin (-99), .fin (-99)⟩)
    (hl : r.loss_best = .fin (-99)) :
    ∃ (idx : List ℕ) (j : ℕ) (cols : String → List XR) (tp : List XR),
      idx[j]? = some k ∧ load_diffmah_subvolume (resultColumns (fits.map readResult)) upid
        = .ok (MAH_FIELDS.map fun f => (f, cols f), tp, pick idx upid) ∧
      ∀ f ∈ MAH_FIELDS, (cols f)[j]? = some (.fin (-99)) := by
  have hfill : readBack (.fin (-99)) = .fin (-99) := by
    have h := readBack_fill
    rwa [show (-99.0 : ℝ) = -99 by norm_num] at h
  obtain ⟨idx, hidx, hload⟩ := C73_dropped_partial _ _ _ upid (holds_results (fits.map readResult))
    (by simpa using hu)
  have hklt : k < fits.length := by
    by_contra hc; rw [List.getElem?_eq_none (by omega)] at hk; simp at hk
  have hmem : k ∈ idx := by
    rw [hidx.2]
    refine ⟨by simpa using hklt, ?_⟩
    simp only [List.getElem?_map, hk, Option.map_some, ne_eq, Option.some.injEq, readResult, hl,
      hfill]
    intro h
    injection h with h
    norm_num at h
  have hlt : ∀ i ∈ idx, i < fits.length := fun i hi => by simpa using ((hidx.2 i).1 hi).1
  have hpick : ∀ (col : List XR), col.length = fits.length →
      ∀ j : ℕ, (pick idx col)[j]? = (idx[j]?).bind fun i => col[i]? := by
    intro col hcol
    have e : pick idx col = idx.map fun i => col.getD i XR.nan := by
      unfold pick
      rw [← List.filterMap_eq_map]
      apply List.filterMap_congr
      intro i hi
      have := hlt i hi
      simp [List.getElem?_eq_getElem (show i < col.length by omega)]
    intro j
    rw [e, List.getElem?_map]
    cases hj : idx[j]? with
    | none => rfl
    | some i =>
      have := hlt i (List.mem_of_getElem? hj)
      simp [List.getElem?_eq_getElem (show i < col.length by omega)]
  obtain ⟨j, hj⟩ := List.mem_iff_getElem?.1 hmem
  refine ⟨idx, j, fun f => pick idx (resultCols (fits.map readResult) f), _, hj, hload, ?_⟩
  intro f hf
  have hlen := ((holds_results (fits.map readResult)).2 f hf).2
  rw [hpick _ (by rw [hlen]; simp), hj]
  simp only [MAH_FIELDS, List.mem_cons, List.not_mem_nil, or_false] at hf
  rcases hf with rfl | rfl | rfl | rfl | rfl <;>
    simp only [resultCols, List.getElem?_map, hk, Option.map_some, Option.bind_some, readResult, hp,
      hfill]

/-- A skipped halo between two fitted ones -/
noncomputable def skippedResult : FitResult :=
  ⟨⟨.fin (-99), .fin (-99), .fin (-99), .fin (-99), .fin (-99)⟩, .fin (-99), true, false, -1,
    ⟨[], [], .fin 0, .fin 1.14⟩⟩

example : ∃ (idx : List ℕ) (j : ℕ) (cols : String → List XR) (tp : List XR), idx[j]? = some 1 ∧
    load_diffmah_subvolume (resultColumns ([exampleResult, skippedResult, exampleResult].map readResult))
      [-1, (7 : ℤ), -1] = .ok (MAH_FIELDS.map fun f => (f, cols f), tp, pick idx [-1, 7, -1]) ∧
    ∀ f ∈ MAH_FIELDS, (cols f)[j]? = some (.fin (-99)) :=
  C73_skipped_halo_kept [exampleResult, skippedResult, exampleResult] [(-1 : ℤ), 7, -1] rfl 1 skippedResult rfl
    rfl rfl

/-! ## C75 -/

theorem mapM_inv {α β : Type} (f : α → Except PyErr β) (l : List α) (m : List β)
    (h : l.mapM f = .ok m) : List.Forall₂ (fun x y => f x = .ok y) l m := by
  induction l generalizing m with
  | nil => cases h; exact .nil
  | cons a l ih =>
    rw [List.mapM_cons] at h
    cases ha : f a with
    | error e => rw [ha] at h; cases h
    | ok b =>
      cases hl : l.mapM f with
      | error e => rw [ha, hl] at h; cases h
      | ok m' => rw [ha, hl] at h; cases h; exact .cons ha (ih m' hl)

/-- The first failing element decides. -/
theorem mapM_fails {α β : Type} (f : α → Except PyErr β) (e : PyErr) (l : List α)
    (h : ∀ x ∈ l, (∃ y, f x = .ok y) ∨ f x = .error e) (h' : ∃ x ∈ l, f x = .error e) :
    l.mapM f = .error e := by
  induction l with
  | nil => simp at h'
  | cons a l ih =>
    rw [List.mapM_cons]
    rcases h a (by simp) with ⟨y, hy⟩ | hy
    · obtain ⟨x, hx, hxe⟩ := h'
      have hx' : x ∈ l := by
        rcases List.mem_cons.1 hx with rfl | hx
        · rw [hy] at hxe; cases hxe
        · exact hx
      rw [hy, ih (fun x hx => h x (by simp [hx])) ⟨x, hx', hxe⟩]; rfl
    · rw [hy]; rfl

/-- **C75** (the table of times). For a bin at a time after 0.5 Gyr the histories are tabulated at the
requested number of times, evenly spaced, the first 0.5 Gyr and the last the time of the bin. -/
theorem C75_times (t_obs : ℝ) (n : ℕ) (hn : 2 ≤ n) (ht : 1 / 2 < t_obs) :
    ∃ ts : List ℝ, get_t_table_for_t_obs (XR.fin t_obs) n = ts.map XR.fin ∧ ts.length = n ∧
      ts.head? = some (1 / 2) ∧ ts.getLast? = some t_obs ∧ ts.Pairwise (· < ·) ∧
      ∃ d, 0 < d ∧ ∀ (i : ℕ) (a b : ℝ), ts[i]? = some a → ts[i + 1]? = some b → b - a = d := by
  have hn1 : (1 : ℝ) ≤ (n : ℝ) - 1 := by
    have : (2 : ℝ) ≤ n := by exact_mod_cast hn
    linarith
  have hn0 : (0 : ℝ) < (n : ℝ) - 1 := by linarith
  set d : ℝ := (t_obs - 1 / 2) / ((n : ℝ) - 1) with hd
  have hdpos : 0 < d := div_pos (by linarith) hn0
  have hget : ∀ (i : ℕ) (a : ℝ), ((List.range n).map fun i : ℕ => 1 / 2 + (i : ℝ) * d)[i]? = some a →
      a = 1 / 2 + (i : ℝ) * d := by
    intro i a h
    rw [List.getElem?_map, Option.map_eq_some_iff] at h
    obtain ⟨k, hk, rfl⟩ := h
    obtain ⟨h1, h2⟩ := List.getElem?_eq_some_iff.1 hk
    rw [List.getElem_range] at h2
    rw [h2]
  refine ⟨(List.range n).map fun i : ℕ => 1 / 2 + (i : ℝ) * d, ?_, by simp, ?_, ?_, ?_, d, hdpos, ?_⟩
  · unfold get_t_table_for_t_obs
    rw [List.map_map]
    refine List.map_congr_left fun i _ => ?_
    rw [max_eq_left hn1, XR.fin_sub, XR.fin_div hn0.ne', XR.fin_mul, XR.fin_add]
    simp only [Function.comp, hd]
    norm_num
  · rw [List.head?_map, List.head?_range, if_neg (by omega)]; simp
  · rw [List.getLast?_map, List.getLast?_range, if_neg (by omega), Option.map_some,
      Nat.cast_sub (by omega), Nat.cast_one, hd]
    congr 1
    field_simp
    ring
  · rw [List.pairwise_map]
    refine List.pairwise_lt_range.imp fun {a b} h => ?_
    have : (a : ℝ) < b := by exact_mod_cast h
    nlinarith
  · intro i a b ha hb
    rw [hget _ _ ha, hget _ _ hb]
    push_cast
    ring

/-- The tables of the stored targets: 25 times. -/
example : ∃ ts : List ℝ, get_t_table_for_t_obs (XR.fin 10) 25 = ts.map XR.fin ∧ ts.length = 25 ∧
    ts.getLast? = some 10 := by
  obtain ⟨ts, h1, h2, -, h3, -⟩ := C75_times 10 25 (by norm_num) (by norm_num)
  exact ⟨ts, h1, h2, h3⟩


section

variable {R D : Type} (halopop : Arg → Arg → Arg → Except PyErr R)
  (finish : R → XR → List XR → List XR → Except PyErr D) (lgt0 : XR)

theorem cut_replicate_length {α : Type} (n k : ℕ) (x : List α) : (cut (List.replicate n k) x).length = n := by
  induction n generalizing x with
  | zero => rfl
  | succ n ih => rw [List.replicate_succ]; simp [cut, ih]

theorem tabulateOne_few (nh_min n_t : ℕ) (x : (XR × XR) × List XR) (h6 : x.2.length % 6 = 0)
    (h : x.2.length / 6 ≤ nh_min) : tabulateOne halopop finish lgt0 nh_min n_t x = .ok none := by
  unfold tabulateOne reshapeRows
  have e : NUM_DIFFMAH_PARAMS = 6 := rfl
  rw [e, if_pos h6]
  simp only [bind, Except.bind, cut_replicate_length]
  rw [if_neg (by omega)]; rfl

theorem tabulateOne_many (nh_min n_t : ℕ) (x : (XR × XR) × List XR) (h6 : x.2.length % 6 = 0)
    (h : nh_min < x.2.length / 6) :
    tabulateOne halopop finish lgt0 nh_min n_t x = .error .typeError := by
  unfold tabulateOne reshapeRows
  have e : NUM_DIFFMAH_PARAMS = 6 := rfl
  rw [e, if_pos h6]
  simp only [bind, Except.bind, cut_replicate_length]
  rw [if_pos h]
  simp [NT.make, MAH_FIELDS, call3]

theorem tabulateOne_ok (nh_min n_t : ℕ) (x : (XR × XR) × List XR) (r : Option (Target D))
    (h : tabulateOne halopop finish lgt0 nh_min n_t x = .ok r) : r = none := by
  by_cases h6 : x.2.length % 6 = 0
  · by_cases hn : x.2.length / 6 ≤ nh_min
    · rw [tabulateOne_few halopop finish lgt0 nh_min n_t x h6 hn] at h; cases h; rfl
    · rw [tabulateOne_many halopop finish lgt0 nh_min n_t x h6 (by omega)] at h; cases h
  · unfold tabulateOne reshapeRows at h
    rw [if_neg (by exact h6)] at h
    cases h

theorem filterMap_none {α β : Type} (f : α → Except PyErr (Option β)) (l : List α) (m : List (Option β))
    (h : l.mapM f = .ok m) (hf : ∀ x r, f x = .ok r → r = none) : m.filterMap id = [] := by
  have := mapM_inv f l m h
  clear h
  induction this with
  | nil => rfl
  | cons h _ ih => rw [List.filterMap_cons, hf _ _ h]; exact ih

/-- **C75** (negation, tabulating). Whatever the directory contains, tabulating the targets never
returns a target: if it returns at all, both tables are empty. -/
theorem C75_tabulate_empty (files : List (Str × List XR)) (nh_min n_t : ℕ) (cens sats : List (Target D))
    (h : tabulate_target_means_vars halopop finish lgt0 files nh_min n_t = .ok (cens, sats)) :
    cens = [] ∧ sats = [] := by
  unfold tabulate_target_means_vars at h
  simp only [bind, Except.bind] at h
  split at h
  · cases h
  split at h
  · cases h
  split at h
  · cases h
  rename_i c hc
  split at h
  · cases h
  rename_i s hs
  simp only [pure, Except.pure, Except.ok.injEq, Prod.mk.injEq] at h
  rw [← h.1, ← h.2]
  exact ⟨filterMap_none _ _ _ hc (tabulateOne_ok halopop finish lgt0 nh_min n_t),
    filterMap_none _ _ _ hs (tabulateOne_ok halopop finish lgt0 nh_min n_t)⟩

/-- A directory of sample files: names that give a mass and a time, and six numbers per halo -/
def SampleFiles (files : List (Str × List XR)) : Prop :=
  ∀ f ∈ files, (∃ b, binOfName f.1 = .ok b) ∧ f.2.length % 6 = 0

theorem bins_ok (files : List (Str × List XR)) (h : SampleFiles files) (p : Str × List XR → Bool) :
    ∃ bins, (files.filter p).mapM (fun f => binOfName f.1) = .ok bins ∧
      bins.length = (files.filter p).length := by
  have : ∀ l : List (Str × List XR), (∀ f ∈ l, f ∈ files) →
      ∃ bins, l.mapM (fun f => binOfName f.1) = .ok bins ∧ bins.length = l.length := by
    intro l
    induction l with
    | nil => intro _; exact ⟨[], rfl, rfl⟩
    | cons a l ih =>
      intro hl
      obtain ⟨bins, hb, hlen⟩ := ih fun f hf => hl f (by simp [hf])
      obtain ⟨⟨b, hb'⟩, -⟩ := h a (hl a (by simp))
      exact ⟨b :: bins, by rw [List.mapM_cons, hb', hb]; rfl, by simp [hlen]⟩
  exact this _ fun f hf => (List.mem_filter.1 hf).1

/-- **C75** (negation, tabulating). If some file of centrals or satellites has more than `nh_min`
haloes, tabulating fails with a TypeError. -/
theorem C75_tabulate_typeError (files : List (Str × List XR)) (nh_min n_t : ℕ) (h : SampleFiles files)
    (hbig : ∃ f ∈ files, ("cens.npy".toList <:+ f.1 ∨ "sats.npy".toList <:+ f.1) ∧
      nh_min < f.2.length / 6) :
    tabulate_target_means_vars halopop finish lgt0 files nh_min n_t = .error .typeError := by
  unfold tabulate_target_means_vars
  simp only [bind, Except.bind]
  obtain ⟨cb, hcb, hcl⟩ := bins_ok files h fun f => "cens.npy".toList.isSuffixOf f.1
  obtain ⟨sb, hsb, hsl⟩ := bins_ok files h fun f => "sats.npy".toList.isSuffixOf f.1
  rw [hcb, hsb]
  simp only
  have hall : ∀ (p : Str × List XR → Bool) (bins : List (XR × XR)),
      bins.length = (files.filter p).length →
      (∀ x ∈ bins.zip ((files.filter p).map Prod.snd),
        (∃ y, tabulateOne halopop finish lgt0 nh_min n_t x = .ok y) ∨
          tabulateOne halopop finish lgt0 nh_min n_t x = .error .typeError) ∧
      ((∃ f ∈ files, p f = true ∧ nh_min < f.2.length / 6) →
        ∃ x ∈ bins.zip ((files.filter p).map Prod.snd),
          tabulateOne halopop finish lgt0 nh_min n_t x = .error .typeError) := by
    intro p bins hlen
    refine ⟨?_, ?_⟩
    · intro x hx
      have hx2 : x.2 ∈ (files.filter p).map Prod.snd := (List.of_mem_zip hx).2
      obtain ⟨f, hf, hfe⟩ := List.mem_map.1 hx2
      have h6 := (h f (List.mem_filter.1 hf).1).2
      rw [hfe] at h6
      by_cases hn : x.2.length / 6 ≤ nh_min
      · exact .inl ⟨_, tabulateOne_few halopop finish lgt0 nh_min n_t x h6 hn⟩
      · exact .inr (tabulateOne_many halopop finish lgt0 nh_min n_t x h6 (by omega))
    · rintro ⟨f, hf, hpf, hn⟩
      obtain ⟨i, hi⟩ := List.mem_iff_getElem?.1 (List.mem_filter.2 ⟨hf, hpf⟩)
      have hilt : i < (files.filter p).length := by
        by_contra hc; rw [List.getElem?_eq_none (by omega)] at hi; simp at hi
      refine ⟨(bins[i]'(by omega), f.2), ?_, ?_⟩
      · apply List.mem_of_getElem? (i := i)
        rw [List.getElem?_zip_eq_some]
        exact ⟨List.getElem?_eq_getElem _, by simp [hi]⟩
      · exact tabulateOne_many halopop finish lgt0 nh_min n_t _ (h f hf).2 hn
  obtain ⟨f, hf, hk, hn⟩ := hbig
  obtain ⟨hc1, hc2⟩ := hall _ cb hcl
  obtain ⟨hs1, hs2⟩ := hall _ sb hsl
  rcases hk with hk | hk
  · rw [mapM_fails _ .typeError _ hc1 (hc2 ⟨f, hf, by simpa using hk, hn⟩)]
  · have hsf := mapM_fails _ .typeError _ hs1 (hs2 ⟨f, hf, by simpa using hk, hn⟩)
    rw [hsf]
    cases hcm : (cb.zip ((files.filter fun f => "cens.npy".toList.isSuffixOf f.1).map Prod.snd)).mapM
        (tabulateOne halopop finish lgt0 nh_min n_t) with
    | ok m => rfl
    | error e =>
      by_cases hx : ∃ x ∈ cb.zip ((files.filter fun f => "cens.npy".toList.isSuffixOf f.1).map Prod.snd),
          tabulateOne halopop finish lgt0 nh_min n_t x = .error .typeError
      · rw [mapM_fails _ .typeError _ hc1 hx] at hcm; cases hcm; rfl
      · exfalso
        have hok : ∀ x ∈ cb.zip ((files.filter fun f => "cens.npy".toList.isSuffixOf f.1).map Prod.snd),
            tabulateOne halopop finish lgt0 nh_min n_t x = .ok none := by
          intro x hx'
          rcases hc1 x hx' with ⟨y, hy⟩ | hy
          · rw [hy, tabulateOne_ok halopop finish lgt0 nh_min n_t x y hy]
          · exact absurd ⟨x, hx', hy⟩ hx
        rw [mapM_ok _ (fun _ => none) _ hok] at hcm
        cases hcm

/-- **C75** (tabulating, what remains). If no file has more than `nh_min` haloes, two empty tables are
returned. Missing: a target for every file with more haloes, as the property asks; that is false
(`C75_tabulate_typeError`). -/
theorem C75_tabulate_partial (files : List (Str × List XR)) (nh_min n_t : ℕ) (h : SampleFiles files)
    (hsmall : ∀ f ∈ files, f.2.length / 6 ≤ nh_min) :
    tabulate_target_means_vars halopop finish lgt0 files nh_min n_t = .ok ([], []) := by
  unfold tabulate_target_means_vars
  simp only [bind, Except.bind]
  obtain ⟨cb, hcb, -⟩ := bins_ok files h fun f => "cens.npy".toList.isSuffixOf f.1
  obtain ⟨sb, hsb, -⟩ := bins_ok files h fun f => "sats.npy".toList.isSuffixOf f.1
  rw [hcb, hsb]
  simp only
  have hall : ∀ (p : Str × List XR → Bool) (bins : List (XR × XR)),
      (bins.zip ((files.filter p).map Prod.snd)).mapM (tabulateOne halopop finish lgt0 nh_min n_t)
        = .ok ((bins.zip ((files.filter p).map Prod.snd)).map fun _ => none) := by
    intro p bins
    apply mapM_ok
    intro x hx
    obtain ⟨f, hf, hfe⟩ := List.mem_map.1 (List.of_mem_zip hx).2
    have hf' := (List.mem_filter.1 hf).1
    have h6 := (h f hf').2
    have hs := hsmall f hf'
    rw [hfe] at h6 hs
    exact tabulateOne_few halopop finish lgt0 nh_min n_t x h6 hs
  rw [hall, hall]
  simp only [pure, Except.pure, Except.ok.injEq, Prod.mk.injEq]
  exact ⟨by simp, by simp⟩

/-- **C75** (negation, writing). Whatever the directory of samples and the disk contain, no target ever reaches the
disk: either an exception is raised and the disk is unchanged, or the two output files hold empty tables and the other
files are unchanged. -/
theorem C75_write_no_targets (files : List (Str × List XR)) (fc fs : Str) (disk : Str → Option (List (Target D))) :
    ((∃ e, (write_mean_variance_to_disk halopop finish lgt0 files fc fs disk).2 = .error e) ∧
      (write_mean_variance_to_disk halopop finish lgt0 files fc fs disk).1 = disk) ∨
    ((write_mean_variance_to_disk halopop finish lgt0 files fc fs disk).2 = .ok () ∧
      (write_mean_variance_to_disk halopop finish lgt0 files fc fs disk).1 fc = some [] ∧
      (write_mean_variance_to_disk halopop finish lgt0 files fc fs disk).1 fs = some [] ∧
      ∀ fn, fn ≠ fc → fn ≠ fs →
        (write_mean_variance_to_disk halopop finish lgt0 files fc fs disk).1 fn = disk fn) := by
  unfold write_mean_variance_to_disk
  cases h : tabulate_target_means_vars halopop finish lgt0 files with
  | error e => exact .inl ⟨⟨e, rfl⟩, rfl⟩
  | ok r =>
    obtain ⟨c, s⟩ := r
    obtain ⟨rfl, rfl⟩ := C75_tabulate_empty halopop finish lgt0 files _ _ c s h
    refine .inr ⟨rfl, ?_, ?_, ?_⟩
    · simp
    · simp
    · intro fn h1 h2; simp [h1, h2]

/-- **C75** (negation, writing). If some file of centrals or satellites has more than a hundred haloes, the call raises a
TypeError and nothing is written. -/
theorem C75_write_typeError (files : List (Str × List XR)) (h : SampleFiles files)
    (hbig : ∃ f ∈ files, ("cens.npy".toList <:+ f.1 ∨ "sats.npy".toList <:+ f.1) ∧ 100 < f.2.length / 6)
    (fc fs : Str) (disk : Str → Option (List (Target D))) :
    write_mean_variance_to_disk halopop finish lgt0 files fc fs disk = (disk, .error .typeError) := by
  unfold write_mean_variance_to_disk
  rw [C75_tabulate_typeError halopop finish lgt0 files _ _ h hbig]

/-- **C75** (writing, what remains). If no file has more than a hundred haloes, both output files are written, as empty
tables. Missing: the targets of files with more haloes, as the property asks; that is false
(`C75_write_typeError`). -/
theorem C75_write_partial (files : List (Str × List XR)) (h : SampleFiles files)
    (hsmall : ∀ f ∈ files, f.2.length / 6 ≤ 100) (fc fs : Str) (disk : Str → Option (List (Target D))) :
    (write_mean_variance_to_disk halopop finish lgt0 files fc fs disk).2 = .ok () ∧
    ∀ fn, (write_mean_variance_to_disk halopop finish lgt0 files fc fs disk).1 fn =
      if fn = fc ∨ fn = fs then some [] else disk fn := by
  unfold write_mean_variance_to_disk
  rw [C75_tabulate_partial halopop finish lgt0 files _ _ h hsmall]
  refine ⟨rfl, fun fn => ?_⟩
  by_cases h1 : fn = fs
  · simp [h1]
  · by_cases h2 : fn = fc <;> simp [h1, h2]

end

section

variable {R U Y : Type} (halopop : Arg → Arg → Arg → Except PyErr R)

/-- **C75** (negation, generating). The loop that should produce the samples of every bin produces
none, for any fits, any hosts and any times: with at least one time it fails. -/
theorem C75_generate_nothing (data : H5) (upid : List U) (hosts : List U → XR → Except PyErr (List U))
    (targets : R → XR → List U → List Y × Except PyErr Unit) (t_obs : List XR) (lgt0 : XR) :
    (generate_diffmahpop_targets_for_subvol halopop data upid hosts targets t_obs lgt0).1 = [] ∧
    (t_obs ≠ [] → ∃ e, (generate_diffmahpop_targets_for_subvol halopop data upid hosts targets t_obs
      lgt0).2 = .error e) := by
  unfold generate_diffmahpop_targets_for_subvol
  split
  · exact ⟨rfl, fun _ => ⟨_, rfl⟩⟩
  · cases t_obs with
    | nil => exact ⟨rfl, fun h => absurd rfl h⟩
    | cons t l =>
      unfold generateLoop
      split
      · exact ⟨rfl, fun _ => ⟨_, rfl⟩⟩
      · have : ∀ m tp, get_log_mah_tables_for_t_obs halopop m tp t lgt0 = .error .typeError := fun _ _ => rfl
        rw [this]
        exact ⟨rfl, fun _ => ⟨_, rfl⟩⟩

end

section

variable {R : Type} (halopop : Arg → Arg → Arg → Except PyErr R) (histories : R → List (List ℝ))
  (cenfile satfile : List MuVar) (npy : Str → Option (List (List ℝ))) (choice : ℕ → ℕ → List ℕ)
  (drn : Str) (cuts : Cuts)

theorem sampleHistories_fails (r : MuVar) (samples : List (List ℝ)) :
    sampleHistories halopop histories r samples = .error .typeError := by
  unfold sampleHistories NT.make
  rw [if_neg]
  · rfl
  · simp only [List.length_map, List.length_take, MAH_FIELDS, List.length_cons, List.length_nil]
    omega

/-- **C75** (negation, loading). Whatever the files contain, loading the targets never returns a
target: if it returns at all, both tables are empty. -/
theorem C75_load_empty (cen sat : List TargetRow)
    (h : load_diffmahpop_targets halopop histories cenfile satfile npy choice drn cuts = .ok (cen, sat)) :
    cen = [] ∧ sat = [] := by
  have hnil : ∀ (l : List (((MuVar × List ℝ) × ℕ) × List (List ℝ))) m,
      l.mapM (fun r => sampleHistories halopop histories r.1.1.1 r.2) = .ok m → l = [] := by
    intro l m h
    cases l with
    | nil => rfl
    | cons a l => rw [List.mapM_cons, sampleHistories_fails] at h; cases h
  unfold load_diffmahpop_targets at h
  simp only [bind, Except.bind] at h
  repeat' (split at h; · cases h)
  simp only [pure, Except.pure, Except.ok.injEq, Prod.mk.injEq] at h
  rename_i ch hch _ sh hsh
  rw [← h.1, ← h.2, hnil _ _ hch, hnil _ _ hsh]
  simp

theorem rescaledMeans_ok (rows : List MuVar) (h : ∀ r ∈ rows, r.mean_log_mah ≠ []) :
    ∃ out : List (List ℝ), rescaledMeans rows = .ok (rows.zip out) ∧ out.length = rows.length := by
  obtain ⟨out, ho, hl, -⟩ := C72_rescale (rows.map (·.mean_log_mah)) (rows.map (·.lgm_obs))
    (by simpa using h) (by simp)
  exact ⟨out, by unfold rescaledMeans; rw [ho]; rfl, by simpa using hl⟩

/-- The number of samples stored for a row in the fixed directory, 0 if there is no file -/
noncomputable def stored (censat : Str) (r : MuVar) : ℕ :=
  ((npy (pathJoin TASSO_DRN (sampleName r.lgm_obs r.t_obs censat))).getD []).length

theorem count_ok (censat : Str) (rows : List MuVar) (out : List (List ℝ)) (hl : out.length = rows.length)
    (h : ∀ r ∈ rows, npy (pathJoin TASSO_DRN (sampleName r.lgm_obs r.t_obs censat)) ≠ none) :
    (rows.zip out).mapM (fun r => countSamples npy censat r.1)
      = .ok (rows.map (stored npy censat)) := by
  rw [mapM_ok _ (fun r => stored npy censat r.1) _ ?_]
  · congr 1
    rw [show (fun r : MuVar × List ℝ => stored npy censat r.1) = stored npy censat ∘ Prod.fst from rfl,
      ← List.map_map, List.map_fst_zip (by omega)]
  · intro r hr
    have := h r.1 (List.of_mem_zip hr).1
    unfold countSamples stored
    cases hn : npy (pathJoin TASSO_DRN (sampleName r.1.lgm_obs r.1.t_obs censat)) with
    | none => exact absurd hn this
    | some all => rfl

theorem mem_zip_map {α β γ : Type} (f : α → γ) (rows : List α) (out : List β) (x : (α × β) × γ)
    (hx : x ∈ (rows.zip out).zip (rows.map f)) : x.1.1 ∈ rows ∧ x.2 = f x.1.1 := by
  obtain ⟨i, hi⟩ := List.mem_iff_getElem?.1 hx
  rw [List.getElem?_zip_eq_some, List.getElem?_zip_eq_some, List.getElem?_map] at hi
  obtain ⟨⟨h1, -⟩, h2⟩ := hi
  rw [h1] at h2
  exact ⟨List.mem_of_getElem? h1, by simpa using h2.symm⟩

theorem exists_zip_map {α β γ : Type} (f : α → γ) (rows : List α) (out : List β)
    (hl : out.length = rows.length) (a : α) (ha : a ∈ rows) :
    ∃ x ∈ (rows.zip out).zip (rows.map f), x.1.1 = a ∧ x.2 = f a := by
  obtain ⟨i, hi⟩ := List.mem_iff_getElem?.1 ha
  have hilt : i < rows.length := by
    by_contra hc; rw [List.getElem?_eq_none (by omega)] at hi; simp at hi
  refine ⟨((a, out[i]'(by omega)), f a), ?_, rfl, rfl⟩
  apply List.mem_of_getElem? (i := i)
  rw [List.getElem?_zip_eq_some, List.getElem?_zip_eq_some, List.getElem?_map, hi]
  exact ⟨⟨rfl, List.getElem?_eq_getElem _⟩, rfl⟩

/-- The row passes the cuts of the loader. -/
def Passes (t_min lgm_max : ℝ) (r : MuVar) : Prop := t_min < r.t_obs ∧ r.lgm_obs < lgm_max

/-- **C75** (negation, loading). Suppose the two tables are well formed and, both in the fixed
directory and in `drn`, there is a file with enough samples for every row. If any row passes the cuts,
loading fails with a TypeError. -/
theorem C75_load_typeError
    (hc : ∀ r ∈ cenfile, r.mean_log_mah ≠ []) (hs : ∀ r ∈ satfile, r.mean_log_mah ≠ [])
    (hcf : ∀ r ∈ cenfile, ∀ d ∈ [TASSO_DRN, drn], ∃ all : List (List ℝ),
      npy (pathJoin d (sampleName r.lgm_obs r.t_obs "cens".toList)) = some all ∧
      cuts.n_sample_min ≤ all.length)
    (hsf : ∀ r ∈ satfile, ∀ d ∈ [TASSO_DRN, drn], ∃ all : List (List ℝ),
      npy (pathJoin d (sampleName r.lgm_obs r.t_obs "sats".toList)) = some all ∧
      cuts.n_sample_min ≤ all.length)
    (hp : (∃ r ∈ cenfile, Passes cuts.t_obs_min_cen cuts.lgm_obs_max_cen r) ∨
      ∃ r ∈ satfile, Passes cuts.t_obs_min_sat cuts.lgm_obs_max_sat r) :
    load_diffmahpop_targets halopop histories cenfile satfile npy choice drn cuts = .error .typeError := by
  classical
  obtain ⟨co, hco, hcl⟩ := rescaledMeans_ok cenfile hc
  obtain ⟨so, hso, hsl⟩ := rescaledMeans_ok satfile hs
  have hst : ∀ (cs : Str) (r : MuVar), (∃ all : List (List ℝ),
      npy (pathJoin TASSO_DRN (sampleName r.lgm_obs r.t_obs cs)) = some all ∧
      cuts.n_sample_min ≤ all.length) → cuts.n_sample_min ≤ stored npy cs r := by
    rintro cs r ⟨all, h, h'⟩
    unfold stored; rw [h]; exact h'
  have hdraw : ∀ (cs : Str) (rows : List MuVar) (out : List (List ℝ)) (tm lm : ℝ),
      (∀ r ∈ rows, ∃ all : List (List ℝ), npy (pathJoin drn (sampleName r.lgm_obs r.t_obs cs)) = some all ∧
        cuts.n_sample_min ≤ all.length) →
      ∃ m, (cutRows tm lm cuts.n_sample_min ((rows.zip out).zip (rows.map (stored npy cs)))).mapM
        (fun r => drawSamples npy choice drn cs cuts.n_sample_min r.1.1) = .ok m ∧
        m.length = (cutRows tm lm cuts.n_sample_min ((rows.zip out).zip (rows.map (stored npy cs)))).length := by
    intro cs rows out tm lm h
    refine ⟨_, mapM_ok _ (fun r => (drawSamples npy choice drn cs cuts.n_sample_min r.1.1).toOption.getD []) _ ?_,
      by simp⟩
    intro x hx
    have hx' := (mem_zip_map _ _ _ _ (List.mem_filter.1 hx).1).1
    obtain ⟨all, ha, hn⟩ := h _ hx'
    unfold drawSamples
    rw [ha]
    simp only
    rw [if_neg (by omega)]
    rfl
  have hne : ∀ (cs : Str) (rows : List MuVar) (out : List (List ℝ)) (tm lm : ℝ),
      out.length = rows.length → (∀ r ∈ rows, cuts.n_sample_min ≤ stored npy cs r) →
      (∃ r ∈ rows, Passes tm lm r) →
      cutRows tm lm cuts.n_sample_min ((rows.zip out).zip (rows.map (stored npy cs))) ≠ [] := by
    rintro cs rows out tm lm hl hn ⟨r, hr, hpass⟩ he
    obtain ⟨x, hx, h1, h2⟩ := exists_zip_map (stored npy cs) rows out hl r hr
    have : x ∈ cutRows tm lm cuts.n_sample_min ((rows.zip out).zip (rows.map (stored npy cs))) := by
      unfold cutRows
      rw [List.mem_filter]
      refine ⟨hx, ?_⟩
      rw [decide_eq_true_eq, h1, h2]
      exact ⟨hpass.1, hpass.2, hn r hr⟩
    rw [he] at this; simp at this
  have hfail : ∀ (l : List ((MuVar × List ℝ) × ℕ)) (m : List (List (List ℝ))), m.length = l.length → l ≠ [] →
      (l.zip m).mapM (fun r => sampleHistories halopop histories r.1.1.1 r.2) = .error .typeError := by
    intro l m hl hne
    cases l with
    | nil => exact absurd rfl hne
    | cons a l => cases m with
      | nil => simp at hl
      | cons b m => rw [List.zip_cons_cons, List.mapM_cons, sampleHistories_fails]; rfl
  unfold load_diffmahpop_targets
  simp only [hco, hso, bind, Except.bind]
  rw [count_ok npy _ cenfile co hcl fun r hr => by
      obtain ⟨all, h, -⟩ := hcf r hr TASSO_DRN (by simp); rw [h]; simp]
  simp only
  rw [count_ok npy _ satfile so hsl fun r hr => by
      obtain ⟨all, h, -⟩ := hsf r hr TASSO_DRN (by simp); rw [h]; simp]
  simp only
  obtain ⟨m1, hm1, hl1⟩ := hdraw "cens".toList cenfile co cuts.t_obs_min_cen cuts.lgm_obs_max_cen
    fun r hr => hcf r hr drn (by simp)
  obtain ⟨m2, hm2, hl2⟩ := hdraw "sats".toList satfile so cuts.t_obs_min_sat cuts.lgm_obs_max_sat
    fun r hr => hsf r hr drn (by simp)
  rw [hm1, hm2]
  simp only
  by_cases hcn : cutRows cuts.t_obs_min_cen cuts.lgm_obs_max_cen cuts.n_sample_min
      ((cenfile.zip co).zip (cenfile.map (stored npy "cens".toList))) = []
  · have hsn := hne "sats".toList satfile so cuts.t_obs_min_sat cuts.lgm_obs_max_sat hsl
      (fun r hr => hst _ _ (hsf r hr TASSO_DRN (by simp))) (hp.resolve_left fun hp =>
        hne "cens".toList cenfile co cuts.t_obs_min_cen cuts.lgm_obs_max_cen hcl
          (fun r hr => hst _ _ (hcf r hr TASSO_DRN (by simp))) hp hcn)
    rw [hcn, hfail _ m2 hl2 hsn]
    rfl
  · rw [hfail _ m1 hl1 hcn]

/-- **C75** (loading, what remains). If the sample files exist in the fixed directory and no row passes
the cuts, two empty tables are returned. Missing: the rows that pass the cuts, with their samples, as
the property asks; that is false (`C75_load_typeError`). -/
theorem C75_load_partial
    (hc : ∀ r ∈ cenfile, r.mean_log_mah ≠ []) (hs : ∀ r ∈ satfile, r.mean_log_mah ≠ [])
    (hcf : ∀ r ∈ cenfile, npy (pathJoin TASSO_DRN (sampleName r.lgm_obs r.t_obs "cens".toList)) ≠ none)
    (hsf : ∀ r ∈ satfile, npy (pathJoin TASSO_DRN (sampleName r.lgm_obs r.t_obs "sats".toList)) ≠ none)
    (hcp : ∀ r ∈ cenfile, ¬Passes cuts.t_obs_min_cen cuts.lgm_obs_max_cen r ∨
      stored npy "cens".toList r < cuts.n_sample_min)
    (hsp : ∀ r ∈ satfile, ¬Passes cuts.t_obs_min_sat cuts.lgm_obs_max_sat r ∨
      stored npy "sats".toList r < cuts.n_sample_min) :
    load_diffmahpop_targets halopop histories cenfile satfile npy choice drn cuts = .ok ([], []) := by
  classical
  obtain ⟨co, hco, hcl⟩ := rescaledMeans_ok cenfile hc
  obtain ⟨so, hso, hsl⟩ := rescaledMeans_ok satfile hs
  have hnil : ∀ (cs : Str) (rows : List MuVar) (out : List (List ℝ)) (tm lm : ℝ),
      (∀ r ∈ rows, ¬Passes tm lm r ∨ stored npy cs r < cuts.n_sample_min) →
      cutRows tm lm cuts.n_sample_min ((rows.zip out).zip (rows.map (stored npy cs))) = [] := by
    intro cs rows out tm lm h
    unfold cutRows
    rw [List.filter_eq_nil_iff]
    intro x hx
    obtain ⟨h1, h2⟩ := mem_zip_map _ _ _ _ hx
    rw [decide_eq_true_eq, h2]
    rintro ⟨ha, hb, hn⟩
    rcases h _ h1 with h | h
    · exact h ⟨ha, hb⟩
    · omega
  unfold load_diffmahpop_targets
  simp only [hco, hso, bind, Except.bind]
  rw [count_ok npy _ cenfile co hcl hcf]
  simp only
  rw [count_ok npy _ satfile so hsl hsf]
  simp only
  rw [hnil _ _ _ _ _ hcp, hnil _ _ _ _ _ hsp]
  rfl

/-- **C75** (negation, loading). The sample files are always counted in one fixed directory: if one of
them is missing there, loading fails, whatever directory was asked for and whatever it contains. -/
theorem C75_load_fixed_directory
    (hc : ∀ r ∈ cenfile, r.mean_log_mah ≠ []) (hs : ∀ r ∈ satfile, r.mean_log_mah ≠ [])
    (h : (∃ r ∈ cenfile, npy (pathJoin TASSO_DRN (sampleName r.lgm_obs r.t_obs "cens".toList)) = none) ∨
      ∃ r ∈ satfile, npy (pathJoin TASSO_DRN (sampleName r.lgm_obs r.t_obs "sats".toList)) = none) :
    load_diffmahpop_targets halopop histories cenfile satfile npy choice drn cuts
      = .error .fileNotFound := by
  obtain ⟨co, hco, hcl⟩ := rescaledMeans_ok cenfile hc
  obtain ⟨so, hso, hsl⟩ := rescaledMeans_ok satfile hs
  have hall : ∀ (cs : Str) (l : List (MuVar × List ℝ)), ∀ x ∈ l,
      (∃ y, countSamples npy cs x.1 = .ok y) ∨ countSamples npy cs x.1 = .error .fileNotFound := by
    intro cs l x _
    unfold countSamples
    split
    · exact .inl ⟨_, rfl⟩
    · exact .inr rfl
  have hbad : ∀ (cs : Str) (rows : List MuVar) (out : List (List ℝ)), out.length = rows.length →
      (∃ r ∈ rows, npy (pathJoin TASSO_DRN (sampleName r.lgm_obs r.t_obs cs)) = none) →
      (rows.zip out).mapM (fun r => countSamples npy cs r.1) = .error .fileNotFound := by
    rintro cs rows out hl ⟨r, hr, hn⟩
    refine mapM_fails _ _ _ (hall cs _) ?_
    obtain ⟨x, hx, h1, -⟩ := exists_zip_map (fun _ => ()) rows out hl r hr
    refine ⟨x.1, (List.of_mem_zip hx).1, ?_⟩
    unfold countSamples; rw [h1, hn]
  unfold load_diffmahpop_targets
  simp only [hco, hso, bind, Except.bind]
  by_cases hcn : ∃ r ∈ cenfile, npy (pathJoin TASSO_DRN (sampleName r.lgm_obs r.t_obs "cens".toList)) = none
  · rw [hbad _ _ _ hcl hcn]
  · rw [count_ok npy _ cenfile co hcl fun r hr he => hcn ⟨r, hr, he⟩]
    simp only
    rw [hbad _ _ _ hsl (h.resolve_left hcn)]

end

/-- One row of targets for the examples -/
noncomputable def exampleRow : MuVar := ⟨12, 10, [10, 11, 12.1], [1, 5, 10]⟩

/-- Two hundred samples -/
noncomputable def exampleSamples : List (List ℝ) := List.replicate 200 [12, 0.3, 2, 1, 10, 10]

example (halopop : Arg → Arg → Arg → Except PyErr Unit) :
    load_diffmahpop_targets halopop (fun _ => []) [exampleRow] [exampleRow] (fun _ => some exampleSamples)
      (fun _ k => List.range k) = .error .typeError :=
  C75_load_typeError _ _ _ _ _ _ _ _ (by simp [exampleRow]) (by simp [exampleRow])
    (fun _ _ _ _ => ⟨_, rfl, (List.length_replicate).ge⟩) (fun _ _ _ _ => ⟨_, rfl, (List.length_replicate).ge⟩)
    (.inl ⟨exampleRow, by simp, by simp only [Passes, exampleRow]; norm_num⟩)

example (halopop : Arg → Arg → Arg → Except PyErr Unit) :
    load_diffmahpop_targets halopop (fun _ => []) [exampleRow] [exampleRow] (fun _ => some [])
      (fun _ k => List.range k) = .ok ([], []) :=
  C75_load_partial _ _ _ _ _ _ _ _ (by simp [exampleRow]) (by simp [exampleRow]) (by simp) (by simp)
    (fun _ _ => .inr (show 0 < 200 by norm_num)) (fun _ _ => .inr (show 0 < 200 by norm_num))

example (halopop : Arg → Arg → Arg → Except PyErr Unit) :
    load_diffmahpop_targets halopop (fun _ => []) [exampleRow] [] (fun _ => none)
      (fun _ k => List.range k) "/data".toList = .error .fileNotFound :=
  C75_load_fixed_directory _ _ _ _ _ _ _ _ (by simp [exampleRow]) (by simp) (.inl ⟨exampleRow, by simp, rfl⟩)

theorem example_bin : ∃ b, binOfName "lgm_11.00_t_2.00_mah_params.cens.npy".toList = .ok b := by
  have e : splitOn '_' "lgm_11.00_t_2.00_mah_params.cens.npy".toList
      = ["lgm".toList, "11.00".toList, "t".toList, "2.00".toList, "mah".toList, "params.cens.npy".toList] := by
    decide
  have h1 : ∃ x, pyFloat "11.00".toList = .ok x := ⟨_, rfl⟩
  have h2 : ∃ x, pyFloat "2.00".toList = .ok x := ⟨_, rfl⟩
  obtain ⟨x, hx⟩ := h1
  obtain ⟨y, hy⟩ := h2
  refine ⟨(x, y), ?_⟩
  unfold binOfName
  rw [e]
  simp only [List.getElem?_cons_succ, List.getElem?_cons_zero, hx, hy]
  rfl

example (halopop : Arg → Arg → Arg → Except PyErr Unit) (x : List XR) (hx : x.length = 606) :
    tabulate_target_means_vars halopop (fun _ _ _ _ => .ok ()) (XR.fin 1.14)
      [("lgm_11.00_t_2.00_mah_params.cens.npy".toList, x)] = .error .typeError :=
  C75_tabulate_typeError _ _ _ _ _ _ (fun f hf => by
      simp only [List.mem_singleton] at hf; subst hf; exact ⟨example_bin, by simp [hx]⟩)
    ⟨_, List.mem_singleton_self _,
      .inl (show "cens.npy".toList <:+ "lgm_11.00_t_2.00_mah_params.cens.npy".toList by decide), by simp [hx]⟩

example (halopop : Arg → Arg → Arg → Except PyErr Unit) (x : List XR) (hx : x.length = 600) :
    tabulate_target_means_vars halopop (fun _ _ _ _ => .ok ()) (XR.fin 1.14)
      [("lgm_11.00_t_2.00_mah_params.cens.npy".toList, x)] = .ok ([], []) :=
  C75_tabulate_partial _ _ _ _ _ _ (fun f hf => by
      simp only [List.mem_singleton] at hf; subst hf; exact ⟨example_bin, by simp [hx]⟩)
    (fun f hf => by simp only [List.mem_singleton] at hf; subst hf; simp [hx])

example (halopop : Arg → Arg → Arg → Except PyErr Unit) (x : List XR) (hx : x.length = 606) :
    write_mean_variance_to_disk halopop (fun _ _ _ _ => .ok ()) (XR.fin 1.14)
      [("lgm_11.00_t_2.00_mah_params.cens.npy".toList, x)] "c.h5".toList "s.h5".toList (fun _ => none) =
      (fun _ => none, .error .typeError) :=
  C75_write_typeError _ _ _ _ (fun f hf => by
      simp only [List.mem_singleton] at hf; subst hf; exact ⟨example_bin, by simp [hx]⟩)
    ⟨_, List.mem_singleton_self _,
      .inl (show "cens.npy".toList <:+ "lgm_11.00_t_2.00_mah_params.cens.npy".toList by decide), by simp [hx]⟩ _ _ _

example (halopop : Arg → Arg → Arg → Except PyErr Unit) (x : List XR) (hx : x.length = 600) :
    (write_mean_variance_to_disk halopop (fun _ _ _ _ => .ok ()) (XR.fin 1.14)
      [("lgm_11.00_t_2.00_mah_params.cens.npy".toList, x)] "c.h5".toList "s.h5".toList (fun _ => none)).1
        "c.h5".toList = some [] := by
  rw [(C75_write_partial _ _ _ _ (fun f hf => by
      simp only [List.mem_singleton] at hf; subst hf; exact ⟨example_bin, by simp [hx]⟩)
    (fun f hf => by simp only [List.mem_singleton] at hf; subst hf; simp [hx]) _ _ _).2]
  simp

end Diffmah.Targets

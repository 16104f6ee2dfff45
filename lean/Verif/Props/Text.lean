import Verif.Lemmas.Text
import Verif.Props.Fitter
import Verif.Props.FitterTarget

/-!
# Properties of the text output, the collated file and parallel fitting (C42-C44)
-/

namespace Diffmah.Text

open Diffmah.Utils Diffmah.Fit Spec

/-! ## Result lines -/

theorem readBack_close (x : XR) : CloseSix x (readBack x) := by
  cases x with
  | nan => trivial
  | pinf => trivial
  | ninf => trivial
  | fin x =>
    unfold readBack
    by_cases h0 : x = 0
    · simp [h0, CloseSix]
    · by_cases hx : x < 0
      · simp only [h0, if_false, hx, if_true, CloseSix]
        have := (sciParts_spec (x := -x) (by linarith)).2.2
        rw [abs_of_neg hx]
        refine le_trans (le_of_eq ?_) this
        rw [← abs_neg]; congr 1; ring
      · simp only [h0, if_false, hx, CloseSix]
        have hp : 0 < x := lt_of_le_of_ne (not_lt.1 hx) (Ne.symm h0)
        rw [abs_of_pos hp]
        exact (sciParts_spec hp).2.2

theorem outFields_word (r : FitResult) (h : Option ℤ) : ∀ w ∈ outFields r h, Word w := by
  have key : ∀ w ∈ outFields r none, Word w := by
    intro w hw
    simp only [outFields, List.map_cons, List.map_nil, List.cons_append, List.nil_append,
      List.mem_cons, List.not_mem_nil, or_false] at hw
    rcases hw with rfl | rfl | rfl | rfl | rfl | rfl | rfl | rfl
    · exact fmt5e_word _
    · exact fmt5e_word _
    · exact fmt5e_word _
    · exact fmt5e_word _
    · exact fmt5e_word _
    · exact fmt5e_word _
    · exact natStr_word _
    · exact intStr_word _
  cases h with
  | none => exact key
  | some h =>
    intro w hw
    have : outFields r (some h) = intStr h :: outFields r none := rfl
    rw [this, List.mem_cons] at hw
    rcases hw with rfl | hw
    · exact intStr_word _
    · exact key w hw

theorem split_outline (r : FitResult) (h : Option ℤ) :
    split (strip (get_outline r h)) = outFields r h := by
  rw [split_strip, get_outline, split_join_newline _ (outFields_word r h)]

/-- What reading a line without halo id gives. -/
noncomputable def readResult (r : FitResult) : FitData :=
  ⟨readBack r.p_best.logm0, readBack r.p_best.logtc, readBack r.p_best.early_index,
    readBack r.p_best.late_index, readBack r.p_best.t_peak, readBack r.loss_best,
    compute_non_trivial_npts r.loss_data.log_mah_target, r.code_used⟩

theorem parse_outline_ok (r : FitResult) :
    parse_outline (get_outline r) = .ok (readResult r) := by
  unfold parse_outline
  simp only [split_outline]
  simp [outFields, List.mapM_cons, pyFloat_fmt5e, pyInt_natStr, pyInt_intStr, bind, Except.bind,
    pure, Except.pure, readResult]

/-- **C42** (lines without halo id). Reading back a printed result gives the five parameters and the
loss up to six significant digits, the exact number of target points below the last one, and the
exact algorithm code. The property also asks for this on lines with a halo id; that part is false
(`C42_halo_id_unreadable`). -/
theorem C42_roundtrip_partial (r : FitResult) :
    ∃ d, parse_outline (get_outline r) = .ok d ∧
      CloseSix r.p_best.logm0 d.logm0 ∧ CloseSix r.p_best.logtc d.logtc ∧
      CloseSix r.p_best.early_index d.early_index ∧ CloseSix r.p_best.late_index d.late_index ∧
      CloseSix r.p_best.t_peak d.t_peak ∧ CloseSix r.loss_best d.loss ∧
      d.n_points_per_fit = countBelowLast r.loss_data.log_mah_target ∧
      d.fit_algo = r.code_used :=
  ⟨_, parse_outline_ok r, readBack_close _, readBack_close _, readBack_close _, readBack_close _,
    readBack_close _, readBack_close _, by rw [← npts_eq_countBelowLast]; rfl, rfl⟩

/-- **C42** (stability). Printing what was read gives the same line: a second round trip loses
nothing. -/
theorem C42_reprint (r r' : FitResult) (d : FitData) (hd : parse_outline (get_outline r) = .ok d)
    (hp : r'.p_best = ⟨d.logm0, d.logtc, d.early_index, d.late_index, d.t_peak⟩)
    (hl : r'.loss_best = d.loss) (hc : r'.code_used = d.fit_algo)
    (hn : (countBelowLast r'.loss_data.log_mah_target : ℤ) = d.n_points_per_fit) :
    get_outline r' = get_outline r := by
  rw [parse_outline_ok] at hd
  cases hd
  have hn' : compute_non_trivial_npts r'.loss_data.log_mah_target
      = compute_non_trivial_npts r.loss_data.log_mah_target := by
    rw [npts_eq_countBelowLast]
    exact Int.ofNat_inj.1 hn
  simp only [get_outline, outFields, hp, hl, hc, hn', readResult, List.map_cons, List.map_nil,
    fmt5e_readBack]

theorem readBack_fill : readBack (XR.fin (-99.0)) = XR.fin (-99.0) := by
  have e : (- (-99.0 : ℝ)) = ((990000 : ℕ) : ℝ) * (10 : ℝ) ^ ((1 : ℤ) - 5) := by
    norm_num [zpow_neg]
  unfold readBack
  simp only
  rw [if_neg (by norm_num), if_pos (by norm_num), e,
    sciParts_exact (n := 990000) (e := 1) (by norm_num) (by norm_num)]
  norm_num [zpow_neg]

/-- **C42** (skipped haloes). The fill value -99 written for skipped haloes is read back exactly. -/
theorem C42_fill_exact (r : FitResult)
    (hp : r.p_best = ⟨.fin (-99.0), .fin (-99.0), .fin (-99.0), .fin (-99.0), .fin (-99.0)⟩)
    (hl : r.loss_best = .fin (-99.0)) :
    ∃ n, parse_outline (get_outline r) = .ok ⟨.fin (-99.0), .fin (-99.0), .fin (-99.0),
      .fin (-99.0), .fin (-99.0), .fin (-99.0), n, r.code_used⟩ := by
  refine ⟨compute_non_trivial_npts r.loss_data.log_mah_target, ?_⟩
  rw [parse_outline_ok]
  simp only [readResult, hp, hl, readBack_fill]

/-- **C42** (negation of the halo-id part). A line written with a halo id is never read back: the
loss lands in an integer column and `_parse_outline` raises ValueError. -/
theorem C42_halo_id_unreadable (r : FitResult) (h : ℤ) :
    parse_outline (get_outline r (some h)) = .error .valueError := by
  unfold parse_outline
  simp only [split_outline]
  simp [outFields, List.mapM_cons, pyFloat_fmt5e, pyFloat_intStr, pyInt_fmt5e, bind, Except.bind,
    pure, Except.pure]

/-- The line itself is unambiguous: its first field is the halo id and the rest is the line
without it. -/
theorem C42_halo_id_first_field (r : FitResult) (h : ℤ) :
    ∃ w, pyInt w = .ok h ∧ get_outline r (some h) = w ++ ' ' :: get_outline r :=
  ⟨intStr h, pyInt_intStr h, by simp [get_outline, outFields, joinSpace]⟩

/-- A concrete result for the examples: a fitted halo with three target points. -/
noncomputable def exampleResult : FitResult :=
  ⟨⟨.fin 12.3456789, .fin 0.3, .fin 2.5, .fin 0.4, .fin 13.7⟩, .fin 0.00123456789, false, true, 0,
    ⟨[.fin 1, .fin 2, .fin 3], [.fin 11, .fin 12, .fin 12.3], .fin 0, .fin 1.14⟩⟩

example : ∃ d, parse_outline (get_outline exampleResult) = .ok d ∧ d.n_points_per_fit = 2 ∧
    CloseSix (.fin 12.3456789) d.logm0 := by
  obtain ⟨d, h, h1, -, -, -, -, -, h2, -⟩ := C42_roundtrip_partial exampleResult
  refine ⟨d, h, ?_, h1⟩
  rw [h2]
  simp [exampleResult, countBelowLast, XR.lt]
  norm_num

/-! ## The collated file -/

theorem mapM_ok {α β : Type} (f : α → Except PyErr β) (g : α → β) (l : List α)
    (h : ∀ x ∈ l, f x = .ok (g x)) : l.mapM f = .ok (l.map g) := by
  induction l with
  | nil => rfl
  | cons a l ih =>
    rw [List.mapM_cons, h a List.mem_cons_self, ih fun x hx => h x (List.mem_cons_of_mem _ hx)]
    rfl

theorem mapM_forall₂ {α β : Type} (f : α → Except PyErr β) (l : List α) (m : List β)
    (h : List.Forall₂ (fun x y => f x = .ok y) l m) : l.mapM f = .ok m := by
  induction h with
  | nil => rfl
  | cons h _ ih => rw [List.mapM_cons, h, ih]; rfl

theorem mapM_error {α β : Type} (f : α → Except PyErr β)
    (hf : ∀ x, (∃ y, f x = .ok y) ∨ f x = .error .valueError) (l : List α) :
    ((∃ m, l.mapM f = .ok m) ∧ ∀ x ∈ l, ∃ y, f x = .ok y) ∨ l.mapM f = .error .valueError := by
  induction l with
  | nil => exact .inl ⟨⟨[], rfl⟩, by simp⟩
  | cons a l ih =>
    rw [List.mapM_cons]
    rcases hf a with ⟨y, hy⟩ | hy
    · rcases ih with ⟨⟨m, hm⟩, h⟩ | h
      · left
        refine ⟨⟨y :: m, by rw [hy, hm]; rfl⟩, ?_⟩
        intro x hx
        rcases List.mem_cons.1 hx with rfl | hx
        · exact ⟨y, hy⟩
        · exact h x hx
      · right; rw [hy, h]; rfl
    · right; rw [hy]; rfl

/-- The eight fields of `row` read as the entries of `d`. -/
def RowIs (row : List Str) (d : FitData) : Prop :=
  ∃ w0 w1 w2 w3 w4 w5 w6 w7, row = [w0, w1, w2, w3, w4, w5, w6, w7] ∧
    pyFloat w0 = .ok d.logm0 ∧ pyFloat w1 = .ok d.logtc ∧ pyFloat w2 = .ok d.early_index ∧
    pyFloat w3 = .ok d.late_index ∧ pyFloat w4 = .ok d.t_peak ∧ pyFloat w5 = .ok d.loss ∧
    pyInt w6 = .ok d.n_points_per_fit ∧ pyInt w7 = .ok d.fit_algo

/-- The columns of a table of results, each under its own name, one entry per result. -/
def resultColumns (ds : List FitData) : H5 :=
  [("logm0".toList, .floats (ds.map (·.logm0))), ("logtc".toList, .floats (ds.map (·.logtc))),
    ("early_index".toList, .floats (ds.map (·.early_index))),
    ("late_index".toList, .floats (ds.map (·.late_index))),
    ("t_peak".toList, .floats (ds.map (·.t_peak))), ("loss".toList, .floats (ds.map (·.loss))),
    ("n_points_per_fit".toList, .ints (ds.map (·.n_points_per_fit))),
    ("fit_algo".toList, .ints (ds.map (·.fit_algo)))]

theorem floatCol_ok (rows : List (List Str)) (ds : List FitData) (j : ℕ) (g : FitData → XR)
    {R : List Str → FitData → Prop} (h : List.Forall₂ R rows ds)
    (hR : ∀ row d, R row d → pyFloat (row.getD j []) = .ok (g d)) :
    floatCol rows j = .ok (ds.map g) := by
  unfold floatCol strCol
  apply mapM_forall₂
  rw [List.forall₂_map_left_iff, List.forall₂_map_right_iff]
  exact h.imp fun row d hr => hR row d hr

theorem intCol_ok {D : Type} (rows : List (List Str)) (ds : List D) (j : ℕ) (g : D → ℤ)
    {R : List Str → D → Prop} (h : List.Forall₂ R rows ds)
    (hR : ∀ row d, R row d → pyInt (row.getD j []) = .ok (g d)) :
    intCol rows j = .ok (ds.map g) := by
  unfold intCol strCol
  apply mapM_forall₂
  rw [List.forall₂_map_left_iff, List.forall₂_map_right_iff]
  exact h.imp fun row d hr => hR row d hr

/-- **C43** (eight columns). A table whose rows read as the results `ds` is stored with every column
under its own name, in row order. -/
theorem C43_eight_columns_partial (rows : List (List Str)) (ds : List FitData)
    (h : List.Forall₂ RowIs rows ds) :
    write_collated_data (.d2 8 rows) = .ok (some (resultColumns ds)) := by
  have f0 := floatCol_ok rows ds 0 (·.logm0) h (by
    rintro _ d ⟨_, _, _, _, _, _, _, _, rfl, h, -⟩; exact h)
  have f1 := floatCol_ok rows ds 1 (·.logtc) h (by
    rintro _ d ⟨_, _, _, _, _, _, _, _, rfl, -, h, -⟩; exact h)
  have f2 := floatCol_ok rows ds 2 (·.early_index) h (by
    rintro _ d ⟨_, _, _, _, _, _, _, _, rfl, -, -, h, -⟩; exact h)
  have f3 := floatCol_ok rows ds 3 (·.late_index) h (by
    rintro _ d ⟨_, _, _, _, _, _, _, _, rfl, -, -, -, h, -⟩; exact h)
  have f4 := floatCol_ok rows ds 4 (·.t_peak) h (by
    rintro _ d ⟨_, _, _, _, _, _, _, _, rfl, -, -, -, -, h, -⟩; exact h)
  have f5 := floatCol_ok rows ds 5 (·.loss) h (by
    rintro _ d ⟨_, _, _, _, _, _, _, _, rfl, -, -, -, -, -, h, -⟩; exact h)
  have f6 := intCol_ok rows ds 6 (·.n_points_per_fit) h (by
    rintro _ d ⟨_, _, _, _, _, _, _, _, rfl, -, -, -, -, -, -, h, -⟩; exact h)
  have f7 := intCol_ok rows ds 7 (·.fit_algo) h (by
    rintro _ d ⟨_, _, _, _, _, _, _, _, rfl, -, -, -, -, -, -, -, h⟩; exact h)
  unfold write_collated_data
  simp only [if_true, f0, f1, f2, f3, f4, f5, f6, f7, bind, Except.bind, pure, Except.pure]
  rfl

/-- The nine fields of `row` read as a halo id and a result. -/
def RowIsId (row : List Str) (x : ℤ × FitData) : Prop :=
  ∃ w row', row = w :: row' ∧ pyInt w = .ok x.1 ∧ RowIs row' x.2

/-- **C43** (nine columns). As `C43_eight_columns_partial`, with the halo ids stored first. -/
theorem C43_nine_columns_partial (rows : List (List Str)) (xs : List (ℤ × FitData))
    (h : List.Forall₂ RowIsId rows xs) :
    write_collated_data (.d2 9 rows)
      = .ok (some (("halo_id".toList, .ints (xs.map (·.1))) :: resultColumns (xs.map (·.2)))) := by
  have fc : ∀ (j : ℕ) (g : FitData → XR),
      (∀ row d, RowIs row d → pyFloat (row.getD j []) = .ok (g d)) →
      floatCol rows (j + 1) = .ok ((xs.map (·.2)).map g) := by
    intro j g hg
    unfold floatCol strCol
    apply mapM_forall₂
    rw [List.map_map, List.forall₂_map_left_iff, List.forall₂_map_right_iff]
    refine h.imp ?_
    rintro _ x ⟨w, row', rfl, -, hr⟩
    exact hg row' x.2 hr
  have ic : ∀ (j : ℕ) (g : FitData → ℤ),
      (∀ row d, RowIs row d → pyInt (row.getD j []) = .ok (g d)) →
      intCol rows (j + 1) = .ok ((xs.map (·.2)).map g) := by
    intro j g hg
    unfold intCol strCol
    apply mapM_forall₂
    rw [List.map_map, List.forall₂_map_left_iff, List.forall₂_map_right_iff]
    refine h.imp ?_
    rintro _ x ⟨w, row', rfl, -, hr⟩
    exact hg row' x.2 hr
  have fid := intCol_ok rows xs 0 (·.1) h (by rintro _ x ⟨w, row', rfl, h, -⟩; exact h)
  have f0 := fc 0 (·.logm0) (by
    rintro _ d ⟨_, _, _, _, _, _, _, _, rfl, h, -⟩; exact h)
  have f1 := fc 1 (·.logtc) (by
    rintro _ d ⟨_, _, _, _, _, _, _, _, rfl, -, h, -⟩; exact h)
  have f2 := fc 2 (·.early_index) (by
    rintro _ d ⟨_, _, _, _, _, _, _, _, rfl, -, -, h, -⟩; exact h)
  have f3 := fc 3 (·.late_index) (by
    rintro _ d ⟨_, _, _, _, _, _, _, _, rfl, -, -, -, h, -⟩; exact h)
  have f4 := fc 4 (·.t_peak) (by
    rintro _ d ⟨_, _, _, _, _, _, _, _, rfl, -, -, -, -, h, -⟩; exact h)
  have f5 := fc 5 (·.loss) (by
    rintro _ d ⟨_, _, _, _, _, _, _, _, rfl, -, -, -, -, -, h, -⟩; exact h)
  have f6 := ic 6 (·.n_points_per_fit) (by
    rintro _ d ⟨_, _, _, _, _, _, _, _, rfl, -, -, -, -, -, -, h, -⟩; exact h)
  have f7 := ic 7 (·.fit_algo) (by
    rintro _ d ⟨_, _, _, _, _, _, _, _, rfl, -, -, -, -, -, -, -, h⟩; exact h)
  unfold write_collated_data
  simp only [show (9 : ℕ) ≠ 8 by decide, if_false, if_true, fid, f0, f1, f2, f3, f4, f5, f6, f7,
    bind, Except.bind, pure, Except.pure]
  rfl

set_option maxRecDepth 10000 in
/-- **C43** (names). The stored names are the words of the printed headers, in the same order. -/
theorem C43_names (ds : List FitData) (ids : List ℤ) :
    (resultColumns ds).map (·.1) = split (strip (HEADER.drop 1)) ∧
    (("halo_id".toList, Col.ints ids) :: resultColumns ds).map (·.1)
      = split (strip (HEADER_HALO_ID.drop 1)) := by
  have h1 : split (strip (HEADER.drop 1)) = ["logm0".toList, "logtc".toList, "early_index".toList,
    "late_index".toList, "t_peak".toList, "loss".toList, "n_points_per_fit".toList,
    "fit_algo".toList] := by decide
  have h2 : split (strip (HEADER_HALO_ID.drop 1)) = ["halo_id".toList, "logm0".toList,
    "logtc".toList, "early_index".toList, "late_index".toList, "t_peak".toList, "loss".toList,
    "n_points_per_fit".toList, "fit_algo".toList] := by decide
  rw [h1, h2]
  exact ⟨rfl, rfl⟩

theorem pyNat_cases (s : Str) : (∃ y, pyNat s = .ok y) ∨ pyNat s = .error .valueError := by
  unfold pyNat; split
  · exact .inl ⟨_, rfl⟩
  · exact .inr rfl

theorem pyInt_cases (s : Str) : (∃ y, pyInt s = .ok y) ∨ pyInt s = .error .valueError := by
  have key : ∀ (t : Str) (g : ℕ → ℤ), (∃ y, (pyNat t).map g = .ok y) ∨
      (pyNat t).map g = .error .valueError := by
    intro t g
    rcases pyNat_cases t with ⟨y, hy⟩ | hy <;> rw [hy]
    · exact .inl ⟨_, rfl⟩
    · exact .inr rfl
  unfold pyInt
  split <;> exact key _ _

theorem pyExp_cases (s : Str) : (∃ y, pyExp s = .ok y) ∨ pyExp s = .error .valueError := by
  unfold pyExp
  split
  · exact .inl ⟨_, rfl⟩
  · split
    · exact pyInt_cases _
    · exact .inr rfl

theorem pyUFloat_cases (s : Str) : (∃ y, pyUFloat s = .ok y) ∨ pyUFloat s = .error .valueError := by
  unfold pyUFloat
  split
  · exact .inl ⟨_, rfl⟩
  split
  · exact .inl ⟨_, rfl⟩
  have key : ∀ (ip fp ep : Str), (∃ y, (if ip ++ fp = [] then .error .valueError
      else (pyExp ep).map fun e =>
        XR.fin ((digitsVal (ip ++ fp) : ℝ) * (10 : ℝ) ^ (e - (fp.length : ℤ)))) = Except.ok y) ∨
      (if ip ++ fp = [] then .error .valueError
      else (pyExp ep).map fun e =>
        XR.fin ((digitsVal (ip ++ fp) : ℝ) * (10 : ℝ) ^ (e - (fp.length : ℤ))))
        = .error PyErr.valueError := by
    intro ip fp ep
    split
    · exact .inr rfl
    · rcases pyExp_cases ep with ⟨y, hy⟩ | hy <;> rw [hy]
      · exact .inl ⟨_, rfl⟩
      · exact .inr rfl
  exact key _ _ _

theorem pyFloat_cases (s : Str) : (∃ y, pyFloat s = .ok y) ∨ pyFloat s = .error .valueError := by
  unfold pyFloat
  split
  · rename_i s'
    rcases pyUFloat_cases s' with ⟨y, hy⟩ | hy <;> rw [hy]
    · exact .inl ⟨_, rfl⟩
    · exact .inr rfl
  · exact pyUFloat_cases _
  · exact pyUFloat_cases _

/-- **C43** (bad cells). If some cell of a numeric column does not read as a number, ValueError is
raised and nothing is written. -/
theorem C43_bad_cell (rows : List (List Str)) (row : List Str) (hrow : row ∈ rows) (j : ℕ)
    (hbad : (j < 6 ∧ ∀ x, pyFloat (row.getD j []) ≠ .ok x) ∨
      ((j = 6 ∨ j = 7) ∧ ∀ n, pyInt (row.getD j []) ≠ .ok n)) :
    write_collated_data (.d2 8 rows) = .error .valueError := by
  have fc : ∀ k, ((∃ m, floatCol rows k = .ok m) ∧ ∃ y, pyFloat (row.getD k []) = .ok y) ∨
      floatCol rows k = .error .valueError := by
    intro k
    rcases mapM_error pyFloat pyFloat_cases (strCol rows k) with ⟨h1, h2⟩ | h
    · exact .inl ⟨h1, h2 _ (List.mem_map_of_mem hrow)⟩
    · exact .inr h
  have ic : ∀ k, ((∃ m, intCol rows k = .ok m) ∧ ∃ y, pyInt (row.getD k []) = .ok y) ∨
      intCol rows k = .error .valueError := by
    intro k
    rcases mapM_error pyInt pyInt_cases (strCol rows k) with ⟨h1, h2⟩ | h
    · exact .inl ⟨h1, h2 _ (List.mem_map_of_mem hrow)⟩
    · exact .inr h
  unfold write_collated_data
  simp only [if_true, bind, Except.bind]
  rcases fc 0 with ⟨⟨m0, e0⟩, y0, h0⟩ | e0 <;> simp only [e0]
  rcases fc 1 with ⟨⟨m1, e1⟩, y1, h1⟩ | e1 <;> simp only [e1]
  rcases fc 2 with ⟨⟨m2, e2⟩, y2, h2⟩ | e2 <;> simp only [e2]
  rcases fc 3 with ⟨⟨m3, e3⟩, y3, h3⟩ | e3 <;> simp only [e3]
  rcases fc 4 with ⟨⟨m4, e4⟩, y4, h4⟩ | e4 <;> simp only [e4]
  rcases fc 5 with ⟨⟨m5, e5⟩, y5, h5⟩ | e5 <;> simp only [e5]
  rcases ic 6 with ⟨⟨m6, e6⟩, y6, h6⟩ | e6 <;> simp only [e6]
  rcases ic 7 with ⟨⟨m7, e7⟩, y7, h7⟩ | e7 <;> simp only [e7]
  exfalso
  rcases hbad with ⟨hj, hb⟩ | ⟨rfl | rfl, hb⟩
  · interval_cases j
    · exact hb _ h0
    · exact hb _ h1
    · exact hb _ h2
    · exact hb _ h3
    · exact hb _ h4
    · exact hb _ h5
  · exact hb _ h6
  · exact hb _ h7

/-- **C43** (negation for other widths). A table with neither eight nor nine columns is dropped: no
file is written and no error is raised. -/
theorem C43_other_widths_dropped (ncol : ℕ) (rows : List (List Str)) (h8 : ncol ≠ 8) (h9 : ncol ≠ 9) :
    write_collated_data (.d2 ncol rows) = .ok none := by
  unfold write_collated_data
  simp only [h8, h9, if_false]
  rfl

/-- **C43** (one-dimensional). A one-dimensional table (a file with a single result) raises
IndexError. -/
theorem C43_one_dimensional (l : List Str) :
    write_collated_data (.d1 l) = .error .indexError := rfl

theorem rowIs_outline (r : FitResult) : RowIs (outFields r none) (readResult r) :=
  ⟨_, _, _, _, _, _, _, _, rfl, pyFloat_fmt5e _, pyFloat_fmt5e _, pyFloat_fmt5e _, pyFloat_fmt5e _,
    pyFloat_fmt5e _, pyFloat_fmt5e _, pyInt_natStr _, pyInt_intStr _⟩

/-- A two-row table of printed results meets the hypothesis of `C43_eight_columns_partial`, and with halo
ids that of `C43_nine_columns_partial`. -/
example : List.Forall₂ RowIs [outFields exampleResult none, outFields exampleResult none]
      [readResult exampleResult, readResult exampleResult] ∧
    List.Forall₂ RowIsId [outFields exampleResult (some 7), outFields exampleResult (some (-1))]
      [(7, readResult exampleResult), (-1, readResult exampleResult)] :=
  ⟨.cons (rowIs_outline _) (.cons (rowIs_outline _) .nil),
    .cons ⟨_, _, rfl, pyInt_intStr 7, rowIs_outline _⟩
      (.cons ⟨_, _, rfl, pyInt_intStr (-1), rowIs_outline _⟩ .nil)⟩

/-- A cell that does not read as a number. -/
example : ∀ n, pyInt ("1.5".toList) ≠ .ok n := by
  intro n h
  have : pyInt "1.5".toList = .error .valueError := by decide
  rw [this] at h; cases h

/-! ## Parallel fitting -/

theorem linesFrom_line (l s cur : Str) (h : ∀ c ∈ l, c ≠ '\n') :
    linesFrom cur (l ++ '\n' :: s) = (cur ++ l) :: linesFrom [] s := by
  induction l generalizing cur with
  | nil => simp [linesFrom]
  | cons c l ih =>
    rw [List.cons_append, linesFrom, if_neg (h c List.mem_cons_self),
      ih _ fun c hc => h c (List.mem_cons_of_mem _ hc)]
    simp

theorem lines_outlines (fits : List FitResult) :
    linesFrom [] ((fits.map fun r => get_outline r).flatten)
      = fits.map fun r => joinSpace (outFields r none) := by
  induction fits with
  | nil => rfl
  | cons r fits ih =>
    rw [List.map_cons, List.flatten_cons, get_outline, List.append_assoc, List.singleton_append,
      linesFrom_line _ _ _ fun c hc => (joinSpace_clean _ (outFields_word r none) c hc).2, ih]
    rfl

def headerLine : Str := "# logm0 logtc early_index late_index t_peak loss n_points_per_fit fit_algo".toList

set_option maxRecDepth 10000 in
theorem HEADER_eq : HEADER = headerLine ++ ['\n'] := by decide

set_option maxRecDepth 10000 in
theorem headerLine_clean : ∀ c ∈ headerLine, c ≠ '\n' := by decide

theorem textRows_rankFile (fits : List FitResult) :
    textRows (rankFile fits) = fits.map fun r => outFields r none := by
  unfold textRows lines rankFile
  rw [HEADER_eq, List.append_assoc, List.singleton_append, linesFrom_line _ _ _ headerLine_clean,
    lines_outlines, List.map_cons, List.filter_cons]
  have h0 : split (List.takeWhile (fun c => decide (c ≠ '#')) ([] ++ headerLine)) = [] := rfl
  rw [h0]
  simp only [ne_eq, not_true_eq_false, decide_false, Bool.false_eq_true, if_false, List.map_map]
  rw [List.filter_eq_self.2]
  · refine List.map_congr_left fun r _ => ?_
    simp only [Function.comp]
    rw [(takeWhile_all _ _ fun c hc => by
      simpa using (joinSpace_clean _ (outFields_word r none) c hc).1).1,
      split_join _ (outFields_word r none)]
  · intro a ha
    obtain ⟨r, -, hr⟩ := List.mem_map.1 ha
    simp only [Function.comp] at hr
    rw [(takeWhile_all _ _ fun c hc => by
      simpa using (joinSpace_clean _ (outFields_word r none) c hc).1).1,
      split_join _ (outFields_word r none)] at hr
    rw [← hr]
    simp [outFields]

theorem genfromtxt_many (fits : List FitResult) (h : 2 ≤ fits.length) :
    genfromtxt (rankFile fits) = .ok (.d2 8 (fits.map fun r => outFields r none)) := by
  unfold genfromtxt
  rw [textRows_rankFile]
  cases fits with
  | nil => simp at h
  | cons r fits =>
    cases fits with
    | nil => simp at h
    | cons r' fits =>
      simp only [List.map_cons]
      have h8 : ∀ r, (outFields r none).length = 8 := fun _ => rfl
      rw [if_pos]
      · rw [h8]
      · simp [h8]

theorem genfromtxt_few (fits : List FitResult) (h : fits.length ≤ 1) :
    genfromtxt (rankFile fits) = .ok (.d1 (fits.map fun r => outFields r none).flatten) := by
  unfold genfromtxt
  rw [textRows_rankFile]
  cases fits with
  | nil => rfl
  | cons r fits =>
    cases fits with
    | nil => simp only [List.map_cons, List.map_nil, List.flatten_cons, List.flatten_nil,
        List.append_nil]
    | cons r' fits => simp at h

theorem sectionSizes_sum (n k : ℕ) (hk : 0 < k) : (sectionSizes n k).sum = n := by
  have h := Nat.mod_lt n hk
  unfold sectionSizes
  rw [List.sum_append, List.sum_replicate, List.sum_replicate, smul_eq_mul, smul_eq_mul]
  have e : n % k * (n / k + 1) + (k - n % k) * (n / k) = n % k + k * (n / k) := by
    have : (k - n % k) * (n / k) + n % k * (n / k) = k * (n / k) := by
      rw [← Nat.add_mul]; congr 1; omega
    rw [Nat.mul_add, Nat.mul_one]; omega
  rw [e, Nat.mod_add_div]

theorem cut_flatten {α : Type} (ns : List ℕ) (l : List α) (h : ns.sum = l.length) :
    (cut ns l).flatten = l ∧ (cut ns l).map List.length = ns := by
  induction ns generalizing l with
  | nil =>
    simp only [List.sum_nil] at h
    have : l = [] := List.length_eq_zero_iff.1 h.symm
    subst this; exact ⟨rfl, rfl⟩
  | cons n ns ih =>
    rw [List.sum_cons] at h
    have := ih (l.drop n) (by rw [List.length_drop]; omega)
    refine ⟨?_, ?_⟩
    · simp [cut, this.1]
    · simp only [cut, List.map_cons, this.2, List.length_take, List.cons.injEq, and_true]
      omega

theorem concat_d2 (a : List (List Str)) (l : List (List (List Str))) :
    (l.map (StrArr.d2 8)).foldlM concat2 (.d2 8 a) = .ok (.d2 8 (a ++ l.flatten)) := by
  induction l generalizing a with
  | nil => simp; rfl
  | cons b l ih =>
    rw [List.map_cons, List.foldlM_cons]
    have : concat2 (.d2 8 a) (.d2 8 b) = .ok (.d2 8 (a ++ b)) := rfl
    rw [this]
    change (l.map (StrArr.d2 8)).foldlM concat2 (.d2 8 (a ++ b)) = _
    rw [ih]; simp

theorem concat_d1 (a : List Str) (l : List (List Str)) :
    (l.map StrArr.d1).foldlM concat2 (.d1 a) = .ok (.d1 (a ++ l.flatten)) := by
  induction l generalizing a with
  | nil => simp; rfl
  | cons b l ih =>
    rw [List.map_cons, List.foldlM_cons]
    have : concat2 (.d1 a) (.d1 b) = .ok (.d1 (a ++ b)) := rfl
    rw [this]
    change (l.map StrArr.d1).foldlM concat2 (.d1 (a ++ b)) = _
    rw [ih]; simp

/-- Mixing one- and two-dimensional arrays fails, wherever they are. -/
theorem concat_mixed (l : List StrArr) (a : StrArr)
    (ha : ∃ n x, a = .d2 n x) (h : ∃ x, StrArr.d1 x ∈ l) :
    l.foldlM concat2 a = .error .valueError := by
  induction l generalizing a with
  | nil => obtain ⟨x, hx⟩ := h; cases hx
  | cons b l ih =>
    obtain ⟨n, x, rfl⟩ := ha
    rw [List.foldlM_cons]
    cases b with
    | d1 y => rfl
    | d2 m y =>
      obtain ⟨z, hz⟩ := h
      have hz' : StrArr.d1 z ∈ l := by
        rcases List.mem_cons.1 hz with h | h
        · cases h
        · exact h
      unfold concat2
      by_cases hnm : n = m
      · simp only [hnm, if_true]
        exact ih _ ⟨_, _, rfl⟩ ⟨z, hz'⟩
      · simp only [hnm, if_false]; rfl

variable {H : Type} (fit : H → FitResult)

theorem shares_spec (haloes : List H) (k : ℕ) (hk : 0 < k) :
    ∃ shares, array_split haloes k = .ok shares ∧ shares.flatten = haloes ∧
      shares.map List.length = sectionSizes haloes.length k := by
  refine ⟨_, by rw [array_split, if_neg (by omega)], ?_⟩
  exact cut_flatten _ _ (sectionSizes_sum _ _ hk)

theorem mem_sectionSizes {n k m : ℕ} (h : m ∈ sectionSizes n k) : m = n / k ∨ m = n / k + 1 := by
  unfold sectionSizes at h
  rcases List.mem_append.1 h with h | h
  · exact .inr (List.eq_of_mem_replicate h)
  · exact .inl (List.eq_of_mem_replicate h)

/-- **C44** (every rank has at least two haloes). The collated file of a parallel run is, for every
number of ranks, the table of the results of all haloes in the order of the catalogue. When some
rank has fewer than two haloes the run fails instead (`C44_too_few_haloes`). -/
theorem C44_parallel_is_serial_partial (haloes : List H) (nranks : ℕ) (hk : 0 < nranks)
    (hn : 2 * nranks ≤ haloes.length) :
    ∃ ds, List.Forall₂ (fun h d => parse_outline (get_outline (fit h)) = .ok d) haloes ds ∧
      parallel_fit fit haloes nranks = .ok (some (resultColumns ds)) := by
  obtain ⟨shares, hs, hfl, hlen⟩ := shares_spec haloes nranks hk
  refine ⟨haloes.map fun h => readResult (fit h), ?_, ?_⟩
  · rw [List.forall₂_map_right_iff]
    exact List.forall₂_same.2 fun h _ => parse_outline_ok (fit h)
  have h2 : 2 ≤ haloes.length / nranks := (Nat.le_div_iff_mul_le hk).2 hn
  have hshare : ∀ s ∈ shares, 2 ≤ s.length := by
    intro s hs
    have : s.length ∈ sectionSizes haloes.length nranks := hlen ▸ List.mem_map_of_mem hs
    rcases mem_sectionSizes this with h | h <;> omega
  have hm : (shares.map fun hs => rankFile (hs.map fit)).mapM genfromtxt
      = .ok ((shares.map fun hs => (hs.map fit).map fun r => outFields r none).map (StrArr.d2 8)) := by
    rw [List.mapM_map, List.map_map]
    exact mapM_ok _ _ _ fun s hs => genfromtxt_many _ (by simpa using hshare s hs)
  have hne : shares ≠ [] := by
    rintro rfl
    have := congrArg List.sum hlen
    simp only [List.map_nil, List.sum_nil, sectionSizes_sum _ _ hk] at this
    omega
  obtain ⟨s, ss, rfl⟩ := List.exists_cons_of_ne_nil hne
  have hc : concatenate (((s :: ss).map fun hs => (hs.map fit).map fun r => outFields r none).map
      (StrArr.d2 8)) = .ok (.d2 8 (haloes.map fun h => outFields (fit h) none)) := by
    rw [List.map_cons, List.map_cons, concatenate, concat_d2, ← hfl]
    simp [List.map_flatten, Function.comp_def]
  unfold parallel_fit collate
  rw [hs]
  simp only [bind, Except.bind, hm, hc]
  apply C43_eight_columns_partial
  rw [List.forall₂_map_left_iff, List.forall₂_map_right_iff]
  exact List.forall₂_same.2 fun h _ => rowIs_outline (fit h)

/-- **C44** (the number of ranks does not matter). -/
theorem C44_rank_independent_partial (haloes : List H) (k : ℕ) (hk : 0 < k)
    (hn : 2 * k ≤ haloes.length) :
    parallel_fit fit haloes k = parallel_fit fit haloes 1 := by
  obtain ⟨ds, h, e⟩ := C44_parallel_is_serial_partial fit haloes k hk hn
  obtain ⟨ds', h', e'⟩ := C44_parallel_is_serial_partial fit haloes 1 (by norm_num) (by omega)
  rw [e, e']
  have : ds = ds' := by
    have key : ∀ (l : List H) (a b : List FitData),
        List.Forall₂ (fun h d => parse_outline (get_outline (fit h)) = .ok d) l a →
        List.Forall₂ (fun h d => parse_outline (get_outline (fit h)) = .ok d) l b → a = b := by
      intro l a b ha hb
      induction ha generalizing b with
      | nil => cases hb; rfl
      | cons h1 _ ih =>
        cases hb with
        | cons h2 h3 =>
          rw [h1] at h2
          rw [Except.ok.inj h2, ih _ h3]
    exact key haloes ds ds' h h'
  rw [this]

/-- **C44** (negation for small catalogues). When there are fewer than two haloes per rank the run
fails instead of producing the table: with IndexError if no rank has two haloes, with ValueError if
some have one and some have two. -/
theorem C44_too_few_haloes (haloes : List H) (nranks : ℕ) (hk : 0 < nranks)
    (hn : haloes.length < 2 * nranks) :
    parallel_fit fit haloes nranks
      = .error (if haloes.length ≤ nranks then .indexError else .valueError) := by
  obtain ⟨shares, hs, hfl, hlen⟩ := shares_spec haloes nranks hk
  unfold parallel_fit collate
  rw [hs]
  simp only [bind, Except.bind]
  by_cases hle : haloes.length ≤ nranks
  · rw [if_pos hle]
    have hshare : ∀ s ∈ shares, s.length ≤ 1 := by
      intro s hs
      have : s.length ∈ sectionSizes haloes.length nranks := hlen ▸ List.mem_map_of_mem hs
      rcases hle.lt_or_eq with h | h
      · rcases mem_sectionSizes this with h' | h' <;> rw [Nat.div_eq_of_lt h] at h' <;> omega
      · rw [h] at this
        unfold sectionSizes at this
        rw [Nat.mod_self, Nat.div_self hk] at this
        simp at this; omega
    have hm : (shares.map fun hs => rankFile (hs.map fit)).mapM genfromtxt
        = .ok ((shares.map fun hs => ((hs.map fit).map fun r => outFields r none).flatten).map
          StrArr.d1) := by
      rw [List.mapM_map, List.map_map]
      exact mapM_ok _ _ _ fun s hs => genfromtxt_few _ (by simpa using hshare s hs)
    have hne : shares ≠ [] := by
      rintro rfl
      have := congrArg List.length hlen
      simp [sectionSizes] at this
      have := Nat.mod_lt haloes.length hk
      omega
    obtain ⟨s, ss, rfl⟩ := List.exists_cons_of_ne_nil hne
    rw [hm]
    simp only [List.map_cons, concatenate, concat_d1]
    rfl
  · rw [if_neg hle]
    have hq : haloes.length / nranks = 1 := by
      apply le_antisymm
      · exact Nat.lt_succ_iff.1 ((Nat.div_lt_iff_lt_mul hk).2 hn)
      · exact (Nat.le_div_iff_mul_le hk).2 (by omega)
    have hmod : 0 < haloes.length % nranks := by
      have := Nat.mod_add_div haloes.length nranks
      rw [hq] at this; omega
    have hmod' := Nat.mod_lt haloes.length hk
    obtain ⟨a, ha⟩ : ∃ a, haloes.length % nranks = a + 1 := ⟨haloes.length % nranks - 1, by omega⟩
    obtain ⟨b, hb⟩ : ∃ b, nranks - haloes.length % nranks = b + 1 :=
      ⟨nranks - haloes.length % nranks - 1, by omega⟩
    have hsz : sectionSizes haloes.length nranks
        = 2 :: (List.replicate a 2 ++ List.replicate (b + 1) 1) := by
      unfold sectionSizes
      rw [hq, ha] at *
      rw [hb, List.replicate_succ]; rfl
    rw [hsz] at hlen
    cases shares with
    | nil => simp at hlen
    | cons s ss =>
      rw [List.map_cons, List.cons.injEq] at hlen
      obtain ⟨s', hs', h1⟩ : ∃ s' ∈ ss, s'.length = 1 := by
        have : 1 ∈ ss.map List.length := by rw [hlen.2]; simp
        simpa using this
      set g : List H → StrArr := fun hs =>
        if 2 ≤ hs.length then .d2 8 ((hs.map fit).map fun r => outFields r none)
        else .d1 ((hs.map fit).map fun r => outFields r none).flatten with hg
      have hm : ((s :: ss).map fun hs => rankFile (hs.map fit)).mapM genfromtxt
          = .ok ((s :: ss).map g) := by
        rw [List.mapM_map]
        refine mapM_ok _ _ _ fun t _ => ?_
        simp only [Function.comp, hg]
        split
        · rename_i h; exact genfromtxt_many _ (by simpa using h)
        · rename_i h; exact genfromtxt_few _ (by simpa using (by omega : t.length ≤ 1))
      rw [hm]
      simp only [List.map_cons, concatenate]
      rw [concat_mixed]
      · exact ⟨8, (s.map fit).map fun r => outFields r none, by
          simp only [hg]; rw [if_pos (by omega)]⟩
      · refine ⟨((s'.map fit).map fun r => outFields r none).flatten, ?_⟩
        refine List.mem_map.2 ⟨s', hs', ?_⟩
        simp only [hg]; rw [if_neg (by omega)]

/-- **C44** (no ranks). ValueError. -/
theorem C44_no_ranks (haloes : List H) : parallel_fit fit haloes 0 = .error .valueError := rfl

/-- Five haloes on two ranks (shares of three and two) meet the hypotheses; five on three do not. -/
example : parallel_fit (fun _ : ℕ => exampleResult) [0, 1, 2, 3, 4] 2
    = parallel_fit (fun _ : ℕ => exampleResult) [0, 1, 2, 3, 4] 1 :=
  C44_rank_independent_partial _ _ 2 (by norm_num) (by simp)

example : parallel_fit (fun _ : ℕ => exampleResult) [0, 1, 2, 3, 4] 3 = .error .valueError := by
  rw [C44_too_few_haloes _ _ 3 (by norm_num) (by simp)]; rfl

end Diffmah.Text

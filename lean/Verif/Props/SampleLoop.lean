import Verif.Props.Samples

/-!
# Writing and collating the samples (C92)
-/

namespace Diffmah.Samples

open Diffmah.Text Diffmah.IO Diffmah.Scripts Diffmah.Targets

variable {R : Type} [Inhabited R]

/-! ## Specification -/

/-- One entry per halo in each of the five columns of parameters, the peak times and the hosts -/
def WellFormed (x : SampleBin R) : Prop :=
  x.mah_params.length = 5 ∧ (∀ c ∈ x.mah_params, c.length = x.t_peak.length) ∧
    x.upid.length = x.t_peak.length

/-- A halo with the host `u` belongs to the centrals if it has none (−1), to the satellites otherwise. -/
def Belongs (cs : Str) (u : ℤ) : Prop :=
  (cs = "cens".toList ∧ u = -1) ∨ (cs = "sats".toList ∧ u ≠ -1)

/-- `rows` are the five parameters and the peak times, as printed, of the first 34 haloes of that kind. -/
def SampleOf (fmt4 : R → R) (x : SampleBin R) (cs : Str) (rows : List (List R)) : Prop :=
  ∃ idx, Chosen x.t_peak.length (fun i => ∃ u, x.upid[i]? = some u ∧ Belongs cs u) idx ∧
    rows = (idx.take 34).map fun i => (x.mah_params ++ [x.t_peak]).map fun c => fmt4 (c.getD i default)

/-- `rows` is the sample of subvolume `k` in the bin `b`; there is at least one halo in it. -/
def SampleRows (fmt4 : R → R) (generate : ℤ → List (SampleBin R) × Except PyErr Unit) (b : Bin) (k : ℕ)
    (rows : List (List R)) : Prop :=
  ∃ x ∈ (generate k).1, sampleName x.lgm_obs x.t_obs b.2.2 = sampleName b.1 b.2.1 b.2.2 ∧
    SampleOf fmt4 x b.2.2 rows ∧ rows ≠ []

/-- What the generator yields for a subvolume: well-formed samples of bins with different names -/
def GoodYield (y : List (SampleBin R) × Except PyErr Unit) : Prop :=
  (∀ x ∈ y.1, WellFormed x) ∧ y.2 = .ok () ∧
    (y.1.map fun x => sampleName x.lgm_obs x.t_obs []).Nodup

/-! ## Lemmas -/

omit [Inhabited R] in
theorem pick_eq_map [Inhabited R] (idx : List ℕ) (c : List R) (h : ∀ i ∈ idx, i < c.length) :
    pick idx c = idx.map fun i => c.getD i default := by
  unfold pick
  induction idx with
  | nil => rfl
  | cons i idx ih =>
    have hi := h i (by simp)
    rw [List.filterMap_cons, List.getElem?_eq_getElem hi]
    simp only [List.map_cons, ih fun i hi => h i (by simp [hi])]
    simp [hi]

theorem transpose_map (l : List ℕ) (cs : List (List R)) (c0 : List R) :
    transpose ((cs ++ [c0]).map fun c => l.map fun i => c.getD i default)
      = .ok (l.map fun i => (cs ++ [c0]).map fun c => c.getD i default) := by
  obtain ⟨d, ds, e⟩ := List.exists_cons_of_ne_nil (l := cs ++ [c0]) (by simp)
  rw [e, List.map_cons, transpose, if_pos]
  · congr 1
    rw [← List.map_cons (f := fun c : List R => l.map fun i => c.getD i default)]
    refine List.ext_getElem (by simp) fun j h1 h2 => ?_
    have hj : j < l.length := by simpa using h2
    simp [hj, List.getD_eq_getElem?_getD]
  · intro c hc
    obtain ⟨c', -, rfl⟩ := List.mem_map.1 hc
    simp

theorem sampleTable_ok (fmt4 : R → R) (msk : List Bool) (x : SampleBin R) (hx : WellFormed x)
    (hm : msk.length = x.t_peak.length) :
    sampleTable fmt4 msk x = .ok (((idxOf msk).take 34).map fun i =>
      (x.mah_params ++ [x.t_peak]).map fun c => fmt4 (c.getD i default)).flatten := by
  have hidx : ∀ i ∈ idxOf msk, i < x.t_peak.length := fun i hi => by
    rw [← hm]; exact ((chosen_idxOf msk).2 i).1 hi |>.1
  have hcol : ∀ c : List R, c.length = x.t_peak.length →
      maskRows msk c = .ok ((idxOf msk).map fun i => c.getD i default) := by
    intro c hc
    rw [maskRows_eq _ _ (by omega), pick_eq_map _ _ (by rw [hc]; exact hidx)]
  have h34 : N_HALOS_PER_SUBVOL = 34 := rfl
  have hp : (x.mah_params.mapM fun c => do return (← maskRows msk c).take N_HALOS_PER_SUBVOL)
      = (.ok (x.mah_params.map fun c => ((idxOf msk).take 34).map fun i => c.getD i default) :
        Except PyErr (List (List R))) := by
    apply mapM_ok
    intro c hc
    rw [hcol c (hx.2.1 c hc), h34]
    simp only [bind, Except.bind, pure, Except.pure]
    rw [List.map_take]
  unfold sampleTable
  rw [hp, hcol _ rfl, h34]
  simp only [bind, Except.bind, pure, Except.pure]
  rw [← List.map_take]
  have e : (x.mah_params.map fun c => ((idxOf msk).take 34).map fun i => c.getD i default)
      ++ [((idxOf msk).take 34).map fun i => x.t_peak.getD i default]
      = (x.mah_params ++ [x.t_peak]).map fun c => ((idxOf msk).take 34).map fun i => c.getD i default := by
    simp
  rw [e, transpose_map]
  simp only [Except.ok.injEq]
  rw [List.map_flatten, List.map_map]
  congr 1
  apply List.map_congr_left
  intro i _
  simp

/-- The mask of a kind -/
def maskOf (cs : Str) (x : SampleBin R) : List Bool :=
  if cs = "cens".toList then x.upid.map fun u => decide (u = -1)
  else (x.upid.map fun u => decide (u = -1)).map not

omit [Inhabited R] in
theorem chosen_maskOf {cs : Str} (hk : Kind cs) (x : SampleBin R) (hu : x.upid.length = x.t_peak.length) :
    Chosen x.t_peak.length (fun i => ∃ u, x.upid[i]? = some u ∧ Belongs cs u) (idxOf (maskOf cs x)) := by
  have hl : (maskOf cs x).length = x.t_peak.length := by
    unfold maskOf; split <;> simp [hu]
  obtain ⟨h1, h2⟩ := chosen_idxOf (maskOf cs x)
  refine ⟨h1, fun i => ?_⟩
  rw [h2, hl]
  refine and_congr_right fun hi => ?_
  have hget : x.upid[i]? = some (x.upid[i]'(by omega)) := List.getElem?_eq_getElem (by omega)
  show (maskOf cs x)[i]? = some true ↔ ∃ u, x.upid[i]? = some u ∧ Belongs cs u
  have hne : ("cens".toList = "sats".toList) = False := by simp
  rcases hk with rfl | rfl
  · unfold maskOf Belongs
    rw [if_pos rfl, List.getElem?_map, hget]
    simp only [Option.map_some, Option.some.injEq, decide_eq_true_eq, true_and, hne, false_and, or_false]
    exact ⟨fun h => ⟨_, rfl, h⟩, fun ⟨u, e, h⟩ => e ▸ h⟩
  · unfold maskOf Belongs
    rw [if_neg (by decide), List.getElem?_map, List.getElem?_map, hget]
    have hne' : ("sats".toList = "cens".toList) = False := by simp
    simp only [Option.map_some, Option.some.injEq, true_and, hne', false_and, false_or]
    simp only [Bool.not_eq_true', decide_eq_false_iff_not]
    exact ⟨fun h => ⟨_, rfl, h⟩, fun ⟨u, e, h⟩ => e ▸ h⟩

/-- The state after one sample of one kind -/
def Written (fmt4 : R → R) (fs t : FS (SFile R)) (p : Str) (x : SampleBin R) (cs : Str) : Prop :=
  ∃ rows, SampleOf fmt4 x cs rows ∧
    ((rows ≠ [] ∧ t.lookup p = some (.txt rows.flatten)) ∨ (rows = [] ∧ t.lookup p = fs.lookup p))

theorem writeKind {cs : Str} (hk : Kind cs) (fmt4 : R → R) (p : Str) (x : SampleBin R) (hx : WellFormed x)
    (c : Prop) [Decidable c] (hc : c ↔ idxOf (maskOf cs x) ≠ []) (fs : FS (SFile R)) :
    ∃ tr t, (if c then Prog.bind (Prog.ofExcept (sampleTable fmt4 (maskOf cs x) x)) fun d => saveTxt p d
      else Prog.pure ()) fs = (tr, t, .ok ()) ∧ Written fmt4 fs t p x cs ∧
      ∀ q, q ≠ p → t.lookup q = fs.lookup q := by
  have hl : (maskOf cs x).length = x.t_peak.length := by
    unfold maskOf; split <;> simp [hx.2.2]
  by_cases h : c
  · have htab := sampleTable_ok fmt4 _ x hx hl
    generalize hrows : (((idxOf (maskOf cs x)).take 34).map fun i =>
      (x.mah_params ++ [x.t_peak]).map fun c => fmt4 (c.getD i default)) = rows at htab
    refine ⟨[Dict.set fs p .torn, Dict.set (Dict.set fs p .torn) p (.txt rows.flatten)],
      Dict.set (Dict.set fs p .torn) p (.txt rows.flatten), ?_,
      ⟨rows, ⟨_, chosen_maskOf hk x hx.2.2, hrows.symm⟩, .inl ⟨?_, ?_⟩⟩, ?_⟩
    · rw [if_pos h, htab]
      simp only [Prog.bind, Prog.ofExcept, saveTxt, Prog.act, List.nil_append, List.singleton_append]
    · have := hc.1 h
      rw [← hrows]
      simp [this]
    · rw [set_lookup, if_pos rfl]
    · intro q hq
      rw [set_lookup, if_neg hq, set_lookup, if_neg hq]
  · refine ⟨[], fs, by rw [if_neg h]; rfl, ⟨_, ⟨_, chosen_maskOf hk x hx.2.2, rfl⟩, .inr ⟨?_, rfl⟩⟩,
      fun _ _ => rfl⟩
    have : idxOf (maskOf cs x) = [] := by
      by_contra hne; exact h (hc.2 hne)
    rw [this]; rfl

omit [Inhabited R] in
theorem idxOf_ne_nil (m : List Bool) : idxOf m ≠ [] ↔ true ∈ m := by
  constructor
  · intro h
    obtain ⟨i, l, e⟩ := List.exists_cons_of_ne_nil h
    have := ((chosen_idxOf m).2 i).1 (by rw [e]; simp)
    exact List.mem_of_getElem? this.2
  · intro h e
    obtain ⟨i, hi, hg⟩ := List.getElem_of_mem h
    have := ((chosen_idxOf m).2 i).2 ⟨hi, by show m[i]? = _; rw [List.getElem?_eq_getElem hi, hg]⟩
    rw [e] at this
    exact absurd this List.not_mem_nil

theorem count_lt (m : List Bool) : m.count true < m.length ↔ true ∈ m.map not := by
  have : m.count true < m.length ↔ false ∈ m := by
    have h1 : m.count true + m.count false = m.length := by
      induction m with
      | nil => rfl
      | cons b m ih => cases b <;> simp <;> omega
    rw [← List.count_pos_iff]; omega
  rw [this]
  simp

/-- The path of the sample of one kind -/
noncomputable def pathOf (drn : Str) (k : ℕ) (x : SampleBin R) (cs : Str) : Str :=
  samplePath drn k (x.lgm_obs, x.t_obs, cs)

omit [Inhabited R] in
theorem pathOf_same {drn : Str} {k k' : ℕ} {x x' : SampleBin R} {cs cs' : Str} (hk : Kind cs)
    (hk' : Kind cs') (h : pathOf drn k x cs = pathOf drn k' x' cs') :
    k = k' ∧ restName x.lgm_obs x.t_obs cs = restName x'.lgm_obs x'.t_obs cs' := by
  unfold pathOf at h
  rw [samplePath_eq _ _ _ hk, samplePath_eq _ _ _ hk', List.append_cancel_left_eq,
    List.append_cancel_left_eq] at h
  obtain ⟨h1, h2⟩ := match_rest hk hk' h
  exact ⟨natStr_injective h1.symm, h2⟩

theorem restName_inj {lgm t lgm' t' : ℝ} {cs cs' : Str} (hk : Kind cs) (hk' : Kind cs')
    (h : restName lgm t cs = restName lgm' t' cs') :
    cs = cs' ∧ sampleName lgm t [] = sampleName lgm' t' [] := by
  have hlen : cs.length = cs'.length := by
    rcases hk with rfl | rfl <;> rcases hk' with rfl | rfl <;> decide
  unfold restName at h
  obtain ⟨h1, h2⟩ := List.append_inj' h hlen
  refine ⟨h2, ?_⟩
  rw [sampleName_eq, sampleName_eq]
  unfold restName
  rw [h1]

theorem writeSamples_spec (fmt4 : R → R) (drn : Str) (k : ℕ) (x : SampleBin R) (hx : WellFormed x)
    (fs : FS (SFile R)) :
    ∃ tr t, writeSamples fmt4 drn (k : ℤ) x fs = (tr, t, .ok ()) ∧
      (∀ cs, Kind cs → Written fmt4 fs t (pathOf drn k x cs) x cs) ∧
      ∀ q, (∀ cs, Kind cs → q ≠ pathOf drn k x cs) → t.lookup q = fs.lookup q := by
  have hc : Kind "cens".toList := .inl rfl
  have hs : Kind "sats".toList := .inr rfl
  have hne : pathOf drn k x "cens".toList ≠ pathOf drn k x "sats".toList := fun h =>
    absurd (restName_inj hc hs (pathOf_same hc hs h).2).1 (by decide)
  have hmc : maskOf "cens".toList x = x.upid.map fun u => decide (u = -1) := if_pos rfl
  have hms : maskOf "sats".toList x = (x.upid.map fun u => decide (u = -1)).map not :=
    if_neg (by decide)
  have hms' : maskOf "sats".toList x = (maskOf "cens".toList x).map not := by rw [hms, hmc]
  have hpath : ∀ cs, pathJoin drn (subvolName (intStr (k : ℤ)) x.lgm_obs x.t_obs cs) = pathOf drn k x cs := by
    intro cs
    have : intStr (k : ℤ) = natStr k := by unfold intStr; simp
    rw [this]; rfl
  obtain ⟨tr1, t1, e1, w1, o1⟩ := writeKind hc fmt4 (pathOf drn k x "cens".toList) x hx
    (0 < (maskOf "cens".toList x).count true) (by rw [idxOf_ne_nil, List.count_pos_iff]) fs
  obtain ⟨tr2, t2, e2, w2, o2⟩ := writeKind hs fmt4 (pathOf drn k x "sats".toList) x hx
    ((maskOf "cens".toList x).count true < x.t_peak.length) (by
      rw [idxOf_ne_nil, hms, ← hmc, ← count_lt, hmc, List.length_map, hx.2.2]) t1
  refine ⟨tr1 ++ tr2, t2, ?_, ?_, ?_⟩
  · unfold writeSamples
    rw [hpath, hpath, ← hmc, ← hms', Prog.bind, e1]
    dsimp only
    rw [e2]
  · rintro cs (rfl | rfl)
    · obtain ⟨rows, hr, h⟩ := w1
      exact ⟨rows, hr, by rwa [o2 _ hne]⟩
    · obtain ⟨rows, hr, h⟩ := w2
      exact ⟨rows, hr, by rwa [o1 _ (Ne.symm hne)] at h⟩
  · intro q hq
    rw [o2 q (hq _ hs), o1 q (hq _ hc)]

/-- Where the samples of subvolume `k` go -/
def PathOfYield (drn : Str) (k : ℕ) (ys : List (SampleBin R)) (q : Str) : Prop :=
  ∃ x ∈ ys, ∃ cs, Kind cs ∧ q = pathOf drn k x cs

theorem writeYields (fmt4 : R → R) (drn : Str) (k : ℕ) (ys : List (SampleBin R))
    (hx : ∀ x ∈ ys, WellFormed x) (hn : (ys.map fun x => sampleName x.lgm_obs x.t_obs []).Nodup)
    (fs : FS (SFile R)) :
    Runs (fun t => t = fs) (Prog.each (writeSamples fmt4 drn (k : ℤ)) ys) fun _ t =>
      (∀ x ∈ ys, ∀ cs, Kind cs → Written fmt4 fs t (pathOf drn k x cs) x cs) ∧
      ∀ q, ¬PathOfYield drn k ys q → t.lookup q = fs.lookup q := by
  have key := Runs.each (f := writeSamples fmt4 drn (k : ℤ))
    (J := fun done _ (t : FS (SFile R)) =>
      (∀ x ∈ done, ∀ cs, Kind cs → Written fmt4 fs t (pathOf drn k x cs) x cs) ∧
      ∀ q, ¬PathOfYield drn k done q → t.lookup q = fs.lookup q) ys [] [] ?_
  · refine key.weaken ?_ ?_
    · rintro t rfl
      exact ⟨fun x hx => absurd hx List.not_mem_nil, fun _ _ => rfl⟩
    · intro bs t h
      simpa only [List.nil_append] using h
  · intro pre x post bs e t ⟨hJ1, hJ2⟩
    simp only [List.nil_append] at hJ1 hJ2 ⊢
    have hdis : ∀ cs, Kind cs → ¬PathOfYield drn k pre (pathOf drn k x cs) := by
      rintro cs hcs ⟨x', hx', cs', hcs', h⟩
      have h2 := (restName_inj hcs hcs' (pathOf_same hcs hcs' h).2).2
      rw [e, List.map_append, List.map_cons] at hn
      have h3 := (List.nodup_append.1 hn).2.2 _ (List.mem_map_of_mem hx') _ (List.mem_cons_self ..)
      exact h3 h2.symm
    obtain ⟨tr, t', h1, h2, h3⟩ := writeSamples_spec fmt4 drn k x (hx x (by rw [e]; simp)) t
    refine ⟨(), by rw [h1], ?_⟩
    rw [h1]
    dsimp only
    refine ⟨fun y hy cs hcs => ?_, fun q hq => ?_⟩
    · rcases List.mem_append.1 hy with hy | hy
      · obtain ⟨rows, hr, h⟩ := hJ1 y hy cs hcs
        refine ⟨rows, hr, ?_⟩
        rwa [h3 _ fun cs' hcs' h => hdis cs' hcs' ⟨y, hy, cs, hcs, h.symm⟩]
      · obtain rfl := List.mem_singleton.1 hy
        obtain ⟨rows, hr, h⟩ := h2 cs hcs
        refine ⟨rows, hr, ?_⟩
        rwa [hJ2 _ (hdis cs hcs)] at h
    · rw [h3 q fun cs hcs h => hq ⟨x, by simp, cs, hcs, h⟩,
        hJ2 q fun ⟨y, hy, cs, hcs, h⟩ => hq ⟨y, by simp [hy], cs, hcs, h⟩]

theorem writeSubvolumes_spec (fmt4 : R → R) (generate : ℤ → List (SampleBin R) × Except PyErr Unit)
    (drn : Str) (istart iend : ℤ) (h0 : 0 ≤ istart)
    (hg : ∀ k : ℕ, istart ≤ k → k < iend → GoodYield (generate k)) (fs : FS (SFile R)) :
    Runs (fun t => t = fs) (writeSubvolumes fmt4 generate drn istart iend) fun _ t =>
      (∀ k : ℕ, istart ≤ k → k < iend → ∀ x ∈ (generate k).1, ∀ cs, Kind cs →
        Written fmt4 fs t (pathOf drn k x cs) x cs) ∧
      ∀ q, (∀ k : ℕ, istart ≤ k → k < iend → ¬PathOfYield drn k (generate k).1 q) →
        t.lookup q = fs.lookup q := by
  have key := Runs.each (f := fun subvol =>
      Prog.bind (Prog.each (writeSamples fmt4 drn subvol) (generate subvol).1) fun _ =>
      Prog.ofExcept (generate subvol).2)
    (J := fun done _ (t : FS (SFile R)) =>
      (∀ k : ℕ, (k : ℤ) ∈ done → ∀ x ∈ (generate k).1, ∀ cs, Kind cs →
        Written fmt4 fs t (pathOf drn k x cs) x cs) ∧
      ∀ q, (∀ k : ℕ, (k : ℤ) ∈ done → ¬PathOfYield drn k (generate k).1 q) → t.lookup q = fs.lookup q)
    (pyRange istart iend) [] [] ?_
  · unfold writeSubvolumes
    refine Runs.bind (key.weaken ?_ fun _ _ h => h) fun _ => Runs.pure ?_
    · rintro t rfl
      exact ⟨fun k hk => absurd hk List.not_mem_nil, fun _ _ => rfl⟩
    · intro t h
      simp only [List.nil_append, mem_pyRange] at h
      exact ⟨fun k h1 h2 => h.1 k ⟨h1, h2⟩, fun q hq => h.2 q fun k hk => hq k hk.1 hk.2⟩
  · intro pre a post bs e
    simp only [List.nil_append]
    have ha : a ∈ pyRange istart iend := by rw [e]; simp
    have har := mem_pyRange.1 ha
    obtain ⟨k, rfl⟩ := Int.eq_ofNat_of_zero_le (a := a) (by omega)
    obtain ⟨hw, hok, hnd⟩ := hg k har.1 har.2
    have hnp : (k : ℤ) ∉ pre := by
      have := nodup_pyRange istart iend
      rw [e] at this
      intro h
      exact (List.nodup_append.1 this).2.2 _ h _ (by simp) rfl
    intro t ⟨hJ1, hJ2⟩
    obtain ⟨_, h1, h2, h3⟩ := writeYields fmt4 drn k (generate k).1 hw hnd t t rfl
    have hdis : ∀ q, PathOfYield drn k (generate k).1 q →
        ∀ k' : ℕ, (k' : ℤ) ∈ pre → ¬PathOfYield drn k' (generate k').1 q := by
      rintro q ⟨x, _, cs, hcs, rfl⟩ k' hk' ⟨x', _, cs', hcs', h⟩
      have := (pathOf_same hcs hcs' h).1
      subst this
      exact hnp hk'
    rcases hr : Prog.each (writeSamples fmt4 drn (k : ℤ)) (generate k).1 t with ⟨tr, t', r⟩
    rw [hr] at h1 h2 h3
    dsimp only at h1 h2 h3
    refine ⟨(), ?_, ?_⟩
    · simp only [Prog.bind, hr, h1, hok, Prog.ofExcept]
    · simp only [Prog.bind, hr, h1, hok, Prog.ofExcept]
      refine ⟨fun j hj x hx cs hcs => ?_, fun q hq => ?_⟩
      · rcases List.mem_append.1 hj with hj | hj
        · obtain ⟨rows, hrow, h⟩ := hJ1 j hj x hx cs hcs
          refine ⟨rows, hrow, ?_⟩
          rwa [h3 _ fun hp => hdis _ hp j hj ⟨x, hx, cs, hcs, rfl⟩]
        · have hjk : j = k := by simpa using hj
          subst hjk
          obtain ⟨rows, hrow, h⟩ := h2 x hx cs hcs
          refine ⟨rows, hrow, ?_⟩
          rwa [hJ2 _ (hdis _ ⟨x, hx, cs, hcs, rfl⟩)] at h
      · rw [h3 q (hq k (by simp)), hJ2 q fun j hj => hq j (by simp [hj])]

theorem sampleOf_six {fmt4 : R → R} {x : SampleBin R} (hx : WellFormed x) {cs : Str} {rows : List (List R)}
    (h : SampleOf fmt4 x cs rows) : SixColumns rows := by
  obtain ⟨idx, -, rfl⟩ := h
  intro r hr
  obtain ⟨i, -, rfl⟩ := List.mem_map.1 hr
  simp [hx.1]

omit [Inhabited R] in
theorem six_flatten_inj {a b : List (List R)} (ha : SixColumns a) (hb : SixColumns b)
    (h : a.flatten = b.flatten) : a = b := by
  have h1 := (reshape_six (x := a.flatten)).2 ⟨ha, rfl⟩
  have h2 := (reshape_six (x := a.flatten)).2 ⟨hb, h⟩
  rw [h1] at h2
  exact Except.ok.inj h2

/-! ## Theorems -/

/-- **C92** (one sample). Writing the sample of a bin succeeds. The file of the centrals holds the
parameters and peak times of the first 34 haloes without a host, and that of the satellites those of the
first 34 with one; if there are none, that file is left alone. No other file changes. -/
theorem C92_write (fmt4 : R → R) (drn : Str) (k : ℕ) (x : SampleBin R) (hx : WellFormed x)
    (fs : FS (SFile R)) :
    ∃ tr t, writeSamples fmt4 drn (k : ℤ) x fs = (tr, t, .ok ()) ∧
      (∀ cs, Kind cs → ∃ rows, SampleOf fmt4 x cs rows ∧
        t.lookup (samplePath drn k (x.lgm_obs, x.t_obs, cs))
          = if rows = [] then fs.lookup (samplePath drn k (x.lgm_obs, x.t_obs, cs))
            else some (.txt rows.flatten)) ∧
      ∀ q, (∀ cs, Kind cs → q ≠ samplePath drn k (x.lgm_obs, x.t_obs, cs)) →
        t.lookup q = fs.lookup q := by
  obtain ⟨tr, t, h1, h2, h3⟩ := writeSamples_spec fmt4 drn k x hx fs
  refine ⟨tr, t, h1, fun cs hcs => ?_, h3⟩
  obtain ⟨rows, hr, h | h⟩ := h2 cs hcs
  · exact ⟨rows, hr, by rw [if_neg h.1]; exact h.2⟩
  · exact ⟨rows, hr, by rw [if_pos h.1]; exact h.2⟩

/-- **C92** (end to end). If, for each subvolume of the range, the samples produced are well formed and
their bins have different names, the loop succeeds, and the collated file of each bin of the grid holds
the samples of all subvolumes that have haloes in it, one after the other in some order: all rows of all
of them and nothing else. There is no file for a bin without haloes. No temporary file is left. -/
theorem C92_end_to_end_partial {drn : Str} (hd : ShellSafe drn) {order : Str → List Str → List Str}
    (ho : Lists order) (fmt4 : R → R) (generate : ℤ → List (SampleBin R) × Except PyErr Unit)
    (istart iend : ℤ) (h0 : 0 ≤ istart)
    (hg : ∀ k : ℕ, istart ≤ k → k < iend → GoodYield (generate k)) (n_m n_t : ℕ) (fs : FS (SFile R))
    (hempty : ∀ w, '/' ∉ w → fs.lookup (pathJoin drn ("subvol_".toList ++ w)) = none)
    (hnew : ∀ p, get_output_drn drn n_m n_t istart iend <+: p → fs.lookup p = none) :
    ∃ tr t, smdpl_diffmahpop_subvolume_loop order fmt4 generate drn istart iend n_m n_t fs
        = (tr, t, .ok ()) ∧
      (∀ b, InGrid T0_SMDPL n_m n_t b → ∃ ks : List ℕ, ks.Nodup ∧
        (∀ k : ℕ, k ∈ ks ↔ istart ≤ k ∧ k < iend ∧ ∃ rows, SampleRows fmt4 generate b k rows) ∧
        ((ks = [] ∧ t.lookup (binPath (get_output_drn drn n_m n_t istart iend) b) = none) ∨
         (ks ≠ [] ∧ ∃ tables, List.Forall₂ (SampleRows fmt4 generate b) ks tables ∧
          t.lookup (binPath (get_output_drn drn n_m n_t istart iend) b) = some (.npy tables.flatten)))) ∧
      ∀ p, Temporary drn p → t.lookup p = none := by
  obtain ⟨_, h1, h2, h3⟩ := writeSubvolumes_spec fmt4 generate drn istart iend h0 hg fs fs rfl
  rcases hr : writeSubvolumes fmt4 generate drn istart iend fs with ⟨tr1, t1, r⟩
  rw [hr] at h1 h2 h3
  dsimp only at h1 h2 h3
  subst h1
  have hT0 : ∀ p, Temporary drn p → fs.lookup p = none := by
    rintro p ⟨d, w, hdg, hw, rfl⟩
    refine hempty (d :: w) ?_
    have : d ≠ '/' := digit_ne hdg (by decide)
    simp [hw, Ne.symm this]
  -- what there is after writing
  have hsome : ∀ p f, t1.lookup p = some f → fs.lookup p = some f ∨
      ∃ k : ℕ, istart ≤ k ∧ k < iend ∧ ∃ x ∈ (generate k).1, ∃ cs, Kind cs ∧ p = pathOf drn k x cs ∧
        ∃ rows, SampleOf fmt4 x cs rows ∧ rows ≠ [] ∧ f = .txt rows.flatten := by
    intro p f hf
    by_cases hp : ∃ k : ℕ, istart ≤ k ∧ k < iend ∧ PathOfYield drn k (generate k).1 p
    · obtain ⟨k, hk1, hk2, x, hx, cs, hcs, rfl⟩ := hp
      obtain ⟨rows, hrow, ⟨hne, h⟩ | ⟨-, h⟩⟩ := h2 k hk1 hk2 x hx cs hcs
      · rw [hf] at h
        exact .inr ⟨k, hk1, hk2, x, hx, cs, hcs, rfl, rows, hrow, hne, Option.some.inj h⟩
      · exact .inl (by rw [← h, hf])
    · left
      rw [← hf, h3 p fun k h1 h2 h => hp ⟨k, h1, h2, h⟩]
  have hTs : ∀ p f, Temporary drn p → t1.lookup p = some f →
      ∃ k : ℕ, istart ≤ k ∧ k < iend ∧ ∃ x ∈ (generate k).1, ∃ cs, Kind cs ∧ p = pathOf drn k x cs ∧
        ∃ rows, SampleOf fmt4 x cs rows ∧ rows ≠ [] ∧ f = .txt rows.flatten := by
    intro p f hT hf
    rcases hsome p f hf with h | h
    · rw [hT0 p hT] at h; cases h
    · exact h
  have hbin : ∀ (k : ℕ) (b : Bin), Kind b.2.2 → ∀ f, t1.lookup (samplePath drn k b) = some f →
      istart ≤ k ∧ k < iend ∧ ∃ rows, SixColumns rows ∧ SampleRows fmt4 generate b k rows ∧
        f = .txt rows.flatten := by
    intro k b hb f hf
    obtain ⟨k', hk1, hk2, x, hx, cs, hcs, e, rows, hrow, hne, rfl⟩ :=
      hTs _ f (samplePath_temporary drn k b hb) hf
    have e' : pathOf drn k (⟨b.1, b.2.1, [], [], []⟩ : SampleBin R) b.2.2 = pathOf drn k' x cs := e
    obtain ⟨rfl, e2⟩ := pathOf_same hb hcs e'
    obtain ⟨rfl, -⟩ := restName_inj hb hcs e2
    refine ⟨hk1, hk2, rows, sampleOf_six ((hg k hk1 hk2).1 x hx) hrow, ⟨x, hx, ?_, hrow, hne⟩, rfl⟩
    rw [sampleName_eq, sampleName_eq]
    exact congrArg (· ++ _) e2.symm
  have hWN : WellNamed drn t1 := by
    intro p hp hm
    obtain ⟨f, hf⟩ := Option.isSome_iff_exists.1 hp
    rcases hsome p f hf with h | ⟨k, -, -, x, -, cs, hcs, rfl, -⟩
    · exfalso
      have hstar := hd.notMem (c := '*') (by decide) (by decide)
      have hpj : pathJoin drn "subvol_*.txt".toList
          = dirPart drn ++ "subvol_".toList ++ '*' :: ".txt".toList := by
        rw [pathJoin_eq _ (by decide), List.append_assoc]; congr 1
      rw [hpj, globMatch_one _ _ _ (by
        rw [List.mem_append, not_or]
        exact ⟨dirPart_notMem hstar (by decide), by decide⟩) (by decide)] at hm
      obtain ⟨mid, rfl, hmid⟩ := hm
      have hs : '/' ∉ mid ++ ".txt".toList := by
        rw [List.mem_append, not_or]; exact ⟨hmid, by decide⟩
      have h' := hempty _ hs
      rw [pathJoin_eq _ (by rw [List.mem_append, not_or]; exact ⟨by decide, hs⟩)] at h'
      rw [List.append_assoc, List.append_assoc, h'] at h
      cases h
    · exact ⟨k, (x.lgm_obs, x.t_obs, cs), hcs, rfl⟩
  have hC : Complete drn t1 := by
    intro k b f hb hf
    obtain ⟨-, -, rows, h6, -, e⟩ := hbin k b hb f hf
    exact ⟨rows, h6, e⟩
  have hdir : ∀ q, t1.lookup q = some .dir → ¬Temporary drn q := by
    intro q hq hT
    obtain ⟨_, _, _, _, _, _, _, _, rows, _, _, h⟩ := hTs q _ hT hq
    cases h
  have hnew1 : ∀ p, get_output_drn drn n_m n_t istart iend <+: p → t1.lookup p = none := by
    intro p hp
    rw [h3 p, hnew p hp]
    rintro k - - ⟨x, -, cs, hcs, rfl⟩
    exact temporary_not_under n_m n_t istart iend (samplePath_temporary drn k (_, _, cs) hcs) hp
  obtain ⟨tr2, t, e2, hcol, htmp, -, -⟩ := C90_success hd ho hWN hC hdir T0_SMDPL n_m n_t istart iend hnew1
  refine ⟨tr1 ++ tr2, t, ?_, fun b hb => ?_, htmp⟩
  · unfold smdpl_diffmahpop_subvolume_loop
    rw [Prog.bind, hr]
    dsimp only
    rw [e2]
  · obtain ⟨ks, hnd, hks, hf⟩ := hcol b hb
    refine ⟨ks, hnd, fun k => ?_, ?_⟩
    · rw [hks]
      constructor
      · intro h
        obtain ⟨f, hf⟩ := Option.isSome_iff_exists.1 h
        obtain ⟨a, b', rows, -, h, -⟩ := hbin k b hb.2.2 f hf
        exact ⟨a, b', rows, h⟩
      · rintro ⟨hk1, hk2, rows, x, hx, hname, hrow, hne⟩
        have hpath : samplePath drn k b = pathOf drn k x b.2.2 := by
          rw [sampleName_eq, sampleName_eq] at hname
          exact samplePath_same hb.2.2 (b' := (x.lgm_obs, x.t_obs, b.2.2)) hb.2.2
            (List.append_cancel_right hname).symm drn k
        rw [hpath]
        obtain ⟨rows', hrow', ⟨-, h⟩ | ⟨h', -⟩⟩ := h2 k hk1 hk2 x hx b.2.2 hb.2.2
        · rw [h]; rfl
        · exfalso
          obtain ⟨i1, hi1, rfl⟩ := hrow
          obtain ⟨i2, hi2, e⟩ := hrow'
          have : i2 = [] := by simpa [e] using h'
          apply hne
          have h1nil : i1 = [] := by
            rw [List.eq_nil_iff_forall_not_mem]
            intro i hi
            have := (hi2.2 i).2 ((hi1.2 i).1 hi)
            rw [‹i2 = []›] at this
            exact absurd this List.not_mem_nil
          rw [h1nil]; rfl
    · refine hf.imp_right fun ⟨hne, tables, hall, e⟩ => ⟨hne, tables, ?_, e⟩
      refine hall.imp fun k rows ⟨h6, hl⟩ => ?_
      obtain ⟨-, -, rows', h6', hrow, e'⟩ := hbin k b hb.2.2 _ hl
      rw [six_flatten_inj h6 h6' (by simpa using e')]
      exact hrow

/-- **C92** (negation, with the samples that are actually produced). For any fits, hosts and times, as
the samples of a subvolume cannot be produced (C75), the loop over at least one subvolume raises, and
changes no file. -/
theorem C92_nothing {Q U : Type} (order : Str → List Str → List Str) (fmt4 : R → R)
    (halopop : Arg → Arg → Arg → Except PyErr Q) (data : ℤ → H5) (upid : ℤ → List U)
    (hosts : List U → XR → Except PyErr (List U))
    (targets : Q → XR → List U → List (SampleBin R) × Except PyErr Unit) (t_obs : List XR) (lgt0 : XR)
    (ht : t_obs ≠ []) (drn : Str) (istart iend : ℤ) (h : istart < iend) (n_m n_t : ℕ) (fs : FS (SFile R)) :
    ∃ e, smdpl_diffmahpop_subvolume_loop order fmt4 (fun k => generate_diffmahpop_targets_for_subvol
      halopop (data k) (upid k) hosts targets t_obs lgt0) drn istart iend n_m n_t fs
      = ([], fs, .error e) := by
  obtain ⟨l, hl⟩ : ∃ l, pyRange istart iend = istart :: l := by
    have hm : istart ∈ pyRange istart iend := mem_pyRange.2 ⟨le_refl _, h⟩
    unfold pyRange at hm ⊢
    obtain ⟨n, hn⟩ : ∃ n, (iend - istart).toNat = n + 1 := ⟨(iend - istart).toNat - 1, by omega⟩
    rw [hn, List.range_succ_eq_map]
    exact ⟨_, by simp; rfl⟩
  obtain ⟨h1, h2⟩ := C75_generate_nothing halopop (data istart) (upid istart) hosts targets t_obs lgt0
  obtain ⟨e, he⟩ := h2 ht
  refine ⟨e, ?_⟩
  unfold smdpl_diffmahpop_subvolume_loop writeSubvolumes
  rw [hl]
  simp only [Prog.bind, Prog.each, h1, he, Prog.pure, Prog.ofExcept, List.nil_append]

/-! ## Witnesses -/

/-- Three haloes at mass 11 and time 2, the second of which has a host -/
def threeHaloes : SampleBin ℕ :=
  ⟨11, 2, [[1, 2, 3], [4, 5, 6], [7, 8, 9], [10, 11, 12], [13, 14, 15]], [16, 17, 18], [-1, 77, -1]⟩

theorem threeHaloes_wf : WellFormed threeHaloes := by
  refine ⟨rfl, fun c hc => ?_, rfl⟩
  simp only [threeHaloes, List.mem_cons, List.not_mem_nil, or_false] at hc
  rcases hc with rfl | rfl | rfl | rfl | rfl <;> rfl

theorem threeHaloes_cens (rows : List (List ℕ)) (h : SampleOf id threeHaloes "cens".toList rows) :
    rows = [[1, 4, 7, 10, 13, 16], [3, 6, 9, 12, 15, 18]] := by
  obtain ⟨idx, hidx, rfl⟩ := h
  have h2 := chosen_maskOf (cs := "cens".toList) (.inl rfl) threeHaloes rfl
  have e : idxOf (maskOf "cens".toList threeHaloes) = [0, 2] := by decide
  rw [e] at h2
  have : idx = [0, 2] := by
    refine List.Perm.eq_of_pairwise (le := (· < ·)) (fun a b _ _ h1 h2 => absurd h1 (by omega)) hidx.1 h2.1
      ((List.perm_ext_iff_of_nodup (hidx.1.imp fun h => Nat.ne_of_lt h) (h2.1.imp fun h => Nat.ne_of_lt h)).2
      fun i => by rw [hidx.2, h2.2])
  subst this
  rfl

example : ∃ tr t, writeSamples id ['d'] (3 : ℕ) threeHaloes ([] : FS (SFile ℕ)) = (tr, t, .ok ()) ∧
    t.lookup (samplePath ['d'] 3 (11, 2, "cens".toList))
      = some (.txt [1, 4, 7, 10, 13, 16, 3, 6, 9, 12, 15, 18]) := by
  obtain ⟨tr, t, e, h, -⟩ := C92_write id ['d'] 3 threeHaloes threeHaloes_wf []
  refine ⟨tr, t, e, ?_⟩
  obtain ⟨rows, hr, hl⟩ := h "cens".toList (.inl rfl)
  rw [threeHaloes_cens rows hr, if_neg (by simp)] at hl
  exact hl

example (n_m n_t : ℕ) : ∃ tr t, smdpl_diffmahpop_subvolume_loop (fun _ l => l) id
    (fun _ => ([threeHaloes], .ok ())) ['d'] 0 576 n_m n_t [] = (tr, t, .ok ()) ∧
      (∀ b, InGrid T0_SMDPL n_m n_t b → ∃ ks : List ℕ, ks.Nodup ∧
        (∀ k : ℕ, k ∈ ks ↔ (0 : ℤ) ≤ k ∧ (k : ℤ) < 576 ∧
          ∃ rows, SampleRows id (fun _ => ([threeHaloes], .ok ())) b k rows) ∧
        ((ks = [] ∧ t.lookup (binPath (get_output_drn ['d'] n_m n_t 0 576) b) = none) ∨
         (ks ≠ [] ∧ ∃ tables, List.Forall₂ (SampleRows id (fun _ => ([threeHaloes], .ok ())) b) ks tables ∧
          t.lookup (binPath (get_output_drn ['d'] n_m n_t 0 576) b) = some (.npy tables.flatten)))) ∧
      ∀ p, Temporary ['d'] p → t.lookup p = none :=
  C92_end_to_end_partial safe_d (order := fun _ l => l) (fun _ l => .refl l) id _ 0 576 (le_refl _)
    (fun _ _ _ => ⟨fun x hx => by rw [List.mem_singleton.1 hx]; exact threeHaloes_wf, rfl, by simp⟩)
    n_m n_t [] (fun _ _ => rfl) (fun _ _ => rfl)

end Diffmah.Samples

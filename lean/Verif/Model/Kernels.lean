import Verif.Model.Num

/-!
# Model of `/repo/diffmah/diffmah_kernels.py`

Everything that does not differentiate is generic in the number system. Time arrays are `List`s
and elementwise broadcasting is `List.map`.
-/

namespace Diffmah

open JOps

/-- diffmah_kernels.py:11 -/
noncomputable def MAH_K : ℝ := 3.5

/-- `DiffmahParams` namedtuple, field order of diffmah_kernels.py:13-16 -/
@[ext] structure MahParams (α : Type) where
  logm0 : α
  logtc : α
  early_index : α
  late_index : α
  t_peak : α

/-- `DiffmahUParams` namedtuple, diffmah_kernels.py:18-20 -/
@[ext] structure MahUParams (α : Type) where
  u_logm0 : α
  u_logtc : α
  u_early_index : α
  u_late_index : α
  u_t_peak : α

/-- `tree_map` over the namedtuple (used to lift parameters between number systems). -/
def MahParams.map {α β : Type} (f : α → β) (p : MahParams α) : MahParams β :=
  ⟨f p.logm0, f p.logtc, f p.early_index, f p.late_index, f p.t_peak⟩

def MahUParams.map {α β : Type} (f : α → β) (p : MahUParams α) : MahUParams β :=
  ⟨f p.u_logm0, f p.u_logtc, f p.u_early_index, f p.u_late_index, f p.u_t_peak⟩

/-- diffmah_kernels.py:13-17 -/
noncomputable def DEFAULT_MAH_PARAMS : MahParams ℝ :=
  ⟨12.0, 0.05, 2.6137643, 0.12692805, 14.0⟩

/-- diffmah_kernels.py:22-29 -/
noncomputable def MAH_PBOUNDS : MahParams (ℝ × ℝ) :=
  ⟨(0.0, 17.0), (-1.0, 1.0), (0.1, 10.0), (0.1, 5.0), (0.05, 20.0)⟩

section Generic

variable {α : Type} [Add α] [Sub α] [Mul α] [Div α] [JOps α]

/-- diffmah_kernels.py:115-118 -/
def sigmoid (x x0 k ylo yhi : α) : α :=
  let height_diff := yhi - ylo
  ylo + height_diff * sigm (k * (x - x0))

/-- diffmah_kernels.py:121-124 -/
def inverse_sigmoid (y x0 k ylo yhi : α) : α :=
  let lnarg := (yhi - ylo) / (y - ylo) - lit 1
  x0 - ln lnarg / k

/-- diffmah_kernels.py:127-130 -/
noncomputable def power_law_index_vs_logt (logt logtc early late : α) : α :=
  sigmoid logt logtc (lit MAH_K) early late

/-- diffmah_kernels.py:133-138 -/
noncomputable def rolling_plaw_vs_logt (logt logt0 logm0 logtc early late : α) : α :=
  let rolling_index := power_law_index_vs_logt logt logtc early late
  rolling_index * (logt - logt0) + logm0

/-- diffmah_kernels.py:141-145 -/
noncomputable def rolling_plaw_vs_t (t logt0 logm0 logtc early late : α) : α :=
  let logt := log10 t
  rolling_plaw_vs_logt logt logt0 logm0 logtc early late

/-- diffmah_kernels.py:148-152 -/
noncomputable def log_mah_noq_kern (p : MahParams α) (t logt0 : α) : α :=
  rolling_plaw_vs_t t logt0 p.logm0 p.logtc p.early_index p.late_index

/-- diffmah_kernels.py:155-159 -/
noncomputable def mah_noq_kern (p : MahParams α) (t logt0 : α) : α :=
  pow10 (log_mah_noq_kern p t logt0)

/-- diffmah_kernels.py:175-181 -/
noncomputable def log_mah_kern (p : MahParams α) (t logt0 : α) : α :=
  let log_mah_noq := log_mah_noq_kern p t logt0
  let lgmhq := log_mah_noq_kern p p.t_peak logt0
  jwhere (lt t p.t_peak) log_mah_noq lgmhq

/-- diffmah_kernels.py:184-188 -/
noncomputable def mah_kern (p : MahParams α) (t logt0 : α) : α :=
  pow10 (log_mah_kern p t logt0)

/-- diffmah_kernels.py:89-112, scalar arguments (array arguments broadcast elementwise). -/
noncomputable def logmh_at_t_obs (p : MahParams α) (t_obs lgt0 : α) : α :=
  log_mah_kern p t_obs lgt0

/-- diffmah_kernels.py:228 -/
noncomputable def BOUNDING_K : ℝ := 0.1

/-- diffmah_kernels.py:231-235 -/
noncomputable def get_bounded_diffmah_param (u_param : α) (bound : ℝ × ℝ) : α :=
  let lo : α := lit bound.1
  let hi : α := lit bound.2
  let mid := lit 0.5 * (lo + hi)
  sigmoid u_param mid (lit BOUNDING_K) lo hi

/-- diffmah_kernels.py:238-242 -/
noncomputable def get_unbounded_diffmah_param (param : α) (bound : ℝ × ℝ) : α :=
  let lo : α := lit bound.1
  let hi : α := lit bound.2
  let mid := lit 0.5 * (lo + hi)
  inverse_sigmoid param mid (lit BOUNDING_K) lo hi

/-- diffmah_kernels.py:245-249 -/
noncomputable def get_early_late (u_early u_late : α) : α × α :=
  let late := get_bounded_diffmah_param u_late MAH_PBOUNDS.late_index
  let early := sigmoid u_early (lit 0.0) (lit BOUNDING_K) late (lit MAH_PBOUNDS.early_index.2)
  (early, late)

/-- diffmah_kernels.py:252-256 -/
noncomputable def get_u_early_late (early late : α) : α × α :=
  let u_late := get_unbounded_diffmah_param late MAH_PBOUNDS.late_index
  let u_early := inverse_sigmoid early (lit 0.0) (lit BOUNDING_K) late
    (lit MAH_PBOUNDS.early_index.2)
  (u_early, u_late)

/-- diffmah_kernels.py:259-268 -/
noncomputable def get_bounded_mah_params (u : MahUParams α) : MahParams α :=
  let logm0 := get_bounded_diffmah_param u.u_logm0 MAH_PBOUNDS.logm0
  let logtc := get_bounded_diffmah_param u.u_logtc MAH_PBOUNDS.logtc
  let t_peak := get_bounded_diffmah_param u.u_t_peak MAH_PBOUNDS.t_peak
  let el := get_early_late u.u_early_index u.u_late_index
  ⟨logm0, logtc, el.1, el.2, t_peak⟩

/-- diffmah_kernels.py:271-280 -/
noncomputable def get_unbounded_mah_params (p : MahParams α) : MahUParams α :=
  let el := get_u_early_late p.early_index p.late_index
  let u_logm0 := get_unbounded_diffmah_param p.logm0 MAH_PBOUNDS.logm0
  let u_logtc := get_unbounded_diffmah_param p.logtc MAH_PBOUNDS.logtc
  let u_t_peak := get_unbounded_diffmah_param p.t_peak MAH_PBOUNDS.t_peak
  ⟨u_logm0, u_logtc, el.1, el.2, u_t_peak⟩

/-- diffmah_kernels.py:286-289, scalar time -/
noncomputable def log_mah_kern_u_params (u : MahUParams α) (t logt0 : α) : α :=
  log_mah_kern (get_bounded_mah_params u) t logt0

end Generic

/-- diffmah_kernels.py:283 -/
noncomputable def DEFAULT_MAH_U_PARAMS : MahUParams ℝ :=
  get_unbounded_mah_params DEFAULT_MAH_PARAMS

/-! ## Differentiated kernels -/

/-- diffmah_kernels.py:162: `grad(_mah_noq_kern, argnums=1)`, i.e. the tangent of the same code
run on dual numbers with only `t` varying. -/
noncomputable def dmhdt_noq_grad_kern_scalar (p : MahParams ℝ) (t logt0 : ℝ) : ℝ :=
  (mah_noq_kern (p.map Dual.const) (Dual.var t) (Dual.const logt0)).d

/-- diffmah_kernels.py:166-169 -/
noncomputable def dmhdt_noq_kern_scalar (p : MahParams ℝ) (t logt0 : ℝ) : ℝ :=
  dmhdt_noq_grad_kern_scalar p t logt0 / 1e9

/-- diffmah_kernels.py:191: `grad(_mah_kern, argnums=1)` -/
noncomputable def dmhdt_grad_kern_unscaled (p : MahParams ℝ) (t logt0 : ℝ) : ℝ :=
  (mah_kern (p.map Dual.const) (Dual.var t) (Dual.const logt0)).d

/-- diffmah_kernels.py:201-205 -/
noncomputable def dmhdt_kern_scalar (p : MahParams ℝ) (t logt0 : ℝ) : ℝ :=
  jwhere (t > p.t_peak) 0.0 (dmhdt_noq_kern_scalar p t logt0)

/-- diffmah_kernels.py:172: `vmap` over the time axis -/
noncomputable def dmhdt_noq_kern (p : MahParams ℝ) (tarr : List ℝ) (logt0 : ℝ) : List ℝ :=
  tarr.map fun t => dmhdt_noq_kern_scalar p t logt0

/-- diffmah_kernels.py:194-198: elementwise `where` between the time array and the vmapped rate -/
noncomputable def dmhdt_kern (p : MahParams ℝ) (tarr : List ℝ) (logt0 : ℝ) : List ℝ :=
  let dmhdt_noq := dmhdt_noq_kern p tarr logt0
  List.zipWith (fun t d => jwhere (t > p.t_peak) 0.0 d) tarr dmhdt_noq

/-- diffmah_kernels.py:208-212 -/
noncomputable def diffmah_kern (p : MahParams ℝ) (tarr : List ℝ) (logt0 : ℝ) :
    List ℝ × List ℝ :=
  let dmhdt := dmhdt_kern p tarr logt0
  let log_mah := tarr.map fun t => log_mah_kern p t logt0
  (dmhdt, log_mah)

/-- diffmah_kernels.py:215-219 -/
noncomputable def diffmah_kern_scalar (p : MahParams ℝ) (t logt0 : ℝ) : ℝ × ℝ :=
  (dmhdt_kern_scalar p t logt0, log_mah_kern p t logt0)

/-- diffmah_kernels.py:32-57 -/
noncomputable def mah_singlehalo (p : MahParams ℝ) (tarr : List ℝ) (lgt0 : ℝ) :
    List ℝ × List ℝ :=
  diffmah_kern p tarr lgt0

/-- diffmah_kernels.py:60-86 with the `vmap(in_axes=(0, None, None))` of lines 222-223. The
namedtuple of equal-length arrays is modelled by the list of its rows (see
`MahPopArrays.rows` for the column view). `vmap` of a pair-valued function returns a pair of
stacked arrays. -/
noncomputable def mah_halopop_rows (ps : List (MahParams ℝ)) (tarr : List ℝ) (lgt0 : ℝ) :
    List (List ℝ) × List (List ℝ) :=
  let rows := ps.map fun p => diffmah_kern p tarr lgt0
  (rows.map Prod.fst, rows.map Prod.snd)

/-- A namedtuple of arrays as passed by users of `mah_halopop` (docstring, lines 65-67). -/
structure MahPopArrays where
  logm0 : List ℝ
  logtc : List ℝ
  early_index : List ℝ
  late_index : List ℝ
  t_peak : List ℝ

/-- `vmap(in_axes=0)` over a namedtuple: all five mapped axes must have the same size, otherwise
JAX raises `ValueError`. -/
inductive VmapErr where
  | sizeMismatch
deriving DecidableEq

/-- Row `i` of a namedtuple of arrays. -/
def MahPopArrays.rows (p : MahPopArrays) : List (MahParams ℝ) :=
  List.zipWith (fun (a : ℝ × ℝ) (b : ℝ × ℝ × ℝ) => ⟨a.1, a.2, b.1, b.2.1, b.2.2⟩)
    (p.logm0.zip p.logtc) (p.early_index.zip (p.late_index.zip p.t_peak))

/-- diffmah_kernels.py:60-86 on a namedtuple of arrays. -/
noncomputable def mah_halopop (p : MahPopArrays) (tarr : List ℝ) (lgt0 : ℝ) :
    Except VmapErr (List (List ℝ) × List (List ℝ)) :=
  if p.logtc.length = p.logm0.length ∧ p.early_index.length = p.logm0.length ∧
      p.late_index.length = p.logm0.length ∧ p.t_peak.length = p.logm0.length then
    .ok (mah_halopop_rows p.rows tarr lgt0)
  else .error .sizeMismatch

/-- diffmah_kernels.py:292-295 -/
noncomputable def dmhdt_kern_u_params (u : MahUParams ℝ) (tarr : List ℝ) (logt0 : ℝ) : List ℝ :=
  dmhdt_kern (get_bounded_mah_params u) tarr logt0

/-- diffmah_kernels.py:298-303 -/
noncomputable def diffmah_kern_u_params (u : MahUParams ℝ) (tarr : List ℝ) (logt0 : ℝ) :
    List ℝ × List ℝ :=
  let p := get_bounded_mah_params u
  let dmhdt := dmhdt_kern p tarr logt0
  let log_mah := tarr.map fun t => log_mah_kern p t logt0
  (dmhdt, log_mah)

end Diffmah

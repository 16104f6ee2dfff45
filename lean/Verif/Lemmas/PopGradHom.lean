import Verif.Model.PopGrad

/-!
# The generic population code commutes with homomorphisms of number systems
-/

set_option linter.unusedSectionVars false

namespace Diffmah

open JOps JMinMax JFlow

/-- A map between number systems that respects every operation of the code. -/
structure Hom (α β : Type) [Add α] [Sub α] [Mul α] [Div α] [JOps α] [JMinMax α] [JFlow α]
    [Add β] [Sub β] [Mul β] [Div β] [JOps β] [JMinMax β] [JFlow β] (E : Env α) (F : Env β) where
  φ : α → β
  add : ∀ a b, φ (a + b) = φ a + φ b
  sub : ∀ a b, φ (a - b) = φ a - φ b
  mul : ∀ a b, φ (a * b) = φ a * φ b
  div : ∀ a b, φ (a / b) = φ a / φ b
  lit : ∀ r, φ (lit r) = JOps.lit r
  sigm : ∀ a, φ (sigm a) = JOps.sigm (φ a)
  ln : ∀ a, φ (ln a) = JOps.ln (φ a)
  log10 : ∀ a, φ (log10 a) = JOps.log10 (φ a)
  pow10 : ∀ a, φ (pow10 a) = JOps.pow10 (φ a)
  jmax : ∀ a b, φ (jmax a b) = JMinMax.jmax (φ a) (φ b)
  jmin : ∀ a b, φ (jmin a b) = JMinMax.jmin (φ a) (φ b)
  whereLt : ∀ a b x y, φ (whereLt a b x y) = JFlow.whereLt (φ a) (φ b) (φ x) (φ y)
  whereAbsLe : ∀ a b x y, φ (whereAbsLe a b x y) = JFlow.whereAbsLe (φ a) (φ b) (φ x) (φ y)
  whereZero : ∀ a x y, φ (whereZero a x y) = JFlow.whereZero (φ a) (φ x) (φ y)
  gather : ∀ x xp k, φ (gather x xp k) = JFlow.gather (φ x) (xp.map φ) (fun c => φ (k c))
  sqrt : ∀ a, φ (sqrt a) = JFlow.sqrt (φ a)
  uniform : ∀ k, E.uniform k = F.uniform k
  eps : E.interp_eps = F.interp_eps
  mvn : ∀ k a b c d s, (E.mvn k [a, b, c, d] s).map φ = F.mvn k [φ a, φ b, φ c, φ d] fun i j => φ (s i j)
  cdf : ∀ x a b l s, φ (E.truncnorm_cdf x a b l s) = F.truncnorm_cdf (φ x) (φ a) (φ b) (φ l) (φ s)

/-! ### Mapping over `Except` and `RandM` -/

theorem exceptMapBind {α β γ : Type} (f : β → γ) (m : Except PyErr α) (k : α → Except PyErr β) :
    Except.map f (m >>= k) = m >>= fun x => Except.map f (k x) := by cases m <;> rfl

theorem exceptBindMap {α β γ : Type} (f : α → β) (m : Except PyErr α) (k : β → Except PyErr γ) :
    Except.map f m >>= k = m >>= fun x => k (f x) := by cases m <;> rfl

theorem exceptMapPure {α β : Type} (f : α → β) (a : α) :
    Except.map f (pure a : Except PyErr α) = pure (f a) := rfl

theorem exceptMapOk {α β : Type} (f : α → β) (a : α) :
    Except.map f (.ok a : Except PyErr α) = .ok (f a) := rfl

theorem exceptMapError {α β : Type} (f : α → β) (e : PyErr) :
    Except.map f (.error e : Except PyErr α) = .error e := rfl

theorem exceptMapThrow {α β : Type} (f : α → β) (e : PyErr) :
    Except.map f (throw e : Except PyErr α) = throw e := rfl

theorem exceptMapMap {α β γ : Type} (f : α → β) (g : β → γ) (m : Except PyErr α) :
    Except.map g (Except.map f m) = Except.map (fun x => g (f x)) m := by cases m <;> rfl

/-- Map over the result of a computation that draws random numbers. -/
def RandM.map {β γ : Type} (f : β → γ) (m : RandM β) : RandM γ :=
  match m with
  | .ok (b, ks) => .ok (f b, ks)
  | .error e => .error e

theorem randMapBind {α β γ : Type} (f : β → γ) (m : RandM α) (k : α → RandM β) :
    RandM.map f (m >>= k) = m >>= fun x => RandM.map f (k x) := by
  change RandM.map f (RandM.bind m k) = RandM.bind m _
  rcases m with e | ⟨a, ks⟩
  · rfl
  · change RandM.map f (match k a with | .error e => .error e | .ok (c, ks') => .ok (c, ks ++ ks')) =
      (match RandM.map f (k a) with | .error e => .error e | .ok (c, ks') => .ok (c, ks ++ ks'))
    rcases k a with e | ⟨b, ks'⟩ <;> rfl

theorem randBindMap {α β γ : Type} (f : α → β) (m : RandM α) (k : β → RandM γ) :
    RandM.map f m >>= k = m >>= fun x => k (f x) := by
  change RandM.bind (RandM.map f m) k = RandM.bind m _
  rcases m with e | ⟨a, ks⟩ <;> rfl

theorem randMapPure {α β : Type} (f : α → β) (a : α) :
    RandM.map f (pure a : RandM α) = pure (f a) := rfl

theorem randMapDraw {α β : Type} (f : α → β) (k : Key) (a : α) :
    RandM.map f (RandM.draw k a) = RandM.draw k (f a) := rfl

theorem randLiftMap {α β : Type} (f : α → β) (m : Except PyErr α) :
    RandM.lift (Except.map f m) = RandM.map f (RandM.lift m) := by cases m <;> rfl

theorem randAllMap {α β γ : Type} (f : β → γ) (l : List α) (k : α → RandM β) :
    RandM.all (l.map fun a => RandM.map f (k a)) = RandM.map (List.map f) (RandM.all (l.map k)) := by
  induction l with
  | nil => rfl
  | cons a l ih =>
    change RandM.bind (RandM.map f (k a)) (fun b => RandM.bind (RandM.all _) fun bs => RandM.pure (b :: bs)) =
      RandM.map (List.map f) (RandM.bind (k a) fun b => RandM.bind (RandM.all _) fun bs => RandM.pure (b :: bs))
    rw [ih]
    have h1 := randBindMap f (k a) fun b => RandM.bind (RandM.map (List.map f) (RandM.all (l.map k)))
      fun bs => RandM.pure (b :: bs)
    have h2 := randMapBind (List.map f) (k a) fun b => RandM.bind (RandM.all (l.map k))
      fun bs => RandM.pure (b :: bs)
    refine h1.trans (Eq.trans ?_ h2.symm)
    congr 1
    funext b
    have h3 := randBindMap (List.map f) (RandM.all (l.map k)) fun bs => RandM.pure (f b :: bs)
    have h4 := randMapBind (List.map f) (RandM.all (l.map k)) fun bs => RandM.pure (b :: bs)
    exact h3.trans (Eq.trans (by rfl) h4.symm)

theorem exceptMapM {β γ δ : Type} (f : β → γ) (l : List δ) (k : δ → Except PyErr β) :
    l.mapM (fun a => Except.map f (k a)) = Except.map (List.map f) (l.mapM k) := by
  induction l with
  | nil => rfl
  | cons a l ih =>
    simp only [List.mapM_cons, ih, exceptBindMap, exceptMapBind, exceptMapPure, List.map_cons]

/-! ### Named tuples -/

namespace NT

variable {α β : Type} (f : α → β)

theorem fields_mapv (p : NT α) : (p.mapv f).fields = p.fields := by
  simp [NT.fields, NT.mapv]

theorem values_mapv (p : NT α) : (p.mapv f).values = p.values.map f := by
  simp [NT.values, NT.mapv]

theorem lookup_mapv (p : NT α) (n : String) : (p.mapv f).lookup n = (p.lookup n).map f := by
  induction p with
  | nil => rfl
  | cons kv p ih =>
    obtain ⟨k, v⟩ := kv
    simp only [NT.mapv, List.map_cons, List.lookup_cons] at ih ⊢
    cases n == k <;> simp [ih]

theorem getattr_mapv (p : NT α) (n : String) : (p.mapv f).getattr n = Except.map f (p.getattr n) := by
  unfold NT.getattr
  rw [lookup_mapv]
  cases p.lookup n <;> rfl

theorem getattrs_mapv (p : NT α) (ns : List String) :
    (p.mapv f).getattrs ns = Except.map (List.map f) (p.getattrs ns) := by
  unfold NT.getattrs
  rw [← exceptMapM]
  congr 1
  funext n
  exact getattr_mapv f p n

theorem make_map (fields : List String) (vals : List α) :
    NT.make fields (vals.map f) = Except.map (NT.mapv f) (NT.make fields vals) := by
  unfold NT.make
  rw [List.length_map]
  split
  · rw [exceptMapOk]
    unfold NT.mapv
    rw [List.zip_map_right]
    rfl
  · rfl

theorem replace_mapv (p q : NT α) :
    (p.mapv f).replace (q.mapv f) = Except.map (NT.mapv f) (p.replace q) := by
  unfold NT.replace
  rw [fields_mapv, fields_mapv]
  split
  · rw [exceptMapOk]
    unfold NT.mapv
    simp only [List.map_map, Except.ok.injEq]
    apply List.map_congr_left
    intro kv _
    have := lookup_mapv f q kv.1
    unfold NT.mapv at this
    simp only [Function.comp_apply, this]
    cases List.lookup kv.1 q <;> rfl
  · rfl

theorem replace_all_mapv (b : NT α) (l : List (NT α)) :
    PopParams.replace_all (b.mapv f) (l.map (NT.mapv f)) =
      Except.map (NT.mapv f) (PopParams.replace_all b l) := by
  unfold PopParams.replace_all
  induction l generalizing b with
  | nil => rfl
  | cons a l ih =>
    rw [List.map_cons, List.foldlM_cons, List.foldlM_cons, replace_mapv, exceptBindMap, exceptMapBind]
    congr 1
    funext b'
    exact ih b'

theorem component_mapv (fields : List String) (p : NT α) :
    PopParams.component fields (p.mapv f) = Except.map (NT.mapv f) (PopParams.component fields p) := by
  unfold PopParams.component
  simp only [getattrs_mapv, exceptBindMap, make_map, exceptMapBind]

end NT

/-- `tree_map` over the nine component tuples. -/
def PopParams.ComponentParams.mapv {α β : Type} (f : α → β) (c : PopParams.ComponentParams α) :
    PopParams.ComponentParams β :=
  ⟨c.tp_cens.mapv f, c.tp_sats.mapv f, c.logm0.mapv f, c.logm0_sats.mapv f, c.logtc.mapv f,
    c.early_index.mapv f, c.late_index.mapv f, c.fec.mapv f, c.cov.mapv f⟩

namespace PopParams

variable {α β : Type} (f : α → β)

theorem get_component_model_params_mapv (p : NT α) : get_component_model_params (p.mapv f) =
    Except.map (ComponentParams.mapv f) (get_component_model_params p) := by
  unfold get_component_model_params
  simp only [NT.component_mapv, exceptBindMap, exceptMapBind, exceptMapPure]
  rfl

theorem get_component_model_u_params_mapv (p : NT α) : get_component_model_u_params (p.mapv f) =
    Except.map (ComponentParams.mapv f) (get_component_model_u_params p) := by
  unfold get_component_model_u_params
  simp only [NT.component_mapv, exceptBindMap, exceptMapBind, exceptMapPure]
  rfl

end PopParams

/-! ### Naturality -/

/-- A map between number systems that respects the operations needed to bound parameters. -/
structure SigHom (α β : Type) [Add α] [Sub α] [Mul α] [JOps α] [Add β] [Sub β] [Mul β] [JOps β] where
  φ : α → β
  add : ∀ a b, φ (a + b) = φ a + φ b
  sub : ∀ a b, φ (a - b) = φ a - φ b
  mul : ∀ a b, φ (a * b) = φ a * φ b
  lit : ∀ r, φ (lit r) = JOps.lit r
  sigm : ∀ a, φ (sigm a) = JOps.sigm (φ a)

/-- Rewrite with the laws of a homomorphism. -/
macro "hnat" "[" ls:Lean.Parser.Tactic.simpLemma,* "]" : tactic =>
  `(tactic| simp only [exceptBindMap, exceptMapBind, exceptMapPure, NT.getattrs_mapv, NT.getattr_mapv,
    NT.make_map, NT.values_mapv, ← List.map_append, $ls,*])

namespace SigHom

open Pop TPeak PopParams MC PopGrad

variable {α β : Type} [Add α] [Sub α] [Mul α] [Div α] [JOps α] [JMinMax α] [JFlow α]
  [Add β] [Sub β] [Mul β] [Div β] [JOps β] [JMinMax β] [JFlow β]
  (h : SigHom α β)

theorem vmap2_nat {γ : Type} {f : α → γ → α} {g : β → γ → β} (hfg : ∀ a b, h.φ (f a b) = g (h.φ a) b)
    (xs : List α) (ys : List γ) : vmap2 g (xs.map h.φ) ys = Except.map (List.map h.φ) (vmap2 f xs ys) := by
  unfold vmap2
  rw [List.length_map]
  split
  · rw [exceptMapOk, List.zipWith_map_left, List.map_zipWith]
    simp only [hfg]
  · rfl

theorem usigmoid (x x0 k lo hi : α) : h.φ (Utils.sigmoid x x0 k lo hi) =
    Utils.sigmoid (h.φ x) (h.φ x0) (h.φ k) (h.φ lo) (h.φ hi) := by
  simp only [Utils.sigmoid, h.add, h.sub, h.mul, h.sigm]

theorem bounded_param (u : α) (b : ℝ × ℝ) :
    h.φ (Pop.get_bounded_param u b) = Pop.get_bounded_param (h.φ u) b := by
  simp only [Pop.get_bounded_param, h.usigmoid, h.lit, h.add, h.mul]

theorem comp_get_bounded (c : Component) (u : NT α) :
    c.get_bounded (u.mapv h.φ) = Except.map (NT.mapv h.φ) (c.get_bounded u) := by
  unfold Component.get_bounded
  simp only [NT.getattrs_mapv, exceptBindMap, exceptMapBind]
  congr 1; funext l
  rw [h.vmap2_nat h.bounded_param]
  simp only [exceptBindMap, NT.make_map]

theorem sub_bounded (c : Component) (u : NT α) :
    Pop.sub_bounded c (u.mapv h.φ) = Except.map (NT.mapv h.φ) (Pop.sub_bounded c u) := by
  unfold Pop.sub_bounded
  simp only [NT.getattrs_mapv, exceptBindMap, exceptMapBind, NT.make_map, h.comp_get_bounded]

theorem logtc_bimod (u : NT α) : logtc_bimod_get_bounded (u.mapv h.φ) =
    Except.map (NT.mapv h.φ) (logtc_bimod_get_bounded u) := by
  unfold logtc_bimod_get_bounded; hnat [h.sub_bounded]

theorem early_bimod (u : NT α) : early_index_bimod_get_bounded (u.mapv h.φ) =
    Except.map (NT.mapv h.φ) (early_index_bimod_get_bounded u) := by
  unfold early_index_bimod_get_bounded; hnat [h.sub_bounded]

theorem late_bimod (u : NT α) : late_index_bimod_get_bounded (u.mapv h.φ) =
    Except.map (NT.mapv h.φ) (late_index_bimod_get_bounded u) := by
  unfold late_index_bimod_get_bounded; hnat [h.sub_bounded]

theorem logm0_bimod (u : NT α) : logm0_bimod_get_bounded (u.mapv h.φ) =
    Except.map (NT.mapv h.φ) (logm0_bimod_get_bounded u) := by
  unfold logm0_bimod_get_bounded; hnat [h.sub_bounded]

theorem logm0_sats_bimod (u : NT α) : logm0_bimod_sats_get_bounded (u.mapv h.φ) =
    Except.map (NT.mapv h.φ) (logm0_bimod_sats_get_bounded u) := by
  unfold logm0_bimod_sats_get_bounded; hnat [h.sub_bounded]

theorem bound_components (c : ComponentParams α) : PopParams.bound_components (c.mapv h.φ) =
    Except.map (ComponentParams.mapv h.φ) (PopParams.bound_components c) := by
  unfold PopParams.bound_components
  simp only [ComponentParams.mapv, h.comp_get_bounded, h.logtc_bimod, h.early_bimod, h.late_bimod, h.logm0_bimod,
    h.logm0_sats_bimod, exceptBindMap, exceptMapBind, exceptMapPure]

theorem lit_mapv (p : NT ℝ) : (p.mapv JOps.lit : NT β) = ((p.mapv JOps.lit : NT α)).mapv h.φ := by
  simp only [NT.mapv, List.map_map]
  apply List.map_congr_left
  intro kv _
  simp [h.lit]

theorem lit_map (l : List ℝ) : (l.map JOps.lit : List β) = ((l.map JOps.lit : List α)).map h.φ := by
  simp only [List.map_map]
  apply List.map_congr_left
  intro r _
  simp [h.lit]

theorem from_u_params (u : NT α) : PopGrad.get_diffmahpop_params_from_u_params (u.mapv h.φ) =
    Except.map (NT.mapv h.φ) (PopGrad.get_diffmahpop_params_from_u_params u) := by
  unfold PopGrad.get_diffmahpop_params_from_u_params
  rw [get_component_model_u_params_mapv]
  simp only [exceptBindMap, exceptMapBind, h.bound_components]
  congr 1; funext c; congr 1; funext b
  rw [h.lit_mapv, ← NT.replace_all_mapv]
  rfl

theorem params_of_u_params (u : NT α) : PopGrad.params_of_u_params (u.mapv h.φ) =
    Except.map (NT.mapv h.φ) (PopGrad.params_of_u_params u) := by
  unfold PopGrad.params_of_u_params
  simp only [exceptMapBind]
  congr 1; funext d
  rw [h.lit_mapv, NT.replace_mapv]
  simp only [exceptBindMap, h.from_u_params]

end SigHom

namespace Hom

open Pop TPeak PopParams MC PopGrad

variable {α β : Type} [Add α] [Sub α] [Mul α] [Div α] [JOps α] [JMinMax α] [JFlow α]
  [Add β] [Sub β] [Mul β] [Div β] [JOps β] [JMinMax β] [JFlow β] {E : Env α} {F : Env β}
  (h : Hom α β E F)

/-- Forget the other operations. -/
def sig : SigHom α β := ⟨h.φ, h.add, h.sub, h.mul, h.lit, h.sigm⟩

theorem usigmoid (x x0 k lo hi : α) : h.φ (Utils.sigmoid x x0 k lo hi) =
    Utils.sigmoid (h.φ x) (h.φ x0) (h.φ k) (h.φ lo) (h.φ hi) := h.sig.usigmoid x x0 k lo hi

theorem lit_mapv (p : NT ℝ) : (p.mapv JOps.lit : NT β) = ((p.mapv JOps.lit : NT α)).mapv h.φ :=
  h.sig.lit_mapv p

theorem lit_map (l : List ℝ) : (l.map JOps.lit : List β) = ((l.map JOps.lit : List α)).map h.φ :=
  h.sig.lit_map l

theorem params_of_u_params (u : NT α) : PopGrad.params_of_u_params (u.mapv h.φ) =
    Except.map (NT.mapv h.φ) (PopGrad.params_of_u_params u) := h.sig.params_of_u_params u

theorem sig_slope (x t y x0 k lo hi : α) : h.φ (Utils.sig_slope x t y x0 k lo hi) =
    Utils.sig_slope (h.φ x) (h.φ t) (h.φ y) (h.φ x0) (h.φ k) (h.φ lo) (h.φ hi) := by
  simp only [Utils.sig_slope, h.add, h.sub, h.mul, h.usigmoid]

theorem clip (x : α) (lo hi : ℝ) : h.φ (Pop.clip x lo hi) = Pop.clip (h.φ x) lo hi := by
  simp only [Pop.clip, h.jmin, h.jmax, h.lit]

/-! Kernels -/

theorem frac_early (p : NT α) (l t : α) : frac_early_cens_kern (p.mapv h.φ) (h.φ l) (h.φ t) =
    Except.map h.φ (frac_early_cens_kern p l t) := by
  unfold frac_early_cens_kern; hnat [h.usigmoid, h.lit]

theorem early_index (s : String) (p : NT α) (l t q : α) :
    pred_early_index_kern s (p.mapv h.φ) (h.φ l) (h.φ t) (h.φ q) =
    Except.map h.φ (pred_early_index_kern s p l t q) := by
  unfold pred_early_index_kern get_early_index_ylo get_early_index_yhi; hnat [h.usigmoid, h.lit, h.clip]

theorem late_index (s : String) (p : NT α) (l : α) :
    pred_late_index_kern s (p.mapv h.φ) (h.φ l) = Except.map h.φ (pred_late_index_kern s p l) := by
  unfold pred_late_index_kern; hnat [h.usigmoid, h.lit, h.clip]

theorem logtc (s : String) (p : NT α) (l t q : α) :
    pred_logtc_kern s (p.mapv h.φ) (h.φ l) (h.φ t) (h.φ q) =
    Except.map h.φ (pred_logtc_kern s p l t q) := by
  unfold pred_logtc_kern logtc_get_c0; hnat [h.sig_slope, h.lit, h.clip, h.add, h.mul, h.sub, bind_assoc, pure_bind]

theorem logm0 (s : String) (p : NT α) (l t q : α) :
    pred_logm0_kern s (p.mapv h.φ) (h.φ l) (h.φ t) (h.φ q) =
    Except.map h.φ (pred_logm0_kern s p l t q) := by
  unfold pred_logm0_kern pred_c0_kern pred_c1_kern
  hnat [h.sig_slope, h.usigmoid, h.lit, h.jmax, h.add, h.mul, h.sub, bind_assoc, pure_bind]

theorem pmap (a b c d e : α) : MahParams.map h.φ ⟨a, b, c, d, e⟩ = ⟨h.φ a, h.φ b, h.φ c, h.φ d, h.φ e⟩ := rfl

theorem mean_early (kind : Kind) (p : NT α) (l t q : α) :
    mean_diffmah_params_early_t_peak kind (p.mapv h.φ) (h.φ l) (h.φ t) (h.φ q) =
    Except.map (MahParams.map h.φ) (mean_diffmah_params_early_t_peak kind p l t q) := by
  unfold mean_diffmah_params_early_t_peak pred_logm0_early
  rw [get_component_model_params_mapv]
  cases kind <;>
  · simp only [pred_logm0_kern_early, pred_logm0_kern_early_sats, pred_early_index_early, pred_late_index_early]
    hnat [ComponentParams.mapv, h.logm0, h.logtc, h.early_index, h.late_index, h.pmap]

theorem mean_late (kind : Kind) (p : NT α) (l t q : α) :
    mean_diffmah_params_late_t_peak kind (p.mapv h.φ) (h.φ l) (h.φ t) (h.φ q) =
    Except.map (MahParams.map h.φ) (mean_diffmah_params_late_t_peak kind p l t q) := by
  unfold mean_diffmah_params_late_t_peak pred_logm0_late
  rw [get_component_model_params_mapv]
  cases kind <;>
  · simp only [pred_logm0_kern_late, pred_logm0_kern_late_sats, pred_early_index_late, pred_late_index_late]
    hnat [ComponentParams.mapv, h.logm0, h.logtc, h.early_index, h.late_index, h.pmap]

/-! Peak times -/

theorem getD (l : List α) (i : ℕ) : (l.map h.φ).getD i (JOps.lit 0) = h.φ (l.getD i (JOps.lit 0)) := by
  rw [← h.lit, List.getD_eq_getElem?_getD, List.getD_eq_getElem?_getD, List.getElem?_map]
  cases l[i]? <;> rfl

theorem linspace (a b : α) (n : ℕ) :
    PopGrad.linspace (h.φ a) (h.φ b) n = (PopGrad.linspace a b n).map h.φ := by
  unfold PopGrad.linspace
  rw [List.map_map]
  simp only [Function.comp_def, h.add, h.mul, h.div, h.sub, h.lit]

theorem interp (eps : ℝ) (x : α) (xp fp : List α) :
    PopGrad.interp eps (h.φ x) (xp.map h.φ) (fp.map h.φ) = h.φ (PopGrad.interp eps x xp fp) := by
  unfold PopGrad.interp
  simp only [h.whereLt, h.gather, h.whereAbsLe, h.add, h.mul, h.div, h.sub, h.lit, h.getD, List.length_map]

theorem frac_peaked (p : NT α) (u : List α) (l t : α) :
    frac_peaked_vs_lgm (p.mapv h.φ) (u.map h.φ) (h.φ l) (h.φ t) =
    Except.map (List.map h.φ) (frac_peaked_vs_lgm p u l t) := by
  unfold frac_peaked_vs_lgm get_utp_x0_from_lgm
  hnat [h.usigmoid, h.lit, bind_assoc, pure_bind, List.map_map, Function.comp_def]

theorem utp_loc (p : NT α) (l t : α) : get_utp_loc (p.mapv h.φ) (h.φ l) (h.φ t) =
    Except.map h.φ (get_utp_loc p l t) := by
  unfold get_utp_loc get_utp_loc_lgm_ylo; hnat [h.usigmoid, h.lit, bind_assoc, pure_bind]

theorem utp_scale (p : NT α) (l t : α) : get_utp_scale (p.mapv h.φ) (h.φ l) (h.φ t) =
    Except.map h.φ (get_utp_scale p l t) := by
  unfold get_utp_scale get_utp_scale_lgm_ylo; hnat [h.usigmoid, h.lit, bind_assoc, pure_bind]

theorem tpeak_cen (p : NT α) (l t : α) (k : Key) (t0 : α) :
    PopGrad.mc_tpeak_singlecen F (p.mapv h.φ) (h.φ l) (h.φ t) k (h.φ t0) =
    RandM.map h.φ (PopGrad.mc_tpeak_singlecen E p l t k t0) := by
  unfold PopGrad.mc_tpeak_singlecen
  rw [h.lit_map, h.frac_peaked, randLiftMap, ← h.uniform, ← h.eps]
  simp only [randBindMap, randMapBind, randMapPure, ← h.lit, h.interp, ← h.jmax, ← h.mul]

theorem tpeak_sat (p : NT α) (k : Key) (l t : α) :
    PopGrad.mc_tpeak_singlesat F (p.mapv h.φ) k (h.φ l) (h.φ t) =
    RandM.map h.φ (PopGrad.mc_tpeak_singlesat E p k l t) := by
  unfold PopGrad.mc_tpeak_singlesat
  rw [h.utp_loc, h.utp_scale, randLiftMap, randLiftMap, ← h.uniform, ← h.eps]
  simp only [randBindMap, randMapBind, randMapPure]
  congr 1; funext loc; congr 1; funext scale; congr 1; funext u
  simp only [← h.lit, ← h.mul, ← h.sub, ← h.add, ← h.jmax, ← h.jmin, ← h.div, h.linspace]
  rw [List.map_map]
  simp only [Function.comp_def, ← h.cdf]
  rw [h.mul, ← h.interp, List.map_map]
  rfl

theorem draw_t_peak (kind : Kind) (p : NT α) (l t : α) (k : Key) (t0 : α) :
    PopGrad.draw_t_peak F kind (p.mapv h.φ) (h.φ l) (h.φ t) k (h.φ t0) =
    RandM.map h.φ (PopGrad.draw_t_peak E kind p l t k t0) := by
  unfold PopGrad.draw_t_peak
  rw [get_component_model_params_mapv, randLiftMap]
  simp only [randBindMap, randMapBind, ← h.pow10]
  cases kind <;> simp only [ComponentParams.mapv, h.tpeak_cen, h.tpeak_sat]

/-! Scatter -/

theorem cov_params (p : NT α) (l : α) : get_cov_params (p.mapv h.φ) (h.φ l) =
    Except.map (fun q => (q.1.map h.φ, q.2.map h.φ)) (get_cov_params p l) := by
  unfold get_cov_params
  rw [NT.fields_mapv]
  hnat [h.usigmoid, h.lit, List.map_cons, List.map_nil]

theorem cov (p : NT α) (l : α) : PopGrad.get_diffmahpop_cov (p.mapv h.φ) (h.φ l) =
    Except.map (fun s i j => h.φ (s i j)) (PopGrad.get_diffmahpop_cov p l) := by
  unfold PopGrad.get_diffmahpop_cov
  rw [h.cov_params, exceptBindMap, exceptMapBind]
  congr 1; funext q
  obtain ⟨d, o⟩ := q
  have hx : List.replicate (d.map h.φ).length (JOps.lit 1 : β) ++ o.map h.φ =
      (List.replicate d.length (JOps.lit 1 : α) ++ o).map h.φ := by
    rw [List.map_append, List.map_replicate, h.lit, List.length_map]
  change (if Utils.chol_ndim (List.replicate (d.map h.φ).length (JOps.lit 1 : β) ++ o.map h.φ).length = 4 then
      _ else _) = Except.map _ (if Utils.chol_ndim (List.replicate d.length (JOps.lit 1 : α) ++ o).length = 4 then
      _ else _)
  rw [hx, List.length_map]
  split
  · rw [exceptMapPure]
    congr 1
    funext i j
    simp only [h.mul, h.getD]
    congr 2
    unfold corr_entry chol_entry
    simp only [List.length_map, h.getD]
    split
    · rfl
    · split
      · rw [h.whereZero, h.lit]
      · rfl
  · rfl

theorem unbounded_param (u : α) (b : ℝ × ℝ) :
    h.φ (get_unbounded_diffmah_param u b) = get_unbounded_diffmah_param (h.φ u) b := by
  simp only [get_unbounded_diffmah_param, inverse_sigmoid, h.lit, h.add, h.mul, h.sub, h.div, h.ln]

theorem bounded_diffmah_param (u : α) (b : ℝ × ℝ) :
    h.φ (get_bounded_diffmah_param u b) = get_bounded_diffmah_param (h.φ u) b := by
  simp only [get_bounded_diffmah_param, sigmoid, h.lit, h.add, h.mul, h.sub, h.sigm]

theorem unbounded_mah (p : MahParams α) :
    get_unbounded_mah_params (p.map h.φ) = (get_unbounded_mah_params p).map h.φ := by
  simp only [get_unbounded_mah_params, MahParams.map, MahUParams.map, get_u_early_late, h.unbounded_param,
    inverse_sigmoid, h.lit, h.sub, h.div, h.ln]

theorem bounded_mah (u : MahUParams α) :
    get_bounded_mah_params (u.map h.φ) = (get_bounded_mah_params u).map h.φ := by
  simp only [get_bounded_mah_params, MahParams.map, MahUParams.map, get_early_late, h.bounded_diffmah_param,
    sigmoid, h.lit, h.mul, h.sub, h.add, h.sigm]

theorem scatter (k : Key) (m : MahParams α) (s : Fin 4 → Fin 4 → α) :
    PopGrad.scatter F k (m.map h.φ) (fun i j => h.φ (s i j)) =
    RandM.map (MahParams.map h.φ) (PopGrad.scatter E k m s) := by
  unfold PopGrad.scatter
  simp only [h.unbounded_mah, MahUParams.map, ← h.mvn, randMapBind]
  rw [← randMapDraw, randBindMap]
  congr 1
  funext r
  rcases r with _ | ⟨a, _ | ⟨b, _ | ⟨c, _ | ⟨d, _ | ⟨e, r⟩⟩⟩⟩⟩
  · rfl
  · rfl
  · rfl
  · rfl
  · change pure _ = pure _
    congr 1
    exact h.bounded_mah ⟨a, b, c, d, _⟩
  · rfl

theorem mean_params (kind : Kind) (p : NT α) (l t : α) (k : Key) (t0 : α) :
    PopGrad.mean_diffmah_params F kind (p.mapv h.φ) (h.φ l) (h.φ t) k (h.φ t0) =
    RandM.map (fun r => (r.1.map h.φ, r.2.1.map h.φ, h.φ r.2.2))
      (PopGrad.mean_diffmah_params E kind p l t k t0) := by
  unfold PopGrad.mean_diffmah_params
  simp only [h.draw_t_peak, randBindMap, randMapBind, h.mean_early, h.mean_late, h.frac_early, randLiftMap,
    randMapPure]

theorem params_single (kind : Kind) (p : NT α) (l t : α) (k : Key) (t0 : α) :
    PopGrad.mc_diffmah_params_single F kind (p.mapv h.φ) (h.φ l) (h.φ t) k (h.φ t0) =
    RandM.map (fun r => (r.1.map h.φ, r.2.1.map h.φ, h.φ r.2.2))
      (PopGrad.mc_diffmah_params_single E kind p l t k t0) := by
  unfold PopGrad.mc_diffmah_params_single
  simp only [h.mean_params, randBindMap, randMapBind, h.cov, randLiftMap, h.scatter, randMapPure]

/-! Histories and moments -/

theorem noq (p : MahParams α) (t l : α) :
    log_mah_noq_kern (p.map h.φ) (h.φ t) (h.φ l) = h.φ (log_mah_noq_kern p t l) := by
  simp only [log_mah_noq_kern, rolling_plaw_vs_t, rolling_plaw_vs_logt, power_law_index_vs_logt, sigmoid,
    MahParams.map, h.lit, h.mul, h.sub, h.add, h.sigm, h.log10]

theorem log_mah (p : MahParams α) (t l : α) :
    PopGrad.log_mah (p.map h.φ) (h.φ t) (h.φ l) = h.φ (PopGrad.log_mah p t l) := by
  unfold PopGrad.log_mah
  rw [h.whereLt, ← h.noq, ← h.noq]
  rfl

/-- Histories and early fraction of one halo, mapped. -/
def hist (r : List α × List α × α) : List β × List β × β := (r.1.map h.φ, r.2.1.map h.φ, h.φ r.2.2)

theorem single (kind : Kind) (p : NT α) (ts : List α) (l t : α) (k : Key) (t0 : α) :
    PopGrad.mc_diffmah_single F kind (p.mapv h.φ) (ts.map h.φ) (h.φ l) (h.φ t) k (h.φ t0) =
    RandM.map h.hist (PopGrad.mc_diffmah_single E kind p ts l t k t0) := by
  unfold PopGrad.mc_diffmah_single
  simp only [h.params_single, randBindMap, randMapBind, randMapPure, List.map_map, Function.comp_def, h.log_mah,
    hist]

theorem sample (kind : Kind) (p : NT α) (ts : List α) (l t : α) (k : Key) (t0 : α) (n : ℕ) :
    PopGrad.mc_diffmah_halo_sample F kind (p.mapv h.φ) (ts.map h.φ) (h.φ l) (h.φ t) k (h.φ t0) n =
    RandM.map (List.map h.hist) (PopGrad.mc_diffmah_halo_sample E kind p ts l t k t0 n) := by
  unfold PopGrad.mc_diffmah_halo_sample
  simp only [← h.lit, ← h.add, h.single, randAllMap]

theorem foldl_nat (l : List α) (a : α) : (l.map h.φ).foldl (· + ·) (h.φ a) = h.φ (l.foldl (· + ·) a) := by
  induction l generalizing a with
  | nil => rfl
  | cons b l ih => rw [List.map_cons, List.foldl_cons, List.foldl_cons, ← h.add, ih]

theorem jsum (l : List α) : PopGrad.jsum (l.map h.φ) = h.φ (PopGrad.jsum l) := by
  unfold PopGrad.jsum
  rw [← h.lit, h.foldl_nat]

theorem zipWith_nat (f : α → α → α) (g : β → β → β) (hfg : ∀ a b, h.φ (f a b) = g (h.φ a) (h.φ b))
    (l m : List α) : List.zipWith g (l.map h.φ) (m.map h.φ) = (List.zipWith f l m).map h.φ := by
  rw [List.zipWith_map, List.map_zipWith]
  simp only [hfg]

theorem moments (xe xl f : List α) : PopGrad.moments (xe.map h.φ) (xl.map h.φ) (f.map h.φ) =
    Prod.map h.φ h.φ (PopGrad.moments xe xl f) := by
  have e1 : ∀ c : ℝ, (f.map h.φ).map (fun x => x * (JOps.lit c : β)) =
      (f.map fun x => x * JOps.lit c).map h.φ := by
    intro c
    simp only [List.map_map, Function.comp_def, h.mul, h.lit]
  have e2 : ∀ c : ℝ, ((f.map h.φ).map (fun x => (JOps.lit 1.0 : β) - x)).map (fun x => x * (JOps.lit c : β)) =
      ((f.map fun x => JOps.lit 1.0 - x).map fun x => x * JOps.lit c).map h.φ := by
    intro c
    simp only [List.map_map, Function.comp_def, h.mul, h.lit, h.sub]
  have e3 : ∀ (m : α) (a b : List α), List.zipWith (fun x w => (x - h.φ m) * (x - h.φ m) * w) (a.map h.φ)
      (b.map h.φ) = (List.zipWith (fun x w => (x - m) * (x - m) * w) a b).map h.φ := by
    intro m a b
    exact h.zipWith_nat _ _ (fun a b => by simp only [h.mul, h.sub]) a b
  have e4 : ∀ (a b : List α), List.zipWith (· * ·) (a.map h.φ) (b.map h.φ) =
      (List.zipWith (· * ·) a b).map h.φ := h.zipWith_nat _ _ h.mul
  unfold PopGrad.moments
  simp only [List.length_map, e1, e2, e4, h.jsum, ← h.add, e3, ← h.sqrt, Prod.map]

theorem predict (kind : Kind) (p : NT α) (ts : List α) (l t : α) (k : Key) (t0 : α) :
    PopGrad.predict_mah_moments_singlebin F kind (p.mapv h.φ) (ts.map h.φ) (h.φ l) (h.φ t) k (h.φ t0) =
    RandM.map (List.map (Prod.map h.φ h.φ)) (PopGrad.predict_mah_moments_singlebin E kind p ts l t k t0) := by
  unfold PopGrad.predict_mah_moments_singlebin
  simp only [h.sample, randBindMap, randMapBind, randMapPure, List.length_map, List.map_map, Function.comp_def]
  congr 1; funext res; congr 1
  apply List.map_congr_left
  intro it _
  rw [← h.moments]
  simp only [List.map_map, Function.comp_def, hist, h.getD]

/-! Losses -/

theorem mse (x y : List α) : PopGrad.mse (x.map h.φ) (y.map h.φ) = Except.map h.φ (PopGrad.mse x y) := by
  unfold PopGrad.mse
  simp only [List.length_map]
  split
  · rw [exceptMapOk, h.div, h.lit, h.zipWith_nat (fun a b => b - a) _ (fun a b => h.sub b a)]
    rw [← h.jsum, List.map_map, List.map_map]
    simp only [List.length_map, Function.comp_def, h.mul]
  · rfl

theorem singlebin (kind : Kind) (p : NT α) (bin : PopLoss.Bin) (k : Key) (t0 : ℝ) :
    PopGrad.loss_mah_moments_singlebin F kind (p.mapv h.φ) bin k t0 =
    RandM.map h.φ (PopGrad.loss_mah_moments_singlebin E kind p bin k t0) := by
  unfold PopGrad.loss_mah_moments_singlebin
  rw [h.lit_map bin.tarr, ← h.lit, ← h.lit, ← h.lit, h.predict]
  simp only [randBindMap, randMapBind, randMapPure]
  congr 1; funext preds
  have e1 : (preds.map (Prod.map h.φ h.φ)).map (fun p => p.1) = (preds.map fun p => p.1).map h.φ := by
    simp [Function.comp_def]
  have e2 : (preds.map (Prod.map h.φ h.φ)).map (fun p => p.2) = (preds.map fun p => p.2).map h.φ := by
    simp [Function.comp_def]
  rw [e1, e2, h.lit_map bin.target_mean_log_mah, h.lit_map bin.target_std_log_mah, h.mse, h.mse, randLiftMap,
    randLiftMap]
  simp only [randBindMap, h.add]

theorem multibin (kind : Kind) (p : NT α) (bins : List PopLoss.Bin) (k : Key) (t0 : ℝ) :
    PopGrad.loss_mah_moments_multibin F kind (p.mapv h.φ) bins k t0 =
    RandM.map h.φ (PopGrad.loss_mah_moments_multibin E kind p bins k t0) := by
  unfold PopGrad.loss_mah_moments_multibin
  simp only [randMapBind, randMapPure, h.singlebin]
  have e : ∀ (f : PopLoss.Bin → Key → RandM α) (l : List PopLoss.Bin) (ks : List Key),
      RandM.all (List.zipWith (fun b k => RandM.map h.φ (f b k)) l ks) =
      RandM.map (List.map h.φ) (RandM.all (List.zipWith f l ks)) := by
    intro f l ks
    have := randAllMap h.φ (l.zip ks) fun q => f q.1 q.2
    simp only [List.zip, List.map_zipWith] at this
    exact this
  rw [e]
  simp only [randBindMap, h.jsum, h.div, h.lit, List.length_map]

theorem loss_u (u : NT α) (bins : List PopLoss.Bin) (k : Key) (t0 : ℝ) :
    PopGrad.loss_mah_moments_multibin_u_params F (u.mapv h.φ) bins k t0 =
    RandM.map h.φ (PopGrad.loss_mah_moments_multibin_u_params E u bins k t0) := by
  unfold PopGrad.loss_mah_moments_multibin_u_params
  rw [h.params_of_u_params, randLiftMap]
  simp only [randBindMap, randMapBind, h.multibin]

theorem censat (p : NT α) (bc bs : List PopLoss.Bin) (k : Key) (t0 : ℝ) :
    PopGrad.loss_mah_moments_multibin_censat F (p.mapv h.φ) bc bs k t0 =
    RandM.map h.φ (PopGrad.loss_mah_moments_multibin_censat E p bc bs k t0) := by
  unfold PopGrad.loss_mah_moments_multibin_censat
  rw [h.lit_mapv, NT.replace_mapv, randLiftMap]
  simp only [randBindMap, randMapBind, randMapPure, h.multibin, h.add]

theorem censat_u (u : NT α) (bc bs : List PopLoss.Bin) (k : Key) (t0 : ℝ) :
    PopGrad.loss_mah_moments_multibin_censat_u_params F (u.mapv h.φ) bc bs k t0 =
    RandM.map h.φ (PopGrad.loss_mah_moments_multibin_censat_u_params E u bc bs k t0) := by
  unfold PopGrad.loss_mah_moments_multibin_censat_u_params
  rw [h.params_of_u_params, randLiftMap]
  simp only [randBindMap, randMapBind, h.censat]

end Hom

end Diffmah

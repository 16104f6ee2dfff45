import Verif.Lemmas.TPeak
import Verif.Model.PopLoss
import Verif.Props.PopKernels

/-!
# Lemmas about the Monte Carlo generators
-/

set_option maxRecDepth 10000

namespace Diffmah

namespace RandM

variable {β γ : Type}

theorem ok_inj {b c : β} {ks ks' : List Key} (h : (Except.ok (b, ks) : RandM β) = Except.ok (c, ks')) :
    c = b ∧ ks' = ks := by
  have h' : (b, ks) = (c, ks') := Except.ok.inj (ε := PyErr) h
  exact ⟨(congrArg Prod.fst h').symm, (congrArg Prod.snd h').symm⟩

theorem bind_inv {m : RandM β} {f : β → RandM γ} {c : γ} {ks : List Key}
    (h : (m >>= f) = Except.ok (c, ks)) :
    ∃ b k1 k2, m = Except.ok (b, k1) ∧ f b = Except.ok (c, k2) ∧ ks = k1 ++ k2 := by
  change RandM.bind m f = _ at h
  unfold RandM.bind at h
  split at h
  · cases h
  · rename_i b k1 
    split at h
    · cases h
    · rename_i c' k2 h2
      obtain ⟨rfl, rfl⟩ := ok_inj h
      exact ⟨b, k1, k2, rfl, h2, rfl⟩

theorem lift_inv {m : Except PyErr β} {b : β} {ks : List Key} (h : RandM.lift m = Except.ok (b, ks)) :
    m = .ok b ∧ ks = [] := by
  unfold RandM.lift at h
  split at h
  · cases h
  · obtain ⟨rfl, rfl⟩ := ok_inj h
    exact ⟨rfl, rfl⟩

theorem pure_inv {b c : β} {ks : List Key} (h : (Pure.pure b : RandM β) = Except.ok (c, ks)) :
    c = b ∧ ks = [] := ok_inj h

theorem draw_inv {k : Key} {b c : β} {ks : List Key} (h : RandM.draw k b = Except.ok (c, ks)) :
    c = b ∧ ks = [k] := ok_inj h

theorem all_inv {ms : List (RandM β)} {vs : List β} {ks : List Key}
    (h : RandM.all ms = Except.ok (vs, ks)) :
    ∃ kss : List (List Key), ks = kss.flatten ∧ kss.length = ms.length ∧ vs.length = ms.length ∧
      ∀ (i : ℕ) m, ms[i]? = some m → ∃ v k, vs[i]? = some v ∧ kss[i]? = some k ∧
        m = Except.ok (v, k) := by
  induction ms generalizing vs ks with
  | nil =>
    obtain ⟨rfl, rfl⟩ := pure_inv h
    exact ⟨[], rfl, rfl, rfl, fun i m hm => by simp at hm⟩
  | cons m ms ih =>
    obtain ⟨b, k1, k2, h1, h2, rfl⟩ := bind_inv (m := m) h
    obtain ⟨bs, k3, k4, h3, h4, rfl⟩ := bind_inv (m := RandM.all ms) h2
    obtain ⟨rfl, rfl⟩ := pure_inv h4
    obtain ⟨kss, rfl, l1, l2, h5⟩ := ih h3
    refine ⟨k1 :: kss, by simp, by simp [l1], by simp [l2], ?_⟩
    intro i m' hm'
    cases i with
    | zero => 
      simp only [List.getElem?_cons_zero, Option.some.injEq] at hm'
      subst hm'
      exact ⟨b, k1, by simp, by simp, h1⟩
    | succ i =>
      simp only [List.getElem?_cons_succ] at hm' ⊢
      exact h5 i m' hm'

end RandM

open Pop TPeak PopParams MC

/-! ### Components of a full parameter set -/

theorem lookup_block {blocks : List (NT ℝ)} (hn : (NT.fields blocks.flatten).Nodup) {q : NT ℝ}
    (hq : q ∈ blocks) {n : String} (hm : n ∈ q.fields) :
    q.lookup n = List.lookup n blocks.flatten := by
  obtain ⟨v, hv⟩ := NT.lookup_isSome hm
  rw [hv, NT.lookup_of_mem hn (List.mem_flatten.2 ⟨q, hq, NT.mem_of_lookup hv⟩)]

theorem bounded_block {blocks : List (NT ℝ)} (hn : (NT.fields blocks.flatten).Nodup) {q : NT ℝ}
    (hq : q ∈ blocks) {c : Component} (hc : c.Wf) (hf : q.fields = c.fields)
    (hb : Spec.Bounded c.bounds blocks.flatten) : Spec.Bounded c.bounds q := by
  intro b hb'
  obtain ⟨v, hv, h1, h2⟩ := hb b hb'
  refine ⟨v, ?_, h1, h2⟩
  rw [lookup_block hn hq, hv]
  rw [hf, ← hc.same]
  exact List.mem_map.2 ⟨b, hb', rfl⟩

structure ComponentsBounded (c : ComponentParams ℝ) : Prop where
  tp_cens : Spec.Bounded TPCENS.bounds c.tp_cens
  tp_sats : Spec.Bounded TPSATS.bounds c.tp_sats
  logm0 : Spec.Bounded LOGM0_BIMOD.bounds c.logm0
  logm0_sats : Spec.Bounded LOGM0_BIMOD_SATS.bounds c.logm0_sats
  logtc : Spec.Bounded LOGTC_BIMOD.bounds c.logtc
  early_index : Spec.Bounded EARLY_INDEX_BIMOD.bounds c.early_index
  late_index : Spec.Bounded LATE_INDEX_BIMOD.bounds c.late_index

theorem components_bounded {p : NT ℝ} (hp : p.map Prod.fst = FIELDS) (hb : AllInBounds p) :
    ∃ c, get_component_model_params p = .ok c ∧ ComponentsBounded c := by
  obtain ⟨c, hc, hfl, hnames⟩ := C50_partition p hp
  refine ⟨c, hc, ?_⟩
  have hn : (NT.fields c.toList.flatten).Nodup := by
    rw [hfl]
    show (p.map Prod.fst).Nodup
    rw [hp, FIELDS_eq]; exact NAMES_nodup
  simp only [ComponentParams.toList, COMPONENT_PDICTS, List.map_cons, List.map_nil, List.cons.injEq,
    and_true] at hnames
  obtain ⟨n1, n2, n3, n4, n5, n6, n7, n8, n9⟩ := hnames
  obtain ⟨b1, b2, b3, b4, b5, b6, b7, b8, b9⟩ := hb
  rw [← hfl] at b1 b2 b3 b4 b5 b6 b7
  constructor
  · exact bounded_block hn (by simp [ComponentParams.toList]) TPCENS_wf n1 b1
  · exact bounded_block hn (by simp [ComponentParams.toList]) TPSATS_wf n2 b2
  · exact bounded_block hn (by simp [ComponentParams.toList]) LOGM0_BIMOD_wf n3 b3
  · exact bounded_block hn (by simp [ComponentParams.toList]) LOGM0_BIMOD_SATS_wf n4 b4
  · exact bounded_block hn (by simp [ComponentParams.toList]) LOGTC_BIMOD_wf n5 b5
  · exact bounded_block hn (by simp [ComponentParams.toList]) EARLY_INDEX_BIMOD_wf n6 b6
  · exact bounded_block hn (by simp [ComponentParams.toList]) LATE_INDEX_BIMOD_wf n7 b7

end Diffmah

import Verif.Spec.TtvRelabel
import Verif.Lemmas.Ttv2
import Verif.Lemmas.TtvSystem

/-!
# The regression and the list of transit times under relabelling
-/

namespace Exo
open Real

variable {inds inds' : List ℕ} {vals vals' : List ℝ}

theorem SameTransits.symm (h : SameTransits inds vals inds' vals') : SameTransits inds' vals' inds vals where
  length := h.length'
  length' := h.length
  perm := h.perm.symm
  nodup := by
    have := h.perm.map Prod.fst
    rw [List.map_fst_zip (by rw [h.length]), List.map_fst_zip (by rw [h.length'])] at this
    exact this.nodup_iff.1 h.nodup

theorem SameTransits.inds_perm (h : SameTransits inds vals inds' vals') : inds.Perm inds' := by
  have := h.perm.map Prod.fst
  rwa [List.map_fst_zip (by rw [h.length]), List.map_fst_zip (by rw [h.length'])] at this

theorem SameTransits.vals_perm (h : SameTransits inds vals inds' vals') : vals.Perm vals' := by
  have := h.perm.map Prod.snd
  rwa [List.map_snd_zip (by rw [h.length]), List.map_snd_zip (by rw [h.length'])] at this

theorem zipWith_eq_map_zip {α β γ : Type} (f : α → β → γ) (l : List α) (l' : List β) :
    List.zipWith f l l' = (List.zip l l').map (fun q => f q.1 q.2) := by
  rw [List.zip, List.map_zipWith]

/-- The regression does not see the order of the transits. -/
theorem SameTransits.linFit (h : SameTransits inds vals inds' vals') : linFit inds vals = linFit inds' vals' := by
  unfold Exo.linFit
  have e1 := (h.inds_perm.map (fun i : ℕ => (i : ℝ))).sum_eq
  have e2 := (h.inds_perm.map (fun i : ℕ => (i : ℝ) ^ 2)).sum_eq
  have e3 := h.vals_perm.sum_eq
  have e4 : (List.zipWith (fun (i : ℕ) y => (i : ℝ) * y) inds vals).sum =
      (List.zipWith (fun (i : ℕ) y => (i : ℝ) * y) inds' vals').sum := by
    rw [zipWith_eq_map_zip, zipWith_eq_map_zip]
    exact (h.perm.map _).sum_eq
  have e5 := h.vals_perm.length_eq
  simp only [e1, e2, e3, e4, e5]

theorem max?_perm {l l' : List ℕ} (h : l.Perm l') : l.max? = l'.max? := by
  rcases hm : l'.max? with _ | m
  · rw [List.max?_eq_none_iff] at hm ⊢
    rw [hm] at h
    exact h.eq_nil
  · rw [List.max?_eq_some_iff] at hm ⊢
    exact ⟨h.mem_iff.2 hm.1, fun b hb => hm.2 b (h.mem_iff.1 hb)⟩

/-- Nor does the assignment of the labelled transit times. -/
theorem SameTransits.setSubtensor (h : SameTransits inds vals inds' vals') (e : List ℝ) :
    setSubtensor e inds vals = setSubtensor e inds' vals' := by
  unfold Exo.setSubtensor
  refine h.perm.foldl_eq' (fun x hx y hy z => ?_) e
  by_cases hxy : x.1 = y.1
  · have : x = y := by
      obtain ⟨i, hi, rfl⟩ := List.mem_iff_getElem.1 hx
      obtain ⟨j, hj, rfl⟩ := List.mem_iff_getElem.1 hy
      simp only [List.getElem_zip] at hxy
      have := (List.Nodup.getElem_inj_iff h.nodup).1 hxy
      subst this
      rfl
    rw [this]
  · rw [List.set_comm _ _ hxy]

theorem SameTransits.allTransitTimes (h : SameTransits inds vals inds' vals') (t0 P : ℝ) :
    allTransitTimes t0 P inds vals = allTransitTimes t0 P inds' vals' := by
  unfold Exo.allTransitTimes
  rw [max?_perm h.inds_perm]
  split
  · rfl
  · simp only [h.setSubtensor]

theorem SameTransits.map (h : SameTransits inds vals inds' vals') (f : ℕ → ℝ → ℝ) :
    SameTransits inds (List.zipWith f inds vals) inds' (List.zipWith f inds' vals') where
  length := by simp [h.length]
  length' := by simp [h.length']
  perm := by
    have e : ∀ (a : List ℕ) (b : List ℝ), List.zip a (List.zipWith f a b) = (List.zip a b).map (fun q => (q.1, f q.1 q.2)) := by
      intro a
      induction a with
      | nil => simp
      | cons x a ih =>
        rintro (_ | ⟨y, b⟩)
        · simp
        · simp [ih]
    rw [e, e]
    exact h.perm.map _
  nodup := h.nodup

theorem SameTransits.ttvFinish (h : SameTransits inds vals inds' vals') (o : Orbit) (P : ℝ) (res res' : List ℝ) :
    (∀ e, ttvFinish o P inds vals res = .error e → ttvFinish o P inds' vals' res' = .error e) ∧
    ∀ T, ttvFinish o P inds vals res = .ok T →
      ttvFinish o P inds' vals' res' =
        .ok (T.map fun T => { T with transit_times := vals', ttvs := res', transit_inds := inds' }) := by
  unfold Exo.ttvFinish
  rw [h.allTransitTimes]
  constructor
  · intro e he
    split at he
    · exact he
    · cases he
  · intro T hT
    split at hT
    · cases hT
    next tts htts =>
    simp only [Except.ok.injEq] at hT
    subst hT
    rfl

end Exo

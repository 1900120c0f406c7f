import Verif.Model.Eccentricity

/-!
# Lemmas on keyword dictionaries and registrations
-/

namespace Exo
open scoped ENNReal

namespace Kwargs

theorem mem_false_iff {d : Kwargs} {k : String} : d.mem k = false ↔ ∀ p ∈ d, p.1 ≠ k := by
  unfold mem
  rw [List.any_eq_false]
  simp

theorem del_of_not_mem {d : Kwargs} {k : String} (h : d.mem k = false) : d.del k = d := by
  unfold del
  rw [List.filter_eq_self]
  intro p hp
  simpa using mem_false_iff.1 h p hp

theorem mem_del_self (d : Kwargs) (k : String) : (d.del k).mem k = false := by
  rw [mem_false_iff]
  intro p hp
  unfold del at hp
  simpa using (List.mem_filter.1 hp).2

theorem mem_del_of {d : Kwargs} {k k' : String} (h : d.mem k = false) : (d.del k').mem k = false := by
  rw [mem_false_iff] at h ⊢
  exact fun p hp => h p (List.mem_of_mem_filter hp)

theorem mem_append (d e : Kwargs) (k : String) : (d ++ e).mem k = (d.mem k || e.mem k) := by
  unfold mem; rw [List.any_append]

theorem mem_set_ne {d : Kwargs} {k k' : String} (v : Val) (hk : k' ≠ k) (h : d.mem k = false) : (d.set k' v).mem k = false := by
  unfold set
  rw [mem_append, mem_del_of h]
  simp [mem, hk]

theorem get_of_not_mem {d : Kwargs} {k : String} (h : d.mem k = false) (v : Val) : d.get k v = v := by
  unfold get
  rw [List.find?_eq_none.2]
  intro p hp
  simpa using mem_false_iff.1 h p hp

theorem get_append_left_not_mem {d e : Kwargs} {k : String} (h : d.mem k = false) (v : Val) : (d ++ e).get k v = e.get k v := by
  unfold get
  rw [List.find?_append, List.find?_eq_none.2]
  · simp
  · intro p hp
    simpa using mem_false_iff.1 h p hp

theorem get_append_right_not_mem {d e : Kwargs} {k : String} (h : e.mem k = false) (v : Val) : (d ++ e).get k v = d.get k v := by
  have he := get_of_not_mem h v
  unfold get at *
  rw [List.find?_append]
  cases hd : d.find? (fun p => p.1 == k) with
  | some p => simp
  | none => simpa using he

theorem get_cons_self (k : String) (v w : Val) (d : Kwargs) : Kwargs.get ((k, v) :: d) k w = v := by
  unfold get; simp

theorem get_cons_ne {k k' : String} (h : k' ≠ k) (v w : Val) (d : Kwargs) : Kwargs.get ((k', v) :: d) k w = d.get k w := by
  unfold get; simp [h]

theorem get_del_ne {d : Kwargs} {k k' : String} (h : k' ≠ k) (v : Val) : (d.del k').get k v = d.get k v := by
  unfold get del
  congr 1
  induction d with
  | nil => rfl
  | cons p d ih =>
    by_cases hp : p.1 = k'
    · rw [List.filter_cons_of_neg (by simp [hp]), ih, List.find?_cons_of_neg (by simp [hp, h])]
    · rw [List.filter_cons_of_pos (by simp [hp])]
      by_cases hk : p.1 = k
      · rw [List.find?_cons_of_pos (by simp [hk]), List.find?_cons_of_pos (by simp [hk])]
      · rw [List.find?_cons_of_neg (by simp [hk]), List.find?_cons_of_neg (by simp [hk]), ih]

theorem get_set_self (d : Kwargs) (k : String) (v w : Val) : (d.set k v).get k w = v := by
  unfold set
  rw [get_append_left_not_mem (mem_del_self d k)]
  exact get_cons_self k v w []

theorem get_set_ne {d : Kwargs} {k k' : String} (h : k' ≠ k) (v w : Val) : (d.set k' v).get k w = d.get k w := by
  unfold set
  rw [get_append_right_not_mem (by simp [mem, h]), get_del_ne h]

theorem mem_set_self (d : Kwargs) (k : String) (v : Val) : (d.set k v).mem k = true := by
  unfold set; rw [mem_append]; simp [mem]

theorem del_comm (d : Kwargs) (k k' : String) : (d.del k).del k' = (d.del k').del k := by
  unfold del
  rw [List.filter_filter, List.filter_filter]
  congr 1
  funext p
  rw [Bool.and_comm]

theorem del_append (d e : Kwargs) (k : String) : del (d ++ e) k = d.del k ++ del e k := List.filter_append ..

theorem del_del (d : Kwargs) (k : String) : (d.del k).del k = d.del k := del_of_not_mem (mem_del_self d k)

theorem del_set_self (d : Kwargs) (k : String) (v : Val) : (d.set k v).del k = d.del k := by
  unfold set; rw [del_append, del_del]; simp [del]

theorem del_set_ne {k k' : String} (h : k' ≠ k) (d : Kwargs) (v : Val) : (d.set k' v).del k = (d.del k).set k' v := by
  unfold set; rw [del_append, del_comm d k' k]; simp [del, h]

end Kwargs

open Kwargs

/-- The dictionary without the two spellings of the start value. -/
def strip (d : Kwargs) : Kwargs := (d.del "testval").del "initval"

theorem strip_initval (d : Kwargs) : (strip d).mem "initval" = false := mem_del_self _ _
theorem strip_testval (d : Kwargs) : (strip d).mem "testval" = false := mem_del_of (mem_del_self _ _)

theorem popInitval_eq (d : Kwargs) (v : Val) : popInitval d v = (d.get "initval" (d.get "testval" v), strip d) := by
  unfold popInitval pop strip
  simp only
  rw [get_del_ne (by decide)]

theorem startKey_ne (b : Backend) {k : String} (h1 : k ≠ "initval") (h2 : k ≠ "testval") : b.startKey ≠ k := by
  cases b
  · exact h2.symm
  · exact h1.symm

theorem withInitval_eq (b : Backend) (d : Kwargs) :
    withInitval b d = strip d ++ [(b.startKey, d.get "initval" (d.get "testval" .none))] := by
  unfold withInitval
  rw [popInitval_eq]
  simp only
  unfold Kwargs.set
  rw [del_of_not_mem (by cases b; exact strip_testval d; exact strip_initval d)]

theorem withInitvalOf_eq (b : Backend) (v : Val) {d : Kwargs} (h1 : d.mem "initval" = false) (h2 : d.mem "testval" = false) :
    withInitvalOf b v d = .ok (d ++ [(b.startKey, v)]) := by
  unfold withInitvalOf merge
  simp only [List.any_cons, List.any_nil, h1, Bool.or_false, Bool.false_eq_true, if_false]
  rw [withInitval_eq, List.singleton_append, get_cons_self]
  have : strip (("initval", v) :: d) = d := by
    unfold strip
    rw [← List.singleton_append, del_append, del_append, del_of_not_mem (d := d) h2, del_of_not_mem (d := d) h1]
    simp [del]
  rw [this]

/-- The dictionary with limits set. -/
theorem limits_noStart {d : Kwargs} (lo hi : Val) {k : String} (hk : "lower" ≠ k) (hk' : "upper" ≠ k) (h : d.mem k = false) :
    ((d.set "lower" lo).set "upper" hi).mem k = false := mem_set_ne _ hk' (mem_set_ne _ hk h)

theorem twoState_fst {n1 n2 : String} (h : n1 ≠ n2) (p : ℝ × ℝ) : twoState n1 n2 p n1 = p.1 := by
  unfold twoState; simp [h]

theorem twoState_snd (n1 n2 : String) (p : ℝ × ℝ) : twoState n1 n2 p n2 = p.2 := by
  unfold twoState; simp

end Exo

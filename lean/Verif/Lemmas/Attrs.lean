import Verif.Base
/-!
# Attribute lists
-/

namespace Ramrod

theorem Attrs.get?_set (as : Attrs) (k k' : QName) (v : String) :
    (Attrs.set as k v).get? k' = if k = k' then some v else Attrs.get? as k' := by
  induction as with
  | nil => simp [Attrs.set, Attrs.get?]
  | cons x xs ih =>
    obtain ⟨k1, v1⟩ := x
    by_cases h : k1 = k
    · subst h
      by_cases h2 : k1 = k' <;> simp [Attrs.set, Attrs.get?, h2]
    · by_cases h2 : k1 = k'
      · subst h2
        have : ¬ k = k1 := fun e => h e.symm
        simp [Attrs.set, Attrs.get?, h, this]
      · simp [Attrs.set, Attrs.get?, h, h2, ih]

theorem Attrs.get?_del (as : Attrs) (k k' : QName) :
    (Attrs.del as k).get? k' = if k = k' then none else Attrs.get? as k' := by
  induction as with
  | nil => simp [Attrs.del, Attrs.get?]
  | cons x xs ih =>
    obtain ⟨k1, v1⟩ := x
    unfold Attrs.del at ih ⊢
    by_cases h : k1 = k
    · subst h
      rw [List.filter_cons_of_neg (by simp), ih]
      by_cases h2 : k1 = k' <;> simp [Attrs.get?, h2]
    · rw [List.filter_cons_of_pos (by simp [h])]
      by_cases h2 : k1 = k'
      · subst h2
        have : ¬ k = k1 := fun e => h e.symm
        simp [Attrs.get?, this]
      · simp only [Attrs.get?, h2, if_false, ih]

theorem Elem.get?_set (e : Elem) (k k' : QName) (v : String) :
    (e.set k v).get? k' = if k = k' then some v else e.get? k' := Attrs.get?_set e.attrs k k' v

theorem Elem.get?_del (e : Elem) (k k' : QName) :
    (e.del k).get? k' = if k = k' then none else e.get? k' := Attrs.get?_del e.attrs k k'

theorem Elem.set_tag (e : Elem) (k : QName) (v : String) : (e.set k v).tag = e.tag := rfl
theorem Elem.set_decls (e : Elem) (k : QName) (v : String) : (e.set k v).decls = e.decls := rfl
theorem Elem.set_text (e : Elem) (k : QName) (v : String) : (e.set k v).text = e.text := rfl
theorem Elem.set_tail (e : Elem) (k : QName) (v : String) : (e.set k v).tail = e.tail := rfl
theorem Elem.del_tag (e : Elem) (k : QName) : (e.del k).tag = e.tag := rfl
theorem Elem.del_decls (e : Elem) (k : QName) : (e.del k).decls = e.decls := rfl

theorem Elem.has_eq (e : Elem) (k : QName) : e.has k = (e.get? k).isSome := rfl

theorem Elem.has_set (e : Elem) (k k' : QName) (v : String) :
    (e.set k v).has k' = (decide (k = k') || e.has k') := by
  rw [Elem.has_eq, Elem.get?_set, Elem.has_eq]
  by_cases h : k = k' <;> simp [h]

theorem updateSchemalocsElem_tag (u : Cls) (e : Elem) : (u.updateSchemalocsElem e).tag = e.tag := by
  unfold Cls.updateSchemalocsElem; split <;> rfl

theorem updateSchemalocsElem_decls (u : Cls) (e : Elem) : (u.updateSchemalocsElem e).decls = e.decls := by
  unfold Cls.updateSchemalocsElem; split <;> rfl

theorem updateSchemalocsElem_get? (u : Cls) (e : Elem) {k : QName} (h : k ≠ tagSchemaLoc) :
    (u.updateSchemalocsElem e).get? k = e.get? k := by
  unfold Cls.updateSchemalocsElem
  split
  · rfl
  · rw [Elem.get?_set, if_neg (Ne.symm h)]

end Ramrod

import Verif.Base
/-!
# Python dictionaries as association lists
-/

namespace Ramrod

variable {β : Type}

/-- The keys are distinct. -/
def KeysNodup (m : List (String × β)) : Prop := (m.map (·.1)).Nodup

theorem dictSet_keys (m : List (String × β)) (k : String) (v : β) :
    (dictSet m k v).map (·.1) = if k ∈ m.map (·.1) then m.map (·.1) else m.map (·.1) ++ [k] := by
  induction m with
  | nil => simp [dictSet]
  | cons x xs ih =>
    obtain ⟨k', v'⟩ := x
    by_cases h : k' = k
    · simp [dictSet, h]
    · have h2 : k ≠ k' := Ne.symm h
      simp only [dictSet, h, if_false, List.map_cons, ih, List.mem_cons, h2, false_or]
      split <;> simp

theorem dictSet_nodup {m : List (String × β)} (h : KeysNodup m) (k : String) (v : β) :
    KeysNodup (dictSet m k v) := by
  unfold KeysNodup at *
  rw [dictSet_keys]
  split
  · exact h
  · next hk =>
    rw [List.nodup_append]
    refine ⟨h, by simp, ?_⟩
    intro a ha b hb hab
    simp only [List.mem_singleton] at hb
    subst hb; subst hab
    exact hk ha

theorem dictUpdate_nodup {a : List (String × β)} (h : KeysNodup a) (b : List (String × β)) :
    KeysNodup (dictUpdate a b) := by
  induction b generalizing a with
  | nil => exact h
  | cons x xs ih => exact ih (dictSet_nodup h _ _)

theorem dictSet_dictSet_same (m : List (String × β)) (k : String) (v v' : β) :
    dictSet (dictSet m k v) k v' = dictSet m k v' := by
  induction m with
  | nil => simp [dictSet]
  | cons x xs ih =>
    obtain ⟨k1, v1⟩ := x
    by_cases h : k1 = k <;> simp [dictSet, h, ih]

theorem dictSet_comm_of_mem (m : List (String × β)) {k k' : String} (v v' : β) (hne : k ≠ k')
    (hk : k ∈ m.map (·.1)) : dictSet (dictSet m k' v') k v = dictSet (dictSet m k v) k' v' := by
  induction m with
  | nil => simp at hk
  | cons x xs ih =>
    obtain ⟨k1, v1⟩ := x
    by_cases h : k1 = k
    · subst h
      simp [dictSet, hne]
    · have hk' : k ∈ xs.map (·.1) := by
        simp only [List.map_cons, List.mem_cons] at hk
        rcases hk with hk | hk
        · exact absurd hk.symm h
        · exact hk
      by_cases h2 : k1 = k'
      · subst h2; simp [dictSet, h]
      · simp [dictSet, h, h2, ih hk']

theorem mem_keys_dictSet (m : List (String × β)) (k k' : String) (v : β) :
    k' ∈ (dictSet m k v).map (·.1) ↔ k' = k ∨ k' ∈ m.map (·.1) := by
  rw [dictSet_keys]
  split
  · next h =>
    constructor
    · intro h'; exact Or.inr h'
    · rintro (rfl | h') <;> assumption
  · simp only [List.mem_append, List.mem_singleton]; exact Or.comm

theorem dictUpdate_overwrite (rest : List (String × β)) (k : String) (v v' : β) :
    ∀ (a : List (String × β)), k ∉ rest.map (·.1) →
    dictUpdate (dictSet a k v) rest = dictSet (dictUpdate (dictSet a k v') rest) k v := by
  induction rest with
  | nil => intro a _; simp [dictUpdate, dictSet_dictSet_same]
  | cons x xs ih =>
    intro a hk
    obtain ⟨k1, v1⟩ := x
    simp only [List.map_cons, List.mem_cons, not_or] at hk
    have hmem : ∀ u : β, k ∈ (dictSet a k u).map (·.1) := fun u => (mem_keys_dictSet a k k u).2 (Or.inl rfl)
    simp only [dictUpdate, List.foldl_cons]
    -- move the assignment of `k` to the front
    have swap : ∀ u : β, dictSet (dictSet a k u) k1 v1 = dictSet (dictSet (dictSet a k u) k1 v1) k u := by
      intro u
      rw [dictSet_comm_of_mem _ _ _ hk.1 (hmem u), dictSet_dictSet_same]
    have hb : dictSet (dictSet a k v) k1 v1 = dictSet (dictSet (dictSet a k v') k1 v1) k v := by
      rw [dictSet_comm_of_mem _ _ _ hk.1 (hmem v'), dictSet_dictSet_same]
    have hb' := swap v'
    rw [hb]
    have := ih (dictSet (dictSet a k v') k1 v1) hk.2
    rw [dictUpdate, dictUpdate, ← hb'] at this
    exact this

theorem dictUpdate_dictSet (b : List (String × β)) (k : String) (v : β) :
    ∀ (a : List (String × β)), KeysNodup b →
    dictUpdate a (dictSet b k v) = dictSet (dictUpdate a b) k v := by
  induction b with
  | nil => intro a _; rfl
  | cons x xs ih =>
    intro a hb
    obtain ⟨k1, v1⟩ := x
    have hb' := List.nodup_cons.1 hb
    by_cases h : k1 = k
    · subst h
      simp only [dictSet, if_true, dictUpdate, List.foldl_cons]
      exact dictUpdate_overwrite xs k1 v v1 a hb'.1
    · simp only [dictSet, h, if_false]
      exact ih (dictSet a k1 v1) hb'.2

theorem dictUpdate_assoc (c : List (String × β)) : ∀ (a b : List (String × β)), KeysNodup b →
    dictUpdate a (dictUpdate b c) = dictUpdate (dictUpdate a b) c := by
  induction c with
  | nil => intro a b _; rfl
  | cons x xs ih =>
    intro a b hb
    have : dictUpdate b (x :: xs) = dictUpdate (dictSet b x.1 x.2) xs := rfl
    rw [this, ih a _ (dictSet_nodup hb _ _), dictUpdate_dictSet b x.1 x.2 a hb]
    rfl

theorem keysNodup_nil : KeysNodup ([] : List (String × β)) := List.nodup_nil

theorem dictUpdate_nil_left (a b : List (String × β)) :
    dictUpdate a (dictUpdate [] b) = dictUpdate a b := by
  rw [dictUpdate_assoc b a [] keysNodup_nil]; rfl

theorem assoc_dictSet (m : List (String × β)) (k k' : String) (v : β) :
    assoc (dictSet m k v) k' = if k = k' then some v else assoc m k' := by
  induction m with
  | nil => simp [dictSet, assoc]
  | cons x xs ih =>
    obtain ⟨k1, v1⟩ := x
    by_cases h : k1 = k
    · subst h
      by_cases h2 : k1 = k' <;> simp [dictSet, assoc, h2]
    · by_cases h2 : k1 = k'
      · subst h2
        have : ¬ k = k1 := fun e => h e.symm
        simp [dictSet, assoc, h, this]
      · simp [dictSet, assoc, h, h2, ih]

theorem assoc_none_of_not_mem {m : List (String × β)} {k : String} (h : k ∉ m.map (·.1)) : assoc m k = none := by
  induction m with
  | nil => rfl
  | cons x xs ih =>
    obtain ⟨k1, v1⟩ := x
    simp only [List.map_cons, List.mem_cons, not_or] at h
    have : ¬ k1 = k := fun e => h.1 e.symm
    simp [assoc, this, ih h.2]

/-- Lookup after `a.update(b)`: the value of `b` if it has the key, else that of `a`. -/
theorem assoc_dictUpdate (b : List (String × β)) : ∀ (a : List (String × β)), KeysNodup b → ∀ k,
    assoc (dictUpdate a b) k = (assoc b k).or (assoc a k) := by
  induction b with
  | nil => intro a _ k; rfl
  | cons x xs ih =>
    intro a hb k
    obtain ⟨k1, v1⟩ := x
    have hb' := List.nodup_cons.1 hb
    have : dictUpdate a ((k1, v1) :: xs) = dictUpdate (dictSet a k1 v1) xs := rfl
    rw [this, ih _ hb'.2, assoc_dictSet]
    by_cases h : k1 = k
    · subst h
      rw [assoc_none_of_not_mem hb'.1]
      simp [assoc]
    · simp [assoc, h]

end Ramrod

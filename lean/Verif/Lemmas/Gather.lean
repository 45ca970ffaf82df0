import Verif.Lemmas.Clean
/-!
# Counting what the elements of a document hold
-/

namespace Ramrod

/-- What the elements of a list hold, by some measure. -/
def held {α : Type} (m : Elem → List α) (l : List Ctx) : List α := l.flatMap (fun c => m c.e)

/-- What the elements of a document hold, by some measure, in document order. -/
def Node.gather {α : Type} (m : Elem → List α) (t : Node) : List α := held m t.elems

/-- The position is at or below one of these. -/
def under (ps : List Pos) (c : Ctx) : Bool := ps.any (fun p => decide (p <:+ c.pos))

section
variable {α : Type} [DecidableEq α] (m : Elem → List α) (x : α)

theorem held_append (a b : List Ctx) : (held m (a ++ b)).count x = (held m a).count x + (held m b).count x := by
  simp [held, List.flatMap_append, List.count_append]

theorem held_cons (c : Ctx) (l : List Ctx) : (held m (c :: l)).count x = (m c.e).count x + (held m l).count x := by
  simp [held, List.count_append]

theorem held_split (p : Ctx → Bool) (l : List Ctx) :
    (held m l).count x = (held m (l.filter p)).count x + (held m (l.filter (fun c => !p c))).count x := by
  induction l with
  | nil => simp [held]
  | cons c l ih =>
    cases h : p c <;> simp only [List.filter_cons, h, Bool.not_false, Bool.not_true, Bool.false_eq_true, if_true, if_false, held_cons, ih] <;> omega

omit [DecidableEq α] in
theorem held_map (l : List Ctx) : held m l = (l.map (·.e)).flatMap m := by
  simp [held, List.flatMap_map]

theorem held_sublist {a b : List Ctx} (h : (a.map (·.e)).Sublist (b.map (·.e))) : (held m a).count x ≤ (held m b).count x := by
  rw [held_map, held_map]
  generalize a.map (·.e) = a at h
  generalize b.map (·.e) = b at h
  induction h with
  | slnil => exact Nat.le_refl _
  | cons e _ ih => simp only [List.flatMap_cons, List.count_append]; omega
  | cons_cons e _ ih => simp only [List.flatMap_cons, List.count_append]; omega

theorem held_subset : ∀ {a b : List Ctx}, a.Nodup → (∀ c ∈ a, c ∈ b) → (held m a).count x ≤ (held m b).count x
  | [], _, _, _ => by simp [held]
  | c :: a, b, hn, h => by
    obtain ⟨s, t, rfl⟩ := List.append_of_mem (h c (by simp))
    rw [List.nodup_cons] at hn
    have := held_subset (a := a) (b := s ++ t) hn.2 (fun d hd => by
      have hne : d ≠ c := fun e => hn.1 (e ▸ hd)
      have := h d (by simp [hd])
      simpa [hne] using this)
    rw [held_append] at this
    rw [held_cons, held_append, held_cons]
    omega

end

theorem elems_nodup' (t : Node) : t.elems.Nodup := by
  have := elems_nodup t
  rw [List.nodup_iff_pairwise_ne] at *
  exact (List.pairwise_map.1 this).imp (fun h e => h (by rw [e]))

mutual
theorem walk_e_indep (pos pos' : Pos) (env env' : NsMap) (anc anc' : List QName) : ∀ t : Node,
    (t.walk pos env anc).map (·.e) = (t.walk pos' env' anc').map (·.e)
  | .other _ _ => by simp [Node.walk]
  | .elem e ks => by
    simp only [Node.walk, List.map_cons]
    rw [walks_e_indep pos pos' 0 0 (e.decls ++ env) (e.decls ++ env') (e.tag :: anc) (e.tag :: anc') ks]
theorem walks_e_indep (pos pos' : Pos) (i i' : Nat) (env env' : NsMap) (anc anc' : List QName) : ∀ ks : List Node,
    (Node.walks pos i env anc ks).map (·.e) = (Node.walks pos' i' env' anc' ks).map (·.e)
  | [] => by simp [Node.walks]
  | k :: ks => by
    simp only [Node.walks, List.map_append]
    rw [walk_e_indep (i :: pos) (i' :: pos') env env' anc anc' k, walks_e_indep pos pos' (i + 1) (i' + 1) env env' anc anc' ks]
end

/-! ## A removal keeps what is under no removed position -/

theorem under_of_suffix {ps : List Pos} {p : Pos} {c : Ctx} (hp : p ∈ ps) (h : p <:+ c.pos) : under ps c = true := by
  unfold under
  rw [List.any_eq_true]
  exact ⟨p, hp, by simpa using h⟩

mutual
theorem prune_keeps {ps : List Pos} {pos pos' : Pos} {env env' : NsMap} {anc anc' : List QName} : ∀ t : Node,
    (((t.walk pos env anc).filter (fun c => !under ps c)).map (·.e)).Sublist
      (((t.prune (fun q => q ∈ ps) pos).walk pos' env' anc').map (·.e))
  | .other _ _ => by simp [Node.walk]
  | .elem e ks => by
    simp only [Node.walk, Node.prune, List.map_cons, List.filter_cons]
    have := prunes_keeps (ps := ps) (pos := pos) (pos' := pos') (i := 0) (i' := 0) (env := e.decls ++ env) (env' := e.decls ++ env')
      (anc := e.tag :: anc) (anc' := e.tag :: anc') ks
    split
    · exact this.cons_cons _
    · exact this.cons _
theorem prunes_keeps {ps : List Pos} {pos pos' : Pos} {i i' : Nat} {env env' : NsMap} {anc anc' : List QName} : ∀ ks : List Node,
    (((Node.walks pos i env anc ks).filter (fun c => !under ps c)).map (·.e)).Sublist
      ((Node.walks pos' i' env' anc' (Node.prunes (fun q => q ∈ ps) pos i ks)).map (·.e))
  | [] => by simp [Node.walks]
  | .other _ _ :: ks => by
    simp only [Node.walks, Node.walk, Node.prunes, List.nil_append]
    exact prunes_keeps ks
  | .elem e es :: ks => by
    simp only [Node.prunes]
    have h2 : ∀ j, (((Node.walks pos (i + 1) env anc ks).filter (fun c => !under ps c)).map (·.e)).Sublist
      ((Node.walks pos' j env' anc' (Node.prunes (fun q => q ∈ ps) pos (i + 1) ks)).map (·.e)) := fun j => prunes_keeps ks
    split
    · next h =>
      have : ((Node.elem e es).walk (i :: pos) env anc).filter (fun c => !under ps c) = [] := by
        rw [List.filter_eq_nil_iff]
        intro c hc
        obtain ⟨l, hl⟩ := walk_pos _ _ _ _ c hc
        rw [under_of_suffix (by simpa using h) ⟨l, hl.symm⟩]
        simp
      simp only [Node.walks, List.filter_append, this, List.nil_append]
      exact h2 i'
    · simp only [Node.walks, List.filter_append, List.map_append]
      exact List.Sublist.append (prune_keeps (.elem e es)) (h2 (i' + 1))
end

/-! ## The elements at or below an element -/

mutual
theorem walk_under {env : NsMap} {anc : List QName} {pos : Pos} : ∀ (t : Node) {c d : Ctx},
    c ∈ t.walk pos env anc → d ∈ t.walk pos env anc → c.pos <:+ d.pos →
    d ∈ c :: Node.walks c.pos 0 c.env (c.e.tag :: c.anc) c.kids
  | .other _ _, c, d, hc, _, _ => by simp [Node.walk] at hc
  | .elem e ks, c, d, hc, hd, hb => by
    have hc0 := hc
    have hd0 := hd
    simp only [Node.walk, List.mem_cons] at hc hd
    rcases hc with rfl | hc
    · exact List.mem_cons.2 hd
    · rcases hd with rfl | hd
      · obtain ⟨l, j, _, h⟩ := walks_pos _ _ _ _ _ c hc
        have := hb.length_le
        rw [h] at this
        simp only [List.length_append, List.length_cons] at this
        omega
      · exact walks_under ks hc hd hb
theorem walks_under {env : NsMap} {anc : List QName} {pos : Pos} {i : Nat} : ∀ (ks : List Node) {c d : Ctx},
    c ∈ Node.walks pos i env anc ks → d ∈ Node.walks pos i env anc ks → c.pos <:+ d.pos →
    d ∈ c :: Node.walks c.pos 0 c.env (c.e.tag :: c.anc) c.kids
  | [], c, d, hc, _, _ => by simp [Node.walks] at hc
  | k :: ks, c, d, hc, hd, hb => by
    simp only [Node.walks, List.mem_append] at hc hd
    have sib : ∀ {a b : Nat} {l l' : List Nat}, a ≠ b → l ++ a :: pos <:+ l' ++ b :: pos → False := by
      intro a b l l' hab h
      obtain ⟨s, hs⟩ := h
      rw [← List.append_assoc] at hs
      exact hab (pos_suffix_inj hs)
    rcases hc with hc | hc <;> rcases hd with hd | hd
    · exact walk_under k hc hd hb
    · obtain ⟨l, h⟩ := walk_pos (i :: pos) env anc k c hc
      obtain ⟨l', j, hj, h'⟩ := walks_pos pos (i + 1) env anc ks d hd
      rw [h, h'] at hb
      exact (sib (by omega) hb).elim
    · obtain ⟨l, h⟩ := walk_pos (i :: pos) env anc k d hd
      obtain ⟨l', j, hj, h'⟩ := walks_pos pos (i + 1) env anc ks c hc
      rw [h, h'] at hb
      exact (sib (by omega) hb).elim
    · exact walks_under ks hc hd hb
end

/-! ## A removal with copies loses nothing -/

section
variable {α : Type} [DecidableEq α] (m : Elem → List α) (x : α)

omit [DecidableEq α] in
theorem gather_map (t : Node) (pos : Pos) (env : NsMap) (anc : List QName) :
    t.gather m = held m (t.walk pos env anc) := by
  rw [Node.gather, held_map, held_map]
  exact congrArg _ (walk_e_indep _ _ _ _ _ _ t)

/-- One copy holds what is at or below its element and not under what was removed before. -/
theorem copy_holds {t : Node} {c : Ctx} (hc : c ∈ t.elems) (done : List Pos) :
    (held m (t.elems.filter (fun d => decide (c.pos <:+ d.pos) && !under done d))).count x ≤
      ((c.node.prune (fun q => q ∈ done) c.pos).gather m).count x := by
  have h1 : (held m (t.elems.filter (fun d => decide (c.pos <:+ d.pos) && !under done d))).count x ≤
      (held m ((c :: Node.walks c.pos 0 c.env (c.e.tag :: c.anc) c.kids).filter (fun d => !under done d))).count x := by
    refine held_subset m x ((elems_nodup' t).filter _) (fun d hd => ?_)
    rw [List.mem_filter, Bool.and_eq_true, decide_eq_true_eq] at hd
    exact List.mem_filter.2 ⟨walk_under t hc hd.1 hd.2.1, hd.2.2⟩
  refine Nat.le_trans h1 ?_
  rw [Node.gather]
  refine held_sublist m x ?_
  show (List.map (fun d : Ctx => d.e) _).Sublist (List.map (fun d : Ctx => d.e) ((Node.elem c.e (Node.prunes (fun q => q ∈ done) c.pos 0 c.kids)).walk [] [] []))
  simp only [Node.walk, List.map_cons, List.filter_cons]
  have := prunes_keeps (ps := done) (pos := c.pos) (pos' := []) (i := 0) (i' := 0) (env := c.env) (env' := c.e.decls ++ [])
      (anc := c.e.tag :: c.anc) (anc' := c.e.tag :: []) c.kids
  split
  · exact this.cons_cons _
  · exact this.cons _

theorem copies_hold {t : Node} : ∀ (l : List Ctx) (done : List Pos), (∀ c ∈ l, c ∈ t.elems) →
    (held m (t.elems.filter (fun d => under (l.map (·.pos)) d && !under done d))).count x ≤
      ((removedCopies t done (l.map (·.pos))).flatMap (Node.gather m)).count x
  | [], done, _ => by
    rw [List.filter_eq_nil_iff.2 (fun d _ => by simp [under])]
    exact Nat.zero_le _
  | c :: l, done, h => by
    have hc := h c (by simp)
    simp only [List.map_cons, removedCopies, ctxAt_mem hc, List.flatMap_cons, List.count_append]
    rw [held_split m x (fun d => decide (c.pos <:+ d.pos)), List.filter_filter, List.filter_filter]
    have h1 := copy_holds m x hc done
    have h2 := copies_hold l (c.pos :: done) (fun d hd => h d (by simp [hd]))
    refine Nat.add_le_add (Nat.le_trans (Nat.le_of_eq ?_) h1) (Nat.le_trans (Nat.le_of_eq ?_) h2)
    · congr 2
      refine List.filter_congr (fun d _ => ?_)
      cases hd : decide (c.pos <:+ d.pos) <;> simp [under, hd]
    · congr 2
      refine List.filter_congr (fun d _ => ?_)
      cases hd : decide (c.pos <:+ d.pos) <;> simp [under, hd]

/-- What a document holds is in the document left or in the copies. -/
theorem cut_holds {t : Node} (l : List Ctx) (hl : ∀ c ∈ l, c ∈ t.elems) :
    (t.gather m).count x ≤ ((t.removeAll (l.map (·.pos))).gather m).count x +
      ((removedCopies t [] (l.map (·.pos))).flatMap (Node.gather m)).count x := by
  have h1 := copies_hold m x l [] hl
  have h2 : (held m (t.elems.filter (fun d => !under (l.map (·.pos)) d))).count x ≤
      ((t.removeAll (l.map (·.pos))).gather m).count x := held_sublist m x (prune_keeps t)
  have h3 := held_split m x (under (l.map (·.pos))) t.elems
  have h4 : t.elems.filter (fun d => under (l.map (·.pos)) d && !under [] d) = t.elems.filter (under (l.map (·.pos))) :=
    List.filter_congr (fun d _ => by simp [under])
  rw [h4] at h1
  rw [Node.gather]
  omega

end

end Ramrod

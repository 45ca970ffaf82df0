import Verif.Lemmas.Clean
import Verif.Lemmas.Words
/-!
# Repeated removals, and removal of empty elements
-/

namespace Ramrod

/-! ## Blank text -/

theorem pieces_nil {p : Char → Bool} : ∀ {cs : List Char}, pieces p cs = [] ↔ ∀ c ∈ cs, p c = true
  | [] => by simp [pieces, splitP]
  | c :: cs => by
    by_cases hc : p c = true
    · rw [pieces_sep hc, pieces_nil]
      simp [hc]
    · have hc' : p c = false := by simpa using hc
      constructor
      · intro h
        simp only [pieces, splitP, hc', Bool.false_eq_true, if_false] at h
        cases hs : splitP p cs with
        | nil => exact absurd hs (splitP_ne_nil p cs)
        | cons w ws => rw [hs] at h; simp at h
      · intro h
        exact absurd (h c (by simp)) hc

theorem joinL_nil_nil : ∀ {l : List (List Char)}, (∀ w ∈ l, w ≠ []) → (joinL [] l = [] ↔ l = [])
  | [], _ => by simp [joinL]
  | [w], h => by simp [joinL, h w (by simp)]
  | w :: w' :: ws, h => by simp [joinL, h w (by simp)]

theorem strip_empty (s : String) : stripWhitespace s = "" ↔ ∀ c ∈ s.toList, isSpace c = true := by
  rw [← pieces_nil (p := isSpace)]
  have hw : ∀ w ∈ pieces isSpace s.toList, w ≠ [] := by
    intro w hw e
    have := (List.mem_filter.1 hw).2
    rw [e] at this
    simp at this
  rw [← joinL_nil_nil hw]
  have : stripWhitespace s = String.ofList (joinL [] (pieces isSpace s.toList)) := by
    simp only [stripWhitespace, pyJoin, pySplitWs, List.map_map]
    congr 1
    show joinL [] _ = _
    congr 1
    rw [show (String.toList ∘ String.ofList) = id by funext l; simp]
    simp [pieces]
  rw [this]
  constructor
  · intro h
    have := congrArg String.toList h
    simpa using this
  · intro h; rw [h]

/-! ## Elements below an element -/

mutual
theorem walk_below {pos : Pos} {env : NsMap} {anc : List QName} : ∀ (t : Node), ∀ c ∈ t.walk pos env anc,
    ∀ d ∈ Node.walks c.pos 0 c.env (c.e.tag :: c.anc) c.kids, d ∈ t.walk pos env anc
  | .other _ _, c, hc, _, _ => by simp [Node.walk] at hc
  | .elem e ks, c, hc, d, hd => by
    simp only [Node.walk, List.mem_cons] at hc ⊢
    rcases hc with rfl | hc
    · exact Or.inr hd
    · exact Or.inr (walks_below ks c hc d hd)
theorem walks_below {pos : Pos} {i : Nat} {env : NsMap} {anc : List QName} : ∀ (ks : List Node),
    ∀ c ∈ Node.walks pos i env anc ks, ∀ d ∈ Node.walks c.pos 0 c.env (c.e.tag :: c.anc) c.kids,
      d ∈ Node.walks pos i env anc ks
  | [], c, hc, _, _ => by simp [Node.walks] at hc
  | k :: ks, c, hc, d, hd => by
    simp only [Node.walks, List.mem_append] at hc ⊢
    rcases hc with hc | hc
    · exact Or.inl (walk_below k c hc d hd)
    · exact Or.inr (walks_below ks c hc d hd)
end

theorem elems_below {t : Node} {c d : Ctx} (hc : c ∈ t.elems)
    (hd : d ∈ Node.walks c.pos 0 c.env (c.e.tag :: c.anc) c.kids) : d ∈ t.elems := walk_below t c hc d hd

/-! ## Two removals are one -/

mutual
theorem prune_prune {S S' S'' : Ctx → Bool} {pos pos' : Pos} {env : NsMap} {anc : List QName} : ∀ (t : Node),
    (∀ c ∈ t.walk pos env anc, ∀ p, S' ⟨p, c.env, c.anc, c.e, Node.pruneCtxs S c.pos 0 c.env (c.e.tag :: c.anc) c.kids⟩ = S'' c) →
    (t.pruneCtx S pos env anc).pruneCtx S' pos' env anc = t.pruneCtx (fun c => S c || S'' c) pos env anc
  | .other _ _, _ => by simp [Node.pruneCtx]
  | .elem e ks, H => by
    simp only [Node.pruneCtx]
    rw [prunes_prunes ks (fun c hc => H c (by simp [Node.walk, hc]))]
theorem prunes_prunes {S S' S'' : Ctx → Bool} {pos pos' : Pos} {i j : Nat} {env : NsMap} {anc : List QName} :
    ∀ (ks : List Node), (∀ c ∈ Node.walks pos i env anc ks, ∀ p,
      S' ⟨p, c.env, c.anc, c.e, Node.pruneCtxs S c.pos 0 c.env (c.e.tag :: c.anc) c.kids⟩ = S'' c) →
    Node.pruneCtxs S' pos' j env anc (Node.pruneCtxs S pos i env anc ks) =
      Node.pruneCtxs (fun c => S c || S'' c) pos i env anc ks
  | [], _ => by simp [Node.pruneCtxs]
  | .other a b :: ks, H => by
    simp only [Node.pruneCtxs]
    rw [prunes_prunes ks (fun c hc => H c (by simp [Node.walks, hc]))]
  | .elem e es :: ks, H => by
    have ih1 := @prune_prune S S' S'' (i :: pos) (j :: pos') env anc (.elem e es)
      (fun c hc => H c (by simp only [Node.walks, List.mem_append]; exact Or.inl hc))
    have ih2 := @prunes_prunes S S' S'' pos pos' (i + 1) j env anc ks
      (fun c hc => H c (by simp only [Node.walks, List.mem_append]; exact Or.inr hc))
    have ih2' := @prunes_prunes S S' S'' pos pos' (i + 1) (j + 1) env anc ks
      (fun c hc => H c (by simp only [Node.walks, List.mem_append]; exact Or.inr hc))
    have h0 := H ⟨i :: pos, e.decls ++ env, anc, e, es⟩ (by simp [Node.walks, Node.walk]) (j :: pos')
    simp only at h0
    simp only [Node.pruneCtxs, Bool.or_eq_true]
    by_cases hS : S ⟨i :: pos, e.decls ++ env, anc, e, es⟩ = true
    · rw [if_pos hS, if_pos (Or.inl hS)]
      exact ih2
    · rw [if_neg hS]
      by_cases hS'' : S'' ⟨i :: pos, e.decls ++ env, anc, e, es⟩ = true
      · rw [if_pos (Or.inr hS'')]
        simp only [Node.pruneCtx, Node.pruneCtxs]
        rw [if_pos (by rw [h0]; exact hS'')]
        exact ih2'
      · rw [if_neg (by rintro (h | h); exact hS h; exact hS'' h)]
        simp only [Node.pruneCtx] at ih1
        simp only [Node.pruneCtx, Node.pruneCtxs]
        rw [if_neg (by rw [h0]; exact hS''), ih2', ih1]
end

theorem without_without {S S' S'' : Ctx → Bool} {t : Node}
    (h : ∀ c ∈ t.elems, ∀ p, S' ⟨p, c.env, c.anc, c.e, Node.pruneCtxs S c.pos 0 c.env (c.e.tag :: c.anc) c.kids⟩ = S'' c) :
    (t.without S).without S' = t.without (fun c => S c || S'' c) := prune_prune t h

mutual
theorem prune_congr {S S' : Ctx → Bool} {pos : Pos} {env : NsMap} {anc : List QName} : ∀ (t : Node),
    (∀ c ∈ t.walk pos env anc, S c = S' c ∨ c.pos = pos) → t.pruneCtx S pos env anc = t.pruneCtx S' pos env anc
  | .other _ _, _ => by simp [Node.pruneCtx]
  | .elem e ks, H => by
    simp only [Node.pruneCtx]
    rw [prunes_congr ks (fun c hc => by
      rcases H c (by simp [Node.walk, hc]) with h | h
      · exact h
      · obtain ⟨l, k, _, h6⟩ := walks_pos _ _ _ _ ks c hc
        rw [h6] at h
        have := congrArg List.length h
        simp only [List.length_append, List.length_cons] at this
        omega)]
theorem prunes_congr {S S' : Ctx → Bool} {pos : Pos} {i : Nat} {env : NsMap} {anc : List QName} : ∀ (ks : List Node),
    (∀ c ∈ Node.walks pos i env anc ks, S c = S' c) → Node.pruneCtxs S pos i env anc ks = Node.pruneCtxs S' pos i env anc ks
  | [], _ => by simp [Node.pruneCtxs]
  | .other a b :: ks, H => by
    simp only [Node.pruneCtxs]
    rw [prunes_congr ks (fun c hc => H c (by simp [Node.walks, hc]))]
  | .elem e es :: ks, H => by
    simp only [Node.pruneCtxs]
    rw [H ⟨i :: pos, e.decls ++ env, anc, e, es⟩ (by simp [Node.walks, Node.walk]),
      prunes_congr ks (fun c hc => H c (by simp [Node.walks, hc])),
      prune_congr (.elem e es) (fun c hc => Or.inl (H c (by simp only [Node.walks, List.mem_append]; exact Or.inl hc)))]
end

/-- Only the selection of elements below the root matters. -/
theorem without_congr {S S' : Ctx → Bool} {t : Node} (h : ∀ c ∈ t.elems, c.anc ≠ [] → S c = S' c) :
    t.without S = t.without S' :=
  prune_congr t (fun c hc => by
    by_cases ha : c.anc = []
    · exact Or.inr ((elems_root_iff hc).2 ha)
    · exact Or.inl (h c hc ha))

/-! ## Emptiness -/

/-- No attributes and only white space before the first child node. -/
def Bare (e : Elem) : Prop := e.attrs = [] ∧ ∀ s, e.text = some s → ∀ c ∈ s.toList, isSpace c = true

mutual
theorem isEmptyElem_iff : ∀ (t : Node), t.isEmptyElem = true ↔ t.All Bare
  | .other _ _ => by simp [Node.isEmptyElem, Node.All]
  | .elem e ks => by
    simp only [Node.isEmptyElem, Node.All, Bool.and_eq_true, areEmptyElems_iff ks, Bare, List.isEmpty_iff, and_assoc]
    have : (match e.text with | none => true | some s => stripWhitespace s == "") = true ↔
        ∀ s, e.text = some s → ∀ c ∈ s.toList, isSpace c = true := by
      cases e.text with
      | none => simp
      | some s => simp [strip_empty]
    exact and_congr Iff.rfl (and_congr this Iff.rfl)
theorem areEmptyElems_iff : ∀ (ks : List Node), Node.areEmptyElems ks = true ↔ Node.Alls Bare ks
  | [] => by simp [Node.areEmptyElems, Node.Alls]
  | k :: ks => by simp [Node.areEmptyElems, Node.Alls, isEmptyElem_iff k, areEmptyElems_iff ks]
end

mutual
theorem isEmpty_prune {S : Ctx → Bool} {pos : Pos} {env : NsMap} {anc : List QName} : ∀ (t : Node),
    (∀ c ∈ t.walk pos env anc, S c = true → c.node.isEmptyElem = true) →
    (t.pruneCtx S pos env anc).isEmptyElem = t.isEmptyElem
  | .other _ _, _ => by simp [Node.pruneCtx]
  | .elem e ks, H => by
    simp only [Node.pruneCtx, Node.isEmptyElem]
    rw [areEmpty_prunes ks (fun c hc => H c (by simp [Node.walk, hc]))]
theorem areEmpty_prunes {S : Ctx → Bool} {pos : Pos} {i : Nat} {env : NsMap} {anc : List QName} : ∀ (ks : List Node),
    (∀ c ∈ Node.walks pos i env anc ks, S c = true → c.node.isEmptyElem = true) →
    Node.areEmptyElems (Node.pruneCtxs S pos i env anc ks) = Node.areEmptyElems ks
  | [], _ => by simp [Node.pruneCtxs]
  | .other a b :: ks, H => by
    simp only [Node.pruneCtxs, Node.areEmptyElems]
    rw [areEmpty_prunes ks (fun c hc => H c (by simp [Node.walks, hc]))]
  | .elem e es :: ks, H => by
    have ih := areEmpty_prunes (S := S) (pos := pos) (i := i + 1) (env := env) (anc := anc) ks
      (fun c hc => H c (by simp [Node.walks, hc]))
    simp only [Node.pruneCtxs]
    split
    · next hs =>
      have h0 := H ⟨i :: pos, e.decls ++ env, anc, e, es⟩ (by simp [Node.walks, Node.walk]) hs
      rw [ih, Node.areEmptyElems, show (Node.elem e es).isEmptyElem = true from h0, Bool.true_and]
    · rw [Node.areEmptyElems, Node.areEmptyElems, ih,
        isEmpty_prune (.elem e es) (fun c hc => H c (by simp only [Node.walks, List.mem_append]; exact Or.inl hc))]
end

/-! ## The pass -/

/-- Below the root, with one of the names, and empty. -/
def optSel (names : List QName) (c : Ctx) : Bool := !c.anc.isEmpty && (decide (c.e.tag ∈ names) && c.node.isEmptyElem)

/-- The names of the paths of a finder. -/
def altNames (m : List (String × String)) (alts : List XAlt) : List QName := alts.map (fun a => a.tag.resolve m)

/-- Plain descendant paths. -/
def plainAlts (alts : List XAlt) : Bool :=
  alts.all (fun a => !a.abs && (a.parent.isNone && decide (a.pred = .none)))

theorem plain_select {m : List (String × String)} {alts : List XAlt} (h : plainAlts alts = true) {c : Ctx} :
    alts.any (fun a => a.selects m c) = true ↔ c.anc ≠ [] ∧ c.e.tag ∈ altNames m alts := by
  induction alts with
  | nil => simp [altNames]
  | cons a as ih =>
    simp only [plainAlts, List.all_cons, Bool.and_eq_true, Bool.not_eq_true', decide_eq_true_eq,
      Option.isNone_iff_eq_none] at h
    obtain ⟨⟨h1, h2, h3⟩, h4⟩ := h
    have ih' := ih (by simpa [plainAlts] using h4)
    simp only [List.any_cons, Bool.or_eq_true, ih', altNames, List.map_cons, List.mem_cons]
    have : a.selects m c = true ↔ c.anc ≠ [] ∧ c.e.tag = a.tag.resolve m := by
      unfold XAlt.selects
      rw [h1, h2, h3]
      simp only [XPred.holds, Bool.and_true, Bool.and_eq_true, decide_eq_true_eq, Bool.false_or]
      rw [Nat.one_le_iff_ne_zero, Ne, List.length_eq_zero_iff]
      exact And.comm
    rw [this]
    constructor
    · rintro (⟨a, b⟩ | ⟨a, b⟩)
      · exact ⟨a, Or.inl b⟩
      · exact ⟨a, Or.inr b⟩
    · rintro ⟨a, b | b⟩
      · exact Or.inl ⟨a, b⟩
      · exact Or.inr ⟨a, b⟩

theorem optional_find {m : List (String × String)} {alts : List XAlt} (h : plainAlts alts = true) (t : Node) :
    (⟨[], .union alts, m, keepEmpty⟩ : Finder).find t = .ok (t.elems.filter (optSel (altNames m alts))) := by
  rw [find_union rfl]
  congr 1
  unfold keepEmpty Node.xpath
  rw [List.filter_filter]
  apply List.filter_congr
  intro c _
  have := plain_select (m := m) h (c := c)
  unfold optSel
  cases hb : alts.any (fun a => a.selects m c) with
  | true =>
    obtain ⟨h1, h2⟩ := this.1 hb
    simp [h1, h2]
  | false =>
    have hn : ¬ (c.anc ≠ [] ∧ c.e.tag ∈ altNames m alts) := fun h' => by rw [this.2 h'] at hb; cases hb
    rw [Bool.and_false]
    by_cases h1 : c.anc = []
    · simp [h1]
    · have h2 : ¬ c.e.tag ∈ altNames m alts := fun h2 => hn ⟨h1, h2⟩
      simp [h2]

theorem removeAll_sel (t : Node) (S : Ctx → Bool) : t.removeAll ((t.elems.filter S).map (·.pos)) = t.without S := by
  rw [removeAll_without]
  apply without_congr
  intro c hc _
  cases hS : S c with
  | true => exact decide_eq_true (List.mem_map.2 ⟨c, List.mem_filter.2 ⟨hc, hS⟩, rfl⟩)
  | false =>
    apply decide_eq_false
    intro h
    obtain ⟨d, hd, hp⟩ := List.mem_map.1 h
    obtain ⟨h1, h2⟩ := List.mem_filter.1 hd
    rw [elems_pos_inj h1 hc hp, hS] at h2
    cases h2

theorem optSel_append {a b : List QName} {t : Node} :
    (t.without (optSel a)).without (optSel b) = t.without (optSel (a ++ b)) := by
  rw [without_without (S'' := optSel b)]
  · congr 1
    funext c
    unfold optSel
    cases c.anc.isEmpty <;> cases c.node.isEmptyElem <;> simp
  · intro c hc p
    unfold optSel
    congr 2
    show Node.isEmptyElem (.elem c.e _) = Node.isEmptyElem (.elem c.e c.kids)
    simp only [Node.isEmptyElem]
    rw [areEmpty_prunes]
    intro d _ hd
    unfold optSel at hd
    simp only [Bool.and_eq_true] at hd
    exact hd.2.2

theorem removeOptionals_union {m : List (String × String)} : ∀ (alts : List (List XAlt)) (t : Node),
    alts.all plainAlts = true →
    removeOptionals (alts.map (fun a => ⟨[], .union a, m, keepEmpty⟩)) t = .ok (t.without (optSel (alts.flatMap (altNames m))))
  | [], t, _ => by
    have : t.without (optSel []) = t := by
      rw [← removeAll_sel, List.filter_eq_nil_iff.2 (by intro c _; simp [optSel])]
      rw [Node.removeAll]
      exact prune_none (fun p => by simp) t
    simp only [List.map_nil, removeOptionals, foldE, List.flatMap_nil, this]
  | a :: as, t, h => by
    simp only [List.all_cons, Bool.and_eq_true] at h
    have ih := removeOptionals_union (m := m) as (t.without (optSel (altNames m a))) h.2
    unfold removeOptionals at ih ⊢
    simp only [List.map_cons, foldE, optional_find h.1, removeAll_sel]
    rw [ih, optSel_append]
    rfl

theorem mem_pruneCtxs {S : Ctx → Bool} {pos : Pos} {env : NsMap} {anc : List QName} {e : Elem} {ks' : List Node} :
    ∀ {ks : List Node} {i : Nat}, Node.elem e ks' ∈ Node.pruneCtxs S pos i env anc ks → ∃ j es,
      ks[j]? = some (.elem e es) ∧ S ⟨(i + j) :: pos, e.decls ++ env, anc, e, es⟩ = false ∧
      ks' = Node.pruneCtxs S ((i + j) :: pos) 0 (e.decls ++ env) (e.tag :: anc) es
  | [], _, h => by simp [Node.pruneCtxs] at h
  | .other a b :: ks, i, h => by
    simp only [Node.pruneCtxs, List.mem_cons, reduceCtorEq, false_or] at h
    obtain ⟨j, es, h1, h2, h3⟩ := mem_pruneCtxs h
    refine ⟨j + 1, es, by simpa using h1, ?_, ?_⟩
    · rw [show i + (j + 1) = i + 1 + j by omega]; exact h2
    · rw [show i + (j + 1) = i + 1 + j by omega]; exact h3
  | .elem e0 es0 :: ks, i, h => by
    have tl : Node.elem e ks' ∈ Node.pruneCtxs S pos (i + 1) env anc ks → ∃ j es,
        (Node.elem e0 es0 :: ks)[j]? = some (.elem e es) ∧ S ⟨(i + j) :: pos, e.decls ++ env, anc, e, es⟩ = false ∧
        ks' = Node.pruneCtxs S ((i + j) :: pos) 0 (e.decls ++ env) (e.tag :: anc) es := by
      intro h
      obtain ⟨j, es, h1, h2, h3⟩ := mem_pruneCtxs h
      refine ⟨j + 1, es, by simpa using h1, ?_, ?_⟩
      · rw [show i + (j + 1) = i + 1 + j by omega]; exact h2
      · rw [show i + (j + 1) = i + 1 + j by omega]; exact h3
    simp only [Node.pruneCtxs] at h
    split at h
    · exact tl h
    · next hs =>
      rcases List.mem_cons.1 h with h | h
      · simp only [Node.pruneCtx, Node.elem.injEq] at h
        obtain ⟨rfl, rfl⟩ := h
        exact ⟨0, es0, rfl, by simpa using hs, rfl⟩
      · exact tl h

/-! ## Text -/

mutual
/-- All characters between the tags of a node, and after it. -/
def Node.chars : Node → List Char
  | .other _ t => (t.getD "").toList
  | .elem e ks => (e.text.getD "").toList ++ Node.charss ks ++ (e.tail.getD "").toList
/-- The characters of a list of nodes. -/
def Node.charss : List Node → List Char
  | [] => []
  | k :: ks => k.chars ++ Node.charss ks
end

mutual
theorem chars_prune {S : Ctx → Bool} {pos : Pos} {env : NsMap} {anc : List QName} : ∀ (t : Node),
    (∀ c ∈ t.walk pos env anc, S c = true → c.node.chars.filter (fun c => !isSpace c) = []) →
    (t.pruneCtx S pos env anc).chars.filter (fun c => !isSpace c) = t.chars.filter (fun c => !isSpace c)
  | .other _ _, _ => by simp [Node.pruneCtx]
  | .elem e ks, H => by
    simp only [Node.pruneCtx, Node.chars, List.filter_append]
    rw [charss_prunes ks (fun c hc => H c (by simp [Node.walk, hc]))]
theorem charss_prunes {S : Ctx → Bool} {pos : Pos} {i : Nat} {env : NsMap} {anc : List QName} : ∀ (ks : List Node),
    (∀ c ∈ Node.walks pos i env anc ks, S c = true → c.node.chars.filter (fun c => !isSpace c) = []) →
    (Node.charss (Node.pruneCtxs S pos i env anc ks)).filter (fun c => !isSpace c) =
      (Node.charss ks).filter (fun c => !isSpace c)
  | [], _ => by simp [Node.pruneCtxs]
  | .other a b :: ks, H => by
    simp only [Node.pruneCtxs, Node.charss, List.filter_append]
    rw [charss_prunes ks (fun c hc => H c (by simp [Node.walks, hc]))]
  | .elem e es :: ks, H => by
    have ih := charss_prunes (S := S) (pos := pos) (i := i + 1) (env := env) (anc := anc) ks
      (fun c hc => H c (by simp [Node.walks, hc]))
    simp only [Node.pruneCtxs]
    split
    · next hs =>
      have h0 := H ⟨i :: pos, e.decls ++ env, anc, e, es⟩ (by simp [Node.walks, Node.walk]) hs
      rw [ih, Node.charss, List.filter_append,
        show (Node.elem e es).chars.filter (fun c => !isSpace c) = [] from h0, List.nil_append]
    · rw [Node.charss, Node.charss, List.filter_append, List.filter_append, ih,
        chars_prune (.elem e es) (fun c hc => H c (by simp only [Node.walks, List.mem_append]; exact Or.inl hc))]
end

end Ramrod

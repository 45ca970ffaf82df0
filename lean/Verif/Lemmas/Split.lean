import Verif.Lemmas.Find
import Verif.Lemmas.Fields
/-!
# A document cut in two below its root
-/

namespace Ramrod

/-! ## Positions behind the first `n` children -/

/-- The position after `n` more children of the root come first. -/
def shiftPos (n : Nat) : Pos → Pos
  | [] => []
  | [i] => [i + n]
  | j :: i :: p => j :: shiftPos n (i :: p)

theorem shiftPos_cons {n : Nat} {p : Pos} (hp : p ≠ []) (j : Nat) : shiftPos n (j :: p) = j :: shiftPos n p := by
  cases p with
  | nil => exact absurd rfl hp
  | cons i p => rfl

theorem shiftPos_nil {n : Nat} {p : Pos} : shiftPos n p = [] ↔ p = [] := by
  cases p with
  | nil => simp [shiftPos]
  | cons i p => cases p <;> simp [shiftPos]

theorem shiftPos_inj {n : Nat} : ∀ {p q : Pos}, shiftPos n p = shiftPos n q → p = q
  | [], q, h => (shiftPos_nil.1 h.symm).symm
  | p, [], h => shiftPos_nil.1 h
  | [i], [j], h => by simp [shiftPos] at h; simp [h]
  | [i], j :: k :: q, h => by
    simp only [shiftPos, List.cons.injEq] at h
    exact absurd (shiftPos_nil.1 h.2.symm) (by simp)
  | i :: k :: p, [j], h => by
    simp only [shiftPos, List.cons.injEq] at h
    exact absurd (shiftPos_nil.1 h.2) (by simp)
  | i :: k :: p, j :: l :: q, h => by
    simp only [shiftPos, List.cons.injEq] at h
    rw [h.1, shiftPos_inj h.2]

theorem shiftPos_last {n : Nat} : ∀ p : Pos, (shiftPos n p).getLast? = p.getLast?.map (· + n)
  | [] => rfl
  | [i] => rfl
  | j :: i :: p => by
    have ih := shiftPos_last (n := n) (i :: p)
    rw [shiftPos, List.getLast?_cons_cons, ← ih]
    cases h : shiftPos n (i :: p) with
    | nil => exact absurd (shiftPos_nil.1 h) (by simp)
    | cons a l => rw [List.getLast?_cons_cons]

theorem shiftPos_tail {n : Nat} {p : Pos} (h : 2 ≤ p.length) : (shiftPos n p).tail = shiftPos n p.tail := by
  cases p with
  | nil => simp at h
  | cons j p =>
    cases p with
    | nil => simp at h
    | cons i p => rfl

/-- The same element at the shifted position. -/
def Ctx.shift (n : Nat) (c : Ctx) : Ctx := { c with pos := shiftPos n c.pos }

mutual
theorem walk_shift {n : Nat} {pos : Pos} (hp : pos ≠ []) (env : NsMap) (anc : List QName) : ∀ t : Node,
    t.walk (shiftPos n pos) env anc = (t.walk pos env anc).map (Ctx.shift n)
  | .other _ _ => rfl
  | .elem e ks => by
    simp only [Node.walk, List.map_cons]
    rw [walks_shift hp 0 (e.decls ++ env) (e.tag :: anc) ks]
    rfl
theorem walks_shift {n : Nat} {pos : Pos} (hp : pos ≠ []) (i : Nat) (env : NsMap) (anc : List QName) : ∀ ks : List Node,
    Node.walks (shiftPos n pos) i env anc ks = (Node.walks pos i env anc ks).map (Ctx.shift n)
  | [] => rfl
  | k :: ks => by
    simp only [Node.walks, List.map_append]
    rw [← shiftPos_cons hp, walk_shift (by simp) env anc k, walks_shift hp (i + 1) env anc ks]
end

theorem walks_behind {n : Nat} {env : NsMap} {anc : List QName} : ∀ (ls : List Node) (i : Nat),
    Node.walks [] (i + n) env anc ls = (Node.walks [] i env anc ls).map (Ctx.shift n)
  | [], _ => rfl
  | k :: ks, i => by
    simp only [Node.walks, List.map_append]
    rw [← walk_shift (by simp) env anc k, ← walks_behind ks (i + 1)]
    have : i + n + 1 = i + 1 + n := by omega
    rw [this]
    rfl

theorem walks_append {pos : Pos} {env : NsMap} {anc : List QName} {ls : List Node} : ∀ (ks : List Node) (i : Nat),
    Node.walks pos i env anc (ks ++ ls) = Node.walks pos i env anc ks ++ Node.walks pos (i + ks.length) env anc ls
  | [], i => by simp [Node.walks]
  | k :: ks, i => by
    simp only [Node.walks, List.cons_append, List.length_cons]
    rw [walks_append ks (i + 1), List.append_assoc]
    have : i + 1 + ks.length = i + (ks.length + 1) := by omega
    rw [this]

mutual
theorem walk_top {pos : Pos} (hp : pos ≠ []) {env : NsMap} {anc : List QName} : ∀ (t : Node), ∀ c ∈ t.walk pos env anc,
    c.pos.getLast? = pos.getLast?
  | .other _ _ => by simp [Node.walk]
  | .elem e ks => by
    intro c hc
    simp only [Node.walk, List.mem_cons] at hc
    rcases hc with rfl | hc
    · rfl
    · exact walks_top hp ks c hc
theorem walks_top {pos : Pos} (hp : pos ≠ []) {i : Nat} {env : NsMap} {anc : List QName} : ∀ (ks : List Node),
    ∀ c ∈ Node.walks pos i env anc ks, c.pos.getLast? = pos.getLast?
  | [] => by simp [Node.walks]
  | k :: ks => by
    intro c hc
    simp only [Node.walks, List.mem_append] at hc
    rcases hc with hc | hc
    · rw [walk_top (by simp) k c hc]
      cases pos with
      | nil => exact absurd rfl hp
      | cons j p => rw [List.getLast?_cons_cons]
    · exact walks_top hp ks c hc
end

theorem walks_root_top {env : NsMap} {anc : List QName} : ∀ (ks : List Node) (i : Nat), ∀ c ∈ Node.walks [] i env anc ks,
    ∃ j, c.pos.getLast? = some j ∧ j < i + ks.length
  | [], _ => by simp [Node.walks]
  | k :: ks, i => by
    intro c hc
    simp only [Node.walks, List.mem_append] at hc
    rcases hc with hc | hc
    · exact ⟨i, walk_top (by simp) k c hc, by simp⟩
    · obtain ⟨j, h1, h2⟩ := walks_root_top ks (i + 1) c hc
      exact ⟨j, h1, by simp only [List.length_cons]; omega⟩

/-! ## Documents -/

/-- The same name, namespace declarations and attributes. -/
def SameHead (a b : Elem) : Prop := a.tag = b.tag ∧ a.decls = b.decls ∧ a.attrs = b.attrs

theorem SameHead.rfl {a : Elem} : SameHead a a := ⟨Eq.refl _, Eq.refl _, Eq.refl _⟩

/-- The children of the root of `t` are those of `a` (there are `n`) followed by those of `b`; the three roots have the
same name, declarations and attributes. -/
def Parts (n : Nat) (t a b : Node) : Prop := ∃ e ea eb ks ls, ks.length = n ∧ t = .elem e (ks ++ ls) ∧ a = .elem ea ks ∧
  b = .elem eb ls ∧ SameHead ea e ∧ SameHead eb e

theorem descs_parts {n : Nat} {t a b : Node} (h : Parts n t a b) : t.descs = a.descs ++ b.descs.map (Ctx.shift n) := by
  obtain ⟨e, ea, eb, ks, ls, rfl, rfl, rfl, rfl, ⟨a1, a2, a3⟩, ⟨b1, b2, b3⟩⟩ := h
  simp only [descs_elem, walks_append, a1, a2, b1, b2]
  rw [walks_behind]

theorem filter_descs {n : Nat} {t a b : Node} (h : Parts n t a b) {p : Ctx → Bool} (hp : ∀ c q, p { c with pos := q } = p c) :
    t.descs.filter p = a.descs.filter p ++ (b.descs.filter p).map (Ctx.shift n) := by
  rw [descs_parts h, List.filter_append, List.filter_map]
  congr 3
  funext c
  exact hp c _

theorem descs_top {n : Nat} {t a b : Node} (h : Parts n t a b) {c : Ctx} (hc : c ∈ a.descs) :
    ∃ j, c.pos.getLast? = some j ∧ j < n := by
  obtain ⟨e, ea, eb, ks, ls, rfl, rfl, rfl, rfl, _, _⟩ := h
  rw [descs_elem] at hc
  have := walks_root_top ks 0 c hc
  simpa using this

theorem filter_root {t : Node} {p : Ctx → Bool} (hp : ∀ c, p c = true → c.anc ≠ []) : t.elems.filter p = t.descs.filter p := by
  rw [descs_eq_filter, List.filter_filter]
  apply List.filter_congr
  intro c _
  cases h : p c with
  | false => rfl
  | true => simp [hp c h]

/-- A condition on all elements of the document is a condition on those of the parts. -/
theorem forall_parts {n : Nat} {t a b : Node} (h : Parts n t a b) {Q : Ctx → Prop} (hq : ∀ c q, Q { c with pos := q } ↔ Q c)
    (hr : ∀ env e e' ks ks', SameHead e e' → (Q ⟨[], env, [], e, ks⟩ ↔ Q ⟨[], env, [], e', ks'⟩)) :
    (∀ c ∈ t.elems, Q c) ↔ (∀ c ∈ a.elems, Q c) ∧ (∀ c ∈ b.elems, Q c) := by
  have hd := descs_parts h
  obtain ⟨e, ea, eb, ks, ls, hn, rfl, rfl, rfl, ha, hb⟩ := h
  have h1 := hr (e.decls ++ []) ea e ks (ks ++ ls) ha
  have h2 := hr (e.decls ++ []) eb e ls (ks ++ ls) hb
  simp only [elems_elem, rootCtx, ha.2.1, hb.2.1, List.mem_cons, forall_eq_or_imp]
  rw [hd, h1, h2]
  constructor
  · rintro ⟨x, y⟩
    refine ⟨⟨x, fun c hc => y c (List.mem_append.2 (Or.inl hc))⟩, ⟨x, fun c hc => ?_⟩⟩
    exact (hq c _).1 (y _ (List.mem_append.2 (Or.inr (List.mem_map.2 ⟨c, hc, rfl⟩))))
  · rintro ⟨⟨x, y⟩, ⟨_, z⟩⟩
    refine ⟨x, fun c hc => ?_⟩
    rcases List.mem_append.1 hc with hc | hc
    · exact y c hc
    · obtain ⟨d, hd, rfl⟩ := List.mem_map.1 hc
      exact (hq d _).2 (z d hd)

/-! ## In-place changes -/

mutual
theorem mapCtx_free {F : Ctx → Elem} (hF : ∀ c q, F { c with pos := q } = F c) {pos pos' : Pos} {env : NsMap}
    {anc : List QName} : ∀ t : Node, t.mapCtx F pos env anc = t.mapCtx F pos' env anc
  | .other _ _ => by simp [Node.mapCtx]
  | .elem e ks => by
    simp only [Node.mapCtx]
    rw [mapCtxs_free hF (pos' := pos') (i := 0) (j := 0) ks]
    congr 1
    exact (hF ⟨pos', e.decls ++ env, anc, e, ks⟩ pos)
theorem mapCtxs_free {F : Ctx → Elem} (hF : ∀ c q, F { c with pos := q } = F c) {pos pos' : Pos} {i j : Nat} {env : NsMap}
    {anc : List QName} : ∀ ks : List Node, Node.mapCtxs F pos i env anc ks = Node.mapCtxs F pos' j env anc ks
  | [] => by simp [Node.mapCtxs]
  | k :: ks => by
    simp only [Node.mapCtxs]
    rw [mapCtx_free hF (pos' := j :: pos') k, mapCtxs_free hF (pos' := pos') (j := j + 1) ks]
end

theorem mapCtxs_append {F : Ctx → Elem} {pos : Pos} {env : NsMap} {anc : List QName} {ls : List Node} :
    ∀ (ks : List Node) (i : Nat), Node.mapCtxs F pos i env anc (ks ++ ls) =
      Node.mapCtxs F pos i env anc ks ++ Node.mapCtxs F pos (i + ks.length) env anc ls
  | [], i => by simp [Node.mapCtxs]
  | k :: ks, i => by
    simp only [Node.mapCtxs, List.cons_append, List.length_cons]
    rw [mapCtxs_append ks (i + 1)]
    have : i + 1 + ks.length = i + (ks.length + 1) := by omega
    rw [this]

theorem edit_parts {n : Nat} {t a b : Node} (h : Parts n t a b) {F : Ctx → Elem} (hF : ∀ c q, F { c with pos := q } = F c)
    (hr : ∀ env e e' ks ks', SameHead e e' → SameHead (F ⟨[], env, [], e, ks⟩) (F ⟨[], env, [], e', ks'⟩)) :
    Parts n (t.edit F) (a.edit F) (b.edit F) := by
  obtain ⟨e, ea, eb, ks, ls, hn, rfl, rfl, rfl, ha, hb⟩ := h
  refine ⟨_, _, _, Node.mapCtxs F [] 0 (e.decls ++ []) [e.tag] ks, Node.mapCtxs F [] 0 (e.decls ++ []) [e.tag] ls,
    by rw [mapCtxs_count, hn], ?_, ?_, ?_, hr (e.decls ++ []) ea e ks (ks ++ ls) ha, hr (e.decls ++ []) eb e ls (ks ++ ls) hb⟩
  · simp only [Node.mapCtx]
    rw [mapCtxs_append, mapCtxs_free hF (i := 0 + ks.length) (pos' := []) (j := 0) ls]
  · simp only [Node.mapCtx, ha.1, ha.2.1]
  · simp only [Node.mapCtx, hb.1, hb.2.1]

/-! ## Replacements -/

mutual
theorem subst_shift {r : Pos → Option Node} {n : Nat} {pos : Pos} (hp : pos ≠ []) : ∀ t : Node,
    t.subst r (shiftPos n pos) = t.subst (fun p => r (shiftPos n p)) pos
  | .other _ _ => rfl
  | .elem e ks => by
    simp only [Node.subst]
    rw [substs_shift hp 0 ks]
theorem substs_shift {r : Pos → Option Node} {n : Nat} {pos : Pos} (hp : pos ≠ []) (i : Nat) : ∀ ks : List Node,
    Node.substs r (shiftPos n pos) i ks = Node.substs (fun p => r (shiftPos n p)) pos i ks
  | [] => rfl
  | k :: ks => by
    simp only [Node.substs]
    rw [← shiftPos_cons hp, subst_shift (by simp) k, substs_shift hp (i + 1) ks]
end

theorem substs_behind {r : Pos → Option Node} {n : Nat} : ∀ (ls : List Node) (i : Nat),
    Node.substs r [] (i + n) ls = Node.substs (fun p => r (shiftPos n p)) [] i ls
  | [], _ => rfl
  | k :: ks, i => by
    simp only [Node.substs]
    rw [← substs_behind ks (i + 1), ← subst_shift (by simp) k]
    have : i + n + 1 = i + 1 + n := by omega
    rw [this]
    rfl

theorem substs_append {r : Pos → Option Node} {pos : Pos} {ls : List Node} : ∀ (ks : List Node) (i : Nat),
    Node.substs r pos i (ks ++ ls) = Node.substs r pos i ks ++ Node.substs r pos (i + ks.length) ls
  | [], i => by simp [Node.substs]
  | k :: ks, i => by
    simp only [Node.substs, List.cons_append, List.length_cons]
    rw [substs_append ks (i + 1)]
    have : i + 1 + ks.length = i + (ks.length + 1) := by omega
    rw [this]

mutual
theorem subst_top {r r' : Pos → Option Node} {pos : Pos} (hp : pos ≠ [])
    (h : ∀ p, p.getLast? = pos.getLast? → r p = r' p) : ∀ t : Node, t.subst r pos = t.subst r' pos
  | .other _ _ => rfl
  | .elem e ks => by
    simp only [Node.subst]
    rw [substs_top hp h 0 ks, h pos rfl]
theorem substs_top {r r' : Pos → Option Node} {pos : Pos} (hp : pos ≠ [])
    (h : ∀ p, p.getLast? = pos.getLast? → r p = r' p) (i : Nat) : ∀ ks : List Node,
    Node.substs r pos i ks = Node.substs r' pos i ks
  | [] => rfl
  | k :: ks => by
    simp only [Node.substs]
    rw [substs_top hp h (i + 1) ks, subst_top (by simp) (fun p hp' => h p (by
      rw [hp']
      cases pos with
      | nil => exact absurd rfl hp
      | cons j q => rw [List.getLast?_cons_cons])) k]
end

theorem substs_root_top {r r' : Pos → Option Node} : ∀ (ks : List Node) (i : Nat),
    (∀ p j, p.getLast? = some j → j < i + ks.length → r p = r' p) → Node.substs r [] i ks = Node.substs r' [] i ks
  | [], _, _ => rfl
  | k :: ks, i, h => by
    simp only [Node.substs]
    rw [subst_top (pos := [i]) (by simp) (fun p hp => h p i hp (by simp)) k,
      substs_root_top ks (i + 1) (fun p j hp hj => h p j hp (by simp only [List.length_cons]; omega))]

theorem posLookup_append {l l' : List (Pos × Node)} {p : Pos} :
    posLookup (l ++ l') p = (posLookup l p).or (posLookup l' p) := by
  induction l with
  | nil => rfl
  | cons x xs ih =>
    obtain ⟨q, m⟩ := x
    simp only [List.cons_append, posLookup]
    split
    · rfl
    · exact ih

theorem posLookup_shift {n : Nat} {p : Pos} : ∀ l : List (Pos × Node),
    posLookup (l.map (fun x => (shiftPos n x.1, x.2))) (shiftPos n p) = posLookup l p
  | [] => rfl
  | (q, m) :: xs => by
    simp only [List.map_cons, posLookup]
    by_cases h : q = p
    · subst h; simp
    · rw [if_neg (fun e => h (shiftPos_inj e)), if_neg h, posLookup_shift xs]

theorem replaceAll_parts {n : Nat} {t a b : Node} (h : Parts n t a b) {la lb : List (Pos × Node)}
    (hl : ∀ x ∈ la, ∃ j, x.1.getLast? = some j ∧ j < n) :
    Parts n (t.replaceAll (la ++ lb.map (fun x => (shiftPos n x.1, x.2)))) (a.replaceAll la) (b.replaceAll lb) := by
  obtain ⟨e, ea, eb, ks, ls, hn, rfl, rfl, rfl, ha, hb⟩ := h
  refine ⟨e, ea, eb, Node.substs (fun p => if p = [] then none else posLookup la p) [] 0 ks,
    Node.substs (fun p => if p = [] then none else posLookup lb p) [] 0 ls, ?_, ?_, ?_, ?_, ha, hb⟩
  · rw [← hn]
    generalize (0 : Nat) = i
    clear hn
    induction ks generalizing i with
    | nil => rfl
    | cons k ks ih => simp only [Node.substs, List.length_cons, ih]
  · simp only [Node.replaceAll, Node.subst, if_true]
    rw [substs_append, hn, substs_behind]
    congr 2
    · apply substs_root_top
      intro p j hp hj
      have hp0 : p ≠ [] := by rintro rfl; simp at hp
      simp only [hp0, if_false]
      rw [posLookup_append]
      have : posLookup (lb.map (fun x => (shiftPos n x.1, x.2))) p = none := by
        apply posLookup_none
        intro hm
        rw [List.map_map] at hm
        obtain ⟨x, _, hx⟩ := List.mem_map.1 hm
        have h1 := shiftPos_last (n := n) x.1
        simp only [Function.comp] at hx
        rw [hx, hp] at h1
        cases h2 : x.1.getLast? with
        | none => rw [h2] at h1; cases h1
        | some i =>
          rw [h2] at h1
          simp only [Option.map_some, Option.some.injEq] at h1
          omega
      rw [this]
      cases posLookup la p <;> rfl
    · congr 1
      funext p
      by_cases hp0 : p = []
      · simp [hp0, shiftPos]
      · have hp1 : shiftPos n p ≠ [] := fun e => hp0 (shiftPos_nil.1 e)
        simp only [hp0, hp1, if_false]
        rw [posLookup_append, posLookup_shift]
        have : posLookup la (shiftPos n p) = none := by
          apply posLookup_none
          intro hm
          obtain ⟨x, hx, hx'⟩ := List.mem_map.1 hm
          obtain ⟨j, h1, h2⟩ := hl x hx
          rw [hx', shiftPos_last] at h1
          cases h3 : p.getLast? with
          | none => rw [h3] at h1; cases h1
          | some i =>
            rw [h3] at h1
            simp only [Option.map_some, Option.some.injEq] at h1
            omega
        rw [this]
        rfl
  · simp only [Node.replaceAll, Node.subst, if_true]
  · simp only [Node.replaceAll, Node.subst, if_true]

/-! ## Removals -/

mutual
theorem prune_shift {s : Pos → Bool} {n : Nat} {pos : Pos} (hp : pos ≠ []) : ∀ t : Node,
    t.prune s (shiftPos n pos) = t.prune (fun p => s (shiftPos n p)) pos
  | .other _ _ => rfl
  | .elem e ks => by
    simp only [Node.prune]
    rw [prunes_shift hp 0 ks]
theorem prunes_shift {s : Pos → Bool} {n : Nat} {pos : Pos} (hp : pos ≠ []) (i : Nat) : ∀ ks : List Node,
    Node.prunes s (shiftPos n pos) i ks = Node.prunes (fun p => s (shiftPos n p)) pos i ks
  | [] => rfl
  | .other _ _ :: ks => by
    simp only [Node.prunes]
    rw [prunes_shift hp (i + 1) ks]
  | .elem e es :: ks => by
    simp only [Node.prunes]
    rw [← shiftPos_cons hp, prune_shift (by simp) (.elem e es), prunes_shift hp (i + 1) ks]
end

theorem prunes_behind {s : Pos → Bool} {n : Nat} : ∀ (ls : List Node) (i : Nat),
    Node.prunes s [] (i + n) ls = Node.prunes (fun p => s (shiftPos n p)) [] i ls
  | [], _ => rfl
  | .other _ _ :: ks, i => by
    simp only [Node.prunes]
    rw [← prunes_behind ks (i + 1)]
    have : i + n + 1 = i + 1 + n := by omega
    rw [this]
  | .elem e es :: ks, i => by
    simp only [Node.prunes]
    rw [← prunes_behind ks (i + 1), ← prune_shift (by simp) (.elem e es)]
    have : i + n + 1 = i + 1 + n := by omega
    rw [this]
    rfl

theorem prunes_append {s : Pos → Bool} {pos : Pos} {ls : List Node} : ∀ (ks : List Node) (i : Nat),
    Node.prunes s pos i (ks ++ ls) = Node.prunes s pos i ks ++ Node.prunes s pos (i + ks.length) ls
  | [], i => by simp [Node.prunes]
  | k :: ks, i => by
    have : i + 1 + ks.length = i + (ks.length + 1) := by omega
    cases k with
    | other a b =>
      simp only [Node.prunes, List.cons_append, List.length_cons]
      rw [prunes_append ks (i + 1), this]
    | elem e es =>
      simp only [Node.prunes, List.cons_append, List.length_cons]
      rw [prunes_append ks (i + 1), this]
      split <;> rfl

mutual
theorem prune_top {s s' : Pos → Bool} {pos : Pos} (hp : pos ≠ [])
    (h : ∀ p, p.getLast? = pos.getLast? → s p = s' p) : ∀ t : Node, t.prune s pos = t.prune s' pos
  | .other _ _ => rfl
  | .elem e ks => by
    simp only [Node.prune]
    rw [prunes_top hp h 0 ks]
theorem prunes_top {s s' : Pos → Bool} {pos : Pos} (hp : pos ≠ [])
    (h : ∀ p, p.getLast? = pos.getLast? → s p = s' p) (i : Nat) : ∀ ks : List Node,
    Node.prunes s pos i ks = Node.prunes s' pos i ks
  | [] => rfl
  | .other _ _ :: ks => by
    simp only [Node.prunes]
    rw [prunes_top hp h (i + 1) ks]
  | .elem e es :: ks => by
    have hl : (i :: pos).getLast? = pos.getLast? := by
      cases pos with
      | nil => exact absurd rfl hp
      | cons j q => rw [List.getLast?_cons_cons]
    simp only [Node.prunes]
    rw [prunes_top hp h (i + 1) ks, h _ hl, prune_top (by simp) (fun p hp' => h p (by rw [hp', hl])) (.elem e es)]
end

theorem prunes_root_top {s s' : Pos → Bool} : ∀ (ks : List Node) (i : Nat),
    (∀ p j, p.getLast? = some j → j < i + ks.length → s p = s' p) → Node.prunes s [] i ks = Node.prunes s' [] i ks
  | [], _, _ => rfl
  | .other _ _ :: ks, i, h => by
    simp only [Node.prunes]
    rw [prunes_root_top ks (i + 1) (fun p j hp hj => h p j hp (by simp only [List.length_cons]; omega))]
  | .elem e es :: ks, i, h => by
    simp only [Node.prunes]
    rw [prune_top (pos := [i]) (by simp) (fun p hp => h p i hp (by simp)) (.elem e es), h [i] i rfl (by simp),
      prunes_root_top ks (i + 1) (fun p j hp hj => h p j hp (by simp only [List.length_cons]; omega))]

theorem removeAll_parts {n : Nat} {t a b : Node} (h : Parts n t a b) {pa pb : List Pos}
    (hl : ∀ p ∈ pa, ∃ j, p.getLast? = some j ∧ j < n) :
    ∃ n', Parts n' (t.removeAll (pa ++ pb.map (shiftPos n))) (a.removeAll pa) (b.removeAll pb) := by
  obtain ⟨e, ea, eb, ks, ls, hn, rfl, rfl, rfl, ha, hb⟩ := h
  refine ⟨_, e, ea, eb, Node.prunes (fun p => decide (p ∈ pa)) [] 0 ks,
    Node.prunes (fun p => decide (p ∈ pb)) [] 0 ls, rfl, ?_, rfl, rfl, ha, hb⟩
  simp only [Node.removeAll, Node.prune]
  rw [prunes_append, hn, prunes_behind]
  congr 2
  · apply prunes_root_top
    intro p j hp hj
    apply decide_eq_decide.2
    rw [List.mem_append]
    constructor
    · rintro (hm | hm)
      · exact hm
      · obtain ⟨q, _, hq⟩ := List.mem_map.1 hm
        have h1 := shiftPos_last (n := n) q
        rw [hq, hp] at h1
        cases h2 : q.getLast? with
        | none => rw [h2] at h1; cases h1
        | some i =>
          rw [h2] at h1
          simp only [Option.map_some, Option.some.injEq] at h1
          omega
    · exact Or.inl
  · congr 1
    funext p
    apply decide_eq_decide.2
    rw [List.mem_append]
    constructor
    · rintro (hm | hm)
      · obtain ⟨j, h1, h2⟩ := hl _ hm
        rw [shiftPos_last] at h1
        cases h3 : p.getLast? with
        | none => rw [h3] at h1; cases h1
        | some i =>
          rw [h3] at h1
          simp only [Option.map_some, Option.some.injEq] at h1
          omega
      · obtain ⟨q, hq, hq'⟩ := List.mem_map.1 hm
        rw [← shiftPos_inj hq']; exact hq
    · intro hm
      exact Or.inr (List.mem_map.2 ⟨p, hm, rfl⟩)

/-! ## Passes -/

/-- A pass over a document is a pass over its parts. -/
def Splits (P : Node → Except Err Node) : Prop := ∀ n t a b, Parts n t a b →
  (∀ t', P t = .ok t' → ∃ n' a' b', P a = .ok a' ∧ P b = .ok b' ∧ Parts n' t' a' b') ∧
  (∀ a' b', P a = .ok a' → P b = .ok b' → ∃ t', P t = .ok t')

theorem Splits.total {f : Node → Node} (h : ∀ n t a b, Parts n t a b → Parts n (f t) (f a) (f b)) :
    Splits (fun t => .ok (f t)) := by
  intro n t a b hp
  refine ⟨fun t' ht => ?_, fun _ _ _ _ => ⟨_, rfl⟩⟩
  cases ht
  exact ⟨n, _, _, rfl, rfl, h n t a b hp⟩

theorem Splits.seq {P Q R : Node → Except Err Node} (hP : Splits P) (hQ : Splits Q)
    (herr : ∀ t x, P t = .error x → R t = .error x) (hok : ∀ t s, P t = .ok s → R t = Q s) : Splits R := by
  intro n t a b hp
  obtain ⟨h1, h2⟩ := hP n t a b hp
  constructor
  · intro t' ht
    cases hPt : P t with
    | error x => rw [herr t x hPt] at ht; cases ht
    | ok s =>
      obtain ⟨n', a', b', ha, hb, hp'⟩ := h1 s hPt
      obtain ⟨n'', a'', b'', ha', hb', hp''⟩ := (hQ n' s a' b' hp').1 t' (by rw [← hok t s hPt]; exact ht)
      exact ⟨n'', a'', b'', by rw [hok a a' ha]; exact ha', by rw [hok b b' hb]; exact hb', hp''⟩
  · intro a'' b'' ha hb
    cases hPa : P a with
    | error x => rw [herr a x hPa] at ha; cases ha
    | ok a' =>
      cases hPb : P b with
      | error x => rw [herr b x hPb] at hb; cases hb
      | ok b' =>
        obtain ⟨s, hs⟩ := h2 a' b' hPa hPb
        obtain ⟨n', a1, b1, ha1, hb1, hp'⟩ := h1 s hs
        rw [hPa] at ha1; cases ha1
        rw [hPb] at hb1; cases hb1
        rw [hok a a' hPa] at ha
        rw [hok b b' hPb] at hb
        rw [hok t s hs]
        exact (hQ n' s a' b' hp').2 a'' b'' ha hb

theorem Splits.fold {α : Type} {f : Node → α → Except Err Node} : ∀ (l : List α), (∀ x ∈ l, Splits (fun t => f t x)) →
    Splits (fun t => foldE f t l)
  | [], _ => Splits.total (f := fun t => t) (fun _ _ _ _ h => h)
  | x :: xs, h => by
    refine (h x (by simp)).seq (Splits.fold xs (fun y hy => h y (by simp [hy]))) ?_ ?_
    · intro t y hy; simp only [foldE, hy]
    · intro t s hs; simp only [foldE, hs]

theorem Splits.ite {P : Node → Except Err Node} (h : Splits P) (c : Bool) :
    Splits (fun t => if c then P t else .ok t) := by
  cases c with
  | true => exact h
  | false => exact Splits.total (f := fun t => t) (fun _ _ _ _ h => h)

/-! ## Searches -/

/-- A search in a document is a search in its parts. -/
def ListSplits (S : Node → Except Err (List Ctx)) : Prop := ∀ n t a b, Parts n t a b →
  (∀ l, S t = .ok l → ∃ la lb, S a = .ok la ∧ S b = .ok lb ∧ l = la ++ lb.map (Ctx.shift n)) ∧
  (∀ la lb, S a = .ok la → S b = .ok lb → ∃ l, S t = .ok l) ∧ (∀ l, S a = .ok l → ∀ c ∈ l, c ∈ a.descs)

theorem lists_filter {p : Ctx → Bool} (hp : ∀ c q, p { c with pos := q } = p c) (hr : ∀ c, p c = true → c.anc ≠ []) :
    ListSplits (fun t => .ok (t.elems.filter p)) := by
  intro n t a b h
  refine ⟨fun l hl => ?_, fun _ _ _ _ => ⟨_, rfl⟩, fun l hl c hc => ?_⟩
  · cases hl
    exact ⟨_, _, rfl, rfl, by rw [filter_root hr, filter_root hr, filter_root hr, filter_descs h hp]⟩
  · cases hl
    rw [filter_root hr] at hc
    exact (List.mem_filter.1 hc).1

theorem removes_splits {S : Node → Except Err (List Ctx)} (hS : ListSplits S) {P : Node → Except Err Node}
    (herr : ∀ t x, S t = .error x → P t = .error x) (hok : ∀ t l, S t = .ok l → P t = .ok (t.removeAll (l.map (·.pos)))) :
    Splits P := by
  intro n t a b h
  obtain ⟨h1, h2, h3⟩ := hS n t a b h
  constructor
  · intro t' ht
    cases hs : S t with
    | error x => rw [herr t x hs] at ht; cases ht
    | ok l =>
      obtain ⟨la, lb, ha, hb, rfl⟩ := h1 l hs
      rw [hok t _ hs] at ht
      cases ht
      obtain ⟨n', hn⟩ := removeAll_parts h (pa := la.map (·.pos)) (pb := lb.map (·.pos)) (fun p hp => by
        obtain ⟨c, hc, rfl⟩ := List.mem_map.1 hp
        exact descs_top h (h3 la ha c hc))
      refine ⟨n', _, _, hok a la ha, hok b lb hb, ?_⟩
      have e : (la ++ lb.map (Ctx.shift n)).map (·.pos) = la.map (·.pos) ++ (lb.map (·.pos)).map (shiftPos n) := by
        rw [List.map_append, List.map_map, List.map_map]; rfl
      rw [e]; exact hn
  · intro a' b' ha hb
    cases hsa : S a with
    | error x => rw [herr a x hsa] at ha; cases ha
    | ok la =>
      cases hsb : S b with
      | error x => rw [herr b x hsb] at hb; cases hb
      | ok lb =>
        obtain ⟨l, hl⟩ := h2 la lb hsa hsb
        exact ⟨_, hok t l hl⟩

theorem selects_free {m : List (String × String)} {alts : List XAlt} (c : Ctx) (q : Pos) :
    alts.any (fun a => a.selects m { c with pos := q }) = alts.any (fun a => a.selects m c) := rfl

theorem any_anc_ne {m : List (String × String)} {alts : List XAlt} (hb : BelowRoot alts) {c : Ctx}
    (h : alts.any (fun a => a.selects m c) = true) : c.anc ≠ [] := by
  obtain ⟨a, ha, hs⟩ := List.any_eq_true.1 h
  exact selects_anc_ne (hb a ha) hs

/-- Searches from the root for elements below it. -/
theorem union_splits {alts : List XAlt} {m : List (String × String)} {f : Node → List Ctx → List Ctx} {p : Ctx → Bool}
    (hb : BelowRoot alts) (hf : ∀ t l, f t l = l.filter p) (hp : ∀ c q, p { c with pos := q } = p c) :
    ListSplits (fun t => (⟨[], .union alts, m, f⟩ : Finder).find t) := by
  have : (fun t => (⟨[], .union alts, m, f⟩ : Finder).find t) =
      fun t => .ok (t.elems.filter (fun c => p c && alts.any (fun a => a.selects m c))) := by
    funext t
    rw [find_union (by rw [hf]; rfl), hf, Node.xpath, List.filter_filter]
  rw [this]
  refine lists_filter (fun c q => ?_) (fun c hc => ?_)
  · rw [hp]; rfl
  · simp only [Bool.and_eq_true] at hc
    exact any_anc_ne hb hc.2

theorem filterE_splits {α ε : Type} {p : α → Except ε Bool} {f : α → α} (hf : ∀ x, p (f x) = p x) {la lb : List α} :
    (∀ r, filterE p (la ++ lb.map f) = .ok r → ∃ ra rb, filterE p la = .ok ra ∧ filterE p lb = .ok rb ∧ r = ra ++ rb.map f) ∧
    (∀ ra rb, filterE p la = .ok ra → filterE p lb = .ok rb → ∃ r, filterE p (la ++ lb.map f) = .ok r) := by
  constructor
  · intro r hr
    obtain ⟨h1, h2⟩ := filterE_filter hr
    obtain ⟨ra, hra⟩ := filterE_ok (p := p) (l := la) (fun x hx => h1 x (by simp [hx]))
    obtain ⟨rb, hrb⟩ := filterE_ok (p := p) (l := lb) (fun x hx => by
      rw [← hf x]; exact h1 (f x) (List.mem_append.2 (Or.inr (List.mem_map.2 ⟨x, hx, rfl⟩))))
    refine ⟨ra, rb, hra, hrb, ?_⟩
    rw [h2, (filterE_filter hra).2, (filterE_filter hrb).2, List.filter_append, List.filter_map]
    congr 3
    funext x
    simp only [Function.comp, hf]
  · intro ra rb hra hrb
    refine filterE_ok (fun x hx => ?_)
    rcases List.mem_append.1 hx with hx | hx
    · exact (filterE_filter hra).1 x hx
    · obtain ⟨y, hy, rfl⟩ := List.mem_map.1 hx
      rw [hf]; exact (filterE_filter hrb).1 y hy

theorem typed_parts {n : Nat} {t a b : Node} (h : Parts n t a b) :
    getTypedNodes t = getTypedNodes a ++ (getTypedNodes b).map (Ctx.shift n) := filter_descs h (fun _ _ => rfl)

/-- Searches among the typed elements. -/
theorem typed_splits {f : Finder} (hf : f.ctxTypes.isEmpty = false) {g : Ctx → List Ctx}
    (hg : ∀ t c, f.interrogate t (f.xpath.eval t f.nsmap c) = g c)
    (hs : ∀ n c, c.pos ≠ [] → g (c.shift n) = (g c).map (Ctx.shift n))
    (hm : ∀ t c, c ∈ Node.elems t → ∀ d ∈ g c, c.anc ≠ [] → d ∈ t.descs) : ListSplits f.find := by
  intro n t a b h
  have hfind : ∀ t, f.find t = match filterE f.isContext (getTypedNodes t) with
      | .error x => .error x | .ok cs => .ok (cs.flatMap g) := by
    intro t
    unfold Finder.find Finder.contexts
    rw [hf]
    simp only [Bool.false_eq_true, if_false]
    cases filterE f.isContext (getTypedNodes t) with
    | error x => rfl
    | ok cs =>
      simp only
      congr 2
      funext c
      exact hg t c
  have hne : ∀ t cs, filterE f.isContext (getTypedNodes t) = .ok cs → ∀ c ∈ cs, c ∈ t.descs := by
    intro t cs hcs c hc
    rw [(filterE_filter hcs).2] at hc
    exact (List.mem_filter.1 (List.mem_filter.1 hc).1).1
  obtain ⟨h1, h2⟩ := filterE_splits (p := f.isContext) (f := Ctx.shift n) (fun _ => rfl) (la := getTypedNodes a)
    (lb := getTypedNodes b)
  rw [← typed_parts h] at h1 h2
  refine ⟨fun l hl => ?_, fun la lb ha hb => ?_, fun l hl c hc => ?_⟩
  · rw [hfind t] at hl
    split at hl
    · cases hl
    · next cs hcs =>
      cases hl
      obtain ⟨ra, rb, hra, hrb, rfl⟩ := h1 _ hcs
      refine ⟨_, _, by rw [hfind a, hra], by rw [hfind b, hrb], ?_⟩
      rw [List.flatMap_append, List.flatMap_map, List.map_flatMap]
      congr 1
      have : ∀ l : List Ctx, (∀ c ∈ l, c.pos ≠ []) → l.flatMap (fun a => g (a.shift n)) = l.flatMap (fun a => (g a).map (Ctx.shift n)) := by
        intro l hl
        induction l with
        | nil => rfl
        | cons c l ih =>
          rw [List.flatMap_cons, List.flatMap_cons, hs n c (hl c (by simp)), ih (fun d hd => hl d (by simp [hd]))]
      exact this rb (fun c hc => descs_pos_ne b (hne b rb hrb c hc))
  · rw [hfind a] at ha
    rw [hfind b] at hb
    rw [hfind t]
    split at ha
    · cases ha
    · next ra hra =>
      split at hb
      · cases hb
      · next rb hrb =>
        obtain ⟨r, hr⟩ := h2 ra rb hra hrb
        rw [hr]
        exact ⟨_, rfl⟩
  · rw [hfind a] at hl
    split at hl
    · cases hl
    · next cs hcs =>
      cases hl
      obtain ⟨d, hd, hc'⟩ := List.mem_flatMap.1 hc
      have := mem_descs_iff.1 (hne a cs hcs d hd)
      exact hm a d this.1 c hc' this.2

theorem childCtxs_shift {n : Nat} {c : Ctx} (hc : c.pos ≠ []) : ∀ (ks : List Node) (i : Nat),
    childCtxs (c.shift n) i ks = (childCtxs c i ks).map (Ctx.shift n)
  | [], _ => rfl
  | .other _ _ :: ks, i => by simp only [childCtxs]; exact childCtxs_shift hc ks (i + 1)
  | .elem e es :: ks, i => by
    simp only [childCtxs, List.map_cons]
    rw [childCtxs_shift hc ks (i + 1)]
    congr 1
    simp only [Ctx.shift, shiftPos_cons hc]

theorem childCtxs_mem_descs {t : Node} {c d : Ctx} (hc : c ∈ t.elems) (hd : d ∈ childCtxs c 0 c.kids) : d ∈ t.descs := by
  obtain ⟨i, e, ks, h1, rfl⟩ := mem_childCtxs.1 hd
  refine mem_descs_iff.2 ⟨?_, by simp⟩
  have := walk_child t c hc i e ks (by simpa using h1)
  simpa [Node.elems] using this

theorem self_splits {m : List (String × String)} {ty ns : String} : ListSplits (disallowedType m ty ns).find :=
  typed_splits (g := fun c => [c]) rfl (fun _ _ => rfl) (fun _ _ _ => rfl) (fun t c hc d hd ha => by
    rw [List.mem_singleton.1 hd]; exact mem_descs_iff.2 ⟨hc, ha⟩)

theorem generic_splits : ListSplits optionalGenericTM.find := by
  refine typed_splits (g := fun c => (childCtxs c 0 c.kids).filter (fun c => c.node.isEmptyElem)) rfl (fun _ _ => rfl)
    (fun n c hc => ?_) (fun t c hc d hd _ => childCtxs_mem_descs hc (List.mem_filter.1 hd).1)
  show (childCtxs (c.shift n) 0 c.kids).filter _ = _
  rw [childCtxs_shift hc, List.filter_map]
  rfl

/-! ## Translations -/

theorem xpath_parts {n : Nat} {t a b : Node} (h : Parts n t a b) {alts : List XAlt} (hb : BelowRoot alts)
    (m : List (String × String)) : t.xpath m alts = a.xpath m alts ++ (b.xpath m alts).map (Ctx.shift n) := by
  unfold Node.xpath
  rw [filter_root (fun c hc => any_anc_ne hb hc), filter_root (fun c hc => any_anc_ne hb hc),
    filter_root (fun c hc => any_anc_ne hb hc)]
  exact filter_descs h (fun _ _ => rfl)

theorem xpath_descs {t : Node} {alts : List XAlt} (hb : BelowRoot alts) {m : List (String × String)} {c : Ctx}
    (hc : c ∈ t.xpath m alts) : c ∈ t.descs := by
  obtain ⟨h1, h2⟩ := List.mem_filter.1 hc
  exact mem_descs_iff.2 ⟨h1, any_anc_ne hb h2⟩

/-- The loop of a translation, with the place `at_ c` where the result goes. -/
theorem replaces_splits {alts : List XAlt} (hb : BelowRoot alts) {m : List (String × String)} {g : Ctx → Except Err Node}
    (hg : ∀ c q, g { c with pos := q } = g c) {place : Ctx → Pos} {P : Node → Except Err Node}
    (hpl : ∀ n t c, c ∈ Node.xpath t m alts → place (c.shift n) = shiftPos n (place c))
    (htop : ∀ t c, c ∈ Node.xpath t m alts → (place c).getLast? = c.pos.getLast?)
    (herr : ∀ t x, mapE (fun c => (g c).map (fun n => (place c, n))) (t.xpath m alts) = .error x → P t = .error x)
    (hok : ∀ t l, mapE (fun c => (g c).map (fun n => (place c, n))) (t.xpath m alts) = .ok l → P t = .ok (t.replaceAll l)) :
    Splits P := by
  intro n t a b h
  let G : Ctx → Node := fun c => match g c with | .ok n => n | .error _ => c.node
  have hG : ∀ c n, g c = .ok n → G c = n := fun c n hn => by simp only [G, hn]
  have hsh : ∀ c : Ctx, g (c.shift n) = g c := fun c => hg c _
  have key : ∀ s : Node, ∀ l, mapE (fun c => (g c).map (fun n => (place c, n))) (s.xpath m alts) = .ok l →
      (∀ c ∈ s.xpath m alts, ∃ n, g c = .ok n) ∧ l = (s.xpath m alts).map (fun c => (place c, G c)) := by
    intro s l hl
    obtain ⟨h1, h2⟩ := mapE_eq hl
    refine ⟨fun c hc => ?_, h2 _ (fun c x hx => ?_)⟩
    · obtain ⟨x, hx⟩ := h1 c hc
      obtain ⟨y, hy, _⟩ := except_map_ok hx
      exact ⟨y, hy⟩
    · obtain ⟨y, hy, hx'⟩ := except_map_ok hx
      rw [← hx', hG c y hy]
  have tot : ∀ s : Node, (∀ c ∈ s.xpath m alts, ∃ n, g c = .ok n) →
      ∃ l, mapE (fun c => (g c).map (fun n => (place c, n))) (s.xpath m alts) = .ok l := by
    intro s hs
    refine mapE_total (fun c hc => ?_)
    obtain ⟨y, hy⟩ := hs c hc
    exact ⟨(place c, y), by rw [hy]; rfl⟩
  have hx := xpath_parts h hb m
  constructor
  · intro t' ht
    cases hl : mapE (fun c => (g c).map (fun n => (place c, n))) (t.xpath m alts) with
    | error x => rw [herr t x hl] at ht; cases ht
    | ok l =>
      rw [hok t l hl] at ht
      cases ht
      obtain ⟨h1, h2⟩ := key t l hl
      obtain ⟨la, hla⟩ := tot a (fun c hc => h1 c (by rw [hx]; exact List.mem_append.2 (Or.inl hc)))
      obtain ⟨lb, hlb⟩ := tot b (fun c hc => by
        rw [← hsh c]
        exact h1 (c.shift n) (by rw [hx]; exact List.mem_append.2 (Or.inr (List.mem_map.2 ⟨c, hc, rfl⟩))))
      have ha := (key a la hla).2
      have hbb := (key b lb hlb).2
      refine ⟨n, _, _, hok a la hla, hok b lb hlb, ?_⟩
      have e : l = la ++ lb.map (fun x => (shiftPos n x.1, x.2)) := by
        have f3 : ∀ L : List Ctx, (∀ c ∈ L, c ∈ b.xpath m alts) →
            L.map (fun c => (place (c.shift n), G (c.shift n))) = L.map (fun c => (shiftPos n (place c), G c)) := by
          intro L hL
          apply List.map_congr_left
          intro c hc
          rw [hpl n b c (hL c hc)]
          simp only [Prod.mk.injEq, true_and]
          obtain ⟨y, hy⟩ := (key b lb hlb).1 c (hL c hc)
          rw [hG c y hy, hG (c.shift n) y (by rw [hsh, hy])]
        rw [h2, hx, ha, hbb, List.map_append, List.map_map, List.map_map]
        congr 1
        exact f3 _ (fun c hc => hc)
      rw [e]
      refine replaceAll_parts h (fun x hxm => ?_)
      rw [ha] at hxm
      obtain ⟨c, hc, rfl⟩ := List.mem_map.1 hxm
      simp only
      rw [htop a c hc]
      exact descs_top h (xpath_descs hb hc)
  · intro a' b' ha hb'
    cases hla : mapE (fun c => (g c).map (fun n => (place c, n))) (a.xpath m alts) with
    | error x => rw [herr a x hla] at ha; cases ha
    | ok la =>
      cases hlb : mapE (fun c => (g c).map (fun n => (place c, n))) (b.xpath m alts) with
      | error x => rw [herr b x hlb] at hb'; cases hb'
      | ok lb =>
        obtain ⟨l, hl⟩ := tot t (fun c hc => by
          rw [hx] at hc
          rcases List.mem_append.1 hc with hc | hc
          · exact (key a la hla).1 c hc
          · obtain ⟨d, hd, rfl⟩ := List.mem_map.1 hc
            rw [hsh]; exact (key b lb hlb).1 d hd)
        exact ⟨_, hok t l hl⟩

theorem custom_splits {alts : List XAlt} (hb : BelowRoot alts) {m : List (String × String)} {g : Ctx → Except Err Node}
    (hg : ∀ c q, g { c with pos := q } = g c) : Splits (fun t => (⟨alts, m, .custom g⟩ : Trans).translate t) :=
  replaces_splits (m := m) hb hg (place := fun c => c.pos) (fun _ _ _ _ => rfl) (fun _ _ _ => rfl)
    (fun t x hx => by simp only [Trans.translate, hx]) (fun t l hl => by simp only [Trans.translate, hl])

theorem valueNode_free (m : List (String × String)) (p : Option XName) (c : Ctx) (q : Pos) :
    valueNode m p { c with pos := q } = valueNode m p c := by
  cases p with
  | none => rfl
  | some x =>
    unfold valueNode
    have : ∀ (l : List Node) (i : Nat),
        ((childCtxs { c with pos := q } i l).find? (fun k => decide (k.e.tag = x.resolve m))).map (·.e) =
        ((childCtxs c i l).find? (fun k => decide (k.e.tag = x.resolve m))).map (·.e) := by
      intro l
      induction l with
      | nil => intro i; rfl
      | cons k l ih =>
        intro i
        cases k with
        | other a b => simp only [childCtxs]; exact ih (i + 1)
        | elem e es =>
          simp only [childCtxs, List.find?_cons]
          cases decide (e.tag = x.resolve m) with
          | true => rfl
          | false => exact ih (i + 1)
    have h := this c.kids 0
    simp only
    cases h1 : (childCtxs { c with pos := q } 0 c.kids).find? (fun k => decide (k.e.tag = x.resolve m)) with
    | none =>
      rw [h1] at h
      cases h2 : (childCtxs c 0 c.kids).find? (fun k => decide (k.e.tag = x.resolve m)) with
      | none => rfl
      | some k => rw [h2] at h; cases h
    | some k =>
      rw [h1] at h
      cases h2 : (childCtxs c 0 c.kids).find? (fun k => decide (k.e.tag = x.resolve m)) with
      | none => rw [h2] at h; cases h
      | some k' =>
        rw [h2] at h
        simp only [Option.map_some, Option.some.injEq] at h
        simp only [h]

theorem value_splits {alts : List XAlt} (hb : BelowRoot alts) {m : List (String × String)} {p : Option XName}
    {nt : Option QName} {ca : Bool} {ov : List (QName × String)} :
    Splits (fun t => (⟨alts, m, .value p nt ca ov⟩ : Trans).translate t) :=
  custom_splits (g := translateValue m p nt ca ov) hb (fun c q => by
    unfold translateValue
    rw [valueNode_free])

theorem renamed_splits {alts : List XAlt} (hb : BelowRoot alts) {m : List (String × String)} {tag : QName} :
    Splits (fun t => (⟨alts, m, .renamed tag⟩ : Trans).translate t) := by
  have : (fun t => (⟨alts, m, .renamed tag⟩ : Trans).translate t) =
      fun t => .ok (t.edit (fun c => if alts.any (fun a => a.selects m c) then { c.e with tag := tag } else c.e)) := by
    funext t
    simp only [Trans.translate]
    rw [modifyXpath_eq]
  rw [this]
  refine Splits.total (fun n t a b h => edit_parts h (fun _ _ => rfl) (fun env e e' ks ks' he => ?_))
  have h0 : ∀ e ks, alts.any (fun a => a.selects m ⟨[], env, [], e, ks⟩) = false := by
    intro e ks
    cases hc : alts.any (fun a => a.selects m ⟨[], env, [], e, ks⟩) with
    | false => rfl
    | true => exact absurd rfl (any_anc_ne hb hc)
  simp only [h0, Bool.false_eq_true, if_false]
  exact he

theorem parent_splits {p n q k : String} {m : List (String × String)} {tag : QName} :
    Splits (fun t => (⟨[relIn p n q k], m, .parent (fun c => .ok (copyRetag tag c.e c.kids))⟩ : Trans).translate t) := by
  have hlen : ∀ t c, c ∈ Node.xpath t m [relIn p n q k] → 2 ≤ c.pos.length := by
    intro t c hc
    obtain ⟨h1, h2⟩ := List.mem_filter.1 hc
    simp only [List.any_cons, List.any_nil, Bool.or_false] at h2
    have h3 := (relIn_selects.1 h2).1
    have h4 := walk_anc_pos [] [] [] t c h1
    simp only [List.length_nil] at h4
    omega
  refine replaces_splits (alts := [relIn p n q k]) (m := m) (g := fun c => .ok (copyRetag tag c.e c.kids))
    (place := fun c => c.pos.tail) (by intro a ha; left; rw [List.mem_singleton.1 ha]; rfl) (fun _ _ => rfl)
    (fun n t c hc => shiftPos_tail (hlen t c hc)) (fun t c hc => ?_)
    (fun t x hx => by simp only [Trans.translate, hx]) (fun t l hl => by simp only [Trans.translate, hl])
  have := hlen t c hc
  cases hp : c.pos with
  | nil => rw [hp] at this; simp at this
  | cons i r =>
    cases r with
    | nil => rw [hp] at this; simp at this
    | cons j r => simp only [List.tail_cons, List.getLast?_cons_cons]

/-! ## In-place passes -/

theorem schemaloc_splits (u : Cls) : ∀ n t a b, Parts n t a b →
    Parts n (u.updateSchemalocs t) (u.updateSchemalocs a) (u.updateSchemalocs b) := by
  intro n t a b h
  rw [updateSchemalocs_eq, updateSchemalocs_eq, updateSchemalocs_eq]
  refine edit_parts h (fun _ _ => rfl) (fun env e e' ks ks' he => ?_)
  simp only [schemalocEdit, List.isEmpty_nil, if_true]
  obtain ⟨h1, h2, h3⟩ := he
  refine ⟨by rw [updateSchemalocsElem_tag, updateSchemalocsElem_tag, h1],
    by rw [updateSchemalocsElem_decls, updateSchemalocsElem_decls, h2], ?_⟩
  unfold Cls.updateSchemalocsElem Elem.get?
  rw [h3]
  split
  · exact h3
  · simp only [Elem.set, h3]

theorem namespaces_splits (u : Cls) : ∀ n t a b, Parts n t a b →
    Parts n (u.updateNamespaces [] t) (u.updateNamespaces [] a) (u.updateNamespaces [] b) := by
  intro n t a b h
  rw [updateNamespaces_eq, updateNamespaces_eq, updateNamespaces_eq]
  refine edit_parts h (fun _ _ => rfl) (fun env e e' ks ks' he => ?_)
  obtain ⟨h1, h2, h3⟩ := he
  simp only [nsEdit, h1]
  split
  · exact ⟨by simp only [Cls.updateNsmapElem, h1], rfl, h3⟩
  · exact ⟨h1, h2, h3⟩

theorem lists_splits (u : Cls) : ∀ n t a b, Parts n t a b → Parts n (updateLists u t) (updateLists u a) (updateLists u b) := by
  intro n t a b h
  rw [updateLists_eq, updateLists_eq, updateLists_eq]
  refine edit_parts h (fun _ _ => rfl) (fun env e e' ks ks' he => ?_)
  obtain ⟨h1, h2, h3⟩ := he
  obtain ⟨x1, x2, x3, _⟩ := iter_lists_keeps (propsDepth (XName.resolve u.nsmap ⟨"cybox", "Object"⟩)
    (XName.resolve u.nsmap ⟨"cybox", "Properties"⟩) []) e
  obtain ⟨y1, y2, y3, _⟩ := iter_lists_keeps (propsDepth (XName.resolve u.nsmap ⟨"cybox", "Object"⟩)
    (XName.resolve u.nsmap ⟨"cybox", "Properties"⟩) []) e'
  exact ⟨by simp only [listsEdit]; rw [x1, y1, h1], by simp only [listsEdit]; rw [x2, y2, h2],
    by simp only [listsEdit]; rw [x3, y3, h3]⟩

/-- Paths that do not look at children. -/
def headOnly (alts : List XAlt) : Bool := alts.all (fun a => match a.pred with | .hasChild _ => false | _ => true)

theorem selects_head {m : List (String × String)} {alts : List XAlt} (ha : headOnly alts = true) {env : NsMap} {e e' : Elem}
    {ks ks' : List Node} (h : SameHead e e') : alts.any (fun a => a.selects m ⟨[], env, [], e, ks⟩) =
      alts.any (fun a => a.selects m ⟨[], env, [], e', ks'⟩) := by
  obtain ⟨h1, _, h3⟩ := h
  induction alts with
  | nil => rfl
  | cons a as ih =>
    simp only [headOnly, List.all_cons, Bool.and_eq_true] at ha
    simp only [List.any_cons]
    rw [ih (by simpa [headOnly] using ha.2)]
    congr 1
    unfold XAlt.selects
    rw [h1]
    congr 1
    have := ha.1
    cases hp : a.pred with
    | none => rfl
    | hasAttr x => simp only [XPred.holds, Elem.has, h3]
    | hasChild x => rw [hp] at this; cases this

theorem version_splits {m : List (String × String)} {alts : List XAlt} (ha : headOnly alts = true) {g : Elem → Elem}
    (hg : ∀ e e', SameHead e e' → SameHead (g e) (g e')) : ∀ n t a b, Parts n t a b →
    Parts n (t.edit (versionEdit m alts g)) (a.edit (versionEdit m alts g)) (b.edit (versionEdit m alts g)) := by
  intro n t a b h
  refine edit_parts h (fun _ _ => rfl) (fun env e e' ks ks' he => ?_)
  simp only [versionEdit]
  rw [selects_head ha he (ks' := ks')]
  split
  · exact hg e e' he
  · exact he

theorem SameHead.set {e e' : Elem} (h : SameHead e e') (k : QName) (v : String) : SameHead (e.set k v) (e'.set k v) :=
  ⟨h.1, h.2.1, by simp only [Elem.set, h.2.2]⟩

theorem SameHead.del {e e' : Elem} (h : SameHead e e') (k : QName) : SameHead (e.del k) (e'.del k) :=
  ⟨h.1, h.2.1, by simp only [Elem.del, h.2.2]⟩

theorem rootVersion_splits (v : String) : ∀ n t a b, Parts n t a b →
    Parts n (setRootVersion v t) (setRootVersion v a) (setRootVersion v b) := by
  rintro n t a b ⟨e, ea, eb, ks, ls, hn, rfl, rfl, rfl, ha, hb⟩
  exact ⟨_, _, _, ks, ls, hn, rfl, rfl, rfl, ha.set _ _, hb.set _ _⟩

theorem foldE_modifies_ok {g : Ctx → Except Err Elem} : ∀ (cs : List Ctx) (t : Node), (∀ c ∈ cs, ∃ e', g c = .ok e') →
    ∃ t', foldE (fun t c => match g c with
      | .error x => .error x
      | .ok e' => .ok (t.modifyAt c.pos (fun _ => e'))) t cs = .ok t'
  | [], t, _ => ⟨t, rfl⟩
  | c :: cs, t, h => by
    obtain ⟨e', he⟩ := h c (by simp)
    obtain ⟨t', ht⟩ := foldE_modifies_ok cs (t.modifyAt c.pos (fun _ => e')) (fun d hd => h d (by simp [hd]))
    refine ⟨t', ?_⟩
    simp only [foldE, he]
    exact ht

theorem vocabUpdate_ok {v : Vocab} {t : Node} (h1 : ∀ c ∈ t.elems, c.anc ≠ [] → c.e.has tagXsiType = true → ∃ b, v.wanted c = .ok b)
    (h2 : ∀ c ∈ t.elems, v.hit c = true → ∃ e', v.updateNode c.e = .ok e') : ∃ t', v.update t = .ok t' := by
  have h1' : ∀ c ∈ getTypedNodes t, ∃ b, v.wanted c = .ok b := by
    intro c hc
    obtain ⟨x, y⟩ := List.mem_filter.1 hc
    obtain ⟨z, z'⟩ := mem_descs_iff.1 x
    exact h1 c z z' y
  obtain ⟨r, hr⟩ := filterE_ok h1'
  have h3 : ∀ c ∈ r, ∃ e', v.updateNode c.e = .ok e' := by
    intro c hc
    rw [(filterE_filter hr).2] at hc
    obtain ⟨x, y⟩ := List.mem_filter.1 hc
    obtain ⟨x', y'⟩ := List.mem_filter.1 x
    obtain ⟨z, z'⟩ := mem_descs_iff.1 x'
    refine h2 c z ?_
    simp only [Vocab.hit, Bool.and_eq_true]
    refine ⟨⟨by simpa using z', y'⟩, ?_⟩
    cases hw : v.wanted c with
    | ok b => rw [hw] at y; exact y
    | error x => rw [hw] at y; cases y
  unfold Vocab.update Vocab.find
  rw [hr]
  exact foldE_modifies_ok (g := fun c => v.updateNode c.e) r t h3

theorem vocab_splits (v : Vocab) : Splits v.update := by
  intro n t a b h
  have root : ∀ env e ks, v.hit ⟨[], env, [], e, ks⟩ = false := fun _ _ _ => rfl
  have q1 := forall_parts h (Q := fun c => c.anc ≠ [] → c.e.has tagXsiType = true → ∃ b, v.wanted c = .ok b)
    (fun _ _ => Iff.rfl) (fun _ _ _ _ _ _ => by simp)
  have q2 := forall_parts h (Q := fun c => v.hit c = true → ∃ e', v.updateNode c.e = .ok e')
    (fun _ _ => Iff.rfl) (fun _ _ _ _ _ _ => by simp [root])
  have fwd : ∀ s s', v.update s = .ok s' → s' = s.edit v.edit ∧
      (∀ c ∈ s.elems, c.anc ≠ [] → c.e.has tagXsiType = true → ∃ b, v.wanted c = .ok b) ∧
      (∀ c ∈ s.elems, v.hit c = true → ∃ e', v.updateNode c.e = .ok e') := by
    intro s s' hs
    obtain ⟨h1, h2, h3⟩ := vocabUpdate_eq hs
    exact ⟨h1, fun c hc ha ht => h2 c (List.mem_filter.2 ⟨mem_descs_iff.2 ⟨hc, ha⟩, ht⟩), h3⟩
  constructor
  · intro t' ht
    obtain ⟨h1, h2, h3⟩ := fwd t t' ht
    obtain ⟨a', ha⟩ := vocabUpdate_ok (q1.1 h2).1 (q2.1 h3).1
    obtain ⟨b', hb⟩ := vocabUpdate_ok (q1.1 h2).2 (q2.1 h3).2
    refine ⟨n, a', b', ha, hb, ?_⟩
    rw [h1, (fwd a a' ha).1, (fwd b b' hb).1]
    exact edit_parts h (fun _ _ => rfl) (fun env e e' ks ks' he => by
      simp only [Vocab.edit, root, Bool.false_eq_true, if_false]; exact he)
  · intro a' b' ha hb
    exact vocabUpdate_ok (q1.2 ⟨(fwd a a' ha).2.1, (fwd b b' hb).2.1⟩) (q2.2 ⟨(fwd a a' ha).2.2, (fwd b b' hb).2.2⟩)

theorem vocabs_splits (vs : List Vocab) : Splits (fun t => updateVocabs vs t) := Splits.fold vs (fun v _ => vocab_splits v)

theorem optionals_splits {fs : List Finder} (h : ∀ f ∈ fs, ListSplits f.find) : Splits (fun t => removeOptionals fs t) :=
  Splits.fold fs (fun f hf => removes_splits (h f hf) (fun t x hx => by simp only [hx]) (fun t l hl => by simp only [hl]))

theorem fields_splits {fs : List Trans} (h : ∀ f ∈ fs, Splits (fun t => f.translate t)) : Splits (fun t => translateFields fs t) :=
  Splits.fold fs h

end Ramrod

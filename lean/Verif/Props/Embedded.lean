import Verif.Props.Embed
import Verif.Props.Rename
import Verif.Lemmas.Clean
/-!
# C71, second part: the passes, the steps and the chain
-/

namespace Ramrod

/-! ## Vocabularies -/

theorem inside_mem {t a : Node} (hi : Inside t a) {c : Ctx} (hc : c ∈ a.descs) : c.deeper ∈ t.descs ∧ c.Content := by
  obtain ⟨d1, d2, d3, L, _, _, ha, ht, hL, _⟩ := inside_elems hi
  rw [ha] at hc
  rw [ht]
  exact ⟨List.mem_cons_of_mem _ (List.mem_map.2 ⟨c, hc, rfl⟩), hL c hc⟩

theorem updateNode_attrs {v : Vocab} {e e' : Elem} (h : v.updateNode e = .ok e') : ∀ x ∈ e'.attrs, x ∈ e.attrs ∨ x.1 ≠ tagXsiType ∨
    ∃ al, ':' ∉ al.toList ∧ x.2 = al ++ ":" ++ v.newType := by
  simp only [Vocab.updateNode] at h
  split at h
  · cases h
  · next al ty hi =>
    obtain ⟨s, hs, hq⟩ := getTypeInfo_ok.1 hi
    have h1 : ∀ x ∈ (e.set tagXsiType (al ++ ":" ++ v.newType)).attrs, x ∈ e.attrs ∨ x.1 ≠ tagXsiType ∨
        ∃ al, ':' ∉ al.toList ∧ x.2 = al ++ ":" ++ v.newType := by
      intro x hx
      rcases mem_set hx with hx | rfl
      · exact Or.inl hx
      · exact Or.inr (Or.inr ⟨al, hq.2.1, rfl⟩)
    have h2 : ∀ (d : Elem) (k : QName) (s : String), k ≠ tagXsiType → (∀ x ∈ d.attrs, x ∈ e.attrs ∨ x.1 ≠ tagXsiType ∨
        ∃ al, ':' ∉ al.toList ∧ x.2 = al ++ ":" ++ v.newType) → ∀ x ∈ (d.set k s).attrs, x ∈ e.attrs ∨ x.1 ≠ tagXsiType ∨
        ∃ al, ':' ∉ al.toList ∧ x.2 = al ++ ":" ++ v.newType := by
      intro d k s hk hd x hx
      rcases mem_set hx with hx | rfl
      · exact hd x hx
      · exact Or.inr (Or.inl hk)
    split at h
    · cases h
    · next e2 he2 =>
      have h3 : ∀ x ∈ e2.attrs, x ∈ e.attrs ∨ x.1 ≠ tagXsiType ∨ ∃ al, ':' ∉ al.toList ∧ x.2 = al ++ ":" ++ v.newType := by
        split at he2
        · split at he2
          · simp only [Except.ok.injEq] at he2; rw [← he2]; exact h2 _ _ _ (by decide) h1
          · cases he2
        · simp only [Except.ok.injEq] at he2; rw [← he2]; exact h1
      have h4 : ∀ x ∈ (if e2.has attrVocabName then e2.set attrVocabName v.name else e2).attrs, x ∈ e.attrs ∨ x.1 ≠ tagXsiType ∨
          ∃ al, ':' ∉ al.toList ∧ x.2 = al ++ ":" ++ v.newType := by
        split
        · exact h2 _ _ _ (by decide) h3
        · exact h3
      split at h
      · split at h
        · simp only [Except.ok.injEq] at h; rw [← h]; exact h4
        · simp only [Except.ok.injEq] at h; rw [← h]; exact h4
      · simp only [Except.ok.injEq] at h; rw [← h]; exact h4

theorem notStix_vocab {v : Vocab} (hn : v.newType ∉ stixTypeNames) (hc : ':' ∉ v.newType.toList) {e e' : Elem}
    (h : v.updateNode e = .ok e') (he : NotStix e) : NotStix e' := by
  obtain ⟨h1, _, _⟩ := updateNode_keeps h
  refine ⟨by rw [h1]; exact he.1, by rw [h1]; exact he.2.1, fun s hs p ty hq => ?_⟩
  rcases updateNode_attrs h _ hs with hx | hx | ⟨al, ha, hx⟩
  · exact he.2.2 s hx p ty hq
  · exact absurd rfl hx
  · have hq' : IsQType s al v.newType := ⟨hx, ha, hc⟩
    rw [(isQType_unique hq hq').2]
    exact hn

theorem isEmpty_app {l : List QName} {x : QName} {xs : List QName} : (l ++ x :: xs).isEmpty = false := by cases l <;> rfl

theorem hit_head {v : Vocab} {c : Ctx} (h : c.e.get? tagXsiType = none) : v.hit c = false := by
  unfold Vocab.hit
  rw [Elem.has_eq, h]
  simp

theorem fits_vocab {v : Vocab} (hn : v.newType ∉ stixTypeNames) (hc : ':' ∉ v.newType.toList) : FitsIn v.edit v.edit where
  deep pos env l e ks he := by
    have hh : v.hit ⟨pos ++ [0], env, l ++ [stixObservables, packageTag], e, ks⟩ = v.hit ⟨pos, env, l ++ [cyboxObservables], e, ks⟩ := by
      unfold Vocab.hit
      simp only [isEmpty_app]
      rfl
    unfold Vocab.edit
    rw [hh]
    refine ⟨rfl, ?_⟩
    split
    · split
      · next e' h => exact notStix_vocab hn hc h he
      · exact he
    · exact he
  root env e ks _ := ⟨(keeps_vocab v _).1, (keeps_vocab v _).2⟩
  head env e ks _ hx := ⟨(keeps_vocab v _).1, (keeps_vocab v _).2, by
    unfold Vocab.edit; rw [hit_head hx]; exact hx⟩
  other env e ks _ := ⟨(keeps_vocab v _).1, (keeps_vocab v _).2⟩
  version env e ks e' _ _ hx hv := by
    unfold Vocab.edit
    rw [hit_head hx, show v.hit ⟨[], env, [], e', ks⟩ = false from rfl]
    exact hv

theorem vocab_embeds {v : Vocab} (hn : v.newType ∉ stixTypeNames) (hc : ':' ∉ v.newType.toList) : Embeds v.update v.update := by
  intro t a hi t' ht
  obtain ⟨h1, h2, h3⟩ := vocabUpdate_eq ht
  obtain ⟨a', ha⟩ := vocabUpdate_ok (v := v) (t := a)
    (fun c hc hne hx => by
      obtain ⟨hd, _⟩ := inside_mem hi (mem_descs_iff.2 ⟨hc, hne⟩)
      exact h2 c.deeper (List.mem_filter.2 ⟨hd, hx⟩))
    (fun c hc hh => by
      have hne : c.anc ≠ [] := (hit_iff.1 hh).1
      obtain ⟨hd, hcon⟩ := inside_mem hi (mem_descs_iff.2 ⟨hc, hne⟩)
      refine h3 c.deeper (mem_descs_iff.1 hd).1 ?_
      unfold Vocab.hit at hh ⊢
      simp only [Ctx.deeper, isEmpty_app]
      simp only [Bool.and_eq_true] at hh ⊢
      exact ⟨⟨rfl, hh.1.2⟩, hh.2⟩)
  refine ⟨a', ha, ?_⟩
  rw [h1, (vocabUpdate_eq ha).1]
  exact edit_inside (fits_vocab hn hc) hi

theorem vocab_spares {v : Vocab} (ho : ∀ ty ∈ v.oldTypes, ty ∈ stixTypeNames) : Spares v.update := by
  intro t a hi t' ht
  rw [(vocabUpdate_eq ht).1]
  refine spares_edit { deep := ?_, root := ?_, head := ?_, other := ?_, version := ?_ } hi
  · intro pos env l e ks he
    have : v.hit ⟨pos ++ [0], env, l ++ [stixObservables, packageTag], e, ks⟩ = false := by
      cases hh : v.hit ⟨pos ++ [0], env, l ++ [stixObservables, packageTag], e, ks⟩ with
      | false => rfl
      | true =>
        exfalso
        obtain ⟨_, p, ty, ⟨s, hs, hq, _⟩, hm⟩ := hit_iff.1 hh
        exact he.2.2 s (get?_mem hs) p ty hq (ho ty hm)
    unfold Vocab.edit
    rw [this]
    exact ⟨rfl, he⟩
  · exact fun env e ks _ => ⟨(keeps_vocab v _).1, (keeps_vocab v _).2⟩
  · exact fun env e ks _ hx => ⟨(keeps_vocab v _).1, (keeps_vocab v _).2, by unfold Vocab.edit; rw [hit_head hx]; exact hx⟩
  · exact fun env e ks _ => ⟨rfl, rfl⟩
  · intro env e ks e' _ _ hx hv
    unfold Vocab.edit
    rw [hit_head hx]
    exact hv

/-! ## Translations -/

/-- The loop of a translation, with the place where the result goes. -/
theorem replaces_embeds {alts : List XAlt} {m : List (String × String)} (hp : parentsOff m alts = true) (hh : headsOff m alts = true)
    {g : Ctx → Except Err Node} (hg : ∀ c : Ctx, c.Content → g c.deeper = g c) (hN : ∀ c n, Ctx.Content c → g c = .ok n → n.All NotStix)
    {place : Ctx → Pos} (hpl : ∀ t c, c ∈ Node.xpath t m alts → Ctx.Content c → place c.deeper = place c ++ [0] ∧ place c ≠ [])
    {P : Node → Except Err Node}
    (herr : ∀ t x, mapE (fun c => (g c).map (fun n => (place c, n))) (t.xpath m alts) = .error x → P t = .error x)
    (hok : ∀ t l, mapE (fun c => (g c).map (fun n => (place c, n))) (t.xpath m alts) = .ok l → P t = .ok (t.replaceAll l)) :
    Embeds P P := by
  intro t a hi t' ht
  let G : Ctx → Node := fun c => match g c with | .ok n => n | .error _ => c.node
  have hG : ∀ c n, g c = .ok n → G c = n := fun c n hn => by simp only [G, hn]
  obtain ⟨hx, hcon⟩ := xpath_inside hi hp hh
  have key : ∀ s : Node, ∀ l, mapE (fun c => (g c).map (fun n => (place c, n))) (s.xpath m alts) = .ok l →
      (∀ c ∈ s.xpath m alts, ∃ n, g c = .ok n) ∧ l = (s.xpath m alts).map (fun c => (place c, G c)) := by
    intro s l hl
    obtain ⟨h1, h2⟩ := mapE_eq hl
    refine ⟨fun c hc => ?_, h2 _ (fun c x hx => ?_)⟩
    · obtain ⟨x, hx⟩ := h1 c hc
      obtain ⟨y, hy, _⟩ := except_map_ok hx
      exact ⟨y, hy⟩
    · obtain ⟨y, hy, hx'⟩ := except_map_ok hx
      rw [← hx', hG c y hy]
  cases hl : mapE (fun c => (g c).map (fun n => (place c, n))) (t.xpath m alts) with
  | error x => rw [herr t x hl] at ht; cases ht
  | ok l =>
    rw [hok t l hl] at ht
    cases ht
    obtain ⟨h1, h2⟩ := key t l hl
    have hga : ∀ c ∈ a.xpath m alts, ∃ n, g c = .ok n := by
      intro c hc
      rw [← hg c (hcon c hc)]
      exact h1 c.deeper (by rw [hx]; exact List.mem_map.2 ⟨c, hc, rfl⟩)
    obtain ⟨la, hla⟩ := mapE_total (f := fun c => (g c).map (fun n => (place c, n))) (l := a.xpath m alts) (fun c hc => by
      obtain ⟨y, hy⟩ := hga c hc
      exact ⟨(place c, y), by rw [hy]; rfl⟩)
    have ha := (key a la hla).2
    refine ⟨_, hok a la hla, ?_⟩
    have e : l = la.map (fun x => (x.1 ++ [0], x.2)) := by
      rw [h2, hx, ha, List.map_map, List.map_map]
      apply List.map_congr_left
      intro c hc
      obtain ⟨y, hy⟩ := hga c hc
      simp only [Function.comp, Prod.mk.injEq]
      exact ⟨(hpl a c hc (hcon c hc)).1, by rw [hG c y hy, hG c.deeper y (by rw [hg c (hcon c hc), hy])]⟩
    rw [e]
    refine replaceAll_inside hi (fun x hxm => ?_)
    rw [ha] at hxm
    obtain ⟨c, hc, rfl⟩ := List.mem_map.1 hxm
    obtain ⟨y, hy⟩ := hga c hc
    exact ⟨(hpl a c hc (hcon c hc)).2, by rw [show (place c, G c).2 = y from hG c y hy]; exact hN c y (hcon c hc) hy⟩

theorem find_child_free {P : QName → Bool} {c d : Ctx} : ∀ (l : List Node) (i : Nat),
    ((childCtxs c i l).find? (fun k => P k.e.tag)).map (·.e) = ((childCtxs d i l).find? (fun k => P k.e.tag)).map (·.e)
  | [], i => rfl
  | .other a b :: l, i => by simp only [childCtxs]; exact find_child_free l (i + 1)
  | .elem e es :: l, i => by
    simp only [childCtxs, List.find?_cons]
    cases P e.tag with
    | true => rfl
    | false => exact find_child_free l (i + 1)

theorem valueNode_eq {m : List (String × String)} {p : Option XName} {c d : Ctx} (he : c.e = d.e) (hk : c.kids = d.kids) :
    valueNode m p c = valueNode m p d := by
  cases p with
  | none => simp only [valueNode, he]
  | some x =>
    have h := find_child_free (P := fun q => decide (q = x.resolve m)) (c := c) (d := d) d.kids 0
    simp only at h
    unfold valueNode
    rw [hk]
    simp only
    cases h1 : (childCtxs c 0 d.kids).find? (fun k => decide (k.e.tag = x.resolve m)) with
    | none =>
      rw [h1] at h
      cases h2 : (childCtxs d 0 d.kids).find? (fun k => decide (k.e.tag = x.resolve m)) with
      | none => rfl
      | some k => rw [h2] at h; cases h
    | some k =>
      rw [h1] at h
      cases h2 : (childCtxs d 0 d.kids).find? (fun k => decide (k.e.tag = x.resolve m)) with
      | none => rw [h2] at h; cases h
      | some k' =>
        rw [h2] at h
        simp only [Option.map_some, Option.some.injEq] at h
        simp only [h]

theorem alls_mem {P : Elem → Prop} : ∀ {ks : List Node}, Node.Alls P ks → ∀ k ∈ ks, k.All P
  | [], _, k, hk => by cases hk
  | k' :: ks, h, k, hk => by
    rcases List.mem_cons.1 hk with rfl | hk
    · exact h.1
    · exact alls_mem h.2 k hk

theorem valueNode_notStix {m : List (String × String)} {p : Option XName} {c : Ctx} (hc : c.Content) {e : Elem}
    (h : valueNode m p c = .ok e) : NotStix e := by
  cases p with
  | none => cases h; exact hc.1
  | some x =>
    simp only [valueNode] at h
    split at h
    · next k hk =>
      cases h
      obtain ⟨i, e, ks, h1, rfl⟩ := mem_childCtxs.1 (List.mem_of_find?_eq_some hk)
      have hall : Node.Alls NotStix c.kids := hc.2.1.2
      have hm := alls_mem hall (.elem e ks) (List.mem_of_getElem? (by simpa using h1))
      exact hm.1
    · cases h

theorem mem_overrideAttrs {src : Elem} {x : QName × String} : ∀ {ov : List (QName × String)} {as : Attrs},
    x ∈ overrideAttrs src ov as → x ∈ as ∨ x ∈ ov
  | [], as, h => Or.inl h
  | (n, v) :: ov, as, h => by
    simp only [overrideAttrs] at h
    rcases mem_overrideAttrs h with h | h
    · split at h
      · rcases mem_set h with h | rfl
        · exact Or.inl h
        · exact Or.inr (by simp)
      · exact Or.inl h
    · exact Or.inr (by simp [h])

theorem value_embeds {alts : List XAlt} {m : List (String × String)} (hp : parentsOff m alts = true) (hh : headsOff m alts = true)
    {p : Option XName} {ca : Bool} {ov : List (QName × String)} (hov : ∀ x ∈ ov, x.1 ≠ tagXsiType) :
    Embeds (fun t => (⟨alts, m, .value p none ca ov⟩ : Trans).translate t) (fun t => (⟨alts, m, .value p none ca ov⟩ : Trans).translate t) := by
  refine replaces_embeds (g := translateValue m p none ca ov) (place := fun c => c.pos) hp hh (fun c hc => ?_) (fun c n hc hn => ?_)
    (fun t c _ hc => ⟨rfl, hc.2.2.2⟩) (fun t x hx => by simp only [Trans.translate, hx]) (fun t l hl => by simp only [Trans.translate, hl])
  · unfold translateValue
    rw [valueNode_eq (c := c.deeper) (d := c) rfl rfl]
    rfl
  · unfold translateValue at hn
    split at hn
    · cases hn
    · next src hs =>
      cases hn
      have hsrc := valueNode_notStix hc hs
      refine ⟨⟨hc.1.1, hc.1.2.1, fun v hv q ty hq => ?_⟩, trivial⟩
      rcases mem_overrideAttrs hv with hv | hv
      · split at hv
        · rcases mem_updateAll hv with hv | hv
          · cases hv
          · exact hsrc.2.2 v hv q ty hq
        · cases hv
      · exact absurd rfl (hov _ hv)

theorem renamed_embeds {alts : List XAlt} {m : List (String × String)} (hp : parentsOff m alts = true) (hh : headsOff m alts = true)
    {tag : QName} (h1 : ∀ n, tag.ns = some n → ofStix n = false) (h2 : tag ≠ cyboxObservables) :
    Embeds (fun t => (⟨alts, m, .renamed tag⟩ : Trans).translate t) (fun t => (⟨alts, m, .renamed tag⟩ : Trans).translate t) := by
  have : (fun t => (⟨alts, m, .renamed tag⟩ : Trans).translate t) =
      fun t => .ok (t.edit (fun c => if alts.any (fun a => a.selects m c) then { c.e with tag := tag } else c.e)) := by
    funext t
    simp only [Trans.translate]
    rw [modifyXpath_eq]
  rw [this]
  exact Embeds.edit (fits_renamed hp hh h1 h2)

theorem parent_embeds {p n q k : String} {m : List (String × String)} (hp : parentsOff m [relIn p n q k] = true)
    (hh : headsOff m [relIn p n q k] = true) {tag : QName} (h1 : ∀ n, tag.ns = some n → ofStix n = false) (h2 : tag ≠ cyboxObservables) :
    Embeds (fun t => (⟨[relIn p n q k], m, .parent (fun c => .ok (copyRetag tag c.e c.kids))⟩ : Trans).translate t)
      (fun t => (⟨[relIn p n q k], m, .parent (fun c => .ok (copyRetag tag c.e c.kids))⟩ : Trans).translate t) := by
  refine replaces_embeds (alts := [relIn p n q k]) (m := m) (g := fun c => .ok (copyRetag tag c.e c.kids))
    (place := fun c => c.pos.tail) hp hh (fun _ _ => rfl) (fun c n' hc hn => ?_) (fun t c hc _ => ?_)
    (fun t x hx => by simp only [Trans.translate, hx]) (fun t l hl => by simp only [Trans.translate, hl])
  · cases hn
    exact ⟨⟨h1, h2, hc.1.2.2⟩, hc.2.1.2⟩
  · obtain ⟨x1, x2⟩ := List.mem_filter.1 hc
    simp only [List.any_cons, List.any_nil, Bool.or_false] at x2
    have x3 := (relIn_selects.1 x2).1
    have x4 := walk_anc_pos [] [] [] t c x1
    simp only [List.length_nil] at x4
    simp only [Ctx.deeper]
    cases hpos : c.pos with
    | nil => rw [hpos] at x4; simp only [List.length_nil] at x4; omega
    | cons i r =>
      cases r with
      | nil => rw [hpos] at x4; simp only [List.length_cons, List.length_nil] at x4; omega
      | cons j r => simp

theorem replaceAll_none (t : Node) : t.replaceAll [] = t := by
  have hs : ∀ p : Pos, (if p = [] then none else posLookup [] p) = (none : Option Node) := by intro p; split <;> rfl
  have key : ∀ r : Pos → Option Node, (∀ p, r p = none) → ∀ pos, t.subst r pos = t := by
    intro r hr pos
    rw [subst_eq_substCtx (R := fun _ => none) pos [] [] t (fun c _ => hr _)]
    exact substCtx_none t (fun _ _ => rfl)
  exact key _ hs []

theorem custom_spares {alts : List XAlt} {m : List (String × String)} (hp : contentOff m alts = true) (hh : headsOff m alts = true)
    {g : Ctx → Except Err Node} : Spares (fun t => (⟨alts, m, .custom g⟩ : Trans).translate t) := by
  intro t a hi t' ht
  simp only [Trans.translate, xpath_spared hi hp hh, mapE] at ht
  cases ht
  rw [replaceAll_none]
  exact hi

/-! ## Optional elements -/

theorem removeAll_none (t : Node) : t.removeAll [] = t := by
  unfold Node.removeAll
  exact prune_none (by simp) t

theorem union_find {alts : List XAlt} {m : List (String × String)} (hp : parentsOff m alts = true) (hh : headsOff m alts = true)
    {f : Node → List Ctx → List Ctx} {p : Ctx → Bool} (hf : ∀ t l, f t l = l.filter p) (hd : ∀ c, p (Ctx.deeper c) = p c)
    {t a : Node} (hi : Inside t a) : ∃ l, (⟨[], .union alts, m, f⟩ : Finder).find a = .ok l ∧
      (⟨[], .union alts, m, f⟩ : Finder).find t = .ok (l.map Ctx.deeper) ∧ ∀ c ∈ l, c.Content := by
  obtain ⟨hx, hcon⟩ := xpath_inside hi hp hh
  refine ⟨_, find_union (by rw [hf]; rfl), ?_, fun c hc => ?_⟩
  · rw [find_union (by rw [hf]; rfl), hf, hf, hx, List.filter_map]
    congr 3
    funext c
    exact hd c
  · rw [hf] at hc
    exact hcon c (List.mem_filter.1 hc).1

theorem removes_embeds {f : Finder} (h : ∀ t a, Inside t a → ∃ l, f.find a = .ok l ∧ f.find t = .ok (l.map Ctx.deeper) ∧ ∀ c ∈ l, c.Content) :
    Embeds (fun t => match f.find t with | .error x => .error x | .ok found => .ok (t.removeAll (found.map (·.pos))))
      (fun t => match f.find t with | .error x => .error x | .ok found => .ok (t.removeAll (found.map (·.pos)))) := by
  intro t a hi t' ht
  obtain ⟨l, h1, h2, h3⟩ := h t a hi
  simp only [h2] at ht
  cases ht
  simp only [h1]
  refine ⟨_, rfl, ?_⟩
  have : (l.map Ctx.deeper).map (·.pos) = (l.map (·.pos)).map (fun p => p ++ [0]) := by
    rw [List.map_map, List.map_map]; rfl
  rw [this]
  refine removeAll_inside hi (fun p hp => ?_)
  obtain ⟨c, hc, rfl⟩ := List.mem_map.1 hp
  exact (h3 c hc).2.2.2

theorem removes_spares {f : Finder} (h : ∀ t a, Inside t a → ∀ l, f.find t = .ok l → l = []) :
    Spares (fun t => match f.find t with | .error x => .error x | .ok found => .ok (t.removeAll (found.map (·.pos)))) := by
  intro t a hi t' ht
  simp only at ht
  split at ht
  · cases ht
  · next l hl =>
    cases ht
    rw [h t a hi l hl, List.map_nil, removeAll_none]
    exact hi

theorem marking_spares {t a : Node} (hi : Inside t a) (l : List Ctx) (h : optionalDataMarking.find t = .ok l) : l = [] := by
  unfold optionalDataMarking at h
  rw [find_union rfl, xpath_spared hi (by decide +kernel) (by decide +kernel)] at h
  cases h
  rfl

theorem generic_spares {t a : Node} (hi : Inside t a) (l : List Ctx) (h : optionalGenericTM.find t = .ok l) : l = [] := by
  simp only [Finder.find] at h
  split at h
  · cases h
  · next cs hcs =>
    have hcs' : filterE optionalGenericTM.isContext (getTypedNodes t) = .ok cs := hcs
    have : cs = [] := by
      rw [(filterE_filter hcs').2]
      apply List.filter_eq_nil_iff.2
      intro c hc hw
      obtain ⟨h1, h2⟩ := List.mem_filter.1 hc
      obtain ⟨d1, d2, d3, L, _, _, _, hd, hL, _, _, _, _, hx, _⟩ := inside_elems hi
      rw [hd] at h1
      rcases List.mem_cons.1 h1 with rfl | h1
      · rw [Elem.has_eq, hx] at h2; cases h2
      · obtain ⟨c', hc', rfl⟩ := List.mem_map.1 h1
        unfold Finder.isContext at hw
        cases hi' : getTypeInfo c'.deeper.e with
        | error x => rw [hi'] at hw; cases hw
        | ok r =>
          obtain ⟨p, ty⟩ := r
          obtain ⟨s, hs, hq⟩ := getTypeInfo_ok.1 hi'
          have hty := (hL c' hc').1.2.2 s (get?_mem hs) p ty hq
          rw [hi'] at hw
          simp only at hw
          split at hw
          · next b hb =>
            split at hb
            · cases hb
            · cases hb
              simp only [decide_eq_true_eq, optionalGenericTM, assoc] at hw
              split at hw
              · next he =>
                apply hty
                rw [← he]
                decide
              · cases hw
          · cases hw
    rw [this] at h
    cases h
    rfl

/-! ## Steps -/

theorem fields_embed (t a : Node) (hi : Inside t a) (t' : Node) (ht : translateFields cybox201Translatable t = .ok t') :
    ∃ a', translateFields cybox201Translatable a = .ok a' ∧ Inside t' a' := by
  refine Embeds.fold (f := fun t (f : Trans) => f.translate t) cybox201Translatable (fun f hf => ?_) t a hi t' ht
  simp only [cybox201Translatable, List.mem_cons, List.not_mem_nil, or_false] at hf
  rcases hf with rfl | rfl | rfl | rfl | rfl | rfl | rfl | rfl
  · exact value_embeds (by decide +kernel) (by decide +kernel) (by decide)
  · exact value_embeds (by decide +kernel) (by decide +kernel) (by decide)
  · exact value_embeds (by decide +kernel) (by decide +kernel) (by decide)
  · exact renamed_embeds (by decide +kernel) (by decide +kernel) (by intro n hn; cases hn; decide) (by decide)
  · exact renamed_embeds (by decide +kernel) (by decide +kernel) (by intro n hn; cases hn; decide) (by decide)
  · exact renamed_embeds (by decide +kernel) (by decide +kernel) (by intro n hn; cases hn; decide) (by decide)
  · exact renamed_embeds (by decide +kernel) (by decide +kernel) (by intro n hn; cases hn; decide) (by decide)
  · exact parent_embeds (by decide +kernel) (by decide +kernel) (by intro n hn; cases hn; decide) (by decide)

theorem empty_find {alts : List XAlt} (hp : parentsOff Tables.cybox201_nsmap alts = true) (hh : headsOff Tables.cybox201_nsmap alts = true) :
    ∀ t a, Inside t a → ∃ l, (cybox201Finder alts keepEmpty).find a = .ok l ∧
      (cybox201Finder alts keepEmpty).find t = .ok (l.map Ctx.deeper) ∧ ∀ c ∈ l, c.Content :=
  fun _ _ hi => union_find hp hh (fun _ _ => rfl) (fun _ => rfl) hi

theorem optionals_embed (t a : Node) (hi : Inside t a) (t' : Node) (ht : removeOptionals cybox201Optionals t = .ok t') :
    ∃ a', removeOptionals cybox201Optionals a = .ok a' ∧ Inside t' a' := by
  refine Embeds.fold (f := fun t (f : Finder) => match f.find t with
    | .error x => .error x | .ok found => .ok (t.removeAll (found.map (·.pos)))) cybox201Optionals (fun f hf => ?_) t a hi t' ht
  refine removes_embeds (f := f) ?_
  simp only [cybox201Optionals, List.mem_cons, List.not_mem_nil, or_false] at hf
  rcases hf with rfl | rfl | rfl | rfl | rfl | rfl | rfl | rfl | rfl | rfl | rfl | rfl | rfl | rfl <;>
    exact empty_find (by decide +kernel) (by decide +kernel)

theorem vocabs_embed (vs : List Vocab) (h : ∀ v ∈ vs, v.newType ∉ stixTypeNames ∧ ':' ∉ v.newType.toList) (b : Bool) (t a : Node)
    (hi : Inside t a) (t' : Node) (ht : (if b then updateVocabs vs t else .ok t) = .ok t') :
    ∃ a', (if b then updateVocabs vs a else .ok a) = .ok a' ∧ Inside t' a' := by
  cases b with
  | false => cases ht; exact ⟨a, rfl, hi⟩
  | true => exact Embeds.fold (f := fun t (v : Vocab) => v.update t) vs (fun v hv => vocab_embeds (h v hv).1 (h v hv).2) t a hi t' ht

theorem vocabs_spare (vs : List Vocab) (h : ∀ v ∈ vs, ∀ ty ∈ v.oldTypes, ty ∈ stixTypeNames) (b : Bool) (t a : Node)
    (hi : Inside t a) (t' : Node) (ht : (if b then updateVocabs vs t else .ok t) = .ok t') : Inside t' a := by
  cases b with
  | false => cases ht; exact hi
  | true => exact Spares.fold (f := fun t (v : Vocab) => v.update t) vs (fun v hv => vocab_spares (h v hv)) t a hi t' ht

theorem set201_same {e e' : Elem} (_ : SameVersion e e') : SameVersion (setVersion201 e) (setVersion201 e') := by
  intro q hq
  simp only [cyboxVersionNames, List.mem_cons, List.not_mem_nil, or_false] at hq
  rcases hq with rfl | rfl | rfl <;> simp [setVersion201, Elem.get?_set, attrMajor, attrMinor, attrUpdate, QName.plain]

theorem set21_same {e e' : Elem} (_ : SameVersion e e') : SameVersion (setVersion21 e) (setVersion21 e') := by
  intro q hq
  simp only [cyboxVersionNames, List.mem_cons, List.not_mem_nil, or_false] at hq
  rcases hq with rfl | rfl | rfl <;> simp [setVersion21, Elem.get?_set, Elem.get?_del, attrMajor, attrMinor, attrUpdate, QName.plain]

theorem set201_head (e : Elem) : (setVersion201 e).tag = e.tag ∧ (setVersion201 e).decls = e.decls ∧
    (setVersion201 e).get? tagXsiType = e.get? tagXsiType := by
  refine ⟨rfl, rfl, ?_⟩
  simp [setVersion201, Elem.get?_set, attrMajor, attrMinor, attrUpdate, QName.plain, tagXsiType]

theorem set21_head (e : Elem) : (setVersion21 e).tag = e.tag ∧ (setVersion21 e).decls = e.decls ∧
    (setVersion21 e).get? tagXsiType = e.get? tagXsiType := by
  refine ⟨rfl, rfl, ?_⟩
  simp [setVersion21, Elem.get?_set, Elem.get?_del, attrMajor, attrMinor, attrUpdate, QName.plain, tagXsiType]

theorem cybox20_embeds (o : Options) : Embeds (cybox20Update stix10Cybox o) (cybox20Update cybox20.cls o) := by
  intro t a hi t' ht
  simp only [cybox20Update, updateSchemalocs_eq, cybox20Versions_eq, updateLists_eq] at ht ⊢
  have h1 := edit_inside (fits_schemaloc stix10Cybox cybox20.cls) hi
  have h2 := edit_inside (fits_version (m := stix10Cybox.nsmap) (m' := cybox20.cls.nsmap) (alts := stix10Cybox.xpathVersioned)
    (alts' := cybox20.cls.xpathVersioned) (by decide +kernel) (by decide +kernel) (by decide +kernel) (by decide +kernel)
    set201_head (fun _ _ => set201_same)) h1
  have h3 := edit_inside (fits_lists (m := stix10Cybox.nsmap) (m' := cybox20.cls.nsmap) (by decide +kernel) (by decide +kernel)
    (by decide +kernel) (by decide +kernel)) h2
  exact vocabs_embed [eventTypeVocab] (by decide) o.updateVocabularies _ _ h3 t' ht

theorem cybox201_embeds (o : Options) : Embeds (cybox201Update stix101Cybox o) (cybox201Update cybox201.cls o) := by
  intro t a hi t' ht
  simp only [cybox201Update, updateNamespaces_eq, updateSchemalocs_eq, cybox201Versions_eq] at ht ⊢
  have h0 := edit_inside (fits_namespaces (u := stix101Cybox) (u' := cybox201.cls) rfl rfl (by decide +kernel) (by decide +kernel)
    (by decide +kernel) (by decide +kernel)) hi
  have h1 := edit_inside (fits_schemaloc stix101Cybox cybox201.cls) h0
  have h2 := edit_inside (fits_version (m := stix101Cybox.nsmap) (m' := cybox201.cls.nsmap) (alts := stix101Cybox.xpathVersioned)
    (alts' := cybox201.cls.xpathVersioned) (by decide +kernel) (by decide +kernel) (by decide +kernel) (by decide +kernel)
    set21_head (fun _ _ => set21_same)) h1
  split at ht
  · cases ht
  · next t1 ht1 =>
    obtain ⟨a1, ha1, h3⟩ := fields_embed _ _ h2 t1 ht1
    have ha1' : translateFields cybox201.cls.translatable _ = .ok a1 := ha1
    rw [ha1']
    simp only
    split at ht
    · cases ht
    · next t2 ht2 =>
      obtain ⟨a2, ha2, h4⟩ := vocabs_embed [objectRelationshipVocab, toolTypeVocab, actionNameVocab] (by decide) o.updateVocabularies
        _ _ h3 t2 ht2
      have ha2' : (if o.updateVocabularies then updateVocabs cybox201.cls.vocabs a1 else .ok a1) = .ok a2 := ha2
      rw [ha2']
      simp only
      cases ho : o.removeOptionals with
      | false =>
        rw [ho] at ht
        cases ht
        exact ⟨a2, rfl, h4⟩
      | true =>
        rw [ho] at ht
        exact optionals_embed _ _ h4 t' ht

theorem stixVersion_spare {u : Cls} {i v : String} (h1 : contentOff u.nsmap u.xpathVersioned = true)
    (h2 : u.xpathVersioned.all (fun a => decide (a.tag.resolve u.nsmap ≠ stixObservables)) = true) {t a : Node} (hi : Inside t a) :
    Inside (stixUpdateVersions u i v t) a := by
  rw [stixVersions_eq]
  exact spares_edit (spares_version (g := setStixVersion i v) h1 h2 (fun _ => ⟨rfl, rfl⟩)) hi

theorem schemaloc_spare (u : Cls) {t a : Node} (hi : Inside t a) : Inside (u.updateSchemalocs t) a := by
  rw [updateSchemalocs_eq]
  exact spares_edit (spares_schemaloc u) hi

theorem stix10_embeds (o : Options) : Embeds (stix10Update o) (cybox20.update o) := by
  intro t a hi t' ht
  simp only [stix10Update] at ht
  split at ht
  · cases ht
  · next t1 ht1 =>
    obtain ⟨a', ha, h1⟩ := cybox20_embeds o t a hi t1 ht1
    refine ⟨a', ha, ?_⟩
    rw [updateNamespaces_none rfl] at ht
    exact vocabs_spare stix10Cls.vocabs (by decide) o.updateVocabularies _ _
      (stixVersion_spare (by decide +kernel) (by decide +kernel) (schemaloc_spare _ h1)) t' ht

theorem stix101_embeds (w : World) (o : Options) : Embeds (stix101Update w o) (cybox201.update o) := by
  intro t a hi t' ht
  simp only [stix101Update] at ht
  split at ht
  · cases ht
  · next t1 ht1 =>
    obtain ⟨a', ha, h1⟩ := cybox201_embeds o t a hi t1 ht1
    refine ⟨a', ha, ?_⟩
    rw [updateNamespaces_none rfl] at ht
    have h2 := stixVersion_spare (u := stix101Cls w) (i := "2.1") (v := "1.1") (show contentOff Tables.stix101_nsmap xpathStixVersioned = true by decide +kernel)
      (show xpathStixVersioned.all (fun a => decide (a.tag.resolve Tables.stix101_nsmap ≠ stixObservables)) = true by decide +kernel)
      (schemaloc_spare (stix101Cls w) h1)
    split at ht
    · cases ht
    · next t2 ht2 =>
      have h3 := Spares.fold (f := fun t (f : Trans) => f.translate t) (stix101Cls w).translatable (fun f hf => by
        simp only [stix101Cls, List.mem_cons, List.not_mem_nil, or_false] at hf
        rcases hf with rfl | rfl
        · exact custom_spares (by decide +kernel) (by decide +kernel)
        · exact custom_spares (by decide +kernel) (by decide +kernel)) _ _ h2 t2 ht2
      split at ht
      · cases ht
      · next t3 ht3 =>
        have h4 := vocabs_spare (stix101Cls w).vocabs (show ∀ v ∈ [motivationVocab101, indicatorTypeVocab], _ by decide)
          o.updateVocabularies _ _ h3 t3 ht3
        cases ho : o.removeOptionals with
        | false => rw [ho] at ht; cases ht; exact h4
        | true =>
          rw [ho] at ht
          refine Spares.fold (f := fun t (f : Finder) => match f.find t with
            | .error x => .error x | .ok found => .ok (t.removeAll (found.map (·.pos)))) (stix101Cls w).optionals (fun f hf => ?_)
            _ _ h4 t' ht
          rw [List.mem_singleton.1 hf]
          exact removes_spares (fun _ _ hi l hl => marking_spares hi l hl)

theorem stix11_spares (w : World) (o : Options) : Spares (stix11Update w o) := by
  intro t a hi t' ht
  simp only [stix11Update] at ht
  have h2 := stixVersion_spare (u := stix11Cls w) (i := "2.1.1") (v := "1.1.1") (show contentOff Tables.stix11_nsmap xpathStixVersioned = true by decide +kernel)
      (show xpathStixVersioned.all (fun a => decide (a.tag.resolve Tables.stix11_nsmap ≠ stixObservables)) = true by decide +kernel)
    (schemaloc_spare (stix11Cls w) (schemaloc_spare stix11Cybox hi))
  split at ht
  · cases ht
  · next t2 ht2 =>
    have h3 := Spares.fold (f := fun t (f : Trans) => f.translate t) (stix11Cls w).translatable (fun f hf => by
      simp only [stix11Cls, List.mem_cons, List.not_mem_nil, or_false] at hf
      rcases hf with rfl | rfl | rfl
      · exact custom_spares (by decide +kernel) (by decide +kernel)
      · exact custom_spares (by decide +kernel) (by decide +kernel)
      · exact custom_spares (by decide +kernel) (by decide +kernel)) _ _ h2 t2 ht2
    split at ht
    · cases ht
    · next t3 ht3 =>
      have h4 := vocabs_spare (stix11Cls w).vocabs (show ∀ v ∈ [availabilityLossVocab], _ by decide)
        o.updateVocabularies _ _ h3 t3 ht3
      cases ho : o.removeOptionals with
      | false => rw [ho] at ht; cases ht; exact h4
      | true =>
        rw [ho] at ht
        refine Spares.fold (f := fun t (f : Finder) => match f.find t with
          | .error x => .error x | .ok found => .ok (t.removeAll (found.map (·.pos)))) (stix11Cls w).optionals (fun f hf => ?_)
          _ _ h4 t' ht
        rw [List.mem_singleton.1 hf]
        exact removes_spares (fun _ _ hi l hl => generic_spares hi l hl)

theorem stix111_spares (o : Options) : Spares (stix111Update o) := by
  intro t a hi t' ht
  simp only [stix111Update] at ht
  exact vocabs_spare stix111Cls.vocabs (by decide) o.updateVocabularies _ _
    (stixVersion_spare (by decide +kernel) (by decide +kernel) (schemaloc_spare _ hi)) t' ht

/-! ## Checks -/

theorem versionOk_same {v : String} {e e' : Elem} (h : SameVersion e e') (hv : versionOk v e) : versionOk v e' := by
  have : cyboxGetVersion e' = cyboxGetVersion e := by
    have h1 := h attrMajor (by decide)
    have h2 := h attrMinor (by decide)
    have h3 := h attrUpdate (by decide)
    unfold cyboxGetVersion
    rw [h1, h2, h3]
  unfold versionOk
  rw [this]
  exact hv

theorem cyboxCheck_inside {u u' : Cls} (hv : u.version = u'.version) (h1 : contentOff u'.nsmap u'.xpathRoots = true)
    (h2 : u.xpathRoots.any (fun a => decide (a.tag.resolve u.nsmap = stixObservables) && a.parent.isNone && decide (a.pred = .none)) = true)
    {t a : Node} (hi : Inside t a) (h : cyboxCheckVersion u t = .ok ()) : cyboxCheckVersion u' a = .ok () := by
  unfold cyboxCheckVersion Cls.rootNodes at h ⊢
  rw [checkRoots_iff] at h ⊢
  obtain ⟨d1, d2, d3, L, ht, ha, _, _, hL, _, _, y1, y2, _, _, _, hs⟩ := inside_elems hi
  intro c hc
  obtain ⟨x1, x2⟩ := List.mem_filter.1 hc
  rw [ha] at x1
  rcases List.mem_cons.1 x1 with rfl | x1
  · rw [← hv]
    refine versionOk_same hs (h d2 (List.mem_filter.2 ⟨by rw [ht]; simp, ?_⟩))
    obtain ⟨b, hb, hb'⟩ := List.any_eq_true.1 h2
    refine List.any_eq_true.2 ⟨b, hb, ?_⟩
    simp only [Bool.and_eq_true, decide_eq_true_eq, Option.isNone_iff_eq_none] at hb'
    unfold XAlt.selects
    rw [hb'.1.2, hb'.2, hb'.1.1, y2, y1]
    simp [XPred.holds]
  · rw [any_content h1 (hL c x1).1] at x2
    cases x2

theorem dups_inside {m m' : List (String × String)} (hm : ∀ n ∈ m'.map (·.2), n ∈ m.map (·.2)) {t a : Node} (hi : Inside t a)
    (h : getDuplicates m t = []) : getDuplicates m' a = [] := by
  unfold getDuplicates at h ⊢
  rw [groupDups_none] at h ⊢
  obtain ⟨d1, d2, d3, L, _, _, ha, ht, _⟩ := inside_elems hi
  intro i
  refine Nat.le_trans ?_ (h i)
  rw [ha, ht]
  have key : ∀ l : List Ctx, ((l.filter (fun c => c.e.has attrId && (match c.e.tag.ns with | none => false | some n => decide (n ∈ m'.map (·.2))))).filter
      (fun c => decide (c.e.get? attrId = some i))).length ≤
      (((l.map Ctx.deeper).filter (fun c => c.e.has attrId && (match c.e.tag.ns with | none => false | some n => decide (n ∈ m.map (·.2))))).filter
      (fun c => decide (c.e.get? attrId = some i))).length := by
    intro l
    rw [List.filter_map, List.filter_map, List.length_map, List.filter_filter, List.filter_filter, ← List.countP_eq_length_filter,
      ← List.countP_eq_length_filter]
    refine List.countP_mono_left (fun c _ hc => ?_)
    simp only [Bool.and_eq_true, Function.comp, Ctx.deeper] at hc ⊢
    refine ⟨hc.1, hc.2.1, ?_⟩
    have h3 := hc.2.2
    split at h3
    · cases h3
    · next n hn =>
      rw [decide_eq_true_eq] at h3
      rw [decide_eq_true_eq]
      exact hm n h3
  refine Nat.le_trans (key L) ?_
  exact ((List.sublist_cons_self d2 _).filter _ |>.filter _).length_le

theorem findAll_inside {fs : List Finder} (h : ∀ f ∈ fs, ∀ t a, Inside t a → ∃ l, f.find a = .ok l ∧ f.find t = .ok (l.map Ctx.deeper) ∧
    ∀ c ∈ l, c.Content) {t a : Node} (hi : Inside t a) (hn : findAll fs t = .ok []) : findAll fs a = .ok [] := by
  rw [findAll_none] at hn ⊢
  intro f hf
  obtain ⟨l, h1, h2, _⟩ := h f hf t a hi
  have := hn f hf
  rw [h2] at this
  simp only [Except.ok.injEq, List.map_eq_nil_iff] at this
  rw [h1, this]

theorem check10_inside {o : Options} {t a : Node} (hi : Inside t a) (h : stix10.check o t = .ok ()) : cybox20.check o a = .ok () := by
  obtain ⟨h1, _⟩ := stix10Check_ok.1 h
  show cybox20Check cybox20.cls o a = .ok ()
  unfold cybox20Check
  cases ho : o.checkVersions with
  | false => rfl
  | true => exact cyboxCheck_inside (u := stix10Cybox) (u' := cybox20.cls) rfl (by decide +kernel) (by decide +kernel) hi (h1 ho).2

theorem check101_inside {w : World} {o : Options} {t a : Node} (hi : Inside t a) (h : (stix101 w).check o t = .ok ()) :
    cybox201.check o a = .ok () := by
  obtain ⟨h1, _, h3, h4⟩ := stix101Check_ok.1 h
  refine cybox201Check_ok.2 ⟨fun ho => cyboxCheck_inside (u := stix101Cybox) (u' := cybox201.cls) rfl (by decide +kernel) (by decide +kernel) hi (h1 ho).2,
    findAll_inside (fun f hf => ?_) hi h3, dups_inside (by decide +kernel) hi (dictUpdate_none.1 h4).2⟩
  have hf' : f ∈ cybox201Disallowed := hf
  simp only [cybox201Disallowed, List.mem_cons, List.not_mem_nil, or_false] at hf'
  rcases hf' with rfl | rfl | rfl | rfl
  · exact fun t a hi => union_find (p := fun _ => true) (by decide +kernel) (by decide +kernel) (fun _ l => (List.filter_eq_self.2 (fun _ _ => rfl)).symm) (fun _ => rfl) hi
  · exact fun t a hi => union_find (p := fun _ => true) (by decide +kernel) (by decide +kernel) (fun _ l => (List.filter_eq_self.2 (fun _ _ => rfl)).symm) (fun _ => rfl) hi
  · exact fun t a hi => union_find (p := fun _ => true) (by decide +kernel) (by decide +kernel) (fun _ l => (List.filter_eq_self.2 (fun _ _ => rfl)).symm) (fun _ => rfl) hi
  · exact fun t a hi => union_find (by decide +kernel) (by decide +kernel) (fun _ l => rfl) (fun _ => rfl) hi

/-! ## Chains -/

/-- The step of CybOX that goes with a step of STIX. -/
def sideStep (v : String) : Option String := if v = "1.0" then some "2.0" else if v = "1.0.1" then some "2.0.1" else none

theorem run_inside (w : World) (o : Options) : ∀ vs : List String, (∀ v ∈ vs, v ∈ ["1.0", "1.0.1", "1.1", "1.1.1"]) →
    Embeds (plainRun (stixUpdaters w) o vs) (plainRun cyboxUpdaters o (vs.filterMap sideStep))
  | [], _ => fun t a hi t' ht => by cases ht; exact ⟨a, rfl, hi⟩
  | v :: vs, hvs => by
    intro t a hi t' ht
    have ih := run_inside w o vs (fun x hx => hvs x (by simp [hx]))
    have hv := hvs v (by simp)
    simp only [plainRun] at ht
    simp only [List.mem_cons, List.not_mem_nil, or_false] at hv
    rcases hv with rfl | rfl | rfl | rfl
    · rw [show assoc (stixUpdaters w) "1.0" = some stix10 from rfl] at ht
      simp only at ht
      split at ht
      · cases ht
      · next d hd =>
        obtain ⟨h1, h2⟩ := tryUpdate_ok.1 hd
        obtain ⟨a1, ha1, hi1⟩ := stix10_embeds o t a hi d h2
        obtain ⟨a', ha', hi'⟩ := ih d a1 hi1 t' ht
        refine ⟨a', ?_, hi'⟩
        rw [List.filterMap_cons_some (b := "2.0") (by decide)]
        simp only [plainRun, show assoc cyboxUpdaters "2.0" = some cybox20 from rfl, tryUpdate_ok.2 ⟨check10_inside hi h1, ha1⟩]
        exact ha'
    · rw [show assoc (stixUpdaters w) "1.0.1" = some (stix101 w) from rfl] at ht
      simp only at ht
      split at ht
      · cases ht
      · next d hd =>
        obtain ⟨h1, h2⟩ := tryUpdate_ok.1 hd
        obtain ⟨a1, ha1, hi1⟩ := stix101_embeds w o t a hi d h2
        obtain ⟨a', ha', hi'⟩ := ih d a1 hi1 t' ht
        refine ⟨a', ?_, hi'⟩
        rw [List.filterMap_cons_some (b := "2.0.1") (by decide)]
        simp only [plainRun, show assoc cyboxUpdaters "2.0.1" = some cybox201 from rfl, tryUpdate_ok.2 ⟨check101_inside hi h1, ha1⟩]
        exact ha'
    · rw [show assoc (stixUpdaters w) "1.1" = some (stix11 w) from rfl] at ht
      simp only at ht
      split at ht
      · cases ht
      · next d hd =>
        rw [List.filterMap_cons_none (by decide)]
        exact ih d a (stix11_spares w o t a hi d (tryUpdate_ok.1 hd).2) t' ht
    · rw [show assoc (stixUpdaters w) "1.1.1" = some stix111 from rfl] at ht
      simp only at ht
      split at ht
      · cases ht
      · next d hd =>
        rw [List.filterMap_cons_none (by decide)]
        exact ih d a (stix111_spares o t a hi d (tryUpdate_ok.1 hd).2) t' ht

/-- A package that holds only observables, and a CybOX document with the same content and version. -/
def Holds (t a : Node) : Prop := ∃ e oe oa ks, t = .elem e [.elem oe ks] ∧ a = .elem oa ks ∧ oe.tag.name = "Observables" ∧ SameVersion oe oa

theorem Inside.holds {t a : Node} (h : Inside t a) : Holds t a := by
  obtain ⟨e, oe, oa, ks, rfl, rfl, _, hoe, _, _, _, hv, _⟩ := h
  exact ⟨e, oe, oa, ks, rfl, rfl, by rw [hoe]; rfl, hv⟩

mutual
theorem namespaces_off {u : Cls} (h : ∀ e, NotStix e → u.nsUpdated e.tag = false) {env : NsMap} : ∀ t : Node, t.All NotStix →
    u.updateNamespaces env t = t
  | .other _ _, _ => rfl
  | .elem e ks, ha => by
    simp only [Cls.updateNamespaces]
    rw [h e ha.1, namespacess_off h ks ha.2]
    rfl
theorem namespacess_off {u : Cls} (h : ∀ e, NotStix e → u.nsUpdated e.tag = false) {env : NsMap} : ∀ ks : List Node,
    Node.Alls NotStix ks → Cls.updateNamespacess u env ks = ks
  | [], _ => rfl
  | k :: ks, ha => by
    simp only [Cls.updateNamespacess]
    rw [namespaces_off h k ha.1, namespacess_off h ks ha.2]
end

theorem stix12_off {e : Elem} (he : NotStix e) : stix12Cls.nsUpdated e.tag = false := by
  have key : ∀ x ∈ Tables.stix12_updateNsMap, ofStix x.1 = true := by decide +kernel
  unfold Cls.nsUpdated
  split
  · rfl
  · next n hn =>
    cases h : assoc stix12Cls.updateNsMap n with
    | none => rfl
    | some v =>
      exfalso
      have := key _ (assoc_mem h)
      rw [he.1 n hn] at this
      cases this

theorem last_holds {o : Options} {t a t' : Node} (hi : Inside t a) (h : stix12Update o t = .ok t') : Holds t' a := by
  obtain ⟨e, oe, oa, ks, rfl, rfl, _, hoe, _, _, _, hv, hks⟩ := hi
  simp only [stix12Update, Except.ok.injEq] at h
  subst h
  have hk := namespacess_off (u := stix12Cls) (fun e he => stix12_off he) (env := oe.decls ++ (e.decls ++ [])) ks hks
  have h1 : ∃ e' oe', stix12Cls.updateNamespaces [] (.elem e [.elem oe ks]) = .elem e' [.elem oe' ks] ∧ oe'.tag.name = "Observables" ∧
      oe'.attrs = oe.attrs := by
    simp only [Cls.updateNamespaces, Cls.updateNamespacess, hk]
    have h2 : stix12Cls.nsUpdated oe.tag = true := by rw [hoe]; decide +kernel
    rw [h2]
    simp only [if_true]
    split
    · exact ⟨_, _, rfl, by rw [show (stix12Cls.updateNsmapElem _ oe ks).tag.name = oe.tag.name from rfl, hoe]; rfl, rfl⟩
    · exact ⟨_, _, rfl, by rw [show (stix12Cls.updateNsmapElem _ oe ks).tag.name = oe.tag.name from rfl, hoe]; rfl, rfl⟩
  obtain ⟨e', oe', h2, h3, h4⟩ := h1
  rw [h2]
  refine ⟨_, oe', oa, ks, rfl, rfl, h3, fun q hq => ?_⟩
  unfold Elem.get?
  rw [h4]
  exact hv q hq

theorem plainRun_last {reg : List (String × Updater)} {o : Options} {v : String} {u : Updater} (hu : assoc reg v = some u) :
    ∀ (vs : List String) (t t' : Node), plainRun reg o (vs ++ [v]) t = .ok t' → ∃ d, plainRun reg o vs t = .ok d ∧ u.update o d = .ok t'
  | [], t, t', h => by
    simp only [List.nil_append, plainRun, hu] at h
    split at h
    · cases h
    · next d hd => cases h; exact ⟨t, rfl, (tryUpdate_ok.1 hd).2⟩
  | x :: xs, t, t', h => by
    simp only [List.cons_append, plainRun] at h ⊢
    split at h
    · cases h
    · split at h
      · cases h
      · exact plainRun_last hu xs _ t' h

theorem between_steps : ∀ s ∈ ["1.0", "1.0.1"], ∀ g ∈ stixReleases,
    (between stixReleases s g).filterMap sideStep = between cyboxReleases (cyboxRelease s) (cyboxRelease g) ∧
    ((∀ v ∈ between stixReleases s g, v ∈ ["1.0", "1.0.1", "1.1", "1.1.1"]) ∨
      ∃ vs ∈ [between stixReleases s "1.2"], between stixReleases s g = vs ++ ["1.2"] ∧ (∀ v ∈ vs, v ∈ ["1.0", "1.0.1", "1.1", "1.1.1"])) := by
  decide +kernel

theorem run_holds (w : World) (o : Options) {s g : String} (hs : s ∈ ["1.0", "1.0.1"]) (hg : g ∈ stixReleases) {t a t' : Node}
    (hi : Inside t a) (h : plainRun (stixUpdaters w) o (between stixReleases s g) t = .ok t') :
    ∃ a', plainRun cyboxUpdaters o (between cyboxReleases (cyboxRelease s) (cyboxRelease g)) a = .ok a' ∧ Holds t' a' := by
  obtain ⟨h1, h2⟩ := between_steps s hs g hg
  rw [← h1]
  rcases h2 with h2 | ⟨vs, _, h2, h3⟩
  · obtain ⟨a', ha', hi'⟩ := run_inside w o _ h2 t a hi t' h
    exact ⟨a', ha', hi'.holds⟩
  · rw [h2] at h ⊢
    obtain ⟨d, hd, hl⟩ := plainRun_last (u := stix12) rfl vs t t' h
    obtain ⟨a', ha', hi'⟩ := run_inside w o vs h3 t a hi d hd
    refine ⟨a', ?_, last_holds (o := o) hi' hl⟩
    rw [List.filterMap_append, show List.filterMap sideStep ["1.2"] = [] from by decide, List.append_nil]
    exact ha'

theorem cybox_older : ∀ s ∈ ["1.0", "1.0.1"], ∀ g ∈ stixReleases, stixReleases.idxOf s < stixReleases.idxOf g →
    cyboxReleases.idxOf (cyboxRelease s) < cyboxReleases.idxOf (cyboxRelease g) := by decide

theorem cybox_mem : ∀ s ∈ stixReleases, cyboxRelease s ∈ cyboxReleases := by decide

/-- C71: the CybOX content of a STIX package is updated like a CybOX document.  When an unforced update of a package from
1.0 or 1.0.1 succeeds, then so does the update, between the corresponding releases of CybOX, of the CybOX document that has the content of
the package's `Observables`, its version and its namespaces; and `Observables` gets the content and the version of the result.
The rest of the package is updated as if `Observables` were not there. -/
theorem C71_embedded (w : World) (e oe oa : Elem) (pre ks post : List Node) (s g : String) (o : Options) (k k' : Nat) (r : Result)
    (hs : s = "1.0" ∨ s = "1.0.1") (hg : Older stixReleases s g) (he : e.tag = packageTag) (hoe : oe.tag = stixObservables)
    (hx : oe.get? ⟨some "http://www.w3.org/2001/XMLSchema-instance", "type"⟩ = none) (hoa : oa.tag = cyboxObservables)
    (hd : oa.decls = oe.decls ++ e.decls) (hv : SameVersion oe oa) (hks : Node.Alls NotStix ks)
    (h : update w (.elem e (pre ++ .elem oe ks :: post)) (some s) (some g) o false k = .ok (r, k')) :
    ∃ r1 r2 r3 oe' oa' ks', update w (.elem oa ks) (some (cyboxRelease s)) (some (cyboxRelease g)) o false k = .ok (r2, k) ∧
      r2.doc = .elem oa' ks' ∧ SameVersion oe' oa' ∧ oe'.tag.name = "Observables" ∧
      r.doc.kids = r1.doc.kids ++ .elem oe' ks' :: r3.doc.kids ∧
      update w (.elem e pre) (some s) (some g) o false k = .ok (r1, k) ∧
      update w (.elem e post) (some s) (some g) o false k = .ok (r3, k) := by
  have hmem : s ∈ ["1.0", "1.0.1"] := by rcases hs with rfl | rfl <;> decide
  have hgm := (older_mem hg).2
  have hsm := (older_mem hg).1
  obtain ⟨r1, rb, h1, hb, hk1, _⟩ := C52_split w e pre (.elem oe ks :: post) (some s) (some g) o k (Or.inl he) r k' h
  obtain ⟨rm, r3, hm, h3, hk2, _⟩ := C52_split w e [.elem oe ks] post (some s) (some g) o k (Or.inl he) rb k hb
  have ne : ∀ v ∈ stixReleases, v ≠ "" := by decide
  have ne' : ∀ v ∈ cyboxReleases, v ≠ "" := by decide
  rw [(C01_dispatch w e [.elem oe ks] _ _ o false k).1 (by rw [he]; rfl), stixUpdate_accepted w _ o false k
    (inForce_release (ne s hsm)) (inForce_release (ne g hgm)) hg, chainLoop_plain] at hm
  obtain ⟨t', ht', hrm⟩ := map_ok hm
  cases hrm
  have hi : Inside (.elem e [.elem oe ks]) (.elem oa ks) := ⟨e, oe, oa, ks, rfl, rfl, he, hoe, hoa, hx, hd, hv, hks⟩
  obtain ⟨a', ha', e', oe', oa', ks', rfl, rfl, hn, hv'⟩ := run_holds w o hmem hgm hi ht'
  have hold : Older cyboxReleases (cyboxRelease s) (cyboxRelease g) :=
    (older_iff cybox_nodup (cybox_mem s hsm) (cybox_mem g hgm)).2
      (cybox_older s hmem g hgm ((older_iff stix_nodup hsm hgm).1 hg))
  refine ⟨r1, ⟨.elem oa' ks', [], []⟩, r3, oe', oa', ks', ?_, rfl, hv', hn, ?_, h1, h3⟩
  · rw [(C01_dispatch w oa ks _ _ o false k).2.1 (by rw [hoa]; rfl), cyboxUpdate_accepted _ o false k
      (s := cyboxRelease s) (by unfold cyboxSource; rw [inForce_release (ne' _ (cybox_mem s hsm))])
      (inForce_release (ne' _ (cybox_mem g hgm))) hold, chainLoop_plain, ha']
    rfl
  · rw [hk1, hk2]
    rfl

/-! ## Concrete cases -/

/-- A check for `NotStix`. -/
def notStixB (e : Elem) : Bool :=
  (match e.tag.ns with | none => true | some n => !ofStix n) && decide (e.tag ≠ cyboxObservables) &&
    e.attrs.all (fun a => decide (a.1 ≠ tagXsiType) || (match pySplit ':' a.2 with | [_, ty] => decide (ty ∉ stixTypeNames) | _ => true))

theorem notStix_of {e : Elem} (h : notStixB e = true) : NotStix e := by
  simp only [notStixB, Bool.and_eq_true, decide_eq_true_eq, List.all_eq_true, Bool.or_eq_true] at h
  obtain ⟨⟨h1, h2⟩, h3⟩ := h
  refine ⟨fun n hn => ?_, h2, fun v hv p ty hq => ?_⟩
  · rw [hn] at h1
    simpa using h1
  · rcases h3 _ hv with h | h
    · exact absurd rfl h
    · rw [pySplit_eq hq] at h
      exact of_decide_eq_true h

section
open Samples

def embedPackage (v : String) : Elem := ⟨packageTag, [(some "stix", nsStix), (some "xsi", nsXsi), (some "cyboxVocabs", cyboxVocabNs)],
  [at_ "version" v], none, none⟩
def embedHead (vs : Attrs) : Elem := ⟨stixObservables, [(some "http", nsHTTPSession)], vs, none, none⟩
def embedRoot (vs : Attrs) : Elem := ⟨cyboxObservables,
  [(some "http", nsHTTPSession), (some "stix", nsStix), (some "xsi", nsXsi), (some "cyboxVocabs", cyboxVocabNs)], at_ "id" "c" :: vs, none, none⟩
def embedContent : List Node :=
  [el nsCyboxCore "Observable" [at_ "id" "x"]
    [el nsCyboxCore "Properties" [xsiType "http:HTTPSessionObjectType"]
      [el nsHTTPSession "X_Requested_For" [] [] (some "1.2.3.4"), el nsHTTPSession "Refresh" [at_ "datatype" "int"] [] (some "5"),
       el nsHTTPSession "Message_Body" []],
     el nsCyboxCore "Tool" [xsiType "cyboxVocabs:ToolTypeVocab-1.0"] [] (some "A/V")]]
def embedContent20 : List Node :=
  [el nsCyboxCore "Object" []
    [el nsCyboxCore "Properties" [] [el nsHTTPSession "Value" [] [] (some "a,b")]],
   el nsCyboxCore "Type" [xsiType "cyboxVocabs:EventTypeVocab-1.0"] [] (some "Anomoly Events")]
def embedBefore : List Node := [el nsStix "STIX_Header" []]
def embedAfter : List Node := [.other "<!-- c -->" none, el nsStix "Incident" [at_ "version" "1.0.1"] []]

/-- A concrete case of `C71_embedded`: the step with translations, vocabularies and optional elements. -/
example : ∃ r, update w0 (.elem (embedPackage "1.0.1") (embedBefore ++ .elem (embedHead v201) embedContent :: embedAfter))
    (some "1.0.1") (some "1.1") o0 false 0 = .ok r ∧
    ∃ r1 r2 r3 oe' oa' ks', update w0 (.elem (embedRoot v201) embedContent) (some "2.0.1") (some "2.1") o0 false 0 = .ok (r2, 0) ∧
      r2.doc = .elem oa' ks' ∧ SameVersion oe' oa' ∧ oe'.tag.name = "Observables" ∧
      r.1.doc.kids = r1.doc.kids ++ .elem oe' ks' :: r3.doc.kids ∧
      update w0 (.elem (embedPackage "1.0.1") embedBefore) (some "1.0.1") (some "1.1") o0 false 0 = .ok (r1, 0) ∧
      update w0 (.elem (embedPackage "1.0.1") embedAfter) (some "1.0.1") (some "1.1") o0 false 0 = .ok (r3, 0) := by
  obtain ⟨r, hr, _⟩ : ∃ r, update w0 (.elem (embedPackage "1.0.1") (embedBefore ++ .elem (embedHead v201) embedContent :: embedAfter))
    (some "1.0.1") (some "1.1") o0 false 0 = .ok r ∧ True := ok_of_eval (by decide +kernel)
  refine ⟨r, hr, C71_embedded w0 _ _ (embedRoot v201) embedBefore embedContent embedAfter "1.0.1" "1.1" o0 0 r.2 r.1 (Or.inr rfl)
    ⟨1, 2, by decide, rfl, rfl⟩ rfl rfl (by decide) rfl rfl (by intro q hq; revert q; decide) ?_ hr⟩
  exact ⟨⟨notStix_of (by decide), ⟨notStix_of (by decide), ⟨notStix_of (by decide), trivial⟩, ⟨notStix_of (by decide), trivial⟩,
    ⟨notStix_of (by decide), trivial⟩, trivial⟩, ⟨notStix_of (by decide), trivial⟩, trivial⟩, trivial⟩

/-- The content changes in that case. -/
example : ∃ r, update w0 (.elem (embedRoot v201) embedContent) (some "2.0.1") (some "2.1") o0 false 0 = .ok r ∧ r.1.doc.kids ≠ embedContent :=
  ok_of_eval (by decide +kernel)

/-- A concrete case of `C71_embedded`: the step with lists. -/
example : ∃ r, update w0 (.elem (embedPackage "1.0") (embedBefore ++ .elem (embedHead v20) embedContent20 :: []))
    (some "1.0") (some "1.0.1") o0 false 0 = .ok r ∧
    ∃ r1 r2 r3 oe' oa' ks', update w0 (.elem (embedRoot v20) embedContent20) (some "2.0") (some "2.0.1") o0 false 0 = .ok (r2, 0) ∧
      r2.doc = .elem oa' ks' ∧ SameVersion oe' oa' ∧ oe'.tag.name = "Observables" ∧
      r.1.doc.kids = r1.doc.kids ++ .elem oe' ks' :: r3.doc.kids ∧
      update w0 (.elem (embedPackage "1.0") embedBefore) (some "1.0") (some "1.0.1") o0 false 0 = .ok (r1, 0) ∧
      update w0 (.elem (embedPackage "1.0") []) (some "1.0") (some "1.0.1") o0 false 0 = .ok (r3, 0) := by
  obtain ⟨r, hr, _⟩ : ∃ r, update w0 (.elem (embedPackage "1.0") (embedBefore ++ .elem (embedHead v20) embedContent20 :: []))
    (some "1.0") (some "1.0.1") o0 false 0 = .ok r ∧ True := ok_of_eval (by decide +kernel)
  refine ⟨r, hr, C71_embedded w0 _ _ (embedRoot v20) embedBefore embedContent20 [] "1.0" "1.0.1" o0 0 r.2 r.1 (Or.inl rfl)
    ⟨0, 1, by decide, rfl, rfl⟩ rfl rfl (by decide) rfl rfl (by intro q hq; revert q; decide) ?_ hr⟩
  exact ⟨⟨notStix_of (by decide), ⟨notStix_of (by decide), ⟨notStix_of (by decide), trivial⟩, trivial⟩, trivial⟩,
    ⟨notStix_of (by decide), trivial⟩, trivial⟩

end

end Ramrod

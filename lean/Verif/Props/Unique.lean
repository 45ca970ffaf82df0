import Verif.Props.Origin
import Verif.Props.VocabChain
import Verif.Props.Lost
/-!
# Nothing is doubled: C65
-/

namespace Ramrod

open Samples

/-! ## Helpers: values after replacements and removals -/

mutual
theorem sub_substCtx {k : QName} {R : Ctx → Option Node} {pos : Pos} {env : NsMap} {anc : List QName} : ∀ (t : Node),
    (∀ c ∈ t.walk pos env anc, ∀ n, R c = some n → (n.vals k).Sublist (c.node.vals k)) →
    ((t.substCtx R pos env anc).vals k).Sublist (t.vals k)
  | .other _ _, _ => by simp [Node.substCtx]
  | .elem e ks, h => by
    simp only [Node.substCtx]
    split
    · next n hn => exact h ⟨pos, e.decls ++ env, anc, e, ks⟩ (by simp [Node.walk]) n hn
    · simp only [Node.vals]
      exact (List.Sublist.refl _).append (sub_substCtxs ks (fun c hc => h c (by simp [Node.walk, hc])))
theorem sub_substCtxs {k : QName} {R : Ctx → Option Node} {pos : Pos} {i : Nat} {env : NsMap} {anc : List QName} :
    ∀ (ks : List Node), (∀ c ∈ Node.walks pos i env anc ks, ∀ n, R c = some n → (n.vals k).Sublist (c.node.vals k)) →
    (Node.valss k (Node.substCtxs R pos i env anc ks)).Sublist (Node.valss k ks)
  | [], _ => by simp [Node.substCtxs]
  | t :: ks, h => by
    simp only [Node.substCtxs, Node.valss]
    exact (sub_substCtx t (fun c hc => h c (by simp [Node.walks, hc]))).append
      (sub_substCtxs ks (fun c hc => h c (by simp [Node.walks, hc])))
end

mutual
theorem sub_pruneCtx {k : QName} {S : Ctx → Bool} {pos : Pos} {env : NsMap} {anc : List QName} : ∀ (t : Node),
    ((t.pruneCtx S pos env anc).vals k).Sublist (t.vals k)
  | .other _ _ => by simp [Node.pruneCtx]
  | .elem e ks => by
    simp only [Node.pruneCtx, Node.vals]
    exact (List.Sublist.refl _).append (sub_pruneCtxs ks)
theorem sub_pruneCtxs {k : QName} {S : Ctx → Bool} {pos : Pos} {i : Nat} {env : NsMap} {anc : List QName} : ∀ (ks : List Node),
    (Node.valss k (Node.pruneCtxs S pos i env anc ks)).Sublist (Node.valss k ks)
  | [] => by simp [Node.pruneCtxs]
  | .other c t :: ks => by
    simp only [Node.pruneCtxs, Node.valss]
    exact (List.Sublist.refl _).append (sub_pruneCtxs ks)
  | .elem e es :: ks => by
    simp only [Node.pruneCtxs]
    split
    · exact (sub_pruneCtxs ks).trans (List.sublist_append_right _ _)
    · simp only [Node.valss]
      exact (sub_pruneCtx (.elem e es)).append (sub_pruneCtxs ks)
end

/-- The values in a child are among the values in the list. -/
theorem vals_mem {k : QName} {n : Node} : ∀ {ks : List Node}, n ∈ ks → (n.vals k).Sublist (Node.valss k ks)
  | [], h => by cases h
  | x :: ks, h => by
    simp only [Node.valss]
    rcases List.mem_cons.1 h with rfl | h
    · exact List.sublist_append_left _ _
    · exact (vals_mem h).trans (List.sublist_append_right _ _)

/-! ## Helpers: elements and documents on the way -/

/-- No attribute `q` twice, and no markup in the text of a `Source`. -/
def Orderly (Req : Prop) (q : QName) (e : Elem) : Prop :=
  AtMostOnce q e.attrs ∧ (e.tag ∈ sourceTags → Req → ∀ s, e.text = some s → ∀ ch ∈ s.toList, ch ∉ ['<', '>', '&', '\r'])

variable {Req : Prop}

/-- A change of an element that keeps this, and the value of `q`. -/
def Meek (Req : Prop) (q : QName) (e e' : Elem) : Prop := Orderly Req q e → Orderly Req q e' ∧ e'.get? q = e.get? q

theorem Meek.refl (q : QName) (e : Elem) : Meek Req q e e := fun h => ⟨h, rfl⟩
theorem Meek.comp {q : QName} {a b c : Elem} (h : Meek Req q a b) (h' : Meek Req q b c) : Meek Req q a c :=
  fun x => ⟨(h' (h x).1).1, ((h' (h x).1).2).trans (h x).2⟩

theorem meek_filter {q : QName} {L : List QName} (hq : q ∉ L) {e e' : Elem}
    (h : e'.attrs.filter (fun a => decide (a.1 ∉ L)) = e.attrs.filter (fun a => decide (a.1 ∉ L)))
    (ht : Orderly Req q e → e'.tag ∈ sourceTags → Req → ∀ s, e'.text = some s → ∀ ch ∈ s.toList, ch ∉ ['<', '>', '&', '\r']) : Meek Req q e e' :=
  fun x => ⟨⟨once_of_filter hq h x.1, ht x⟩, get_of_filter hq h⟩

theorem meek_data {q : QName} {L : List QName} (hq : q ∉ L) {e e' : Elem} (h : SameData L e e') (ht : e'.text = e.text) :
    Meek Req q e e' := meek_filter hq h.2.2.2 (fun x => by rw [h.1, ht]; exact x.2)

theorem meek_touched {q : QName} (hq : q ∉ managedNames) {e e' : Elem} (h : StixTouched e e') : Meek Req q e e' :=
  meek_data (fun hx => hq (touched_managed _ hx)) h.1 h.2

theorem meek_vocab {q : QName} (hq : q ∉ managedNames) {e e' : Elem} (h : VocabElem e e') : Meek Req q e e' := by
  refine meek_filter (fun hx => hq (vocab_managed _ hx)) h.1.2.2.2 (fun x hs hr s h2 => ?_)
  rw [h.1.1] at hs
  rcases h.2.2 with h3 | ⟨p, hp, _, h3⟩
  · exact x.2 hs hr s (by rw [← h3]; exact h2)
  · rw [h2] at h3
    cases h3
    exact (by decide : ∀ p ∈ correctedTerms, ∀ ch ∈ p.2.toList, ch ∉ ['<', '>', '&', '\r']) p hp

theorem meek_prep {q : QName} (hq : q ∉ managedNames) {e e' : Elem} (h : PrepElem e e') : Meek Req q e e' := by
  refine meek_filter (not_pre hq) (prep_filter h) (fun x hs => ?_)
  rcases Classical.em (e.tag.ns = some "http://cybox.mitre.org/objects#WinDriverObject-2") with hn | hn
  · rw [(h.2 hn).1] at hs
    simp [sourceTags] at hs
  · rw [(h.1 hn).1.1] at hs
    rw [(h.1 hn).2]
    exact x.2 hs

theorem meek_set {q k : QName} (h : k ≠ q) (v : String) (e : Elem) : Meek Req q e (e.set k v) := fun x =>
  ⟨⟨once_set h x.1, x.2⟩, by
    show Attrs.get? (Attrs.set e.attrs k v) q = _
    rw [attrs_get_set, if_neg h]
    rfl⟩

theorem meek_listElem (q : QName) (e : Elem) : Meek Req q e (updateListElem e) := by
  unfold updateListElem
  split
  · exact .refl _ _
  · next s hs =>
    split
    · exact .refl _ _
    · refine fun x => ⟨⟨x.1, fun ht hr s' hs' ch hch => ?_⟩, rfl⟩
      simp only [Option.some.injEq] at hs'
      subst hs'
      simp only [updateListText, pyReplace, String.toList_ofList] at hch
      rcases replaceAux_mem hch with h | h
      · rcases replaceAux_mem h with h | h
        · exact x.2 ht hr s hs ch h
        · exact (by decide : ∀ c ∈ "##comma##".toList, c ∉ ['<', '>', '&', '\r']) ch h
      · exact (by decide : ∀ c ∈ ",".toList, c ∉ ['<', '>', '&', '\r']) ch h

theorem meek_iter (q : QName) : ∀ (n : Nat) (e : Elem), Meek Req q e (iter updateListElem n e)
  | 0, _ => .refl _ _
  | n + 1, e => (meek_iter q n e).comp (meek_listElem q _)

theorem meek_schemaloc {q : QName} (hq : q ∉ managedNames) (u : Cls) (c : Ctx) : Meek Req q c.e (schemalocEdit u c) := by
  refine meek_data (L := managedNames) hq (sameData_schemaloc (by decide) u c) ?_
  unfold schemalocEdit
  split
  · exact schemalocElem_text u c.e
  · rfl

/-- What a stage may do: the condition is kept, and the values of `q` afterwards are some of those before, in the same order. -/
def Thins (Req : Prop) (q : QName) (t t' : Node) : Prop := t.All (Orderly Req q) → t'.All (Orderly Req q) ∧ (t'.vals q).Sublist (t.vals q)

theorem Thins.refl (q : QName) (t : Node) : Thins Req q t t := fun h => ⟨h, .refl _⟩
theorem Thins.comp {q : QName} {a b c : Node} (h : Thins Req q a b) (h' : Thins Req q b c) : Thins Req q a c :=
  fun x => ⟨(h' (h x).1).1, (h' (h x).1).2.trans (h x).2⟩

theorem thins_edit {q : QName} {F : Ctx → Elem} (h : ∀ c, Meek Req q c.e (F c)) (t : Node) : Thins Req q t (t.edit F) := fun x => by
  refine ⟨all_edit x (fun c _ hc => (h c hc).1), ?_⟩
  have hr : Node.Rel (fun e e' => e'.get? q = e.get? q) t (t.edit F) :=
    rel_mapCtx_mem _ _ _ t (fun c hc => (h c (all_elems.1 x c hc)).2)
  rw [rel_vals (fun _ _ h => h) hr]
  exact List.Sublist.refl _

mutual
theorem meek_vals {q : QName} {P : Elem → Elem → Prop} (hP : ∀ e e', P e e' → Meek Req q e e') : ∀ {a b : Node},
    Node.Rel P a b → a.All (Orderly Req q) → b.All (Orderly Req q) ∧ b.vals q = a.vals q
  | .elem _ _, .elem _ _, h, x => by
    simp only [Node.Rel] at h
    obtain ⟨h1, h2⟩ := hP _ _ h.1 x.1
    obtain ⟨h3, h4⟩ := meek_valss hP h.2 x.2
    exact ⟨⟨h1, h3⟩, by simp only [Node.vals, h2, h4]⟩
  | .other _ _, .other _ _, _, _ => by simp [Node.All, Node.vals]
  | .elem _ _, .other _ _, h, _ => by simp only [Node.Rel] at h
  | .other _ _, .elem _ _, h, _ => by simp only [Node.Rel] at h
theorem meek_valss {q : QName} {P : Elem → Elem → Prop} (hP : ∀ e e', P e e' → Meek Req q e e') : ∀ {a b : List Node},
    Node.Rels P a b → Node.Alls (Orderly Req q) a → Node.Alls (Orderly Req q) b ∧ Node.valss q b = Node.valss q a
  | [], [], _, _ => by simp [Node.Alls, Node.valss]
  | _ :: _, _ :: _, h, x => by
    simp only [Node.Rels] at h
    obtain ⟨h1, h2⟩ := meek_vals hP h.1 x.1
    obtain ⟨h3, h4⟩ := meek_valss hP h.2 x.2
    exact ⟨⟨h1, h3⟩, by simp only [Node.valss, h2, h4]⟩
  | [], _ :: _, h, _ => by simp only [Node.Rels] at h
  | _ :: _, [], h, _ => by simp only [Node.Rels] at h
end

theorem thins_rel {q : QName} {P : Elem → Elem → Prop} (hP : ∀ e e', P e e' → Meek Req q e e') {a b : Node} (h : Node.Rel P a b) :
    Thins Req q a b := fun x => ⟨(meek_vals hP h x).1, (meek_vals hP h x).2 ▸ List.Sublist.refl _⟩

theorem thins_without (q : QName) (S : Ctx → Bool) (t : Node) : Thins Req q t (t.without S) :=
  fun x => ⟨all_pruneCtx t x, sub_pruneCtx t⟩

theorem thins_optionalsIf {q : QName} {b : Bool} {fs : List Finder} {t t' : Node}
    (h : (if b then removeOptionals fs t else .ok t) = .ok t') : Thins Req q t t' := by
  cases b with
  | false => cases h; exact .refl _ _
  | true =>
    refine foldE_inv (Thins Req q t) fs t t' ?_ (.refl _ _) h
    intro s f s' _ hs hst
    split at hst
    · cases hst
    · cases hst
      rw [removeAll_without]
      exact hs.comp (thins_without _ _ _)

theorem thins_replaced {q : QName} {Sel : Ctx → Prop} {Q : Ctx → Node → Prop} {t t' : Node} (h : Replaced Sel Q t t')
    (hQ : ∀ c n, c.node.All (Orderly Req q) → Sel c → Q c n → n.All (Orderly Req q) ∧ (n.vals q).Sublist (c.node.vals q)) :
    Thins Req q t t' := by
  intro x
  refine ⟨(h.mono (Q' := fun c n => Sel c ∧ Q c n) (fun _ _ => Iff.rfl) (fun _ _ _ h1 h2 => ⟨h1, h2⟩)).all x
    (fun c n hc hn => (hQ c n hc hn.1 hn.2).1), ?_⟩
  obtain ⟨R, h1, h2, rfl⟩ := h
  refine sub_substCtx t (fun c hc n hn => ?_)
  obtain ⟨_, hs, hq⟩ := Replaced.select h1 h2 hc hn
  exact (hQ c n (all_of_walk t x c hc) hs hq).2

/-! ## Helpers: fields -/

theorem thins_custom {q : QName} {alts : List XAlt} {m : List (String × String)} {g : Ctx → Except Err Node} {t t' : Node}
    (h : (⟨alts, m, .custom g⟩ : Trans).translate t = .ok t')
    (hg : ∀ c n, c.node.All (Orderly Req q) → alts.any (fun a => a.selects m c) = true → g c = .ok n →
      n.All (Orderly Req q) ∧ (n.vals q).Sublist (c.node.vals q)) : Thins Req q t t' :=
  thins_replaced (translate_custom h) hg

theorem orderly_new {q : QName} {tag : QName} {d : NsMap} {tx tl : Option String}
    (h : tag ∈ sourceTags → Req → ∀ s, tx = some s → ∀ ch ∈ s.toList, ch ∉ ['<', '>', '&', '\r']) : Orderly Req q ⟨tag, d, [], tx, tl⟩ :=
  ⟨once_nil _, h⟩

theorem orderly_retag {q : QName} {tag : QName} (h : tag ∉ sourceTags) {e : Elem} {ks : List Node}
    (he : (Node.elem e ks).All (Orderly Req q)) : (Node.elem { e with tag := tag } ks).All (Orderly Req q) :=
  ⟨⟨he.1.1, fun hs => absurd hs h⟩, he.2⟩

theorem thins_value {q : QName} {n : String} (hX : XName.resolve Tables.cybox201_nsmap ⟨"HTTPSessionObj", n⟩ ∉ sourceTags) {t t' : Node}
    (h : (⟨[rel "HTTPSessionObj" n], Tables.cybox201_nsmap, .value (some ⟨"URIObj", "Value"⟩) none true []⟩ : Trans).translate t
      = .ok t') : Thins Req q t t' := by
  rw [translate_value_eq] at h
  refine thins_custom h (fun c nn hc hs hn => ?_)
  rw [rel_selects] at hs
  unfold translateValue valueNode at hn
  simp only at hn
  cases hf : (childCtxs c 0 c.kids).find? (fun k => decide (k.e.tag = XName.resolve Tables.cybox201_nsmap ⟨"URIObj", "Value"⟩)) with
  | none => rw [hf] at hn; cases hn
  | some k =>
    rw [hf] at hn
    simp only [Except.ok.injEq] at hn
    obtain ⟨i, j1, _, _⟩ := find_childCtxs (p := fun e => decide (e.tag = XName.resolve Tables.cybox201_nsmap ⟨"URIObj", "Value"⟩)) hf
    have hm := List.mem_of_getElem? j1
    have hk : Orderly Req q k.e := (alls_iff.1 hc.2 _ hm).1
    subst hn
    refine ⟨⟨⟨once_updateAll _ _ (once_nil _), fun hsrc => absurd (show c.e.tag ∈ sourceTags from hsrc) (by rw [hs.2]; exact hX)⟩,
      trivial⟩, ?_⟩
    simp only [newElem, overrideAttrs, if_true, Node.vals, Node.valss, List.append_nil, Ctx.node]
    show (Attrs.get? (Attrs.updateAll [] k.e.attrs) q).toList.Sublist _
    rw [get_updateAll_once hk.1]
    simp only [Attrs.get?, Option.or_none]
    refine List.Sublist.trans ?_ (List.sublist_append_right _ _)
    refine List.Sublist.trans ?_ (vals_mem hm)
    simp only [Node.vals]
    exact List.sublist_append_left _ _

theorem thins_refresh {q : QName} (hq : q ∉ managedNames) {t t' : Node} (h : transRefresh.translate t = .ok t') : Thins Req q t t' := by
  unfold transRefresh at h
  rw [translate_value_eq] at h
  refine thins_custom h (fun c n hc hs hn => ?_)
  simp only [translateValue, valueNode, Except.ok.injEq] at hn
  subst hn
  have hd : (.plain "datatype" : QName) ≠ q := Ne.symm (not_datatype hq)
  have h1 : AtMostOnce q (overrideAttrs c.e [(.plain "datatype", "string")] (Attrs.updateAll [] c.e.attrs)) ∧
      Attrs.get? (overrideAttrs c.e [(.plain "datatype", "string")] (Attrs.updateAll [] c.e.attrs)) q = c.e.get? q := by
    have h2 : Attrs.get? (Attrs.updateAll [] c.e.attrs) q = c.e.get? q := by
      rw [get_updateAll_once hc.1.1]
      simp [Attrs.get?, Elem.get?]
    simp only [overrideAttrs]
    split
    · exact ⟨once_set hd (once_updateAll _ _ (once_nil _)), by rw [attrs_get_set, if_neg hd, h2]⟩
    · exact ⟨once_updateAll _ _ (once_nil _), h2⟩
  refine ⟨⟨⟨h1.1, hc.1.2⟩, trivial⟩, ?_⟩
  simp only [newElem, if_true, Node.vals, Node.valss, List.append_nil, Ctx.node]
  show (Attrs.get? (overrideAttrs c.e [(.plain "datatype", "string")] (Attrs.updateAll [] c.e.attrs)) q).toList.Sublist _
  rw [h1.2]
  exact List.sublist_append_left _ _

theorem thins_renamed {q : QName} {p n : String} {m : List (String × String)} {tag : QName} (h2 : tag ∉ sourceTags) {t t' : Node}
    (h : (⟨[rel p n], m, .renamed tag⟩ : Trans).translate t = .ok t') : Thins Req q t t' := by
  rw [translate_renamed] at h
  cases h
  refine thins_edit (fun c x => ?_) t
  unfold renBelow ren1
  split
  · exact ⟨x, rfl⟩
  · refine ⟨⟨x.1, fun hsrc => ?_⟩, rfl⟩
    dsimp only at hsrc
    split at hsrc
    · exact absurd hsrc h2
    · exact x.2 hsrc

theorem thins_mailslot {q : QName} {t t' : Node} (h : transMailslot.translate t = .ok t') : Thins Req q t t' := by
  refine thins_replaced (translate_parent h) ?_
  rintro c n hc _ ⟨e, ks, hk, _, rfl⟩
  refine ⟨orderly_retag (by decide) (alls_iff.1 hc.2 _ hk), ?_⟩
  simp only [Ctx.node, Node.vals]
  refine List.Sublist.trans ?_ (List.sublist_append_right _ _)
  exact vals_mem (n := .elem e ks) hk

theorem thins_fields {q : QName} {fs : List Trans} (hf : ∀ f ∈ fs, ∀ a b, f.translate a = .ok b → Thins Req q a b) {t t' : Node}
    (h : translateFields fs t = .ok t') : Thins Req q t t' :=
  foldE_inv (Thins Req q t) fs t t' (fun s f s' hm hs hst => hs.comp (hf f hm s s' hst)) (.refl _ _) h

theorem thins_fields201 {q : QName} (hq : q ∉ managedNames) {t t' : Node} (h : translateFields cybox201Translatable t = .ok t') :
    Thins Req q t t' := by
  refine thins_fields (fun f hf a b hab => ?_) h
  simp only [cybox201Translatable, List.mem_cons, List.not_mem_nil, or_false] at hf
  rcases hf with rfl | rfl | rfl | rfl | rfl | rfl | rfl | rfl
  · exact thins_value (by decide +kernel) hab
  · exact thins_value (by decide +kernel) hab
  · exact thins_refresh hq hab
  · exact thins_renamed (by decide) hab
  · exact thins_renamed (by decide) hab
  · exact thins_renamed (by decide) hab
  · exact thins_renamed (by decide) hab
  · exact thins_mailslot hab

theorem orderly_wrap {q : QName} {tag : QName} {ks : List Node} (h : ∀ k ∈ ks, k.All (Orderly Req q)) :
    (newElem tag [] none ks).All (Orderly Req q) := ⟨orderly_new (fun _ _ _ h => by cases h), alls_iff.2 h⟩

theorem thins_fields101 {q : QName} {w : World} {t t' : Node} (h : translateFields (stix101Cls w).translatable t = .ok t') :
    Thins Req q t t' := by
  have h' : translateFields [transContributors, transExploitTargets] t = .ok t' := h
  refine thins_fields (fun f hf a b hab => ?_) h'
  simp only [List.mem_cons, List.not_mem_nil, or_false] at hf
  rcases hf with rfl | rfl
  · refine thins_custom hab (fun c n hc _ hn => ?_)
    obtain ⟨y1, rfl⟩ := sourcesOf hn
    refine ⟨orderly_wrap (fun k hk => ?_), ?_⟩
    · obtain ⟨x, hx, rfl⟩ := List.mem_map.1 hk
      obtain ⟨e, es, rfl⟩ := y1 x hx
      exact orderly_wrap (fun k' hk' => by
        simp only [List.mem_singleton] at hk'
        subst hk'
        exact orderly_retag (by decide) (alls_iff.1 hc.2 _ hx))
    · have hm : ∀ ks : List Node, (∀ k ∈ ks, ∃ e es, k = .elem e es) → Node.valss q (ks.map asSource) = Node.valss q ks := by
        intro ks
        induction ks with
        | nil => intro _; rfl
        | cons k ks ih =>
          intro hk
          obtain ⟨e, es, rfl⟩ := hk k (by simp)
          simp only [List.map_cons, Node.valss, ih (fun k hk' => hk k (by simp [hk'])), asSource, Node.vals, List.append_nil]
          rfl
      simp only [Ctx.node, Node.vals, hm c.kids y1]
      exact List.sublist_append_right _ _
  · refine thins_custom hab (fun c n hc _ hn => ?_)
    cases hn
    refine ⟨orderly_wrap (fun k hk => ?_), ?_⟩
    · simp only [List.mem_singleton] at hk
      subst hk
      exact hc
    · simp only [newElem, Node.vals, Node.valss, List.append_nil, Ctx.node]
      exact List.Sublist.refl _

theorem thins_source (hr : Req) {q : QName} {alts : List XAlt} {m : List (String × String)} {tag : QName}
    {d d' : NsMap} {g : Ctx → Except Err Node} (hg : ∀ c, xmlPlain (formatText c.e.text) = true →
      g c = .ok (sourceNode tag d d' (formatText c.e.text))) (hs : ∀ a ∈ alts, a.tag.resolve m ∈ sourceTags) {t t' : Node}
    (h : (⟨alts, m, .custom g⟩ : Trans).translate t = .ok t') : Thins Req q t t' := by
  refine thins_custom h (fun c n hc hsel hn => ?_)
  have htag : c.e.tag ∈ sourceTags := by
    obtain ⟨a, ha, hc⟩ := List.any_eq_true.1 hsel
    unfold XAlt.selects at hc
    simp only [Bool.and_eq_true, decide_eq_true_eq] at hc
    rw [hc.1.1]; exact hs a ha
  rw [hg c (plain_text (hc.1.2 htag hr)).1] at hn
  cases hn
  have white : ∀ s : String, (∀ ch ∈ s.toList, ch ∉ ['<', '>', '&', '\r']) → ∀ x, some s = some x →
      ∀ ch ∈ x.toList, ch ∉ ['<', '>', '&', '\r'] := fun s h x e => by cases e; exact h
  refine ⟨⟨orderly_new (fun _ _ => white _ (by decide)), ⟨orderly_new (fun _ _ => white _ (by decide)),
    ⟨orderly_new (fun _ _ => white _ (plain_text (hc.1.2 htag hr)).2), trivial⟩, trivial⟩, trivial⟩, ?_⟩
  exact List.nil_sublist _

theorem thins_fields11 (hr : Req) {q : QName} {w : World} {t t' : Node} (h : translateFields (stix11Cls w).translatable t = .ok t') :
    Thins Req q t t' := by
  have h' : translateFields [transCommonSource w, transSightingsSource w, transRelatedCampaign] t = .ok t' := h
  refine thins_fields (fun f hf a b hab => ?_) h'
  simp only [List.mem_cons, List.not_mem_nil, or_false] at hf
  rcases hf with rfl | rfl | rfl
  · exact thins_source hr (g := translateCommonSource w) (tag := ⟨some nsCommon, "Source"⟩) (d := [(some "stixCommon", nsCommon)]) (d' := [])
      (fun c hc => by unfold translateCommonSource; simp only [hc, if_true]) (by decide +kernel) hab
  · exact thins_source hr (g := translateSightingSource w) (tag := ⟨some nsIndicator, "Source"⟩) (d := [(some "indicator", nsIndicator)])
      (d' := [(some "stixCommon", nsCommon)]) (fun c hc => by unfold translateSightingSource; simp only [hc, if_true])
      (by decide +kernel) hab
  · refine thins_custom hab (fun c n hc _ hn => ?_)
    cases hn
    refine ⟨orderly_wrap (fun k hk => ?_), ?_⟩
    · simp only [List.mem_singleton] at hk
      subst hk
      exact orderly_retag (by decide) hc
    · simp only [newElem, copyRetag, Node.vals, Node.valss, List.append_nil, Ctx.node]
      exact List.Sublist.refl _

/-! ## Helpers: steps -/

theorem thins_touch {q : QName} (hq : q ∉ managedNames) (u : Cls) (i v : String) (t : Node) :
    Thins Req q t (stixUpdateVersions u i v (u.updateSchemalocs t)) :=
  thins_rel (fun _ _ => meek_touched hq) (Node.Rel.comp touched_trans (touched_schemaloc _ t) (touched_versions _ _ _ _))

theorem thins_vocabsIf {q : QName} (hq : q ∉ managedNames) {b : Bool} {vs : List Vocab}
    (hv : ∀ v ∈ vs, ∀ p ∈ v.terms, p ∈ correctedTerms) {t t' : Node}
    (h : (if b then updateVocabs vs t else .ok t) = .ok t') : Thins Req q t t' :=
  thins_rel (fun _ _ => meek_vocab hq) (vocabsIf_rel hv h)

theorem thins_update20 {q : QName} (hq : q ∉ managedNames) {m : List (String × String)} {sel : List XAlt} {o : Options} {t t' : Node}
    (h : cybox20Update (cybox20Cls m sel) o t = .ok t') : Thins Req q t t' := by
  have hne : ∀ k ∈ cyboxVersionNames, k ≠ q := fun k hk e => hq (e ▸ by simp [managedNames, hk])
  simp only [cybox20Update] at h
  rw [updateSchemalocs_eq, cybox20Versions_eq, updateLists_eq] at h
  refine (thins_edit (meek_schemaloc hq _) t).comp ((thins_edit (fun c => ?_) _).comp ((thins_edit (fun c => ?_) _).comp
    (thins_vocabsIf hq (by simp only [cybox20Cls]; decide) h)))
  · unfold versionEdit
    split
    · exact ((meek_set (hne _ (by decide)) _ _).comp (meek_set (hne _ (by decide)) _ _)).comp (meek_set (hne _ (by decide)) _ _)
    · exact .refl _ _
  · exact meek_iter q _ _

theorem thins_update201 {q : QName} (hq : q ∉ managedNames) {m : List (String × String)} {sel : List XAlt} {o : Options} {t t' : Node}
    (h : cybox201Update (cybox201Cls m sel) o t = .ok t') : Thins Req q t t' := by
  simp only [cybox201Update] at h
  split at h
  · cases h
  · next t1 h1 =>
    split at h
    · cases h
    · next t2 h2 =>
      exact (thins_rel (fun _ _ => meek_prep hq) (prep_pass m sel t)).comp ((thins_fields201 hq h1).comp
        ((thins_vocabsIf hq (by simp only [cybox201Cls]; decide) h2).comp (thins_optionalsIf h)))

theorem thins_update12 {q : QName} (hq : q ∉ managedNames) {o : Options} {t t' : Node} (h : stix12.update o t = .ok t') :
    Thins Req q t t' := by
  simp only [stix12, stix12Update, Except.ok.injEq] at h
  rw [updateSchemalocs_eq, updateNamespaces_eq] at h
  subst h
  refine (thins_edit (F := nsEdit stix12Cls) (fun c => ?_) t).comp ((thins_edit (meek_schemaloc hq stix12Cls) _).comp ?_)
  · unfold nsEdit
    split
    · next hu =>
      refine meek_filter hq rfl (fun x hs => absurd hs ?_)
      exact renamed_source (by decide +kernel) hu
    · exact .refl _ _
  · cases (t.edit (nsEdit stix12Cls)).edit (schemalocEdit stix12Cls) with
    | other _ _ => exact .refl _ _
    | elem e ks =>
      intro x
      have hv := meek_set (show (⟨none, "version"⟩ : QName) ≠ q from fun e => hq (e ▸ by decide)) "1.2.1" e x.1
      simp only [setRootVersion]
      refine ⟨⟨hv.1, x.2⟩, ?_⟩
      simp only [Node.vals]
      rw [show (Elem.set e attrVersion "1.2.1").get? q = _ from hv.2]
      exact List.Sublist.refl _

theorem thins_update {q : QName} (hq : q ∉ managedNames) {w : World} {u : Updater} (hu : Registered w u)
    (hr : u = stix11 w → Req) {o : Options} {t t' : Node} (h : u.update o t = .ok t') : Thins Req q t t' := by
  cases hu with
  | cybox20 => exact thins_update20 hq h
  | cybox201 => exact thins_update201 hq h
  | stix10 =>
    simp only [stix10, stix10Update] at h
    split at h
    · cases h
    · next t1 h1 =>
      rw [updateNamespaces_none (u := stix10Cls) rfl] at h
      exact (thins_update20 hq h1).comp ((thins_touch hq _ _ _ _).comp (thins_vocabsIf hq (by decide) h))
  | stix101 =>
    simp only [stix101, stix101Update] at h
    split at h
    · cases h
    · next t1 h1 =>
      rw [updateNamespaces_none (u := stix101Cls w) rfl] at h
      split at h
      · cases h
      · next t2 h2 =>
        split at h
        · cases h
        · next t3 h3 =>
          exact (thins_update201 hq h1).comp ((thins_touch hq _ _ _ _).comp ((thins_fields101 h2).comp
            ((thins_vocabsIf hq (by simp only [stix101Cls]; decide) h3).comp (thins_optionalsIf h))))
  | stix11 =>
    simp only [stix11, stix11Update] at h
    split at h
    · cases h
    · next t2 h2 =>
      split at h
      · cases h
      · next t3 h3 =>
        have h0 : Thins Req q t (stix11Cybox.updateSchemalocs t) := thins_rel (fun _ _ => meek_touched hq) (touched_schemaloc _ t)
        exact h0.comp ((thins_touch hq _ _ _ _).comp ((thins_fields11 (hr rfl) h2).comp
          ((thins_vocabsIf hq (by simp only [stix11Cls]; decide) h3).comp (thins_optionalsIf h))))
  | stix111 =>
    simp only [stix111, stix111Update] at h
    exact (thins_touch hq _ _ _ _).comp (thins_vocabsIf hq (by decide) h)
  | stix12 => exact thins_update12 hq h

/-! ## Helpers: forced steps -/

theorem orderly_same {q : QName} {e e' : Elem} (h : SameButId e e') (hq : AtMostOnce q e.attrs → AtMostOnce q e'.attrs) (x : Orderly Req q e) :
    Orderly Req q e' := ⟨hq x.1, by rw [h.1, h.2.2.1]; exact x.2⟩

theorem meek_dup {q : QName} (hid : q ≠ attrId) (e : Elem) (v : String) : Meek Req q e (e.set attrId v) := meek_set (Ne.symm hid) v e

/-- Cleaning, for attributes other than ids. -/
theorem thins_clean {q : QName} (hid : q ≠ attrId) {w : World} {u : Updater} (hu : Registered w u) {o : Options} {k k' : Nat} {t : Node}
    {r : Result} (hc : clean u o k t = .ok (r, k')) : Thins Req q t r.doc := by
  obtain ⟨rules, nss, ty, V, hr⟩ := registered_rules hu
  obtain ⟨F, l, ν, n, hF, hl, h1, h2, h3, h4, _⟩ := clean_spec hr hc
  intro x
  have hm : ∀ c ∈ t.elems, Meek Req q c.e (F c) := fun c hct => by
    by_cases hD : DupAt nss t c
    · rw [h1 c hct hD]; exact meek_dup hid _ _
    · rw [h2 c hct hD]; exact .refl _ _
  have hrel : Node.Rel (Meek Req q) t (t.edit F) := rel_mapCtx_mem _ _ _ t (fun c hc => hm c hc)
  rw [h3]
  exact (thins_rel (fun _ _ h => h) hrel).comp (thins_without q _ _) x

theorem flat_apart {α β : Type} {f : α → List β} {i : β} : ∀ {l : List α}, (l.flatMap f).Nodup → ∀ {c d : α}, c ∈ l → d ∈ l →
    i ∈ f c → i ∈ f d → c = d
  | [], _, _, _, h, _, _, _ => by cases h
  | a :: l, hn, c, d, hc, hd, ic, id => by
    rw [List.flatMap_cons, List.nodup_append] at hn
    rcases List.mem_cons.1 hc with hc' | hc' <;> rcases List.mem_cons.1 hd with hd' | hd'
    · rw [hc', hd']
    · exact absurd rfl (hn.2.2 i (hc' ▸ ic) i (List.mem_flatMap.2 ⟨d, hd', id⟩))
    · exact absurd rfl (hn.2.2 i (hd' ▸ id) i (List.mem_flatMap.2 ⟨c, hc', ic⟩))
    · exact flat_apart hn.2.1 hc' hd' ic id

theorem not_shared {ns : List String} {t : Node} (h : (t.vals attrId).Nodup) (i : String) : ¬ Shared ns t i := by
  rintro ⟨c, hc, d, hd, hne, h1, h2⟩
  rw [vals_gather] at h
  exact hne (flat_apart (i := i) h hc hd (by simp [show c.e.get? attrId = some i from h1.2.2])
    (by simp [show d.e.get? attrId = some i from h2.2.2]))

/-- Cleaning, for ids that are already unique: none is replaced. -/
theorem thins_clean_ids {w : World} {u : Updater} (hu : Registered w u) {o : Options} {k k' : Nat} {t : Node}
    {r : Result} (hc : clean u o k t = .ok (r, k')) (hn : (t.vals attrId).Nodup) : Thins Req attrId t r.doc ∧ r.remapped = [] := by
  obtain ⟨rules, nss, ty, V, hr⟩ := registered_rules hu
  obtain ⟨F, l, ν, n, hF, hl, h1, h2, h3, h4, _, _, _, h5⟩ := clean_spec hr hc
  have hno : ∀ c, ¬ DupAt nss t c := by
    rintro c ⟨ns, i, _, _, hs⟩
    exact not_shared hn i hs
  constructor
  · rw [h3, edit_self (fun c hct => h2 c hct (hno c))]
    exact thins_without _ _ _
  · cases hrm : r.remapped with
    | nil => rfl
    | cons p m =>
      obtain ⟨ns, g, _, hs, _⟩ := (h5 p.1 p.2).1 (by rw [hrm]; simp)
      exact absurd hs (not_shared hn _)

theorem thins_chain {w : World} {q : QName} (hq : q ∉ managedNames) (reg : List (String × Updater))
    (hreg : ∀ v u, assoc reg v = some u → Registered w u ∧ (u = stix11 w → Req)) (o : Options) (force : Bool) (hf : force = false ∨ q ≠ attrId) :
    ∀ (vs : List String) (acc : Result) (k : Nat) (r : Result) (k' : Nat),
    chainLoop reg o force vs acc k = .ok (r, k') → Thins Req q acc.doc r.doc
  | [], acc, k, r, k', h => by
    simp only [chainLoop, Except.ok.injEq, Prod.mk.injEq] at h
    rw [h.1]
    exact .refl _ _
  | v :: vs, acc, k, r, k', h => by
    simp only [chainLoop] at h
    split at h
    · cases h
    · next u hu =>
      split at h
      · cases h
      · next r1 k1 hs =>
        refine Thins.comp ?_ (thins_chain hq reg hreg o force hf vs _ k1 r k' h)
        show Thins Req q acc.doc r1.doc
        rcases hf with rfl | hid
        · simp only [stepUpdate, Bool.and_false, Bool.false_eq_true, if_false] at hs
          split at hs
          · next d hd =>
            simp only [tryUpdate] at hd
            cases hs
            split at hd
            · cases hd
            · exact thins_update hq (hreg v u hu).1 (hreg v u hu).2 hd
          · cases hs
        · obtain ⟨r2, h1, _, _, h4⟩ := step_parts hs
          refine Thins.comp ?_ (thins_update hq (hreg v u hu).1 (hreg v u hu).2 h1)
          rcases h4 with ⟨rfl, _⟩ | hc
          · exact .refl _ _
          · exact thins_clean hid (hreg v u hu).1 hc

theorem ids_chain {w : World} (reg : List (String × Updater))
    (hreg : ∀ v u, assoc reg v = some u → Registered w u ∧ (u = stix11 w → Req)) (o : Options) (force : Bool) :
    ∀ (vs : List String) (acc : Result) (k : Nat) (r : Result) (k' : Nat),
    chainLoop reg o force vs acc k = .ok (r, k') → acc.doc.All (Orderly Req attrId) → (acc.doc.vals attrId).Nodup → acc.remapped = [] →
    (r.doc.vals attrId).Sublist (acc.doc.vals attrId) ∧ r.remapped = []
  | [], acc, k, r, k', h, _, _, hm => by
    simp only [chainLoop, Except.ok.injEq, Prod.mk.injEq] at h
    rw [← h.1]
    exact ⟨.refl _, hm⟩
  | v :: vs, acc, k, r, k', h, hx, hn, hm => by
    simp only [chainLoop] at h
    split at h
    · cases h
    · next u hu =>
      split at h
      · cases h
      · next r1 k1 hs =>
        obtain ⟨r2, h1, _, h3, h4⟩ := step_parts hs
        have hc : Thins Req attrId acc.doc r2.doc ∧ r2.remapped = [] := by
          rcases h4 with ⟨rfl, _⟩ | hc
          · exact ⟨.refl _ _, rfl⟩
          · exact thins_clean_ids (hreg v u hu).1 hc hn
        obtain ⟨h5, h6⟩ := hc.1.comp (thins_update (by decide) (hreg v u hu).1 (hreg v u hu).2 h1) hx
        have := ids_chain reg hreg o force vs _ k1 r k' h h5 (h6.nodup hn) (by
          show dictUpdate acc.remapped r1.remapped = []
          rw [hm, h3, hc.2]
          rfl)
        exact ⟨this.1.trans h6, this.2⟩

theorem vals_filterMap (q : QName) (t : Node) : t.elems.filterMap (fun c => c.e.get? q) = t.vals q := by
  rw [vals_gather]
  show _ = t.elems.flatMap _
  induction t.elems with
  | nil => rfl
  | cons c l ih =>
    rw [List.filterMap_cons, List.flatMap_cons, ← ih]
    dsimp only
    cases c.e.get? q <;> rfl

theorem orderly_all {q : QName} {t : Node} (ho : ∀ c ∈ t.elems, AtMostOnce q c.e.attrs) (hs : Req → SourcesPlain t) : t.All (Orderly Req q) :=
  all_elems.2 (fun c hc => ⟨ho c hc, fun htag hr => hs hr c hc htag⟩)

/-! ## C65 -/

/-- C65: an update never doubles or reorders: the values an attribute has in the result, in document order, are some of the values
it had in the document, in the same order. This holds for any attribute that the update does not manage, with any options, over any
number of versions. For ids it is for updates that are not forced (see the next theorem). Partial: for documents with plain sources. -/
theorem C65_subsequence_partial (w : World) (t : Node) (from_ to_ : Option String) (o : Options) (force : Bool) (k k' : Nat) (r : Result)
    (q : QName) (hq : q ∉ managedNames) (hf : force = false ∨ q ≠ ⟨none, "id"⟩)
    (hu : update w t from_ to_ o force k = .ok (r, k'))
    (ho : ∀ c ∈ t.elems, AtMostOnce q c.e.attrs) (hs : SourcesPlain t) :
    (r.doc.elems.filterMap (fun c => c.e.get? q)).Sublist (t.elems.filterMap (fun c => c.e.get? q)) := by
  obtain ⟨vs, reg, _, x, y, hreg, _, hc⟩ := update_chain hu
  rw [vals_filterMap, vals_filterMap]
  exact (thins_chain (Req := True) hq reg (fun v u h => ⟨(hreg v u h).1, fun _ => trivial⟩) o force hf _ _ k r k' hc (orderly_all ho (fun _ => hs))).2

/-- C65: if no two elements of a document have the same id, then no two of the result do, the ids that are left are in the same order,
and no id is replaced, though the update is forced. Partial: for documents with plain sources. -/
theorem C65_ids_partial (w : World) (t : Node) (from_ to_ : Option String) (o : Options) (force : Bool) (k k' : Nat) (r : Result)
    (hu : update w t from_ to_ o force k = .ok (r, k'))
    (hn : (t.elems.filterMap (fun c => c.e.get? ⟨none, "id"⟩)).Nodup)
    (ho : ∀ c ∈ t.elems, AtMostOnce ⟨none, "id"⟩ c.e.attrs) (hs : SourcesPlain t) :
    (r.doc.elems.filterMap (fun c => c.e.get? ⟨none, "id"⟩)).Nodup ∧
    (r.doc.elems.filterMap (fun c => c.e.get? ⟨none, "id"⟩)).Sublist (t.elems.filterMap (fun c => c.e.get? ⟨none, "id"⟩)) ∧
    r.remapped = [] := by
  obtain ⟨vs, reg, _, x, y, hreg, _, hc⟩ := update_chain hu
  rw [vals_filterMap] at hn ⊢
  rw [vals_filterMap]
  have := ids_chain (Req := True) reg (fun v u h => ⟨(hreg v u h).1, fun _ => trivial⟩) o force _ ⟨t, [], []⟩ k r k' hc
    (orderly_all ho (fun _ => hs)) hn rfl
  exact ⟨this.1.nodup hn, this⟩

/-- C65 for CybOX documents, whatever their texts. -/
theorem C65_cybox (t : Node) (from_ to_ : Option String) (o : Options) (force : Bool) (k k' : Nat) (r : Result)
    (h : cyboxUpdate t from_ to_ o force k = .ok (r, k')) :
    (∀ q, q ∉ managedNames → (force = false ∨ q ≠ ⟨none, "id"⟩) → (∀ c ∈ t.elems, AtMostOnce q c.e.attrs) →
      (r.doc.elems.filterMap (fun c => c.e.get? q)).Sublist (t.elems.filterMap (fun c => c.e.get? q))) ∧
    ((t.elems.filterMap (fun c => c.e.get? ⟨none, "id"⟩)).Nodup → (∀ c ∈ t.elems, AtMostOnce ⟨none, "id"⟩ c.e.attrs) →
      (r.doc.elems.filterMap (fun c => c.e.get? ⟨none, "id"⟩)).Nodup ∧
      (r.doc.elems.filterMap (fun c => c.e.get? ⟨none, "id"⟩)).Sublist (t.elems.filterMap (fun c => c.e.get? ⟨none, "id"⟩)) ∧
      r.remapped = []) := by
  simp only [cyboxUpdate] at h
  split at h
  · cases h
  · simp only [runChain] at h
    split at h
    · cases h
    · have hreg : ∀ v u, assoc cyboxUpdaters v = some u → Registered w0 u ∧ (u = stix11 w0 → False) :=
        fun v u hu => ⟨registered_cybox hu, fun e => absurd e (cybox_not_stix11 hu)⟩
      simp only [vals_filterMap]
      refine ⟨fun q hq hf ho => ?_, fun hn ho => ?_⟩
      · exact (thins_chain hq cyboxUpdaters hreg o force hf _ _ k r k' h (orderly_all ho (fun hr => hr.elim))).2
      · have := ids_chain cyboxUpdaters hreg o force _ ⟨t, [], []⟩ k r k' h (orderly_all ho (fun hr => hr.elim)) hn rfl
        exact ⟨this.1.nodup hn, this⟩

/-! ### Cases that meet the hypotheses -/

/-- A CybOX document with ids, and a `Source` with markup characters in its text. -/
def cyboxIds : Node :=
  cyboxDoc v201 [el "http://cybox.mitre.org/objects#HTTPSessionObject-2" "DNT" [at_ "id" "c"]
      [el "http://cybox.mitre.org/objects#URIObject-2" "Value" [at_ "id" "d"] [] (some "1")],
    el nsCommon "Source" [at_ "id" "e"] [] (some "<a id='d'/>")]

example : (cyboxIds.elems.filterMap (fun c => c.e.get? ⟨none, "id"⟩)) = ["c", "d", "e"] ∧
    (∀ c ∈ cyboxIds.elems, AtMostOnce ⟨none, "id"⟩ c.e.attrs) ∧ ¬ SourcesPlain cyboxIds ∧
    ∃ r, cyboxUpdate cyboxIds none (some "2.1") o0 true 0 = .ok r ∧
      (r.1.doc.elems.filterMap (fun c => c.e.get? ⟨none, "id"⟩)) = ["d", "e"] :=
  ⟨by decide +kernel, by unfold AtMostOnce; decide +kernel, by unfold SourcesPlain; decide +kernel, ok_of_eval (by decide +kernel)⟩

/-- Ids in a field that is replaced by one child of it, in a list of contributors, and elsewhere. -/
def docIds : Node :=
  stixDoc "1.0" [el nsCommon "Contributors" [] [el nsCommon "Contributor" [at_ "id" "a"], el nsCommon "Contributor" [at_ "id" "b"]],
    el "http://cybox.mitre.org/objects#HTTPSessionObject-2" "DNT" [at_ "id" "c"]
      [el "http://cybox.mitre.org/objects#URIObject-2" "Value" [at_ "id" "d"] [] (some "1")],
    el nsCyboxCore "Object" [at_ "id" "e"]]

example : (docIds.elems.filterMap (fun c => c.e.get? ⟨none, "id"⟩)) = ["a", "b", "c", "d", "e"] ∧
    (∀ c ∈ docIds.elems, AtMostOnce ⟨none, "id"⟩ c.e.attrs) ∧ SourcesPlain docIds ∧
    ∃ r, update w0 docIds none (some "1.1") o0 true 0 = .ok r ∧
      r.1.doc.elems.filterMap (fun c => c.e.get? ⟨none, "id"⟩) = ["a", "b", "d", "e"] ∧ r.1.remapped = [] :=
  ⟨by decide +kernel, by unfold AtMostOnce; decide +kernel, by unfold SourcesPlain; decide +kernel, ok_of_eval (by decide +kernel)⟩

/-! ### Where it fails -/

/-- A package with an id, and a source whose text is an element with the same id (in the file `&lt;e id="a"/&gt;`). -/
def docTwice : Node := stixDoc "1.1" [el nsTTP "Intended_Effect" [at_ "id" "a"] [el nsCommon "Source" [] [] (some "<e id=\"a\"/>")]]

/-- A parser that reads the XML text made of it as any XML parser does. -/
def twiceWorld : World :=
  { w0 with
    parseXml := fun s => if s = "\n        <stixCommon:Source xmlns:stixCommon=\"http://stix.mitre.org/common-1\">\n            <stixCommon:Identity>\n                <stixCommon:Name><e id=\"a\"/></stixCommon:Name>\n            </stixCommon:Identity>\n        </stixCommon:Source>\n        "
      then some (.elem ⟨⟨some nsCommon, "Source"⟩, [(some "stixCommon", nsCommon)], [], some "\n            ", none⟩
        [.elem ⟨⟨some nsCommon, "Identity"⟩, [], [], some "\n                ", some "\n        "⟩
          [.elem ⟨⟨some nsCommon, "Name"⟩, [], [], none, some "\n            "⟩ [.elem ⟨⟨none, "e"⟩, [], [(⟨none, "id"⟩, "a")], none, none⟩ []]]])
      else none }

/-- C65, negation: markup in a source that is a string gives the result two elements with one id; the document had no two. -/
theorem C65_markup_fails : (docTwice.elems.filterMap (fun c => c.e.get? ⟨none, "id"⟩)).Nodup ∧
    (∀ c ∈ docTwice.elems, AtMostOnce ⟨none, "id"⟩ c.e.attrs) ∧
    ∃ r, update twiceWorld docTwice none (some "1.1.1") o0 false 0 = .ok r ∧
      ¬ (r.1.doc.elems.filterMap (fun c => c.e.get? ⟨none, "id"⟩)).Nodup :=
  ⟨by decide +kernel, by unfold AtMostOnce; decide +kernel, ok_of_eval (by decide +kernel)⟩

end Ramrod

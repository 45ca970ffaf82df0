import Verif.Props.AgainMore
/-!
# Repeating the STIX 1.0.1 step with its checks: C59
-/

namespace Ramrod

open Samples

/-! ## Helpers: what the stages do to an element -/

/-- The date of a campaign's activity. -/
def dateTag : QName := ⟨some "http://stix.mitre.org/common-1", "Date_Time"⟩

/-- The types that the STIX 1.0.1 step refuses. -/
def refused101 : List String := ["MAEC4.0InstanceType", "CAPEC2.6InstanceType"]

/-- The elements whose children decide whether they are refused, with the namespace of the types that are. -/
def wraps101 : List (String × String) := [("Malware", "http://stix.mitre.org/extensions/Malware#MAEC4.0-1"),
  ("Attack_Patterns", "http://stix.mitre.org/extensions/AP#CAPEC2.6-1")]

/-- What the stages of the STIX 1.0.1 step do to an element: the name may be spelt right, the type may be revised, a plain date stays. -/
def Kin101 (e e' : Elem) : Prop := (Given e.tag e'.tag ∧ e'.tag.ns = e.tag.ns ∧ e'.decls = e.decls) ∧ e'.get? attrId = e.get? attrId ∧
  (e.tag = dateTag → e.attrs = [] → e' = e) ∧ (e'.get? tagXsiType = e.get? tagXsiType ∨
  ∃ p ty ty', ty' ∉ refused101 ∧ (∃ v, e.get? tagXsiType = some v ∧ IsQType v p ty) ∧ ∃ v, e'.get? tagXsiType = some v ∧ IsQType v p ty')

theorem kin101_refl (e : Elem) : Kin101 e e := ⟨⟨Or.inl rfl, rfl, rfl⟩, rfl, fun _ _ => rfl, Or.inl rfl⟩

theorem kin101_trans {a b c : Elem} (h : Kin101 a b) (g : Kin101 b c) : Kin101 a c := by
  refine ⟨⟨given_trans h.1.1 g.1.1, g.1.2.1.trans h.1.2.1, g.1.2.2.trans h.1.2.2⟩, g.2.1.trans h.2.1, ?_, ?_⟩
  · intro h1 h2
    have e := h.2.2.1 h1 h2
    rw [← e] at h1 h2
    exact (g.2.2.1 h1 h2).trans e
  · rcases h.2.2.2 with h2 | ⟨p, ty, ty', n1, ⟨v, v1, v2⟩, v', v3, v4⟩
    · rcases g.2.2.2 with g2 | g2
      · exact Or.inl (g2.trans h2)
      · rw [h2] at g2; exact Or.inr g2
    · rcases g.2.2.2 with g2 | ⟨q, uy, uy', n2, ⟨u, u1, u2⟩, u', u3, u4⟩
      · exact Or.inr ⟨p, ty, ty', n1, ⟨v, v1, v2⟩, v', g2.trans v3, v4⟩
      · rw [v3] at u1
        cases u1
        obtain ⟨rfl, _⟩ := isQType_unique v4 u2
        exact Or.inr ⟨p, ty, uy', n2, ⟨v, v1, v2⟩, u', u3, u4⟩

theorem rel_kin101_trans {a b c : Node} (h : Node.Rel Kin101 a b) (g : Node.Rel Kin101 b c) : Node.Rel Kin101 a c :=
  Node.Rel.comp (P := Kin101) (Q := Kin101) (R := Kin101) (fun _ _ _ h g => kin101_trans h g) h g

theorem kin101_data {L : List QName} (hL : tagXsiType ∉ L) (hi : attrId ∉ L) {e e' : Elem} (h : SameData L e e')
    (hd : e.tag = dateTag → e.attrs = [] → e' = e) : Kin101 e e' :=
  ⟨⟨Or.inl h.1, by rw [h.1], h.2.1⟩, get_of_filter hi h.2.2.2, hd, Or.inl (get_of_filter hL h.2.2.2)⟩

theorem kin101_schemaloc (u : Cls) (t : Node) : Node.Rel Kin101 t (u.updateSchemalocs t) := by
  rw [updateSchemalocs_eq]
  refine rel_mapCtx (fun c => ?_) [] [] [] t
  unfold schemalocEdit
  split
  · unfold Cls.updateSchemalocsElem
    split
    · exact kin101_refl _
    · next v hv =>
      refine kin101_data (L := [tagSchemaLoc]) (by decide) (by decide) (SameData.set (by simp) _ _) (fun _ ha => ?_)
      unfold Elem.get? at hv
      rw [ha] at hv
      cases hv
  · exact kin101_refl _

theorem kin101_versions {m : List (String × String)} {alts : List XAlt} (hm : ∀ a ∈ alts, a.tag.resolve m ≠ dateTag) {g : Elem → Elem}
    (hg : ∀ e, Stamped e (g e)) (t : Node) : Node.Rel Kin101 t (t.edit (versionEdit m alts g)) := by
  refine rel_mapCtx (fun c => ?_) [] [] [] t
  unfold versionEdit
  split
  · next h =>
    refine kin101_data (L := stampNames) (by decide) (by decide) (hg c.e).1.1 (fun hd _ => ?_)
    obtain ⟨a, ha, hs⟩ := List.any_eq_true.1 h
    unfold XAlt.selects at hs
    simp only [Bool.and_eq_true, decide_eq_true_eq] at hs
    exact absurd (hs.1.1.symm.trans hd) (hm a ha)
  · exact kin101_refl _

theorem kin101_ren {f : QName → QName} (hf : ∀ q, f q = q ∨ f q ∈ renamed201.map (·.2)) (hns : ∀ q, (f q).ns = q.ns) (t : Node) :
    Node.Rel Kin101 t (t.edit (renBelow f)) := by
  refine rel_mapCtx (fun c => ?_) [] [] [] t
  unfold renBelow
  split
  · exact kin101_refl _
  · refine ⟨⟨?_, hns _, rfl⟩, rfl, fun hd _ => ?_, Or.inl rfl⟩
    · rcases hf c.e.tag with e | e
      · exact Or.inl e
      · exact Or.inr (fun h => h.1 e)
    · rcases hf c.e.tag with e | e
      · rw [e]
      · have h0 : ∀ q ∈ renamed201.map (·.2), q.ns ≠ dateTag.ns := by decide +kernel
        exact absurd ((hns _).trans (by rw [hd])) (h0 _ e)

theorem kin101_vocabs {b : Bool} {vs : List Vocab} {rows : List VocabRow} (hm : MatchesAll vs rows) (hs : Stable rows)
    (hn : ∀ row ∈ rows, row.new ∉ refused101) {t t' : Node}
    (h : (if b then updateVocabs vs t else .ok t) = .ok t') : Node.Rel Kin101 t t' := by
  cases b with
  | false => cases h; exact rel_refl kin101_refl t
  | true =>
    obtain ⟨F, hF, rfl, hspec⟩ := updateVocabs_spec hm hs h
    refine rel_mapCtx_mem [] [] [] t (fun c hc => ?_)
    rcases Classical.em (∃ row ∈ rows, ∃ p, Outdated row p c) with ⟨row, hr, p, ho⟩ | hno
    · have hw := (hspec c hc).1 row hr p ho
      obtain ⟨_, ty, _, s, hs1, hs2, _⟩ := ho
      have hid : (F c).get? attrId = c.e.get? attrId := by
        have := hw.2.2.2.2.2 attrId
        simpa [attrId, QName.plain] using this
      refine ⟨⟨Or.inl (hF c).1, by rw [(hF c).1], (hF c).2⟩, hid, fun _ ha => ?_, Or.inr ⟨p, ty, row.new, hn row hr, ⟨s, hs1, hs2⟩, p ++ ":" ++ row.new,
        ?_, rfl, hs2.2.1, (stable_new hs row hr).1⟩⟩
      · unfold Elem.get? at hs1
        rw [ha] at hs1
        cases hs1
      · have := hw.2.2.2.2.2 tagXsiType
        rwa [if_pos (show tagXsiType = ⟨some "http://www.w3.org/2001/XMLSchema-instance", "type"⟩ from rfl)] at this
    · rw [(hspec c hc).2 (fun row hr p ho => hno ⟨row, hr, p, ho⟩)]
      exact kin101_refl _

/-! ## Helpers: where the elements are -/

mutual
theorem rel_given {P : Elem → Elem → Prop} (hP : ∀ e e', P e e' → Given e.tag e'.tag ∧ e'.decls = e.decls) {pos : Pos} {env : NsMap}
    {anc anc' : List QName} : ∀ {a b : Node}, GivenAll anc anc' → Node.Rel P a b → ∀ c' ∈ b.walk pos env anc', ∃ c ∈ a.walk pos env anc,
      c'.env = c.env ∧ GivenAll c.anc c'.anc ∧ P c.e c'.e ∧ Node.Rels P c.kids c'.kids
  | .elem e ks, .elem e' ks', ha, h, c', hc => by
    simp only [Node.Rel] at h
    simp only [Node.walk, List.mem_cons] at hc ⊢
    have hd := (hP _ _ h.1).2
    rcases hc with rfl | hc
    · exact ⟨_, Or.inl rfl, by simp only [hd], ha, h.1, h.2⟩
    · rw [hd] at hc
      obtain ⟨c, g1, g2⟩ := rels_given hP (anc := e.tag :: anc) (anc' := e'.tag :: anc') ⟨(hP _ _ h.1).1, ha⟩ h.2 c' hc
      exact ⟨c, Or.inr g1, g2⟩
  | .other _ _, .other _ _, _, _, c', hc => by simp [Node.walk] at hc
  | .elem _ _, .other _ _, _, h, _, _ => by simp only [Node.Rel] at h
  | .other _ _, .elem _ _, _, h, _, _ => by simp only [Node.Rel] at h
theorem rels_given {P : Elem → Elem → Prop} (hP : ∀ e e', P e e' → Given e.tag e'.tag ∧ e'.decls = e.decls) {pos : Pos} {i : Nat} {env : NsMap}
    {anc anc' : List QName} : ∀ {a b : List Node}, GivenAll anc anc' → Node.Rels P a b → ∀ c' ∈ Node.walks pos i env anc' b,
      ∃ c ∈ Node.walks pos i env anc a, c'.env = c.env ∧ GivenAll c.anc c'.anc ∧ P c.e c'.e ∧ Node.Rels P c.kids c'.kids
  | [], [], _, _, c', hc => by simp [Node.walks] at hc
  | _ :: _, _ :: _, ha, h, c', hc => by
    simp only [Node.Rels] at h
    simp only [Node.walks, List.mem_append] at hc ⊢
    rcases hc with hc | hc
    · obtain ⟨c, g1, g2⟩ := rel_given hP ha h.1 c' hc
      exact ⟨c, Or.inl g1, g2⟩
    · obtain ⟨c, g1, g2⟩ := rels_given hP ha h.2 c' hc
      exact ⟨c, Or.inr g1, g2⟩
  | [], _ :: _, _, h, _, _ => by simp only [Node.Rels] at h
  | _ :: _, [], _, h, _, _ => by simp only [Node.Rels] at h
end

theorem given_ne {a b : List QName} (h : GivenAll a b) (hb : b ≠ []) : a ≠ [] := by
  rintro rfl
  cases b with
  | nil => exact hb rfl
  | cons _ _ => simp [GivenAll] at h

theorem given_head {a b : List QName} (h : GivenAll a b) {q : QName} (hq : Fresh201 q) (hb : b.head? = some q) : a.head? = some q := by
  cases b with
  | nil => cases hb
  | cons y ys =>
    cases a with
    | nil => simp [GivenAll] at h
    | cons x xs =>
      simp only [GivenAll] at h
      simp only [List.head?_cons, Option.some.injEq] at hb ⊢
      subst hb
      rcases h.1 with e | e
      · exact e.symm
      · exact absurd hq e

theorem given_two {a b : List QName} (h : GivenAll a b) {q : QName} (hq : Fresh201 q) (hb : ∃ x xs, b = q :: x :: xs) :
    ∃ x xs, a = q :: x :: xs := by
  obtain ⟨x, xs, rfl⟩ := hb
  have h1 := given_head h hq rfl
  cases a with
  | nil => cases h1
  | cons y ys =>
    simp only [List.head?_cons, Option.some.injEq] at h1
    subst h1
    cases ys with
    | nil => simp [GivenAll] at h
    | cons z zs => exact ⟨z, zs, rfl⟩

theorem given_tag {a b : QName} (h : Given a b) {q : QName} (hq : Fresh201 q) (hb : b = q) : a = q := by
  rcases h with e | e
  · exact e.symm.trans hb
  · rw [hb] at e; exact absurd hq e

/-! ## Helpers: documents that pass the checks -/

/-- What the checks of the STIX 1.0.1 step ask, and what keeps it true. -/
structure Ready (w : World) (t : Node) : Prop where
  typed : WellTyped t
  types : ∀ c ∈ t.elems, c.anc ≠ [] → ∀ ty ∈ refused101, ∀ p ns, ¬ c.TypedAs p ty ns ∨ (ty, ns) ∉
    [("MAEC4.0InstanceType", "http://stix.mitre.org/extensions/Malware#MAEC4.0-1"), ("CAPEC2.6InstanceType", "http://stix.mitre.org/extensions/AP#CAPEC2.6-1")]
  wraps : ∀ c ∈ t.elems, ∀ x ∈ wraps101, Below "http://stix.mitre.org/TTP-1" x.1 c → ¬ KidsIn x.2 c
  kids : ∀ c ∈ t.elems, ∀ x ∈ wraps101, c.anc.head? = some ⟨some "http://stix.mitre.org/TTP-1", x.1⟩ → c.e.tag.ns = some "http://stix.mitre.org/TTP-1"
  dates : ∀ c ∈ t.elems, ¬ InvalidDate w c
  plain : ∀ c ∈ t.elems, c.e.tag = dateTag → c.anc.head? = some ⟨some "http://stix.mitre.org/Campaign-1", "Activity"⟩ → c.e.attrs = [] ∧ c.kids = []
  ids : (held (guarded known101) t.descs).Nodup
  cybox : ∀ c ∈ t.elems, ¬ Untranslatable (rules201.take 3) t c
  slots : NoneNested mailslot201 t

theorem ready_kin {w : World} {t t' : Node} (hr : Node.Rel Kin101 t t') (h : Ready w t) : Ready w t' := by
  have back : ∀ c' ∈ t'.elems, ∃ c ∈ t.elems, c'.env = c.env ∧ GivenAll c.anc c'.anc ∧ Kin101 c.e c'.e ∧ Node.Rels Kin101 c.kids c'.kids :=
    fun c' hc' => rel_given (P := Kin101) (fun _ _ h => ⟨h.1.1, h.1.2.2⟩) (anc := []) (anc' := []) trivial hr c' hc'
  refine ⟨?_, ?_, ?_, ?_, ?_, ?_, ?_, ?_, ?_⟩
  · intro c' hc' ha hx
    obtain ⟨c, hc, hv, hn, he, _⟩ := back c' hc'
    rcases he.2.2.2 with h2 | ⟨p, ty, ty', _, ⟨v, v1, v2⟩, v', v3, v4⟩
    · obtain ⟨p, ty, ns, hty⟩ := h.typed c hc (given_ne hn ha) (fun e => hx (h2.trans e))
      exact ⟨p, ty, ns, (typedAs_congr hv h2).2 hty⟩
    · obtain ⟨q, uy, ns, u, u1, u2, u3⟩ := h.typed c hc (given_ne hn ha) (fun e => by
        rw [show c.e.get? tagXsiType = none from e] at v1; cases v1)
      rw [show c.e.get? tagXsiType = some u from u1] at v1
      cases v1
      obtain ⟨rfl, _⟩ := isQType_unique u2 v2
      exact ⟨q, ty', ns, v', v3, v4, by rw [hv]; exact u3⟩
  · intro c' hc' ha ty hty p ns
    obtain ⟨c, hc, hv, hn, he, _⟩ := back c' hc'
    rcases he.2.2.2 with h2 | ⟨q, uy, uy', hu, _, u, u1, u2⟩
    · rcases h.types c hc (given_ne hn ha) ty hty p ns with h3 | h3
      · exact Or.inl (fun h4 => h3 ((typedAs_congr hv h2).1 h4))
      · exact Or.inr h3
    · refine Or.inl ?_
      rintro ⟨v, b2, b3, b4⟩
      rw [show c'.e.get? tagXsiType = some v from b2] at u1
      cases u1
      obtain ⟨_, rfl⟩ := isQType_unique b3 u2
      exact hu hty
  · rintro c' hc' x hx ⟨b1, b2⟩ b3
    obtain ⟨c, hc, hv, hn, he, hk⟩ := back c' hc'
    have h0 : ∀ x ∈ wraps101, Fresh201 ⟨some "http://stix.mitre.org/TTP-1", x.1⟩ := by decide +kernel
    refine h.wraps c hc x hx ⟨given_ne hn b1, given_tag he.1.1 (h0 x hx) b2⟩ (fun e ks hk1 => ?_)
    obtain ⟨e', ks', hk2, hp⟩ := rels_index hk e ks hk1
    obtain ⟨v, p, d1, d2, d3⟩ := b3 e' ks' hk2
    rw [hp.1.2.2, hv] at d3
    rcases hp.2.2.2 with h2 | ⟨q, uy, uy', _, ⟨u, u1, u2⟩, u', u3, u4⟩
    · exact ⟨v, p, h2.symm.trans d1, d2, d3⟩
    · rw [show e'.get? tagXsiType = some v from d1] at u3
      cases u3
      obtain rfl := prefixOf_qtype u4 d2
      exact ⟨u, p, u1, ⟨u2.2.1, Or.inr ⟨uy, u2.1⟩⟩, d3⟩
  · intro c' hc' x hx hh
    obtain ⟨c, hc, hv, hn, he, hk⟩ := back c' hc'
    have h0 : ∀ x ∈ wraps101, Fresh201 ⟨some "http://stix.mitre.org/TTP-1", x.1⟩ := by decide +kernel
    rw [he.1.2.1]
    exact h.kids c hc x hx (given_head hn (h0 x hx) hh)
  · rintro c' hc' ⟨d1, d2, d3⟩
    obtain ⟨c, hc, hv, hn, he, hk⟩ := back c' hc'
    have e1 : c.e.tag = dateTag := given_tag he.1.1 (by decide +kernel) d1
    have e2 := given_two hn (q := ⟨some "http://stix.mitre.org/Campaign-1", "Activity"⟩) (by decide +kernel) d2
    obtain ⟨e3, e4⟩ := h.plain c hc e1 (by obtain ⟨_, _, e⟩ := e2; rw [e]; rfl)
    have e5 := he.2.2.1 e1 e3
    have e6 : c'.kids = [] := by
      rw [e4] at hk
      cases hk' : c'.kids with
      | nil => rfl
      | cons _ _ => rw [hk'] at hk; simp only [Node.Rels] at hk
    have e7 : c'.node = c.node := by unfold Ctx.node; rw [e5, e4, e6]
    rw [e5, e7] at d3
    exact h.dates c hc ⟨e1, e2, d3⟩
  · intro c' hc' d1 d2
    obtain ⟨c, hc, hv, hn, he, hk⟩ := back c' hc'
    have e1 : c.e.tag = dateTag := given_tag he.1.1 (by decide +kernel) d1
    obtain ⟨e3, e4⟩ := h.plain c hc e1 (given_head hn (by decide +kernel) d2)
    refine ⟨by rw [he.2.2.1 e1 e3]; exact e3, ?_⟩
    rw [e4] at hk
    cases hk' : c'.kids with
    | nil => rfl
    | cons _ _ => rw [hk'] at hk; simp only [Node.Rels] at hk
  · refine (below_rel (P := Kin101) (fun e e' he => ?_) hr).nodup h.ids
    unfold guarded
    rw [he.1.2.1, he.2.1]
    exact List.Sublist.refl _
  · rintro c' hc' ⟨r, hm, hb⟩
    obtain ⟨c, hc, hv, hn, he, hk⟩ := back c' hc'
    have hm' := hm
    simp only [rules201, List.take_succ_cons, List.take_zero, List.mem_cons, List.not_mem_nil, or_false] at hm
    rcases hm with rfl | rfl | rfl
    · exact h.cybox c hc ⟨_, hm', given_ne hn hb.1, given_tag he.1.1 (by decide +kernel) hb.2⟩
    · exact h.cybox c hc ⟨_, hm', given_ne hn hb.1, given_tag he.1.1 (by decide +kernel) hb.2⟩
    · exact h.cybox c hc ⟨_, hm', given_tag he.1.1 (by decide +kernel) hb.1, given_two hn (by decide +kernel) hb.2⟩
  · rintro c' hc' q hq ⟨h1, h2⟩
    obtain ⟨c, hc, hv, hn, he, hk⟩ := back c' hc'
    have h0 : ∀ q ∈ mailslot201, Fresh201 q.1 ∧ Fresh201 q.2 := by decide +kernel
    exact h.slots c hc q hq ⟨given_tag he.1.1 (h0 q hq).2 h1, given_head hn (h0 q hq).1 h2⟩

theorem ready_without {w : World} {names : List QName} (hN : ∀ q ∈ names, q.ns ≠ some "http://stix.mitre.org/TTP-1") {t : Node} (h : Ready w t) :
    Ready w (t.without (optSel names)) := by
  refine ⟨?_, ?_, ?_, ?_, ?_, ?_, (below_without _ t).nodup h.ids, ?_, ?_⟩
  · intro c' hc' ha hx
    obtain ⟨c, hc, e1, e2, e3, _⟩ := mem_without hc'
    rw [e3] at ha
    rw [e1] at hx
    obtain ⟨p, ty, ns, v, v1, v2, v3⟩ := h.typed c hc ha hx
    exact ⟨p, ty, ns, v, by rw [e1]; exact v1, v2, by rw [e2]; exact v3⟩
  · intro c' hc' ha ty hty p ns
    obtain ⟨c, hc, e1, e2, e3, _⟩ := mem_without hc'
    rcases h.types c hc (by rw [← e3]; exact ha) ty hty p ns with h3 | h3
    · refine Or.inl ?_
      rintro ⟨v, v1, v2, v3⟩
      exact h3 ⟨v, by rw [← e1]; exact v1, v2, by rw [← e2]; exact v3⟩
    · exact Or.inr h3
  · rintro c' hc' x hx ⟨b1, b2⟩ b3
    obtain ⟨c, hc, e1, e2, e3, e4, _⟩ := mem_without hc'
    refine h.wraps c hc x hx ⟨by rw [← e3]; exact b1, by rw [← e1]; exact b2⟩ (fun e ks hk => ?_)
    obtain ⟨i, hi⟩ := List.getElem?_of_mem hk
    have hch := walk_child t c hc i e ks hi
    have hns := h.kids _ hch x hx (by simp only [List.head?_cons, ← e1, b2])
    obtain ⟨ks', hk'⟩ := pruned_keeps (S := optSel names) (pos := c.pos) (env := c.env) (anc := c.e.tag :: c.anc) (i := 0) hi (by
      simp only [optSel, Bool.and_eq_false_imp, decide_eq_true_eq]
      intro _ hm
      exact absurd hns (hN _ hm))
    rw [← e4] at hk'
    obtain ⟨v, p, d1, d2, d3⟩ := b3 e ks' hk'
    exact ⟨v, p, d1, d2, by rw [← e2]; exact d3⟩
  · intro c' hc' x hx hh
    obtain ⟨c, hc, e1, e2, e3, _⟩ := mem_without hc'
    rw [e1]
    exact h.kids c hc x hx (by rw [← e3]; exact hh)
  · rintro c' hc' ⟨d1, d2, d3⟩
    obtain ⟨c, hc, e1, e2, e3, e4, _⟩ := mem_without hc'
    obtain ⟨_, k2⟩ := h.plain c hc (by rw [← e1]; exact d1) (by obtain ⟨_, _, e⟩ := d2; rw [← e3, e]; rfl)
    have e7 : c'.node = c.node := by unfold Ctx.node; rw [e1, e4, k2]; rfl
    rw [e1] at d1
    rw [e1, e7] at d3
    rw [e3] at d2
    exact h.dates c hc ⟨d1, d2, d3⟩
  · intro c' hc' d1 d2
    obtain ⟨c, hc, e1, e2, e3, e4, _⟩ := mem_without hc'
    obtain ⟨k1, k2⟩ := h.plain c hc (by rw [← e1]; exact d1) (by rw [← e3]; exact d2)
    exact ⟨by rw [e1]; exact k1, by rw [e4, k2]; rfl⟩
  · rintro c' hc' ⟨r, hm, hb⟩
    obtain ⟨c, hc, e1, e2, e3, _⟩ := mem_without hc'
    have hm' := hm
    simp only [rules201, List.take_succ_cons, List.take_zero, List.mem_cons, List.not_mem_nil, or_false] at hm
    rcases hm with rfl | rfl | rfl
    · exact h.cybox c hc ⟨_, hm', by rw [← e3]; exact hb.1, by rw [← e1]; exact hb.2⟩
    · exact h.cybox c hc ⟨_, hm', by rw [← e3]; exact hb.1, by rw [← e1]; exact hb.2⟩
    · exact h.cybox c hc ⟨_, hm', by rw [← e1]; exact hb.1, by rw [← e3]; exact hb.2⟩
  · rintro c' hc' q hq ⟨h1, h2⟩
    obtain ⟨c, hc, e1, e2, e3, _⟩ := mem_without hc'
    exact h.slots c hc q hq ⟨by rw [← e1]; exact h1, by rw [← e3]; exact h2⟩

theorem ready_optionals {w : World} {b : Bool} {fs : List Finder} {names : List QName} (hN : ∀ q ∈ names, q.ns ≠ some "http://stix.mitre.org/TTP-1") {t t' : Node}
    (hf : removeOptionals fs t = .ok (t.without (optSel names))) (h : (if b then removeOptionals fs t else .ok t) = .ok t') (ht : Ready w t) : Ready w t' := by
  cases b with
  | false => cases h; exact ht
  | true =>
    rw [if_pos rfl, hf] at h
    cases h
    exact ready_without hN ht

theorem driver_idle {n : List (String × String)} {sel : List XAlt} {t : Node}
    (h : ∀ c ∈ t.elems, c.e.tag.ns ≠ some "http://cybox.mitre.org/objects#WinDriverObject-2") : (cybox201Cls n sel).updateNamespaces [] t = t := by
  rw [updateNamespaces_eq]
  refine edit_self (fun c hc => ?_)
  unfold nsEdit
  split
  · next hn =>
    unfold Cls.nsUpdated at hn
    split at hn
    · cases hn
    · next x hx =>
      obtain ⟨v, hv⟩ := Option.isSome_iff_exists.1 hn
      have := assoc_mem hv
      simp only [cybox201Cls, Tables.cybox201_updateNsMap, List.mem_singleton, Prod.mk.injEq] at this
      exact absurd (by rw [hx, this.1]) (h c hc)
  · rfl

theorem ready_update {w : World} {o : Options} {t t' : Node} (h : (stix101 w).update o t = .ok t') (ht : ClearOf rebuilt201 mailslot201 t)
    (ht2 : ClearOf page101.names page101.nested t) (hd : ∀ c ∈ t.elems, c.e.tag.ns ≠ some "http://cybox.mitre.org/objects#WinDriverObject-2")
    (hw : Ready w t) : Ready w t' := by
  simp only [stix101, stix101Update] at h
  split at h
  · cases h
  · next t1 h1 =>
    obtain ⟨_, _, _, _, _, g6⟩ := left201 (n := joinNsmap Tables.stix101_nsmap Tables.cybox201_nsmap) (sel := stix101Selectors) (by decide)
      (by decide) (by decide +kernel) h1 ht
    have g7 := g6 _ _ (by decide +kernel) (by decide +kernel) ht2
    have w1 : Ready w t1 := by
      have h1' := h1
      simp only [cybox201Update] at h1'
      rw [show stix101Cybox.updateNamespaces [] t = t from driver_idle hd, cybox201Versions_eq] at h1'
      have r1 := rel_stamped_trans (stamped_schemaloc stix101Cybox t)
        (stamped_versions (m := stix101Cybox.nsmap) (alts := stix101Cybox.xpathVersioned) stamped_21 _)
      have k2 := clear_rel (fun _ _ h => ⟨h.1.1.1, h.1.1.2.1⟩) r1 ht
      have m2 := rel_kin101_trans (kin101_schemaloc stix101Cybox t)
        (kin101_versions (m := stix101Cybox.nsmap) (alts := stix101Cybox.xpathVersioned) (by decide +kernel) stamped_21 _)
      generalize (stix101Cybox.updateSchemalocs t).edit (versionEdit stix101Cybox.nsmap stix101Cybox.xpathVersioned setVersion21) = d at h1' k2 m2
      split at h1'
      · cases h1'
      · next d2 h2 =>
        obtain ⟨⟨f, hf, hfn, rfl⟩, _⟩ := fields201_done h2 k2
        have m3 := rel_kin101_trans m2 (kin101_ren hf hfn d)
        split at h1'
        · cases h1'
        · next d4 h4 =>
          have m4 := rel_kin101_trans m3 (kin101_vocabs (stepRows_matches (w := w0) .cybox201) (stepRows_stable (w := w0) .cybox201) (by decide) h4)
          exact ready_optionals (by decide) (optionals_pass d4) h1' (ready_kin m4 hw)
    rw [updateNamespaces_none (u := stix101Cls w) rfl, stixVersions_eq, show (stix101Cls w).xpathVersioned = xpathStixVersioned from rfl] at h
    have r1 := rel_stamped_trans (stamped_schemaloc (stix101Cls w) t1)
      (stamped_versions (m := (stix101Cls w).nsmap) (alts := xpathStixVersioned) (stamped_stix "2.1" "1.1") _)
    have m1 := rel_kin101_trans (kin101_schemaloc (stix101Cls w) t1)
      (kin101_versions (m := (stix101Cls w).nsmap) (alts := xpathStixVersioned) (by
        show ∀ a ∈ xpathStixVersioned, a.tag.resolve Tables.stix101_nsmap ≠ dateTag
        decide +kernel) (stamped_stix "2.1" "1.1") _)
    generalize ((stix101Cls w).updateSchemalocs t1).edit (versionEdit (stix101Cls w).nsmap xpathStixVersioned (setStixVersion "2.1" "1.1")) = d
      at h r1 m1
    rw [fields101_idle (clear_rel (fun _ _ h => ⟨h.1.1.1, h.1.1.2.1⟩) r1 g7)] at h
    simp only at h
    split at h
    · cases h
    · next e he =>
      have m2 := rel_kin101_trans m1 (kin101_vocabs (stepRows_matches (w := w) .stix101) (stepRows_stable (w := w) .stix101) (by decide) he)
      exact ready_optionals (by decide) (optionals_pass11 w e) h (ready_kin m2 w1)

theorem unchecked101 {w : World} {o : Options} {t : Node} (h : (stix101 w).check o t = .ok ()) : (stix101 w).check { o with checkVersions := false } t = .ok () := by
  simp only [stix101, stix101Check] at h ⊢
  simp only [Bool.false_eq_true, if_false]
  split at h
  · cases h
  · exact h

theorem typed_101 {w : World} {t : Node} {l : List Ctx} (h : findAll (stix101Disallowed w) t = .ok l) : WellTyped t := by
  intro c hc ha hx
  simp only [stix101Disallowed, findAll] at h
  split at h
  · cases h
  · next l1 h1 =>
    simp only [Finder.find] at h1
    split at h1
    · cases h1
    · next cs hcs =>
      simp only [Finder.contexts, disallowedType, List.isEmpty_cons, Bool.false_eq_true, if_false] at hcs
      obtain ⟨b, hb⟩ := (filterE_filter hcs).1 c (List.mem_filter.2 ⟨mem_descs_iff.2 ⟨hc, ha⟩, by
        rw [Elem.has_eq]
        cases hh : c.e.get? tagXsiType with
        | none => exact absurd hh hx
        | some _ => rfl⟩)
      simp only [Finder.isContext] at hb
      split at hb
      · cases hb
      · next al ty hi =>
        split at hb
        · cases hb
        · next ns hns =>
          obtain ⟨v, hv, hq⟩ := getTypeInfo_ok.1 hi
          exact ⟨al, ty, ns, v, hv, hq, (getExtNamespace_ok hv hq).1 hns⟩

theorem check101 {w : World} {o : Options} {t : Node} : (stix101 w).check { o with checkVersions := false } t = .ok () ↔
    WellTyped t ∧ (∀ c ∈ t.elems, ¬ Untranslatable (rules101 w ++ rules201) t c) ∧ ∀ i, ¬ Shared known101 t i := by
  have key : WellTyped t → ((stix101 w).check { o with checkVersions := false } t = .ok () ↔
      (∀ c ∈ t.elems, ¬ Untranslatable (rules101 w ++ rules201) t c) ∧ ∀ i, ¬ Shared known101 t i) := by
    intro ht
    obtain ⟨l, g, h1, ⟨d, rfl, hd⟩, h3⟩ := check_spec (w := w) .stix101 (o := { o with checkVersions := false }) (t := t) (fun _ => ht) (fun h => by cases h)
    have hl : l = [] ↔ ∀ c ∈ t.elems, ¬ Untranslatable (rules101 w ++ rules201) t c := by
      rw [List.eq_nil_iff_forall_not_mem]
      exact ⟨fun h c hc hb => h c ((reportsAll_mem h1 c).2 ⟨hc, hb⟩), fun h c hc => h c ((reportsAll_mem h1 c).1 hc).1 ((reportsAll_mem h1 c).1 hc).2⟩
    have hg : d = [] ↔ ∀ i, ¬ Shared known101 t i := by
      rw [List.eq_nil_iff_forall_not_mem]
      constructor
      · intro h i hs
        obtain ⟨l, hl⟩ : ∃ l, IdGroup known101 t i l :=
          ⟨t.elems.filter (fun c => @decide (HasId known101 i c) (Classical.propDecidable _)), List.filter_sublist, fun c => by simp⟩
        exact h (i, l) ((hd.2 i l).2 ⟨hs, hl⟩)
      · rintro h ⟨i, l⟩ hm
        exact h i ((hd.2 i l).1 hm).1
    rw [h3, ← hl, ← hg]
    cases l <;> cases d <;> simp
  constructor
  · intro h
    have ht : WellTyped t := by
      have h' := h
      simp only [stix101, stix101Check, stix101GetDisallowed, Bool.false_eq_true, if_false] at h'
      split at h'
      · cases h'
      · next l hl =>
        split at hl
        · cases hl
        · next l1 hl1 => exact typed_101 hl1
    exact ⟨ht, (key ht).1 h⟩
  · exact fun h => (key h.1).2 h.2

theorem ready_iff {w : World} {o : Options} {t : Node} (hs : NoneNested mailslot201 t)
    (hk : ∀ c ∈ t.elems, ∀ x ∈ wraps101, c.anc.head? = some ⟨some "http://stix.mitre.org/TTP-1", x.1⟩ → c.e.tag.ns = some "http://stix.mitre.org/TTP-1")
    (hp : ∀ c ∈ t.elems, c.e.tag = dateTag → c.anc.head? = some ⟨some "http://stix.mitre.org/Campaign-1", "Activity"⟩ → c.e.attrs = [] ∧ c.kids = []) :
    (stix101 w).check { o with checkVersions := false } t = .ok () ↔ Ready w t := by
  rw [check101]
  constructor
  · rintro ⟨h1, h2, h3⟩
    refine ⟨h1, ?_, ?_, hk, ?_, hp, unshared_iff.1 h3, ?_, hs⟩
    · intro c hc ha ty hty p ns
      by_cases hm : (ty, ns) ∈ [("MAEC4.0InstanceType", "http://stix.mitre.org/extensions/Malware#MAEC4.0-1"),
        ("CAPEC2.6InstanceType", "http://stix.mitre.org/extensions/AP#CAPEC2.6-1")]
      · refine Or.inl (fun ht => ?_)
        simp only [List.mem_cons, Prod.mk.injEq, List.not_mem_nil, or_false] at hm
        rcases hm with ⟨rfl, rfl⟩ | ⟨rfl, rfl⟩
        · exact h2 c hc ⟨typeRule "MAEC4.0InstanceType" "http://stix.mitre.org/extensions/Malware#MAEC4.0-1", by simp [rules101], ha, p, ht⟩
        · exact h2 c hc ⟨typeRule "CAPEC2.6InstanceType" "http://stix.mitre.org/extensions/AP#CAPEC2.6-1", by simp [rules101], ha, p, ht⟩
      · exact Or.inr hm
    · intro c hc x hx hb hkids
      simp only [wraps101, List.mem_cons, List.not_mem_nil, or_false] at hx
      rcases hx with rfl | rfl
      · exact h2 c hc ⟨wrapRule "Malware" "http://stix.mitre.org/extensions/Malware#MAEC4.0-1", by simp [rules101], hb, hkids⟩
      · exact h2 c hc ⟨wrapRule "Attack_Patterns" "http://stix.mitre.org/extensions/AP#CAPEC2.6-1", by simp [rules101], hb, hkids⟩
    · intro d hd hi
      obtain ⟨c, hc, i, hch⟩ := elems_parent hd (by obtain ⟨_, _, e⟩ := hi.2.1; rw [e]; simp)
      exact h2 c hc ⟨.parent (InvalidDate w), by simp [rules101], d, hd, hi, i, hch.1⟩
    · rintro c hc ⟨r, hr, hb⟩
      exact h2 c hc ⟨r, by simp [List.mem_of_mem_take hr], hb⟩
  · intro h
    refine ⟨h.typed, ?_, unshared_iff.2 h.ids⟩
    rintro c hc ⟨r, hr, hb⟩
    rw [List.mem_append] at hr
    rcases hr with hr | hr
    · simp only [rules101, List.mem_cons, List.not_mem_nil, or_false] at hr
      rcases hr with rfl | rfl | rfl | rfl | rfl
      · obtain ⟨ha, p, ht⟩ := hb
        exact (h.types c hc ha _ (by simp [refused101]) p _).elim (fun hn => hn ht) (fun hn => hn (by simp))
      · obtain ⟨ha, p, ht⟩ := hb
        exact (h.types c hc ha _ (by simp [refused101]) p _).elim (fun hn => hn ht) (fun hn => hn (by simp))
      · obtain ⟨d, hd, hi, _⟩ := hb
        exact h.dates d hd hi
      · exact h.wraps c hc ("Malware", "http://stix.mitre.org/extensions/Malware#MAEC4.0-1") (by simp [wraps101]) hb.1 hb.2
      · exact h.wraps c hc ("Attack_Patterns", "http://stix.mitre.org/extensions/AP#CAPEC2.6-1") (by simp [wraps101]) hb.1 hb.2
    · rw [← List.take_append_drop 3 rules201, List.mem_append] at hr
      rcases hr with hr | hr
      · exact h.cybox c hc ⟨r, hr, hb⟩
      · simp only [rules201, List.drop_succ_cons, List.drop_zero, List.mem_singleton] at hr
        subst hr
        obtain ⟨⟨_, g1⟩, ⟨e, ks, g2, g3⟩, _⟩ := hb
        obtain ⟨i, hi⟩ := List.getElem?_of_mem g2
        exact h.slots _ (walk_child t c hc i e ks hi) _ (List.mem_singleton.2 rfl) ⟨g3, by simp only [List.head?_cons, g1]; rfl⟩

/-! ## C59 -/

/-- C59 for the STIX 1.0.1 step, for documents without the fields that the step builds anew: the second run, without the version
check, accepts the document and changes nothing.
Partial: as for CybOX 2.0.1; contributors and exploit targets are left out too, and elements of the Windows driver object.  The
dates of activities are plain, and the children of `ttp:Malware` and `ttp:Attack_Patterns` are TTP elements (other children can be
removed as empty, see `C59_emptied_fails`). -/
theorem C59_stix101_step_partial (w : World) (o : Options) (force' : Bool) (k k' j : Nat) (t : Node) (r : Result)
    (h1 : NoneNamed [objName "HTTPSession" "DNT", objName "HTTPSession" "Vary", objName "HTTPSession" "Refresh"] t)
    (h2 : NoneNested [(objName "WinMailslot" "Handle", objName "WinHandle" "Handle")] t)
    (h3 : NoneNamed page101.names t) (h4 : NoneNested page101.nested t)
    (h5 : ∀ c ∈ t.elems, c.e.tag.ns ≠ some "http://cybox.mitre.org/objects#WinDriverObject-2")
    (h6 : ∀ c ∈ t.elems, c.anc.head? = some ⟨some "http://stix.mitre.org/TTP-1", "Malware"⟩ ∨
      c.anc.head? = some ⟨some "http://stix.mitre.org/TTP-1", "Attack_Patterns"⟩ → c.e.tag.ns = some "http://stix.mitre.org/TTP-1")
    (h7 : ∀ c ∈ t.elems, c.e.tag = ⟨some "http://stix.mitre.org/common-1", "Date_Time"⟩ →
      c.anc.head? = some ⟨some "http://stix.mitre.org/Campaign-1", "Activity"⟩ → c.e.attrs = [] ∧ c.kids = [])
    (h : stepUpdate (stix101 w) o false k t = .ok (r, k')) :
    stepUpdate (stix101 w) { o with checkVersions := false } force' j r.doc = .ok (⟨r.doc, [], []⟩, j) := by
  have hu := tried h
  have hk : ∀ c ∈ t.elems, ∀ x ∈ wraps101, c.anc.head? = some ⟨some "http://stix.mitre.org/TTP-1", x.1⟩ → c.e.tag.ns = some "http://stix.mitre.org/TTP-1" := by
    intro c hc x hx hh
    simp only [wraps101, List.mem_cons, List.not_mem_nil, or_false] at hx
    rcases hx with rfl | rfl
    · exact h6 c hc (Or.inl hh)
    · exact h6 c hc (Or.inr hh)
  have hr := ready_update hu ⟨h1, h2⟩ ⟨h3, h4⟩ h5 ((ready_iff h2 hk h7).1 (unchecked101 (passed h)))
  exact retried ((ready_iff hr.slots hr.kids hr.plain).2 hr)
    (show (stix101 w).update o r.doc = .ok r.doc from again_stix101 hu ⟨h1, h2⟩ ⟨h3, h4⟩)

/-- A package with a misspelt name in its observables, an empty marking structure, a malware instance and a dated activity. -/
def docDated : Node :=
  stixDoc "1.0.1" [el nsStix "Observables" v201 [.elem ⟨objName "Packet" "Authenication_Data", [], [], some "x", none⟩ []],
    el "http://data-marking.mitre.org/Marking-1" "Marking_Structure" [] [],
    el nsTTP "Malware" [] [el nsTTP "Malware_Instance" [] []],
    el "http://stix.mitre.org/Campaign-1" "Activity" [] [el nsCommon "Date_Time" [] [] (some "d")]]

/-- A validator that accepts every date. -/
def wDates : World := { w0 with validDateTime := fun _ => true }

example : ((NoneNamed [objName "HTTPSession" "DNT", objName "HTTPSession" "Vary", objName "HTTPSession" "Refresh"] docDated ∧
    NoneNested [(objName "WinMailslot" "Handle", objName "WinHandle" "Handle")] docDated ∧ NoneNamed page101.names docDated ∧
    NoneNested page101.nested docDated) ∧
    (∀ c ∈ docDated.elems, c.e.tag.ns ≠ some "http://cybox.mitre.org/objects#WinDriverObject-2") ∧
    (∀ c ∈ docDated.elems, c.anc.head? = some ⟨some "http://stix.mitre.org/TTP-1", "Malware"⟩ ∨
      c.anc.head? = some ⟨some "http://stix.mitre.org/TTP-1", "Attack_Patterns"⟩ → c.e.tag.ns = some "http://stix.mitre.org/TTP-1") ∧
    ∀ c ∈ docDated.elems, c.e.tag = ⟨some "http://stix.mitre.org/common-1", "Date_Time"⟩ →
      c.anc.head? = some ⟨some "http://stix.mitre.org/Campaign-1", "Activity"⟩ → c.e.attrs = [] ∧ c.kids = []) ∧
    ∃ r, stepUpdate (stix101 wDates) o0 false 0 docDated = .ok r ∧
      r.1.doc.elems.map (·.e.tag.name) = ["STIX_Package", "Observables", "Authentication_Data", "Malware", "Malware_Instance", "Activity", "Date_Time"] :=
  ⟨⟨⟨by unfold NoneNamed; decide +kernel, by unfold NoneNested; decide +kernel, by unfold NoneNamed; decide +kernel,
    by unfold NoneNested; decide +kernel⟩, by decide +kernel, by decide +kernel, by decide +kernel⟩, ok_of_eval (by decide +kernel)⟩

end Ramrod

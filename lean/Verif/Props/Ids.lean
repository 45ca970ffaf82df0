import Verif.Props.Clean
import Verif.Props.StixFields
import Verif.Lemmas.Vals
/-!
# The values of attributes that no step manages: C46
-/

namespace Ramrod

open Samples

/-! ## Specification vocabulary -/

/-- Attributes the steps may change: vocabulary, schema location, versions, data type. -/
def managedNames : List QName := vocabNames ++ cyboxVersionNames ++ stixVersionNames ++ [⟨none, "datatype"⟩]

/-- The values of `q` on the first URI value in a list. -/
def uriVals (q : QName) : List Node → List String
  | [] => []
  | .other _ _ :: ks => uriVals q ks
  | .elem e _ :: ks =>
    if e.tag = ⟨some "http://cybox.mitre.org/objects#URIObject-2", "Value"⟩ then (e.get? q).toList else uriVals q ks

/-- The CybOX 2.0.1 fields have `q` only where the translation copies it: in `DNT` and `Vary` on the value, in `Refresh` on
the field itself, in a two-level handle not on the outer one. -/
def CyboxCopied (q : QName) (t : Node) : Prop := ∀ c ∈ t.elems,
  (Header "DNT" c ∨ Header "Vary" c → c.node.vals q = uriVals q c.kids) ∧
  (Header "Refresh" c → Node.valss q c.kids = []) ∧ (TwoLevel c → c.e.get? q = none)

/-- No element has two attributes `q`, as in all XML. -/
def OnceEach (q : QName) (t : Node) : Prop := ∀ c ∈ t.elems, AtMostOnce q c.e.attrs

/-! ## Helpers -/

theorem get_filter {L : List QName} {q : QName} (hq : q ∉ L) : ∀ as : Attrs,
    Attrs.get? (as.filter (fun a => decide (a.1 ∉ L))) q = Attrs.get? as q
  | [] => rfl
  | (a, b) :: as => by
    by_cases ha : a ∈ L
    · have hne : a ≠ q := fun e => hq (e ▸ ha)
      simp only [List.filter_cons, ha, not_true_eq_false, decide_false, Bool.false_eq_true, if_false, Attrs.get?]
      rw [if_neg hne, get_filter hq as]
    · simp only [List.filter_cons, ha, not_false_eq_true, decide_true, if_true, Attrs.get?]
      rw [get_filter hq as]

theorem get_of_filter {L : List QName} {q : QName} (hq : q ∉ L) {as bs : Attrs}
    (h : as.filter (fun a => decide (a.1 ∉ L)) = bs.filter (fun a => decide (a.1 ∉ L))) : Attrs.get? as q = Attrs.get? bs q := by
  rw [← get_filter hq as, h, get_filter hq bs]

theorem once_of_filter {L : List QName} {q : QName} (hq : q ∉ L) {as bs : Attrs}
    (h : as.filter (fun a => decide (a.1 ∉ L)) = bs.filter (fun a => decide (a.1 ∉ L))) (hb : AtMostOnce q bs) : AtMostOnce q as := by
  have key : ∀ l : Attrs, l.filter (fun a => decide (a.1 = q)) =
      (l.filter (fun a => decide (a.1 ∉ L))).filter (fun a => decide (a.1 = q)) := by
    intro l
    rw [List.filter_filter]
    congr 1
    funext a
    by_cases ha : a.1 = q
    · rw [ha]; simp [hq]
    · simp [ha]
  unfold AtMostOnce at hb ⊢
  rw [key, h, ← key]
  exact hb

theorem prep_filter {e e' : Elem} (h : PrepElem e e') :
    e'.attrs.filter (fun a => decide (a.1 ∉ preNames)) = e.attrs.filter (fun a => decide (a.1 ∉ preNames)) := by
  rcases Classical.em (e.tag.ns = some "http://cybox.mitre.org/objects#WinDriverObject-2") with hn | hn
  · exact (h.2 hn).2
  · exact (h.1 hn).1.2.2.2

theorem prep_fwd {e e' : Elem} (h : PrepElem e e') {q : QName} (ht : e.tag = q)
    (hq : q.ns ≠ some "http://cybox.mitre.org/objects#WinDriverObject-2") : e'.tag = q := by
  rw [(h.1 (by rw [ht]; exact hq)).1.1, ht]

theorem not_pre {q : QName} (hq : q ∉ managedNames) : q ∉ preNames := by
  intro h; apply hq
  revert h
  simp only [preNames, managedNames, vocabNames, cyboxVersionNames, stixVersionNames, List.mem_cons, List.mem_append,
    List.not_mem_nil, or_false]
  rintro (h | h | h | h) <;> simp [h]

theorem prep_get {q : QName} (hq : q ∉ managedNames) {e e' : Elem} (h : PrepElem e e') : e'.get? q = e.get? q := get_of_filter (not_pre hq) (prep_filter h)

theorem vocab_get {q : QName} (hq : q ∉ managedNames) {e e' : Elem} (h : VocabElem e e') : e'.get? q = e.get? q :=
  get_of_filter (fun hv => hq (by simp [managedNames, hv])) h.1.2.2.2

theorem touched_get {q : QName} (hq : q ∉ managedNames) {e e' : Elem} (h : StixTouched e e') : e'.get? q = e.get? q := by
  refine get_of_filter (fun hv => hq ?_) h.1.2.2.2
  simp only [List.mem_cons, List.not_mem_nil, or_false] at hv
  rcases hv with rfl | rfl <;> decide

theorem not_datatype {q : QName} (hq : q ∉ managedNames) : q ≠ ⟨none, "datatype"⟩ := fun e => hq (by rw [e]; decide)

theorem finished_vals {q : QName} (hq : q ∉ managedNames) {o : Options} {L : Node → Ctx → Prop} {b t' : Node} (h : Finished o L b t') : t'.vals q = b.vals q := by
  obtain ⟨d, h1, h2, h3, _⟩ := h
  have hd := rel_vals (k := q) (fun _ _ => vocab_get hq) h1
  cases ho : o.removeOptionals with
  | false => rw [h3 ho, hd]
  | true =>
    obtain ⟨S, hS, rfl⟩ := h2 ho
    rw [← hd]
    refine vals_pruneCtx d (fun c hc hs => ?_)
    rw [vals_none]
    refine ((hS c hc).1 hs).2.2.mono (fun e he => ?_)
    simp [Elem.get?, he.1, Attrs.get?]

/-! ## Helpers: the CybOX fields -/

theorem uriVals_rels {q : QName} {P : Elem → Elem → Prop} (hP : ∀ e e', P e e' → e'.get? q = e.get? q ∧
    (e'.tag = ⟨some "http://cybox.mitre.org/objects#URIObject-2", "Value"⟩ ↔
      e.tag = ⟨some "http://cybox.mitre.org/objects#URIObject-2", "Value"⟩)) : ∀ {a b : List Node},
    Node.Rels P a b → uriVals q b = uriVals q a
  | [], [], _ => rfl
  | .elem e _ :: _, .elem e' _ :: _, h => by
    simp only [Node.Rels, Node.Rel] at h
    simp only [uriVals]
    rw [(hP _ _ h.1.1).1, uriVals_rels hP h.2]
    simp only [(hP _ _ h.1.1).2]
  | .other _ _ :: _, .other _ _ :: _, h => by
    simp only [Node.Rels, Node.Rel] at h
    simp only [uriVals]
    exact uriVals_rels hP h.2
  | .elem _ _ :: _, .other _ _ :: _, h => by simp only [Node.Rels, Node.Rel] at h; exact h.1.elim
  | .other _ _ :: _, .elem _ _ :: _, h => by simp only [Node.Rels, Node.Rel] at h; exact h.1.elim
  | [], _ :: _, h => by simp only [Node.Rels] at h
  | _ :: _, [], h => by simp only [Node.Rels] at h

/-- A replacement of elements that are no URI values by elements that are none. -/
theorem uriVals_substCtxs {q : QName} {R : Ctx → Option Node} {pos : Pos} {env : NsMap} {anc : List QName} : ∀ {ks : List Node} {i : Nat},
    (∀ c ∈ Node.walks pos i env anc ks, ∀ n, R c = some n →
      c.e.tag ≠ ⟨some "http://cybox.mitre.org/objects#URIObject-2", "Value"⟩ ∧
      ∃ e es, n = .elem e es ∧ e.tag ≠ ⟨some "http://cybox.mitre.org/objects#URIObject-2", "Value"⟩) →
    uriVals q (Node.substCtxs R pos i env anc ks) = uriVals q ks
  | [], _, _ => by simp [Node.substCtxs]
  | .other _ _ :: ks, i, h => by
    simp only [Node.substCtxs, Node.substCtx, uriVals]
    exact uriVals_substCtxs (fun c hc => h c (by simp [Node.walks, hc]))
  | .elem e es :: ks, i, h => by
    have hr := uriVals_substCtxs (q := q) (R := R) (pos := pos) (env := env) (anc := anc) (ks := ks) (i := i + 1)
      (fun c hc => h c (by simp [Node.walks, hc]))
    simp only [Node.substCtxs, Node.substCtx]
    split
    · next n hn =>
      obtain ⟨h1, e1, es1, rfl, h2⟩ := h ⟨i :: pos, e.decls ++ env, anc, e, es⟩ (by simp [Node.walks, Node.walk]) n hn
      simp only at h1
      simp only [uriVals, if_neg h1, if_neg h2, hr]
    · simp only [uriVals, hr]

theorem uriVals_first {q : QName} {v : Elem} {ks : List Node} : ∀ {l : List Node} (i : Nat), l[i]? = some (.elem v ks) →
    v.tag = ⟨some "http://cybox.mitre.org/objects#URIObject-2", "Value"⟩ →
    (∀ j < i, ∀ e es, l[j]? = some (.elem e es) → e.tag ≠ ⟨some "http://cybox.mitre.org/objects#URIObject-2", "Value"⟩) →
    uriVals q l = (v.get? q).toList
  | [], i, h, _, _ => by simp at h
  | k :: l, 0, h, ht, _ => by
    simp only [List.getElem?_cons_zero, Option.some.injEq] at h
    subst h
    simp only [uriVals, ht, if_true]
  | k :: l, i + 1, h, ht, hn => by
    simp only [List.getElem?_cons_succ] at h
    have hr := uriVals_first (q := q) i h ht (fun j hj e es he => hn (j + 1) (by omega) e es (by simpa using he))
    cases k with
    | other _ _ => simp only [uriVals]; exact hr
    | elem e es =>
      have := hn 0 (by omega) e es (by simp)
      simp only [uriVals, if_neg this]
      exact hr

theorem value_vals {q : QName} {c : Ctx} {n : Node} (h : StringOf c n) (ho : ∀ e ks, Node.elem e ks ∈ c.kids → e.tag = ⟨some "http://cybox.mitre.org/objects#URIObject-2", "Value"⟩ → AtMostOnce q e.attrs)
    (hv : c.node.vals q = uriVals q c.kids) : n.vals q = c.node.vals q := by
  obtain ⟨v, as, ⟨i, ks, h1, h2, h3⟩, rfl, _, _, h4⟩ := h
  rw [hv, uriVals_first i h1 h2 h3]
  simp only [Node.vals, Node.valss, List.append_nil]
  show (Attrs.get? as q).toList = _
  rw [h4 q (ho v ks (List.mem_of_getElem? h1) h2)]

theorem refresh_vals {q : QName} (hq : q ∉ managedNames) {c : Ctx} {n : Node} (h : RefreshOf c n) (ho : AtMostOnce q c.e.attrs)
    (hv : Node.valss q c.kids = []) : n.vals q = c.node.vals q := by
  obtain ⟨as, rfl, _, _, h4⟩ := h
  simp only [Ctx.node, Node.vals, Node.valss, hv, List.append_nil]
  show (Attrs.get? as q).toList = _
  rw [h4 q (not_datatype hq) ho]

/-- The parts of `CyboxCopied`, and `OnceEach` for one name. -/
def StrCopied (name : String) (q : QName) (t : Node) : Prop := ∀ c ∈ t.elems, Header name c → c.node.vals q = uriVals q c.kids
def RefCopied (q : QName) (t : Node) : Prop := ∀ c ∈ t.elems, Header "Refresh" c → Node.valss q c.kids = []
def OuterFree (q : QName) (t : Node) : Prop := ∀ c ∈ t.elems, TwoLevel c → c.e.get? q = none
def OnceNamed (X q : QName) (t : Node) : Prop := ∀ c ∈ t.elems, c.e.tag = X → AtMostOnce q c.e.attrs

theorem once_kids {X q : QName} {t : Node} (h : OnceNamed X q t) {c : Ctx} (hc : c ∈ t.elems) {e : Elem} {ks : List Node}
    (he : Node.elem e ks ∈ c.kids) (ht : e.tag = X) : AtMostOnce q e.attrs := by
  obtain ⟨i, hi⟩ := List.mem_iff_getElem?.1 he
  exact h _ (walk_child t c hc i e ks hi) ht

theorem prep_once {X q : QName} (hq : q ∉ managedNames) (hX : X.ns ≠ some "http://cybox.mitre.org/objects#WinDriverObject-3")
    {a b : Node} (h : Node.Rel PrepElem a b) (ha : OnceNamed X q a) : OnceNamed X q b := by
  intro c' hc' ht
  obtain ⟨c, hc, _, _, hp, _⟩ := rel_elems h hc'
  exact once_of_filter (not_pre hq) (prep_filter hp) (ha c hc (prep_tag hp ht hX))

theorem prep_copied {q : QName} (hq : q ∉ managedNames) {a b : Node} (h : Node.Rel PrepElem a b) :
    (∀ name, StrCopied name q a → StrCopied name q b) ∧ (RefCopied q a → RefCopied q b) ∧ (OuterFree q a → OuterFree q b) := by
  have key : ∀ c' ∈ b.elems, ∃ c ∈ a.elems, (c'.anc ≠ [] → c.anc ≠ []) ∧ PrepElem c.e c'.e ∧ Node.Rels PrepElem c.kids c'.kids := by
    intro c' hc'
    obtain ⟨c, hc, _, hl, hp, hk⟩ := rel_elems h hc'
    exact ⟨c, hc, fun h e => h (List.eq_nil_of_length_eq_zero (by rw [hl, e]; rfl)), hp, hk⟩
  refine ⟨fun name ha c' hc' hh => ?_, fun ha c' hc' hh => ?_, fun ha c' hc' => ?_⟩
  · obtain ⟨c, hc, hne, hp, hk⟩ := key c' hc'
    rw [rel_node_vals (fun _ _ => prep_get hq) hp hk, ha c hc ⟨hne hh.1, prep_tag hp hh.2 (by simp)⟩]
    exact (uriVals_rels (fun e e' he => ⟨prep_get hq he, fun ht => prep_tag he ht (by decide), fun ht => prep_fwd he ht (by decide)⟩) hk).symm
  · obtain ⟨c, hc, hne, hp, hk⟩ := key c' hc'
    rw [rels_valss (fun _ _ => prep_get hq) hk]
    exact ha c hc ⟨hne hh.1, prep_tag hp hh.2 (by simp)⟩
  · obtain ⟨c, hc, hne, hp, hk⟩ := key c' hc'
    rintro ⟨x1, x2, e, ks, x3, x4⟩
    obtain ⟨e0, ks0, y1, y2⟩ := rels_mem hk x3
    rw [prep_get hq hp]
    exact ha c hc ⟨hne x1, prep_tag hp x2 (by decide), e0, ks0, y1, prep_tag y2 x4 (by decide)⟩

/-- Through the translation of one header field. -/
theorem header_copied {name : String} {q : QName} {Q : Ctx → Node → Prop} {a b : Node} (h : Replaced (Header name) Q a b)
    (hQ : ∀ c n, Q c n → ∃ as tx, n = .elem ⟨c.e.tag, [], as, tx, none⟩ []) (hk : KeepsVals q (Header name) Q a) :
    (∀ name', name' ≠ name → StrCopied name' q a → StrCopied name' q b) ∧
    ("Refresh" ≠ name → RefCopied q a → RefCopied q b) ∧ (OuterFree q a → OuterFree q b) ∧
    (∀ X, X ≠ ⟨some "http://cybox.mitre.org/objects#HTTPSessionObject-2", name⟩ → OnceNamed X q a → OnceNamed X q b) := by
  have new : ∀ c n env0 c', Header name c → Q c n → c' ∈ n.walk c.pos env0 c.anc →
      c'.kids = [] ∧ c'.e.tag = ⟨some "http://cybox.mitre.org/objects#HTTPSessionObject-2", name⟩ := by
    intro c n env0 c' hc hn hw
    obtain ⟨as, tx, rfl⟩ := hQ c n hn
    simp only [Node.walk, Node.walks, List.mem_singleton] at hw
    rw [hw]
    exact ⟨rfl, hc.2⟩
  refine ⟨fun name' hne ha c' hc' hh => ?_, fun hne ha c' hc' hh => ?_, fun ha c' hc' => ?_, fun X hX ha c' hc' ht => ?_⟩
  · rcases h.cases hc' with ⟨c, hc, R, rfl, h1, h2⟩ | ⟨c, hc, _, hs, n, env0, hn, hw⟩
    · have e1 : uriVals q (Node.substCtxs R c.pos 0 c.env (c.e.tag :: c.anc) c.kids) = uriVals q c.kids := by
        refine uriVals_substCtxs (fun d hd n hn => ?_)
        obtain ⟨h3, h4⟩ := h1 d (h2 d hd) n hn
        obtain ⟨as, tx, rfl⟩ := hQ d n h4
        rw [h3.2]
        exact ⟨by simp, _, _, rfl, by simp⟩
      have e2 : Node.valss q (Node.substCtxs R c.pos 0 c.env (c.e.tag :: c.anc) c.kids) = Node.valss q c.kids :=
        valss_substCtxs c.kids (fun d hd n hn => hk d (h2 d hd) n (h1 d (h2 d hd) n hn).1 (h1 d (h2 d hd) n hn).2)
      have := ha c hc hh
      simp only [Ctx.node, Node.vals] at this ⊢
      rw [e1, e2, this]
    · have := hh.2
      rw [(new c n env0 c' hs hn hw).2] at this
      simp only [QName.mk.injEq, true_and] at this
      exact absurd this.symm hne
  · rcases h.vals_elems hk hc' with ⟨c, hc, he, hanc, hv⟩ | ⟨c, hc, _, hs, n, env0, hn, hw⟩
    · rw [hv]; exact ha c hc ⟨hanc ▸ hh.1, he ▸ hh.2⟩
    · rw [(new c n env0 c' hs hn hw).1]; rfl
  · rintro ⟨x1, x2, e, ks, x3, x4⟩
    rcases h.elems hc' with ⟨c, hc, he, _, hanc, _, _, _, hkid, _⟩ | ⟨c, hc, _, hs, n, env0, hn, _, hw⟩
    · obtain ⟨i, e0, ks0, y1, y2⟩ := hkid e ks x3
      rcases y2 with ⟨rfl, _⟩ | ⟨y2, y3⟩
      · rw [he]
        exact ha c hc ⟨hanc ▸ x1, he ▸ x2, e, ks0, List.mem_of_getElem? y1, x4⟩
      · obtain ⟨as, tx, y4⟩ := hQ _ _ y3
        cases y4
        simp only at x4
        rw [y2.2] at x4
        simp at x4
    · rw [(new c n env0 c' hs hn hw).1] at x3; simp at x3
  · rcases h.vals_elems hk hc' with ⟨c, hc, he, _⟩ | ⟨c, hc, _, hs, n, env0, hn, hw⟩
    · rw [he] at ht ⊢; exact ha c hc ht
    · exact absurd (ht ▸ (new c n env0 c' hs hn hw).2) hX

theorem respelt_free {q : QName} {a b : Node} (h : Respelt a b) : b.vals q = a.vals q ∧ (OuterFree q a → OuterFree q b) := by
  unfold Respelt at h
  subst h
  constructor
  · refine rel_vals (P := fun e e' => e'.attrs = e.attrs) (fun e e' h => by simp [Elem.get?, h]) (rel_mapCtx (fun c => ?_) _ _ _ _)
    split <;> rfl
  · rintro ha c' hc' ⟨x1, x2, e, ks, x3, x4⟩
    obtain ⟨c, hc, _, he, hl, hk⟩ := mem_edit hc'
    have hne : c.anc ≠ [] := fun e => x1 (List.eq_nil_of_length_eq_zero (by rw [hl, e]; rfl))
    rw [he, if_neg (by simpa using hne)] at x2 ⊢
    rw [hk] at x3
    obtain ⟨j, e0, ks0, y1, y2⟩ := mapCtxs_mem x3
    simp only [List.isEmpty_cons, Bool.false_eq_true, if_false] at y2
    rw [y2] at x4
    exact ha c hc ⟨hne, respell_inv x2 (by decide +kernel), e0, ks0, List.mem_of_getElem? y1, respell_inv x4 (by decide +kernel)⟩

/-- The values through the CybOX 2.0.1 stages. -/
theorem cyboxFields_vals {q : QName} (hq : q ∉ managedNames) {o : Options} {t t' : Node} (h : CyboxFields OnlyHandle o t t')
    (hc : CyboxCopied q t) (ho : OnceEach q t) : t'.vals q = t.vals q := by
  obtain ⟨a, b, c, d, e, f, h1, h2, h3, h4, h5, h6, h7⟩ := h
  have q1 : ∀ c n, StringOf c n → ∃ as tx, n = .elem ⟨c.e.tag, [], as, tx, none⟩ [] :=
    fun c n ⟨v, as, _, hn, _⟩ => ⟨as, v.text, hn⟩
  have q2 : ∀ c n, RefreshOf c n → ∃ as tx, n = .elem ⟨c.e.tag, [], as, tx, none⟩ [] :=
    fun c n ⟨as, hn, _⟩ => ⟨as, c.e.text, hn⟩
  obtain ⟨p1, p2, p3⟩ := prep_copied hq h1
  have s1 : StrCopied "DNT" q a := p1 _ (fun x hx hh => (hc x hx).1 (Or.inl hh))
  have s2 : StrCopied "Vary" q a := p1 _ (fun x hx hh => (hc x hx).1 (Or.inr hh))
  have s3 : RefCopied q a := p2 (fun x hx => (hc x hx).2.1)
  have s4 : OuterFree q a := p3 (fun x hx => (hc x hx).2.2)
  have o1 : OnceNamed ⟨some "http://cybox.mitre.org/objects#URIObject-2", "Value"⟩ q a :=
    prep_once hq (by decide) h1 (fun x hx _ => ho x hx)
  have o2 : OnceNamed ⟨some "http://cybox.mitre.org/objects#HTTPSessionObject-2", "Refresh"⟩ q a :=
    prep_once hq (by decide) h1 (fun x hx _ => ho x hx)
  have k1 : KeepsVals q (Header "DNT") StringOf a := fun x hx n hs hn =>
    value_vals hn (fun e ks he ht => once_kids o1 hx he ht) (s1 x hx hs)
  obtain ⟨u1, u2, u3, u4⟩ := header_copied h2 q1 k1
  have k2 : KeepsVals q (Header "Vary") StringOf b := fun x hx n hs hn =>
    value_vals hn (fun e ks he ht => once_kids (u4 _ (by decide) o1) hx he ht) (u1 _ (by decide) s2 x hx hs)
  obtain ⟨v1, v2, v3, v4⟩ := header_copied h3 q1 k2
  have k3 : KeepsVals q (Header "Refresh") RefreshOf c := fun x hx n hs hn =>
    refresh_vals hq hn (v4 _ (by decide) (u4 _ (by decide) o2) x hx hs.2) (v2 (by decide) (u2 (by decide) s3) x hx hs)
  obtain ⟨_, _, w3, _⟩ := header_copied h4 q2 k3
  obtain ⟨r1, r2⟩ := respelt_free (q := q) h5
  have k4 : KeepsVals q TwoLevel OnlyHandle e := by
    rintro x hx n hs ⟨e0, ks0, y1, _, rfl⟩
    have := r2 (w3 (v3 (u3 s4))) x hx hs
    simp only [Ctx.node, Node.vals, y1, Node.valss, this, Option.toList_none, List.nil_append, List.append_nil]
    rfl
  rw [finished_vals hq h7, h6.vals k4, r1, h4.vals k3, h3.vals k2, h2.vals k1, rel_vals (fun _ _ => prep_get hq) h1]

/-! ## Helpers: the STIX fields -/

/-- The values through the STIX 1.0.1 stages. -/
theorem stix101_vals {q : QName} (hq : q ∉ managedNames) {w : World} {o : Options} {t t' : Node}
    (hc : (stix101 w).check o t = .ok ()) (h : (stix101 w).update o t = .ok t') (h1 : CyboxCopied q t) (h2 : OnceEach q t)
    (h3 : ∀ c ∈ t.elems, c.e.tag = contributors → c.e.get? q = none) : t'.vals q = t.vals q := by
  obtain ⟨a, b, c, d, g1, _, g2, g3, g4, g5⟩ := C30_stix_partial w o t t' hc h
  have v1 := cyboxFields_vals hq g1 h1 h2
  let P : Elem → Prop := fun e => e.tag = contributors → e.get? q = none
  have ht : t.All P := all_elems.2 h3
  have ha : a.All P := by
    obtain ⟨s1, s2, s3, s4, s5, s6, f1, f2, f3, f4, f5, f6, f7⟩ := g1
    have a1 : s1.All P := rel_all (fun e e' he hp hx => by rw [prep_get hq he]; exact hp (prep_tag he hx (by decide))) f1 ht
    have leaf : ∀ {name : String} {Q : Ctx → Node → Prop} {x y : Node}, Replaced (Header name) Q x y →
        (∀ c n, Q c n → ∃ as tx, n = .elem ⟨c.e.tag, [], as, tx, none⟩ []) → x.All P → y.All P := by
      intro name Q x y hr hQ hx
      rw [all_elems]
      intro c' hc'
      rcases hr.elems hc' with ⟨c, hm, he, _⟩ | ⟨c, hm, _, hs, n, env0, hn, _, hw⟩
      · rw [he]; exact all_elems.1 hx c hm
      · obtain ⟨as, tx, rfl⟩ := hQ c n hn
        simp only [Node.walk, Node.walks, List.mem_singleton] at hw
        rw [hw]
        intro hh
        simp only at hh
        rw [hs.2] at hh
        simp [contributors] at hh
    have q1 : ∀ c n, StringOf c n → ∃ as tx, n = .elem ⟨c.e.tag, [], as, tx, none⟩ [] :=
      fun c n ⟨v, as, _, hn, _⟩ => ⟨as, v.text, hn⟩
    have q2 : ∀ c n, RefreshOf c n → ∃ as tx, n = .elem ⟨c.e.tag, [], as, tx, none⟩ [] :=
      fun c n ⟨as, hn, _⟩ => ⟨as, c.e.text, hn⟩
    have a4 : s4.All P := leaf f4 q2 (leaf f3 q1 (leaf f2 q1 a1))
    have a5 : s5.All P := by
      unfold Respelt at f5
      subst f5
      refine all_edit a4 (fun c _ hp => ?_)
      split
      · exact hp
      · exact fun hx => hp (respell_inv hx (by decide +kernel))
    have a6 : s6.All P := by
      refine f6.all a5 ?_
      rintro c n hn ⟨e, ks, y1, _, rfl⟩
      have hk := hn.2
      rw [y1] at hk
      exact ⟨fun hx => by simp [contributors] at hx, hk.1.2⟩
    obtain ⟨v, u1, u2, u3, _⟩ := f7
    have a7 : v.All P := rel_all (fun e e' he hp hx => by rw [vocab_get hq he]; exact hp (he.1.1 ▸ hx)) u1 a6
    cases ho : o.removeOptionals with
    | false => rw [u3 ho]; exact a7
    | true =>
      obtain ⟨S, _, rfl⟩ := u2 ho
      exact all_pruneCtx v a7
  have hb : b.All P := rel_all (fun e e' he hp hx => by rw [touched_get hq he]; exact hp (touched_tag he ▸ hx)) g2 ha
  have k3 : KeepsVals q (fun c => c.anc ≠ [] ∧ c.e.tag = contributors) SourcesOf b := by
    rintro x hx n hs ⟨y1, rfl⟩
    have hn := all_elems.1 hb x hx hs.2
    have hm : ∀ ks : List Node, (∀ k ∈ ks, ∃ e es, k = .elem e es) → Node.valss q (ks.map asSource) = Node.valss q ks := by
      intro ks
      induction ks with
      | nil => intro _; rfl
      | cons k ks ih =>
        intro hk
        obtain ⟨e, es, rfl⟩ := hk k (by simp)
        simp only [List.map_cons, Node.valss, ih (fun k hk' => hk k (by simp [hk'])), asSource, Node.vals, List.append_nil]
        rfl
    simp only [Ctx.node, Node.vals, hn, hm x.kids y1]
    rfl
  have k4 : KeepsVals q (InParent exploitTargets exploitTarget) WrappedTarget c := by
    rintro x hx n _ rfl
    simp only [Ctx.node, Node.vals, Node.valss, List.append_nil]
    rfl
  rw [finished_vals hq g5, g4.vals k4, g3.vals k3, rel_vals (fun _ _ => touched_get hq) g2, v1]

/-- The values through the STIX 1.1 stages. -/
theorem stix11_vals {q : QName} (hq : q ∉ managedNames) {w : World} {o : Options} {t t' : Node}
    (h : (stix11 w).update o t = .ok t') (h1 : PlainStrings t)
    (h2 : ∀ c ∈ t.elems, StringSource c ∨ SightingSource c → c.node.vals q = []) : t'.vals q = t.vals q := by
  obtain ⟨a, b, c, d, g1, g2, g3, g4, g5⟩ := stix11_stages h
  have pa := touched_plain g1 h1
  have va : ∀ x ∈ a.elems, StringSource x ∨ SightingSource x → x.node.vals q = [] := by
    intro x hx hs
    obtain ⟨y, hy, _, hanc, hp, hk⟩ := rel_elems_anc (fun _ _ h => touched_tag h) g1 hx
    rw [rel_node_vals (fun _ _ => touched_get hq) hp hk]
    refine h2 y hy ?_
    unfold StringSource SightingSource InParent at hs ⊢
    rw [← hanc, ← touched_tag hp]
    exact hs
  have named : ∀ (x : Ctx) (n : Node), (∃ s, x.e.text = some s ∧ PlainText s) → NamedSource x n → n.vals q = [] := by
    rintro x n ⟨s, y1, y2⟩ hn
    obtain ⟨ds, ds', i, j, k, l, _, rfl⟩ := hn s y1 y2
    rfl
  have k2 : KeepsVals q StringSource NamedSource a := fun x hx n hs hn => by
    rw [va x hx (Or.inl hs), named x n (pa x hx (Or.inl hs)) hn]
  have pb := named_plain g2 pa
  have vb : ∀ x ∈ b.elems, SightingSource x → x.node.vals q = [] := by
    intro x hx hs
    rcases g2.vals_elems k2 hx with ⟨y, hy, he, hanc, hv⟩ | ⟨y, hy, _, hsel, n, env0, hn, hw⟩
    · have := va y hy (Or.inr (by unfold SightingSource InParent at hs ⊢; rw [← he, ← hanc]; exact hs))
      simp only [Ctx.node, Node.vals] at this ⊢
      rw [he, hv, this]
    · have hall := vals_none.1 (named y n (pa y hy (Or.inl hsel)) hn)
      exact vals_none.2 (all_of_walk n hall x hw)
  have k3 : KeepsVals q SightingSource NamedSource b := fun x hx n hs hn => by
    rw [vb x hx hs, named x n (pb x hx hs) hn]
  have k4 : KeepsVals q (InParent relatedCampaigns relatedCampaign) WrappedCampaign c := by
    rintro x hx n _ rfl
    simp only [Ctx.node, Node.vals, Node.valss, List.append_nil]
    rfl
  rw [finished_vals hq g5, g4.vals k4, g3.vals k3, g2.vals k2, rel_vals (fun _ _ => touched_get hq) g1]

/-! ## Helpers: no attribute comes from nowhere -/

/-- Every attribute is managed or in `A`. -/
def AttrsIn (A : QName × String → Prop) (e : Elem) : Prop := ∀ a ∈ e.attrs, a.1 ∈ managedNames ∨ A a

theorem attrsIn_filter {A : QName × String → Prop} {L : List QName} (hL : ∀ x ∈ L, x ∈ managedNames) {e e' : Elem}
    (h : e'.attrs.filter (fun a => decide (a.1 ∉ L)) = e.attrs.filter (fun a => decide (a.1 ∉ L))) (he : AttrsIn A e) :
    AttrsIn A e' := by
  intro a ha
  by_cases hx : a.1 ∈ L
  · exact Or.inl (hL _ hx)
  · have : a ∈ e'.attrs.filter (fun a => decide (a.1 ∉ L)) := List.mem_filter.2 ⟨ha, by simpa using hx⟩
    rw [h] at this
    exact he a (List.mem_filter.1 this).1

theorem pre_managed : ∀ x ∈ preNames, x ∈ managedNames := by decide
theorem vocab_managed : ∀ x ∈ vocabNames, x ∈ managedNames := by decide
theorem touched_managed : ∀ x ∈ [(⟨some "http://www.w3.org/2001/XMLSchema-instance", "schemaLocation"⟩ : QName), ⟨none, "version"⟩],
    x ∈ managedNames := by decide

theorem finished_attrs {A : QName × String → Prop} {o : Options} {L : Node → Ctx → Prop} {b t' : Node} (h : Finished o L b t')
    (hb : b.All (AttrsIn A)) : t'.All (AttrsIn A) :=
  finished_all h (fun _ _ he => attrsIn_filter vocab_managed he.1.2.2.2) hb

theorem cyboxFields_attrs {A : QName × String → Prop} {o : Options} {t t' : Node} (h : CyboxFields InnerHandle o t t')
    (ht : t.All (AttrsIn A)) : t'.All (AttrsIn A) := by
  obtain ⟨a, b, c, d, e, f, h1, h2, h3, h4, h5, h6, h7⟩ := h
  have str : ∀ (c : Ctx) n, c.node.All (AttrsIn A) → StringOf c n → n.All (AttrsIn A) := by
    rintro c n hn ⟨v, as, ⟨i, ks, y1, _⟩, rfl, _, y2, _⟩
    have hv := (alls_iff.1 hn.2 _ (List.mem_of_getElem? y1)).1
    exact ⟨fun x hx => hv x (y2 x hx), trivial⟩
  have ref : ∀ (c : Ctx) n, c.node.All (AttrsIn A) → RefreshOf c n → n.All (AttrsIn A) := by
    rintro c n hn ⟨as, rfl, _, y2, _⟩
    refine ⟨fun x hx => ?_, trivial⟩
    by_cases hd : x.1 = ⟨none, "datatype"⟩
    · exact Or.inl (by rw [hd]; decide)
    · exact hn.1 x (y2 x hx hd)
  have a1 : a.All (AttrsIn A) := rel_all (fun _ _ he => attrsIn_filter pre_managed (prep_filter he)) h1 ht
  have a4 : d.All (AttrsIn A) := h4.all (h3.all (h2.all a1 str) str) ref
  have a5 : e.All (AttrsIn A) := by
    unfold Respelt at h5
    subst h5
    refine all_edit a4 (fun c _ hp => ?_)
    split
    · exact hp
    · exact hp
  refine finished_attrs h7 (h6.all a5 ?_)
  rintro c n hn ⟨e, ks, y1, _, rfl⟩
  have := alls_iff.1 hn.2 _ y1
  exact ⟨this.1, this.2⟩

theorem stix101_attrs {A : QName × String → Prop} {w : World} {o : Options} {t t' : Node} (h : (stix101 w).update o t = .ok t')
    (ht : t.All (AttrsIn A)) : t'.All (AttrsIn A) := by
  obtain ⟨a, b, c, d, g1, g2, g3, g4, g5⟩ := stix101_fields h
  have hb := rel_all (A := AttrsIn A) (fun _ _ (he : StixTouched _ _) => attrsIn_filter touched_managed he.1.2.2.2) g2 (cyboxFields_attrs g1 ht)
  have hc : c.All (AttrsIn A) := by
    refine g3.all hb ?_
    rintro c n hn ⟨_, rfl⟩
    refine ⟨fun x hx => by simp at hx, alls_iff.2 (fun k hk => ?_)⟩
    obtain ⟨k0, hk0, rfl⟩ := List.mem_map.1 hk
    have h0 := alls_iff.1 hn.2 k0 hk0
    cases k0 with
    | other _ _ => exact trivial
    | elem e ks => exact ⟨fun x hx => by simp at hx, ⟨h0.1, h0.2⟩, trivial⟩
  refine finished_attrs g5 (g4.all hc ?_)
  rintro c n hn rfl
  exact ⟨fun x hx => by simp at hx, hn, trivial⟩

theorem stix11_attrs {A : QName × String → Prop} {w : World} {o : Options} {t t' : Node} (h : (stix11 w).update o t = .ok t')
    (hp : PlainStrings t) (ht : t.All (AttrsIn A)) : t'.All (AttrsIn A) := by
  obtain ⟨a, b, c, d, g1, g2, g3, g4, g5⟩ := stix11_stages h
  have pa := touched_plain g1 hp
  have pb := named_plain g2 pa
  have ha := rel_all (A := AttrsIn A) (fun _ _ (he : StixTouched _ _) => attrsIn_filter touched_managed he.1.2.2.2) g1 ht
  have named : ∀ (x : Ctx) (n : Node), (∃ s, x.e.text = some s ∧ PlainText s) → NamedSource x n → n.All (AttrsIn A) := by
    rintro x n ⟨s, y1, y2⟩ hn
    obtain ⟨ds, ds', i, j, k, l, _, rfl⟩ := hn s y1 y2
    simp [Node.All, Node.Alls, AttrsIn]
  have step : ∀ {Sel : Ctx → Prop} {x y : Node}, Replaced Sel NamedSource x y →
      (∀ c ∈ x.elems, Sel c → ∃ s, c.e.text = some s ∧ PlainText s) → x.All (AttrsIn A) → y.All (AttrsIn A) := by
    intro Sel x y hr hs hx
    rw [all_elems]
    intro c' hc'
    rcases hr.elems hc' with ⟨c, hm, he, _⟩ | ⟨c, hm, _, hsel, n, env0, hn, _, hw⟩
    · rw [he]; exact all_elems.1 hx c hm
    · exact (all_iff _ _ _ n).1 (named c n (hs c hm hsel) hn) c' hw
  have hc := step g3 pb (step g2 (fun c hc hs => pa c hc (Or.inl hs)) ha)
  refine finished_attrs g5 (g4.all hc ?_)
  rintro c n hn rfl
  exact ⟨fun x hx => by simp at hx, ⟨hn.1, hn.2⟩, trivial⟩

mutual
theorem skeleton_rel {L : List QName} : ∀ {a b : Node}, SameSkeleton L a b → Node.Rel (SameData L) a b
  | .elem _ _, .elem _ _, h => by simp only [SameSkeleton] at h; simp only [Node.Rel]; exact ⟨h.1, skeletons_rels h.2⟩
  | .other _ _, .other _ _, h => by simp only [SameSkeleton] at h; simp only [Node.Rel]; exact h
  | .elem _ _, .other _ _, h => by simp only [SameSkeleton] at h
  | .other _ _, .elem _ _, h => by simp only [SameSkeleton] at h
theorem skeletons_rels {L : List QName} : ∀ {a b : List Node}, SameSkeletons L a b → Node.Rels (SameData L) a b
  | [], [], _ => by simp [Node.Rels]
  | _ :: _, _ :: _, h => by simp only [SameSkeletons] at h; simp only [Node.Rels]; exact ⟨skeleton_rel h.1, skeletons_rels h.2⟩
  | [], _ :: _, h => by simp only [SameSkeletons] at h
  | _ :: _, [], h => by simp only [SameSkeletons] at h
end

/-- An element in the 1.2 step: another namespace, perhaps; the attributes are the same, apart from the managed ones. -/
def OasisElem (e e' : Elem) : Prop :=
  (e'.tag = e.tag ∨ ∃ p ∈ Tables.stix12_updateNsMap, e'.tag.ns = some p.2) ∧
  e'.attrs.filter (fun a => decide (a.1 ∉ managedNames)) = e.attrs.filter (fun a => decide (a.1 ∉ managedNames))

theorem stix12_rel {o : Options} {t t' : Node} (h : stix12.update o t = .ok t') : Node.Rel OasisElem t t' := by
  simp only [stix12, stix12Update, Except.ok.injEq] at h
  rw [updateSchemalocs_eq, updateNamespaces_eq] at h
  have step : ∀ a b c : Elem, OasisElem a b → SameData managedNames b c → OasisElem a c := by
    rintro a b c ⟨h1, h2⟩ ⟨h3, _, _, h4⟩
    exact ⟨by rw [h3]; exact h1, h4.trans h2⟩
  have hr : Node.Rel OasisElem t ((t.edit (nsEdit stix12Cls)).edit (schemalocEdit stix12Cls)) := by
    refine Node.Rel.comp step (rel_mapCtx ?_ _ _ _ _) (rel_mapCtx ?_ _ _ _ _)
    · intro c
      unfold nsEdit
      split
      · next hu =>
        refine ⟨Or.inr ?_, rfl⟩
        unfold Cls.nsUpdated at hu
        split at hu
        · cases hu
        · next n hn =>
          obtain ⟨v, hv⟩ := Option.isSome_iff_exists.1 hu
          refine ⟨(n, v), assoc_mem hv, ?_⟩
          simp only [Cls.updateNsmapElem, Cls.remappedTag, hn, Option.map_some, hv, Option.getD_some]
      · exact ⟨Or.inl rfl, rfl⟩
    · exact fun c => sameData_schemaloc (by decide) _ c
  rw [← h]
  revert hr
  cases (t.edit (nsEdit stix12Cls)).edit (schemalocEdit stix12Cls) with
  | other _ _ => exact fun hr => hr
  | elem e ks =>
    intro hr
    cases t with
    | other _ _ => simp only [Node.Rel] at hr
    | elem e0 ks0 =>
      simp only [setRootVersion, Node.Rel] at hr ⊢
      exact ⟨step _ _ _ hr.1 (SameData.set (by decide) _ e), hr.2⟩

/-- Plain strings where they matter. -/
def PlainFor (w : World) (u : Updater) (t : Node) : Prop := u = stix11 w → PlainStrings t

theorem update_attrs {A : QName × String → Prop} {w : World} {u : Updater} (hu : Registered w u) {o : Options} {t t' : Node}
    (h : u.update o t = .ok t') (hp : PlainFor w u t) (ht : t.All (AttrsIn A)) : t'.All (AttrsIn A) := by
  have skel : ∀ {L : List QName}, (∀ x ∈ L, x ∈ managedNames) → SameSkeleton L t t' → t'.All (AttrsIn A) :=
    fun hL hs => rel_all (A := AttrsIn A) (fun _ _ (he : SameData _ _ _) => attrsIn_filter hL he.2.2.2) (skeleton_rel hs) ht
  cases hu with
  | cybox20 =>
    exact skel (L := vocabNames ++ cyboxVersionNames) (by decide)
      (skeleton_cybox20 (fun _ hq => List.mem_append_left _ hq) (fun _ hq => List.mem_append_right _ hq) h)
  | cybox201 => exact cyboxFields_attrs (C28_partial _ _ o t t' h) ht
  | stix10 => exact skel (by decide) (skeleton_stix10 h)
  | stix101 => exact stix101_attrs h ht
  | stix11 => exact stix11_attrs h (hp rfl) ht
  | stix111 => exact skel (by decide) (skeleton_stix111 h)
  | stix12 => exact rel_all (A := AttrsIn A) (fun _ _ (he : OasisElem _ _) => attrsIn_filter (fun _ hx => hx) he.2) (stix12_rel h) ht

/-! ## Helpers: documents without the fields that lose attributes -/

theorem unforced_check {u : Updater} {o : Options} {k k' : Nat} {t : Node} {r : Result}
    (h : stepUpdate u o false k t = .ok (r, k')) : u.check o t = .ok () := by
  simp only [stepUpdate, tryUpdate, Bool.and_false, Bool.false_eq_true, if_false] at h
  split at h
  · next d hd =>
    split at hd
    · cases hd
    · next hc => exact hc
  · cases h

/-- The elements that some step replaces by others without all their attributes. -/
def lossyTags : List QName :=
  [⟨some "http://cybox.mitre.org/objects#HTTPSessionObject-2", "DNT"⟩,
   ⟨some "http://cybox.mitre.org/objects#HTTPSessionObject-2", "Vary"⟩,
   ⟨some "http://cybox.mitre.org/objects#HTTPSessionObject-2", "Refresh"⟩,
   ⟨some "http://cybox.mitre.org/objects#WinMailslotObject-2", "Handle"⟩,
   ⟨some "http://stix.mitre.org/common-1", "Contributors"⟩,
   ⟨some "http://stix.mitre.org/common-1", "Source"⟩,
   ⟨some "http://stix.mitre.org/Indicator-2", "Source"⟩]

/-- None of them. -/
def Lossless (e : Elem) : Prop := e.tag ∉ lossyTags

theorem lossless_none {Sel : Ctx → Prop} {Q : Ctx → Node → Prop} {t t' : Node} (h : Replaced Sel Q t t') (ht : t.All Lossless)
    (hs : ∀ c, Sel c → c.e.tag ∈ lossyTags) : t' = t :=
  h.none (fun c hc hsel => all_elems.1 ht c hc (hs c hsel))

theorem lossless_prep {e e' : Elem} (h : PrepElem e e') (he : Lossless e) : Lossless e' := by
  intro hx
  have : ∀ q ∈ lossyTags, q.ns ≠ some "http://cybox.mitre.org/objects#WinDriverObject-3" := by decide
  exact he (by rw [prep_tag h rfl (this _ hx)]; exact hx)

theorem lossless_finished {o : Options} {L : Node → Ctx → Prop} {b t' : Node} (h : Finished o L b t') (hb : b.All Lossless) :
    t'.All Lossless :=
  finished_all h (fun e e' he hp => by unfold Lossless; rw [he.1.1]; exact hp) hb

theorem cyboxFields_lossless {Q : Ctx → Node → Prop} {o : Options} {t t' : Node} (h : CyboxFields Q o t t') (ht : t.All Lossless) :
    t'.All Lossless ∧ ∀ q, q ∉ managedNames → t'.vals q = t.vals q := by
  obtain ⟨a, b, c, d, e, f, h1, h2, h3, h4, h5, h6, h7⟩ := h
  have ha : a.All Lossless := rel_all (A := Lossless) (fun _ _ => lossless_prep) h1 ht
  obtain rfl := lossless_none h2 ha (fun c hc => by rw [hc.2]; decide)
  obtain rfl := lossless_none h3 ha (fun c hc => by rw [hc.2]; decide)
  obtain rfl := lossless_none h4 ha (fun c hc => by rw [hc.2]; decide)
  have he : e.All Lossless := by
    have h5' := h5
    unfold Respelt at h5'
    subst h5'
    refine all_edit ha (fun c _ hp => ?_)
    split
    · exact hp
    · intro hx
      have : ∀ q ∈ lossyTags, ∀ p ∈ spelling, p.2 ≠ q := by decide +kernel
      exact hp (by rw [respell_inv rfl (this _ hx)]; exact hx)
  obtain rfl := lossless_none h6 he (fun c hc => by rw [hc.2.1]; decide)
  refine ⟨lossless_finished h7 he, fun q hq => ?_⟩
  rw [finished_vals hq h7, (respelt_free h5).1, rel_vals (fun _ _ => prep_get hq) h1]

/-- Every step keeps such documents such, and their values. -/
theorem update_lossless {w : World} {u : Updater} (hu : Registered w u) {o : Options} {t t' : Node}
    (h : u.update o t = .ok t') (ht : t.All Lossless) : t'.All Lossless ∧ ∀ q, q ∉ managedNames → t'.vals q = t.vals q := by
  have skel : ∀ {L : List QName}, (∀ x ∈ L, x ∈ managedNames) → SameSkeleton L t t' →
      t'.All Lossless ∧ ∀ q, q ∉ managedNames → t'.vals q = t.vals q :=
    fun hL hs => ⟨rel_all (A := Lossless) (fun _ _ (he : SameData _ _ _) hp => by unfold Lossless; rw [he.1]; exact hp) (skeleton_rel hs) ht,
      fun q hq => rel_vals (fun _ _ he => get_of_filter (fun hx => hq (hL _ hx)) he.2.2.2) (skeleton_rel hs)⟩
  have touched : ∀ {a b : Node}, Node.Rel StixTouched a b → a.All Lossless → b.All Lossless :=
    fun hr ha => rel_all (A := Lossless) (fun _ _ he hp => by unfold Lossless; rw [touched_tag he]; exact hp) hr ha
  cases hu with
  | cybox20 =>
    exact skel (L := vocabNames ++ cyboxVersionNames) (by decide)
      (skeleton_cybox20 (fun _ hq => List.mem_append_left _ hq) (fun _ hq => List.mem_append_right _ hq) h)
  | cybox201 => exact cyboxFields_lossless (C28_partial _ _ o t t' h) ht
  | stix10 => exact skel (by decide) (skeleton_stix10 h)
  | stix101 =>
    obtain ⟨a, b, c, d, g1, g2, g3, g4, g5⟩ := stix101_fields h
    obtain ⟨l1, v1⟩ := cyboxFields_lossless g1 ht
    have l2 := touched g2 l1
    obtain rfl := lossless_none g3 l2 (fun c hc => by rw [hc.2]; decide)
    have l4 : d.All Lossless := by
      refine g4.all l2 ?_
      rintro x n hn rfl
      exact ⟨by unfold Lossless; decide, hn, trivial⟩
    refine ⟨lossless_finished g5 l4, fun q hq => ?_⟩
    have k4 : KeepsVals q (InParent exploitTargets exploitTarget) WrappedTarget c := by
      rintro x hx n _ rfl
      simp only [Ctx.node, Node.vals, Node.valss, List.append_nil]
      rfl
    rw [finished_vals hq g5, g4.vals k4, rel_vals (fun _ _ => touched_get hq) g2, v1 q hq]
  | stix11 =>
    obtain ⟨a, b, c, d, g1, g2, g3, g4, g5⟩ := stix11_stages h
    have l1 := touched g1 ht
    obtain rfl := lossless_none g2 l1 (fun c ⟨p, _, hc⟩ => by rw [hc.1]; decide)
    obtain rfl := lossless_none g3 l1 (fun c hc => by rw [hc.1]; decide)
    have l4 : d.All Lossless := by
      refine g4.all l1 ?_
      rintro x n hn rfl
      exact ⟨by unfold Lossless; decide, ⟨show (⟨some "http://stix.mitre.org/common-1", "Campaign"⟩ : QName) ∉ lossyTags by decide, hn.2⟩, trivial⟩
    refine ⟨lossless_finished g5 l4, fun q hq => ?_⟩
    have k4 : KeepsVals q (InParent relatedCampaigns relatedCampaign) WrappedCampaign c := by
      rintro x hx n _ rfl
      simp only [Ctx.node, Node.vals, Node.valss, List.append_nil]
      rfl
    rw [finished_vals hq g5, g4.vals k4, rel_vals (fun _ _ => touched_get hq) g1]
  | stix111 => exact skel (by decide) (skeleton_stix111 h)
  | stix12 =>
    have hr := stix12_rel h
    refine ⟨rel_all (A := Lossless) (fun e e' he hp => ?_) hr ht, fun q hq => rel_vals (fun _ _ he => get_of_filter hq he.2) hr⟩
    rcases he.1 with h1 | ⟨p, h1, h2⟩
    · unfold Lossless; rw [h1]; exact hp
    · intro hx
      have : ∀ q ∈ lossyTags, ∀ p ∈ Tables.stix12_updateNsMap, q.ns ≠ some p.2 := by decide +kernel
      exact this _ hx p h1 h2

theorem chainLoop_lossless {w : World} (reg : List (String × Updater))
    (hreg : ∀ v u, assoc reg v = some u → Registered w u) (o : Options) : ∀ (vs : List String) (acc : Result) (k : Nat) (r : Result)
    (k' : Nat), chainLoop reg o false vs acc k = .ok (r, k') → acc.doc.All Lossless →
    ∀ q, q ∉ managedNames → r.doc.vals q = acc.doc.vals q
  | [], acc, k, r, k', h, _, q, _ => by simp only [chainLoop, Except.ok.injEq, Prod.mk.injEq] at h; rw [h.1]
  | v :: vs, acc, k, r, k', h, ht, q, hq => by
    simp only [chainLoop] at h
    split at h
    · cases h
    · next u hu =>
      split at h
      · cases h
      · next r1 k1 hs =>
        obtain ⟨l1, v1⟩ := update_lossless (hreg v u hu) (unforced_update hs) ht
        have := chainLoop_lossless reg hreg o vs _ k1 r k' h l1 q hq
        rw [this]
        exact v1 q hq

mutual
theorem mem_vals_walk {q : QName} {v : String} {pos : Pos} {env : NsMap} {anc : List QName} : ∀ {t : Node} {c : Ctx},
    c ∈ t.walk pos env anc → c.e.get? q = some v → v ∈ t.vals q
  | .other _ _, c, h, _ => by simp [Node.walk] at h
  | .elem e ks, c, h, hv => by
    simp only [Node.walk, List.mem_cons] at h
    simp only [Node.vals, List.mem_append]
    rcases h with rfl | h
    · exact Or.inl (by simpa using hv)
    · exact Or.inr (mem_valss_walks h hv)
theorem mem_valss_walks {q : QName} {v : String} {pos : Pos} {i : Nat} {env : NsMap} {anc : List QName} : ∀ {ks : List Node} {c : Ctx},
    c ∈ Node.walks pos i env anc ks → c.e.get? q = some v → v ∈ Node.valss q ks
  | [], c, h, _ => by simp [Node.walks] at h
  | t :: ks, c, h, hv => by
    simp only [Node.walks, List.mem_append] at h
    simp only [Node.valss, List.mem_append]
    rcases h with h | h
    · exact Or.inl (mem_vals_walk h hv)
    · exact Or.inr (mem_valss_walks h hv)
end

theorem registered_rules {w : World} {u : Updater} (h : Registered w u) : ∃ rules nss ty V, StepRules w u rules nss ty V := by
  cases h
  · exact ⟨_, _, _, _, .cybox20⟩
  · exact ⟨_, _, _, _, .cybox201⟩
  · exact ⟨_, _, _, _, .stix10⟩
  · exact ⟨_, _, _, _, .stix101⟩
  · exact ⟨_, _, _, _, .stix11⟩
  · exact ⟨_, _, _, _, .stix111⟩
  · exact ⟨_, _, _, _, .stix12⟩

/-! ## C46 -/

/-- C46 for the steps that translate no field: the values of every attribute that the steps do not manage (so of `id` and
`idref`) are the same, in document order. -/
theorem C46_plain_steps (u : Updater) (hu : u = cybox20 ∨ u = stix10 ∨ u = stix111 ∨ u = stix12) (o : Options) (k k' : Nat)
    (t : Node) (r : Result) (h : stepUpdate u o false k t = .ok (r, k')) (q : QName) (hq : q ∉ managedNames) :
    r.doc.vals q = t.vals q := by
  have skel : ∀ {L : List QName}, (∀ x ∈ L, x ∈ managedNames) → SameSkeleton L t r.doc → r.doc.vals q = t.vals q :=
    fun hL hs => rel_vals (fun _ _ he => get_of_filter (fun hx => hq (hL _ hx)) he.2.2.2) (skeleton_rel hs)
  rcases hu with rfl | rfl | rfl | rfl
  · exact skel (by decide) (C43_cybox20 o k k' t r h)
  · exact skel (by decide) (C43_stix10 o k k' t r h)
  · exact skel (by decide) (C43_stix111 o k k' t r h)
  · exact rel_vals (fun _ _ he => get_of_filter hq he.2) (stix12_rel (unforced_update h))

/-- C46 for CybOX 2.0.1 to 2.1.  Partial: an attribute on the outer one of two handles, on a header field with a URI value, and
inside a refresh field is lost, see `C46_lost_fails`. -/
theorem C46_cybox201_partial (o : Options) (k k' : Nat) (t : Node) (r : Result) (h : stepUpdate cybox201 o false k t = .ok (r, k'))
    (q : QName) (hq : q ∉ managedNames) (hc : CyboxCopied q t) (ho : OnceEach q t) : r.doc.vals q = t.vals q :=
  cyboxFields_vals hq (handles_201 (unforced_update h) (check_single (unforced_check h))).1 hc ho

/-- C46 for STIX 1.0.1 to 1.1.  Partial: as for CybOX; and the attributes of a list of contributors are lost. -/
theorem C46_stix101_partial (w : World) (o : Options) (k k' : Nat) (t : Node) (r : Result)
    (h : stepUpdate (stix101 w) o false k t = .ok (r, k')) (q : QName) (hq : q ∉ managedNames) (hc : CyboxCopied q t)
    (ho : OnceEach q t) (hl : ∀ c ∈ t.elems, c.e.tag = contributors → c.e.get? q = none) : r.doc.vals q = t.vals q :=
  stix101_vals hq (unforced_check h) (unforced_update h) hc ho hl

/-- C46 for STIX 1.1 to 1.1.1.  Partial: the sources that were strings must be plain text; attributes on them and in them are
lost, see `C46_lost_fails`. -/
theorem C46_stix11_partial (w : World) (o : Options) (k k' : Nat) (t : Node) (r : Result)
    (h : stepUpdate (stix11 w) o false k t = .ok (r, k')) (q : QName) (hq : q ∉ managedNames) (hp : PlainStrings t)
    (hs : ∀ c ∈ t.elems, StringSource c ∨ SightingSource c → c.node.vals q = []) : r.doc.vals q = t.vals q :=
  stix11_vals hq (unforced_update h) hp hs

/-- C46 for a whole update: from any release to any other, the ids, the references and all other values of unmanaged attributes
are the same, in document order.  Partial: the document has none of the elements that are replaced by others. -/
theorem C46_update_partial (w : World) (t : Node) (from_ to_ : Option String) (o : Options) (k k' : Nat) (r : Result)
    (h : update w t from_ to_ o false k = .ok (r, k')) (ht : ∀ c ∈ t.elems, c.e.tag ∉ lossyTags) (q : QName)
    (hq : q ∉ managedNames) : r.doc.vals q = t.vals q := by
  have chain : ∀ vs reg f g, (∀ v u, assoc reg v = some u → Registered w u) → runChain vs reg t f g o false k = .ok (r, k') →
      r.doc.vals q = t.vals q := by
    intro vs reg f g hreg h
    simp only [runChain] at h
    split at h
    · cases h
    · exact chainLoop_lossless reg hreg o _ _ k r k' h (all_elems.2 ht) q hq
  simp only [update] at h
  split at h
  · cases h
  · split at h
    · exact chain _ _ _ _ (fun v u hu => registered_stix hu) h
    · split at h
      · split at h
        · cases h
        · simp only [cyboxUpdate] at h
          split at h
          · cases h
          · exact chain _ _ _ _ (fun v u hu => registered_cybox hu) h
      · cases h

/-- C46, nothing is made up: an attribute of the result that the steps do not manage was on some element before; in a forced
update it can also be an id from the generator. -/
theorem C46_none_new (w : World) (u : Updater) (hu : Registered w u) (o : Options) (force : Bool) (k k' : Nat) (t : Node)
    (r : Result) (h : stepUpdate u o force k t = .ok (r, k')) (hp : u = stix11 w → PlainStrings t) :
    ∀ c' ∈ r.doc.elems, ∀ a ∈ c'.e.attrs, a.1 ∉ managedNames →
      (∃ c ∈ t.elems, a ∈ c.e.attrs) ∨ (force = true ∧ a.1 = ⟨none, "id"⟩ ∧ ∃ n i, k ≤ n ∧ n < k' ∧ i ∈ t.vals ⟨none, "id"⟩ ∧ a.2 = o.newId n i) := by
  let A : QName × String → Prop := fun a => (∃ c ∈ t.elems, a ∈ c.e.attrs) ∨
    (force = true ∧ a.1 = ⟨none, "id"⟩ ∧ ∃ n i, k ≤ n ∧ n < k' ∧ i ∈ t.vals ⟨none, "id"⟩ ∧ a.2 = o.newId n i)
  have h0 : t.All (AttrsIn A) := all_elems.2 (fun c hc a ha => Or.inr (Or.inl ⟨c, hc, ha⟩))
  have key : r.doc.All (AttrsIn A) := by
    simp only [stepUpdate] at h
    split at h
    · next d hd =>
      simp only [tryUpdate] at hd
      cases h
      split at hd
      · cases hd
      · exact update_attrs hu hd hp h0
    · split at h
      · next hf =>
        simp only [forceUpdate] at h
        split at h
        · cases h
        · next r1 k1 hc =>
          split at h
          · cases h
          · next d hd =>
            cases h
            obtain ⟨rules, nss, ty, V, hr⟩ := registered_rules hu
            obtain ⟨F, l, ν, n, _, _, h1, h2, h3, _, h5, _⟩ := clean_spec hr hc
            refine update_attrs hu hd ?_ ?_
            · rintro rfl
              have : r1.doc = t := by
                simp only [clean, stix11] at hc
                cases hc
                rfl
              rw [this]
              exact hp rfl
            · rw [h3]
              refine all_pruneCtx _ (all_edit h0 (fun c hc hA a ha => ?_))
              by_cases hD : DupAt nss t c
              · rw [h1 c hc hD] at ha
                rcases mem_attrs_set ha with ha | rfl
                · exact hA a ha
                · obtain ⟨h6, h7, h8⟩ := h5 c hc hD
                  obtain ⟨ns, i, _, ⟨_, _, hi⟩, _⟩ := hD
                  refine Or.inr (Or.inr ⟨(Bool.and_eq_true _ _ ▸ hf).2, rfl, n c, i, h7, h8, mem_vals_walk hc hi, ?_⟩)
                  rw [h6, show c.e.get? attrId = some i from hi, Option.getD_some]
              · rw [h2 c hc hD] at ha
                exact hA a ha
      · cases h
  intro c' hc' a ha hm
  rcases all_elems.1 key c' hc' a ha with h1 | h1
  · exact absurd h1 hm
  · exact h1

/-! ### Cases that meet the hypotheses -/

/-- A CybOX 2.0 document with an id and a reference. -/
def docRefs (v : Attrs) : Node :=
  cyboxDoc v [el nsCyboxCore "Observable" [at_ "id" "a"] [], el nsCyboxCore "Observable" [at_ "idref" "a"] []]

example : ∃ r, stepUpdate cybox20 o0 false 0 (docRefs v20) = .ok r ∧ r.1.doc.vals ⟨none, "id"⟩ = ["a"] ∧
    r.1.doc.vals ⟨none, "idref"⟩ = ["a"] := ok_of_eval (by decide +kernel)

theorem cyboxCopied_of {q : QName} {t : Node} (h : ∀ c ∈ t.elems,
    (c.e.tag = ⟨some "http://cybox.mitre.org/objects#HTTPSessionObject-2", "DNT"⟩ → c.node.vals q = uriVals q c.kids) ∧
    (c.e.tag = ⟨some "http://cybox.mitre.org/objects#HTTPSessionObject-2", "Vary"⟩ → c.node.vals q = uriVals q c.kids) ∧
    (c.e.tag = ⟨some "http://cybox.mitre.org/objects#HTTPSessionObject-2", "Refresh"⟩ → Node.valss q c.kids = []) ∧
    (c.e.tag = ⟨some "http://cybox.mitre.org/objects#WinMailslotObject-2", "Handle"⟩ → c.e.get? q = none)) : CyboxCopied q t := by
  intro c hc
  obtain ⟨h1, h2, h3, h4⟩ := h c hc
  exact ⟨fun hh => hh.elim (fun x => h1 x.2) (fun x => h2 x.2), fun hh => h3 hh.2, fun hh => h4 hh.2.1⟩

/-- The translated CybOX fields, with ids and references where the translation copies them. -/
def refFields : List Node :=
  [el nsHTTPSession "DNT" [] [el nsURI "Value" [at_ "id" "a"] [] (some "1")],
    el nsHTTPSession "Refresh" [at_ "id" "b"] [] (some "5"),
    el nsWinMailslot "Handle" [] [el nsHandle "Handle" [at_ "idref" "a"] []]]

/-- A CybOX 2.0.1 document with them. -/
def docRefs201 : Node := cyboxDoc v201 refFields

/-- The hypotheses of `C46_cybox201_partial`, with non-empty values. -/
example : ∀ q ∈ [(⟨none, "id"⟩ : QName), ⟨none, "idref"⟩], q ∉ managedNames ∧ CyboxCopied q docRefs201 ∧ OnceEach q docRefs201 := by
  refine fun q hq => ⟨?_, cyboxCopied_of ?_, ?_⟩
  · revert q; decide
  · revert q; decide +kernel
  · unfold OnceEach AtMostOnce; revert q; decide +kernel
example : ∃ r, stepUpdate cybox201 o0 false 0 docRefs201 = .ok r ∧ r.1.doc.vals ⟨none, "id"⟩ = ["a", "b"] ∧
    r.1.doc.vals ⟨none, "idref"⟩ = ["a"] := ok_of_eval (by decide +kernel)

/-- A STIX 1.0.1 package with them, a contributor and an exploit target. -/
def docRefs101 : Node :=
  stixDoc "1.0.1" (refFields ++ [el nsCommon "Contributors" [] [el nsCommon "Contributor" [at_ "idref" "b"] []],
    el nsTTP "Exploit_Targets" [at_ "id" "c"] [el nsCommon "Exploit_Target" [at_ "idref" "c"] []]]) [at_ "id" "p"]

/-- The hypotheses of `C46_stix101_partial`, with non-empty values. -/
example : ∀ q ∈ [(⟨none, "id"⟩ : QName), ⟨none, "idref"⟩], q ∉ managedNames ∧ CyboxCopied q docRefs101 ∧ OnceEach q docRefs101 ∧
    ∀ c ∈ docRefs101.elems, c.e.tag = contributors → c.e.get? q = none := by
  refine fun q hq => ⟨?_, cyboxCopied_of ?_, ?_, ?_⟩
  · revert q; decide
  · revert q; decide +kernel
  · unfold OnceEach AtMostOnce; revert q; decide +kernel
  · revert q; decide +kernel
example : ∃ r, stepUpdate (stix101 w0) o0 false 0 docRefs101 = .ok r ∧ r.1.doc.vals ⟨none, "id"⟩ = ["p", "a", "b", "c"] ∧
    r.1.doc.vals ⟨none, "idref"⟩ = ["a", "b", "c"] := ok_of_eval (by decide +kernel)

/-- A STIX 1.1 package with sources and a related campaign. -/
def docRefs11 : Node :=
  stixDoc "1.1" [el nsTTP "Intended_Effect" [at_ "id" "e"] [el nsCommon "Source" [] [] (some "me")],
    el nsIndicator "Sighting" [at_ "idref" "e"] [el nsIndicator "Source" [] [] (some "you")],
    el nsIndicator "Related_Campaigns" [] [el nsIndicator "Related_Campaign" [at_ "idref" "c"] []]] [at_ "id" "p"]

/-- The hypotheses of `C46_stix11_partial`, with non-empty values; there are replaced sources. -/
example : (∀ q ∈ [(⟨none, "id"⟩ : QName), ⟨none, "idref"⟩], q ∉ managedNames ∧ PlainStrings docRefs11 ∧
    ∀ c ∈ docRefs11.elems, StringSource c ∨ SightingSource c → c.node.vals q = []) ∧
    (∃ c ∈ docRefs11.elems, StringSource c) ∧ ∃ c ∈ docRefs11.elems, SightingSource c := by
  refine ⟨fun q hq => ⟨?_, plainStrings_of (by decide +kernel), fun c hc hs => ?_⟩, ?_, ?_⟩
  · revert q; decide
  · have hn : c.e.tag.name = "Source" := by
      rcases hs with ⟨p, _, hp⟩ | hp
      · rw [hp.1]
      · rw [hp.1]
    clear hs; revert q c; decide +kernel
  · exact ⟨_, List.mem_of_getElem? (i := 2) rfl, _, (show (⟨some nsTTP, "Intended_Effect"⟩ : QName) ∈ stringHolders by decide), rfl, _, _, rfl⟩
  · exact ⟨_, List.mem_of_getElem? (i := 4) rfl, rfl, _, _, rfl⟩
example : ∃ r, stepUpdate (stix11 w0) o0 false 0 docRefs11 = .ok r ∧ r.1.doc.vals ⟨none, "id"⟩ = ["p", "e"] ∧
    r.1.doc.vals ⟨none, "idref"⟩ = ["e", "c"] := ok_of_eval (by decide +kernel)

/-- A STIX 1.0 package without the fields that lose attributes; the campaign and the exploit target are moved on the way. -/
def docRefs10 : Node :=
  stixDoc "1.0" [el nsCyboxCore "Observable" [at_ "id" "a"] [],
    el nsTTP "Exploit_Targets" [at_ "id" "c"] [el nsCommon "Exploit_Target" [at_ "idref" "a"] []],
    el nsIndicator "Related_Campaigns" [] [el nsIndicator "Related_Campaign" [at_ "idref" "c"] []]] [at_ "id" "p"]

/-- The hypotheses of `C46_update_partial`: a whole update from 1.0 to 1.2.1. -/
example : (∀ c ∈ docRefs10.elems, c.e.tag ∉ lossyTags) ∧ ∃ r, update w0 docRefs10 none none o0 false 0 = .ok r ∧
    r.1.doc.vals ⟨none, "id"⟩ = ["p", "a", "c"] ∧ r.1.doc.vals ⟨none, "idref"⟩ = ["a", "c"] :=
  ⟨by decide +kernel, ok_of_eval (by decide +kernel)⟩

/-- C46 fails where elements are replaced: the id of a list of contributors, of the outer one of two handles, of a header field
and of a string source is in no element of the result. -/
theorem C46_lost_fails :
    (∃ r, stepUpdate (stix101 w0) o0 false 0 docContributorsAttr = .ok r ∧ docContributorsAttr.vals ⟨none, "id"⟩ = ["l"] ∧
      r.1.doc.vals ⟨none, "id"⟩ = []) ∧
    (∃ r, stepUpdate cybox201 o0 false 0 docOuterHandle = .ok r ∧ docOuterHandle.vals ⟨none, "id"⟩ = ["m"] ∧
      r.1.doc.vals ⟨none, "id"⟩ = []) ∧
    (∃ r, stepUpdate cybox201 o0 false 0 (cyboxDoc v201 [el nsHTTPSession "DNT" [at_ "id" "d"] [el nsURI "Value" [] [] (some "1")]]) = .ok r ∧
      r.1.doc.vals ⟨none, "id"⟩ = []) ∧
    (∃ r, stepUpdate (stix11 w0) o0 false 0 docRestSource = .ok r ∧ docRestSource.vals ⟨none, "id"⟩ = ["s"] ∧
      r.1.doc.vals ⟨none, "id"⟩ = []) :=
  ⟨ok_of_eval (by decide +kernel), ok_of_eval (by decide +kernel), ok_of_eval (by decide +kernel), ok_of_eval (by decide +kernel)⟩

/-- A CybOX 2.0.1 document with an id used twice, and a reference to it. -/
def docDangling : Node :=
  cyboxDoc v201 [el nsCyboxCore "Observable" [at_ "id" "a"] [], el nsCyboxCore "Observable" [at_ "id" "a"] [],
    el nsCyboxCore "Observable" [at_ "idref" "a"] []]

/-- C46 fails when ids are used twice: a forced update gives every one of these elements a new id and leaves the reference; it
then refers to no element. -/
theorem C46_dangling_fails : ∃ r, stepUpdate cybox201 o0 true 0 docDangling = .ok r ∧
    r.1.doc.vals ⟨none, "idref"⟩ = ["a"] ∧ "a" ∉ r.1.doc.vals ⟨none, "id"⟩ ∧ (r.1.doc.vals ⟨none, "id"⟩).length = 2 :=
  ok_of_eval (by decide +kernel)

/-- A case of `C46_none_new`: the new ids, and an attribute that was there. -/
example : ∃ r, stepUpdate cybox201 o0 true 0 docDangling = .ok r ∧
    r.1.doc.vals ⟨none, "id"⟩ = [o0.newId 0 "a", o0.newId 1 "a"] ∧ r.1.doc.vals ⟨none, "idref"⟩ = ["a"] ∧ r.2 = 2 :=
  ok_of_eval (by decide +kernel)

end Ramrod

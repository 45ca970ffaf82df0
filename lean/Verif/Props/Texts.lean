import Verif.Props.Ids
import Verif.Props.Lists
import Verif.Props.Namespaces
/-!
# Text: C47
-/

namespace Ramrod

open Samples

/-! ## Statement -/

mutual
/-- No mixed content: text beside child nodes, and text after an element or a comment, is white space. -/
def Node.Tidy : Node → Prop
  | .elem e ks => (ks ≠ [] → BlankText e.text) ∧ BlankText e.tail ∧ Node.Tidys ks
  | .other _ t => BlankText t
/-- No mixed content in a list of nodes. -/
def Node.Tidys : List Node → Prop
  | [] => True
  | k :: ks => k.Tidy ∧ Node.Tidys ks
end

/-- The text is no term that some release corrected. -/
def Steady (e : Elem) : Prop := ∀ p ∈ correctedTerms, e.text ≠ some p.1

/-- Text inside the properties of an object has no comma, and none that is escaped. -/
def CommaFree (t : Node) : Prop := ∀ c ∈ t.elems, ⟨some "http://cybox.mitre.org/cybox-2", "Properties"⟩ ∈ c.anc →
  ∀ s, c.e.text = some s → ',' ∉ s.toList ∧ ¬ "&comma;".toList <:+: s.toList

/-- A header field that was a URI holds one value and nothing else; a refresh field holds text only. -/
def FieldTexts (t : Node) : Prop := ∀ c ∈ t.elems,
  (Header "DNT" c ∨ Header "Vary" c → ∃ v, c.kids = [.elem v []] ∧ v.tag = ⟨some "http://cybox.mitre.org/objects#URIObject-2", "Value"⟩) ∧
  (Header "Refresh" c → c.kids = [])

/-! ## Helpers: tidy documents -/

theorem blank_none : BlankText none := by intro x hx; simp at hx

theorem ink_elem (e : Elem) (ks : List Node) : (Node.elem e ks).ink =
    (e.text.getD "").toList.filter (fun c => !isSpace c) ++ (Node.charss ks).filter (fun c => !isSpace c) ++
      (e.tail.getD "").toList.filter (fun c => !isSpace c) := by
  simp only [Node.ink, Node.chars, List.filter_append]

theorem ink_charss (k : Node) (ks : List Node) : (Node.charss (k :: ks)).filter (fun c => !isSpace c) =
    k.ink ++ (Node.charss ks).filter (fun c => !isSpace c) := by
  simp only [Node.ink, Node.charss, List.filter_append]

theorem charss_nil : (Node.charss []).filter (fun c => !isSpace c) = [] := by simp [Node.charss]

mutual
theorem tidy_walk {pos : Pos} {env : NsMap} {anc : List QName} : ∀ (t : Node), t.Tidy → ∀ c ∈ t.walk pos env anc, c.node.Tidy
  | .other _ _, _, c, hc => by simp [Node.walk] at hc
  | .elem e ks, h, c, hc => by
    simp only [Node.walk, List.mem_cons] at hc
    rcases hc with rfl | hc
    · exact h
    · simp only [Node.Tidy] at h
      exact tidys_walks ks h.2.2 c hc
theorem tidys_walks {pos : Pos} {i : Nat} {env : NsMap} {anc : List QName} : ∀ (ks : List Node), Node.Tidys ks →
    ∀ c ∈ Node.walks pos i env anc ks, c.node.Tidy
  | [], _, c, hc => by simp [Node.walks] at hc
  | k :: ks, h, c, hc => by
    simp only [Node.Tidys] at h
    simp only [Node.walks, List.mem_append] at hc
    rcases hc with hc | hc
    · exact tidy_walk k h.1 c hc
    · exact tidys_walks ks h.2 c hc
end

theorem tidy_noMixed {t : Node} (h : t.Tidy) : NoMixed t := by
  intro c hc
  have := tidy_walk t h c hc
  simp only [Ctx.node, Node.Tidy] at this
  exact ⟨this.1, this.2.1⟩

/-- The element has the same text and the same tail. -/
def SameText (e e' : Elem) : Prop := e'.text = e.text ∧ e'.tail = e.tail

mutual
theorem tidy_rel {P : Elem → Elem → Prop} (hP : ∀ e e', P e e' → SameText e e') : ∀ {a b : Node}, Node.Rel P a b →
    b.chars = a.chars ∧ (a.Tidy → b.Tidy)
  | .elem e ks, .elem e' ks', h => by
    simp only [Node.Rel] at h
    obtain ⟨h1, h2⟩ := hP _ _ h.1
    obtain ⟨h3, h4, h5⟩ := tidys_rels hP h.2
    simp only [Node.chars, Node.Tidy]
    rw [h1, h2, h3]
    exact ⟨rfl, fun ⟨x, y, z⟩ => ⟨fun hk => x (fun h0 => hk (h5.2 h0)), y, h4 z⟩⟩
  | .other _ _, .other _ _, h => by
    simp only [Node.Rel] at h
    obtain ⟨rfl, rfl⟩ := h
    exact ⟨rfl, id⟩
  | .elem _ _, .other _ _, h => by simp only [Node.Rel] at h
  | .other _ _, .elem _ _, h => by simp only [Node.Rel] at h
theorem tidys_rels {P : Elem → Elem → Prop} (hP : ∀ e e', P e e' → SameText e e') : ∀ {a b : List Node}, Node.Rels P a b →
    Node.charss b = Node.charss a ∧ (Node.Tidys a → Node.Tidys b) ∧ (b = [] ↔ a = [])
  | [], [], _ => ⟨rfl, id, Iff.rfl⟩
  | _ :: _, _ :: _, h => by
    simp only [Node.Rels] at h
    obtain ⟨h1, h2⟩ := tidy_rel hP h.1
    obtain ⟨h3, h4, _⟩ := tidys_rels hP h.2
    simp only [Node.charss, Node.Tidys]
    rw [h1, h3]
    exact ⟨rfl, fun ⟨x, y⟩ => ⟨h2 x, h4 y⟩, by simp⟩
  | [], _ :: _, h => by simp only [Node.Rels] at h
  | _ :: _, [], h => by simp only [Node.Rels] at h
end

/-- The ink is the same, and the document stays tidy. -/
def Inked (t t' : Node) : Prop := t'.ink = t.ink ∧ t'.Tidy

theorem Inked.trans {a b c : Node} (h1 : Inked a b) (h2 : Inked b c) : Inked a c := ⟨h2.1.trans h1.1, h2.2⟩

theorem inked_rel {P : Elem → Elem → Prop} (hP : ∀ e e', P e e' → SameText e e') {a b : Node} (h : Node.Rel P a b)
    (ha : a.Tidy) : Inked a b := by
  obtain ⟨h1, h2⟩ := tidy_rel hP h
  exact ⟨by simp only [Node.ink, h1], h2 ha⟩

mutual
theorem rel_and {P : Elem → Elem → Prop} {A : Elem → Prop} : ∀ {a b : Node}, Node.Rel P a b → a.All A →
    Node.Rel (fun e e' => P e e' ∧ A e) a b
  | .elem _ _, .elem _ _, h, ha => by
    simp only [Node.Rel] at h ⊢
    exact ⟨⟨h.1, ha.1⟩, rels_and h.2 ha.2⟩
  | .other _ _, .other _ _, h, _ => by simp only [Node.Rel] at h ⊢; exact h
  | .elem _ _, .other _ _, h, _ => by simp only [Node.Rel] at h
  | .other _ _, .elem _ _, h, _ => by simp only [Node.Rel] at h
theorem rels_and {P : Elem → Elem → Prop} {A : Elem → Prop} : ∀ {a b : List Node}, Node.Rels P a b → Node.Alls A a →
    Node.Rels (fun e e' => P e e' ∧ A e) a b
  | [], [], _, _ => by simp [Node.Rels]
  | _ :: _, _ :: _, h, ha => by
    simp only [Node.Rels] at h ⊢
    exact ⟨rel_and h.1 ha.1, rels_and h.2 ha.2⟩
  | [], _ :: _, h, _ => by simp only [Node.Rels] at h
  | _ :: _, [], h, _ => by simp only [Node.Rels] at h
end

theorem rel_mono {P Q : Elem → Elem → Prop} (hPQ : ∀ e e', P e e' → Q e e') {a b : Node} (h : Node.Rel P a b) : Node.Rel Q a b :=
  Node.Rel.comp (P := fun e e' => e = e') (Q := P) (R := Q) (fun a b c h1 h2 => by subst h1; exact hPQ _ _ h2)
    (rel_refl (P := fun e e' => e = e') (fun _ => rfl) a) h

mutual
theorem rel_mapCtx_mem {P : Elem → Elem → Prop} {F : Ctx → Elem} (pos : Pos) (env : NsMap) (anc : List QName) : ∀ t : Node,
    (∀ c ∈ t.walk pos env anc, P c.e (F c)) → Node.Rel P t (t.mapCtx F pos env anc)
  | .other _ _, _ => by simp only [Node.mapCtx, Node.Rel]; exact ⟨trivial, trivial⟩
  | .elem e ks, h => by
    simp only [Node.mapCtx, Node.Rel]
    exact ⟨h ⟨pos, e.decls ++ env, anc, e, ks⟩ (by simp [Node.walk]), rels_mapCtxs_mem _ _ _ _ ks (fun c hc => h c (by simp [Node.walk, hc]))⟩
theorem rels_mapCtxs_mem {P : Elem → Elem → Prop} {F : Ctx → Elem} (pos : Pos) (i : Nat) (env : NsMap) (anc : List QName) :
    ∀ ks : List Node, (∀ c ∈ Node.walks pos i env anc ks, P c.e (F c)) → Node.Rels P ks (Node.mapCtxs F pos i env anc ks)
  | [], _ => by simp [Node.mapCtxs, Node.Rels]
  | k :: ks, h => by
    simp only [Node.mapCtxs, Node.Rels]
    exact ⟨rel_mapCtx_mem _ _ _ k (fun c hc => h c (by simp [Node.walks, hc])),
      rels_mapCtxs_mem _ _ _ _ ks (fun c hc => h c (by simp [Node.walks, hc]))⟩
end

/-! ## Helpers: renamed namespaces -/

mutual
theorem tidy_ns {u : Cls} {pos : Pos} {env : NsMap} {anc : List QName} : ∀ (t : Node), t.Tidy → (t.mapCtx (nsEdit u) pos env anc).Tidy
  | .other _ _, h => by simpa only [Node.mapCtx] using h
  | .elem e ks, h => by
    simp only [Node.Tidy] at h
    obtain ⟨k1, k2⟩ := tidys_ns (u := u) (pos := pos) (i := 0) (env := e.decls ++ env) (anc := e.tag :: anc) ks h.2.2
    have hx := nsEdit_elem u ⟨pos, e.decls ++ env, anc, e, ks⟩
    simp only [Node.mapCtx, Node.Tidy]
    rcases Classical.em (OldNs u.updateNsMap e.tag) with ho | ho
    · obtain ⟨_, _, h3, h4⟩ := hx.2 ho
      rw [h3, h4]
      refine ⟨fun hk => ?_, blank_none, k1⟩
      rw [if_neg (fun h0 => hk (k2.2 h0))]
      exact blank_none
    · rw [hx.1 ho]
      exact ⟨fun hk => h.1 (fun h0 => hk (k2.2 h0)), h.2.1, k1⟩
theorem tidys_ns {u : Cls} {pos : Pos} {i : Nat} {env : NsMap} {anc : List QName} : ∀ (ks : List Node), Node.Tidys ks →
    Node.Tidys (Node.mapCtxs (nsEdit u) pos i env anc ks) ∧ (Node.mapCtxs (nsEdit u) pos i env anc ks = [] ↔ ks = [])
  | [], _ => by simp [Node.mapCtxs, Node.Tidys]
  | k :: ks, h => by
    simp only [Node.Tidys] at h
    simp only [Node.mapCtxs, Node.Tidys]
    exact ⟨⟨tidy_ns k h.1, (tidys_ns ks h.2).1⟩, by simp⟩
end

theorem inked_ns {u : Cls} {t : Node} (h : t.Tidy) : Inked t (u.updateNamespaces [] t) := by
  rw [updateNamespaces_eq]
  exact ⟨ink_walk t (tidy_noMixed h), tidy_ns t h⟩

theorem sameText_schemaloc (u : Cls) (c : Ctx) : SameText c.e (schemalocEdit u c) := by
  unfold schemalocEdit
  split
  · unfold Cls.updateSchemalocsElem
    split <;> exact ⟨rfl, rfl⟩
  · exact ⟨rfl, rfl⟩

theorem sameText_version {m : List (String × String)} {alts : List XAlt} {g : Elem → Elem} (hg : ∀ e, SameText e (g e)) (c : Ctx) :
    SameText c.e (versionEdit m alts g c) := by
  unfold versionEdit
  split
  · exact hg _
  · exact ⟨rfl, rfl⟩

theorem inked_prep {m : List (String × String)} {sel : List XAlt} {t : Node} (h : t.Tidy) : Inked t (cybox201Prep m sel t) := by
  unfold cybox201Prep
  have h1 : Inked t ((cybox201Cls m sel).updateNamespaces [] t) := inked_ns h
  refine h1.trans ?_
  rw [cybox201Versions_eq, updateSchemalocs_eq]
  have h2 := inked_rel (P := SameText) (fun _ _ h => h) (rel_mapCtx (sameText_schemaloc (cybox201Cls m sel)) [] [] [] _) h1.2
  exact h2.trans (inked_rel (P := SameText) (fun _ _ h => h) (rel_mapCtx (sameText_version (g := setVersion21) (fun e => ⟨rfl, rfl⟩)) [] [] [] _) h2.2)

/-! ## Helpers: replaced fields -/

mutual
theorem ink_substCtx {R : Ctx → Option Node} {pos : Pos} {env : NsMap} {anc : List QName} : ∀ (t : Node), t.Tidy →
    (∀ c ∈ t.walk pos env anc, ∀ n, R c = some n → Inked c.node n) → Inked t (t.substCtx R pos env anc)
  | .other _ _, ht, _ => by simp only [Node.substCtx]; exact ⟨rfl, ht⟩
  | .elem e ks, ht, h => by
    simp only [Node.substCtx]
    split
    · next n hn => exact h ⟨pos, e.decls ++ env, anc, e, ks⟩ (by simp [Node.walk]) n hn
    · simp only [Node.Tidy] at ht
      obtain ⟨h1, h2, h3⟩ := inks_substCtxs (R := R) (pos := pos) (i := 0) (env := e.decls ++ env) (anc := e.tag :: anc) ks ht.2.2
        (fun c hc => h c (by simp [Node.walk, hc]))
      refine ⟨?_, ?_⟩
      · rw [ink_elem, ink_elem, h1]
      · simp only [Node.Tidy]
        exact ⟨fun hk => ht.1 (fun h0 => hk (h3.2 h0)), ht.2.1, h2⟩
theorem inks_substCtxs {R : Ctx → Option Node} {pos : Pos} {i : Nat} {env : NsMap} {anc : List QName} : ∀ (ks : List Node),
    Node.Tidys ks → (∀ c ∈ Node.walks pos i env anc ks, ∀ n, R c = some n → Inked c.node n) →
    (Node.charss (Node.substCtxs R pos i env anc ks)).filter (fun c => !isSpace c) = (Node.charss ks).filter (fun c => !isSpace c) ∧
      Node.Tidys (Node.substCtxs R pos i env anc ks) ∧ (Node.substCtxs R pos i env anc ks = [] ↔ ks = [])
  | [], _, _ => by simp [Node.substCtxs, Node.Tidys]
  | t :: ks, ht, h => by
    simp only [Node.Tidys] at ht
    simp only [Node.substCtxs, Node.Tidys]
    have h1 := ink_substCtx (R := R) (pos := i :: pos) (env := env) (anc := anc) t ht.1 (fun c hc => h c (by simp [Node.walks, hc]))
    have h2 := inks_substCtxs (R := R) (pos := pos) (i := i + 1) (env := env) (anc := anc) ks ht.2
      (fun c hc => h c (by simp [Node.walks, hc]))
    rw [ink_charss, ink_charss, h1.1, h2.1]
    exact ⟨rfl, ⟨h1.2, h2.2.1⟩, by simp⟩
end

theorem Replaced.inked {Sel : Ctx → Prop} {Q : Ctx → Node → Prop} {t t' : Node} (h : Replaced Sel Q t t') (ht : t.Tidy)
    (hq : ∀ c ∈ t.elems, ∀ n, Sel c → Q c n → c.node.Tidy → Inked c.node n) : Inked t t' := by
  obtain ⟨R, h1, h2, rfl⟩ := h
  refine ink_substCtx t ht (fun c hc n hn => ?_)
  obtain ⟨_, hs, hq'⟩ := Replaced.select h1 h2 hc hn
  exact hq c hc n hs hq' (tidy_walk t ht c hc)

/-! ## Helpers: removed elements -/

mutual
theorem tidy_prune {S : Ctx → Bool} {pos : Pos} {env : NsMap} {anc : List QName} : ∀ (t : Node), t.Tidy →
    (t.pruneCtx S pos env anc).Tidy
  | .other _ _, h => by simpa only [Node.pruneCtx] using h
  | .elem e ks, h => by
    simp only [Node.Tidy] at h
    simp only [Node.pruneCtx, Node.Tidy]
    refine ⟨fun hk => h.1 (fun h0 => hk ?_), h.2.1, tidys_prunes ks h.2.2⟩
    rw [h0]
    simp [Node.pruneCtxs]
theorem tidys_prunes {S : Ctx → Bool} {pos : Pos} {i : Nat} {env : NsMap} {anc : List QName} : ∀ (ks : List Node), Node.Tidys ks →
    Node.Tidys (Node.pruneCtxs S pos i env anc ks)
  | [], _ => by simp [Node.pruneCtxs, Node.Tidys]
  | .other c t :: ks, h => by
    simp only [Node.Tidys] at h
    simp only [Node.pruneCtxs, Node.Tidys]
    exact ⟨h.1, tidys_prunes ks h.2⟩
  | .elem e es :: ks, h => by
    simp only [Node.Tidys] at h
    simp only [Node.pruneCtxs]
    split
    · exact tidys_prunes ks h.2
    · exact ⟨tidy_prune (.elem e es) h.1, tidys_prunes ks h.2⟩
end

theorem bare_text {e : Elem} (h : Bare e) : BlankText e.text := by
  intro x hx
  cases he : e.text with
  | none => rw [he] at hx; simp at hx
  | some s => rw [he] at hx; exact h.2 s he x hx

mutual
theorem bare_ink : ∀ (t : Node), t.All Bare → t.Tidy → t.ink = []
  | .other _ s, _, h => by
    simp only [Node.Tidy] at h
    simp only [Node.ink, Node.chars, filter_blank h]
  | .elem e ks, hb, h => by
    simp only [Node.Tidy] at h
    rw [ink_elem, filter_blank h.2.1, bares_ink ks hb.2 h.2.2, filter_blank (bare_text hb.1)]
    rfl
theorem bares_ink : ∀ (ks : List Node), Node.Alls Bare ks → Node.Tidys ks → (Node.charss ks).filter (fun c => !isSpace c) = []
  | [], _, _ => charss_nil
  | k :: ks, hb, h => by
    simp only [Node.Tidys] at h
    rw [ink_charss, bare_ink k hb.1 h.1, bares_ink ks hb.2 h.2]
    rfl
end

theorem inked_gone {L : Node → Ctx → Prop} {t t' : Node} (h : OptionalsGone L t t') (ht : t.Tidy) : Inked t t' := by
  refine ⟨C22_text_partial L t t' h (fun c hc he => bare_ink _ he.2.2 (tidy_walk t ht c hc)), ?_⟩
  obtain ⟨S, _, rfl⟩ := h
  exact tidy_prune t ht

/-! ## Helpers: vocabularies -/

theorem steady_same {e e' : Elem} (h : VocabElem e e') (hs : Steady e) : SameText e e' := by
  refine ⟨?_, h.1.2.2.1⟩
  rcases h.2.2 with h1 | ⟨p, hp, h1, _⟩
  · exact h1
  · exact absurd h1 (hs p hp)

/-- The vocabulary pass leaves the text as it is: it is switched off, or there is nothing to correct. -/
def Settled (o : Options) (t : Node) : Prop := o.updateVocabularies = false ∨ t.All Steady

theorem vocabs_same {o : Options} {b d : Node} (h : Node.Rel VocabElem b d) (h0 : o.updateVocabularies = false → d = b)
    (hv : Settled o b) : Node.Rel (fun e e' => SameText e e' ∧ e'.tag = e.tag) b d := by
  rcases hv with hv | hv
  · rw [h0 hv]
    exact rel_refl (fun _ => ⟨⟨rfl, rfl⟩, rfl⟩) b
  · exact rel_mono (fun e e' h => ⟨steady_same h.1 h.2, h.1.1.1⟩) (rel_and h hv)

theorem inked_finished {o : Options} {L : Node → Ctx → Prop} {b t' : Node} (h : Finished o L b t') (hb : b.Tidy)
    (hv : Settled o b) : Inked b t' := by
  obtain ⟨d, h1, h2, h3, h4⟩ := h
  have hd := inked_rel (fun _ _ h => h.1) (vocabs_same h1 h4 hv) hb
  cases ho : o.removeOptionals with
  | false => rw [h3 ho]; exact hd
  | true => exact hd.trans (inked_gone (h2 ho) hd.2)

theorem finished_texts {o : Options} {L : Node → Ctx → Prop} {b t' : Node} (h : Finished o L b t') {A : Elem → Prop}
    (hA : ∀ e e', e'.text = e.text → e'.tag = e.tag → A e → A e') (hb : b.All A) (hv : Settled o b) : t'.All A := by
  obtain ⟨d, h1, h2, h3, h4⟩ := h
  have hd : d.All A := rel_all (A := A) (fun _ _ h => hA _ _ h.1.1 h.2) (vocabs_same h1 h4 hv) hb
  cases ho : o.removeOptionals with
  | false => rw [h3 ho]; exact hd
  | true =>
    obtain ⟨S, _, rfl⟩ := h2 ho
    exact all_pruneCtx d hd

/-! ## Helpers: CybOX fields -/

/-- Namespaces of elements renamed by the CybOX 2.0.1 step. -/
def fieldNss : List (Option String) :=
  [some "http://cybox.mitre.org/objects#WinDriverObject-3", some "http://cybox.mitre.org/objects#HTTPSessionObject-2",
    some "http://cybox.mitre.org/objects#PacketObject-2", some "http://cybox.mitre.org/objects#WinMailslotObject-2"]

/-- A condition on names and text that is not broken by leaving text out or by renaming elements into these namespaces. -/
def Robust (A : Elem → Prop) : Prop :=
  ∀ e e', (e'.text = e.text ∨ e'.text = none) → (e'.tag = e.tag ∨ e'.tag.ns ∈ fieldNss) → A e → A e'

theorem robust_steady : Robust Steady := by
  rintro e e' (h | h) _ hs p hp
  · rw [h]; exact hs p hp
  · rw [h]; simp

theorem all_prep {m : List (String × String)} {sel : List XAlt} {t : Node} {A : Elem → Prop} (hA : Robust A) (h : t.All A) :
    (cybox201Prep m sel t).All A := by
  unfold cybox201Prep
  rw [cybox201Versions_eq, updateSchemalocs_eq, updateNamespaces_eq]
  refine all_edit (P := A) (all_edit (P := A) (all_edit (P := A) h (fun c _ hc => ?_)) (fun c _ hc => ?_)) (fun c _ hc => ?_)
  · have hx := nsEdit_elem (cybox201Cls m sel) c
    rcases Classical.em (OldNs (cybox201Cls m sel).updateNsMap c.e.tag) with ho | ho
    · obtain ⟨h1, _, h3, _⟩ := hx.2 ho
      refine hA _ _ ?_ (Or.inr ?_) hc
      · rw [h3]
        split
        · exact Or.inl rfl
        · exact Or.inr rfl
      · rw [h1]
        obtain ⟨n, n2, n1⟩ := ho
        have n2' : n ∈ ["http://cybox.mitre.org/objects#WinDriverObject-2"] := n2
        rw [List.mem_singleton.1 n2'] at n1
        rw [n1]
        rw [show (cybox201Cls m sel).updateNsMap = Tables.cybox201_updateNsMap from rfl]
        show (some _ : Option String) ∈ fieldNss
        decide +kernel
    · rw [hx.1 ho]; exact hc
  · refine hA _ _ (Or.inl (sameText_schemaloc _ c).1) (Or.inl ?_) hc
    exact (sameData_schemaloc (L := preNames) (by decide) _ c).1
  · refine hA _ _ (Or.inl (sameText_version (g := setVersion21) (fun e => ⟨rfl, rfl⟩) c).1) (Or.inl ?_) hc
    unfold versionEdit
    split <;> rfl

/-- A header field that was a URI holds one value. -/
def OneValue (name : String) (t : Node) : Prop := ∀ c ∈ t.elems, Header name c → ∃ v, c.kids = [.elem v []] ∧
  v.tag = ⟨some "http://cybox.mitre.org/objects#URIObject-2", "Value"⟩

/-- A header field has no child nodes. -/
def NoKids (name : String) (t : Node) : Prop := ∀ c ∈ t.elems, Header name c → c.kids = []

theorem rels_nil {P : Elem → Elem → Prop} {ks : List Node} (h : Node.Rels P [] ks) : ks = [] := by
  cases ks with
  | nil => rfl
  | cons k ks => simp only [Node.Rels] at h

theorem rels_one {P : Elem → Elem → Prop} {v : Elem} {ks : List Node} (h : Node.Rels P [.elem v []] ks) :
    ∃ v', ks = [.elem v' []] ∧ P v v' := by
  match ks, h with
  | [.elem v' ks'], h =>
    simp only [Node.Rels, Node.Rel] at h
    exact ⟨v', by rw [rels_nil h.1.2], h.1.1⟩
  | [.other _ _], h => simp only [Node.Rels, Node.Rel] at h; exact absurd h.1 id
  | [], h => simp only [Node.Rels] at h
  | .elem _ _ :: _ :: _, h => simp only [Node.Rels] at h; exact absurd h.2 id
  | .other _ _ :: _ :: _, h => simp only [Node.Rels] at h; exact absurd h.2 id

theorem rel_header {P : Elem → Elem → Prop} (hP : ∀ e e', P e e' → ∀ q : QName,
      q.ns ≠ some "http://cybox.mitre.org/objects#WinDriverObject-3" → q.ns ≠ some "http://cybox.mitre.org/objects#WinDriverObject-2" →
      (e'.tag = q ↔ e.tag = q)) {a b : Node} (h : Node.Rel P a b) (name : String) :
    (OneValue name a → OneValue name b) ∧ (NoKids name a → NoKids name b) := by
  have back : ∀ c' ∈ b.elems, Header name c' → ∃ c ∈ a.elems, Header name c ∧ Node.Rels P c.kids c'.kids := by
    intro c' hc' ⟨x1, x2⟩
    obtain ⟨c, hc, _, hl, hp, hk⟩ := rel_elems h hc'
    exact ⟨c, hc, ⟨fun e => x1 (List.eq_nil_of_length_eq_zero (by rw [hl, e]; rfl)), (hP _ _ hp _ (by simp) (by simp)).1 x2⟩, hk⟩
  refine ⟨fun ha c' hc' hh => ?_, fun ha c' hc' hh => ?_⟩
  · obtain ⟨c, hc, hh', hk⟩ := back c' hc' hh
    obtain ⟨v, v1, v2⟩ := ha c hc hh'
    rw [v1] at hk
    obtain ⟨v', v3, v4⟩ := rels_one hk
    exact ⟨v', v3, (hP _ _ v4 _ (by decide) (by decide)).2 v2⟩
  · obtain ⟨c, hc, hh', hk⟩ := back c' hc' hh
    rw [ha c hc hh'] at hk
    exact rels_nil hk

theorem prep_header {t : Node} {m : List (String × String)} {sel : List XAlt} (name : String) :
    (OneValue name t → OneValue name (cybox201Prep m sel t)) ∧ (NoKids name t → NoKids name (cybox201Prep m sel t)) :=
  rel_header (fun _ _ h _ h3 h2 => ⟨fun ht => prep_tag h ht h3, fun ht => prep_fwd h ht h2⟩) (prep_pass m sel t) name

theorem header_header {Q : Ctx → Node → Prop} {x name : String} {a b : Node} (h : Replaced (Header x) Q a b)
    (hq : ∀ c n, Q c n → ∃ as tx, n = .elem ⟨c.e.tag, [], as, tx, none⟩ []) (hx : name ≠ x) :
    (OneValue name a → OneValue name b) ∧ (NoKids name a → NoKids name b) := by
  have new : ∀ c' ∈ b.elems, Header name c' → ∃ c ∈ a.elems, Header name c ∧ ∃ R : Ctx → Option Node,
      c'.kids = Node.substCtxs R c.pos 0 c.env (c.e.tag :: c.anc) c.kids ∧
      (∀ d ∈ a.elems, ∀ n, R d = some n → Header x d ∧ Q d n) ∧
      ∀ d ∈ Node.walks c.pos 0 c.env (c.e.tag :: c.anc) c.kids, d ∈ a.elems := by
    intro c' hc' hh
    rcases h.cases hc' with ⟨c, hm, R, rfl, h1, h2⟩ | ⟨c, hm, _, hs, n, env0, hn, hw⟩
    · exact ⟨c, hm, hh, R, rfl, h1, h2⟩
    · obtain ⟨as, tx, rfl⟩ := hq c n hn
      simp only [Node.walk, Node.walks, List.mem_singleton] at hw
      subst hw
      have h1 := hh.2
      simp only [hs.2, QName.mk.injEq, true_and] at h1
      exact absurd h1.symm hx
  refine ⟨fun ha c' hc' hh => ?_, fun ha c' hc' hh => ?_⟩
  · obtain ⟨c, hc, hh', R, r1, r2, r3⟩ := new c' hc' hh
    obtain ⟨v, v1, v2⟩ := ha c hc hh'
    refine ⟨v, ?_, v2⟩
    rw [r1, v1]
    rw [v1] at r3
    simp only [Node.walks, Node.walk, List.append_nil, List.mem_singleton, forall_eq] at r3
    simp only [Node.substCtxs, Node.substCtx]
    split
    · next n hn =>
      have := (r2 _ r3 n hn).1.2
      simp only [v2, QName.mk.injEq] at this
      exact absurd this.1 (by decide)
    · rfl
  · obtain ⟨c, hc, hh', R, r1, _⟩ := new c' hc' hh
    rw [r1, ha c hc hh']
    simp [Node.substCtxs]

theorem stringOf_leaf : ∀ c n, StringOf c n → ∃ as tx, n = .elem ⟨c.e.tag, [], as, tx, none⟩ [] :=
  fun _ _ ⟨v, as, _, hn, _⟩ => ⟨as, v.text, hn⟩

theorem refreshOf_leaf : ∀ c n, RefreshOf c n → ∃ as tx, n = .elem ⟨c.e.tag, [], as, tx, none⟩ [] :=
  fun c _ ⟨as, hn, _⟩ => ⟨as, c.e.text, hn⟩

theorem leaf_tidy (e : Elem) (h : BlankText e.tail) : (Node.elem e []).Tidy := by
  simp only [Node.Tidy, Node.Tidys]
  exact ⟨fun h => absurd rfl h, h, trivial⟩

theorem inked_string {name : String} {a b : Node} (h : Replaced (Header name) StringOf a b) (ha : a.Tidy) (ho : OneValue name a) :
    Inked a b := by
  refine h.inked ha ?_
  rintro c hc n hs ⟨v, as, ⟨i, ks, y1, _⟩, rfl, _⟩ ht
  obtain ⟨v', v1, _⟩ := ho c hc hs
  rw [v1] at y1
  cases i with
  | succ i => simp at y1
  | zero =>
    simp only [List.getElem?_cons_zero, Option.some.injEq, Node.elem.injEq] at y1
    obtain ⟨rfl, rfl⟩ := y1
    simp only [Ctx.node, v1, Node.Tidy, Node.Tidys] at ht
    refine ⟨?_, leaf_tidy _ blank_none⟩
    simp only [Ctx.node, v1]
    rw [ink_elem, ink_elem, ink_charss, ink_elem, charss_nil, filter_blank (ht.1 (by simp)), filter_blank ht.2.1,
      filter_blank ht.2.2.1.2.1, filter_blank blank_none]
    simp

theorem inked_refresh {a b : Node} (h : Replaced (Header "Refresh") RefreshOf a b) (ha : a.Tidy) (ho : NoKids "Refresh" a) :
    Inked a b := by
  refine h.inked ha ?_
  rintro c hc n hs ⟨as, rfl, _⟩ ht
  have hk := ho c hc hs
  simp only [Ctx.node, hk, Node.Tidy] at ht
  refine ⟨?_, leaf_tidy _ blank_none⟩
  simp only [Ctx.node, hk]
  rw [ink_elem, ink_elem, filter_blank ht.2.1, filter_blank blank_none]

theorem inked_respelt {a b : Node} (h : Respelt a b) (ha : a.Tidy) : Inked a b := by
  unfold Respelt at h
  rw [h]
  exact inked_rel (P := SameText) (fun _ _ h => h) (rel_mapCtx (fun c => by split <;> exact ⟨rfl, rfl⟩) [] [] [] a) ha

theorem inked_handle {a b : Node} (h : Replaced TwoLevel OnlyHandle a b) (ha : a.Tidy) : Inked a b := by
  refine h.inked ha ?_
  rintro c hc n hs ⟨e, ks, hk, _, rfl⟩ ht
  simp only [Ctx.node, hk, Node.Tidy, Node.Tidys] at ht
  refine ⟨?_, by simp only [Node.Tidy]; exact ht.2.2.1⟩
  simp only [Ctx.node, hk]
  rw [ink_elem, ink_elem, ink_charss, ink_elem, charss_nil, filter_blank (ht.1 (by simp)), filter_blank ht.2.1]
  simp

/-- A condition on names and text through the translation of the fields. -/
theorem all_fields {A : Elem → Prop} (hA : Robust A) {a b c d e f : Node} (g1 : Replaced (Header "DNT") StringOf a b)
    (g2 : Replaced (Header "Vary") StringOf b c) (g3 : Replaced (Header "Refresh") RefreshOf c d) (g4 : Respelt d e)
    (g5 : Replaced TwoLevel OnlyHandle e f) (ha : a.All A) : f.All A := by
  have str : ∀ {name : String} {a b : Node}, Replaced (Header name) StringOf a b → a.All A → b.All A := by
    intro name a b h ha
    refine all_elems.2 (fun c' hc' => ?_)
    rcases h.elems hc' with ⟨c, hm, he, _⟩ | ⟨c, hm, _, hs, n, env0, ⟨v, as, ⟨i, ks, y1, _⟩, rfl, _⟩, _, hw⟩
    · rw [he]; exact all_elems.1 ha c hm
    · simp only [Node.walk, Node.walks, List.mem_singleton] at hw
      rw [hw]
      have hc := (all_of_walk a ha c hm).2
      have hv : A v := (alls_iff.1 hc _ (List.mem_of_getElem? y1)).1
      refine hA v _ (Or.inl rfl) (Or.inr ?_) hv
      rw [hs.2]
      show (some _ : Option String) ∈ fieldNss
      decide
  have hd : d.All A := by
    refine all_elems.2 (fun c' hc' => ?_)
    rcases g3.elems hc' with ⟨x, hm, he, _⟩ | ⟨x, hm, _, hs, n, env0, ⟨as, rfl, _⟩, _, hw⟩
    · rw [he]; exact all_elems.1 (str g2 (str g1 ha)) x hm
    · simp only [Node.walk, Node.walks, List.mem_singleton] at hw
      rw [hw]
      exact hA x.e _ (Or.inl rfl) (Or.inl rfl) (all_elems.1 (str g2 (str g1 ha)) x hm)
  have he : e.All A := by
    unfold Respelt at g4
    rw [g4]
    refine all_edit hd (fun x _ hx => ?_)
    split
    · exact hx
    · refine hA x.e _ (Or.inl rfl) ?_ hx
      show respell x.e.tag = x.e.tag ∨ (respell x.e.tag).ns ∈ fieldNss
      rcases Classical.em (∃ p ∈ spelling, p.2 = respell x.e.tag) with ⟨p, hp, h⟩ | h
      · right
        rw [← h]
        have : ∀ p ∈ spelling, p.2.ns ∈ fieldNss := by decide
        exact this p hp
      · left
        exact (respell_inv rfl (fun p hp hq => h ⟨p, hp, hq⟩)).symm
  refine g5.all he ?_
  rintro x n hx ⟨y, ks, hk, _, rfl⟩
  have h2 := hx.2
  rw [hk] at h2
  exact ⟨hA y _ (Or.inl rfl) (Or.inr (show (some _ : Option String) ∈ fieldNss by decide)) h2.1.1, h2.1.2⟩

/-- The CybOX part of a step. -/
theorem cybox201_inked {m : List (String × String)} {sel : List XAlt} {o : Options} {t t' : Node}
    (h : cybox201Update (cybox201Cls m sel) o t = .ok t') (hs : Single t) (ht : t.Tidy) (hf : FieldTexts t) (hv : Settled o t) :
    Inked t t' ∧ ∀ A, Robust A → t.All A → t'.All A := by
  obtain ⟨⟨b, c, d, e, f, g1, g2, g3, g4, g5, g6⟩, _⟩ := handles_prep h hs
  have d0 : OneValue "DNT" t := fun c hc hh => (hf c hc).1 (Or.inl hh)
  have v0 : OneValue "Vary" t := fun c hc hh => (hf c hc).1 (Or.inr hh)
  have r0 : NoKids "Refresh" t := fun c hc hh => (hf c hc).2 hh
  have i0 : Inked t (cybox201Prep m sel t) := inked_prep ht
  have i1 := i0.trans (inked_string g1 i0.2 ((prep_header _).1 d0))
  have i2 := i1.trans (inked_string g2 i1.2 ((header_header g1 stringOf_leaf (by decide)).1 ((prep_header _).1 v0)))
  have i3 := i2.trans (inked_refresh g3 i2.2 ((header_header g2 stringOf_leaf (by decide)).2
    ((header_header g1 stringOf_leaf (by decide)).2 ((prep_header _).2 r0))))
  have i4 := i3.trans (inked_respelt g4 i3.2)
  have i5 := i4.trans (inked_handle g5 i4.2)
  have all : ∀ A, Robust A → t.All A → f.All A := fun A hA ha => all_fields hA g1 g2 g3 g4 g5 (all_prep hA ha)
  have hv' : Settled o f := hv.imp id (all _ robust_steady)
  exact ⟨i5.trans (inked_finished g6 i5.2 hv'), fun A hA ha => finished_texts g6 (fun e e' h1 h2 => hA e e' (Or.inl h1) (Or.inl h2))
    (all A hA ha) hv'⟩

/-! ## Helpers: STIX fields -/

theorem steady_none {e : Elem} (h : e.text = none) : Steady e := by intro p _; rw [h]; simp

theorem steady_text {e e' : Elem} (h : e'.text = e.text) (he : Steady e) : Steady e' := by intro p hp; rw [h]; exact he p hp

theorem steady_blank {s : String} (h : ∀ y ∈ s.toList, y = ' ' ∨ y = '\n') {e : Elem} (he : e.text = some s) : Steady e := by
  intro p hp hx
  rw [he] at hx
  have : ∀ p ∈ correctedTerms, ∃ y ∈ p.1.toList, y ≠ ' ' ∧ y ≠ '\n' := by decide
  obtain ⟨y, hy, h1, h2⟩ := this p hp
  rw [← Option.some.inj hx] at hy
  exact (h y hy).elim h1 h2

theorem inked_touched {a b : Node} (h : Node.Rel StixTouched a b) (ha : a.Tidy) : Inked a b :=
  inked_rel (fun _ _ h => ⟨h.2, h.1.2.2.1⟩) h ha

theorem wrap_ink {tag : QName} {e : Elem} {ks : List Node} (h : (Node.elem e ks).Tidy) :
    Inked (.elem e ks) (.elem ⟨tag, [], [], none, none⟩ [.elem e ks]) := by
  refine ⟨?_, ?_⟩
  · rw [ink_elem, ink_charss, charss_nil, filter_blank blank_none]
    simp
  · simp only [Node.Tidy, Node.Tidys] at h ⊢
    exact ⟨fun _ => blank_none, blank_none, h, trivial⟩

theorem retag_ink {tag : QName} {e : Elem} {ks : List Node} (h : (Node.elem e ks).Tidy) :
    Inked (.elem e ks) (.elem { e with tag := tag } ks) := by
  refine ⟨by rw [ink_elem, ink_elem], ?_⟩
  simp only [Node.Tidy] at h ⊢
  exact h

theorem sources_ink : ∀ ks : List Node, (∀ k ∈ ks, ∃ e es, k = .elem e es) → Node.Tidys ks →
    (Node.charss (ks.map asSource)).filter (fun c => !isSpace c) = (Node.charss ks).filter (fun c => !isSpace c) ∧
      Node.Tidys (ks.map asSource)
  | [], _, _ => ⟨rfl, trivial⟩
  | k :: ks, hk, ht => by
    obtain ⟨e, es, rfl⟩ := hk k (by simp)
    simp only [Node.Tidys] at ht
    obtain ⟨h1, h2⟩ := sources_ink ks (fun k h => hk k (by simp [h])) ht.2
    have h3 := retag_ink (tag := ⟨some "http://stix.mitre.org/common-1", "Identity"⟩) ht.1
    have h4 := h3.trans (wrap_ink (tag := ⟨some "http://stix.mitre.org/common-1", "Source"⟩) h3.2)
    rw [List.map_cons, ink_charss, ink_charss, h1]
    exact ⟨congrArg (· ++ _) h4.1, h4.2, h2⟩

/-- The text of a list of contributors is white space. -/
def BlankList (e : Elem) : Prop := e.tag = contributors → BlankText e.text

theorem robust_blankList : Robust BlankList := by
  rintro e e' h1 h2 hb ht
  rcases h1 with h1 | h1
  · rcases h2 with h2 | h2
    · rw [h1]; exact hb (h2 ▸ ht)
    · rw [ht] at h2; exact absurd h2 (by decide)
  · rw [h1]; exact blank_none

theorem stix101_inked {w : World} {o : Options} {t t' : Node} (hs : Single t)
    (h : (stix101 w).update o t = .ok t') (ht : t.Tidy) (hf : FieldTexts t) (hl : t.All BlankList) (hv : Settled o t) :
    Inked t t' ∧ Settled o t' := by
  obtain ⟨a, b, c, d, h1, h2, h3, h4, h5⟩ := stix101_stages h
  obtain ⟨i1, all⟩ := cybox201_inked (m := joinNsmap Tables.stix101_nsmap Tables.cybox201_nsmap) (sel := stix101Selectors) h1
    hs ht hf hv
  have l1 : a.All BlankList := all _ robust_blankList hl
  have l2 : b.All BlankList := rel_all (A := BlankList) (fun e e' he hp hx => by rw [he.2]; exact hp (touched_tag he ▸ hx)) h2 l1
  have i2 := i1.trans (inked_touched h2 i1.2)
  have i3 : Inked t c := by
    refine i2.trans (h3.inked i2.2 ?_)
    rintro x hx n hs ⟨y1, rfl⟩ hxt
    have hb := all_elems.1 l2 x hx hs.2
    simp only [Ctx.node, Node.Tidy] at hxt
    obtain ⟨k1, k2⟩ := sources_ink x.kids y1 hxt.2.2
    refine ⟨?_, ?_⟩
    · simp only [Ctx.node]
      rw [ink_elem, ink_elem, k1, filter_blank hb, filter_blank hxt.2.1, filter_blank blank_none]
    · simp only [Node.Tidy]
      exact ⟨fun _ => blank_none, blank_none, k2⟩
  have i4 : Inked t d := by
    refine i3.trans (h4.inked i3.2 ?_)
    rintro x hx n hs rfl hxt
    exact wrap_ink hxt
  have sd : Settled o d := by
    refine hv.imp id (fun hs => ?_)
    have s2 : b.All Steady := rel_all (A := Steady) (fun e e' he hp => steady_text he.2 hp) h2 (all _ robust_steady hs)
    have s3 : c.All Steady := by
      refine h3.all s2 ?_
      rintro x n hx ⟨y1, rfl⟩
      refine ⟨steady_none rfl, alls_iff.2 (fun k hk => ?_)⟩
      obtain ⟨k0, hk0, rfl⟩ := List.mem_map.1 hk
      obtain ⟨e, es, rfl⟩ := y1 k0 hk0
      have h0 := alls_iff.1 hx.2 _ hk0
      exact ⟨steady_none rfl, ⟨steady_text (e := e) rfl h0.1, h0.2⟩, trivial⟩
    refine h4.all s3 ?_
    rintro x n hx rfl
    exact ⟨steady_none rfl, hx, trivial⟩
  exact ⟨i4.trans (inked_finished h5 i4.2 sd), sd.imp id (fun hs => finished_texts h5 (fun _ _ h1 _ hs => steady_text h1 hs) hs sd)⟩

/-- A source that was a string is plain text, without child nodes. -/
def PlainSources11 (Sel : Ctx → Prop) (t : Node) : Prop := ∀ c ∈ t.elems, Sel c → (∃ s, c.e.text = some s ∧ PlainText s) ∧ c.kids = []

theorem white_blank {s : String} (h : ∀ y ∈ s.toList, y = ' ' ∨ y = '\n') : BlankText (some s) := by
  intro x hx
  rcases h x hx with rfl | rfl <;> decide

theorem named_inked {Sel : Ctx → Prop} {a b : Node} (h : Replaced Sel NamedSource a b) (ha : a.Tidy) (hp : PlainSources11 Sel a) :
    Inked a b := by
  refine h.inked ha ?_
  intro c hc n hs hn ht
  obtain ⟨⟨s, s1, s2⟩, hk⟩ := hp c hc hs
  obtain ⟨ds, ds', i, j, k, l, hw, rfl⟩ := hn s s1 s2
  have bi := white_blank (hw i (by simp))
  have bj := white_blank (hw j (by simp))
  have bk := white_blank (hw k (by simp))
  have bl := white_blank (hw l (by simp))
  simp only [Ctx.node, hk, Node.Tidy] at ht
  refine ⟨?_, ?_⟩
  · simp only [Ctx.node, hk]
    simp only [ink_elem, ink_charss, charss_nil]
    rw [filter_blank bi, filter_blank bj, filter_blank bk, filter_blank bl, filter_blank ht.2.1, filter_blank blank_none, s1]
    simp
  · simp only [Node.Tidy, Node.Tidys]
    exact ⟨fun _ => bi, blank_none, ⟨fun _ => bj, bk, ⟨fun h => absurd rfl h, bl, trivial⟩, trivial⟩, trivial⟩

theorem named_steady {Sel : Ctx → Prop} {a b : Node} (h : Replaced Sel NamedSource a b) (ha : a.All Steady)
    (hp : PlainSources11 Sel a) : b.All Steady := by
  refine all_elems.2 (fun c' hc' => ?_)
  rcases h.elems hc' with ⟨c, hm, he, _⟩ | ⟨c, hm, _, hs, n, env0, hn, _, hw⟩
  · rw [he]; exact all_elems.1 ha c hm
  · obtain ⟨⟨s, s1, s2⟩, _⟩ := hp c hm hs
    obtain ⟨ds, ds', i, j, k, l, hb, rfl⟩ := hn s s1 s2
    have := all_elems.1 ha c hm
    have hall : Node.All Steady (.elem ⟨c.e.tag, ds, [], some i, none⟩
      [.elem ⟨⟨some "http://stix.mitre.org/common-1", "Identity"⟩, ds', [], some j, some k⟩
        [.elem ⟨⟨some "http://stix.mitre.org/common-1", "Name"⟩, [], [], some s, some l⟩ []]]) :=
      ⟨steady_blank (hb i (by simp)) rfl, ⟨steady_blank (hb j (by simp)) rfl, ⟨steady_text s1.symm this, trivial⟩, trivial⟩, trivial⟩
    exact (all_iff _ _ _ _).1 hall c' hw

theorem stix11_inked {w : World} {o : Options} {t t' : Node} (h : (stix11 w).update o t = .ok t') (ht : t.Tidy)
    (hp : PlainSources11 (fun c => StringSource c ∨ SightingSource c) t) (hv : Settled o t) : Inked t t' ∧ Settled o t' := by
  obtain ⟨a, b, c, d, h1, h2, h3, h4, h5⟩ := stix11_stages h
  have i1 := inked_touched h1 ht
  have p1 : PlainSources11 (fun c => StringSource c ∨ SightingSource c) a := by
    intro c' hc' hs
    obtain ⟨x, hx, _, ha, he, hk⟩ := rel_elems_anc (fun _ _ h => touched_tag h) h1 hc'
    have hs' : StringSource x ∨ SightingSource x := by
      unfold StringSource SightingSource InParent at hs ⊢
      rw [← touched_tag he, ← ha]
      exact hs
    obtain ⟨q1, q2⟩ := hp x hx hs'
    rw [q2] at hk
    exact ⟨he.2 ▸ q1, rels_nil hk⟩
  have ps : PlainSources11 StringSource a := fun c hc hs => p1 c hc (Or.inl hs)
  have i2 := i1.trans (named_inked h2 i1.2 ps)
  have p2 : PlainSources11 SightingSource b := by
    intro c' hc' hs
    rcases h2.cases hc' with ⟨x, hm, R, rfl, _⟩ | ⟨x, hm, _, hsel, n, env0, hn, hw⟩
    · obtain ⟨q1, q2⟩ := p1 x hm (Or.inr hs)
      exact ⟨q1, by simp [q2, Node.substCtxs]⟩
    · exfalso
      obtain ⟨⟨s, s1, s2⟩, _⟩ := ps x hm hsel
      obtain ⟨ds, ds', i, j, k, l, _, rfl⟩ := hn s s1 s2
      obtain ⟨_, _, hx⟩ := hsel
      have h1 := hs.1
      simp only [Node.walk, Node.walks, List.mem_cons, List.append_nil, List.not_mem_nil, or_false] at hw
      rcases hw with rfl | rfl | rfl
      · simp only at h1; rw [hx.1] at h1; exact absurd h1 (by decide)
      · exact absurd h1 (by simp)
      · exact absurd h1 (by simp)
  have i3 := i2.trans (named_inked h3 i2.2 p2)
  have i4 : Inked t d := by
    refine i3.trans (h4.inked i3.2 ?_)
    rintro x hx n hs rfl hxt
    have := retag_ink (tag := ⟨some "http://stix.mitre.org/common-1", "Campaign"⟩) hxt
    exact this.trans (wrap_ink this.2)
  have sd : Settled o d := by
    refine hv.imp id (fun hs => ?_)
    have s1 : a.All Steady := rel_all (A := Steady) (fun e e' he hp => steady_text he.2 hp) h1 hs
    refine h4.all (named_steady h3 (named_steady h2 s1 ps) p2) ?_
    rintro x n hx rfl
    exact ⟨steady_none rfl, ⟨steady_text (e := x.e) rfl hx.1, hx.2⟩, trivial⟩
  exact ⟨i4.trans (inked_finished h5 i4.2 sd), sd.imp id (fun hs => finished_texts h5 (fun _ _ h1 _ hs => steady_text h1 hs) hs sd)⟩

/-! ## Helpers: lists -/

theorem replaceAux_self {old new : List Char} : ∀ {cs : List Char}, ¬ old <:+: cs → replaceAux old new 0 cs = cs
  | [], _ => rfl
  | c :: cs, h => by
    simp only [replaceAux]
    split
    · next hp => exact absurd (List.IsPrefix.isInfix (List.isPrefixOf_iff_prefix.1 hp)) h
    · rw [replaceAux_self (fun h' => h (h'.trans (List.suffix_cons c cs).isInfix))]

theorem listText_self {s : String} (h1 : ',' ∉ s.toList) (h2 : ¬ "&comma;".toList <:+: s.toList) : updateListText s = s := by
  have e1 : pyReplace "," "##comma##" s = s := by
    unfold pyReplace
    rw [replaceAux_self, String.ofList_toList]
    intro hx
    exact h1 (hx.subset (by decide))
  unfold updateListText
  rw [e1]
  unfold pyReplace
  rw [replaceAux_self h2, String.ofList_toList]

theorem listElem_self {e : Elem} (h : ∀ s, e.text = some s → ',' ∉ s.toList ∧ ¬ "&comma;".toList <:+: s.toList) :
    updateListElem e = e := by
  unfold updateListElem
  split
  · rfl
  · next s hs =>
    split
    · rfl
    · obtain ⟨h1, h2⟩ := h s hs
      rw [listText_self h1 h2, ← hs]

theorem iter_self {α : Type} {f : α → α} {a : α} (h : f a = a) : ∀ n, iter f n a = a
  | 0 => rfl
  | n + 1 => by simp only [iter, iter_self h n, h]

theorem propsDepth_mem {obj prop : QName} : ∀ {l : List QName}, prop ∉ l → propsDepth obj prop l = 0
  | [], _ => rfl
  | q :: qs, h => by
    simp only [propsDepth]
    rw [propsDepth_mem (fun hx => h (List.mem_cons_of_mem _ hx)),
      if_neg (fun hx : q = prop ∧ qs.head? = some obj => h (hx.1 ▸ List.mem_cons_self ..))]

theorem cybox20_inked {m : List (String × String)} {sel : List XAlt} {o : Options} {t t' : Node}
    (hm : XName.resolve m ⟨"cybox", "Properties"⟩ = ⟨some "http://cybox.mitre.org/cybox-2", "Properties"⟩)
    (h : cybox20Update (cybox20Cls m sel) o t = .ok t') (ht : t.Tidy) (hc : CommaFree t) (hv : Settled o t) :
    Inked t t' ∧ Settled o t' := by
  simp only [cybox20Update] at h
  rw [updateSchemalocs_eq, cybox20Versions_eq, updateLists_eq] at h
  let a := (t.edit (schemalocEdit (cybox20Cls m sel))).edit
    (versionEdit (cybox20Cls m sel).nsmap (cybox20Cls m sel).xpathVersioned setVersion201)
  have ra : Node.Rel (fun e e' => SameText e e' ∧ e'.tag = e.tag) t a := by
    refine Node.Rel.comp (P := fun e e' => SameText e e' ∧ e'.tag = e.tag) (Q := fun e e' => SameText e e' ∧ e'.tag = e.tag)
      (fun a b c h1 h2 => ⟨⟨h2.1.1.trans h1.1.1, h2.1.2.trans h1.1.2⟩, h2.2.trans h1.2⟩)
      (rel_mapCtx (fun c => ⟨sameText_schemaloc _ c, (keeps_schemaloc _ c).1⟩) [] [] [] t)
      (rel_mapCtx (fun c => ⟨sameText_version (g := setVersion201) (fun e => ⟨rfl, rfl⟩) c, ?_⟩) [] [] [] _)
    unfold versionEdit
    split <;> rfl
  have hl : a.edit (listsEdit (cybox20Cls m sel).nsmap) = a := by
    refine edit_self (fun c' hc' => ?_)
    obtain ⟨c, hm', _, ha, he, _⟩ := rel_elems_anc (fun _ _ h => h.2) ra hc'
    unfold listsEdit
    rw [show XName.resolve (cybox20Cls m sel).nsmap ⟨"cybox", "Properties"⟩ = _ from hm]
    by_cases hp : (⟨some "http://cybox.mitre.org/cybox-2", "Properties"⟩ : QName) ∈ c'.anc
    · refine iter_self (listElem_self (fun s hs => ?_)) _
      rw [he.1.1] at hs
      exact hc c hm' (ha ▸ hp) s hs
    · rw [propsDepth_mem hp]; rfl
  rw [show (t.edit (schemalocEdit (cybox20Cls m sel))).edit
    (versionEdit (cybox20Cls m sel).nsmap (cybox20Cls m sel).xpathVersioned setVersion201) = a from rfl, hl] at h
  have ia := inked_rel (fun _ _ h => h.1) ra ht
  have sa : Settled o a := hv.imp id (fun hs => rel_all (A := Steady) (fun e e' he hp => steady_text he.1.1 hp) ra hs)
  have rv := vocabs_same (vocabsIf_rel (by simp only [cybox20Cls]; decide) h) (vocabsIf_off h) sa
  exact ⟨ia.trans (inked_rel (fun _ _ h => h.1) rv ia.2),
    sa.imp id (fun hs => rel_all (A := Steady) (fun e e' he hp => steady_text he.1.1 hp) rv hs)⟩

/-- A step without other fields: schema locations, versions, vocabularies. -/
theorem plain_inked {u : Cls} (hu : ∀ v ∈ u.vocabs, ∀ p ∈ v.terms, p ∈ correctedTerms) {i v : String} {o : Options} {t t' : Node}
    (h : (if o.updateVocabularies then updateVocabs u.vocabs (stixUpdateVersions u i v (u.updateSchemalocs t))
      else .ok (stixUpdateVersions u i v (u.updateSchemalocs t))) = .ok t') (ht : t.Tidy) (hv : Settled o t) :
    Inked t t' ∧ Settled o t' := by
  have ra : Node.Rel StixTouched t (stixUpdateVersions u i v (u.updateSchemalocs t)) :=
    Node.Rel.comp touched_trans (touched_schemaloc _ t) (touched_versions _ _ _ _)
  have ia := inked_touched ra ht
  have sa := hv.imp id (fun hs => rel_all (A := Steady) (fun e e' he hp => steady_text he.2 hp) ra hs)
  have rv := vocabs_same (vocabsIf_rel hu h) (vocabsIf_off h) sa
  exact ⟨ia.trans (inked_rel (fun _ _ h => h.1) rv ia.2),
    sa.imp id (fun hs => rel_all (A := Steady) (fun e e' he hp => steady_text he.1.1 hp) rv hs)⟩

theorem stix10_inked {o : Options} {t t' : Node} (h : stix10.update o t = .ok t') (ht : t.Tidy) (hc : CommaFree t)
    (hv : Settled o t) : Inked t t' ∧ Settled o t' := by
  simp only [stix10, stix10Update] at h
  split at h
  · cases h
  · next a h1 =>
    obtain ⟨i1, s1⟩ := cybox20_inked (m := joinNsmap Tables.stix10_nsmap Tables.cybox20_nsmap) (sel := stix10Selectors)
      (by decide +kernel) h1 ht hc hv
    rw [updateNamespaces_none rfl] at h
    obtain ⟨i2, s2⟩ := plain_inked (u := stix10Cls) (by decide) h i1.2 s1
    exact ⟨i1.trans i2, s2⟩

theorem stix12_inked {o : Options} {t t' : Node} (h : stix12.update o t = .ok t') (ht : t.Tidy) (hv : Settled o t) :
    Inked t t' ∧ Settled o t' := by
  have hi := C25_text_partial o t t' (tidy_noMixed ht) h
  have h' : stix12Update o t = .ok t' := h
  simp only [stix12Update, Except.ok.injEq] at h'
  have hb : SameBelowRoot (stix12Cls.updateNamespaces [] t) t' := h' ▸ stix12_root
  have hn : Inked t (stix12Cls.updateNamespaces [] t) := inked_ns ht
  have hs : t.All Steady → (stix12Cls.updateNamespaces [] t).All Steady := by
    intro hs
    rw [updateNamespaces_eq]
    refine all_edit hs (fun c _ hc => ?_)
    have hx := nsEdit_elem stix12Cls c
    rcases Classical.em (OldNs stix12Cls.updateNsMap c.e.tag) with ho | ho
    · have h3 := (hx.2 ho).2.2.1
      by_cases hk : c.kids = []
      · rw [if_pos hk] at h3; exact steady_text h3 hc
      · rw [if_neg hk] at h3; exact steady_none h3
    · rw [hx.1 ho]; exact hc
  rcases hb with hb | ⟨e, e', ks, h1, h2, h3, h4⟩
  · rw [← hb]
    exact ⟨hn, hv.imp id hs⟩
  · refine ⟨⟨hi, ?_⟩, hv.imp id (fun hv => ?_)⟩
    · have := hn.2
      rw [h1] at this
      rw [h2]
      simp only [Node.Tidy] at this ⊢
      rw [h3, h4.2.2.1]
      exact this
    · have := hs hv
      rw [h1] at this
      rw [h2]
      exact ⟨steady_text h3 this.1, this.2⟩

/-! ## Helpers: the chain -/

theorem lossless_sel {Sel : Ctx → Prop} {t : Node} (ht : t.All Lossless) (hs : ∀ c, Sel c → c.e.tag ∈ lossyTags) :
    ∀ c ∈ t.elems, ¬ Sel c := fun c hc h => all_elems.1 ht c hc (hs c h)

theorem lossless_texts {t : Node} (ht : t.All Lossless) : FieldTexts t := by
  intro c hc
  have := all_elems.1 ht c hc
  refine ⟨?_, fun h => absurd (show c.e.tag ∈ lossyTags by rw [h.2]; decide) this⟩
  rintro (h | h)
  · exact absurd (show c.e.tag ∈ lossyTags by rw [h.2]; decide) this
  · exact absurd (show c.e.tag ∈ lossyTags by rw [h.2]; decide) this

/-- The steps that do not change lists. -/
inductive Later (w : World) : Updater → Prop
  | cybox201 : Later w cybox201
  | stix101 : Later w (stix101 w)
  | stix11 : Later w (stix11 w)
  | stix111 : Later w stix111
  | stix12 : Later w stix12

theorem lossless_single {t : Node} (ht : t.All Lossless) : Single t :=
  fun c hc h => absurd (show c.e.tag ∈ lossyTags by rw [h.2.1]; decide) (all_elems.1 ht c hc)

theorem later_inked {w : World} {u : Updater} (hu : Later w u) {o : Options} {t t' : Node}
    (h : u.update o t = .ok t') (ht : t.Tidy) (hl : t.All Lossless) (hv : Settled o t) : Inked t t' ∧ Settled o t' := by
  cases hu with
  | cybox201 =>
    obtain ⟨i, all⟩ := cybox201_inked h (lossless_single hl) ht (lossless_texts hl) hv
    exact ⟨i, hv.imp id (all _ robust_steady)⟩
  | stix101 =>
    refine stix101_inked (lossless_single hl) h ht (lossless_texts hl) (hl.mono (fun e he hx => ?_)) hv
    exact absurd (show e.tag ∈ lossyTags by rw [hx]; decide) he
  | stix11 =>
    refine stix11_inked h ht (fun c hc hs => absurd (all_elems.1 hl c hc) (not_not_intro ?_)) hv
    rcases hs with ⟨_, _, hs⟩ | hs
    · rw [hs.1]; decide
    · rw [hs.1]; decide
  | stix111 => exact plain_inked (u := stix111Cls) (by decide) h ht hv
  | stix12 => exact stix12_inked h ht hv

theorem step_inked {w : World} {u : Updater} (hu : Registered w u) {o : Options} {t t' : Node}
    (h : u.update o t = .ok t') (ht : t.Tidy) (hl : t.All Lossless) (hv : Settled o t) (hf : Later w u ∨ CommaFree t) :
    Inked t t' ∧ Settled o t' := by
  rcases hf with hf | hf
  · exact later_inked hf h ht hl hv
  · cases hu with
    | cybox20 => exact cybox20_inked (by decide +kernel) h ht hf hv
    | stix10 => exact stix10_inked h ht hf hv
    | cybox201 => exact later_inked (w := w) .cybox201 h ht hl hv
    | stix101 => exact later_inked .stix101 h ht hl hv
    | stix11 => exact later_inked .stix11 h ht hl hv
    | stix111 => exact later_inked (w := w) .stix111 h ht hl hv
    | stix12 => exact later_inked (w := w) .stix12 h ht hl hv

theorem chainLoop_inked {w : World} (reg : List (String × Updater)) (first : String)
    (hreg : ∀ v u, assoc reg v = some u → Registered w u ∧ (v ≠ first → Later w u)) (o : Options) :
    ∀ (vs : List String) (acc : Result) (k : Nat) (r : Result) (k' : Nat), chainLoop reg o false vs acc k = .ok (r, k') →
    acc.doc.Tidy → acc.doc.All Lossless → Settled o acc.doc → (CommaFree acc.doc ∨ first ∉ vs) → first ∉ vs.tail →
    r.doc.ink = acc.doc.ink
  | [], acc, k, r, k', h, _, _, _, _, _ => by simp only [chainLoop, Except.ok.injEq, Prod.mk.injEq] at h; rw [h.1]
  | v :: vs, acc, k, r, k', h, ht, hl, hv, hc, hf => by
    simp only [chainLoop] at h
    split at h
    · cases h
    · next u hu =>
      split at h
      · cases h
      · next r1 k1 hs =>
        obtain ⟨g1, g2⟩ := hreg v u hu
        obtain ⟨l1, _⟩ := update_lossless g1 (unforced_update hs) hl
        have hf' : Later w u ∨ CommaFree acc.doc := by
          rcases hc with hc | hc
          · exact Or.inr hc
          · exact Or.inl (g2 (fun e => hc (e ▸ List.mem_cons_self ..)))
        obtain ⟨i1, s1⟩ := step_inked g1 (unforced_update hs) ht hl hv hf'
        have := chainLoop_inked reg first hreg o vs _ k1 r k' h i1.2 l1 s1 (Or.inr hf)
          (fun hx => hf (List.mem_of_mem_tail hx))
        rw [this]
        exact i1.1

theorem later_stix {w : World} {v : String} {u : Updater} (h : assoc (stixUpdaters w) v = some u) (hv : v ≠ "1.0") : Later w u := by
  have := assoc_mem h
  simp only [stixUpdaters, List.mem_cons, Prod.mk.injEq, List.not_mem_nil, or_false] at this
  rcases this with ⟨h1, rfl⟩ | ⟨_, rfl⟩ | ⟨_, rfl⟩ | ⟨_, rfl⟩ | ⟨_, rfl⟩
  · exact absurd h1 hv
  · exact .stix101
  · exact .stix11
  · exact .stix111
  · exact .stix12

theorem later_cybox {w : World} {v : String} {u : Updater} (h : assoc cyboxUpdaters v = some u) (hv : v ≠ "2.0") : Later w u := by
  have := assoc_mem h
  simp only [cyboxUpdaters, List.mem_cons, Prod.mk.injEq, List.not_mem_nil, or_false] at this
  rcases this with ⟨h1, rfl⟩ | ⟨_, rfl⟩
  · exact absurd h1 hv
  · exact .cybox201

theorem slice_tail {vs : List String} {f g x : String} (h : x ∈ (versionSlice vs f g).tail) : x ∈ vs.tail := by
  unfold versionSlice at h
  generalize vs.idxOf f = i at h
  generalize vs.idxOf g = j at h
  cases vs with
  | nil => simp at h
  | cons v vs =>
    rw [← List.drop_one, List.drop_drop] at h
    cases j with
    | zero => simp at h
    | succ j =>
      rw [List.take_succ_cons, List.drop_succ_cons] at h
      exact List.mem_of_mem_take (List.mem_of_mem_drop h)

/-! ## C47 -/

/-- C47 for the steps that translate no field: no character other than white space is lost, added or moved.
Partial: the document has no mixed content; text inside object properties has no commas if the step is one that changes the
separator of lists (C27); no text is a vocabulary term to correct, unless vocabularies are left alone (C20). -/
theorem C47_plain_steps_partial (u : Updater) (hu : u = cybox20 ∨ u = stix10 ∨ u = stix111 ∨ u = stix12) (o : Options) (k k' : Nat)
    (t : Node) (r : Result) (h : stepUpdate u o false k t = .ok (r, k')) (ht : t.Tidy)
    (hc : u = cybox20 ∨ u = stix10 → CommaFree t)
    (hv : o.updateVocabularies = false ∨ ∀ c ∈ t.elems, ∀ p ∈ correctedTerms, c.e.text ≠ some p.1) : r.doc.ink = t.ink := by
  have hv' : Settled o t := hv.imp id all_elems.2
  rcases hu with rfl | rfl | rfl | rfl
  · exact (cybox20_inked (by decide +kernel) (unforced_update h) ht (hc (Or.inl rfl)) hv').1.1
  · exact (stix10_inked (unforced_update h) ht (hc (Or.inr rfl)) hv').1.1
  · exact (plain_inked (u := stix111Cls) (by decide) (unforced_update h) ht hv').1.1
  · exact (stix12_inked (unforced_update h) ht hv').1.1

/-- C47 for CybOX 2.0.1 to 2.1.  Partial: as before; and text in a header field is only in its URI value, or in the field itself
if it is a refresh field. -/
theorem C47_cybox201_partial (o : Options) (k k' : Nat) (t : Node) (r : Result) (h : stepUpdate cybox201 o false k t = .ok (r, k'))
    (ht : t.Tidy) (hf : FieldTexts t)
    (hv : o.updateVocabularies = false ∨ ∀ c ∈ t.elems, ∀ p ∈ correctedTerms, c.e.text ≠ some p.1) : r.doc.ink = t.ink :=
  (cybox201_inked (unforced_update h) (check_single (unforced_check h)) ht hf (hv.imp id all_elems.2)).1.1

/-- C47 for STIX 1.0.1 to 1.1.  Partial: as for CybOX; and a list of contributors has no text of its own. -/
theorem C47_stix101_partial (w : World) (o : Options) (k k' : Nat) (t : Node) (r : Result)
    (h : stepUpdate (stix101 w) o false k t = .ok (r, k')) (ht : t.Tidy) (hf : FieldTexts t)
    (hl : ∀ c ∈ t.elems, c.e.tag = contributors → BlankText c.e.text)
    (hv : o.updateVocabularies = false ∨ ∀ c ∈ t.elems, ∀ p ∈ correctedTerms, c.e.text ≠ some p.1) : r.doc.ink = t.ink :=
  (stix101_inked (stix_check_single (unforced_check h)) (unforced_update h) ht hf (all_elems.2 hl) (hv.imp id all_elems.2)).1.1

/-- C47 for STIX 1.1 to 1.1.1.  Partial: as before; and the sources that were strings are plain text. -/
theorem C47_stix11_partial (w : World) (o : Options) (k k' : Nat) (t : Node) (r : Result)
    (h : stepUpdate (stix11 w) o false k t = .ok (r, k')) (ht : t.Tidy)
    (hp : ∀ c ∈ t.elems, StringSource c ∨ SightingSource c → (∃ s, c.e.text = some s ∧ PlainText s) ∧ c.kids = [])
    (hv : o.updateVocabularies = false ∨ ∀ c ∈ t.elems, ∀ p ∈ correctedTerms, c.e.text ≠ some p.1) : r.doc.ink = t.ink :=
  (stix11_inked (unforced_update h) ht hp (hv.imp id all_elems.2)).1.1

/-- C47 for a whole update from any release to any other.  Partial: as before; and the document has none of the elements that
are replaced by others. -/
theorem C47_update_partial (w : World) (t : Node) (from_ to_ : Option String) (o : Options) (k k' : Nat) (r : Result)
    (h : update w t from_ to_ o false k = .ok (r, k')) (ht : t.Tidy) (hl : ∀ c ∈ t.elems, c.e.tag ∉ lossyTags) (hc : CommaFree t)
    (hv : o.updateVocabularies = false ∨ ∀ c ∈ t.elems, ∀ p ∈ correctedTerms, c.e.text ≠ some p.1) : r.doc.ink = t.ink := by
  have chain : ∀ vs reg f g first, (∀ v u, assoc reg v = some u → Registered w u ∧ (v ≠ first → Later w u)) → first ∉ vs.tail →
      runChain vs reg t f g o false k = .ok (r, k') → r.doc.ink = t.ink := by
    intro vs reg f g first hreg hfirst h
    simp only [runChain] at h
    split at h
    · cases h
    · refine chainLoop_inked reg first hreg o _ _ k r k' h ht (all_elems.2 hl) (hv.imp id all_elems.2) (Or.inl hc) ?_
      exact fun hx => hfirst (slice_tail hx)
  simp only [update] at h
  split at h
  · cases h
  · split at h
    · exact chain _ _ _ _ "1.0" (fun v u hu => ⟨registered_stix hu, later_stix hu⟩) (by decide) h
    · split at h
      · split at h
        · cases h
        · simp only [cyboxUpdate] at h
          split at h
          · cases h
          · exact chain _ _ _ _ "2.0" (fun v u hu => ⟨registered_cybox hu, later_cybox hu⟩) (by decide) h
      · cases h

/-! ### Cases that meet the hypotheses -/

mutual
/-- `Tidy`, computed. -/
def Node.tidyB : Node → Bool
  | .elem e ks => (ks.isEmpty || (e.text.getD "").toList.all isSpace) && (e.tail.getD "").toList.all isSpace && Node.tidysB ks
  | .other _ t => (t.getD "").toList.all isSpace
/-- `Tidys`, computed. -/
def Node.tidysB : List Node → Bool
  | [] => true
  | k :: ks => k.tidyB && Node.tidysB ks
end

mutual
theorem tidy_of : ∀ {t : Node}, t.tidyB = true → t.Tidy
  | .elem e ks, h => by
    simp only [Node.tidyB, Bool.and_eq_true, Bool.or_eq_true, List.isEmpty_iff, List.all_eq_true] at h
    simp only [Node.Tidy]
    exact ⟨fun hk => h.1.1.resolve_left hk, h.1.2, tidys_of h.2⟩
  | .other _ _, h => by simpa only [Node.tidyB, List.all_eq_true, Node.Tidy, BlankText] using h
theorem tidys_of : ∀ {ks : List Node}, Node.tidysB ks = true → Node.Tidys ks
  | [], _ => trivial
  | _ :: _, h => by
    simp only [Node.tidysB, Bool.and_eq_true] at h
    exact ⟨tidy_of h.1, tidys_of h.2⟩
end

theorem commaFree_of {t : Node} (h : ∀ c ∈ t.elems, (⟨some "http://cybox.mitre.org/cybox-2", "Properties"⟩ : QName) ∈ c.anc →
    ',' ∉ (c.e.text.getD "").toList ∧ '&' ∉ (c.e.text.getD "").toList) : CommaFree t := by
  intro c hc hp s hs
  have := h c hc hp
  rw [hs] at this
  exact ⟨this.1, fun hx => this.2 (hx.subset (by decide))⟩

/-- The only child node has no child nodes and this name. -/
def onlyChild (q : QName) : List Node → Bool
  | [.elem v []] => decide (v.tag = q)
  | _ => false

theorem onlyChild_spec {q : QName} {ks : List Node} (h : onlyChild q ks = true) : ∃ v, ks = [.elem v []] ∧ v.tag = q := by
  unfold onlyChild at h
  split at h
  · next v => exact ⟨v, rfl, of_decide_eq_true h⟩
  · cases h

theorem fieldTexts_of {t : Node} (h : ∀ c ∈ t.elems,
    (c.e.tag.name = "DNT" ∨ c.e.tag.name = "Vary" → onlyChild ⟨some "http://cybox.mitre.org/objects#URIObject-2", "Value"⟩ c.kids = true) ∧
    (c.e.tag.name = "Refresh" → c.kids = [])) : FieldTexts t := by
  intro c hc
  obtain ⟨h1, h2⟩ := h c hc
  exact ⟨fun hh => onlyChild_spec (h1 (hh.imp (fun x => by rw [x.2]) (fun x => by rw [x.2]))), fun hh => h2 (by rw [hh.2])⟩

/-- An object with text in its properties and a comma outside them. -/
def textObject : List Node :=
  [.other "<!-- x,y -->" (some "\n"), el nsCyboxCore "Observable" []
    [el nsCyboxCore "Title" [] [] (some "one, two"),
      el nsCyboxCore "Object" [] [el nsCyboxCore "Properties" [] [el "urn:x" "Name" [] [] (some "a b")] (some "\n ")]]]

/-- The hypotheses of `C47_plain_steps_partial`, for each step. -/
example : (cyboxDoc v20 textObject).Tidy ∧ CommaFree (cyboxDoc v20 textObject) ∧ (stixDoc "1.0" textObject).Tidy ∧
    CommaFree (stixDoc "1.0" textObject) ∧ (stixDoc "1.1.1" textObject).Tidy ∧ (stixDoc "1.2" textObject).Tidy ∧
    (∀ c ∈ (cyboxDoc v20 textObject).elems, ∀ p ∈ correctedTerms, c.e.text ≠ some p.1) ∧
    (stixDoc "1.0" textObject).ink = "one,twoab".toList :=
  ⟨tidy_of (by decide +kernel), commaFree_of (by decide +kernel), tidy_of (by decide +kernel), commaFree_of (by decide +kernel),
    tidy_of (by decide +kernel), tidy_of (by decide +kernel), by decide +kernel, by decide +kernel⟩
example : (stepUpdate cybox20 o0 false 0 (cyboxDoc v20 textObject)).isOk = true ∧
    (stepUpdate stix10 o0 false 0 (stixDoc "1.0" textObject)).isOk = true ∧
    (stepUpdate stix111 o0 false 0 (stixDoc "1.1.1" textObject)).isOk = true ∧
    (stepUpdate stix12 o0 false 0 (stixDoc "1.2" textObject)).isOk = true := by decide +kernel

/-- The translated CybOX fields, with text where the translation keeps it. -/
def textFields : List Node :=
  [el nsHTTPSession "DNT" [] [el nsURI "Value" [] [] (some "1")], el nsHTTPSession "Refresh" [] [] (some "5"),
    el nsWinMailslot "Handle" [] [el nsHandle "Handle" [] [el nsHandle "Name" [] [] (some "h")]],
    el "http://cybox.mitre.org/objects#WinDriverObject-2" "Driver_Name" [] [] (some "d")]

/-- The hypotheses of `C47_cybox201_partial`. -/
example : (cyboxDoc v201 textFields).Tidy ∧ FieldTexts (cyboxDoc v201 textFields) ∧
    (∀ c ∈ (cyboxDoc v201 textFields).elems, ∀ p ∈ correctedTerms, c.e.text ≠ some p.1) ∧
    ∃ r, stepUpdate cybox201 o0 false 0 (cyboxDoc v201 textFields) = .ok r ∧ r.1.doc.ink = "15hd".toList :=
  ⟨tidy_of (by decide +kernel), fieldTexts_of (by decide +kernel), by decide +kernel, ok_of_eval (by decide +kernel)⟩

/-- A STIX 1.0.1 package with them, a contributor and an exploit target. -/
def docText101 : Node :=
  stixDoc "1.0.1" (textFields ++ [el nsCommon "Contributors" [] [el nsCommon "Contributor" [] [el nsCommon "Name" [] [] (some "N")]] (some " "),
    el nsTTP "Exploit_Targets" [] [el nsCommon "Exploit_Target" [] [el "urn:x" "Title" [] [] (some "T")]]])

/-- The hypotheses of `C47_stix101_partial`. -/
example : docText101.Tidy ∧ FieldTexts docText101 ∧ (∀ c ∈ docText101.elems, c.e.tag = contributors → BlankText c.e.text) ∧
    (∀ c ∈ docText101.elems, ∀ p ∈ correctedTerms, c.e.text ≠ some p.1) ∧
    ∃ r, stepUpdate (stix101 w0) o0 false 0 docText101 = .ok r ∧ r.1.doc.ink = "15hdNT".toList :=
  ⟨tidy_of (by decide +kernel), fieldTexts_of (by decide +kernel), by unfold BlankText; decide +kernel, by decide +kernel,
    ok_of_eval (by decide +kernel)⟩

/-- The hypotheses of `C47_stix11_partial`. -/
example : docRefs11.Tidy ∧
    (∀ c ∈ docRefs11.elems, StringSource c ∨ SightingSource c → (∃ s, c.e.text = some s ∧ PlainText s) ∧ c.kids = []) ∧
    (∀ c ∈ docRefs11.elems, ∀ p ∈ correctedTerms, c.e.text ≠ some p.1) ∧
    ∃ r, stepUpdate (stix11 w0) o0 false 0 docRefs11 = .ok r ∧ r.1.doc.ink = "meyou".toList := by
  refine ⟨tidy_of (by decide +kernel), fun c hc hs => ⟨plainStrings_of (by decide +kernel) c hc hs, ?_⟩, by decide +kernel,
    ok_of_eval (by decide +kernel)⟩
  have hn : c.e.tag.name = "Source" := by
    rcases hs with ⟨p, _, hp⟩ | hp
    · rw [hp.1]
    · rw [hp.1]
  clear hs
  revert c
  decide +kernel

/-- A STIX 1.0 package whose text is moved on the way. -/
def docText10 : Node :=
  stixDoc "1.0" (textObject ++ [el nsTTP "Exploit_Targets" [] [el nsCommon "Exploit_Target" [] [el "urn:x" "Title" [] [] (some "T")]],
    el nsIndicator "Related_Campaigns" [] [el nsIndicator "Related_Campaign" [] [el "urn:x" "Title" [] [] (some "C")]]])

/-- The hypotheses of `C47_update_partial`: a whole update from 1.0 to 1.2.1. -/
example : docText10.Tidy ∧ (∀ c ∈ docText10.elems, c.e.tag ∉ lossyTags) ∧ CommaFree docText10 ∧
    (∀ c ∈ docText10.elems, ∀ p ∈ correctedTerms, c.e.text ≠ some p.1) ∧
    ∃ r, update w0 docText10 none none o0 false 0 = .ok r ∧ r.1.doc.ink = "one,twoabTC".toList :=
  ⟨tidy_of (by decide +kernel), by decide +kernel, commaFree_of (by decide +kernel), by decide +kernel, ok_of_eval (by decide +kernel)⟩

/-! ### Lost text -/

/-- C47 fails for mixed content and for text in replaced elements: in a driver object (its namespace is renamed), on a list of
contributors, inside a refresh field, and after a header field. -/
theorem C47_lost_fails :
    (∃ r, stepUpdate cybox201 o0 false 0 (cyboxDoc v201 [el "http://cybox.mitre.org/objects#WinDriverObject-2" "Driver_Name" []
        [.other "<!-- c -->" none] (some "d")]) = .ok r ∧ r.1.doc.ink = []) ∧
    (∃ r, stepUpdate (stix101 w0) o0 false 0 (stixDoc "1.0.1" [el nsCommon "Contributors" [] [] (some "by me")]) = .ok r ∧
      r.1.doc.ink = []) ∧
    (∃ r, stepUpdate cybox201 o0 false 0 (cyboxDoc v201 [el nsHTTPSession "Refresh" [] [el "urn:x" "a" [] [] (some "5")]]) = .ok r ∧
      r.1.doc.ink = []) ∧
    (∃ r, stepUpdate cybox201 o0 false 0 (cyboxDoc v201 [.elem ⟨⟨some nsHTTPSession, "Refresh"⟩, [], [], none, some "after"⟩ []]) = .ok r ∧
      r.1.doc.ink = []) :=
  ⟨ok_of_eval (by decide +kernel), ok_of_eval (by decide +kernel), ok_of_eval (by decide +kernel), ok_of_eval (by decide +kernel)⟩

end Ramrod

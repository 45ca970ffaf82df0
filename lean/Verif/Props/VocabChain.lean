import Verif.Props.Total
import Verif.Props.Chain
import Verif.Props.Ids
/-!
# C55: outdated vocabulary names after whole updates
-/

namespace Ramrod
open Samples

/-! ## Specification -/

/-- The namespaces of the two default vocabularies, and the one the STIX vocabulary has from 1.2.1 on. -/
def cyboxWords : String := "http://cybox.mitre.org/default_vocabularies-2"
def stixWords : String := "http://stix.mitre.org/default_vocabularies-1"
def laterWords : String := "http://docs.oasis-open.org/cti/ns/stix/vocabularies-1"

/-- The document declares the prefix for the namespace somewhere. -/
def Declares (t : Node) (p N : String) : Prop := ∃ c ∈ t.elems, (some p, N) ∈ c.e.decls

/-- Prefixes of vocabulary namespaces mean the same everywhere, the two prefixes the updaters use for new elements
stand for no vocabulary, and the namespace of the next STIX generation is not used. -/
structure OneMeaning (t : Node) : Prop where
  same : ∀ p N M, N = cyboxWords ∨ N = stixWords → Declares t p N → Declares t p M → M = N
  common : ∀ N, N = cyboxWords ∨ N = stixWords → ¬ Declares t "stixCommon" N
  indicator : ∀ N, N = cyboxWords ∨ N = stixWords → ¬ Declares t "indicator" N
  later : ∀ p, ¬ Declares t p laterWords

/-- The root has no `xsi:type`. -/
def RootUntyped (t : Node) : Prop := ∀ e, t.root? = some e → e.get? xsiTypeAttr = none

/-- No element has two `xsi:type` attributes (as in all XML), and `Source` texts have no markup characters. -/
def PlainDoc (t : Node) : Prop := ∀ c ∈ t.elems, AtMostOnce xsiTypeAttr c.e.attrs ∧
  (c.e.tag ∈ sourceTags → ∀ s, c.e.text = some s → ∀ ch ∈ s.toList, ch ∉ ['<', '>', '&', '\r'])

/-- The vocabularies revised by the update from a STIX release: its own and those of the CybOX content. -/
inductive Revised (w : World) : String → List VocabRow → Prop
  | stix10 {rows} : StepRows w stix10 rows → Revised w "1.0" rows
  | cybox20 {rows} : StepRows w cybox20 rows → Revised w "1.0" rows
  | stix101 {rows} : StepRows w (stix101 w) rows → Revised w "1.0.1" rows
  | cybox201 {rows} : StepRows w cybox201 rows → Revised w "1.0.1" rows
  | stix11 {rows} : StepRows w (stix11 w) rows → Revised w "1.1" rows
  | stix111 {rows} : StepRows w stix111 rows → Revised w "1.1.1" rows

/-- The vocabularies revised by the update from a CybOX release. -/
inductive RevisedCybox (w : World) : String → List VocabRow → Prop
  | cybox20 {rows} : StepRows w cybox20 rows → RevisedCybox w "2.0" rows
  | cybox201 {rows} : StepRows w cybox201 rows → RevisedCybox w "2.0.1" rows

/-- A descendant still typed with an outdated name of the row, by a prefix bound to the namespace of the vocabulary,
old or new. -/
def StillOutdated (row : VocabRow) (c : Ctx) : Prop :=
  c.anc ≠ [] ∧ ∃ ty ∈ row.old, ∃ p N, c.TypedAs p ty N ∧ (N = row.ns ∨ row.ns = stixWords ∧ N = laterWords)

/-! ## Helpers: elements -/

/-- Both vocabulary namespaces. -/
def wordNss : List String := [cyboxWords, stixWords]

/-- What the updates keep true of every element: prefixes of vocabulary namespaces are declared as `D` says, and no
`xsi:type` has an outdated name of the rows `R`. -/
structure WordSafe (D : String → String → Prop) (R : VocabRow → Prop) (e : Elem) : Prop where
  known : ∀ p M, (some p, M) ∈ e.decls → (M ∈ wordNss → D p M) ∧ M ≠ laterWords
  same : ∀ p M N, (some p, M) ∈ e.decls → N ∈ wordNss → D p N → M = N
  once : AtMostOnce xsiTypeAttr e.attrs
  types : ∀ a ∈ e.attrs, a.1 = xsiTypeAttr → ∀ p ty, IsQType a.2 p ty → ∀ row, R row → D p row.ns → ty ∉ row.old
  sources : e.tag ∈ sourceTags → ∀ s, e.text = some s → ∀ ch ∈ s.toList, ch ∉ ['<', '>', '&', '\r']

theorem steady_of {D : String → String → Prop} {R : VocabRow → Prop} {e e' : Elem} (h : WordSafe D R e)
    (hd : ∀ x ∈ e'.decls, x ∈ e.decls) (ha : ∀ a ∈ e'.attrs, a.1 = xsiTypeAttr → a ∈ e.attrs)
    (ho : AtMostOnce xsiTypeAttr e'.attrs)
    (hs : e'.tag ∈ sourceTags → ∀ s, e'.text = some s → ∀ ch ∈ s.toList, ch ∉ ['<', '>', '&', '\r']) : WordSafe D R e' where
  known := fun p M hm => h.known p M (hd _ hm)
  same := fun p M N hm => h.same p M N (hd _ hm)
  once := ho
  types := fun a hm hk => h.types a (ha a hm hk) hk
  sources := hs

theorem once_nil (k : QName) : AtMostOnce k [] := by simp [AtMostOnce]

theorem steady_new {D : String → String → Prop} {R : VocabRow → Prop} {tag : QName} {decls : NsMap} {tx tl : Option String}
    (hd : ∀ p M, (some p, M) ∈ decls → (M ∉ wordNss ∧ M ≠ laterWords) ∧ ∀ N ∈ wordNss, ¬ D p N)
    (hs : tag ∈ sourceTags → ∀ s, tx = some s → ∀ ch ∈ s.toList, ch ∉ ['<', '>', '&', '\r']) :
    WordSafe D R ⟨tag, decls, [], tx, tl⟩ where
  known := fun p M hm => ⟨fun h => absurd h (hd p M hm).1.1, (hd p M hm).1.2⟩
  same := fun p M N hm hN hD => absurd hD ((hd p M hm).2 N hN)
  once := once_nil _
  types := fun _ hm => by cases hm
  sources := hs

theorem filter_set_ne {as : Attrs} {k k' : QName} {v : String} (h : k ≠ k') :
    (Attrs.set as k v).filter (fun a => decide (a.1 = k')) = as.filter (fun a => decide (a.1 = k')) := by
  induction as with
  | nil => simp [Attrs.set, h]
  | cons x xs ih =>
    obtain ⟨a, b⟩ := x
    simp only [Attrs.set]
    split
    · next hk => subst hk; simp [h]
    · simp only [List.filter_cons, ih]

theorem once_set {as : Attrs} {k k' : QName} {v : String} (h : k ≠ k') (ho : AtMostOnce k' as) : AtMostOnce k' (Attrs.set as k v) := by
  unfold AtMostOnce at *; rw [filter_set_ne h]; exact ho

theorem once_del {as : Attrs} {k k' : QName} (ho : AtMostOnce k' as) : AtMostOnce k' (Attrs.del as k) := by
  unfold AtMostOnce Attrs.del at *
  refine Nat.le_trans (List.Sublist.length_le ?_) ho
  have : (as.filter (fun p => decide (p.1 ≠ k))).filter (fun a => decide (a.1 = k')) =
      (as.filter (fun a => decide (a.1 = k'))).filter (fun p => decide (p.1 ≠ k)) := by
    simp only [List.filter_filter, Bool.and_comm]
  rw [this]
  exact List.filter_sublist

/-- The names of an attribute list decide how often one occurs. -/
theorem once_keys {as bs : Attrs} {k : QName} (h : as.map (·.1) = bs.map (·.1)) (ho : AtMostOnce k bs) : AtMostOnce k as := by
  have key : ∀ cs : Attrs, (cs.filter (fun a => decide (a.1 = k))).length = ((cs.map (·.1)).filter (fun a => decide (a = k))).length := by
    intro cs
    rw [List.filter_map, List.length_map]
    rfl
  unfold AtMostOnce at *
  rw [key, h, ← key]; exact ho

/-- Setting an attribute of a list in which it occurs at most once. -/
theorem once_set_self {as : Attrs} {k : QName} {v : String} (ho : AtMostOnce k as) : AtMostOnce k (Attrs.set as k v) := by
  induction as with
  | nil => simp [Attrs.set, AtMostOnce, List.filter]
  | cons x xs ih =>
    obtain ⟨a, b⟩ := x
    simp only [Attrs.set]
    split
    · next hk => exact once_keys (bs := (a, b) :: xs) rfl ho
    · next hk =>
      unfold AtMostOnce at *
      rw [List.filter_cons_of_neg (by simpa using hk)] at *
      exact ih ho

theorem once_updateAll {k : QName} : ∀ (bs as : Attrs), AtMostOnce k as → AtMostOnce k (Attrs.updateAll as bs)
  | [], _, h => h
  | (a, b) :: bs, as, h => by
    have : Attrs.updateAll as ((a, b) :: bs) = Attrs.updateAll (Attrs.set as a b) bs := by
      simp only [Attrs.updateAll, List.foldl_cons]
    rw [this]
    refine once_updateAll bs _ ?_
    by_cases e : a = k
    · subst e; exact once_set_self h
    · exact once_set e h

/-- An attribute that occurs at most once is the one looked up. -/
theorem get_of_once {as : Attrs} {k : QName} {a : QName × String} (ho : AtMostOnce k as) (h : a ∈ as) (hk : a.1 = k) :
    Attrs.get? as k = some a.2 := by
  induction as with
  | nil => cases h
  | cons x xs ih =>
    obtain ⟨a', b⟩ := x
    simp only [Attrs.get?]
    split
    · next e =>
      rcases List.mem_cons.1 h with rfl | h
      · rfl
      · exfalso
        unfold AtMostOnce at ho
        rw [List.filter_cons_of_pos (by simpa using e), List.length_cons] at ho
        have : (xs.filter (fun a => decide (a.1 = k))) = [] := List.length_eq_zero_iff.1 (by omega)
        have hm : a ∈ xs.filter (fun a => decide (a.1 = k)) := List.mem_filter.2 ⟨h, by simpa using hk⟩
        rw [this] at hm; cases hm
    · next e =>
      rcases List.mem_cons.1 h with rfl | h
      · exact absurd hk e
      · unfold AtMostOnce at ho
        rw [List.filter_cons_of_neg (by simpa using e)] at ho
        exact ih ho h

/-! ## Helpers: documents -/

/-- Every element is steady and the root has no type. -/
def Calm (D : String → String → Prop) (R : VocabRow → Prop) (t : Node) : Prop := t.All (WordSafe D R) ∧ RootUntyped t

theorem calm_root {D : String → String → Prop} {R : VocabRow → Prop} {t t' : Node} (h : t'.root? = t.root?)
    (ha : t'.All (WordSafe D R)) (ht : Calm D R t) : Calm D R t' := ⟨ha, fun e he => ht.2 e (h ▸ he)⟩

theorem calm_edit {D : String → String → Prop} {R : VocabRow → Prop} {t : Node} {F : Ctx → Elem} (ht : Calm D R t)
    (h : ∀ c ∈ t.elems, WordSafe D R c.e → WordSafe D R (F c) ∧ (c.e.get? xsiTypeAttr = none → (F c).get? xsiTypeAttr = none)) :
    Calm D R (t.edit F) := by
  refine ⟨all_edit ht.1 (fun c hc hs => (h c hc hs).1), fun e he => ?_⟩
  cases t with
  | other _ _ => cases he
  | elem e0 ks =>
    rw [root_edit] at he
    cases he
    have hm : rootCtx e0 ks ∈ (Node.elem e0 ks).elems := by simp [Node.elems, Node.walk, rootCtx]
    exact (h _ hm (all_elems.1 ht.1 _ hm)).2 (ht.2 e0 rfl)

/-- Only attributes other than the type are set. -/
def Tame (e e' : Elem) : Prop := ∀ (D : String → String → Prop) (R : VocabRow → Prop), WordSafe D R e → WordSafe D R e' ∧
  (e.get? xsiTypeAttr = none → e'.get? xsiTypeAttr = none)

theorem Tame.refl (e : Elem) : Tame e e := fun _ _ h => ⟨h, id⟩
theorem Tame.comp {a b c : Elem} (h : Tame a b) (h' : Tame b c) : Tame a c :=
  fun D R x => ⟨(h' D R (h D R x).1).1, fun y => (h' D R (h D R x).1).2 ((h D R x).2 y)⟩

theorem tame_set {e : Elem} {k : QName} {v : String} (h : k ≠ xsiTypeAttr) : Tame e (e.set k v) := by
  refine fun D R x => ⟨steady_of x (fun _ h => h) (fun a ha hk => ?_) (once_set h x.once) x.sources, fun y => ?_⟩
  · rcases mem_attrs_set ha with h' | h'
    · exact h'
    · subst h'; exact absurd hk h
  · show Attrs.get? (Attrs.set e.attrs k v) xsiTypeAttr = none
    rw [attrs_get_set, if_neg h]; exact y

theorem tame_del {e : Elem} {k : QName} : Tame e (e.del k) := by
  refine fun D R x => ⟨steady_of x (fun _ h => h) (fun a ha _ => (List.mem_filter.1 ha).1) (once_del x.once) x.sources, fun y => ?_⟩
  exact get?_none_of (fun a ha hk => no_key y a (List.mem_filter.1 ha).1 hk)

theorem tame_schemaloc (u : Cls) (c : Ctx) : Tame c.e (schemalocEdit u c) := by
  unfold schemalocEdit
  split
  · unfold Cls.updateSchemalocsElem
    split
    · exact .refl _
    · exact tame_set (by decide)
  · exact .refl _

theorem tame_version {m : List (String × String)} {alts : List XAlt} {g : Elem → Elem} (hg : ∀ e, Tame e (g e)) (c : Ctx) :
    Tame c.e (versionEdit m alts g c) := by
  unfold versionEdit
  split
  · exact hg _
  · exact .refl _

theorem tame_201 (e : Elem) : Tame e (setVersion201 e) :=
  ((tame_set (by decide)).comp (tame_set (by decide))).comp (tame_set (by decide))

theorem tame_21 (e : Elem) : Tame e (setVersion21 e) :=
  ((tame_set (by decide)).comp (tame_set (by decide))).comp tame_del

theorem tame_stixVersion (i v : String) (e : Elem) : Tame e (setStixVersion i v e) := by
  unfold setStixVersion
  split <;> exact tame_set (by decide)

theorem tame_listElem (e : Elem) : Tame e (updateListElem e) := by
  unfold updateListElem
  split
  · exact .refl _
  · next s hs =>
    split
    · exact .refl _
    · refine fun D R x => ⟨steady_of x (fun _ h => h) (fun _ h _ => h) x.once ?_, id⟩
      intro ht s' hs' ch hch
      simp only [Option.some.injEq] at hs'
      subst hs'
      simp only [updateListText, pyReplace, String.toList_ofList] at hch
      rcases replaceAux_mem hch with h | h
      · rcases replaceAux_mem h with h | h
        · exact x.sources ht s hs ch h
        · exact (by decide : ∀ c ∈ "##comma##".toList, c ∉ ['<', '>', '&', '\r']) ch h
      · exact (by decide : ∀ c ∈ ",".toList, c ∉ ['<', '>', '&', '\r']) ch h

theorem tame_iter : ∀ (n : Nat) (e : Elem), Tame e (iter updateListElem n e)
  | 0, _ => .refl _
  | n + 1, e => (tame_iter n e).comp (tame_listElem _)

theorem calm_tame {D : String → String → Prop} {R : VocabRow → Prop} {t : Node} {F : Ctx → Elem} (ht : Calm D R t)
    (h : ∀ c, Tame c.e (F c)) : Calm D R (t.edit F) := calm_edit ht (fun c _ hs => h c D R hs)

theorem calm_schemaloc {D : String → String → Prop} {R : VocabRow → Prop} {t : Node} (u : Cls) (ht : Calm D R t) :
    Calm D R (u.updateSchemalocs t) := by
  rw [updateSchemalocs_eq]; exact calm_tame ht (tame_schemaloc u)

theorem calm_stixVersions {D : String → String → Prop} {R : VocabRow → Prop} {t : Node} (u : Cls) (i v : String) (ht : Calm D R t) :
    Calm D R (stixUpdateVersions u i v t) := by
  rw [stixVersions_eq]; exact calm_tame ht (tame_version (tame_stixVersion i v))

theorem calm_optionalsIf {D : String → String → Prop} {R : VocabRow → Prop} {b : Bool} {fs : List Finder} {t t' : Node}
    (h : (if b then removeOptionals fs t else .ok t) = .ok t') (ht : Calm D R t) : Calm D R t' := by
  refine calm_root (root_optionalsIf h) ?_ ht
  cases b with
  | true => exact all_removeOptionals ht.1 h
  | false => cases h; exact ht.1

/-! ### Names in scope -/

mutual
theorem env_walk {p : Option String} {M : String} {pos : Pos} {env : NsMap} {anc : List QName} : ∀ (t : Node), ∀ c ∈ t.walk pos env anc,
    (p, M) ∈ c.env → (p, M) ∈ env ∨ ∃ d ∈ t.walk pos env anc, (p, M) ∈ d.e.decls
  | .other _ _, c, h, _ => by simp [Node.walk] at h
  | .elem e ks, c, h, hm => by
    simp only [Node.walk, List.mem_cons] at h ⊢
    rcases h with rfl | h
    · rcases List.mem_append.1 hm with h' | h'
      · exact Or.inr ⟨_, Or.inl rfl, h'⟩
      · exact Or.inl h'
    · rcases env_walks ks c h hm with h' | ⟨d, hd, h'⟩
      · rcases List.mem_append.1 h' with h' | h'
        · exact Or.inr ⟨_, Or.inl rfl, h'⟩
        · exact Or.inl h'
      · exact Or.inr ⟨d, Or.inr hd, h'⟩
theorem env_walks {p : Option String} {M : String} {pos : Pos} {i : Nat} {env : NsMap} {anc : List QName} : ∀ (ks : List Node),
    ∀ c ∈ Node.walks pos i env anc ks, (p, M) ∈ c.env → (p, M) ∈ env ∨ ∃ d ∈ Node.walks pos i env anc ks, (p, M) ∈ d.e.decls
  | [], c, h, _ => by simp [Node.walks] at h
  | k :: ks, c, h, hm => by
    simp only [Node.walks, List.mem_append] at h ⊢
    rcases h with h | h
    · rcases env_walk k c h hm with h' | ⟨d, hd, h'⟩
      · exact Or.inl h'
      · exact Or.inr ⟨d, Or.inl hd, h'⟩
    · rcases env_walks ks c h hm with h' | ⟨d, hd, h'⟩
      · exact Or.inl h'
      · exact Or.inr ⟨d, Or.inr hd, h'⟩
end

/-- What is in scope was declared somewhere. -/
theorem env_declared {t : Node} {c : Ctx} (hc : c ∈ t.elems) {p : Option String} {M : String} (h : (p, M) ∈ c.env) :
    ∃ d ∈ t.elems, (p, M) ∈ d.e.decls := by
  rcases env_walk t c hc h with h' | h'
  · cases h'
  · exact h'

theorem nsMap_mem {m : NsMap} {p : Option String} {M : String} (h : NsMap.get? m p = some M) : (p, M) ∈ m := by
  induction m with
  | nil => cases h
  | cons x xs ih =>
    obtain ⟨q, u⟩ := x
    simp only [NsMap.get?] at h
    split at h
    · next e => cases h; subst e; simp
    · exact List.mem_cons_of_mem _ (ih h)

theorem bound_declared {t : Node} {c : Ctx} (hc : c ∈ t.elems) {p M : String} (h : NsMap.get? c.env (some p) = some M) :
    Declares t p M := env_declared hc (nsMap_mem h)

/-! ### Namespaces -/

theorem dedup_mem : ∀ {m : NsMap} {x : Option String × String}, x ∈ m.dedup → x ∈ m
  | [], _, h => h
  | (p, u) :: rest, x, h => by
    simp only [NsMap.dedup, List.mem_cons] at h ⊢
    exact h.imp id (fun h => dedup_mem (List.mem_filter.1 h).1)

theorem remap_mem {u : Cls} {env : NsMap} {p : Option String} {M' : String} (h : (p, M') ∈ u.remapNamespaces env) :
    ∃ M, (p, M) ∈ env ∧ (M' = M ∧ assoc u.updateNsMap M = none ∨ (M, M') ∈ u.updateNsMap) := by
  unfold Cls.remapNamespaces at h
  obtain ⟨x, hx, he⟩ := List.mem_map.1 h
  simp only [Prod.mk.injEq] at he
  obtain ⟨q, M⟩ := x
  obtain ⟨rfl, he⟩ := he
  refine ⟨M, dedup_mem (List.mem_filter.1 hx).1, ?_⟩
  cases ha : assoc u.updateNsMap M with
  | none =>
    refine Or.inl ⟨?_, rfl⟩
    rw [← he]; simp [ha]
  | some y =>
    refine Or.inr ?_
    have : M' = y := by rw [← he]; simp [ha]
    rw [this]; exact assoc_mem ha

/-- A renamed element is no `Source`. -/
theorem renamed_source {u : Cls} (hv : ∀ y ∈ u.updateNsMap, ∀ X ∈ sourceTags, X.ns ≠ some y.2) {q : QName} (h : u.nsUpdated q = true) : u.remappedTag q ∉ sourceTags := by
  intro hX
  obtain ⟨ns, nm⟩ := q
  unfold Cls.nsUpdated at h
  cases ns with
  | none => simp at h
  | some n =>
    obtain ⟨x, hx⟩ := Option.isSome_iff_exists.1 h
    refine hv _ (assoc_mem hx) _ hX ?_
    simp only [Cls.remappedTag, Option.map_some]
    rw [hx]; rfl

theorem assoc_key {l : List (String × String)} {k : String} (h : ∀ y ∈ l, y.1 ≠ k) : assoc l k = none := by
  cases ha : assoc l k with
  | none => rfl
  | some v => exact absurd rfl (h _ (assoc_mem ha))

/-- The namespaces of CybOX 2.0.1 content are renamed; vocabularies are not. -/
theorem calm_ns {D : String → String → Prop} {R : VocabRow → Prop} {t : Node} {u : Cls}
    (hu : u.updateNsMap = Tables.cybox201_updateNsMap) (ht : Calm D R t) : Calm D R (u.updateNamespaces [] t) := by
  rw [updateNamespaces_eq]
  refine calm_edit ht (fun c hc hs => ?_)
  unfold nsEdit
  split
  · next hn =>
    have h1 : ∀ y ∈ Tables.cybox201_updateNsMap, y.1 ∉ wordNss ∧ y.2 ∉ laterWords :: wordNss := by decide +kernel
    have h2 : u.remappedTag c.e.tag ∉ sourceTags := renamed_source (by rw [hu]; decide +kernel) hn
    refine ⟨⟨fun p M' hm => ?_, fun p M' N hm hN hD => ?_, hs.once, hs.types, fun h => absurd h h2⟩, id⟩
    · obtain ⟨M, hM, h⟩ := remap_mem hm
      obtain ⟨d, hd, hdm⟩ := env_declared hc hM
      have hk := (all_elems.1 ht.1 d hd).known p M hdm
      rcases h with ⟨rfl, _⟩ | h
      · exact hk
      · rw [hu] at h
        have := (h1 _ h).2
        simp only [List.mem_cons, not_or] at this
        exact ⟨fun h' => absurd h' (by simpa using this.2), this.1⟩
    · obtain ⟨M, hM, h⟩ := remap_mem hm
      obtain ⟨d, hd, hdm⟩ := env_declared hc hM
      have hk := (all_elems.1 ht.1 d hd).same p M N hdm hN hD
      subst hk
      rcases h with ⟨rfl, _⟩ | h
      · rfl
      · rw [hu] at h
        exact absurd hN (h1 _ h).1
  · exact ⟨hs, id⟩

/-! ### Vocabularies -/

/-- What the rows of a step have to satisfy. -/
def RowsFine (rows : List VocabRow) : Prop :=
  ∀ r ∈ rows, r.ns ∈ wordNss ∧ ∀ q ∈ r.corrected, ∀ ch ∈ q.2.toList, ch ∉ ['<', '>', '&', '\r']

theorem calm_vocabs {D : String → String → Prop} {R : VocabRow → Prop} {vs : List Vocab} {rows : List VocabRow}
    (hm : MatchesAll vs rows) (hst : Stable rows) (hne : vs ≠ []) (hf : RowsFine rows)
    (hnew : ∀ r ∈ rows, ∀ row, R row → r.new ∉ row.old) {t t' : Node} (h : updateVocabs vs t = .ok t') (ht : Calm D R t) :
    Calm D (fun row => R row ∨ row ∈ rows) t' := by
  obtain ⟨F, hF, he, hspec⟩ := updateVocabs_spec hm hst h
  have key : ∀ c ∈ t.elems, F c = c.e ∨ ∃ row ∈ rows, ∃ p, Outdated row p c ∧ Rewritten row p c.e (F c) := by
    intro c hc
    by_cases ho : ∃ row ∈ rows, ∃ p, Outdated row p c
    · obtain ⟨row, hr, p, ho⟩ := ho
      exact Or.inr ⟨row, hr, p, ho, (hspec c hc).1 row hr p ho⟩
    · exact Or.inl ((hspec c hc).2 (fun row hr p ho' => ho ⟨row, hr, p, ho'⟩))
  have h1 : Calm D R t' := by
    refine calm_root (root_updateVocabs h) ?_ ht
    rw [he]
    refine all_edit ht.1 (fun c hc hs => ?_)
    rcases key c hc with e | ⟨row, hr, p, ⟨_, ty, _, v, hv, hq, _⟩, hw⟩
    · rw [e]; exact hs
    · refine ⟨by rw [hw.2.1]; exact hs.known, by rw [hw.2.1]; exact hs.same, once_keys hw.2.2.2.2.1 hs.once, ?_, ?_⟩
      · intro a ha hk p' ty' hq' row' hR' _
        have hg := get_of_once (once_keys hw.2.2.2.2.1 hs.once) ha hk
        have hg' := hw.2.2.2.2.2 xsiTypeAttr
        rw [show (F c).get? xsiTypeAttr = some a.2 from hg, if_pos (show xsiTypeAttr = ⟨some "http://www.w3.org/2001/XMLSchema-instance", "type"⟩ from rfl)] at hg'
        have hg2 := Option.some.inj hg'
        have hq2 : IsQType (p ++ ":" ++ row.new) p row.new := ⟨rfl, hq.2.1, (stable_new hst row hr).1⟩
        rw [hg2] at hq'
        rw [← (isQType_unique hq2 hq').2]
        exact hnew row hr row' hR'
      · intro hsrc s hx
        rw [hw.1] at hsrc
        rw [hw.2.2.2.1] at hx
        cases ht : c.e.text with
        | none => rw [ht] at hx; cases hx
        | some s0 =>
          rw [ht] at hx
          simp only [Option.map_some, Option.some.injEq] at hx
          cases ha : assoc row.corrected s0 with
          | none => rw [ha, Option.getD_none] at hx; subst hx; exact hs.sources hsrc s0 ht
          | some b => rw [ha, Option.getD_some] at hx; subst hx; exact (hf row hr).2 _ (assoc_mem ha)
  refine ⟨all_elems.2 (fun c hc => ?_), h1.2⟩
  have hs := all_elems.1 h1.1 c hc
  refine ⟨hs.known, hs.same, hs.once, fun a ha hk p ty hq row hR hD => ?_, hs.sources⟩
  rcases hR with hR | hR
  · exact hs.types a ha hk p ty hq row hR hD
  · intro hty
    have hg : c.e.get? xsiTypeAttr = some a.2 := get_of_once hs.once ha hk
    by_cases hanc : c.anc = []
    · exact absurd (hg.symm.trans (h1.2 _ (elems_root hc hanc))) (by simp)
    · obtain ⟨p', ty', M, v, hv, hq', hM⟩ := updateVocabs_wellTyped hm hst h hne c hc hanc (by
        show c.e.get? xsiTypeAttr ≠ none
        rw [hg]; simp)
      have hva : v = a.2 := by
        have : c.e.get? xsiTypeAttr = some v := hv
        rw [hg] at this; cases this; rfl
      rw [hva] at hq'
      obtain ⟨rfl, rfl⟩ := isQType_unique hq hq'
      obtain ⟨d, hd, hdm⟩ := bound_declared hc hM
      have hMN := (all_elems.1 h1.1 d hd).same p M row.ns hdm (hf row hR).1 hD
      subst hMN
      exact updateVocabs_clears hm hst h c hc row hR p ⟨hanc, ty, hty, a.2, hg, hq, hM⟩

/-! ### Fields -/

theorem all_custom {P : Elem → Prop} {alts : List XAlt} {m : List (String × String)} {g : Ctx → Except Err Node} {t t' : Node}
    (h : (⟨alts, m, .custom g⟩ : Trans).translate t = .ok t') (ht : t.All P)
    (hg : ∀ c n, alts.any (fun a => a.selects m c) = true → c.node.All P → g c = .ok n → n.All P) : t'.All P :=
  ((translate_custom h).mono (Q' := fun c n => alts.any (fun a => a.selects m c) = true ∧ g c = .ok n) (fun _ _ => Iff.rfl)
    (fun _ _ _ h1 h2 => ⟨h1, h2⟩)).all ht (fun c n hn hq => hg c n hq.1 hn hq.2)

theorem all_value {D : String → String → Prop} {R : VocabRow → Prop} {n : String}
    (hX : XName.resolve Tables.cybox201_nsmap ⟨"HTTPSessionObj", n⟩ ∉ sourceTags) {t t' : Node}
    (h : (⟨[rel "HTTPSessionObj" n], Tables.cybox201_nsmap, .value (some ⟨"URIObj", "Value"⟩) none true []⟩ : Trans).translate t
      = .ok t') (ht : t.All (WordSafe D R)) : t'.All (WordSafe D R) := by
  rw [translate_value_eq] at h
  refine all_custom h ht (fun c nn hs hc hn => ?_)
  rw [rel_selects] at hs
  unfold translateValue valueNode at hn
  simp only at hn
  cases hf : (childCtxs c 0 c.kids).find? (fun k => decide (k.e.tag = XName.resolve Tables.cybox201_nsmap ⟨"URIObj", "Value"⟩)) with
  | none => rw [hf] at hn; cases hn
  | some k =>
    rw [hf] at hn
    simp only [Except.ok.injEq] at hn
    obtain ⟨i, j1, _, _⟩ := find_childCtxs (p := fun e => decide (e.tag = XName.resolve Tables.cybox201_nsmap ⟨"URIObj", "Value"⟩)) hf
    have hk : WordSafe D R k.e := (alls_iff.1 hc.2 _ (List.mem_of_getElem? j1)).1
    subst hn
    refine ⟨steady_of hk (fun _ h => by cases h) (fun a ha _ => ?_) (once_updateAll _ _ (once_nil _)) (fun hsrc => ?_), trivial⟩
    · exact (mem_updateAll ha).elim (fun h => by cases h) id
    · exact absurd (show c.e.tag ∈ sourceTags from hsrc) (by rw [hs.2]; exact hX)

theorem all_refresh {D : String → String → Prop} {R : VocabRow → Prop} {t t' : Node} (h : transRefresh.translate t = .ok t')
    (ht : t.All (WordSafe D R)) : t'.All (WordSafe D R) := by
  unfold transRefresh at h
  rw [translate_value_eq] at h
  refine all_custom h ht (fun c n hs hc hn => ?_)
  simp only [translateValue, valueNode, Except.ok.injEq] at hn
  subst hn
  refine ⟨steady_of hc.1 (fun _ h => by cases h) (fun a ha hk => ?_) ?_ hc.1.sources, trivial⟩
  · simp only [overrideAttrs] at ha
    split at ha
    · rcases mem_attrs_set ha with ha | ha
      · exact (mem_updateAll ha).elim (fun h => by cases h) id
      · subst ha; exact absurd hk (by decide)
    · exact (mem_updateAll ha).elim (fun h => by cases h) id
  · show AtMostOnce xsiTypeAttr (overrideAttrs c.e [(.plain "datatype", "string")] (Attrs.updateAll [] c.e.attrs))
    simp only [overrideAttrs]
    split
    · exact once_set (by decide) (once_updateAll _ _ (once_nil _))
    · exact once_updateAll _ _ (once_nil _)

theorem all_renamed {D : String → String → Prop} {R : VocabRow → Prop} {p n : String} {m : List (String × String)} {tag : QName}
    (h2 : tag ∉ sourceTags) {t t' : Node} (h : (⟨[rel p n], m, .renamed tag⟩ : Trans).translate t = .ok t')
    (ht : t.All (WordSafe D R)) : t'.All (WordSafe D R) := by
  rw [translate_renamed] at h
  cases h
  refine all_edit ht (fun c _ hs => ?_)
  unfold renBelow ren1
  split
  · exact hs
  · refine steady_of hs (fun _ h => h) (fun _ h _ => h) hs.once (fun hsrc => ?_)
    dsimp only at hsrc
    split at hsrc
    · exact absurd hsrc h2
    · exact hs.sources hsrc

theorem steady_retag {D : String → String → Prop} {R : VocabRow → Prop} {tag : QName} (h : tag ∉ sourceTags) {e : Elem} {ks : List Node}
    (he : (Node.elem e ks).All (WordSafe D R)) : (Node.elem { e with tag := tag } ks).All (WordSafe D R) :=
  ⟨steady_of he.1 (fun _ h => h) (fun _ h _ => h) he.1.once (fun hs => absurd hs h), he.2⟩

theorem all_mailslot {D : String → String → Prop} {R : VocabRow → Prop} {t t' : Node} (h : transMailslot.translate t = .ok t')
    (ht : t.All (WordSafe D R)) : t'.All (WordSafe D R) := by
  refine (translate_parent h).all ht ?_
  rintro c n hc ⟨e, ks, hk, _, rfl⟩
  exact steady_retag (by decide) (alls_iff.1 hc.2 _ hk)

theorem keep_translateFields {P : Node → Prop} {fs : List Trans} (hf : ∀ f ∈ fs, ∀ t t', f.translate t = .ok t' → P t → P t')
    {t t' : Node} (h : translateFields fs t = .ok t') (ht : P t) : P t' :=
  foldE_inv P fs t t' (fun s f s' hm hs hst => hf f hm s s' hst hs) ht h

theorem calm_fields201 {D : String → String → Prop} {R : VocabRow → Prop} {t t' : Node}
    (h : translateFields cybox201Translatable t = .ok t') (ht : Calm D R t) : Calm D R t' := by
  refine calm_root (root_translateFields (by decide +kernel) h) ?_ ht
  refine keep_translateFields (P := fun t => t.All (WordSafe D R)) ?_ h ht.1
  intro f hf a b hab ha
  simp only [cybox201Translatable, List.mem_cons, List.not_mem_nil, or_false] at hf
  rcases hf with rfl | rfl | rfl | rfl | rfl | rfl | rfl | rfl
  · exact all_value (by decide +kernel) hab ha
  · exact all_value (by decide +kernel) hab ha
  · exact all_refresh hab ha
  · exact all_renamed (by decide) hab ha
  · exact all_renamed (by decide) hab ha
  · exact all_renamed (by decide) hab ha
  · exact all_renamed (by decide) hab ha
  · exact all_mailslot hab ha

theorem steady_wrap {D : String → String → Prop} {R : VocabRow → Prop} {tag : QName} {ks : List Node}
    (h : ∀ k ∈ ks, k.All (WordSafe D R)) : (newElem tag [] none ks).All (WordSafe D R) :=
  ⟨steady_new (fun _ _ h => by cases h) (fun _ _ h => by cases h), alls_iff.2 h⟩

theorem calm_fields101 {D : String → String → Prop} {R : VocabRow → Prop} {w : World} {t t' : Node}
    (h : translateFields (stix101Cls w).translatable t = .ok t') (ht : Calm D R t) : Calm D R t' := by
  have h' : translateFields [transContributors, transExploitTargets] t = .ok t' := h
  refine calm_root (root_translateFields (by decide +kernel) h') ?_ ht
  refine keep_translateFields (P := fun t => t.All (WordSafe D R)) ?_ h' ht.1
  intro f hf a b hab ha
  simp only [List.mem_cons, List.not_mem_nil, or_false] at hf
  rcases hf with rfl | rfl
  · refine all_custom hab ha (fun c n _ hc hn => ?_)
    unfold translateContributors at hn
    split at hn
    · cases hn
    · next ks hks =>
      cases hn
      refine steady_wrap (fun k hk => ?_)
      obtain ⟨x, hx, hxk⟩ := mapE_mem hks k hk
      cases x with
      | other _ _ => cases hxk
      | elem e es =>
        cases hxk
        refine steady_wrap (fun k' hk' => ?_)
        simp only [List.mem_singleton] at hk'
        subst hk'
        exact steady_retag (by decide) (alls_iff.1 hc.2 _ hx)
  · refine all_custom hab ha (fun c n _ hc hn => ?_)
    cases hn
    refine steady_wrap (fun k hk => ?_)
    simp only [List.mem_singleton] at hk
    subst hk
    exact hc

theorem plain_text {s : Option String} (h : ∀ x, s = some x → ∀ ch ∈ x.toList, ch ∉ ['<', '>', '&', '\r']) :
    xmlPlain (formatText s) = true ∧ ∀ ch ∈ (formatText s).toList, ch ∉ ['<', '>', '&', '\r'] :=
  format_plain (e := ⟨⟨some nsCommon, "Source"⟩, [], [], s, none⟩) (checks := true) (ps := [])
    ⟨fun _ h => (by cases h), fun _ h => (by cases h), fun _ => h⟩ (show QName.mk (some nsCommon) "Source" ∈ sourceTags by decide)

theorem all_source {D : String → String → Prop} {R : VocabRow → Prop} {alts : List XAlt} {m : List (String × String)} {tag : QName}
    {d d' : NsMap} {g : Ctx → Except Err Node} (hg : ∀ c, xmlPlain (formatText c.e.text) = true →
      g c = .ok (sourceNode tag d d' (formatText c.e.text))) (hs : ∀ a ∈ alts, a.tag.resolve m ∈ sourceTags)
    (hd : ∀ p M, (some p, M) ∈ d → (M ∉ wordNss ∧ M ≠ laterWords) ∧ ∀ N ∈ wordNss, ¬ D p N)
    (hd' : ∀ p M, (some p, M) ∈ d' → (M ∉ wordNss ∧ M ≠ laterWords) ∧ ∀ N ∈ wordNss, ¬ D p N) {t t' : Node}
    (h : (⟨alts, m, .custom g⟩ : Trans).translate t = .ok t') (ht : t.All (WordSafe D R)) : t'.All (WordSafe D R) := by
  refine all_custom h ht (fun c n hsel hc hn => ?_)
  have htag : c.e.tag ∈ sourceTags := by
    obtain ⟨a, ha, hc⟩ := List.any_eq_true.1 hsel
    unfold XAlt.selects at hc
    simp only [Bool.and_eq_true, decide_eq_true_eq] at hc
    rw [hc.1.1]; exact hs a ha
  rw [hg c (plain_text (hc.1.sources htag)).1] at hn
  cases hn
  have white : ∀ s : String, (∀ ch ∈ s.toList, ch ∉ ['<', '>', '&', '\r']) → ∀ x, some s = some x →
      ∀ ch ∈ x.toList, ch ∉ ['<', '>', '&', '\r'] := fun s h x e => by cases e; exact h
  exact ⟨steady_new hd (fun _ => white _ (by decide)), ⟨steady_new hd' (fun _ => white _ (by decide)),
    ⟨steady_new (fun _ _ h => by cases h) (fun _ => white _ (plain_text (hc.1.sources htag)).2), trivial⟩, trivial⟩, trivial⟩

/-- The prefixes of new elements stand for no vocabulary. -/
def NoWords (D : String → String → Prop) : Prop := ∀ N ∈ wordNss, ¬ D "stixCommon" N ∧ ¬ D "indicator" N

theorem calm_fields11 {D : String → String → Prop} {R : VocabRow → Prop} (hD : NoWords D) {w : World} {t t' : Node}
    (h : translateFields (stix11Cls w).translatable t = .ok t') (ht : Calm D R t) : Calm D R t' := by
  have h' : translateFields [transCommonSource w, transSightingsSource w, transRelatedCampaign] t = .ok t' := h
  have hc : ∀ p M, (some p, M) ∈ ([(some "stixCommon", nsCommon)] : NsMap) →
      (M ∉ wordNss ∧ M ≠ laterWords) ∧ ∀ N ∈ wordNss, ¬ D p N := by
    intro p M h
    simp only [List.mem_singleton, Prod.mk.injEq, Option.some.injEq] at h
    obtain ⟨rfl, rfl⟩ := h
    exact ⟨by decide, fun N hN => (hD N hN).1⟩
  have hi : ∀ p M, (some p, M) ∈ ([(some "indicator", nsIndicator)] : NsMap) →
      (M ∉ wordNss ∧ M ≠ laterWords) ∧ ∀ N ∈ wordNss, ¬ D p N := by
    intro p M h
    simp only [List.mem_singleton, Prod.mk.injEq, Option.some.injEq] at h
    obtain ⟨rfl, rfl⟩ := h
    exact ⟨by decide, fun N hN => (hD N hN).2⟩
  refine calm_root (root_translateFields ?_ h') ?_ ht
  · intro f hf
    simp only [List.mem_cons, List.not_mem_nil, or_false] at hf
    rcases hf with rfl | rfl | rfl
    · exact (show BelowRoot (sourceParents.map (fun p => relIn p.1 p.2 "stixCommon" "Source")) by decide +kernel)
    · exact (show BelowRoot [relIn "indicator" "Sighting" "indicator" "Source"] by decide +kernel)
    · decide +kernel
  refine keep_translateFields (P := fun t => t.All (WordSafe D R)) ?_ h' ht.1
  intro f hf a b hab ha
  simp only [List.mem_cons, List.not_mem_nil, or_false] at hf
  rcases hf with rfl | rfl | rfl
  · exact all_source (g := translateCommonSource w) (tag := ⟨some nsCommon, "Source"⟩) (d := [(some "stixCommon", nsCommon)]) (d' := [])
      (fun c hc => by unfold translateCommonSource; simp only [hc, if_true])
      (by decide +kernel) hc (fun _ _ h => by cases h) hab ha
  · exact all_source (g := translateSightingSource w) (tag := ⟨some nsIndicator, "Source"⟩) (d := [(some "indicator", nsIndicator)])
      (d' := [(some "stixCommon", nsCommon)]) (fun c hc => by unfold translateSightingSource; simp only [hc, if_true])
      (by decide +kernel) hi hc hab ha
  · refine all_custom hab ha (fun c n _ hc hn => ?_)
    cases hn
    refine steady_wrap (fun k hk => ?_)
    simp only [List.mem_singleton] at hk
    subst hk
    exact steady_retag (by decide) hc

/-! ### Rows -/

theorem rows_fine {w : World} {u : Updater} {rows : List VocabRow} (h : StepRows w u rows) : RowsFine rows := by
  unfold RowsFine
  cases h <;> decide

/-- The world does not matter for the rows. -/
theorem rows_w0 {w : World} {u : Updater} {rows : List VocabRow} (h : StepRows w u rows) :
    ∃ u0, StepRows w0 u0 rows ∧ u0.cls.version = u.cls.version := by
  cases h
  · exact ⟨_, .cybox20, rfl⟩
  · exact ⟨_, .cybox201, rfl⟩
  · exact ⟨_, .stix10, rfl⟩
  · exact ⟨_, .stix101, rfl⟩
  · exact ⟨_, .stix11, rfl⟩
  · exact ⟨_, .stix111, rfl⟩
  · exact ⟨_, .stix12, rfl⟩

/-- The steps in the order in which they revise vocabularies. -/
def revisionOrder : List String := ["2.0", "1.0", "2.0.1", "1.0.1", "1.1", "1.1.1", "1.2"]

/-- A step introduces no name that is outdated in an earlier one. -/
theorem rows_order {w : World} {u u' : Updater} {rows rows' : List VocabRow} (h : StepRows w u rows) (h' : StepRows w u' rows')
    (ho : revisionOrder.idxOf u.cls.version ≤ revisionOrder.idxOf u'.cls.version) : ∀ r ∈ rows', ∀ row ∈ rows, r.new ∉ row.old := by
  obtain ⟨u0, h0, e0⟩ := rows_w0 h
  obtain ⟨u1, h1, e1⟩ := rows_w0 h'
  rw [← e0, ← e1] at ho
  clear e0 e1 h h'
  revert ho
  cases h0 <;> cases h1 <;> decide +kernel

theorem rows_unique {w : World} {u u' : Updater} {rows rows' : List VocabRow} (h : StepRows w u rows) (h' : StepRows w u' rows')
    (hv : u.cls.version = u'.cls.version) : rows = rows' := by
  obtain ⟨u0, h0, e0⟩ := rows_w0 h
  obtain ⟨u1, h1, e1⟩ := rows_w0 h'
  rw [← e0, ← e1] at hv
  clear e0 e1 h h'
  revert hv
  cases h0 <;> cases h1 <;> first | exact fun _ => rfl | exact fun hv => absurd hv (by decide +kernel)

theorem rows_nonempty {w : World} {u : Updater} {rows : List VocabRow} (h : StepRows w u rows) (hv : u.cls.version ≠ "1.2") :
    u.cls.vocabs ≠ [] := by
  have hm := stepRows_matches h
  intro e
  rw [e] at hm
  cases h <;> first | (cases hm; done) | exact hv rfl

/-! ### Steps -/

theorem calm_clean {D : String → String → Prop} {R : VocabRow → Prop} {w : World} {u : Updater} {rules : List Rule}
    {nss : Option (List String)} {ty : Bool} {V : Node → Prop} (hu : StepRules w u rules nss ty V) (hr : Registered w u)
    {o : Options} {k k' : Nat} {t : Node} {r : Result} (hc : clean u o k t = .ok (r, k')) (ht : Calm D R t) : Calm D R r.doc := by
  refine calm_root (root_clean hr hc) ?_ ht
  obtain ⟨F, l, ν, n, _, _, h1, h2, h3, _⟩ := clean_spec hu hc
  rw [h3]
  refine all_pruneCtx _ (all_edit ht.1 (fun c hc hs => ?_))
  by_cases hd : DupAt nss t c
  · rw [h1 c hc hd]; exact ((tame_set (by decide)) D R hs).1
  · rw [h2 c hc hd]; exact hs

theorem calm_step {D : String → String → Prop} {R : VocabRow → Prop} {w : World} {u : Updater} {rules : List Rule}
    {nss : Option (List String)} {ty : Bool} {V : Node → Prop} (hu : StepRules w u rules nss ty V) (hr : Registered w u)
    {o : Options} {force : Bool} {k k' : Nat} {t : Node} {r : Result} (h : stepUpdate u o force k t = .ok (r, k')) (ht : Calm D R t) :
    ∃ t1, Calm D R t1 ∧ u.update o t1 = .ok r.doc := by
  simp only [stepUpdate] at h
  split at h
  · next d hd' =>
    cases h
    simp only [tryUpdate] at hd'
    split at hd'
    · cases hd'
    · exact ⟨t, ht, hd'⟩
  · split at h
    · simp only [forceUpdate] at h
      split at h
      · cases h
      · next r1 k1 hc =>
        split at h
        · cases h
        · next d hu' =>
          cases h
          exact ⟨r1.doc, calm_clean hu hr hc ht, hu'⟩
    · cases h

theorem calm_update20 {D : String → String → Prop} {R : VocabRow → Prop} {w : World} {rows : List VocabRow} (hr : StepRows w cybox20 rows)
    (hnew : ∀ r ∈ rows, ∀ row, R row → r.new ∉ row.old) {n : List (String × String)} {sel : List XAlt} {o : Options}
    (hv : o.updateVocabularies = true) {t t' : Node} (h : cybox20Update (cybox20Cls n sel) o t = .ok t') (ht : Calm D R t) :
    Calm D (fun row => R row ∨ row ∈ rows) t' := by
  simp only [cybox20Update, hv, if_true] at h
  rw [cybox20Versions_eq, updateLists_eq] at h
  refine calm_vocabs (stepRows_matches hr) (stepRows_stable hr) (by show [eventTypeVocab] ≠ []; simp) ?_ hnew h ?_
  · exact rows_fine hr
  · exact calm_tame (calm_tame (calm_schemaloc _ ht) (tame_version tame_201)) (fun c => tame_iter _ _)

theorem calm_update201 {D : String → String → Prop} {R : VocabRow → Prop} {w : World} {rows : List VocabRow}
    (hr : StepRows w cybox201 rows) (hnew : ∀ r ∈ rows, ∀ row, R row → r.new ∉ row.old) {n : List (String × String)} {sel : List XAlt}
    {o : Options} (hv : o.updateVocabularies = true) {t t' : Node} (h : cybox201Update (cybox201Cls n sel) o t = .ok t')
    (ht : Calm D R t) : Calm D (fun row => R row ∨ row ∈ rows) t' := by
  simp only [cybox201Update, hv, if_true] at h
  rw [cybox201Versions_eq] at h
  split at h
  · cases h
  · next t1 h1 =>
    split at h
    · cases h
    · next t2 h2 =>
      refine calm_optionalsIf h ?_
      refine calm_vocabs (stepRows_matches hr) (stepRows_stable hr)
        (by show [objectRelationshipVocab, toolTypeVocab, actionNameVocab] ≠ []; simp) ?_ hnew h2 ?_
      · exact rows_fine hr
      · exact calm_fields201 h1 (calm_tame (calm_schemaloc _ (calm_ns rfl ht)) (tame_version tame_21))

theorem calm_update10 {D : String → String → Prop} {R : VocabRow → Prop} {w : World} {rows rows' : List VocabRow}
    (hr : StepRows w cybox20 rows) (hr' : StepRows w stix10 rows') (hnew : ∀ r ∈ rows ++ rows', ∀ row, R row → r.new ∉ row.old)
    {o : Options} (hv : o.updateVocabularies = true) {t t' : Node} (h : stix10Update o t = .ok t') (ht : Calm D R t) :
    Calm D (fun row => (R row ∨ row ∈ rows) ∨ row ∈ rows') t' := by
  simp only [stix10Update] at h
  split at h
  · cases h
  · next t1 h1 =>
    rw [updateNamespaces_none (u := stix10Cls) rfl] at h
    simp only [hv, if_true] at h
    have c1 := calm_update20 hr (fun r hm => hnew r (List.mem_append_left _ hm)) hv h1 ht
    refine calm_vocabs (stepRows_matches hr') (stepRows_stable hr') (by decide) ?_ ?_ h
      (calm_stixVersions _ _ _ (calm_schemaloc _ c1))
    · exact rows_fine hr'
    · intro r hm row hR
      rcases hR with hR | hR
      · exact hnew r (List.mem_append_right _ hm) row hR
      · exact rows_order hr hr' (by decide +kernel) r hm row hR

theorem calm_update101 {D : String → String → Prop} {R : VocabRow → Prop} {w : World} {rows rows' : List VocabRow}
    (hr : StepRows w cybox201 rows) (hr' : StepRows w (stix101 w) rows')
    (hnew : ∀ r ∈ rows ++ rows', ∀ row, R row → r.new ∉ row.old)
    {o : Options} (hv : o.updateVocabularies = true) {t t' : Node} (h : stix101Update w o t = .ok t') (ht : Calm D R t) :
    Calm D (fun row => (R row ∨ row ∈ rows) ∨ row ∈ rows') t' := by
  simp only [stix101Update] at h
  split at h
  · cases h
  · next t1 h1 =>
    rw [updateNamespaces_none (u := stix101Cls w) rfl] at h
    simp only [hv, if_true] at h
    split at h
    · cases h
    · next t2 h2 =>
      split at h
      · cases h
      · next t3 h3 =>
        have c1 := calm_update201 hr (fun r hm => hnew r (List.mem_append_left _ hm)) hv h1 ht
        refine calm_optionalsIf h ?_
        refine calm_vocabs (stepRows_matches hr') (stepRows_stable hr') (by show [motivationVocab101, indicatorTypeVocab] ≠ []; simp) ?_ ?_ h3
          (calm_fields101 h2 (calm_stixVersions _ _ _ (calm_schemaloc _ c1)))
        · exact rows_fine hr'
        · intro r hm row hR
          rcases hR with hR | hR
          · exact hnew r (List.mem_append_right _ hm) row hR
          · exact rows_order hr hr' (show revisionOrder.idxOf "2.0.1" ≤ revisionOrder.idxOf "1.0.1" by decide) r hm row hR

theorem calm_update11 {D : String → String → Prop} {R : VocabRow → Prop} (hD : NoWords D) {w : World} {rows : List VocabRow}
    (hr : StepRows w (stix11 w) rows) (hnew : ∀ r ∈ rows, ∀ row, R row → r.new ∉ row.old)
    {o : Options} (hv : o.updateVocabularies = true) {t t' : Node} (h : stix11Update w o t = .ok t') (ht : Calm D R t) :
    Calm D (fun row => R row ∨ row ∈ rows) t' := by
  simp only [stix11Update, hv, if_true] at h
  split at h
  · cases h
  · next t2 h2 =>
    split at h
    · cases h
    · next t3 h3 =>
      refine calm_optionalsIf h ?_
      refine calm_vocabs (stepRows_matches hr) (stepRows_stable hr) (rows_nonempty hr (show "1.1" ≠ "1.2" by decide)) ?_ hnew h3
        (calm_fields11 hD h2 (calm_stixVersions _ _ _ (calm_schemaloc _ (calm_schemaloc _ ht))))
      exact rows_fine hr

theorem calm_update111 {D : String → String → Prop} {R : VocabRow → Prop} {w : World} {rows : List VocabRow}
    (hr : StepRows w stix111 rows) (hnew : ∀ r ∈ rows, ∀ row, R row → r.new ∉ row.old)
    {o : Options} (hv : o.updateVocabularies = true) {t t' : Node} (h : stix111Update o t = .ok t') (ht : Calm D R t) :
    Calm D (fun row => R row ∨ row ∈ rows) t' := by
  simp only [stix111Update, hv, if_true] at h
  refine calm_vocabs (stepRows_matches hr) (stepRows_stable hr) (by decide) ?_ hnew h
    (calm_stixVersions _ _ _ (calm_schemaloc _ ht))
  exact rows_fine hr

theorem calm_mono {D : String → String → Prop} {R R' : VocabRow → Prop} (h : ∀ row, R' row → R row) {t : Node} (ht : Calm D R t) :
    Calm D R' t :=
  ⟨all_elems.2 (fun c hc => by
    have hs := all_elems.1 ht.1 c hc
    exact ⟨hs.known, hs.same, hs.once, fun a ha hk p ty hq row hR => hs.types a ha hk p ty hq row (h row hR), hs.sources⟩), ht.2⟩

/-! ### The last STIX step -/

/-- What is left of `WordSafe` after the renaming of the last step. -/
structure Calmed (D : String → String → Prop) (R : VocabRow → Prop) (e : Elem) : Prop where
  known : ∀ p M, (some p, M) ∈ e.decls → (M ∈ wordNss → D p M) ∧ (M = laterWords → D p stixWords)
  types : ∀ a ∈ e.attrs, a.1 = xsiTypeAttr → ∀ p ty, IsQType a.2 p ty → ∀ row, R row → D p row.ns → ty ∉ row.old

theorem calmed_of {D : String → String → Prop} {R : VocabRow → Prop} {e : Elem} (h : WordSafe D R e) : Calmed D R e :=
  ⟨fun p M hm => ⟨(h.known p M hm).1, fun e => absurd e (h.known p M hm).2⟩, h.types⟩

theorem calmed_set {D : String → String → Prop} {R : VocabRow → Prop} {e : Elem} {k : QName} {v : String} (hk : k ≠ xsiTypeAttr)
    (h : Calmed D R e) : Calmed D R (e.set k v) := by
  refine ⟨h.known, fun a ha hka => ?_⟩
  rcases mem_attrs_set ha with h' | h'
  · exact h.types a h' hka
  · subst h'; exact absurd hka hk

theorem calmed_update12 {D : String → String → Prop} {R : VocabRow → Prop} {o : Options} {t t' : Node}
    (h : stix12Update o t = .ok t') (ht : Calm D R t) : t'.All (Calmed D R) := by
  simp only [stix12Update, Except.ok.injEq] at h
  have h1 : (stix12Cls.updateNamespaces [] t).All (Calmed D R) := by
    rw [updateNamespaces_eq]
    refine all_edit ht.1 (fun c hc hs => ?_)
    unfold nsEdit
    split
    · have hw : ∀ y ∈ Tables.stix12_updateNsMap, y.2 ∉ wordNss ∧ (y.2 = laterWords → y.1 = stixWords) := by decide +kernel
      refine ⟨fun p M' hm => ?_, hs.types⟩
      obtain ⟨M, hM, h⟩ := remap_mem hm
      obtain ⟨d, hd, hdm⟩ := env_declared hc hM
      have hk := (all_elems.1 ht.1 d hd).known p M hdm
      rcases h with ⟨rfl, _⟩ | h
      · exact ⟨hk.1, fun e => absurd e hk.2⟩
      · have := hw _ h
        refine ⟨fun h' => absurd h' this.1, fun e => ?_⟩
        have e1 : M = stixWords := this.2 e
        rw [← e1]
        exact hk.1 (by rw [e1]; decide)
    · exact calmed_of hs
  have h2 : (stix12Cls.updateSchemalocs (stix12Cls.updateNamespaces [] t)).All (Calmed D R) := by
    rw [updateSchemalocs_eq]
    refine all_edit h1 (fun c _ hs => ?_)
    unfold schemalocEdit
    split
    · unfold Cls.updateSchemalocsElem
      split
      · exact hs
      · exact calmed_set (by decide) hs
    · exact hs
  subst h
  generalize stix12Cls.updateSchemalocs (stix12Cls.updateNamespaces [] t) = x at h2 ⊢
  cases x with
  | other _ _ => exact h2
  | elem e ks => exact ⟨calmed_set (by decide) h2.1, h2.2⟩

theorem calmed_all {D : String → String → Prop} {R : VocabRow → Prop} {t : Node} (ht : t.All (WordSafe D R)) : t.All (Calmed D R) :=
  all_elems.2 (fun c hc => calmed_of (all_elems.1 ht c hc))

theorem calmed_none {D : String → String → Prop} {R : VocabRow → Prop} {t : Node} (ht : t.All (Calmed D R)) {c : Ctx} (hc : c ∈ t.elems)
    {row : VocabRow} (hR : R row) (hw : row.ns ∈ wordNss) : ¬ StillOutdated row c := by
  rintro ⟨_, ty, hty, p, N, ⟨v, hv, hq, hN⟩, h⟩
  obtain ⟨d, hd, hdm⟩ := bound_declared hc hN
  have hk := (all_elems.1 ht d hd).known p N hdm
  have hD : D p row.ns := by
    rcases h with rfl | ⟨h1, h2⟩
    · exact hk.1 hw
    · rw [h1]; exact hk.2 h2
  exact (all_elems.1 ht c hc).types _ (mem_of_get? hv) rfl p ty hq row hR hD hty

/-! ### Chains -/

/-- An invariant of a chain that knows which steps have been done. -/
theorem chain_done {reg : List (String × Updater)} {o : Options} {force : Bool} (I : List String → Node → Prop) :
    ∀ (vs done : List String) (acc r : Result) (k k' : Nat), chainLoop reg o force vs acc k = .ok (r, k') → I done acc.doc →
    (∀ pre v post u t k1 k2 r1, done ++ vs = pre ++ v :: post → assoc reg v = some u → stepUpdate u o force k1 t = .ok (r1, k2) →
      I pre t → I (pre ++ [v]) r1.doc) → I (done ++ vs) r.doc
  | [], done, acc, r, k, k', h, hi, _ => by cases h; simpa using hi
  | v :: vs, done, acc, r, k, k', h, hi, hstep => by
    simp only [chainLoop] at h
    split at h
    · cases h
    · next u hu =>
      split at h
      · cases h
      · next r1 k1 h1 =>
        have := chain_done I vs (done ++ [v]) _ r k1 k' h (hstep done v vs u _ _ _ r1 rfl hu h1 hi)
          (fun pre x post u t a b r2 e => hstep pre x post u t a b r2 (by rw [← e]; simp))
        simpa using this

/-- The rows of the releases left behind. -/
def DoneRows (w : World) (done : List String) (row : VocabRow) : Prop := ∃ v ∈ done, ∃ rows, Revised w v rows ∧ row ∈ rows
def DoneCybox (w : World) (done : List String) (row : VocabRow) : Prop := ∃ v ∈ done, ∃ rows, RevisedCybox w v rows ∧ row ∈ rows

/-- The first and the last revision of a release. -/
def firstRevision (v : String) : Nat :=
  if v = "1.0" then 0 else if v = "1.0.1" then 2 else if v = "1.1" then 4 else if v = "1.1.1" then 5 else 6
def lastRevision (v : String) : Nat :=
  if v = "1.0" then 1 else if v = "1.0.1" then 3 else if v = "1.1" then 4 else if v = "1.1.1" then 5 else 6

theorem revised_new {w : World} {x : String} {rows : List VocabRow} (h : Revised w x rows) {u : Updater} {rows' : List VocabRow}
    (hu : StepRows w u rows') (hn : lastRevision x < revisionOrder.idxOf u.cls.version) : ∀ r ∈ rows', ∀ row ∈ rows, r.new ∉ row.old := by
  cases h with
  | stix10 hr => exact rows_order hr hu (Nat.le_trans (show revisionOrder.idxOf "1.0" ≤ lastRevision "1.0" by decide) (Nat.le_of_lt hn))
  | cybox20 hr => exact rows_order hr hu (Nat.le_trans (show revisionOrder.idxOf "2.0" ≤ lastRevision "1.0" by decide) (Nat.le_of_lt hn))
  | stix101 hr =>
    exact rows_order hr hu (Nat.le_trans (show revisionOrder.idxOf "1.0.1" ≤ lastRevision "1.0.1" by decide) (Nat.le_of_lt hn))
  | cybox201 hr =>
    exact rows_order hr hu (Nat.le_trans (show revisionOrder.idxOf "2.0.1" ≤ lastRevision "1.0.1" by decide) (Nat.le_of_lt hn))
  | stix11 hr => exact rows_order hr hu (Nat.le_trans (show revisionOrder.idxOf "1.1" ≤ lastRevision "1.1" by decide) (Nat.le_of_lt hn))
  | stix111 hr =>
    exact rows_order hr hu (Nat.le_trans (show revisionOrder.idxOf "1.1.1" ≤ lastRevision "1.1.1" by decide) (Nat.le_of_lt hn))

/-- The rows of a release are those of its steps. -/
theorem revised_rows {w : World} {v : String} {rows : List VocabRow} (h : Revised w v rows) {u u' : Updater} {rs rs' : List VocabRow}
    (hu : StepRows w u rs) (hu' : StepRows w u' rs')
    (hv : (v, u.cls.version, u'.cls.version) ∈ [("1.0", "2.0", "1.0"), ("1.0.1", "2.0.1", "1.0.1"), ("1.1", "1.1", "1.1"), ("1.1.1", "1.1.1", "1.1.1")]) :
    rows = rs ∨ rows = rs' := by
  simp only [List.mem_cons, Prod.mk.injEq, List.not_mem_nil, or_false] at hv
  cases h with
  | stix10 hr =>
    rcases hv with ⟨_, _, h⟩ | ⟨h, _⟩ | ⟨h, _⟩ | ⟨h, _⟩
    · exact Or.inr (rows_unique hr hu' h.symm)
    all_goals exact absurd h (by decide)
  | cybox20 hr =>
    rcases hv with ⟨_, h, _⟩ | ⟨h, _⟩ | ⟨h, _⟩ | ⟨h, _⟩
    · exact Or.inl (rows_unique hr hu h.symm)
    all_goals exact absurd h (by decide)
  | stix101 hr =>
    rcases hv with ⟨h, _⟩ | ⟨_, _, h⟩ | ⟨h, _⟩ | ⟨h, _⟩
    · exact absurd h (by decide)
    · exact Or.inr (rows_unique hr hu' h.symm)
    all_goals exact absurd h (by decide)
  | cybox201 hr =>
    rcases hv with ⟨h, _⟩ | ⟨_, h, _⟩ | ⟨h, _⟩ | ⟨h, _⟩
    · exact absurd h (by decide)
    · exact Or.inl (rows_unique hr hu h.symm)
    all_goals exact absurd h (by decide)
  | stix11 hr =>
    rcases hv with ⟨h, _⟩ | ⟨h, _⟩ | ⟨_, h, _⟩ | ⟨h, _⟩
    · exact absurd h (by decide)
    · exact absurd h (by decide)
    · exact Or.inl (rows_unique hr hu h.symm)
    · exact absurd h (by decide)
  | stix111 hr =>
    rcases hv with ⟨h, _⟩ | ⟨h, _⟩ | ⟨h, _⟩ | ⟨_, h, _⟩
    · exact absurd h (by decide)
    · exact absurd h (by decide)
    · exact absurd h (by decide)
    · exact Or.inl (rows_unique hr hu h.symm)

theorem done_snoc {w : World} {done : List String} {v : String} {row : VocabRow} (h : DoneRows w (done ++ [v]) row) :
    DoneRows w done row ∨ ∃ rows, Revised w v rows ∧ row ∈ rows := by
  obtain ⟨x, hx, rows, h1, h2⟩ := h
  rcases List.mem_append.1 hx with hx | hx
  · exact Or.inl ⟨x, hx, rows, h1, h2⟩
  · rw [List.mem_singleton.1 hx] at h1
    exact Or.inr ⟨rows, h1, h2⟩

theorem done_new {w : World} {done : List String} {n : Nat} (hd : ∀ x ∈ done, lastRevision x < n) {u : Updater} {rows : List VocabRow}
    (hu : StepRows w u rows) (hn : n ≤ revisionOrder.idxOf u.cls.version) : ∀ r ∈ rows, ∀ row, DoneRows w done row → r.new ∉ row.old := by
  rintro r hr row ⟨x, hx, rows', h1, h2⟩
  exact revised_new h1 hu (Nat.lt_of_lt_of_le (hd x hx) hn) r hr row h2

theorem calm_next {D : String → String → Prop} (hD : NoWords D) {w : World} {v : String} {u : Updater} (hu : assoc (stixUpdaters w) v = some u)
    {done : List String} (hd : ∀ x ∈ done, lastRevision x < firstRevision v)
    {o : Options} (hv : o.updateVocabularies = true) {force : Bool} {k k' : Nat} {t : Node} {r : Result}
    (h : stepUpdate u o force k t = .ok (r, k')) (ht : Calm D (DoneRows w done) t) :
    (v ≠ "1.2" → Calm D (DoneRows w (done ++ [v])) r.doc) ∧ r.doc.All (Calmed D (DoneRows w (done ++ [v]))) := by
  have hreg := registered_stix hu
  obtain ⟨_, _, _, _, hrules⟩ := registered_rules hreg
  obtain ⟨t1, c1, hup⟩ := calm_step hrules hreg h ht
  have hm := assoc_mem hu
  suffices key : (v ≠ "1.2" → Calm D (DoneRows w (done ++ [v])) r.doc) ∧
      (v = "1.2" → r.doc.All (Calmed D (DoneRows w (done ++ [v])))) by
    refine ⟨key.1, ?_⟩
    by_cases e : v = "1.2"
    · exact key.2 e
    · exact calmed_all (key.1 e).1
  simp only [stixUpdaters, List.mem_cons, Prod.mk.injEq, List.not_mem_nil, or_false] at hm
  rcases hm with ⟨rfl, rfl⟩ | ⟨rfl, rfl⟩ | ⟨rfl, rfl⟩ | ⟨rfl, rfl⟩ | ⟨rfl, rfl⟩
  · refine ⟨fun _ => ?_, fun e => absurd e (by decide)⟩
    refine calm_mono ?_ (calm_update10 (w := w) .cybox20 .stix10 ?_ hv hup c1)
    · intro row hrow
      rcases done_snoc hrow with h' | ⟨rows, h1, h2⟩
      · exact Or.inl (Or.inl h')
      · rcases revised_rows h1 (.cybox20 (w := w)) .stix10 (by decide) with rfl | rfl
        · exact Or.inl (Or.inr h2)
        · exact Or.inr h2
    · intro rr hr
      rcases List.mem_append.1 hr with hr | hr
      · exact done_new hd (.cybox20 (w := w)) (by decide) rr hr
      · exact done_new hd (.stix10 (w := w)) (by decide) rr hr
  · refine ⟨fun _ => ?_, fun e => absurd e (by decide)⟩
    refine calm_mono ?_ (calm_update101 (w := w) .cybox201 .stix101 ?_ hv hup c1)
    · intro row hrow
      rcases done_snoc hrow with h' | ⟨rows, h1, h2⟩
      · exact Or.inl (Or.inl h')
      · rcases revised_rows h1 (.cybox201 (w := w)) .stix101 (show ("1.0.1", "2.0.1", "1.0.1") ∈ _ by decide) with rfl | rfl
        · exact Or.inl (Or.inr h2)
        · exact Or.inr h2
    · intro rr hr
      rcases List.mem_append.1 hr with hr | hr
      · exact done_new hd (.cybox201 (w := w)) (by decide) rr hr
      · exact done_new hd (.stix101 (w := w)) (show firstRevision "1.0.1" ≤ revisionOrder.idxOf "1.0.1" by decide) rr hr
  · refine ⟨fun _ => ?_, fun e => absurd e (by decide)⟩
    refine calm_mono ?_ (calm_update11 hD (w := w) .stix11 ?_ hv hup c1)
    · intro row hrow
      rcases done_snoc hrow with h' | ⟨rows, h1, h2⟩
      · exact Or.inl h'
      · rcases revised_rows h1 (.stix11 (w := w)) .stix11 (show ("1.1", "1.1", "1.1") ∈ _ by decide) with rfl | rfl <;> exact Or.inr h2
    · exact done_new hd (.stix11 (w := w)) (show firstRevision "1.1" ≤ revisionOrder.idxOf "1.1" by decide)
  · refine ⟨fun _ => ?_, fun e => absurd e (by decide)⟩
    refine calm_mono ?_ (calm_update111 (w := w) .stix111 ?_ hv hup c1)
    · intro row hrow
      rcases done_snoc hrow with h' | ⟨rows, h1, h2⟩
      · exact Or.inl h'
      · rcases revised_rows h1 (.stix111 (w := w)) .stix111 (by decide) with rfl | rfl <;> exact Or.inr h2
    · exact done_new hd (.stix111 (w := w)) (by decide)
  · refine ⟨fun e => absurd rfl e, fun _ => ?_⟩
    have := calmed_update12 (o := o) hup c1
    refine all_elems.2 (fun c hc => ?_)
    have hs := all_elems.1 this c hc
    refine ⟨hs.known, fun a ha hk p ty hq row hR => ?_⟩
    rcases done_snoc hR with h' | ⟨rows, h1, _⟩
    · exact hs.types a ha hk p ty hq row h'
    · exact absurd h1 (fun h => by
        generalize e : "1.2" = x at h
        cases h <;> exact absurd e (by decide))

theorem stix_revisions : ∀ s ∈ stixReleases, ∀ g ∈ stixReleases,
    (between stixReleases s g).Pairwise (fun x v => lastRevision x < firstRevision v) ∧
    (between stixReleases s g).Pairwise (fun x _ => x ≠ "1.2") := by decide

/-- The source document is steady for its own declarations. -/
theorem calm_source {t : Node} (h1 : OneMeaning t) (h2 : RootUntyped t) (h3 : PlainDoc t) (R : VocabRow → Prop) (hR : ∀ row, ¬ R row) :
    Calm (Declares t) R t ∧ NoWords (Declares t) := by
  have hw : ∀ N ∈ wordNss, N = cyboxWords ∨ N = stixWords := fun N hN => by simpa [wordNss] using hN
  refine ⟨⟨all_elems.2 (fun c hc => ?_), h2⟩, fun N hN => ⟨h1.common N (hw N hN), h1.indicator N (hw N hN)⟩⟩
  refine ⟨fun p M hm => ⟨fun _ => ⟨c, hc, hm⟩, fun e => h1.later p ⟨c, hc, e ▸ hm⟩⟩, fun p M N hm hN hD => ?_, (h3 c hc).1,
    fun _ _ _ _ _ _ row hRow => absurd hRow (hR row), (h3 c hc).2⟩
  exact h1.same p N M (hw N hN) hD ⟨c, hc, hm⟩

theorem revised_words {w : World} {v : String} {rows : List VocabRow} (h : Revised w v rows) : ∀ row ∈ rows, row.ns ∈ wordNss := by
  cases h with
  | stix10 h | cybox20 h | stix101 h | cybox201 h | stix11 h | stix111 h => exact fun row hr => (rows_fine h row hr).1

/-! ### CybOX chains -/

theorem doneCybox_snoc {w : World} {done : List String} {v : String} {row : VocabRow} (h : DoneCybox w (done ++ [v]) row) :
    DoneCybox w done row ∨ ∃ rows, RevisedCybox w v rows ∧ row ∈ rows := by
  obtain ⟨x, hx, rows, h1, h2⟩ := h
  rcases List.mem_append.1 hx with hx | hx
  · exact Or.inl ⟨x, hx, rows, h1, h2⟩
  · rw [List.mem_singleton.1 hx] at h1
    exact Or.inr ⟨rows, h1, h2⟩

theorem revisedCybox_rows {w : World} {v : String} {rows : List VocabRow} (h : RevisedCybox w v rows) :
    ∃ u, StepRows w u rows ∧ u.cls.version = v := by
  cases h with
  | cybox20 h => exact ⟨_, h, rfl⟩
  | cybox201 h => exact ⟨_, h, rfl⟩

theorem calm_nextCybox {D : String → String → Prop} {w : World} {v : String} {u : Updater} (hu : assoc cyboxUpdaters v = some u)
    {done : List String} (hd : ∀ x ∈ done, revisionOrder.idxOf x < revisionOrder.idxOf v)
    {o : Options} (hv : o.updateVocabularies = true) {force : Bool} {k k' : Nat} {t : Node} {r : Result}
    (h : stepUpdate u o force k t = .ok (r, k')) (ht : Calm D (DoneCybox w done) t) : Calm D (DoneCybox w (done ++ [v])) r.doc := by
  have hreg : Registered w u := registered_cybox hu
  obtain ⟨_, _, _, _, hrules⟩ := registered_rules hreg
  obtain ⟨t1, c1, hup⟩ := calm_step hrules hreg h ht
  have hm := assoc_mem hu
  have new : ∀ {u : Updater} {rows : List VocabRow}, StepRows w u rows → revisionOrder.idxOf v ≤ revisionOrder.idxOf u.cls.version →
      ∀ r ∈ rows, ∀ row, DoneCybox w done row → r.new ∉ row.old := by
    rintro u rows hu hle r hr row ⟨x, hx, rows', h1, h2⟩
    obtain ⟨u', h3, rfl⟩ := revisedCybox_rows h1
    exact rows_order h3 hu (Nat.le_trans (Nat.le_of_lt (hd _ hx)) hle) r hr row h2
  simp only [cyboxUpdaters, List.mem_cons, Prod.mk.injEq, List.not_mem_nil, or_false] at hm
  rcases hm with ⟨rfl, rfl⟩ | ⟨rfl, rfl⟩
  · refine calm_mono ?_ (calm_update20 (w := w) .cybox20 (new .cybox20 (by decide)) hv hup c1)
    intro row hrow
    rcases doneCybox_snoc hrow with h' | ⟨rows, h1, h2⟩
    · exact Or.inl h'
    · obtain ⟨u', h3, h4⟩ := revisedCybox_rows h1
      rw [rows_unique h3 (.cybox20 (w := w)) h4] at h2
      exact Or.inr h2
  · refine calm_mono ?_ (calm_update201 (w := w) .cybox201 (new .cybox201 (by decide)) hv hup c1)
    intro row hrow
    rcases doneCybox_snoc hrow with h' | ⟨rows, h1, h2⟩
    · exact Or.inl h'
    · obtain ⟨u', h3, h4⟩ := revisedCybox_rows h1
      rw [rows_unique h3 (.cybox201 (w := w)) h4] at h2
      exact Or.inr h2

theorem cybox_revisions : ∀ s ∈ cyboxReleases, ∀ g ∈ cyboxReleases,
    (between cyboxReleases s g).Pairwise (fun x v => revisionOrder.idxOf x < revisionOrder.idxOf v) := by decide

/-! ## C55 -/

/-- C55, STIX.  A package in which the prefixes of the vocabulary namespaces mean the same everywhere is updated, forced or
not, with vocabularies on: in the result no element below the root has a type name that any of the applied steps
declares outdated, own vocabularies and those of embedded CybOX content alike, whether its prefix is bound to the old or
the new namespace. -/
theorem C55_stix_partial (w : World) (t : Node) (from_ to_ : Option String) (s g : String) (hs : inForce from_ (stixRootVersion t) = some s)
    (hg : inForce to_ (some "1.2.1") = some g) (hsg : Older stixReleases s g) (h1 : OneMeaning t) (h2 : RootUntyped t)
    (h3 : PlainDoc t) (o : Options) (hv : o.updateVocabularies = true) (force : Bool) (k k' : Nat) (r : Result)
    (h : stixUpdate w t from_ to_ o force k = .ok (r, k')) :
    ∀ v ∈ between stixReleases s g, ∀ rows, Revised w v rows → ∀ row ∈ rows, ∀ c ∈ r.doc.elems, ¬ StillOutdated row c := by
  rw [stixUpdate_accepted w t o force k hs hg hsg] at h
  obtain ⟨hm1, hm2⟩ := older_mem hsg
  obtain ⟨hp, hq⟩ := stix_revisions s hm1 g hm2
  obtain ⟨c0, hD⟩ := calm_source h1 h2 h3 (DoneRows w []) (fun row ⟨_, hx, _⟩ => by cases hx)
  have key := chain_done (fun done d => ("1.2" ∉ done → Calm (Declares t) (DoneRows w done) d) ∧ d.All (Calmed (Declares t) (DoneRows w done)))
    _ [] _ r k k' h ⟨fun _ => c0, calmed_all c0.1⟩ (by
      intro pre v post u d k1 k2 r1 e hu hstep hi
      rw [List.nil_append] at e
      rw [e] at hp hq
      have hp' := (List.pairwise_append.1 hp).2.2
      have hq' := (List.pairwise_append.1 hq).2.2
      have hpre : "1.2" ∉ pre := fun hx => hq' _ hx v (by simp) rfl
      obtain ⟨n1, n2⟩ := calm_next hD hu (fun x hx => hp' x hx v (by simp)) hv hstep (hi.1 hpre)
      exact ⟨fun hx => n1 (fun e => hx (by simp [e])), n2⟩)
  intro v hvm rows hr row hrow c hc
  exact calmed_none key.2 hc ⟨v, by simpa using hvm, rows, hr, hrow⟩ (revised_words hr row hrow)

/-- C55, CybOX: the same for CybOX documents. -/
theorem C55_cybox_partial (w : World) (t : Node) (from_ to_ : Option String) (s g : String) (hs : cyboxSource t from_ = .ok (some s))
    (hg : inForce to_ (some "2.1") = some g) (hsg : Older cyboxReleases s g) (h1 : OneMeaning t) (h2 : RootUntyped t)
    (h3 : PlainDoc t) (o : Options) (hv : o.updateVocabularies = true) (force : Bool) (k k' : Nat) (r : Result)
    (h : cyboxUpdate t from_ to_ o force k = .ok (r, k')) :
    ∀ v ∈ between cyboxReleases s g, ∀ rows, RevisedCybox w v rows → ∀ row ∈ rows, ∀ c ∈ r.doc.elems, ¬ StillOutdated row c := by
  rw [cyboxUpdate_accepted t o force k hs hg hsg] at h
  obtain ⟨hm1, hm2⟩ := older_mem hsg
  have hp := cybox_revisions s hm1 g hm2
  obtain ⟨c0, _⟩ := calm_source h1 h2 h3 (DoneCybox w []) (fun row ⟨_, hx, _⟩ => by cases hx)
  have key := chain_done (fun done d => Calm (Declares t) (DoneCybox w done) d) _ [] _ r k k' h c0 (by
      intro pre v post u d k1 k2 r1 e hu hstep hi
      rw [List.nil_append] at e
      rw [e] at hp
      exact calm_nextCybox hu (fun x hx => (List.pairwise_append.1 hp).2.2 x hx v (by simp)) hv hstep hi)
  intro v hvm rows hr row hrow c hc
  obtain ⟨u, hu, _⟩ := revisedCybox_rows hr
  exact calmed_none (calmed_all key.1) hc ⟨v, by simpa using hvm, rows, hr, hrow⟩ (rows_fine hu row hrow).1

/-! ## Examples -/

instance (t : Node) (p N : String) : Decidable (Declares t p N) := by unfold Declares; infer_instance

/-- All declarations of a document. -/
def Node.declared (t : Node) : List (Option String × String) := t.elems.flatMap (fun c => c.e.decls)

theorem declares_iff {t : Node} {p N : String} : Declares t p N ↔ (some p, N) ∈ t.declared := by
  simp [Declares, Node.declared]

/-- The three conditions can be computed. -/
theorem oneMeaning_of {t : Node} (h : (∀ a ∈ t.declared, a.2 ≠ laterWords ∧ (a.2 ∈ wordNss → a.1 ∉ [some "stixCommon", some "indicator"] ∧
    ∀ b ∈ t.declared, b.1 = a.1 → b.2 = a.2))) : OneMeaning t := by
  have hw : ∀ N, N = cyboxWords ∨ N = stixWords → N ∈ wordNss := fun N hN => by simpa [wordNss] using hN
  refine ⟨fun p N M hN h1 h2 => ?_, fun N hN h1 => ?_, fun N hN h1 => ?_, fun p h1 => ?_⟩
  · exact ((h _ (declares_iff.1 h1)).2 (hw N hN)).2 _ (declares_iff.1 h2) rfl
  · exact ((h _ (declares_iff.1 h1)).2 (hw N hN)).1 (by simp)
  · exact ((h _ (declares_iff.1 h1)).2 (hw N hN)).1 (by simp)
  · exact (h _ (declares_iff.1 h1)).1 rfl

instance (t : Node) : Decidable (RootUntyped t) :=
  match h : t.root? with
  | none => isTrue (fun e he => by rw [h] at he; cases he)
  | some e => decidable_of_iff (e.get? xsiTypeAttr = none) ⟨fun hn e' he => by rw [h] at he; cases he; exact hn, fun hn => hn e h⟩

instance (s : Option String) : Decidable (∀ x, s = some x → ∀ ch ∈ x.toList, ch ∉ ['<', '>', '&', '\r']) :=
  match s with
  | none => isTrue (fun _ h => by cases h)
  | some x => decidable_of_iff (∀ ch ∈ x.toList, ch ∉ ['<', '>', '&', '\r']) ⟨fun h y e => by cases e; exact h, fun h => h x rfl⟩

instance (t : Node) : Decidable (PlainDoc t) := by unfold PlainDoc AtMostOnce; infer_instance

/-- A 1.0 package with outdated words of both kinds. -/
def docOldWords : Node :=
  stixDoc "1.0" [el nsCyboxCore "Event" [] [el nsCyboxCore "Type" [xsiType "cyboxVocabs:EventTypeVocab-1.0"] [] (some "Anomoly Events")],
    el nsTTP "Motivation" [xsiType "stixVocabs:MotivationVocab-1.0"] [] (some "Policital")]

example : inForce none (stixRootVersion docOldWords) = some "1.0" ∧ OneMeaning docOldWords ∧ RootUntyped docOldWords ∧ PlainDoc docOldWords ∧
    ∃ r, stixUpdate w0 docOldWords none none o0 false 0 = .ok r ∧ r.1.doc.elems.map (fun c => (c.e.get? xsiTypeAttr, c.e.text)) =
      [(none, none), (none, none), (some "cyboxVocabs:EventTypeVocab-1.0.1", some "Anomaly Events"),
        (some "stixVocabs:MotivationVocab-1.1", some "Political")] :=
  ⟨by decide +kernel, oneMeaning_of (by decide +kernel), by decide +kernel, by decide +kernel, ok_of_eval (by decide +kernel)⟩

example : cyboxSource (cyboxDoc v20 [el nsCyboxCore "Type" [xsiType "cyboxVocabs:ActionNameVocab-1.0"]]) none = .ok (some "2.0") ∧
    OneMeaning (cyboxDoc v20 [el nsCyboxCore "Type" [xsiType "cyboxVocabs:ActionNameVocab-1.0"]]) ∧
    ∃ r, cyboxUpdate (cyboxDoc v20 [el nsCyboxCore "Type" [xsiType "cyboxVocabs:ActionNameVocab-1.0"]]) none none o0 true 0 = .ok r ∧
      r.1.doc.elems.map (fun c => c.e.get? xsiTypeAttr) = [none, some "cyboxVocabs:ActionNameVocab-1.1"] :=
  ⟨by rfl, oneMeaning_of (by decide +kernel), ok_of_eval (by decide +kernel)⟩

/-- A CybOX 2.0 document whose handle gives a prefix another meaning. -/
def docRebound : Node :=
  cyboxDoc v20 [el "http://cybox.mitre.org/objects#WinMailslotObject-2" "Handle" []
    [el "http://cybox.mitre.org/objects#WinHandleObject-2" "Handle" [xsiType "cyboxVocabs:EventTypeVocab-1.0"] [] (some "x")] none
    [(some "cyboxVocabs", "urn:other")]]

/-- C55 needs one meaning for every prefix: the step from 2.0.1 drops the outer of two handles and with it the declaration
of a prefix, so that a type the step from 2.0 had no reason to touch becomes one of its outdated names. -/
theorem C55_rebound_fails : ∃ t r k, cyboxUpdate t none none o0 false 0 = .ok (r, k) ∧ RootUntyped t ∧ PlainDoc t ∧
    o0.updateVocabularies = true ∧ ∃ rows, RevisedCybox w0 "2.0" rows ∧ ∃ row ∈ rows, ∃ c ∈ r.doc.elems, StillOutdated row c := by
  have h : ∃ r, cyboxUpdate docRebound none none o0 false 0 = .ok r ∧ (∃ c ∈ r.1.doc.elems, c.anc ≠ [] ∧
      c.e.get? xsiTypeAttr = some "cyboxVocabs:EventTypeVocab-1.0" ∧ NsMap.get? c.env (some "cyboxVocabs") = some cyboxWords) :=
    ok_of_eval (by decide +kernel)
  obtain ⟨⟨r, k⟩, h1, c, hc, ha, ht, he⟩ := h
  refine ⟨docRebound, r, k, h1, by decide +kernel, by decide +kernel, rfl, _, .cybox20 .cybox20, _, List.mem_singleton.2 rfl, c, hc, ha,
    "EventTypeVocab-1.0", by decide, "cyboxVocabs", cyboxWords, ⟨_, ht, ⟨by decide, by decide, by decide⟩, he⟩, Or.inl rfl⟩

end Ramrod

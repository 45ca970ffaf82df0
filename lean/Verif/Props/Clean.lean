import Verif.Lemmas.Clean
import Verif.Props.Untrans
/-!
# Cleaning: C13, C14, C15, C16, C41, C44
-/

namespace Ramrod

open Samples

/-! ## Specification vocabulary -/

/-- The same element data, up to the value of the attribute `id`. -/
def SameButId (e e' : Elem) : Prop :=
  e'.tag = e.tag ∧ e'.decls = e.decls ∧ e'.text = e.text ∧ e'.tail = e.tail ∧
  e'.attrs.map (·.1) = e.attrs.map (·.1) ∧ ∀ a, a ≠ ⟨none, "id"⟩ → e'.get? a = e.get? a

/-- The element shares its id with another one (in a step that looks at ids). -/
def DupAt (nss : Option (List String)) (t : Node) (c : Ctx) : Prop :=
  ∃ ns i, nss = some ns ∧ HasId ns i c ∧ Shared ns t i

/-- The copy of a removed element, in the document changed by `F`, without the parts at the positions `done`. -/
def copyOf (F : Ctx → Elem) (done : List Pos) (c : Ctx) : Node :=
  Node.pruneCtx (fun d => decide (d.pos ∈ done)) c.pos [] []
    (.elem (F c) (Node.mapCtxs F c.pos 0 c.env (c.e.tag :: c.anc) c.kids))

/-- The copies of the elements of a list; parts removed before are missing. -/
def copies (F : Ctx → Elem) : List Pos → List Ctx → List Node
  | _, [] => []
  | done, c :: cs => copyOf F done c :: copies F (c.pos :: done) cs

/-! ## Helpers -/

theorem removedCopies_eq {F : Ctx → Elem} (hF : Keeps F) {t : Node} : ∀ (cs : List Ctx) (done : List Pos),
    (∀ c ∈ cs, c ∈ t.elems) → removedCopies (t.edit F) done (cs.map (·.pos)) = copies F done cs
  | [], _, _ => rfl
  | c :: cs, done, h => by
    have hm : c.upd F ∈ (t.edit F).elems := by
      rw [elems_edit hF]; exact List.mem_map.2 ⟨c, h c (by simp), rfl⟩
    have h1 := ctxAt_mem hm
    have hp : (c.upd F).pos = c.pos := rfl
    rw [hp] at h1
    simp only [List.map_cons, removedCopies, h1, copies]
    rw [removedCopies_eq hF cs (c.pos :: done) (fun d hd => h d (by simp [hd]))]
    congr 1
    exact prune_eq_pruneCtx _ _ _ _ (fun _ _ => rfl)

theorem sameButId_refl (e : Elem) : SameButId e e := ⟨rfl, rfl, rfl, rfl, rfl, fun _ _ => rfl⟩

theorem sameButId_set {e : Elem} {i : String} (h : e.get? attrId = some i) (v : String) :
    SameButId e (e.set attrId v) := by
  refine ⟨rfl, rfl, rfl, rfl, set_names (by rw [show Attrs.get? e.attrs attrId = some i from h]; rfl), ?_⟩
  intro a ha
  rw [Elem.get?_set]
  exact if_neg (Ne.symm ha)

/-- The cleaned elements of a table of groups. -/
theorem groups_flat {ns : List String} {t : Node} {g : Dups} (hg : IdGroups ns t g) (c : Ctx) :
    c ∈ g.flatMap (·.2) ↔ c ∈ t.elems ∧ ∃ i, HasId ns i c ∧ Shared ns t i := by
  rw [List.mem_flatMap]
  constructor
  · rintro ⟨⟨i, l⟩, hm, hc⟩
    obtain ⟨h1, h2⟩ := (hg.2 i l).1 hm
    obtain ⟨h3, h4⟩ := (h2.2 c).1 hc
    exact ⟨h3, i, h4, h1⟩
  · rintro ⟨h1, i, h2, h3⟩
    obtain ⟨l, hl⟩ := idGroup_exists ns t i
    exact ⟨(i, l), (hg.2 i l).2 ⟨h3, hl⟩, (hl.2 c).2 ⟨h1, h2⟩⟩

theorem hasId_unique {ns : List String} {i j : String} {c : Ctx} (h : HasId ns i c) (h' : HasId ns j c) : i = j := by
  have := h.2.2.symm.trans h'.2.2
  exact Option.some.inj this

theorem flat_nodup {ns : List String} {t : Node} : ∀ {g : Dups}, (g.map (·.1)).Nodup →
    (∀ x ∈ g, IdGroup ns t x.1 x.2) → ((g.flatMap (·.2)).map (·.pos)).Nodup
  | [], _, _ => by simp
  | x :: g, hn, h => by
    simp only [List.map_cons, List.nodup_cons] at hn
    simp only [List.flatMap_cons, List.map_append, List.nodup_append]
    refine ⟨((h x (by simp)).1.map _).nodup (elems_nodup t), flat_nodup hn.2 (fun y hy => h y (by simp [hy])), ?_⟩
    intro p hp q hq hpq
    obtain ⟨c, hc, rfl⟩ := List.mem_map.1 hp
    obtain ⟨d, hd, rfl⟩ := List.mem_map.1 hq
    obtain ⟨y, hy, hd⟩ := List.mem_flatMap.1 hd
    obtain ⟨hc1, hc2⟩ := ((h x (by simp)).2 c).1 hc
    obtain ⟨hd1, hd2⟩ := ((h y (by simp [hy])).2 d).1 hd
    have := elems_pos_inj hc1 hd1 hpq
    subst this
    exact hn.1 (List.mem_map.2 ⟨y, hy, hasId_unique hd2 hc2⟩)

theorem wellTyped_of_find {m : List (String × String)} {ty ns : String} {t : Node} {l : List Ctx}
    (h : (disallowedType m ty ns).find t = .ok l) : WellTyped t := by
  simp only [Finder.find, Finder.contexts, disallowedType, List.isEmpty_cons, Bool.false_eq_true, if_false] at h
  split at h
  · cases h
  · next cs hcs =>
    obtain ⟨h1, _⟩ := filterE_filter hcs
    intro c hc ha hx
    obtain ⟨b, hb⟩ := h1 c (List.mem_filter.2 ⟨mem_descs_iff.2 ⟨hc, ha⟩, by
      rw [Elem.has_eq]
      cases hg : c.e.get? tagXsiType with
      | none => exact absurd hg hx
      | some v => rfl⟩)
    exact isContext_ok hb

theorem findAll_first {f : Finder} {fs : List Finder} {t : Node} {l : List Ctx} (h : findAll (f :: fs) t = .ok l) :
    ∃ l', f.find t = .ok l' := by
  simp only [findAll] at h
  split at h
  · cases h
  · next a ha => exact ⟨a, ha⟩

/-- What a step finds before cleaning. -/
theorem disallowed_spec {w : World} {u : Updater} {rules : List Rule} {nss : Option (List String)} {ty : Bool}
    {V : Node → Prop} (hu : StepRules w u rules nss ty V) {t : Node} {d : Option (List Ctx)} (h : u.disallowed t = .ok d) :
    ReportsAll t rules (d.getD []) := by
  cases hu with
  | cybox20 => cases h; exact .nil
  | cybox201 =>
    obtain ⟨l, h1, h2⟩ := findAll_201 t
    have : cybox201.disallowed t = .ok (some l) := by
      show (findAll cybox201Disallowed t).map some = _
      rw [h1]; rfl
    rw [this] at h
    cases h
    exact h2
  | stix10 =>
    have h' : (findAll stix10Disallowed t).map some = .ok d := h
    obtain ⟨l, hl, rfl⟩ := except_map_ok h'
    obtain ⟨l', hf⟩ := findAll_first hl
    obtain ⟨l2, h1, h2⟩ := findAll_10 (wellTyped_of_find hf)
    rw [hl] at h1
    cases h1
    exact h2
  | stix101 =>
    have h' : (stix101GetDisallowed w t).map some = .ok d := h
    obtain ⟨l, hl, rfl⟩ := except_map_ok h'
    simp only [stix101GetDisallowed] at hl
    split at hl
    · cases hl
    · next a ha =>
      obtain ⟨l', hf⟩ := findAll_first ha
      obtain ⟨la, ha1, ha2⟩ := findAll_101 w (wellTyped_of_find hf)
      obtain ⟨lb, hb1, hb2⟩ := findAll_201 t
      have hb' : findAll stix101Cybox.disallowed t = .ok lb := hb1
      rw [hb'] at hl
      rw [ha] at ha1
      cases ha1
      cases hl
      exact reportsAll_append ha2 hb2
  | stix11 => cases h; exact .nil
  | stix111 => cases h; exact .nil
  | stix12 => cases h

theorem duplicates_spec {w : World} {u : Updater} {rules : List Rule} {nss : Option (List String)} {ty : Bool}
    {V : Node → Prop} (hu : StepRules w u rules nss ty V) {t : Node} {d : Option (List Ctx)} (h : u.disallowed t = .ok d) :
    GroupsFor nss t (u.duplicates t) := by
  cases hu with
  | cybox20 => rfl
  | cybox201 => exact ⟨_, rfl, idGroups_getDuplicates (fun _ => Iff.rfl) t⟩
  | stix10 => rfl
  | stix101 => exact ⟨_, rfl, idGroups_101 t⟩
  | stix11 => rfl
  | stix111 => rfl
  | stix12 => cases h

/-- The removal part of a cleaning. -/
def cutOf (dis : Option (List Ctx)) (t : Node) : Node × List Node :=
  match dis with
  | none => (t, [])
  | some cs => if cs.isEmpty then (t, []) else cleanDisallowed t (cs.map (·.pos))

theorem clean_cut {u : Updater} {o : Options} {k k' : Nat} {t : Node} {r : Result} (hc : clean u o k t = .ok (r, k')) :
    ∃ dis, u.disallowed t = .ok dis ∧
      ((u.duplicates t = none ∧ k' = k ∧ r = ⟨(cutOf dis t).1, (cutOf dis t).2, []⟩) ∨
      (∃ g, u.duplicates t = some g ∧ k' = (cleanDuplicates o.newId g k t).2.1 ∧
        r = ⟨(cutOf dis (cleanDuplicates o.newId g k t).1).1, (cutOf dis (cleanDuplicates o.newId g k t).1).2,
          (cleanDuplicates o.newId g k t).2.2⟩)) := by
  simp only [clean] at hc
  split at hc
  · cases hc
  next dis hdis =>
  refine ⟨dis, hdis, ?_⟩
  cases hd : u.duplicates t with
  | none =>
    rw [hd] at hc
    cases hc
    exact Or.inl ⟨rfl, rfl, by cases dis <;> rfl⟩
  | some g =>
    rw [hd] at hc
    cases hc
    exact Or.inr ⟨g, rfl, rfl, by cases dis <;> rfl⟩

theorem cut_eq {F : Ctx → Elem} (hF : Keeps F) {t : Node} {dis : Option (List Ctx)} :
    (∀ c ∈ dis.getD [], c ∈ t.elems) → cutOf dis (t.edit F) =
      ((t.edit F).without (fun c => decide (c.pos ∈ (dis.getD []).map (·.pos))), copies F [] (dis.getD [])) := by
  intro hl
  have hnil : (t.edit F).without (fun c => decide (c.pos ∈ List.map (·.pos) ([] : List Ctx))) = t.edit F := by
    rw [← removeAll_without, Node.removeAll]
    exact prune_none (fun p => by simp) _
  cases dis with
  | none => simp only [Option.getD_none, cutOf]; rw [hnil]; rfl
  | some cs =>
    simp only [Option.getD_some, cutOf]
    cases cs with
    | nil => rw [hnil]; rfl
    | cons c cs =>
      simp only [List.isEmpty_cons, Bool.false_eq_true, if_false, cleanDisallowed]
      rw [removedCopies_eq hF (t := t) (c :: cs) [] hl, removeAll_without]

/-- Everything about a cleaning. -/
theorem clean_spec {w : World} {u : Updater} {rules : List Rule} {nss : Option (List String)} {ty : Bool}
    {V : Node → Prop} (hu : StepRules w u rules nss ty V) {o : Options} {k k' : Nat} {t : Node} {r : Result}
    (hc : clean u o k t = .ok (r, k')) : ∃ (F : Ctx → Elem) (l : List Ctx) (ν : Ctx → String) (n : Ctx → Nat),
    Keeps F ∧ ReportsAll t rules l ∧
    (∀ c ∈ t.elems, DupAt nss t c → F c = c.e.set attrId (ν c)) ∧
    (∀ c ∈ t.elems, ¬ DupAt nss t c → F c = c.e) ∧
    r.doc = (t.edit F).without (fun c => decide (c.pos ∈ l.map (·.pos))) ∧
    r.removed = copies F [] l ∧
    (∀ c ∈ t.elems, DupAt nss t c → ν c = o.newId (n c) ((c.e.get? attrId).getD "") ∧ k ≤ n c ∧ n c < k') ∧
    (∀ c ∈ t.elems, ∀ d ∈ t.elems, DupAt nss t c → DupAt nss t d → n c = n d → c = d) ∧
    (r.remapped.map (·.1)).Nodup ∧
    (∀ i ids, (i, ids) ∈ r.remapped ↔
      ∃ ns g, nss = some ns ∧ Shared ns t i ∧ IdGroup ns t i g ∧ ids = g.map ν) := by
  obtain ⟨dis, hdis, hc⟩ := clean_cut hc
  have hr := disallowed_spec hu hdis
  have hg := duplicates_spec hu hdis
  have hl : ∀ c ∈ dis.getD [], c ∈ t.elems := fun c h => ((reportsAll_mem hr c).1 h).1
  have hrem := fun (F : Ctx → Elem) (hF : Keeps F) => cut_eq hF hl
  cases nss with
  | none =>
    have hd : u.duplicates t = none := hg
    obtain ⟨_, rfl, rfl⟩ | ⟨g, hd', _⟩ := hc
    rotate_left
    · rw [hd] at hd'; cases hd'
    have hno : ∀ c, ¬ DupAt none t c := by rintro c ⟨ns, i, h, _⟩; cases h
    have hF : Keeps (fun c : Ctx => c.e) := fun _ => ⟨rfl, rfl⟩
    have hed : t.edit (fun c => c.e) = t := edit_self (fun _ _ => rfl)
    have := hrem _ hF
    rw [hed] at this
    rw [this]
    refine ⟨fun c => c.e, dis.getD [], fun _ => "", fun _ => 0, hF, hr, fun c _ h => absurd h (hno c), fun _ _ _ => rfl,
      by rw [hed], rfl, fun c _ h => absurd h (hno c), fun c _ _ _ h => absurd h (hno c), by simp, ?_⟩
    intro i ids
    simp
  | some ns =>
    obtain ⟨g, hd, hgr⟩ := hg
    obtain ⟨hd', _⟩ | ⟨g', hd', hk, hr'⟩ := hc
    · rw [hd] at hd'; cases hd'
    rw [hd] at hd'
    cases hd'
    have hnd := flat_nodup (g := g) hgr.1 (fun x hx => ((hgr.2 x.1 x.2).1 hx).2)
    have hdup : ∀ c ∈ t.elems, (DupAt (some ns) t c ↔ c ∈ g.flatMap (·.2)) := by
      intro c hc
      rw [groups_flat hgr]
      constructor
      · rintro ⟨ns', i, h1, h2, h3⟩
        cases h1
        exact ⟨hc, i, h2, h3⟩
      · rintro ⟨_, i, h2, h3⟩
        exact ⟨ns, i, rfl, h2, h3⟩
    rw [cleanDuplicates_eq _ _ _ _ hnd] at hk hr'
    simp only at hk hr'
    generalize hA : assignIds o.newId (g.flatMap (·.2)) k = A at hr'
    let F : Ctx → Elem := fun c => setIds A c.pos c.e
    have hF : Keeps F := by
      intro c
      show (setIds A c.pos c.e).tag = _ ∧ (setIds A c.pos c.e).decls = _
      unfold setIds
      split <;> exact ⟨rfl, rfl⟩
    have hmap : t.mapPos (setIds A) [] = t.edit F := mapPos_eq_mapCtx _ _ _ _ (fun _ _ => rfl)
    rw [hmap, hrem F hF] at hr'
    subst hk
    subst hr'
    have hin : ∀ c ∈ g.flatMap (·.2), idAt A c.pos =
        some (o.newId (k + (g.flatMap (·.2)).idxOf c) ((c.e.get? attrId).getD "")) := by
      intro c hc
      rw [← hA]
      exact idAt_assign _ _ _ hnd c hc
    refine ⟨F, dis.getD [], newIdOf A, fun c => k + (g.flatMap (·.2)).idxOf c, hF, hr, ?_, ?_, rfl, rfl, ?_, ?_, ?_, ?_⟩
    · intro c hc hD
      have := hin c ((hdup c hc).1 hD)
      show setIds A c.pos c.e = _
      simp only [setIds, newIdOf, this, Option.getD_some]
    · intro c hc hD
      have : idAt A c.pos = none := by
        rw [idAt_none, ← hA, assignIds_pos]
        intro hm
        obtain ⟨d, hd, hp⟩ := List.mem_map.1 hm
        have := elems_pos_inj ((groups_flat hgr d).1 hd).1 hc hp
        subst this
        exact hD ((hdup d hc).2 hd)
      show setIds A c.pos c.e = _
      simp only [setIds, this]
    · intro c hc hD
      have hm := (hdup c hc).1 hD
      refine ⟨?_, by simp, ?_⟩
      · simp only [newIdOf, hin c hm, Option.getD_some]
      · have := List.idxOf_lt_length_iff.2 hm
        simp only
        omega
    · intro c hc d hd hD hE he
      have hm := (hdup c hc).1 hD
      have hm' := (hdup d hd).1 hE
      have he' : (g.flatMap (·.2)).idxOf c = (g.flatMap (·.2)).idxOf d := by simpa using he
      have h1 := List.getElem_idxOf (List.idxOf_lt_length_iff.2 hm)
      have h2 := List.getElem_idxOf (List.idxOf_lt_length_iff.2 hm')
      simp only [he'] at h1
      exact h1.symm.trans h2
    · simp only [List.map_map]
      exact hgr.1
    · intro i ids
      simp only [List.mem_map, Prod.mk.injEq]
      constructor
      · rintro ⟨x, hx, rfl, rfl⟩
        obtain ⟨h1, h2⟩ := (hgr.2 x.1 x.2).1 hx
        exact ⟨ns, x.2, rfl, h1, h2, rfl⟩
      · rintro ⟨ns', l, h1, h2, h3, rfl⟩
        cases h1
        exact ⟨(i, l), (hgr.2 i l).2 ⟨h2, h3⟩, rfl, rfl⟩

/-! ## C14 -/

/-- C14.  Cleaning is a change of `id` values (`F`) followed by the removal of exactly the untranslatable elements below
the root, with all they contain; every other node stays, in its place.  The removed collection is the list of copies of
the elements reported (rule by rule in document order).
Partial: an element is removed together with the text that follows it (its tail). -/
theorem C14_frame_partial (w : World) (u : Updater) (rules : List Rule) (nss : Option (List String)) (ty : Bool)
    (V : Node → Prop) (hu : StepRules w u rules nss ty V) (o : Options) (k k' : Nat) (t : Node) (r : Result)
    (hc : clean u o k t = .ok (r, k')) :
    ∃ (F : Ctx → Elem) (S : Pos → Bool) (l : List Ctx), ReportsAll t rules l ∧
      (∀ c ∈ t.elems, SameButId c.e (F c)) ∧
      (∀ c ∈ t.elems, S c.pos = true ↔ Untranslatable rules t c) ∧
      r.doc = (t.edit F).without (fun c => S c.pos) ∧ r.removed = copies F [] l := by
  obtain ⟨F, l, ν, n, hF, hl, h1, h2, h3, h4, _⟩ := clean_spec hu hc
  refine ⟨F, fun p => decide (p ∈ l.map (·.pos)), l, hl, ?_, ?_, h3, h4⟩
  · intro c hc
    by_cases hD : DupAt nss t c
    · rw [h1 c hc hD]
      obtain ⟨ns, i, _, hi, _⟩ := hD
      exact sameButId_set hi.2.2 _
    · rw [h2 c hc hD]; exact sameButId_refl _
  · intro c hc
    rw [decide_eq_true_eq]
    constructor
    · intro h
      obtain ⟨d, hd, hp⟩ := List.mem_map.1 h
      have hd' := (reportsAll_mem hl d).1 hd
      rw [← elems_pos_inj hd'.1 hc hp]
      exact hd'.2
    · intro h
      exact List.mem_map.2 ⟨c, (reportsAll_mem hl c).2 ⟨hc, h⟩, rfl⟩

/-- A CybOX 2.0.1 document with text after an untranslatable element. -/
def docTail : Node :=
  cyboxDoc v201 [.elem ⟨⟨some nsHTTPSession, "X_Forwarded_Proto"⟩, [], [], some "https", some "text of the document"⟩ [],
    el nsCyboxCore "Observable" [] []]

/-- C14 fails for text: the text after a removed element, which is text of its parent, is gone as well. -/
theorem C14_tail_fails : (clean cybox201 o0 0 docTail).map (fun r => r.1.doc) =
    .ok (cyboxDoc v201 [el nsCyboxCore "Observable" [] []]) := by decide +kernel

/-- The sample: two elements with one id and one removed element. -/
example : ∃ r, clean cybox201 o0 0 cybox201bad = .ok r ∧
    (r.1.doc = cyboxDoc v201 [el nsCyboxCore "Observable" [at_ "id" "d-cleaned-"] [],
      el nsCyboxCore "Observable" [at_ "id" "d-cleaned-x"] []] ∧ r.1.removed.length = 1 ∧
      r.1.remapped = [("d", ["d-cleaned-", "d-cleaned-x"])] ∧ r.2 = 2) := ok_of_eval (by decide +kernel)

/-! ## C16 -/

/-- C16.  Before the removal of untranslatable elements, cleaning changes (`F`) exactly the elements sharing their id with
another one, and of these only the id; the new id comes from a call of the generator of its own (number `n c`); the table
has exactly the shared ids as keys, each once, with the new ids of all its elements in document order. -/
theorem C16_remap (w : World) (u : Updater) (rules : List Rule) (nss : Option (List String)) (ty : Bool)
    (V : Node → Prop) (hu : StepRules w u rules nss ty V) (o : Options) (k k' : Nat) (t : Node) (r : Result)
    (hc : clean u o k t = .ok (r, k')) :
    ∃ (F : Ctx → Elem) (S : Pos → Bool) (ν : Ctx → String) (n : Ctx → Nat),
      r.doc = (t.edit F).without (fun c => S c.pos) ∧
      (∀ c ∈ t.elems, ¬ DupAt nss t c → F c = c.e) ∧
      (∀ c ∈ t.elems, DupAt nss t c → SameButId c.e (F c) ∧ (F c).get? ⟨none, "id"⟩ = some (ν c) ∧
        (∀ i, c.e.get? ⟨none, "id"⟩ = some i → ν c = o.newId (n c) i) ∧ k ≤ n c ∧ n c < k') ∧
      (∀ c ∈ t.elems, ∀ d ∈ t.elems, DupAt nss t c → DupAt nss t d → n c = n d → c = d) ∧
      (r.remapped.map (·.1)).Nodup ∧
      (∀ i ids, (i, ids) ∈ r.remapped ↔
        ∃ ns g, nss = some ns ∧ Shared ns t i ∧ IdGroup ns t i g ∧ ids = g.map ν) := by
  obtain ⟨F, l, ν, n, hF, hl, h1, h2, h3, h4, h5, h6, h7, h8⟩ := clean_spec hu hc
  refine ⟨F, fun p => decide (p ∈ l.map (·.pos)), ν, n, h3, h2, ?_, h6, h7, h8⟩
  intro c hc hD
  obtain ⟨h9, h10, h11⟩ := h5 c hc hD
  rw [h1 c hc hD]
  obtain ⟨ns, i, _, hi, _⟩ := hD
  refine ⟨sameButId_set hi.2.2 _, ?_, ?_, h10, h11⟩
  · rw [Elem.get?_set]; exact if_pos rfl
  · intro j hj
    rw [h9, show c.e.get? attrId = some j from hj]
    rfl

/-! ## C15 -/

/-- The generator gives, from call `k` on, ids that are pairwise different and none of which occurs in the document. -/
def FreshFrom (gen : Nat → String → String) (k : Nat) (t : Node) : Prop :=
  (∀ j j' i i', k ≤ j → k ≤ j' → gen j i = gen j' i' → j = j') ∧
  (∀ c ∈ t.elems, ∀ j i, k ≤ j → c.e.get? ⟨none, "id"⟩ ≠ some (gen j i))

/-- The namespace of a name is one of the list. -/
def nsIn (ns : List String) (q : QName) : Bool :=
  match q.ns with
  | none => false
  | some n => decide (n ∈ ns)

theorem nsIn_iff {ns : List String} {q : QName} : (∃ n ∈ ns, q.ns = some n) ↔ nsIn ns q = true := by
  unfold nsIn
  cases q.ns with
  | none => simp
  | some n => simp

/-- C15.  With fresh ids, after cleaning no two elements in known namespaces (below the root) share an id. -/
theorem C15_unique (w : World) (u : Updater) (rules : List Rule) (ns : List String) (ty : Bool)
    (V : Node → Prop) (hu : StepRules w u rules (some ns) ty V) (o : Options) (k k' : Nat) (t : Node) (r : Result)
    (hf : FreshFrom o.newId k t) (hc : clean u o k t = .ok (r, k')) : ∀ i, ¬ Shared ns r.doc i := by
  obtain ⟨F, l, ν, n, hF, hl, h1, h2, h3, h4, h5, h6, h7, h8⟩ := clean_spec hu hc
  let f : Elem × NsMap × List QName → Option String := fun x =>
    if x.2.2 ≠ [] ∧ nsIn ns x.1.tag = true then x.1.get? attrId else none
  have hfk : ∀ c : Ctx, ∀ i, f c.key = some i ↔ HasId ns i c := by
    intro c i
    show (if c.anc ≠ [] ∧ nsIn ns c.e.tag = true then c.e.get? attrId else none) = some i ↔ _
    unfold HasId
    rw [nsIn_iff]
    by_cases hp : c.anc ≠ [] ∧ nsIn ns c.e.tag = true
    · rw [if_pos hp]
      exact ⟨fun h => ⟨hp.1, hp.2, h⟩, fun h => h.2.2⟩
    · rw [if_neg hp]
      exact ⟨fun h => (by cases h), fun h => absurd ⟨h.1, h.2.1⟩ hp⟩
  -- ids are unique before the removal
  have huniq : ∀ c ∈ t.elems, ∀ d ∈ t.elems, ∀ i, HasId ns i (c.upd F) → HasId ns i (d.upd F) → c = d := by
    intro c hc d hd i hci hdi
    have old : ∀ x ∈ t.elems, ¬ DupAt (some ns) t x → HasId ns i (x.upd F) → HasId ns i x := by
      intro x hx hD h
      obtain ⟨p1, p2, p3⟩ := h
      rw [show (x.upd F).e = F x from rfl, h2 x hx hD] at p2 p3
      exact ⟨p1, p2, p3⟩
    have new : ∀ x ∈ t.elems, DupAt (some ns) t x → HasId ns i (x.upd F) →
        i = o.newId (n x) ((x.e.get? attrId).getD "") ∧ k ≤ n x := by
      intro x hx hD h
      have h' : (F x).get? attrId = some i := h.2.2
      rw [h1 x hx hD, Elem.get?_set, if_pos rfl, (h5 x hx hD).1] at h'
      exact ⟨(Option.some.inj h').symm, (h5 x hx hD).2.1⟩
    by_cases hDc : DupAt (some ns) t c <;> by_cases hDd : DupAt (some ns) t d
    · obtain ⟨e1, k1⟩ := new c hc hDc hci
      obtain ⟨e2, k2⟩ := new d hd hDd hdi
      exact h6 c hc d hd hDc hDd (hf.1 _ _ _ _ k1 k2 (e1.symm.trans e2))
    · obtain ⟨e1, k1⟩ := new c hc hDc hci
      have := (old d hd hDd hdi).2.2
      rw [e1] at this
      exact absurd this (hf.2 d hd _ _ k1)
    · obtain ⟨e1, k1⟩ := new d hd hDd hdi
      have := (old c hc hDc hci).2.2
      rw [e1] at this
      exact absurd this (hf.2 c hc _ _ k1)
    · apply Classical.byContradiction
      intro hne
      exact hDc ⟨ns, i, rfl, old c hc hDc hci, c, hc, d, hd, hne, old c hc hDc hci, old d hd hDd hdi⟩
  have hnd : ((t.edit F).elems.filterMap (fun c => f c.key)).Nodup := by
    rw [elems_edit hF, List.filterMap_map]
    refine filterMap_nodup (nodup_of_map (·.pos) (elems_nodup t)) ?_
    intro c hc d hd i hci hdi
    exact huniq c hc d hd i ((hfk _ i).1 hci) ((hfk _ i).1 hdi)
  have hsub : (r.doc.elems.filterMap (fun c => f c.key)).Nodup := by
    have e : ∀ L : List Ctx, L.filterMap (fun c => f c.key) = (L.map Ctx.key).filterMap f := by
      intro L; rw [List.filterMap_map]; rfl
    rw [e] at hnd ⊢
    rw [h3]
    exact ((without_sublist _ _).filterMap f).nodup hnd
  rintro i ⟨c, hc, d, hd, hne, hci, hdi⟩
  exact hne (nodup_filterMap hsub c hc d hd i ((hfk c i).2 hci) ((hfk d i).2 hdi))

theorem toList_inj {a b : String} (h : a.toList = b.toList) : a = b := String.toList_injective h

/-- C15 with the shipped generator: fresh when the UUIDs are pairwise different, of one length, and no id of the document
ends in one of them. -/
theorem C15_shipped (uuid : Nat → String) (n : Nat) (hlen : ∀ j, (uuid j).toList.length = n)
    (hinj : ∀ j j', uuid j = uuid j' → j = j') (k : Nat) (t : Node)
    (hnew : ∀ c ∈ t.elems, ∀ i, c.e.get? ⟨none, "id"⟩ = some i → ∀ j, ¬ (uuid j).toList <:+ i.toList) :
    FreshFrom (fun j i => createNewId (uuid j) i) k t := by
  refine ⟨fun j j' i i' _ _ h => ?_, fun c hc j i _ h => ?_⟩
  · have h' : (i ++ "-cleaned-" ++ uuid j).toList = (i' ++ "-cleaned-" ++ uuid j').toList := congrArg String.toList h
    rw [String.toList_append, @String.toList_append (i' ++ _)] at h'
    exact hinj _ _ (toList_inj (List.append_inj_right' h' ((hlen j).trans (hlen j').symm)))
  · refine hnew c hc _ h j ?_
    show (uuid j).toList <:+ (i ++ "-cleaned-" ++ uuid j).toList
    rw [String.toList_append]
    exact List.suffix_append _ _

/-- A supply of fresh ids for the sample with a shared id, and what cleaning does with it. -/
example : FreshFrom (fun n _ => String.ofList (List.replicate (n + 2) 'x')) 0 cybox201bad ∧ Shared known201 cybox201bad "d" := by
  refine ⟨⟨?_, ?_⟩, ?_⟩
  · intro j j' i i' _ _ h
    have := congrArg (fun s => s.toList.length) h
    simpa using this
  · intro c hc j i _ h
    have hall : (cybox201bad.elems.all fun c => decide (c.e.get? ⟨none, "id"⟩ = none ∨ c.e.get? ⟨none, "id"⟩ = some "d")) = true := by
      decide +kernel
    rcases of_decide_eq_true (List.all_eq_true.1 hall c hc) with h' | h'
    · rw [h'] at h; cases h
    · rw [h'] at h
      have := congrArg (fun s => s.toList.length) (Option.some.inj h)
      simp at this
  · have h : (cybox201bad.elems.any fun c => cybox201bad.elems.any fun d => decide (c ≠ d) &&
        (decide (c.anc ≠ [] ∧ (∃ n ∈ known201, c.e.tag.ns = some n) ∧ c.e.get? ⟨none, "id"⟩ = some "d") &&
        decide (d.anc ≠ [] ∧ (∃ n ∈ known201, d.e.tag.ns = some n) ∧ d.e.get? ⟨none, "id"⟩ = some "d"))) = true := by decide +kernel
    obtain ⟨c, hc, h⟩ := List.any_eq_true.1 h
    obtain ⟨d, hd, h⟩ := List.any_eq_true.1 h
    simp only [Bool.and_eq_true, decide_eq_true_eq] at h
    exact ⟨c, hc, d, hd, h.1, h.2.1, h.2.2⟩

/-! ## Helpers: what is left after cleaning -/

/-- `c'` is what is left of the element `c` of the document. -/
structure LeftOf (rules : List Rule) (t : Node) (c' c : Ctx) : Prop where
  mem : c ∈ t.elems
  same : SameButId c.e c'.e
  env : c'.env = c.env
  anc : c'.anc = c.anc
  fine : c.anc ≠ [] → ¬ Untranslatable rules t c
  len : c'.kids.length ≤ c.kids.length
  kid : ∀ e ks, Node.elem e ks ∈ c'.kids → ∃ d ∈ t.elems, ∃ j, d.ChildOf j c ∧ SameButId d.e e ∧
    (NoElems d.kids → d.e.get? ⟨none, "id"⟩ = none → Node.elem e ks = d.node)
  stay : ∀ d ∈ t.elems, ∀ j, d.ChildOf j c → ¬ Untranslatable rules t d → ∃ e ks, Node.elem e ks ∈ c'.kids ∧ SameButId d.e e

theorem clean_kept {w : World} {u : Updater} {rules : List Rule} {nss : Option (List String)} {ty : Bool}
    {V : Node → Prop} (hu : StepRules w u rules nss ty V) {o : Options} {k k' : Nat} {t : Node} {r : Result}
    (hc : clean u o k t = .ok (r, k')) {c' : Ctx} (h : c' ∈ r.doc.elems) : ∃ c, LeftOf rules t c' c := by
  obtain ⟨F, l, ν, n, hF, hl, h1, h2, h3, h4, _⟩ := clean_spec hu hc
  have same : ∀ c ∈ t.elems, SameButId c.e (F c) := by
    intro c hc
    by_cases hD : DupAt nss t c
    · rw [h1 c hc hD]
      obtain ⟨ns, i, _, hi, _⟩ := hD
      exact sameButId_set hi.2.2 _
    · rw [h2 c hc hD]; exact sameButId_refl _
  have noId : ∀ c ∈ t.elems, c.e.get? ⟨none, "id"⟩ = none → F c = c.e := by
    intro c hc hi
    refine h2 c hc ?_
    rintro ⟨ns, i, _, hi', _⟩
    rw [hi'.2.2] at hi
    cases hi
  have sel : ∀ c ∈ t.elems, decide ((c.upd F).pos ∈ l.map (·.pos)) = true ↔ Untranslatable rules t c := by
    intro c hc
    rw [decide_eq_true_eq]
    constructor
    · intro h
      obtain ⟨d, hd, hp⟩ := List.mem_map.1 h
      have hd' := (reportsAll_mem hl d).1 hd
      rw [← elems_pos_inj hd'.1 hc hp]
      exact hd'.2
    · intro h
      exact List.mem_map.2 ⟨c, (reportsAll_mem hl c).2 ⟨hc, h⟩, rfl⟩
  rw [h3] at h
  obtain ⟨c, hc, q1, q2, q3, q4, q5, q6, q7⟩ := mem_cut hF h
  refine ⟨c, hc, by rw [q1]; exact same c hc, q2, q3, ?_, q5, ?_, ?_⟩
  · intro ha hb
    have := q4 ha
    rw [(sel c hc).2 hb] at this
    cases this
  · intro e ks hm
    obtain ⟨d, hd, j, hj, rfl, _, hk⟩ := q6 e ks hm
    refine ⟨d, hd, j, hj, same d hd, fun hn hi => ?_⟩
    rw [noId d hd hi, hk hn]
    rfl
  · intro d hd j hj hb
    obtain ⟨ks, hm⟩ := q7 d hd j hj (by
      cases hs : decide ((d.upd F).pos ∈ l.map (·.pos)) with
      | false => rfl
      | true => exact absurd ((sel d hd).1 hs) hb)
    exact ⟨F d, ks, hm, same d hd⟩

section Left
variable {rules : List Rule} {t : Node} {c' c : Ctx}

theorem LeftOf.type (h : LeftOf rules t c' c) {ty ns : String} (hm : typeRule ty ns ∈ rules) {s : Node} :
    ¬ (typeRule ty ns).Bad s c' := by
  rintro ⟨ha, p, v, h1, h2, h3⟩
  rw [h.same.2.2.2.2.2 _ (by decide)] at h1
  rw [h.env] at h3
  rw [h.anc] at ha
  exact h.fine ha ⟨_, hm, ha, p, v, h1, h2, h3⟩

theorem LeftOf.below (h : LeftOf rules t c' c) {ns name : String} (hm : Rule.self (Below ns name) ∈ rules) {s : Node} :
    ¬ (Rule.self (Below ns name)).Bad s c' := by
  rintro ⟨h1, h2⟩
  rw [h.anc] at h1
  rw [h.same.1] at h2
  exact h.fine h1 ⟨_, hm, h1, h2⟩

theorem LeftOf.wrap (h : LeftOf rules t c' c) {ns name : String} (hm : wrapRule name ns ∈ rules) {s : Node}
    (hb : (wrapRule name ns).Bad s c') :
    c.e.tag = ⟨some "http://stix.mitre.org/TTP-1", name⟩ ∧ ∃ d ∈ t.elems, (∃ j, d.ChildOf j c) ∧ Untranslatable rules t d := by
  obtain ⟨⟨h1, h2⟩, h3⟩ := hb
  rw [h.anc] at h1
  rw [h.same.1] at h2
  refine ⟨h2, Classical.byContradiction fun hn => h.fine h1 ⟨_, hm, ⟨h1, h2⟩, ?_⟩⟩
  intro e ks hk
  obtain ⟨j, hj⟩ := List.getElem?_of_mem hk
  have hd := walk_child t c h.mem j e ks hj
  obtain ⟨e', ks', hm', hs⟩ := h.stay _ hd j ⟨rfl, rfl, rfl, hj⟩ (fun hb => hn ⟨_, hd, ⟨j, rfl, rfl, rfl, hj⟩, hb⟩)
  obtain ⟨v, p, q1, q2, q3⟩ := h3 e' ks' hm'
  refine ⟨v, p, ?_, q2, ?_⟩
  · rw [← q1]; exact (hs.2.2.2.2.2 _ (by decide)).symm
  · rw [← q3, h.env, hs.2.1]

theorem LeftOf.rule201 (h : LeftOf rules t c' c) (hm : ∀ r ∈ rules201, r ∈ rules) {s : Node} : ∀ r ∈ rules201, ¬ r.Bad s c' := by
  intro r hr
  have hm' := hm r hr
  simp only [rules201, List.mem_cons, List.not_mem_nil, or_false] at hr
  rcases hr with rfl | rfl | rfl | rfl
  · exact h.below hm'
  · exact h.below hm'
  · rintro ⟨h1, q, qs, h2⟩
    rw [h.same.1] at h1
    rw [h.anc] at h2
    exact h.fine (by rw [h2]; simp) ⟨_, hm', h1, q, qs, h2⟩
  · rintro ⟨⟨h1, h2⟩, ⟨e, ks, h3, h4⟩, h5⟩
    rw [h.anc] at h1
    rw [h.same.1] at h2
    obtain ⟨d, hd, j, hj, hs, _⟩ := h.kid e ks h3
    refine h.fine h1 ⟨_, hm', ⟨h1, h2⟩, ⟨d.e, d.kids, ?_, hs.1.symm.trans h4⟩, Nat.lt_of_lt_of_le h5 h.len⟩
    exact List.mem_of_getElem? hj.2.2.2

end Left

/-! ## C13 -/

/-- The schema validation accepts a date only if it has no child elements and no `id` (a fact about `xs:dateTime`). -/
def SimpleDates (w : World) : Prop := ∀ e ks, w.validDateTime (.elem e ks) = true → NoElems ks ∧ e.get? ⟨none, "id"⟩ = none

/-- A world in which one date is valid. -/
example : ∃ w : World, SimpleDates w ∧ w.validDateTime (.elem ⟨⟨some "http://stix.mitre.org/common-1", "Date_Time"⟩, [], [],
    some "2014-01-01T00:00:00", none⟩ []) = true := by
  refine ⟨⟨fun n => decide (n = .elem ⟨⟨some "http://stix.mitre.org/common-1", "Date_Time"⟩, [], [],
    some "2014-01-01T00:00:00", none⟩ []), fun _ => none⟩, ?_, by decide⟩
  intro e ks h
  have h' := of_decide_eq_true h
  simp only [Node.elem.injEq] at h'
  obtain ⟨rfl, rfl⟩ := h'
  exact ⟨fun _ _ h => (by cases h), rfl⟩

theorem LeftOf.date {w : World} (hw : SimpleDates w) {rules : List Rule} {t : Node} {c' c : Ctx} (h : LeftOf rules t c' c)
    (hm : Rule.parent (InvalidDate w) ∈ rules) {s : Node} (hc : c' ∈ s.elems) : ¬ (Rule.parent (InvalidDate w)).Bad s c' := by
  rintro ⟨d', hd', ⟨h1, ⟨q, qs, h2⟩, h3⟩, i, hi⟩
  have hch := elems_childOf hc hd' hi
  obtain ⟨d, hd, j, hj, hs, hsame⟩ := h.kid d'.e d'.kids (List.mem_of_getElem? hch.2.2.2)
  have hanc : d.anc = d'.anc := by rw [hj.2.2.1, hch.2.2.1, h.anc, h.same.1]
  have hca : c.anc ≠ [] := by
    have := hch.2.2.1.symm.trans h2
    rw [h.anc] at this
    simp only [List.cons.injEq] at this
    rw [this.2]; simp
  refine h.fine hca ⟨_, hm, d, hd, ⟨hs.1.symm.trans h1, ⟨q, qs, hanc.trans h2⟩, ?_⟩, j, hj.1⟩
  rw [← hs.2.2.1]
  rcases h3 with h3 | h3 | h3
  · exact Or.inl h3
  · exact Or.inr (Or.inl h3)
  · right; right
    cases hv : w.validDateTime d.node with
    | false => rfl
    | true =>
      obtain ⟨n1, n2⟩ := hw _ _ hv
      have : d'.node = d.node := hsame n1 n2
      rw [this, hv] at h3
      cases h3

/-- C13 for CybOX: after cleaning, no untranslatable element is left. -/
theorem C13_cybox (o : Options) (k k' : Nat) (t : Node) (r : Result) (hc : clean cybox201 o k t = .ok (r, k')) :
    ∀ c ∈ r.doc.elems, ¬ Untranslatable rules201 r.doc c := by
  rintro c' hc' ⟨q, hq, hb⟩
  obtain ⟨c, h⟩ := clean_kept (w := w0) .cybox201 hc hc'
  exact h.rule201 (fun _ hr => hr) q hq hb

/-- C13 for STIX.  The only untranslatable elements left by cleaning are `ttp:Malware` and `ttp:Attack_Patterns` elements
that were translatable before, and lost an untranslatable child.
Partial: such elements are left (`C13_left_fails`). -/
theorem C13_left_partial (w : World) (hw : SimpleDates w) (u : Updater) (rules : List Rule) (nss : Option (List String))
    (ty : Bool) (V : Node → Prop) (hu : StepRules w u rules nss ty V) (o : Options) (k k' : Nat) (t : Node) (r : Result)
    (hc : clean u o k t = .ok (r, k')) : ∀ c' ∈ r.doc.elems, Untranslatable rules r.doc c' →
      ∃ c ∈ t.elems, c.e.tag = c'.e.tag ∧ c.anc = c'.anc ∧ ¬ Untranslatable rules t c ∧
        (c.e.tag = ⟨some "http://stix.mitre.org/TTP-1", "Malware"⟩ ∨
          c.e.tag = ⟨some "http://stix.mitre.org/TTP-1", "Attack_Patterns"⟩) ∧
        ∃ d ∈ t.elems, (∃ i, d.pos = i :: c.pos) ∧ Untranslatable rules t d := by
  rintro c' hc' ⟨q, hq, hb⟩
  obtain ⟨c, h⟩ := clean_kept hu hc hc'
  have wrap : ∀ name ns, name = "Malware" ∨ name = "Attack_Patterns" → wrapRule name ns ∈ rules →
      (wrapRule name ns).Bad r.doc c' → ∃ c ∈ t.elems, c.e.tag = c'.e.tag ∧ c.anc = c'.anc ∧ ¬ Untranslatable rules t c ∧
        (c.e.tag = ⟨some "http://stix.mitre.org/TTP-1", "Malware"⟩ ∨
          c.e.tag = ⟨some "http://stix.mitre.org/TTP-1", "Attack_Patterns"⟩) ∧
        ∃ d ∈ t.elems, (∃ i, d.pos = i :: c.pos) ∧ Untranslatable rules t d := by
    intro name ns hname hm hb
    have ha : c.anc ≠ [] := by rw [← h.anc]; exact hb.1.1
    obtain ⟨h1, d, hd, ⟨j, hj⟩, h2⟩ := h.wrap hm hb
    refine ⟨c, h.mem, h.same.1.symm, h.anc.symm, h.fine ha, ?_, d, hd, ⟨j, hj.1⟩, h2⟩
    rcases hname with rfl | rfl
    · exact Or.inl h1
    · exact Or.inr h1
  cases hu with
  | cybox201 => exact absurd hb (h.rule201 (fun _ hr => hr) q hq)
  | stix10 =>
    have hq' := hq
    simp only [rules10, List.mem_cons, List.not_mem_nil, or_false] at hq
    rcases hq with rfl | rfl | rfl | rfl
    · exact absurd hb (h.type hq')
    · exact absurd hb (h.type hq')
    · exact wrap _ _ (Or.inl rfl) hq' hb
    · exact wrap _ _ (Or.inr rfl) hq' hb
  | stix101 =>
    have hq' := hq
    rcases List.mem_append.1 hq with hq | hq
    · simp only [rules101, List.mem_cons, List.not_mem_nil, or_false] at hq
      rcases hq with rfl | rfl | rfl | rfl | rfl
      · exact absurd hb (h.type hq')
      · exact absurd hb (h.type hq')
      · exact absurd hb (h.date hw hq' hc')
      · exact wrap _ _ (Or.inl rfl) hq' hb
      · exact wrap _ _ (Or.inr rfl) hq' hb
    · exact absurd hb (h.rule201 (fun _ hr => List.mem_append_right _ hr) q hq)
  | cybox20 => cases hq
  | stix11 => cases hq
  | stix111 => cases hq
  | stix12 => cases hq

/-- C13 for STIX documents in which cleaning does not take part of the children of a `ttp:Malware` or `ttp:Attack_Patterns`
element: nothing untranslatable is left. -/
theorem C13_complete_partial (w : World) (hw : SimpleDates w) (u : Updater) (rules : List Rule) (nss : Option (List String))
    (ty : Bool) (V : Node → Prop) (hu : StepRules w u rules nss ty V) (o : Options) (k k' : Nat) (t : Node) (r : Result)
    (hwhole : ∀ c ∈ t.elems, c.e.tag = ⟨some "http://stix.mitre.org/TTP-1", "Malware"⟩ ∨
      c.e.tag = ⟨some "http://stix.mitre.org/TTP-1", "Attack_Patterns"⟩ →
      (∃ d ∈ t.elems, (∃ i, d.pos = i :: c.pos) ∧ Untranslatable rules t d) → Untranslatable rules t c)
    (hc : clean u o k t = .ok (r, k')) : ∀ c ∈ r.doc.elems, ¬ Untranslatable rules r.doc c := by
  intro c' hc' hb
  obtain ⟨c, h1, _, _, h2, h3, h4⟩ := C13_left_partial w hw u rules nss ty V hu o k k' t r hc c' hc' hb
  exact h2 (hwhole c h1 h3 h4)

/-- C13 fails for STIX: cleaning the sample leaves a `ttp:Malware` without children, and the check of the cleaned document
reports it (the element's children are of two untranslatable kinds). -/
theorem C13_left_fails : ∃ r, clean stix10 oNoCheck 0 doc10bad = .ok (r, 0) ∧
    ∃ l, stix10.check oNoCheck r.doc = .error (.update (some l) none) ∧
      l.map (fun c => c.e.tag) = [⟨some "http://stix.mitre.org/TTP-1", "Malware"⟩] := by
  obtain ⟨⟨r, k⟩, h, hk, h1⟩ := ok_of_eval (x := clean stix10 oNoCheck 0 doc10bad)
    (P := fun r => r.2 = 0 ∧ (match stix10.check oNoCheck r.1.doc with
      | .error (.update (some l) none) => decide (l.map (fun c => c.e.tag) = [⟨some "http://stix.mitre.org/TTP-1", "Malware"⟩])
      | _ => false) = true)
    (by decide +kernel)
  simp only at hk h1
  subst hk
  refine ⟨r, h, ?_⟩
  split at h1
  · next l hl => exact ⟨l, hl, of_decide_eq_true h1⟩
  · cases h1

/-! ## C41 -/

/-- C41.  The CybOX steps accept a document they cleaned (version checks off, fresh ids). -/
theorem C41_clean_check (u : Updater) (hu : u = cybox20 ∨ u = cybox201) (o : Options) (ho : o.checkVersions = false)
    (k k' : Nat) (t : Node) (r : Result) (hf : FreshFrom o.newId k t) (hc : clean u o k t = .ok (r, k')) :
    u.check o r.doc = .ok () := by
  rcases hu with rfl | rfl
  · obtain ⟨l, g, h1, h2, h3⟩ := check_spec (w := w0) .cybox20 (o := o) (t := r.doc) (fun h => by cases h)
      (fun h => by rw [ho] at h; cases h)
    cases h1
    cases h2
    exact h3
  · obtain ⟨l, g, h1, h2, h3⟩ := check_spec (w := w0) .cybox201 (o := o) (t := r.doc) (fun h => by cases h)
      (fun h => by rw [ho] at h; cases h)
    have hl : l = [] := by
      rw [List.eq_nil_iff_forall_not_mem]
      intro c hm
      obtain ⟨q1, q2⟩ := (reportsAll_mem h1 c).1 hm
      exact C13_cybox o k k' t r hc c q1 q2
    obtain ⟨d, rfl, hd⟩ := h2
    have hd' : d = [] := by
      rw [List.eq_nil_iff_forall_not_mem]
      rintro ⟨i, g⟩ hm
      exact C15_unique w0 _ _ _ _ _ .cybox201 o k k' t r hf hc i ((hd.2 i g).1 hm).1
    rw [h3, hl, hd']
    rfl

/-! ## C44 -/

/-- No element is untranslatable by two rules, and no two offending elements have the same parent. -/
def Once (rules : List Rule) (t : Node) : Prop :=
  rules.Pairwise (fun q q' => ∀ c ∈ t.elems, ¬ (q.Bad t c ∧ q'.Bad t c)) ∧
  ∀ p, Rule.parent p ∈ rules → ∀ c ∈ t.elems, ∀ d ∈ t.elems, ∀ d' ∈ t.elems, p d → p d' →
    (∃ i, d.pos = i :: c.pos) → (∃ i, d'.pos = i :: c.pos) → d = d'

theorem parents_nodup {t : Node} {ds l : List Ctx} (h : Parents t ds l) : ds.Nodup → (l.Nodup ↔
    ∀ c ∈ t.elems, ∀ d ∈ ds, ∀ d' ∈ ds, (∃ i, d.pos = i :: c.pos) → (∃ i, d'.pos = i :: c.pos) → d = d') := by
  induction h with
  | nil => simp
  | @cons d c i ds cs hc hp hps ih =>
    intro hn
    obtain ⟨hn1, hn2⟩ := List.nodup_cons.1 hn
    rw [List.nodup_cons, ih hn2, parents_mem hps]
    constructor
    · rintro ⟨h1, h2⟩ b hb x hx y hy ⟨ix, hix⟩ ⟨iy, hiy⟩
      rcases List.mem_cons.1 hx with rfl | hx' <;> rcases List.mem_cons.1 hy with rfl | hy'
      · rfl
      · exact absurd ⟨hc, y, hy', iy, by rw [hiy]; rw [hp] at hix; simp only [List.cons.injEq] at hix; rw [hix.2]⟩ h1
      · exact absurd ⟨hc, x, hx', ix, by rw [hix]; rw [hp] at hiy; simp only [List.cons.injEq] at hiy; rw [hiy.2]⟩ h1
      · exact h2 b hb x hx' y hy' ⟨ix, hix⟩ ⟨iy, hiy⟩
    · intro h
      refine ⟨?_, fun b hb x hx y hy => h b hb x (by simp [hx]) y (by simp [hy])⟩
      rintro ⟨_, x, hx, ix, hix⟩
      have := h c hc d (by simp) x (by simp [hx]) ⟨i, hp⟩ ⟨ix, hix⟩
      exact hn1 (this ▸ hx)

theorem reports_nodup {t : Node} {q : Rule} {l : List Ctx} (h : q.Reports t l) : l.Nodup ↔
    ∀ p, q = Rule.parent p → ∀ c ∈ t.elems, ∀ d ∈ t.elems, ∀ d' ∈ t.elems, p d → p d' →
      (∃ i, d.pos = i :: c.pos) → (∃ i, d'.pos = i :: c.pos) → d = d' := by
  cases h with
  | self hs _ => exact ⟨fun _ p hp => (by cases hp), fun _ => ctx_nodup hs⟩
  | @parent p ds l hs hm hp =>
    rw [parents_nodup hp (ctx_nodup hs)]
    constructor
    · intro h p' he c hc d hd d' hd' h1 h2
      cases he
      exact h c hc d ((hm d).2 ⟨hd, h1⟩) d' ((hm d').2 ⟨hd', h2⟩)
    · intro h c hc d hd d' hd'
      exact h p rfl c hc d ((hm d).1 hd).1 d' ((hm d').1 hd').1 ((hm d).1 hd).2 ((hm d').1 hd').2

theorem reportsAll_nodup {t : Node} {rules : List Rule} {l : List Ctx} (h : ReportsAll t rules l) :
    l.Nodup ↔ Once rules t := by
  induction h with
  | nil => simp [Once]
  | @cons q rs l l' h1 h2 ih =>
    rw [List.nodup_append, reports_nodup h1, ih]
    unfold Once
    rw [List.pairwise_cons]
    constructor
    · rintro ⟨a1, ⟨a2, a3⟩, a4⟩
      refine ⟨⟨?_, a2⟩, ?_⟩
      · rintro q' hq' c hc ⟨b1, b2⟩
        exact a4 c ((reports_mem h1 c).2 ⟨hc, b1⟩) c ((reportsAll_mem h2 c).2 ⟨hc, q', hq', b2⟩) rfl
      · intro p hp
        rcases List.mem_cons.1 hp with e | hp
        · exact a1 p e.symm
        · exact a3 p hp
    · rintro ⟨⟨a1, a2⟩, a3⟩
      refine ⟨fun p hp => a3 p (by rw [hp]; simp), ⟨a2, fun p hp => a3 p (List.mem_cons_of_mem _ hp)⟩, ?_⟩
      rintro c hc d hd rfl
      obtain ⟨b1, b2⟩ := (reports_mem h1 c).1 hc
      obtain ⟨_, q', hq', b3⟩ := (reportsAll_mem h2 c).1 hd
      exact a1 q' hq' c b1 ⟨b2, b3⟩

theorem once_201 (t : Node) : Once rules201 t := by
  have tags : ∀ {c : Ctx} {a b : QName}, a ≠ b → c.e.tag = a → c.e.tag = b → False := fun h h1 h2 => h (h1.symm.trans h2)
  refine ⟨?_, ?_⟩
  · simp only [rules201, List.pairwise_cons, List.mem_cons, List.not_mem_nil, or_false, forall_eq_or_imp, forall_eq]
    refine ⟨⟨?_, ?_, ?_⟩, ⟨?_, ?_⟩, ?_, ?_⟩
    · rintro c _ ⟨h1, h2⟩; exact tags (by decide) h1.2 h2.2
    · rintro c _ ⟨h1, h2⟩; exact tags (by decide) h1.2 h2.1
    · rintro c _ ⟨h1, h2⟩; exact tags (by decide) h1.2 h2.1.2
    · rintro c _ ⟨h1, h2⟩; exact tags (by decide) h1.2 h2.1
    · rintro c _ ⟨h1, h2⟩; exact tags (by decide) h1.2 h2.1.2
    · rintro c _ ⟨h1, h2⟩; exact tags (by decide) h1.1 h2.1.2
    · exact ⟨fun _ h => absurd h (by simp), List.Pairwise.nil⟩
  · intro p hp
    simp [rules201] at hp

/-- C44, the exact condition: an error (and likewise the removed collection) lists an untranslatable element twice exactly
if two rules apply to it or two offending children report it.
Partial: this happens (`C44_dates_fails`, `C44_overlap_fails`). -/
theorem C44_once_partial (w : World) (u : Updater) (rules : List Rule) (nss : Option (List String)) (ty : Bool)
    (V : Node → Prop) (hu : StepRules w u rules nss ty V) (o : Options) (k : Nat) (t : Node) (ht : ty = true → WellTyped t)
    (hv : o.checkVersions = true → V t) :
    (∀ l g, stepUpdate u o false k t = .error (.update (some l) g) → (l.Nodup ↔ Once rules t)) ∧
    (∀ r k', clean u o k t = .ok (r, k') → ∃ F l, r.removed = copies F [] l ∧
      (∀ c, c ∈ l ↔ c ∈ t.elems ∧ Untranslatable rules t c) ∧ (l.Nodup ↔ Once rules t)) := by
  refine ⟨fun l g h => ?_, fun r k' h => ?_⟩
  · obtain ⟨⟨l', he, h1⟩, _⟩ := (C08_update_error_partial w u rules nss ty V hu o k t ht hv).2 _ _ h
    cases he
    exact reportsAll_nodup h1
  · obtain ⟨F, S, l, h1, _, _, _, h2⟩ := C14_frame_partial w u rules nss ty V hu o k k' t r h
    exact ⟨F, l, h2, reportsAll_mem h1, reportsAll_nodup h1⟩

/-- C44 for CybOX: each untranslatable element is listed once, in the error and in the removed collection. -/
theorem C44_cybox (o : Options) (k : Nat) (t : Node) (hv : o.checkVersions = true → CyboxVersion "2.0.1" t) :
    (∀ l g, stepUpdate cybox201 o false k t = .error (.update (some l) g) → l.Nodup ∧
      ∀ c, c ∈ l ↔ c ∈ t.elems ∧ Untranslatable rules201 t c) ∧
    (∀ r k', clean cybox201 o k t = .ok (r, k') → ∃ F l, r.removed = copies F [] l ∧ l.Nodup ∧
      ∀ c, c ∈ l ↔ c ∈ t.elems ∧ Untranslatable rules201 t c) := by
  have h := C44_once_partial w0 _ _ _ _ _ .cybox201 o k t (fun h => by cases h) hv
  refine ⟨fun l g hl => ⟨(h.1 l g hl).2 (once_201 t), ?_⟩, fun r k' hr => ?_⟩
  · obtain ⟨⟨l', he, h1⟩, _⟩ :=
      (C08_update_error_partial w0 _ _ _ _ _ .cybox201 o k t (fun h => by cases h) hv).2 _ _ hl
    cases he
    exact reportsAll_mem h1
  · obtain ⟨F, l, h1, h2, h3⟩ := h.2 r k' hr
    exact ⟨F, l, h1, h3.2 (once_201 t), h2⟩

/-- A campaign activity with two empty dates. -/
def docDates : Node :=
  stixDoc "1.0.1" [el "http://stix.mitre.org/Campaign-1" "Activity" [] [el "http://stix.mitre.org/common-1" "Date_Time" [] [],
    el "http://stix.mitre.org/common-1" "Date_Time" [] []]]

/-- C44 fails for dates: the activity is listed twice. -/
theorem C44_dates_fails : ∃ l, stepUpdate (stix101 w0) oNoCheck false 0 docDates = .error (.update (some l) (some [])) ∧
    l.map (·.pos) = [[0], [0]] := by
  obtain ⟨x, h1, h2⟩ := err_of_eval (x := stepUpdate (stix101 w0) oNoCheck false 0 docDates)
    (P := fun x => match x with | .update (some l) (some []) => decide (l.map (·.pos) = [[0], [0]]) | _ => false)
    (by decide +kernel)
  split at h2
  · next l => exact ⟨l, h1, of_decide_eq_true h2⟩
  · cases h2

/-- A `ttp:Malware` element that is itself typed as a MAEC instance, without children. -/
def docOverlap : Node := stixDoc "1.0" [el nsTTP "Malware" [xsiType "maec:MAEC4.0InstanceType"] []]

/-- C44 fails for an element that two rules apply to: it is listed twice, and cleaning collects two copies. -/
theorem C44_overlap_fails : (∃ l, stepUpdate stix10 oNoCheck false 0 docOverlap = .error (.update (some l) none) ∧
    l.map (·.pos) = [[0], [0]]) ∧
    (clean stix10 oNoCheck 0 docOverlap).map (fun r => r.1.removed) =
      .ok [el nsTTP "Malware" [xsiType "maec:MAEC4.0InstanceType"] [], el nsTTP "Malware" [xsiType "maec:MAEC4.0InstanceType"] []] := by
  refine ⟨?_, by decide +kernel⟩
  obtain ⟨x, h1, h2⟩ := err_of_eval (x := stepUpdate stix10 oNoCheck false 0 docOverlap)
    (P := fun x => match x with | .update (some l) none => decide (l.map (·.pos) = [[0], [0]]) | _ => false)
    (by decide +kernel)
  split at h2
  · next l => exact ⟨l, h1, of_decide_eq_true h2⟩
  · cases h2

end Ramrod

import Verif.UpdateNs
import Verif.Props.Namespaces
/-!
# The namespace script: C36, C37
-/

namespace Ramrod

open Samples

/-! ## Statement -/

mutual
/-- Two documents of the same shape, with the same comments and processing instructions, whose elements are related by `P`
(given the bindings in scope before and after). -/
def Like (P : NsMap → NsMap → Elem → Elem → Prop) (env env' : NsMap) : Node → Node → Prop
  | .other c t, t' => t' = .other c t
  | .elem e ks, t' => ∃ e' ks', t' = .elem e' ks' ∧ P (e.decls ++ env) (e'.decls ++ env') e e' ∧
      Likes P (e.decls ++ env) (e'.decls ++ env') ks ks'
/-- `Like` for lists. -/
def Likes (P : NsMap → NsMap → Elem → Elem → Prop) (env env' : NsMap) : List Node → List Node → Prop
  | [], l => l = []
  | k :: ks, l => ∃ k' ks', l = k' :: ks' ∧ Like P env env' k k' ∧ Likes P env env' ks ks'
end

/-- The name of the schema location attribute. -/
def slName : QName := ⟨some "http://www.w3.org/2001/XMLSchema-instance", "schemaLocation"⟩

/-- The words at even positions: the namespaces of a schema location. -/
def evens : List String → List String
  | [] => []
  | [a] => [a]
  | a :: _ :: rest => a :: evens rest

/-- The namespaces an element mentions: in its name, the names of its attributes, its declarations, and its schema location. -/
def Mentions (e : Elem) (n : String) : Prop :=
  e.tag.ns = some n ∨ (∃ a ∈ e.attrs, a.1.ns = some n) ∨ (∃ d ∈ e.decls, d.2 = n) ∨
  ∃ v ws, e.get? slName = some v ∧ Words v.toList ws ∧ n ∈ evens ws

/-- No element mentions a namespace of the list. -/
def Avoids (N : List String) (t : Node) : Prop := ∀ c ∈ t.elems, ∀ n, Mentions c.e n → n ∉ N

/-- No attribute is given twice. -/
def AttrsOnce (t : Node) : Prop := ∀ c ∈ t.elems, (c.e.attrs.map (·.1)).Nodup

mutual
/-- No processing instruction. -/
def NoPI : Node → Prop
  | .other c _ => c.toList.head? ≠ some '?'
  | .elem _ ks => NoPIs ks
/-- `NoPI` for lists. -/
def NoPIs : List Node → Prop
  | [] => True
  | k :: ks => NoPI k ∧ NoPIs ks
end

/-- Same schema location, besides white space. -/
def SameWords (v v' : Option String) : Prop :=
  (v = none → v' = none) ∧ ∀ s, v = some s → ∃ s', v' = some s' ∧ ∀ ws, Words s.toList ws → Words s'.toList ws

/-- Same name, text, and attributes in any order; same meaning of every prefix; same schema location besides white space. -/
def SameElem (env env' : NsMap) (e e' : Elem) : Prop :=
  e'.tag = e.tag ∧ e'.text = e.text ∧ e'.tail = e.tail ∧ (∀ p, NsMap.get? env' p = NsMap.get? env p) ∧
  (e'.attrs.filter (fun a => a.1 ≠ slName)).Perm (e.attrs.filter (fun a => a.1 ≠ slName)) ∧
  SameWords (e.get? slName) (e'.get? slName)

/-- The renaming given by two lists: the first entry of the first list that is the name, and the entry of the second list at
the same place. -/
def listName (from_ to_ : List String) (n : String) : String := newName (from_.zip to_) n

/-- A renamed element: new name, text, and attributes in any order with their new names; every prefix bound to the new name;
the namespaces in the schema location replaced. -/
def RenamedElem (f : String → String) (env env' : NsMap) (e e' : Elem) : Prop :=
  e'.tag = ⟨e.tag.ns.map f, e.tag.name⟩ ∧ e'.text = e.text ∧ e'.tail = e.tail ∧
  (∀ p, NsMap.get? env' p = (NsMap.get? env p).map f) ∧
  (e'.attrs.filter (fun a => a.1 ≠ slName)).Perm
    ((e.attrs.filter (fun a => a.1 ≠ slName)).map (fun a => (⟨a.1.ns.map f, a.1.name⟩, a.2))) ∧
  (e.get? slName = none → e'.get? slName = none) ∧
  ∀ v, e.get? slName = some v → ∃ v', e'.get? slName = some v' ∧ ∀ ws, Words v.toList ws →
    ∃ ws', Words v'.toList ws' ∧ evens ws' = (evens ws).map f ∧ evens ws'.tail = evens ws.tail

/-! ## Helpers -/

theorem zip_fst_sublist (a b : List String) : ((a.zip b).map (·.1)).Sublist a := by
  induction a generalizing b with
  | nil => simp
  | cons x xs ih =>
    cases b with
    | nil => simp
    | cons y ys => simp only [List.zip_cons_cons, List.map_cons]; exact (ih ys).cons_cons x

theorem mapNs_zip {a b : List String} (ha : a.Nodup) (n : String) : mapNs (zipDict a b) n = listName a b n := by
  unfold mapNs zipDict listName
  rw [newName_eq]
  have hk : KeysNodup (a.zip b) := (zip_fst_sublist a b).nodup ha
  rw [assoc_dictUpdate _ _ hk]
  cases assoc (a.zip b) n <;> simp [assoc]

theorem isSome_zip {a b : List String} (ha : a.Nodup) (n : String) :
    (assoc (zipDict a b) n).isSome = (assoc (a.zip b) n).isSome := by
  unfold zipDict
  have hk : KeysNodup (a.zip b) := (zip_fst_sublist a b).nodup ha
  rw [assoc_dictUpdate _ _ hk]
  cases assoc (a.zip b) n <;> simp [assoc]

theorem zip_mem_fst {a b : List String} {x y : String} (h : assoc (a.zip b) x = some y) : x ∈ a ∧ y ∈ b := by
  have := assoc_mem h
  exact ⟨(List.of_mem_zip this).1, (List.of_mem_zip this).2⟩

theorem zip_inv {a b : List String} (hb : b.Nodup) {x y : String} (h : assoc (a.zip b) x = some y) :
    assoc (b.zip a) y = some x := by
  induction a generalizing b with
  | nil => simp [assoc] at h
  | cons u us ih =>
    cases b with
    | nil => simp [assoc] at h
    | cons v vs =>
      simp only [List.zip_cons_cons, assoc] at h ⊢
      have hb' := List.nodup_cons.1 hb
      split at h
      · next e => cases h; simp [e]
      · have := ih hb'.2 h
        have hy := (zip_mem_fst h).2
        rw [if_neg (fun e : v = y => hb'.1 (e ▸ hy))]
        exact this

theorem listName_cases (a b : List String) (n : String) :
    (listName a b n = n ∧ assoc (a.zip b) n = none) ∨ assoc (a.zip b) n = some (listName a b n) := by
  unfold listName
  rw [newName_eq]
  cases assoc (a.zip b) n with
  | none => exact Or.inl ⟨rfl, rfl⟩
  | some v => exact Or.inr rfl

theorem listName_other {a b : List String} {n : String} (h : n ∉ a) : listName a b n = n := by
  rcases listName_cases a b n with h' | h'
  · exact h'.1
  · exact absurd (zip_mem_fst h').1 h

theorem listName_inv {a b : List String} (hb : b.Nodup) {n : String} (h : n ∉ b) : listName b a (listName a b n) = n := by
  rcases listName_cases a b n with ⟨h1, _⟩ | h1
  · rw [h1, listName_other h]
  · have := zip_inv hb h1
    rcases listName_cases b a (listName a b n) with ⟨_, h3⟩ | h3
    · rw [this] at h3; cases h3
    · rw [this] at h3; exact (Option.some.inj h3).symm

theorem listName_idem {a b : List String} (hd : ∀ n ∈ a, n ∉ b) (n : String) :
    listName a b (listName a b n) = listName a b n := by
  rcases listName_cases a b n with ⟨h1, _⟩ | h1
  · rw [h1, h1]
  · exact listName_other (fun h => hd _ h (zip_mem_fst h1).2)

/-- What is needed of the names in a document: the renaming is injective and idempotent on them. -/
structure Good (f : String → String) (G : String → Prop) : Prop where
  inj : ∀ a b, G a → G b → f a = f b → a = b
  idem : ∀ a, G a → f (f a) = f a

/-- New name of an attribute or element. -/
def qn (f : String → String) (q : QName) : QName := ⟨q.ns.map f, q.name⟩

/-- The namespace of the name, if any, is good. -/
def GoodQ (G : String → Prop) (q : QName) : Prop := ∀ n, q.ns = some n → G n

theorem qn_inj {f : String → String} {G : String → Prop} (hg : Good f G) {a b : QName} (ha : GoodQ G a) (hb : GoodQ G b)
    (h : qn f a = qn f b) : a = b := by
  obtain ⟨na, la⟩ := a
  obtain ⟨nb, lb⟩ := b
  simp only [qn, QName.mk.injEq] at h
  obtain ⟨h1, rfl⟩ := h
  cases na with
  | none => cases nb with
    | none => rfl
    | some y => simp at h1
  | some x => cases nb with
    | none => simp at h1
    | some y =>
      simp only [Option.map_some, Option.some.injEq] at h1
      rw [hg.inj x y (ha x rfl) (hb y rfl) h1]

theorem qn_idem {f : String → String} {G : String → Prop} (hg : Good f G) {a : QName} (ha : GoodQ G a) :
    qn f (qn f a) = qn f a := by
  obtain ⟨na, la⟩ := a
  cases na with
  | none => rfl
  | some x => simp only [qn, Option.map_some]; rw [hg.idem x (ha x rfl)]

/-- A new name that is an old name is its own. -/
theorem qn_old {f : String → String} {G : String → Prop} (hg : Good f G) {a b : QName} (ha : GoodQ G a) (hb : GoodQ G b)
    (h : qn f a = b) : a = b := by
  refine qn_inj hg ha hb ?_
  rw [← h, qn_idem hg ha]

theorem set_absent {as : Attrs} {k : QName} (v : String) (h : k ∉ as.map (·.1)) : Attrs.set as k v = as ++ [(k, v)] := by
  induction as with
  | nil => rfl
  | cons x xs ih =>
    obtain ⟨q, w⟩ := x
    simp only [List.map_cons, List.mem_cons, not_or] at h
    simp only [Attrs.set, List.cons_append]
    rw [if_neg (fun e => h.1 e.symm), ih h.2]

theorem attrsNew_aux {m : List (String × String)} {G : String → Prop} (hg : Good (mapNs m) G) :
    ∀ (as acc : Attrs), (∀ a ∈ as, GoodQ G a.1) → (as.map (·.1)).Nodup →
      (∀ a ∈ as, qn (mapNs m) a.1 ∉ acc.map (·.1)) →
      as.foldl (fun acc p => Attrs.set acc (mapQName m p.1) p.2) acc = acc ++ as.map (fun a => (qn (mapNs m) a.1, a.2))
  | [], acc, _, _, _ => by simp
  | a :: as, acc, h1, h2, h3 => by
    have h2' := List.nodup_cons.1 h2
    simp only [List.foldl_cons, List.map_cons]
    rw [show mapQName m a.1 = qn (mapNs m) a.1 from rfl, set_absent _ (h3 a (by simp)),
      attrsNew_aux hg as _ (fun b hb => h1 b (by simp [hb])) h2'.2]
    · simp
    · intro b hb
      simp only [List.map_append, List.map_cons, List.map_nil, List.mem_append, List.mem_singleton, not_or]
      refine ⟨h3 b (by simp [hb]), fun e => h2'.1 ?_⟩
      have := qn_inj hg (h1 b (by simp [hb])) (h1 a (by simp)) e
      show a.1 ∈ _
      rw [← this]
      exact List.mem_map_of_mem hb

theorem attrsNew_eq {m : List (String × String)} {G : String → Prop} (hg : Good (mapNs m) G) {as : Attrs}
    (h1 : ∀ a ∈ as, GoodQ G a.1) (h2 : (as.map (·.1)).Nodup) :
    mapAttrsNew m as = as.map (fun a => (qn (mapNs m) a.1, a.2)) := by
  unfold mapAttrsNew
  rw [attrsNew_aux hg as [] h1 h2 (by simp)]
  simp

theorem del_absent {as : Attrs} {k : QName} (h : k ∉ as.map (·.1)) : Attrs.del as k = as := by
  unfold Attrs.del
  rw [List.filter_eq_self]
  intro a ha
  simpa using fun e : a.1 = k => h (e ▸ List.mem_map_of_mem ha)

theorem attrsInPlace_aux {m : List (String × String)} {G : String → Prop} (hg : Good (mapNs m) G) :
    ∀ (post pre done : Attrs), (∀ a ∈ post, GoodQ G a.1) → (∀ a ∈ pre, a.1.ns = none) → (∀ a ∈ done, GoodQ G a.1 ∧ a.1.ns ≠ none) →
      ((pre ++ post ++ done).map (·.1)).Nodup →
      (post.foldl (fun acc p => match p.1.ns with
        | none => acc
        | some _ => Attrs.set (Attrs.del acc p.1) (mapQName m p.1) p.2)
          (pre ++ post ++ done.map (fun a => (qn (mapNs m) a.1, a.2)))).Perm
        ((pre ++ post ++ done).map (fun a => (qn (mapNs m) a.1, a.2)))
  | [], pre, done, _, hp, _, _ => by
    simp only [List.foldl_nil, List.append_nil, List.map_append]
    have : pre.map (fun a => (qn (mapNs m) a.1, a.2)) = pre := by
      rw [List.map_congr_left (g := id)]
      · simp
      · intro a ha
        obtain ⟨⟨na, la⟩, v⟩ := a
        have := hp _ ha
        simp only at this
        subst this
        rfl
    rw [this]
  | a :: post, pre, done, h1, hp, hd, hn => by
    simp only [List.foldl_cons]
    cases hns : a.1.ns with
    | none =>
      simp only
      have := attrsInPlace_aux hg post (pre ++ [a]) done (fun b hb => h1 b (by simp [hb]))
        (fun b hb => by
          rcases List.mem_append.1 hb with hb | hb
          · exact hp b hb
          · rw [List.mem_singleton.1 hb]; exact hns) hd (by simpa using hn)
      simpa using this
    | some n =>
      simp only
      have ha := h1 a (by simp)
      have hpre : a.1 ∉ pre.map (·.1) := fun h => by
        obtain ⟨b, hb, e⟩ := List.mem_map.1 h
        rw [← e, hp b hb] at hns; cases hns
      have hn' : a.1 ∉ post.map (·.1) ∧ a.1 ∉ done.map (·.1) := by
        simp only [List.append_assoc, List.cons_append, List.map_append, List.map_cons, List.nodup_append, List.nodup_cons,
          List.mem_append, not_or] at hn
        exact hn.2.1.1
      have hdone : a.1 ∉ (done.map (fun a => (qn (mapNs m) a.1, a.2))).map (·.1) := fun h => by
        obtain ⟨b, hb, e⟩ := List.mem_map.1 h
        obtain ⟨c, hc, rfl⟩ := List.mem_map.1 hb
        have := qn_old hg (hd c hc).1 ha e
        exact hn'.2 (this ▸ List.mem_map_of_mem hc)
      have hdel : Attrs.del (pre ++ a :: post ++ done.map (fun a => (qn (mapNs m) a.1, a.2))) a.1 =
          pre ++ post ++ done.map (fun a => (qn (mapNs m) a.1, a.2)) := by
        have e1 := del_absent hpre
        have e2 := del_absent hn'.1
        have e3 := del_absent hdone
        unfold Attrs.del at e1 e2 e3 ⊢
        rw [List.filter_append, List.filter_append, List.filter_cons, e1, e2, e3]
        simp
      have hnew : qn (mapNs m) a.1 ∉ (pre ++ post ++ done.map (fun a => (qn (mapNs m) a.1, a.2))).map (·.1) := fun h => by
        simp only [List.map_append, List.mem_append] at h
        rcases h with (h | h) | h
        · obtain ⟨b, hb, e⟩ := List.mem_map.1 h
          have h0 := hp b hb
          rw [e] at h0
          simp [qn, hns] at h0
        · obtain ⟨b, hb, e⟩ := List.mem_map.1 h
          have := qn_old hg ha (h1 b (by simp [hb])) e.symm
          exact hn'.1 (this ▸ List.mem_map_of_mem hb)
        · obtain ⟨b, hb, e⟩ := List.mem_map.1 h
          obtain ⟨c, hc, rfl⟩ := List.mem_map.1 hb
          have := qn_inj hg (hd c hc).1 ha e
          exact hn'.2 (this ▸ List.mem_map_of_mem hc)
      rw [hdel, show mapQName m a.1 = qn (mapNs m) a.1 from rfl, set_absent _ hnew]
      have hperm : (pre ++ post ++ (done ++ [a])).Perm (pre ++ a :: post ++ done) := by
        simp only [List.append_assoc, List.cons_append]
        refine List.Perm.append_left pre ?_
        rw [← List.append_assoc]
        exact List.perm_append_singleton a (post ++ done)
      have := attrsInPlace_aux hg post pre (done ++ [a]) (fun b hb => h1 b (by simp [hb])) hp
        (fun b hb => by
          rcases List.mem_append.1 hb with hb | hb
          · exact hd b hb
          · rw [List.mem_singleton.1 hb]; exact ⟨ha, by rw [hns]; simp⟩)
        (by
          have h3 := (hperm.map (·.1)).nodup_iff.2 (by simpa using hn)
          exact h3)
      refine List.Perm.trans ?_ (hperm.map _)
      simpa using this

theorem attrsInPlace_perm {m : List (String × String)} {G : String → Prop} (hg : Good (mapNs m) G) {as : Attrs}
    (h1 : ∀ a ∈ as, GoodQ G a.1) (h2 : (as.map (·.1)).Nodup) :
    (mapAttrsInPlace m as).Perm (as.map (fun a => (qn (mapNs m) a.1, a.2))) := by
  have := attrsInPlace_aux hg as [] [] h1 (by simp) (by simp) (by simpa using h2)
  simp only [List.nil_append, List.append_nil, List.map_nil] at this
  exact this

/-- The first pass on one element. -/
def RawRen (f : String → String) (env env' : NsMap) (e e' : Elem) : Prop :=
  e'.tag = qn f e.tag ∧ e'.text = e.text ∧ e'.tail = e.tail ∧ (∀ p, NsMap.get? env' p = (NsMap.get? env p).map f) ∧
  e'.attrs.Perm (e.attrs.map (fun a => (qn f a.1, a.2)))

/-- Names of an element, without those in its schema location. -/
def GoodE (G : String → Prop) (e : Elem) : Prop :=
  (∀ a ∈ e.attrs, GoodQ G a.1) ∧ (e.attrs.map (·.1)).Nodup ∧ ∀ p v, NsMap.get? e.decls p = some v → G v

theorem nsMap_get_mem {m : NsMap} {p : Option String} {v : String} (h : NsMap.get? m p = some v) : (p, v) ∈ m := by
  induction m with
  | nil => cases h
  | cons x xs ih =>
    obtain ⟨q, w⟩ := x
    simp only [NsMap.get?] at h
    split at h
    · next e => cases h; rw [e]; exact List.mem_cons_self ..
    · exact List.mem_cons_of_mem _ (ih h)

theorem updNsElem_raw {m : List (String × String)} {G : String → Prop} (hg : Good (mapNs m) G) {env env' : NsMap} {e : Elem}
    (he : GoodE G e) (hG : ∀ p v, NsMap.get? env p = some v → G v)
    (hr : ∀ p, NsMap.get? env' p = (NsMap.get? env p).map (mapNs m)) :
    RawRen (mapNs m) (e.decls ++ env) ((updNsElem m (NsMap.dedup (e.decls ++ env')) e).decls ++ env') e
      (updNsElem m (NsMap.dedup (e.decls ++ env')) e) := by
  have hscope : ∀ p, (NsMap.get? (e.decls ++ env') p).map (mapNs m) = (NsMap.get? (e.decls ++ env) p).map (mapNs m) := by
    intro p
    rw [nsMap_append, nsMap_append, hr]
    cases NsMap.get? e.decls p with
    | some v => rfl
    | none =>
      cases h : NsMap.get? env p with
      | none => rfl
      | some v => simp [hg.idem v (hG p v h)]
  unfold updNsElem
  split
  · refine ⟨rfl, rfl, rfl, ?_, ?_⟩
    · intro p
      simp only
      rw [nsMap_append, nsMap_map, nsMap_dedup, nsMap_dedup, hscope, hr, nsMap_append]
      cases NsMap.get? e.decls p with
      | some v => rfl
      | none => cases NsMap.get? env p <;> rfl
    · simp only
      rw [attrsNew_eq hg he.1 he.2.1]
  · next hno =>
    refine ⟨rfl, rfl, rfl, ?_, attrsInPlace_perm hg he.1 he.2.1⟩
    intro p
    simp only
    rw [← hscope]
    cases h : NsMap.get? (e.decls ++ env') p with
    | none => rfl
    | some v =>
      have hm : (p, v) ∈ NsMap.dedup (e.decls ++ env') := nsMap_get_mem (by rw [nsMap_dedup]; exact h)
      have : assoc m v = none := by
        cases ha : assoc m v with
        | none => rfl
        | some y => exact absurd (List.any_eq_true.2 ⟨_, hm, by simp [ha]⟩) hno
      simp [mapNs, this]

mutual
theorem updNs_like {m : List (String × String)} {G : String → Prop} (hg : Good (mapNs m) G) {pos : Pos} {anc : List QName}
    {env env' : NsMap} : ∀ (t : Node), (∀ c ∈ t.walk pos env anc, GoodE G c.e) → NoPI t →
    (∀ p v, NsMap.get? env p = some v → G v) → (∀ p, NsMap.get? env' p = (NsMap.get? env p).map (mapNs m)) →
    ∃ t', updNs m env' t = .ok t' ∧
      Like (fun a b e e' => (∀ p v, NsMap.get? a p = some v → G v) ∧ RawRen (mapNs m) a b e e') env env' t t'
  | .other c s, _, h2, _, _ => by
    refine ⟨.other c s, ?_, rfl⟩
    have : isPI c = false := by
      simp only [NoPI] at h2
      unfold isPI
      simpa using h2
    simp [updNs, this]
  | .elem e ks, h1, h2, h3, h4 => by
    have h0 := h1 ⟨pos, e.decls ++ env, anc, e, ks⟩ (by simp [Node.walk])
    have hr := updNsElem_raw hg h0 h3 h4
    have h3' : ∀ p v, NsMap.get? (e.decls ++ env) p = some v → G v := by
      intro p v h
      rw [nsMap_append] at h
      cases hd : NsMap.get? e.decls p with
      | some x => rw [hd] at h; cases h; exact h0.2.2 _ _ hd
      | none => rw [hd] at h; exact h3 p v h
    obtain ⟨ks', h5, h6⟩ := updNss_like hg (pos := pos) (i := 0) (anc := e.tag :: anc) ks
      (fun c hc => h1 c (by simp [Node.walk, hc])) h2 h3' hr.2.2.2.1
    exact ⟨_, by simp only [updNs]; rw [h5], _, _, rfl, ⟨h3', hr⟩, h6⟩
theorem updNss_like {m : List (String × String)} {G : String → Prop} (hg : Good (mapNs m) G) {pos : Pos} {i : Nat}
    {anc : List QName} {env env' : NsMap} : ∀ (ks : List Node), (∀ c ∈ Node.walks pos i env anc ks, GoodE G c.e) → NoPIs ks →
    (∀ p v, NsMap.get? env p = some v → G v) → (∀ p, NsMap.get? env' p = (NsMap.get? env p).map (mapNs m)) →
    ∃ ks', updNss m env' ks = .ok ks' ∧
      Likes (fun a b e e' => (∀ p v, NsMap.get? a p = some v → G v) ∧ RawRen (mapNs m) a b e e') env env' ks ks'
  | [], _, _, _, _ => ⟨[], rfl, rfl⟩
  | k :: ks, h1, h2, h3, h4 => by
    obtain ⟨k', h5, h6⟩ := updNs_like hg (pos := i :: pos) (anc := anc) k (fun c hc => h1 c (by simp [Node.walks, hc])) h2.1 h3 h4
    obtain ⟨ks', h7, h8⟩ := updNss_like hg (pos := pos) (i := i + 1) (anc := anc) ks (fun c hc => h1 c (by simp [Node.walks, hc])) h2.2 h3 h4
    exact ⟨k' :: ks', by simp only [updNss]; rw [h5]; simp only; rw [h7], _, _, rfl, h6, h8⟩
end

/-! ### Schema locations -/

mutual
theorem like_mapPos {P Q : NsMap → NsMap → Elem → Elem → Prop} {f : Elem → Elem} {env env' : NsMap}
    (h : ∀ a b e e', P a b e e' → Q a b e (f e') ∧ (f e').decls = e'.decls) {pos : Pos} : ∀ (t t' : Node),
    Like P env env' t t' → Like Q env env' t (t'.mapPos (fun _ e => f e) pos)
  | .other c s, t', hl => by
    rw [show t' = .other c s from hl]; rfl
  | .elem e ks, t', hl => by
    obtain ⟨e', ks', rfl, h1, h2⟩ := hl
    obtain ⟨h3, h4⟩ := h _ _ _ _ h1
    exact ⟨f e', _, rfl, by rw [h4]; exact h3, by rw [h4]; exact likes_mapPos h ks ks' h2⟩
theorem likes_mapPos {P Q : NsMap → NsMap → Elem → Elem → Prop} {f : Elem → Elem} {env env' : NsMap}
    (h : ∀ a b e e', P a b e e' → Q a b e (f e') ∧ (f e').decls = e'.decls) {pos : Pos} {i : Nat} : ∀ (ks ks' : List Node),
    Likes P env env' ks ks' → Likes Q env env' ks (Node.mapPoss (fun _ e => f e) pos i ks')
  | [], l, hl => by rw [show l = [] from hl]; rfl
  | k :: ks, l, hl => by
    obtain ⟨k', ks', rfl, h1, h2⟩ := hl
    exact ⟨_, _, rfl, like_mapPos h k k' h1, likes_mapPos h ks ks' h2⟩
end

mutual
theorem like_comp {P Q R : NsMap → NsMap → Elem → Elem → Prop} (h : ∀ a b c e e1 e2, P a b e e1 → Q b c e1 e2 → R a c e e2)
    {a b c : NsMap} : ∀ (t t1 t2 : Node), Like P a b t t1 → Like Q b c t1 t2 → Like R a c t t2
  | .other x s, t1, t2, h1, h2 => by
    rw [show t1 = .other x s from h1] at h2; exact h2
  | .elem e ks, t1, t2, h1, h2 => by
    obtain ⟨e1, ks1, rfl, h3, h4⟩ := h1
    obtain ⟨e2, ks2, rfl, h5, h6⟩ := h2
    exact ⟨e2, ks2, rfl, h _ _ _ _ _ _ h3 h5, likes_comp h ks ks1 ks2 h4 h6⟩
theorem likes_comp {P Q R : NsMap → NsMap → Elem → Elem → Prop} (h : ∀ a b c e e1 e2, P a b e e1 → Q b c e1 e2 → R a c e e2)
    {a b c : NsMap} : ∀ (ks ks1 ks2 : List Node), Likes P a b ks ks1 → Likes Q b c ks1 ks2 → Likes R a c ks ks2
  | [], l1, l2, h1, h2 => by
    rw [show l1 = [] from h1] at h2; exact h2
  | k :: ks, l1, l2, h1, h2 => by
    obtain ⟨k1, ks1, rfl, h3, h4⟩ := h1
    obtain ⟨k2, ks2, rfl, h5, h6⟩ := h2
    exact ⟨k2, ks2, rfl, like_comp h k k1 k2 h3 h5, likes_comp h ks ks1 ks2 h4 h6⟩
end

mutual
theorem like_refl {a : NsMap} : ∀ (t : Node), Like (fun a b e e' => b = a ∧ e' = e) a a t t
  | .other _ _ => rfl
  | .elem e ks => ⟨e, ks, rfl, ⟨rfl, rfl⟩, likes_refl ks⟩
theorem likes_refl {a : NsMap} : ∀ (ks : List Node), Likes (fun a b e e' => b = a ∧ e' = e) a a ks ks
  | [] => rfl
  | k :: ks => ⟨k, ks, rfl, like_refl k, likes_refl ks⟩
end

mutual
theorem like_and {P : NsMap → NsMap → Elem → Elem → Prop} {A : Elem → Prop} {a b env : NsMap} {pos : Pos} {anc : List QName} :
    ∀ (t t' : Node), (∀ c ∈ t.walk pos env anc, A c.e) → Like P a b t t' → Like (fun a b e e' => A e ∧ P a b e e') a b t t'
  | .other _ _, _, _, h => h
  | .elem e ks, _, h0, h => by
    obtain ⟨e', ks', rfl, h1, h2⟩ := h
    exact ⟨e', ks', rfl, ⟨h0 ⟨pos, e.decls ++ env, anc, e, ks⟩ (by simp [Node.walk]), h1⟩,
      likes_and (pos := pos) (i := 0) (env := e.decls ++ env) (anc := e.tag :: anc) ks ks'
        (fun c hc => h0 c (by simp [Node.walk, hc])) h2⟩
theorem likes_and {P : NsMap → NsMap → Elem → Elem → Prop} {A : Elem → Prop} {a b env : NsMap} {pos : Pos} {i : Nat}
    {anc : List QName} : ∀ (ks ks' : List Node), (∀ c ∈ Node.walks pos i env anc ks, A c.e) → Likes P a b ks ks' →
    Likes (fun a b e e' => A e ∧ P a b e e') a b ks ks'
  | [], _, _, h => h
  | k :: ks, _, h0, h => by
    obtain ⟨k', ks', rfl, h1, h2⟩ := h
    exact ⟨k', ks', rfl, like_and (pos := i :: pos) (env := env) (anc := anc) k k' (fun c hc => h0 c (by simp [Node.walks, hc])) h1,
      likes_and (pos := pos) (i := i + 1) (env := env) (anc := anc) ks ks' (fun c hc => h0 c (by simp [Node.walks, hc])) h2⟩
end

mutual
theorem like_elems {P : NsMap → NsMap → Elem → Elem → Prop} {B : Elem → Prop} (h : ∀ a b e e', P a (e'.decls ++ b) e e' → B e')
    {a b env : NsMap} {pos : Pos} {anc : List QName} : ∀ (t t' : Node), Like P a b t t' → ∀ c ∈ t'.walk pos env anc, B c.e
  | .other x s, t', hl, c, hc => by
    rw [show t' = .other x s from hl] at hc; simp [Node.walk] at hc
  | .elem e ks, t', hl, c, hc => by
    obtain ⟨e', ks', rfl, h1, h2⟩ := hl
    simp only [Node.walk, List.mem_cons] at hc
    rcases hc with rfl | hc
    · exact h _ _ _ _ h1
    · exact likes_elems h ks ks' h2 c hc
theorem likes_elems {P : NsMap → NsMap → Elem → Elem → Prop} {B : Elem → Prop} (h : ∀ a b e e', P a (e'.decls ++ b) e e' → B e')
    {a b env : NsMap} {pos : Pos} {i : Nat} {anc : List QName} : ∀ (ks ks' : List Node), Likes P a b ks ks' →
    ∀ c ∈ Node.walks pos i env anc ks', B c.e
  | [], l, hl, c, hc => by rw [show l = [] from hl] at hc; simp [Node.walks] at hc
  | k :: ks, l, hl, c, hc => by
    obtain ⟨k', ks', rfl, h1, h2⟩ := hl
    simp only [Node.walks, List.mem_append] at hc
    rcases hc with hc | hc
    · exact like_elems h k k' h1 c hc
    · exact likes_elems h ks ks' h2 c hc
end

mutual
theorem like_noPI {P : NsMap → NsMap → Elem → Elem → Prop} {a b : NsMap} : ∀ (t t' : Node), Like P a b t t' → NoPI t → NoPI t'
  | .other x s, t', hl, h => by rw [show t' = .other x s from hl]; exact h
  | .elem e ks, t', hl, h => by
    obtain ⟨e', ks', rfl, _, h2⟩ := hl
    exact likes_noPI ks ks' h2 h
theorem likes_noPI {P : NsMap → NsMap → Elem → Elem → Prop} {a b : NsMap} : ∀ (ks ks' : List Node), Likes P a b ks ks' →
    NoPIs ks → NoPIs ks'
  | [], l, hl, h => by rw [show l = [] from hl]; exact h
  | k :: ks, l, hl, h => by
    obtain ⟨k', ks', rfl, h1, h2⟩ := hl
    exact ⟨like_noPI k k' h1 h.1, likes_noPI ks ks' h2 h.2⟩
end

theorem joinL_words : ∀ (ws : List String), (∀ w ∈ ws, IsWord w) →
    pieces isSpace (joinL [' '] (ws.map String.toList)) = ws.map String.toList
  | [], _ => rfl
  | [w], h => by
    have := pieces_word (p := isSpace) (rest := []) (h w (by simp)).2 (h w (by simp)).1 (Or.inl rfl)
    rw [List.append_nil] at this
    simp only [List.map_cons, List.map_nil, joinL]
    rw [this]; rfl
  | w :: x :: ws, h => by
    have ih := joinL_words (x :: ws) (fun r hr => h r (by simp [hr]))
    have hsp : isSpace ' ' = true := by decide
    simp only [List.map_cons, joinL, List.append_assoc, List.cons_append, List.nil_append] at ih ⊢
    rw [pieces_word (h w (by simp)).2 (h w (by simp)).1 (Or.inr ⟨' ', _, rfl, hsp⟩), pieces_sep hsp, ih]

theorem split_join {ws : List String} (h : ∀ w ∈ ws, IsWord w) : pySplitWs (pyJoin " " ws) = ws := by
  show (pieces isSpace (pyJoin " " ws).toList).map String.ofList = _
  rw [show (pyJoin " " ws).toList = joinL [' '] (ws.map String.toList) by simp [pyJoin], joinL_words ws h]
  simp

theorem mapEven_evens (m : List (String × String)) : ∀ ws, evens (mapEven m ws) = (evens ws).map (mapNs m)
  | [] => rfl
  | [a] => rfl
  | a :: b :: rest => by simp [mapEven, evens, mapEven_evens m rest]

theorem mapEven_tail (m : List (String × String)) : ∀ ws, evens (mapEven m ws).tail = evens ws.tail
  | [] => rfl
  | [a] => rfl
  | [a, b] => rfl
  | a :: b :: [c] => rfl
  | a :: b :: c :: d :: rest => by
    have := mapEven_tail m (c :: d :: rest)
    simp only [mapEven, List.tail_cons, evens] at this ⊢
    rw [this]

theorem mapEven_mem {m : List (String × String)} : ∀ {ws : List String} {w : String}, w ∈ mapEven m ws → w ∈ ws ∨ ∃ x ∈ ws, w = mapNs m x
  | [], w, h => by simp [mapEven] at h
  | [a], w, h => by simp only [mapEven, List.mem_singleton] at h; exact Or.inr ⟨a, by simp, h⟩
  | a :: b :: rest, w, h => by
    simp only [mapEven, List.mem_cons] at h
    rcases h with h | h | h
    · exact Or.inr ⟨a, by simp, h⟩
    · exact Or.inl (by simp [h])
    · rcases mapEven_mem h with h | ⟨x, hx, e⟩
      · exact Or.inl (by simp [h])
      · exact Or.inr ⟨x, by simp [hx], e⟩

theorem mapEven_inv {m m' : List (String × String)} : ∀ (ws : List String), (∀ n ∈ evens ws, mapNs m' (mapNs m n) = n) →
    mapEven m' (mapEven m ws) = ws
  | [], _ => rfl
  | [a], h => by simp only [mapEven]; rw [h a (by simp [evens])]
  | a :: b :: rest, h => by
    simp only [mapEven]
    rw [h a (by simp [evens]), mapEven_inv rest (fun n hn => h n (by simp [evens, hn]))]

theorem attrs_get_iff {as : Attrs} (h : (as.map (·.1)).Nodup) (k : QName) (v : String) :
    Attrs.get? as k = some v ↔ (k, v) ∈ as := by
  induction as with
  | nil => simp [Attrs.get?]
  | cons x xs ih =>
    obtain ⟨q, w⟩ := x
    simp only [List.map_cons, List.nodup_cons] at h
    simp only [Attrs.get?, List.mem_cons, Prod.mk.injEq]
    by_cases e : q = k
    · subst e
      rw [if_pos rfl]
      constructor
      · intro h'; cases h'; exact Or.inl ⟨rfl, rfl⟩
      · rintro (⟨_, rfl⟩ | h')
        · rfl
        · exact absurd (List.mem_map_of_mem (f := (·.1)) h') h.1
    · rw [if_neg e, ih h.2]
      exact ⟨Or.inr, fun h' => h'.resolve_left (fun h'' => e h''.1.symm)⟩

theorem set_keys {as : Attrs} {k : QName} {v w : String} (h : Attrs.get? as k = some w) :
    (Attrs.set as k v).map (·.1) = as.map (·.1) := by
  induction as with
  | nil => cases h
  | cons x xs ih =>
    obtain ⟨q, y⟩ := x
    simp only [Attrs.get?] at h
    simp only [Attrs.set]
    split
    · rfl
    · next e => rw [if_neg e] at h; simp [ih h]

theorem set_filter (as : Attrs) (k : QName) (v : String) :
    (Attrs.set as k v).filter (fun a => a.1 ≠ k) = as.filter (fun a => a.1 ≠ k) := by
  induction as with
  | nil => simp [Attrs.set]
  | cons x xs ih =>
    obtain ⟨q, y⟩ := x
    simp only [Attrs.set]
    split
    · next e => subst e; simp
    · next e => simp only [List.filter_cons]; rw [ih]

/-- The namespace of schema instances is not renamed, nor anything to it. -/
def FixesXsi (f : String → String) (G : String → Prop) : Prop :=
  f "http://www.w3.org/2001/XMLSchema-instance" = "http://www.w3.org/2001/XMLSchema-instance" ∧
  ∀ n, G n → f n = "http://www.w3.org/2001/XMLSchema-instance" → n = "http://www.w3.org/2001/XMLSchema-instance"

theorem qn_sl {f : String → String} {G : String → Prop} (hx : FixesXsi f G) {q : QName} (hq : GoodQ G q) :
    qn f q = slName ↔ q = slName := by
  obtain ⟨n, l⟩ := q
  unfold qn slName
  constructor
  · intro h
    simp only [QName.mk.injEq] at h
    obtain ⟨h1, rfl⟩ := h
    cases n with
    | none => simp at h1
    | some y => simp only [Option.map_some, Option.some.injEq] at h1; rw [hx.2 y (hq y rfl) h1]
  · intro h
    simp only [QName.mk.injEq] at h
    obtain ⟨rfl, rfl⟩ := h
    simp [hx.1]

/-- Attributes after the first pass. -/
theorem raw_attrs {f : String → String} {G : String → Prop} (hg : Good f G) (hx : FixesXsi f G) {a b : NsMap} {e e' : Elem}
    (he : GoodE G e) (h : RawRen f a b e e') : (e'.attrs.map (·.1)).Nodup ∧ e'.get? slName = e.get? slName ∧
    (∀ x ∈ e'.attrs, ∃ y ∈ e.attrs, x.1 = qn f y.1) ∧ (e'.attrs.filter (fun a => a.1 ≠ slName)).Perm
      ((e.attrs.filter (fun a => a.1 ≠ slName)).map (fun a => (qn f a.1, a.2))) := by
  have hp := h.2.2.2.2
  have hn : (e'.attrs.map (·.1)).Nodup := by
    rw [(hp.map (·.1)).nodup_iff, List.map_map]
    have hi : ∀ l : Attrs, (∀ a ∈ l, GoodQ G a.1) → (l.map (·.1)).Nodup →
        (l.map ((fun x => x.1) ∘ fun a => (qn f a.1, a.2))).Nodup := by
      intro l
      induction l with
      | nil => simp
      | cons x xs ih =>
        intro h1 h2
        simp only [List.map_cons, List.nodup_cons] at h2 ⊢
        refine ⟨fun hm => h2.1 ?_, ih (fun a ha => h1 a (by simp [ha])) h2.2⟩
        obtain ⟨y, hy, e⟩ := List.mem_map.1 hm
        have := qn_inj hg (h1 y (by simp [hy])) (h1 x (by simp)) e
        rw [← this]
        exact List.mem_map_of_mem hy
    exact hi _ he.1 he.2.1
  refine ⟨hn, ?_, ?_, ?_⟩
  · have hh : ∀ v, e'.get? slName = some v ↔ e.get? slName = some v := by
      intro v
      unfold Elem.get?
      rw [attrs_get_iff hn, attrs_get_iff he.2.1, hp.mem_iff, List.mem_map]
      constructor
      · rintro ⟨⟨k, w⟩, hy, e⟩
        simp only [Prod.mk.injEq] at e
        obtain ⟨e1, rfl⟩ := e
        rw [← (qn_sl hx (he.1 _ hy)).1 e1]
        exact hy
      · intro hy
        exact ⟨_, hy, by rw [(qn_sl hx (he.1 _ hy)).2 rfl]⟩
    cases h1 : e'.get? slName with
    | some v => exact ((hh v).1 h1).symm
    | none =>
      cases h2 : e.get? slName with
      | none => rfl
      | some v => rw [(hh v).2 h2] at h1; cases h1
  · intro x hxm
    obtain ⟨y, hy, rfl⟩ := List.mem_map.1 (hp.mem_iff.1 hxm)
    exact ⟨y, hy, rfl⟩
  · refine (hp.filter _).trans ?_
    rw [List.filter_map]
    refine List.Perm.of_eq ?_
    congr 1
    apply List.filter_congr
    intro y hy
    simp only [Function.comp_apply]
    have := qn_sl hx (he.1 y hy)
    by_cases h0 : y.1 = slName
    · simp [h0, (qn_sl hx (h0 ▸ he.1 y hy)).2 rfl]
    · simp only [ne_eq, h0, not_false_eq_true, decide_true, decide_eq_true_eq]
      exact fun h1 => h0 (this.1 h1)

/-- Both passes on one element. -/
theorem both_passes {m : List (String × String)} {G : String → Prop} (hg : Good (mapNs m) G) (hx : FixesXsi (mapNs m) G)
    (hw : ∀ n, IsWord n → IsWord (mapNs m n)) {a b : NsMap} {e e' : Elem} (he : GoodE G e) (h : RawRen (mapNs m) a b e e') :
    RenamedElem (mapNs m) a b e (updSchemalocElem m e') ∧ ((updSchemalocElem m e').attrs.map (·.1)).Nodup ∧
    (∀ x ∈ (updSchemalocElem m e').attrs, ∃ y ∈ e.attrs, x.1 = qn (mapNs m) y.1) ∧
    (updSchemalocElem m e').get? slName = (e.get? slName).map (fun v => pyJoin " " (mapEven m (pySplitWs v))) := by
  obtain ⟨h1, h2, h3, h4⟩ := raw_attrs hg hx he h
  have hsl : tagSchemaLoc = slName := rfl
  unfold updSchemalocElem
  rw [hsl]
  cases hv : e'.get? slName with
  | none =>
    simp only
    rw [hv] at h2
    refine ⟨⟨h.1, h.2.1, h.2.2.1, h.2.2.2.1, h4, fun _ => hv, fun v h' => by rw [← h2] at h'; cases h'⟩, h1, h3, ?_⟩
    rw [hv, ← h2]; rfl
  | some v =>
    simp only
    rw [hv] at h2
    have hg' : (e'.set slName (pyJoin " " (mapEven m (pySplitWs v)))).get? slName =
        some (pyJoin " " (mapEven m (pySplitWs v))) := by rw [Elem.get?_set, if_pos rfl]
    refine ⟨⟨h.1, h.2.1, h.2.2.1, h.2.2.2.1, ?_, fun h' => (by rw [← h2] at h'; cases h'), fun v' h' => ?_⟩, ?_, ?_, ?_⟩
    · simp only [Elem.set]
      rw [set_filter]
      exact h4
    · rw [← h2] at h'
      cases h'
      refine ⟨_, hg', fun ws hws => ?_⟩
      rw [words_unique hws]
      refine ⟨mapEven m ws, ?_, mapEven_evens m ws, mapEven_tail m ws⟩
      have hww : ∀ w ∈ mapEven m ws, IsWord w := by
        intro w hw'
        have := words_isWord hws
        rcases mapEven_mem hw' with h | ⟨x, hxm, rfl⟩
        · exact this w h
        · exact hw x (this x hxm)
      have := words_pySplitWs (pyJoin " " (mapEven m ws))
      rw [split_join hww] at this
      exact this
    · simp only [Elem.set]
      rw [set_keys (show Attrs.get? e'.attrs slName = some v from hv)]
      exact h1
    · intro x hxm
      have hk : x.1 ∈ (e'.set slName (pyJoin " " (mapEven m (pySplitWs v)))).attrs.map (·.1) := List.mem_map_of_mem hxm
      simp only [Elem.set] at hk
      rw [set_keys (show Attrs.get? e'.attrs slName = some v from hv)] at hk
      obtain ⟨y, hy, e⟩ := List.mem_map.1 hk
      obtain ⟨z, hz, ez⟩ := h3 y hy
      exact ⟨z, hz, e ▸ ez⟩
    · rw [hg', ← h2]; rfl

/-- What both passes do to an element. -/
def Passed (m : List (String × String)) (G : String → Prop) (a b : NsMap) (e e2 : Elem) : Prop :=
  GoodE G e ∧ (∀ p v, NsMap.get? a p = some v → G v) ∧ RenamedElem (mapNs m) a b e e2 ∧ (e2.attrs.map (·.1)).Nodup ∧
  (∀ x ∈ e2.attrs, ∃ y ∈ e.attrs, x.1 = qn (mapNs m) y.1) ∧
  e2.get? slName = (e.get? slName).map (fun v => pyJoin " " (mapEven m (pySplitWs v)))

theorem updateFromLists_passed {from_ to_ : List String} {G : String → Prop} (hg : Good (mapNs (zipDict from_ to_)) G)
    (hx : FixesXsi (mapNs (zipDict from_ to_)) G) (hw : ∀ n, IsWord n → IsWord (mapNs (zipDict from_ to_) n)) {t : Node}
    (he : ∀ c ∈ t.elems, GoodE G c.e) (hp : NoPI t) :
    ∃ t', updateFromLists t from_ to_ = .ok t' ∧ Like (Passed (zipDict from_ to_) G) [] [] t t' := by
  obtain ⟨t1, h1, h2⟩ := updNs_like hg (env := []) (env' := []) t he hp (by intro p v h; cases h) (fun _ => rfl)
  refine ⟨updSchemalocs (zipDict from_ to_) t1, ?_, ?_⟩
  · simp only [updateFromLists]; rw [h1]
  · refine like_mapPos ?_ t t1 (like_and t t1 he h2)
    intro a b e e' h
    obtain ⟨h1, h2, h3, h4⟩ := both_passes hg hx hw h.1 h.2.2
    refine ⟨⟨h.1, h.2.1, h1, h2, h3, h4⟩, ?_⟩
    unfold updSchemalocElem
    split <;> rfl

/-- The new names of good names are good for the way back. -/
theorem passed_good {m : List (String × String)} {G : String → Prop} {a b : NsMap} {e e2 : Elem}
    (h : Passed m G a (e2.decls ++ b) e e2) : GoodE (fun n => ∃ x, G x ∧ n = mapNs m x) e2 := by
  refine ⟨fun x hx n hn => ?_, h.2.2.2.1, fun p v hv => ?_⟩
  · obtain ⟨y, hy, e⟩ := h.2.2.2.2.1 x hx
    rw [e] at hn
    simp only [qn] at hn
    cases hns : y.1.ns with
    | none => rw [hns] at hn; cases hn
    | some z => rw [hns] at hn; cases hn; exact ⟨z, h.1.1 y hy z hns, rfl⟩
  · have := h.2.2.1.2.2.2.1 p
    rw [nsMap_append, hv] at this
    cases hz : NsMap.get? a p with
    | none => rw [hz] at this; cases this
    | some z => rw [hz] at this; cases this; exact ⟨z, h.2.1 p z hz, rfl⟩

/-! ### The version attribute -/

theorem set_set_comm {as : Attrs} {k k' : QName} (v v' : String) (hne : k ≠ k') {w : String} (hk : Attrs.get? as k = some w) :
    Attrs.set (Attrs.set as k v) k' v' = Attrs.set (Attrs.set as k' v') k v := by
  induction as with
  | nil => cases hk
  | cons x xs ih =>
    obtain ⟨q, y⟩ := x
    simp only [Attrs.get?] at hk
    by_cases h1 : q = k
    · subst h1
      simp [Attrs.set, hne]
    · rw [if_neg h1] at hk
      by_cases h2 : q = k'
      · subst h2
        simp [Attrs.set, h1]
      · simp only [Attrs.set, h1, h2, if_false]
        rw [ih hk]

theorem set_del_comm (as : Attrs) {k k' : QName} (v : String) (hne : k ≠ k') :
    Attrs.del (Attrs.set as k v) k' = Attrs.set (Attrs.del as k') k v := by
  unfold Attrs.del
  induction as with
  | nil => simp [Attrs.set, hne]
  | cons x xs ih =>
    obtain ⟨q, y⟩ := x
    by_cases h1 : q = k
    · subst h1
      simp [Attrs.set, hne]
    · by_cases h2 : q = k'
      · subst h2
        simp only [Attrs.set, h1, if_false, List.filter_cons]
        simpa using ih
      · simp only [Attrs.set, h1, if_false, List.filter_cons]
        simp only [ne_eq, h2, not_false_eq_true, decide_true, if_true, Attrs.set, h1, if_false]
        rw [← ih]

theorem set_same {as : Attrs} {k : QName} {v : String} (h : Attrs.get? as k = some v) : Attrs.set as k v = as := by
  induction as with
  | nil => cases h
  | cons x xs ih =>
    obtain ⟨q, y⟩ := x
    simp only [Attrs.get?] at h
    simp only [Attrs.set]
    split
    · next e => rw [if_pos e] at h; cases h; rfl
    · next e => rw [if_neg e] at h; rw [ih h]

theorem set_set_same (as : Attrs) (k : QName) (v v' : String) : Attrs.set (Attrs.set as k v) k v' = Attrs.set as k v' := by
  induction as with
  | nil => simp [Attrs.set]
  | cons x xs ih =>
    obtain ⟨q, y⟩ := x
    by_cases h : q = k
    · simp [Attrs.set, h]
    · simp [Attrs.set, h, ih]

/-- A plain attribute name. -/
theorem mapQName_plain {m : List (String × String)} {q : QName} {k : String} : mapQName m q = .plain k ↔ q = .plain k := by
  obtain ⟨n, l⟩ := q
  cases n <;> simp [mapQName, QName.plain]

theorem attrsNew_get {m : List (String × String)} {k : String} : ∀ (as acc : Attrs) {w : String},
    Attrs.get? acc (.plain k) = some w ∨ Attrs.get? as (.plain k) = some w →
    ∃ w', Attrs.get? (as.foldl (fun acc p => Attrs.set acc (mapQName m p.1) p.2) acc) (.plain k) = some w'
  | [], acc, w, h => by
    rcases h with h | h
    · exact ⟨w, h⟩
    · cases h
  | a :: as, acc, w, h => by
    simp only [List.foldl_cons]
    by_cases e : a.1 = .plain k
    · exact attrsNew_get as _ (w := a.2) (Or.inl (by rw [Attrs.get?_set, if_pos (mapQName_plain.2 e)]))
    · refine attrsNew_get as _ (w := w) ?_
      rcases h with h | h
      · left
        rw [Attrs.get?_set, if_neg (fun h' => e (mapQName_plain.1 h'))]; exact h
      · right
        obtain ⟨q, y⟩ := a
        simp only [Attrs.get?] at h
        rwa [if_neg e] at h

/-- The new attributes do not depend on the value of a plain attribute, besides its own. -/
theorem attrsNew_set {m : List (String × String)} {k v : String} : ∀ (as acc : Attrs) {w : String},
    Attrs.get? as (.plain k) = some w → (as.map (·.1)).Nodup →
    (Attrs.set as (.plain k) v).foldl (fun acc p => Attrs.set acc (mapQName m p.1) p.2) acc =
      Attrs.set (as.foldl (fun acc p => Attrs.set acc (mapQName m p.1) p.2) acc) (.plain k) v
  | [], acc, w, h, _ => by cases h
  | a :: as, acc, w, h, hn => by
    obtain ⟨q, y⟩ := a
    simp only [Attrs.get?] at h
    simp only [List.map_cons, List.nodup_cons] at hn
    simp only [Attrs.set]
    by_cases e : q = .plain k
    · subst e
      rw [if_pos rfl]
      simp only [List.foldl_cons]
      rw [mapQName_plain.2 rfl]
      have hs : ∀ (l : Attrs) (acc : Attrs) {w : String}, QName.plain k ∉ l.map (·.1) → Attrs.get? acc (.plain k) = some w →
          l.foldl (fun acc p => Attrs.set acc (mapQName m p.1) p.2) (Attrs.set acc (.plain k) v) =
            Attrs.set (l.foldl (fun acc p => Attrs.set acc (mapQName m p.1) p.2) acc) (.plain k) v := by
        intro l
        induction l with
        | nil => intro acc w _ _; rfl
        | cons b l ih =>
          intro acc w h1 h2
          simp only [List.map_cons, List.mem_cons, not_or] at h1
          have hb : QName.plain k ≠ mapQName m b.1 := fun h' => h1.1 (mapQName_plain.1 h'.symm).symm
          simp only [List.foldl_cons]
          rw [set_set_comm _ _ hb h2]
          exact ih _ (w := w) h1.2 (by rw [Attrs.get?_set, if_neg (Ne.symm hb)]; exact h2)
      rw [← set_set_same acc (.plain k) y v]
      exact hs as _ (w := y) hn.1 (by rw [Attrs.get?_set, if_pos rfl])
    · rw [if_neg e] at h ⊢
      simp only [List.foldl_cons]
      exact attrsNew_set as _ h hn.2

theorem attrsInPlace_set {m : List (String × String)} {k v w : String} {as : Attrs} (h : Attrs.get? as (.plain k) = some w) :
    mapAttrsInPlace m (Attrs.set as (.plain k) v) = Attrs.set (mapAttrsInPlace m as) (.plain k) v := by
  have h1 : ∀ (l acc : Attrs) {w : String}, Attrs.get? acc (.plain k) = some w →
      l.foldl (fun acc p => match p.1.ns with
        | none => acc
        | some _ => Attrs.set (Attrs.del acc p.1) (mapQName m p.1) p.2) (Attrs.set acc (.plain k) v) =
      Attrs.set (l.foldl (fun acc p => match p.1.ns with
        | none => acc
        | some _ => Attrs.set (Attrs.del acc p.1) (mapQName m p.1) p.2) acc) (.plain k) v := by
    intro l
    induction l with
    | nil => intro acc w _; rfl
    | cons b l ih =>
      intro acc w h2
      simp only [List.foldl_cons]
      cases hb : b.1.ns with
      | none => exact ih acc h2
      | some n =>
        simp only
        have e1 : QName.plain k ≠ b.1 := fun h' => by rw [← h'] at hb; cases hb
        have e2 : QName.plain k ≠ mapQName m b.1 := fun h' => e1 (mapQName_plain.1 h'.symm).symm
        have h3 : Attrs.get? (Attrs.del acc b.1) (.plain k) = some w := by
          rw [Attrs.get?_del, if_neg (Ne.symm e1)]; exact h2
        rw [set_del_comm _ _ e1, set_set_comm _ _ e2 h3]
        exact ih _ (w := w) (by rw [Attrs.get?_set, if_neg (Ne.symm e2)]; exact h3)
  have h2 : ∀ (l acc : Attrs),
      (Attrs.set l (.plain k) v).foldl (fun acc p => match p.1.ns with
        | none => acc
        | some _ => Attrs.set (Attrs.del acc p.1) (mapQName m p.1) p.2) acc =
      l.foldl (fun acc p => match p.1.ns with
        | none => acc
        | some _ => Attrs.set (Attrs.del acc p.1) (mapQName m p.1) p.2) acc := by
    intro l
    induction l with
    | nil => intro acc; rfl
    | cons b l ih =>
      intro acc
      obtain ⟨q, y⟩ := b
      simp only [Attrs.set]
      split
      · next e => subst e; rfl
      · simp only [List.foldl_cons]; exact ih _
  exact (h2 as _).trans (h1 as as h)

theorem attrsInPlace_get {m : List (String × String)} {k w : String} {as : Attrs} (h : Attrs.get? as (.plain k) = some w) :
    Attrs.get? (mapAttrsInPlace m as) (.plain k) = some w := by
  have h1 : ∀ (l acc : Attrs), Attrs.get? acc (.plain k) = some w →
      Attrs.get? (l.foldl (fun acc p => match p.1.ns with
        | none => acc
        | some _ => Attrs.set (Attrs.del acc p.1) (mapQName m p.1) p.2) acc) (.plain k) = some w := by
    intro l
    induction l with
    | nil => intro acc h; exact h
    | cons b l ih =>
      intro acc h2
      simp only [List.foldl_cons]
      cases hb : b.1.ns with
      | none => exact ih acc h2
      | some n =>
        simp only
        have e1 : QName.plain k ≠ b.1 := fun h' => by rw [← h'] at hb; cases hb
        have e2 : QName.plain k ≠ mapQName m b.1 := fun h' => e1 (mapQName_plain.1 h'.symm).symm
        exact ih _ (by rw [Attrs.get?_set, if_neg (Ne.symm e2), Attrs.get?_del, if_neg (Ne.symm e1)]; exact h2)
  exact h1 as as h

/-! ## C36 -/

theorem round_trip (from_ to_ : List String) (hf : from_.Nodup) (ht : to_.Nodup) (hd : ∀ n ∈ from_, n ∉ to_)
    (hw : ∀ n ∈ from_ ++ to_, IsWord n) (hx : "http://www.w3.org/2001/XMLSchema-instance" ∉ from_ ++ to_)
    (t : Node) (ha : AttrsOnce t) (hv : Avoids to_ t) (hp : NoPI t) :
    ∃ t1 t2, updateFromLists t from_ to_ = .ok t1 ∧ Like (RenamedElem (listName from_ to_)) [] [] t t1 ∧
      updateFromLists t1 to_ from_ = .ok t2 ∧ Like SameElem [] [] t t2 ∧ AttrsOnce t1 ∧ AttrsOnce t2 := by
  rw [List.mem_append, not_or] at hx
  have f1 : mapNs (zipDict from_ to_) = listName from_ to_ := funext (mapNs_zip hf)
  have f2 : mapNs (zipDict to_ from_) = listName to_ from_ := funext (mapNs_zip ht)
  have hinv : ∀ n, n ∉ to_ → mapNs (zipDict to_ from_) (mapNs (zipDict from_ to_) n) = n := fun n hn => by
    rw [f1, f2]; exact listName_inv ht hn
  have g1 : Good (mapNs (zipDict from_ to_)) (fun n => n ∉ to_) :=
    ⟨fun a b h1 h2 e => by rw [← hinv a h1, e, hinv b h2], fun a _ => by rw [f1]; exact listName_idem hd a⟩
  have hback : ∀ n, n ∉ to_ → mapNs (zipDict to_ from_) n = n := fun n hn => by rw [f2]; exact listName_other hn
  have g2 : Good (mapNs (zipDict to_ from_)) (fun n => ∃ x, x ∉ to_ ∧ n = mapNs (zipDict from_ to_) x) := by
    refine ⟨?_, ?_⟩
    · rintro a b ⟨x, h1, rfl⟩ ⟨y, h2, rfl⟩ e
      rw [hinv x h1, hinv y h2] at e; rw [e]
    · rintro a ⟨x, h1, rfl⟩
      rw [hinv x h1, hback x h1]
  have x1 : FixesXsi (mapNs (zipDict from_ to_)) (fun n => n ∉ to_) := by
    refine ⟨by rw [f1]; exact listName_other hx.1, fun n hn e => ?_⟩
    rw [← hinv n hn, e, hback _ hx.2]
  have x2 : FixesXsi (mapNs (zipDict to_ from_)) (fun n => ∃ x, x ∉ to_ ∧ n = mapNs (zipDict from_ to_) x) := by
    refine ⟨hback _ hx.2, ?_⟩
    rintro n ⟨x, h1, rfl⟩ e
    rw [hinv x h1] at e
    rw [e]; exact x1.1
  have w1 : ∀ n, IsWord n → IsWord (mapNs (zipDict from_ to_) n) := by
    intro n hn
    rw [f1]
    rcases listName_cases from_ to_ n with ⟨h, _⟩ | h
    · rw [h]; exact hn
    · exact hw _ (List.mem_append.2 (Or.inr (zip_mem_fst h).2))
  have e1 : ∀ c ∈ t.elems, GoodE (fun n => n ∉ to_) c.e := fun c hc =>
    ⟨fun a h n hn => hv c hc n (Or.inr (Or.inl ⟨a, h, hn⟩)), ha c hc,
     fun p v h => hv c hc v (Or.inr (Or.inr (Or.inl ⟨_, nsMap_get_mem h, rfl⟩)))⟩
  have w2 : ∀ n, IsWord n → IsWord (mapNs (zipDict to_ from_) n) := by
    intro n hn
    rw [f2]
    rcases listName_cases to_ from_ n with ⟨h, _⟩ | h
    · rw [h]; exact hn
    · exact hw _ (List.mem_append.2 (Or.inl (zip_mem_fst h).2))
  obtain ⟨t1, h1, h2⟩ := updateFromLists_passed g1 x1 w1 e1 hp
  have e2 : ∀ c ∈ t1.elems, GoodE (fun n => ∃ x, x ∉ to_ ∧ n = mapNs (zipDict from_ to_) x) c.e :=
    like_elems (fun a b e e' h => passed_good h) t t1 h2
  obtain ⟨t2, h3, h4⟩ := updateFromLists_passed g2 x2 w2 e2 (like_noPI t t1 h2 hp)
  refine ⟨t1, t2, h1, ?_, h3, ?_, fun c hc => (e2 c hc).2.1,
    fun c hc => like_elems (B := fun e => (e.attrs.map (fun x => x.1)).Nodup) (fun a b e e' h => h.2.2.2.1) t1 t2 h4 c hc⟩
  · rw [← f1]
    exact like_comp (Q := fun a b e e' => b = a ∧ e' = e) (fun a b c e e1 e2 h h' => by
      obtain ⟨rfl, rfl⟩ := h'; exact h.2.2.1) t t1 t1 h2 (like_refl t1)
  · have hq : ∀ c ∈ t.elems, GoodQ (fun n => n ∉ to_) c.e.tag ∧
        ∀ v, c.e.get? slName = some v → ∀ n ∈ evens (pySplitWs v), n ∉ to_ := fun c hc =>
      ⟨fun n hn => hv c hc n (Or.inl hn),
       fun v h n hn => hv c hc n (Or.inr (Or.inr (Or.inr ⟨v, _, h, words_pySplitWs v, hn⟩)))⟩
    refine like_comp ?_ t t1 t2 (like_and (A := fun e => GoodQ (fun n => n ∉ to_) e.tag ∧
      ∀ v, e.get? slName = some v → ∀ n ∈ evens (pySplitWs v), n ∉ to_) t t1 hq h2) h4
    intro a b c e e' e2 hl hr
    obtain ⟨⟨htag, hsl⟩, hG, hGa, ⟨r1, r2, r3, r4, r5, _⟩, _, _, hs1⟩ := hl
    obtain ⟨_, _, ⟨s1, s2, s3, s4, s5, _⟩, _, _, hs2⟩ := hr
    have hqn : ∀ q : QName, GoodQ (fun n => n ∉ to_) q →
        (⟨(q.ns.map (mapNs (zipDict from_ to_))).map (mapNs (zipDict to_ from_)), q.name⟩ : QName) = q := by
      intro q hq
      obtain ⟨n, l⟩ := q
      cases n with
      | none => rfl
      | some x => simp only [Option.map_some]; rw [hinv x (hq x rfl)]
    refine ⟨?_, s2.trans r2, s3.trans r3, ?_, ?_, ?_⟩
    · rw [s1, r1]; exact hqn _ htag
    · intro p
      rw [s4, r4]
      cases h : NsMap.get? a p with
      | none => rfl
      | some v => simp only [Option.map_some]; rw [hinv v (hGa p v h)]
    · refine s5.trans ((r5.map _).trans ?_)
      rw [List.map_map]
      refine List.Perm.of_eq ?_
      rw [List.map_congr_left (g := id), List.map_id]
      intro x hx
      simp only [Function.comp_apply, id]
      rw [hqn _ (hG.1 x (List.mem_filter.1 hx).1)]
    · rw [hs2, hs1]
      refine ⟨fun h => by rw [h]; rfl, fun v h => ?_⟩
      rw [h]
      refine ⟨_, rfl, fun ws hws => ?_⟩
      have hws' := words_unique hws
      have hwd := words_isWord hws
      have hev := hsl v h
      simp only
      rw [hws'] at hev ⊢
      have hmw : ∀ w ∈ mapEven (zipDict from_ to_) ws, IsWord w := fun w hw' => by
        rcases mapEven_mem hw' with h | ⟨x, hxm, rfl⟩
        · exact hwd w h
        · exact w1 x (hwd x hxm)
      rw [split_join hmw, mapEven_inv ws (fun n hn => hinv n (hev n hn))]
      have := words_pySplitWs (pyJoin " " ws)
      rw [split_join hwd] at this
      exact this

theorem updNsElem_version {m : List (String × String)} {env : NsMap} {e : Elem} {v w : String}
    (hn : (e.attrs.map (·.1)).Nodup) (h : e.get? (.plain "version") = some w) :
    updNsElem m env (e.set (.plain "version") v) = (updNsElem m env e).set (.plain "version") v ∧
    ∃ w', (updNsElem m env e).get? (.plain "version") = some w' := by
  unfold updNsElem
  split
  · refine ⟨?_, attrsNew_get e.attrs [] (Or.inr h)⟩
    simp only [Elem.set]
    congr 1
    exact attrsNew_set e.attrs [] h hn
  · refine ⟨?_, ⟨w, attrsInPlace_get h⟩⟩
    simp only [Elem.set]
    congr 1
    exact attrsInPlace_set h

theorem updSchemalocElem_version {m : List (String × String)} {e : Elem} {v w : String}
    (h : e.get? (.plain "version") = some w) :
    updSchemalocElem m (e.set (.plain "version") v) = (updSchemalocElem m e).set (.plain "version") v ∧
    (updSchemalocElem m e).get? (.plain "version") = some w := by
  have hne : QName.plain "version" ≠ tagSchemaLoc := by decide
  unfold updSchemalocElem
  rw [Elem.get?_set, if_neg hne]
  cases e.get? tagSchemaLoc with
  | none => exact ⟨rfl, h⟩
  | some x =>
    refine ⟨?_, ?_⟩
    · simp only [Elem.set]
      congr 1
      exact set_set_comm _ _ hne h
    · rw [Elem.get?_set, if_neg (Ne.symm hne)]; exact h

/-- The value of the version attribute of the root does not matter to the renaming. -/
theorem updateFromLists_version {e : Elem} {ks : List Node} {v w : String} {from_ to_ : List String} {t' : Node}
    (hn : (e.attrs.map (·.1)).Nodup) (h : e.get? (.plain "version") = some w)
    (hu : updateFromLists (.elem e ks) from_ to_ = .ok t') :
    updateFromLists (.elem (e.set (.plain "version") v) ks) from_ to_ = .ok (specialVersion v t') := by
  unfold updateFromLists at hu ⊢
  simp only [updNs] at hu ⊢
  rw [Elem.set_decls]
  obtain ⟨h1, w1, h2⟩ := updNsElem_version (m := zipDict from_ to_) (env := NsMap.dedup (e.decls ++ [])) (v := v) hn h
  rw [h1]
  rw [Elem.set_decls]
  split at hu
  · cases hu
  · next t1 ht =>
    split at ht
    · cases ht
    · next ks' hk =>
      cases ht
      cases hu
      rw [hk]
      simp only [updSchemalocs, Node.mapPos]
      obtain ⟨h3, h4⟩ := updSchemalocElem_version (m := zipDict from_ to_) (v := v) h2
      rw [h3]
      simp only [specialVersion]
      rw [Elem.has_eq, h4]
      rfl

theorem attrs_get_none {as : Attrs} {k : QName} : Attrs.get? as k = none ↔ k ∉ as.map (·.1) := by
  induction as with
  | nil => simp [Attrs.get?]
  | cons x xs ih =>
    obtain ⟨q, y⟩ := x
    simp only [Attrs.get?, List.map_cons, List.mem_cons, not_or]
    by_cases h : q = k
    · simp [h]
    · rw [if_neg h, ih]
      exact ⟨fun h' => ⟨fun e => h e.symm, h'⟩, fun h' => h'.2⟩

theorem renamed_version {f : String → String} {a b : NsMap} {e e1 : Elem} (h : RenamedElem f a b e e1) :
    e1.get? (.plain "version") = none ↔ e.get? (.plain "version") = none := by
  have hne : QName.plain "version" ≠ slName := by decide
  have hp := (h.2.2.2.2.1.map (·.1)).mem_iff (a := QName.plain "version")
  unfold Elem.get?
  rw [attrs_get_none, attrs_get_none]
  refine not_congr ?_
  constructor
  · intro hm
    obtain ⟨x, hx, ex⟩ := List.mem_map.1 hm
    have := hp.1 (List.mem_map.2 ⟨x, List.mem_filter.2 ⟨hx, by rw [ex]; simpa using hne⟩, ex⟩)
    rw [List.map_map] at this
    obtain ⟨y, hy, ey⟩ := List.mem_map.1 this
    simp only [Function.comp_apply] at ey
    have : y.1 = .plain "version" := by
      obtain ⟨⟨n, l⟩, v⟩ := y
      cases n <;> simp [QName.plain] at ey ⊢
      exact ey
    exact List.mem_map.2 ⟨y, (List.mem_filter.1 hy).1, this⟩
  · intro hm
    obtain ⟨x, hx, ex⟩ := List.mem_map.1 hm
    have : QName.plain "version" ∈ ((e.attrs.filter (fun a => a.1 ≠ slName)).map
        (fun a => ((⟨a.1.ns.map f, a.1.name⟩ : QName), a.2))).map (·.1) := by
      rw [List.map_map]
      exact List.mem_map.2 ⟨x, List.mem_filter.2 ⟨hx, by rw [ex]; simpa using hne⟩, by
        simp only [Function.comp_apply]; rw [ex]; rfl⟩
    obtain ⟨y, hy, ey⟩ := List.mem_map.1 (hp.2 this)
    exact List.mem_map.2 ⟨y, (List.mem_filter.1 hy).1, ey⟩

theorem same_version {a b : NsMap} {e e1 : Elem} (h : SameElem a b e e1) (hn : (e.attrs.map (·.1)).Nodup)
    (hn1 : (e1.attrs.map (·.1)).Nodup) : e1.get? (.plain "version") = e.get? (.plain "version") := by
  have hne : QName.plain "version" ≠ slName := by decide
  have hh : ∀ v, e1.get? (.plain "version") = some v ↔ e.get? (.plain "version") = some v := by
    intro v
    unfold Elem.get?
    rw [attrs_get_iff hn, attrs_get_iff hn1]
    have := h.2.2.2.2.1.mem_iff (a := (QName.plain "version", v))
    simpa [hne] using this
  cases h1 : e.get? (.plain "version") with
  | some v => exact (hh v).2 h1
  | none =>
    cases h2 : e1.get? (.plain "version") with
    | none => rfl
    | some v => rw [(hh v).1 h2] at h1; cases h1

/-- Round trip with the version of the root. -/
theorem round_trip_version (from_ to_ : List String) (hf : from_.Nodup) (ht : to_.Nodup) (hd : ∀ n ∈ from_, n ∉ to_)
    (hw : ∀ n ∈ from_ ++ to_, IsWord n) (hx : "http://www.w3.org/2001/XMLSchema-instance" ∉ from_ ++ to_)
    (t : Node) (ha : AttrsOnce t) (hv : Avoids to_ t) (hp : NoPI t) (v v' : String)
    (hr : ∀ w, rootAttr t (.plain "version") = some w → w = v) :
    ∃ t1 t2, updateFromLists t from_ to_ = .ok t1 ∧
      updateFromLists (specialVersion v' t1) to_ from_ = .ok t2 ∧ Like SameElem [] [] t (specialVersion v t2) := by
  obtain ⟨t1, t2, h1, h2, h3, h4, h5, h6⟩ := round_trip from_ to_ hf ht hd hw hx t ha hv hp
  cases t with
  | other c s =>
    have e1 : t1 = .other c s := h2
    have e2 : t2 = .other c s := h4
    subst e1
    subst e2
    exact ⟨.other c s, .other c s, h1, h3, rfl⟩
  | elem e ks =>
    obtain ⟨e1, ks1, rfl, h7, h8⟩ := h2
    obtain ⟨e2, ks2, rfl, h9, h10⟩ := h4
    have hn : (e.attrs.map (·.1)).Nodup := ha ⟨[], e.decls ++ [], [], e, ks⟩ (by simp [Node.elems, Node.walk])
    have hn1 : (e1.attrs.map (·.1)).Nodup := h5 ⟨[], e1.decls ++ [], [], e1, ks1⟩ (by simp [Node.elems, Node.walk])
    have hn2 : (e2.attrs.map (·.1)).Nodup := h6 ⟨[], e2.decls ++ [], [], e2, ks2⟩ (by simp [Node.elems, Node.walk])
    have hsame := same_version h9 hn hn2
    have hr' : ∀ w, e.get? (.plain "version") = some w → w = v := fun w hw => hr w (by simpa [rootAttr, Node.root?] using hw)
    cases hev : e.get? (.plain "version") with
    | none =>
      have he1 := (renamed_version h7).2 hev
      rw [hev] at hsame
      refine ⟨_, .elem e2 ks2, h1, ?_, ?_⟩
      · simp only [specialVersion, Elem.has_eq, he1]
        simpa using h3
      · simp only [specialVersion, Elem.has_eq, hsame]
        exact ⟨e2, ks2, rfl, h9, h10⟩
    | some w =>
      have hwv := hr' w hev
      subst hwv
      cases he1 : e1.get? (.plain "version") with
      | none => rw [(renamed_version h7).1 he1] at hev; cases hev
      | some w1 =>
        refine ⟨_, specialVersion v' (.elem e2 ks2), h1, ?_, ?_⟩
        · have := updateFromLists_version (v := v') hn1 he1 h3
          simp only [specialVersion, Elem.has_eq, he1]
          exact this
        · rw [hev] at hsame
          simp only [specialVersion, Elem.has_eq, hsame, Option.isSome_some, if_true, Elem.get?_set]
          have : (e2.set (.plain "version") v').set (.plain "version") w = e2 := by
            simp only [Elem.set]
            rw [set_set_same, set_same hsame]
          rw [this]
          exact ⟨e2, ks2, rfl, h9, h10⟩

/-- C36: renaming with two lists succeeds, does what it should to every element, and renaming back gives the same document
back.  Besides the conditions in the claim: no attribute is given twice (well-formed), no processing instruction, no name twice
in a list, no name in both lists, the names are words, and the lists leave the namespace of `xsi` alone.
Partial: it fails with processing instructions (`C36_pi_fails`) and with overlapping lists (`C36_overlap_fails`); the
declarations may move and the white space in schema locations is lost. -/
theorem C36_partial (from_ to_ : List String) (hf : from_.Nodup) (ht : to_.Nodup) (hd : ∀ n ∈ from_, n ∉ to_)
    (hw : ∀ n ∈ from_ ++ to_, IsWord n) (hx : "http://www.w3.org/2001/XMLSchema-instance" ∉ from_ ++ to_)
    (t : Node) (ha : AttrsOnce t) (hv : Avoids to_ t) (hp : NoPI t) :
    ∃ t1 t2, updateFromLists t from_ to_ = .ok t1 ∧ Like (RenamedElem (listName from_ to_)) [] [] t t1 ∧
      updateFromLists t1 to_ from_ = .ok t2 ∧ Like SameElem [] [] t t2 := by
  obtain ⟨t1, t2, h1, h2, h3, h4, _⟩ := round_trip from_ to_ hf ht hd hw hx t ha hv hp
  exact ⟨t1, t2, h1, h2, h3, h4⟩

/-- All namespaces an element mentions. -/
def mentioned (e : Elem) : List String :=
  e.tag.ns.toList ++ e.attrs.filterMap (·.1.ns) ++ e.decls.map (·.2) ++ ((e.get? slName).map (fun v => evens (pySplitWs v))).getD []

theorem mem_mentioned {e : Elem} {n : String} (h : Mentions e n) : n ∈ mentioned e := by
  unfold mentioned
  simp only [List.mem_append]
  rcases h with h | ⟨a, ha, h⟩ | ⟨d, hd, rfl⟩ | ⟨v, ws, h, hw, hn⟩
  · exact Or.inl (Or.inl (Or.inl (by simp [h])))
  · exact Or.inl (Or.inl (Or.inr (List.mem_filterMap.2 ⟨a, ha, h⟩)))
  · exact Or.inl (Or.inr (List.mem_map_of_mem hd))
  · right; rw [h]; simpa [words_unique hw] using hn

theorem avoids_of {N : List String} {t : Node} (h : ∀ c ∈ t.elems, ∀ n ∈ mentioned c.e, n ∉ N) : Avoids N t :=
  fun c hc n hn => h c hc n (mem_mentioned hn)

/-- A document with an element in another, a typed attribute, a comment and a schema location. -/
def docTrip : Node :=
  el "urn:a" "r" [(slName, "urn:a  a.xsd"), (⟨some "urn:a", "x"⟩, "1"), at_ "y" "2"]
    [.other "c" (some "t"), el "urn:a" "k" [xsiType "p:T"] [] (some "u") [(some "q", "urn:z")]] none
    [(some "p", "urn:a"), (some "xsi", nsXsi)]

example : ["urn:a"].Nodup ∧ ["urn:b"].Nodup ∧ (∀ n ∈ ["urn:a"], n ∉ ["urn:b"]) ∧ (∀ n ∈ ["urn:a"] ++ ["urn:b"], IsWord n) ∧
    "http://www.w3.org/2001/XMLSchema-instance" ∉ ["urn:a"] ++ ["urn:b"] ∧ AttrsOnce docTrip ∧ Avoids ["urn:b"] docTrip ∧
    NoPI docTrip := by
  refine ⟨by decide, by decide, by decide, ?_, by decide, ?_, avoids_of (by decide +kernel), ?_⟩
  · intro n hn
    simp only [List.cons_append, List.nil_append, List.mem_cons, List.not_mem_nil, or_false] at hn
    rcases hn with rfl | rfl
    · exact isWord_ofList (cs := "urn:a".toList) (by decide)
    · exact isWord_ofList (cs := "urn:b".toList) (by decide)
  · have : ∀ c ∈ docTrip.elems, (c.e.attrs.map (·.1)).Nodup := by decide +kernel
    exact this
  · exact ⟨(by decide : "c".toList.head? ≠ some '?'), trivial, trivial⟩

example : ∃ t1, updateFromLists docTrip ["urn:a"] ["urn:b"] = .ok t1 ∧
    t1.elems.map (fun c => (c.e.tag.ns, NsMap.get? c.env (some "p"))) =
      [(some "urn:b", some "urn:b"), (some "urn:b", some "urn:b")] ∧
    rootAttr t1 slName = some "urn:b a.xsd" ∧ rootAttr t1 ⟨some "urn:b", "x"⟩ = some "1" := ok_of_eval (by decide +kernel)

mutual
theorem updNs_pi {m : List (String × String)} {env : NsMap} : ∀ (t t' : Node), updNs m env t = .ok t' → NoPI t
  | .other c s, t', h => by
    simp only [updNs] at h
    split at h
    · cases h
    · next hc => intro e; exact hc (by simp [isPI, e])
  | .elem e ks, t', h => by
    simp only [updNs] at h
    split at h
    · cases h
    · next ks' hk => exact updNss_pi ks ks' hk
theorem updNss_pi {m : List (String × String)} {env : NsMap} : ∀ (ks ks' : List Node), updNss m env ks = .ok ks' → NoPIs ks
  | [], _, _ => trivial
  | k :: ks, l, h => by
    simp only [updNss] at h
    split at h
    · cases h
    · next k' hk =>
      split at h
      · cases h
      · next ks' hks => exact ⟨updNs_pi k k' hk, updNss_pi ks ks' hks⟩
end

/-- C36 fails for every document with a processing instruction, whatever the lists. -/
theorem C36_pi_fails (t : Node) (h : ¬ NoPI t) (from_ to_ : List String) (t' : Node) : updateFromLists t from_ to_ ≠ .ok t' := by
  intro h'
  simp only [updateFromLists] at h'
  split at h'
  · cases h'
  · next t1 h1 => exact h (updNs_pi t t1 h1)

/-- A document with a processing instruction below the root. -/
def docPI : Node := el "urn:a" "r" [] [.other "?x y" none] none [(none, "urn:a")]

example : ¬ NoPI docPI ∧ (updateFromLists docPI ["urn:a"] ["urn:b"]).isOk = false :=
  ⟨fun h => h.1 (by decide), by decide +kernel⟩

/-- An element within another, with a typed attribute. -/
def docChain : Node := el "urn:a" "r" [] [el "urn:a" "k" [xsiType "p:T"] []] none [(some "p", "urn:a"), (some "xsi", nsXsi)]


/-- C36 fails when a name is in both lists: with the lists `a b` and `b c` the inner `p` ends up bound to another namespace. -/
theorem C36_overlap_fails : Avoids ["urn:b", "urn:c"] docChain ∧ ∃ t2,
    (match updateFromLists docChain ["urn:a", "urn:b"] ["urn:b", "urn:c"] with
      | .ok t1 => updateFromLists t1 ["urn:b", "urn:c"] ["urn:a", "urn:b"]
      | .error x => .error x) = .ok t2 ∧
    docChain.elems.map (fun c => NsMap.get? c.env (some "p")) = [some "urn:a", some "urn:a"] ∧
    t2.elems.map (fun c => NsMap.get? c.env (some "p")) = [some "urn:a", some "urn:b"] :=
  ⟨avoids_of (by decide +kernel), ok_of_eval (by decide +kernel)⟩

/-- The shipped lists, word by word. -/
theorem shipped_words : ∀ n ∈ Tables.updateNs_12 ++ Tables.updateNs_121, IsWord n := by
  have : ∀ n ∈ Tables.updateNs_12 ++ Tables.updateNs_121, (!n.toList.isEmpty && n.toList.all (fun c => !isSpace c)) = true := by
    decide +kernel
  intro n hn
  have := isWord_ofList (this n hn)
  simpa using this

/-- C36 for the shipped lists and whole runs of the script: from 1.2 to 1.2.1 and back.  Partial as `C36_partial`. -/
theorem C36_up_partial (file : String → List String) (t : Node) (ha : AttrsOnce t) (hv : Avoids (oasis.map (·.2)) t) (hp : NoPI t)
    (hr : ∀ w, rootAttr t (.plain "version") = some w → w = "1.2") :
    ∃ t1 t2, updateNsMain file t "stix1.2" "stix1.2.1" = .ok t1 ∧ updateNsMain file t1 "stix1.2.1" "stix1.2" = .ok t2 ∧
      Like SameElem [] [] t t2 := by
  have hv' : Avoids Tables.updateNs_121 t := fun c hc n hn h' => hv c hc n hn (by
    have : ∀ n ∈ Tables.updateNs_121, n ∈ oasis.map (·.2) := by decide +kernel
    exact this n h')
  obtain ⟨t1, t2, h1, h2, h3⟩ := round_trip_version Tables.updateNs_12 Tables.updateNs_121 (by decide +kernel)
    (by decide +kernel) (by decide +kernel) shipped_words (by decide +kernel) t ha hv' hp "1.2" "1.2.1" hr
  exact ⟨specialVersion "1.2.1" t1, specialVersion "1.2" t2,
    by simp [updateNsMain, getNamespaceList, h1, specialCaseVersionUpdate],
    by simp [updateNsMain, getNamespaceList, h2, specialCaseVersionUpdate], h3⟩

/-- C36 for the shipped lists and whole runs of the script: from 1.2.1 to 1.2 and back.  Partial as `C36_partial`. -/
theorem C36_down_partial (file : String → List String) (t : Node) (ha : AttrsOnce t) (hv : Avoids Tables.updateNs_12 t)
    (hp : NoPI t) (hr : ∀ w, rootAttr t (.plain "version") = some w → w = "1.2.1") :
    ∃ t1 t2, updateNsMain file t "stix1.2.1" "stix1.2" = .ok t1 ∧ updateNsMain file t1 "stix1.2" "stix1.2.1" = .ok t2 ∧
      Like SameElem [] [] t t2 := by
  obtain ⟨t1, t2, h1, h2, h3⟩ := round_trip_version Tables.updateNs_121 Tables.updateNs_12 (by decide +kernel)
    (by decide +kernel) (by decide +kernel)
    (fun n hn => shipped_words n (List.mem_append.2 (List.mem_append.1 hn).symm)) (by decide +kernel) t ha hv hp "1.2.1" "1.2" hr
  exact ⟨specialVersion "1.2" t1, specialVersion "1.2.1" t2,
    by simp [updateNsMain, getNamespaceList, h1, specialCaseVersionUpdate],
    by simp [updateNsMain, getNamespaceList, h2, specialCaseVersionUpdate], h3⟩

example : AttrsOnce docTyped ∧ Avoids (oasis.map (·.2)) docTyped ∧ NoPI docTyped ∧
    ∀ w, rootAttr docTyped (.plain "version") = some w → w = "1.2" := by
  refine ⟨?_, avoids_of (by decide +kernel), ?_, ?_⟩
  · have : ∀ c ∈ docTyped.elems, (c.e.attrs.map (·.1)).Nodup := by decide +kernel
    exact this
  · exact ⟨⟨trivial, trivial⟩, trivial⟩
  · intro w hw
    have : rootAttr docTyped (.plain "version") = some "1.2" := by decide +kernel
    rw [this] at hw; cases hw; rfl

/-! ## C37 -/

/-- The namespaces for which script and library differ. -/
def misplaced : List String :=
  [ "http://stix.mitre.org/extensions/TestMechanism#Generic-1",
    "http://stix.mitre.org/extensions/TestMechanism#OpenIOC2010-1",
    "http://stix.mitre.org/extensions/TestMechanism#Generic-1http://stix.mitre.org/extensions/TestMechanism#OpenIOC2010-1",
    "http://stix.mitre.org/extensions/TestMechanism#OVAL5.10-1",
    "http://stix.mitre.org/extensions/TestMechanism#Snort-1",
    "http://stix.mitre.org/extensions/TestMechanism#YARA-1",
    "http://stix.mitre.org/extensions/Vulnerability#CVRF-1" ]

/-- C37: script and library agree on a namespace exactly when it is not one of the seven; the library does what the
specification says.  Partial: they should agree on all (`C37_fails`). -/
theorem C37_partial (file : String → List String) (n : String) :
    (mapNs stix12Cls.updateNsMap n = newName oasis n) ∧
    (mapNs (zipDict (getNamespaceList file "stix1.2") (getNamespaceList file "stix1.2.1")) n = newName oasis n ↔
      n ∉ misplaced) := by
  have h1 : getNamespaceList file "stix1.2" = Tables.updateNs_12 := by simp [getNamespaceList]
  have h2 : getNamespaceList file "stix1.2.1" = Tables.updateNs_121 := by simp [getNamespaceList]
  rw [h1, h2, oasis_eq, mapNs_zip (by decide +kernel)]
  refine ⟨(newName_eq _ _).symm, ?_⟩
  by_cases hn : n ∈ oasis.map (·.1) ++ Tables.updateNs_12 ++ misplaced
  · have : ∀ n ∈ oasis.map (·.1) ++ Tables.updateNs_12 ++ misplaced,
        (listName Tables.updateNs_12 Tables.updateNs_121 n = newName oasis n ↔ n ∉ misplaced) := by decide +kernel
    exact this n hn
  · simp only [List.mem_append, not_or] at hn
    rw [newName_other hn.1.1, listName_other hn.1.2]
    exact ⟨fun _ => hn.2, fun _ => rfl⟩

/-- C37 fails: Snort test mechanisms become OVAL test mechanisms, and generic ones are left alone. -/
theorem C37_fails (file : String → List String) :
    mapNs (zipDict (getNamespaceList file "stix1.2") (getNamespaceList file "stix1.2.1"))
      "http://stix.mitre.org/extensions/TestMechanism#Snort-1" =
      "http://docs.oasis-open.org/cti/ns/stix/extensions/test-mechanism/oval-5.10-1" ∧
    mapNs stix12Cls.updateNsMap "http://stix.mitre.org/extensions/TestMechanism#Snort-1" =
      "http://docs.oasis-open.org/cti/ns/stix/extensions/test-mechanism/snort-1" ∧
    mapNs (zipDict (getNamespaceList file "stix1.2") (getNamespaceList file "stix1.2.1"))
      "http://stix.mitre.org/extensions/TestMechanism#Generic-1" =
      "http://stix.mitre.org/extensions/TestMechanism#Generic-1" := by
  have h1 : getNamespaceList file "stix1.2" = Tables.updateNs_12 := by simp [getNamespaceList]
  have h2 : getNamespaceList file "stix1.2.1" = Tables.updateNs_121 := by simp [getNamespaceList]
  rw [h1, h2]
  decide +kernel

mutual
theorem tags_mapCtx {F : Ctx → Elem} {pos : Pos} {env env' : NsMap} {anc anc' : List QName} : ∀ (t : Node),
    ((t.mapCtx F pos env anc).walk pos env' anc').map (·.e.tag) = (t.walk pos env anc).map (fun c => (F c).tag)
  | .other _ _ => rfl
  | .elem e ks => by
    simp only [Node.mapCtx, Node.walk, List.map_cons]
    rw [tagss_mapCtx ks]
theorem tagss_mapCtx {F : Ctx → Elem} {pos : Pos} {i : Nat} {env env' : NsMap} {anc anc' : List QName} : ∀ (ks : List Node),
    (Node.walks pos i env' anc' (Node.mapCtxs F pos i env anc ks)).map (·.e.tag) =
      (Node.walks pos i env anc ks).map (fun c => (F c).tag)
  | [] => rfl
  | k :: ks => by
    simp only [Node.mapCtxs, Node.walks, List.map_append]
    rw [tags_mapCtx k, tagss_mapCtx ks]
end

mutual
theorem tags_like {P : NsMap → NsMap → Elem → Elem → Prop} {g : QName → QName} (h : ∀ a b e e', P a b e e' → e'.tag = g e.tag)
    {a b env env' : NsMap} {pos : Pos} {anc anc' : List QName} : ∀ (t t' : Node), Like P a b t t' →
    (t'.walk pos env' anc').map (·.e.tag) = (t.walk pos env anc).map (fun c => g c.e.tag)
  | .other x s, t', hl => by rw [show t' = .other x s from hl]; rfl
  | .elem e ks, t', hl => by
    obtain ⟨e', ks', rfl, h1, h2⟩ := hl
    simp only [Node.walk, List.map_cons]
    rw [tagss_like h ks ks' h2, h _ _ _ _ h1]
theorem tagss_like {P : NsMap → NsMap → Elem → Elem → Prop} {g : QName → QName} (h : ∀ a b e e', P a b e e' → e'.tag = g e.tag)
    {a b env env' : NsMap} {pos : Pos} {i : Nat} {anc anc' : List QName} : ∀ (ks ks' : List Node), Likes P a b ks ks' →
    (Node.walks pos i env' anc' ks').map (·.e.tag) = (Node.walks pos i env anc ks).map (fun c => g c.e.tag)
  | [], l, hl => by rw [show l = [] from hl]; rfl
  | k :: ks, l, hl => by
    obtain ⟨k', ks', rfl, h1, h2⟩ := hl
    simp only [Node.walks, List.map_append]
    rw [tags_like h k k' h1, tagss_like h ks ks' h2]
end

theorem tags_below {s t' : Node} (h : SameBelowRoot s t') : t'.elems.map (·.e.tag) = s.elems.map (·.e.tag) := by
  rcases h with rfl | ⟨e, e', ks, rfl, rfl, _, hs⟩
  · rfl
  · simp only [Node.elems, Node.walk, List.map_cons]
    rw [hs.1, hs.2.1]

/-- C37 for documents: without the seven namespaces, script and library give the elements the same names, in the same order.
Partial as `C37_partial`. -/
theorem C37_names_partial (file : String → List String) (o : Options) (t t1 t' : Node) (ha : AttrsOnce t)
    (hv : Avoids (oasis.map (·.2) ++ misplaced) t) (h1 : updateNsMain file t "stix1.2" "stix1.2.1" = .ok t1)
    (h2 : stix12.update o t = .ok t') : t1.elems.map (·.e.tag) = t'.elems.map (·.e.tag) := by
  have hv' : Avoids Tables.updateNs_121 t := fun c hc n hn h' => hv c hc n hn (by
    have : ∀ n ∈ Tables.updateNs_121, n ∈ oasis.map (·.2) := by decide +kernel
    exact List.mem_append.2 (Or.inl (this n h')))
  have hp : NoPI t := Classical.byContradiction fun hp => by
    simp only [updateNsMain] at h1
    split at h1
    · cases h1
    · next x hx => exact C36_pi_fails t hp _ _ _ hx
  obtain ⟨x, _, hx, hl, _⟩ := C36_partial Tables.updateNs_12 Tables.updateNs_121 (by decide +kernel)
    (by decide +kernel) (by decide +kernel) shipped_words (by decide +kernel) t ha hv' hp
  have e1 : t1 = specialVersion "1.2.1" x := by
    simp [updateNsMain, getNamespaceList, hx, specialCaseVersionUpdate] at h1
    exact h1.symm
  have e2 : t1.elems.map (·.e.tag) = x.elems.map (·.e.tag) := by
    rw [e1]
    cases x with
    | other _ _ => rfl
    | elem e ks =>
      simp only [specialVersion]
      split <;> rfl
  obtain ⟨⟨F, hF, hb⟩, _⟩ := C25_partial o t t' h2
  rw [e2, tags_below hb]
  have e3 := tags_like (P := RenamedElem (listName Tables.updateNs_12 Tables.updateNs_121))
    (g := qn (listName Tables.updateNs_12 Tables.updateNs_121)) (fun a b e e' h => h.1)
    (env := []) (env' := []) (pos := []) (anc := []) (anc' := []) t x hl
  have e4 := tags_mapCtx (F := F) (env := []) (env' := []) (pos := []) (anc := []) (anc' := []) t
  refine e3.trans (Eq.trans ?_ e4.symm)
  apply List.map_congr_left
  intro c hc
  have hc' : c ∈ t.elems := hc
  obtain ⟨hF1, hF2⟩ := hF c hc'
  rcases Classical.em (OldNs oasis c.e.tag) with ho | ho
  · rw [(hF2 ho).1]
    obtain ⟨n, hn, hq⟩ := ho
    have hm : n ∉ misplaced := fun hm => hv c hc' n (Or.inl hq) (List.mem_append.2 (Or.inr hm))
    have := (C37_partial file n).2.2 hm
    rw [show getNamespaceList file "stix1.2" = Tables.updateNs_12 by simp [getNamespaceList],
      show getNamespaceList file "stix1.2.1" = Tables.updateNs_121 by simp [getNamespaceList], mapNs_zip (by decide +kernel)] at this
    simp only [qn, hq, Option.map_some, this]
  · rw [hF1 ho]
    cases hq : c.e.tag.ns with
    | none => unfold qn; rw [hq]; simp only [Option.map_none]; rw [← hq]
    | some n =>
      have hn : n ∉ oasis.map (·.1) := fun hn => ho ⟨n, hn, hq⟩
      have hm : n ∉ misplaced := fun hm => hv c hc' n (Or.inl hq) (List.mem_append.2 (Or.inr hm))
      have := (C37_partial file n).2.2 hm
      rw [show getNamespaceList file "stix1.2" = Tables.updateNs_12 by simp [getNamespaceList],
        show getNamespaceList file "stix1.2.1" = Tables.updateNs_121 by simp [getNamespaceList], mapNs_zip (by decide +kernel),
        newName_other hn] at this
      unfold qn
      rw [hq]
      simp only [Option.map_some, this]
      rw [← hq]

example : AttrsOnce docTyped ∧ Avoids (oasis.map (·.2) ++ misplaced) docTyped ∧
    (updateNsMain (fun _ => []) docTyped "stix1.2" "stix1.2.1").isOk = true ∧ (stix12.update o0 docTyped).isOk = true := by
  refine ⟨?_, avoids_of (by decide +kernel), by decide +kernel, by decide +kernel⟩
  have : ∀ c ∈ docTyped.elems, (c.e.attrs.map (·.1)).Nodup := by decide +kernel
  exact this

example : "http://stix.mitre.org/TTP-1" ∉ misplaced ∧ newName oasis "http://stix.mitre.org/TTP-1" ≠ "http://stix.mitre.org/TTP-1" := by
  decide +kernel

end Ramrod

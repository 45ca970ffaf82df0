import Verif.Props.UpdateNs
/-!
# C63: the namespace script changes names only
-/

namespace Ramrod

open Samples

/-! ## Statement -/

/-- The new name of a namespace by two lists read side by side: the entry beside its last occurrence, or, when it is not listed
or has no entry beside it, the name itself. -/
def Renames (from_ to_ : List String) (n n' : String) : Prop :=
  (∃ i : Nat, (from_.zip to_)[i]? = some (n, n') ∧ ∀ j : Nat, i < j → ∀ v, (from_.zip to_)[j]? ≠ some (n, v)) ∨
  (n' = n ∧ ∀ v, (n, v) ∉ from_.zip to_)

/-- A name whose namespace is renamed. -/
def NameOf (from_ to_ : List String) (q q' : QName) : Prop :=
  q'.name = q.name ∧ ((q.ns = none ∧ q'.ns = none) ∨ ∃ n n', q.ns = some n ∧ q'.ns = some n' ∧ Renames from_ to_ n n')

/-- Two schema locations that differ in spacing and in the names of the namespaces. -/
def LocationOf (from_ to_ : List String) (v v' : String) : Prop :=
  ∃ ws ws', Words v.toList ws ∧ v' = pyJoin " " ws' ∧ ws'.length = ws.length ∧
    ∀ i : Nat, ∀ w w', ws[i]? = some w → ws'[i]? = some w' → if i % 2 = 0 then Renames from_ to_ w w' else w' = w

/-- An element with a new name: local name, text and tail are the same, every attribute stems from an attribute with the same
local name and value (schema locations are rewritten), and the same prefixes are bound. -/
def Retouched (from_ to_ : List String) (env env' : NsMap) (e e' : Elem) : Prop :=
  NameOf from_ to_ e.tag e'.tag ∧ e'.text = e.text ∧ e'.tail = e.tail ∧
  (∀ a' ∈ e'.attrs, ∃ a ∈ e.attrs, NameOf from_ to_ a.1 a'.1 ∧
    (a'.2 = a.2 ∨ a'.1 = slName ∧ LocationOf from_ to_ a.2 a'.2)) ∧
  ∀ p, (NsMap.get? env' p).isSome = (NsMap.get? env p).isSome

/-- No two attributes of an element get the same name, and none gets the old name of another. -/
def NoClash (from_ to_ : List String) (e : Elem) : Prop :=
  ∀ a ∈ e.attrs, ∀ b ∈ e.attrs, ∀ q, NameOf from_ to_ a.1 q → (NameOf from_ to_ b.1 q ∨ b.1 = q) → a.1 = b.1

/-- Every attribute is still there, with its value, and every schema location is renamed. -/
def AttrsStay (from_ to_ : List String) (e e' : Elem) : Prop :=
  ∀ a ∈ e.attrs, ∃ a' ∈ e'.attrs, NameOf from_ to_ a.1 a'.1 ∧
    if a'.1 = slName then LocationOf from_ to_ a.2 a'.2 else a'.2 = a.2

/-! ## The table -/

theorem assoc_update_last (n : String) : ∀ (l a : List (String × String)),
    (∃ i : Nat, ∃ v, l[i]? = some (n, v) ∧ assoc (dictUpdate a l) n = some v ∧ ∀ j : Nat, i < j → ∀ w, l[j]? ≠ some (n, w)) ∨
    (assoc (dictUpdate a l) n = assoc a n ∧ ∀ v, (n, v) ∉ l)
  | [], a => Or.inr ⟨rfl, fun v => by simp⟩
  | (k, v) :: l, a => by
    have ih := assoc_update_last n l (dictSet a k v)
    have e : dictUpdate a ((k, v) :: l) = dictUpdate (dictSet a k v) l := rfl
    rw [e]
    rcases ih with ⟨i, w, h1, h2, h3⟩ | ⟨h1, h2⟩
    · left
      refine ⟨i + 1, w, by simpa using h1, h2, ?_⟩
      intro j hj w'
      cases j with
      | zero => omega
      | succ j => simpa using h3 j (by omega) w'
    · by_cases hk : k = n
      · subst hk
        left
        refine ⟨0, v, by simp, ?_, ?_⟩
        · rw [h1, assoc_dictSet]; simp
        · intro j hj w
          cases j with
          | zero => omega
          | succ j =>
            intro hc
            exact h2 w (List.mem_of_getElem? (by simpa using hc))
      · right
        refine ⟨?_, ?_⟩
        · rw [h1, assoc_dictSet]; simp [hk]
        · intro w hw
          rcases List.mem_cons.1 hw with e | e
          · exact hk (by simpa using (Prod.mk.inj e).1.symm)
          · exact h2 w e

theorem mapNs_renames (from_ to_ : List String) (n : String) : Renames from_ to_ n (mapNs (zipDict from_ to_) n) := by
  rcases assoc_update_last n (from_.zip to_) [] with ⟨i, v, h1, h2, h3⟩ | ⟨h1, h2⟩
  · left
    refine ⟨i, ?_, h3⟩
    simp only [mapNs, zipDict, h2, Option.getD_some]
    exact h1
  · right
    exact ⟨by simp only [mapNs, zipDict, h1, assoc, Option.getD_none], h2⟩

theorem renames_unique {from_ to_ : List String} {n a b : String} (ha : Renames from_ to_ n a) (hb : Renames from_ to_ n b) :
    a = b := by
  rcases ha with ⟨i, h1, h2⟩ | ⟨h1, h2⟩ <;> rcases hb with ⟨j, h3, h4⟩ | ⟨h3, h4⟩
  · rcases Nat.lt_trichotomy i j with h | h | h
    · exact absurd h3 (h2 j h b)
    · subst h
      rw [h1] at h3
      simpa using h3
    · exact absurd h1 (h4 i h a)
  · exact absurd (List.mem_of_getElem? h1) (h4 a)
  · exact absurd (List.mem_of_getElem? h3) (h2 b)
  · rw [h1, h3]

theorem mapQName_name (from_ to_ : List String) (q : QName) : NameOf from_ to_ q (mapQName (zipDict from_ to_) q) := by
  refine ⟨rfl, ?_⟩
  cases h : q.ns with
  | none => exact Or.inl ⟨rfl, by simp [mapQName, h]⟩
  | some n => exact Or.inr ⟨n, _, rfl, by simp [mapQName, h], mapNs_renames from_ to_ n⟩

theorem nameOf_eq {from_ to_ : List String} {q q' : QName} (h : NameOf from_ to_ q q') : q' = mapQName (zipDict from_ to_) q := by
  obtain ⟨h1, h2⟩ := h
  obtain ⟨ns', name'⟩ := q'
  rcases h2 with ⟨h2, h3⟩ | ⟨n, n', h2, h3, h4⟩
  · dsimp only at h1 h3
    simp [mapQName, h1, h2, h3]
  · dsimp only at h1 h3
    rw [renames_unique h4 (mapNs_renames from_ to_ n)] at h3
    simp [mapQName, h1, h2, h3]

/-! ## Attributes -/

theorem mem_set_or {as : Attrs} {k : QName} {v : String} {q : QName × String} (h : q ∈ Attrs.set as k v) :
    q ∈ as ∨ q = (k, v) := by
  induction as with
  | nil => exact Or.inr (by simpa [Attrs.set] using h)
  | cons p as ih =>
    obtain ⟨k', v'⟩ := p
    simp only [Attrs.set] at h
    split at h
    · next hk =>
      rcases List.mem_cons.1 h with e | e
      · right; rw [e, hk]
      · exact Or.inl (List.mem_cons_of_mem _ e)
    · rcases List.mem_cons.1 h with e | e
      · exact Or.inl (by rw [e]; exact List.mem_cons_self)
      · rcases ih e with r | r
        · exact Or.inl (List.mem_cons_of_mem _ r)
        · exact Or.inr r

theorem set_holds (as : Attrs) (k : QName) (v : String) : (k, v) ∈ Attrs.set as k v := by
  induction as with
  | nil => simp [Attrs.set]
  | cons p as ih =>
    obtain ⟨k', v'⟩ := p
    simp only [Attrs.set]
    split
    · next hk => subst hk; exact List.mem_cons_self
    · exact List.mem_cons_of_mem _ ih

theorem set_others {as : Attrs} {k : QName} {v : String} {q : QName × String} (h : q ∈ as) (hk : q.1 ≠ k) :
    q ∈ Attrs.set as k v := by
  induction as with
  | nil => cases h
  | cons p as ih =>
    obtain ⟨k', v'⟩ := p
    simp only [Attrs.set]
    split
    · next h' =>
      rcases List.mem_cons.1 h with e | e
      · exact absurd h' (by rw [e] at hk; exact hk)
      · exact List.mem_cons_of_mem _ e
    · rcases List.mem_cons.1 h with e | e
      · rw [e]; exact List.mem_cons_self
      · exact List.mem_cons_of_mem _ (ih e)

theorem attrsNew_mem (m : List (String × String)) : ∀ (as acc : Attrs) (q : QName × String),
    q ∈ as.foldl (fun acc p => Attrs.set acc (mapQName m p.1) p.2) acc →
    q ∈ acc ∨ ∃ p ∈ as, q = (mapQName m p.1, p.2)
  | [], _, _, h => Or.inl h
  | p :: as, acc, q, h => by
    rcases attrsNew_mem m as _ q h with h1 | ⟨p', h1, h2⟩
    · rcases mem_set_or h1 with h2 | h2
      · exact Or.inl h2
      · exact Or.inr ⟨p, List.mem_cons_self, h2⟩
    · exact Or.inr ⟨p', List.mem_cons_of_mem _ h1, h2⟩

theorem mapQName_none {m : List (String × String)} {q : QName} (h : q.ns = none) : mapQName m q = q := by
  obtain ⟨ns, name⟩ := q
  dsimp only at h
  subst h
  rfl

theorem attrsInPlace_mem (m : List (String × String)) : ∀ (as acc : Attrs) (q : QName × String),
    q ∈ as.foldl (fun acc p => match p.1.ns with
      | none => acc
      | some _ => Attrs.set (Attrs.del acc p.1) (mapQName m p.1) p.2) acc →
    (∃ p ∈ as, q = (mapQName m p.1, p.2)) ∨ (q ∈ acc ∧ (q.1.ns ≠ none → ∀ p ∈ as, p.1 ≠ q.1))
  | [], acc, q, h => Or.inr ⟨h, fun _ _ h => by cases h⟩
  | p :: as, acc, q, h => by
    rw [List.foldl_cons] at h
    rcases attrsInPlace_mem m as _ q h with ⟨p', h1, h2⟩ | ⟨h1, h2⟩
    · exact Or.inl ⟨p', List.mem_cons_of_mem _ h1, h2⟩
    · cases hp : p.1.ns with
      | none =>
        rw [hp] at h1
        refine Or.inr ⟨h1, ?_⟩
        intro hn p' hp'
        rcases List.mem_cons.1 hp' with e | e
        · intro e'; rw [← e', e] at hn; exact hn hp
        · exact h2 hn p' e
      | some n =>
        rw [hp] at h1
        rcases mem_set_or h1 with h3 | h3
        · have h4 := List.mem_filter.1 h3
          refine Or.inr ⟨h4.1, ?_⟩
          intro hn p' hp'
          rcases List.mem_cons.1 hp' with e | e
          · intro e'
            have := h4.2
            rw [e] at e'
            simp [e'] at this
          · exact h2 hn p' e
        · exact Or.inl ⟨p, List.mem_cons_self, h3⟩

theorem mapAttrsInPlace_mem {m : List (String × String)} {as : Attrs} {q : QName × String} (h : q ∈ mapAttrsInPlace m as) :
    ∃ p ∈ as, q = (mapQName m p.1, p.2) := by
  rcases attrsInPlace_mem m as as q h with h1 | ⟨h1, h2⟩
  · exact h1
  · by_cases hn : q.1.ns = none
    · exact ⟨q, h1, by rw [mapQName_none hn]⟩
    · exact absurd rfl (h2 hn q h1)

theorem mapAttrsNew_mem {m : List (String × String)} {as : Attrs} {q : QName × String} (h : q ∈ mapAttrsNew m as) :
    ∃ p ∈ as, q = (mapQName m p.1, p.2) := by
  rcases attrsNew_mem m as [] q h with h1 | h1
  · cases h1
  · exact h1

theorem attrsNew_keeps {m : List (String × String)} : ∀ (as acc : Attrs) (q : QName × String),
    (q ∈ acc ∧ ∀ p ∈ as, mapQName m p.1 ≠ q.1) → q ∈ as.foldl (fun acc p => Attrs.set acc (mapQName m p.1) p.2) acc
  | [], _, _, h => h.1
  | p :: as, acc, q, h => by
    rw [List.foldl_cons]
    refine attrsNew_keeps as _ q ⟨?_, fun p' hp' => h.2 p' (List.mem_cons_of_mem _ hp')⟩
    exact set_others h.1 (fun e => h.2 p List.mem_cons_self e.symm)

theorem attrsNew_all {m : List (String × String)} : ∀ (as acc : Attrs), (as.map (·.1)).Nodup →
    (∀ a ∈ as, ∀ b ∈ as, mapQName m a.1 = mapQName m b.1 → a.1 = b.1) → ∀ p ∈ as,
    (mapQName m p.1, p.2) ∈ as.foldl (fun acc p => Attrs.set acc (mapQName m p.1) p.2) acc
  | [], _, _, _, p, hp => by cases hp
  | a :: as, acc, hn, hi, p, hp => by
    rw [List.map_cons, List.nodup_cons] at hn
    rw [List.foldl_cons]
    rcases List.mem_cons.1 hp with e | e
    · subst e
      refine attrsNew_keeps as _ _ ⟨set_holds _ _ _, ?_⟩
      intro b hb hc
      have := hi p List.mem_cons_self b (List.mem_cons_of_mem _ hb) hc.symm
      exact hn.1 (by rw [this]; exact List.mem_map_of_mem hb)
    · exact attrsNew_all as _ hn.2 (fun a ha b hb => hi a (List.mem_cons_of_mem _ ha) b (List.mem_cons_of_mem _ hb)) p e

theorem attrsInPlace_keeps {m : List (String × String)} : ∀ (as acc : Attrs) (q : QName × String),
    (q ∈ acc ∧ ∀ p ∈ as, p.1.ns ≠ none → p.1 ≠ q.1 ∧ mapQName m p.1 ≠ q.1) →
    q ∈ as.foldl (fun acc p => match p.1.ns with
      | none => acc
      | some _ => Attrs.set (Attrs.del acc p.1) (mapQName m p.1) p.2) acc
  | [], _, _, h => h.1
  | p :: as, acc, q, h => by
    rw [List.foldl_cons]
    refine attrsInPlace_keeps as _ q ⟨?_, fun p' hp' => h.2 p' (List.mem_cons_of_mem _ hp')⟩
    cases hp : p.1.ns with
    | none => exact h.1
    | some n =>
      have := h.2 p List.mem_cons_self (by rw [hp]; simp)
      exact set_others (List.mem_filter.2 ⟨h.1, by simpa using fun e : q.1 = p.1 => this.1 e.symm⟩) (fun e => this.2 e.symm)

theorem attrsInPlace_all {m : List (String × String)} {all : Attrs}
    (hi : ∀ a ∈ all, ∀ b ∈ all, mapQName m a.1 = mapQName m b.1 ∨ mapQName m a.1 = b.1 → a.1 = b.1) :
    ∀ (as acc : Attrs), (as.map (·.1)).Nodup → (∀ a ∈ as, a ∈ all) → ∀ p ∈ as, (p.1.ns = none → p ∈ acc) →
    (mapQName m p.1, p.2) ∈ as.foldl (fun acc p => match p.1.ns with
      | none => acc
      | some _ => Attrs.set (Attrs.del acc p.1) (mapQName m p.1) p.2) acc
  | [], _, _, _, p, hp, _ => by cases hp
  | a :: as, acc, hn, hs, p, hp, h0 => by
    rw [List.map_cons, List.nodup_cons] at hn
    rw [List.foldl_cons]
    have hkeep : ∀ acc', (mapQName m p.1, p.2) ∈ acc' → p = a →
        (mapQName m p.1, p.2) ∈ as.foldl (fun acc p => match p.1.ns with
          | none => acc
          | some _ => Attrs.set (Attrs.del acc p.1) (mapQName m p.1) p.2) acc' := by
      intro acc' hacc e
      subst e
      refine attrsInPlace_keeps as _ _ ⟨hacc, ?_⟩
      intro b hb _
      have hne : b.1 ≠ p.1 := fun e => hn.1 (by rw [← e]; exact List.mem_map_of_mem hb)
      have hpa := hs p List.mem_cons_self
      have hba := hs b (List.mem_cons_of_mem _ hb)
      exact ⟨fun e => hne (hi p hpa b hba (Or.inr e.symm)).symm, fun e => hne (hi p hpa b hba (Or.inl e.symm)).symm⟩
    rcases List.mem_cons.1 hp with e | e
    · refine hkeep _ ?_ e
      cases ha : a.1.ns with
      | none =>
        have hpn : p.1.ns = none := by rw [e]; exact ha
        rw [mapQName_none hpn]
        exact h0 hpn
      | some n => rw [e]; exact set_holds _ _ _
    · refine attrsInPlace_all hi as _ hn.2 (fun x hx => hs x (List.mem_cons_of_mem _ hx)) p e ?_
      intro hpn
      have := h0 hpn
      cases ha : a.1.ns with
      | none => exact this
      | some n =>
        have h1 : p.1 ≠ a.1 := fun e' => by rw [← e', hpn] at ha; cases ha
        have h2 : p.1 ≠ mapQName m a.1 := by
          intro e'
          rw [e'] at hpn
          simp [mapQName, ha] at hpn
        exact set_others (List.mem_filter.2 ⟨this, by simpa using h1⟩) h2

/-! ## Schema locations -/

theorem mapEven_spec (from_ to_ : List String) : ∀ ws : List String, (mapEven (zipDict from_ to_) ws).length = ws.length ∧
    ∀ i : Nat, ∀ w w', ws[i]? = some w → (mapEven (zipDict from_ to_) ws)[i]? = some w' →
      if i % 2 = 0 then Renames from_ to_ w w' else w' = w
  | [] => ⟨rfl, fun i w w' h => by simp at h⟩
  | [a] => ⟨rfl, fun i w w' h h' => by
      cases i with
      | zero =>
        simp only [mapEven, List.getElem?_cons_zero, Option.some.injEq] at h h'
        subst h h'
        simpa using mapNs_renames from_ to_ a
      | succ i => simp at h⟩
  | a :: b :: rest => by
    have ih := mapEven_spec from_ to_ rest
    refine ⟨by simp [mapEven, ih.1], ?_⟩
    intro i w w' h h'
    match i with
    | 0 =>
      simp only [mapEven, List.getElem?_cons_zero, Option.some.injEq] at h h'
      subst h h'
      simpa using mapNs_renames from_ to_ a
    | 1 =>
      simp only [mapEven, List.getElem?_cons_succ, List.getElem?_cons_zero, Option.some.injEq] at h h'
      subst h h'
      simp
    | i + 2 =>
      simp only [mapEven, List.getElem?_cons_succ] at h h'
      have := ih.2 i w w' h h'
      have e : (i + 2) % 2 = i % 2 := by omega
      rw [e]
      exact this

/-! ## Elements and documents -/

/-- The condition under which all attributes stay. -/
def CleanFor (m : List (String × String)) (e : Elem) : Prop :=
  (e.attrs.map (·.1)).Nodup ∧ ∀ a ∈ e.attrs, ∀ b ∈ e.attrs, mapQName m a.1 = mapQName m b.1 ∨ mapQName m a.1 = b.1 → a.1 = b.1

/-- What the first pass does to an element. -/
def FirstPass (m : List (String × String)) (env env' : NsMap) (e e' : Elem) : Prop :=
  e'.tag = mapQName m e.tag ∧ e'.text = e.text ∧ e'.tail = e.tail ∧
  (∀ q ∈ e'.attrs, ∃ p ∈ e.attrs, q = (mapQName m p.1, p.2)) ∧
  (CleanFor m e → ∀ p ∈ e.attrs, (mapQName m p.1, p.2) ∈ e'.attrs) ∧
  ∀ p, (NsMap.get? env' p).isSome = (NsMap.get? env p).isSome

theorem nsGet_append (p : Option String) (b : NsMap) : ∀ a : NsMap,
    (NsMap.get? (a ++ b) p).isSome = ((NsMap.get? a p).isSome || (NsMap.get? b p).isSome)
  | [] => by simp [NsMap.get?]
  | (k, v) :: a => by
    have ih := nsGet_append p b a
    simp only [List.cons_append, NsMap.get?]
    split
    · simp
    · exact ih

theorem nsGet_map (f : String → String) (p : Option String) : ∀ a : NsMap,
    (NsMap.get? (a.map (fun x => (x.1, f x.2))) p).isSome = (NsMap.get? a p).isSome
  | [] => rfl
  | (k, v) :: a => by
    have ih := nsGet_map f p a
    simp only [List.map_cons, NsMap.get?]
    split
    · rfl
    · exact ih

theorem updNsElem_first (m : List (String × String)) {env env' : NsMap} (e : Elem)
    (h : ∀ p, (NsMap.get? env' p).isSome = (NsMap.get? env p).isSome) :
    FirstPass m (e.decls ++ env) ((updNsElem m (NsMap.dedup (e.decls ++ env')) e).decls ++ env') e
      (updNsElem m (NsMap.dedup (e.decls ++ env')) e) := by
  simp only [updNsElem]
  split
  · refine ⟨rfl, rfl, rfl, fun q hq => mapAttrsNew_mem hq, ?_, ?_⟩
    · intro hc p hp
      exact attrsNew_all _ _ hc.1 (fun a ha b hb e => hc.2 a ha b hb (Or.inl e)) p hp
    · intro p
      simp only [nsGet_append, nsGet_map, nsMap_dedup, h p]
      cases (NsMap.get? e.decls p).isSome <;> cases (NsMap.get? env p).isSome <;> rfl
  · refine ⟨rfl, rfl, rfl, fun q hq => mapAttrsInPlace_mem hq, ?_, ?_⟩
    · intro hc p hp
      exact attrsInPlace_all hc.2 _ _ hc.1 (fun _ h => h) p hp (fun _ => hp)
    · intro p
      simp only [nsGet_append, h p]

mutual
theorem updNs_first (m : List (String × String)) {env env' : NsMap}
    (h : ∀ p, (NsMap.get? env' p).isSome = (NsMap.get? env p).isSome) : ∀ (t t' : Node), updNs m env' t = .ok t' →
    Like (FirstPass m) env env' t t'
  | .other c s, t', hu => by
    simp only [updNs] at hu
    split at hu
    · cases hu
    · cases hu; rfl
  | .elem e ks, t', hu => by
    simp only [updNs] at hu
    split at hu
    · cases hu
    · next ks' hk =>
      cases hu
      have h1 := updNsElem_first m e h
      exact ⟨_, _, rfl, h1, updNss_first m h1.2.2.2.2.2 ks ks' hk⟩
theorem updNss_first (m : List (String × String)) {env env' : NsMap}
    (h : ∀ p, (NsMap.get? env' p).isSome = (NsMap.get? env p).isSome) : ∀ (ks ks' : List Node), updNss m env' ks = .ok ks' →
    Likes (FirstPass m) env env' ks ks'
  | [], l, hu => by simp only [updNss] at hu; cases hu; rfl
  | k :: ks, l, hu => by
    simp only [updNss] at hu
    split at hu
    · cases hu
    · next k' hk =>
      split at hu
      · cases hu
      · next ks' hks =>
        cases hu
        exact ⟨k', ks', rfl, updNs_first m h k k' hk, updNss_first m h ks ks' hks⟩
end

theorem get?_mem {as : Attrs} {k : QName} {v : String} (h : Attrs.get? as k = some v) : (k, v) ∈ as := by
  induction as with
  | nil => cases h
  | cons p as ih =>
    obtain ⟨k', v'⟩ := p
    simp only [Attrs.get?] at h
    split at h
    · next hk => cases h; subst hk; exact List.mem_cons_self
    · exact List.mem_cons_of_mem _ (ih h)

theorem get?_of_mem {as : Attrs} {a : QName × String} (h : a ∈ as) : Attrs.get? as a.1 ≠ none := by
  induction as with
  | nil => cases h
  | cons p as ih =>
    obtain ⟨k, v⟩ := p
    simp only [Attrs.get?]
    split
    · simp
    · next hk =>
      rcases List.mem_cons.1 h with e | e
      · rw [e] at hk; exact absurd rfl hk
      · exact ih e

theorem value_unique {as : Attrs} (h : (as.map (·.1)).Nodup) {a b : QName × String} (ha : a ∈ as) (hb : b ∈ as) (e : a.1 = b.1) :
    a.2 = b.2 := by
  induction as with
  | nil => cases ha
  | cons p as ih =>
    rw [List.map_cons, List.nodup_cons] at h
    rcases List.mem_cons.1 ha with e1 | h1 <;> rcases List.mem_cons.1 hb with e2 | h2
    · rw [e1, e2]
    · exact absurd (List.mem_map.2 ⟨b, h2, by rw [← e, e1]⟩) h.1
    · exact absurd (List.mem_map.2 ⟨a, h1, by rw [e, e2]⟩) h.1
    · exact ih h.2 h1 h2

theorem updSchemalocElem_second {from_ to_ : List String} {env env' : NsMap} {e e' : Elem}
    (h : FirstPass (zipDict from_ to_) env env' e e') :
    (Retouched from_ to_ env env' e (updSchemalocElem (zipDict from_ to_) e') ∧
      ((e.attrs.map (·.1)).Nodup → NoClash from_ to_ e → AttrsStay from_ to_ e (updSchemalocElem (zipDict from_ to_) e'))) ∧
      (updSchemalocElem (zipDict from_ to_) e').decls = e'.decls := by
  obtain ⟨h1, h2, h3, h4, h5, h6⟩ := h
  have hq : ∀ a' ∈ e'.attrs, ∃ a ∈ e.attrs, NameOf from_ to_ a.1 a'.1 ∧ a'.2 = a.2 := by
    intro a' ha
    obtain ⟨p, hp, e⟩ := h4 a' ha
    refine ⟨p, hp, ?_, by rw [e]⟩
    rw [e]
    exact mapQName_name from_ to_ p.1
  have hc : (e.attrs.map (·.1)).Nodup → NoClash from_ to_ e → CleanFor (zipDict from_ to_) e := by
    intro hn hcl
    refine ⟨hn, ?_⟩
    intro a ha b hb hab
    refine hcl a ha b hb _ (mapQName_name from_ to_ a.1) ?_
    rcases hab with e | e
    · left; rw [e]; exact mapQName_name from_ to_ b.1
    · right; exact e.symm
  have hn : NameOf from_ to_ e.tag e'.tag := by rw [h1]; exact mapQName_name from_ to_ e.tag
  cases hs : e'.get? tagSchemaLoc with
  | none =>
    simp only [updSchemalocElem, hs]
    refine ⟨⟨⟨hn, h2, h3, ?_, h6⟩, ?_⟩, trivial⟩
    · intro a' ha
      obtain ⟨a, h7, h8, h9⟩ := hq a' ha
      exact ⟨a, h7, h8, Or.inl h9⟩
    · intro hd hcl a ha
      have h7 := h5 (hc hd hcl) a ha
      refine ⟨_, h7, mapQName_name from_ to_ a.1, ?_⟩
      rw [if_neg]
      intro hk
      have h8 := get?_of_mem h7
      dsimp only at hk h8
      rw [hk] at h8
      exact h8 hs
  | some v =>
    have hsl : (⟨some "http://www.w3.org/2001/XMLSchema-instance", "schemaLocation"⟩ : QName) = tagSchemaLoc := rfl
    refine ⟨⟨⟨?_, ?_, ?_, ?_, h6⟩, ?_⟩, ?_⟩
    · simp only [updSchemalocElem, hs]; exact hn
    · simp only [updSchemalocElem, hs]; exact h2
    · simp only [updSchemalocElem, hs]; exact h3
    · intro a' ha
      simp only [updSchemalocElem, hs] at ha
      rcases mem_set_or ha with h7 | h7
      · obtain ⟨a, h8, h9, h10⟩ := hq a' h7
        exact ⟨a, h8, h9, Or.inl h10⟩
      · obtain ⟨a, h8, h9, h10⟩ := hq _ (get?_mem hs)
        refine ⟨a, h8, by rw [h7]; exact h9, Or.inr ⟨by rw [h7]; rfl, ?_⟩⟩
        rw [h7, ← h10]
        have hm := mapEven_spec from_ to_ (pySplitWs v)
        exact ⟨_, _, words_pySplitWs v, rfl, hm.1, hm.2⟩
    · intro hd hcl a ha
      have h7 := h5 (hc hd hcl) a ha
      simp only [updSchemalocElem, hs]
      by_cases hk : mapQName (zipDict from_ to_) a.1 = tagSchemaLoc
      · refine ⟨_, set_holds _ _ _, by rw [← hk]; exact mapQName_name from_ to_ a.1, ?_⟩
        refine (if_pos (show (tagSchemaLoc, pyJoin " " (mapEven (zipDict from_ to_) (pySplitWs v))).1 = slName from rfl)).mpr ?_
        obtain ⟨b, h8, h9⟩ := h4 _ (get?_mem hs)
        have h10 : a.2 = v := by
          have h11 := congrArg Prod.fst h9
          have h12 := congrArg Prod.snd h9
          dsimp only at h11 h12
          rw [h12]
          exact value_unique hd ha h8 ((hc hd hcl).2 a ha b h8 (Or.inl (by rw [hk, h11])))
        have hm := mapEven_spec from_ to_ (pySplitWs v)
        exact ⟨_, _, by rw [h10]; exact words_pySplitWs v, rfl, hm.1, hm.2⟩
      · refine ⟨_, set_others h7 hk, mapQName_name from_ to_ a.1, ?_⟩
        exact (if_neg (show ¬ (mapQName (zipDict from_ to_) a.1, a.2).1 = slName from hk)).mpr rfl
    · simp only [updSchemalocElem, hs]; rfl

theorem both_hold {from_ to_ : List String} {t t' : Node} (h : updateFromLists t from_ to_ = .ok t') :
    Like (fun a b e e' => Retouched from_ to_ a b e e' ∧
      ((e.attrs.map (·.1)).Nodup → NoClash from_ to_ e → AttrsStay from_ to_ e e')) [] [] t t' := by
  simp only [updateFromLists] at h
  split at h
  · cases h
  · next t1 h1 =>
    cases h
    exact like_mapPos (fun a b e e' hp => updSchemalocElem_second hp) t t1 (updNs_first _ (fun _ => rfl) t t1 h1)

mutual
theorem like_weaken {P Q : NsMap → NsMap → Elem → Elem → Prop} (h : ∀ a b e e', P a b e e' → Q a b e e') {a b : NsMap} :
    ∀ (t t' : Node), Like P a b t t' → Like Q a b t t'
  | .other _ _, _, hl => hl
  | .elem e ks, t', hl => by
    obtain ⟨e', ks', rfl, h1, h2⟩ := hl
    exact ⟨e', ks', rfl, h _ _ _ _ h1, likes_weaken h ks ks' h2⟩
theorem likes_weaken {P Q : NsMap → NsMap → Elem → Elem → Prop} (h : ∀ a b e e', P a b e e' → Q a b e e') {a b : NsMap} :
    ∀ (ks ks' : List Node), Likes P a b ks ks' → Likes Q a b ks ks'
  | [], _, hl => hl
  | k :: ks, l, hl => by
    obtain ⟨k', ks', rfl, h1, h2⟩ := hl
    exact ⟨k', ks', rfl, like_weaken h k k' h1, likes_weaken h ks ks' h2⟩
end

/-! ## C63 -/

/-- C63: whatever the lists, the script keeps the shape of the document, all texts and comments, all local names and all bound
prefixes; it renames namespaces as the lists say, makes up no attribute, and changes no value besides schema locations. -/
theorem C63_names (t t' : Node) (from_ to_ : List String) (h : updateFromLists t from_ to_ = .ok t') :
    Like (Retouched from_ to_) [] [] t t' :=
  like_weaken (fun _ _ _ _ h => h.1) t t' (both_hold h)

/-- C63, nothing is lost.  Partial: for elements on which no two attributes get the same name. -/
theorem C63_kept_partial (t t' : Node) (from_ to_ : List String) (h : updateFromLists t from_ to_ = .ok t') :
    Like (fun _ _ e e' => (e.attrs.map (·.1)).Nodup → NoClash from_ to_ e → AttrsStay from_ to_ e e') [] [] t t' :=
  like_weaken (fun _ _ _ _ h => h.2) t t' (both_hold h)

/-- Lists with a repeated entry and an entry without partner, and a document that uses both. -/
def docLists : Node :=
  el "urn:a" "r" [(slName, "urn:a a.xsd urn:c"), (⟨some "urn:a", "x"⟩, "urn:a"), at_ "y" "2"]
    [.other "c" (some "t"), el "urn:c" "k" [xsiType "p:T"] [] (some "urn:a")] none [(some "p", "urn:a"), (some "xsi", nsXsi)]

example : ∃ t1, updateFromLists docLists ["urn:a", "urn:b", "urn:a", "urn:c"] ["urn:1", "urn:2", "urn:3"] = .ok t1 ∧
    t1 = el "urn:3" "r" [(slName, "urn:3 a.xsd urn:c"), (⟨some "urn:3", "x"⟩, "urn:a"), at_ "y" "2"]
      [.other "c" (some "t"), el "urn:c" "k" [xsiType "p:T"] [] (some "urn:a")] none [(some "p", "urn:3"), (some "xsi", nsXsi)] :=
  ok_of_eval (by decide +kernel)

theorem noClash_of {from_ to_ : List String} {e : Elem} (h : CleanFor (zipDict from_ to_) e) : NoClash from_ to_ e := by
  intro a ha b hb q h1 h2
  have e1 := nameOf_eq h1
  apply h.2 a ha b hb
  rcases h2 with h2 | h2
  · left; rw [← e1, ← nameOf_eq h2]
  · right; rw [← e1, h2]

/-- The root of the sample has three attributes and none of them gets in the way of another. -/
example : (docLists.elems.map (fun c => c.e.attrs.length) = [3, 1]) ∧
    ∀ c ∈ docLists.elems, (c.e.attrs.map (·.1)).Nodup ∧
      NoClash ["urn:a", "urn:b", "urn:a", "urn:c"] ["urn:1", "urn:2", "urn:3"] c.e := by
  have h : ∀ c ∈ docLists.elems, (c.e.attrs.map (·.1)).Nodup ∧
      CleanFor (zipDict ["urn:a", "urn:b", "urn:a", "urn:c"] ["urn:1", "urn:2", "urn:3"]) c.e := by
    unfold CleanFor
    decide +kernel
  exact ⟨by decide +kernel, fun c hc => ⟨(h c hc).1, noClash_of (h c hc).2⟩⟩

/-- Two attributes that differ in the namespace only. -/
def docClash : Node :=
  el "urn:r" "r" [(⟨some "urn:a", "x"⟩, "1"), (⟨some "urn:b", "x"⟩, "2")] [] none [(some "a", "urn:a"), (some "b", "urn:b")]

/-- C63 fails when two attributes get the same name: one value is lost. -/
theorem C63_clash_fails : ∃ t', updateFromLists docClash ["urn:a"] ["urn:b"] = .ok t' ∧
    t'.elems.map (fun c => c.e.attrs) = [[(⟨some "urn:b", "x"⟩, "2")]] :=
  ok_of_eval (by decide +kernel)

/-! ## Whole runs -/

/-- A whole run of the script: the lists are read, the names replaced, and the version of the root set when the target is one
of the two known releases and the root has a version; nothing else. -/
theorem C63_main (file : String → List String) (t t' : Node) (fromId toId : String)
    (h : updateNsMain file t fromId toId = .ok t') :
    ∃ t1, updateFromLists t (getNamespaceList file fromId) (getNamespaceList file toId) = .ok t1 ∧
      (t' = t1 ∨ ∃ e ks v, t1 = .elem e ks ∧ e.get? (.plain "version") ≠ none ∧ t' = .elem (e.set (.plain "version") v) ks ∧
        ((toId = "stix1.2" ∧ v = "1.2") ∨ (toId = "stix1.2.1" ∧ v = "1.2.1"))) := by
  simp only [updateNsMain] at h
  split at h
  · cases h
  · next t1 h1 =>
    cases h
    refine ⟨t1, h1, ?_⟩
    have hv : ∀ v, specialVersion v t1 = t1 ∨ ∃ e ks, t1 = .elem e ks ∧ e.get? (.plain "version") ≠ none ∧
        specialVersion v t1 = .elem (e.set (.plain "version") v) ks := by
      intro v
      cases t1 with
      | other c s => exact Or.inl rfl
      | elem e ks =>
        simp only [specialVersion]
        split
        · next hh =>
          refine Or.inr ⟨e, ks, rfl, ?_, rfl⟩
          intro hn
          simp only [Elem.has, Attrs.has, ← Elem.get?.eq_def] at hh
          rw [hn] at hh
          cases hh
        · exact Or.inl rfl
    simp only [specialCaseVersionUpdate]
    split
    · next hi =>
      rcases hv "1.2" with e | ⟨e, ks, h2, h3, h4⟩
      · exact Or.inl e
      · exact Or.inr ⟨e, ks, _, h2, h3, h4, Or.inl ⟨hi, rfl⟩⟩
    · split
      · next hi =>
        rcases hv "1.2.1" with e | ⟨e, ks, h2, h3, h4⟩
        · exact Or.inl e
        · exact Or.inr ⟨e, ks, _, h2, h3, h4, Or.inr ⟨hi, rfl⟩⟩
      · exact Or.inl rfl

example : ∃ t', updateNsMain (fun _ => []) docTyped "stix1.2" "stix1.2.1" = .ok t' ∧
    rootAttr t' (.plain "version") = some "1.2.1" := ok_of_eval (by decide +kernel)

/-- A word with neither white space at its ends nor a number sign in front. -/
def Entry (w : List Char) : Prop :=
  (∃ c, w.head? = some c ∧ isSpace c = false ∧ c ≠ '#') ∧ ∃ c, w.getLast? = some c ∧ isSpace c = false

theorem dropWhile_split (p : Char → Bool) (l : List Char) : ∃ a, l = a ++ l.dropWhile p ∧ ∀ c ∈ a, p c = true := by
  refine ⟨l.takeWhile p, (List.takeWhile_append_dropWhile).symm, ?_⟩
  intro c hc
  induction l with
  | nil => cases hc
  | cons d l ih =>
    rw [List.takeWhile_cons] at hc
    split at hc
    · next hd =>
      rcases List.mem_cons.1 hc with e | e
      · rw [e]; exact hd
      · exact ih e
    · cases hc

theorem dropWhile_head {p : Char → Bool} {l : List Char} {c : Char} (h : (l.dropWhile p).head? = some c) : p c = false := by
  induction l with
  | nil => cases h
  | cons d l ih =>
    rw [List.dropWhile_cons] at h
    split at h
    · exact ih h
    · next hd => simp at h; subst h; simpa using hd

theorem dropWhile_all {p : Char → Bool} {a b : List Char} (h : ∀ c ∈ a, p c = true) :
    (a ++ b).dropWhile p = b.dropWhile p := by
  induction a with
  | nil => rfl
  | cons d a ih =>
    rw [List.cons_append, List.dropWhile_cons, if_pos (h d List.mem_cons_self)]
    exact ih (fun c hc => h c (List.mem_cons_of_mem _ hc))

theorem dropWhile_stop {p : Char → Bool} {b : List Char} {c : Char} (h : b.head? = some c) (hc : p c = false) :
    b.dropWhile p = b := by
  cases b with
  | nil => cases h
  | cons d b => simp at h; subst h; rw [List.dropWhile_cons, if_neg (by simp [hc])]

/-- A line of a namespace file gives an entry exactly when it is the entry between white space. -/
theorem nsLine_spec (line u : String) : nsLine line = some u ↔
    Entry u.toList ∧ ∃ a b : List Char, line.toList = a ++ u.toList ++ b ∧ (∀ c ∈ a, isSpace c = true) ∧ ∀ c ∈ b, isSpace c = true := by
  constructor
  · intro h
    simp only [nsLine, String.toList_ofList] at h
    obtain ⟨a, ha, ha'⟩ := dropWhile_split isSpace line.toList
    obtain ⟨b, hb, hb'⟩ := dropWhile_split isSpace (line.toList.dropWhile isSpace).reverse
    have hsplit : line.toList.dropWhile isSpace = ((line.toList.dropWhile isSpace).reverse.dropWhile isSpace).reverse ++ b.reverse := by
      have := congrArg List.reverse hb
      rw [List.reverse_reverse, List.reverse_append] at this
      exact this
    split at h
    · cases h
    · next c cs hc =>
      split at h
      · cases h
      · next hsharp =>
        cases h
        rw [String.toList_ofList]
        refine ⟨⟨⟨c, by rw [hc]; rfl, ?_, by simpa using hsharp⟩, ?_⟩, a, b.reverse, ?_, ha', ?_⟩
        · apply dropWhile_head (p := isSpace) (l := line.toList)
          rw [hsplit, hc]
          rfl
        · cases hl : (line.toList.dropWhile isSpace).reverse.dropWhile isSpace with
          | nil => rw [hl] at hc; simp at hc
          | cons d ds =>
            refine ⟨d, by simp, ?_⟩
            apply dropWhile_head (p := isSpace) (l := (line.toList.dropWhile isSpace).reverse)
            rw [hl]; rfl
        · rw [List.append_assoc, ← hsplit]; exact ha
        · intro x hx
          exact hb' x (List.mem_reverse.1 hx)
  · rintro ⟨⟨⟨c, h1, h2, h3⟩, d, h4, h5⟩, a, b, h6, h7, h8⟩
    have e1 : line.toList.dropWhile isSpace = u.toList ++ b := by
      rw [h6, List.append_assoc, dropWhile_all h7]
      apply dropWhile_stop (c := c)
      · cases hu : u.toList with
        | nil => rw [hu] at h1; cases h1
        | cons x xs => rw [hu] at h1; simpa using h1
      · exact h2
    have e2 : (line.toList.dropWhile isSpace).reverse.dropWhile isSpace = u.toList.reverse := by
      rw [e1, List.reverse_append, dropWhile_all (fun x hx => h8 x (List.mem_reverse.1 hx))]
      apply dropWhile_stop (c := d)
      · rw [List.head?_reverse]; exact h4
      · exact h5
    simp only [nsLine, String.toList_ofList, e2, List.reverse_reverse]
    cases hu : u.toList with
    | nil => rw [hu] at h1; cases h1
    | cons x xs =>
      rw [hu] at h1
      simp at h1
      subst h1
      dsimp only
      rw [if_neg (by simpa using h3), ← hu, String.ofList_toList]

/-- C63, reading a list: a file that is not the name of a known release gives, line by line and in order, its entries; blank
lines and lines that start with a number sign are left out. -/
theorem C63_file (file : String → List String) (id_ : String) (h1 : id_ ≠ "stix1.2") (h2 : id_ ≠ "stix1.2.1") :
    ∃ pick : String → Option String, getNamespaceList file id_ = (file id_).filterMap pick ∧
      ∀ line u, pick line = some u ↔ Entry u.toList ∧
        ∃ a b : List Char, line.toList = a ++ u.toList ++ b ∧ (∀ c ∈ a, isSpace c = true) ∧ ∀ c ∈ b, isSpace c = true :=
  ⟨nsLine, by simp [getNamespaceList, h1, h2], nsLine_spec⟩

example : getNamespaceList (fun _ => ["# old names\n", " urn:a \n", "\n", "urn:b # c"]) "old.txt" = ["urn:a", "urn:b # c"] := by
  decide +kernel

end Ramrod

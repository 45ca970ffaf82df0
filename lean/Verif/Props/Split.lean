import Verif.Lemmas.Parts
import Verif.Props.Fields
import Verif.Props.Untrans
import Verif.Samples
/-!
# C52: an unforced update works on each child of the root by itself
-/

namespace Ramrod

/-! ## Specification -/

mutual
/-- The ids written on a node and on everything inside it. -/
def Node.idsIn : Node → List String
  | .elem e ks => (match e.get? (.plain "id") with | some i => [i] | none => []) ++ idsInside ks
  | .other _ _ => []
/-- The ids written on some nodes and on everything inside them. -/
def idsInside : List Node → List String
  | [] => []
  | n :: ns => n.idsIn ++ idsInside ns
end

/-- The root of a document without its text: name, declarations and attributes. -/
def Node.head? : Node → Option (QName × NsMap × Attrs)
  | .elem e _ => some (e.tag, e.decls, e.attrs)
  | .other _ _ => none

/-! ## Ids -/

mutual
theorem walk_ids {i : String} (pos : Pos) (env : NsMap) (anc : List QName) : ∀ (t : Node), ∀ c ∈ t.walk pos env anc,
    c.e.get? attrId = some i → i ∈ t.idsIn
  | .other _ _, c, hc, h => by simp [Node.walk] at hc
  | .elem e ks, c, hc, h => by
    simp only [Node.walk, List.mem_cons] at hc
    simp only [Node.idsIn, List.mem_append]
    rcases hc with rfl | hc
    · left
      have h : e.get? (.plain "id") = some i := h
      simp [h]
    · exact Or.inr (walks_ids _ _ _ _ ks c hc h)
theorem walks_ids {i : String} (pos : Pos) (j : Nat) (env : NsMap) (anc : List QName) : ∀ (ks : List Node),
    ∀ c ∈ Node.walks pos j env anc ks, c.e.get? attrId = some i → i ∈ idsInside ks
  | [], c, hc, h => by simp [Node.walks] at hc
  | k :: ks, c, hc, h => by
    simp only [Node.walks, List.mem_append] at hc
    simp only [idsInside, List.mem_append]
    rcases hc with hc | hc
    · exact Or.inl (walk_ids _ _ _ k c hc h)
    · exact Or.inr (walks_ids _ _ _ _ ks c hc h)
end

theorem noId_of {e : Elem} {ks : List Node} {i : String} (h : i ∉ idsInside ks) : NoId i (.elem e ks) := by
  intro c hc hi
  rw [descs_elem] at hc
  exact h (walks_ids _ _ _ _ ks c hc hi)

theorem idsApart_of {e : Elem} {ks ls : List Node} (h : ∀ i ∈ idsInside ks, i ∉ idsInside ls) :
    IdsApart (.elem e ks) (.elem e ls) := by
  intro i
  by_cases hi : i ∈ idsInside ks
  · exact Or.inr (noId_of (h i hi))
  · exact Or.inl (noId_of hi)

theorem mem_idsInside {i : String} : ∀ {ks : List Node}, i ∈ idsInside ks → ∃ m ∈ ks, i ∈ m.idsIn
  | [], h => by simp [idsInside] at h
  | k :: ks, h => by
    simp only [idsInside, List.mem_append] at h
    rcases h with h | h
    · exact ⟨k, by simp, h⟩
    · obtain ⟨m, h1, h2⟩ := mem_idsInside h
      exact ⟨m, by simp [h1], h2⟩

/-! ## Documents sharing a root -/

theorem inForce_some (to_ : Option String) (d : String) : ∃ g, inForce to_ (some d) = some g := by
  unfold inForce
  split
  · exact ⟨_, rfl⟩
  · exact ⟨_, rfl⟩
  · exact ⟨_, rfl⟩

/-- Whether and how a run starts depends on the root alone. -/
theorem stix_start {w : World} {e : Elem} {from_ to_ : Option String} {o : Options} {k : Nat} {ks : List Node}
    {r : Result × Nat} (he : e.tag = packageTag) (h : update w (.elem e ks) from_ to_ o false k = .ok r) :
    ∃ s ∈ stixReleases, ∃ g ∈ stixReleases, ∀ ls, update w (.elem e ls) from_ to_ o false k =
      (plainRun (stixUpdaters w) o (between stixReleases s g) (.elem e ls)).map (fun d => (⟨d, [], []⟩, k)) := by
  have hn : e.tag.name = "STIX_Package" := by rw [he]; rfl
  rw [(C01_dispatch w e ks from_ to_ o false k).1 hn] at h
  obtain ⟨g, hg⟩ := inForce_some to_ "1.2.1"
  obtain ⟨s, hs, hold⟩ := stix_ok_range hg h
  refine ⟨s, (older_mem hold).1, g, (older_mem hold).2, fun ls => ?_⟩
  rw [(C01_dispatch w e ls from_ to_ o false k).1 hn, stixUpdate_accepted w (.elem e ls) o false k hs hg hold, chainLoop_plain]

theorem cybox_start {w : World} {e : Elem} {from_ to_ : Option String} {o : Options} {k : Nat} {ks : List Node}
    {r : Result × Nat} (he : e.tag.name = "Observables") (h : update w (.elem e ks) from_ to_ o false k = .ok r) :
    ∃ s ∈ cyboxReleases, ∃ g ∈ cyboxReleases, ∀ ls, update w (.elem e ls) from_ to_ o false k =
      (plainRun cyboxUpdaters o (between cyboxReleases s g) (.elem e ls)).map (fun d => (⟨d, [], []⟩, k)) := by
  rw [(C01_dispatch w e ks from_ to_ o false k).2.1 he] at h
  obtain ⟨g, hg⟩ := inForce_some to_ "2.1"
  obtain ⟨s, hs, hold⟩ := cybox_ok_range hg h
  refine ⟨s, (older_mem hold).1, g, (older_mem hold).2, fun ls => ?_⟩
  rw [(C01_dispatch w e ls from_ to_ o false k).2.1 he, cyboxUpdate_accepted (.elem e ls) o false k hs hg hold, chainLoop_plain]

theorem parts_of (e : Elem) (ks ls : List Node) : Parts ks.length (.elem e (ks ++ ls)) (.elem e ks) (.elem e ls) :=
  ⟨e, e, e, ks, ls, rfl, rfl, rfl, rfl, SameHead.rfl, SameHead.rfl⟩

theorem parts_out {n : Nat} {t a b : Node} (h : Parts n t a b) :
    t.kids = a.kids ++ b.kids ∧ a.head? = t.head? ∧ b.head? = t.head? := by
  obtain ⟨e, ea, eb, ks, ls, rfl, rfl, rfl, rfl, ⟨a1, a2, a3⟩, ⟨b1, b2, b3⟩⟩ := h
  simp only [Node.kids, Node.head?, a1, a2, a3, b1, b2, b3, and_self]

theorem map_ok {α β : Type} {x : Except Err α} {f : α → β} {y : β} (h : x.map f = .ok y) : ∃ a, x = .ok a ∧ y = f a := by
  cases x with
  | error z => cases h
  | ok a => cases h; exact ⟨a, rfl, rfl⟩

/-- C52: the children of the root are updated independently of each other.  When an unforced update of a document
succeeds, then so does the update of the document cut in two below the root (both halves keep the root), and the children in
the result are those in the first result followed by those in the second; the root gets the same name, declarations and
attributes in all three. -/
theorem C52_split (w : World) (e : Elem) (ks ls : List Node) (from_ to_ : Option String) (o : Options) (k : Nat)
    (he : e.tag = packageTag ∨ e.tag.name = "Observables") (r : Result) (k' : Nat)
    (h : update w (.elem e (ks ++ ls)) from_ to_ o false k = .ok (r, k')) :
    ∃ r1 r2, update w (.elem e ks) from_ to_ o false k = .ok (r1, k) ∧
      update w (.elem e ls) from_ to_ o false k = .ok (r2, k) ∧
      r.doc.kids = r1.doc.kids ++ r2.doc.kids ∧ r1.doc.head? = r.doc.head? ∧ r2.doc.head? = r.doc.head? := by
  rcases he with he | he
  · obtain ⟨s, hs, g, hg, H⟩ := stix_start he h
    rw [H] at h
    obtain ⟨d, hd, hr⟩ := map_ok h
    obtain ⟨n, a, b, ha, hb, hp⟩ := (stix_run_parts w o hs hg (parts_of e ks ls) ⟨e, rfl, he⟩).1 d hd
    cases hr
    rw [H, H, ha, hb]
    exact ⟨_, _, rfl, rfl, parts_out hp⟩
  · obtain ⟨s, hs, g, hg, H⟩ := cybox_start he h
    rw [H] at h
    obtain ⟨d, hd, hr⟩ := map_ok h
    obtain ⟨n, a, b, ha, hb, hp⟩ := (cybox_run_parts o hs hg (parts_of e ks ls)).1 d hd
    cases hr
    rw [H, H, ha, hb]
    exact ⟨_, _, rfl, rfl, parts_out hp⟩

/-- C52: conversely, when both halves can be updated and no id is written in both, the whole can be updated. -/
theorem C52_join (w : World) (e : Elem) (ks ls : List Node) (from_ to_ : Option String) (o : Options) (k : Nat)
    (he : e.tag = packageTag ∨ e.tag.name = "Observables") (r1 r2 : Result) (k1 k2 : Nat)
    (h1 : update w (.elem e ks) from_ to_ o false k = .ok (r1, k1))
    (h2 : update w (.elem e ls) from_ to_ o false k = .ok (r2, k2)) (hi : ∀ i ∈ idsInside ks, i ∉ idsInside ls) :
    ∃ r, update w (.elem e (ks ++ ls)) from_ to_ o false k = .ok (r, k) := by
  rcases he with he | he
  · obtain ⟨s, hs, g, hg, H⟩ := stix_start he h1
    rw [H] at h1 h2
    obtain ⟨a, ha, _⟩ := map_ok h1
    obtain ⟨b, hb, _⟩ := map_ok h2
    obtain ⟨d, hd⟩ := (stix_run_parts w o hs hg (parts_of e ks ls) ⟨e, rfl, he⟩).2 a b ha hb (idsApart_of hi)
    rw [H, hd]
    exact ⟨_, rfl⟩
  · obtain ⟨s, hs, g, hg, H⟩ := cybox_start he h1
    rw [H] at h1 h2
    obtain ⟨a, ha, _⟩ := map_ok h1
    obtain ⟨b, hb, _⟩ := map_ok h2
    obtain ⟨d, hd⟩ := (cybox_run_parts o hs hg (parts_of e ks ls)).2 a b ha hb (idsApart_of hi)
    rw [H, hd]
    exact ⟨_, rfl⟩

theorem flatMap_eq {α β : Type} {f g : α → List β} : ∀ {l : List α}, (∀ x ∈ l, f x = g x) → l.flatMap f = l.flatMap g
  | [], _ => rfl
  | x :: l, h => by
    rw [List.flatMap_cons, List.flatMap_cons, h x (by simp), flatMap_eq (fun y hy => h y (by simp [hy]))]

/-- C52: child by child.  When an unforced update of a document succeeds, every child can be updated alone below the same
root, and the children in the result are, in order, what these separate updates give. -/
theorem C52_each (w : World) (e : Elem) (from_ to_ : Option String) (o : Options) (k : Nat)
    (he : e.tag = packageTag ∨ e.tag.name = "Observables") : ∀ (ks : List Node) (r : Result) (k' : Nat),
    update w (.elem e ks) from_ to_ o false k = .ok (r, k') →
    ∃ f : Node → Node, (∀ m ∈ ks, ∃ r1, update w (.elem e [m]) from_ to_ o false k = .ok (r1, k) ∧ r1.doc = f m) ∧
      r.doc.kids = ks.flatMap (fun m => (f m).kids)
  | [], r, k', h => by
    refine ⟨id, by simp, ?_⟩
    obtain ⟨r1, r2, h1, h2, h3, _⟩ := C52_split w e [] [] from_ to_ o k he r k' h
    rw [h] at h1 h2
    cases h1; cases h2
    have := congrArg List.length h3
    rw [List.length_append] at this
    simp only [List.flatMap_nil]
    exact List.length_eq_zero_iff.1 (by omega)
  | m :: ks, r, k', h => by
    obtain ⟨r1, r2, h1, h2, h3, _⟩ := C52_split w e [m] ks from_ to_ o k he r k' h
    obtain ⟨f, hf, hk⟩ := C52_each w e from_ to_ o k he ks r2 k h2
    refine ⟨fun x => if x = m then r1.doc else f x, ?_, ?_⟩
    · intro x hx
      by_cases hxm : x = m
      · subst hxm
        exact ⟨r1, h1, by simp⟩
      · simp only [List.mem_cons, hxm, false_or] at hx
        simp only [hxm, if_false]
        exact hf x hx
    · rw [h3, hk, List.flatMap_cons]
      simp only [if_true]
      congr 1
      refine flatMap_eq (fun x hx => ?_)
      by_cases hxm : x = m
      · subst hxm
        obtain ⟨r3, h4, h5⟩ := hf x hx
        rw [h1] at h4
        cases h4
        simp [h5]
      · simp [hxm]

/-- C52: and when every child can be updated alone and no two of them write the same id, the document can be updated. -/
theorem C52_assemble (w : World) (e : Elem) (from_ to_ : Option String) (o : Options) (k : Nat)
    (he : e.tag = packageTag ∨ e.tag.name = "Observables") : ∀ (ks : List Node), ks ≠ [] →
    (∀ m ∈ ks, ∃ r1 k1, update w (.elem e [m]) from_ to_ o false k = .ok (r1, k1)) →
    ks.Pairwise (fun a b => ∀ i ∈ a.idsIn, i ∉ b.idsIn) →
    ∃ r, update w (.elem e ks) from_ to_ o false k = .ok (r, k)
  | [], h, _, _ => absurd rfl h
  | [m], _, h, _ => by
    obtain ⟨r1, k1, h1⟩ := h m (by simp)
    obtain ⟨r2, _, h2, _⟩ := C52_split w e [m] [] from_ to_ o k he r1 k1 h1
    exact ⟨r2, h2⟩
  | m :: m' :: ks, _, h, hp => by
    obtain ⟨r1, k1, h1⟩ := h m (by simp)
    rw [List.pairwise_cons] at hp
    obtain ⟨r2, h2⟩ := C52_assemble w e from_ to_ o k he (m' :: ks) (by simp) (fun x hx => h x (by simp [List.mem_cons.1 hx])) hp.2
    refine C52_join w e [m] (m' :: ks) from_ to_ o k he r1 r2 k1 k h1 h2 ?_
    intro i hi hj
    simp only [idsInside, List.append_nil] at hi
    obtain ⟨x, hx, hxi⟩ := mem_idsInside (show i ∈ idsInside (m' :: ks) from hj)
    exact hp.1 x hx i hi hxi

/-- C52: the order of the children does not matter.  When no two children of the root write the same id, a document whose
children are rearranged can be updated when the original can (so also the other way round), and the children of its result are
rearranged alike. -/
theorem C52_order (w : World) (e : Elem) (from_ to_ : Option String) (o : Options) (k : Nat)
    (he : e.tag = packageTag ∨ e.tag.name = "Observables") (ks ls : List Node) (hp : ks.Perm ls)
    (hi : ks.Pairwise (fun a b => ∀ i ∈ a.idsIn, i ∉ b.idsIn)) (r : Result) (k' : Nat)
    (h : update w (.elem e ks) from_ to_ o false k = .ok (r, k')) :
    ∃ r' f, update w (.elem e ls) from_ to_ o false k = .ok (r', k) ∧ r.doc.kids = ks.flatMap f ∧ r'.doc.kids = ls.flatMap f ∧
      r'.doc.kids.Perm r.doc.kids := by
  obtain ⟨f, hf, hk⟩ := C52_each w e from_ to_ o k he ks r k' h
  have hi' : ls.Pairwise (fun a b => ∀ i ∈ a.idsIn, i ∉ b.idsIn) :=
    (hp.pairwise_iff (fun {a b} hab i hb ha => hab i ha hb)).1 hi
  have hr : ∃ r', update w (.elem e ls) from_ to_ o false k = .ok (r', k) := by
    cases hl : ls with
    | nil =>
      subst hl
      obtain rfl := hp.eq_nil
      obtain ⟨r1, _, h1, _⟩ := C52_split w e [] [] from_ to_ o k he r k' h
      exact ⟨r1, h1⟩
    | cons a as =>
      rw [← hl]
      refine C52_assemble w e from_ to_ o k he ls (by simp [hl]) (fun m hm => ?_) hi'
      obtain ⟨r1, h1, _⟩ := hf m (hp.mem_iff.2 hm)
      exact ⟨r1, k, h1⟩
  obtain ⟨r', hr'⟩ := hr
  obtain ⟨g, hg, hk'⟩ := C52_each w e from_ to_ o k he ls r' k hr'
  have hgf : ls.flatMap (fun m => (g m).kids) = ls.flatMap (fun m => (f m).kids) := by
    refine flatMap_eq (fun m hm => ?_)
    obtain ⟨r1, h1, e1⟩ := hf m (hp.mem_iff.2 hm)
    obtain ⟨r2, h2, e2⟩ := hg m hm
    cases h1.symm.trans h2
    rw [← e1, ← e2]
  refine ⟨r', fun m => (f m).kids, hr', hk, hk'.trans hgf, ?_⟩
  rw [hk', hgf, hk]
  exact hp.symm.flatMap_right _

/-! ## Concrete cases -/

namespace Samples

/-- An incident with an outdated term. -/
def partIncident (i : String) : Node :=
  el nsStix "Incident" [at_ "version" "1.0.1", at_ "id" i]
    [el "http://stix.mitre.org/Incident-1" "Discovery_Method" [xsiType "stixVocabs:DiscoveryMethodVocab-1.0"] []
      (some "Fraud Detection")]

/-- A 1.0.1 package with the given children. -/
def partDoc (ks : List Node) : Node := stixDoc "1.0.1" ks

/-- The children of a result. -/
def kidsOf (x : Except Err (Result × Nat)) : Option (List Node) := match x with | .ok r => some r.1.doc.kids | .error _ => none

/-- Two incidents and a comment: the update changes both incidents, and the whole is put together from the halves. -/
example :
    (match update w0 (partDoc ([partIncident "a", .other "c" none] ++ [partIncident "b"])) none none o0 false 0 with
      | .ok x => decide (x.1.doc.kids.length = 3 ∧ x.1.doc.kids ≠ [partIncident "a", .other "c" none, partIncident "b"] ∧
          (kidsOf (update w0 (partDoc [partIncident "a", .other "c" none]) none none o0 false 0)).map List.length = some 2 ∧
          (kidsOf (update w0 (partDoc [partIncident "b"]) none none o0 false 0)).map List.length = some 1)
      | .error _ => false) = true := by decide +kernel

/-- Without the condition on ids the whole can be refused although both halves are accepted. -/
example : (∃ r, update w0 (partDoc [partIncident "a"]) none none o0 false 0 = .ok r ∧ True) ∧
    (∃ x, update w0 (partDoc ([partIncident "a"] ++ [partIncident "a"])) none none o0 false 0 = .error x ∧ true = true) ∧
    ¬ (∀ i ∈ idsInside [partIncident "a"], i ∉ idsInside [partIncident "a"]) :=
  ⟨ok_of_eval (by decide +kernel), err_of_eval (P := fun _ => true) (by decide +kernel), by decide +kernel⟩

/-- The ids of the two incidents differ. -/
example : [partIncident "a", .other "c" none, partIncident "b"].Pairwise (fun a b => ∀ i ∈ a.idsIn, i ∉ b.idsIn) ∧
    idsInside [partIncident "a", .other "c" none, partIncident "b"] = ["a", "b"] := by decide +kernel

/-- The same children in another order. -/
example : [partIncident "a", .other "c" none, partIncident "b"].Perm [.other "c" none, partIncident "a", partIncident "b"] ∧
    (kidsOf (update w0 (partDoc [.other "c" none, partIncident "a", partIncident "b"]) none none o0 false 0)).map List.length = some 3 :=
  ⟨List.Perm.swap _ _ _, by decide +kernel⟩

/-- A CybOX document with two observables. -/
example :
    (match update w0 (cyboxDoc v20 ([el nsCyboxCore "Observable" [at_ "id" "a"]] ++ [el nsCyboxCore "Observable" [at_ "id" "b"]]))
        none none o0 false 0 with
      | .ok x => decide (x.1.doc.kids.length = 2 ∧
          kidsOf (update w0 (cyboxDoc v20 [el nsCyboxCore "Observable" [at_ "id" "a"]]) none none o0 false 0) ≠ none ∧
          kidsOf (update w0 (cyboxDoc v20 [el nsCyboxCore "Observable" [at_ "id" "b"]]) none none o0 false 0) ≠ none)
      | .error _ => false) = true := by decide +kernel

end Samples

end Ramrod

import Verif.Lemmas.Fresh
import Verif.Samples
/-!
# C62: the vocabulary option changes vocabulary values only
-/

namespace Ramrod

open Samples
open Fresh (newest corrections)

/-- Two words that are equal, or become equal when the listed words are replaced. -/
def Variant (table : List (String × String)) (a b : String) : Prop :=
  ∃ c, (a = c ∨ (a, c) ∈ table) ∧ (b = c ∨ (b, c) ∈ table)

/-- Values of an attribute that differ at most as versions of one vocabulary do: types with the same prefix, and the name and
the address of the vocabulary. -/
def ValueAgrees (k : QName) (a b : String) : Prop :=
  a = b ∨
  (k = ⟨some "http://www.w3.org/2001/XMLSchema-instance", "type"⟩ ∧
    ∃ p x y, a = p ++ ":" ++ x ∧ b = p ++ ":" ++ y ∧ Variant newest x y) ∨
  k = ⟨none, "vocab_name"⟩ ∨ k = ⟨none, "vocab_reference"⟩

/-- The same attributes in the same order, with values that agree. -/
def AttrsAgree : Attrs → Attrs → Prop
  | [], [] => True
  | (k, a) :: as, (l, b) :: bs => k = l ∧ ValueAgrees k a b ∧ AttrsAgree as bs
  | _, _ => False

/-- The same text, or two spellings of a term. -/
def TextAgrees : Option String → Option String → Prop
  | none, none => True
  | some a, some b => Variant corrections a b
  | _, _ => False

mutual
/-- Two documents that are equal except for the versions and terms of vocabularies. -/
def Agree : Node → Node → Prop
  | .elem e ks, .elem f ls => e.tag = f.tag ∧ e.decls = f.decls ∧ e.tail = f.tail ∧ AttrsAgree e.attrs f.attrs ∧
      TextAgrees e.text f.text ∧ AgreeAll ks ls
  | .other c s, .other d t => c = d ∧ s = t
  | _, _ => False
/-- Lists of such nodes. -/
def AgreeAll : List Node → List Node → Prop
  | [], [] => True
  | k :: ks, l :: ls => Agree k l ∧ AgreeAll ks ls
  | _, _ => False
end

/-- The verdict on a date does not depend on vocabulary terms. -/
def DatesAlike (w : World) : Prop := ∀ a b, Agree a b → w.validDateTime a = w.validDateTime b

/-! ## From the masks of Lemmas/Fresh -/

theorem last_or (table : List (String × String)) (s : String) :
    s = Fresh.last table s ∨ (s, Fresh.last table s) ∈ table := by
  simp only [Fresh.last]
  cases h : assoc table s with
  | none => exact Or.inl rfl
  | some v => exact Or.inr (Fresh.assoc_mem_pair h)

theorem variant_of_last {table : List (String × String)} {a b : String} (h : Fresh.last table a = Fresh.last table b) :
    Variant table a b :=
  ⟨Fresh.last table a, last_or table a, by rw [h]; exact last_or table b⟩

theorem variant_last (table : List (String × String)) (a : String) : Variant table (Fresh.last table a) a :=
  ⟨Fresh.last table a, Or.inl rfl, last_or table a⟩

theorem takeWhile_colon (l : List Char) : ∀ c ∈ l.takeWhile (fun c => c != ':'), c ≠ ':' := by
  intro c hc h
  subst h
  induction l with
  | nil => simp at hc
  | cons d l ih =>
    rw [List.takeWhile_cons] at hc
    split at hc
    · next hd =>
      rcases List.mem_cons.1 hc with e | e
      · subst e; simp at hd
      · exact ih e
    · simp at hc

/-- An `xsi:type` value has no prefix and stays, or is cut at its first colon. -/
theorem type_cases (v : String) :
    (Fresh.type v = v ∧ ':' ∉ v.toList) ∨
    ∃ p n, v = p ++ ":" ++ n ∧ ':' ∉ p.toList ∧ Fresh.type v = p ++ ":" ++ Fresh.last newest n := by
  cases h : v.toList.dropWhile (fun c => c != ':') with
  | nil =>
    left
    refine ⟨by simp only [Fresh.type, h], ?_⟩
    intro hm
    have e : v.toList.takeWhile (fun c => c != ':') = v.toList := by
      have := List.takeWhile_append_dropWhile (p := fun c => c != ':') (l := v.toList)
      rw [h, List.append_nil] at this
      exact this
    rw [← e] at hm
    exact takeWhile_colon _ _ hm rfl
  | cons c n =>
    right
    have hc : c = ':' := by
      have := List.head?_dropWhile_not (fun c => c != ':') v.toList
      rw [h] at this
      simpa using this
    subst hc
    have e : v.toList = v.toList.takeWhile (fun c => c != ':') ++ ':' :: n := by
      have := List.takeWhile_append_dropWhile (p := fun c => c != ':') (l := v.toList)
      rw [h] at this
      exact this.symm
    refine ⟨String.ofList (v.toList.takeWhile (fun c => c != ':')), String.ofList n, ?_, ?_, ?_⟩
    · apply String.toList_inj.1
      rw [String.toList_append, String.toList_append, String.toList_ofList, String.toList_ofList]
      simpa using e
    · intro hm
      rw [String.toList_ofList] at hm
      exact takeWhile_colon _ _ hm rfl
    · simp only [Fresh.type, h]

theorem colon_cut {p q a b : String} (hp : ':' ∉ p.toList) (hq : ':' ∉ q.toList) (h : p ++ ":" ++ a = q ++ ":" ++ b) :
    p = q ∧ a = b := by
  have h1 : p.toList ++ ':' :: a.toList = q.toList ++ ':' :: b.toList := by
    have := congrArg String.toList h
    simpa using this
  have h2 : ∀ (x y : List Char), ':' ∉ x → ':' ∉ y → x ++ ':' :: a.toList = y ++ ':' :: b.toList → x = y ∧ a.toList = b.toList := by
    intro x
    induction x with
    | nil =>
      intro y _ hy e
      cases y with
      | nil => simp at e; exact ⟨rfl, by simpa using e⟩
      | cons c y => simp at e; exact absurd e.1 (fun h => hy (by simp [← h]))
    | cons c x ih =>
      intro y hx hy e
      cases y with
      | nil => simp at e; exact absurd e.1 (fun h => hx (by simp [h]))
      | cons d y =>
        simp only [List.cons_append, List.cons.injEq] at e
        simp only [List.mem_cons, not_or] at hx hy
        obtain ⟨r1, r2⟩ := ih y hx.2 hy.2 e.2
        exact ⟨by rw [e.1, r1], r2⟩
  obtain ⟨r1, r2⟩ := h2 _ _ hp hq h1
  exact ⟨String.toList_inj.1 r1, String.toList_inj.1 r2⟩

theorem colon_in (p n : String) : ':' ∈ (p ++ ":" ++ n).toList := by simp

theorem type_agrees {a b : String} (h : Fresh.type a = Fresh.type b) :
    a = b ∨ ∃ p x y, a = p ++ ":" ++ x ∧ b = p ++ ":" ++ y ∧ Variant newest x y := by
  rcases type_cases a with ⟨ha, na⟩ | ⟨p, x, ha, hp, ta⟩ <;> rcases type_cases b with ⟨hb, nb⟩ | ⟨q, y, hb, hq, tb⟩
  · left; rw [← ha, ← hb, h]
  · exfalso
    rw [ha, tb] at h
    apply na
    rw [h]
    exact colon_in _ _
  · exfalso
    rw [hb, ta] at h
    apply nb
    rw [← h]
    exact colon_in _ _
  · right
    rw [ta, tb] at h
    obtain ⟨r1, r2⟩ := colon_cut hp hq h
    subst r1
    exact ⟨p, x, y, ha, hb, variant_of_last r2⟩

theorem val_agrees {k : QName} {a b : String} (h : Fresh.val k a = Fresh.val k b) : ValueAgrees k a b := by
  simp only [Fresh.val] at h
  split at h
  · next hk =>
    rcases type_agrees h with e | e
    · exact Or.inl e
    · exact Or.inr (Or.inl ⟨hk, e⟩)
  · split at h
    · next hk => exact Or.inr (Or.inr hk)
    · exact Or.inl h

theorem attrs_agree : ∀ {as bs : Attrs}, Fresh.attrs as = Fresh.attrs bs → AttrsAgree as bs
  | [], [], _ => trivial
  | [], _ :: _, h => by simp [Fresh.attrs] at h
  | _ :: _, [], h => by simp [Fresh.attrs] at h
  | (k, a) :: as, (l, b) :: bs, h => by
    simp only [Fresh.attrs, List.map_cons, List.cons.injEq, Prod.mk.injEq] at h
    obtain ⟨⟨rfl, h1⟩, h2⟩ := h
    exact ⟨rfl, val_agrees h1, attrs_agree h2⟩

theorem text_agrees {s t : Option String} (h : s.map (Fresh.last corrections) = t.map (Fresh.last corrections)) :
    TextAgrees s t := by
  cases s <;> cases t
  · trivial
  · simp at h
  · simp at h
  · simp only [Option.map_some, Option.some.injEq] at h
    exact variant_of_last h

mutual
theorem agree_of_mask : ∀ {x y : Node}, Fresh.node x = Fresh.node y → Agree x y
  | .elem e ks, .elem f ls, h => by
    simp only [Fresh.node, Node.elem.injEq] at h
    obtain ⟨h1, h2⟩ := h
    have h1' := h1
    simp only [Fresh.elem, Elem.mk.injEq] at h1'
    obtain ⟨a, b, c, d, e'⟩ := h1'
    simp only [Agree]
    exact ⟨a, b, e', attrs_agree c, text_agrees d, agreeAll_of_mask h2⟩
  | .other _ _, .other _ _, h => by
    simp only [Fresh.node, Node.other.injEq] at h
    simp only [Agree]
    exact h
  | .elem _ _, .other _ _, h => by simp [Fresh.node] at h
  | .other _ _, .elem _ _, h => by simp [Fresh.node] at h
theorem agreeAll_of_mask : ∀ {x y : List Node}, Fresh.nodes x = Fresh.nodes y → AgreeAll x y
  | [], [], _ => by simp only [AgreeAll]
  | [], _ :: _, h => by simp [Fresh.nodes] at h
  | _ :: _, [], h => by simp [Fresh.nodes] at h
  | k :: ks, l :: ls, h => by
    simp only [Fresh.nodes, List.cons.injEq] at h
    simp only [AgreeAll]
    exact ⟨agree_of_mask h.1, agreeAll_of_mask h.2⟩
end

theorem type_mask (v : String) : ValueAgrees ⟨some "http://www.w3.org/2001/XMLSchema-instance", "type"⟩ (Fresh.type v) v := by
  rcases type_cases v with ⟨h, _⟩ | ⟨p, n, h, _, ht⟩
  · exact Or.inl h
  · exact Or.inr (Or.inl ⟨rfl, p, _, n, ht, h, variant_last newest n⟩)

theorem val_mask (k : QName) (v : String) : ValueAgrees k (Fresh.val k v) v := by
  simp only [Fresh.val]
  split
  · next hk => subst hk; exact type_mask v
  · split
    · next hk => exact Or.inr (Or.inr hk)
    · exact Or.inl rfl

theorem attrs_mask : ∀ as : Attrs, AttrsAgree (Fresh.attrs as) as
  | [] => trivial
  | (k, v) :: as => ⟨rfl, val_mask k v, attrs_mask as⟩

mutual
theorem agree_mask : ∀ n : Node, Agree (Fresh.node n) n
  | .elem e ks => by
    simp only [Fresh.node, Agree]
    refine ⟨rfl, rfl, rfl, attrs_mask _, ?_, agreeAll_mask ks⟩
    simp only [Fresh.elem]
    cases e.text with
    | none => trivial
    | some s => exact variant_last corrections s
  | .other _ _ => by simp only [Fresh.node, Agree]; trivial
theorem agreeAll_mask : ∀ ns : List Node, AgreeAll (Fresh.nodes ns) ns
  | [] => by simp only [Fresh.nodes, AgreeAll]
  | k :: ks => by
    simp only [Fresh.nodes, AgreeAll]
    exact ⟨agree_mask k, agreeAll_mask ks⟩
end

theorem outside_of_dates {w : World} (h : DatesAlike w) : Fresh.Outside w := fun n => h _ _ (agree_mask n)

theorem off_vocabs (o : Options) :
    Fresh.Off { o with updateVocabularies := true } { o with updateVocabularies := false } := ⟨rfl, rfl, rfl, rfl⟩

theorem counted_agree {x y : Result × Nat} (h : Fresh.counted x = Fresh.counted y) :
    Agree x.1.doc y.1.doc ∧ AgreeAll x.1.removed y.1.removed ∧ y.1.remapped = x.1.remapped ∧ y.2 = x.2 := by
  simp only [Fresh.counted, Fresh.result, Prod.mk.injEq, Result.mk.injEq] at h
  obtain ⟨⟨h1, h2, h3⟩, h4⟩ := h
  refine ⟨agree_of_mask h1, agreeAll_of_mask ?_, h3.symm, h4.symm⟩
  rw [Fresh.nodes_eq, Fresh.nodes_eq, h2]

theorem blind_of_registered {w : World} (hw : DatesAlike w) {u : Updater} (hu : Registered w u) {o o' : Options}
    (ho : Fresh.Off o o') : Fresh.BlindStep o o' u := by
  cases hu with
  | cybox20 => exact Fresh.cybox20_blind ho
  | cybox201 => exact Fresh.cybox201_blind ho
  | stix10 => exact Fresh.stix10_blind ho
  | stix101 => exact Fresh.stix101_blind (outside_of_dates hw) ho
  | stix11 => exact Fresh.stix11_blind w ho
  | stix111 => exact Fresh.stix111_blind ho
  | stix12 => exact Fresh.stix12_blind ho

/-! ## C62 -/

/-- C62 for one step: what succeeds with the vocabulary update succeeds without it; the removed elements and the new ids are
the same, and the documents agree except for vocabulary values. -/
theorem C62_step (w : World) (hw : DatesAlike w) (u : Updater) (hu : Registered w u) (o : Options) (force : Bool) (k k' : Nat)
    (t : Node) (r : Result) (h : stepUpdate u { o with updateVocabularies := true } force k t = .ok (r, k')) :
    ∃ d, stepUpdate u { o with updateVocabularies := false } force k t = .ok (⟨d, r.removed, r.remapped⟩, k') ∧
      Agree r.doc d := by
  have ho := off_vocabs o
  have hb := blind_of_registered hw hu ho
  have hf : ∀ z, forceUpdate u { o with updateVocabularies := true } k t = .ok z →
      ∃ d, forceUpdate u { o with updateVocabularies := false } k t = .ok (⟨d, z.1.removed, z.1.remapped⟩, z.2) ∧
        Agree z.1.doc d := by
    intro z hz
    simp only [forceUpdate] at hz ⊢
    rw [Fresh.clean_same ho]
    cases hc : clean u { o with updateVocabularies := true } k t with
    | error x => rw [hc] at hz; cases hz
    | ok p =>
      rw [hc] at hz
      dsimp only at hz ⊢
      cases hd : u.update { o with updateVocabularies := true } p.1.doc with
      | error x => rw [hd] at hz; cases hz
      | ok d =>
        rw [hd] at hz
        cases hz
        obtain ⟨d', h1, h2⟩ := hb.update _ _ rfl d hd
        rw [h1]
        exact ⟨d', rfl, agree_of_mask h2⟩
  simp only [stepUpdate, tryUpdate] at h ⊢
  rw [hb.same t]
  cases ha : u.check { o with updateVocabularies := true } t with
  | error a =>
    rw [ha] at h
    dsimp only at h ⊢
    by_cases hr : (refusable a && force) = true
    · rw [if_pos hr] at h ⊢
      exact hf _ h
    · rw [if_neg hr] at h; cases h
  | ok _ =>
    rw [ha] at h
    dsimp only at h ⊢
    cases hd : u.update { o with updateVocabularies := true } t with
    | error a =>
      rw [hd] at h
      dsimp only at h
      rw [hb.noRefuse t a hd] at h
      cases h
    | ok d =>
      rw [hd] at h
      cases h
      obtain ⟨d', h1, h2⟩ := hb.update _ _ rfl d hd
      rw [h1]
      exact ⟨d', rfl, agree_of_mask h2⟩

theorem chain_agrees {reg : List (String × Updater)} {o : Options}
    (hreg : ∀ v u, assoc reg v = some u →
      Fresh.BlindStep { o with updateVocabularies := true } { o with updateVocabularies := false } u)
    {vs : List String} {force : Bool} {k k' : Nat} {t : Node} {from_ to_ : Option String} {r : Result}
    (h : runChain vs reg t from_ to_ { o with updateVocabularies := true } force k = .ok (r, k')) :
    ∃ r', runChain vs reg t from_ to_ { o with updateVocabularies := false } force k = .ok (r', k') ∧
      Agree r.doc r'.doc ∧ AgreeAll r.removed r'.removed ∧ r'.remapped = r.remapped := by
  obtain ⟨y, h1, h2⟩ := Fresh.runChain_sim (off_vocabs o) vs hreg (rfl : Fresh.node t = Fresh.node t) from_ to_ force k _ h
  obtain ⟨a, b, c, d⟩ := counted_agree h2
  obtain ⟨r', k2⟩ := y
  dsimp only at a b c d
  subst d
  exact ⟨r', h1, a, b, c⟩

/-- A world in which one date is valid: its verdict does not depend on vocabulary terms. -/
def wDate : World := ⟨fun n => match n with
  | .elem e _ => e.text == some "2014-01-01T00:00:00"
  | .other _ _ => false, fun _ => none⟩

theorem variant_date {s : String} (h : Variant corrections "2014-01-01T00:00:00" s ∨ Variant corrections s "2014-01-01T00:00:00") :
    s = "2014-01-01T00:00:00" := by
  have h1 : ∀ p ∈ corrections, "2014-01-01T00:00:00" ≠ p.1 ∧ "2014-01-01T00:00:00" ≠ p.2 := by decide +kernel
  have h2 : ∀ c, ("2014-01-01T00:00:00" = c ∨ ("2014-01-01T00:00:00", c) ∈ corrections) → (s = c ∨ (s, c) ∈ corrections) →
      s = "2014-01-01T00:00:00" := by
    intro c ha hb
    rcases ha with ha | ha
    · subst ha
      rcases hb with hb | hb
      · exact hb
      · exact absurd rfl (h1 _ hb).2
    · exact absurd rfl (h1 _ ha).1
  rcases h with ⟨c, ha, hb⟩ | ⟨c, ha, hb⟩
  · exact h2 c ha hb
  · exact h2 c hb ha

example : DatesAlike wDate := by
  intro a b h
  match a, b, h with
  | .elem e ks, .elem f ls, h =>
    simp only [Agree] at h
    have ht := h.2.2.2.2.1
    simp only [wDate]
    cases he : e.text with
    | none =>
      cases hf : f.text with
      | none => rfl
      | some y => rw [he, hf] at ht; exact ht.elim
    | some x =>
      cases hf : f.text with
      | none => rw [he, hf] at ht; exact ht.elim
      | some y =>
        rw [he, hf] at ht
        have ht' : Variant corrections x y := ht
        by_cases hx : x = "2014-01-01T00:00:00"
        · subst hx; rw [variant_date (Or.inl ht')]
        · by_cases hy : y = "2014-01-01T00:00:00"
          · subst hy; exact absurd (variant_date (Or.inr ht')) hx
          · have e1 : (some x == some "2014-01-01T00:00:00") = false := by simpa using hx
            have e2 : (some y == some "2014-01-01T00:00:00") = false := by simpa using hy
            rw [e1, e2]
  | .other _ _, .other _ _, _ => rfl
  | .elem _ _, .other _ _, h => simp [Agree] at h
  | .other _ _, .elem _ _, h => simp [Agree] at h

theorem datesAlike_w0 : DatesAlike w0 := fun _ _ _ => rfl

/-- A step that changes a vocabulary value: the hypotheses of `C62_step` hold and the two documents differ. -/
example : (stepUpdate stix111 { o0 with updateVocabularies := true } false 0 doc111).isOk = true ∧
    (stepUpdate stix111 { o0 with updateVocabularies := true } false 0 doc111).map (·.1.doc) ≠
      (stepUpdate stix111 { o0 with updateVocabularies := false } false 0 doc111).map (·.1.doc) := by
  decide +kernel

/-- C62 for `stix.update`, for every chain of steps. -/
theorem C62_stix (w : World) (hw : DatesAlike w) (t : Node) (from_ to_ : Option String) (o : Options) (force : Bool) (k k' : Nat)
    (r : Result) (h : stixUpdate w t from_ to_ { o with updateVocabularies := true } force k = .ok (r, k')) :
    ∃ r', stixUpdate w t from_ to_ { o with updateVocabularies := false } force k = .ok (r', k') ∧
      Agree r.doc r'.doc ∧ AgreeAll r.removed r'.removed ∧ r'.remapped = r.remapped :=
  chain_agrees (fun v u hv => Fresh.stixUpdaters_blind (outside_of_dates hw) (off_vocabs o) v u hv) h

/-- C62 for `cybox.update`. -/
theorem C62_cybox (t : Node) (from_ to_ : Option String) (o : Options) (force : Bool) (k k' : Nat)
    (r : Result) (h : cyboxUpdate t from_ to_ { o with updateVocabularies := true } force k = .ok (r, k')) :
    ∃ r', cyboxUpdate t from_ to_ { o with updateVocabularies := false } force k = .ok (r', k') ∧
      Agree r.doc r'.doc ∧ AgreeAll r.removed r'.removed ∧ r'.remapped = r.remapped := by
  simp only [cyboxUpdate] at h ⊢
  cases hf : cyboxFrom t from_ with
  | error x => rw [hf] at h; cases h
  | ok f =>
    rw [hf] at h
    exact chain_agrees (fun v u hv => Fresh.cyboxUpdaters_blind (off_vocabs o) v u hv) h

/-- C62 for `ramrod.update`. -/
theorem C62_update (w : World) (hw : DatesAlike w) (t : Node) (from_ to_ : Option String) (o : Options) (force : Bool)
    (k k' : Nat) (r : Result) (h : update w t from_ to_ { o with updateVocabularies := true } force k = .ok (r, k')) :
    ∃ r', update w t from_ to_ { o with updateVocabularies := false } force k = .ok (r', k') ∧
      Agree r.doc r'.doc ∧ AgreeAll r.removed r'.removed ∧ r'.remapped = r.remapped := by
  simp only [update] at h ⊢
  cases hr : t.root? with
  | none => rw [hr] at h; cases h
  | some e =>
    rw [hr] at h
    dsimp only at h ⊢
    by_cases h1 : e.tag.name = "STIX_Package"
    · rw [if_pos h1] at h ⊢
      exact C62_stix w hw t _ to_ o force k k' r h
    · rw [if_neg h1] at h ⊢
      by_cases h2 : e.tag.name = "Observables"
      · rw [if_pos h2] at h ⊢
        cases hf : cyboxFrom t from_ with
        | error x => rw [hf] at h; cases h
        | ok f =>
          rw [hf] at h
          exact C62_cybox t f to_ o force k k' r h
      · rw [if_neg h2] at h; cases h

/-- A whole update with two documents that differ: the term and the type of the discovery method. -/
example : (update w0 doc111 none (some "1.2") { o0 with updateVocabularies := true } false 0).isOk = true ∧
    (update w0 doc111 none (some "1.2") { o0 with updateVocabularies := true } false 0).map (·.1.doc) ≠
      (update w0 doc111 none (some "1.2") { o0 with updateVocabularies := false } false 0).map (·.1.doc) := by
  decide +kernel

/-- A CybOX document with an outdated event type. -/
def docEventOff : Node :=
  cyboxDoc v20 [el nsCyboxCore "Event" []
    [el nsCyboxCore "Type" [xsiType "cyboxVocabs:EventTypeVocab-1.0"] [] (some "Anomoly Events")]]

example : (cyboxUpdate docEventOff none (some "2.0.1") { o0 with updateVocabularies := true } false 0).isOk = true ∧
    (cyboxUpdate docEventOff none (some "2.0.1") { o0 with updateVocabularies := true } false 0).map (·.1.doc) ≠
      (cyboxUpdate docEventOff none (some "2.0.1") { o0 with updateVocabularies := false } false 0).map (·.1.doc) := by
  decide +kernel

/-- The converse of C62 does not hold: an object relationship with a reference stops the update with a `TypeError`, and
without the vocabulary update it goes through. -/
theorem C62_converse_fails (force : Bool) :
    ∃ t, stepUpdate cybox201 { o0 with updateVocabularies := true } force 0 t = .error .typeError ∧
      (stepUpdate cybox201 { o0 with updateVocabularies := false } force 0 t).isOk = true :=
  ⟨cyboxDoc v201 [el nsCyboxCore "Relationship" [xsiType "cyboxVocabs:ObjectRelationshipVocab-1.0", at_ "vocab_reference" "r"] []],
    by cases force <;> decide +kernel⟩

end Ramrod

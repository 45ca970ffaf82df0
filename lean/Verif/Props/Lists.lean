import Verif.Props.Vocabs
import Verif.Props.Untrans
import Verif.Props.Frame
/-!
# Lists of CybOX 2.0: C27
-/

namespace Ramrod

open Samples

/-! ## Statement -/

/-- `s` cut at the separator, from the left: `ps` are the parts. -/
inductive SplitAt (sep : List Char) : List Char → List (List Char) → Prop
  | last {s} : ¬ sep <:+: s → SplitAt sep s [s]
  | cut {a rest ps} : ¬ sep <:+: a ++ sep.dropLast → SplitAt sep rest ps → SplitAt sep (a ++ sep ++ rest) (a :: ps)

/-- The items of a CybOX 2.0 list: the text cut at the commas, `&comma;` standing for a comma. -/
def Items20 (s : String) (items : List String) : Prop :=
  ∃ raw : List (List Char), SplitAt [','] s.toList raw ∧ raw.length = items.length ∧
    ∀ (i : Nat) (x : List Char) (y : String), raw[i]? = some x → items[i]? = some y →
      ∃ ps, SplitAt "&comma;".toList x ps ∧ y.toList = List.intercalate [','] ps

/-- The items of a CybOX 2.0.1 list: the text cut at `##comma##`. -/
def Items201 (s : String) (items : List String) : Prop := SplitAt "##comma##".toList s.toList (items.map String.toList)

/-! ## Splitting -/

theorem prefix_infix {α : Type} {p a b : List α} (h : p <+: a ++ b) (hl : p.length ≤ a.length) : p <:+: a := by
  obtain ⟨r, hr⟩ := h
  have : p <+: a := List.prefix_of_prefix_length_le ⟨r, hr⟩ ⟨b, rfl⟩ hl
  exact this.isInfix

/-- Everything can be cut, in one way. -/
theorem splitAt_exists {sep : List Char} (hs : sep ≠ []) : ∀ (n : Nat) (s : List Char), s.length ≤ n → ∃ ps, SplitAt sep s ps := by
  intro n
  induction n with
  | zero =>
    intro s h
    have : s = [] := List.length_eq_zero_iff.1 (by omega)
    subst this
    refine ⟨[[]], .last ?_⟩
    intro h
    exact hs (List.infix_nil.1 h)
  | succ n ih =>
    intro s h
    -- the leftmost occurrence
    have left : ∀ (s : List Char), (¬ sep <:+: s) ∨ ∃ a rest, s = a ++ sep ++ rest ∧ ¬ sep <:+: a ++ sep.dropLast := by
      intro s
      induction s with
      | nil => left; intro h; exact hs (List.infix_nil.1 h)
      | cons c cs ih =>
        by_cases hp : sep <+: c :: cs
        · right
          obtain ⟨r, hr⟩ := hp
          refine ⟨[], r, by simpa using hr.symm, ?_⟩
          intro h
          have := h.length_le
          have hlen : 0 < sep.length := List.length_pos_iff.2 hs
          simp at this
          omega
        · rcases ih with h | ⟨a, rest, rfl, ha⟩
          · left
            intro hi
            rcases List.infix_cons_iff.1 hi with h1 | h1
            · exact hp h1
            · exact h h1
          · right
            refine ⟨c :: a, rest, by simp, ?_⟩
            intro hi
            rw [List.cons_append] at hi
            rcases List.infix_cons_iff.1 hi with h1 | h1
            · apply hp
              have h2 : c :: (a ++ sep ++ rest) = (c :: (a ++ sep.dropLast)) ++ ([sep.getLast hs] ++ rest) := by
                rw [List.cons_append, List.append_assoc a sep.dropLast, ← List.append_assoc sep.dropLast, List.dropLast_concat_getLast]
                simp
              rw [h2]
              exact h1.trans ⟨_, rfl⟩
            · exact ha h1
    rcases left s with h1 | ⟨a, rest, rfl, ha⟩
    · exact ⟨[s], .last h1⟩
    · have hlen : 0 < sep.length := List.length_pos_iff.2 hs
      obtain ⟨ps, hps⟩ := ih rest (by simp at h; omega)
      exact ⟨a :: ps, .cut ha hps⟩

/-- Gluing the parts gives the text back. -/
theorem splitAt_join {sep s : List Char} {ps : List (List Char)} (h : SplitAt sep s ps) : List.intercalate sep ps = s := by
  induction h with
  | last _ => simp [List.intercalate]
  | @cut a rest ps _ h ih =>
    cases ps with
    | nil => cases h
    | cons p ps => rw [← ih]; simp [List.intercalate]

theorem splitAt_parts {sep s : List Char} {ps : List (List Char)} (h : SplitAt sep s ps) : ∀ p ∈ ps, p <:+: s := by
  induction h with
  | last _ => intro p hp; rw [List.mem_singleton] at hp; subst hp; exact List.infix_refl _
  | @cut a rest ps _ h ih =>
    intro p hp
    rcases List.mem_cons.1 hp with rfl | hp
    · exact ⟨[], sep ++ rest, by simp⟩
    · exact (ih p hp).trans ⟨a ++ sep, [], by simp⟩

/-- The leftmost cut is unique. -/
theorem splitAt_unique {sep s : List Char} {ps : List (List Char)} (h : SplitAt sep s ps) : ∀ {qs}, SplitAt sep s qs → ps = qs := by
  have aux : ∀ {a b r r' : List Char}, a ++ sep ++ r = b ++ sep ++ r' → ¬ sep <:+: a ++ sep.dropLast →
      ¬ sep <:+: b ++ sep.dropLast → a.length < b.length → False := by
    intro a b r r' he _ hb hl
    apply hb
    have h1 : sep ≠ [] := by rintro rfl; exact hb List.nil_infix
    -- `a ++ sep` is a prefix of `b ++ sep.dropLast`
    have h2 : a ++ sep <+: b ++ sep.dropLast := by
      refine List.prefix_of_prefix_length_le (l₃ := b ++ sep ++ r') ⟨r, he⟩ ?_ ?_
      · refine ⟨[sep.getLast h1] ++ r', ?_⟩
        rw [List.append_assoc, ← List.append_assoc sep.dropLast, List.dropLast_concat_getLast]
        simp
      · have : 0 < sep.length := List.length_pos_iff.2 h1
        simp
        omega
    exact (List.IsInfix.trans ⟨a, [], by simp⟩ h2.isInfix)
  induction h with
  | @last s hs =>
    intro qs hq
    cases hq with
    | last _ => rfl
    | cut _ _ => exact absurd ⟨_, _, rfl⟩ hs
  | @cut a rest ps ha h ih =>
    intro qs hq
    generalize hs : a ++ sep ++ rest = s at hq
    cases hq with
    | last hn => exact absurd ⟨_, _, hs⟩ hn
    | @cut b rest' qs hb h' =>
      have hlen : a.length = b.length := by
        rcases Nat.lt_trichotomy a.length b.length with hl | hl | hl
        · exact (aux hs ha hb hl).elim
        · exact hl
        · exact (aux hs.symm hb ha hl).elim
      rw [List.append_assoc, List.append_assoc] at hs
      obtain ⟨rfl, h2⟩ := List.append_inj hs hlen
      have := List.append_cancel_left h2
      subst this
      rw [ih h']

/-! ## Replacing -/

theorem replaceAux_none {old new : List Char} : ∀ {s : List Char}, ¬ old <:+: s → replaceAux old new 0 s = s
  | [], _ => rfl
  | c :: cs, h => by
    have h1 : old.isPrefixOf (c :: cs) = false := by
      cases hp : old.isPrefixOf (c :: cs) with
      | false => rfl
      | true => exact absurd (List.isPrefixOf_iff_prefix.1 hp).isInfix h
    simp only [replaceAux, h1, Bool.false_eq_true, if_false]
    rw [replaceAux_none (fun hi => h (hi.trans ⟨[c], [], by simp⟩))]

theorem replaceAux_skip {old new : List Char} : ∀ (a b : List Char), replaceAux old new a.length (a ++ b) = replaceAux old new 0 b
  | [], b => rfl
  | _ :: a, b => by simp [replaceAux, replaceAux_skip a b]

theorem replaceAux_first {old new : List Char} (ho : old ≠ []) : ∀ {a rest : List Char}, ¬ old <:+: a ++ old.dropLast →
    replaceAux old new 0 (a ++ old ++ rest) = a ++ new ++ replaceAux old new 0 rest
  | [], rest, _ => by
    cases old with
    | nil => exact absurd rfl ho
    | cons o os =>
      have h1 : (o :: os).isPrefixOf (o :: (os ++ rest)) = true := List.isPrefixOf_iff_prefix.2 ⟨rest, by simp⟩
      simp only [List.nil_append, List.cons_append, replaceAux, h1, if_true, List.length_cons, Nat.add_sub_cancel]
      rw [replaceAux_skip os rest]
  | c :: a, rest, h => by
    have h1 : old.isPrefixOf (c :: (a ++ old ++ rest)) = false := by
      cases hp : old.isPrefixOf (c :: (a ++ old ++ rest)) with
      | false => rfl
      | true =>
        refine absurd (prefix_infix (p := old) (a := c :: a ++ old.dropLast) (b := [old.getLast ho] ++ rest) ?_ ?_) h
        · have := List.isPrefixOf_iff_prefix.1 hp
          rw [List.append_assoc (c :: a), ← List.append_assoc old.dropLast, List.dropLast_concat_getLast]
          simpa using this
        · have : 0 < old.length := List.length_pos_iff.2 ho
          simp
          omega
    have h2 : ¬ old <:+: a ++ old.dropLast := fun hi => h (hi.trans ⟨[c], [], by simp⟩)
    have ih := replaceAux_first (new := new) ho (a := a) (rest := rest) h2
    simp only [List.cons_append, replaceAux, h1, Bool.false_eq_true, if_false]
    rw [ih]

/-- Replacing is cutting and gluing. -/
theorem replaceAux_split {old new s : List Char} (ho : old ≠ []) {ps : List (List Char)} (h : SplitAt old s ps) :
    replaceAux old new 0 s = List.intercalate new ps := by
  induction h with
  | last h => rw [replaceAux_none h]; simp [List.intercalate]
  | @cut a rest ps ha h ih =>
    rw [replaceAux_first ho ha, ih]
    cases ps with
    | nil => cases h
    | cons p ps => simp [List.intercalate]

theorem isPrefixOf_barrier {c : Char} : ∀ {old x y : List Char}, c ∉ old → old.isPrefixOf (x ++ c :: y) = old.isPrefixOf x
  | [], _, _, _ => by simp
  | o :: os, [], y, h => by
    have : o ≠ c := fun e => h (by simp [e])
    simp [List.isPrefixOf, this]
  | o :: os, d :: x, y, h => by
    simp only [List.cons_append, List.isPrefixOf]
    rw [isPrefixOf_barrier (fun hm => h (by simp [hm]))]

/-- A character outside the pattern separates the text. -/
theorem replaceAux_barrier {old new : List Char} {c : Char} (ho : old ≠ []) (hc : c ∉ old) : ∀ (x : List Char) (n : Nat) (y : List Char),
    n ≤ x.length → replaceAux old new n (x ++ c :: y) = replaceAux old new n x ++ c :: replaceAux old new 0 y
  | [], n, y, hn => by
    have : n = 0 := by simpa using hn
    subst this
    have h1 : old.isPrefixOf (c :: y) = false := by
      rw [← List.nil_append (c :: y), isPrefixOf_barrier hc]
      cases old with
      | nil => exact absurd rfl ho
      | cons o os => rfl
    simp [replaceAux, h1]
  | d :: x, 0, y, _ => by
    simp only [List.cons_append, replaceAux]
    rw [← List.cons_append, isPrefixOf_barrier hc]
    split
    · next hp =>
      have := (List.isPrefixOf_iff_prefix.1 hp).length_le
      rw [replaceAux_barrier ho hc x _ y (by simp at this; omega)]
      simp
    · rw [replaceAux_barrier ho hc x 0 y (by simp)]
      simp
  | d :: x, n + 1, y, hn => by
    simp only [List.cons_append, replaceAux]
    exact replaceAux_barrier ho hc x n y (by simpa using hn)

theorem decode_marker (x y : List Char) : replaceAux "&comma;".toList [','] 0 (x ++ "##comma##".toList ++ y) =
    replaceAux "&comma;".toList [','] 0 x ++ "##comma##".toList ++ replaceAux "&comma;".toList [','] 0 y := by
  have hb : ∀ x y, replaceAux "&comma;".toList [','] 0 (x ++ '#' :: y) =
      replaceAux "&comma;".toList [','] 0 x ++ '#' :: replaceAux "&comma;".toList [','] 0 y := fun x y =>
    replaceAux_barrier (by decide) (by decide) x 0 y (by simp)
  have e : x ++ "##comma##".toList ++ y = x ++ '#' :: ([] ++ '#' :: (['c', 'o', 'm', 'm', 'a'] ++ '#' :: ([] ++ '#' :: y))) := by
    have : "##comma##".toList = ['#', '#', 'c', 'o', 'm', 'm', 'a', '#', '#'] := by decide
    rw [this]; simp
  rw [e, hb, hb, hb, hb]
  have h0 : replaceAux "&comma;".toList [','] 0 [] = [] := rfl
  have h1 : replaceAux "&comma;".toList [','] 0 ['c', 'o', 'm', 'm', 'a'] = ['c', 'o', 'm', 'm', 'a'] := by decide
  have : "##comma##".toList = ['#', '#', 'c', 'o', 'm', 'm', 'a', '#', '#'] := by decide
  rw [h0, h1, this]
  simp

theorem decode_markers : ∀ (xs : List (List Char)), replaceAux "&comma;".toList [','] 0 (List.intercalate "##comma##".toList xs) =
    List.intercalate "##comma##".toList (xs.map (replaceAux "&comma;".toList [','] 0))
  | [] => rfl
  | [x] => by simp [List.intercalate]
  | x :: y :: xs => by
    have h1 : ∀ (a b : List Char) (l : List (List Char)), List.intercalate "##comma##".toList (a :: b :: l) =
        a ++ "##comma##".toList ++ List.intercalate "##comma##".toList (b :: l) := by
      intro a b l; simp [List.intercalate]
    rw [h1, decode_marker, decode_markers (y :: xs)]
    simp only [List.map_cons]
    rw [h1]

/-- What the code does with a text: cut at the commas, decode, glue with the new marker. -/
theorem listText_eq {s : String} {items : List String} (h : Items20 s items) :
    (updateListText s).toList = List.intercalate "##comma##".toList (items.map String.toList) := by
  obtain ⟨raw, hs, hl, hd⟩ := h
  have h1 : items.map String.toList = raw.map (replaceAux "&comma;".toList [','] 0) := by
    apply List.ext_getElem?
    intro i
    rw [List.getElem?_map, List.getElem?_map]
    cases hr : raw[i]? with
    | none =>
      have : items[i]? = none := by
        rw [List.getElem?_eq_none_iff] at hr ⊢; omega
      simp [this]
    | some x =>
      have hi : i < items.length := by
        have := (List.getElem?_eq_some_iff.1 hr).1; omega
      obtain ⟨ps, h1, h2⟩ := hd i x items[i] hr (List.getElem?_eq_getElem hi)
      rw [List.getElem?_eq_getElem hi]
      simp only [Option.map_some, h2, replaceAux_split (by decide) h1]
  have h2 : (pyReplace "," "##comma##" s).toList = List.intercalate "##comma##".toList raw := by
    unfold pyReplace
    rw [String.toList_ofList]
    exact replaceAux_split (by decide) hs
  unfold updateListText
  rw [pyReplace, String.toList_ofList, h2]
  rw [h1]
  exact decode_markers raw

/-- Where the marker can be found across the end of an item. -/
theorem marker_overlap (d : List Char) : "##comma##".toList <:+: d ++ "##comma##".toList.dropLast ↔
    "##comma##".toList <:+: d ∨ "##comma".toList <:+ d ∨ "##comma#".toList <:+ d := by
  constructor
  · rintro ⟨a, b, h⟩
    have hlen := congrArg List.length h
    have h9 : "##comma##".toList.length = 9 := by decide
    simp only [List.length_append, List.length_dropLast, h9] at hlen
    by_cases h1 : a.length + 9 ≤ d.length
    · left
      have : a ++ "##comma##".toList <+: d := List.prefix_of_prefix_length_le ⟨b, h⟩ ⟨_, rfl⟩ (by simp only [List.length_append, h9]; omega)
      obtain ⟨r, hr⟩ := this
      exact ⟨a, r, hr⟩
    · right
      have hj : ∃ j, d.length = a.length + j ∧ 1 ≤ j ∧ j ≤ 8 := ⟨d.length - a.length, by omega, by omega, by omega⟩
      obtain ⟨j, hj, hj1, hj8⟩ := hj
      have hd : d = a ++ "##comma##".toList.take j := by
        have e := congrArg (List.take d.length) h
        rw [List.take_left, hj, List.append_assoc, List.take_length_add_append, List.take_append_of_le_length (by rw [h9]; omega)] at e
        exact e.symm
      have ht : "##comma##".toList.drop j <+: "##comma##".toList.dropLast := by
        have e := congrArg (List.drop d.length) h
        rw [List.drop_left, hj, List.append_assoc, List.drop_length_add_append, List.drop_append_of_le_length (by rw [h9]; omega)] at e
        exact ⟨b, e⟩
      have key : ∀ j ∈ [1, 2, 3, 4, 5, 6, 7, 8], "##comma##".toList.drop j <+: "##comma##".toList.dropLast → j = 7 ∨ j = 8 := by decide
      rcases key j (by simp; omega) ht with rfl | rfl
      · left; rw [hd]; exact ⟨a, rfl⟩
      · right; rw [hd]; exact ⟨a, rfl⟩
  · rintro (h | ⟨a, rfl⟩ | ⟨a, rfl⟩)
    · exact h.trans ⟨[], "##comma##".toList.dropLast, by simp only [List.nil_append]⟩
    · exact ⟨a, "comma#".toList, by rw [List.append_assoc, List.append_assoc]; congr 1⟩
    · exact ⟨a, "#comma#".toList, by rw [List.append_assoc, List.append_assoc]; congr 1⟩

/-- The glued text cuts back into the items. -/
def Clear : List (List Char) → Prop
  | [] => True
  | [d] => ¬ "##comma##".toList <:+: d
  | d :: ds => ¬ "##comma##".toList <:+: d ++ "##comma##".toList.dropLast ∧ Clear ds

theorem splitAt_clear : ∀ {ds : List (List Char)}, ds ≠ [] →
    (SplitAt "##comma##".toList (List.intercalate "##comma##".toList ds) ds ↔ Clear ds)
  | [], h => absurd rfl h
  | [d], _ => by
    have : List.intercalate "##comma##".toList [d] = d := by simp [List.intercalate]
    rw [this]
    constructor
    · intro h
      generalize hg : [d] = ps at h
      generalize ht : d = tx at h
      cases h with
      | last h => exact h
      | cut _ h => cases hg; cases h
    · exact .last
  | d :: e :: ds, _ => by
    have he : List.intercalate "##comma##".toList (d :: e :: ds) =
        d ++ "##comma##".toList ++ List.intercalate "##comma##".toList (e :: ds) := by simp [List.intercalate]
    have ih := splitAt_clear (ds := e :: ds) (by simp)
    rw [he]
    constructor
    · intro h
      generalize hg : d :: e :: ds = ps at h
      generalize ht : d ++ "##comma##".toList ++ List.intercalate "##comma##".toList (e :: ds) = tx at h
      cases h with
      | last h => simp at hg
      | cut ha h =>
        cases hg
        have := List.append_cancel_left (by simpa only [List.append_assoc] using ht : d ++ ("##comma##".toList ++ _) = d ++ ("##comma##".toList ++ _))
        have := List.append_cancel_left this
        subst this
        exact ⟨ha, ih.1 h⟩
    · rintro ⟨h1, h2⟩
      exact .cut h1 (ih.2 h2)

theorem clear_iff : ∀ {ds : List (List Char)}, Clear ds ↔ ∀ (i : Nat) (d : List Char), ds[i]? = some d →
    ¬ "##comma##".toList <:+: d ∧ (i + 1 < ds.length → ¬ "##comma".toList <:+ d ∧ ¬ "##comma#".toList <:+ d)
  | [] => by simp [Clear]
  | [d] => by
    constructor
    · intro h i e he
      cases i with
      | zero => simp at he; subst he; exact ⟨h, by simp⟩
      | succ i => simp at he
    · intro h; exact (h 0 d rfl).1
  | d :: e :: ds => by
    simp only [Clear]
    rw [clear_iff (ds := e :: ds), marker_overlap]
    constructor
    · rintro ⟨h1, h2⟩ i x hx
      cases i with
      | zero =>
        simp at hx; subst hx
        exact ⟨fun h => h1 (Or.inl h), fun _ => ⟨fun h => h1 (Or.inr (Or.inl h)), fun h => h1 (Or.inr (Or.inr h))⟩⟩
      | succ i =>
        rw [List.getElem?_cons_succ] at hx
        have := h2 i x hx
        exact ⟨this.1, fun hl => this.2 (by simpa using hl)⟩
    · intro h
      have h0 := h 0 d rfl
      have h0' := h0.2 (by simp)
      refine ⟨?_, fun i x hx => ?_⟩
      · rintro (h | h | h)
        · exact h0.1 h
        · exact h0'.1 h
        · exact h0'.2 h
      · have := h (i + 1) x (by rwa [List.getElem?_cons_succ])
        exact ⟨this.1, fun hl => this.2 (by simpa using hl)⟩

theorem splitAt_ne_nil {sep s : List Char} {ps : List (List Char)} (h : SplitAt sep s ps) : ps ≠ [] := by
  cases h <;> simp

/-! ## C27, one text -/

/-- C27, one text, exactly: the new text has the items of the old one iff no item contains the new marker and no item but the last
ends in `##comma` or `##comma#`. -/
theorem C27_text (s : String) (items : List String) (h : Items20 s items) :
    Items201 (updateListText s) items ↔ ∀ (i : Nat) (x : String), items[i]? = some x →
      ¬ "##comma##".toList <:+: x.toList ∧
      (i + 1 < items.length → ¬ "##comma".toList <:+ x.toList ∧ ¬ "##comma#".toList <:+ x.toList) := by
  have hne : items.map String.toList ≠ [] := by
    obtain ⟨raw, hs, hl, _⟩ := h
    have := splitAt_ne_nil hs
    intro h0
    rw [List.map_eq_nil_iff] at h0
    rw [h0] at hl
    exact this (List.length_eq_zero_iff.1 hl)
  unfold Items201
  rw [listText_eq h, splitAt_clear hne, clear_iff]
  constructor
  · intro hc i x hx
    have := hc i x.toList (by rw [List.getElem?_map, hx]; rfl)
    exact ⟨this.1, fun hl => this.2 (by simpa using hl)⟩
  · intro hc i d hd
    rw [List.getElem?_map] at hd
    obtain ⟨x, hx, rfl⟩ := Option.map_eq_some_iff.1 hd
    have := hc i x hx
    exact ⟨this.1, fun hl => this.2 (by simpa using hl)⟩

/-- `a`, `b,c` and the empty item; `a##comma` followed by something. -/
example : Items20 "a,b&comma;c," ["a", "b,c", ""] ∧ Items201 (updateListText "a,b&comma;c,") ["a", "b,c", ""] := by
  have h : Items20 "a,b&comma;c," ["a", "b,c", ""] := by
    refine ⟨["a".toList, "b&comma;c".toList, []], ?_, rfl, ?_⟩
    · exact .cut (a := ['a']) (by decide +kernel) (.cut (a := "b&comma;c".toList) (rest := []) (by decide +kernel) (.last (by decide +kernel)))
    · intro i x y hx hy
      match i with
      | 0 => cases hx; cases hy; exact ⟨[['a']], .last (by decide +kernel), by decide +kernel⟩
      | 1 =>
        cases hx; cases hy
        exact ⟨[['b'], ['c']], .cut (a := ['b']) (rest := ['c']) (by decide +kernel) (.last (by decide +kernel)), by decide +kernel⟩
      | 2 => cases hx; cases hy; exact ⟨[[]], .last (by decide +kernel), by decide +kernel⟩
      | _ + 3 => cases hx
  refine ⟨h, (C27_text _ _ h).2 ?_⟩
  intro i x hx
  match i with
  | 0 => cases hx; decide +kernel
  | 1 => cases hx; decide +kernel
  | 2 => cases hx; decide +kernel
  | _ + 3 => cases hx

/-- Every text is a list in both languages. -/
theorem items_exist (s : String) : (∃ items, Items20 s items) ∧ ∃ items, Items201 s items := by
  constructor
  · obtain ⟨raw, hr⟩ := splitAt_exists (sep := [',']) (by decide) _ s.toList (Nat.le_refl _)
    refine ⟨raw.map (fun x => String.ofList (replaceAux "&comma;".toList [','] 0 x)), raw, hr, by simp, ?_⟩
    intro i x y hx hy
    rw [List.getElem?_map, hx] at hy
    cases hy
    obtain ⟨ps, hp⟩ := splitAt_exists (sep := "&comma;".toList) (by decide) _ x (Nat.le_refl _)
    exact ⟨ps, hp, by rw [String.toList_ofList, replaceAux_split (by decide) hp]⟩
  · obtain ⟨raw, hr⟩ := splitAt_exists (sep := "##comma##".toList) (by decide) _ s.toList (Nat.le_refl _)
    refine ⟨raw.map String.ofList, ?_⟩
    unfold Items201
    rw [List.map_map]
    have : (String.toList ∘ String.ofList) = id := by funext x; simp
    rw [this, List.map_id]
    exact hr

/-- The items of a text are determined. -/
theorem items201_unique {s : String} {xs ys : List String} (h : Items201 s xs) (h' : Items201 s ys) : xs = ys := by
  have := splitAt_unique h h'
  have hinj : ∀ (a b : List String), a.map String.toList = b.map String.toList → a = b := by
    intro a
    induction a with
    | nil => intro b hb; cases b with | nil => rfl | cons _ _ => simp at hb
    | cons x a ih =>
      intro b hb
      cases b with
      | nil => simp at hb
      | cons y b =>
        simp only [List.map_cons, List.cons.injEq] at hb
        rw [String.toList_inj.1 hb.1, ih b hb.2]
  exact hinj _ _ this

/-! ## C27, documents -/

/-- The `i`-th element outwards is the `cybox:Properties` of a `cybox:Object`; `anc` lists the enclosing elements, innermost first. -/
def PropsAt (anc : List QName) (i : Nat) : Prop :=
  anc[i]? = some ⟨some "http://cybox.mitre.org/cybox-2", "Properties"⟩ ∧
  anc[i + 1]? = some ⟨some "http://cybox.mitre.org/cybox-2", "Object"⟩

/-- No item is mistaken for a marker. -/
def ClearItems (items : List String) : Prop :=
  ∀ (i : Nat) (x : String), items[i]? = some x → ¬ "##comma##".toList <:+: x.toList ∧
    (i + 1 < items.length → ¬ "##comma".toList <:+ x.toList ∧ ¬ "##comma#".toList <:+ x.toList)

theorem depth_none : ∀ {anc : List QName}, (∀ i, ¬ PropsAt anc i) →
    propsDepth ⟨some "http://cybox.mitre.org/cybox-2", "Object"⟩ ⟨some "http://cybox.mitre.org/cybox-2", "Properties"⟩ anc = 0
  | [], _ => rfl
  | q :: qs, h => by
    simp only [propsDepth]
    rw [depth_none (fun i hi => h (i + 1) hi), if_neg]
    rintro ⟨rfl, h2⟩
    exact h 0 ⟨rfl, by rw [List.getElem?_cons_succ, ← List.head?_eq_getElem?]; exact h2⟩

theorem depth_one : ∀ {anc : List QName} (i : Nat), PropsAt anc i → (∀ j, PropsAt anc j → j = i) →
    propsDepth ⟨some "http://cybox.mitre.org/cybox-2", "Object"⟩ ⟨some "http://cybox.mitre.org/cybox-2", "Properties"⟩ anc = 1
  | [], i, h, _ => by cases h.1
  | q :: qs, 0, h, hu => by
    simp only [propsDepth]
    rw [depth_none (fun j hj => absurd (hu (j + 1) hj) (by simp)), if_pos]
    exact ⟨by simpa using h.1, by rw [List.head?_eq_getElem?]; exact h.2⟩
  | q :: qs, i + 1, h, hu => by
    simp only [propsDepth]
    rw [depth_one i h (fun j hj => by have := hu (j + 1) hj; omega), if_neg]
    rintro ⟨rfl, h2⟩
    have := hu 0 ⟨rfl, by rw [List.getElem?_cons_succ, ← List.head?_eq_getElem?]; exact h2⟩
    omega

theorem updateListElem_text (e : Elem) : (updateListElem e).text = e.text.map updateListText := by
  unfold updateListElem
  split
  · next h => simp [h]
  · next s h =>
    split
    · next h0 => subst h0; rw [h]; decide
    · rw [h]; rfl

/-- An element and what a step makes of it. -/
structure Follows (t t' : Node) (f : Option String → Option String) (c : Ctx) : Prop where
  out : ∃ c' ∈ t'.elems, c'.pos = c.pos ∧ c'.anc = c.anc ∧ c'.env = c.env ∧ c'.e.get? tagXsiType = c.e.get? tagXsiType ∧
    c'.e.text = f c.e.text

theorem follows_edit {F : Ctx → Elem} (hF : Keeps F) {t : Node} {c : Ctx} (hc : c ∈ t.elems) {f : Option String → Option String}
    (hx : (F c).get? tagXsiType = c.e.get? tagXsiType) (ht : (F c).text = f c.e.text) : Follows t (t.edit F) f c :=
  ⟨⟨c.upd F, by rw [elems_edit hF]; exact List.mem_map.2 ⟨c, hc, rfl⟩, rfl, rfl, rfl, hx, ht⟩⟩

theorem Follows.trans {t t' t'' : Node} {f g : Option String → Option String} {c : Ctx} (h : Follows t t' f c)
    (h' : ∀ c' ∈ t'.elems, c'.pos = c.pos → c'.anc = c.anc → c'.env = c.env → c'.e.get? tagXsiType = c.e.get? tagXsiType →
      Follows t' t'' g c') : Follows t t'' (fun x => g (f x)) c := by
  obtain ⟨c1, h1, hp, ha, he, hx, ht⟩ := h.out
  obtain ⟨c2, h2, hp', ha', he', hx', ht'⟩ := (h' c1 h1 hp ha he hx).out
  exact ⟨⟨c2, h2, hp'.trans hp, ha'.trans ha, he'.trans he, hx'.trans hx, by rw [ht', ht]⟩⟩

theorem setVersion201_same (e : Elem) : (setVersion201 e).get? tagXsiType = e.get? tagXsiType ∧ (setVersion201 e).text = e.text := by
  constructor
  · unfold setVersion201
    rw [Elem.get?_set, if_neg (by decide), Elem.get?_set, if_neg (by decide), Elem.get?_set, if_neg (by decide)]
  · rfl

theorem outdated_same {row : VocabRow} {p : String} {c c' : Ctx} (h1 : c'.anc = c.anc) (h2 : c'.env = c.env)
    (h3 : c'.e.get? tagXsiType = c.e.get? tagXsiType) : Outdated row p c' → Outdated row p c := by
  rintro ⟨h, ty, hty, ht⟩
  exact ⟨h1 ▸ h, ty, hty, (typedAs_congr h2 h3).1 ht⟩

theorem follows_vocabs {vs : List Vocab} {rows : List VocabRow} (hm : MatchesAll vs rows) (hs : Stable rows) {b : Bool} {t d : Node}
    (h : (if b then updateVocabs vs t else .ok t) = .ok d) {c : Ctx} (hc : c ∈ t.elems)
    (hv : b = false ∨ ∀ row ∈ rows, ∀ p, ¬ Outdated row p c) : Follows t d (fun x => x) c := by
  cases b with
  | false =>
    simp only [Bool.false_eq_true, if_false, Except.ok.injEq] at h
    subst h
    exact ⟨⟨c, hc, rfl, rfl, rfl, rfl, rfl⟩⟩
  | true =>
    simp only [if_true] at h
    obtain ⟨F, hF, rfl, hspec⟩ := updateVocabs_spec hm hs h
    have : F c = c.e := (hspec c hc).2 (by rcases hv with hv | hv; exact absurd hv (by decide); exact hv)
    exact follows_edit hF hc (by rw [this]) (by rw [this])

theorem iter_lists_text (n : Nat) (e : Elem) : (iter updateListElem n e).text = iter (Option.map updateListText) n e.text := by
  induction n with
  | zero => rfl
  | succ n ih => simp only [iter, updateListElem_text, ih]

theorem schemalocElem_text (u : Cls) (e : Elem) : (u.updateSchemalocsElem e).text = e.text := by
  unfold Cls.updateSchemalocsElem
  split
  · rfl
  · rfl

/-- The text an element gets in the CybOX part of a step. -/
theorem cybox20_text {w : World} {m : List (String × String)} {sel : List XAlt} {o : Options} {t d : Node}
    (hm : XName.resolve m ⟨"cybox", "Object"⟩ = ⟨some "http://cybox.mitre.org/cybox-2", "Object"⟩ ∧
      XName.resolve m ⟨"cybox", "Properties"⟩ = ⟨some "http://cybox.mitre.org/cybox-2", "Properties"⟩)
    (h : cybox20Update (cybox20Cls m sel) o t = .ok d) {c : Ctx} (hc : c ∈ t.elems) {rows : List VocabRow}
    (hr : StepRows w cybox20 rows) (hv : o.updateVocabularies = false ∨ ∀ row ∈ rows, ∀ p, ¬ Outdated row p c) :
    Follows t d (iter (Option.map updateListText) (propsDepth ⟨some "http://cybox.mitre.org/cybox-2", "Object"⟩
      ⟨some "http://cybox.mitre.org/cybox-2", "Properties"⟩ c.anc)) c := by
  simp only [cybox20Update] at h
  rw [updateSchemalocs_eq, cybox20Versions_eq, updateLists_eq] at h
  have h1 : Follows t (t.edit (schemalocEdit (cybox20Cls m sel))) (fun x => x) c :=
    follows_edit (keeps_schemaloc _) hc (schemaloc_xsi _ c) (by
      unfold schemalocEdit
      split
      · exact schemalocElem_text _ _
      · rfl)
  have h2 := h1.trans (g := fun x => x) (t'' := (t.edit (schemalocEdit (cybox20Cls m sel))).edit (versionEdit (cybox20Cls m sel).nsmap
      (cybox20Cls m sel).xpathVersioned setVersion201)) (fun c' hc' _ _ _ _ =>
    follows_edit (f := fun x => x) (keeps_version setVersion201_keeps) hc' (version_xsi (fun e => (setVersion201_same e).1) c') (by
      unfold versionEdit
      split
      · exact (setVersion201_same _).2
      · rfl))
  have h3 := h2.trans (g := iter (Option.map updateListText) (propsDepth ⟨some "http://cybox.mitre.org/cybox-2", "Object"⟩
      ⟨some "http://cybox.mitre.org/cybox-2", "Properties"⟩ c.anc)) (fun c' hc' _ ha _ _ =>
    follows_edit (keeps_lists (cybox20Cls m sel).nsmap) hc' (by
        unfold listsEdit Elem.get?
        rw [(iter_lists_keeps _ c'.e).2.2.1]) (by
        unfold listsEdit
        rw [iter_lists_text]
        have e1 : XName.resolve (cybox20Cls m sel).nsmap ⟨"cybox", "Object"⟩ = _ := hm.1
        have e2 : XName.resolve (cybox20Cls m sel).nsmap ⟨"cybox", "Properties"⟩ = _ := hm.2
        rw [e1, e2, ha]))
  refine h3.trans (g := fun x => x) (fun c' hc' _ ha he hx => ?_)
  refine follows_vocabs (stepRows_matches hr) (stepRows_stable hr) h hc' ?_
  rcases hv with hv | hv
  · exact Or.inl hv
  · exact Or.inr fun row hrow p ho => hv row hrow p (outdated_same ha he hx ho)

theorem cybox20_force {o : Options} {force : Bool} {k k' : Nat} {t : Node} {r : Result}
    (h : stepUpdate cybox20 o force k t = .ok (r, k')) : cybox20.update o t = .ok r.doc := by
  simp only [stepUpdate] at h
  split at h
  · next d hd =>
    simp only [Except.ok.injEq, Prod.mk.injEq] at h
    rw [← h.1]
    simp only [tryUpdate] at hd
    split at hd
    · cases hd
    · exact hd
  · split at h
    · have hcl : clean cybox20 o k t = .ok (⟨t, [], []⟩, k) := rfl
      simp only [forceUpdate, hcl] at h
      split at h
      · cases h
      · next d hd =>
        simp only [Except.ok.injEq, Prod.mk.injEq] at h
        rw [← h.1]; exact hd
    · cases h

/-- What a step should do with the text of the element `c`: outside object properties nothing; inside one (not nested) object
properties element the list keeps its items. -/
def KeepsItems (t' : Node) (c : Ctx) : Prop :=
  ∃ c' ∈ t'.elems, c'.pos = c.pos ∧ c'.anc = c.anc ∧
    ((∀ i, ¬ PropsAt c.anc i) → c'.e.text = c.e.text) ∧
    (c.e.text = none → c'.e.text = none) ∧
    ∀ s items, c.e.text = some s → Items20 s items → (∃ i, PropsAt c.anc i ∧ ∀ j, PropsAt c.anc j → j = i) →
      ∃ s', c'.e.text = some s' ∧ (ClearItems items ↔ Items201 s' items)

theorem keepsItems_of {t t' : Node} {c : Ctx} (h : Follows t t' (iter (Option.map updateListText)
    (propsDepth ⟨some "http://cybox.mitre.org/cybox-2", "Object"⟩ ⟨some "http://cybox.mitre.org/cybox-2", "Properties"⟩ c.anc)) c) :
    KeepsItems t' c := by
  obtain ⟨c', hc', hp, ha, _, _, ht⟩ := h.out
  refine ⟨c', hc', hp, ha, ?_, ?_, ?_⟩
  · intro hn
    rw [ht, depth_none hn]; rfl
  · intro hn
    have : ∀ n, iter (Option.map updateListText) n none = none := by
      intro n
      induction n with
      | zero => rfl
      | succ n ih => simp [iter, ih]
    rw [ht, hn, this]
  · rintro s items hs hi ⟨i, hi1, hi2⟩
    rw [depth_one i hi1 hi2, hs] at ht
    exact ⟨updateListText s, ht, (C27_text s items hi).symm⟩

/-- C27, CybOX 2.0 to 2.0.1: apart from values of outdated vocabularies, every text inside exactly one object properties element
keeps its items (iff none of them looks like the new marker), and every text outside stays.  Missing: properties nested in
properties (`C27_nested_fails`), text after comments (`C27_comment_fails`). -/
theorem C27_partial (w : World) (o : Options) (force : Bool) (k k' : Nat) (t : Node) (r : Result)
    (h : stepUpdate cybox20 o force k t = .ok (r, k')) (rows : List VocabRow) (hr : StepRows w cybox20 rows) (c : Ctx)
    (hc : c ∈ t.elems) (hv : o.updateVocabularies = false ∨ ∀ row ∈ rows, ∀ p, ¬ Outdated row p c) : KeepsItems r.doc c :=
  keepsItems_of (cybox20_text (by decide +kernel) (cybox20_force h) hc hr hv)

/-- Items kept by the update part of the STIX 1.0 step. -/
theorem stix10_items {w : World} {o : Options} {t t' : Node} (hu : stix10.update o t = .ok t') {rows rows' : List VocabRow}
    (hr : StepRows w cybox20 rows) (hr' : StepRows w stix10 rows') {c : Ctx} (hc : c ∈ t.elems)
    (hv : o.updateVocabularies = false ∨ ∀ row ∈ rows ++ rows', ∀ p, ¬ Outdated row p c) : KeepsItems t' c := by
  simp only [stix10, stix10Update] at hu
  split at hu
  · cases hu
  · next t1 h1 =>
    rw [updateNamespaces_none rfl, updateSchemalocs_eq, stixVersions_eq] at hu
    have f1 := cybox20_text (m := joinNsmap Tables.stix10_nsmap Tables.cybox20_nsmap) (sel := stix10Selectors) (by decide +kernel) h1 hc hr (hv.imp_right fun hv row hrow =>
      hv row (List.mem_append_left _ hrow))
    have f2 := f1.trans (g := fun x => x) (t'' := t1.edit (schemalocEdit stix10Cls)) (fun c' hc' _ _ _ _ =>
      follows_edit (f := fun x => x) (keeps_schemaloc _) hc' (schemaloc_xsi _ c') (by
        unfold schemalocEdit
        split
        · exact schemalocElem_text _ _
        · rfl))
    have f3 := f2.trans (g := fun x => x) (t'' := (t1.edit (schemalocEdit stix10Cls)).edit (versionEdit stix10Cls.nsmap
        stix10Cls.xpathVersioned (setStixVersion "2.0.1" "1.0.1"))) (fun c' hc' _ _ _ _ =>
      follows_edit (f := fun x => x) (keeps_version (setStixVersion_keeps _ _)) hc' (version_xsi (setStixVersion_xsi _ _) c') (by
        unfold versionEdit
        split
        · rfl
        · rfl))
    refine keepsItems_of (f3.trans (g := fun x => x) (fun c' hc' _ ha he hx => ?_))
    refine follows_vocabs (stepRows_matches hr') (stepRows_stable hr') hu hc' ?_
    rcases hv with hv | hv
    · exact Or.inl hv
    · exact Or.inr fun row hrow p ho => hv row (List.mem_append_right _ hrow) p (outdated_same ha he hx ho)

/-- C27 for CybOX inside STIX 1.0: the same, for an unforced step to 1.0.1. -/
theorem C27_stix_partial (w : World) (o : Options) (k k' : Nat) (t : Node) (r : Result)
    (h : stepUpdate stix10 o false k t = .ok (r, k')) (rows rows' : List VocabRow) (hr : StepRows w cybox20 rows)
    (hr' : StepRows w stix10 rows') (c : Ctx) (hc : c ∈ t.elems)
    (hv : o.updateVocabularies = false ∨ ∀ row ∈ rows ++ rows', ∀ p, ¬ Outdated row p c) : KeepsItems r.doc c :=
  stix10_items (unforced_update h) hr hr' hc hv

/-- A CybOX element of the examples. -/
def cy (name : String) (kids : List Node) (text : Option String := none) : Node := el nsCyboxCore name [] kids text

/-- A value inside an object's properties. -/
def docList (text : String) : Node :=
  cyboxDoc v20 [cy "Observable" [cy "Object" [cy "Properties" [cy "Value" [] (some text)]]]]

example : (stepUpdate cybox20 o0 false 0 (docList "a,b&comma;c")).map (fun r => r.1.doc.elems.map (·.e.text)) =
    .ok [none, none, none, none, some "a##comma##b,c"] := by decide +kernel

example : ((docList "a,b&comma;c").elems.map fun c => c.anc)[4]? =
    some [⟨some nsCyboxCore, "Properties"⟩, ⟨some nsCyboxCore, "Object"⟩, ⟨some nsCyboxCore, "Observable"⟩, ⟨some nsCyboxCore, "Observables"⟩] := by
  decide +kernel

/-- The same inside a STIX 1.0 package. -/
example : (stepUpdate stix10 o0 false 0 (stixDoc "1.0" [docList "a,b&comma;c"])).map (fun r => r.1.doc.elems.map (·.e.text)) =
    .ok [none, none, none, none, none, some "a##comma##b,c"] := by decide +kernel

/-- The texts of the elements. -/
def Node.texts (t : Node) : List (Option String) := t.elems.map (·.e.text)

theorem items20_one {s : String} (hc : ¬ [','] <:+: s.toList) {y : String} {ps : List (List Char)}
    (h : SplitAt "&comma;".toList s.toList ps) (hy : y.toList = List.intercalate [','] ps) : Items20 s [y] := by
  refine ⟨[s.toList], .last hc, rfl, ?_⟩
  intro i a b ha hb
  cases i with
  | zero => cases ha; cases hb; exact ⟨ps, h, hy⟩
  | succ i => cases ha

theorem not_items {s : String} {xs ys : List String} (h : Items201 s ys) (hne : xs ≠ ys) : ¬ Items201 s xs := fun h' =>
  hne (items201_unique h' h)

/-- C27 fails for properties inside properties: the inner texts are converted twice, so a comma inside an item becomes a
delimiter. -/
theorem C27_nested_fails : ∃ (t : Node) (r : Result) (k : Nat) (s s' : String),
    stepUpdate cybox20 o0 false 0 t = .ok (r, k) ∧ t.texts = [none, none, none, none, none, none, some s] ∧
    r.doc.texts = [none, none, none, none, none, none, some s'] ∧ Items20 s ["a,b"] ∧ Items201 s' ["a", "b"] ∧
    ¬ Items201 s' ["a,b"] := by
  obtain ⟨⟨r, k⟩, h, hr⟩ := ok_of_eval (x := stepUpdate cybox20 o0 false 0 (cyboxDoc v20 [cy "Observable" [cy "Object" [cy "Properties" [
      cy "Object" [cy "Properties" [cy "Value" [] (some "a&comma;b")]]]]]]))
    (P := fun a => a.1.doc.texts = [none, none, none, none, none, none, some "a##comma##b"]) (by decide +kernel)
  have h2 : Items201 "a##comma##b" ["a", "b"] := .cut (a := ['a']) (rest := ['b']) (by decide +kernel) (.last (by decide +kernel))
  exact ⟨_, r, k, "a&comma;b", "a##comma##b", h, by decide +kernel, hr,
    items20_one (by decide +kernel) (ps := [['a'], ['b']]) (.cut (a := ['a']) (rest := ['b']) (by decide +kernel) (.last (by decide +kernel)))
      (by decide +kernel), h2, not_items h2 (by decide)⟩

/-- C27 fails for an item containing the new delimiter. -/
theorem C27_marker_fails : ∃ (t : Node) (r : Result) (k : Nat) (s s' : String),
    stepUpdate cybox20 o0 false 0 t = .ok (r, k) ∧ t.texts = [none, none, none, none, some s] ∧
    r.doc.texts = [none, none, none, none, some s'] ∧ Items20 s ["a##comma##b"] ∧ Items201 s' ["a", "b"] ∧
    ¬ Items201 s' ["a##comma##b"] := by
  obtain ⟨⟨r, k⟩, h, hr⟩ := ok_of_eval (x := stepUpdate cybox20 o0 false 0 (docList "a##comma##b"))
    (P := fun a => a.1.doc.texts = [none, none, none, none, some "a##comma##b"]) (by decide +kernel)
  have h2 : Items201 "a##comma##b" ["a", "b"] := .cut (a := ['a']) (rest := ['b']) (by decide +kernel) (.last (by decide +kernel))
  exact ⟨_, r, k, "a##comma##b", "a##comma##b", h, by decide +kernel, hr,
    items20_one (by decide +kernel) (.last (by decide +kernel)) (by decide +kernel), h2, not_items h2 (by decide)⟩

/-- C27 fails for text after a comment: it is not converted. -/
theorem C27_comment_fails : ∃ (t : Node) (r : Result) (k : Nat), stepUpdate cybox20 o0 false 0 t = .ok (r, k) ∧
    t = cyboxDoc v20 [cy "Observable" [cy "Object" [cy "Properties" [cy "Value" [.other "<!-- -->" (some "b,c")] (some "a,")]]]] ∧
    r.doc.elems.map (fun c => (c.e.text, c.kids)) = (cyboxDoc v201 [cy "Observable" [cy "Object" [cy "Properties" [
      cy "Value" [.other "<!-- -->" (some "b,c")] (some "a##comma##")]]]]).elems.map (fun c => (c.e.text, c.kids)) := by
  obtain ⟨⟨r, k⟩, h, hr⟩ := ok_of_eval (x := stepUpdate cybox20 o0 false 0 (cyboxDoc v20 [cy "Observable" [cy "Object" [cy "Properties" [
      cy "Value" [.other "<!-- -->" (some "b,c")] (some "a,")]]]]))
    (P := fun a => a.1.doc.elems.map (fun c => (c.e.text, c.kids)) = (cyboxDoc v201 [cy "Observable" [cy "Object" [cy "Properties" [
      cy "Value" [.other "<!-- -->" (some "b,c")] (some "a##comma##")]]]]).elems.map (fun c => (c.e.text, c.kids))) (by decide +kernel)
  exact ⟨_, r, k, h, rfl, hr⟩

end Ramrod

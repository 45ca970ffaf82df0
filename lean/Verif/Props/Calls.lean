import Verif.Props.Lost
import Verif.Props.NewIds
/-!
# C76: The report of new ids is the record of the calls of the id function
-/

namespace Ramrod

open Samples

/-! ## Specification vocabulary -/

/-- The pairs of an old and a new id in a report, in its order. -/
def renamed (m : List (String × List String)) : List (String × String) :=
  m.flatMap (fun p => p.2.map (fun n => (p.1, n)))

/-- The pairs are the arguments and results of the calls `k`, `k + 1`, … of the id function, up to call `k'` (not included). -/
def CallsOf (gen : Nat → String → String) (k k' : Nat) (ps : List (String × String)) : Prop :=
  k + ps.length = k' ∧ ∀ j old new, ps[j]? = some (old, new) → new = gen (k + j) old

/-! ## Helpers -/

theorem callsOf_nil (gen : Nat → String → String) (k : Nat) : CallsOf gen k k [] := ⟨rfl, by simp⟩

theorem callsOf_append {gen : Nat → String → String} {k k1 k2 : Nat} {a b : List (String × String)} (ha : CallsOf gen k k1 a)
    (hb : CallsOf gen k1 k2 b) : CallsOf gen k k2 (a ++ b) := by
  obtain ⟨a1, a2⟩ := ha
  obtain ⟨b1, b2⟩ := hb
  refine ⟨by rw [List.length_append]; omega, ?_⟩
  intro j old new h
  by_cases hj : j < a.length
  · rw [List.getElem?_append_left hj] at h
    exact a2 j old new h
  · rw [List.getElem?_append_right (by omega)] at h
    have := b2 _ old new h
    rw [this]
    congr 1
    omega

theorem calls_group (gen : Nat → String → String) (i : String) : ∀ (cs : List Ctx) (k : Nat) (t : Node),
    (∀ c ∈ cs, c.e.get? attrId = some i) →
    CallsOf gen k (remapGroup gen cs k t).2.1 ((remapGroup gen cs k t).2.2.map (fun n => (i, n))) ∧
      (remapGroup gen cs k t).2.2.length = cs.length
  | [], k, t, _ => ⟨callsOf_nil gen k, rfl⟩
  | c :: cs, k, t, h => by
    obtain ⟨h1, h2⟩ := calls_group gen i cs (k + 1) (t.modifyAt c.pos (fun e => e.set attrId (gen k ((c.e.get? attrId).getD ""))))
      (fun d hd => h d (by simp [hd]))
    refine ⟨?_, by simp only [remapGroup, List.length_cons, h2]⟩
    have hc : CallsOf gen k (k + 1) [(i, gen k ((c.e.get? attrId).getD ""))] := by
      refine ⟨rfl, ?_⟩
      intro j old new hj
      cases j with
      | zero =>
        simp only [List.getElem?_cons_zero, Option.some.injEq, Prod.mk.injEq] at hj
        rw [← hj.1, ← hj.2, h c (by simp)]
        rfl
      | succ j => simp at hj
    exact callsOf_append hc h1

theorem calls_groups (gen : Nat → String → String) : ∀ (gs : Dups) (k : Nat) (t : Node),
    (∀ g ∈ gs, ∀ c ∈ g.2, c.e.get? attrId = some g.1) →
    CallsOf gen k (cleanDuplicates gen gs k t).2.1 (renamed (cleanDuplicates gen gs k t).2.2) ∧
      (cleanDuplicates gen gs k t).2.2.map (fun p => (p.1, p.2.length)) = gs.map (fun g => (g.1, g.2.length))
  | [], k, t, _ => ⟨callsOf_nil gen k, rfl⟩
  | g :: gs, k, t, h => by
    obtain ⟨h1, h2⟩ := calls_group gen g.1 g.2 k t (h g (by simp))
    obtain ⟨h3, h4⟩ := calls_groups gen gs (remapGroup gen g.2 k t).2.1 (remapGroup gen g.2 k t).1 (fun x hx => h x (by simp [hx]))
    exact ⟨callsOf_append h1 h3, by simp only [cleanDuplicates, List.map_cons, h4, h2]⟩

theorem two_members {α : Type} {l : List α} {a b : α} (ha : a ∈ l) (hb : b ∈ l) (h : a ≠ b) : 2 ≤ l.length := by
  match l, ha, hb with
  | [], ha, _ => cases ha
  | [x], ha, hb =>
    rw [List.mem_singleton] at ha hb
    exact absurd (ha.trans hb.symm) h
  | _ :: _ :: _, _, _ => simp

/-- What a report says about the calls. -/
def Recorded (gen : Nat → String → String) (k k' : Nat) (m : List (String × List String)) : Prop :=
  CallsOf gen k k' (renamed m) ∧ KeysNodup m ∧ ∀ p ∈ m, 2 ≤ p.2.length

theorem recorded_nil (gen : Nat → String → String) (k : Nat) : Recorded gen k k [] :=
  ⟨callsOf_nil gen k, keysNodup_nil, fun _ h => (nomatch h)⟩

theorem clean_recorded {w : World} {u : Updater} (hu : Registered w u) {o : Options} {k k' : Nat} {t : Node} {r : Result}
    (hc : clean u o k t = .ok (r, k')) : Recorded o.newId k k' r.remapped := by
  obtain ⟨rules, nss, ty, V, hr⟩ := registered_rules hu
  obtain ⟨dis, hdis, ⟨_, rfl, rfl⟩ | ⟨g, hg, rfl, rfl⟩⟩ := clean_cut hc
  · exact recorded_nil _ _
  · have hd := duplicates_spec hr hdis
    cases nss with
    | none => rw [show u.duplicates t = none from hd] at hg; cases hg
    | some ns =>
      obtain ⟨g', hg', hnd, hgr⟩ := hd
      rw [hg'] at hg
      cases hg
      obtain ⟨h1, h2⟩ := calls_groups o.newId g k t (fun x hx c hc => ((((hgr x.1 x.2).1 hx).2.2 c).1 hc).2.2.2)
      refine ⟨h1, ?_, ?_⟩
      · have := congrArg (List.map Prod.fst) h2
        rw [List.map_map, List.map_map] at this
        show (List.map _ _).Nodup
        rw [show (List.map (fun p : String × List String => p.1) (cleanDuplicates o.newId g k t).2.2) = g.map (·.1) from this]
        exact hnd
      · intro p hp
        have : (p.1, p.2.length) ∈ g.map (fun g => (g.1, g.2.length)) := h2 ▸ List.mem_map.2 ⟨p, hp, rfl⟩
        obtain ⟨x, hx, e⟩ := List.mem_map.1 this
        obtain ⟨⟨c, hc, d, hd, hne, hc', hd'⟩, _, hall⟩ := (hgr x.1 x.2).1 hx
        have := two_members ((hall c).2 ⟨hc, hc'⟩) ((hall d).2 ⟨hd, hd'⟩) hne
        rw [← (Prod.mk.inj e).2]
        exact this

theorem step_recorded {w : World} {u : Updater} (hu : Registered w u) {o : Options} {force : Bool} {k k' : Nat} {t : Node} {r : Result}
    (h : stepUpdate u o force k t = .ok (r, k')) : Recorded o.newId k k' r.remapped := by
  obtain ⟨r1, _, _, hm, ⟨rfl, rfl⟩ | hc⟩ := step_parts h
  · rw [hm]; exact recorded_nil _ _
  · rw [hm]; exact clean_recorded hu hc

/-- A step that never looks for shared ids. -/
def Mute (u : Updater) : Prop := ∀ t d, u.disallowed t = .ok d → u.duplicates t = none

theorem mute_step {u : Updater} (hu : Mute u) {o : Options} {force : Bool} {k k' : Nat} {t : Node} {r : Result}
    (h : stepUpdate u o force k t = .ok (r, k')) : r.remapped = [] ∧ k' = k := by
  obtain ⟨r1, _, _, hm, ⟨rfl, rfl⟩ | hc⟩ := step_parts h
  · exact ⟨hm, rfl⟩
  · obtain ⟨dis, hdis, ⟨_, rfl, rfl⟩ | ⟨g, hg, _, _⟩⟩ := clean_cut hc
    · exact ⟨hm, rfl⟩
    · rw [hu t dis hdis] at hg; cases hg

theorem mute_stix {w : World} {v : String} {u : Updater} (h : assoc (stixUpdaters w) v = some u) (hv : v ≠ "1.0.1") : Mute u := by
  have := assoc_mem h
  simp only [stixUpdaters, List.mem_cons, Prod.mk.injEq, List.not_mem_nil, or_false] at this
  rcases this with ⟨_, rfl⟩ | ⟨h1, rfl⟩ | ⟨_, rfl⟩ | ⟨_, rfl⟩ | ⟨_, rfl⟩
  · exact fun _ _ _ => rfl
  · exact absurd h1 hv
  · exact fun _ _ _ => rfl
  · exact fun _ _ _ => rfl
  · intro t d h; cases h

theorem mute_cybox {v : String} {u : Updater} (h : assoc cyboxUpdaters v = some u) (hv : v ≠ "2.0.1") : Mute u := by
  have := assoc_mem h
  simp only [cyboxUpdaters, List.mem_cons, Prod.mk.injEq, List.not_mem_nil, or_false] at this
  rcases this with ⟨_, rfl⟩ | ⟨h1, rfl⟩
  · exact fun _ _ _ => rfl
  · exact absurd h1 hv

theorem dictUpdate_fresh {β : Type} : ∀ (b a : List (String × β)), KeysNodup (a ++ b) → dictUpdate a b = a ++ b
  | [], a, _ => by simp [dictUpdate]
  | (k, v) :: b, a, h => by
    have hk : k ∉ a.map (·.1) := by
      unfold KeysNodup at h
      rw [List.map_append, List.nodup_append] at h
      exact fun hm => h.2.2 k hm k (by simp) rfl
    have hs : dictSet a k v = a ++ [(k, v)] := by
      clear h
      induction a with
      | nil => rfl
      | cons x xs ih =>
        simp only [List.map_cons, List.mem_cons, not_or] at hk
        simp only [dictSet, if_neg (Ne.symm hk.1), ih hk.2, List.cons_append]
    have := dictUpdate_fresh b (a ++ [(k, v)]) (by rw [List.append_assoc]; exact h)
    show dictUpdate (dictSet a k v) b = _
    rw [hs, this, List.append_assoc]
    rfl

theorem mute_chain {reg : List (String × Updater)} {loud : String} (hreg : ∀ v u, assoc reg v = some u → v ≠ loud → Mute u)
    {o : Options} {force : Bool} : ∀ (vs : List String) (acc : Result) (k : Nat) (r : Result) (k' : Nat), loud ∉ vs →
    chainLoop reg o force vs acc k = .ok (r, k') → r.remapped = acc.remapped ∧ k' = k
  | [], acc, k, r, k', _, h => by
    simp only [chainLoop, Except.ok.injEq, Prod.mk.injEq] at h
    exact ⟨by rw [h.1], h.2.symm⟩
  | v :: vs, acc, k, r, k', hv, h => by
    simp only [List.mem_cons, not_or] at hv
    simp only [chainLoop] at h
    split at h
    · cases h
    · next u hu =>
      split at h
      · cases h
      · next r1 k1 hs =>
        obtain ⟨h1, h2⟩ := mute_step (hreg v u hu (Ne.symm hv.1)) hs
        obtain ⟨h3, h4⟩ := mute_chain hreg vs _ k1 r k' hv.2 h
        refine ⟨h3.trans ?_, h4.trans h2⟩
        show dictUpdate acc.remapped r1.remapped = _
        rw [h1]
        rfl

theorem chain_recorded {w : World} {reg : List (String × Updater)} {loud : String}
    (hreg : ∀ v u, assoc reg v = some u → Registered w u ∧ (v ≠ loud → Mute u))
    {o : Options} {force : Bool} : ∀ (vs : List String) (acc : Result) (k : Nat) (r : Result) (k' : Nat), vs.Nodup →
    acc.remapped = [] → chainLoop reg o force vs acc k = .ok (r, k') → Recorded o.newId k k' r.remapped
  | [], acc, k, r, k', _, ha, h => by
    simp only [chainLoop, Except.ok.injEq, Prod.mk.injEq] at h
    rw [← h.1, ← h.2, ha]
    exact recorded_nil _ _
  | v :: vs, acc, k, r, k', hv, ha, h => by
    have hv := List.nodup_cons.1 hv
    simp only [chainLoop] at h
    split at h
    · cases h
    · next u hu =>
      split at h
      · cases h
      · next r1 k1 hs =>
        have hrec := step_recorded (hreg v u hu).1 hs
        have e : dictUpdate acc.remapped r1.remapped = r1.remapped := by
          rw [ha]
          exact dictUpdate_fresh _ [] hrec.2.1
        by_cases hl : v = loud
        · subst hl
          obtain ⟨h3, h4⟩ := mute_chain (fun v u hu => (hreg v u hu).2) vs _ k1 r k' hv.1 h
          rw [h3, h4]
          show Recorded _ _ _ (dictUpdate acc.remapped r1.remapped)
          rw [e]
          exact hrec
        · obtain ⟨h1, h2⟩ := mute_step ((hreg v u hu).2 hl) hs
          rw [← h2]
          exact chain_recorded hreg vs _ k1 r k' hv.2 (by show dictUpdate acc.remapped r1.remapped = []; rw [e, h1]) h

theorem update_recorded {w : World} {t : Node} {from_ to_ : Option String} {o : Options} {force : Bool} {k k' : Nat} {r : Result}
    (h : update w t from_ to_ o force k = .ok (r, k')) : Recorded o.newId k k' r.remapped := by
  have chain : ∀ vs reg f g loud, (∀ v u, assoc reg v = some u → Registered w u ∧ (v ≠ loud → Mute u)) → vs.Nodup →
      runChain vs reg t f g o force k = .ok (r, k') → Recorded o.newId k k' r.remapped := by
    intro vs reg f g loud hreg hvs h
    simp only [runChain] at h
    split at h
    · cases h
    · refine chain_recorded hreg _ _ _ _ _ ?_ rfl h
      exact hvs.sublist ((List.drop_sublist _ _).trans (List.take_sublist _ _))
  simp only [update] at h
  split at h
  · cases h
  · split at h
    · exact chain _ _ _ _ "1.0.1" (fun v u hu => ⟨registered_stix hu, mute_stix hu⟩) (by decide) h
    · split at h
      · split at h
        · cases h
        · simp only [cyboxUpdate] at h
          split at h
          · cases h
          · exact chain _ _ _ _ "2.0.1" (fun v u hu => ⟨registered_cybox hu, mute_cybox hu⟩) (by decide) h
      · cases h

/-! ## C76 -/

/-- C76.  After a successful update, the report of new ids, read in its order, is the record of the calls of the id function:
one pair of argument and result for every call, none left out and none twice.  An id has one entry, with at least two new ids. -/
theorem C76_calls (w : World) (t : Node) (from_ to_ : Option String) (o : Options) (force : Bool) (k k' : Nat) (r : Result)
    (h : update w t from_ to_ o force k = .ok (r, k')) :
    CallsOf o.newId k k' (renamed r.remapped) ∧ (r.remapped.map (·.1)).Nodup ∧ ∀ p ∈ r.remapped, 2 ≤ p.2.length :=
  update_recorded h

/-- Hence the id function is called exactly if the report of new ids is not empty, and then at least twice. -/
theorem C76_called (w : World) (t : Node) (from_ to_ : Option String) (o : Options) (force : Bool) (k k' : Nat) (r : Result)
    (h : update w t from_ to_ o force k = .ok (r, k')) :
    (k' = k ↔ r.remapped = []) ∧ (r.remapped ≠ [] → k + 2 ≤ k') := by
  obtain ⟨⟨h1, _⟩, _, h3⟩ := update_recorded h
  have two : r.remapped ≠ [] → k + 2 ≤ k' := by
    intro hne
    cases hm : r.remapped with
    | nil => exact absurd hm hne
    | cons p m =>
      have := h3 p (by rw [hm]; simp)
      rw [hm] at h1
      simp only [renamed, List.flatMap_cons, List.length_append, List.length_map] at h1
      omega
  refine ⟨⟨fun e => Classical.byContradiction fun hne => ?_, fun e => ?_⟩, two⟩
  · have := two hne
    omega
  · rw [e] at h1
    exact h1.symm

/-- The sample: two elements with one id; the function is called twice, at the calls 5 and 6. -/
example : ∃ r, update w0 cybox201bad none (some "2.1") o0 true 5 = .ok r ∧
    (renamed r.1.remapped = [("d", o0.newId 5 "d"), ("d", o0.newId 6 "d")] ∧ r.2 = 7) :=
  ok_of_eval (by decide +kernel)

/-- A STIX 1.0.1 document with two shared ids, each between two elements. -/
def docTwoShared : Node :=
  stixDoc "1.0.1" [el nsStix "Indicator" [at_ "id" "a"] [], el nsStix "Indicator" [at_ "id" "b"] [],
    el nsStix "Indicator" [at_ "id" "a"] [], el nsStix "Indicator" [at_ "id" "b"] []] []

/-- The calls follow the report, id by id, not the document. -/
example : ∃ r, update w0 docTwoShared none (some "1.1") o0 true 0 = .ok r ∧
    (renamed r.1.remapped = [("a", o0.newId 0 "a"), ("a", o0.newId 1 "a"), ("b", o0.newId 2 "b"), ("b", o0.newId 3 "b")] ∧
      r.2 = 4) :=
  ok_of_eval (by decide +kernel)

end Ramrod

import Verif.Props.Calls
/-!
# C79: A new id that is reported is found in the result or in a removed element
-/

namespace Ramrod

open Samples

/-! ## Specification vocabulary -/

/-- The id is on an element of the document or of one of the removed elements. -/
def Found (v : String) (doc : Node) (removed : List Node) : Prop :=
  v ∈ doc.vals ⟨none, "id"⟩ ∨ ∃ n ∈ removed, v ∈ n.vals ⟨none, "id"⟩

/-! ## Helpers -/

theorem clean_found {w : World} {u : Updater} (hu : Registered w u) {o : Options} {k k' : Nat} {t : Node} {r : Result}
    (hc : clean u o k t = .ok (r, k')) : ∀ p ∈ r.remapped, ∀ v ∈ p.2, Found v r.doc r.removed := by
  obtain ⟨rules, nss, ty, V, hr⟩ := registered_rules hu
  obtain ⟨F, l, ν, n, hF, hl, h1, h2, h3, h4, _, _, _, h5⟩ := clean_spec hr hc
  rintro ⟨i, ids⟩ hp v hv
  obtain ⟨ns, g, hns, hs, hg, rfl⟩ := (h5 i ids).1 hp
  obtain ⟨c, hcg, rfl⟩ := List.mem_map.1 hv
  obtain ⟨hct, hi⟩ := (hg.2 c).1 hcg
  have h0 : ν c ∈ (t.edit F).gather (fun e => (e.get? ⟨none, "id"⟩).toList) := by
    rw [Node.gather, held, List.mem_flatMap, elems_edit hF]
    refine ⟨c.upd F, List.mem_map.2 ⟨c, hct, rfl⟩, ?_⟩
    have : (c.upd F).e = c.e.set attrId (ν c) := h1 c hct ⟨ns, i, hns, hi, hs⟩
    rw [this]
    have : (c.e.set attrId (ν c)).get? ⟨none, "id"⟩ = some (ν c) := by rw [Elem.get?_set]; exact if_pos rfl
    rw [this]
    simp
  have := clean_holds (m := fun e => (e.get? ⟨none, "id"⟩).toList) (x := ν c) hF (t := t) (l := l)
    (fun c h => ((reportsAll_mem hl c).1 h).1)
  rw [← h3, ← h4, ← flat_vals, ← vals_gather, ← vals_gather] at this
  rw [← vals_gather] at h0
  have h0 := List.count_pos_iff.2 h0
  by_cases hd : ν c ∈ r.doc.vals ⟨none, "id"⟩
  · exact Or.inl hd
  · rw [List.count_eq_zero_of_not_mem hd] at this
    have : ν c ∈ r.removed.flatMap (Node.vals ⟨none, "id"⟩) := List.count_pos_iff.1 (by omega)
    exact Or.inr (List.mem_flatMap.1 this)

theorem step_found {w : World} {u : Updater} (hu : Registered w u) {o : Options} {force : Bool} {k k' : Nat} {t : Node} {r : Result}
    (h : stepUpdate u o force k t = .ok (r, k')) (hl : t.All Lossless) : ∀ p ∈ r.remapped, ∀ v ∈ p.2, Found v r.doc r.removed := by
  obtain ⟨r1, h1, h2, h3, ⟨rfl, _⟩ | hc⟩ := step_parts h
  · rw [h3]; exact fun _ hp => (nomatch hp)
  · have hl1 : r1.doc.All Lossless := clean_all hu hc (fun e e' hs ha => by unfold Lossless; rw [hs.1]; exact ha) hl
    obtain ⟨_, v2⟩ := update_lossless hu h1 hl1
    rw [h3, h2]
    intro p hp v hv
    unfold Found
    rw [v2 _ (by decide)]
    exact clean_found hu hc p hp v hv

theorem mute_found {w : World} {reg : List (String × Updater)} {loud : String}
    (hreg : ∀ v u, assoc reg v = some u → Registered w u ∧ (v ≠ loud → Mute u)) {o : Options} {force : Bool} {x : String} :
    ∀ (vs : List String) (acc : Result) (k : Nat) (r : Result) (k' : Nat), loud ∉ vs → acc.doc.All Lossless →
    Found x acc.doc acc.removed → chainLoop reg o force vs acc k = .ok (r, k') → Found x r.doc r.removed
  | [], acc, k, r, k', _, _, hx, h => by
    simp only [chainLoop, Except.ok.injEq, Prod.mk.injEq] at h
    rw [← h.1]
    exact hx
  | v :: vs, acc, k, r, k', hv, hl, hx, h => by
    simp only [List.mem_cons, not_or] at hv
    simp only [chainLoop] at h
    split at h
    · cases h
    · next u hu =>
      split at h
      · cases h
      · next r1 k1 hs =>
        obtain ⟨hr, hm⟩ := hreg v u hu
        obtain ⟨l1, i1, _⟩ := step_values hr hs hl
        refine mute_found hreg vs ⟨r1.doc, acc.removed ++ r1.removed, dictUpdate acc.remapped r1.remapped⟩ k1 r k' hv.2 l1 ?_ h
        rcases hx with hx | ⟨n, hn, hx⟩
        · rcases i1 x hx with h0 | ⟨n, hn, h0⟩ | ⟨ids, h0⟩
          · exact Or.inl h0
          · exact Or.inr ⟨n, List.mem_append_right _ hn, h0⟩
          · rw [(mute_step (hm (Ne.symm hv.1)) hs).1] at h0
            cases h0
        · exact Or.inr ⟨n, List.mem_append_left _ hn, hx⟩

theorem chain_found {w : World} {reg : List (String × Updater)} {loud : String}
    (hreg : ∀ v u, assoc reg v = some u → Registered w u ∧ (v ≠ loud → Mute u)) {o : Options} {force : Bool} :
    ∀ (vs : List String) (acc : Result) (k : Nat) (r : Result) (k' : Nat), vs.Nodup → acc.doc.All Lossless → acc.remapped = [] →
    chainLoop reg o force vs acc k = .ok (r, k') → ∀ p ∈ r.remapped, ∀ v ∈ p.2, Found v r.doc r.removed
  | [], acc, k, r, k', _, _, ha, h => by
    simp only [chainLoop, Except.ok.injEq, Prod.mk.injEq] at h
    rw [← h.1, ha]
    exact fun _ hp => (nomatch hp)
  | v :: vs, acc, k, r, k', hv, hl, ha, h => by
    have hv := List.nodup_cons.1 hv
    simp only [chainLoop] at h
    split at h
    · cases h
    · next u hu =>
      split at h
      · cases h
      · next r1 k1 hs =>
        obtain ⟨hr, hm⟩ := hreg v u hu
        obtain ⟨l1, _, _⟩ := step_values hr hs hl
        have e : dictUpdate acc.remapped r1.remapped = r1.remapped := by
          rw [ha]
          exact dictUpdate_fresh _ [] (step_recorded hr hs).2.1
        by_cases hl' : v = loud
        · subst hl'
          obtain ⟨h3, _⟩ := mute_chain (fun v u hu => (hreg v u hu).2) vs _ k1 r k' hv.1 h
          intro p hp x hx
          rw [h3] at hp
          have hp : p ∈ dictUpdate acc.remapped r1.remapped := hp
          rw [e] at hp
          refine mute_found hreg vs ⟨r1.doc, acc.removed ++ r1.removed, dictUpdate acc.remapped r1.remapped⟩ k1 r k' hv.1 l1 ?_ h
          rcases step_found hr hs hl p hp x hx with h0 | ⟨n, hn, h0⟩
          · exact Or.inl h0
          · exact Or.inr ⟨n, List.mem_append_right _ hn, h0⟩
        · refine chain_found hreg vs ⟨r1.doc, acc.removed ++ r1.removed, dictUpdate acc.remapped r1.remapped⟩ k1 r k' hv.2 l1 ?_ h
          show dictUpdate acc.remapped r1.remapped = []
          rw [e, (mute_step (hm hl') hs).1]

/-! ## C79 -/

/-- C79, cleaning: every new id that is reported is on an element of the cleaned document or of a removed copy. -/
theorem C79_clean (w : World) (u : Updater) (hu : Registered w u) (o : Options) (k k' : Nat) (t : Node) (r : Result)
    (hc : clean u o k t = .ok (r, k')) : ∀ p ∈ r.remapped, ∀ v ∈ p.2,
      v ∈ r.doc.vals ⟨none, "id"⟩ ∨ ∃ n ∈ r.removed, v ∈ n.vals ⟨none, "id"⟩ := clean_found hu hc

/-- C79 for whole updates, forced or not: every new id that is reported is on an element of the result or of a removed copy.
Partial: for documents without the elements that are replaced by others (see `C79_replaced_fails`). -/
theorem C79_update_partial (w : World) (t : Node) (from_ to_ : Option String) (o : Options) (force : Bool) (k k' : Nat) (r : Result)
    (h : update w t from_ to_ o force k = .ok (r, k')) (ht : ∀ c ∈ t.elems, c.e.tag ∉ lossyTags) : ∀ p ∈ r.remapped, ∀ v ∈ p.2,
      v ∈ r.doc.vals ⟨none, "id"⟩ ∨ ∃ n ∈ r.removed, v ∈ n.vals ⟨none, "id"⟩ := by
  have chain : ∀ vs reg f g loud, (∀ v u, assoc reg v = some u → Registered w u ∧ (v ≠ loud → Mute u)) → vs.Nodup →
      runChain vs reg t f g o force k = .ok (r, k') → ∀ p ∈ r.remapped, ∀ v ∈ p.2, Found v r.doc r.removed := by
    intro vs reg f g loud hreg hvs h
    simp only [runChain] at h
    split at h
    · cases h
    · refine chain_found hreg _ _ _ _ _ ?_ (all_elems.2 ht) rfl h
      exact hvs.sublist ((List.drop_sublist _ _).trans (List.take_sublist _ _))
  simp only [update] at h
  split at h
  · cases h
  · split at h
    · exact chain _ _ _ _ "1.0.1" (fun v u hu => ⟨registered_stix hu, mute_stix hu⟩) (by decide) h
    · split at h
      · split at h
        · cases h
        · simp only [cyboxUpdate] at h
          split at h
          · cases h
          · exact chain _ _ _ _ "2.0.1" (fun v u hu => ⟨registered_cybox hu, mute_cybox hu⟩) (by decide) h
      · cases h

/-- A CybOX 2.0.1 document with an id on three elements, one of them inside an untranslatable element. -/
def docHeld : Node :=
  cyboxDoc v201 [el nsCyboxCore "Observable" [at_ "id" "d"] [], el nsCyboxCore "Observable" [at_ "id" "d"] [],
    el nsHTTPSession "X_Forwarded_Proto" [] [el nsCyboxCore "Observable" [at_ "id" "d"] []]]

/-- The sample: two of the new ids are in the result, the third in the removed element. -/
example : (∀ c ∈ docHeld.elems, c.e.tag ∉ lossyTags) ∧ ∃ r, update w0 docHeld none none o0 true 0 = .ok r ∧
    (r.1.remapped = [("d", [o0.newId 0 "d", o0.newId 1 "d", o0.newId 2 "d"])] ∧
      r.1.doc.vals ⟨none, "id"⟩ = [o0.newId 0 "d", o0.newId 1 "d"] ∧
      r.1.removed.flatMap (Node.vals ⟨none, "id"⟩) = [o0.newId 2 "d"]) :=
  ⟨by decide +kernel, ok_of_eval (by decide +kernel)⟩

/-- A 1.0.1 package whose list of contributors has the id of another element. -/
def docReplacedId : Node :=
  stixDoc "1.0.1" [el nsCommon "Contributors" [at_ "id" "l"] [], el nsTTP "Resources" [at_ "id" "l"] []]

/-- C79 fails where elements are replaced: the list of contributors gets a new id, which is reported, and is then built anew without
it; the id is neither in the result nor in a removed element. -/
theorem C79_replaced_fails : ∃ r, update w0 docReplacedId none (some "1.1") o0 true 0 = .ok r ∧
    (r.1.remapped = [("l", [o0.newId 0 "l", o0.newId 1 "l"])] ∧ r.1.doc.vals ⟨none, "id"⟩ = [o0.newId 1 "l"] ∧ r.1.removed = [] ∧
      o0.newId 0 "l" ≠ o0.newId 1 "l") :=
  ok_of_eval (by decide +kernel)

end Ramrod

import Verif.Props.SchemaLoc
import Verif.Props.Versions
/-!
# Schema locations of the release reached: C48
-/

namespace Ramrod

open Samples

/-! ## Statement -/

/-- The locations of the schemas of a STIX release: ramrod/stix/stix_1_0.py:172-197, stix_1_0_1.py:323-349, stix_1_1.py:245-271,
stix_1_1_1.py:65-91. -/
def stixLocations : String → List (String × String)
  | "1.0.1" => Tables.stix10_schemalocMap
  | "1.1" => Tables.stix101_schemalocMap
  | "1.1.1" => Tables.stix11_schemalocMap
  | "1.2" => Tables.stix111_schemalocMap
  | _ => []

/-- The locations of the schemas of a CybOX release: ramrod/cybox/cybox_2_0.py:124-207, cybox_2_0_1.py:414-508. -/
def cyboxLocations : String → List (String × String)
  | "2.0.1" => Tables.cybox20_schemalocMap
  | "2.1" => Tables.cybox201_schemalocMap
  | _ => []

/-- The CybOX release that the step to a STIX release updates embedded content to. -/
def cyboxWith : String → String
  | "1.0.1" => "2.0.1"
  | "1.1" => "2.1"
  | "1.1.1" => "2.1"
  | _ => ""

/-- `loc` points to a schema for `ns` as a release publishes it: it is `…/M.m…/file`, where `-M` ends the namespace, and the version
ends in `.1` for a corrected release, and has no third part (or a zero) for others. -/
def Fits (corrected : Bool) (ns loc : List Char) : Prop :=
  ∃ pre base file major minor, ns = pre ++ ['-', major] ∧ '/' ∉ file ∧ minor.isDigit = true ∧
    ∃ rest, loc = base ++ ['/', major, '.', minor] ++ rest ++ '/' :: file ∧
      rest ∈ if corrected then [['.', '1']] else [[], ['.', '0']]

/-- The releases that correct the one before. -/
def correctedReleases : List String := ["1.0.1", "1.1.1", "2.0.1"]

/-! ## Tables -/

/-- `Fits`, computed from the end. -/
def fitsB (corrected : Bool) (ns loc : List Char) : Bool :=
  match ns.reverse, (loc.reverse.dropWhile (fun c => c != '/')), corrected with
  | m :: '-' :: _, '/' :: '1' :: '.' :: n :: '.' :: m' :: '/' :: _, true => m == m' && n.isDigit
  | m :: '-' :: _, '/' :: '0' :: '.' :: n :: '.' :: m' :: '/' :: _, false => m == m' && n.isDigit
  | m :: '-' :: _, '/' :: n :: '.' :: m' :: '/' :: _, false => m == m' && n.isDigit
  | _, _, _ => false

theorem split_file (loc : List Char) :
    loc = (loc.reverse.dropWhile (fun c => c != '/')).reverse ++ (loc.reverse.takeWhile (fun c => c != '/')).reverse ∧
    '/' ∉ (loc.reverse.takeWhile (fun c => c != '/')).reverse := by
  constructor
  · rw [← List.reverse_append, List.takeWhile_append_dropWhile, List.reverse_reverse]
  · intro h
    have := List.all_takeWhile (l := loc.reverse) (p := fun c => c != '/')
    have := List.all_eq_true.1 this _ (List.mem_reverse.1 h)
    simp at this

theorem fits_of {corrected : Bool} {ns loc : List Char} (h : fitsB corrected ns loc = true) : Fits corrected ns loc := by
  unfold fitsB at h
  obtain ⟨h1, h2⟩ := split_file loc
  split at h
  · next m pre n m' base hn hl =>
    simp only [Bool.and_eq_true, beq_iff_eq] at h
    rw [hl] at h1
    generalize (loc.reverse.takeWhile (fun c => c != '/')).reverse = file at h1 h2
    refine ⟨pre.reverse, base.reverse, file, m, n, by rw [← List.reverse_reverse ns, hn]; simp, h2, h.2, ['.', '1'], ?_, by simp⟩
    rw [h1, h.1]; simp
  · next m pre n m' base hn hl =>
    simp only [Bool.and_eq_true, beq_iff_eq] at h
    rw [hl] at h1
    generalize (loc.reverse.takeWhile (fun c => c != '/')).reverse = file at h1 h2
    refine ⟨pre.reverse, base.reverse, file, m, n, by rw [← List.reverse_reverse ns, hn]; simp, h2, h.2, ['.', '0'], ?_, by simp⟩
    rw [h1, h.1]; simp
  · next _ m pre n m' base hn hl =>
    simp only [Bool.and_eq_true, beq_iff_eq] at h
    rw [hl] at h1
    generalize (loc.reverse.takeWhile (fun c => c != '/')).reverse = file at h1 h2
    refine ⟨pre.reverse, base.reverse, file, m, n, by rw [← List.reverse_reverse ns, hn]; simp, h2, h.2, [], ?_, by simp⟩
    rw [h1, h.1]; simp
  · cases h

theorem fits_ofList {b : Bool} {ns loc : List Char} (h : fitsB b ns loc = true) :
    Fits b (String.ofList ns).toList (String.ofList loc).toList := by
  rw [String.toList_ofList, String.toList_ofList]; exact fits_of h

/-- All entries fit, one by one (evaluating `toList` on a literal is slow). -/
macro "all_fit" : tactic =>
  `(tactic| (simp only [List.forall_mem_cons]
             repeat (first | exact List.forall_mem_nil _ | refine ⟨fits_ofList (by decide +kernel), ?_⟩)))

theorem fits_cybox20 : ∀ p ∈ Tables.cybox20_schemalocMap, Fits true p.1.toList p.2.toList := by
  unfold Tables.cybox20_schemalocMap; all_fit
theorem fits_cybox201 : ∀ p ∈ Tables.cybox201_schemalocMap, Fits false p.1.toList p.2.toList := by
  unfold Tables.cybox201_schemalocMap; all_fit
theorem fits_stix10 : ∀ p ∈ Tables.stix10_schemalocMap, Fits true p.1.toList p.2.toList := by
  unfold Tables.stix10_schemalocMap; all_fit
theorem fits_stix101 : ∀ p ∈ Tables.stix101_schemalocMap, Fits false p.1.toList p.2.toList := by
  unfold Tables.stix101_schemalocMap; all_fit
theorem fits_stix11 : ∀ p ∈ Tables.stix11_schemalocMap, Fits true p.1.toList p.2.toList := by
  unfold Tables.stix11_schemalocMap; all_fit
theorem fits_stix111 : ∀ p ∈ Tables.stix111_schemalocMap, Fits false p.1.toList p.2.toList := by
  unfold Tables.stix111_schemalocMap; all_fit

theorem stix_fits {g ns loc : String} (h : (ns, loc) ∈ stixLocations g) :
    Fits (decide (g ∈ correctedReleases)) ns.toList loc.toList := by
  unfold stixLocations at h
  split at h
  · exact fits_stix10 _ h
  · exact fits_stix101 _ h
  · exact fits_stix11 _ h
  · exact fits_stix111 _ h
  · cases h

theorem cybox_fits {g ns loc : String} (h : (ns, loc) ∈ cyboxLocations g) :
    Fits (decide (g ∈ correctedReleases)) ns.toList loc.toList := by
  unfold cyboxLocations at h
  split at h
  · exact fits_cybox20 _ h
  · exact fits_cybox201 _ h
  · cases h

/-- The text starts like a CybOX namespace. -/
def cyboxNs (cs : List Char) : Bool := (['h', 't', 't', 'p', ':', '/', '/', 'c', 'y', 'b', 'o', 'x', '.']).isPrefixOf cs

theorem cyboxNs_ofList {cs : List Char} {b : Bool} (h : cyboxNs cs = b) : cyboxNs (String.ofList cs).toList = b := by
  rw [String.toList_ofList]; exact h

/-- All namespaces are CybOX ones, or none is. -/
macro "all_ns" : tactic =>
  `(tactic| (simp only [List.forall_mem_cons]
             repeat (first | exact List.forall_mem_nil _ | refine ⟨cyboxNs_ofList (by decide +kernel), ?_⟩)))

theorem ns_cybox20 : ∀ p ∈ Tables.cybox20_schemalocMap, cyboxNs p.1.toList = true := by
  unfold Tables.cybox20_schemalocMap; all_ns
theorem ns_cybox201 : ∀ p ∈ Tables.cybox201_schemalocMap, cyboxNs p.1.toList = true := by
  unfold Tables.cybox201_schemalocMap; all_ns
theorem ns_stix10 : ∀ p ∈ Tables.stix10_schemalocMap, cyboxNs p.1.toList = false := by
  unfold Tables.stix10_schemalocMap; all_ns
theorem ns_stix101 : ∀ p ∈ Tables.stix101_schemalocMap, cyboxNs p.1.toList = false := by
  unfold Tables.stix101_schemalocMap; all_ns
theorem ns_stix11 : ∀ p ∈ Tables.stix11_schemalocMap, cyboxNs p.1.toList = false := by
  unfold Tables.stix11_schemalocMap; all_ns

/-- A namespace of the one table is not in the other. -/
theorem tables_apart {A B : List (String × String)} (hA : ∀ p ∈ A, cyboxNs p.1.toList = true)
    (hB : ∀ p ∈ B, cyboxNs p.1.toList = false) {ns l : String} (h : assoc A ns = some l) : assoc B ns = none := by
  cases hb : assoc B ns with
  | none => rfl
  | some l' =>
    have h1 := hA _ (assoc_mem h)
    have h2 := hB _ (assoc_mem hb)
    rw [h1] at h2
    cases h2

/-! ## One step -/

theorem rewrite_known {T : LocTables} {p q : String × String} (h : T.rewrite p = some q) {l : String}
    (hl : assoc T.locations q.1 = some l) : q.2 = l := by
  unfold LocTables.rewrite at h
  split at h
  · cases h
  · simp only [Option.some.injEq] at h
    subst h
    simp only at hl ⊢
    rw [hl]

theorem rewrite_unknown {T : LocTables} (hT : T.renamed = []) {p q : String × String} (h : T.rewrite p = some q)
    (hl : assoc T.locations q.1 = none) : q = p := by
  unfold LocTables.rewrite at h
  split at h
  · cases h
  · simp only [hT, assoc, Option.some.injEq] at h
    subst h
    simp only at hl
    rw [hl]

theorem rewrite_one {T : LocTables} {ps : List (String × String)} {q : String × String} (h : q ∈ rewriteAll [T] ps) {l : String}
    (hl : assoc T.locations q.1 = some l) : q.2 = l := by
  simp only [rewriteAll, List.foldl_cons, List.foldl_nil] at h
  obtain ⟨p, _, hp⟩ := List.mem_filterMap.1 h
  exact rewrite_known hp hl

theorem rewrite_two {T T' : LocTables} (hT : T'.renamed = []) {ps : List (String × String)} {q : String × String}
    (h : q ∈ rewriteAll [T, T'] ps) {l : String} :
    (assoc T'.locations q.1 = some l → q.2 = l) ∧
    (assoc T.locations q.1 = some l → assoc T'.locations q.1 = none → q.2 = l) := by
  simp only [rewriteAll, List.foldl_cons, List.foldl_nil] at h
  obtain ⟨p, hp, hq⟩ := List.mem_filterMap.1 h
  obtain ⟨p0, _, hp⟩ := List.mem_filterMap.1 hp
  refine ⟨rewrite_known hq, fun hl hn => ?_⟩
  have := rewrite_unknown hT hq hn
  subst this
  exact rewrite_known hp hl

/-- The attribute of schema locations. -/
def schemaLocation : QName := ⟨some "http://www.w3.org/2001/XMLSchema-instance", "schemaLocation"⟩

/-- The pairs on the root of the result are rewritten pairs. -/
theorem step_pairs {w : World} {u : Updater} {Ts : List LocTables} (hT : StepTables w u Ts) {o : Options} {force : Bool}
    {k k' : Nat} {t : Node} {r : Result} (h : stepUpdate u o force k t = .ok (r, k')) {v : String}
    (hv : rootAttr r.doc schemaLocation = some v) : ∃ ps, getSchemalocPairs v = rewriteAll Ts ps := by
  have H := C17_schemaLocation_exact w u Ts hT o force k t r k' h
  cases ht : rootAttr t schemaLocation with
  | none => rw [show rootAttr r.doc schemaLocation = none from H.1 ht] at hv; cases hv
  | some v0 =>
    obtain ⟨v', h', hw⟩ := H.2 v0 _ ht ((listsPairs_iff _ _).2 rfl)
    rw [show rootAttr r.doc schemaLocation = some v' from h'] at hv
    cases hv
    refine ⟨_, (listsPairs_iff v (rewriteAll Ts (getSchemalocPairs v0))).1 ⟨[], by simp, ?_⟩⟩
    rw [List.append_nil]
    exact hw

/-- The step to a STIX release gives every namespace known to this release its location. -/
theorem stix_known {w : World} {v : String} {u : Updater} (hu : assoc (stixUpdaters w) v = some u) {o : Options} {force : Bool}
    {k k' : Nat} {t : Node} {r : Result} (h : stepUpdate u o force k t = .ok (r, k')) {s : String}
    (hs : rootAttr r.doc schemaLocation = some s) {p : String × String} (hp : p ∈ getSchemalocPairs s) {l : String}
    (hl : assoc (stixLocations (stixNext v)) p.1 = some l ∨ assoc (cyboxLocations (cyboxWith (stixNext v))) p.1 = some l) : p.2 = l := by
  have hm := assoc_mem hu
  simp only [stixUpdaters, List.mem_cons, List.not_mem_nil, or_false, Prod.mk.injEq] at hm
  rcases hm with ⟨rfl, rfl⟩ | ⟨rfl, rfl⟩ | ⟨rfl, rfl⟩ | ⟨rfl, rfl⟩ | ⟨rfl, rfl⟩
  · obtain ⟨ps, e⟩ := step_pairs (w := w) StepTables.stix10 h hs
    have := rewrite_two (l := l) rfl (e ▸ hp)
    exact hl.elim this.1 (fun hl => this.2 hl (tables_apart ns_cybox20 ns_stix10 hl))
  · obtain ⟨ps, e⟩ := step_pairs StepTables.stix101 h hs
    have := rewrite_two (l := l) rfl (e ▸ hp)
    exact hl.elim this.1 (fun hl => this.2 hl (tables_apart ns_cybox201 ns_stix101 hl))
  · obtain ⟨ps, e⟩ := step_pairs StepTables.stix11 h hs
    have := rewrite_two (l := l) rfl (e ▸ hp)
    exact hl.elim this.1 (fun hl => this.2 hl (tables_apart ns_cybox201 ns_stix11 hl))
  · obtain ⟨ps, e⟩ := step_pairs (w := w) StepTables.stix111 h hs
    exact hl.elim (fun hl => rewrite_one (e ▸ hp) hl) (fun hl => by cases hl)
  · exact hl.elim (fun hl => by cases hl) (fun hl => by cases hl)

theorem cybox_known {v : String} {u : Updater} (hu : assoc cyboxUpdaters v = some u) {o : Options} {force : Bool}
    {k k' : Nat} {t : Node} {r : Result} (h : stepUpdate u o force k t = .ok (r, k')) {s : String}
    (hs : rootAttr r.doc schemaLocation = some s) {p : String × String} (hp : p ∈ getSchemalocPairs s) {l : String}
    (hl : assoc (cyboxLocations (if v = "2.0" then "2.0.1" else "2.1")) p.1 = some l) : p.2 = l := by
  have hm := assoc_mem hu
  simp only [cyboxUpdaters, List.mem_cons, List.not_mem_nil, or_false, Prod.mk.injEq] at hm
  rcases hm with ⟨rfl, rfl⟩ | ⟨rfl, rfl⟩
  · obtain ⟨ps, e⟩ := step_pairs (w := w0) StepTables.cybox20 h hs
    exact rewrite_one (e ▸ hp) hl
  · obtain ⟨ps, e⟩ := step_pairs (w := w0) StepTables.cybox201 h hs
    exact rewrite_one (e ▸ hp) hl

/-! ## C48 -/

/-- C48 for STIX: after an update of a package to a release, from any other, forced or not, every pair on the root whose namespace
the release knows has the location that the release publishes, and this location fits the namespace and the release.  Likewise for
the namespaces of the CybOX release that goes with it.
Partial: for the target 1.2.1 no locations are known; see `C48_final_fails`. -/
theorem C48_stix_partial (w : World) (t : Node) (from_ to_ : Option String) (o : Options) (force : Bool) (k k' : Nat) (r : Result)
    (root : Elem) (hroot : t.root? = some root) (htag : root.tag = packageTag) (g : String)
    (hg : inForce to_ (some "1.2.1") = some g) (h : update w t from_ to_ o force k = .ok (r, k')) (v : String)
    (hv : rootAttr r.doc schemaLocation = some v) (ps : List (String × String)) (hps : ListsPairs v ps) :
    ∀ p ∈ ps, ∀ l,
      (assoc (stixLocations g) p.1 = some l → p.2 = l ∧ Fits (decide (g ∈ correctedReleases)) p.1.toList p.2.toList) ∧
      (assoc (cyboxLocations (cyboxWith g)) p.1 = some l →
        p.2 = l ∧ Fits (decide (cyboxWith g ∈ correctedReleases)) p.1.toList p.2.toList) := by
  rw [← (listsPairs_iff v ps).1 hps]
  intro p hp l
  obtain ⟨ks, rfl⟩ := root_some hroot
  rw [(C01_dispatch w root ks from_ to_ o force k).1 (by rw [htag]; rfl)] at h
  obtain ⟨s, hs, hold⟩ := stix_ok_range hg h
  rw [stixUpdate_accepted w _ o force k hs hg hold] at h
  have hm := older_mem hold
  obtain ⟨x, _, hb, hnext, _, _⟩ := stix_between_last s hm.1 g hm.2 ((older_iff stix_nodup hm.1 hm.2).1 hold)
  rw [hb] at h
  have key : assoc (stixLocations g) p.1 = some l ∨ assoc (cyboxLocations (cyboxWith g)) p.1 = some l → p.2 = l := by
    intro hl
    refine chainLoop_last (T := fun _ => True) (R := fun d => rootAttr d schemaLocation = some v → p.2 = l) ?_ _ _ _ r k'
      (fun _ _ _ _ _ _ _ _ _ _ => trivial) trivial h hv
    intro u hu k t r k' _ hst hv
    exact stix_known hu hst hv hp (hnext ▸ hl)
  exact ⟨fun hl => ⟨key (Or.inl hl), key (Or.inl hl) ▸ stix_fits (assoc_mem hl)⟩, fun hl => ⟨key (Or.inr hl), key (Or.inr hl) ▸ cybox_fits (assoc_mem hl)⟩⟩

/-- C48 for CybOX. -/
theorem C48_cybox (w : World) (t : Node) (from_ to_ : Option String) (o : Options) (force : Bool) (k k' : Nat) (r : Result)
    (root : Elem) (hroot : t.root? = some root) (htag : root.tag = observablesTag) (g : String)
    (hg : inForce to_ (some "2.1") = some g) (h : update w t from_ to_ o force k = .ok (r, k')) (v : String)
    (hv : rootAttr r.doc schemaLocation = some v) (ps : List (String × String)) (hps : ListsPairs v ps) :
    ∀ p ∈ ps, ∀ l, assoc (cyboxLocations g) p.1 = some l → p.2 = l ∧ Fits (decide (g ∈ correctedReleases)) p.1.toList p.2.toList := by
  rw [← (listsPairs_iff v ps).1 hps]
  intro p hp l hl
  obtain ⟨ks, rfl⟩ := root_some hroot
  rw [(C01_dispatch w root ks from_ to_ o force k).2.1 (by rw [htag]; rfl)] at h
  obtain ⟨s, hs, hold⟩ := cybox_ok_range hg h
  rw [cyboxUpdate_accepted _ o force k hs hg hold] at h
  have hm := older_mem hold
  obtain ⟨x, _, hb, hnext⟩ := cybox_between_last s hm.1 g hm.2 ((older_iff cybox_nodup hm.1 hm.2).1 hold)
  rw [hb] at h
  have key : p.2 = l := by
    refine chainLoop_last (T := fun _ => True) (R := fun d => rootAttr d schemaLocation = some v → p.2 = l) ?_ _ _ _ r k'
      (fun _ _ _ _ _ _ _ _ _ _ => trivial) trivial h hv
    intro u hu k t r k' _ hst hv
    exact cybox_known hu hst hv hp (hnext ▸ hl)
  exact ⟨key, key ▸ cybox_fits (assoc_mem hl)⟩

/-- The releases know their core schemas, whose locations carry the number of the release; so for these C48 says: the location
after an update is that of the target. -/
theorem C48_core :
    (∀ g ∈ ["1.0.1", "1.1", "1.1.1", "1.2"],
      assoc (stixLocations g) "http://stix.mitre.org/stix-1" = some ("http://stix.mitre.org/XMLSchema/core/" ++ g ++ "/stix_core.xsd")) ∧
    (∀ g ∈ ["2.0.1", "2.1"],
      assoc (cyboxLocations g) "http://cybox.mitre.org/cybox-2" =
        some ("http://cybox.mitre.org/XMLSchema/core/" ++ g ++ "/cybox_core.xsd")) := by
  decide +kernel

/-- The namespaces that the step from a release declares. -/
def declared : String → List String
  | "1.0.1" => Tables.stix101_nsmap.map (·.2)
  | "1.1" => Tables.stix11_nsmap.map (·.2)
  | "1.1.1" => Tables.stix111_nsmap.map (·.2)
  | "1.2" => Tables.stix12_nsmap.map (·.2)
  | "2.0.1" => Tables.cybox201_nsmap.map (·.2)
  | _ => []

/-- The identity extension under the namespace that the steps declare. -/
def ciqNs : String := "http://stix.mitre.org/extensions/Identity#stix-ciq3.0-1"
/-- The CAPEC extension of release 1.1. -/
def capecNs : String := "http://stix.mitre.org/extensions/AP#CAPEC2.7-1"

/-- Where the namespaces that the step from a release declares are in the table of locations; after the table, these two. -/
def declaredAt : String → List Nat
  | "1.0.1" =>
    [3, 12, 13, 4, 5, 16, 17, 6, 7, 15, 0, 19, 18, 1, 20, 23, 24, 10, 11, 9, 2, 8, 22, 21]
  | "1.1" =>
    [3, 4, 5, 6, 17, 18, 7, 8, 0, 1, 21, 24, 26, 14, 25, 23, 16, 20, 19, 11, 12, 10, 2, 9, 22]
  | "1.1.1" =>
    [3, 4, 5, 6, 17, 18, 7, 8, 0, 1, 21, 24, 13, 14, 25, 23, 16, 20, 19, 11, 12, 10, 2, 9, 22]
  | "1.2" =>
    [24]
  | "2.0.1" =>
    [4, 5, 6, 7, 8, 9, 10, 11, 12, 13, 14, 15, 16, 17, 18, 19, 20, 21, 22, 23, 24, 25, 26, 28, 27, 29, 30, 31, 32, 33, 34,
     35, 36, 37, 38, 39, 40, 41, 42, 43, 44, 45, 46, 47, 48, 49, 50, 51, 52, 53, 54, 55, 56, 57, 58, 59, 60, 61, 62, 63, 64,
     65, 66, 67, 68, 69, 70, 71, 72, 73, 74, 75, 76, 77, 78, 79, 80, 81, 1, 0, 2, 3]
  | _ => []

/-- All entries of `ns` are at these places of `ks ++ [ciqNs, capecNs]`, and the last place is used only if `b`. -/
theorem places {ns ks : List String} {is : List Nat} {b : Bool} (h : ns = is.map (fun i => (ks ++ [ciqNs, capecNs]).getD i ""))
    (hi : ∀ i ∈ is, i ≤ ks.length + 1 ∧ (b = false → i ≤ ks.length)) (n : String) (hn : n ∈ ns) (hc : n ≠ ciqNs)
    (hb : b = true → n ≠ capecNs) : n ∈ ks := by
  rw [h] at hn
  obtain ⟨i, hm, rfl⟩ := List.mem_map.1 hn
  obtain ⟨h1, h2⟩ := hi i hm
  simp only [List.getD_eq_getElem?_getD] at hc hb ⊢
  by_cases h3 : i < ks.length
  · rw [List.getElem?_append_left h3, List.getElem?_eq_getElem h3]
    exact List.getElem_mem h3
  · exfalso
    rw [List.getElem?_append_right (by omega)] at hc hb
    by_cases h4 : i = ks.length
    · subst h4; simp at hc
    · have h5 : i - ks.length = 1 := by omega
      cases b with
      | false => have := h2 rfl; omega
      | true => rw [h5] at hb; simp at hb

/-- The step to a release knows a location for the namespaces that the step from this release declares, except a misspelt one.
Partial: in release 1.1, also the CAPEC extension is missing. -/
theorem C48_declared_partial :
    (∀ g ∈ ["1.0.1", "1.1", "1.1.1", "1.2"], ∀ n ∈ declared g, n ≠ "http://stix.mitre.org/extensions/Identity#stix-ciq3.0-1" →
      (g = "1.1" → n ≠ "http://stix.mitre.org/extensions/AP#CAPEC2.7-1") → n ∈ (stixLocations g).map (·.1)) ∧
    (∀ n ∈ declared "2.0.1", n ∈ (cyboxLocations "2.0.1").map (·.1)) := by
  constructor
  · simp only [List.forall_mem_cons]
    refine ⟨fun n hn hc _ => ?_, fun n hn hc hb => ?_, fun n hn hc _ => ?_, fun n hn hc _ => ?_, List.forall_mem_nil _⟩
    · exact places (is := declaredAt "1.0.1") (b := false) (by with_unfolding_all rfl) (by decide +kernel) n hn hc (by simp)
    · exact places (is := declaredAt "1.1") (b := true) (by with_unfolding_all rfl) (by decide +kernel) n hn hc (fun _ => hb trivial)
    · exact places (is := declaredAt "1.1.1") (b := false) (by with_unfolding_all rfl) (by decide +kernel) n hn hc (by simp)
    · exact places (is := declaredAt "1.2") (b := false) (by with_unfolding_all rfl) (by decide +kernel) n hn hc (by simp)
  · have h : declared "2.0.1" = (declaredAt "2.0.1").map (fun i => ((cyboxLocations "2.0.1").map (·.1)).getD i "") := by
      with_unfolding_all rfl
    rw [h]
    intro n hn
    obtain ⟨i, hi, rfl⟩ := List.mem_map.1 hn
    have : i < ((cyboxLocations "2.0.1").map (·.1)).length := by
      revert i; decide +kernel
    rw [List.getD_eq_getElem?_getD, List.getElem?_eq_getElem this]
    exact List.getElem_mem this

/-- Two namespaces are misspelt: the location of the CAPEC extension of release 1.1 is filed under a namespace that exists nowhere
else, and the identity extension is declared under a namespace for which no step has a location. -/
theorem C48_misspelt_fails :
    ("http://stix.mitre.org/extensions/AP#CAPEC2.7-1" ∈ declared "1.1" ∧
      "http://stix.mitre.org/extensions/AP#CAPEC2.7-1" ∉ (stixLocations "1.1").map (·.1) ∧
      "http://stix.mitre.org/extensions/AP#CAPECa2.7-1" ∈ (stixLocations "1.1").map (·.1) ∧
      ∀ g ∈ ["1.0.1", "1.1", "1.1.1", "1.2"], "http://stix.mitre.org/extensions/AP#CAPECa2.7-1" ∉ declared g) ∧
    (∀ g ∈ ["1.0.1", "1.1", "1.1.1"], "http://stix.mitre.org/extensions/Identity#stix-ciq3.0-1" ∈ declared g ∧
      "http://stix.mitre.org/extensions/Identity#stix-ciq3.0-1" ∉ (stixLocations g).map (·.1) ∧
      "http://stix.mitre.org/extensions/Identity#CIQIdentity3.0-1" ∈ (stixLocations g).map (·.1)) := by
  decide +kernel

/-- A package that lists two schemas, one known, in release `v`. -/
def docLoc48 (v : String) : Node :=
  stixDoc v [] [(tagSchemaLoc, "http://stix.mitre.org/stix-1 old.xsd urn:a a.xsd")]

/-- The hypotheses of `C48_stix_partial`, and what the pairs become. -/
example : ∃ r, update w0 (docLoc48 "1.1.1") none (some "1.2") o0 false 0 = .ok r ∧
    (rootAttr r.1.doc schemaLocation).map getSchemalocPairs =
      some [("http://stix.mitre.org/stix-1", "http://stix.mitre.org/XMLSchema/core/1.2/stix_core.xsd"), ("urn:a", "a.xsd")] :=
  ok_of_eval (by decide +kernel)

/-- The hypotheses of `C48_cybox`. -/
example : ∃ r, update w0 (cyboxDoc ((tagSchemaLoc, "http://cybox.mitre.org/cybox-2 c.xsd") :: v20) []) none none o0 false 0 = .ok r ∧
    (rootAttr r.1.doc schemaLocation).map getSchemalocPairs =
      some [("http://cybox.mitre.org/cybox-2", "http://cybox.mitre.org/XMLSchema/core/2.1/cybox_core.xsd")] :=
  ok_of_eval (by decide +kernel)

/-- C48 fails for the last release: the namespace is the new one, the location still that of release 1.2 or older. -/
theorem C48_final_fails :
    (∃ r, update w0 (docLoc48 "1.1.1") none none o0 false 0 = .ok r ∧
      ("http://docs.oasis-open.org/cti/ns/stix/core-1", "http://stix.mitre.org/XMLSchema/core/1.2/stix_core.xsd") ∈
        ((rootAttr r.1.doc schemaLocation).map getSchemalocPairs).getD []) ∧
    (∃ r, update w0 (docLoc48 "1.2") none none o0 false 0 = .ok r ∧
      ("http://docs.oasis-open.org/cti/ns/stix/core-1", "old.xsd") ∈
        ((rootAttr r.1.doc schemaLocation).map getSchemalocPairs).getD []) :=
  ⟨ok_of_eval (by decide +kernel), ok_of_eval (by decide +kernel)⟩

end Ramrod

import Verif.Lemmas.Dups
import Verif.Samples
/-!
# Dispatch, version ranges and chains: C01, C02, C03, C04, C07, C10, C11, C39, C40, C42
-/

namespace Ramrod

open Samples

/-! ## Specification vocabulary -/

/-- The STIX releases, oldest first. -/
def stixReleases : List String := ["1.0", "1.0.1", "1.1", "1.1.1", "1.2", "1.2.1"]
/-- The CybOX releases, oldest first. -/
def cyboxReleases : List String := ["2.0", "2.0.1", "2.1"]

/-- `s` was released before `g`. -/
def Older (releases : List String) (s g : String) : Prop :=
  ∃ i j : Nat, i < j ∧ releases[i]? = some s ∧ releases[j]? = some g

/-- The value in force: the argument unless it is missing or empty. -/
def inForce (arg dflt : Option String) : Option String :=
  match arg with
  | none => dflt
  | some "" => dflt
  | some v => some v

/-- `m` has the entries of `a` and of `b`, those of `b` taking precedence. -/
def Merged {β : Type} (a b m : List (String × β)) : Prop :=
  ∀ id, assoc m id = match assoc b id with | some x => some x | none => assoc a id

/-- Applying updaters one after the other, each to the previous result, until one raises; removed nodes
are concatenated, remapped ids merged. -/
inductive Runs (o : Options) (force : Bool) :
    List Updater → Node → Nat → Except Err (Result × Nat) → Prop
  | done (t : Node) (k : Nat) : Runs o force [] t k (.ok (⟨t, [], []⟩, k))
  | fail {u us t k x} : stepUpdate u o force k t = .error x → Runs o force (u :: us) t k (.error x)
  | later {u us t k r k1 x} : stepUpdate u o force k t = .ok (r, k1) →
      Runs o force us r.doc k1 (.error x) → Runs o force (u :: us) t k (.error x)
  | step {u us t k r k1 r2 k2 m} : stepUpdate u o force k t = .ok (r, k1) →
      Runs o force us r.doc k1 (.ok (r2, k2)) → Merged r.remapped r2.remapped m →
      Runs o force (u :: us) t k (.ok (⟨r2.doc, r.removed ++ r2.removed, m⟩, k2))

/-- The one-step STIX updaters by source release. -/
def stixStep (w : World) (v : String) : Option Updater :=
  match v with
  | "1.0" => some stix10
  | "1.0.1" => some (stix101 w)
  | "1.1" => some (stix11 w)
  | "1.1.1" => some stix111
  | "1.2" => some stix12
  | _ => none

/-- The one-step CybOX updaters by source release. -/
def cyboxStep (v : String) : Option Updater :=
  match v with
  | "2.0" => some cybox20
  | "2.0.1" => some cybox201
  | _ => none

/-- The releases `v` with `s ≤ v < g`, oldest first: the list cut before `g` and from `s` on. -/
def between (releases : List String) (s g : String) : List String :=
  (releases.takeWhile (fun v => v != g)).dropWhile (fun v => v != s)

/-! ## Helpers -/

theorem inForce_release {v : String} {d : Option String} (h : v ≠ "") : inForce (some v) d = some v := by
  unfold inForce
  split
  · next h' => cases h'
  · next h' => simp at h'; exact absurd h' h
  · next h' => exact h'.symm

theorem pyOr_eq_inForce (x d : Option String) : pyOr x d = inForce x d := by
  cases x with
  | none => rfl
  | some v =>
    by_cases h : v = ""
    · subst h; rfl
    · rw [inForce_release h]; simp [pyOr, falsy, h]

theorem pyOr_pyOr (x d : Option String) : pyOr (pyOr x d) d = pyOr x d := by
  unfold pyOr
  by_cases h : falsy x = true
  · simp [h]
  · simp [h]

/-- Order of the parsed versions is release order. -/
theorem stix_cmp_lt : ∀ f ∈ stixVersions, ∀ g ∈ stixVersions,
    (match parseVer f, parseVer g with
      | some a, some b => a.cmp b == .lt
      | _, _ => false) = decide (stixVersions.idxOf f < stixVersions.idxOf g) := by decide

theorem stix_parse : ∀ f ∈ stixVersions, (parseVer f).isSome = true := by decide

theorem cybox_cmp_lt : ∀ f ∈ cyboxVersions, ∀ g ∈ cyboxVersions,
    (match parseVer f, parseVer g with
      | some a, some b => a.cmp b == .lt
      | _, _ => false) = decide (cyboxVersions.idxOf f < cyboxVersions.idxOf g) := by decide

theorem cybox_parse : ∀ f ∈ cyboxVersions, (parseVer f).isSome = true := by decide

theorem idx_of_get {l : List String} (hn : l.Nodup) {i : Nat} {s : String} (h : l[i]? = some s) :
    l.idxOf s = i := by
  induction l generalizing i with
  | nil => simp at h
  | cons a as ih =>
    have hn' := List.nodup_cons.1 hn
    cases i with
    | zero => simp at h; subst h; simp
    | succ n =>
      simp at h
      have hne : a ≠ s := by
        intro e; subst e; exact hn'.1 (List.mem_of_getElem? h)
      have := ih hn'.2 h
      simp [List.idxOf_cons, beq_false_of_ne hne, this]

theorem getElem?_idxOf' {l : List String} {s : String} (h : s ∈ l) : l[l.idxOf s]? = some s := by
  induction l with
  | nil => cases h
  | cons a as ih =>
    by_cases ha : a = s
    · subst ha; simp
    · have := ih ((List.mem_cons.1 h).resolve_left (fun e => ha e.symm))
      simp [List.idxOf_cons, beq_false_of_ne ha, this]

theorem older_iff {l : List String} (hn : l.Nodup) {s g : String} (hs : s ∈ l) (hg : g ∈ l) :
    Older l s g ↔ l.idxOf s < l.idxOf g := by
  constructor
  · rintro ⟨i, j, hij, hi, hj⟩
    rw [idx_of_get hn hi, idx_of_get hn hj]; exact hij
  · intro h
    refine ⟨l.idxOf s, l.idxOf g, h, ?_, ?_⟩
    · exact getElem?_idxOf' hs
    · exact getElem?_idxOf' hg

/-- The outcome of `validate_versions` on two supported versions. -/
theorem validateVersions_both {l : List String} (hn : l.Nodup) (h0 : "" ∉ l)
    (hcmp : ∀ f ∈ l, ∀ g ∈ l,
      (match parseVer f, parseVer g with
        | some a, some b => a.cmp b == .lt
        | _, _ => false) = decide (l.idxOf f < l.idxOf g))
    (hp : ∀ f ∈ l, (parseVer f).isSome = true) {s g : String} (hs : s ∈ l) (hg : g ∈ l) :
    (Older l s g → (validateVersions (some s) (some g) l : Except Err _) = .ok (s, g)) ∧
    (¬ Older l s g → (validateVersions (some s) (some g) l : Except Err _) =
      .error (.invalidVersion none none none)) := by
  have hs0 : s ≠ "" := fun e => h0 (e ▸ hs)
  have hg0 : g ≠ "" := fun e => h0 (e ▸ hg)
  have h1 := hcmp s hs g hg
  obtain ⟨a, ha⟩ := Option.isSome_iff_exists.1 (hp s hs)
  obtain ⟨b, hb⟩ := Option.isSome_iff_exists.1 (hp g hg)
  rw [ha, hb] at h1
  simp only at h1
  have key : (validateVersions (some s) (some g) l : Except Err _) =
      if a.cmp b == .lt then .ok (s, g) else .error (.invalidVersion none none none) := by
    simp [validateVersions, validateVersion, hs, hg, hs0, hg0, ha, hb, bind, Except.bind]
  rw [key, older_iff hn hs hg]
  constructor
  · intro h
    rw [h1, decide_eq_true h]; rfl
  · intro h
    rw [h1, decide_eq_false h]; rfl

theorem validateVersions_source {l : List String} {s g : Option String}
    (h : s = none ∨ s = some "") :
    (validateVersions s g l : Except Err _) = .error .unknownVersion := by
  rcases h with rfl | rfl <;> rfl

theorem validateVersions_badSource {l : List String} {v : String} {g : Option String} (h0 : v ≠ "")
    (h : v ∉ l) : (validateVersions (some v) g l : Except Err _) = .error (.invalidVersion none none none) := by
  simp [validateVersions, validateVersion, h0, h, bind, Except.bind]

theorem validateVersions_target {l : List String} (h00 : "" ∉ l) {v : String} {g : Option String}
    (hv : v ∈ l) (h : g = none ∨ g = some "") :
    (validateVersions (some v) g l : Except Err _) = .error .unknownVersion := by
  have h0 : v ≠ "" := fun e => h00 (e ▸ hv)
  rcases h with rfl | rfl <;> simp [validateVersions, validateVersion, hv, h0, bind, Except.bind]

theorem validateVersions_badTarget {l : List String} (h00 : "" ∉ l) {v u : String} (hv : v ∈ l)
    (hu : u ∉ l) (hu0 : u ≠ "") :
    (validateVersions (some v) (some u) l : Except Err _) = .error (.invalidVersion none none none) := by
  have h0 : v ≠ "" := fun e => h00 (e ▸ hv)
  simp [validateVersions, validateVersion, hv, h0, hu, hu0, bind, Except.bind]

/-- The loop started with accumulated results gives the results of a fresh run appended to them. -/
theorem chainLoop_acc (reg : List (String × Updater)) (o : Options) (force : Bool) :
    ∀ (vs : List String) (acc : Result) (k : Nat),
    chainLoop reg o force vs acc k =
      match chainLoop reg o force vs ⟨acc.doc, [], []⟩ k with
      | .error x => .error x
      | .ok (r, k') => .ok (⟨r.doc, acc.removed ++ r.removed, dictUpdate acc.remapped r.remapped⟩, k')
  | [], acc, k => by simp [chainLoop, dictUpdate]
  | v :: vs, acc, k => by
    simp only [chainLoop]
    cases h : assoc reg v with
    | none => rfl
    | some u =>
      simp only
      cases hs : stepUpdate u o force k acc.doc with
      | error x => rfl
      | ok p =>
        obtain ⟨r, k'⟩ := p
        simp only
        rw [chainLoop_acc reg o force vs ⟨r.doc, acc.removed ++ r.removed, _⟩ k',
          chainLoop_acc reg o force vs ⟨r.doc, [] ++ r.removed, _⟩ k']
        cases hc : chainLoop reg o force vs ⟨r.doc, [], []⟩ k' with
        | error x => rfl
        | ok p2 =>
          obtain ⟨r2, k2⟩ := p2
          simp only [List.nil_append, List.append_assoc]
          rw [dictUpdate_assoc _ acc.remapped _ (dictUpdate_nodup keysNodup_nil _), dictUpdate_nil_left]

theorem chainLoop_nodup (reg : List (String × Updater)) (o : Options) (force : Bool) :
    ∀ (vs : List String) (acc : Result) (k : Nat) (r : Result) (k' : Nat), KeysNodup acc.remapped →
    chainLoop reg o force vs acc k = .ok (r, k') → KeysNodup r.remapped
  | [], acc, k, r, k', h, hr => by
    simp only [chainLoop, Except.ok.injEq, Prod.mk.injEq] at hr; rw [← hr.1]; exact h
  | v :: vs, acc, k, r, k', h, hr => by
    simp only [chainLoop] at hr
    split at hr
    · cases hr
    · split at hr
      · cases hr
      · exact chainLoop_nodup reg o force vs _ _ r k' (dictUpdate_nodup h _) hr

theorem merged_dictUpdate {β : Type} (a b : List (String × β)) (hb : KeysNodup b) :
    Merged a b (dictUpdate a b) := by
  intro id
  rw [assoc_dictUpdate b a hb]
  cases assoc b id <;> rfl

/-- The loop is a run of the registered updaters. -/
theorem chainLoop_runs {w : World} (reg : List (String × Updater))
    (hreg : ∀ v u, assoc reg v = some u → Registered w u) (o : Options) (force : Bool) :
    ∀ (vs : List String) (us : List Updater) (t : Node) (k : Nat), vs.map (assoc reg) = us.map some →
    Runs o force us t k (chainLoop reg o force vs ⟨t, [], []⟩ k)
  | [], [], t, k, _ => by simp only [chainLoop]; exact .done t k
  | [], u :: us, t, k, h => by simp at h
  | v :: vs, [], t, k, h => by simp at h
  | v :: vs, u :: us, t, k, h => by
    simp only [List.map_cons, List.cons.injEq] at h
    simp only [chainLoop, h.1]
    cases hs : stepUpdate u o force k t with
    | error x => exact .fail hs
    | ok p =>
      obtain ⟨r, k'⟩ := p
      simp only
      have ih := chainLoop_runs reg hreg o force vs us r.doc k' h.2
      rw [chainLoop_acc]
      cases hc : chainLoop reg o force vs ⟨r.doc, [], []⟩ k' with
      | error x => rw [hc] at ih; exact .later hs ih
      | ok p2 =>
        obtain ⟨r2, k2⟩ := p2
        rw [hc] at ih
        simp only [List.nil_append]
        refine .step hs ih ?_
        have hn := step_remapped_nodup (hreg v u h.1) hs
        have hn2 := chainLoop_nodup reg o force vs _ _ r2 k2 keysNodup_nil hc
        intro id
        rw [assoc_dictUpdate _ _ hn2, assoc_dictUpdate _ _ hn]
        cases assoc r2.remapped id <;> simp [assoc]

theorem stix_slice : ∀ s ∈ stixReleases, ∀ g ∈ stixReleases, stixReleases.idxOf s < stixReleases.idxOf g →
    versionSlice stixVersions s g = between stixReleases s g := by decide
theorem cybox_slice : ∀ s ∈ cyboxReleases, ∀ g ∈ cyboxReleases,
    cyboxReleases.idxOf s < cyboxReleases.idxOf g →
    versionSlice cyboxVersions s g = between cyboxReleases s g := by decide

theorem stix_step_lookup (w : World) : ∀ v ∈ ["1.0", "1.0.1", "1.1", "1.1.1", "1.2"],
    assoc (stixUpdaters w) v = stixStep w v ∧ (stixStep w v).isSome = true := by
  simp [stixUpdaters, assoc, stixStep]
theorem cybox_step_lookup : ∀ v ∈ ["2.0", "2.0.1"],
    assoc cyboxUpdaters v = cyboxStep v ∧ (cyboxStep v).isSome = true := by
  simp [cyboxUpdaters, assoc, cyboxStep]

theorem stix_between_mem : ∀ s ∈ stixReleases, ∀ g ∈ stixReleases, ∀ v ∈ between stixReleases s g,
    v ∈ ["1.0", "1.0.1", "1.1", "1.1.1", "1.2"] := by decide
theorem cybox_between_mem : ∀ s ∈ cyboxReleases, ∀ g ∈ cyboxReleases, ∀ v ∈ between cyboxReleases s g,
    v ∈ ["2.0", "2.0.1"] := by decide

theorem stix_nodup : stixReleases.Nodup := by decide
theorem cybox_nodup : cyboxReleases.Nodup := by decide

theorem older_mem {l : List String} {s g : String} (h : Older l s g) : s ∈ l ∧ g ∈ l := by
  obtain ⟨i, j, _, hi, hj⟩ := h
  exact ⟨List.mem_of_getElem? hi, List.mem_of_getElem? hj⟩

/-- An accepted STIX range runs the loop. -/
theorem stixUpdate_accepted (w : World) (t : Node) {from_ to_ : Option String} {s g : String} (o : Options)
    (force : Bool) (k : Nat) (hs : inForce from_ (stixRootVersion t) = some s)
    (hg : inForce to_ (some "1.2.1") = some g) (h : Older stixReleases s g) :
    stixUpdate w t from_ to_ o force k =
      chainLoop (stixUpdaters w) o force (between stixReleases s g) ⟨t, [], []⟩ k := by
  have hm := older_mem h
  have hv := (validateVersions_both (l := stixReleases) stix_nodup (by decide) stix_cmp_lt stix_parse
    hm.1 hm.2).1 h
  have hl : stixVersions.getLast? = some "1.2.1" := by decide
  simp only [stixUpdate, runChain]
  rw [pyOr_eq_inForce, pyOr_eq_inForce, hs, hl, hg]
  have : (validateVersions (some s) (some g) stixVersions : Except Err _) = .ok (s, g) := hv
  rw [this]
  simp only
  rw [stix_slice s hm.1 g hm.2 ((older_iff stix_nodup hm.1 hm.2).1 h)]

/-- The source version of a CybOX update: the argument, or the one read from the root. -/
def cyboxSource (t : Node) (from_ : Option String) : Except Err (Option String) :=
  match inForce from_ none with
  | some v => .ok (some v)
  | none => (cyboxRootVersion t).map some

theorem cyboxFrom_eq (t : Node) (from_ : Option String) : cyboxFrom t from_ = cyboxSource t from_ := by
  cases from_ with
  | none => rfl
  | some v =>
    by_cases h : v = ""
    · subst h; rfl
    · simp only [cyboxSource, inForce_release h]; simp [cyboxFrom, falsy, h]

theorem cyboxUpdate_accepted (t : Node) {from_ to_ : Option String} {s g : String} (o : Options)
    (force : Bool) (k : Nat) (hs : cyboxSource t from_ = .ok (some s))
    (hg : inForce to_ (some "2.1") = some g) (h : Older cyboxReleases s g) :
    cyboxUpdate t from_ to_ o force k =
      chainLoop cyboxUpdaters o force (between cyboxReleases s g) ⟨t, [], []⟩ k := by
  have hm := older_mem h
  have hv := (validateVersions_both (l := cyboxReleases) cybox_nodup (by decide) cybox_cmp_lt cybox_parse
    hm.1 hm.2).1 h
  have hl : cyboxVersions.getLast? = some "2.1" := by decide
  simp only [cyboxUpdate, cyboxFrom_eq, hs, runChain]
  rw [pyOr_eq_inForce, hl, hg]
  have : (validateVersions (some s) (some g) cyboxVersions : Except Err _) = .ok (s, g) := hv
  rw [this]
  simp only
  rw [cybox_slice s hm.1 g hm.2 ((older_iff cybox_nodup hm.1 hm.2).1 h)]

theorem map_lookup {reg : List (String × Updater)} {f : String → Option Updater} :
    ∀ {vs : List String}, (∀ v ∈ vs, assoc reg v = f v ∧ (f v).isSome = true) →
    vs.map (assoc reg) = (vs.filterMap f).map some
  | [], _ => rfl
  | v :: vs, h => by
    obtain ⟨u, hu⟩ := Option.isSome_iff_exists.1 (h v (by simp)).2
    have h1 := (h v (by simp)).1
    rw [List.filterMap_cons_some hu, List.map_cons, List.map_cons, h1, hu,
      map_lookup (fun v hv => h v (by simp [hv]))]

/-! ## C01 -/

/-- C01: the local name of the root decides who handles the document, whatever the other arguments. -/
theorem C01_dispatch (w : World) (e : Elem) (ks : List Node) (from_ to_ : Option String) (o : Options)
    (force : Bool) (k : Nat) :
    (e.tag.name = "STIX_Package" →
      update w (.elem e ks) from_ to_ o force k = stixUpdate w (.elem e ks) from_ to_ o force k) ∧
    (e.tag.name = "Observables" →
      update w (.elem e ks) from_ to_ o force k = cyboxUpdate (.elem e ks) from_ to_ o force k) ∧
    (e.tag.name ≠ "STIX_Package" → e.tag.name ≠ "Observables" →
      update w (.elem e ks) from_ to_ o force k = .error (.update none none)) := by
  refine ⟨?_, ?_, ?_⟩
  · intro h
    simp only [update, Node.root?, h, if_true, stixUpdate, pyOr_pyOr]
  · intro h
    simp only [update, Node.root?, h, if_true]
    have h1 : ¬ ("Observables" = "STIX_Package") := by decide
    simp only [h1, if_false]
    cases hf : cyboxFrom (.elem e ks) from_ with
    | error x => simp [cyboxUpdate, hf]
    | ok f =>
      simp only [cyboxUpdate, hf]
      have : cyboxFrom (.elem e ks) f = .ok f := by
        unfold cyboxFrom at hf ⊢
        by_cases hff : falsy f = true
        · simp only [hff, if_true]
          by_cases h2 : falsy from_ = true
          · simpa [h2] using hf
          · simp only [h2] at hf
            simp at hf
            rw [hf] at h2
            exact absurd hff h2
        · simp [hff]
      rw [this]
  · intro h1 h2
    simp [update, Node.root?, h1, h2]

example : update w0 (el "urn:x" "Report") (some "1.0") none o0 true 0 = .error (.update none none) :=
  (C01_dispatch w0 _ _ _ _ _ _ _).2.2 (by decide) (by decide)

/-! ## C02 -/

/-- C02 for STIX: the outcome of the version-range validation, for every document and argument, forced or
not.  `s` and `g` are the versions in force. -/
theorem C02_stix_range (w : World) (t : Node) (from_ to_ : Option String) (o : Options) (force : Bool)
    (k : Nat) (s g : Option String) (hs : s = inForce from_ (stixRootVersion t))
    (hg : g = inForce to_ (some "1.2.1")) :
    (s = none ∨ s = some "" → stixUpdate w t from_ to_ o force k = .error .unknownVersion) ∧
    (∀ v, s = some v → v ≠ "" → v ∉ stixReleases →
      stixUpdate w t from_ to_ o force k = .error (.invalidVersion none none none)) ∧
    (∀ v u, s = some v → v ∈ stixReleases → g = some u → u ∉ stixReleases →
      stixUpdate w t from_ to_ o force k = .error (.invalidVersion none none none)) ∧
    (∀ v u, s = some v → g = some u → v ∈ stixReleases → u ∈ stixReleases → ¬ Older stixReleases v u →
      stixUpdate w t from_ to_ o force k = .error (.invalidVersion none none none)) ∧
    (∀ v u, s = some v → g = some u → Older stixReleases v u →
      ∃ us, us.length ≥ 1 ∧ Runs o force us t k (stixUpdate w t from_ to_ o force k)) := by
  have hl : stixVersions.getLast? = some "1.2.1" := by decide
  have hunf : stixUpdate w t from_ to_ o force k =
      match (validateVersions s g stixReleases : Except Err _) with
      | .error x => .error x
      | .ok (f, g) => chainLoop (stixUpdaters w) o force (versionSlice stixVersions f g) ⟨t, [], []⟩ k := by
    simp only [stixUpdate, runChain, pyOr_eq_inForce, hl, ← hs, ← hg]
    rfl
  refine ⟨?_, ?_, ?_, ?_, ?_⟩
  · intro h; rw [hunf, validateVersions_source h]
  · intro v h h0 hv; rw [hunf, h, validateVersions_badSource h0 hv]
  · intro v u h hv h2 hu
    have hu0 : u ≠ "" := by
      intro e; subst e
      rw [hg] at h2
      unfold inForce at h2
      split at h2 <;> simp_all
    rw [hunf, h, h2, validateVersions_badTarget (by decide) hv hu hu0]
  · intro v u h h2 hv hu hno
    rw [hunf, h, h2, (validateVersions_both (l := stixReleases) stix_nodup (by decide) stix_cmp_lt
      stix_parse hv hu).2 hno]
  · intro v u h h2 hold
    have hm := older_mem hold
    refine ⟨(between stixReleases v u).filterMap (stixStep w), ?_, ?_⟩
    · have : ∀ v ∈ stixReleases, ∀ u ∈ stixReleases, stixReleases.idxOf v < stixReleases.idxOf u →
          v ∈ between stixReleases v u := by decide
      have hin := this v hm.1 u hm.2 ((older_iff stix_nodup hm.1 hm.2).1 hold)
      have hst := (stix_step_lookup w v (stix_between_mem v hm.1 u hm.2 v hin)).2
      obtain ⟨up, hup⟩ := Option.isSome_iff_exists.1 hst
      have : up ∈ (between stixReleases v u).filterMap (stixStep w) :=
        List.mem_filterMap.2 ⟨v, hin, hup⟩
      exact List.length_pos_of_mem this
    · rw [stixUpdate_accepted w t o force k (hs ▸ h) (hg ▸ h2) hold]
      exact chainLoop_runs (w := w) _ (fun _ _ h => registered_stix h) _ _ _ _ _ _
        (map_lookup (fun x hx => stix_step_lookup w x (stix_between_mem v hm.1 u hm.2 x hx)))

/-- C02 for CybOX.  A root without version attributes raises `UnknownVersionError` when no source version
is given. -/
theorem C02_cybox_range (t : Node) (from_ to_ : Option String) (o : Options) (force : Bool)
    (k : Nat) (g : Option String) (hg : g = inForce to_ (some "2.1")) :
    (∀ x, cyboxSource t from_ = .error x → cyboxUpdate t from_ to_ o force k = .error x) ∧
    (∀ v, cyboxSource t from_ = .ok (some v) → v ≠ "" → v ∉ cyboxReleases →
      cyboxUpdate t from_ to_ o force k = .error (.invalidVersion none none none)) ∧
    (∀ v u, cyboxSource t from_ = .ok (some v) → v ∈ cyboxReleases → g = some u → u ∉ cyboxReleases →
      cyboxUpdate t from_ to_ o force k = .error (.invalidVersion none none none)) ∧
    (∀ v u, cyboxSource t from_ = .ok (some v) → g = some u → v ∈ cyboxReleases → u ∈ cyboxReleases →
      ¬ Older cyboxReleases v u → cyboxUpdate t from_ to_ o force k = .error (.invalidVersion none none none)) ∧
    (∀ v u, cyboxSource t from_ = .ok (some v) → g = some u → Older cyboxReleases v u →
      ∃ us, us.length ≥ 1 ∧ Runs o force us t k (cyboxUpdate t from_ to_ o force k)) := by
  have hl : cyboxVersions.getLast? = some "2.1" := by decide
  have hunf : ∀ s, cyboxSource t from_ = .ok s → cyboxUpdate t from_ to_ o force k =
      match (validateVersions s g cyboxReleases : Except Err _) with
      | .error x => .error x
      | .ok (f, g) => chainLoop cyboxUpdaters o force (versionSlice cyboxVersions f g) ⟨t, [], []⟩ k := by
    intro s hs
    simp only [cyboxUpdate, cyboxFrom_eq, hs, runChain, pyOr_eq_inForce, hl, ← hg]
    rfl
  refine ⟨?_, ?_, ?_, ?_, ?_⟩
  · intro x h; simp only [cyboxUpdate, cyboxFrom_eq, h]
  · intro v h h0 hv; rw [hunf _ h, validateVersions_badSource h0 hv]
  · intro v u h hv h2 hu
    have hu0 : u ≠ "" := by
      intro e; subst e
      rw [hg] at h2
      unfold inForce at h2
      split at h2 <;> simp_all
    rw [hunf _ h, h2, validateVersions_badTarget (by decide) hv hu hu0]
  · intro v u h h2 hv hu hno
    rw [hunf _ h, h2, (validateVersions_both (l := cyboxReleases) cybox_nodup (by decide) cybox_cmp_lt
      cybox_parse hv hu).2 hno]
  · intro v u h h2 hold
    have hm := older_mem hold
    refine ⟨(between cyboxReleases v u).filterMap cyboxStep, ?_, ?_⟩
    · have : ∀ v ∈ cyboxReleases, ∀ u ∈ cyboxReleases, cyboxReleases.idxOf v < cyboxReleases.idxOf u →
          v ∈ between cyboxReleases v u := by decide
      have hin := this v hm.1 u hm.2 ((older_iff cybox_nodup hm.1 hm.2).1 hold)
      have hst := (cybox_step_lookup v (cybox_between_mem v hm.1 u hm.2 v hin)).2
      obtain ⟨up, hup⟩ := Option.isSome_iff_exists.1 hst
      have : up ∈ (between cyboxReleases v u).filterMap cyboxStep :=
        List.mem_filterMap.2 ⟨v, hin, hup⟩
      exact List.length_pos_of_mem this
    · rw [cyboxUpdate_accepted t o force k h (hg ▸ h2) hold]
      exact chainLoop_runs (w := w0) _ (fun _ _ h => registered_cybox h) _ _ _ _ _ _
        (map_lookup (fun x hx => cybox_step_lookup x (cybox_between_mem v hm.1 u hm.2 x hx)))

/-- Same version, older version, unsupported spelling: all refused, even when forced. -/
example : stixUpdate w0 doc111 none (some "1.1.1") o0 true 0 = .error (.invalidVersion none none none) ∧
    stixUpdate w0 doc111 none (some "1.0") o0 true 0 = .error (.invalidVersion none none none) ∧
    stixUpdate w0 doc111 (some "1.1.1") (some "1.2.0") o0 true 0 = .error (.invalidVersion none none none) := by
  refine ⟨?_, ?_, ?_⟩
  · exact (C02_stix_range w0 doc111 none (some "1.1.1") o0 true 0 _ _ rfl rfl).2.2.2.1 "1.1.1" "1.1.1"
      (by decide) (by decide) (by decide) (by decide) (by rw [older_iff] <;> decide)
  · exact (C02_stix_range w0 doc111 none (some "1.0") o0 true 0 _ _ rfl rfl).2.2.2.1 "1.1.1" "1.0"
      (by decide) (by decide) (by decide) (by decide) (by rw [older_iff] <;> decide)
  · exact (C02_stix_range w0 doc111 (some "1.1.1") (some "1.2.0") o0 true 0 _ _ rfl rfl).2.2.1 "1.1.1" "1.2.0"
      (by decide) (by decide) (by decide) (by decide)

/-! ## C03 -/

/-- C03 for STIX: an accepted update is a run of the one-step updaters of the releases from `s` up to,
not including, `g`, oldest first, each once; all of them exist. -/
theorem C03_stix_chain (w : World) (t : Node) {from_ to_ : Option String} {s g : String} (o : Options)
    (force : Bool) (k : Nat) (hs : inForce from_ (stixRootVersion t) = some s)
    (hg : inForce to_ (some "1.2.1") = some g) (h : Older stixReleases s g) :
    ∃ us, us.map some = (between stixReleases s g).map (stixStep w) ∧
      us.map (·.cls.version) = between stixReleases s g ∧
      Runs o force us t k (stixUpdate w t from_ to_ o force k) := by
  have hm := older_mem h
  have hb := stix_between_mem s hm.1 g hm.2
  refine ⟨(between stixReleases s g).filterMap (stixStep w), ?_, ?_, ?_⟩
  · rw [← map_lookup (fun x hx => stix_step_lookup w x (hb x hx))]
    exact List.map_congr_left (fun x hx => (stix_step_lookup w x (hb x hx)).1)
  · have hv : ∀ v ∈ ["1.0", "1.0.1", "1.1", "1.1.1", "1.2"], ∀ u, stixStep w v = some u → u.cls.version = v := by
      intro v hv u hu
      simp only [List.mem_cons, List.not_mem_nil, or_false] at hv
      rcases hv with rfl | rfl | rfl | rfl | rfl <;> simp [stixStep] at hu <;> subst hu <;> rfl
    clear hs hg h
    generalize between stixReleases s g = vs at hb
    induction vs with
    | nil => rfl
    | cons v vs ih =>
      obtain ⟨u, hu⟩ := Option.isSome_iff_exists.1 (stix_step_lookup w v (hb v (by simp))).2
      rw [List.filterMap_cons_some hu, List.map_cons, hv v (hb v (by simp)) u hu,
        ih (fun x hx => hb x (by simp [hx]))]
  · rw [stixUpdate_accepted w t o force k hs hg h]
    exact chainLoop_runs (w := w) _ (fun _ _ h => registered_stix h) _ _ _ _ _ _ (map_lookup (fun x hx => stix_step_lookup w x (hb x hx)))

/-- C03 for CybOX. -/
theorem C03_cybox_chain (t : Node) {from_ to_ : Option String} {s g : String} (o : Options)
    (force : Bool) (k : Nat) (hs : cyboxSource t from_ = .ok (some s))
    (hg : inForce to_ (some "2.1") = some g) (h : Older cyboxReleases s g) :
    ∃ us, us.map some = (between cyboxReleases s g).map cyboxStep ∧
      us.map (·.cls.version) = between cyboxReleases s g ∧
      Runs o force us t k (cyboxUpdate t from_ to_ o force k) := by
  have hm := older_mem h
  have hb := cybox_between_mem s hm.1 g hm.2
  refine ⟨(between cyboxReleases s g).filterMap cyboxStep, ?_, ?_, ?_⟩
  · rw [← map_lookup (fun x hx => cybox_step_lookup x (hb x hx))]
    exact List.map_congr_left (fun x hx => (cybox_step_lookup x (hb x hx)).1)
  · have hv : ∀ v ∈ ["2.0", "2.0.1"], ∀ u, cyboxStep v = some u → u.cls.version = v := by
      intro v hv u hu
      simp only [List.mem_cons, List.not_mem_nil, or_false] at hv
      rcases hv with rfl | rfl <;> simp [cyboxStep] at hu <;> subst hu <;> rfl
    clear hs hg h
    generalize between cyboxReleases s g = vs at hb
    induction vs with
    | nil => rfl
    | cons v vs ih =>
      obtain ⟨u, hu⟩ := Option.isSome_iff_exists.1 (cybox_step_lookup v (hb v (by simp))).2
      rw [List.filterMap_cons_some hu, List.map_cons, hv v (hb v (by simp)) u hu,
        ih (fun x hx => hb x (by simp [hx]))]
  · rw [cyboxUpdate_accepted t o force k hs hg h]
    exact chainLoop_runs (w := w0) _ (fun _ _ h => registered_cybox h) _ _ _ _ _ _ (map_lookup (fun x hx => cybox_step_lookup x (hb x hx)))

example : between stixReleases "1.0.1" "1.2" = ["1.0.1", "1.1", "1.1.1"] ∧
    inForce none (stixRootVersion (stixDoc "1.0.1" [])) = some "1.0.1" ∧
    Older stixReleases "1.0.1" "1.2" := by
  refine ⟨by decide, by decide, 1, 4, by decide, by decide, by decide⟩

/-! ## C04 -/

theorem chainLoop_append (reg : List (String × Updater)) (o : Options) (force : Bool) :
    ∀ (vs ws : List String) (acc : Result) (k : Nat),
    chainLoop reg o force (vs ++ ws) acc k =
      match chainLoop reg o force vs acc k with
      | .error x => .error x
      | .ok (r, k') => chainLoop reg o force ws r k'
  | [], ws, acc, k => by simp [chainLoop]
  | v :: vs, ws, acc, k => by
    simp only [List.cons_append, chainLoop]
    cases assoc reg v with
    | none => rfl
    | some u =>
      simp only
      cases stepUpdate u o force k acc.doc with
      | error x => rfl
      | ok p => simp only; exact chainLoop_append reg o force vs ws _ _

theorem stix_between_append : ∀ a ∈ stixReleases, ∀ b ∈ stixReleases, ∀ c ∈ stixReleases,
    stixReleases.idxOf a < stixReleases.idxOf b → stixReleases.idxOf b < stixReleases.idxOf c →
    between stixReleases a c = between stixReleases a b ++ between stixReleases b c := by decide
theorem cybox_between_append : ∀ a ∈ cyboxReleases, ∀ b ∈ cyboxReleases, ∀ c ∈ cyboxReleases,
    cyboxReleases.idxOf a < cyboxReleases.idxOf b → cyboxReleases.idxOf b < cyboxReleases.idxOf c →
    between cyboxReleases a c = between cyboxReleases a b ++ between cyboxReleases b c := by decide

theorem older_trans {l : List String} (hn : l.Nodup) {a b c : String} (h : Older l a b) (h' : Older l b c) :
    Older l a c := by
  rw [older_iff hn (older_mem h).1 (older_mem h').2]
  have := (older_iff hn (older_mem h).1 (older_mem h).2).1 h
  have := (older_iff hn (older_mem h').1 (older_mem h').2).1 h'
  omega

/-- C04 for STIX: updating from `a` to `c` is updating from `a` to `b`, then the result from `b` to `c`;
removed nodes are concatenated and remapped ids merged. -/
theorem C04_stix_two_hops (w : World) (t : Node) {a b c : String} (o : Options) (force : Bool) (k : Nat)
    (hab : Older stixReleases a b) (hbc : Older stixReleases b c) :
    match stixUpdate w t (some a) (some b) o force k with
    | .error x => stixUpdate w t (some a) (some c) o force k = .error x
    | .ok (r1, k1) =>
      match stixUpdate w r1.doc (some b) (some c) o force k1 with
      | .error x => stixUpdate w t (some a) (some c) o force k = .error x
      | .ok (r2, k2) =>
        ∃ m, Merged r1.remapped r2.remapped m ∧
          stixUpdate w t (some a) (some c) o force k = .ok (⟨r2.doc, r1.removed ++ r2.removed, m⟩, k2) := by
  have hac := older_trans stix_nodup hab hbc
  have ne : ∀ v ∈ stixReleases, v ≠ "" := by decide
  have ha := ne a (older_mem hab).1
  have hb := ne b (older_mem hab).2
  have hc := ne c (older_mem hbc).2
  rw [stixUpdate_accepted w t o force k (inForce_release ha) (inForce_release hc) hac,
    stixUpdate_accepted w t o force k (inForce_release ha) (inForce_release hb) hab,
    stix_between_append a (older_mem hab).1 b (older_mem hab).2 c (older_mem hbc).2
      ((older_iff stix_nodup (older_mem hab).1 (older_mem hab).2).1 hab)
      ((older_iff stix_nodup (older_mem hbc).1 (older_mem hbc).2).1 hbc), chainLoop_append]
  cases h1 : chainLoop (stixUpdaters w) o force (between stixReleases a b) ⟨t, [], []⟩ k with
  | error x => rfl
  | ok p =>
    obtain ⟨r1, k1⟩ := p
    simp only
    rw [stixUpdate_accepted w r1.doc o force k1 (inForce_release hb) (inForce_release hc) hbc,
      chainLoop_acc _ _ _ _ r1 k1]
    cases h2 : chainLoop (stixUpdaters w) o force (between stixReleases b c) ⟨r1.doc, [], []⟩ k1 with
    | error x => rfl
    | ok p2 =>
      obtain ⟨r2, k2⟩ := p2
      exact ⟨_, merged_dictUpdate _ _ (chainLoop_nodup _ _ _ _ _ _ _ _ keysNodup_nil h2), rfl⟩

/-- C04 for CybOX. -/
theorem C04_cybox_two_hops (t : Node) {a b c : String} (o : Options) (force : Bool) (k : Nat)
    (hab : Older cyboxReleases a b) (hbc : Older cyboxReleases b c) :
    match cyboxUpdate t (some a) (some b) o force k with
    | .error x => cyboxUpdate t (some a) (some c) o force k = .error x
    | .ok (r1, k1) =>
      match cyboxUpdate r1.doc (some b) (some c) o force k1 with
      | .error x => cyboxUpdate t (some a) (some c) o force k = .error x
      | .ok (r2, k2) =>
        ∃ m, Merged r1.remapped r2.remapped m ∧
          cyboxUpdate t (some a) (some c) o force k = .ok (⟨r2.doc, r1.removed ++ r2.removed, m⟩, k2) := by
  have hac := older_trans cybox_nodup hab hbc
  have ne : ∀ v ∈ cyboxReleases, v ≠ "" := by decide
  have ha := ne a (older_mem hab).1
  have hb := ne b (older_mem hab).2
  have hc := ne c (older_mem hbc).2
  have src : ∀ (t : Node) (v : String), v ≠ "" → cyboxSource t (some v) = .ok (some v) := by
    intro t v hv; simp only [cyboxSource, inForce_release hv]
  rw [cyboxUpdate_accepted t o force k (src t a ha) (inForce_release hc) hac,
    cyboxUpdate_accepted t o force k (src t a ha) (inForce_release hb) hab,
    cybox_between_append a (older_mem hab).1 b (older_mem hab).2 c (older_mem hbc).2
      ((older_iff cybox_nodup (older_mem hab).1 (older_mem hab).2).1 hab)
      ((older_iff cybox_nodup (older_mem hbc).1 (older_mem hbc).2).1 hbc), chainLoop_append]
  cases h1 : chainLoop cyboxUpdaters o force (between cyboxReleases a b) ⟨t, [], []⟩ k with
  | error x => rfl
  | ok p =>
    obtain ⟨r1, k1⟩ := p
    simp only
    rw [cyboxUpdate_accepted r1.doc o force k1 (src r1.doc b hb) (inForce_release hc) hbc,
      chainLoop_acc _ _ _ _ r1 k1]
    cases h2 : chainLoop (cyboxUpdaters) o force (between cyboxReleases b c) ⟨r1.doc, [], []⟩ k1 with
    | error x => rfl
    | ok p2 =>
      obtain ⟨r2, k2⟩ := p2
      exact ⟨_, merged_dictUpdate _ _ (chainLoop_nodup _ _ _ _ _ _ _ _ keysNodup_nil h2), rfl⟩

/-- The two hops succeed on a concrete document. -/
example : (stixUpdate w0 doc111 (some "1.1.1") (some "1.2") o0 false 0).isOk = true ∧
    (stixUpdate w0 doc111 (some "1.1.1") (some "1.2.1") o0 false 0).isOk = true ∧
    Older stixReleases "1.1.1" "1.2" ∧ Older stixReleases "1.2" "1.2.1" := by
  refine ⟨by decide +kernel, by decide +kernel, ⟨3, 4, by decide, by decide, by decide⟩,
    ⟨4, 5, by decide, by decide, by decide⟩⟩

/-! ## C07 -/

theorem chainLoop_unforced (reg : List (String × Updater)) (o : Options) :
    ∀ (vs : List String) (t : Node) (k : Nat) (r : Result) (k' : Nat),
    chainLoop reg o false vs ⟨t, [], []⟩ k = .ok (r, k') → r.removed = [] ∧ r.remapped = [] ∧ k' = k
  | [], t, k, r, k', h => by simp only [chainLoop, Except.ok.injEq, Prod.mk.injEq] at h; simp [← h.1, h.2]
  | v :: vs, t, k, r, k', h => by
    simp only [chainLoop] at h
    cases hu : assoc reg v with
    | none => rw [hu] at h; simp at h
    | some u =>
      rw [hu] at h
      simp only [stepUpdate] at h
      cases ht : tryUpdate u o t with
      | error x => rw [ht] at h; simp at h
      | ok d =>
        rw [ht] at h
        simp only [List.nil_append, dictUpdate, List.foldl_nil] at h
        exact chainLoop_unforced reg o vs d k r k' h

/-- C07: an unforced successful update reports nothing removed and nothing remapped, and calls the id
generator not once. -/
theorem C07_unforced_removes_nothing (w : World) (t : Node) (from_ to_ : Option String) (o : Options)
    (k : Nat) (r : Result) (k' : Nat) (h : update w t from_ to_ o false k = .ok (r, k')) :
    r.removed = [] ∧ r.remapped = [] ∧ k' = k := by
  have chain : ∀ vs reg f g, runChain vs reg t f g o false k = .ok (r, k') →
      r.removed = [] ∧ r.remapped = [] ∧ k' = k := by
    intro vs reg f g h
    simp only [runChain] at h
    split at h
    · cases h
    · exact chainLoop_unforced reg o _ t k r k' h
  simp only [update] at h
  split at h
  · cases h
  · split at h
    · exact chain _ _ _ _ h
    · split at h
      · split at h
        · cases h
        · simp only [cyboxUpdate] at h
          split at h
          · cases h
          · exact chain _ _ _ _ h
      · cases h

example : (update w0 doc111 none (some "1.2") o0 false 0).isOk = true := by decide +kernel

/-! ## C10 -/

/-- C10: with version checks off no step raises `UnknownVersionError` or `InvalidVersionError`. -/
theorem C10_checks_off (w : World) (u : Updater) (hu : Registered w u) (o : Options) (force : Bool) (k : Nat)
    (t : Node) (x : Err) (hoff : o.checkVersions = false) (h : stepUpdate u o force k t = .error x) :
    x ≠ .unknownVersion ∧ ∀ n a b, x ≠ .invalidVersion n a b := by
  have nr : refusable x = false → x ≠ .unknownVersion ∧ ∀ n a b, x ≠ .invalidVersion n a b := by
    intro hx
    constructor
    · intro e; subst e; cases hx
    · intro n a b e; subst e; cases hx
  -- the only refusable exception of the check is `UpdateError`
  have hcheck : ∀ y, u.check o t = .error y → refusable y = true → ∃ d g, y = .update d g := by
    intro y hy hr
    cases hu with
    | cybox20 => simp [cybox20, cybox20Check, hoff] at hy
    | cybox201 =>
      simp only [cybox201, cybox201Check, hoff] at hy
      simp only [Bool.false_eq_true, if_false] at hy
      split at hy
      · next h' =>
        have := noRefuse_findAll _ _ _ h'
        cases hy; rw [this] at hr; cases hr
      · split at hy
        · cases hy
        · cases hy; exact ⟨_, _, rfl⟩
    | stix10 =>
      simp only [stix10, stix10Check, hoff] at hy
      simp only [Bool.false_eq_true, if_false] at hy
      split at hy
      · next h' =>
        have := noRefuse_findAll _ _ _ h'
        cases hy; rw [this] at hr; cases hr
      · split at hy
        · cases hy
        · cases hy; exact ⟨_, _, rfl⟩
    | stix101 =>
      simp only [stix101, stix101Check, hoff] at hy
      simp only [Bool.false_eq_true, if_false] at hy
      split at hy
      · next h' =>
        have : NoRefuse (stix101GetDisallowed w t) := by
          intro z hz
          have := noRefuse_disallowed (w := w) .stix101 t
          exact this z (by simp [stix101, hz, Except.map])
        have := this _ h'
        cases hy; rw [this] at hr; cases hr
      · split at hy
        · cases hy
        · cases hy; exact ⟨_, _, rfl⟩
    | stix11 => simp [stix11, stix11Check, hoff] at hy
    | stix111 => simp [stix111, stix111Check, hoff] at hy
    | stix12 => simp [stix12, stix12Check, hoff] at hy
  simp only [stepUpdate] at h
  split at h
  · cases h
  · next y hy =>
    split at h
    · exact nr (noRefuse_forceUpdate hu _ _ _ _ h)
    · cases h
      simp only [tryUpdate] at hy
      split at hy
      · next hc =>
        cases hy
        by_cases hr : refusable x = true
        · obtain ⟨d, g, rfl⟩ := hcheck x hc hr
          exact ⟨by simp, by simp⟩
        · exact nr (by simpa using hr)
      · exact nr (noRefuse_update hu _ _ _ hy)

/-- A 1.0 document is not refused by the 1.1.1 step when checks are off, while it is when they are on. -/
example : (stepUpdate stix111 { o0 with checkVersions := false } false 0 (stixDoc "1.0" [])).isOk = true ∧
    stepUpdate stix111 o0 false 0 (stixDoc "1.0" []) =
      .error (.invalidVersion ((stixDoc "1.0" []).ctxAt []) (some "1.1.1") (some "1.0")) := by
  decide +kernel

/-! ## C11 -/

theorem chainLoop_forced {w : World} {reg : List (String × Updater)}
    (hreg : ∀ v u, assoc reg v = some u → Registered w u) (o : Options) :
    ∀ (vs : List String) (acc : Result) (k : Nat), NoRefuse (chainLoop reg o true vs acc k)
  | [], acc, k => noRefuse_ok _
  | v :: vs, acc, k => by
    intro x hx
    simp only [chainLoop] at hx
    split at hx
    · cases hx; rfl
    · next u hu =>
      split at hx
      · next h => cases hx; exact noRefuse_forcedStep (hreg v u hu) _ _ _ _ h
      · exact chainLoop_forced hreg o vs _ _ x hx

/-- C11 for STIX: once the range is accepted, a forced update raises none of the three errors. -/
theorem C11_stix_forced (w : World) (t : Node) {from_ to_ : Option String} {s g : String} (o : Options)
    (k : Nat) (hs : inForce from_ (stixRootVersion t) = some s)
    (hg : inForce to_ (some "1.2.1") = some g) (h : Older stixReleases s g) (x : Err)
    (hx : stixUpdate w t from_ to_ o true k = .error x) :
    (∀ d dup, x ≠ .update d dup) ∧ x ≠ .unknownVersion ∧ ∀ n a b, x ≠ .invalidVersion n a b := by
  rw [stixUpdate_accepted w t o true k hs hg h] at hx
  have := chainLoop_forced (w := w) (fun v u hu => registered_stix hu) o _ _ _ x hx
  refine ⟨?_, ?_, ?_⟩
  · intro d dup e; subst e; cases this
  · intro e; subst e; cases this
  · intro n a b e; subst e; cases this

/-- C11 for CybOX. -/
theorem C11_cybox_forced (t : Node) {from_ to_ : Option String} {s g : String} (o : Options)
    (k : Nat) (hs : cyboxSource t from_ = .ok (some s))
    (hg : inForce to_ (some "2.1") = some g) (h : Older cyboxReleases s g) (x : Err)
    (hx : cyboxUpdate t from_ to_ o true k = .error x) :
    (∀ d dup, x ≠ .update d dup) ∧ x ≠ .unknownVersion ∧ ∀ n a b, x ≠ .invalidVersion n a b := by
  rw [cyboxUpdate_accepted t o true k hs hg h] at hx
  have := chainLoop_forced (w := w0) (fun v u hu => registered_cybox hu) o _ _ _ x hx
  refine ⟨?_, ?_, ?_⟩
  · intro d dup e; subst e; cases this
  · intro e; subst e; cases this
  · intro n a b e; subst e; cases this

/-- A document that is refused unforced goes through when forced. -/
example : (update w0 cybox201bad none none o0 false 0).isOk = false ∧
    (update w0 cybox201bad none none o0 true 0).isOk = true := by decide +kernel

/-! ## C39 -/

theorem chainLoop_force_eq (reg : List (String × Updater)) (o : Options) :
    ∀ (vs : List String) (acc : Result) (k : Nat) (p : Result × Nat),
    chainLoop reg o false vs acc k = .ok p → chainLoop reg o true vs acc k = .ok p
  | [], acc, k, p, h => h
  | v :: vs, acc, k, p, h => by
    simp only [chainLoop] at h ⊢
    cases hu : assoc reg v with
    | none => rw [hu] at h; cases h
    | some u =>
      rw [hu] at h
      simp only [stepUpdate] at h ⊢
      cases ht : tryUpdate u o acc.doc with
      | error x => rw [ht] at h; simp at h
      | ok d =>
        rw [ht] at h
        simp only at h ⊢
        exact chainLoop_force_eq reg o vs _ _ p h

/-- C39: if the unforced update succeeds, the forced one gives the identical result. -/
theorem C39_force_conservative (w : World) (t : Node) (from_ to_ : Option String) (o : Options)
    (k : Nat) (p : Result × Nat) (h : update w t from_ to_ o false k = .ok p) :
    update w t from_ to_ o true k = .ok p := by
  have chain : ∀ vs reg f g, runChain vs reg t f g o false k = .ok p → runChain vs reg t f g o true k = .ok p := by
    intro vs reg f g h
    simp only [runChain] at h ⊢
    split at h
    · cases h
    · exact chainLoop_force_eq reg o _ _ k p h
  simp only [update] at h ⊢
  split at h
  · cases h
  · split at h
    · next hn => simp only [hn, if_true]; exact chain _ _ _ _ h
    · next hn =>
      simp only [hn, if_false]
      split at h
      · next hn2 =>
        simp only [hn2, if_true]
        split at h
        · cases h
        · next f hf =>
          simp only [cyboxUpdate] at h ⊢
          split at h
          · cases h
          · exact chain _ _ _ _ h
      · cases h

example : (update w0 doc111 none none o0 false 0).isOk = true := by decide +kernel

/-! ## C40 -/

/-- C40: if `check_update` returns normally, `update` with the same options raises none of the three
errors. -/
theorem C40_check_sound (w : World) (u : Updater) (hu : Registered w u) (o : Options) (force : Bool) (k : Nat)
    (t : Node) (hc : u.check o t = .ok ()) (x : Err) (h : stepUpdate u o force k t = .error x) :
    (∀ d dup, x ≠ .update d dup) ∧ x ≠ .unknownVersion ∧ ∀ n a b, x ≠ .invalidVersion n a b := by
  have : refusable x = false := by
    simp only [stepUpdate, tryUpdate, hc] at h
    split at h
    · cases h
    · next y hy =>
      have hr := noRefuse_update hu _ _ _ hy
      simp only [hr, Bool.false_and] at h
      simp at h
      subst h
      exact hr
  refine ⟨?_, ?_, ?_⟩
  · intro d dup e; subst e; cases this
  · intro e; subst e; cases this
  · intro n a b e; subst e; cases this

/-- A document that passes the check but fails in the update with another error: an `xsi:type` without
prefix. -/
example : stix111.check o0 (stixDoc "1.1.1" [el nsStix "Incident" [xsiType "Foo"]]) = .ok () ∧
    stepUpdate stix111 o0 false 0 (stixDoc "1.1.1" [el nsStix "Incident" [xsiType "Foo"]]) =
      .error .valueError := by decide +kernel

/-! ## C42 (defaults; the read-back part is in Props/Version.lean) -/

/-- C42: leaving out `from_` is passing the version read from the root; leaving out `to_` is passing the
latest release. -/
theorem C42_defaults (w : World) (e : Elem) (ks : List Node) (from_ to_ : Option String) (o : Options)
    (force : Bool) (k : Nat) :
    (e.tag.name = "STIX_Package" →
      update w (.elem e ks) none to_ o force k =
        update w (.elem e ks) (e.get? (.plain "version")) to_ o force k) ∧
    (e.tag.name = "Observables" → ∀ v, cyboxGetVersion e = .ok v →
      update w (.elem e ks) none to_ o force k = update w (.elem e ks) (some v) to_ o force k) ∧
    (e.tag.name = "STIX_Package" →
      update w (.elem e ks) from_ none o force k = update w (.elem e ks) from_ (some "1.2.1") o force k) ∧
    (e.tag.name = "Observables" →
      update w (.elem e ks) from_ none o force k = update w (.elem e ks) from_ (some "2.1") o force k) := by
  refine ⟨?_, ?_, ?_, ?_⟩
  · intro h
    rw [(C01_dispatch w e ks _ _ o force k).1 h, (C01_dispatch w e ks _ _ o force k).1 h]
    simp only [stixUpdate, pyOr_eq_inForce]
    congr 1
    simp only [stixRootVersion, Node.root?, Option.bind, stixGetVersion, attrVersion]
    cases hv : e.get? (.plain "version") with
    | none => rfl
    | some v =>
      by_cases h0 : v = ""
      · subst h0; rfl
      · rw [inForce_release h0]; rfl
  · intro h v hv
    rw [(C01_dispatch w e ks _ _ o force k).2.1 h, (C01_dispatch w e ks _ _ o force k).2.1 h]
    simp only [cyboxUpdate, cyboxFrom_eq]
    have hv0 : v ≠ "" := by
      intro h0
      subst h0
      simp only [cyboxGetVersion] at hv
      split at hv
      · cases hv
      · split at hv <;> (simp only [Except.ok.injEq] at hv; have := congrArg String.toList hv; simp at this)
    have h1 : cyboxSource (.elem e ks) none = .ok (some v) := by
      simp [cyboxSource, inForce, cyboxRootVersion, Node.root?, hv, Except.map]
    have h2 : cyboxSource (.elem e ks) (some v) = .ok (some v) := by
      simp only [cyboxSource, inForce_release hv0]
    rw [h1, h2]
  · intro h
    rw [(C01_dispatch w e ks _ _ o force k).1 h, (C01_dispatch w e ks _ _ o force k).1 h]
    rfl
  · intro h
    rw [(C01_dispatch w e ks _ _ o force k).2.1 h, (C01_dispatch w e ks _ _ o force k).2.1 h]
    rfl

example : update w0 doc111 none none o0 false 0 = update w0 doc111 (some "1.1.1") (some "1.2.1") o0 false 0 :=
  ((C42_defaults w0 _ _ none none o0 false 0).1 (by decide)).trans
    ((C42_defaults w0 _ _ (some "1.1.1") none o0 false 0).2.2.1 (by decide))

end Ramrod

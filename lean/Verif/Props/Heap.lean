import Verif.Props.Chain
/-!
# C06: the caller's document is never modified

The statements are about the heap layer of `Verif/Api.lean`, where every operation reads and writes
document objects in place; `junk` is whatever an interrupted update leaves behind in the object it was
working on.
-/

namespace Ramrod

open Samples

/-! ## Helpers -/

/-- All document objects older than `n` are as before. -/
def Kept (n : Nat) (s s' : Store) : Prop :=
  s.docs.length ≤ s'.docs.length ∧ ∀ i, i < n → s'.read i = s.read i

theorem Kept.refl (n : Nat) (s : Store) : Kept n s s := ⟨Nat.le_refl _, fun _ _ => rfl⟩

theorem Kept.trans {n : Nat} {s s' s'' : Store} (h : Kept n s s') (h' : Kept n s' s'') : Kept n s s'' :=
  ⟨Nat.le_trans h.1 h'.1, fun i hi => (h'.2 i hi).trans (h.2 i hi)⟩

theorem kept_write {n h : Nat} (hn : n ≤ h) (s : Store) (t : Node) : Kept n s (s.write h t) := by
  refine ⟨by simp [Store.write], ?_⟩
  intro i hi
  simp only [Store.read, Store.write]
  rw [List.getElem?_set_ne (by omega)]

theorem read_write {s : Store} {h : Nat} (hh : h < s.docs.length) (t : Node) : (s.write h t).read h = some t := by
  simp only [Store.read, Store.write]
  rw [List.getElem?_set_self hh]

theorem read_lt {s : Store} {h : Nat} {t : Node} (hr : s.read h = some t) : h < s.docs.length := by
  simp only [Store.read] at hr
  exact (List.getElem?_eq_some_iff.1 hr).1

theorem kept_alloc {n : Nat} {s : Store} (hn : n ≤ s.docs.length) (t : Node) : Kept n s (s.alloc t).1 := by
  refine ⟨by simp [Store.alloc], ?_⟩
  intro i hi
  simp only [Store.read, Store.alloc]
  rw [List.getElem?_append_left (by omega)]

theorem read_alloc (s : Store) (t : Node) : (s.alloc t).1.read (s.alloc t).2 = some t := by
  simp [Store.read, Store.alloc]

/-- Outcome of an in-place update of the object `h` with content `t`. -/
theorem heapInner_spec (u : Updater) (o : Options) (junk : Node → Node) {h n : Nat} {s : Store} {t : Node}
    (hr : s.read h = some t) (hn : n ≤ h) :
    Kept n s (heapInner u o junk h s).1 ∧
    match u.update o t with
    | .ok d => (heapInner u o junk h s).2 = .ok () ∧ (heapInner u o junk h s).1.read h = some d
    | .error x => (heapInner u o junk h s).2 = .error x := by
  simp only [heapInner, hr]
  cases hu : u.update o t with
  | ok d => exact ⟨kept_write hn s d, rfl, read_write (read_lt hr) d⟩
  | error x => exact ⟨kept_write hn s _, rfl⟩

theorem heapCleanInner_spec (u : Updater) (o : Options) (k : Nat) {h n : Nat} {s : Store} {t : Node}
    (hr : s.read h = some t) (hn : n ≤ h) :
    Kept n s (heapCleanInner u o k h s).1 ∧
    match clean u o k t with
    | .ok (r, k') => (heapCleanInner u o k h s).2 = .ok ⟨h, r.removed, r.remapped, k'⟩ ∧
        (heapCleanInner u o k h s).1.read h = some r.doc
    | .error x => (heapCleanInner u o k h s).2 = .error x := by
  simp only [heapCleanInner, hr]
  cases hc : clean u o k t with
  | ok p => exact ⟨kept_write hn s _, rfl, read_write (read_lt hr) _⟩
  | error x => exact ⟨Kept.refl _ _, rfl⟩

theorem heapForce_spec (u : Updater) (o : Options) (k : Nat) (junk : Node → Node) {h n : Nat} {s : Store}
    {t : Node} (hr : s.read h = some t) (hn : n ≤ h) :
    Kept n s (heapForce u o k junk h s).1 ∧
    match forceUpdate u o k t with
    | .ok (r, k') => (heapForce u o k junk h s).2 = .ok ⟨h, r.removed, r.remapped, k'⟩ ∧
        (heapForce u o k junk h s).1.read h = some r.doc
    | .error x => (heapForce u o k junk h s).2 = .error x := by
  have hc := heapCleanInner_spec u o k hr hn
  simp only [heapForce, forceUpdate]
  revert hc
  generalize heapCleanInner u o k h s = p
  obtain ⟨s1, out⟩ := p
  intro hc
  cases hcl : clean u o k t with
  | error x =>
    rw [hcl] at hc
    simp only at hc
    rw [hc.2]
    exact ⟨hc.1, rfl⟩
  | ok p =>
    obtain ⟨r, k'⟩ := p
    rw [hcl] at hc
    simp only at hc
    obtain ⟨hk, rfl, hread⟩ := hc
    simp only
    have hi := heapInner_spec u o junk hread hn
    revert hi
    generalize heapInner u o junk h s1 = q
    obtain ⟨s2, out2⟩ := q
    intro hi
    cases hu : u.update o r.doc with
    | error x =>
      rw [hu] at hi; simp only at hi
      rw [hi.2]
      exact ⟨hk.trans hi.1, rfl⟩
    | ok d =>
      rw [hu] at hi; simp only at hi
      rw [hi.2.1]
      exact ⟨hk.trans hi.1, rfl, hi.2.2⟩

theorem heapStep_spec {w : World} {u : Updater} (hreg : Registered w u) (o : Options) (force : Bool) (k : Nat)
    (junk : Node → Node) {h : Nat} {s : Store} {t : Node} (hr : s.read h = some t) :
    Kept s.docs.length s (heapStep u o force k junk h s).1 ∧
    match stepUpdate u o force k t with
    | .ok (r, k') => ∃ h', s.docs.length ≤ h' ∧
        (heapStep u o force k junk h s).2 = .ok ⟨h', r.removed, r.remapped, k'⟩ ∧
        (heapStep u o force k junk h s).1.read h' = some r.doc
    | .error x => (heapStep u o force k junk h s).2 = .error x := by
  have ha := kept_alloc (n := s.docs.length) (s := s) (Nat.le_refl _) t
  have hra := read_alloc s t
  have hlen : s.docs.length ≤ (s.alloc t).2 := Nat.le_refl _
  simp only [heapStep, Store.getRoot, hr, if_true, stepUpdate, tryUpdate]
  revert ha hra hlen
  generalize s.alloc t = p
  obtain ⟨s1, h1⟩ := p
  intro ha hra hlen
  simp only at ha hra hlen ⊢
  rw [hra]
  simp only
  cases hc : u.check o t with
  | error x =>
    simp only
    by_cases hx : (refusable x && force) = true
    · simp only [hx, if_true]
      have hf := heapForce_spec u o k junk hra hlen
      refine ⟨ha.trans hf.1, ?_⟩
      cases hfu : forceUpdate u o k t with
      | error y => rw [hfu] at hf; exact hf.2
      | ok p => rw [hfu] at hf; exact ⟨h1, hlen, hf.2.1, hf.2.2⟩
    · simp only [hx, Bool.false_eq_true, if_false]
      exact ⟨ha, trivial⟩
  | ok _ =>
    simp only
    have hi := heapInner_spec u o junk hra hlen
    revert hi
    generalize heapInner u o junk h1 s1 = q
    obtain ⟨s2, out2⟩ := q
    intro hi
    cases hu : u.update o t with
    | error x =>
      rw [hu] at hi; simp only at hi
      have hnr := noRefuse_update hreg o t x hu
      rw [hi.2]
      simp only [hnr, Bool.false_and, Bool.false_eq_true, if_false]
      exact ⟨ha.trans hi.1, trivial⟩
    | ok d =>
      rw [hu] at hi; simp only at hi
      rw [hi.2.1]
      exact ⟨ha.trans hi.1, h1, hlen, rfl, hi.2.2⟩

theorem heapChain_spec {w : World} (reg : List (String × Updater))
    (hreg : ∀ v u, assoc reg v = some u → Registered w u) (o : Options) (force : Bool) (junk : Node → Node) :
    ∀ (vs : List String) (acc : HResult) (s : Store) (t : Node), s.read acc.doc = some t →
    Kept s.docs.length s (heapChain reg o force junk vs acc s).1 ∧
    match chainLoop reg o force vs ⟨t, acc.removed, acc.remapped⟩ acc.count with
    | .ok (r, k') => ∃ h', (vs ≠ [] → s.docs.length ≤ h') ∧
        (heapChain reg o force junk vs acc s).2 = .ok ⟨h', r.removed, r.remapped, k'⟩ ∧
        (heapChain reg o force junk vs acc s).1.read h' = some r.doc
    | .error x => (heapChain reg o force junk vs acc s).2 = .error x
  | [], acc, s, t, hr => by
    simp only [heapChain, chainLoop]
    exact ⟨Kept.refl _ _, acc.doc, fun h => absurd rfl h, rfl, hr⟩
  | v :: vs, acc, s, t, hr => by
    simp only [heapChain, chainLoop]
    cases hu : assoc reg v with
    | none => exact ⟨Kept.refl _ _, rfl⟩
    | some u =>
      simp only
      have hst := heapStep_spec (hreg v u hu) o force acc.count junk hr
      revert hst
      generalize heapStep u o force acc.count junk acc.doc s = q
      obtain ⟨s1, out⟩ := q
      intro hst
      cases hsu : stepUpdate u o force acc.count t with
      | error x =>
        rw [hsu] at hst; simp only at hst
        rw [hst.2]
        exact ⟨hst.1, rfl⟩
      | ok p =>
        obtain ⟨r, k'⟩ := p
        rw [hsu] at hst; simp only at hst
        obtain ⟨hk, h', hh', rfl, hread⟩ := hst
        simp only
        have ih := heapChain_spec reg hreg o force junk vs
          ⟨h', acc.removed ++ r.removed, dictUpdate acc.remapped r.remapped, k'⟩ s1 r.doc hread
        refine ⟨⟨Nat.le_trans hk.1 ih.1.1, ?_⟩, ?_⟩
        · intro i hi
          exact (ih.1.2 i (Nat.lt_of_lt_of_le hi hk.1)).trans (hk.2 i hi)
        · simp only at ih
          revert ih
          cases chainLoop reg o force vs ⟨r.doc, acc.removed ++ r.removed, dictUpdate acc.remapped r.remapped⟩ k' with
          | error x => exact fun ih => ih.2
          | ok p =>
            rintro ⟨_, h2, hfresh, hout, hrd⟩
            refine ⟨h2, fun _ => ?_, hout, hrd⟩
            by_cases hvs : vs = []
            · subst hvs
              simp only [heapChain, Except.ok.injEq, HResult.mk.injEq] at hout
              rw [← hout.1]; exact hh'
            · exact Nat.le_trans hk.1 (hfresh hvs)

/-- What `validate_versions` accepts. -/
theorem validateVersions_ok {l : List String} {s g : Option String} {f h : String}
    (hv : (validateVersions s g l : Except Err _) = .ok (f, h)) :
    s = some f ∧ g = some h ∧ f ∈ l ∧ h ∈ l ∧ f ≠ "" ∧ h ≠ "" := by
  have one : ∀ (x : Option String) (f : String), (validateVersion x l : Except Err String) = .ok f →
      x = some f ∧ f ∈ l ∧ f ≠ "" := by
    intro x f hx
    cases x with
    | none => simp [validateVersion] at hx
    | some v =>
      simp only [validateVersion] at hx
      split at hx
      · cases hx
      · next h0 =>
        split at hx
        · next hm => simp at hx; subst hx; exact ⟨rfl, hm, h0⟩
        · cases hx
  simp only [validateVersions, bind, Except.bind] at hv
  split at hv
  · cases hv
  · next a ha =>
    split at hv
    · cases hv
    · next b hb =>
      obtain ⟨rfl, ha2, ha3⟩ := one _ _ ha
      obtain ⟨rfl, hb2, hb3⟩ := one _ _ hb
      split at hv
      · split at hv
        · simp only [Except.ok.injEq, Prod.mk.injEq] at hv
          obtain ⟨rfl, rfl⟩ := hv
          exact ⟨rfl, rfl, ha2, hb2, ha3, hb3⟩
        · cases hv
      · cases hv

theorem slice_ne_nil {l : List String} (hn : l.Nodup) {s g : String} (h : Older l s g) :
    versionSlice l s g ≠ [] := by
  have hm := older_mem h
  have hi := (older_iff hn hm.1 hm.2).1 h
  intro e
  have := congrArg List.length e
  simp only [versionSlice, List.length_drop, List.length_take, List.length_nil] at this
  have : l.idxOf g < l.length := List.idxOf_lt_length_of_mem hm.2
  omega

theorem heapRunChain_spec {w : World} {versions : List String} (hn : versions.Nodup) (h0 : "" ∉ versions)
    (hcmp : ∀ f ∈ versions, ∀ g ∈ versions,
      (match parseVer f, parseVer g with
        | some a, some b => a.cmp b == .lt
        | _, _ => false) = decide (versions.idxOf f < versions.idxOf g))
    (hp : ∀ f ∈ versions, (parseVer f).isSome = true) (reg : List (String × Updater))
    (hreg : ∀ v u, assoc reg v = some u → Registered w u) (from_ to_ : Option String) (o : Options)
    (force : Bool) (k : Nat) (junk : Node → Node) {h : Nat} {s : Store} {t : Node} (hr : s.read h = some t) :
    Kept s.docs.length s (heapRunChain versions reg h from_ to_ o force k junk s).1 ∧
    match runChain versions reg t from_ to_ o force k with
    | .ok (r, k') => ∃ h', s.docs.length ≤ h' ∧
        (heapRunChain versions reg h from_ to_ o force k junk s).2 = .ok ⟨h', r.removed, r.remapped, k'⟩ ∧
        (heapRunChain versions reg h from_ to_ o force k junk s).1.read h' = some r.doc
    | .error x => (heapRunChain versions reg h from_ to_ o force k junk s).2 = .error x := by
  simp only [heapRunChain, runChain]
  cases hv : (validateVersions from_ to_ versions : Except Err (String × String)) with
  | error x => exact ⟨Kept.refl _ _, rfl⟩
  | ok p =>
    obtain ⟨f, g⟩ := p
    simp only
    obtain ⟨rfl, rfl, hf, hg, _, _⟩ := validateVersions_ok hv
    have hold : Older versions f g := by
      refine Classical.byContradiction fun hno => ?_
      rw [(validateVersions_both hn h0 hcmp hp hf hg).2 hno] at hv
      cases hv
    have := heapChain_spec reg hreg o force junk (versionSlice versions f g) ⟨h, [], [], k⟩ s t hr
    refine ⟨this.1, ?_⟩
    simp only at this
    revert this
    cases chainLoop reg o force (versionSlice versions f g) ⟨t, [], []⟩ k with
    | error x => exact fun ih => ih.2
    | ok p =>
      rintro ⟨_, h2, hfresh, hrest⟩
      exact ⟨h2, hfresh (slice_ne_nil hn hold), hrest⟩

/-! ## C06 -/

/-- C06 for `BaseUpdater.update`: in every outcome every document object that existed before the call has
its old content; on success the result is a new object, with the content given by the pure model. -/
theorem C06_step (w : World) (u : Updater) (hu : Registered w u) (o : Options) (force : Bool) (k : Nat)
    (junk : Node → Node) (h : Nat) (s : Store) (t : Node) (hr : s.read h = some t) :
    (∀ i, i < s.docs.length → (heapStep u o force k junk h s).1.read i = s.read i) ∧
    match stepUpdate u o force k t with
    | .ok (r, k') => ∃ h', s.docs.length ≤ h' ∧
        (heapStep u o force k junk h s).2 = .ok ⟨h', r.removed, r.remapped, k'⟩ ∧
        (heapStep u o force k junk h s).1.read h' = some r.doc
    | .error x => (heapStep u o force k junk h s).2 = .error x :=
  ⟨(heapStep_spec hu o force k junk hr).1.2, (heapStep_spec hu o force k junk hr).2⟩

/-- C06 for `BaseUpdater.clean`. -/
theorem C06_clean (u : Updater) (o : Options) (k : Nat) (h : Nat) (s : Store) (t : Node)
    (hr : s.read h = some t) :
    (∀ i, i < s.docs.length → (heapClean u o k h s).1.read i = s.read i) ∧
    match clean u o k t with
    | .ok (r, k') => ∃ h', s.docs.length ≤ h' ∧
        (heapClean u o k h s).2 = .ok ⟨h', r.removed, r.remapped, k'⟩ ∧
        (heapClean u o k h s).1.read h' = some r.doc
    | .error x => (heapClean u o k h s).2 = .error x := by
  have ha := kept_alloc (n := s.docs.length) (s := s) (Nat.le_refl _) t
  have hc := heapCleanInner_spec u o k (n := s.docs.length) (read_alloc s t) (Nat.le_refl _)
  simp only [heapClean, Store.getRoot, hr, if_true]
  refine ⟨fun i hi => (ha.trans hc.1).2 i hi, ?_⟩
  cases hcl : clean u o k t with
  | error x => rw [hcl] at hc; exact hc.2
  | ok p => rw [hcl] at hc; exact ⟨_, Nat.le_refl _, hc.2.1, hc.2.2⟩

/-- C06 for `ramrod.update`. -/
theorem C06_update (w : World) (from_ to_ : Option String) (o : Options) (force : Bool) (k : Nat)
    (junk : Node → Node) (h : Nat) (s : Store) (t : Node) (hr : s.read h = some t) :
    (∀ i, i < s.docs.length → (heapUpdate w h from_ to_ o force k junk s).1.read i = s.read i) ∧
    match update w t from_ to_ o force k with
    | .ok (r, k') => ∃ h', s.docs.length ≤ h' ∧
        (heapUpdate w h from_ to_ o force k junk s).2 = .ok ⟨h', r.removed, r.remapped, k'⟩ ∧
        (heapUpdate w h from_ to_ o force k junk s).1.read h' = some r.doc
    | .error x => (heapUpdate w h from_ to_ o force k junk s).2 = .error x := by
  have hstix := fun f g => heapRunChain_spec (w := w) (versions := stixVersions) stix_nodup (by decide)
    stix_cmp_lt stix_parse (stixUpdaters w) (fun _ _ h => registered_stix h) f g o force k junk hr
  have hcyb := fun f g => heapRunChain_spec (w := w) (versions := cyboxVersions) cybox_nodup (by decide)
    cybox_cmp_lt cybox_parse cyboxUpdaters (fun _ _ h => registered_cybox h) f g o force k junk hr
  simp only [heapUpdate, Store.getRoot, Bool.false_eq_true, if_false, hr, update]
  cases hroot : t.root? with
  | none => exact ⟨fun _ _ => rfl, rfl⟩
  | some e =>
    simp only
    by_cases h1 : e.tag.name = "STIX_Package"
    · simp only [h1, if_true, heapStixUpdate, stixUpdate]
      exact ⟨(hstix _ _).1.2, (hstix _ _).2⟩
    · by_cases h2 : e.tag.name = "Observables"
      · simp only [h2, if_true]
        have h3 : ¬ ("Observables" = "STIX_Package") := by decide
        simp only [h3, if_false]
        cases hf : cyboxFrom t from_ with
        | error x => exact ⟨fun _ _ => rfl, rfl⟩
        | ok f =>
          simp only [heapCyboxUpdate, cyboxUpdate]
          cases hf2 : cyboxFrom t f with
          | error x => exact ⟨fun _ _ => rfl, rfl⟩
          | ok f' => exact ⟨(hcyb _ _).1.2, (hcyb _ _).2⟩
      · simp only [h1, h2, if_false]
        exact ⟨fun _ _ => trivial, trivial⟩

/-- A forced update of a document with untranslatable content: it returns a different document, and the
caller's document is unchanged. -/
example :
    let s : Store := ⟨[doc111, cybox201bad]⟩
    let out := heapUpdate w0 1 none none o0 true 0 (fun _ => doc111) s
    out.1.read 1 = some cybox201bad ∧ out.1.read 0 = some doc111 ∧
      out.1.docs.length = 3 ∧ out.1.read 2 ≠ some cybox201bad ∧ out.2.isOk = true := by
  decide +kernel

end Ramrod

import Verif.Lemmas.Relabel
import Verif.Lemmas.Errors
import Verif.Props.Versions
/-!
# C69: what the function for new ids can change

Two updates of one document with the same settings but different functions for new ids.  Either both stop with the same
exception, or both yield results that agree in everything but the values of ids; without any new id they are the same.
-/

namespace Ramrod

/-! ## The spec -/

/-- An element with the values of its `id` attributes wiped. -/
def wipeElem (e : Elem) : Elem :=
  { e with attrs := e.attrs.map (fun p => if p.1 = ⟨none, "id"⟩ then (p.1, "") else p) }

mutual
/-- A node with the values of all `id` attributes wiped. -/
def wipe : Node → Node
  | .elem e ks => .elem (wipeElem e) (wipes ks)
  | .other c t => .other c t
/-- A list of nodes with the values of all `id` attributes wiped. -/
def wipes : List Node → List Node
  | [] => []
  | k :: ks => wipe k :: wipes ks
end

/-- Two results that differ in the values of ids only: the same document and the same removed nodes up to ids, and tables of
new ids with the same old ids, each with as many new ones. -/
structure UpToIds (x y : Result) : Prop where
  doc : wipe x.doc = wipe y.doc
  removed : x.removed.map wipe = y.removed.map wipe
  remapped : x.remapped.map (fun p => (p.1, p.2.length)) = y.remapped.map (fun p => (p.1, p.2.length))

/-- Two outcomes that differ in the values of ids only, and only if there are new ids: the same exception, or the same count of
calls of the function and results that are the same or differ in ids. -/
def OutcomesUpToIds : Except Err (Result × Nat) → Except Err (Result × Nat) → Prop
  | .ok x, .ok y => x = y ∨ (x.2 = y.2 ∧ x.1.remapped ≠ [] ∧ UpToIds x.1 y.1)
  | .error a, .error b => a = b
  | _, _ => False

/-! ## Wiping is a relabelling -/

namespace NewIds

/-- The relabelling that wipes ids. -/
def blur : Relabel := ⟨fun s => s, fun _ => "", fun _ v => v, fun c => c⟩

theorem blur_legible : blur.Legible := ⟨fun _ _ h => h, fun _ h => h⟩

theorem blur_type (v : String) : blur.type v = v := by
  apply String.ext
  simp [Relabel.type, blur, List.takeWhile_append_dropWhile]

theorem blur_val (k : QName) (v : String) : blur.val k v = if k = ⟨none, "id"⟩ then "" else v := by
  simp only [Relabel.val, blur_type]
  by_cases h1 : k = ⟨some "http://www.w3.org/2001/XMLSchema-instance", "type"⟩
  · subst h1; simp
  · by_cases h2 : k = ⟨none, "id"⟩
    · subst h2; simp [blur]
    · simp [h1, h2, blur]

theorem blur_elem (e : Elem) : blur.elem e = wipeElem e := by
  have h : ∀ p : QName × String, (p.1, blur.val p.1 p.2) = if p.1 = ⟨none, "id"⟩ then (p.1, "") else p := by
    intro p
    rw [blur_val]
    by_cases hp : p.1 = ⟨none, "id"⟩ <;> simp [hp]
  have hn : ∀ m : NsMap, blur.nss m = m := by
    intro m
    have : (fun p : Option String × String => (p.1.map blur.pre, p.2)) = id := by
      funext p
      obtain ⟨a, b⟩ := p
      cases a <;> rfl
    simp only [Relabel.nss, this, List.map_id]
  simp only [Relabel.elem, wipeElem, Relabel.attrs, hn]
  congr 1
  exact List.map_congr_left (fun p _ => h p)

mutual
theorem blur_node : ∀ t : Node, blur.node t = wipe t
  | .elem e ks => by simp only [Relabel.node, wipe, blur_elem, blur_nodes ks]
  | .other c t => rfl
theorem blur_nodes : ∀ ks : List Node, blur.nodes ks = wipes ks
  | [] => rfl
  | k :: ks => by simp only [Relabel.nodes, wipes, blur_node k, blur_nodes ks]
end

theorem blur_node_fn : (blur.node : Node → Node) = wipe := funext blur_node

theorem blur_err {x : Err} (h : refusable x = false) : blur.err x = x := by cases x <;> first | rfl | cases h

/-! ## Steps that give no new ids -/

/-- Options without the function. -/
def still (o : Options) : Options := { o with newId := fun _ _ => "" }

/-- Options with another function. -/
def using_ (o : Options) (g : Nat → String → String) : Options := { o with newId := g }

theorem blur_opts (o : Options) : blur.Opts o (still o) := ⟨rfl, rfl, rfl, fun _ _ => rfl⟩

/-- A world whose parser yields wiped nodes. -/
def wiped (w : World) : World := { w with parseXml := fun s => (w.parseXml s).map blur.node }

/-- A step whose outcome on the wiped document, taken by a possibly different updater, is the wiped outcome. -/
structure Calm (u u' : Updater) : Prop where
  check : ∀ o t, u'.check (still o) (blur.node t) = blur.out (fun x => x) (u.check o t)
  update : ∀ o t, u'.update (still o) (blur.node t) = blur.out blur.node (u.update o t)
  clean : ∀ o k t, clean u' (still o) k (blur.node t) = blur.out blur.counted (clean u o k t)
  free : ∀ o g k t, Ramrod.clean u (using_ o g) k t = Ramrod.clean u o k t
  none_ : ∀ o k t x, Ramrod.clean u o k t = .ok x → x.1.remapped = []

theorem calm_step {u u' : Updater} (h : Calm u u') (o : Options) (force : Bool) (k : Nat) (t : Node) :
    stepUpdate u' (still o) force k (blur.node t) = blur.out blur.counted (stepUpdate u o force k t) := by
  have hf : forceUpdate u' (still o) k (blur.node t) = blur.out blur.counted (forceUpdate u o k t) := by
    simp only [forceUpdate, h.clean]
    cases clean u o k t with
    | error x => rfl
    | ok p =>
      obtain ⟨x, k'⟩ := p
      simp only [Relabel.out, Relabel.counted, Relabel.result, h.update]
      cases u.update o x.doc <;> rfl
  have ht : tryUpdate u' (still o) (blur.node t) = blur.out blur.node (tryUpdate u o t) := by
    simp only [tryUpdate, h.check]
    cases u.check o t with
    | error x => rfl
    | ok _ => exact h.update o t
  simp only [stepUpdate, ht]
  cases tryUpdate u o t with
  | ok d => rfl
  | error x =>
    simp only [Relabel.out, Relabel.refusable_err]
    by_cases h : (refusable x && force) = true
    · simp only [h, if_true]; exact hf
    · simp only [h]; rfl

theorem calm_of_blind {u : Updater} (h : ∀ o, blur.BlindStep o (still o) u) (hd : ∀ t, u.duplicates t = none) :
    Calm u u where
  check o t := (h o).check t
  update o t := (h o).update t
  clean o k t := blur.clean_node (blur_opts o) (h o) k t
  free o g k t := by simp only [Relabel.clean_parts, hd, Relabel.newIdsFor]
  none_ o k t x hx := by
    simp only [Relabel.clean_parts, hd, Relabel.newIdsFor] at hx
    split at hx <;> cases hx
    rfl

theorem calm_cybox20 : Calm cybox20 cybox20 :=
  calm_of_blind (fun o => blur.cybox20_blind blur_legible (blur_opts o)) (fun _ => rfl)

theorem calm_stix10 : Calm stix10 stix10 :=
  calm_of_blind (fun o => blur.stix10_blind blur_legible (blur_opts o)) (fun _ => rfl)

theorem calm_stix111 : Calm stix111 stix111 :=
  calm_of_blind (fun o => blur.stix111_blind blur_legible (blur_opts o)) (fun _ => rfl)

theorem calm_stix12 : Calm stix12 stix12 where
  check o t := blur.versions_opts (blur_opts o) (blur.stixCheckVersion_node _ t)
  update o t := by
    simp only [stix12, stix12Update, blur.updateNamespaces_root blur_legible, Relabel.updateSchemalocs_node,
      Relabel.setRootVersion_node]
    rfl
  clean o k t := rfl
  free o g k t := rfl
  none_ o k t x hx := by cases hx

theorem fromstring_wiped (w : World) (s : String) :
    fromstring (wiped w) s = blur.out blur.node (fromstring w s) := by
  simp only [fromstring, wiped]
  cases w.parseXml s <;> rfl

theorem commonSource_wiped (w : World) (c : Ctx) :
    translateCommonSource (wiped w) (blur.ctx c) = blur.out blur.node (translateCommonSource w c) := by
  have h : (blur.ctx c).e.text = c.e.text := rfl
  simp only [translateCommonSource, h]
  split
  · simp [Relabel.out, sourceNode, Relabel.node, Relabel.nodes, Relabel.elem, Relabel.nss, Relabel.attrs, blur]
  · exact fromstring_wiped w _

theorem sightingSource_wiped (w : World) (c : Ctx) :
    translateSightingSource (wiped w) (blur.ctx c) = blur.out blur.node (translateSightingSource w c) := by
  have h : (blur.ctx c).e.text = c.e.text := rfl
  simp only [translateSightingSource, h]
  split
  · simp [Relabel.out, sourceNode, Relabel.node, Relabel.nodes, Relabel.elem, Relabel.nss, Relabel.attrs, blur]
  · exact fromstring_wiped w _

theorem custom_wiped {g g' : Ctx → Except Err Node} (h : ∀ c, g' (blur.ctx c) = blur.out blur.node (g c))
    (xp : List XAlt) (m : List (String × String)) (t : Node) :
    (Trans.mk xp m (.custom g')).translate (blur.node t) = blur.out blur.node ((Trans.mk xp m (.custom g)).translate t) := by
  simp only [Trans.translate, Relabel.xpath_node]
  rw [blur.mapE_pos (fun p => p) h]
  cases mapE (fun c => (g c).map (fun n => (c.pos, n))) (t.xpath m xp) with
  | error x => rfl
  | ok l => simp only [Relabel.out, Relabel.replaceAll_node]

theorem fields11_wiped (w : World) (t : Node) :
    translateFields (stix11Cls (wiped w)).translatable (blur.node t) =
      blur.out blur.node (translateFields (stix11Cls w).translatable t) := by
  simp only [stix11Cls, translateFields, foldE, transCommonSource, transSightingsSource]
  rw [custom_wiped (commonSource_wiped w)]
  cases (Trans.mk _ Tables.stix11_nsmap (.custom (translateCommonSource w))).translate t with
  | error x => rfl
  | ok t1 =>
    simp only [Relabel.out]
    rw [custom_wiped (sightingSource_wiped w)]
    cases (Trans.mk _ Tables.stix11_nsmap (.custom (translateSightingSource w))).translate t1 with
    | error x => rfl
    | ok t2 =>
      simp only [Relabel.out]
      have hc : blur.Commutes transRelatedCampaign := fun c => rfl
      rw [blur.translate_node hc]
      cases transRelatedCampaign.translate t2 <;> rfl

theorem calm_stix11 (w : World) : Calm (stix11 w) (stix11 (wiped w)) where
  check o t := blur.versions_opts (blur_opts o) (blur.stixCheckVersion_node (stix11Cls w) t)
  update o t := by
    show stix11Update (wiped w) (still o) (blur.node t) = blur.out blur.node (stix11Update w o t)
    have hs : ∀ t, (stix11Cls (wiped w)).updateSchemalocs t = (stix11Cls w).updateSchemalocs t := by
      intro t
      cases t <;> rfl
    have hv : ∀ t, stixUpdateVersions (stix11Cls (wiped w)) "2.1.1" "1.1.1" t =
        stixUpdateVersions (stix11Cls w) "2.1.1" "1.1.1" t := fun _ => rfl
    simp only [stix11Update, hs, hv, Relabel.updateSchemalocs_node, Relabel.stixUpdateVersions_node, fields11_wiped]
    cases translateFields _ _ with
    | error x => rfl
    | ok t2 =>
      simp only [Relabel.out]
      have hvo : (stix11Cls (wiped w)).vocabs = (stix11Cls w).vocabs := rfl
      have hop : (stix11Cls (wiped w)).optionals = (stix11Cls w).optionals := rfl
      rw [hvo, hop, blur.vocabs_opts (blur_opts o) blur_legible]
      cases (if o.updateVocabularies then updateVocabs (stix11Cls w).vocabs t2 else .ok t2 : Except Err Node) with
      | error x => rfl
      | ok t3 =>
        refine blur.optionals_opts (blur_opts o) blur_legible _ ?_ t3
        intro f hf
        simp only [stix11Cls, List.mem_singleton] at hf
        subst hf
        exact blur.keepEmpty_blind rfl
  clean o k t := rfl
  free o g k t := rfl
  none_ o k t x hx := by cases hx; rfl

/-! ## Steps on the same document -/

theorem try_free {w : World} {u : Updater} (hu : Registered w u) (o : Options) (g : Nat → String → String) (t : Node) :
    tryUpdate u (using_ o g) t = tryUpdate u o t := by
  cases hu <;> rfl

theorem update_free {w : World} {u : Updater} (hu : Registered w u) (o : Options) (g : Nat → String → String) (t : Node) :
    u.update (using_ o g) t = u.update o t := by
  cases hu <;> rfl

theorem step_unforced {w : World} {u : Updater} (hu : Registered w u) (o : Options) (g : Nat → String → String) (k : Nat)
    (t : Node) : stepUpdate u (using_ o g) false k t = stepUpdate u o false k t := by
  simp only [stepUpdate, try_free hu, Bool.and_false]
  rfl

theorem step_calm_same {w : World} {u u' : Updater} (hu : Registered w u) (hc : Calm u u') (o : Options)
    (g : Nat → String → String) (force : Bool) (k : Nat) (t : Node) :
    stepUpdate u (using_ o g) force k t = stepUpdate u o force k t := by
  simp only [stepUpdate, try_free hu, forceUpdate, hc.free, update_free hu]

theorem calm_remapped {u u' : Updater} (hc : Calm u u') {o : Options} {force : Bool} {k : Nat} {t : Node} {x : Result × Nat}
    (h : stepUpdate u o force k t = .ok x) : x.1.remapped = [] := by
  simp only [stepUpdate] at h
  split at h
  · cases h; rfl
  · split at h
    · simp only [forceUpdate] at h
      split at h
      · cases h
      · next r k' hcl =>
        split at h
        · cases h
        · cases h; exact hc.none_ o k t (r, k') hcl
    · cases h

/-- Two results of one step, up to ids, whether or not there are new ids. -/
def Close : Except Err (Result × Nat) → Except Err (Result × Nat) → Prop
  | .ok x, .ok y => x.2 = y.2 ∧ UpToIds x.1 y.1
  | .error a, .error b => a = b
  | _, _ => False

theorem result_upToIds {x y : Result} (hd : blur.node x.doc = blur.node y.doc)
    (hr : x.removed.map blur.node = y.removed.map blur.node)
    (hm : x.remapped.map (fun p => (p.1, p.2.length)) = y.remapped.map (fun p => (p.1, p.2.length))) : UpToIds x y := by
  refine ⟨?_, ?_, hm⟩
  · rw [← blur_node, ← blur_node, hd]
  · rw [← blur_node_fn, hr]

theorem step_calm_close {w : World} {u u' : Updater} (hu : Registered w u) (hc : Calm u u') (o : Options)
    (g : Nat → String → String) (k : Nat) {t t' : Node} (ht : wipe t = wipe t') :
    Close (stepUpdate u o true k t) (stepUpdate u (using_ o g) true k t') := by
  have h1 := calm_step hc o true k t
  have h2 := calm_step hc (using_ o g) true k t'
  have hs : still (using_ o g) = still o := rfl
  rw [hs, blur_node, ← ht, ← blur_node, h1] at h2
  have hr1 := fun x (hx : stepUpdate u o true k t = .error x) => noRefuse_forcedStep hu o k t x hx
  have hr2 := fun x (hx : stepUpdate u (using_ o g) true k t' = .error x) => noRefuse_forcedStep hu (using_ o g) k t' x hx
  have hm1 := fun x (hx : stepUpdate u o true k t = .ok x) => calm_remapped hc hx
  have hm2 := fun x (hx : stepUpdate u (using_ o g) true k t' = .ok x) => calm_remapped hc hx
  revert h2 hr1 hr2 hm1 hm2
  cases stepUpdate u o true k t with
  | error a =>
    cases stepUpdate u (using_ o g) true k t' with
    | error b =>
      intro h r1 r2 _ _
      have h : blur.err a = blur.err b := Except.error.inj h
      rw [blur_err (r1 a rfl), blur_err (r2 b rfl)] at h
      exact h
    | ok y => intro h; cases h
  | ok x =>
    cases stepUpdate u (using_ o g) true k t' with
    | error b => intro h; cases h
    | ok y =>
      intro h _ _ m1 m2
      have h : blur.counted x = blur.counted y := Except.ok.inj h
      simp only [Relabel.counted, Relabel.result, Prod.mk.injEq, Result.mk.injEq] at h
      exact ⟨h.2, result_upToIds h.1.1 h.1.2.1 (by rw [m1 x rfl, m2 y rfl])⟩

/-! ## Steps that give new ids -/

theorem modify_blur {t t' : Node} (h : blur.node t = blur.node t') (p : Pos) (a b : String) :
    blur.node (t.modifyAt p (fun e => e.set attrId a)) = blur.node (t'.modifyAt p (fun e => e.set attrId b)) := by
  have hs : ∀ (v : String) (e : Elem), (fun e : Elem => e.set attrId "") (blur.elem e) = blur.elem (e.set attrId v) :=
    fun v e => blur.set_elem e attrId v
  rw [← blur.modifyAt_node (g' := fun e : Elem => e.set attrId "") (hs a),
    ← blur.modifyAt_node (g' := fun e : Elem => e.set attrId "") (hs b), h]

theorem remapGroup_blur (g g' : Nat → String → String) : ∀ (cs : List Ctx) (k : Nat) {t t' : Node},
    blur.node t = blur.node t' → blur.node (remapGroup g cs k t).1 = blur.node (remapGroup g' cs k t').1 ∧
      (remapGroup g cs k t).2.1 = (remapGroup g' cs k t').2.1 ∧
      (remapGroup g cs k t).2.2.length = (remapGroup g' cs k t').2.2.length
  | [], _, _, _, h => ⟨h, rfl, rfl⟩
  | c :: cs, k, t, t', h => by
    have hm := modify_blur h c.pos (g k ((c.e.get? attrId).getD "")) (g' k ((c.e.get? attrId).getD ""))
    obtain ⟨h1, h2, h3⟩ := remapGroup_blur g g' cs (k + 1) hm
    exact ⟨h1, h2, congrArg (· + 1) h3⟩

theorem cleanDuplicates_blur (g g' : Nat → String → String) : ∀ (d : Dups) (k : Nat) {t t' : Node},
    blur.node t = blur.node t' → blur.node (cleanDuplicates g d k t).1 = blur.node (cleanDuplicates g' d k t').1 ∧
      (cleanDuplicates g d k t).2.1 = (cleanDuplicates g' d k t').2.1 ∧
      (cleanDuplicates g d k t).2.2.map (fun p => (p.1, p.2.length)) =
        (cleanDuplicates g' d k t').2.2.map (fun p => (p.1, p.2.length))
  | [], _, _, _, h => ⟨h, rfl, rfl⟩
  | x :: d, k, t, t', h => by
    obtain ⟨h1, h2, h3⟩ := remapGroup_blur g g' x.2 k h
    simp only [cleanDuplicates]
    rw [← h2]
    obtain ⟨i1, i2, i3⟩ := cleanDuplicates_blur g g' d (remapGroup g x.2 k t).2.1 h1
    exact ⟨i1, i2, by simp only [List.map_cons, i3, h3]⟩

theorem cutFor_blur (dis : Option (List Ctx)) {t t' : Node} (h : blur.node t = blur.node t') :
    blur.node (Relabel.cutFor dis t).1 = blur.node (Relabel.cutFor dis t').1 ∧
      (Relabel.cutFor dis t).2.map blur.node = (Relabel.cutFor dis t').2.map blur.node := by
  have h1 := blur.cutFor_node dis t
  have h2 := blur.cutFor_node dis t'
  rw [← h, h1] at h2
  exact ⟨(Prod.mk.inj h2).1, (Prod.mk.inj h2).2⟩

/-- A step that gives new ids, on the same document. -/
theorem step_fresh {w : World} {u : Updater} (hu : Registered w u)
    (hup : ∀ o t, u.update (still o) (blur.node t) = blur.out blur.node (u.update o t)) (o : Options)
    (g : Nat → String → String) (k : Nat) (t : Node) :
    OutcomesUpToIds (stepUpdate u o true k t) (stepUpdate u (using_ o g) true k t) := by
  have same : ∀ z, OutcomesUpToIds z z := by
    intro z
    cases z with
    | error a => exact rfl
    | ok x => exact Or.inl rfl
  simp only [stepUpdate, try_free hu]
  cases tryUpdate u o t with
  | ok d => exact Or.inl rfl
  | error x =>
    dsimp only
    by_cases hx : (refusable x && true) = true
    · simp only [hx, if_true, forceUpdate, Relabel.clean_parts]
      cases u.disallowed t with
      | error y => exact rfl
      | ok dis =>
        dsimp only
        cases hd : u.duplicates t with
        | none => simp only [Relabel.newIdsFor, update_free hu]; exact same _
        | some d =>
          cases d with
          | nil => simp only [Relabel.newIdsFor, cleanDuplicates, update_free hu]; exact same _
          | cons y d =>
            simp only [Relabel.newIdsFor]
            obtain ⟨h1, h2, h3⟩ := cleanDuplicates_blur o.newId (using_ o g).newId (y :: d) k (rfl : blur.node t = blur.node t)
            obtain ⟨c1, c2⟩ := cutFor_blur dis h1
            have hne : (cleanDuplicates o.newId (y :: d) k t).2.2 ≠ [] := by simp [cleanDuplicates]
            generalize cleanDuplicates o.newId (y :: d) k t = a at *
            generalize cleanDuplicates (using_ o g).newId (y :: d) k t = b at *
            generalize Relabel.cutFor dis a.1 = ca at *
            generalize Relabel.cutFor dis b.1 = cb at *
            have e1 := hup o ca.1
            have e2 := hup (using_ o g) cb.1
            have hs : still (using_ o g) = still o := rfl
            rw [hs, ← c1, e1] at e2
            have r1 := noRefuse_update hu o ca.1
            have r2 := noRefuse_update hu (using_ o g) cb.1
            revert e2 r1 r2
            cases u.update o ca.1 with
            | error p =>
              cases u.update (using_ o g) cb.1 with
              | error q =>
                intro h r1 r2
                have h : blur.err p = blur.err q := Except.error.inj h
                rw [blur_err (r1 p rfl), blur_err (r2 q rfl)] at h
                exact h
              | ok q => intro h; cases h
            | ok p =>
              cases u.update (using_ o g) cb.1 with
              | error q => intro h; cases h
              | ok q =>
                intro h _ _
                exact Or.inr ⟨h2, hne, result_upToIds (Except.ok.inj h) c2 h3⟩
    · simp only [hx]; exact rfl

/-! ## Chains -/

theorem dictSet_sizes {α β : Type} (f : α → β) (k : String) (v : α) : ∀ m : List (String × α),
    dictSet (m.map (fun p => (p.1, f p.2))) k (f v) = (dictSet m k v).map (fun p => (p.1, f p.2))
  | [] => rfl
  | (k', v') :: rest => by
    have ih := dictSet_sizes f k v rest
    simp only [List.map_cons, dictSet]
    by_cases h : k' = k
    · simp [h]
    · simp [h, ih]

theorem dictUpdate_sizes {α β : Type} (f : α → β) : ∀ b a : List (String × α),
    dictUpdate (a.map (fun p => (p.1, f p.2))) (b.map (fun p => (p.1, f p.2))) =
      (dictUpdate a b).map (fun p => (p.1, f p.2))
  | [], _ => rfl
  | (k, v) :: b, a => by
    have ih := dictUpdate_sizes f b (dictSet a k v)
    simp only [dictUpdate, List.map_cons, List.foldl_cons] at ih ⊢
    rw [← ih, dictSet_sizes]

theorem dictUpdate_ne {β : Type} : ∀ (b a : List (String × β)), a ≠ [] ∨ b ≠ [] → dictUpdate a b ≠ []
  | [], a, h => by
    rcases h with h | h
    · exact h
    · exact absurd rfl h
  | (k, v) :: b, a, _ => by
    have : dictSet a k v ≠ [] := by
      cases a with
      | nil => simp [dictSet]
      | cons x a => simp only [dictSet]; split <;> simp
    exact dictUpdate_ne b (dictSet a k v) (Or.inl this)

theorem join_upToIds {x y a b : Result} (h : UpToIds x y) (h' : UpToIds a b) :
    UpToIds ⟨a.doc, x.removed ++ a.removed, dictUpdate x.remapped a.remapped⟩
      ⟨b.doc, y.removed ++ b.removed, dictUpdate y.remapped b.remapped⟩ := by
  refine ⟨h'.doc, ?_, ?_⟩
  · simp only [List.map_append, h.removed, h'.removed]
  · show (dictUpdate _ _).map _ = (dictUpdate _ _).map _
    rw [← dictUpdate_sizes (fun l : List String => l.length), ← dictUpdate_sizes (fun l : List String => l.length),
      h.remapped, h'.remapped]

/-- A chain of calm steps from two documents that differ in ids. -/
theorem chain_calm {w : World} {reg : List (String × Updater)} {o : Options} (g : Nat → String → String) : ∀ (vs : List String),
    (∀ v ∈ vs, ∀ u, assoc reg v = some u → Registered w u ∧ ∃ u', Calm u u') → ∀ {x y : Result} (k : Nat),
    x.remapped ≠ [] → UpToIds x y →
    OutcomesUpToIds (chainLoop reg o true vs x k) (chainLoop reg (using_ o g) true vs y k)
  | [], _, _, _, _, hn, h => Or.inr ⟨rfl, hn, h⟩
  | v :: vs, hreg, x, y, k, hn, h => by
    simp only [chainLoop]
    cases hv : assoc reg v with
    | none => exact rfl
    | some u =>
      obtain ⟨hu, u', hc⟩ := hreg v List.mem_cons_self u hv
      have hs := step_calm_close hu hc o g k h.doc
      dsimp only
      revert hs
      cases stepUpdate u o true k x.doc with
      | error a =>
        cases stepUpdate u (using_ o g) true k y.doc with
        | error b => exact fun h => h
        | ok b => exact fun h => h.elim
      | ok a =>
        cases stepUpdate u (using_ o g) true k y.doc with
        | error b => exact fun h => h.elim
        | ok b =>
          obtain ⟨a, ka⟩ := a
          obtain ⟨b, kb⟩ := b
          intro hs
          obtain ⟨h1, h2⟩ := hs
          dsimp only at h1 h2
          subst h1
          exact chain_calm g vs (fun v hv => hreg v (List.mem_cons_of_mem _ hv)) ka (dictUpdate_ne _ _ (Or.inl hn))
            (join_upToIds h h2)

/-- A chain with at most one step that gives new ids. -/
theorem chain_upToIds {w : World} {reg : List (String × Updater)} {o : Options} (g : Nat → String → String) (one : String) :
    ∀ (vs : List String), vs.Nodup →
    (∀ v ∈ vs, ∀ u, assoc reg v = some u → Registered w u ∧
      (v ≠ one → ∃ u', Calm u u') ∧ ∀ o t, v = one → u.update (still o) (blur.node t) = blur.out blur.node (u.update o t)) →
    ∀ (x : Result) (k : Nat),
    OutcomesUpToIds (chainLoop reg o true vs x k) (chainLoop reg (using_ o g) true vs x k)
  | [], _, _, _, _ => Or.inl rfl
  | v :: vs, hn, hreg, x, k => by
    rw [List.nodup_cons] at hn
    simp only [chainLoop]
    cases hv : assoc reg v with
    | none => exact rfl
    | some u =>
      obtain ⟨hu, hc, hup⟩ := hreg v List.mem_cons_self u hv
      have next := fun x k => chain_upToIds (o := o) g one vs hn.2 (fun v hv => hreg v (List.mem_cons_of_mem _ hv)) x k
      dsimp only
      by_cases h1 : v = one
      · have hs := step_fresh hu (fun o t => hup o t h1) o g k x.doc
        revert hs
        cases stepUpdate u o true k x.doc with
        | error a =>
          cases stepUpdate u (using_ o g) true k x.doc with
          | error b => exact fun h => h
          | ok b => exact fun h => h.elim
        | ok a =>
          cases stepUpdate u (using_ o g) true k x.doc with
          | error b => exact fun h => h.elim
          | ok b =>
            intro hs
            rcases hs with rfl | ⟨h2, h3, h4⟩
            · exact next _ _
            · obtain ⟨a, ka⟩ := a
              obtain ⟨b, kb⟩ := b
              dsimp only at h2 h3 h4
              subst h2
              refine chain_calm (w := w) g vs ?_ ka (dictUpdate_ne _ _ (Or.inr h3)) (join_upToIds ⟨rfl, rfl, rfl⟩ h4)
              intro v' hv' u' hu'
              obtain ⟨r1, r2, _⟩ := hreg v' (List.mem_cons_of_mem _ hv') u' hu'
              exact ⟨r1, r2 (fun e => hn.1 (h1 ▸ e ▸ hv'))⟩
      · obtain ⟨u', hc'⟩ := hc h1
        rw [step_calm_same hu hc']
        cases stepUpdate u o true k x.doc with
        | error a => exact rfl
        | ok a => exact next _ _

theorem chain_unforced {w : World} {reg : List (String × Updater)} {o : Options} (g : Nat → String → String) :
    ∀ (vs : List String), (∀ v ∈ vs, ∀ u, assoc reg v = some u → Registered w u) → ∀ (x : Result) (k : Nat),
    chainLoop reg (using_ o g) false vs x k = chainLoop reg o false vs x k
  | [], _, _, _ => rfl
  | v :: vs, hreg, x, k => by
    simp only [chainLoop]
    cases hv : assoc reg v with
    | none => rfl
    | some u =>
      dsimp only
      rw [step_unforced (hreg v List.mem_cons_self u hv)]
      cases stepUpdate u o false k x.doc with
      | error a => rfl
      | ok a => exact chain_unforced g vs (fun v hv => hreg v (List.mem_cons_of_mem _ hv)) _ _

theorem slice_nodup {vs : List String} (h : vs.Nodup) (f g : String) : (versionSlice vs f g).Nodup :=
  (List.Sublist.trans (List.drop_sublist _ _) (List.take_sublist _ _)).nodup h

theorem cybox_steps (w : World) (v : String) (u : Updater) (h : assoc cyboxUpdaters v = some u) : Registered w u ∧
    (v ≠ "2.0.1" → ∃ u', Calm u u') ∧
    ∀ o t, v = "2.0.1" → u.update (still o) (blur.node t) = blur.out blur.node (u.update o t) := by
  refine ⟨registered_cybox h, ?_, ?_⟩
  all_goals
    have hm := assoc_mem h
    simp only [cyboxUpdaters, List.mem_cons, Prod.mk.injEq, List.not_mem_nil, or_false] at hm
    rcases hm with ⟨rfl, rfl⟩ | ⟨rfl, rfl⟩
  · exact fun _ => ⟨_, calm_cybox20⟩
  · exact fun h => absurd rfl h
  · exact fun _ _ h => absurd h (by decide)
  · exact fun o t _ => blur.cybox201Update_node blur_legible (blur_opts o) _ _ t

theorem stix_steps (w : World) (v : String) (u : Updater) (h : assoc (stixUpdaters w) v = some u) : Registered w u ∧
    (v ≠ "1.0.1" → ∃ u', Calm u u') ∧
    ∀ o t, v = "1.0.1" → u.update (still o) (blur.node t) = blur.out blur.node (u.update o t) := by
  refine ⟨registered_stix h, ?_, ?_⟩
  all_goals
    have hm := assoc_mem h
    simp only [stixUpdaters, List.mem_cons, Prod.mk.injEq, List.not_mem_nil, or_false] at hm
    rcases hm with ⟨rfl, rfl⟩ | ⟨rfl, rfl⟩ | ⟨rfl, rfl⟩ | ⟨rfl, rfl⟩ | ⟨rfl, rfl⟩
  · exact fun _ => ⟨_, calm_stix10⟩
  · exact fun h => absurd rfl h
  · exact fun _ => ⟨_, calm_stix11 w⟩
  · exact fun _ => ⟨_, calm_stix111⟩
  · exact fun _ => ⟨_, calm_stix12⟩
  · exact fun _ _ h => absurd h (by decide)
  · exact fun o t _ => blur.stix101Update_node blur_legible w (blur_opts o) t
  all_goals exact fun _ _ h => absurd h (by decide)

theorem run_upToIds {w : World} {vs : List String} {reg : List (String × Updater)} {one : String} (hn : vs.Nodup)
    (h : ∀ v u, assoc reg v = some u → Registered w u ∧
      (v ≠ one → ∃ u', Calm u u') ∧ ∀ o t, v = one → u.update (still o) (blur.node t) = blur.out blur.node (u.update o t))
    (t : Node) (f g : Option String) (o : Options) (gen : Nat → String → String) (force : Bool) (k : Nat) :
    OutcomesUpToIds (runChain vs reg t f g o force k) (runChain vs reg t f g (using_ o gen) force k) ∧
    (force = false → runChain vs reg t f g (using_ o gen) force k = runChain vs reg t f g o force k) := by
  simp only [runChain]
  cases (validateVersions f g vs : Except Err (String × String)) with
  | error x => exact ⟨rfl, fun _ => rfl⟩
  | ok p =>
    dsimp only
    have hf := chain_unforced (o := o) gen (versionSlice vs p.1 p.2) (fun v _ u hu => (h v u hu).1) ⟨t, [], []⟩ k
    cases force with
    | false =>
      refine ⟨?_, fun _ => hf⟩
      rw [hf]
      cases chainLoop reg o false (versionSlice vs p.1 p.2) ⟨t, [], []⟩ k with
      | error a => exact rfl
      | ok a => exact Or.inl rfl
    | true => exact ⟨chain_upToIds gen one _ (slice_nodup hn _ _) (fun v _ u hu => h v u hu) _ k, fun h => nomatch h⟩

theorem update_both (w : World) (t : Node) (from_ to_ : Option String) (o : Options) (gen : Nat → String → String)
    (force : Bool) (k : Nat) :
    OutcomesUpToIds (update w t from_ to_ o force k) (update w t from_ to_ (using_ o gen) force k) ∧
    (force = false → update w t from_ to_ (using_ o gen) force k = update w t from_ to_ o force k) := by
  simp only [update]
  cases t.root? with
  | none => exact ⟨rfl, fun _ => rfl⟩
  | some e =>
    dsimp only
    by_cases h1 : e.tag.name = "STIX_Package"
    · simp only [h1, if_true]
      exact run_upToIds (w := w) (by decide) (stix_steps w) t _ _ o gen force k
    · by_cases h2 : e.tag.name = "Observables"
      · simp only [h2, if_true]
        cases cyboxFrom t from_ with
        | error x => exact ⟨rfl, fun _ => rfl⟩
        | ok f =>
          show OutcomesUpToIds (cyboxUpdate t f to_ o force k) (cyboxUpdate t f to_ (using_ o gen) force k) ∧
            (force = false → cyboxUpdate t f to_ (using_ o gen) force k = cyboxUpdate t f to_ o force k)
          simp only [cyboxUpdate]
          cases cyboxFrom t f with
          | error x => exact ⟨rfl, fun _ => rfl⟩
          | ok f' => exact run_upToIds (w := w) (by decide) (cybox_steps w) t _ _ o gen force k
      · simp only [h1, h2, if_false]
        exact ⟨rfl, fun _ => trivial⟩

end NewIds

/-! ## C69 -/

/-- C69: with another function for new ids, an update of the same document has the same outcome up to the values of ids: the
same exception, or the same document, removed nodes, old ids, numbers of new ids per old id, and number of calls.  If no id is
new, the outcome is the same altogether. -/
theorem C69_newIds (w : World) (t : Node) (from_ to_ : Option String) (o : Options) (gen : Nat → String → String)
    (force : Bool) (k : Nat) :
    OutcomesUpToIds (update w t from_ to_ o force k) (update w t from_ to_ { o with newId := gen } force k) :=
  (NewIds.update_both w t from_ to_ o gen force k).1

/-- C69 without force: the function does not matter. -/
theorem C69_unforced (w : World) (t : Node) (from_ to_ : Option String) (o : Options) (gen : Nat → String → String) (k : Nat) :
    update w t from_ to_ { o with newId := gen } false k = update w t from_ to_ o false k :=
  (NewIds.update_both w t from_ to_ o gen false k).2 rfl

open Samples

/-- A function that appends a plus sign to the old id for each earlier call. -/
def oPlus : Options := { newId := fun n s => s ++ String.ofList (List.replicate n '+') }

/-- A function that gives the same id each time. -/
def sameId : Nat → String → String := fun _ _ => "same"

example : ∃ x y, update w0 cybox201bad none none oPlus true 0 = .ok (x, 2) ∧
    update w0 cybox201bad none none { oPlus with newId := sameId } true 0 = .ok (y, 2) ∧
    x.doc ≠ y.doc ∧ x.remapped ≠ y.remapped ∧ x.removed.length = 1 ∧ x.remapped ≠ [] := by
  have h1 : (match update w0 cybox201bad none none oPlus true 0,
      update w0 cybox201bad none none { oPlus with newId := sameId } true 0 with
    | .ok (x, 2), .ok (y, 2) => decide (x.doc ≠ y.doc ∧ x.remapped ≠ y.remapped ∧ x.removed.length = 1 ∧ x.remapped ≠ [])
    | _, _ => false) = true := by decide +kernel
  split at h1
  · next x y hx hy => exact ⟨x, y, hx, hy, of_decide_eq_true h1⟩
  · cases h1

/-- A package of 1.0 whose indicators share an id; the step from 1.0.1 gives them new ids. -/
def docSharedIds : Node :=
  stixDoc "1.0" [el nsStix "Indicators" [] [el nsStix "Indicator" [at_ "id" "d"], el nsStix "Indicator" [at_ "id" "d"]]]

example : ∃ x y, update w0 docSharedIds none (some "1.1") oPlus true 0 = .ok (x, 2) ∧
    update w0 docSharedIds none (some "1.1") { oPlus with newId := sameId } true 0 = .ok (y, 2) ∧ x.doc ≠ y.doc ∧
    x.remapped = [("d", ["d", "d+"])] ∧ y.remapped = [("d", ["same", "same"])] := by
  have h1 : (match update w0 docSharedIds none (some "1.1") oPlus true 0,
      update w0 docSharedIds none (some "1.1") { oPlus with newId := sameId } true 0 with
    | .ok (x, 2), .ok (y, 2) =>
      decide (x.doc ≠ y.doc ∧ x.remapped = [("d", ["d", "d+"])] ∧ y.remapped = [("d", ["same", "same"])])
    | _, _ => false) = true := by decide +kernel
  split at h1
  · next x y hx hy => exact ⟨x, y, hx, hy, of_decide_eq_true h1⟩
  · cases h1

example : ∃ x, update w0 (stixDoc "1.1" []) none none oPlus false 0 = .ok (x, 0) ∧
    update w0 (stixDoc "1.1" []) none none { oPlus with newId := sameId } false 0 = .ok (x, 0) := by
  rw [C69_unforced]
  have h : (match update w0 (stixDoc "1.1" []) none none oPlus false 0 with
    | .ok (_, 0) => true
    | _ => false) = true := by decide +kernel
  split at h
  · next x hx => exact ⟨x, hx, hx⟩
  · cases h

end Ramrod

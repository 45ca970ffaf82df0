import Verif.Api
/-!
# Which exceptions the passes can raise
-/

namespace Ramrod

/-- A computation that never raises one of the three exceptions that `force` suppresses. -/
def NoRefuse {α : Type} (x : Except Err α) : Prop := ∀ e, x = .error e → refusable e = false

theorem noRefuse_ok {α : Type} (a : α) : NoRefuse (.ok a : Except Err α) := by intro e h; cases h

theorem noRefuse_error {α : Type} {e : Err} (h : refusable e = false) : NoRefuse (.error e : Except Err α) := by
  intro e' h'; cases h'; exact h

theorem noRefuse_filterE {α : Type} {p : α → Except Err Bool} (h : ∀ a, NoRefuse (p a)) :
    ∀ l, NoRefuse (filterE p l)
  | [] => noRefuse_ok _
  | a :: as => by
    have ih := noRefuse_filterE h as
    have h1 := h a
    intro e he
    simp only [filterE] at he
    cases hp : p a with
    | error x => rw [hp] at he; simp at he; subst he; exact h1 _ hp
    | ok b =>
      rw [hp] at he
      cases hf : filterE p as with
      | error x => rw [hf] at he; simp at he; subst he; exact ih _ hf
      | ok r => rw [hf] at he; simp at he

theorem noRefuse_mapE {α β : Type} {f : α → Except Err β} (h : ∀ a, NoRefuse (f a)) :
    ∀ l, NoRefuse (mapE f l)
  | [] => noRefuse_ok _
  | a :: as => by
    have ih := noRefuse_mapE h as
    have h1 := h a
    intro e he
    simp only [mapE] at he
    cases hp : f a with
    | error x => rw [hp] at he; simp at he; subst he; exact h1 _ hp
    | ok b =>
      rw [hp] at he
      cases hf : mapE f as with
      | error x => rw [hf] at he; simp at he; subst he; exact ih _ hf
      | ok r => rw [hf] at he; simp at he

theorem noRefuse_foldE {α σ : Type} {f : σ → α → Except Err σ} : ∀ (l : List α) (s : σ),
    (∀ s, ∀ a ∈ l, NoRefuse (f s a)) → NoRefuse (foldE f s l)
  | [], s, _ => noRefuse_ok _
  | a :: as, s, h => by
    intro e he
    simp only [foldE] at he
    cases hp : f s a with
    | error x => rw [hp] at he; simp at he; subst he; exact h s a (by simp) _ hp
    | ok b =>
      rw [hp] at he
      exact noRefuse_foldE as b (fun s a ha => h s a (by simp [ha])) e he

theorem noRefuse_getTypeInfo (e : Elem) : NoRefuse (getTypeInfo e) := by
  intro x hx
  simp only [getTypeInfo] at hx
  split at hx
  · cases hx; rfl
  · split at hx <;> cases hx; rfl

theorem noRefuse_getExtNamespace (c : Ctx) : NoRefuse (getExtNamespace c) := by
  intro x hx
  simp only [getExtNamespace] at hx
  split at hx
  · cases hx; rfl
  · split at hx <;> cases hx; rfl

theorem noRefuse_wanted (v : Vocab) (c : Ctx) : NoRefuse (v.wanted c) := by
  intro x hx
  simp only [Vocab.wanted] at hx
  split at hx
  · next h => cases hx; exact noRefuse_getTypeInfo _ _ h
  · split at hx
    · next h => cases hx; exact noRefuse_getExtNamespace _ _ h
    · split at hx
      · cases hx
      · split at hx <;> cases hx

theorem noRefuse_updateNode (v : Vocab) (e : Elem) : NoRefuse (v.updateNode e) := by
  intro x hx
  simp only [Vocab.updateNode] at hx
  split at hx
  · next h => cases hx; exact noRefuse_getTypeInfo _ _ h
  · split at hx
    · next h =>
      cases hx
      split at h
      · split at h <;> cases h; rfl
      · cases h
    · split at hx
      · split at hx <;> cases hx
      · cases hx

theorem noRefuse_vocabUpdate (v : Vocab) (t : Node) : NoRefuse (v.update t) := by
  intro x hx
  simp only [Vocab.update] at hx
  split at hx
  · next h => cases hx; exact noRefuse_filterE (noRefuse_wanted v) _ _ h
  · refine noRefuse_foldE _ _ ?_ x hx
    intro s a _ y hy
    split at hy
    · next h => cases hy; exact noRefuse_updateNode _ _ _ h
    · cases hy

theorem noRefuse_updateVocabs (vs : List Vocab) (t : Node) : NoRefuse (updateVocabs vs t) :=
  noRefuse_foldE _ _ (fun s v _ => noRefuse_vocabUpdate v s)

theorem noRefuse_isContext (f : Finder) (c : Ctx) : NoRefuse (f.isContext c) := by
  intro x hx
  simp only [Finder.isContext] at hx
  split at hx
  · next h => cases hx; exact noRefuse_getTypeInfo _ _ h
  · split at hx
    · next h => cases hx; exact noRefuse_getExtNamespace _ _ h
    · cases hx

theorem noRefuse_find (f : Finder) (t : Node) : NoRefuse (f.find t) := by
  intro x hx
  simp only [Finder.find] at hx
  split at hx
  · next h =>
    cases hx
    simp only [Finder.contexts] at h
    split at h
    · cases h
    · exact noRefuse_filterE (noRefuse_isContext f) _ _ h
  · cases hx

theorem noRefuse_findAll : ∀ (fs : List Finder) (t : Node), NoRefuse (findAll fs t)
  | [], t => noRefuse_ok _
  | f :: fs, t => by
    intro x hx
    simp only [findAll] at hx
    split at hx
    · next h => cases hx; exact noRefuse_find _ _ _ h
    · split at hx
      · next h => cases hx; exact noRefuse_findAll fs t _ h
      · cases hx

theorem noRefuse_removeOptionals (fs : List Finder) (t : Node) : NoRefuse (removeOptionals fs t) := by
  refine noRefuse_foldE _ _ ?_
  intro s f _ x hx
  split at hx
  · next h => cases hx; exact noRefuse_find _ _ _ h
  · cases hx

theorem noRefuse_map {α β : Type} {x : Except Err α} (h : NoRefuse x) (f : α → β) : NoRefuse (x.map f) := by
  intro e he
  cases x with
  | error y => simp [Except.map] at he; subst he; exact h _ rfl
  | ok a => simp [Except.map] at he

theorem noRefuse_translateValue (m : List (String × String)) (p : Option XName) (nt : Option QName)
    (ca : Bool) (ov : List (QName × String)) (c : Ctx) : NoRefuse (translateValue m p nt ca ov c) := by
  intro x hx
  simp only [translateValue] at hx
  split at hx
  · next h =>
    cases hx
    simp only [valueNode] at h
    split at h
    · cases h
    · split at h <;> cases h; rfl
  · cases hx

/-- The node translation of a field never raises a refusable exception. -/
def TransOk (f : Trans) : Prop :=
  match f.kind with
  | .custom g => ∀ c, NoRefuse (g c)
  | .parent g => ∀ c, NoRefuse (g c)
  | _ => True

theorem noRefuse_translate (f : Trans) (hf : TransOk f) (t : Node) : NoRefuse (f.translate t) := by
  intro x hx
  simp only [Trans.translate] at hx
  unfold TransOk at hf
  split at hx
  · cases hx
  · split at hx
    · next h =>
      cases hx
      exact noRefuse_mapE (fun c => noRefuse_map (noRefuse_translateValue _ _ _ _ _ c) _) _ _ h
    · cases hx
  · next hk =>
    rw [hk] at hf
    split at hx
    · next h => cases hx; exact noRefuse_mapE (fun c => noRefuse_map (hf c) _) _ _ h
    · cases hx
  · next hk =>
    rw [hk] at hf
    split at hx
    · next h => cases hx; exact noRefuse_mapE (fun c => noRefuse_map (hf c) _) _ _ h
    · cases hx

theorem noRefuse_translateFields (fs : List Trans) (h : ∀ f ∈ fs, TransOk f) (t : Node) :
    NoRefuse (translateFields fs t) :=
  noRefuse_foldE _ _ (fun s f hf => noRefuse_translate f (h f hf) s)

/-! ## The updaters -/

theorem noRefuse_ite {α : Type} {b : Bool} {x y : Except Err α} (hx : NoRefuse x) (hy : NoRefuse y) :
    NoRefuse (if b then x else y) := by cases b <;> simp <;> assumption

theorem noRefuse_cybox20Update (u : Cls) (o : Options) (t : Node) : NoRefuse (cybox20Update u o t) := by
  simp only [cybox20Update]
  exact noRefuse_ite (noRefuse_updateVocabs _ _) (noRefuse_ok _)

theorem transOk_cybox201 : ∀ f ∈ cybox201Translatable, TransOk f := by
  intro f hf
  simp only [cybox201Translatable, List.mem_cons, List.not_mem_nil, or_false] at hf
  rcases hf with rfl | rfl | rfl | rfl | rfl | rfl | rfl | rfl <;>
    simp [TransOk, transDNT, transVary, transRefresh, transXRequestedFor, transAuthData,
      transEncapsulating, transProtoAddrSize, transMailslot, noRefuse_ok]

theorem noRefuse_cybox201Update (n : List (String × String)) (sel : List XAlt) (o : Options) (t : Node) :
    NoRefuse (cybox201Update (cybox201Cls n sel) o t) := by
  intro x hx
  simp only [cybox201Update] at hx
  split at hx
  · next h => cases hx; exact noRefuse_translateFields _ transOk_cybox201 _ _ h
  · split at hx
    · next h => cases hx; exact noRefuse_ite (noRefuse_updateVocabs _ _) (noRefuse_ok _) _ h
    · exact noRefuse_ite (noRefuse_removeOptionals _ _) (noRefuse_ok _) _ hx

theorem noRefuse_stix10Update (o : Options) (t : Node) : NoRefuse (stix10Update o t) := by
  intro x hx
  simp only [stix10Update] at hx
  split at hx
  · next h => cases hx; exact noRefuse_cybox20Update _ _ _ _ h
  · exact noRefuse_ite (noRefuse_updateVocabs _ _) (noRefuse_ok _) _ hx

theorem noRefuse_translateContributor (n : Node) : NoRefuse (translateContributor n) := by
  cases n with
  | elem e ks => exact noRefuse_ok _
  | other c t => exact noRefuse_error rfl

theorem transOk_stix101 (w : World) : ∀ f ∈ (stix101Cls w).translatable, TransOk f := by
  intro f hf
  simp only [stix101Cls, List.mem_cons, List.not_mem_nil, or_false] at hf
  rcases hf with rfl | rfl
  · simp only [TransOk, transContributors]
    intro c x hx
    simp only [translateContributors] at hx
    split at hx
    · next h => cases hx; exact noRefuse_mapE noRefuse_translateContributor _ _ h
    · cases hx
  · simp [TransOk, transExploitTargets, wrapExploitTarget, noRefuse_ok]

theorem noRefuse_stix101Update (w : World) (o : Options) (t : Node) : NoRefuse (stix101Update w o t) := by
  intro x hx
  simp only [stix101Update] at hx
  split at hx
  · next h => cases hx; exact noRefuse_cybox201Update _ _ _ _ _ h
  · split at hx
    · next h => cases hx; exact noRefuse_translateFields _ (transOk_stix101 w) _ _ h
    · split at hx
      · next h => cases hx; exact noRefuse_ite (noRefuse_updateVocabs _ _) (noRefuse_ok _) _ h
      · exact noRefuse_ite (noRefuse_removeOptionals _ _) (noRefuse_ok _) _ hx

theorem noRefuse_fromstring (w : World) (s : String) : NoRefuse (fromstring w s) := by
  intro x hx
  simp only [fromstring] at hx
  split at hx <;> cases hx
  rfl

theorem transOk_stix11 (w : World) : ∀ f ∈ (stix11Cls w).translatable, TransOk f := by
  intro f hf
  simp only [stix11Cls, List.mem_cons, List.not_mem_nil, or_false] at hf
  rcases hf with rfl | rfl | rfl
  · simp only [TransOk, transCommonSource]
    intro c
    simp only [translateCommonSource]
    exact noRefuse_ite (noRefuse_ok _) (noRefuse_fromstring _ _)
  · simp only [TransOk, transSightingsSource]
    intro c
    simp only [translateSightingSource]
    exact noRefuse_ite (noRefuse_ok _) (noRefuse_fromstring _ _)
  · simp [TransOk, transRelatedCampaign, wrapRelatedCampaign, noRefuse_ok]

theorem noRefuse_stix11Update (w : World) (o : Options) (t : Node) : NoRefuse (stix11Update w o t) := by
  intro x hx
  simp only [stix11Update] at hx
  split at hx
  · next h => cases hx; exact noRefuse_translateFields _ (transOk_stix11 w) _ _ h
  · split at hx
    · next h => cases hx; exact noRefuse_ite (noRefuse_updateVocabs _ _) (noRefuse_ok _) _ h
    · exact noRefuse_ite (noRefuse_removeOptionals _ _) (noRefuse_ok _) _ hx

theorem noRefuse_stix111Update (o : Options) (t : Node) : NoRefuse (stix111Update o t) := by
  simp only [stix111Update]
  exact noRefuse_ite (noRefuse_updateVocabs _ _) (noRefuse_ok _)

/-- The updaters the two chains can run. -/
inductive Registered (w : World) : Updater → Prop
  | cybox20 : Registered w cybox20
  | cybox201 : Registered w cybox201
  | stix10 : Registered w stix10
  | stix101 : Registered w (stix101 w)
  | stix11 : Registered w (stix11 w)
  | stix111 : Registered w stix111
  | stix12 : Registered w stix12

theorem assoc_mem {β : Type} {m : List (String × β)} {k : String} {v : β} (h : assoc m k = some v) :
    (k, v) ∈ m := by
  induction m with
  | nil => cases h
  | cons x xs ih =>
    obtain ⟨k', v'⟩ := x
    simp only [assoc] at h
    split at h
    · next hk => cases h; subst hk; simp
    · simp [ih h]

theorem registered_stix {w : World} {v : String} {u : Updater} (h : assoc (stixUpdaters w) v = some u) :
    Registered w u := by
  have := assoc_mem h
  simp only [stixUpdaters, List.mem_cons, Prod.mk.injEq, List.not_mem_nil, or_false] at this
  rcases this with ⟨_, rfl⟩ | ⟨_, rfl⟩ | ⟨_, rfl⟩ | ⟨_, rfl⟩ | ⟨_, rfl⟩ <;> constructor

theorem registered_cybox {w : World} {v : String} {u : Updater} (h : assoc cyboxUpdaters v = some u) :
    Registered w u := by
  have := assoc_mem h
  simp only [cyboxUpdaters, List.mem_cons, Prod.mk.injEq, List.not_mem_nil, or_false] at this
  rcases this with ⟨_, rfl⟩ | ⟨_, rfl⟩ <;> constructor

theorem noRefuse_update {w : World} {u : Updater} (h : Registered w u) (o : Options) (t : Node) :
    NoRefuse (u.update o t) := by
  cases h
  · exact noRefuse_cybox20Update _ _ _
  · exact noRefuse_cybox201Update _ _ _ _
  · exact noRefuse_stix10Update _ _
  · exact noRefuse_stix101Update _ _ _
  · exact noRefuse_stix11Update _ _ _
  · exact noRefuse_stix111Update _ _
  · exact noRefuse_ok _

theorem noRefuse_disallowed {w : World} {u : Updater} (h : Registered w u) (t : Node) :
    NoRefuse (u.disallowed t) := by
  cases h
  · exact noRefuse_ok _
  · exact noRefuse_map (x := findAll cybox201Disallowed t) (noRefuse_findAll _ _) some
  · exact noRefuse_map (x := stix10GetDisallowed t) (noRefuse_findAll _ _) some
  · refine noRefuse_map ?_ _
    intro x hx
    simp only [stix101GetDisallowed] at hx
    split at hx
    · next h => cases hx; exact noRefuse_findAll _ _ _ h
    · split at hx
      · next h => cases hx; exact noRefuse_findAll _ _ _ h
      · cases hx
  · exact noRefuse_ok _
  · exact noRefuse_ok _
  · exact noRefuse_error rfl

theorem noRefuse_clean {w : World} {u : Updater} (h : Registered w u) (o : Options) (k : Nat) (t : Node) :
    NoRefuse (clean u o k t) := by
  intro x hx
  simp only [clean] at hx
  split at hx
  · next h' => cases hx; exact noRefuse_disallowed h _ _ h'
  · cases hx

theorem noRefuse_forceUpdate {w : World} {u : Updater} (h : Registered w u) (o : Options) (k : Nat)
    (t : Node) : NoRefuse (forceUpdate u o k t) := by
  intro x hx
  simp only [forceUpdate] at hx
  split at hx
  · next h' => cases hx; exact noRefuse_clean h _ _ _ _ h'
  · split at hx
    · next h' => cases hx; exact noRefuse_update h _ _ _ h'
    · cases hx

theorem noRefuse_forcedStep {w : World} {u : Updater} (h : Registered w u) (o : Options) (k : Nat)
    (t : Node) : NoRefuse (stepUpdate u o true k t) := by
  intro x hx
  simp only [stepUpdate] at hx
  split at hx
  · cases hx
  · split at hx
    · exact noRefuse_forceUpdate h _ _ _ _ hx
    · next h' => cases hx; simpa using h'

end Ramrod

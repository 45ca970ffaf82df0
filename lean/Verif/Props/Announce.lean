import Verif.Props.Calls
import Verif.Props.Quiet
/-!
# C80: A refusal announces what force does
-/

namespace Ramrod

open Samples

/-! ## Specification vocabulary -/

/-- The nodes are copies of the elements of the list, one by one: same tag, same text and same attributes, except perhaps the id. -/
def Copied : List Ctx → List Node → Prop
  | [], [] => True
  | c :: cs, n :: ns => (∃ e ks, n = .elem e ks ∧ SameButId c.e e) ∧ Copied cs ns
  | _, _ => False

/-! ## Helpers -/

theorem parents_unique {t : Node} {ds l : List Ctx} (h : Parents t ds l) : ∀ {l'}, Parents t ds l' → l = l' := by
  induction h with
  | nil => intro l' h'; cases h'; rfl
  | cons hc hp _ ih =>
    intro l' h'
    cases h' with
    | cons hc' hp' h' =>
      rw [ih h']
      congr 1
      refine elems_pos_inj hc hc' ?_
      rw [hp] at hp'
      exact (List.cons.inj hp').2

theorem ctxs_unique {t : Node} {p : Ctx → Prop} {l l' : List Ctx} (h : l.Sublist t.elems) (hm : ∀ c, c ∈ l ↔ c ∈ t.elems ∧ p c)
    (h' : l'.Sublist t.elems) (hm' : ∀ c, c ∈ l' ↔ c ∈ t.elems ∧ p c) : l = l' :=
  sublist_unique h h' (nodup_of_map (·.pos) (elems_nodup t)) (fun c => (hm c).trans (hm' c).symm)

theorem reports_unique {t : Node} {r : Rule} {l l' : List Ctx} (h : r.Reports t l) (h' : r.Reports t l') : l = l' := by
  cases h with
  | self hs hm =>
    cases h' with
    | self hs' hm' => exact ctxs_unique hs hm hs' hm'
  | parent hs hm hp =>
    cases h' with
    | parent hs' hm' hp' =>
      have := ctxs_unique hs hm hs' hm'
      subst this
      exact parents_unique hp hp'

theorem reportsAll_unique {t : Node} {rs : List Rule} {l : List Ctx} (h : ReportsAll t rs l) : ∀ {l'}, ReportsAll t rs l' → l = l' := by
  induction h with
  | nil => intro l' h'; cases h'; rfl
  | cons hr _ ih =>
    intro l' h'
    cases h' with
    | cons hr' h' => rw [reports_unique hr hr', ih h']

theorem copied_copies {F : Ctx → Elem} : ∀ (l : List Ctx) (done : List Pos), (∀ c ∈ l, SameButId c.e (F c)) → Copied l (copies F done l)
  | [], _, _ => trivial
  | c :: l, done, h => ⟨⟨F c, _, rfl, h c (by simp)⟩, copied_copies l _ (fun d hd => h d (by simp [hd]))⟩

/-- A step that refuses content reports the lists that the cleaning works on. -/
theorem refused_exact {w : World} {u : Updater} (hu : Registered w u) {o : Options} {t : Node} {d : Option (List Ctx)}
    {g : Option (List (String × List Ctx))} (h : u.check o t = .error (.update d g)) :
    u.disallowed t = .ok d ∧ u.duplicates t = g := by
  cases hu with
  | cybox20 => exact absurd h (noList_if (noList_cybox _ _) d g)
  | stix11 => exact absurd h (noList_if (noList_stix _ _) d g)
  | stix111 => exact absurd h (noList_if (noList_stix _ _) d g)
  | stix12 => exact absurd h (noList_if (noList_stix _ _) d g)
  | stix10 =>
    simp only [stix10, stix10Check] at h
    split at h
    · next x hx => cases h; exact absurd hx (noList_if (noList_both _ _ _) d g)
    · split at h
      · next x hx => cases h; exact absurd hx (noList_find _ _ d g)
      · next l hl =>
        split at h
        · cases h
        · cases h; exact ⟨by simp only [stix10, hl]; rfl, rfl⟩
  | cybox201 =>
    simp only [cybox201, cybox201Check] at h
    split at h
    · next x hx => cases h; exact absurd hx (noList_if (noList_cybox _ _) d g)
    · split at h
      · next x hx => cases h; exact absurd hx (noList_find _ _ d g)
      · next l hl =>
        split at h
        · cases h
        · cases h; exact ⟨by simp only [cybox201, hl]; rfl, rfl⟩
  | stix101 =>
    simp only [stix101, stix101Check] at h
    split at h
    · next x hx => cases h; exact absurd hx (noList_if (noList_both _ _ _) d g)
    · split at h
      · next x hx =>
        cases h
        simp only [stix101GetDisallowed] at hx
        split at hx
        · next x hx' => cases hx; exact absurd hx' (noList_find _ _ d g)
        · split at hx
          · next x hx' => cases hx; exact absurd hx' (noList_find _ _ d g)
          · cases hx
      · next l hl =>
        split at h
        · cases h
        · cases h; exact ⟨by simp only [stix101, hl]; rfl, rfl⟩

theorem clean_announced {w : World} {u : Updater} (hu : Registered w u) {o : Options} {k k' : Nat} {t : Node} {r : Result}
    (hc : clean u o k t = .ok (r, k')) {d : Option (List Ctx)} {g : Option (List (String × List Ctx))}
    (hd : u.disallowed t = .ok d) (hg : u.duplicates t = g) :
    Copied (d.getD []) r.removed ∧
      r.remapped.map (fun p => (p.1, p.2.length)) = (g.getD []).map (fun p => (p.1, p.2.length)) := by
  obtain ⟨rules, nss, ty, V, hr⟩ := registered_rules hu
  constructor
  · obtain ⟨F, l, ν, n, hF, hl, h1, h2, _, h4, _⟩ := clean_spec hr hc
    rw [h4, reportsAll_unique (disallowed_spec hr hd) hl]
    refine copied_copies _ _ (fun c hcl => ?_)
    have hct := ((reportsAll_mem hl c).1 hcl).1
    by_cases hD : DupAt nss t c
    · rw [h1 c hct hD]
      obtain ⟨ns, i, _, hi, _⟩ := hD
      exact sameButId_set hi.2.2 _
    · rw [h2 c hct hD]
      exact sameButId_refl _
  · obtain ⟨dis, hdis, ⟨h0, rfl, rfl⟩ | ⟨g', hg', rfl, rfl⟩⟩ := clean_cut hc
    · rw [← hg, h0]; rfl
    · have hs := duplicates_spec hr hdis
      cases nss with
      | none => rw [show u.duplicates t = none from hs] at hg'; cases hg'
      | some ns =>
        obtain ⟨g2, hg2, hnd, hgr⟩ := hs
        rw [hg2] at hg'
        cases hg'
        rw [← hg, hg2]
        exact (calls_groups o.newId _ k t (fun x hx c hc => ((((hgr x.1 x.2).1 hx).2.2 c).1 hc).2.2.2)).2

/-- A step that never finds anything to remove. -/
def Still (u : Updater) : Prop := ∀ t d, u.disallowed t = .ok d → d.getD [] = []

theorem still_step {u : Updater} (hu : Still u) {o : Options} {force : Bool} {k k' : Nat} {t : Node} {r : Result}
    (h : stepUpdate u o force k t = .ok (r, k')) : r.removed = [] := by
  have cut : ∀ dis t', dis.getD [] = [] → (cutOf dis t').2 = [] := by
    intro dis t' hd
    cases dis with
    | none => rfl
    | some l => rw [show l = [] from hd]; rfl
  obtain ⟨r1, _, h2, _, ⟨rfl, _⟩ | hc⟩ := step_parts h
  · exact h2
  · obtain ⟨dis, hdis, ⟨_, _, rfl⟩ | ⟨g, _, _, rfl⟩⟩ := clean_cut hc
    · rw [h2]; exact cut _ _ (hu t dis hdis)
    · rw [h2]; exact cut _ _ (hu t dis hdis)

theorem still_stix {w : World} {v : String} {u : Updater} (h : assoc (stixUpdaters w) v = some u) (hv : v ≠ "1.0") (hv' : v ≠ "1.0.1") :
    Still u := by
  have := assoc_mem h
  simp only [stixUpdaters, List.mem_cons, Prod.mk.injEq, List.not_mem_nil, or_false] at this
  rcases this with ⟨h1, rfl⟩ | ⟨h1, rfl⟩ | ⟨_, rfl⟩ | ⟨_, rfl⟩ | ⟨_, rfl⟩
  · exact absurd h1 hv
  · exact absurd h1 hv'
  · intro t d h; cases h; rfl
  · intro t d h; cases h; rfl
  · intro t d h; cases h

theorem still_cybox {v : String} {u : Updater} (h : assoc cyboxUpdaters v = some u) (hv : v ≠ "2.0.1") : Still u := by
  have := assoc_mem h
  simp only [cyboxUpdaters, List.mem_cons, Prod.mk.injEq, List.not_mem_nil, or_false] at this
  rcases this with ⟨_, rfl⟩ | ⟨h1, rfl⟩
  · intro t d h; cases h; rfl
  · exact absurd h1 hv

/-- The removed nodes of a chain begin with those of the steps before. -/
theorem chain_prefix {reg : List (String × Updater)} {o : Options} {force : Bool} :
    ∀ (vs : List String) (acc : Result) (k : Nat) (r : Result) (k' : Nat), chainLoop reg o force vs acc k = .ok (r, k') →
    ∃ rest, r.removed = acc.removed ++ rest ∧ ((∀ v ∈ vs, ∀ u, assoc reg v = some u → Still u) → rest = [])
  | [], acc, k, r, k', h => by
    simp only [chainLoop, Except.ok.injEq, Prod.mk.injEq] at h
    exact ⟨[], by rw [← h.1]; simp, fun _ => rfl⟩
  | v :: vs, acc, k, r, k', h => by
    simp only [chainLoop] at h
    split at h
    · cases h
    · next u hu =>
      split at h
      · cases h
      · next r1 k1 hs =>
        obtain ⟨rest, h1, h2⟩ := chain_prefix vs _ k1 r k' h
        refine ⟨r1.removed ++ rest, by rw [h1, List.append_assoc], fun hst => ?_⟩
        rw [still_step (hst v (by simp) u hu) hs, h2 (fun v hv => hst v (by simp [hv]))]
        rfl

/-- What a refusal with the lists `d` and `g` says about the forced result. -/
def Announces (d : Option (List Ctx)) (g : Option (List (String × List Ctx))) (r : Result) : Prop :=
  ∃ first rest, r.removed = first ++ rest ∧ Copied (d.getD []) first ∧ ∀ gs, g = some gs → rest = [] ∧
    r.remapped.map (fun p => (p.1, p.2.length)) = gs.map (fun p => (p.1, p.2.length))

theorem chain_announced {w : World} {reg : List (String × Updater)} {loud : String}
    (hreg : ∀ v u, assoc reg v = some u → Registered w u ∧ (v ≠ loud → Mute u)) {o : Options} {d : Option (List Ctx)}
    {g : Option (List (String × List Ctx))} :
    ∀ (vs : List String) (t : Node) (k : Nat) (r : Result) (k' : Nat), vs.Nodup →
    vs.Pairwise (fun a b => a = loud → ∀ u, assoc reg b = some u → Still u) →
    chainLoop reg o false vs ⟨t, [], []⟩ k = .error (.update d g) → chainLoop reg o true vs ⟨t, [], []⟩ k = .ok (r, k') →
    Announces d g r
  | [], t, k, r, k', _, _, h, _ => by simp [chainLoop] at h
  | v :: vs, t, k, r, k', hnd, hpw, h, hf => by
    have hnd := List.nodup_cons.1 hnd
    have hpw := List.pairwise_cons.1 hpw
    simp only [chainLoop] at h hf
    split at h
    · cases h
    · next u hu =>
      rw [hu] at hf
      obtain ⟨hr, hm⟩ := hreg v u hu
      simp only [stepUpdate] at h hf
      cases ht : tryUpdate u o t with
      | ok doc =>
        simp only [ht] at h hf
        exact chain_announced hreg vs doc k r k' hnd.2 hpw.2 h hf
      | error x =>
        simp only [ht, Bool.and_false, Bool.false_eq_true, if_false, Except.error.injEq] at h hf
        subst h
        have hck : u.check o t = .error (.update d g) := by
          simp only [tryUpdate] at ht
          split at ht
          · next y hy => cases ht; exact hy
          · have := noRefuse_update hr _ _ _ ht
            simp [refusable] at this
        obtain ⟨hd, hg⟩ := refused_exact hr hck
        simp only [refusable, Bool.and_true, if_true] at hf
        split at hf
        · cases hf
        · next r1 k1 hs =>
          simp only [forceUpdate] at hs
          split at hs
          · cases hs
          · next r2 k2 hc =>
            split at hs
            · cases hs
            · cases hs
              obtain ⟨a1, a2⟩ := clean_announced hr hc hd hg
              obtain ⟨rest, h1, h2⟩ := chain_prefix vs _ _ r k' hf
              refine ⟨r2.removed, rest, h1, a1, fun gs hgs => ?_⟩
              have hv : v = loud := Classical.byContradiction fun hv => by
                have := hm hv t d hd
                rw [hg, hgs] at this
                cases this
              refine ⟨h2 (fun b hb => hpw.1 b hb hv), ?_⟩
              rw [(mute_chain (fun v u hu => (hreg v u hu).2) vs _ _ r k' (hv ▸ hnd.1) hf).1]
              show (dictUpdate [] r2.remapped).map _ = _
              rw [dictUpdate_fresh _ [] (clean_recorded hr hc).2.1, List.nil_append, a2, hgs]
              rfl

/-! ## C80 -/

/-- C80: if an update is refused for its content and the same update with force succeeds, the removed nodes begin with the announced
elements, one by one and in the same order. If the refusal lists shared ids, nothing else is removed, and the report of new ids names
exactly these ids, in the same order, each with as many new ids as elements were listed. -/
theorem C80_announced (w : World) (t : Node) (from_ to_ : Option String) (o : Options) (k k' : Nat) (l : List Ctx)
    (g : Option (List (String × List Ctx))) (r : Result)
    (h : update w t from_ to_ o false k = .error (.update (some l) g)) (hf : update w t from_ to_ o true k = .ok (r, k')) :
    ∃ first rest, r.removed = first ++ rest ∧ Copied l first ∧ ∀ gs, g = some gs → rest = [] ∧
      r.remapped.map (fun p => (p.1, p.2.length)) = gs.map (fun p => (p.1, p.2.length)) := by
  have chain : ∀ vs reg f x loud, (∀ v u, assoc reg v = some u → Registered w u ∧ (v ≠ loud → Mute u)) → vs.Nodup →
      vs.Pairwise (fun a b => a = loud → ∀ u, assoc reg b = some u → Still u) →
      runChain vs reg t f x o false k = .error (.update (some l) g) → runChain vs reg t f x o true k = .ok (r, k') →
      Announces (some l) g r := by
    intro vs reg f x loud hreg hvs hpw h hf
    simp only [runChain] at h hf
    split at hf
    · cases hf
    · next hv =>
      rw [hv] at h
      have hsub := fun a b => (List.drop_sublist a _).trans (List.take_sublist b vs)
      exact chain_announced hreg _ _ _ _ _ (hvs.sublist (hsub _ _)) (hpw.sublist (hsub _ _)) h hf
  simp only [update] at h hf
  split at hf
  · cases hf
  next ht =>
    simp only [ht] at h
    split at hf
    · next hn =>
      simp only [hn, if_true] at h
      refine chain _ _ _ _ "1.0.1" (fun v u hu => ⟨registered_stix hu, mute_stix hu⟩) (by decide) ?_ h hf
      have : stixVersions.Pairwise (fun a b => a = "1.0.1" → b ≠ "1.0" ∧ b ≠ "1.0.1") := by decide
      exact this.imp (fun hab ha u hu => still_stix hu (hab ha).1 (hab ha).2)
    · next hn =>
      simp only [hn, if_false] at h
      split at hf
      · next hn' =>
        simp only [hn', if_true] at h
        split at hf
        · cases hf
        · next hv =>
          simp only [hv] at h
          simp only [cyboxUpdate] at h hf
          split at hf
          · cases hf
          · next hx =>
            simp only [hx] at h
            refine chain _ _ _ _ "2.0.1" (fun v u hu => ⟨registered_cybox hu, mute_cybox hu⟩) (by decide) ?_ h hf
            have : cyboxVersions.Pairwise (fun a b => a = "2.0.1" → b ≠ "2.0.1") := by decide
            exact this.imp (fun hab ha u hu => still_cybox hu (hab ha))
      · cases hf

/-- The lists of a refusal. -/
def listsOf {α : Type} : Except Err α → Option (List Ctx × List (String × List Ctx))
  | .error (.update (some l) (some gs)) => some (l, gs)
  | _ => none

theorem listsOf_eval {α : Type} {x : Except Err α} {P : List Ctx → List (String × List Ctx) → Prop}
    (h : (listsOf x).isSome = true ∧ ∀ p ∈ listsOf x, P p.1 p.2) : ∃ l gs, x = .error (.update (some l) (some gs)) ∧ P l gs := by
  obtain ⟨h1, h2⟩ := h
  unfold listsOf at h1 h2
  split at h1
  · next l gs => exact ⟨l, gs, rfl, h2 (l, gs) rfl⟩
  · cases h1

/-- The sample: the refusal lists one element and one id on two elements; the forced update removes one node and reports that id with
two new ones. -/
example : (∃ l gs, update w0 cybox201bad none none o0 false 0 = .error (.update (some l) (some gs)) ∧
      (l.map (·.e.tag) = [⟨some nsHTTPSession, "X_Forwarded_Proto"⟩] ∧ gs.map (fun p => (p.1, p.2.length)) = [("d", 2)])) ∧
    ∃ r, update w0 cybox201bad none none o0 true 0 = .ok r ∧
      (r.1.removed.length = 1 ∧ r.1.remapped.map (fun p => (p.1, p.2.length)) = [("d", 2)]) :=
  ⟨listsOf_eval (by decide +kernel), ok_of_eval (by decide +kernel)⟩

/-- A 1.0 package with content that two different steps refuse. -/
def docTwoRefusals : Node :=
  stixDoc "1.0" [el nsTTP "Malware_Instance" [at_ "id" "m", xsiType "maec:MAEC4.0InstanceType"] [],
    el nsHTTPSession "X_Forwarded_Proto" [] []]

/-- The tags of the elements a refusal without ids lists. -/
def tagsOf {α : Type} : Except Err α → Option (List QName)
  | .error (.update (some l) none) => some (l.map (·.e.tag))
  | _ => none

/-- Why the list of removed nodes only begins with the announced elements: the first refusal of a 1.0 package is about the first step;
with force a later step removes something more. -/
theorem C80_more : tagsOf (update w0 docTwoRefusals none (some "1.1") o0 false 0) = some [⟨some nsTTP, "Malware_Instance"⟩] ∧
    ∃ r, update w0 docTwoRefusals none (some "1.1") o0 true 0 = .ok r ∧ r.1.removed.map (fun n => n.elems.map (·.e.tag)) =
      [[⟨some nsTTP, "Malware_Instance"⟩], [⟨some nsHTTPSession, "X_Forwarded_Proto"⟩]] :=
  ⟨by decide +kernel, ok_of_eval (by decide +kernel)⟩

end Ramrod

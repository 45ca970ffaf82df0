import Verif.Props.AgainMailslot
/-!
# C59: Repeating the CybOX 2.0.1 step, with its checks, on mailslot handles
-/

namespace Ramrod

open Samples

/-! ## Helpers: where elements and ids come from -/

/-- The name of a section of an executable. -/
def sectionName : QName := ⟨some "http://cybox.mitre.org/objects#WinExecutableFileObject-2", "Section"⟩

/-- As `CameFrom`, for documents that may also lose elements between others. -/
def CameVia (nss : List String) (t t' : Node) : Prop :=
  (∀ c' ∈ t'.elems, ∃ c ∈ t.elems, (Given c.e.tag c'.e.tag ∨ c'.e.tag = objName "WinMailslot" "Handle") ∧ (c'.anc ≠ [] → c.anc ≠ []) ∧
    ∀ q qs, c'.anc = sectionName :: q :: qs → ∃ q qs, c.anc = sectionName :: q :: qs) ∧
    (held (guarded nss) t'.descs).Sublist (held (guarded nss) t.descs)

theorem via_trans {nss : List String} {a b c : Node} (h : CameVia nss a b) (g : CameVia nss b c) : CameVia nss a c := by
  refine ⟨fun x hx => ?_, g.2.trans h.2⟩
  obtain ⟨y, hy, y1, y2, y3⟩ := g.1 x hx
  obtain ⟨z, hz, z1, z2, z3⟩ := h.1 y hy
  refine ⟨z, hz, ?_, fun hn => z2 (y2 hn), fun q qs hq => ?_⟩
  · rcases y1 with y1 | y1
    · rcases z1 with z1 | z1
      · exact Or.inl (given_trans z1 y1)
      · rcases y1 with y1 | y1
        · exact Or.inr (y1.trans z1)
        · exact Or.inl (Or.inr y1)
    · exact Or.inr y1
  · obtain ⟨q, qs, hq⟩ := y3 q qs hq
    exact z3 q qs hq

theorem via_came {nss : List String} {a b : Node} (h : CameFrom nss a b) : CameVia nss a b := by
  refine ⟨fun c' hc' => ?_, h.2⟩
  obtain ⟨c, hc, h1, h2⟩ := h.1 c' hc'
  refine ⟨c, hc, Or.inl h1, fun hn he => ?_, fun q qs hq => ?_⟩
  · rw [he] at h2
    cases hx : c'.anc with
    | nil => exact hn hx
    | cons _ _ => rw [hx] at h2; simp [GivenAll] at h2
  · rw [hq] at h2
    cases hx : c.anc with
    | nil => rw [hx] at h2; simp [GivenAll] at h2
    | cons a as =>
      rw [hx] at h2
      simp only [GivenAll] at h2
      cases as with
      | nil => simp [GivenAll] at h2
      | cons b bs =>
        rcases h2.1 with e | e
        · exact ⟨b, bs, by rw [e]⟩
        · exact absurd (by decide +kernel) e

mutual
theorem mem_beneath {t0 : Node} {A B : List QName} : ∀ (n : Node) {p : Pos} {env : NsMap} {a : List QName}, ∀ d ∈ n.walk p env a,
    (∃ c ∈ t0.elems, c.node = n ∧ ∃ l, a = l ++ A ∧ c.anc = l ++ B) → ∃ c ∈ t0.elems, d.e = c.e ∧ ∃ l, d.anc = l ++ A ∧ c.anc = l ++ B
  | .other _ _, _, _, _, d, hd, _ => by simp [Node.walk] at hd
  | .elem e ks, p, env, a, d, hd, ⟨c, hc, he, l, l1, l2⟩ => by
    unfold Ctx.node at he
    injection he with he1 he2
    simp only [Node.walk, List.mem_cons] at hd
    rcases hd with rfl | hd
    · exact ⟨c, hc, he1.symm, l, l1, l2⟩
    · exact mem_beneaths ks d hd ⟨c, hc, fun k hk => by rw [he2]; exact hk, e.tag :: l, by simp [l1], by simp [l2, he1]⟩
theorem mem_beneaths {t0 : Node} {A B : List QName} : ∀ (ks : List Node) {p : Pos} {i : Nat} {env : NsMap} {a : List QName},
    ∀ d ∈ Node.walks p i env a ks, (∃ c ∈ t0.elems, (∀ k ∈ ks, k ∈ c.kids) ∧ ∃ l, a = l ++ A ∧ c.e.tag :: c.anc = l ++ B) →
      ∃ c ∈ t0.elems, d.e = c.e ∧ ∃ l, d.anc = l ++ A ∧ c.anc = l ++ B
  | [], _, _, _, _, d, hd, _ => by simp [Node.walks] at hd
  | k :: ks, p, i, env, a, d, hd, ⟨c, hc, hk, hl⟩ => by
    simp only [Node.walks, List.mem_append] at hd
    rcases hd with hd | hd
    · cases k with
      | other _ _ => simp [Node.walk] at hd
      | elem e es =>
        obtain ⟨j, hj⟩ := List.getElem?_of_mem (hk _ (List.mem_cons_self ..))
        exact mem_beneath (.elem e es) d hd ⟨_, walk_child t0 c hc j e es hj, rfl, hl⟩
    · exact mem_beneaths ks d hd ⟨c, hc, fun k' hk' => hk k' (List.mem_cons_of_mem _ hk'), hl⟩
end

theorem held_es {α : Type} {g : Elem → List α} (l : List Ctx) : held g l = (l.map (·.e)).flatMap g := by
  unfold held
  rw [List.flatMap_map]

theorem held_kid {α : Type} {g : Elem → List α} {k : Node} {p p' : Pos} {env env' : NsMap} {a a' : List QName} : ∀ {ks : List Node} {i : Nat}, k ∈ ks →
    (held g (k.walk p env a)).Sublist (held g (Node.walks p' i env' a' ks))
  | [], _, h => by cases h
  | x :: xs, i, h => by
    simp only [Node.walks]
    rw [show held g ((x.walk (i :: p') env' a') ++ Node.walks p' (i + 1) env' a' xs) =
      held g (x.walk (i :: p') env' a') ++ held g (Node.walks p' (i + 1) env' a' xs) from List.flatMap_append]
    rcases List.mem_cons.1 h with rfl | h
    · rw [held_es, held_es, walk_e_indep p (i :: p') env env' a a' k]
      exact List.sublist_append_left _ _
    · exact (held_kid h).trans (List.sublist_append_right _ _)

mutual
theorem held_swap {α : Type} {g : Elem → List α} {R : Ctx → Option Node} {pos pos' : Pos} {env env' : NsMap} {anc anc' : List QName} :
    ∀ (t : Node), (∀ c ∈ t.walk pos env anc, ∀ n, R c = some n → ∀ p e a p' e' a', (held g (n.walk p e a)).Sublist (held g (c.node.walk p' e' a'))) →
      (held g ((t.substCtx R pos env anc).walk pos' env' anc')).Sublist (held g (t.walk pos env anc))
  | .other _ _, _ => by simp [Node.substCtx, Node.walk, held]
  | .elem e ks, h => by
    simp only [Node.substCtx]
    split
    · next n hn => exact h _ (by simp [Node.walk]) n hn _ _ _ _ _ _
    · simp only [Node.walk, held, List.flatMap_cons]
      exact (List.Sublist.refl _).append (held_swaps ks (fun c hc => h c (by simp [Node.walk, hc])))
theorem held_swaps {α : Type} {g : Elem → List α} {R : Ctx → Option Node} {pos pos' : Pos} {i i' : Nat} {env env' : NsMap} {anc anc' : List QName} :
    ∀ (ks : List Node), (∀ c ∈ Node.walks pos i env anc ks, ∀ n, R c = some n → ∀ p e a p' e' a',
        (held g (n.walk p e a)).Sublist (held g (c.node.walk p' e' a'))) →
      (held g (Node.walks pos' i' env' anc' (Node.substCtxs R pos i env anc ks))).Sublist (held g (Node.walks pos i env anc ks))
  | [], _ => by simp [Node.substCtxs, Node.walks, held]
  | k :: ks, h => by
    simp only [Node.substCtxs, Node.walks]
    unfold held
    rw [List.flatMap_append, List.flatMap_append]
    exact (held_swap k (fun c hc => h c (by simp [Node.walks, hc]))).append (held_swaps ks (fun c hc => h c (by simp [Node.walks, hc])))
end

theorem held_inner {nss : List String} (hh : "http://cybox.mitre.org/objects#WinHandleObject-2" ∈ nss) {c : Ctx} {n : Node} (h : InnerHandle c n)
    (p p' : Pos) (env env' : NsMap) (a a' : List QName) : (held (guarded nss) (n.walk p env a)).Sublist (held (guarded nss) (c.node.walk p' env' a')) := by
  obtain ⟨e1, ks1, h1, h2, rfl⟩ := h
  have g1 : (guarded nss { e1 with tag := ⟨some "http://cybox.mitre.org/objects#WinMailslotObject-2", "Handle"⟩ }).Sublist (guarded nss e1) := by
    unfold guarded
    rw [if_pos (show ∃ m ∈ nss, e1.tag.ns = some m from ⟨_, hh, by rw [h2]⟩)]
    split
    · exact List.Sublist.refl _
    · exact List.nil_sublist _
  have g2 : (held (guarded nss) ((Node.elem { e1 with tag := ⟨some "http://cybox.mitre.org/objects#WinMailslotObject-2", "Handle"⟩ } ks1).walk p env a)).Sublist
      (held (guarded nss) ((Node.elem e1 ks1).walk p env a)) := by
    simp only [Node.walk, held, List.flatMap_cons]
    refine g1.append ?_
    have := walks_e_indep p p 0 0 (e1.decls ++ env) (e1.decls ++ env)
      ((⟨some "http://cybox.mitre.org/objects#WinMailslotObject-2", "Handle"⟩ : QName) :: a) (e1.tag :: a) ks1
    have h3 := congrArg (List.flatMap (guarded nss)) this
    rw [← held_es, ← held_es] at h3
    unfold held at h3
    rw [h3]
    exact List.Sublist.refl _
  refine g2.trans ?_
  show (held (guarded nss) ((Node.elem e1 ks1).walk p env a)).Sublist (held (guarded nss) ((Node.elem c.e c.kids).walk p' env' a'))
  rw [show (Node.elem c.e c.kids).walk p' env' a' = (⟨p', c.e.decls ++ env', a', c.e, c.kids⟩ : Ctx) ::
    Node.walks p' 0 (c.e.decls ++ env') (c.e.tag :: a') c.kids from by simp only [Node.walk]]
  rw [show held (guarded nss) ((⟨p', c.e.decls ++ env', a', c.e, c.kids⟩ : Ctx) :: Node.walks p' 0 (c.e.decls ++ env') (c.e.tag :: a') c.kids) =
    guarded nss c.e ++ held (guarded nss) (Node.walks p' 0 (c.e.decls ++ env') (c.e.tag :: a') c.kids) from List.flatMap_cons]
  exact (held_kid h1).trans (List.sublist_append_right _ _)

theorem via_mail {nss : List String} (hh : "http://cybox.mitre.org/objects#WinHandleObject-2" ∈ nss) {t t' : Node} (h : Replaced TwoLevel InnerHandle t t') :
    CameVia nss t t' := by
  refine ⟨fun c' hc' => ?_, ?_⟩
  · rcases h.elems hc' with ⟨c, hc, he, _, ha, _⟩ | ⟨c, hc, ha, _, n, env0, ⟨e1, ks1, y1, y2, rfl⟩, _, hw⟩
    · exact ⟨c, hc, Or.inl (Or.inl (by rw [he])), by rw [ha]; exact id, fun q qs hq => ⟨q, qs, ha ▸ hq⟩⟩
    · simp only [Node.walk, List.mem_cons] at hw
      rcases hw with rfl | hw
      · exact ⟨c, hc, Or.inr rfl, fun _ => ha, fun q qs hq => ⟨q, qs, hq⟩⟩
      · obtain ⟨i, hi⟩ := List.mem_iff_getElem?.1 y1
        obtain ⟨d, g2, g3, l, g4, g5⟩ := mem_beneaths (t0 := t) (A := objName "WinMailslot" "Handle" :: c.anc) (B := e1.tag :: c.e.tag :: c.anc)
          ks1 c' hw ⟨_, walk_child t c hc i e1 ks1 hi, fun k hk => hk, [], rfl, rfl⟩
        refine ⟨d, g2, Or.inl (Or.inl (by rw [g3])), fun _ hn => by rw [g5] at hn; simp at hn, fun q qs hq => ?_⟩
        rw [g4] at hq
        cases l with
        | nil => injection hq with hq _; exact absurd hq (by decide +kernel)
        | cons x xs =>
          injection hq with hq _
          rw [g5, hq]
          cases xs with
          | nil => exact ⟨_, _, rfl⟩
          | cons _ _ => exact ⟨_, _, rfl⟩
  · obtain ⟨R, h1, h2, rfl⟩ := h
    cases t with
    | other _ _ => simp [Node.replaceBy, Node.substCtx, Node.descs, Node.elems, Node.walk, held]
    | elem e ks =>
      have hr : (Node.elem e ks).replaceBy R = .elem e (Node.substCtxs (fun c => if c.anc.isEmpty then none else R c) [] 0
          (e.decls ++ []) (e.tag :: []) ks) := by
        simp [Node.replaceBy, Node.substCtx]
      rw [hr, descs_elem, descs_elem]
      refine held_swaps ks (fun c hc n hn p env a p' env' a' => ?_)
      split at hn
      · cases hn
      · have hc' : c ∈ (Node.elem e ks).elems := by
          simp only [Node.elems, Node.walk, List.mem_cons]
          exact Or.inr hc
        rcases Classical.em (TwoLevel c) with hs | hs
        · obtain ⟨m, hm, hq⟩ := h1 c hc' hs
          rw [hn] at hm
          cases hm
          exact held_inner hh hq _ _ _ _ _ _
        · rw [h2 c hc' hs] at hn; cases hn

/-! ## Helpers: the CybOX 2.0.1 step -/

/-- The embedded or stand-alone CybOX 2.0.1 updater: where the elements come from. -/
theorem via201 {nss : List String} (hn : "http://cybox.mitre.org/objects#WinDriverObject-3" ∉ nss) (hh : "http://cybox.mitre.org/objects#WinHandleObject-2" ∈ nss)
    {n : List (String × String)} {sel : List XAlt}
    {o : Options} {t t' : Node} (h : cybox201Update (cybox201Cls n sel) o t = .ok t') (ht : ClearOf unwrapped201 [] t)
    (h1 : ∀ c ∈ t.elems, OneRefreshId c.e) : CameVia nss t t' := by
  simp only [cybox201Update] at h
  rw [cybox201Versions_eq] at h
  have m1 := moved_ns hn (n := n) (sel := sel) t
  have k1 : ClearOf unwrapped201 [] ((cybox201Cls n sel).updateNamespaces [] t) := clear_ns (by decide +kernel) (by decide +kernel) ht
  have o1 := one_ns (n := n) (sel := sel) h1
  generalize (cybox201Cls n sel).updateNamespaces [] t = t0 at h m1 k1 o1
  have r1 := rel_stamped_trans (stamped_schemaloc (cybox201Cls n sel) t0)
    (stamped_versions (m := (cybox201Cls n sel).nsmap) (alts := (cybox201Cls n sel).xpathVersioned) stamped_21 _)
  have k2 := clear_rel (fun _ _ h => ⟨h.1.1.1, h.1.1.2.1⟩) r1 k1
  have m2 := rel_moved_trans m1 (rel_mono (Q := Moved nss) (fun _ _ he => moved_data (L := stampNames) (by decide) he.1.1) r1)
  have r2 := rel_mono (Q := SameData stampNames) (fun _ _ he => he.1.1) r1
  rw [show (cybox201Cls n sel).nsmap = n from rfl, show (cybox201Cls n sel).xpathVersioned = sel from rfl] at h k2 m2 r2
  generalize ((cybox201Cls n sel).updateSchemalocs t0).edit (versionEdit n sel setVersion21) = d at h k2 m2 r2
  have o2 : ∀ c ∈ d.elems, OneRefreshId c.e := by
    intro c' hc' htag
    obtain ⟨c, hc, _, _, he, _⟩ := rel_elems r2 hc'
    exact once_of_filter (L := stampNames) (by decide) he.2.2.2 (o1 c hc (he.1 ▸ htag))
  split at h
  · cases h
  · next d2 h2 =>
    obtain ⟨f, hf, hfn, hd2, _⟩ := fields201_handled h2 k2
    have m3 := via_trans (via_came (came_trans (came_trans (came_moved m2) (came_refresh o2)) (came_moved (moved_ren hf hfn _))))
      (via_mail hh (mailslot_replaced hd2))
    split at h
    · cases h
    · next d4 h4 =>
      have c4 := carry_same (carry_vocabs (by
        show ∀ v ∈ (cybox201Cls [] []).vocabs, ∀ p ∈ v.terms, p ∈ correctedTerms
        decide) h4)
      have m4 := via_trans m3 (via_came (came_moved (rel_mono (fun _ _ he => moved_data (L := vocabNames) (by decide) he) c4)))
      cases hb : o.removeOptionals with
      | false => rw [hb] at h; cases h; exact m4
      | true =>
        rw [hb, if_pos rfl, show (cybox201Cls n sel).optionals = cybox201Optionals from rfl, optionals_pass] at h
        cases h
        exact via_trans m4 (via_came (came_without _ _))

theorem via_fine {nss : List String} {t t' : Node} (hm : CameVia nss t t') (hs : ∀ c ∈ t'.elems, ¬ TwoLevel c)
    (h : ∀ c ∈ t.elems, ¬ Untranslatable rules201 t c) : ∀ c ∈ t'.elems, ¬ Untranslatable rules201 t' c := by
  rintro c' hc' ⟨r, hr, hb⟩
  obtain ⟨c, hc, h1, anc, sec⟩ := hm.1 c' hc'
  have tag : Fresh201 c'.e.tag → c'.e.tag ≠ objName "WinMailslot" "Handle" → c'.e.tag = c.e.tag :=
    fun hf hn => (h1.resolve_right hn).resolve_right (fun hn => hn hf)
  have hr' := hr
  simp only [rules201, List.mem_cons, List.not_mem_nil, or_false] at hr
  rcases hr with rfl | rfl | rfl | rfl
  · refine h c hc ⟨_, hr', anc hb.1, ?_⟩
    rw [← tag (by rw [hb.2]; decide +kernel) (by rw [hb.2]; decide +kernel)]
    exact hb.2
  · refine h c hc ⟨_, hr', anc hb.1, ?_⟩
    rw [← tag (by rw [hb.2]; decide +kernel) (by rw [hb.2]; decide +kernel)]
    exact hb.2
  · obtain ⟨g1, q, qs, g2⟩ := hb
    refine h c hc ⟨_, hr', ?_, sec q qs g2⟩
    rw [← tag (by rw [g1]; decide +kernel) (by rw [g1]; decide +kernel)]
    exact g1
  · exact hs c' hc' ⟨hb.1.1, hb.1.2, hb.2.1⟩

/-! ## C59 -/

/-- C59 for the CybOX 2.0.1 step, for documents without the fields whose value the step unwraps and without a handle inside a handle;
`Refresh` fields, with one `id` attribute at most, as XML demands, and mailslot handles are allowed. The second run, without the version
check, accepts the document and changes nothing.
Partial: the second run stops at a `DNT` or `Vary` field (`C59_headers_fails`), and takes away a handle inside a handle of a mailslot
(`C59_handles_fails`). -/
theorem C59_mailslot_step_partial (o : Options) (force' : Bool) (k k' j : Nat) (t : Node) (r : Result)
    (h1 : NoneNamed [objName "HTTPSession" "DNT", objName "HTTPSession" "Vary"] t) (h2 : NoNestedHandle t)
    (h3 : ∀ c ∈ t.elems, c.e.tag = objName "HTTPSession" "Refresh" → AtMostOnce (.plain "id") c.e.attrs)
    (h : stepUpdate cybox201 o false k t = .ok (r, k')) :
    stepUpdate cybox201 { o with checkVersions := false } force' j r.doc = .ok (⟨r.doc, [], []⟩, j) := by
  have hu := tried h
  obtain ⟨g1, g2⟩ := check201.1 (show cybox201.check { o with checkVersions := false } t = .ok () from unchecked201 (passed h))
  have hm := via201 (nss := known201) (by decide +kernel) (by decide +kernel) (n := Tables.cybox201_nsmap) (sel := xpathObservables) hu
    ⟨h1, fun c _ q hq => by cases hq⟩ h3
  refine retried ?_ (show cybox201.update o r.doc = .ok r.doc from C59_mailslot_partial o k k' t r h1 h2 h)
  refine check201.2 ⟨via_fine hm ((handles_prep hu (check_single (passed h))).2 h2) g1, ?_⟩
  rw [unshared_iff] at g2 ⊢
  exact hm.2.nodup g2

/-- The sample of `C59_mailslot_partial`; the first run changes it. -/
example : NoneNamed [objName "HTTPSession" "DNT", objName "HTTPSession" "Vary"] docMailslot ∧ NoNestedHandle docMailslot ∧
    (∀ c ∈ docMailslot.elems, c.e.tag = objName "HTTPSession" "Refresh" → AtMostOnce (.plain "id") c.e.attrs) ∧
    ∃ r, stepUpdate cybox201 o0 false 0 docMailslot = .ok r ∧ r.1.doc ≠ docMailslot := by
  refine ⟨by unfold NoneNamed; decide +kernel, fun c hc ht => alls_iff.2 (fun k hk => (all_iff [] [] [] k).2 ?_),
    by unfold AtMostOnce; decide +kernel, ok_of_eval (by decide +kernel)⟩
  have : ∀ c ∈ docMailslot.elems, c.e.tag = ⟨some "http://cybox.mitre.org/objects#WinHandleObject-2", "Handle"⟩ →
    ∀ k ∈ c.kids, ∀ d ∈ k.walk [] [] [], d.e.tag ≠ ⟨some "http://cybox.mitre.org/objects#WinHandleObject-2", "Handle"⟩ := by
    decide +kernel
  exact this c hc ht k hk

end Ramrod

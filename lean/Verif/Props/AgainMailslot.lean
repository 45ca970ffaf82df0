import Verif.Props.AgainRefreshStep
/-!
# C59: Repeating the CybOX 2.0.1 step on mailslot handles
-/

namespace Ramrod

open Samples

/-! ## Helpers: the translation of mailslot handles -/

theorem mailslot_replaced {t t' : Node} (h : transMailslot.translate t = .ok t') : Replaced TwoLevel InnerHandle t t' := by
  have hm := translate_parent h
  rw [show XName.resolve Tables.cybox201_nsmap ⟨"WinMailslotObj", "Handle"⟩ =
      ⟨some "http://cybox.mitre.org/objects#WinMailslotObject-2", "Handle"⟩ by decide +kernel,
    show XName.resolve Tables.cybox201_nsmap ⟨"WinHandleObj", "Handle"⟩ =
      ⟨some "http://cybox.mitre.org/objects#WinHandleObject-2", "Handle"⟩ by decide +kernel] at hm
  exact hm

theorem mailslot_idle {t : Node} (h : ∀ c ∈ t.elems, ¬ TwoLevel c) : transMailslot.translate t = .ok t := by
  obtain ⟨t', ht'⟩ : ∃ t', transMailslot.translate t = .ok t' := by
    unfold transMailslot
    simp only [Trans.translate]
    obtain ⟨r, hr⟩ := mapE_total (f := fun c : Ctx => (Except.ok (copyRetag ⟨some nsWinMailslot, "Handle"⟩ c.e c.kids) : Except Err Node).map
      (fun n => (c.pos.tail, n))) (l := t.xpath Tables.cybox201_nsmap [relIn "WinMailslotObj" "Handle" "WinHandleObj" "Handle"])
      (fun c _ => ⟨_, rfl⟩)
    rw [hr]
    exact ⟨_, rfl⟩
  obtain ⟨R, _, h2, rfl⟩ := mailslot_replaced ht'
  rw [ht']
  refine congrArg Except.ok (subst_self t (fun c hc n hn => ?_))
  split at hn
  · cases hn
  · rw [h2 c hc (h c hc)] at hn; cases hn

mutual
theorem mem_inside {t0 : Node} : ∀ (n : Node) {p : Pos} {env : NsMap} {a : List QName}, a ≠ [] → ∀ d ∈ n.walk p env a,
    (∃ c ∈ t0.elems, c.anc ≠ [] ∧ c.node = n) → d.anc ≠ [] ∧ ∃ c ∈ t0.elems, c.anc ≠ [] ∧ d.e = c.e ∧ d.kids = c.kids
  | .other _ _, _, _, _, _, d, hd, _ => by simp [Node.walk] at hd
  | .elem e ks, p, env, a, ha, d, hd, ⟨c, hc, hn, he⟩ => by
    unfold Ctx.node at he
    injection he with he1 he2
    simp only [Node.walk, List.mem_cons] at hd
    rcases hd with rfl | hd
    · exact ⟨ha, c, hc, hn, he1.symm, he2.symm⟩
    · exact mem_insides ks (by simp) d hd ⟨c, hc, fun k hk => by rw [he2]; exact hk⟩
theorem mem_insides {t0 : Node} : ∀ (ks : List Node) {p : Pos} {i : Nat} {env : NsMap} {a : List QName}, a ≠ [] → ∀ d ∈ Node.walks p i env a ks,
    (∃ c ∈ t0.elems, ∀ k ∈ ks, k ∈ c.kids) → d.anc ≠ [] ∧ ∃ c ∈ t0.elems, c.anc ≠ [] ∧ d.e = c.e ∧ d.kids = c.kids
  | [], _, _, _, _, _, d, hd, _ => by simp [Node.walks] at hd
  | k :: ks, p, i, env, a, ha, d, hd, ⟨c, hc, hk⟩ => by
    simp only [Node.walks, List.mem_append] at hd
    rcases hd with hd | hd
    · cases k with
      | other _ _ => simp [Node.walk] at hd
      | elem e es =>
        obtain ⟨j, hj⟩ := List.getElem?_of_mem (hk _ (List.mem_cons_self ..))
        exact mem_inside (.elem e es) ha d hd ⟨_, walk_child t0 c hc j e es hj, by simp, rfl⟩
    · exact mem_insides ks ha d hd ⟨c, hc, fun k' hk' => hk k' (List.mem_cons_of_mem _ hk')⟩
end

/-- Where the elements come from. -/
theorem mail_mem {t t' : Node} (h : Replaced TwoLevel InnerHandle t t') {c' : Ctx} (hc' : c' ∈ t'.elems) :
    ∃ c ∈ t.elems, (c'.anc = [] ↔ c.anc = []) ∧ (c.kids = [] → c'.kids = []) ∧
      (c'.e = c.e ∨ (c'.e.tag = objName "WinMailslot" "Handle")) := by
  rcases h.elems hc' with ⟨c, hc, he, _, ha, _, _, hl, _⟩ | ⟨c, hc, ha, _, n, env0, ⟨e1, ks1, y1, y2, rfl⟩, _, hw⟩
  · exact ⟨c, hc, by rw [ha], fun hk => List.eq_nil_of_length_eq_zero (by rw [hl, hk]; rfl), Or.inl he⟩
  · obtain ⟨i, hi⟩ := List.mem_iff_getElem?.1 y1
    have hchild := walk_child t c hc i e1 ks1 hi
    simp only [Node.walk, List.mem_cons] at hw
    rcases hw with rfl | hw
    · exact ⟨_, hchild, by simp [ha], fun hk => hk, Or.inr rfl⟩
    · obtain ⟨g1, d, g2, g3, g4, g5⟩ := mem_insides (t0 := t) ks1 (by simp) c' hw ⟨_, hchild, fun k hk => hk⟩
      exact ⟨d, g2, by simp [g1, g3], fun hk => by rw [g5, hk], Or.inl g4⟩

theorem selects_anc {m : List (String × String)} {alts : List XAlt} (hp : PlainAlts [] alts) (hpar : ∀ a ∈ alts, a.parent = none) {c c' : Ctx}
    (h1 : c'.e = c.e) (h2 : c'.anc = [] ↔ c.anc = []) (h : alts.any (fun a => a.selects m c') = true) :
    alts.any (fun a => a.selects m c) = true := by
  rw [← selects_part (m := m) hp (c := c) (c' := { c' with anc := c.anc }) h1 rfl]
  obtain ⟨a, ha, hs⟩ := List.any_eq_true.1 h
  refine List.any_eq_true.2 ⟨a, ha, ?_⟩
  unfold XAlt.selects at hs ⊢
  rw [hpar a ha] at hs ⊢
  have hl : (decide (1 ≤ c'.anc.length)) = decide (1 ≤ c.anc.length) := by
    cases hx : c'.anc with
    | nil => rw [h2.1 hx]
    | cons _ _ =>
      cases hy : c.anc with
      | nil => rw [h2.2 hy] at hx; cases hx
      | cons _ _ => simp
  simp only [← hl]
  have hpp : a.pred.holds m { c' with anc := c.anc } = a.pred.holds m c' := by
    cases a.pred <;> rfl
  rw [hpp]
  exact hs

theorem ver_mail {m : List (String × String)} {sel : List XAlt} {g : Elem → Elem} (hp : PlainAlts [] sel) (hpar : ∀ a ∈ sel, a.parent = none)
    (hT : ∀ a ∈ sel, a.tag.resolve m ≠ objName "WinMailslot" "Handle") {t t' : Node} (hr : Replaced TwoLevel InnerHandle t t')
    (h : VerFixed m sel g t) : VerFixed m sel g t' := by
  intro c' hc' hs
  obtain ⟨c, hc, h1, _, he | ht⟩ := mail_mem hr hc'
  · rw [he]; exact h c hc (selects_anc hp hpar he h1 hs)
  · obtain ⟨a, ha, hsel⟩ := List.any_eq_true.1 hs
    unfold XAlt.selects at hsel
    simp only [Bool.and_eq_true, decide_eq_true_eq] at hsel
    exact absurd (hsel.1.1.symm.trans ht) (hT a ha)

theorem ns_mail {n : List (String × String)} {sel : List XAlt} {t t' : Node} (hr : Replaced TwoLevel InnerHandle t t')
    (h : NsDone (cybox201Cls n sel) t) : NsDone (cybox201Cls n sel) t' := by
  intro c' hc'
  obtain ⟨c, hc, _, _, he | ht⟩ := mail_mem hr hc'
  · rw [he]; exact h c hc
  · rw [ht]
    show (cybox201Cls [] []).nsUpdated (objName "WinMailslot" "Handle") = false
    decide +kernel

theorem fixed_mail {t t' : Node} (hr : Replaced TwoLevel InnerHandle t t') (h : RefreshFixed t) : RefreshFixed t' := by
  intro c' hc' ha ht
  obtain ⟨c, hc, h1, h2, he | hm⟩ := mail_mem hr hc'
  · obtain ⟨g1, g2⟩ := h c hc (fun e => ha (h1.2 e)) (he ▸ ht)
    exact ⟨h2 g1, by rw [he]; exact g2⟩
  · rw [hm] at ht
    exact absurd ht (by decide +kernel)

theorem clear_mail {names : List QName} (hn : objName "WinMailslot" "Handle" ∉ names) {t t' : Node} (hr : Replaced TwoLevel InnerHandle t t')
    (h : ClearOf names [] t) : ClearOf names [] t' := by
  refine ⟨fun c' hc' ha => ?_, fun c' _ q hq => by cases hq⟩
  obtain ⟨c, hc, h1, _, he | hm⟩ := mail_mem hr hc'
  · rw [he]; exact h.1 c hc (fun e => ha (h1.2 e))
  · rw [hm]; exact hn

/-! ## Helpers: the CybOX 2.0.1 step -/

/-- The translations of the CybOX step: the new `Refresh` fields, then the renames, then the mailslot handles. -/
theorem fields201_handled {t t' : Node} (h : translateFields cybox201Translatable t = .ok t') (ht : ClearOf unwrapped201 [] t) :
    (∃ f, (∀ q, f q = q ∨ f q ∈ renamed201.map (·.2)) ∧ (∀ q, (f q).ns = q.ns) ∧
      transMailslot.translate ((t.replaceBy refreshField).edit (renBelow f)) = .ok t' ∧
      ClearOf (renamed201.map (·.1) ++ unwrapped201) [] ((t.replaceBy refreshField).edit (renBelow f))) := by
  have h0 : ∀ f ∈ [transDNT, transVary], ∀ a ∈ f.xpath, a.abs = false ∧
    ((a.parent = none ∧ a.tag.resolve f.nsmap ∈ unwrapped201) ∨
      ∃ x ∈ ([] : List (QName × QName)), a.tag.resolve f.nsmap = x.2 ∧ a.parent.map (XName.resolve f.nsmap) = some x.1) := by decide +kernel
  have a1 : (transXRequestedFor = ⟨[rel "HTTPSessionObj" "X_Requested_For"], Tables.cybox201_nsmap, .renamed (objName "HTTPSession" "X_Forwarded_For")⟩ ∧
    XName.resolve Tables.cybox201_nsmap ⟨"HTTPSessionObj", "X_Requested_For"⟩ = objName "HTTPSession" "X_Requested_For") := ⟨rfl, by decide +kernel⟩
  have a2 : (transAuthData = ⟨[rel "PacketObj" "Authenication_Data"], Tables.cybox201_nsmap, .renamed (objName "Packet" "Authentication_Data")⟩ ∧
    XName.resolve Tables.cybox201_nsmap ⟨"PacketObj", "Authenication_Data"⟩ = objName "Packet" "Authenication_Data") := ⟨rfl, by decide +kernel⟩
  have a3 : (transEncapsulating = ⟨[rel "PacketObj" "Excapsulating_Security_Payload"], Tables.cybox201_nsmap,
      .renamed (objName "Packet" "Encapsulating_Security_Payload")⟩ ∧
    XName.resolve Tables.cybox201_nsmap ⟨"PacketObj", "Excapsulating_Security_Payload"⟩ = objName "Packet" "Excapsulating_Security_Payload") :=
    ⟨rfl, by decide +kernel⟩
  have a4 : (transProtoAddrSize = ⟨[rel "PacketObj" "Protol_Addr_Size"], Tables.cybox201_nsmap, .renamed (objName "Packet" "Proto_Addr_Size")⟩ ∧
    XName.resolve Tables.cybox201_nsmap ⟨"PacketObj", "Protol_Addr_Size"⟩ = objName "Packet" "Protol_Addr_Size") := ⟨rfl, by decide +kernel⟩
  have c1 := clear_rename (a := objName "HTTPSession" "X_Requested_For") (b := objName "HTTPSession" "X_Forwarded_For") (by decide +kernel) (clear_refresh ht)
  have c2 := clear_rename (a := objName "Packet" "Authenication_Data") (b := objName "Packet" "Authentication_Data") (by decide +kernel) c1
  have c3 := clear_rename (a := objName "Packet" "Excapsulating_Security_Payload") (b := objName "Packet" "Encapsulating_Security_Payload")
    (by decide +kernel) c2
  have c4 := clear_rename (a := objName "Packet" "Protol_Addr_Size") (b := objName "Packet" "Proto_Addr_Size") (by decide +kernel) c3
  simp only [cybox201Translatable, translateFields, foldE,
    translate_nothing (clear_silent (h0 transDNT (by simp)) ht), translate_nothing (clear_silent (h0 transVary (by simp)) ht),
    refresh_eq, a1.1, a2.1, a3.1, a4.1, translate_renamed, a1.2, a2.2, a3.2, a4.2] at h
  split at h
  · cases h
  rename_i b' hb
  cases h
  rw [edit_ren, edit_ren, edit_ren] at hb c4
  refine ⟨_, ?_, ?_, hb, ?_⟩
  case refine_2 =>
    have hr : ∀ {f : QName → QName} {a b : QName}, a.ns = b.ns → (∀ q, (f q).ns = q.ns) → ∀ q, ((ren1 a b ∘ f) q).ns = q.ns := by
      intro f a b hab hf q
      simp only [Function.comp, ren1]
      split
      · next he => rw [← hf q, he, hab]
      · exact hf q
    refine hr rfl (hr rfl (hr rfl ?_))
    intro q
    unfold ren1
    split
    · next he => rw [he]; rfl
    · rfl
  case refine_1 =>
    have hr : ∀ {f : QName → QName} {a b : QName}, b ∈ renamed201.map (·.2) → (∀ q, f q = q ∨ f q ∈ renamed201.map (·.2)) →
        ∀ q, (ren1 a b ∘ f) q = q ∨ (ren1 a b ∘ f) q ∈ renamed201.map (·.2) := by
      intro f a b hb hf q
      simp only [Function.comp, ren1]
      split
      · exact Or.inr hb
      · exact hf q
    refine hr (by simp [renamed201]) (hr (by simp [renamed201]) (hr (by simp [renamed201]) ?_))
    intro q
    unfold ren1
    split
    · exact Or.inr (by simp [renamed201])
    · exact Or.inl rfl
  case refine_3 =>
    refine ⟨fun c hc ha hq => c4.1 c hc ha ?_, c4.2⟩
    simp only [renamed201, List.map_cons, List.map_nil, List.cons_append, List.nil_append, List.mem_cons] at hq ⊢
    rcases hq with h | h | h | h | h
    · exact Or.inr (Or.inr (Or.inr (Or.inl h)))
    · exact Or.inr (Or.inr (Or.inl h))
    · exact Or.inr (Or.inl h)
    · exact Or.inl h
    · exact Or.inr (Or.inr (Or.inr (Or.inr h)))

theorem fields201_still {t : Node} (h : ClearOf (renamed201.map (·.1) ++ unwrapped201) [] t) (hr : RefreshFixed t) (hm : ∀ c ∈ t.elems, ¬ TwoLevel c) :
    translateFields cybox201Translatable t = .ok t := by
  have h0 : ∀ f ∈ [transDNT, transVary, transXRequestedFor, transAuthData, transEncapsulating, transProtoAddrSize],
    ∀ a ∈ f.xpath, a.abs = false ∧ ((a.parent = none ∧ a.tag.resolve f.nsmap ∈ renamed201.map (·.1) ++ unwrapped201) ∨
      ∃ x ∈ ([] : List (QName × QName)), a.tag.resolve f.nsmap = x.2 ∧ a.parent.map (XName.resolve f.nsmap) = some x.1) := by decide +kernel
  have hn := fun f hf => translate_nothing (clear_silent (h0 f hf) h)
  simp only [cybox201Translatable, translateFields, foldE, refresh_eq, refresh_idle hr, hn transDNT (by simp), hn transVary (by simp),
    hn transXRequestedFor (by simp), hn transAuthData (by simp), hn transEncapsulating (by simp), hn transProtoAddrSize (by simp),
    mailslot_idle hm]

/-- What the embedded or stand-alone CybOX 2.0.1 updater leaves, apart from schema locations. -/
theorem left_handle {n : List (String × String)} {sel : List XAlt} (hsel : PlainAlts [] sel ∧ PlainAlts vocabNames sel)
    (hpar : ∀ a ∈ sel, a.parent = none) (hT : ∀ a ∈ sel, a.tag.resolve n ∉ renamed201.map (·.2) ∧ a.tag.resolve n ≠ objName "HTTPSession" "Refresh" ∧ a.tag.resolve n ≠ objName "WinMailslot" "Handle")
    {o : Options} {t t' : Node} (h : cybox201Update (cybox201Cls n sel) o t = .ok t') (ht : ClearOf unwrapped201 [] t) :
    VerFixed n sel setVersion21 t' ∧ NsDone (cybox201Cls n sel) t' ∧ RefreshFixed t' ∧ ClearOf (renamed201.map (·.1) ++ unwrapped201) [] t' ∧
      (∀ rows, StepRows w0 cybox201 rows → o.updateVocabularies = true → VocabsDone rows t' ∧ WellTyped t') ∧
      (o.removeOptionals = true → ∀ c ∈ t'.elems, ¬ EmptyOptional (Named optional21) t' c) := by
  simp only [cybox201Update] at h
  rw [cybox201Versions_eq] at h
  have n1 := ns_done (u := cybox201Cls n sel) (by show ∀ p ∈ (cybox201Cls [] []).updateNsMap, assoc (cybox201Cls [] []).updateNsMap p.2 = none; decide) t
  have k1 : ∀ names L, (∀ q ∈ names, Fresh201 q) → (∀ q ∈ L, Fresh201 q.1 ∧ Fresh201 q.2) → ClearOf names L t →
      ClearOf names L ((cybox201Cls n sel).updateNamespaces [] t) := fun _ _ h1 h2 h3 => clear_ns h1 h2 h3
  generalize (cybox201Cls n sel).updateNamespaces [] t = t0 at h n1 k1
  have r1 := rel_stamped_trans (stamped_schemaloc (cybox201Cls n sel) t0)
    (stamped_versions (m := (cybox201Cls n sel).nsmap) (alts := (cybox201Cls n sel).xpathVersioned) stamped_21 _)
  have v1 : VerFixed n sel setVersion21 _ := ver_done (m := n) hsel.1 setVersion21_keeps set21_twice ((cybox201Cls n sel).updateSchemalocs t0)
  have n2 := ns_rel (u := cybox201Cls n sel) (fun _ _ h => ⟨h.1.1.1, h.1.1.2.1⟩) r1 n1
  have k2 := fun names L h1 h2 h3 => clear_rel (fun _ _ h => ⟨h.1.1.1, h.1.1.2.1⟩) r1 (k1 names L h1 h2 h3)
  rw [show (cybox201Cls n sel).nsmap = n from rfl, show (cybox201Cls n sel).xpathVersioned = sel from rfl] at h n2 k2
  generalize ((cybox201Cls n sel).updateSchemalocs t0).edit (versionEdit n sel setVersion21) = d at h v1 n2 k2
  split at h
  · cases h
  · next d2 h2 =>
    obtain ⟨f, hf, _, hd2, c3⟩ := fields201_handled h2 (k2 _ _ (by decide +kernel) (by decide +kernel) ht)
    have v3 := ver_rename hsel.1 hpar hf (fun a ha => (hT a ha).1) (ver_refresh hsel.1 (fun a ha => (hT a ha).2.1) v1)
    have n3 := ns_rename hf (ns_refresh n2)
    have f3 := fixed_ren hf (refresh_fixed d)
    have v3 := ver_mail hsel.1 hpar (fun a ha => (hT a ha).2.2) (mailslot_replaced hd2) v3
    have n3 := ns_mail (mailslot_replaced hd2) n3
    have f3 := fixed_mail (mailslot_replaced hd2) f3
    have c3 := clear_mail (by decide +kernel) (mailslot_replaced hd2) c3
    split at h
    · cases h
    · next d4 h4 =>
      have c4 := carry_same (carry_vocabs (by
        show ∀ v ∈ (cybox201Cls [] []).vocabs, ∀ p ∈ v.terms, p ∈ correctedTerms
        decide) h4)
      have hp : Part d4 t' := mem_optionalsIf h
      have hP : ∀ e e', SameData vocabNames e e' → e'.tag = e.tag ∧ e'.decls = e.decls := fun _ _ h => ⟨h.1, h.2.1⟩
      refine ⟨ver_part hsel.1 hp (ver_rel hsel.2 (fun _ _ hs he => set21_fixed (by decide) hs he) c4 v3), ?_, ?_,
        clear_part hp (clear_rel hP c4 c3), ?_, ?_⟩
      · intro c' hc'
        obtain ⟨c, hc, he, _⟩ := hp c' hc'
        rw [he]
        exact ns_rel hP c4 n3 c hc
      · have f4 := fixed_vocabs (stepRows_matches (w := w0) .cybox201) (stepRows_stable (w := w0) .cybox201) h4 f3
        cases hb : o.removeOptionals with
        | false => rw [hb] at h; cases h; exact f4
        | true =>
          rw [hb, if_pos rfl, show (cybox201Cls n sel).optionals = cybox201Optionals from rfl, optionals_pass] at h
          cases h
          exact fixed_without f4
      · intro rows hrows hb
        exact vocabs_part hp (vocabsIf_done (stepRows_matches hrows) (stepRows_stable hrows) (by simp [cybox201, cybox201Cls]) h4 hb)
      · intro hb
        rw [hb, if_pos rfl, show (cybox201Cls n sel).optionals = cybox201Optionals from rfl, optionals_pass] at h
        cases h
        exact named_clean (gone_named d4)

theorem settled_handle {n : List (String × String)} {sel : List XAlt} {o : Options} {t : Node} (h1 : LocFixed (cybox201Cls n sel).locTables t)
    (h2 : VerFixed n sel setVersion21 t) (h3 : NsDone (cybox201Cls n sel) t) (h3' : RefreshFixed t) (h4 : ClearOf (renamed201.map (·.1) ++ unwrapped201) [] t) (h4' : ∀ c ∈ t.elems, ¬ TwoLevel c)
    {rows : List VocabRow} (hrows : StepRows w0 cybox201 rows) (h5 : o.updateVocabularies = true → VocabsDone rows t ∧ WellTyped t)
    (h6 : o.removeOptionals = true → ∀ c ∈ t.elems, ¬ EmptyOptional (Named optional21) t c) :
    cybox201Update (cybox201Cls n sel) o t = .ok t := by
  simp only [cybox201Update]
  rw [ns_idle h3, cybox201Versions_eq, loc_idle h1,
    ver_idle (m := (cybox201Cls n sel).nsmap) (alts := (cybox201Cls n sel).xpathVersioned) h2,
    show (cybox201Cls n sel).translatable = cybox201Translatable from rfl, fields201_still h4 h3' h4']
  have hi := vocabsIf_idle (stepRows_matches hrows) h5
  rw [show cybox201.cls.vocabs = (cybox201Cls n sel).vocabs from rfl] at hi
  simp only [hi]
  cases hb : o.removeOptionals with
  | false => rfl
  | true =>
    simp only [if_true, show (cybox201Cls n sel).optionals = cybox201Optionals from rfl, optionals_pass, Except.ok.injEq]
    refine without_nothing (fun c hc _ => ?_)
    rw [← Bool.not_eq_true, optSel_spec (t := t)]
    exact h6 hb c hc

/-! ## C59 -/

/-- C59 for the CybOX 2.0.1 step after its checks, for documents without the fields whose value the step unwraps and without a handle
inside a handle; `Refresh` fields and mailslot handles are allowed.
Partial: the second run stops at a `DNT` or `Vary` field (`C59_headers_fails`), and takes away a handle inside a handle of a mailslot
(`C59_handles_fails`). -/
theorem C59_mailslot_partial (o : Options) (k k' : Nat) (t : Node) (r : Result)
    (h1 : NoneNamed [objName "HTTPSession" "DNT", objName "HTTPSession" "Vary"] t) (h2 : NoNestedHandle t)
    (h : stepUpdate cybox201 o false k t = .ok (r, k')) : cybox201.update o r.doc = .ok r.doc := by
  have hs := check_single (passed h)
  have h := tried h
  have hloc : LocFixed (cybox201Cls Tables.cybox201_nsmap xpathObservables).locTables r.doc :=
    rewriteAll_fixed (stepTables_wordy (w := w0) .cybox201) (by simp) (StepTables.cybox201 (w := w0)) (fixed_one stable_cybox201) h
  obtain ⟨a1, a2, a3, a4, a5, a6⟩ := left_handle (n := Tables.cybox201_nsmap) (sel := xpathObservables) (by decide) (by decide)
    (by decide +kernel) h ⟨h1, fun c _ q hq => by cases hq⟩
  exact settled_handle hloc a1 a2 a3 a4 ((handles_prep h hs).2 h2) .cybox201 (a5 _ .cybox201) a6

/-- A document with a mailslot handle and a `Refresh` field. -/
def docMailslot : Node :=
  cyboxDoc v201 [.elem ⟨objName "WinMailslot" "Handle", [], [], none, none⟩
    [.elem ⟨objName "WinHandle" "Handle", [], [at_ "id" "h"], some "x", none⟩
      [.elem ⟨objName "HTTPSession" "Refresh", [], [at_ "datatype" "int"], some "5", none⟩ []]]]

example : NoneNamed [objName "HTTPSession" "DNT", objName "HTTPSession" "Vary"] docMailslot ∧ NoNestedHandle docMailslot ∧
    ∃ r, stepUpdate cybox201 o0 false 0 docMailslot = .ok r ∧ (r.1.doc.elems.map (fun c => (c.e.tag, c.e.attrs))).tail =
      [(objName "WinMailslot" "Handle", [at_ "id" "h"]), (objName "HTTPSession" "Refresh", [at_ "datatype" "string"])] := by
  refine ⟨by unfold NoneNamed; decide +kernel, fun c hc ht => alls_iff.2 (fun k hk => (all_iff [] [] [] k).2 ?_), ok_of_eval (by decide +kernel)⟩
  have : ∀ c ∈ docMailslot.elems, c.e.tag = ⟨some "http://cybox.mitre.org/objects#WinHandleObject-2", "Handle"⟩ →
    ∀ k ∈ c.kids, ∀ d ∈ k.walk [] [] [], d.e.tag ≠ ⟨some "http://cybox.mitre.org/objects#WinHandleObject-2", "Handle"⟩ := by
    decide +kernel
  exact this c hc ht k hk

end Ramrod

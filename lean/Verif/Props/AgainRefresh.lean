import Verif.Props.Again
/-!
# C59: Repeating the CybOX 2.0.1 step on `Refresh` fields
-/

namespace Ramrod

open Samples

/-! ## Helpers: attributes -/

/-- Attributes that the translation of a `Refresh` field leaves alone. -/
def CalmAttrs (as : Attrs) : Prop := (as.map (·.1)).Nodup ∧ ∀ v, Attrs.get? as (.plain "datatype") = some v → v = "string"

theorem keys_of_set (k : QName) (v : String) : ∀ as : Attrs, (Attrs.set as k v).map (·.1) = as.map (·.1) ∧ k ∈ as.map (·.1) ∨
    (Attrs.set as k v).map (·.1) = as.map (·.1) ++ [k] ∧ k ∉ as.map (·.1)
  | [] => Or.inr ⟨rfl, by simp⟩
  | (a, b) :: as => by
    simp only [Attrs.set]
    by_cases h : a = k
    · rw [if_pos h]; exact Or.inl ⟨rfl, by simp [h]⟩
    · rw [if_neg h]
      rcases keys_of_set k v as with ⟨h1, h2⟩ | ⟨h1, h2⟩
      · exact Or.inl ⟨by simp only [List.map_cons, h1], by simp only [List.map_cons, List.mem_cons]; exact Or.inr h2⟩
      · refine Or.inr ⟨by simp only [List.map_cons, h1, List.cons_append], ?_⟩
        simp only [List.map_cons, List.mem_cons, not_or]
        exact ⟨fun e => h e.symm, h2⟩

theorem set_keys_nodup {k : QName} {v : String} {as : Attrs} (h : (as.map (·.1)).Nodup) : ((Attrs.set as k v).map (·.1)).Nodup := by
  rcases keys_of_set k v as with ⟨h1, _⟩ | ⟨h1, h2⟩
  · rw [h1]; exact h
  · rw [h1, List.nodup_append]
    exact ⟨h, by simp, fun a ha b hb e => h2 (by rw [List.mem_singleton] at hb; rw [← hb, ← e]; exact ha)⟩

theorem updateAll_keys_nodup : ∀ (bs as : Attrs), (as.map (·.1)).Nodup → ((Attrs.updateAll as bs).map (·.1)).Nodup
  | [], as, h => h
  | (k, v) :: bs, as, h => by
    show ((Attrs.updateAll (Attrs.set as k v) bs).map (·.1)).Nodup
    exact updateAll_keys_nodup bs _ (set_keys_nodup h)

theorem mem_updateAll_keys : ∀ (bs as : Attrs) (k : QName), k ∈ (Attrs.updateAll as bs).map (·.1) → k ∈ as.map (·.1) ∨ k ∈ bs.map (·.1)
  | [], as, k, h => Or.inl h
  | (a, b) :: bs, as, k, h => by
    have h : k ∈ (Attrs.updateAll (Attrs.set as a b) bs).map (·.1) := h
    rcases mem_updateAll_keys bs _ k h with h | h
    · rcases keys_of_set a b as with ⟨h1, _⟩ | ⟨h1, _⟩
      · rw [h1] at h; exact Or.inl h
      · rw [h1, List.mem_append, List.mem_singleton] at h
        rcases h with h | h
        · exact Or.inl h
        · right; simp [h]
    · right; simp only [List.map_cons, List.mem_cons]; exact Or.inr h

theorem get_none_key : ∀ {as : Attrs} {k : QName}, k ∉ as.map (·.1) → Attrs.get? as k = none
  | [], _, _ => rfl
  | (a, b) :: as, k, h => by
    simp only [List.map_cons, List.mem_cons, not_or] at h
    simp only [Attrs.get?]
    rw [if_neg (fun e => h.1 e.symm)]
    exact get_none_key h.2

theorem get_some_key : ∀ {as : Attrs} {k : QName}, k ∈ as.map (·.1) → (Attrs.get? as k).isSome = true
  | [], _, h => by cases h
  | (a, b) :: as, k, h => by
    simp only [List.map_cons, List.mem_cons] at h
    simp only [Attrs.get?]
    split
    · rfl
    · next hn => exact get_some_key (h.resolve_left (fun e => hn e.symm))

theorem get_set_same (k : QName) (v : String) : ∀ as : Attrs, Attrs.get? (Attrs.set as k v) k = some v
  | [] => by simp [Attrs.set, Attrs.get?]
  | (a, b) :: as => by
    simp only [Attrs.set]
    by_cases h : a = k
    · rw [if_pos h]; simp [Attrs.get?, h]
    · rw [if_neg h]; simp only [Attrs.get?]; rw [if_neg h]; exact get_set_same k v as

theorem set_held {k : QName} {v : String} : ∀ {as : Attrs}, Attrs.get? as k = some v → Attrs.set as k v = as
  | [], h => by cases h
  | (a, b) :: as, h => by
    simp only [Attrs.get?] at h
    simp only [Attrs.set]
    by_cases e : a = k
    · rw [if_pos e] at h ⊢; cases h; rfl
    · rw [if_neg e] at h ⊢; rw [set_held h]

/-! ## Helpers: the translation of `Refresh` -/

/-- The new element for a `Refresh` field. -/
def refreshedAttrs (e : Elem) : Attrs := overrideAttrs e [(.plain "datatype", "string")] (Attrs.updateAll [] e.attrs)

theorem refreshed_calm (e : Elem) : CalmAttrs (refreshedAttrs e) := by
  have h0 := updateAll_keys_nodup e.attrs [] (by simp)
  unfold refreshedAttrs
  simp only [overrideAttrs]
  split
  · exact ⟨set_keys_nodup h0, fun v hv => by rw [get_set_same] at hv; cases hv; rfl⟩
  · next hn =>
    refine ⟨h0, fun v hv => absurd hv ?_⟩
    rw [get_none_key]
    · exact fun h => (nomatch h)
    · intro hm
      rcases mem_updateAll_keys _ _ _ hm with h | h
      · cases h
      · refine hn ?_
        exact get_some_key h

theorem calm_same {e : Elem} (h : CalmAttrs e.attrs) : refreshedAttrs e = e.attrs := by
  unfold refreshedAttrs
  rw [attrs_updateAll_nodup _ _ (by simpa using h.1), List.nil_append]
  simp only [overrideAttrs]
  split
  · next hn =>
    cases hg : Attrs.get? e.attrs (.plain "datatype") with
    | none =>
      unfold Elem.has Attrs.has at hn
      rw [hg] at hn
      cases hn
    | some v =>
      have := h.2 v hg
      subst this
      exact set_held hg
  · rfl

/-- The replacement of a `Refresh` field. -/
def refreshField (c : Ctx) : Option Node :=
  if transRefresh.xpath.any (fun a => a.selects transRefresh.nsmap c) then
    some (newElem c.e.tag (refreshedAttrs c.e) c.e.text [])
  else none

theorem mapE_always {α β ε : Type} {f : α → Except ε β} {g : α → β} (h : ∀ a, f a = .ok (g a)) : ∀ l : List α, mapE f l = .ok (l.map g)
  | [] => rfl
  | a :: l => by simp only [mapE, h, mapE_always h l, List.map_cons]

theorem refresh_eq (t : Node) : transRefresh.translate t = .ok (t.replaceBy refreshField) := by
  have h1 : ∀ c : Ctx, (translateValue transRefresh.nsmap none none true [(.plain "datatype", "string")] c).map (fun n => (c.pos, n)) =
      .ok (c.pos, newElem c.e.tag (refreshedAttrs c.e) c.e.text []) := fun _ => rfl
  show (match mapE (fun c => (translateValue transRefresh.nsmap none none true [(.plain "datatype", "string")] c).map (fun n => (c.pos, n)))
    (t.xpath transRefresh.nsmap transRefresh.xpath) with
    | .error x => Except.error x
    | .ok l => Except.ok (t.replaceAll l)) = _
  rw [mapE_always h1]
  exact congrArg Except.ok (replaceAll_filter t _ (fun c => newElem c.e.tag (refreshedAttrs c.e) c.e.text []))

theorem refresh_selects {c : Ctx} : transRefresh.xpath.any (fun a => a.selects transRefresh.nsmap c) = true ↔
    c.anc ≠ [] ∧ c.e.tag = objName "HTTPSession" "Refresh" := by
  have : XName.resolve transRefresh.nsmap ⟨"HTTPSessionObj", "Refresh"⟩ = objName "HTTPSession" "Refresh" := by decide +kernel
  rw [← this]
  exact rel_selects

/-- A field as the translation makes it. -/
def CalmField (c : Ctx) : Prop := c.kids = [] ∧ c.e.decls = [] ∧ c.e.tail = none ∧ CalmAttrs c.e.attrs

/-- Every `Refresh` field is as the translation makes it. -/
def RefreshFixed (t : Node) : Prop := ∀ c ∈ t.elems, c.anc ≠ [] → c.e.tag = objName "HTTPSession" "Refresh" → CalmField c

mutual
theorem subst_self {R : Ctx → Option Node} {pos : Pos} {env : NsMap} {anc : List QName} : ∀ (t : Node),
    (∀ c ∈ t.walk pos env anc, ∀ n, R c = some n → c.node = n) → t.substCtx R pos env anc = t
  | .other _ _, _ => rfl
  | .elem e ks, h => by
    simp only [Node.substCtx]
    split
    · next n hn => exact (h _ (by simp [Node.walk]) n hn).symm
    · rw [substs_self ks (fun c hc => h c (by simp [Node.walk, hc]))]
theorem substs_self {R : Ctx → Option Node} {pos : Pos} {i : Nat} {env : NsMap} {anc : List QName} : ∀ (ks : List Node),
    (∀ c ∈ Node.walks pos i env anc ks, ∀ n, R c = some n → c.node = n) → Node.substCtxs R pos i env anc ks = ks
  | [], _ => rfl
  | k :: ks, h => by
    simp only [Node.substCtxs]
    rw [subst_self k (fun c hc => h c (by simp [Node.walks, hc])), substs_self ks (fun c hc => h c (by simp [Node.walks, hc]))]
end

theorem refresh_idle {t : Node} (h : RefreshFixed t) : t.replaceBy refreshField = t := by
  refine subst_self t (fun c hc n hn => ?_)
  split at hn
  · cases hn
  · unfold refreshField at hn
    split at hn
    · next hs =>
      cases hn
      obtain ⟨h1, h2⟩ := refresh_selects.1 hs
      obtain ⟨g1, g2, g3, g4⟩ := h c hc h1 h2
      obtain ⟨pos, env, anc, ⟨tag, decls, attrs, text, tail⟩, kids⟩ := c
      simp only at g1 g2 g3
      subst g1 g2 g3
      rw [calm_same g4]
      rfl
    · cases hn

/-- Where the elements come from. -/
theorem refresh_mem {t : Node} {c' : Ctx} (h : c' ∈ (t.replaceBy refreshField).elems) : ∃ c ∈ t.elems, c'.anc = c.anc ∧ c'.e.tag = c.e.tag ∧
    ((c'.e = c.e ∧ ¬ (c.anc ≠ [] ∧ c.e.tag = objName "HTTPSession" "Refresh")) ∨ (c.e.tag = objName "HTTPSession" "Refresh" ∧ CalmField c')) := by
  rcases mem_walk_substCtx t c' h with ⟨c, hc, hR, rfl⟩ | ⟨c, hc, n, env0, hR, _, hn⟩
  · refine ⟨c, hc, rfl, rfl, Or.inl ⟨rfl, fun hs => ?_⟩⟩
    split at hR
    · next ha => exact hs.1 (by simpa using ha)
    · unfold refreshField at hR
      rw [if_pos (refresh_selects.2 hs)] at hR
      cases hR
  · split at hR
    · cases hR
    · unfold refreshField at hR
      split at hR
      · next hs =>
        cases hR
        simp only [newElem, Node.walk, Node.walks, List.mem_singleton] at hn
        subst hn
        exact ⟨c, hc, rfl, rfl, Or.inr ⟨(refresh_selects.1 hs).2, rfl, rfl, rfl, refreshed_calm _⟩⟩
      · cases hR

theorem refresh_fixed (t : Node) : RefreshFixed (t.replaceBy refreshField) := by
  intro c' hc' ha ht
  obtain ⟨c, _, h1, h2, ⟨_, h⟩ | ⟨_, h⟩⟩ := refresh_mem hc'
  · exact absurd ⟨h1 ▸ ha, h2 ▸ ht⟩ h
  · exact h

theorem clear_refresh {names : List QName} {L : List (QName × QName)} {t : Node} (h : ClearOf names L t) :
    ClearOf names L (t.replaceBy refreshField) := by
  constructor
  · intro c' hc' ha
    obtain ⟨c, hc, h1, h2, _⟩ := refresh_mem hc'
    rw [h2]; exact h.1 c hc (h1 ▸ ha)
  · intro c' hc'
    obtain ⟨c, hc, h1, h2, _⟩ := refresh_mem hc'
    rw [h1, h2]; exact h.2 c hc

theorem ver_refresh {m : List (String × String)} {sel : List XAlt} {g : Elem → Elem} (hp : PlainAlts [] sel)
    (hT : ∀ a ∈ sel, a.tag.resolve m ≠ objName "HTTPSession" "Refresh") {t : Node}
    (h : VerFixed m sel g t) : VerFixed m sel g (t.replaceBy refreshField) := by
  intro c' hc' hs
  obtain ⟨c, hc, h1, h2, ⟨he, _⟩ | ⟨he, _⟩⟩ := refresh_mem hc'
  · rw [selects_part hp he h1] at hs
    rw [he]; exact h c hc hs
  · obtain ⟨a, ha, hsel⟩ := List.any_eq_true.1 hs
    unfold XAlt.selects at hsel
    simp only [Bool.and_eq_true, decide_eq_true_eq] at hsel
    exact absurd (hsel.1.1.symm.trans (h2.trans he)) (hT a ha)

theorem ns_refresh {u : Cls} {t : Node} (h : NsDone u t) : NsDone u (t.replaceBy refreshField) := by
  intro c' hc'
  obtain ⟨c, hc, _, h2, _⟩ := refresh_mem hc'
  rw [h2]; exact h c hc

theorem fixed_ren {f : QName → QName} (hf : ∀ q, f q = q ∨ f q ∈ renamed201.map (·.2)) {t : Node} (h : RefreshFixed t) :
    RefreshFixed (t.edit (renBelow f)) := by
  have h0 : objName "HTTPSession" "Refresh" ∉ renamed201.map (·.2) := by decide +kernel
  intro c' hc' ha ht
  obtain ⟨c, hc, _, he, hl, hk⟩ := mem_edit hc'
  have hca : c.anc ≠ [] := fun e => ha (List.eq_nil_of_length_eq_zero (by rw [hl, e]; rfl))
  have hem : c.anc.isEmpty = false := by simpa using hca
  rw [renBelow, hem] at he
  simp only [Bool.false_eq_true, if_false] at he
  have htag : c.e.tag = objName "HTTPSession" "Refresh" := by
    rw [he] at ht
    rcases hf c.e.tag with e | e
    · rw [← e]; exact ht
    · exact absurd (by rw [← ht]; exact e) h0
  obtain ⟨g1, g2, g3, g4⟩ := h c hc hca htag
  exact ⟨by rw [hk, g1]; rfl, by rw [he]; exact g2, by rw [he]; exact g3, by rw [he]; exact g4⟩

theorem fixed_vocabs {b : Bool} {vs : List Vocab} {rows : List VocabRow} (hm : MatchesAll vs rows) (hs : Stable rows) {t t' : Node}
    (h : (if b then updateVocabs vs t else .ok t) = .ok t') (ht : RefreshFixed t) : RefreshFixed t' := by
  cases b with
  | false => cases h; exact ht
  | true =>
    obtain ⟨F, hF, rfl, hspec⟩ := updateVocabs_spec hm hs h
    intro c' hc' ha htag
    obtain ⟨c, hc, _, he, hl, hk⟩ := mem_edit hc'
    have hca : c.anc ≠ [] := fun e => ha (List.eq_nil_of_length_eq_zero (by rw [hl, e]; rfl))
    obtain ⟨g1, g2, g3, g4⟩ := ht c hc hca (by rw [he, (hF c).1] at htag; exact htag)
    refine ⟨by rw [hk, g1]; rfl, by rw [he, (hF c).2]; exact g2, ?_⟩
    rw [he]
    rcases Classical.em (∃ row ∈ rows, ∃ p, Outdated row p c) with ⟨row, hr, p, ho⟩ | hno
    · obtain ⟨_, _, w3, _, w5, w6⟩ := (hspec c hc).1 row hr p ho
      refine ⟨by rw [w3]; exact g3, by rw [w5]; exact g4.1, fun v hv => g4.2 v ?_⟩
      have := w6 (.plain "datatype")
      rw [if_neg (by decide), if_neg (by decide), if_neg (by decide)] at this
      exact this.symm.trans hv
    · rw [(hspec c hc).2 (fun row hr p ho => hno ⟨row, hr, p, ho⟩)]
      exact ⟨g3, g4⟩

theorem fixed_without {S : Ctx → Bool} {t : Node} (h : RefreshFixed t) : RefreshFixed (t.without S) := by
  intro c' hc' ha ht
  obtain ⟨c, hc, h1, _, h3, h4, _⟩ := mem_without hc'
  obtain ⟨g1, g2, g3, g4⟩ := h c hc (h3 ▸ ha) (h1 ▸ ht)
  exact ⟨by rw [h4, g1]; rfl, by rw [h1]; exact g2, by rw [h1]; exact g3, by rw [h1]; exact g4⟩

/-- The fields whose value the CybOX step unwraps. -/
def unwrapped201 : List QName := [objName "HTTPSession" "DNT", objName "HTTPSession" "Vary"]

/-- The translations of the CybOX step: the new `Refresh` fields, then the renames. -/
theorem fields201_refreshed {t t' : Node} (h : translateFields cybox201Translatable t = .ok t') (ht : ClearOf unwrapped201 mailslot201 t) :
    (∃ f, (∀ q, f q = q ∨ f q ∈ renamed201.map (·.2)) ∧ (∀ q, (f q).ns = q.ns) ∧ t' = (t.replaceBy refreshField).edit (renBelow f)) ∧
      ClearOf (renamed201.map (·.1) ++ unwrapped201) mailslot201 t' := by
  have h0 : ∀ f ∈ [transDNT, transVary, transMailslot], ∀ a ∈ f.xpath, a.abs = false ∧
    ((a.parent = none ∧ a.tag.resolve f.nsmap ∈ unwrapped201) ∨
      ∃ x ∈ mailslot201, a.tag.resolve f.nsmap = x.2 ∧ a.parent.map (XName.resolve f.nsmap) = some x.1) := by decide +kernel
  have a0 : ∀ p ∈ renamed201, p.2 ∉ renamed201.map (·.1) ++ unwrapped201 ∧ ∀ q ∈ mailslot201, p.2 ≠ q.1 ∧ p.2 ≠ q.2 := by decide +kernel
  have a1 : (transXRequestedFor = ⟨[rel "HTTPSessionObj" "X_Requested_For"], Tables.cybox201_nsmap, .renamed (objName "HTTPSession" "X_Forwarded_For")⟩ ∧
    XName.resolve Tables.cybox201_nsmap ⟨"HTTPSessionObj", "X_Requested_For"⟩ = objName "HTTPSession" "X_Requested_For") := ⟨rfl, by decide +kernel⟩
  have a2 : (transAuthData = ⟨[rel "PacketObj" "Authenication_Data"], Tables.cybox201_nsmap, .renamed (objName "Packet" "Authentication_Data")⟩ ∧
    XName.resolve Tables.cybox201_nsmap ⟨"PacketObj", "Authenication_Data"⟩ = objName "Packet" "Authenication_Data") := ⟨rfl, by decide +kernel⟩
  have a3 : (transEncapsulating = ⟨[rel "PacketObj" "Excapsulating_Security_Payload"], Tables.cybox201_nsmap,
      .renamed (objName "Packet" "Encapsulating_Security_Payload")⟩ ∧
    XName.resolve Tables.cybox201_nsmap ⟨"PacketObj", "Excapsulating_Security_Payload"⟩ = objName "Packet" "Excapsulating_Security_Payload") :=
    ⟨rfl, by decide +kernel⟩
  have a4 : (transProtoAddrSize = ⟨[rel "PacketObj" "Protol_Addr_Size"], Tables.cybox201_nsmap, .renamed (objName "Packet" "Proto_Addr_Size")⟩ ∧
    XName.resolve Tables.cybox201_nsmap ⟨"PacketObj", "Protol_Addr_Size"⟩ = objName "Packet" "Protol_Addr_Size") := ⟨rfl, by decide +kernel⟩
  have c1 := clear_rename (a := objName "HTTPSession" "X_Requested_For") (b := objName "HTTPSession" "X_Forwarded_For") (by decide +kernel) (clear_refresh ht)
  have c2 := clear_rename (a := objName "Packet" "Authenication_Data") (b := objName "Packet" "Authentication_Data") (by decide +kernel) c1
  have c3 := clear_rename (a := objName "Packet" "Excapsulating_Security_Payload") (b := objName "Packet" "Encapsulating_Security_Payload")
    (by decide +kernel) c2
  have c4 := clear_rename (a := objName "Packet" "Protol_Addr_Size") (b := objName "Packet" "Proto_Addr_Size") (by decide +kernel) c3
  have hm : ∀ {d : Node} {names : List QName}, (∀ q ∈ unwrapped201, q ∈ names) → ClearOf names mailslot201 d → d.xpath transMailslot.nsmap transMailslot.xpath = [] := by
    intro d names hn hd
    exact clear_silent (h0 transMailslot (by simp)) ⟨fun c hc ha hq => hd.1 c hc ha (hn _ hq), hd.2⟩
  simp only [cybox201Translatable, translateFields, foldE,
    translate_nothing (clear_silent (h0 transDNT (by simp)) ht), translate_nothing (clear_silent (h0 transVary (by simp)) ht),
    refresh_eq, a1.1, a2.1, a3.1, a4.1, translate_renamed, a1.2, a2.2, a3.2, a4.2] at h
  rw [translate_nothing (hm (fun q hq => by simp [hq]) c4)] at h
  simp only [Except.ok.injEq] at h
  constructor
  · refine ⟨_, ?_, ?_, by rw [← h, edit_ren, edit_ren, edit_ren]⟩
    case refine_2 =>
      have hr : ∀ {f : QName → QName} {a b : QName}, a.ns = b.ns → (∀ q, (f q).ns = q.ns) → ∀ q, ((ren1 a b ∘ f) q).ns = q.ns := by
        intro f a b hab hf q
        simp only [Function.comp, ren1]
        split
        · next he => rw [← hf q, he, hab]
        · exact hf q
      refine hr rfl (hr rfl (hr rfl ?_))
      intro q
      unfold ren1
      split
      · next he => rw [he]; rfl
      · rfl
    have hr : ∀ {f : QName → QName} {a b : QName}, b ∈ renamed201.map (·.2) → (∀ q, f q = q ∨ f q ∈ renamed201.map (·.2)) →
        ∀ q, (ren1 a b ∘ f) q = q ∨ (ren1 a b ∘ f) q ∈ renamed201.map (·.2) := by
      intro f a b hb hf q
      simp only [Function.comp, ren1]
      split
      · exact Or.inr hb
      · exact hf q
    refine hr (by simp [renamed201]) (hr (by simp [renamed201]) (hr (by simp [renamed201]) ?_))
    intro q
    unfold ren1
    split
    · exact Or.inr (by simp [renamed201])
    · exact Or.inl rfl
  · rw [← h]
    refine ⟨fun c hc ha hq => c4.1 c hc ha ?_, c4.2⟩
    simp only [renamed201, List.map_cons, List.map_nil, List.cons_append, List.nil_append, List.mem_cons] at hq ⊢
    rcases hq with h | h | h | h | h
    · exact Or.inr (Or.inr (Or.inr (Or.inl h)))
    · exact Or.inr (Or.inr (Or.inl h))
    · exact Or.inr (Or.inl h)
    · exact Or.inl h
    · exact Or.inr (Or.inr (Or.inr (Or.inr h)))

theorem fields201_calm {t : Node} (h : ClearOf (renamed201.map (·.1) ++ unwrapped201) mailslot201 t) (hr : RefreshFixed t) :
    translateFields cybox201Translatable t = .ok t := by
  have h0 : ∀ f ∈ [transDNT, transVary, transXRequestedFor, transAuthData, transEncapsulating, transProtoAddrSize, transMailslot],
    ∀ a ∈ f.xpath, a.abs = false ∧ ((a.parent = none ∧ a.tag.resolve f.nsmap ∈ renamed201.map (·.1) ++ unwrapped201) ∨
      ∃ x ∈ mailslot201, a.tag.resolve f.nsmap = x.2 ∧ a.parent.map (XName.resolve f.nsmap) = some x.1) := by decide +kernel
  have hn := fun f hf => translate_nothing (clear_silent (h0 f hf) h)
  simp only [cybox201Translatable, translateFields, foldE, refresh_eq, refresh_idle hr, hn transDNT (by simp), hn transVary (by simp),
    hn transXRequestedFor (by simp), hn transAuthData (by simp), hn transEncapsulating (by simp), hn transProtoAddrSize (by simp),
    hn transMailslot (by simp)]

/-- What the embedded or stand-alone CybOX 2.0.1 updater leaves, apart from schema locations. -/
theorem left_refresh {n : List (String × String)} {sel : List XAlt} (hsel : PlainAlts [] sel ∧ PlainAlts vocabNames sel)
    (hpar : ∀ a ∈ sel, a.parent = none) (hT : ∀ a ∈ sel, a.tag.resolve n ∉ renamed201.map (·.2) ∧ a.tag.resolve n ≠ objName "HTTPSession" "Refresh")
    {o : Options} {t t' : Node} (h : cybox201Update (cybox201Cls n sel) o t = .ok t') (ht : ClearOf unwrapped201 mailslot201 t) :
    VerFixed n sel setVersion21 t' ∧ NsDone (cybox201Cls n sel) t' ∧ RefreshFixed t' ∧ ClearOf (renamed201.map (·.1) ++ unwrapped201) mailslot201 t' ∧
      (∀ rows, StepRows w0 cybox201 rows → o.updateVocabularies = true → VocabsDone rows t' ∧ WellTyped t') ∧
      (o.removeOptionals = true → ∀ c ∈ t'.elems, ¬ EmptyOptional (Named optional21) t' c) := by
  simp only [cybox201Update] at h
  rw [cybox201Versions_eq] at h
  have n1 := ns_done (u := cybox201Cls n sel) (by show ∀ p ∈ (cybox201Cls [] []).updateNsMap, assoc (cybox201Cls [] []).updateNsMap p.2 = none; decide) t
  have k1 : ∀ names L, (∀ q ∈ names, Fresh201 q) → (∀ q ∈ L, Fresh201 q.1 ∧ Fresh201 q.2) → ClearOf names L t →
      ClearOf names L ((cybox201Cls n sel).updateNamespaces [] t) := fun _ _ h1 h2 h3 => clear_ns h1 h2 h3
  generalize (cybox201Cls n sel).updateNamespaces [] t = t0 at h n1 k1
  have r1 := rel_stamped_trans (stamped_schemaloc (cybox201Cls n sel) t0)
    (stamped_versions (m := (cybox201Cls n sel).nsmap) (alts := (cybox201Cls n sel).xpathVersioned) stamped_21 _)
  have v1 : VerFixed n sel setVersion21 _ := ver_done (m := n) hsel.1 setVersion21_keeps set21_twice ((cybox201Cls n sel).updateSchemalocs t0)
  have n2 := ns_rel (u := cybox201Cls n sel) (fun _ _ h => ⟨h.1.1.1, h.1.1.2.1⟩) r1 n1
  have k2 := fun names L h1 h2 h3 => clear_rel (fun _ _ h => ⟨h.1.1.1, h.1.1.2.1⟩) r1 (k1 names L h1 h2 h3)
  rw [show (cybox201Cls n sel).nsmap = n from rfl, show (cybox201Cls n sel).xpathVersioned = sel from rfl] at h n2 k2
  generalize ((cybox201Cls n sel).updateSchemalocs t0).edit (versionEdit n sel setVersion21) = d at h v1 n2 k2
  split at h
  · cases h
  · next d2 h2 =>
    obtain ⟨⟨f, hf, _, rfl⟩, c3⟩ := fields201_refreshed h2 (k2 _ _ (by decide +kernel) (by decide +kernel) ht)
    have v3 := ver_rename hsel.1 hpar hf (fun a ha => (hT a ha).1) (ver_refresh hsel.1 (fun a ha => (hT a ha).2) v1)
    have n3 := ns_rename hf (ns_refresh n2)
    have f3 := fixed_ren hf (refresh_fixed d)
    split at h
    · cases h
    · next d4 h4 =>
      have c4 := carry_same (carry_vocabs (by
        show ∀ v ∈ (cybox201Cls [] []).vocabs, ∀ p ∈ v.terms, p ∈ correctedTerms
        decide) h4)
      have hp : Part d4 t' := mem_optionalsIf h
      have hP : ∀ e e', SameData vocabNames e e' → e'.tag = e.tag ∧ e'.decls = e.decls := fun _ _ h => ⟨h.1, h.2.1⟩
      refine ⟨ver_part hsel.1 hp (ver_rel hsel.2 (fun _ _ hs he => set21_fixed (by decide) hs he) c4 v3), ?_, ?_,
        clear_part hp (clear_rel hP c4 c3), ?_, ?_⟩
      · intro c' hc'
        obtain ⟨c, hc, he, _⟩ := hp c' hc'
        rw [he]
        exact ns_rel hP c4 n3 c hc
      · have f4 := fixed_vocabs (stepRows_matches (w := w0) .cybox201) (stepRows_stable (w := w0) .cybox201) h4 f3
        cases hb : o.removeOptionals with
        | false => rw [hb] at h; cases h; exact f4
        | true =>
          rw [hb, if_pos rfl, show (cybox201Cls n sel).optionals = cybox201Optionals from rfl, optionals_pass] at h
          cases h
          exact fixed_without f4
      · intro rows hrows hb
        exact vocabs_part hp (vocabsIf_done (stepRows_matches hrows) (stepRows_stable hrows) (by simp [cybox201, cybox201Cls]) h4 hb)
      · intro hb
        rw [hb, if_pos rfl, show (cybox201Cls n sel).optionals = cybox201Optionals from rfl, optionals_pass] at h
        cases h
        exact named_clean (gone_named d4)

theorem settled_refresh {n : List (String × String)} {sel : List XAlt} {o : Options} {t : Node} (h1 : LocFixed (cybox201Cls n sel).locTables t)
    (h2 : VerFixed n sel setVersion21 t) (h3 : NsDone (cybox201Cls n sel) t) (h3' : RefreshFixed t) (h4 : ClearOf (renamed201.map (·.1) ++ unwrapped201) mailslot201 t)
    {rows : List VocabRow} (hrows : StepRows w0 cybox201 rows) (h5 : o.updateVocabularies = true → VocabsDone rows t ∧ WellTyped t)
    (h6 : o.removeOptionals = true → ∀ c ∈ t.elems, ¬ EmptyOptional (Named optional21) t c) :
    cybox201Update (cybox201Cls n sel) o t = .ok t := by
  simp only [cybox201Update]
  rw [ns_idle h3, cybox201Versions_eq, loc_idle h1,
    ver_idle (m := (cybox201Cls n sel).nsmap) (alts := (cybox201Cls n sel).xpathVersioned) h2,
    show (cybox201Cls n sel).translatable = cybox201Translatable from rfl, fields201_calm h4 h3']
  have hi := vocabsIf_idle (stepRows_matches hrows) h5
  rw [show cybox201.cls.vocabs = (cybox201Cls n sel).vocabs from rfl] at hi
  simp only [hi]
  cases hb : o.removeOptionals with
  | false => rfl
  | true =>
    simp only [if_true, show (cybox201Cls n sel).optionals = cybox201Optionals from rfl, optionals_pass, Except.ok.injEq]
    refine without_nothing (fun c hc _ => ?_)
    rw [← Bool.not_eq_true, optSel_spec (t := t)]
    exact h6 hb c hc

/-! ## C59 -/

/-- C59 for the CybOX 2.0.1 step after its checks, for documents without the fields whose value the step unwraps; `Refresh` fields are
allowed.
Partial: the second run stops at a `DNT` or `Vary` field (`C59_headers_fails`); mailslot handles are left out. -/
theorem C59_refresh_partial (o : Options) (k k' : Nat) (t : Node) (r : Result)
    (h1 : NoneNamed [objName "HTTPSession" "DNT", objName "HTTPSession" "Vary"] t)
    (h2 : NoneNested [(objName "WinMailslot" "Handle", objName "WinHandle" "Handle")] t)
    (h : stepUpdate cybox201 o false k t = .ok (r, k')) : cybox201.update o r.doc = .ok r.doc := by
  have h := tried h
  have hloc : LocFixed (cybox201Cls Tables.cybox201_nsmap xpathObservables).locTables r.doc :=
    rewriteAll_fixed (stepTables_wordy (w := w0) .cybox201) (by simp) (StepTables.cybox201 (w := w0)) (fixed_one stable_cybox201) h
  obtain ⟨a1, a2, a3, a4, a5, a6⟩ := left_refresh (n := Tables.cybox201_nsmap) (sel := xpathObservables) (by decide) (by decide)
    (by decide +kernel) h ⟨h1, h2⟩
  exact settled_refresh hloc a1 a2 a3 a4 .cybox201 (a5 _ .cybox201) a6

/-- A document with a `Refresh` field that says another data type and has a child. -/
def docRefreshed : Node :=
  cyboxDoc v201 [.elem ⟨objName "HTTPSession" "Refresh", [("p", "urn:p")], [at_ "id" "r", at_ "datatype" "int"], some "5", none⟩
    [el nsURI "Value" [] []]]

/-- The first run changes the sample, the second does not. -/
example : (NoneNamed [objName "HTTPSession" "DNT", objName "HTTPSession" "Vary"] docRefreshed ∧
    NoneNested [(objName "WinMailslot" "Handle", objName "WinHandle" "Handle")] docRefreshed) ∧
    ∃ r, stepUpdate cybox201 o0 false 0 docRefreshed = .ok r ∧ (r.1.doc.elems.map (fun c => (c.e.tag.name, c.e.get? (.plain "datatype"))) =
      [("Observables", none), ("Refresh", some "string")]) :=
  ⟨⟨by unfold NoneNamed; decide +kernel, by unfold NoneNested; decide +kernel⟩, ok_of_eval (by decide +kernel)⟩

end Ramrod

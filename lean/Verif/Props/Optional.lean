import Verif.Lemmas.Optional
import Verif.Lemmas.Errors
import Verif.Props.Versions
/-!
# C22: empty optional elements
-/

namespace Ramrod

open Samples

/-! ## Statement -/

/-- A name of a CybOX object schema. -/
def objName (x n : String) : QName := ⟨some ("http://cybox.mitre.org/objects#" ++ x ++ "Object-2"), n⟩

/-- The elements CybOX 2.1 made optional, as far as the step knows them. -/
def optional21 : List QName :=
  [objName "URI" "Value", objName "DiskPartition" "Partition_ID", objName "DNSCache" "DNS_Entry", objName "DNSQuery" "QName",
    objName "File" "Depth", objName "HTTPSession" "Message_Body", objName "HTTPSession" "Domain_Name",
    objName "LinuxPackage" "Name", objName "Packet" "Destination_Unreachable", objName "Packet" "Error_Msg",
    objName "Packet" "Info_Msg", objName "Packet" "Traceroute", objName "Packet" "Source_Quench",
    objName "Packet" "Redirect_Message", objName "Packet" "Time_Exceeded", objName "Packet" "Echo_Reply",
    objName "Packet" "Echo_Request", objName "Packet" "Timestamp_Request", objName "Packet" "Timestamp_Reply",
    objName "Packet" "Address_Mask", objName "Packet" "Outbound_Packet_Forward_Success",
    objName "Packet" "Outbound_Packet_no_Route", objName "Packet" "Network_Redirect", objName "Packet" "Host_Redirect",
    objName "Packet" "ToS_Host_Redirect", objName "Packet" "ToS_Network_Redirect",
    objName "Packet" "TTL_Exceeded_In_Transit", objName "Packet" "Frag_Reassembly_Time_Exceeded",
    objName "Packet" "Timestamp", objName "Packet" "Receive_Timestamp", objName "Packet" "Transmit_Timestamp",
    objName "Packet" "Address_Mask_Request", objName "Packet" "Address_Mask_Reply", objName "Packet" "IPv6_Addr",
    objName "Packet" "IP_Addr_Prefix", objName "Product" "Product", objName "Product" "Vendor",
    objName "System" "IP_Address", objName "WinComputerAccount" "Delegation", objName "WinComputerAccount" "Bitmask",
    objName "WinComputerAccount" "Service", objName "WinFile" "Size_In_Bytes", objName "WinNetworkShare" "Netname",
    objName "WinPrefetch" "VolumeItem", objName "WinPrefetch" "DeviceItem"]

/-- The elements STIX 1.1 made optional, as far as the step knows them. -/
def optional11 : List QName :=
  [⟨some "http://data-marking.mitre.org/Marking-1", "Controlled_Structure"⟩,
    ⟨some "http://data-marking.mitre.org/Marking-1", "Marking_Structure"⟩]

/-- Named in a list. -/
def Named (names : List QName) (_ : Node) (c : Ctx) : Prop := c.e.tag ∈ names

/-- A field of a generic test mechanism below the root. -/
def InGenericTM (t : Node) (c : Ctx) : Prop := ∃ b ∈ t.elems, b.anc ≠ [] ∧ (∃ i, c.ChildOf i b) ∧
  ∃ p, b.TypedAs p "GenericTestMechanismType" "http://stix.mitre.org/extensions/TestMechanism#Generic-1"

/-- Below the root, listed, and without attributes or text in all its elements.  (The text of an element is what stands
before its first child node.) -/
def EmptyOptional (L : Node → Ctx → Prop) (t : Node) (c : Ctx) : Prop := c.anc ≠ [] ∧ L t c ∧ c.node.All Bare

/-- `t'` is `t` without its empty optional elements. -/
def OptionalsGone (L : Node → Ctx → Prop) (t t' : Node) : Prop :=
  ∃ S, (∀ c ∈ t.elems, S c = true ↔ EmptyOptional L t c) ∧ t' = t.without S

/-- The characters that are not white space. -/
def Node.ink (n : Node) : List Char := n.chars.filter (fun c => !isSpace c)

/-! ## Helpers -/

def alts201 : List (List XAlt) :=
  [[rel "URIObj" "Value"], [rel "DiskPartitionObj" "Partition_ID"],
    [rel "DNSCacheObj" "DNS_Entry"], [rel "DNSQueryObj" "QName"], [rel "FileObj" "Depth"],
    [rel "HTTPSessionObj" "Message_Body", rel "HTTPSessionObj" "Domain_Name"], [rel "LinuxPackageObj" "Name"],
    Tables.packetElements.map (rel "PacketObj"), [rel "ProductObj" "Product", rel "ProductObj" "Vendor"],
    [rel "SystemObj" "IP_Address"], [rel "WinComputerAccountObj" "Delegation", rel "WinComputerAccountObj" "Bitmask",
      rel "WinComputerAccountObj" "Service"], [rel "WinFileObj" "Size_In_Bytes"], [rel "WinNetworkShareObj" "Netname"],
    [rel "WinPrefetchObj" "VolumeItem", rel "WinPrefetchObj" "DeviceItem"]]

theorem optionals_201 : cybox201Optionals =
    alts201.map (fun a => ⟨[], .union a, Tables.cybox201_nsmap, keepEmpty⟩) := by
  simp only [cybox201Optionals, cybox201Finder, alts201, List.map_cons, List.map_nil]

theorem optSel_spec {names : List QName} {t : Node} {c : Ctx} :
    optSel names c = true ↔ EmptyOptional (Named names) t c := by
  unfold optSel EmptyOptional Named
  simp [isEmptyElem_iff]

theorem optionals_pass (t : Node) :
    removeOptionals cybox201Optionals t = .ok (t.without (optSel optional21)) := by
  have e : List.flatMap (altNames Tables.cybox201_nsmap) alts201 = optional21 := by decide +kernel
  rw [optionals_201, removeOptionals_union _ t (by decide +kernel), e]

theorem optionals_pass11 (w : World) (t : Node) :
    removeOptionals (stix101Cls w).optionals t = .ok (t.without (optSel optional11)) := by
  have := removeOptionals_union (m := Tables.stix101_nsmap)
    [[rel "marking" "Controlled_Structure", rel "marking" "Marking_Structure"]] t (by decide +kernel)
  have e : List.flatMap (altNames Tables.stix101_nsmap)
    [[rel "marking" "Controlled_Structure", rel "marking" "Marking_Structure"]] = optional11 := by decide +kernel
  rw [e] at this
  exact this

theorem gone_named {names : List QName} (t : Node) : OptionalsGone (Named names) t (t.without (optSel names)) :=
  ⟨_, fun _ _ => optSel_spec, rfl⟩

/-! ## Switching the option -/

theorem step_option {w : World} {u : Updater} (hu : Registered w u) {R : Node → Node → Prop}
    (hc : ∀ (o : Options) b t, u.check { o with removeOptionals := b } t = u.check o t)
    (hok : ∀ (o : Options) t t', u.update { o with removeOptionals := true } t = .ok t' →
      ∃ d, u.update { o with removeOptionals := false } t = .ok d ∧ R d t')
    {o : Options} {force : Bool} {k k' : Nat} {t : Node} {r : Result}
    (h : stepUpdate u { o with removeOptionals := true } force k t = .ok (r, k')) :
    ∃ d, stepUpdate u { o with removeOptionals := false } force k t = .ok (⟨d, r.removed, r.remapped⟩, k') ∧ R d r.doc := by
  unfold stepUpdate tryUpdate at h ⊢
  rw [hc] at h ⊢
  cases hck : u.check o t with
  | ok a =>
    rw [hck] at h
    simp only at h ⊢
    cases hu1 : u.update { o with removeOptionals := true } t with
    | ok t' =>
      rw [hu1] at h
      obtain ⟨d, h1, h2⟩ := hok o t t' hu1
      cases h
      rw [h1]
      exact ⟨d, rfl, h2⟩
    | error x =>
      rw [hu1] at h
      have := noRefuse_update hu _ _ x hu1
      simp [this] at h
  | error x =>
    rw [hck] at h
    simp only at h ⊢
    by_cases hx : (refusable x && force) = true
    · rw [if_pos hx] at h ⊢
      unfold forceUpdate at h ⊢
      rw [show clean u { o with removeOptionals := false } k t = clean u { o with removeOptionals := true } k t from rfl]
      cases hcl : clean u { o with removeOptionals := true } k t with
      | error y => rw [hcl] at h; cases h
      | ok p =>
        obtain ⟨r0, k0⟩ := p
        rw [hcl] at h
        simp only at h ⊢
        cases hu1 : u.update { o with removeOptionals := true } r0.doc with
        | error y => rw [hu1] at h; cases h
        | ok t' =>
          rw [hu1] at h
          obtain ⟨d, h1, h2⟩ := hok o _ _ hu1
          cases h
          rw [h1]
          exact ⟨d, rfl, h2⟩
    · rw [if_neg hx] at h; cases h

theorem cybox201_option {u : Cls} (hopt : u.optionals = cybox201Optionals) (o : Options) (t : Node) :
    cybox201Update u { o with removeOptionals := true } t =
      (cybox201Update u { o with removeOptionals := false } t).map (fun d => d.without (optSel optional21)) := by
  unfold cybox201Update
  simp only [hopt]
  split
  · rfl
  · split
    · next x hv => rw [hv]; rfl
    · next d hv => rw [hv]; simp only [if_true, Bool.false_eq_true, if_false, optionals_pass]; rfl

theorem genericTM_find {t : Node} {l : List Ctx} (h : optionalGenericTM.find t = .ok l) :
    ∀ c, c ∈ l ↔ c ∈ t.elems ∧ EmptyOptional InGenericTM t c := by
  unfold Finder.find Finder.contexts at h
  rw [if_neg (by simp [optionalGenericTM])] at h
  cases hr : filterE optionalGenericTM.isContext (getTypedNodes t) with
  | error x => rw [hr] at h; cases h
  | ok r =>
    rw [hr] at h
    simp only [Except.ok.injEq] at h
    subst h
    have hctx : ∀ b, b ∈ r ↔ b ∈ t.elems ∧ b.anc ≠ [] ∧ ∃ p, b.TypedAs p "GenericTestMechanismType" nsGenericTM := by
      intro b
      rw [filterE_mem hr]
      constructor
      · rintro ⟨h1, h2⟩
        obtain ⟨h3, _⟩ := List.mem_filter.1 h1
        obtain ⟨h4, h5⟩ := mem_descs_iff.1 h3
        refine ⟨h4, h5, ?_⟩
        obtain ⟨p, ty', ns', h⟩ := isContext_ok h2
        rw [isContext_typed h] at h2
        simp only [optionalGenericTM, assoc, Except.ok.injEq, decide_eq_true_eq] at h2
        split at h2
        · next he => cases h2; subst he; exact ⟨p, h⟩
        · cases h2
      · rintro ⟨h1, h2, p, h⟩
        have hm : b ∈ getTypedNodes t := by
          refine List.mem_filter.2 ⟨mem_descs_iff.2 ⟨h1, h2⟩, ?_⟩
          obtain ⟨s, hs, _⟩ := h
          rw [Elem.has_eq, show b.e.get? tagXsiType = some s from hs]; rfl
        refine ⟨hm, ?_⟩
        rw [isContext_typed h]
        simp [optionalGenericTM, assoc]
    intro c
    simp only [List.mem_flatMap, optionalGenericTM, XPath.eval, keepEmpty, List.mem_filter, isEmptyElem_iff]
    constructor
    · rintro ⟨b, hb, hc, he⟩
      obtain ⟨h1, h2, h3⟩ := (hctx b).1 hb
      obtain ⟨i, e, ks, h4, h5⟩ := mem_childCtxs.1 hc
      have hm : c ∈ t.elems := by
        rw [h5, Nat.zero_add]; exact walk_child t b h1 i e ks h4
      refine ⟨hm, by rw [h5]; simp, ⟨b, h1, h2, ⟨i, ?_⟩, h3⟩, he⟩
      rw [h5]
      exact ⟨by simp, rfl, rfl, h4⟩
    · rintro ⟨hm, hr, ⟨b, h1, h2, ⟨i, hi⟩, h3⟩, he⟩
      refine ⟨b, (hctx b).2 ⟨h1, h2, h3⟩, mem_childCtxs.2 ⟨i, c.e, c.kids, hi.2.2.2, ?_⟩, he⟩
      obtain ⟨h4, h5, h6, _⟩ := hi
      cases c
      simp only at h4 h5 h6 ⊢
      rw [h4, h5, h6, Nat.zero_add]

theorem gone_positions {t : Node} {l : List Ctx} {L : Node → Ctx → Prop}
    (h : ∀ c, c ∈ l ↔ c ∈ t.elems ∧ EmptyOptional L t c) : OptionalsGone L t (t.removeAll (l.map (·.pos))) := by
  refine ⟨_, fun c hc => ?_, removeAll_without _ _⟩
  rw [decide_eq_true_iff, List.mem_map]
  constructor
  · rintro ⟨d, hd, hp⟩
    have := (h d).1 hd
    rw [elems_pos_inj this.1 hc hp] at this
    exact this.2
  · intro he
    exact ⟨c, (h c).2 ⟨hc, he⟩, rfl⟩

theorem stix11_option {w : World} {o : Options} {t t' : Node}
    (h : stix11Update w { o with removeOptionals := true } t = .ok t') :
    ∃ d, stix11Update w { o with removeOptionals := false } t = .ok d ∧ OptionalsGone InGenericTM d t' := by
  unfold stix11Update at h ⊢
  simp only at h ⊢
  split at h
  · cases h
  · next a ha =>
    split at h
    · cases h
    · next b hb =>
      simp only [if_true] at h
      refine ⟨b, by rw [hb]; rfl, ?_⟩
      simp only [stix11Cls, removeOptionals, foldE] at h
      split at h
      · cases h
      · next x hx =>
        cases hf : optionalGenericTM.find b with
        | error y => rw [hf] at hx; cases hx
        | ok l =>
          rw [hf] at hx
          cases hx
          cases h
          exact gone_positions (genericTM_find hf)

theorem bare_back {t : Node} {S : Ctx → Bool} {L : Node → Ctx → Prop}
    (hS : ∀ c ∈ t.elems, S c = true ↔ EmptyOptional L t c) {b : Ctx} (hb : b ∈ t.elems)
    (h : Node.All Bare (.elem b.e (Node.pruneCtxs S b.pos 0 b.env (b.e.tag :: b.anc) b.kids))) : b.node.All Bare := by
  rw [← isEmptyElem_iff] at h ⊢
  simp only [Ctx.node, Node.isEmptyElem] at h ⊢
  rw [areEmpty_prunes] at h
  · exact h
  · intro d hd hs
    rw [isEmptyElem_iff]
    exact ((hS d (elems_below hb hd)).1 hs).2.2

theorem named_clean {names : List QName} {t t' : Node} (h : OptionalsGone (Named names) t t') :
    ∀ c ∈ t'.elems, ¬ EmptyOptional (Named names) t' c := by
  obtain ⟨S, hS, rfl⟩ := h
  rintro c hc ⟨h1, h2, h3⟩
  obtain ⟨b, hb, e1, e2, e3, e4, e5⟩ := mem_without hc
  have hr : b.anc ≠ [] := e3 ▸ h1
  have hn := e5 hr
  unfold Ctx.node at h3
  rw [e1, e4] at h3
  rw [(hS b hb).2 ⟨hr, by unfold Named; rw [← e1]; exact h2, bare_back hS hb h3⟩] at hn
  cases hn

theorem genericTM_clean {t t' : Node} (h : OptionalsGone InGenericTM t t') :
    ∀ c ∈ t'.elems, ¬ EmptyOptional InGenericTM t' c := by
  obtain ⟨S, hS, rfl⟩ := h
  rintro c hc ⟨h1, ⟨b', hb', h4, ⟨i, hi⟩, p, hp⟩, h3⟩
  obtain ⟨b, hb, e1, e2, e3, e4, e5⟩ := mem_without hb'
  have hk : c.node ∈ b'.kids := List.mem_of_getElem? hi.2.2.2
  rw [e4] at hk
  unfold Ctx.node at hk h3
  obtain ⟨j, es, g1, g2, g3⟩ := mem_pruneCtxs hk
  rw [Nat.zero_add] at g2 g3
  have hd := walk_child t b hb j c.e es g1
  have hb3 := bare_back hS (b := ⟨j :: b.pos, c.e.decls ++ b.env, b.e.tag :: b.anc, c.e, es⟩) hd
    (by show Node.All Bare (.elem c.e _); rw [← g3]; exact h3)
  rw [(hS _ hd).2 ⟨by simp, ⟨b, hb, e3 ▸ h4, ⟨j, rfl, rfl, rfl, g1⟩, p, by
    obtain ⟨v, v1, v2, v3⟩ := hp
    exact ⟨v, e1 ▸ v1, v2, e2 ▸ v3⟩⟩, hb3⟩] at g2
  cases g2

/-! ## Theorems -/

/-- C22 for CybOX: switching the option on removes from the result exactly the empty listed elements (with what stands
after them), and none is left.
Partial: an element counts as empty although there is text after an inner comment or element (`C22_inner_fails`), and the
text after a removed element goes with it (`C22_tail_fails`). -/
theorem C22_cybox_partial (o : Options) (force : Bool) (k k' : Nat) (t : Node) (r : Result)
    (h : stepUpdate cybox201 { o with removeOptionals := true } force k t = .ok (r, k')) :
    ∃ d, stepUpdate cybox201 { o with removeOptionals := false } force k t = .ok (⟨d, r.removed, r.remapped⟩, k') ∧
      OptionalsGone (Named optional21) d r.doc ∧ ∀ c ∈ r.doc.elems, ¬ EmptyOptional (Named optional21) r.doc c := by
  obtain ⟨d, h1, h2⟩ := step_option (w := w0) (u := cybox201) .cybox201 (R := OptionalsGone (Named optional21))
    (fun o b t => rfl) (fun o t t' h => by
      have h' : cybox201Update _ { o with removeOptionals := true } t = .ok t' := h
      rw [cybox201_option rfl] at h'
      show ∃ d, cybox201Update _ { o with removeOptionals := false } t = .ok d ∧ _
      cases hd : cybox201Update (cybox201Cls Tables.cybox201_nsmap xpathObservables) { o with removeOptionals := false } t with
      | error x => rw [hd] at h'; cases h'
      | ok d =>
        rw [hd] at h'
        cases h'
        exact ⟨d, rfl, gone_named d⟩) h
  exact ⟨d, h1, h2, named_clean h2⟩

/-- A CybOX 2.0.1 document with an empty file depth (holding an empty element and blanks) and a non-empty one. -/
def docDepth : Node :=
  cyboxDoc v201 [el "http://cybox.mitre.org/objects#FileObject-2" "Depth" [] [el "urn:a" "x" [] []] (some " \n"),
    el "http://cybox.mitre.org/objects#FileObject-2" "Depth" [] [] (some "3"),
    el "http://cybox.mitre.org/objects#FileObject-2" "Depth" [at_ "id" "1"] []]

example : ∃ r, stepUpdate cybox201 o0 false 0 docDepth = .ok r ∧
    r.1.doc = cyboxDoc [at_ "cybox_major_version" "2", at_ "cybox_minor_version" "1"]
      [el "http://cybox.mitre.org/objects#FileObject-2" "Depth" [] [] (some "3"),
        el "http://cybox.mitre.org/objects#FileObject-2" "Depth" [at_ "id" "1"] []] :=
  ok_of_eval (by decide +kernel)

/-- C22 for the STIX 1.1 step: as `C22_cybox_partial`, for the fields of generic test mechanisms. -/
theorem C22_stix11_partial (w : World) (o : Options) (force : Bool) (k k' : Nat) (t : Node) (r : Result)
    (h : stepUpdate (stix11 w) { o with removeOptionals := true } force k t = .ok (r, k')) :
    ∃ d, stepUpdate (stix11 w) { o with removeOptionals := false } force k t = .ok (⟨d, r.removed, r.remapped⟩, k') ∧
      OptionalsGone InGenericTM d r.doc ∧ ∀ c ∈ r.doc.elems, ¬ EmptyOptional InGenericTM r.doc c := by
  obtain ⟨d, h1, h2⟩ := step_option (w := w) (u := stix11 w) .stix11 (R := OptionalsGone InGenericTM)
    (fun o b t => rfl) (fun o t t' h => stix11_option h) h
  exact ⟨d, h1, h2, genericTM_clean h2⟩

/-- A 1.1 package with a generic test mechanism: one empty field, one with text. -/
def docGeneric : Node :=
  stixDoc "1.1" [.elem ⟨⟨some nsIndicator, "Test_Mechanism"⟩, [(some "g", nsGenericTM)],
    [xsiType "g:GenericTestMechanismType"], none, none⟩
      [el nsGenericTM "Type" [] [], el nsGenericTM "Specification" [] [] (some "x")]]

example : ∃ r, stepUpdate (stix11 w0) o0 false 0 docGeneric = .ok r ∧
    r.1.doc = stixDoc "1.1.1" [.elem ⟨⟨some nsIndicator, "Test_Mechanism"⟩, [(some "g", nsGenericTM)],
      [xsiType "g:GenericTestMechanismType"], none, none⟩ [el nsGenericTM "Specification" [] [] (some "x")]] :=
  ok_of_eval (by decide +kernel)

/-- What the STIX 1.0.1 step does between its two passes (ramrod/stix/stix_1_0_1.py:553-562). -/
def stix101Between (w : World) (o : Options) (t : Node) : Except Err Node :=
  match translateFields (stix101Cls w).translatable (stixUpdateVersions (stix101Cls w) "2.1" "1.1"
      ((stix101Cls w).updateSchemalocs ((stix101Cls w).updateNamespaces [] t))) with
  | .error x => .error x
  | .ok t => if o.updateVocabularies then updateVocabs (stix101Cls w).vocabs t else .ok t

/-- C22 for the STIX 1.0.1 step: there are two passes, one at the end of the CybOX part and one at the end; each removes
exactly the empty elements of its list.
Partial: see `C22_cybox_partial`; and nothing is said about what the part between the passes makes empty. -/
theorem C22_stix101_partial (w : World) (o : Options) (t t' : Node)
    (h : (stix101 w).update { o with removeOptionals := true } t = .ok t') :
    ∃ a b c, cybox201Update stix101Cybox { o with removeOptionals := false } t = .ok a ∧
      OptionalsGone (Named optional21) a b ∧ stix101Between w o b = .ok c ∧ OptionalsGone (Named optional11) c t' ∧
      (∀ x ∈ b.elems, ¬ EmptyOptional (Named optional21) b x) ∧ ∀ x ∈ t'.elems, ¬ EmptyOptional (Named optional11) t' x := by
  have h' : stix101Update w { o with removeOptionals := true } t = .ok t' := h
  unfold stix101Update at h'
  rw [cybox201_option rfl] at h'
  cases ha : cybox201Update stix101Cybox { o with removeOptionals := false } t with
  | error x => rw [ha] at h'; cases h'
  | ok a =>
    rw [ha] at h'
    simp only [Except.map, if_true] at h'
    cases ht : translateFields (stix101Cls w).translatable (stixUpdateVersions (stix101Cls w) "2.1" "1.1"
      ((stix101Cls w).updateSchemalocs ((stix101Cls w).updateNamespaces [] (a.without (optSel optional21))))) with
    | error x => rw [ht] at h'; cases h'
    | ok b =>
      rw [ht] at h'
      simp only at h'
      cases hv : (if o.updateVocabularies then updateVocabs (stix101Cls w).vocabs b else .ok b) with
      | error x => rw [hv] at h'; cases h'
      | ok c =>
        rw [hv] at h'
        simp only [optionals_pass11, Except.ok.injEq] at h'
        refine ⟨a, _, c, rfl, gone_named a, ?_, h' ▸ gone_named c, named_clean (gone_named a),
          named_clean (h' ▸ gone_named c)⟩
        unfold stix101Between
        rw [ht]
        exact hv

example : ∃ t', (stix101 w0).update o0 (stixDoc "1.0.1" [el "http://data-marking.mitre.org/Marking-1" "Marking" []
      [el "http://data-marking.mitre.org/Marking-1" "Controlled_Structure" [] [],
        el "http://data-marking.mitre.org/Marking-1" "Marking_Structure" [] [] (some "m")],
      el "http://cybox.mitre.org/objects#FileObject-2" "Depth" [] []]) = .ok t' ∧
    t' = stixDoc "1.1" [el "http://data-marking.mitre.org/Marking-1" "Marking" []
        [el "http://data-marking.mitre.org/Marking-1" "Marking_Structure" [] [] (some "m")]] :=
  ok_of_eval (by decide +kernel)

/-- C22 for the steps without optional elements: the option makes no difference. -/
theorem C22_other (u : Updater) (hu : u = cybox20 ∨ u = stix10 ∨ u = stix111 ∨ u = stix12)
    (o : Options) (b : Bool) (force : Bool) (k : Nat) (t : Node) :
    stepUpdate u { o with removeOptionals := b } force k t = stepUpdate u o force k t := by
  rcases hu with rfl | rfl | rfl | rfl <;> rfl

/-- C22, text: if there is no text inside or after the removed elements, no character other than white space is lost. -/
theorem C22_text_partial (L : Node → Ctx → Prop) (t t' : Node) (h : OptionalsGone L t t')
    (hq : ∀ c ∈ t.elems, EmptyOptional L t c → c.node.ink = []) : t'.ink = t.ink := by
  obtain ⟨S, hS, rfl⟩ := h
  exact chars_prune t (fun c hc hs => hq c hc ((hS c hc).1 hs))

example : docDepth.ink = ['3'] ∧ (docDepth.without (optSel optional21)).ink = ['3'] := by decide +kernel

/-- An empty file depth followed by text. -/
def docDepthTail : Node :=
  cyboxDoc v201 [.elem ⟨⟨some "http://cybox.mitre.org/objects#FileObject-2", "Depth"⟩, [], [], none, some "after"⟩ []]

/-- C22 fails for text after a removed element. -/
theorem C22_tail_fails : ∃ r, stepUpdate cybox201 o0 false 0 docDepthTail = .ok r ∧
    docDepthTail.ink = "after".toList ∧ r.1.doc.ink = [] :=
  ok_of_eval (by decide +kernel)

/-- A DNS query name with a comment before its text. -/
def docInner : Node :=
  cyboxDoc v201 [el "http://cybox.mitre.org/objects#DNSQueryObject-2" "QName" [] [.other "<!---->" (some "example.com")]]

/-- C22 fails for text after a comment: an element that has text is removed as empty. -/
theorem C22_inner_fails : ∃ r, stepUpdate cybox201 o0 false 0 docInner = .ok r ∧
    docInner.ink = "example.com".toList ∧ r.1.doc = cyboxDoc [at_ "cybox_major_version" "2", at_ "cybox_minor_version" "1"] [] :=
  ok_of_eval (by decide +kernel)

end Ramrod

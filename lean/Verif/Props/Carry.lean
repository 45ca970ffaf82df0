import Verif.Props.Frame
/-!
# Options off: C21
-/

namespace Ramrod

open Samples

/-! ## Specification vocabulary -/

/-- What a step may do to elements besides changing attributes: rebuild the fields named by a tag (and possibly the tag
of the parent), rename fields, move elements to another namespace, and rewrite list texts. -/
structure StepFrame where
  rebuilt : List (Option QName × QName)
  renamed : List (QName × QName)
  moved : List (String × String)
  lists : Bool

/-- Tags from an element up to the root. -/
def Ctx.path (c : Ctx) : List QName := c.e.tag :: c.anc

/-- Is the element, or an element around it, one of the listed fields? -/
def inside (T : List (Option QName × QName)) : List QName → Bool
  | [] => false
  | q :: qs => T.any (fun x => decide (x.2 = q) && (x.1.isNone || decide (x.1 = qs.head?))) || inside T qs

/-- The same tag, up to the renamings of the step. -/
def StepFrame.TagOk (f : StepFrame) (q q' : QName) : Prop :=
  q' = q ∨ (q, q') ∈ f.renamed ∨ ∃ x ∈ f.moved, q.ns = some x.1 ∧ q' = ⟨some x.2, q.name⟩

/-- Tag by tag. -/
def StepFrame.PathOk (f : StepFrame) : List QName → List QName → Prop
  | [], [] => True
  | q :: qs, q' :: qs' => f.TagOk q q' ∧ f.PathOk qs qs'
  | _, _ => False

/-- The CybOX object properties. -/
def propertiesTag : QName := ⟨some "http://cybox.mitre.org/cybox-2", "Properties"⟩

/-- The step does not rewrite the text of the element: the element is not inside object properties whose lists are
rewritten, and it is not a moved element with children. -/
def StepFrame.TextSafe (f : StepFrame) (c : Ctx) : Prop :=
  (f.lists = true → propertiesTag ∉ c.anc) ∧
  (c.kids.length = 0 ∨ ∀ n, c.e.tag.ns = some n → n ∉ f.moved.map (·.1))

/-- The vocabulary attributes. -/
def vocabAttrs : List QName :=
  [⟨some "http://www.w3.org/2001/XMLSchema-instance", "type"⟩, ⟨none, "vocab_name"⟩, ⟨none, "vocab_reference"⟩]

/-- `c'` is the same element as `c` after the step: same place, same tags around it up to renaming, as many children.
With `v`, also the same vocabulary attributes and (where the step rewrites no text) the same text. -/
def StepFrame.Same (f : StepFrame) (v : Bool) (c c' : Ctx) : Prop :=
  c'.pos = c.pos ∧ f.PathOk c.path c'.path ∧ c'.kids.length = c.kids.length ∧
  (v = true → (∀ k ∈ vocabAttrs, c'.e.get? k = c.e.get? k) ∧ (f.TextSafe c → c'.e.text = c.e.text))

/-- Every element outside the rebuilt fields is still there. -/
def StepFrame.Carries (f : StepFrame) (v : Bool) (t t' : Node) : Prop :=
  ∀ c ∈ t.elems, inside f.rebuilt c.path = false → ∃ c' ∈ t'.elems, f.Same v c c'

def nsHTTP : String := "http://cybox.mitre.org/objects#HTTPSessionObject-2"
def nsPkt : String := "http://cybox.mitre.org/objects#PacketObject-2"
def nsMail : String := "http://cybox.mitre.org/objects#WinMailslotObject-2"
def nsStixCommon : String := "http://stix.mitre.org/common-1"

/-- Attribute-only steps; `lists` for those that rewrite CybOX lists. -/
def frameAttr (lists : Bool) : StepFrame := ⟨[], [], [], lists⟩
/-- CybOX 2.0.1 to 2.1. -/
def frame201 : StepFrame where
  rebuilt := [(none, ⟨some nsHTTP, "DNT"⟩), (none, ⟨some nsHTTP, "Vary"⟩), (none, ⟨some nsHTTP, "Refresh"⟩),
    (none, ⟨some nsMail, "Handle"⟩)]
  renamed := [(⟨some nsHTTP, "X_Requested_For"⟩, ⟨some nsHTTP, "X_Forwarded_For"⟩),
    (⟨some nsPkt, "Authenication_Data"⟩, ⟨some nsPkt, "Authentication_Data"⟩),
    (⟨some nsPkt, "Excapsulating_Security_Payload"⟩, ⟨some nsPkt, "Encapsulating_Security_Payload"⟩),
    (⟨some nsPkt, "Protol_Addr_Size"⟩, ⟨some nsPkt, "Proto_Addr_Size"⟩)]
  moved := [("http://cybox.mitre.org/objects#WinDriverObject-2", "http://cybox.mitre.org/objects#WinDriverObject-3")]
  lists := false
/-- STIX 1.0.1 to 1.1 with its CybOX content. -/
def frame101 : StepFrame := { frame201 with
  rebuilt := frame201.rebuilt ++ [(none, ⟨some nsStixCommon, "Contributors"⟩),
    (some ⟨some "http://stix.mitre.org/TTP-1", "Exploit_Targets"⟩, ⟨some nsStixCommon, "Exploit_Target"⟩)] }
/-- Elements whose `stixCommon:Source` child is rebuilt by the STIX 1.1 step. -/
def sourceHolders : List QName :=
  [⟨some "http://stix.mitre.org/Campaign-1", "Confidence"⟩, ⟨some "http://stix.mitre.org/CourseOfAction-1", "Applicability_Confidence"⟩,
   ⟨some "http://stix.mitre.org/Incident-1", "Confidence"⟩, ⟨some "http://stix.mitre.org/Indicator-2", "Confidence"⟩,
   ⟨some nsStixCommon, "Confidence_Assertion"⟩, ⟨some nsStixCommon, "Confidence"⟩,
   ⟨some "http://stix.mitre.org/ThreatActor-1", "Confidence"⟩, ⟨some "http://stix.mitre.org/Campaign-1", "Intended_Effect"⟩,
   ⟨some "http://stix.mitre.org/CourseOfAction-1", "Cost"⟩, ⟨some "http://stix.mitre.org/CourseOfAction-1", "Efficacy"⟩,
   ⟨some "http://stix.mitre.org/Incident-1", "Intended_Effect"⟩, ⟨some "http://stix.mitre.org/Indicator-2", "Likely_Impact"⟩,
   ⟨some "http://stix.mitre.org/Indicator-2", "Efficacy"⟩, ⟨some "http://stix.mitre.org/ThreatActor-1", "Type"⟩,
   ⟨some "http://stix.mitre.org/ThreatActor-1", "Motivation"⟩, ⟨some "http://stix.mitre.org/ThreatActor-1", "Sophistication"⟩,
   ⟨some "http://stix.mitre.org/ThreatActor-1", "Intended_Effect"⟩,
   ⟨some "http://stix.mitre.org/ThreatActor-1", "Planning_And_Operational_Support"⟩,
   ⟨some "http://stix.mitre.org/TTP-1", "Intended_Effect"⟩]
/-- STIX 1.1 to 1.1.1. -/
def frame11 : StepFrame where
  rebuilt := sourceHolders.map (fun q => (some q, ⟨some nsStixCommon, "Source"⟩)) ++
    [(some ⟨some "http://stix.mitre.org/Indicator-2", "Sighting"⟩, ⟨some "http://stix.mitre.org/Indicator-2", "Source"⟩),
     (some ⟨some "http://stix.mitre.org/Indicator-2", "Related_Campaigns"⟩,
       ⟨some "http://stix.mitre.org/Indicator-2", "Related_Campaign"⟩)]
  renamed := []
  moved := []
  lists := false
/-- STIX 1.2 to 1.2.1: elements move to the OASIS namespaces. -/
def frame12 : StepFrame := ⟨[], [], Tables.stix12_updateNsMap, false⟩

/-- The frame of each step. -/
inductive FrameOf (w : World) : Updater → StepFrame → Prop
  | cybox20 : FrameOf w cybox20 (frameAttr true)
  | cybox201 : FrameOf w cybox201 frame201
  | stix10 : FrameOf w stix10 (frameAttr true)
  | stix101 : FrameOf w (stix101 w) frame101
  | stix11 : FrameOf w (stix11 w) frame11
  | stix111 : FrameOf w stix111 (frameAttr false)
  | stix12 : FrameOf w stix12 frame12

/-! ## Composition -/

/-- New tags of the step are not themselves subject to it. -/
structure StepFrame.Ok (f : StepFrame) : Prop where
  renamed_tags : ∀ p ∈ f.renamed, p.2 ∉ f.renamed.map (·.1) ∧ p.2 ≠ propertiesTag ∧
    (∀ x ∈ f.rebuilt, x.2 ≠ p.2 ∧ x.1 ≠ some p.2) ∧ ∀ x ∈ f.moved, p.2.ns ≠ some x.1
  moved_tags : ∀ x ∈ f.moved, x.2 ∉ f.moved.map (·.1) ∧ propertiesTag.ns ≠ some x.2 ∧
    (∀ y ∈ f.rebuilt, y.2.ns ≠ some x.2 ∧ (∀ q, y.1 = some q → q.ns ≠ some x.2)) ∧ ∀ p ∈ f.renamed, p.1.ns ≠ some x.2

theorem StepFrame.TagOk.trans {f : StepFrame} (hf : f.Ok) {a b c : QName} (h : f.TagOk a b) (h' : f.TagOk b c) :
    f.TagOk a c := by
  rcases h with rfl | h | ⟨x, hx, h1, rfl⟩
  · exact h'
  · rcases h' with rfl | h' | ⟨y, hy, h2, rfl⟩
    · exact Or.inr (Or.inl h)
    · exact absurd (List.mem_map.2 ⟨_, h', rfl⟩) (hf.renamed_tags _ h).1
    · exact absurd h2 ((hf.renamed_tags _ h).2.2.2 y hy)
  · rcases h' with rfl | h' | ⟨y, hy, h2, rfl⟩
    · exact Or.inr (Or.inr ⟨x, hx, h1, rfl⟩)
    · exact absurd rfl ((hf.moved_tags x hx).2.2.2 _ h')
    · simp only [Option.some.injEq] at h2
      exact absurd (List.mem_map.2 ⟨y, hy, h2.symm⟩) (hf.moved_tags x hx).1

theorem pathOk_trans {f : StepFrame} (hf : f.Ok) : ∀ {a b c : List QName}, f.PathOk a b → f.PathOk b c → f.PathOk a c
  | [], [], [], _, _ => trivial
  | _ :: _, _ :: _, _ :: _, h, h' => ⟨h.1.trans hf h'.1, pathOk_trans hf h.2 h'.2⟩
  | [], _ :: _, _, h, _ => h.elim
  | _ :: _, [], _, h, _ => h.elim
  | [], [], _ :: _, _, h => h.elim
  | _ :: _, _ :: _, [], _, h => h.elim

theorem pathOk_refl (f : StepFrame) : ∀ a : List QName, f.PathOk a a
  | [] => trivial
  | _ :: qs => ⟨Or.inl rfl, pathOk_refl f qs⟩

theorem pathOk_length {f : StepFrame} : ∀ {a b : List QName}, f.PathOk a b → b.length = a.length
  | [], [], _ => rfl
  | _ :: _, _ :: _, h => by simp [pathOk_length h.2]
  | [], _ :: _, h => h.elim
  | _ :: _, [], h => h.elim

/-- A tag that is neither the result of a renaming nor in a target namespace. -/
theorem tagOk_fixed {f : StepFrame} {q q' : QName} (h : f.TagOk q q') (h1 : ∀ p ∈ f.renamed, q' ≠ p.2)
    (h2 : ∀ x ∈ f.moved, q'.ns ≠ some x.2) : q' = q := by
  rcases h with rfl | h | ⟨x, hx, _, rfl⟩
  · rfl
  · exact absurd rfl (h1 _ h)
  · exact absurd rfl (h2 x hx)

theorem pathOk_head {f : StepFrame} {a b : List QName} (h : f.PathOk a b) {q : QName} (hq : b.head? = some q)
    (h1 : ∀ p ∈ f.renamed, q ≠ p.2) (h2 : ∀ x ∈ f.moved, q.ns ≠ some x.2) : a.head? = some q := by
  match a, b, h with
  | [], [], _ => cases hq
  | x :: _, y :: _, h =>
    simp only [List.head?_cons, Option.some.injEq] at hq ⊢
    subst hq
    exact (tagOk_fixed h.1 h1 h2).symm

theorem pathOk_inside {f : StepFrame} (hf : f.Ok) : ∀ {a b : List QName}, f.PathOk a b → inside f.rebuilt a = false →
    inside f.rebuilt b = false
  | [], [], _, _ => rfl
  | [], _ :: _, h, _ => h.elim
  | _ :: _, [], h, _ => h.elim
  | q :: qs, q' :: qs', h, hi => by
    simp only [inside, Bool.or_eq_false_iff] at hi ⊢
    refine ⟨?_, pathOk_inside hf h.2 hi.2⟩
    cases hb : f.rebuilt.any (fun x => decide (x.2 = q') && (x.1.isNone || decide (x.1 = qs'.head?))) with
    | false => rfl
    | true =>
      exfalso
      obtain ⟨x, hx, hx'⟩ := List.any_eq_true.1 hb
      simp only [Bool.and_eq_true, decide_eq_true_eq, Bool.or_eq_true] at hx'
      obtain ⟨e1, e2⟩ := hx'
      have hq : q' = q := tagOk_fixed h.1 (fun p hp e => ((hf.renamed_tags p hp).2.2.1 x hx).1 (e1.trans e))
        (fun y hy e => ((hf.moved_tags y hy).2.2.1 x hx).1 (by rw [e1]; exact e))
      have : f.rebuilt.any (fun x => decide (x.2 = q) && (x.1.isNone || decide (x.1 = qs.head?))) = true := by
        refine List.any_eq_true.2 ⟨x, hx, ?_⟩
        simp only [Bool.and_eq_true, decide_eq_true_eq, Bool.or_eq_true]
        refine ⟨e1.trans hq, ?_⟩
        rcases e2 with e2 | e2
        · exact Or.inl e2
        · cases hp : x.1 with
          | none => exact Or.inl rfl
          | some p =>
            refine Or.inr ?_
            rw [hp] at e2
            exact (pathOk_head h.2 e2.symm (fun r hr e => ((hf.renamed_tags r hr).2.2.1 x hx).2 (by rw [hp, e]))
              (fun y hy e => ((hf.moved_tags y hy).2.2.1 x hx).2 p hp e)).symm
      rw [this] at hi
      exact absurd hi.1 (by decide)

theorem pathOk_props {f : StepFrame} (hf : f.Ok) : ∀ {a b : List QName}, f.PathOk a b → propertiesTag ∈ b → propertiesTag ∈ a
  | [], [], _, h => h
  | [], _ :: _, h, _ => h.elim
  | _ :: _, [], h, _ => h.elim
  | q :: qs, q' :: qs', h, hi => by
    rcases List.mem_cons.1 hi with e | hi
    · have := tagOk_fixed h.1 (fun p hp e' => (hf.renamed_tags p hp).2.1 (e'.symm.trans e.symm))
        (fun y hy e' => (hf.moved_tags y hy).2.1 (by rw [e]; exact e'))
      rw [e, this]; simp
    · exact List.mem_cons_of_mem _ (pathOk_props hf h.2 hi)

theorem textSafe_same {f : StepFrame} (hf : f.Ok) {v : Bool} {c c' : Ctx} (h : f.Same v c c') (hs : f.TextSafe c) :
    f.TextSafe c' := by
  obtain ⟨_, hp, hk, _⟩ := h
  refine ⟨fun hl hm => hs.1 hl (pathOk_props hf hp.2 hm), ?_⟩
  rcases hs.2 with h0 | h0
  · exact Or.inl (hk.trans h0)
  · refine Or.inr (fun n hn hm => ?_)
    have htag : f.TagOk c.e.tag c'.e.tag := hp.1
    rcases htag with e | e | ⟨x, hx, _, e⟩
    · rw [e] at hn; exact h0 n hn hm
    · obtain ⟨y, hy, rfl⟩ := List.mem_map.1 hm
      exact (hf.renamed_tags _ e).2.2.2 y hy hn
    · rw [e] at hn
      simp only [Option.some.injEq] at hn
      subst hn
      exact (hf.moved_tags x hx).1 hm

theorem StepFrame.Carries.trans {f : StepFrame} (hf : f.Ok) {v : Bool} {t t1 t2 : Node} (h : f.Carries v t t1)
    (h' : f.Carries v t1 t2) : f.Carries v t t2 := by
  intro c hc hi
  obtain ⟨c1, hc1, hs1⟩ := h c hc hi
  obtain ⟨c2, hc2, hs2⟩ := h' c1 hc1 (pathOk_inside hf hs1.2.1 hi)
  refine ⟨c2, hc2, hs2.1.trans hs1.1, pathOk_trans hf hs1.2.1 hs2.2.1, hs2.2.2.1.trans hs1.2.2.1, fun hv => ⟨?_, ?_⟩⟩
  · intro k hk
    exact ((hs2.2.2.2 hv).1 k hk).trans ((hs1.2.2.2 hv).1 k hk)
  · intro ht
    exact ((hs2.2.2.2 hv).2 (textSafe_same hf hs1 ht)).trans ((hs1.2.2.2 hv).2 ht)

/-! ## The passes -/

mutual
theorem fwd_mapCtx {f : StepFrame} {F : Ctx → Elem} (hF : ∀ c, f.TagOk c.e.tag (F c).tag) {pos : Pos} {env env' : NsMap}
    {anc anc' : List QName} (ha : f.PathOk anc anc') : ∀ (t : Node), ∀ c ∈ t.walk pos env anc,
    ∃ c' ∈ (t.mapCtx F pos env anc).walk pos env' anc', c'.pos = c.pos ∧ c'.e = F c ∧ f.PathOk c.anc c'.anc ∧
      c'.kids.length = c.kids.length
  | .other _ _, c, h => by simp [Node.walk] at h
  | .elem e ks, c, h => by
    simp only [Node.walk, List.mem_cons] at h
    simp only [Node.mapCtx, Node.walk]
    rcases h with rfl | h
    · exact ⟨_, List.mem_cons_self, rfl, rfl, ha, mapCtxs_length _ _ _ _ _ ks⟩
    · obtain ⟨c', hc', H⟩ := fwd_mapCtxs hF (anc := e.tag :: anc)
        (anc' := (F ⟨pos, e.decls ++ env, anc, e, ks⟩).tag :: anc')
        (env' := (F ⟨pos, e.decls ++ env, anc, e, ks⟩).decls ++ env') ⟨hF _, ha⟩ ks c h
      exact ⟨c', List.mem_cons_of_mem _ hc', H⟩
theorem fwd_mapCtxs {f : StepFrame} {F : Ctx → Elem} (hF : ∀ c, f.TagOk c.e.tag (F c).tag) {pos : Pos} {i : Nat}
    {env env' : NsMap} {anc anc' : List QName} (ha : f.PathOk anc anc') : ∀ (ks : List Node),
    ∀ c ∈ Node.walks pos i env anc ks,
    ∃ c' ∈ Node.walks pos i env' anc' (Node.mapCtxs F pos i env anc ks), c'.pos = c.pos ∧ c'.e = F c ∧
      f.PathOk c.anc c'.anc ∧ c'.kids.length = c.kids.length
  | [], c, h => by simp [Node.walks] at h
  | k :: ks, c, h => by
    simp only [Node.walks, List.mem_append] at h
    simp only [Node.mapCtxs, Node.walks]
    rcases h with h | h
    · obtain ⟨c', hc', H⟩ := fwd_mapCtx hF ha k c h
      exact ⟨c', List.mem_append_left _ hc', H⟩
    · obtain ⟨c', hc', H⟩ := fwd_mapCtxs hF ha ks c h
      exact ⟨c', List.mem_append_right _ hc', H⟩
theorem mapCtxs_length (F : Ctx → Elem) (pos : Pos) (i : Nat) (env : NsMap) (anc : List QName) : ∀ (ks : List Node),
    (Node.mapCtxs F pos i env anc ks).length = ks.length
  | [] => by simp [Node.mapCtxs]
  | k :: ks => by simp [Node.mapCtxs, mapCtxs_length F pos (i + 1) env anc ks]
end

theorem carries_edit {f : StepFrame} {v : Bool} {F : Ctx → Elem} (hF : ∀ c, f.TagOk c.e.tag (F c).tag) (t : Node)
    (hv : v = true → ∀ c, (∀ k ∈ vocabAttrs, (F c).get? k = c.e.get? k) ∧ (f.TextSafe c → (F c).text = c.e.text)) :
    f.Carries v t (t.edit F) := by
  intro c hc _
  obtain ⟨c', hc', h1, h2, h3, h4⟩ := fwd_mapCtx (env' := []) (anc := []) (anc' := []) hF trivial t c hc
  refine ⟨c', hc', h1, ⟨by rw [h2]; exact hF c, h3⟩, h4, fun h => ?_⟩
  rw [h2]
  exact hv h c

mutual
theorem fwd_subst {T : List (Option QName × QName)} {r : Pos → Option Node} {pos : Pos} {env : NsMap} {anc : List QName} :
    ∀ (t : Node), (∀ d ∈ t.walk pos env anc, r d.pos ≠ none → inside T d.path = true) →
    ∀ c ∈ t.walk pos env anc, inside T c.path = false →
    ∃ c' ∈ (t.subst r pos).walk pos env anc, c'.pos = c.pos ∧ c'.e = c.e ∧ c'.anc = c.anc ∧
      c'.kids.length = c.kids.length
  | .other _ _, _, c, h, _ => by simp [Node.walk] at h
  | .elem e ks, H, c, h, hi => by
    have hanc : ∀ d ∈ Node.walks pos 0 (e.decls ++ env) (e.tag :: anc) ks, inside T d.path = false →
        inside T (e.tag :: anc) = false := fun d hd hd' => inside_walks ks d hd hd'
    have hroot : inside T (e.tag :: anc) = false := by
      simp only [Node.walk, List.mem_cons] at h
      rcases h with rfl | h
      · exact hi
      · exact hanc c h hi
    have hr : r pos = none := by
      cases hp : r pos with
      | none => rfl
      | some n =>
        have := H ⟨pos, e.decls ++ env, anc, e, ks⟩ (by simp [Node.walk]) (by rw [hp]; simp)
        rw [show inside T (Ctx.path ⟨pos, e.decls ++ env, anc, e, ks⟩) = inside T (e.tag :: anc) from rfl, hroot] at this
        cases this
    simp only [Node.subst, hr, Node.walk]
    simp only [Node.walk, List.mem_cons] at h
    rcases h with rfl | h
    · exact ⟨_, List.mem_cons_self, rfl, rfl, rfl, substs_length _ _ _ ks⟩
    · obtain ⟨c', hc', h'⟩ := fwd_substs ks (fun d hd => H d (by simp [Node.walk, hd])) c h hi
      exact ⟨c', List.mem_cons_of_mem _ hc', h'⟩
theorem fwd_substs {T : List (Option QName × QName)} {r : Pos → Option Node} {pos : Pos} {i : Nat} {env : NsMap}
    {anc : List QName} : ∀ (ks : List Node),
    (∀ d ∈ Node.walks pos i env anc ks, r d.pos ≠ none → inside T d.path = true) →
    ∀ c ∈ Node.walks pos i env anc ks, inside T c.path = false →
    ∃ c' ∈ Node.walks pos i env anc (Node.substs r pos i ks), c'.pos = c.pos ∧ c'.e = c.e ∧ c'.anc = c.anc ∧
      c'.kids.length = c.kids.length
  | [], _, c, h, _ => by simp [Node.walks] at h
  | k :: ks, H, c, h, hi => by
    simp only [Node.walks, List.mem_append] at h
    simp only [Node.substs, Node.walks]
    rcases h with h | h
    · obtain ⟨c', hc', h'⟩ := fwd_subst k (fun d hd => H d (by simp [Node.walks, hd])) c h hi
      exact ⟨c', List.mem_append_left _ hc', h'⟩
    · obtain ⟨c', hc', h'⟩ := fwd_substs ks (fun d hd => H d (by simp [Node.walks, hd])) c h hi
      exact ⟨c', List.mem_append_right _ hc', h'⟩
theorem substs_length (r : Pos → Option Node) (pos : Pos) (i : Nat) : ∀ (ks : List Node),
    (Node.substs r pos i ks).length = ks.length
  | [] => by simp [Node.substs]
  | k :: ks => by simp [Node.substs, substs_length r pos (i + 1) ks]
theorem inside_walk {T : List (Option QName × QName)} {pos : Pos} {env : NsMap} {anc : List QName} : ∀ (t : Node),
    ∀ d ∈ t.walk pos env anc, inside T d.path = false → inside T anc = false
  | .other _ _, d, h, _ => by simp [Node.walk] at h
  | .elem e ks, d, h, hd => by
    simp only [Node.walk, List.mem_cons] at h
    have : inside T (e.tag :: anc) = false := by
      rcases h with rfl | h
      · exact hd
      · exact inside_walks ks d h hd
    simp only [inside, Bool.or_eq_false_iff] at this
    exact this.2
theorem inside_walks {T : List (Option QName × QName)} {pos : Pos} {i : Nat} {env : NsMap} {anc : List QName} :
    ∀ (ks : List Node), ∀ d ∈ Node.walks pos i env anc ks, inside T d.path = false → inside T anc = false
  | [], d, h, _ => by simp [Node.walks] at h
  | k :: ks, d, h, hd => by
    simp only [Node.walks, List.mem_append] at h
    rcases h with h | h
    · exact inside_walk k d h hd
    · exact inside_walks ks d h hd
end

theorem carries_replaceAll {f : StepFrame} {v : Bool} {t : Node} {l : List (Pos × Node)}
    (hl : ∀ x ∈ l, ∀ d ∈ t.elems, d.pos = x.1 → inside f.rebuilt d.path = true) : f.Carries v t (t.replaceAll l) := by
  intro c hc hi
  obtain ⟨c', hc', h1, h2, h3, h4⟩ := fwd_subst (T := f.rebuilt)
    (r := fun p => if p = [] then none else posLookup l p) t (by
      intro d hd hn
      by_cases hp : d.pos = []
      · simp [hp] at hn
      · simp only [hp, if_false] at hn
        cases hx : posLookup l d.pos with
        | none => exact absurd hx hn
        | some n => exact hl _ (posLookup_mem hx) d hd rfl) c hc hi
  refine ⟨c', hc', h1, ?_, h4, fun _ => ⟨fun k _ => by rw [h2], fun _ => by rw [h2]⟩⟩
  show f.PathOk (c.e.tag :: c.anc) (c'.e.tag :: c'.anc)
  rw [h2, h3]; exact pathOk_refl f _


mutual
theorem parent_walk {pos : Pos} {env : NsMap} {anc : List QName} : ∀ (t : Node), ∀ c ∈ t.walk pos env anc,
    ∀ d ∈ t.walk pos env anc, ∀ i, c.pos = i :: d.pos → c.anc = d.path
  | .other _ _, c, hc, _, _, _, _ => by simp [Node.walk] at hc
  | .elem e ks, c, hc, d, hd, i, h => by
    simp only [Node.walk, List.mem_cons] at hc hd
    rcases hd with rfl | hd
    · rcases hc with rfl | hc
      · exfalso; have := congrArg List.length h; simp at this
      · exact anc_walks_child ks c hc i h
    · rcases hc with rfl | hc
      · exfalso
        obtain ⟨l, j, _, h'⟩ := walks_pos _ _ _ _ ks d hd
        have := congrArg List.length h
        rw [h'] at this
        simp at this
        omega
      · exact parent_walks ks c hc d hd i h
theorem parent_walks {pos : Pos} {n : Nat} {env : NsMap} {anc : List QName} : ∀ (ks : List Node),
    ∀ c ∈ Node.walks pos n env anc ks, ∀ d ∈ Node.walks pos n env anc ks, ∀ i, c.pos = i :: d.pos → c.anc = d.path
  | [], c, hc, _, _, _, _ => by simp [Node.walks] at hc
  | k :: ks, c, hc, d, hd, i, h => by
    simp only [Node.walks, List.mem_append] at hc hd
    rcases hc with hc | hc
    · rcases hd with hd | hd
      · exact parent_walk k c hc d hd i h
      · exfalso
        obtain ⟨l, h1⟩ := walk_pos _ _ _ k c hc
        obtain ⟨l', j, hj, h2⟩ := walks_pos _ _ _ _ ks d hd
        rw [h1, h2] at h
        have := pos_suffix_inj (l := l) (l' := i :: l') h
        omega
    · rcases hd with hd | hd
      · exfalso
        obtain ⟨l, j, hj, h1⟩ := walks_pos _ _ _ _ ks c hc
        obtain ⟨l', h2⟩ := walk_pos _ _ _ k d hd
        rw [h1, h2] at h
        have := pos_suffix_inj (l := l) (l' := i :: l') h
        omega
      · exact parent_walks ks c hc d hd i h
theorem anc_walks_child {pos : Pos} {n : Nat} {env : NsMap} {anc : List QName} : ∀ (ks : List Node),
    ∀ c ∈ Node.walks pos n env anc ks, ∀ i, c.pos = i :: pos → c.anc = anc
  | [], c, hc, _, _ => by simp [Node.walks] at hc
  | k :: ks, c, hc, i, h => by
    simp only [Node.walks, List.mem_append] at hc
    rcases hc with hc | hc
    · cases k with
      | other _ _ => simp [Node.walk] at hc
      | elem e es =>
        simp only [Node.walk, List.mem_cons] at hc
        rcases hc with rfl | hc
        · rfl
        · exfalso
          obtain ⟨l, j, _, h'⟩ := walks_pos _ _ _ _ es c hc
          rw [h'] at h
          have := congrArg List.length h
          simp at this
          omega
    · exact anc_walks_child ks c hc i h
end

/-- The found elements are among the rebuilt fields. -/
def Trans.within (T : List (Option QName × QName)) (tr : Trans) : Bool :=
  match tr.kind with
  | .renamed _ => true
  | .parent _ => tr.xpath.all (fun a => match a.parent with
    | none => false
    | some p => T.any (fun x => decide (x.2 = p.resolve tr.nsmap) && x.1.isNone))
  | _ => tr.xpath.all (fun a => T.any (fun x => decide (x.2 = a.tag.resolve tr.nsmap) &&
      (x.1.isNone || decide (x.1 = a.parent.map (fun p => p.resolve tr.nsmap)))))

/-- A renaming is among the renamings of the frame. -/
def Trans.renames (R : List (QName × QName)) (tr : Trans) : Bool :=
  match tr.kind with
  | .renamed q => tr.xpath.all (fun a => decide ((a.tag.resolve tr.nsmap, q) ∈ R))
  | _ => true

theorem selects_inside {T : List (Option QName × QName)} {m : List (String × String)} {alts : List XAlt}
    (hw : alts.all (fun a => T.any (fun x => decide (x.2 = a.tag.resolve m) &&
      (x.1.isNone || decide (x.1 = a.parent.map (fun p => p.resolve m))))) = true) {c : Ctx}
    (hs : alts.any (fun a => a.selects m c) = true) : inside T c.path = true := by
  obtain ⟨a, ha, hsel⟩ := List.any_eq_true.1 hs
  obtain ⟨x, hx, hx'⟩ := List.any_eq_true.1 (List.all_eq_true.1 hw a ha)
  simp only [Bool.and_eq_true, decide_eq_true_eq, Bool.or_eq_true] at hx'
  simp only [XAlt.selects, Bool.and_eq_true, decide_eq_true_eq] at hsel
  show inside T (c.e.tag :: c.anc) = true
  simp only [inside, Bool.or_eq_true]
  refine Or.inl (List.any_eq_true.2 ⟨x, hx, ?_⟩)
  simp only [Bool.and_eq_true, decide_eq_true_eq, Bool.or_eq_true]
  refine ⟨hx'.1.trans hsel.1.1.symm, ?_⟩
  rcases hx'.2 with h | h
  · exact Or.inl h
  · cases hp : a.parent with
    | none => rw [hp] at h; rw [h]; exact Or.inl rfl
    | some p =>
      have h2 := hsel.1.2
      rw [hp] at h h2
      simp only [Bool.and_eq_true, decide_eq_true_eq] at h2
      exact Or.inr (h.trans h2.1.symm)

theorem carries_translate {f : StepFrame} {v : Bool} {tr : Trans} (hw : tr.within f.rebuilt = true)
    (hr : tr.renames f.renamed = true) {t t' : Node} (h : tr.translate t = .ok t') : f.Carries v t t' := by
  simp only [Trans.translate] at h
  split at h
  · next tag hk =>
    simp only [Except.ok.injEq] at h
    rw [← h, modifyXpath_eq]
    refine carries_edit (fun c => ?_) t (fun _ c => ?_)
    · split
      · next hs =>
        obtain ⟨a, ha, hsel⟩ := List.any_eq_true.1 hs
        simp only [Trans.renames, hk] at hr
        have := List.all_eq_true.1 hr a ha
        simp only [decide_eq_true_eq] at this
        simp only [XAlt.selects, Bool.and_eq_true, decide_eq_true_eq] at hsel
        rw [← hsel.1.1] at this
        exact Or.inr (Or.inl this)
      · exact Or.inl rfl
    · split <;> exact ⟨fun _ _ => rfl, fun _ => rfl⟩
  · next hk =>
    simp only [Trans.within, hk] at hw
    split at h
    · cases h
    · next l hl =>
      simp only [Except.ok.injEq] at h
      rw [← h]
      refine carries_replaceAll (fun x hx d hd hp => ?_)
      obtain ⟨c, hc, hfc⟩ := mapE_mem hl x hx
      obtain ⟨n, _, rfl⟩ := except_map_ok hfc
      rw [elems_pos_inj hd (List.mem_filter.1 hc).1 hp]
      exact selects_inside hw (List.mem_filter.1 hc).2
  · next hk =>
    simp only [Trans.within, hk] at hw
    split at h
    · cases h
    · next l hl =>
      simp only [Except.ok.injEq] at h
      rw [← h]
      refine carries_replaceAll (fun x hx d hd hp => ?_)
      obtain ⟨c, hc, hfc⟩ := mapE_mem hl x hx
      obtain ⟨n, _, rfl⟩ := except_map_ok hfc
      rw [elems_pos_inj hd (List.mem_filter.1 hc).1 hp]
      exact selects_inside hw (List.mem_filter.1 hc).2
  · next hk =>
    simp only [Trans.within, hk] at hw
    split at h
    · cases h
    · next l hl =>
      simp only [Except.ok.injEq] at h
      rw [← h]
      refine carries_replaceAll (fun x hx d hd hp => ?_)
      obtain ⟨c, hc, hfc⟩ := mapE_mem hl x hx
      obtain ⟨n, _, rfl⟩ := except_map_ok hfc
      obtain ⟨hce, hcs⟩ := List.mem_filter.1 hc
      obtain ⟨a, ha, hsel⟩ := List.any_eq_true.1 hcs
      have hwa := List.all_eq_true.1 hw a ha
      simp only [XAlt.selects, Bool.and_eq_true, decide_eq_true_eq] at hsel
      cases hpa : a.parent with
      | none => rw [hpa] at hwa; cases hwa
      | some p =>
        rw [hpa] at hwa
        have h2 := hsel.1.2
        rw [hpa] at h2
        simp only [Bool.and_eq_true, decide_eq_true_eq] at h2
        have hne : c.anc ≠ [] := by intro e; rw [e] at h2; exact absurd h2.1 (by simp)
        cases hcp : c.pos with
        | nil => exact absurd ((elems_root_iff hce).1 hcp) hne
        | cons i ps =>
          have hdp : d.pos = ps := by rw [hp]; simp [hcp]
          have hanc := parent_walk t c hce d hd i (by rw [hcp, hdp])
          obtain ⟨x, hx, hx'⟩ := List.any_eq_true.1 hwa
          simp only [Bool.and_eq_true, decide_eq_true_eq] at hx'
          rw [hanc] at h2
          have htag : d.e.tag = p.resolve tr.nsmap := by
            have := h2.1
            simpa [Ctx.path] using this
          show inside f.rebuilt (d.e.tag :: d.anc) = true
          simp only [inside, Bool.or_eq_true]
          refine Or.inl (List.any_eq_true.2 ⟨x, hx, ?_⟩)
          simp only [Bool.and_eq_true, decide_eq_true_eq, Bool.or_eq_true]
          exact ⟨hx'.1.trans htag.symm, Or.inl hx'.2⟩

theorem carries_refl (f : StepFrame) (v : Bool) (t : Node) : f.Carries v t t :=
  fun c hc _ => ⟨c, hc, rfl, pathOk_refl f _, rfl, fun _ => ⟨fun _ _ => rfl, fun _ => rfl⟩⟩

theorem carries_translateFields {f : StepFrame} (hf : f.Ok) {v : Bool} {trs : List Trans}
    (hw : ∀ tr ∈ trs, tr.within f.rebuilt = true ∧ tr.renames f.renamed = true) {t t' : Node}
    (h : translateFields trs t = .ok t') : f.Carries v t t' :=
  foldE_inv (fun s => f.Carries v t s) trs t t'
    (fun _ tr _ htr hs hst => hs.trans hf (carries_translate (hw tr htr).1 (hw tr htr).2 hst)) (carries_refl f v t) h

theorem carries_schemaloc (f : StepFrame) (v : Bool) (u : Cls) (t : Node) : f.Carries v t (u.updateSchemalocs t) := by
  rw [updateSchemalocs_eq]
  refine carries_edit (fun c => Or.inl (keeps_schemaloc u c).1) t (fun _ c => ⟨fun k hk => ?_, fun _ => ?_⟩)
  · unfold schemalocEdit
    split
    · refine updateSchemalocsElem_get? u c.e ?_
      intro e; rw [e] at hk; exact absurd hk (by decide)
    · rfl
  · unfold schemalocEdit
    split
    · unfold Cls.updateSchemalocsElem
      split <;> rfl
    · rfl

theorem carries_version (f : StepFrame) (v : Bool) (m : List (String × String)) (alts : List XAlt) (g : Elem → Elem)
    (h1 : ∀ e, (g e).tag = e.tag ∧ (g e).text = e.text) (h2 : ∀ e, ∀ k ∈ vocabAttrs, (g e).get? k = e.get? k)
    (t : Node) : f.Carries v t (t.edit (versionEdit m alts g)) := by
  refine carries_edit (fun c => Or.inl ?_) t (fun _ c => ⟨fun k hk => ?_, fun _ => ?_⟩) <;> unfold versionEdit <;> split
  · exact (h1 _).1
  · rfl
  · exact h2 _ k hk
  · rfl
  · exact (h1 _).2
  · rfl

theorem setStixVersion_vocab (i v : String) (e : Elem) : ∀ k ∈ vocabAttrs, (setStixVersion i v e).get? k = e.get? k := by
  intro k hk
  unfold setStixVersion
  rw [Elem.get?_set, if_neg]
  intro h; rw [← h] at hk; exact absurd hk (by decide)

theorem setVersion201_vocab (e : Elem) : ∀ k ∈ vocabAttrs, (setVersion201 e).get? k = e.get? k := by
  intro k hk
  unfold setVersion201
  rw [Elem.get?_set, if_neg, Elem.get?_set, if_neg, Elem.get?_set, if_neg] <;>
    (intro h; rw [← h] at hk; exact absurd hk (by decide))

theorem setVersion21_vocab (e : Elem) : ∀ k ∈ vocabAttrs, (setVersion21 e).get? k = e.get? k := by
  intro k hk
  unfold setVersion21
  rw [Elem.get?_del, if_neg, Elem.get?_set, if_neg, Elem.get?_set, if_neg] <;>
    (intro h; rw [← h] at hk; exact absurd hk (by decide))

theorem propsDepth_zero {obj prop : QName} : ∀ {anc : List QName}, prop ∉ anc → propsDepth obj prop anc = 0
  | [], _ => rfl
  | q :: qs, h => by
    simp only [propsDepth]
    rw [if_neg (fun e => h (by rw [← e.1]; simp)), propsDepth_zero (fun e => h (by simp [e]))]

theorem carries_lists {f : StepFrame} (v : Bool) (hl : f.lists = true) {u : Cls}
    (hp : XName.resolve u.nsmap ⟨"cybox", "Properties"⟩ = propertiesTag) (t : Node) :
    f.Carries v t (updateLists u t) := by
  rw [updateLists_eq]
  refine carries_edit (fun c => Or.inl (keeps_lists _ c).1) t (fun _ c => ⟨fun k _ => ?_, fun hs => ?_⟩)
  · unfold listsEdit Elem.get?
    rw [(iter_lists_keeps _ _).2.2.1]
  · unfold listsEdit
    rw [hp, propsDepth_zero (hs.1 hl)]; rfl

theorem carries_vocabsIf {f : StepFrame} {o : Options} {vs : List Vocab} {t t' : Node}
    (h : (if o.updateVocabularies then updateVocabs vs t else .ok t) = .ok t') :
    f.Carries (!o.updateVocabularies) t t' := by
  cases hb : o.updateVocabularies with
  | true =>
    rw [hb] at h
    rw [updateVocabs_eq h]
    exact carries_edit (fun c => Or.inl (keeps_vocabs vs c).1) t (fun h => absurd h (by decide))
  | false =>
    rw [hb] at h
    simp only [Bool.false_eq_true, if_false, Except.ok.injEq] at h
    rw [← h]; exact carries_refl f _ t

theorem carries_ns {f : StepFrame} (v : Bool) {u : Cls} (hm : u.updateNsMap = f.moved) (t : Node) :
    f.Carries v t (u.updateNamespaces [] t) := by
  rw [updateNamespaces_eq]
  refine carries_edit (fun c => ?_) t (fun _ c => ⟨fun k _ => ?_, fun hs => ?_⟩)
  · unfold nsEdit
    split
    · next hu =>
      unfold Cls.nsUpdated at hu
      cases hn : c.e.tag.ns with
      | none => rw [hn] at hu; cases hu
      | some n =>
        rw [hn] at hu
        simp only at hu
        cases ha : assoc u.updateNsMap n with
        | none => rw [ha] at hu; cases hu
        | some b =>
          refine Or.inr (Or.inr ⟨(n, b), by rw [← hm]; exact assoc_mem ha, hn, ?_⟩)
          simp only [Cls.updateNsmapElem, Cls.remappedTag, hn, Option.map_some, ha, Option.getD_some]
    · exact Or.inl rfl
  · unfold nsEdit
    split <;> rfl
  · unfold nsEdit
    split
    · next hu =>
      simp only [Cls.updateNsmapElem, getNodeText]
      rcases hs.2 with h0 | h0
      · rw [if_neg (by omega)]
      · exfalso
        unfold Cls.nsUpdated at hu
        cases hn : c.e.tag.ns with
        | none => rw [hn] at hu; cases hu
        | some n =>
          rw [hn] at hu
          simp only at hu
          cases ha : assoc u.updateNsMap n with
          | none => rw [ha] at hu; cases hu
          | some b =>
            exact h0 n hn (by rw [← hm]; exact List.mem_map.2 ⟨_, assoc_mem ha, rfl⟩)
    · rfl


theorem frameOk_of {f : StepFrame}
    (h1 : f.renamed.all (fun p => decide (p.2 ∉ f.renamed.map (·.1)) && decide (p.2 ≠ propertiesTag) &&
      f.rebuilt.all (fun x => decide (x.2 ≠ p.2) && decide (x.1 ≠ some p.2)) &&
      f.moved.all (fun x => decide (p.2.ns ≠ some x.1))) = true)
    (h2 : f.moved.all (fun x => decide (x.2 ∉ f.moved.map (·.1)) && decide (propertiesTag.ns ≠ some x.2) &&
      f.rebuilt.all (fun y => decide (y.2.ns ≠ some x.2) && (match y.1 with | none => true | some q => decide (q.ns ≠ some x.2))) &&
      f.renamed.all (fun p => decide (p.1.ns ≠ some x.2))) = true) : f.Ok where
  renamed_tags := by
    intro p hp
    have := List.all_eq_true.1 h1 p hp
    simp only [Bool.and_eq_true, decide_eq_true_eq, List.all_eq_true] at this
    exact ⟨this.1.1.1, this.1.1.2, this.1.2, this.2⟩
  moved_tags := by
    intro x hx
    have := List.all_eq_true.1 h2 x hx
    simp only [Bool.and_eq_true, decide_eq_true_eq, List.all_eq_true] at this
    refine ⟨this.1.1.1, this.1.1.2, fun y hy => ⟨(this.1.2 y hy).1, fun q hq => ?_⟩, this.2⟩
    have h := (this.1.2 y hy).2
    rw [hq] at h
    simpa using h

theorem frameAttr_ok (l : Bool) : (frameAttr l).Ok := frameOk_of rfl rfl
theorem frame201_ok : frame201.Ok := frameOk_of (by decide +kernel) (by decide +kernel)
theorem frame101_ok : frame101.Ok := frameOk_of (by decide +kernel) (by decide +kernel)
theorem frame11_ok : frame11.Ok := frameOk_of (by decide +kernel) (by decide +kernel)
theorem frame12_ok : frame12.Ok := frameOk_of (by decide +kernel) (by decide +kernel)

theorem trans201_within (T : List (Option QName × QName)) (hT : ∀ x ∈ frame201.rebuilt, x ∈ T) :
    ∀ tr ∈ cybox201Translatable, tr.within T = true ∧ tr.renames frame201.renamed = true := by
  intro tr htr
  have h0 : tr.within frame201.rebuilt = true ∧ tr.renames frame201.renamed = true := by
    have : (cybox201Translatable.all (fun tr => tr.within frame201.rebuilt && tr.renames frame201.renamed)) = true := by
      decide +kernel
    simpa using List.all_eq_true.1 this tr htr
  refine ⟨?_, h0.2⟩
  have h := h0.1
  unfold Trans.within at h ⊢
  have mono : ∀ p : Option QName × QName → Bool, frame201.rebuilt.any p = true → T.any p = true := by
    intro p hp
    obtain ⟨x, hx, hpx⟩ := List.any_eq_true.1 hp
    exact List.any_eq_true.2 ⟨x, hT x hx, hpx⟩
  split at h
  · rfl
  · refine List.all_eq_true.2 (fun a ha => ?_)
    have := List.all_eq_true.1 h a ha
    cases hp : a.parent with
    | none => rw [hp] at this; cases this
    | some p => rw [hp] at this; exact mono _ this
  · exact List.all_eq_true.2 (fun a ha => mono _ (List.all_eq_true.1 h a ha))


theorem carries_trans {f : StepFrame} (hf : f.Ok) {v : Bool} {t t1 t2 : Node} (h : f.Carries v t t1)
    (h' : f.Carries v t1 t2) : f.Carries v t t2 := h.trans hf h'

theorem moved201 : Tables.cybox201_updateNsMap = frame201.moved := by decide +kernel

theorem source_within : ((sourceParents.map (fun p => relIn p.1 p.2 "stixCommon" "Source")).all fun a =>
    frame11.rebuilt.any fun x => decide (x.2 = a.tag.resolve Tables.stix11_nsmap) &&
      (x.1.isNone || decide (x.1 = a.parent.map (fun p => p.resolve Tables.stix11_nsmap)))) = true := by decide +kernel

theorem sighting_within : ([relIn "indicator" "Sighting" "indicator" "Source"].all fun a =>
    frame11.rebuilt.any fun x => decide (x.2 = a.tag.resolve Tables.stix11_nsmap) &&
      (x.1.isNone || decide (x.1 = a.parent.map (fun p => p.resolve Tables.stix11_nsmap)))) = true := by decide +kernel

theorem carries_rootVersion (f : StepFrame) (v : Bool) (s : String) (t : Node) : f.Carries v t (setRootVersion s t) := by
  intro c hc _
  cases t with
  | other _ _ => simp [Node.elems, Node.walk] at hc
  | elem e ks =>
    simp only [Node.elems, Node.walk, List.mem_cons] at hc
    rcases hc with rfl | hc
    · refine ⟨⟨[], e.decls ++ [], [], e.set attrVersion s, ks⟩, ?_, rfl, ?_, rfl, ?_⟩
      · simp only [setRootVersion, Node.elems, Node.walk, List.mem_cons]; exact Or.inl rfl
      · exact pathOk_refl f _
      · refine fun _ => ⟨fun k hk => ?_, fun _ => rfl⟩
        show (e.set attrVersion s).get? k = e.get? k
        rw [Elem.get?_set, if_neg]
        intro h; rw [← h] at hk; exact absurd hk (by decide)
    · refine ⟨c, ?_, rfl, pathOk_refl f _, rfl, fun _ => ⟨fun _ _ => rfl, fun _ => rfl⟩⟩
      simp only [setRootVersion, Node.elems, Node.walk, List.mem_cons]
      exact Or.inr hc

theorem carries_20Versions (f : StepFrame) (v : Bool) (u : Cls) (t : Node) : f.Carries v t (cybox20UpdateVersions u t) := by
  rw [cybox20Versions_eq]
  exact carries_version f _ _ _ setVersion201 (fun _ => ⟨rfl, rfl⟩) setVersion201_vocab _

theorem carries_201Versions (f : StepFrame) (v : Bool) (u : Cls) (t : Node) : f.Carries v t (cybox201UpdateVersions u t) := by
  rw [cybox201Versions_eq]
  exact carries_version f _ _ _ setVersion21 (fun _ => ⟨rfl, rfl⟩) setVersion21_vocab _

theorem carries_cybox20 {f : StepFrame} (hf : f.Ok) (hl : f.lists = true) {m : List (String × String)} {sel : List XAlt}
    (hp : XName.resolve m ⟨"cybox", "Properties"⟩ = propertiesTag) {o : Options} {t t' : Node}
    (h : cybox20Update (cybox20Cls m sel) o t = .ok t') : f.Carries (!o.updateVocabularies) t t' := by
  simp only [cybox20Update] at h
  exact carries_trans hf (carries_schemaloc f _ (cybox20Cls m sel) t) (carries_trans hf (carries_20Versions f _ (cybox20Cls m sel) _)
    (carries_trans hf (carries_lists (u := cybox20Cls m sel) _ hl hp _) (carries_vocabsIf h)))

theorem carries_cybox201 {f : StepFrame} (hf : f.Ok) (hm : f.moved = frame201.moved) (hr : f.renamed = frame201.renamed)
    (hT : ∀ x ∈ frame201.rebuilt, x ∈ f.rebuilt) {m : List (String × String)} {sel : List XAlt} {o : Options}
    (ho : o.removeOptionals = false) {t t' : Node} (h : cybox201Update (cybox201Cls m sel) o t = .ok t') :
    f.Carries (!o.updateVocabularies) t t' := by
  simp only [cybox201Update, ho, Bool.false_eq_true, if_false] at h
  split at h
  · cases h
  · next t1 h1 =>
    split at h
    · cases h
    · next t2 h2 =>
      simp only [Except.ok.injEq] at h
      subst h
      refine carries_trans hf (carries_ns _ (u := cybox201Cls m sel) (by rw [hm]; simp only [cybox201Cls]; exact moved201) t)
        (carries_trans hf (carries_schemaloc f _ (cybox201Cls m sel) _) (carries_trans hf
          (carries_201Versions f _ (cybox201Cls m sel) _)
          (carries_trans hf (carries_translateFields hf ?_ h1) (carries_vocabsIf h2))))
      rw [hr]; exact trans201_within _ hT

theorem carries_stixVersions (f : StepFrame) (v : Bool) (u : Cls) (i s : String) (t : Node) :
    f.Carries v t (stixUpdateVersions u i s t) := by
  rw [stixVersions_eq]
  exact carries_version f _ _ _ (setStixVersion i s) (fun _ => ⟨rfl, rfl⟩) (setStixVersion_vocab i s) _

/-! ## The property -/

/-- C21: an unforced step with `remove_optionals` off keeps every element outside the fields it translates, at its place;
with `update_vocabularies` off the vocabulary attributes are unchanged, and so is the text unless the step rewrites CybOX
lists around it or moves a mixed-content element to another namespace. -/
theorem C21_frame_partial (w : World) (u : Updater) (f : StepFrame) (hu : FrameOf w u f) (o : Options)
    (ho : o.removeOptionals = false) (k k' : Nat) (t : Node) (r : Result)
    (h : stepUpdate u o false k t = .ok (r, k')) : f.Carries (!o.updateVocabularies) t r.doc := by
  have h := unforced_update h
  cases hu with
  | cybox20 => exact carries_cybox20 (frameAttr_ok _) rfl (by decide +kernel) h
  | cybox201 => exact carries_cybox201 frame201_ok rfl rfl (fun x hx => hx) ho h
  | stix10 =>
    have hf := frameAttr_ok true
    simp only [stix10, stix10Update] at h
    split at h
    · cases h
    · next t1 h1 =>
      rw [updateNamespaces_none rfl] at h
      exact carries_trans hf (carries_cybox20 hf rfl (by decide +kernel) h1) (carries_trans hf (carries_schemaloc _ _ _ _)
        (carries_trans hf (carries_stixVersions _ _ _ _ _ _) (carries_vocabsIf h)))
  | stix101 =>
    have hf := frame101_ok
    simp only [stix101, stix101Update, ho, Bool.false_eq_true, if_false] at h
    split at h
    · cases h
    · next t1 h1 =>
      rw [updateNamespaces_none rfl] at h
      split at h
      · cases h
      · next t2 h2 =>
        split at h
        · cases h
        · next t3 h3 =>
          simp only [Except.ok.injEq] at h
          subst h
          refine carries_trans hf (carries_cybox201 hf rfl rfl (fun x hx => List.mem_append_left _ hx) ho h1)
            (carries_trans hf (carries_schemaloc _ _ _ _) (carries_trans hf (carries_stixVersions _ _ _ _ _ _)
              (carries_trans hf (carries_translateFields hf ?_ h2) (carries_vocabsIf h3))))
          intro tr htr
          have : ([transContributors, transExploitTargets].all (fun tr => tr.within frame101.rebuilt && tr.renames frame101.renamed)) = true := by
            decide +kernel
          have htr' : tr ∈ [transContributors, transExploitTargets] := by
            simp only [stix101Cls, List.mem_cons, List.not_mem_nil, or_false] at htr ⊢
            rcases htr with rfl | rfl <;> simp
          simpa using List.all_eq_true.1 this tr htr'
  | stix11 =>
    have hf := frame11_ok
    simp only [stix11, stix11Update, ho, Bool.false_eq_true, if_false] at h
    split at h
    · cases h
    · next t2 h2 =>
      split at h
      · cases h
      · next t3 h3 =>
        simp only [Except.ok.injEq] at h
        subst h
        refine carries_trans hf (carries_schemaloc _ _ stix11Cybox _) (carries_trans hf (carries_schemaloc _ _ (stix11Cls w) _)
          (carries_trans hf (carries_stixVersions _ _ _ _ _ _) (carries_trans hf (carries_translateFields hf ?_ h2) (carries_vocabsIf h3))))
        intro tr htr
        simp only [stix11Cls, List.mem_cons, List.not_mem_nil, or_false] at htr
        rcases htr with rfl | rfl | rfl
        · refine ⟨?_, rfl⟩
          unfold Trans.within transCommonSource
          exact source_within
        · refine ⟨?_, rfl⟩
          unfold Trans.within transSightingsSource
          exact sighting_within
        · exact ⟨by decide +kernel, rfl⟩
  | stix111 =>
    have hf := frameAttr_ok false
    simp only [stix111, stix111Update] at h
    exact carries_trans hf (carries_schemaloc _ _ _ _) (carries_trans hf (carries_stixVersions _ _ _ _ _ _) (carries_vocabsIf h))
  | stix12 =>
    have hf := frame12_ok
    simp only [stix12, stix12Update, Except.ok.injEq] at h
    rw [← h]
    exact carries_trans hf (carries_ns _ (u := stix12Cls) rfl t) (carries_trans hf (carries_schemaloc _ _ stix12Cls _) (carries_rootVersion _ _ _ _))


/-- A translated field beside untouched elements with vocabulary values. -/
def docCarry : Node :=
  stixDoc "1.0.1"
    [el nsTTP "Exploit_Targets" [] [el nsStixCommon "Exploit_Target" [at_ "idref" "x"] []],
     el nsStix "Effect" [xsiType "stixVocabs:IncidentEffectVocab-1.0"] [] (some "Financial Loss"),
     el nsHTTP "X_Requested_For" [] [] (some "h")]

def oOff : Options := { o0 with updateVocabularies := false, removeOptionals := false }

example : (stepUpdate (stix101 w0) oOff false 0 docCarry).isOk = true ∧
    (docCarry.elems.filter (fun c => !inside frame101.rebuilt c.path)).length = 4 := by decide +kernel
example : (stepUpdate stix12 oOff false 0 (stixDoc "1.2" [el nsTTP "X" [] [] (some "t")])).isOk = true ∧
    (stepUpdate cybox201 oOff false 0 (cyboxDoc v201 [el nsHTTP "X_Requested_For" [] []])).isOk = true ∧
    (stepUpdate (stix11 w0) oOff false 0 (stixDoc "1.1" [el nsTTP "X" [] [] (some "t")])).isOk = true := by decide +kernel

/-- A controlled-vocabulary value inside object properties, with a comma. -/
def docComma : Node :=
  cyboxDoc v20 [el nsCyboxCore "Object" [] [el nsCyboxCore "Properties" []
    [el nsCyboxCore "Name" [xsiType "cyboxVocabs:EventTypeVocab-1.0"] [] (some "a,b")]]]

/-- C21 fails for texts: the list rewriting of CybOX 2.0 changes the text of a vocabulary value although
`update_vocabularies` is off. -/
theorem C21_list_text_fails : ∃ r, stepUpdate cybox20 oOff false 0 docComma = .ok r ∧
    docComma.elems.map (fun c => c.e.text) = [none, none, none, some "a,b"] ∧
    r.1.doc.elems.map (fun c => c.e.text) = [none, none, none, some "a##comma##b"] := ok_of_eval (by decide +kernel)

end Ramrod

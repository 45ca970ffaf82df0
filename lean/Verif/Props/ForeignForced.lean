import Verif.Props.Foreign
import Verif.Props.Lost
/-!
# Foreign content in forced updates: C56
-/

namespace Ramrod

open Samples

/-! ## Statement -/

/-- No element of the part is declared to be an instance of a malware or attack pattern language. -/
def plainTypes (p : Node) : Bool := p.elems.all (fun c => c.e.attrs.all (fun a =>
  !(decide (a.1 = ⟨some "http://www.w3.org/2001/XMLSchema-instance", "type"⟩) && occursIn "InstanceType".toList a.2.toList)))

/-- The part is in the document of a result or in what is reported as removed. -/
def Accounted (r : Result) (p : Node) : Prop := p ∈ r.doc.foreignParts ∨ ∃ q ∈ r.removed, p ∈ q.elems.map Ctx.node

/-! ## Helpers: removing -/

theorem prune_nowhere {ps : List Pos} (n : Nat) : (∀ {pos : Pos} {env : NsMap} {anc : List QName} (t : Node), sizeOf t ≤ n →
      (∀ d ∈ t.walk pos env anc, d.pos ≠ pos → d.pos ∉ ps) → t.prune (fun q => decide (q ∈ ps)) pos = t) ∧
    ∀ {pos : Pos} {i : Nat} {env : NsMap} {anc : List QName} (ks : List Node), sizeOf ks ≤ n →
      (∀ d ∈ Node.walks pos i env anc ks, d.pos ∉ ps) → Node.prunes (fun q => decide (q ∈ ps)) pos i ks = ks := by
  induction n with
  | zero => exact ⟨fun t h => by cases t <;> simp at h, fun ks h => by cases ks <;> simp at h⟩
  | succ n ih =>
    have hk : ∀ {pos : Pos} {i : Nat} {env : NsMap} {anc : List QName} (ks : List Node), sizeOf ks ≤ n + 1 →
        (∀ d ∈ Node.walks pos i env anc ks, d.pos ∉ ps) → Node.prunes (fun q => decide (q ∈ ps)) pos i ks = ks := by
      intro pos i env anc ks hs h
      cases ks with
      | nil => rfl
      | cons k ks =>
        simp only [List.cons.sizeOf_spec] at hs
        have h2 := ih.2 (pos := pos) (i := i + 1) (env := env) (anc := anc) ks (by omega) (fun d hd => h d (by simp [Node.walks, hd]))
        cases k with
        | other _ _ => simp only [Node.prunes, h2]
        | elem e es =>
          have h0 : ¬ (i :: pos) ∈ ps := h ⟨i :: pos, e.decls ++ env, anc, e, es⟩ (by simp [Node.walks, Node.walk])
          simp only [Node.prunes, h2, decide_eq_true_eq, if_neg h0]
          rw [ih.1 (env := env) (anc := anc) (.elem e es) (by omega) (fun d hd _ => h d (by simp [Node.walks, hd]))]
    refine ⟨fun {pos env anc} t hs h => ?_, hk⟩
    cases t with
    | other _ _ => rfl
    | elem e ks =>
      simp only [Node.elem.sizeOf_spec] at hs
      simp only [Node.prune]
      rw [hk (env := e.decls ++ env) (anc := e.tag :: anc) ks (by omega) (fun d hd => h d (by simp [Node.walk, hd]) (fun hp => ?_))]
      obtain ⟨l, j, _, hj⟩ := walks_pos _ _ _ _ _ d hd
      have := congrArg List.length (hj.symm.trans hp)
      simp at this
      omega

mutual
/-- A removal leaves the nodes under no removed position and without a removed position inside. -/
theorem prune_finds {ps : List Pos} {pos pos' : Pos} {env env' : NsMap} {anc anc' : List QName} : ∀ (t : Node),
    ∀ c ∈ t.walk pos env anc, under ps c = false → (∀ d ∈ Node.walks c.pos 0 c.env (c.e.tag :: c.anc) c.kids, d.pos ∉ ps) →
    c.node ∈ ((t.prune (fun q => decide (q ∈ ps)) pos).walk pos' env' anc').map Ctx.node
  | .other _ _, c, hc, _, _ => by simp [Node.walk] at hc
  | .elem e ks, c, hc, h1, h2 => by
    simp only [Node.walk, List.mem_cons] at hc
    simp only [Node.prune, Node.walk, List.map_cons, List.mem_cons]
    rcases hc with rfl | hc
    · left
      simp only at h2
      simp only [Ctx.node]
      rw [(prune_nowhere (ps := ps) _).2 ks (Nat.le_refl _) h2]
    · exact Or.inr (prunes_find ks c hc h1 h2)
theorem prunes_find {ps : List Pos} {pos pos' : Pos} {i i' : Nat} {env env' : NsMap} {anc anc' : List QName} : ∀ (ks : List Node),
    ∀ c ∈ Node.walks pos i env anc ks, under ps c = false → (∀ d ∈ Node.walks c.pos 0 c.env (c.e.tag :: c.anc) c.kids, d.pos ∉ ps) →
    c.node ∈ (Node.walks pos' i' env' anc' (Node.prunes (fun q => decide (q ∈ ps)) pos i ks)).map Ctx.node
  | [], c, hc, _, _ => by simp [Node.walks] at hc
  | .other _ _ :: ks, c, hc, h1, h2 => by
    simp only [Node.walks, Node.walk, List.nil_append] at hc
    simp only [Node.prunes, Node.walks, Node.walk, List.nil_append]
    exact prunes_find ks c hc h1 h2
  | .elem e es :: ks, c, hc, h1, h2 => by
    simp only [Node.walks, List.mem_append] at hc
    simp only [Node.prunes]
    rcases hc with hc | hc
    · obtain ⟨l, hl⟩ := walk_pos _ _ _ _ c hc
      have hn : ¬ (i :: pos) ∈ ps := by
        intro h
        rw [under_of_suffix h ⟨l, hl.symm⟩] at h1
        cases h1
      simp only [decide_eq_true_eq, if_neg hn, Node.walks, List.map_append, List.mem_append]
      exact Or.inl (prune_finds (.elem e es) c hc h1 h2)
    · split
      · exact prunes_find ks c hc h1 h2
      · simp only [Node.walks, List.map_append, List.mem_append]
        exact Or.inr (prunes_find ks c hc h1 h2)
end

theorem copies_find {t : Node} {c : Ctx} (hc : c ∈ t.elems) : ∀ (l : List Ctx) (done : List Pos), (∀ d ∈ l, d ∈ t.elems) →
    under (l.map (·.pos)) c = true → under done c = false →
    (∀ d ∈ Node.walks c.pos 0 c.env (c.e.tag :: c.anc) c.kids, d.pos ∉ done ∧ d.pos ∉ l.map (·.pos)) →
    ∃ q ∈ removedCopies t done (l.map (·.pos)), c.node ∈ q.elems.map Ctx.node
  | [], _, _, h, _, _ => by simp [under] at h
  | b :: l, done, hl, h, hd, hi => by
    have hb := hl b (by simp)
    simp only [List.map_cons, removedCopies, ctxAt_mem hb]
    by_cases hs : b.pos <:+ c.pos
    · refine ⟨_, List.mem_cons_self, ?_⟩
      have hm := walk_under t hb hc hs
      have : c ∈ (Node.elem b.e b.kids).walk b.pos (b.env.drop b.e.decls.length) b.anc ∨ c ∈ b :: Node.walks b.pos 0 b.env (b.e.tag :: b.anc) b.kids :=
        Or.inr hm
      have hin := fun d hd => (hi d hd).1
      rcases List.mem_cons.1 hm with rfl | hm
      · show c.node ∈ ((Node.elem c.e (Node.prunes _ c.pos 0 c.kids)).walk [] [] []).map Ctx.node
        rw [(prune_nowhere (ps := done) _).2 c.kids (Nat.le_refl _) hin]
        simp [Node.walk, Ctx.node]
      · show c.node ∈ ((Node.elem b.e (Node.prunes _ b.pos 0 b.kids)).walk [] [] []).map Ctx.node
        simp only [Node.walk, List.map_cons, List.mem_cons]
        exact Or.inr (prunes_find b.kids c hm hd hin)
    · obtain ⟨q, hq, hp⟩ := copies_find hc l (b.pos :: done) (fun d hd => hl d (by simp [hd]))
        (by simpa [under, hs] using h) (by simp only [under, List.any_cons, decide_eq_false hs, Bool.false_or]; exact hd)
        (fun d hd => by
          have := hi d hd
          simp only [List.map_cons, List.mem_cons, not_or] at this ⊢
          exact ⟨⟨this.2.1, this.1⟩, this.2.2⟩)
      exact ⟨q, List.mem_cons_of_mem _ hq, hp⟩

/-! ## Helpers: cleaning -/

/-- `plainTypes` for one element. -/
def NoInstance (e : Elem) : Prop := ∀ v, e.get? ⟨some "http://www.w3.org/2001/XMLSchema-instance", "type"⟩ = some v →
  occursIn "InstanceType".toList v.toList = false

theorem plainTypes_all {p : Node} (h : plainTypes p = true) : p.All NoInstance := by
  rw [all_elems]
  intro c hc v hv
  unfold plainTypes at h
  rw [List.all_eq_true] at h
  have := List.all_eq_true.1 (h c hc) _ (mem_of_get? hv)
  simp only [decide_true, Bool.true_and, Bool.not_eq_true'] at this
  exact this

theorem noInstance_typed {c : Ctx} (h : NoInstance c.e) {p ty ns : String} (ht : c.TypedAs p ty ns) :
    occursIn "InstanceType".toList ty.toList = false := by
  obtain ⟨v, hv, ⟨rfl, _, _⟩, _⟩ := ht
  have := h _ hv
  cases hx : occursIn "InstanceType".toList ty.toList with
  | false => rfl
  | true =>
    rw [String.toList_append, occurs_append _ _ _ hx] at this
    exact absurd this (by simp)

theorem known_own : ∀ n ∈ known101, ownSpace n = true := by
  unfold known101 known201
  simp only [List.cons_append, List.nil_append]
  own_spaces

theorem known_stix (n : String) (h : n ∈ known201) : n ∈ known101 := by
  unfold known101
  exact List.mem_append_right _ h

/-- What is reported is an element of the languages or declared to be an instance. -/
theorem reported_own {w : World} {u : Updater} {rules : List Rule} {nss : Option (List String)} {ty : Bool} {V : Node → Prop}
    (hu : StepRules w u rules nss ty V) {t : Node} {c : Ctx} (hc : c ∈ t.elems) (h : Untranslatable rules t c) :
    foreignName c.e.tag = false ∨ ∃ p ty ns, c.TypedAs p ty ns ∧ occursIn "InstanceType".toList ty.toList = true := by
  have h201 : Untranslatable rules201 t c → foreignName c.e.tag = false := by
    rintro ⟨r, hr, hb⟩
    simp only [rules201, List.mem_cons, List.not_mem_nil, or_false] at hr
    rcases hr with rfl | rfl | rfl | rfl
    · rw [hb.2]; own_name
    · rw [hb.2]; own_name
    · rw [hb.1]; own_name
    · rw [hb.1.2]; own_name
  have inst : ∀ {l : List Char} {p ns : String}, c.TypedAs p (String.ofList l) ns →
      occursIn ['I', 'n', 's', 't', 'a', 'n', 'c', 'e', 'T', 'y', 'p', 'e'] l = true →
      ∃ p ty ns, c.TypedAs p ty ns ∧ occursIn "InstanceType".toList ty.toList = true := fun h h' =>
    ⟨_, _, _, h, occursIn_ofList _ _ h'⟩
  obtain ⟨r, hr, hb⟩ := h
  cases hu with
  | cybox20 => cases hr
  | cybox201 => exact Or.inl (h201 ⟨r, hr, hb⟩)
  | stix10 =>
    simp only [rules10, List.mem_cons, List.not_mem_nil, or_false] at hr
    rcases hr with rfl | rfl | rfl | rfl
    · obtain ⟨_, p, hp⟩ := hb
      exact Or.inr (inst hp (by decide +kernel))
    · obtain ⟨_, p, hp⟩ := hb
      exact Or.inr (inst hp (by decide +kernel))
    · left; rw [hb.1.2]; own_name
    · left; rw [hb.1.2]; own_name
  | stix101 =>
    rw [List.mem_append] at hr
    rcases hr with hr | hr
    · simp only [rules101, List.mem_cons, List.not_mem_nil, or_false] at hr
      rcases hr with rfl | rfl | rfl | rfl | rfl
      · obtain ⟨_, p, hp⟩ := hb
        exact Or.inr (inst hp (by decide +kernel))
      · obtain ⟨_, p, hp⟩ := hb
        exact Or.inr (inst hp (by decide +kernel))
      · obtain ⟨d, hd, ⟨_, ⟨q, qs, ha⟩, _⟩, i, hi⟩ := hb
        have := (elems_childOf hc hd hi).2.2.1
        rw [ha] at this
        left
        rw [← (List.cons.inj this).1]; own_name
      · left; rw [hb.1.2]; own_name
      · left; rw [hb.1.2]; own_name
    · exact Or.inl (h201 ⟨r, hr, hb⟩)
  | stix11 => cases hr
  | stix111 => cases hr
  | stix12 => cases hr

theorem dup_own {w : World} {u : Updater} {rules : List Rule} {nss : Option (List String)} {ty : Bool} {V : Node → Prop}
    (hu : StepRules w u rules nss ty V) {t : Node} {c : Ctx} (h : DupAt nss t c) : ¬ Alien c.e := by
  obtain ⟨ns, i, rfl, ⟨_, ⟨n, hn, ht⟩, _⟩, _⟩ := h
  intro ha
  have := alien_name ha
  have ho : n ∈ known101 := by
    cases hu with
    | cybox201 => exact known_stix n hn
    | stix101 => exact hn
  simp [foreignName, ht, known_own n ho] at this

theorem clean_accounts {w : World} {u : Updater} {rules : List Rule} {nss : Option (List String)} {ty : Bool} {V : Node → Prop}
    (hu : StepRules w u rules nss ty V) {o : Options} {k k' : Nat} {t : Node} {r : Result} (hcl : clean u o k t = .ok (r, k'))
    {p : Node} (hp : p ∈ t.foreignParts) (hn : plainTypes p = true) : Accounted r p := by
  obtain ⟨F, l, ν, n, hF, hl, h1, h2, h3, h4, _⟩ := clean_spec hu hcl
  unfold Node.foreignParts at hp
  rw [List.mem_filter] at hp
  obtain ⟨hp, hpart⟩ := hp
  obtain ⟨c, hcd, rfl⟩ := List.mem_map.1 hp
  obtain ⟨hc, hne⟩ := mem_descs_iff.1 hcd
  have hal : c.node.All Alien := (part_iff.1 hpart).1
  have hF0 : ∀ d ∈ t.elems, Alien d.e → F d = d.e := fun d hd ha => h2 d hd (fun hD => dup_own hu hD ha)
  -- the same part in the document with new ids
  have hk : Node.mapCtxs F c.pos 0 c.env (c.e.tag :: c.anc) c.kids = c.kids :=
    aliens_mapCtxs c.kids hal.2 (fun d hd ha => hF0 d (elems_below hc hd) ha)
  have hupd : c.upd F = c := by
    unfold Ctx.upd
    rw [hk, hF0 c hc hal.1]
  have hc1 : c ∈ (t.edit F).elems := by
    rw [elems_edit hF]
    exact List.mem_map.2 ⟨c, hc, hupd⟩
  have hno : ∀ d ∈ t.elems, Alien d.e → NoInstance d.e → d.pos ∉ l.map (·.pos) := by
    intro d hd ha hi hm
    obtain ⟨b, hb, hbp⟩ := List.mem_map.1 hm
    have hbt := (reportsAll_mem hl b).1 hb
    have e : b = d := elems_pos_inj hbt.1 hd hbp
    subst e
    rcases reported_own hu hd hbt.2 with h | ⟨p, ty, ns, ht, ho⟩
    · rw [alien_name ha] at h; cases h
    · rw [noInstance_typed hi ht] at ho; cases ho
  have hin : ∀ d ∈ Node.walks c.pos 0 c.env (c.e.tag :: c.anc) c.kids, d.pos ∉ l.map (·.pos) := fun d hd =>
    hno d (elems_below hc hd) (all_of_walks c.kids hal.2 d hd).1 (all_of_walks c.kids (plainTypes_all hn).2 d hd).1
  have hps : (l.map (Ctx.upd F)).map (·.pos) = l.map (·.pos) := by
    rw [List.map_map]; rfl
  have hlt : ∀ b ∈ l, b ∈ t.elems := fun b hb => ((reportsAll_mem hl b).1 hb).1
  have hcp : removedCopies (t.edit F) [] (l.map (·.pos)) = copies F [] l := removedCopies_eq hF l [] hlt
  cases hun : under (l.map (·.pos)) c with
  | true =>
    refine Or.inr ?_
    obtain ⟨q, hq, hqc⟩ := copies_find hc1 (l.map (Ctx.upd F)) [] (fun b hb => by
        obtain ⟨d, hd, rfl⟩ := List.mem_map.1 hb
        rw [elems_edit hF]
        exact List.mem_map.2 ⟨d, hlt d hd, rfl⟩) (by rw [hps]; exact hun) (by simp [under])
      (fun d hd => ⟨by simp, by rw [hps]; exact hin d hd⟩)
    rw [hps, hcp, ← h4] at hq
    exact ⟨q, hq, hqc⟩
  | false =>
    refine Or.inl ?_
    unfold Node.foreignParts
    rw [List.mem_filter]
    refine ⟨?_, hpart⟩
    rw [h3, ← removeAll_without]
    have hcd1 : c ∈ (t.edit F).descs := mem_descs_iff.2 ⟨hc1, hne⟩
    generalize t.edit F = x at hcd1
    cases x with
    | other _ _ => simp [Node.descs, Node.elems, Node.walk] at hcd1
    | elem e ks =>
      rw [descs_elem] at hcd1
      unfold Node.removeAll
      simp only [Node.prune]
      rw [descs_elem]
      exact prunes_find ks c hcd1 hun hin

theorem clean_fit {w : World} {u : Updater} {rules : List Rule} {nss : Option (List String)} {ty : Bool} {V : Node → Prop}
    (hu : StepRules w u rules nss ty V) {o : Options} {k k' : Nat} {t : Node} {r : Result} (hcl : clean u o k t = .ok (r, k'))
    (h : t.Fit none) : r.doc.Fit none := by
  obtain ⟨F, l, ν, n, hF, hl, h1, h2, h3, _⟩ := clean_spec hu hcl
  rw [h3]
  exact fit_pruneCtx (fit_rel (narrower_refl _) (rel_mapCtx (fun c => roleKept_tag (hF c).1) [] [] [] t) h)

/-! ## Helpers: chains -/

/-- An invariant of the results along a chain. -/
theorem chain_results {reg : List (String × Updater)} {o : Options} {force : Bool} (I : List String → Result → Prop) :
    ∀ (vs done : List String) (acc r : Result) (k k' : Nat), chainLoop reg o force vs acc k = .ok (r, k') → I done acc →
    (∀ pre v post u acc k1 k2 r1, done ++ vs = pre ++ v :: post → assoc reg v = some u →
      stepUpdate u o force k1 acc.doc = .ok (r1, k2) → I pre acc →
      I (pre ++ [v]) ⟨r1.doc, acc.removed ++ r1.removed, dictUpdate acc.remapped r1.remapped⟩) → I (done ++ vs) r
  | [], done, acc, r, k, k', h, hi, _ => by cases h; simpa using hi
  | v :: vs, done, acc, r, k, k', h, hi, hstep => by
    simp only [chainLoop] at h
    split at h
    · cases h
    · next u hu =>
      split at h
      · cases h
      · next r1 k1 h1 =>
        have := chain_results I vs (done ++ [v]) _ r k1 k' h (hstep done v vs u _ _ _ r1 rfl hu h1 hi)
          (fun pre x post u acc a b r2 e => hstep pre x post u acc a b r2 (by rw [← e]; simp))
        simpa using this

/-- What holds between the steps `pre` and the rest. -/
def AccountedSoFar (t : Node) (pre : List String) (r : Result) : Prop :=
  (∀ p ∈ t.foreignParts, plainTypes p = true → Accounted r p) ∧
  ((∀ x ∈ pre, x ∈ ["1.0", "1.0.1", "2.0", "2.0.1"]) → r.doc.Fit none) ∧ (pre = [] → r.doc = t)

theorem commasOwn_clean {w : World} {u : Updater} {rules : List Rule} {nss : Option (List String)} {ty : Bool} {V : Node → Prop}
    (hu : StepRules w u rules nss ty V) {o : Options} {k k' : Nat} {t : Node} {r : Result} (hcl : clean u o k t = .ok (r, k'))
    (h : CommasOwn t) : CommasOwn r.doc := by
  obtain ⟨F, l, ν, n, hF, hl, h1, h2, h3, _⟩ := clean_spec hu hcl
  rw [h3]
  intro c hc hf hp s hs
  obtain ⟨b, hb, e1, _, e3, _⟩ := mem_without hc
  rw [elems_edit hF] at hb
  obtain ⟨d, hd, rfl⟩ := List.mem_map.1 hb
  have hs' := clean_same h1 h2 d hd
  have et : c.e.tag = d.e.tag := by rw [e1]; exact (hF d).1
  have ex : c.e.text = d.e.text := by rw [e1]; exact hs'.2.2.1
  exact h d hd (by rw [← et]; exact hf) (by rw [← show c.anc = d.anc from e3]; exact hp) s (by rw [← ex]; exact hs)

/-- One step of a chain: what the updater does to the cleaned document. -/
theorem accounted_step {w : World} {u : Updater} {rules : List Rule} {nss : Option (List String)} {ty : Bool} {V : Node → Prop}
    (hu : StepRules w u rules nss ty V) {t : Node} {pre : List String} {v : String} {acc r : Result} {o : Options} {force : Bool}
    {k k' : Nat} (hi : AccountedSoFar t pre acc) (h : stepUpdate u o force k acc.doc = .ok (r, k'))
    (hstep : ∀ d, (d = acc.doc ∨ ∃ r0 k0, clean u o k acc.doc = .ok (r0, k0) ∧ d = r0.doc) → u.update o d = .ok r.doc →
      ((∀ x ∈ pre, x ∈ ["1.0", "1.0.1", "2.0", "2.0.1"]) → d.Fit none) → PartsKept d r.doc ∧
        ((∀ x ∈ pre ++ [v], x ∈ ["1.0", "1.0.1", "2.0", "2.0.1"]) → r.doc.Fit none)) :
    AccountedSoFar t (pre ++ [v]) ⟨r.doc, acc.removed ++ r.removed, dictUpdate acc.remapped r.remapped⟩ := by
  obtain ⟨r1, hup, hrem, _, hcl⟩ := step_parts h
  have hd : r1.doc = acc.doc ∨ ∃ r0 k0, clean u o k acc.doc = .ok (r0, k0) ∧ r1.doc = r0.doc := by
    rcases hcl with ⟨rfl, _⟩ | hcl
    · exact Or.inl rfl
    · exact Or.inr ⟨_, _, hcl, rfl⟩
  obtain ⟨hk, hf⟩ := hstep r1.doc hd hup (fun hp => by
    rcases hcl with ⟨rfl, _⟩ | hcl
    · exact hi.2.1 hp
    · exact clean_fit hu hcl (hi.2.1 hp))
  refine ⟨fun p hp hn => ?_, hf, fun e => absurd e (by simp)⟩
  rcases hi.1 p hp hn with h0 | ⟨q, hq, h0⟩
  · have : Accounted r1 p := by
      rcases hcl with ⟨rfl, _⟩ | hcl
      · exact Or.inl h0
      · exact clean_accounts hu hcl h0 hn
    rcases this with h1 | ⟨q, hq, h1⟩
    · exact Or.inl (hk.subset h1)
    · exact Or.inr ⟨q, List.mem_append_right _ (hrem ▸ hq), h1⟩
  · exact Or.inr ⟨q, List.mem_append_left _ hq, h0⟩

/-! ## C56, forced updates -/

/-- C56, STIX, forced or not: every part of the document below the root that is foreign throughout, with some text or attribute in
it, is in the result as it was or in an element reported as removed.  Partial: as `C56_stix_partial`; and the part must not be
declared to be an instance of a malware or attack pattern language, because those are removed on their own
(`C56_instance_fails`). -/
theorem C56_stix_forced_partial (w : World) (t : Node) (from_ to_ : Option String) (s g : String)
    (hs : inForce from_ (stixRootVersion t) = some s) (hg : inForce to_ (some "1.2.1") = some g) (hsg : Older stixReleases s g)
    (h1 : Sheltered t) (h2 : s = "1.0" → CommasOwn t) (o : Options) (force : Bool) (k k' : Nat) (r : Result)
    (h : stixUpdate w t from_ to_ o force k = .ok (r, k')) :
    ∀ p ∈ t.foreignParts, plainTypes p = true → Accounted r p := by
  rw [stixUpdate_accepted w t o force k hs hg hsg] at h
  obtain ⟨hm1, hm2⟩ := older_mem hsg
  obtain ⟨hp, hq⟩ := stix_early s hm1 g hm2
  refine (chain_results (AccountedSoFar t) _ [] _ r k k' h ⟨fun p hp _ => Or.inl hp, fun _ => fit_of h1, fun _ => rfl⟩ ?_).1
  intro pre v post u acc k1 k2 r1 e hu hstep hi
  rw [List.nil_append] at e
  have hc : v = "1.0" → CommasOwn t := fun ev => h2 (hq (by rw [e, ev]; simp))
  rw [e] at hp
  have hp' := fun x hx => (List.pairwise_append.1 hp).2.2 x hx v (by simp)
  have hm := assoc_mem hu
  simp only [stixUpdaters, List.mem_cons, Prod.mk.injEq, List.not_mem_nil, or_false] at hm
  rcases hm with ⟨rfl, rfl⟩ | ⟨rfl, rfl⟩ | ⟨rfl, rfl⟩ | ⟨rfl, rfl⟩ | ⟨rfl, rfl⟩
  · have hnil : pre = [] := by
      cases pre with
      | nil => rfl
      | cons x xs => exact absurd rfl (hp' x (by simp)).1
    refine accounted_step (w := w) .stix10 hi hstep (fun d hd hup hf => ?_)
    have hco : CommasOwn d := by
      rcases hd with rfl | ⟨r0, k0, hcl, rfl⟩
      · rw [hi.2.2 hnil]; exact hc rfl
      · exact commasOwn_clean (w := w) .stix10 hcl (by rw [hi.2.2 hnil]; exact hc rfl)
    have := conveys_update10 hup hco (hf (by rw [hnil]; simp))
    exact ⟨this.1, fun _ => this.2⟩
  · refine accounted_step (w := w) .stix101 hi hstep (fun d hd hup hf => ?_)
    have := conveys_update101 hup (hf (fun x hx => (hp' x hx).2 (by decide)))
    exact ⟨this.1, fun _ => this.2⟩
  · refine accounted_step (w := w) .stix11 hi hstep (fun d hd hup hf => ⟨?_, fun e => absurd (e "1.1" (by simp)) (by decide)⟩)
    exact parts_update11 hup (hf (fun x hx => (hp' x hx).2 (by decide)))
  · exact accounted_step (w := w) .stix111 hi hstep (fun d hd hup hf =>
      ⟨parts_update111 hup, fun e => absurd (e "1.1.1" (by simp)) (by decide)⟩)
  · exact accounted_step (w := w) .stix12 hi hstep (fun d hd hup hf =>
      ⟨parts_update12 (o := o) hup, fun e => absurd (e "1.2" (by simp)) (by decide)⟩)

/-- C56, CybOX, forced or not: the same for CybOX documents. -/
theorem C56_cybox_forced_partial (t : Node) (from_ to_ : Option String) (s g : String) (hs : cyboxSource t from_ = .ok (some s))
    (hg : inForce to_ (some "2.1") = some g) (hsg : Older cyboxReleases s g) (h1 : Sheltered t) (h2 : s = "2.0" → CommasOwn t)
    (o : Options) (force : Bool) (k k' : Nat) (r : Result) (h : cyboxUpdate t from_ to_ o force k = .ok (r, k')) :
    ∀ p ∈ t.foreignParts, plainTypes p = true → Accounted r p := by
  rw [cyboxUpdate_accepted t o force k hs hg hsg] at h
  obtain ⟨hm1, hm2⟩ := older_mem hsg
  obtain ⟨hp, hq⟩ := cybox_early s hm1 g hm2
  refine (chain_results (AccountedSoFar t) _ [] _ r k k' h ⟨fun p hp _ => Or.inl hp, fun _ => fit_of h1, fun _ => rfl⟩ ?_).1
  intro pre v post u acc k1 k2 r1 e hu hstep hi
  rw [List.nil_append] at e
  have hc : v = "2.0" → CommasOwn t := fun ev => h2 (hq (by rw [e, ev]; simp))
  rw [e] at hp
  have hp' := fun x hx => (List.pairwise_append.1 hp).2.2 x hx v (by simp)
  have hm := assoc_mem hu
  simp only [cyboxUpdaters, List.mem_cons, Prod.mk.injEq, List.not_mem_nil, or_false] at hm
  rcases hm with ⟨rfl, rfl⟩ | ⟨rfl, rfl⟩
  · have hnil : pre = [] := by
      cases pre with
      | nil => rfl
      | cons x xs => exact absurd rfl (hp' x (by simp)).1
    refine accounted_step (w := w0) .cybox20 hi hstep (fun d hd hup hf => ?_)
    have hco : CommasOwn d := by
      rcases hd with rfl | ⟨r0, k0, hcl, rfl⟩
      · rw [hi.2.2 hnil]; exact hc rfl
      · exact commasOwn_clean (w := w0) .cybox20 hcl (by rw [hi.2.2 hnil]; exact hc rfl)
    have := conveys_update20 (by decide +kernel) (ownAlts_of (by decide +kernel)) hup hco (hf (by rw [hnil]; simp))
    exact ⟨this.1, fun _ => this.2⟩
  · refine accounted_step (w := w0) .cybox201 hi hstep (fun d hd hup hf => ?_)
    have := conveys_update201 (ownAlts_of (by decide +kernel)) hup (hf (fun x hx => (hp' x hx).2))
    exact ⟨this.1, fun _ => this.2⟩

/-- A CybOX 2.0.1 document with a foreign element in untranslatable content and one outside. -/
def docAlienForced : Node :=
  cyboxDoc v201 [el nsHTTPSession "X_Forwarded_Proto" [] [alienSize], el nsCyboxCore "Observable" [] [el "urn:x" "Note" [at_ "id" "n"] []]]

example : cyboxSource docAlienForced none = .ok (some "2.0.1") ∧ Older cyboxReleases "2.0.1" "2.1" ∧ Sheltered docAlienForced ∧
    alienSize ∈ docAlienForced.foreignParts ∧ plainTypes alienSize = true ∧
    el "urn:x" "Note" [at_ "id" "n"] [] ∈ docAlienForced.foreignParts ∧
    ∃ r, cyboxUpdate docAlienForced none none o0 true 0 = .ok r ∧
      r.1.doc.elems.map (fun c => c.e.tag.name) = ["Observables", "Observable", "Note"] ∧
      r.1.removed.flatMap (fun n => n.elems.map (fun c => c.e.tag.name)) = ["X_Forwarded_Proto", "Size"] :=
  ⟨by decide +kernel, (older_iff cybox_nodup (by decide) (by decide)).2 (by decide), by decide +kernel,
    foreignParts_mem (by decide +kernel) (by decide +kernel), by decide +kernel,
    foreignParts_mem (by decide +kernel) (by decide +kernel), ok_of_eval (by decide +kernel)⟩

/-- A 1.0.1 package with a foreign element in untranslatable content. -/
def docAlienForcedStix : Node :=
  stixDoc "1.0.1" [el nsHTTPSession "X_Forwarded_Proto" [] [alienSize], alienNote]

example : inForce none (stixRootVersion docAlienForcedStix) = some "1.0.1" ∧ Older stixReleases "1.0.1" "1.1" ∧
    Sheltered docAlienForcedStix ∧ alienSize ∈ docAlienForcedStix.foreignParts ∧ plainTypes alienSize = true ∧
    ∃ r, stixUpdate w0 docAlienForcedStix none (some "1.1") o0 true 0 = .ok r ∧
      r.1.doc.elems.map (fun c => c.e.tag.name) = ["STIX_Package", "Note", "By"] ∧
      r.1.removed.flatMap (fun n => n.elems.map (fun c => c.e.tag.name)) = ["X_Forwarded_Proto", "Size"] :=
  ⟨by decide +kernel, (older_iff stix_nodup (by decide) (by decide)).2 (by decide), by decide +kernel,
    foreignParts_mem (by decide +kernel) (by decide +kernel), by decide +kernel, ok_of_eval (by decide +kernel)⟩

/-- A foreign element with a child that is declared to be a malware instance. -/
def alienInstance : Node :=
  .elem ⟨⟨some "urn:x", "Box"⟩, [(some "m", "http://stix.mitre.org/extensions/Malware#MAEC4.0-1")], [at_ "id" "b"], none, none⟩
    [el "urn:x" "Inner" [xsiType "m:MAEC4.0InstanceType"] []]

/-- C56, negation: a foreign part that holds an element declared to be a malware instance is not kept as it was. -/
theorem C56_instance_fails : Sheltered (stixDoc "1.0.1" [alienInstance]) ∧
    inForce none (stixRootVersion (stixDoc "1.0.1" [alienInstance])) = some "1.0.1" ∧
    alienInstance ∈ (stixDoc "1.0.1" [alienInstance]).foreignParts ∧
    ∃ r, stixUpdate w0 (stixDoc "1.0.1" [alienInstance]) none (some "1.1") o0 true 0 = .ok r ∧
      alienInstance ∉ r.1.doc.elems.map Ctx.node ∧ ∀ q ∈ r.1.removed, alienInstance ∉ q.elems.map Ctx.node :=
  ⟨by decide +kernel, by decide +kernel, foreignParts_mem (by decide +kernel) (by decide +kernel), ok_of_eval (by decide +kernel)⟩

end Ramrod

import Verif.Lemmas.Errors
import Verif.Lemmas.Dict
/-!
# The table of duplicate ids has distinct keys
-/

namespace Ramrod

theorem eraseDupsBy_loop_nodup (as : List String) : ∀ (bs : List String), bs.Nodup →
    (List.eraseDupsBy.loop (· == ·) as bs).Nodup := by
  induction as with
  | nil =>
    intro bs h
    simp only [List.eraseDupsBy.loop, List.Nodup, List.pairwise_reverse]
    exact h.imp (fun hab => Ne.symm hab)
  | cons a as ih =>
    intro bs h
    simp only [List.eraseDupsBy.loop]
    split
    · exact ih bs h
    · next hn =>
      apply ih
      rw [List.nodup_cons]
      refine ⟨?_, h⟩
      intro hm
      have : bs.any (fun b => a == b) = true := List.any_eq_true.2 ⟨a, hm, by simp⟩
      rw [this] at hn; cases hn

theorem eraseDups_nodup (l : List String) : l.eraseDups.Nodup := eraseDupsBy_loop_nodup l [] List.nodup_nil

theorem groupDups_nodup (cs : List Ctx) : KeysNodup (groupDups cs) := by
  unfold groupDups KeysNodup
  simp only
  refine List.Nodup.sublist (List.Sublist.map _ List.filter_sublist) ?_
  rw [List.map_map]
  have : ((fun x : String × List Ctx => x.1) ∘
      fun i => (i, cs.filter (fun c => decide (c.e.get? attrId = some i)))) = id := by
    funext i; rfl
  rw [this, List.map_id]
  exact eraseDups_nodup _

theorem duplicates_nodup {w : World} {u : Updater} (h : Registered w u) {t : Node} {d : Dups}
    (hd : u.duplicates t = some d) : KeysNodup d := by
  cases h with
  | cybox20 => cases hd
  | cybox201 => cases hd; exact groupDups_nodup _
  | stix10 => cases hd
  | stix101 => cases hd; exact dictUpdate_nodup (groupDups_nodup _) _
  | stix11 => cases hd
  | stix111 => cases hd
  | stix12 => cases hd; exact groupDups_nodup _

theorem cleanDuplicates_keys (gen : Nat → String → String) : ∀ (d : Dups) (k : Nat) (t : Node),
    (cleanDuplicates gen d k t).2.2.map (·.1) = d.map (·.1)
  | [], _, _ => rfl
  | g :: gs, k, t => by simp [cleanDuplicates, cleanDuplicates_keys gen gs]

theorem clean_remapped_nodup {w : World} {u : Updater} (h : Registered w u) {o : Options} {k k' : Nat}
    {t : Node} {r : Result} (hc : clean u o k t = .ok (r, k')) : KeysNodup r.remapped := by
  simp only [clean] at hc
  split at hc
  · cases hc
  · cases hd : u.duplicates t with
    | none =>
      rw [hd] at hc
      simp only [Except.ok.injEq, Prod.mk.injEq] at hc
      rw [← hc.1]; exact keysNodup_nil
    | some d =>
      rw [hd] at hc
      simp only [Except.ok.injEq, Prod.mk.injEq] at hc
      rw [← hc.1]
      unfold KeysNodup
      simp only
      rw [cleanDuplicates_keys]
      exact duplicates_nodup h hd

theorem step_remapped_nodup {w : World} {u : Updater} (h : Registered w u) {o : Options} {force : Bool}
    {k k' : Nat} {t : Node} {r : Result} (hs : stepUpdate u o force k t = .ok (r, k')) :
    KeysNodup r.remapped := by
  simp only [stepUpdate] at hs
  split at hs
  · simp only [Except.ok.injEq, Prod.mk.injEq] at hs; rw [← hs.1]; exact keysNodup_nil
  · split at hs
    · simp only [forceUpdate] at hs
      split at hs
      · cases hs
      · next hc =>
        split at hs
        · cases hs
        · simp only [Except.ok.injEq, Prod.mk.injEq] at hs
          rw [← hs.1]
          have := clean_remapped_nodup h hc
          exact this
    · cases hs

end Ramrod

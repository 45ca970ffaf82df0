import Verif.Stix
/-!
# C34: version comparison
-/

namespace Ramrod

/-! ## Specification: well-formed version strings and their order -/

/-- A non-empty string of decimal digits. -/
def Digits (ds : List Char) : Prop := ds ≠ [] ∧ ∀ c ∈ ds, '0' ≤ c ∧ c ≤ '9'

/-- Its decimal value. -/
def decVal : List Char → Nat
  | [] => 0
  | c :: cs => (c.toNat - '0'.toNat) * 10 ^ cs.length + decVal cs

/-- The optional pre-release suffix `aN` / `bN` (a final newline is tolerated). -/
inductive PreForm : List Char → Option (Bool × Nat) → Prop
  | none : PreForm [] none
  | noneNl : PreForm ['\n'] none
  | some {ds : List Char} (b : Bool) : Digits ds →
      PreForm ((if b then 'b' else 'a') :: ds) (some (b, decVal ds))
  | someNl {ds : List Char} (b : Bool) : Digits ds →
      PreForm ((if b then 'b' else 'a') :: ds ++ ['\n']) (some (b, decVal ds))

/-- `s` is the well-formed version with the given numbers: `MAJOR.MINOR[.PATCH][aN|bN]`. -/
inductive VersionForm : String → Ver → Prop
  | short {ma mi r p} : Digits ma → Digits mi → PreForm r p →
      VersionForm (String.ofList (ma ++ '.' :: (mi ++ r))) ⟨decVal ma, decVal mi, 0, p⟩
  | long {ma mi pa r p} : Digits ma → Digits mi → Digits pa → PreForm r p →
      VersionForm (String.ofList (ma ++ '.' :: (mi ++ '.' :: (pa ++ r)))) ⟨decVal ma, decVal mi, decVal pa, p⟩

/-- A pre-release is older than the release; `aN` is older than `bM`. -/
def PreOlder : Option (Bool × Nat) → Option (Bool × Nat) → Prop
  | some _, none => True
  | some (b, n), some (b', n') => (b = false ∧ b' = true) ∨ (b = b' ∧ n < n')
  | _, _ => False

/-- Release order: first differing number decides, then the pre-release suffix. -/
def VerOlder (a b : Ver) : Prop :=
  a.major < b.major ∨ (a.major = b.major ∧ (a.minor < b.minor ∨ (a.minor = b.minor ∧
    (a.patch < b.patch ∨ (a.patch = b.patch ∧ PreOlder a.pre b.pre)))))

/-! ## Helpers -/

theorem isDigitC_iff (c : Char) : isDigitC c = true ↔ '0' ≤ c ∧ c ≤ '9' := by
  simp only [isDigitC, Bool.and_eq_true, decide_eq_true_eq, Char.le_def]
  rfl

theorem natOfDigits_foldl (cs : List Char) : ∀ n,
    cs.foldl (fun n c => 10 * n + (c.toNat - '0'.toNat)) n = n * 10 ^ cs.length + decVal cs := by
  induction cs with
  | nil => intro n; simp [decVal]
  | cons c cs ih =>
    intro n
    simp only [List.foldl_cons, ih, decVal, List.length_cons, Nat.pow_succ, Nat.add_mul]
    have : 10 * n * 10 ^ cs.length = n * (10 ^ cs.length * 10) := by
      rw [Nat.mul_comm 10 n, Nat.mul_assoc, Nat.mul_comm 10]
    omega

theorem natOfDigits_eq (cs : List Char) : natOfDigits cs = decVal cs := by
  rw [natOfDigits, natOfDigits_foldl]; simp

theorem takeNum_some {cs r : List Char} {n : Nat} (h : takeNum cs = some (n, r)) :
    ∃ ds, Digits ds ∧ cs = ds ++ r ∧ n = decVal ds := by
  unfold takeNum at h
  split at h
  · cases h
  · next ds hne =>
    simp only [Option.some.injEq, Prod.mk.injEq] at h
    refine ⟨cs.takeWhile isDigitC, ⟨hne, ?_⟩, ?_, ?_⟩
    · intro c hc
      have : (cs.takeWhile isDigitC).all isDigitC = true := List.all_takeWhile
      exact (isDigitC_iff c).1 (List.all_eq_true.1 this c hc)
    · rw [← h.2]; exact List.takeWhile_append_dropWhile.symm
    · rw [← h.1, natOfDigits_eq]

/-- The rest does not begin with a digit. -/
def NoDigitHead : List Char → Prop
  | [] => True
  | c :: _ => isDigitC c = false

theorem takeNum_digits {ds r : List Char} (h : Digits ds) (hr : NoDigitHead r) :
    takeNum (ds ++ r) = some (decVal ds, r) := by
  have h1 : (ds ++ r).takeWhile isDigitC = ds := by
    rw [List.takeWhile_append_of_pos (fun c hc => (isDigitC_iff c).2 (h.2 c hc))]
    cases r with
    | nil => simp
    | cons c cs => simp [show isDigitC c = false from hr]
  have h2 : (ds ++ r).dropWhile isDigitC = r := by
    rw [List.dropWhile_append_of_pos (fun c hc => (isDigitC_iff c).2 (h.2 c hc))]
    cases r with
    | nil => rfl
    | cons c cs => simp [show isDigitC c = false from hr]
  unfold takeNum
  rw [h1, h2]
  cases ds with
  | nil => exact absurd rfl h.1
  | cons c cs => simp [natOfDigits_eq]

theorem preForm_noDigit {r : List Char} {p : Option (Bool × Nat)} (h : PreForm r p) : NoDigitHead r := by
  cases h with
  | none => trivial
  | noneNl => exact (by decide : isDigitC '\n' = false)
  | some b _ => cases b <;> simp [NoDigitHead, isDigitC]
  | someNl b _ => cases b <;> simp [NoDigitHead, isDigitC]

theorem parsePre_iff (r : List Char) (p : Option (Bool × Nat)) : parsePre r = some p ↔ PreForm r p := by
  constructor
  · intro h
    unfold parsePre at h
    split at h
    · cases h; exact .none
    · cases h; exact .noneNl
    · next c cs _ =>
      split at h
      · next hc =>
        have hc' : c = if (c == 'b') then 'b' else 'a' := by
          simp only [Bool.or_eq_true, beq_iff_eq] at hc
          rcases hc with rfl | rfl <;> rfl
        split at h
        · next n hn =>
          cases h
          obtain ⟨ds, hd, rfl, rfl⟩ := takeNum_some hn
          rw [hc', List.append_nil]
          have := PreForm.some (c == 'b') hd
          rw [hc'] at this
          have e : ((if (c == 'b') = true then 'b' else 'a') == 'b') = (c == 'b') := by
            cases (c == 'b') <;> rfl
          rw [e] at this ⊢
          exact this
        · next n hn =>
          cases h
          obtain ⟨ds, hd, rfl, rfl⟩ := takeNum_some hn
          rw [hc']
          have := PreForm.someNl (c == 'b') hd
          rw [hc'] at this
          have e : ((if (c == 'b') = true then 'b' else 'a') == 'b') = (c == 'b') := by
            cases (c == 'b') <;> rfl
          rw [e] at this ⊢
          exact this
        · cases h
      · cases h
  · intro h
    cases h with
    | none => rfl
    | noneNl => rfl
    | @some ds b hd =>
      have hne : ∀ b : Bool, (if b then 'b' else 'a') ≠ '\n' := by decide
      have ht := takeNum_digits (r := []) hd trivial
      rw [List.append_nil] at ht
      cases b <;> simp [parsePre, ht]
    | @someNl ds b hd =>
      have ht := takeNum_digits (r := ['\n']) hd (by decide : isDigitC '\n' = false)
      cases b <;> simp [parsePre, ht]

/-- The parser accepts exactly the well-formed strings and reads the numbers shown. -/
theorem parseVer_iff (s : String) (v : Ver) : parseVer s = some v ↔ VersionForm s v := by
  constructor
  · intro h
    have hs : s = String.ofList s.toList := (String.ofList_toList).symm
    unfold parseVer at h
    split at h
    · next ma r1 h1 =>
      obtain ⟨dma, hma, e1, rfl⟩ := takeNum_some h1
      split at h
      · next mi r2 h2 =>
        obtain ⟨dmi, hmi, rfl, rfl⟩ := takeNum_some h2
        split at h
        · next pa r3 h3 =>
          obtain ⟨dpa, hpa, rfl, rfl⟩ := takeNum_some h3
          cases hp : parsePre r3 with
          | none => rw [hp] at h; cases h
          | some p =>
            rw [hp] at h; cases h
            rw [hs, e1]
            exact .long hma hmi hpa ((parsePre_iff _ _).1 hp)
        · cases h
      · next mi r2 _ h2 =>
        obtain ⟨dmi, hmi, rfl, rfl⟩ := takeNum_some h2
        cases hp : parsePre r2 with
        | none => rw [hp] at h; cases h
        | some p =>
          rw [hp] at h; cases h
          rw [hs, e1]
          exact .short hma hmi ((parsePre_iff _ _).1 hp)
      · cases h
    · cases h
  · intro h
    have hdot : ∀ r, NoDigitHead ('.' :: r) := fun _ => (by decide : isDigitC '.' = false)
    cases h with
    | @short ma mi r p hma hmi hp =>
      have hpp := (parsePre_iff _ _).2 hp
      unfold parseVer
      rw [String.toList_ofList, takeNum_digits hma (hdot _)]
      simp only
      rw [takeNum_digits hmi (preForm_noDigit hp)]
      cases hp with
      | none => rfl
      | noneNl => rfl
      | some b hd => cases b <;> simp_all
      | someNl b hd => cases b <;> simp_all
    | @long ma mi pa r p hma hmi hpa hp =>
      have hpp := (parsePre_iff _ _).2 hp
      unfold parseVer
      rw [String.toList_ofList, takeNum_digits hma (hdot _)]
      simp only
      rw [takeNum_digits hmi (hdot _)]
      simp only
      rw [takeNum_digits hpa (preForm_noDigit hp)]
      simp [hpp]

theorem cmpPre_lt (a b : Option (Bool × Nat)) : cmpPre a b = .lt ↔ PreOlder a b := by
  rcases a with _ | ⟨x, n⟩ <;> rcases b with _ | ⟨y, m⟩ <;> simp [cmpPre, PreOlder]
  cases x <;> cases y <;> simp [Ordering.then_eq_lt, Nat.compare_eq_lt]

theorem cmpPre_eq (a b : Option (Bool × Nat)) : cmpPre a b = .eq ↔ a = b := by
  rcases a with _ | ⟨x, n⟩ <;> rcases b with _ | ⟨y, m⟩ <;> simp [cmpPre]
  cases x <;> cases y <;> simp

theorem cmp_lt (a b : Ver) : a.cmp b = .lt ↔ VerOlder a b := by
  simp only [Ver.cmp, Ordering.then_eq_lt, Ordering.then_eq_eq, Nat.compare_eq_lt, Nat.compare_eq_eq,
    cmpPre_lt, VerOlder]
  by_cases h : PreOlder a.pre b.pre <;> simp only [h, and_true, and_false, or_false] <;> omega

theorem cmp_eq (a b : Ver) : a.cmp b = .eq ↔ a = b := by
  simp only [Ver.cmp, Ordering.then_eq_eq, Nat.compare_eq_eq, cmpPre_eq]
  cases a; cases b
  simp [and_assoc]

theorem preOlder_trans {a b c : Option (Bool × Nat)} (h : PreOlder a b) (h' : PreOlder b c) : PreOlder a c := by
  rcases a with _ | ⟨x, n⟩ <;> rcases b with _ | ⟨y, m⟩ <;> rcases c with _ | ⟨z, k⟩ <;>
    simp [PreOlder] at h h' ⊢
  cases x <;> cases y <;> cases z <;> simp_all <;> omega

theorem preOlder_irrefl (a : Option (Bool × Nat)) : ¬ PreOlder a a := by
  rcases a with _ | ⟨x, n⟩ <;> simp [PreOlder]

theorem preOlder_total (a b : Option (Bool × Nat)) : PreOlder a b ∨ a = b ∨ PreOlder b a := by
  rcases a with _ | ⟨x, n⟩ <;> rcases b with _ | ⟨y, m⟩ <;> simp [PreOlder]
  cases x <;> cases y <;> simp <;> omega

/-! ## C34 -/

/-- C34: on well-formed versions, equality is "same numbers", an equivalence, and `1.1` equals `1.1.0`; a
malformed string raises `ValueError` in every comparison, on either side. -/
theorem C34_equality (x y : String) :
    (∀ a b, VersionForm x a → VersionForm y b →
      ∃ r, (isVersionEqual x y : Except Err Bool) = .ok r ∧ (r = true ↔ a = b)) ∧
    ((¬ ∃ a, VersionForm x a) ∨ (¬ ∃ b, VersionForm y b) →
      (isVersionEqual x y : Except Err Bool) = .error .valueError) := by
  constructor
  · intro a b ha hb
    refine ⟨a.cmp b == .eq, ?_, ?_⟩
    · simp [isVersionEqual, (parseVer_iff x a).2 ha, (parseVer_iff y b).2 hb]
    · rw [beq_iff_eq, cmp_eq]
  · intro h
    have no : ∀ s : String, (¬ ∃ a, VersionForm s a) → parseVer s = none := by
      intro s hs
      cases hp : parseVer s with
      | none => rfl
      | some v => exact absurd ⟨v, (parseVer_iff s v).1 hp⟩ hs
    rcases h with h | h
    · simp [isVersionEqual, no x h]
    · simp only [isVersionEqual, no y h]
      cases parseVer x <;> rfl

/-- A version without patch number equals the one with patch number 0, whatever the digits. -/
theorem C34_patch_zero {ma mi : List Char} (hma : Digits ma) (hmi : Digits mi) :
    (isVersionEqual (String.ofList (ma ++ '.' :: (mi ++ [])))
      (String.ofList (ma ++ '.' :: (mi ++ '.' :: (['0'] ++ [])))) : Except Err Bool) = .ok true := by
  have h0 : Digits ['0'] := ⟨by simp, by intro c hc; simp at hc; subst hc; decide⟩
  obtain ⟨r, hr, hiff⟩ := (C34_equality _ _).1 _ _ (.short hma hmi .none) (.long hma hmi h0 .none)
  have : r = true := hiff.2 rfl
  rw [hr, this]

/-- C34: the comparison is the release order: strict, transitive, total, consistent with equality, and a
well-formed string shows one version only. -/
theorem C34_order :
    (∀ a b : Ver, a.cmp b = .lt ↔ VerOlder a b) ∧ (∀ a b : Ver, a.cmp b = .eq ↔ a = b) ∧
    (∀ a b : Ver, a.cmp b = .gt ↔ VerOlder b a) ∧
    (∀ a : Ver, ¬ VerOlder a a) ∧ (∀ a b c : Ver, VerOlder a b → VerOlder b c → VerOlder a c) ∧
    (∀ a b : Ver, VerOlder a b ∨ a = b ∨ VerOlder b a) ∧
    (∀ s a b, VersionForm s a → VersionForm s b → a = b) := by
  have tot : ∀ a b : Ver, VerOlder a b ∨ a = b ∨ VerOlder b a := by
    intro a b
    rcases preOlder_total a.pre b.pre with h | h | h
    · simp only [VerOlder, h, and_true]; omega
    · by_cases e : a.major = b.major ∧ a.minor = b.minor ∧ a.patch = b.patch
      · right; left; cases a; cases b; simp_all
      · simp only [VerOlder]; omega
    · simp only [VerOlder, h, and_true]; omega
  have irr : ∀ a : Ver, ¬ VerOlder a a := by
    intro a h
    have := preOlder_irrefl a.pre
    simp only [VerOlder, this, and_false, or_false] at h
    omega
  have tra : ∀ a b c : Ver, VerOlder a b → VerOlder b c → VerOlder a c := by
    intro a b c h h'
    have := @preOlder_trans a.pre b.pre c.pre
    simp only [VerOlder] at *
    by_cases h1 : PreOlder a.pre b.pre <;> by_cases h2 : PreOlder b.pre c.pre <;>
      simp_all only [and_true, and_false, or_false, forall_const] <;>
      by_cases h3 : PreOlder a.pre c.pre <;> simp_all only [and_true, and_false, or_false] <;> omega
  refine ⟨cmp_lt, cmp_eq, ?_, irr, tra, tot, ?_⟩
  · intro a b
    constructor
    · intro h
      rcases tot a b with h1 | h1 | h1
      · rw [(cmp_lt a b).2 h1] at h; cases h
      · rw [(cmp_eq a b).2 h1] at h; cases h
      · exact h1
    · intro h
      cases hc : a.cmp b with
      | lt => exact absurd (tra _ _ _ h ((cmp_lt a b).1 hc)) (irr b)
      | eq => have := (cmp_eq a b).1 hc; subst this; exact absurd h (irr a)
      | gt => rfl
  · intro s a b ha hb
    have h1 := (parseVer_iff s a).2 ha
    have h2 := (parseVer_iff s b).2 hb
    rw [h1] at h2; exact Option.some.inj h2

/-- C34: the supported versions are in release order. -/
theorem C34_releases :
    stixVersions.Pairwise (fun x y => ∃ a b, VersionForm x a ∧ VersionForm y b ∧ VerOlder a b) ∧
    cyboxVersions.Pairwise (fun x y => ∃ a b, VersionForm x a ∧ VersionForm y b ∧ VerOlder a b) := by
  have h : ∀ l : List String, l.Pairwise (fun x y => ∃ a b, parseVer x = some a ∧ parseVer y = some b ∧
      a.cmp b = .lt) →
      l.Pairwise (fun x y => ∃ a b, VersionForm x a ∧ VersionForm y b ∧ VerOlder a b) := by
    intro l hl
    refine hl.imp ?_
    rintro x y ⟨a, b, ha, hb, hab⟩
    exact ⟨a, b, (parseVer_iff _ _).1 ha, (parseVer_iff _ _).1 hb, (cmp_lt a b).1 hab⟩
  have ex : ∀ x y : String, (match parseVer x, parseVer y with
      | some a, some b => a.cmp b == .lt | _, _ => false) = true →
      ∃ a b, parseVer x = some a ∧ parseVer y = some b ∧ a.cmp b = .lt := by
    intro x y hxy
    split at hxy
    · next a b ha hb => exact ⟨a, b, ha, hb, by simpa using hxy⟩
    · cases hxy
  constructor
  · apply h
    have : stixVersions.Pairwise (fun x y => (match parseVer x, parseVer y with
      | some a, some b => a.cmp b == .lt | _, _ => false) = true) := by decide
    exact this.imp (ex _ _)
  · apply h
    have : cyboxVersions.Pairwise (fun x y => (match parseVer x, parseVer y with
      | some a, some b => a.cmp b == .lt | _, _ => false) = true) := by decide
    exact this.imp (ex _ _)

example : (isVersionEqual "1.1" "1.1.0" : Except Err Bool) = .ok true := by rfl
example : (isVersionEqual "1.1" "1.x" : Except Err Bool) = .error .valueError := by rfl
example : VersionForm "2.10b3" ⟨2, 10, 0, some (true, 3)⟩ := (parseVer_iff _ _).1 (by decide)

end Ramrod

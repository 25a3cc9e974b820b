import Verif.Model.Files
import Verif.Spec.Files
import Mathlib.Data.List.Basic
import Mathlib.Data.List.Perm.Subperm
import Mathlib.Data.List.Nodup
import Mathlib.Data.List.TakeWhile
import Mathlib.Tactic.SplitIfs
import Mathlib.Tactic.IntervalCases
import Mathlib.Data.List.Induction

namespace Verif

/-! ### decimal numerals -/

theorem digitVal_pyStr (n : Nat) : digitVal (pyStr n) = n :=
  Nat.ofDigitChars_toDigits (by decide) (by decide)

theorem pyStr_ne_nil (n : Nat) : pyStr n ≠ [] := Nat.toDigits_ne_nil

theorem pyStr_isDigit {n : Nat} {c : Char} (h : c ∈ pyStr n) : c.isDigit = true :=
  Nat.isDigit_of_mem_toDigits (by decide) (by decide) h

theorem pyStr_isNumeral (n : Nat) : IsNumeral (pyStr n) n :=
  ⟨pyStr_ne_nil n, fun _ h => pyStr_isDigit h, digitVal_pyStr n⟩

theorem pyStr_injective : Function.Injective pyStr := fun a b h => by
  have := congrArg digitVal h
  simpa [digitVal_pyStr] using this

theorem isDigitStr_iff (d : Name) : isDigitStr d = true ↔ d ≠ [] ∧ ∀ c ∈ d, c.isDigit = true := by
  unfold isDigitStr
  cases d <;> simp

theorem underscore_not_digit : Char.isDigit '_' = false := by decide
theorem dot_not_digit : Char.isDigit '.' = false := by decide

theorem pyStr_zero : pyStr 0 = ['0'] := by decide

theorem digitVal_append_singleton (l : Name) (c : Char) :
    digitVal (l ++ [c]) = 10 * digitVal l + (c.toNat - '0'.toNat) := by
  unfold digitVal
  rw [Nat.ofDigitChars_append, Nat.ofDigitChars_cons, Nat.ofDigitChars_nil]

theorem digit_lt (c : Char) (h : c.isDigit = true) : c.toNat - '0'.toNat < 10 := by
  simp only [Char.isDigit, Bool.and_eq_true, decide_eq_true_eq] at h
  have h2 : c.toNat ≤ 57 := h.2
  have : '0'.toNat = 48 := rfl
  omega

theorem digitChar_val (c : Char) (h : c.isDigit = true) :
    Nat.digitChar (c.toNat - '0'.toNat) = c := by
  simp only [Char.isDigit, Bool.and_eq_true, decide_eq_true_eq] at h
  have h1 : 48 ≤ c.toNat := h.1
  have h2 : c.toNat ≤ 57 := h.2
  have h0 : '0'.toNat = 48 := rfl
  apply Char.toNat_inj.1
  obtain ⟨k, hk⟩ : ∃ k, c.toNat = 48 + k := ⟨c.toNat - 48, by omega⟩
  have : k < 10 := by omega
  rw [h0, hk, Nat.add_sub_cancel_left]
  interval_cases k <;> rfl

/-- The canonical numeral of the value of a digit string is its suffix. -/
theorem pyStr_digitVal_suffix : ∀ (d : Name), d ≠ [] → (∀ c ∈ d, c.isDigit = true) →
    pyStr (digitVal d) <:+ d := by
  intro d
  induction d using List.reverseRecOn with
  | nil => intro h; exact absurd rfl h
  | append_singleton l c ih =>
    intro _ h
    have hc : c.isDigit = true := h c (by simp)
    have hlt := digit_lt c hc
    rw [digitVal_append_singleton]
    by_cases h0 : digitVal l = 0
    · rw [h0, Nat.mul_zero, Nat.zero_add]
      unfold pyStr
      rw [Nat.toDigits_of_lt_base hlt, digitChar_val c hc]
      exact List.suffix_append _ _
    · unfold pyStr
      have hl : l ≠ [] := by rintro rfl; exact h0 rfl
      have := ih hl (fun c hc => h c (by simp [hc]))
      rw [← Nat.toDigits_append_toDigits (by decide) (by omega) hlt, Nat.toDigits_of_lt_base hlt,
        digitChar_val c hc]
      obtain ⟨t, ht⟩ := this
      refine ⟨t, ?_⟩
      rw [← List.append_assoc]
      congr 1

/-! ### splitting at the last separator -/

theorem split_last {sep : Char} {a b d e : Name} (hd : sep ∉ d) (he : sep ∉ e)
    (h : a ++ [sep] ++ d = b ++ [sep] ++ e) : a = b ∧ d = e := by
  have hr := congrArg List.reverse h
  simp only [List.reverse_append, List.reverse_cons, List.reverse_nil, List.nil_append] at hr
  have h1 : ∀ (x : Name) (y : Name), sep ∉ x → (x.reverse ++ ([sep] ++ y.reverse)).takeWhile (· ≠ sep) = x.reverse := by
    intro x y hx
    rw [List.takeWhile_append_of_pos]
    · simp
    · intro c hc
      have : c ∈ x := by simpa using hc
      simp only [ne_eq, decide_not, Bool.not_eq_eq_eq_not, Bool.not_true, decide_eq_false_iff_not]
      rintro rfl; exact hx this
  have e1 := congrArg (List.takeWhile (· ≠ sep)) hr
  rw [h1 d a hd, h1 e b he] at e1
  have de : d = e := List.reverse_injective e1
  subst de
  refine ⟨?_, rfl⟩
  simpa using h

/-! ### stems -/

theorem rfindDot_append (s e : Name) (he : '.' ∉ e) : rfindDot (s ++ ['.'] ++ e) = some s.length := by
  unfold rfindDot
  have : ((s ++ ['.'] ++ e).reverse.takeWhile (· ≠ '.')) = e.reverse := by
    simp only [List.reverse_append, List.reverse_cons, List.reverse_nil, List.nil_append]
    rw [List.takeWhile_append_of_pos]
    · simp
    · intro c hc
      have hc' : c ∈ e := by simpa using hc
      simp only [ne_eq, decide_not, Bool.not_eq_eq_eq_not, Bool.not_true, decide_eq_false_iff_not]
      rintro rfl; exact he hc'
  simp only [this, List.length_reverse]
  rw [if_pos (by simp; omega)]
  simp

theorem pathStem_append (s e : Name) (hs : s ≠ []) (he0 : e ≠ []) (he : '.' ∉ e) :
    pathStem (s ++ ['.'] ++ e) = s := by
  unfold pathStem
  rw [rfindDot_append s e he]
  have h1 : 0 < s.length := List.length_pos_iff.2 hs
  have h2 : 0 < e.length := List.length_pos_iff.2 he0
  simp only
  rw [if_pos ⟨h1, by simp; omega⟩, List.append_assoc, List.take_left]

theorem pathSuffix_append (s e : Name) (hs : s ≠ []) (he0 : e ≠ []) (he : '.' ∉ e) :
    pathSuffix (s ++ ['.'] ++ e) = '.' :: e := by
  unfold pathSuffix
  rw [rfindDot_append s e he]
  have h1 : 0 < s.length := List.length_pos_iff.2 hs
  have h2 : 0 < e.length := List.length_pos_iff.2 he0
  simp only
  rw [if_pos ⟨h1, by simp; omega⟩, List.append_assoc, List.drop_left]
  rfl

theorem stem_append_suffix (f : Name) : pathStem f ++ pathSuffix f = f := by
  unfold pathStem pathSuffix
  cases rfindDot f with
  | none => simp
  | some i => simp only; split_ifs <;> simp

theorem npz_stem (name : Name) (t : Nat) : pathStem (npzName name t) = name ++ ['_'] ++ pyStr t := by
  have : npzName name t = (name ++ ['_'] ++ pyStr t) ++ ['.'] ++ ['n', 'p', 'z'] := by
    simp [npzName]
  rw [this, pathStem_append _ _ (by simp) (by simp) (by decide)]

theorem npz_suffix (name : Name) (t : Nat) : pathSuffix (npzName name t) = ['.', 'n', 'p', 'z'] := by
  have : npzName name t = (name ++ ['_'] ++ pyStr t) ++ ['.'] ++ ['n', 'p', 'z'] := by
    simp [npzName]
  rw [this, pathSuffix_append _ _ (by simp) (by simp) (by decide)]

theorem npzName_injective {n m : Name} {s t : Nat} (h : npzName n s = npzName m t) : n = m ∧ s = t := by
  have h1 := congrArg pathStem h
  rw [npz_stem, npz_stem] at h1
  have nu : ∀ k, '_' ∉ pyStr k := fun k hk => by
    have := pyStr_isDigit hk
    rw [underscore_not_digit] at this; cases this
  obtain ⟨h2, h3⟩ := split_last (nu s) (nu t) h1
  exact ⟨h2, pyStr_injective h3⟩

/-! ### earlier files -/

theorem inSeries_iff (base f : Name) (k : Nat) : InSeries base f k ↔
    base.isPrefixOf (pathStem f) = true ∧ isDigitStr ((pathStem f).drop base.length) = true ∧
      digitVal ((pathStem f).drop base.length) = k := by
  constructor
  · rintro ⟨d, h1, h2, h3, h4⟩
    rw [h1]
    simp only [List.isPrefixOf_iff_prefix, List.prefix_append, List.drop_left, true_and]
    exact ⟨(isDigitStr_iff d).2 ⟨h2, h3⟩, h4⟩
  · rintro ⟨h1, h2, h3⟩
    rw [List.isPrefixOf_iff_prefix] at h1
    obtain ⟨d, hd⟩ := h1
    rw [← hd, List.drop_left] at h2 h3
    obtain ⟨h4, h5⟩ := (isDigitStr_iff d).1 h2
    exact ⟨d, hd.symm, h4, h5, h3⟩

theorem InSeries.unique {base f : Name} {k l : Nat} (h : InSeries base f k) (h' : InSeries base f l) :
    k = l := by
  rw [inSeries_iff] at h h'
  omega

/-- Boolean form of "the file has a number below `cur`". -/
def earlierB (base : Name) (cur : Nat) (f : Name) : Bool :=
  base.isPrefixOf (pathStem f) && isDigitStr ((pathStem f).drop base.length) &&
    decide (digitVal ((pathStem f).drop base.length) < cur)

theorem earlierB_iff (base : Name) (cur : Nat) (f : Name) :
    earlierB base cur f = true ↔ ∃ k, k < cur ∧ InSeries base f k := by
  unfold earlierB
  simp only [Bool.and_eq_true, decide_eq_true_eq]
  constructor
  · rintro ⟨⟨h1, h2⟩, h3⟩
    exact ⟨_, h3, (inSeries_iff _ _ _).2 ⟨h1, h2, rfl⟩⟩
  · rintro ⟨k, hk, h⟩
    obtain ⟨h1, h2, h3⟩ := (inSeries_iff _ _ _).1 h
    exact ⟨⟨h1, h2⟩, by omega⟩

theorem earlierLoop_ok (base : Name) (cur : Nat) (err : Bool) : ∀ (files acc : List Name),
    (err = true → ∀ f ∈ files, ∀ k, InSeries base f k → k ≤ cur) →
    earlierLoop base cur err files acc = .ok (acc ++ files.filter (earlierB base cur)) := by
  intro files
  induction files with
  | nil => intro acc _; simp [earlierLoop]
  | cons f fs ih =>
    intro acc h
    have ih' := fun acc => ih acc (fun he g hg => h he g (by simp [hg]))
    simp only [earlierLoop]
    by_cases hm : (base.isPrefixOf (pathStem f) && isDigitStr ((pathStem f).drop base.length)) = true
    · rw [if_pos hm]
      simp only [Bool.and_eq_true] at hm
      have hser : InSeries base f (digitVal ((pathStem f).drop base.length)) :=
        (inSeries_iff _ _ _).2 ⟨hm.1, hm.2, rfl⟩
      split_ifs with h1 h2 h2
      · have := h h2 f (by simp) _ hser
        omega
      · rw [ih', List.filter_cons_of_neg]
        simp [earlierB, hm]; omega
      · rw [ih', List.filter_cons_of_neg]
        simp [earlierB, hm]; omega
      · rw [ih', List.filter_cons_of_pos]
        · simp
        · simp [earlierB, hm]; omega
    · rw [if_neg hm, ih', List.filter_cons_of_neg]
      simp only [earlierB, Bool.and_eq_true] at hm ⊢
      tauto

theorem earlierLoop_error (base : Name) (cur : Nat) : ∀ (files acc : List Name),
    (∃ f ∈ files, ∃ k, cur < k ∧ InSeries base f k) →
    earlierLoop base cur true files acc = .error .value := by
  intro files
  induction files with
  | nil => rintro acc ⟨f, hf, _⟩; simp at hf
  | cons f fs ih =>
    rintro acc ⟨g, hg, k, hk, hs⟩
    simp only [earlierLoop]
    rcases List.mem_cons.1 hg with rfl | hg
    · obtain ⟨h1, h2, h3⟩ := (inSeries_iff _ _ _).1 hs
      rw [if_pos (by simp [h1, h2]), if_pos (by omega)]
      rfl
    · have ih' := fun acc => ih acc ⟨g, hg, k, hk, hs⟩
      split_ifs <;> first | rfl | exact ih' _

/-! ### unique folders -/

theorem exists_free {α : Type} (f : Nat → α) (hf : Function.Injective f) (l : List α) :
    ∃ k, k ≤ l.length ∧ f k ∉ l := by
  by_contra h
  push Not at h
  have hnd : ((List.range (l.length + 1)).map f).Nodup := List.nodup_range.map hf
  have hsub : ((List.range (l.length + 1)).map f) ⊆ l := by
    intro x hx
    obtain ⟨k, hk, rfl⟩ := List.mem_map.1 hx
    exact h k (by have := List.mem_range.1 hk; omega)
  have := (List.subperm_of_subset hnd hsub).length_le
  simp at this

theorem uniqueLoop_spec (files : List Name) (base : Name) (k : Nat)
    (hk : base ++ ['_'] ++ pyStr k ∉ files) (hlt : ∀ j, j < k → base ++ ['_'] ++ pyStr j ∈ files) :
    ∀ (fuel i : Nat), i ≤ k → k - i < fuel →
    uniqueLoop files base fuel (base ++ ['_'] ++ pyStr i) (i + 1) = some (base ++ ['_'] ++ pyStr k) := by
  intro fuel
  induction fuel with
  | zero => intro i _ h; omega
  | succ n ih =>
    intro i hi hf
    simp only [uniqueLoop]
    by_cases hik : i = k
    · subst hik; rw [if_neg hk]
    · rw [if_pos (hlt i (by omega))]
      exact ih (i + 1) (by omega) (by omega)

theorem lastUnderscorePart_spec (base : Name) (k : Nat) :
    lastUnderscorePart (base ++ ['_'] ++ pyStr k) = pyStr k := by
  unfold lastUnderscorePart
  simp only [List.reverse_append, List.reverse_cons, List.reverse_nil, List.nil_append]
  rw [List.takeWhile_append_of_pos]
  · simp
  · intro c hc
    have hc' : c ∈ pyStr k := by simpa using hc
    simp only [ne_eq, decide_not, Bool.not_eq_eq_eq_not, Bool.not_true, decide_eq_false_iff_not]
    rintro rfl
    have := pyStr_isDigit hc'
    rw [underscore_not_digit] at this; cases this

/-! ### highest numbered file -/

theorem intDigits_of_digits : ∀ (d : Name), d ≠ [] → (∀ c ∈ d, c.isDigit = true) →
    intDigits d = some d := by
  intro d
  induction d with
  | nil => intro h; exact absurd rfl h
  | cons c rest ih =>
    intro _ h
    have hc := h c (by simp)
    cases rest with
    | nil => simp [intDigits, hc]
    | cons c2 r2 =>
      have hc2 := h c2 (by simp)
      have hne : c2 ≠ '_' := by rintro rfl; rw [underscore_not_digit] at hc2; cases hc2
      have := ih (by simp) (fun c hc => h c (by simp [hc]))
      rw [intDigits.eq_4]
      · rw [if_pos hc, this]; rfl
      · simp
      · intro rest h1
        simp only [List.cons.injEq] at h1
        exact hne h1.1

theorem pyInt_of_digits (d : Name) (h0 : d ≠ []) (h : ∀ c ∈ d, c.isDigit = true) :
    pyInt d = some (digitVal d : Int) := by
  have hws : ∀ c, c.isDigit = true → isWs c = false := by
    intro c hc
    unfold isWs
    simp only [Bool.or_eq_false_iff, decide_eq_false_iff_not]
    refine ⟨⟨⟨?_, ?_⟩, ?_⟩, ?_⟩ <;> (rintro rfl; revert hc; decide)
  have hdrop : ∀ (l : Name), (∀ c ∈ l, c.isDigit = true) → l.dropWhile isWs = l := by
    intro l hl
    cases l with
    | nil => rfl
    | cons c r => rw [List.dropWhile_cons_of_neg]; rw [hws c (hl c (by simp))]; decide
  unfold pyInt
  rw [hdrop d h, hdrop d.reverse (fun c hc => h c (by simpa using hc)), List.reverse_reverse]
  cases d with
  | nil => exact absurd rfl h0
  | cons c r =>
    have hc := h c (by simp)
    have h1 : c ≠ '-' := by rintro rfl; revert hc; decide
    have h2 : c ≠ '+' := by rintro rfl; revert hc; decide
    dsimp only
    split
    · rename_i heq; simp only [List.cons.injEq] at heq; exact absurd heq.1 h1
    · rename_i heq; simp only [List.cons.injEq] at heq; exact absurd heq.1 h2
    · rw [intDigits_of_digits _ h0 h]; rfl

/-- Value parsed from a file of the series, if any. -/
def fileNum (pre suf f : Name) : Option Int :=
  if pre.isPrefixOf f && suf.isSuffixOf f then
    pyInt ((f.take (f.length - suf.length)).drop pre.length) else none

theorem pyInt_negative (n : Nat) : pyInt ('-' :: pyStr n) = some (-(n : Int)) := by
  have hws : ∀ c, c.isDigit = true → isWs c = false := by
    intro c hc
    unfold isWs
    simp only [Bool.or_eq_false_iff, decide_eq_false_iff_not]
    refine ⟨⟨⟨?_, ?_⟩, ?_⟩, ?_⟩ <;> (rintro rfl; revert hc; decide)
  have h1 : ('-' :: pyStr n).dropWhile isWs = '-' :: pyStr n := by
    rw [List.dropWhile_cons_of_neg (by decide)]
  have h2 : ('-' :: pyStr n).reverse.dropWhile isWs = ('-' :: pyStr n).reverse := by
    rw [List.reverse_cons]
    cases hr : (pyStr n).reverse with
    | nil => exact absurd (List.reverse_eq_nil_iff.1 hr) (pyStr_ne_nil n)
    | cons c r =>
      have hc : c ∈ pyStr n := by rw [← List.mem_reverse, hr]; exact List.mem_cons_self
      rw [List.cons_append, List.dropWhile_cons_of_neg (by rw [hws c (pyStr_isDigit hc)]; decide)]
  unfold pyInt
  rw [h1, h2, List.reverse_reverse]
  have h3 := intDigits_of_digits _ (pyStr_ne_nil n) (fun c hc => pyStr_isDigit hc)
  show (intDigits (pyStr n)).map (fun d => -(digitVal d : Int)) = _
  rw [h3, Option.map_some, digitVal_pyStr]

theorem highestLoop_spec (pre suf : Name) : ∀ (files : List Name) (h : Int),
    h ≤ highestLoop pre suf files h ∧
    (∀ f ∈ files, ∀ i, fileNum pre suf f = some i → i ≤ highestLoop pre suf files h) ∧
    (highestLoop pre suf files h = h ∨
      ∃ f ∈ files, fileNum pre suf f = some (highestLoop pre suf files h)) := by
  intro files
  induction files with
  | nil => intro h; simp [highestLoop]
  | cons f fs ih =>
    intro h
    have hnone : fileNum pre suf f = none → highestLoop pre suf (f :: fs) h = highestLoop pre suf fs h := by
      intro hn
      unfold fileNum at hn
      simp only [highestLoop]
      split_ifs at hn ⊢ with hc
      · rw [hn]
      · rfl
    have hsome : ∀ i, fileNum pre suf f = some i → highestLoop pre suf (f :: fs) h =
        highestLoop pre suf fs (if i > h then i else h) := by
      intro i hn
      unfold fileNum at hn
      simp only [highestLoop]
      split_ifs at hn with hc
      · rw [if_pos hc, hn]
    cases hf : fileNum pre suf f with
    | none =>
      rw [hnone hf]
      obtain ⟨h1, h2, h3⟩ := ih h
      refine ⟨h1, ?_, ?_⟩
      · intro g hg i hi
        rcases List.mem_cons.1 hg with rfl | hg
        · rw [hf] at hi; cases hi
        · exact h2 g hg i hi
      · rcases h3 with h3 | ⟨g, hg, h3⟩
        · exact Or.inl h3
        · exact Or.inr ⟨g, by simp [hg], h3⟩
    | some i =>
      rw [hsome i hf]
      obtain ⟨h1, h2, h3⟩ := ih (if i > h then i else h)
      have hmax : h ≤ (if i > h then i else h) ∧ i ≤ (if i > h then i else h) := by
        split_ifs <;> omega
      refine ⟨by omega, ?_, ?_⟩
      · intro g hg j hj
        rcases List.mem_cons.1 hg with rfl | hg
        · rw [hf] at hj; cases hj; omega
        · exact h2 g hg j hj
      · rcases h3 with h3 | ⟨g, hg, h3⟩
        · split_ifs at h3 ⊢ with hgt
          · exact Or.inr ⟨f, by simp, by rw [hf, h3]⟩
          · exact Or.inl h3
        · exact Or.inr ⟨g, by simp [hg], h3⟩

theorem fileNum_canonical (pre suf : Name) (n : Nat) :
    fileNum pre suf (pre ++ pyStr n ++ suf) = some (n : Int) := by
  unfold fileNum
  rw [if_pos]
  · have : ((pre ++ pyStr n ++ suf).take ((pre ++ pyStr n ++ suf).length - suf.length)).drop pre.length
        = pyStr n := by
      rw [List.length_append, Nat.add_sub_cancel, List.take_left, List.drop_left]
    rw [this, pyInt_of_digits _ (pyStr_ne_nil n) (fun c hc => pyStr_isDigit hc), digitVal_pyStr]
  · simp only [Bool.and_eq_true, List.isPrefixOf_iff_prefix, List.isSuffixOf_iff_suffix]
    exact ⟨⟨pyStr n ++ suf, by simp⟩, ⟨pre ++ pyStr n, rfl⟩⟩

theorem highestLoop_negative (pre suf : Name) (n : Nat) (after : List Name) : ∀ (before : List Name) (h : Int), -1 ≤ h →
    highestLoop pre suf (before ++ (pre ++ ('-' :: pyStr (n + 1)) ++ suf) :: after) h =
      highestLoop pre suf (before ++ after) h := by
  intro before
  induction before with
  | nil =>
    intro h hh
    rw [List.nil_append, List.nil_append, highestLoop, if_pos]
    · have : ((pre ++ ('-' :: pyStr (n + 1)) ++ suf).take ((pre ++ ('-' :: pyStr (n + 1)) ++ suf).length - suf.length)).drop
          pre.length = '-' :: pyStr (n + 1) := by
        rw [List.length_append, Nat.add_sub_cancel, List.take_left, List.drop_left]
      rw [this, pyInt_negative]
      dsimp only
      rw [if_neg (by push_cast; omega)]
    · simp only [Bool.and_eq_true, List.isPrefixOf_iff_prefix, List.isSuffixOf_iff_suffix]
      exact ⟨⟨_, (List.append_assoc _ _ _).symm⟩, ⟨_, rfl⟩⟩
  | cons f fs ih =>
    intro h hh
    rw [List.cons_append, List.cons_append, highestLoop, highestLoop]
    split
    · split
      · rename_i i _
        exact ih _ (by split <;> omega)
      · exact ih _ hh
    · exact ih _ hh

theorem fileNum_decomp {pre suf f : Name} {i : Int} (h : fileNum pre suf f = some i) :
    ∃ mid, f = pre ++ mid ++ suf ∧ pyInt mid = some i := by
  unfold fileNum at h
  split_ifs at h with hc
  simp only [Bool.and_eq_true, List.isPrefixOf_iff_prefix, List.isSuffixOf_iff_suffix] at hc
  obtain ⟨⟨a, ha⟩, ⟨b, hb⟩⟩ := hc
  by_cases hl : pre.length + suf.length ≤ f.length
  · have hb' : b = f.take (f.length - suf.length) := by
      rw [← hb]; simp
    refine ⟨_, ?_, h⟩
    have hp : pre = (f.take (f.length - suf.length)).take pre.length := by
      rw [List.take_take, min_eq_left (by omega), ← ha, List.take_left]
    conv_lhs => rw [← hb, hb', ← List.take_append_drop pre.length (f.take (f.length - suf.length)), ← hp]
  · exfalso
    have : ((f.take (f.length - suf.length)).drop pre.length) = [] := by
      apply List.drop_eq_nil_of_le
      rw [List.length_take]
      have : suf.length ≤ f.length := by rw [← hb]; simp
      omega
    rw [this] at h
    revert h
    decide +revert

end Verif

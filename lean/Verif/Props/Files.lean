import Verif.Lemmas.Files

/-! Properties C28, C29, C69 - C73, C76: file names. -/
namespace Verif

/-! ### C69 -/

/-- C69. `get_unique_folder_name` terminates and returns the first name of the
series `prefix+time+"_0"`, `..."_1"`, ... that does not exist, whatever the
(finite) folder contains. -/
theorem C69_unique_folder (pre time : Name) (files : List Name) :
    ∃ k, (∀ fuel, files.length < fuel →
        uniqueFolder fuel pre time files = some (pre ++ time ++ ['_'] ++ pyStr k)) ∧
      pre ++ time ++ ['_'] ++ pyStr k ∉ files ∧
      ∀ j, j < k → pre ++ time ++ ['_'] ++ pyStr j ∈ files := by
  classical
  have hinj : Function.Injective fun k => pre ++ time ++ ['_'] ++ pyStr k := by
    intro a b h
    simp only [List.append_assoc, List.append_cancel_left_eq] at h
    exact pyStr_injective h
  obtain ⟨k0, hk0, hfree⟩ := exists_free _ hinj files
  have hex : ∃ k, pre ++ time ++ ['_'] ++ pyStr k ∉ files := ⟨k0, hfree⟩
  refine ⟨Nat.find hex, ?_, Nat.find_spec hex, fun j hj => ?_⟩
  · intro fuel hf
    have hle : Nat.find hex ≤ files.length := le_trans (Nat.find_min' hex hfree) hk0
    have h0 : pre ++ time ++ ['_', '0'] = pre ++ time ++ ['_'] ++ pyStr 0 := by
      rw [pyStr_zero]; simp
    unfold uniqueFolder
    simp only
    by_cases hin : pre ++ time ++ ['_', '0'] ∈ files
    · rw [if_pos hin]
      have hb : (pre ++ time ++ ['_', '0']).take ((pre ++ time ++ ['_', '0']).length - 2) = pre ++ time := by
        have : (pre ++ time ++ ['_', '0']).length - 2 = (pre ++ time).length := by simp; omega
        rw [this, List.take_left]
      rw [hb, h0]
      exact uniqueLoop_spec files (pre ++ time) (Nat.find hex) (Nat.find_spec hex)
        (fun j hj => not_not.1 (Nat.find_min hex hj)) fuel 0 (Nat.zero_le _) (by omega)
    · rw [if_neg hin]
      have : Nat.find hex = 0 := by
        rw [Nat.find_eq_zero]; rw [← h0]; exact hin
      rw [this, h0]
  · exact not_not.1 (Nat.find_min hex hj)

example : uniqueFolder 3 "figs_".toList "2024_01_01_00_00".toList
    ["figs_2024_01_01_00_00_0".toList, "figs_2024_01_01_00_00_1".toList] =
    some "figs_2024_01_01_00_00_2".toList := by decide

/-! ### C70 -/

/-- C70, the part that holds: the names are distinct and consecutive, the
first is unused, and all are unused if no later number of the series exists
yet.  Missing: later numbers may exist, see `C70_multiple_unique_violated`. -/
theorem C70_multiple_unique_partial (base : Name) (k n : Nat) :
    multipleUnique (base ++ ['_'] ++ pyStr k) n =
        (List.range n).map (fun i => base ++ ['_'] ++ pyStr (i + k)) ∧
      (multipleUnique (base ++ ['_'] ++ pyStr k) n).Nodup ∧
      ∀ files : List Name, (∀ j, k ≤ j → base ++ ['_'] ++ pyStr j ∉ files) →
        ∀ f ∈ multipleUnique (base ++ ['_'] ++ pyStr k) n, f ∉ files := by
  have h : multipleUnique (base ++ ['_'] ++ pyStr k) n =
      (List.range n).map (fun i => base ++ ['_'] ++ pyStr (i + k)) := by
    unfold multipleUnique
    simp only [lastUnderscorePart_spec, digitVal_pyStr]
    have : (base ++ ['_'] ++ pyStr k).take ((base ++ ['_'] ++ pyStr k).length - (pyStr k).length) =
        base ++ ['_'] := by
      rw [List.length_append, Nat.add_sub_cancel, List.take_left]
    rw [this]
  refine ⟨h, ?_, ?_⟩
  · rw [h]
    refine List.nodup_range.map ?_
    intro a b hab
    simp only [List.append_assoc, List.append_cancel_left_eq] at hab
    have := pyStr_injective hab
    omega
  · intro files hf f hm
    rw [h] at hm
    obtain ⟨i, _, rfl⟩ := List.mem_map.1 hm
    exact hf _ (by omega)

example : multipleUnique "a_b_9".toList 3 = ["a_b_9".toList, "a_b_10".toList, "a_b_11".toList] := by
  decide

/-- C70 is violated: with a gap in the existing numbers one of the returned
names exists already. -/
theorem C70_multiple_unique_violated :
    ∃ (pre time : Name) (files : List Name) (start : Name),
      uniqueFolder 10 pre time files = some start ∧ start ∉ files ∧
      ∃ f ∈ multipleUnique start 2, f ∈ files :=
  ⟨"p".toList, "t".toList, ["pt_1".toList], "pt_0".toList, by decide, by decide,
    "pt_1".toList, by decide, by decide⟩

/-! ### C71 -/

/-- C71, the part that holds for every folder: if some file `prefix N suffix`
(canonical decimal) exists, a name with a number at least `N` is returned; if
`None` is returned no such file exists. -/
theorem C71_highest_bound_partial (pre suf : Name) (files : List Name) (n : Nat)
    (h : pre ++ pyStr n ++ suf ∈ files) :
    ∃ m, n ≤ m ∧ highestNumbered pre suf files = some (pre ++ pyStr m ++ suf) := by
  obtain ⟨_, h2, _⟩ := highestLoop_spec pre suf files (-1)
  have := h2 _ h _ (fileNum_canonical pre suf n)
  refine ⟨(highestLoop pre suf files (-1)).toNat, by omega, ?_⟩
  unfold highestNumbered
  simp only
  rw [if_neg (by omega)]

/-- C71, the part that holds when the numbers in the folder are written
canonically (no zero padding, signs, blanks or underscores): the result is a
file of the folder and carries the largest number. -/
theorem C71_highest_exists_partial (pre suf : Name) (files : List Name)
    (hcan : ∀ mid, pre ++ mid ++ suf ∈ files → ∀ i : Int, pyInt mid = some i → 0 ≤ i →
      mid = pyStr i.toNat) :
    match highestNumbered pre suf files with
    | none => ∀ n, pre ++ pyStr n ++ suf ∉ files
    | some f => ∃ m, f = pre ++ pyStr m ++ suf ∧ f ∈ files ∧
        ∀ n, pre ++ pyStr n ++ suf ∈ files → n ≤ m := by
  obtain ⟨h1, h2, h3⟩ := highestLoop_spec pre suf files (-1)
  unfold highestNumbered
  simp only
  by_cases hm : highestLoop pre suf files (-1) = -1
  · rw [if_pos hm]
    intro n hn
    have := h2 _ hn _ (fileNum_canonical pre suf n)
    omega
  · rw [if_neg hm]
    rcases h3 with h3 | ⟨f, hf, h3⟩
    · exact absurd h3 hm
    · refine ⟨_, rfl, ?_, ?_⟩
      · obtain ⟨mid, rfl, hmid⟩ := fileNum_decomp h3
        have := hcan mid hf _ hmid (by omega)
        rw [← this]; exact hf
      · intro n hn
        have := h2 _ hn _ (fileNum_canonical pre suf n)
        omega

example : highestNumbered "a_".toList ".txt".toList
    ["a_9.txt".toList, "a_12.txt".toList, "a_x.txt".toList, "b_99.txt".toList] =
    some "a_12.txt".toList := by decide

/-- C71 is violated: with zero-padded numbers the returned file does not exist. -/
theorem C71_zero_padding_violated :
    ∃ (pre suf : Name) (files : List Name) (f : Name),
      highestNumbered pre suf files = some f ∧ f ∉ files :=
  ⟨"a_".toList, ".txt".toList, ["a_007.txt".toList], "a_7.txt".toList, by decide, by decide⟩

/-- C71, the part about negative numbers: a file `prefix -N suffix` is never chosen and does not change which file
is. -/
theorem C71_negative_partial (pre suf : Name) (before after : List Name) (n : Nat) :
    highestNumbered pre suf (before ++ (pre ++ ('-' :: pyStr (n + 1)) ++ suf) :: after) =
      highestNumbered pre suf (before ++ after) := by
  unfold highestNumbered
  rw [highestLoop_negative pre suf n after before (-1) (by omega)]

example : highestNumbered "a_".toList ".txt".toList
    ["a_9.txt".toList, "a_-12.txt".toList, "a_3.txt".toList] = some "a_9.txt".toList :=
  C71_negative_partial "a_".toList ".txt".toList ["a_9.txt".toList] ["a_3.txt".toList] 11

/-- C71 is violated: for the number `-0` the returned file does not exist. -/
theorem C71_minus_zero_violated :
    ∃ (pre suf : Name) (files : List Name) (f : Name),
      highestNumbered pre suf files = some f ∧ f ∉ files :=
  ⟨"a".toList, ".txt".toList, ["a-0.txt".toList], "a0.txt".toList, by decide, by decide⟩

/-! ### C72 -/

/-- C72. The trailing number of `prefix + str(n)` is `n`. -/
theorem C72_index_of_numbered (pre : Name) (n : Nat)
    (hpre : ∀ c, pre.getLast? = some c → c.isDigit = false) :
    findIndexInName (pre ++ pyStr n) = .ok (some n) := by
  have h1 : ((pre ++ pyStr n).reverse.takeWhile Char.isDigit) = (pyStr n).reverse := by
    rw [List.reverse_append, List.takeWhile_append_of_pos]
    · have : pre.reverse.takeWhile Char.isDigit = [] := by
        cases hr : pre.reverse with
        | nil => rfl
        | cons c r =>
          have hc : pre.getLast? = some c := by
            rw [← List.head?_reverse, hr]; rfl
          rw [List.takeWhile_cons_of_neg (by rw [hpre c hc]; decide)]
      rw [this, List.append_nil]
    · intro c hc
      exact pyStr_isDigit (by simpa using hc)
  unfold findIndexInName
  simp only [h1, List.length_reverse, List.reverse_reverse, digitVal_pyStr]
  rw [if_neg, if_pos]
  · rw [List.isSuffixOf_iff_suffix]; exact List.suffix_append _ _
  · exact fun h => pyStr_ne_nil n (List.length_eq_zero_iff.1 h)

example : findIndexInName ("sig_".toList ++ pyStr 1200) = .ok (some 1200) :=
  C72_index_of_numbered _ _ (by decide)

/-- C72. A name that does not end in a digit has no index. -/
theorem C72_index_none (name : Name) (h : ∀ c, name.getLast? = some c → c.isDigit = false) :
    findIndexInName name = .ok none := by
  unfold findIndexInName
  have : name.reverse.takeWhile Char.isDigit = [] := by
    cases hr : name.reverse with
    | nil => rfl
    | cons c r =>
      have hc : name.getLast? = some c := by rw [← List.head?_reverse, hr]; rfl
      rw [List.takeWhile_cons_of_neg (by rw [h c hc]; decide)]
  simp [this]

/-- C72. The assertion inside never fails (also for zero-padded numbers). -/
theorem C72_never_raises (name : Name) : ∃ r, findIndexInName name = .ok r := by
  unfold findIndexInName
  simp only
  split_ifs with h1 h2
  · exact ⟨_, rfl⟩
  · exact ⟨_, rfl⟩
  · exfalso
    apply h2
    rw [List.isSuffixOf_iff_suffix]
    refine (pyStr_digitVal_suffix _ ?_ ?_).trans ?_
    · intro h; apply h1; simpa using h
    · intro c hc
      rw [List.mem_reverse] at hc
      exact List.mem_takeWhile_imp hc
    · have := List.takeWhile_prefix (p := Char.isDigit) (l := name.reverse)
      have := List.reverse_suffix.2 this
      simpa using this

/-! ### C73 -/

/-- C73. `find_all_earlier_files` returns, in folder order, exactly the files
of the series with a smaller index, unless a later one exists and the error
flag is set. -/
theorem C73_earlier_files (files : List Name) (base : Name) (cur : Nat) (err : Bool)
    (hf : err = true → ∀ f ∈ files, ∀ k, InSeries (base ++ ['_']) f k → k ≤ cur) :
    ∃ l, findAllEarlier files base cur false err = .ok l ∧
      findAllEarlier files (base ++ ['_'] ++ pyStr cur) cur true err = .ok l ∧
      l.Sublist files ∧
      ∀ f, f ∈ l ↔ f ∈ files ∧ ∃ k, k < cur ∧ InSeries (base ++ ['_']) f k := by
  refine ⟨files.filter (earlierB (base ++ ['_']) cur), ?_, ?_, List.filter_sublist, ?_⟩
  · have := earlierLoop_ok (base ++ ['_']) cur err files [] hf
    simpa [findAllEarlier] using this
  · have := earlierLoop_ok (base ++ ['_']) cur err files [] hf
    have hb : (base ++ ['_'] ++ pyStr cur).take ((base ++ ['_'] ++ pyStr cur).length -
        (pyStr cur).length) = base ++ ['_'] := by
      rw [List.length_append, Nat.add_sub_cancel, List.take_left]
    simp only [findAllEarlier, if_true, hb]
    simpa using this
  · intro f
    rw [List.mem_filter, earlierB_iff]

/-- C73. With the error flag a later file of the series raises. -/
theorem C73_future_raises (files : List Name) (base : Name) (cur : Nat)
    (h : ∃ f ∈ files, ∃ k, cur < k ∧ InSeries (base ++ ['_']) f k) :
    findAllEarlier files base cur false true = .error .value := by
  have := earlierLoop_error (base ++ ['_']) cur files [] h
  simpa [findAllEarlier] using this

example : findAllEarlier ["x_1.npz".toList, "x_y_1.npz".toList, "x_7.pdf".toList, "x_12.npz".toList]
    "x".toList 12 false true = .ok ["x_1.npz".toList, "x_7.pdf".toList] := by decide

example : findAllEarlier ["x_1.npz".toList, "x_30.npz".toList] "x".toList 12 false true =
    .error .value := by decide

/-! ### C28 -/

/-- C28. With `keep_only_last_export`, exporting diagnostic `name` at index `t`
into any folder without later exports of the series succeeds, writes its file,
and the only files that disappear are `name_NUMBER.npz` with `NUMBER < t`. -/
theorem C28_keep_only_last (name : Name) (t : Nat) (files : List Name)
    (hf : ∀ f ∈ files, ∀ k, InSeries (name ++ ['_']) f k → k ≤ t) :
    ∃ files', saveNpz name t true files = .ok files' ∧
      npzName name t ∈ files' ∧
      ∀ f, f ≠ npzName name t →
        (f ∈ files' ↔ f ∈ files ∧
          ¬ ∃ d k, k < t ∧ IsNumeral d k ∧ f = name ++ ['_'] ++ d ++ ['.', 'n', 'p', 'z']) := by
  have hself : InSeries (name ++ ['_']) (npzName name t) t :=
    ⟨pyStr t, by rw [npz_stem], pyStr_isNumeral t⟩
  obtain ⟨files1, hfiles1⟩ : ∃ x, x = if npzName name t ∈ files then files
    else files ++ [npzName name t] := ⟨_, rfl⟩
  have hmem : ∀ f, f ∈ files1 ↔ f ∈ files ∨ f = npzName name t := by
    intro f
    rw [hfiles1]
    split_ifs with h
    · constructor
      · exact Or.inl
      · rintro (h' | rfl)
        · exact h'
        · exact h
    · simp
  have hf1 : (true = true) → ∀ f ∈ files1, ∀ k, InSeries (name ++ ['_']) f k → k ≤ t := by
    intro _ f hf' k hk
    rcases (hmem f).1 hf' with h | rfl
    · exact hf f h k hk
    · exact (hk.unique hself).le
  obtain ⟨l, hl, _, _, hlm⟩ := C73_earlier_files files1 name t true hf1
  have hnot : npzName name t ∉ l := by
    intro h
    obtain ⟨_, k, hk, hs⟩ := (hlm _).1 h
    have := hs.unique hself
    omega
  refine ⟨_, by simp only [saveNpz, if_true, ← hfiles1, hl]; rfl, ?_, ?_⟩
  · rw [List.mem_filter]
    refine ⟨(hmem _).2 (Or.inr rfl), ?_⟩
    simp [hnot]
  · intro f hne
    rw [List.mem_filter, hmem]
    simp only [hne, or_false, Bool.not_eq_eq_eq_not, Bool.not_true, Bool.and_eq_false_iff,
      beq_eq_false_iff_ne]
    constructor
    · rintro ⟨h1, h2⟩
      refine ⟨h1, ?_⟩
      rintro ⟨d, k, hk, hd, rfl⟩
      have hdot : '.' ∉ ['n', 'p', 'z'] := by decide
      have e : name ++ ['_'] ++ d ++ ['.', 'n', 'p', 'z'] =
          (name ++ ['_'] ++ d) ++ ['.'] ++ ['n', 'p', 'z'] := by simp
      have hst := pathStem_append (name ++ ['_'] ++ d) ['n', 'p', 'z'] (by simp) (by simp) hdot
      have hsu := pathSuffix_append (name ++ ['_'] ++ d) ['n', 'p', 'z'] (by simp) (by simp) hdot
      rw [← e] at hst hsu
      rcases h2 with h2 | h2
      · have : (name ++ ['_'] ++ d ++ ['.', 'n', 'p', 'z']) ∈ l :=
          (hlm _).2 ⟨(hmem _).2 (Or.inl h1), k, hk, d, hst, hd⟩
        rw [List.contains_iff_mem.2 this] at h2
        cases h2
      · exact h2 hsu
    · rintro ⟨h1, h2⟩
      refine ⟨h1, ?_⟩
      by_contra hc
      push Not at hc
      obtain ⟨hc1, hc2⟩ := hc
      have hin : f ∈ l := by simpa using hc1
      obtain ⟨_, k, hk, d, hd1, hd2⟩ := (hlm f).1 hin
      apply h2
      refine ⟨d, k, hk, hd2, ?_⟩
      have := stem_append_suffix f
      rw [hd1, hc2] at this
      exact this.symm

/-- C28. Exports of other diagnostics are untouched, even if one name is a
prefix of the other; earlier exports of the same diagnostic are gone. -/
theorem C28_other_diagnostics (name : Name) (t : Nat) (files : List Name)
    (hf : ∀ f ∈ files, ∀ k, InSeries (name ++ ['_']) f k → k ≤ t) :
    ∃ files', saveNpz name t true files = .ok files' ∧
      (∀ other k, other ≠ name → (npzName other k ∈ files' ↔ npzName other k ∈ files)) ∧
      (∀ k, k < t → npzName name k ∉ files') := by
  obtain ⟨files', h1, _, h3⟩ := C28_keep_only_last name t files hf
  refine ⟨files', h1, ?_, ?_⟩
  · intro other k hne
    have hne' : npzName other k ≠ npzName name t := fun h => hne (npzName_injective h).1
    rw [h3 _ hne']
    constructor
    · exact fun h => h.1
    · intro h
      refine ⟨h, ?_⟩
      rintro ⟨d, j, _, hd, he⟩
      have hst := congrArg pathStem he
      have e : name ++ ['_'] ++ d ++ ['.', 'n', 'p', 'z'] =
          (name ++ ['_'] ++ d) ++ ['.'] ++ ['n', 'p', 'z'] := by simp
      rw [npz_stem, e, pathStem_append _ _ (by simp) (by simp) (by decide)] at hst
      have hu : ∀ x : Name, (∀ c ∈ x, c.isDigit = true) → '_' ∉ x := fun x hx hm => by
        have := hx _ hm
        rw [underscore_not_digit] at this; cases this
      exact hne (split_last (hu _ fun c hc => pyStr_isDigit hc) (hu _ hd.2.1) hst).1
  · intro k hk hm
    have hne' : npzName name k ≠ npzName name t := fun h => by
      have := (npzName_injective h).2; omega
    rw [h3 _ hne'] at hm
    exact hm.2 ⟨pyStr k, k, hk, pyStr_isNumeral k, by simp [npzName]⟩

example : saveNpz "x".toList 12 true
    ["x_4.npz".toList, "x_1_4.npz".toList, "x_4.pdf".toList, "xx_4.npz".toList] =
    .ok ["x_1_4.npz".toList, "x_4.pdf".toList, "xx_4.npz".toList, "x_12.npz".toList] := by decide

/-- C28, later exports: if the folder already has a later export of the same
diagnostic (of an earlier session, say), the export raises. -/
theorem C28_later_raises (name : Name) (t : Nat) (files : List Name)
    (hf : ∃ f ∈ files, ∃ k, t < k ∧ InSeries (name ++ ['_']) f k) :
    saveNpz name t true files = .error .value := by
  have h : ∃ f ∈ (if npzName name t ∈ files then files else files ++ [npzName name t]), ∃ k, t < k ∧
      InSeries (name ++ ['_']) f k := by
    obtain ⟨f, h1, h2⟩ := hf
    refine ⟨f, ?_, h2⟩
    split
    · exact h1
    · exact List.mem_append_left _ h1
  simp only [saveNpz, if_true, C73_future_raises _ _ _ h]

example : saveNpz "x".toList 12 true ["x_4.npz".toList, "x_30.pdf".toList] = .error .value := by decide

theorem npz_inSeries (name d : Name) (k : Nat) (hd : IsNumeral d k) :
    InSeries (name ++ ['_']) (name ++ ['_'] ++ d ++ ['.', 'n', 'p', 'z']) k := by
  have e : name ++ ['_'] ++ d ++ ['.', 'n', 'p', 'z'] =
      (name ++ ['_'] ++ d) ++ ['.'] ++ ['n', 'p', 'z'] := by simp
  exact ⟨d, by rw [e, pathStem_append _ _ (by simp) (by simp) (by decide)], hd⟩

theorem saveNpz_next (name : Name) {files F : List Name} (hf : ∀ f ∈ files, ∀ k, ¬ InSeries (name ++ ['_']) f k)
    {prev : Option Nat} (hF : ∀ f, f ∈ F ↔ f ∈ files ∨ ∃ p, prev = some p ∧ f = npzName name p) {t : Nat}
    (ht : ∀ p, prev = some p → p < t) :
    ∃ F', saveNpz name t true F = .ok F' ∧ ∀ f, f ∈ F' ↔ f ∈ files ∨ f = npzName name t := by
  obtain ⟨F', h1, h2, h3⟩ := C28_keep_only_last name t F (by
    intro f hm k hk
    rcases (hF f).1 hm with h | ⟨p, hp, rfl⟩
    · exact absurd hk (hf f h k)
    · have := hk.unique (npz_inSeries name (pyStr p) p (pyStr_isNumeral p))
      have := ht p hp
      omega)
  refine ⟨F', h1, fun f => ?_⟩
  by_cases he : f = npzName name t
  · subst he
    exact ⟨fun _ => .inr rfl, fun _ => h2⟩
  · rw [h3 f he, hF]
    constructor
    · rintro ⟨h | ⟨p, hp, rfl⟩, hn⟩
      · exact .inl h
      · exact absurd ⟨pyStr p, p, ht p hp, pyStr_isNumeral p, rfl⟩ hn
    · rintro (h | h)
      · refine ⟨.inl h, ?_⟩
        rintro ⟨d, k, -, hd, rfl⟩
        exact hf _ h k (npz_inSeries name d k hd)
      · exact absurd h he

theorem saveNpz_all (name : Name) {files : List Name} (hf : ∀ f ∈ files, ∀ k, ¬ InSeries (name ++ ['_']) f k) :
    ∀ (ts : List Nat) (F : List Name) (prev : Option Nat),
      (∀ f, f ∈ F ↔ f ∈ files ∨ ∃ p, prev = some p ∧ f = npzName name p) →
      ts.Pairwise (· < ·) → (∀ t ∈ ts, ∀ p, prev = some p → p < t) →
      ∃ F', ts.foldlM (fun fs t => saveNpz name t true fs) F = .ok F' ∧
        ∀ f, f ∈ F' ↔ f ∈ files ∨ ∃ p, (ts.getLast?.or prev) = some p ∧ f = npzName name p
  | [], F, prev, hF, _, _ => ⟨F, rfl, by simpa using hF⟩
  | t :: ts, F, prev, hF, hp, ht => by
    obtain ⟨F1, h1, h2⟩ := saveNpz_next name hf hF (ht t List.mem_cons_self)
    obtain ⟨F', h3, h4⟩ := saveNpz_all name hf ts F1 (some t) (by
      intro f
      rw [h2]
      simp) (List.pairwise_cons.1 hp).2 (by
      intro t' ht' p hp'
      cases hp'
      exact (List.pairwise_cons.1 hp).1 t' ht')
    refine ⟨F', ?_, ?_⟩
    · rw [List.foldlM_cons, h1]
      exact h3
    · intro f
      rw [h4]
      cases ts with
      | nil => simp
      | cons x xs => simp [List.getLast?_cons]

/-- C28, a whole run: after the exports at increasing indices `ts` into a folder without
exports of the diagnostic, the folder has the files it had before and the last export. -/
theorem C28_series (name : Name) (files : List Name) (hf : ∀ f ∈ files, ∀ k, ¬ InSeries (name ++ ['_']) f k)
    (ts : List Nat) (hts : ts.Pairwise (· < ·)) {last : Nat} (hl : ts.getLast? = some last) :
    ∃ files', ts.foldlM (fun fs t => saveNpz name t true fs) files = .ok files' ∧
      ∀ f, f ∈ files' ↔ f ∈ files ∨ f = npzName name last := by
  obtain ⟨F', h1, h2⟩ := saveNpz_all name hf ts files none (by simp) hts (by simp)
  refine ⟨F', h1, fun f => ?_⟩
  rw [h2, hl]
  simp

example : ∃ files', [3, 6, 12].foldlM (fun fs t => saveNpz "x".toList t true fs) ["xx_4.npz".toList] = .ok files' ∧
    ∀ f, f ∈ files' ↔ f ∈ ["xx_4.npz".toList] ∨ f = "x_12.npz".toList := by
  refine C28_series "x".toList ["xx_4.npz".toList] ?_ [3, 6, 12] (by decide) (last := 12) rfl
  intro f hf k hk
  rw [List.mem_singleton] at hf
  subst hf
  obtain ⟨d, h1, h2, h3, -⟩ := hk
  revert h1
  show "xx_4".toList = "x_".toList ++ d → False
  intro h1
  have := congrArg (fun l => l[1]?) h1
  revert this
  simp

/-! ### C29, C76 -/

/-- C29. For a fixed export function and print method, two exports get the same
file name only if they belong to the same diagnostic and the same index. -/
theorem C29_export_names_injective (fn : ExportFn) (pm : PrintMethod) (n m : Name) (s t : Nat)
    (h : exportName fn pm n s = exportName fn pm m t) : n = m ∧ s = t := by
  have nu : ∀ k, '_' ∉ pyStr k := fun k hk => by
    have := pyStr_isDigit hk
    rw [underscore_not_digit] at this; cases this
  have base : n ++ ['_'] ++ pyStr s = m ++ ['_'] ++ pyStr t → n = m ∧ s = t := fun h => by
    obtain ⟨h1, h2⟩ := split_last (nu s) (nu t) h
    exact ⟨h1, pyStr_injective h2⟩
  have key : ∀ e : Name, n ++ ['_'] ++ pyStr s ++ e = m ++ ['_'] ++ pyStr t ++ e → n = m ∧ s = t :=
    fun e h => base (List.append_cancel_right h)
  have hwav : n ++ ['_'] ++ n ++ ['_'] ++ pyStr s ++ ['.', 'w', 'a', 'v'] =
      m ++ ['_'] ++ m ++ ['_'] ++ pyStr t ++ ['.', 'w', 'a', 'v'] → n = m ∧ s = t := fun h => by
    obtain ⟨h1, h2⟩ := split_last (nu s) (nu t) (List.append_cancel_right h)
    refine ⟨?_, pyStr_injective h2⟩
    have hl := congrArg List.length h1
    simp at hl
    have hlen : n.length = m.length := by omega
    exact (List.append_inj_left (by simpa using h1) hlen)
  cases fn <;> cases pm <;> first | exact key _ h | exact hwav h

example : exportName .npz .pdf "x_1".toList 2 ≠ exportName .npz .pdf "x".toList 12 := by decide

/-- C76 is violated: two export functions of the same diagnostic (time plot and
spectrum) write the same file, so one export overwrites the other. -/
theorem C76_plot_spectrum_collide_violated (pm : PrintMethod) (n : Name) (t : Nat) :
    exportName .plot pm n t = exportName .spectrum pm n t ∧
      exportName .plotIr pm n t = exportName .matshow pm n t := by
  cases pm <;> exact ⟨rfl, rfl⟩

/-- C76, the part that holds: among the functions npz, text, wav and one
graphical function, file names never collide, whatever the diagnostics. -/
theorem C76_distinct_kinds_partial (f g : ExportFn) (pm : PrintMethod) (n m : Name) (s t : Nat)
    (hf : f ∈ [ExportFn.npz, .text, .wav, .plot]) (hg : g ∈ [ExportFn.npz, .text, .wav, .plot])
    (h : exportName f pm n s = exportName g pm m t) : f = g ∧ n = m ∧ s = t := by
  have hfg : f = g := by
    have hl := congrArg List.reverse h
    simp only [List.mem_cons, List.not_mem_nil, or_false] at hf hg
    rcases hf with rfl | rfl | rfl | rfl <;> rcases hg with rfl | rfl | rfl | rfl <;>
      first | rfl | (exfalso; cases pm <;> simp [exportName, npzName] at hl)
  subst hfg
  exact ⟨rfl, C29_export_names_injective f pm n m s t h⟩

end Verif

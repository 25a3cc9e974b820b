import Verif.Spec.Access
import Verif.Lemmas.Files
namespace Verif

/-! ### splitting -/

theorem pySplit_none {c : Char} : ∀ {s : Name}, c ∉ s → pySplit c s = [s] := by
  intro s
  induction s with
  | nil => intro _; rfl
  | cons x xs ih =>
    intro h
    have h1 : x ≠ c := by rintro rfl; simp at h
    have h2 : c ∉ xs := fun hc => h (by simp [hc])
    rw [pySplit, if_neg h1, ih h2]

theorem pySplit_append {c : Char} (t : Name) : ∀ {s : Name}, c ∉ s →
    pySplit c (s ++ c :: t) = s :: pySplit c t := by
  intro s
  induction s with
  | nil => intro _; simp [pySplit]
  | cons x xs ih =>
    intro h
    have h1 : x ≠ c := by rintro rfl; simp at h
    have h2 : c ∉ xs := fun hc => h (by simp [hc])
    rw [List.cons_append, pySplit, if_neg h1, ih h2]

/-! ### decimal integers -/

theorem intStr_chars {i : Int} {c : Char} (h : c ∈ intStr i) : c = '-' ∨ c.isDigit = true := by
  cases i with
  | ofNat n => exact Or.inr (pyStr_isDigit h)
  | negSucc n =>
    rcases List.mem_cons.1 h with rfl | h
    · exact Or.inl rfl
    · exact Or.inr (pyStr_isDigit h)

theorem intStr_ne_nil (i : Int) : intStr i ≠ [] := by
  cases i with
  | ofNat n => exact pyStr_ne_nil n
  | negSucc n => exact List.cons_ne_nil _ _

theorem not_mem_intStr {i : Int} {c : Char} (h1 : c ≠ '-') (h2 : c.isDigit = false) :
    c ∉ intStr i := by
  intro h
  rcases intStr_chars h with h | h
  · exact h1 h
  · rw [h2] at h; cases h

theorem pyInt_minus (d : Name) (h0 : d ≠ []) (h : ∀ c ∈ d, c.isDigit = true) :
    pyInt ('-' :: d) = some (-(digitVal d : Int)) := by
  have hws : ∀ c, c.isDigit = true → isWs c = false := by
    intro c hc
    unfold isWs
    simp only [Bool.or_eq_false_iff, decide_eq_false_iff_not]
    refine ⟨⟨⟨?_, ?_⟩, ?_⟩, ?_⟩ <;> (rintro rfl; revert hc; decide)
  have hd : ∀ (l t : Name), l ≠ [] → (∀ c ∈ l, c.isDigit = true) →
      (l ++ t).dropWhile isWs = l ++ t := by
    intro l t hl0 hl
    cases l with
    | nil => exact absurd rfl hl0
    | cons c r =>
      rw [List.cons_append, List.dropWhile_cons_of_neg]; rw [hws c (hl c (by simp))]; decide
  unfold pyInt
  rw [List.dropWhile_cons_of_neg (by decide), List.reverse_cons,
    hd d.reverse ['-'] (by simpa using h0) (fun c hc => h c (by simpa using hc))]
  simp only [List.reverse_append, List.reverse_reverse, List.reverse_cons, List.reverse_nil,
    List.nil_append, List.cons_append]
  rw [intDigits_of_digits _ h0 h]; rfl

theorem pyInt_intStr (i : Int) : pyInt (intStr i) = some i := by
  cases i with
  | ofNat n =>
    show pyInt (pyStr n) = _
    rw [pyInt_of_digits _ (pyStr_ne_nil n) (fun c hc => pyStr_isDigit hc), digitVal_pyStr]
    rfl
  | negSucc n =>
    show pyInt ('-' :: pyStr (n + 1)) = _
    rw [pyInt_minus _ (pyStr_ne_nil _) (fun c hc => pyStr_isDigit hc), digitVal_pyStr]
    rfl

/-! ### the parsed parts -/

/-- The part between `[` and `]`. -/
def Item.inner : Item → Name
  | .key k => '\'' :: (k ++ ['\''])
  | .idx i => intStr i

/-- The access without `]`. -/
def Access.stripped (a : Access) : Name := a.attr ++ a.items.flatMap fun it => '[' :: it.inner

def Item.Proper (it : Item) : Prop := ∀ k, it = .key k → Plain k

theorem filter_of_not_mem {c : Char} {s : Name} (h : c ∉ s) : s.filter (· ≠ c) = s := by
  rw [List.filter_eq_self]
  intro x hx
  simp only [ne_eq, decide_not, Bool.not_eq_eq_eq_not, Bool.not_true, decide_eq_false_iff_not]
  rintro rfl; exact h hx

theorem Item.written_filter {it : Item} (h : it.Proper) :
    it.written.filter (· ≠ ']') = '[' :: it.inner := by
  cases it with
  | key k =>
    have := filter_of_not_mem (h k rfl).2.2.1
    simp only [Item.written, List.filter_append, this, Item.inner]
    simp
  | idx i =>
    have : (intStr i).filter (· ≠ ']') = intStr i :=
      filter_of_not_mem (not_mem_intStr (by decide) (by decide))
    simp only [Item.written, List.filter_append, this, Item.inner]
    simp

theorem Access.written_filter {a : Access} (h : a.Proper) :
    a.written.filter (· ≠ ']') = a.stripped := by
  have : ∀ l : List Item, (∀ it ∈ l, it.Proper) →
      (l.flatMap Item.written).filter (· ≠ ']') = l.flatMap fun it => '[' :: it.inner := by
    intro l
    induction l with
    | nil => intro _; rfl
    | cons it l ih =>
      intro hl
      rw [List.flatMap_cons, List.filter_append, Item.written_filter (hl it (by simp)),
        ih fun x hx => hl x (by simp [hx]), List.flatMap_cons]
  rw [Access.written, List.filter_append, filter_of_not_mem h.2.1.2.2.1, this _ h.2.2]
  rfl

theorem Item.inner_not_mem {it : Item} (h : it.Proper) :
    '.' ∉ it.inner ∧ '[' ∉ it.inner := by
  cases it with
  | key k =>
    have := h k rfl
    unfold Plain at this
    simp [Item.inner, this.1, this.2.1]
  | idx i =>
    exact ⟨not_mem_intStr (by decide) (by decide), not_mem_intStr (by decide) (by decide)⟩

theorem Access.stripped_dot {a : Access} (h : a.Proper) : '.' ∉ a.stripped := by
  unfold Access.stripped
  intro hm
  rcases List.mem_append.1 hm with hm | hm
  · exact h.2.1.1 hm
  · obtain ⟨it, hit, hm⟩ := List.mem_flatMap.1 hm
    rcases List.mem_cons.1 hm with hm | hm
    · revert hm; decide
    · exact (Item.inner_not_mem (h.2.2 it hit)).1 hm

theorem split_items (l : List Item) (hl : ∀ it ∈ l, it.Proper) : ∀ (s : Name), '[' ∉ s →
    pySplit '[' (s ++ l.flatMap fun it => '[' :: it.inner) = s :: l.map Item.inner := by
  induction l with
  | nil => intro s hs; simpa using pySplit_none hs
  | cons it l ih =>
    intro s hs
    rw [List.flatMap_cons, List.cons_append, pySplit_append _ hs,
      ih (fun x hx => hl x (by simp [hx])) _ (Item.inner_not_mem (hl it (by simp))).2, List.map_cons]

theorem Access.split {a : Access} (h : a.Proper) :
    pySplit '[' a.stripped = a.attr :: a.items.map Item.inner :=
  split_items _ h.2.2 _ h.2.1.2.1

theorem path_split : ∀ (l : List Access), l ≠ [] → (∀ a ∈ l, a.Proper) →
    pySplit '.' ((pathWritten l).filter (· ≠ ']')) = l.map Access.stripped := by
  intro l
  induction l with
  | nil => intro h; exact absurd rfl h
  | cons a l ih =>
    intro _ hl
    cases l with
    | nil =>
      rw [pathWritten, Access.written_filter (hl a (by simp)),
        pySplit_none (Access.stripped_dot (hl a (by simp)))]
      rfl
    | cons b l =>
      rw [pathWritten, List.filter_append, List.filter_append,
        Access.written_filter (hl a (by simp))]
      have : (['.'] : Name).filter (· ≠ ']') = ['.'] := by decide
      rw [this, List.append_assoc, List.singleton_append,
        pySplit_append _ (Access.stripped_dot (hl a (by simp))),
        ih (by simp) fun x hx => hl x (by simp [hx])]
      rfl

section
variable {O : Type} (ops : ObjOps O)

theorem getItem_inner {it : Item} (h : it.Proper) (o : O) :
    getItem ops o it.inner = it.apply ops o := by
  cases it with
  | key k =>
    have hk := (h k rfl).2.2.2
    have hlast : ('\'' :: (k ++ ['\''])).getLast? = some '\'' := by
      rw [← List.cons_append, List.getLast?_append]; rfl
    have hf : ('\'' :: (k ++ ['\''])).filter (· ≠ '\'') = k := by
      rw [← List.cons_append, List.filter_append, List.filter_cons_of_neg (by decide),
        filter_of_not_mem hk]
      simp
    simp only [Item.inner, getItem, if_true, Item.apply]
    rw [hlast, hf]; simp
  | idx i =>
    show getItem ops o (intStr i) = ops.idx o i
    have hp := pyInt_intStr i
    have hne : ∀ r, intStr i ≠ '\'' :: r := by
      intro r hr
      have hm : '\'' ∈ intStr i := by rw [hr]; simp
      exact not_mem_intStr (by decide) (by decide) hm
    cases hs : intStr i with
    | nil => exact absurd hs (intStr_ne_nil i)
    | cons c r =>
      have hc : c ≠ '\'' := by rintro rfl; exact hne r hs
      rw [hs] at hp
      simp only [getItem, if_neg hc, hp]

theorem foldlM_agree {α β : Type} (f g : β → α → Except PyErr β) (l : List α)
    (h : ∀ b, ∀ a ∈ l, f b a = g b a) : ∀ b, l.foldlM f b = l.foldlM g b := by
  induction l with
  | nil => intro b; rfl
  | cons a l ih =>
    intro b
    rw [List.foldlM_cons, List.foldlM_cons, h b a (by simp)]
    cases g b a with
    | error x => rfl
    | ok b' => exact ih (fun b a ha => h b a (by simp [ha])) b'

theorem getAttrItems_split {a : Access} (h : a.Proper) (o : O) :
    getAttrItems ops o (pySplit '[' a.stripped) = a.apply ops o := by
  rw [Access.split h]
  unfold getAttrItems Access.apply
  dsimp only
  cases ops.attr o a.attr with
  | error x => rfl
  | ok o' =>
    dsimp only
    rw [List.foldlM_map]
    exact foldlM_agree _ _ _ (fun b it hit => getItem_inner ops (h.2.2 it hit) b) _

theorem pathWritten_head {l : List Access} (h0 : l ≠ []) (h : ∀ a ∈ l, a.Proper) :
    ∃ c r, pathWritten l = c :: r ∧ c ≠ '[' := by
  cases l with
  | nil => exact absurd rfl h0
  | cons a l =>
    have ha := h a (by simp)
    cases hat : a.attr with
    | nil => exact absurd hat ha.1
    | cons c r =>
      have hc : c ≠ '[' := by
        rintro rfl
        exact ha.2.1.2.1 (by rw [hat]; simp)
      cases l with
      | nil => exact ⟨c, _, by rw [pathWritten, Access.written, hat, List.cons_append], hc⟩
      | cons b l =>
        exact ⟨c, _, by
          rw [pathWritten, Access.written, hat, List.cons_append, List.cons_append,
            List.cons_append], hc⟩

theorem attrItemGet_path (l : List Access) (h0 : l ≠ []) (h : ∀ a ∈ l, a.Proper) (o : O) :
    attrItemGet ops (pathWritten l) o = pathApply ops o l := by
  obtain ⟨c, r, hcr, hc⟩ := pathWritten_head h0 h
  have hs := path_split l h0 h
  rw [hcr] at hs ⊢
  unfold attrItemGet
  dsimp only
  rw [if_neg hc, hs, List.map_map, List.foldlM_map]
  exact foldlM_agree _ _ _ (fun b a ha => getAttrItems_split ops (h a ha) b) _

end

/-! ### unique names -/

/-- The candidates: the name, then the name with ` 1`, ` 2`, ... -/
def procCand (name : Name) : Nat → Name
  | 0 => name
  | i + 1 => name ++ [' '] ++ pyStr (i + 1)

theorem procCand_injective (name : Name) : Function.Injective (procCand name) := by
  intro i j h
  cases i with
  | zero =>
    cases j with
    | zero => rfl
    | succ j =>
      have := congrArg List.length h
      simp [procCand] at this
  | succ i =>
    cases j with
    | zero =>
      have := congrArg List.length h
      simp [procCand] at this
    | succ j =>
      simp only [procCand, List.append_assoc, List.append_cancel_left_eq] at h
      exact pyStr_injective h

theorem uniqueProcLoop_spec (names : List Name) (name : Name) (k : Nat)
    (hk : procCand name k ∉ names) (hlt : ∀ j, j < k → procCand name j ∈ names) :
    ∀ (fuel i : Nat), i ≤ k → k - i < fuel →
    uniqueProcLoop names name fuel (procCand name i) (i + 1) = .ok (procCand name k) := by
  intro fuel
  induction fuel with
  | zero => intro i _ h; omega
  | succ n ih =>
    intro i hi hf
    rw [uniqueProcLoop]
    by_cases hik : i = k
    · subst hik; rw [if_neg hk]
    · rw [if_pos (hlt i (by omega))]
      exact ih (i + 1) (by omega) (by omega)

theorem uniqueProcLoop_least (names : List Name) (name : Name) (fuel : Nat)
    (hf : names.length < fuel) :
    ∃ k, uniqueProcLoop names name fuel name 1 = .ok (procCand name k) ∧
      procCand name k ∉ names ∧ ∀ j, j < k → procCand name j ∈ names := by
  obtain ⟨k0, hk0, hfree⟩ := exists_free (procCand name) (procCand_injective name) names
  have hex : ∃ k, procCand name k ∉ names := ⟨k0, hfree⟩
  classical
  refine ⟨Nat.find hex, ?_, Nat.find_spec hex, fun j hj => ?_⟩
  · refine uniqueProcLoop_spec names name _ (Nat.find_spec hex) ?_ fuel 0 (by omega) ?_
    · intro j hj
      by_contra hc
      exact Nat.find_min hex hj hc
    · have := Nat.find_min' hex hfree; omega
  · by_contra hc
    exact Nat.find_min hex hj hc

end Verif

namespace Verif

theorem uniqueProcNames_snoc (fuel : Nat) (procs : List Name) (name : Name) :
    uniqueProcNames fuel (procs ++ [name]) =
      (uniqueProcNames fuel procs).bind fun names =>
        (uniqueProcLoop names name fuel name 1).bind fun new => .ok (names ++ [new]) := by
  have h : ∀ r : Except PyErr (List Name), uniqueProcNames fuel procs = r →
      uniqueProcNames fuel (procs ++ [name]) = r.bind fun names =>
        (uniqueProcLoop names name fuel name 1).bind fun new => .ok (names ++ [new]) := by
    intro r hr
    unfold uniqueProcNames at hr ⊢
    rw [List.foldlM_append, hr]
    cases r with
    | error x => rfl
    | ok names =>
      simp only [List.foldlM_cons, List.foldlM_nil, bind, Except.bind, pure, Except.pure]
      cases uniqueProcLoop names name fuel name 1 <;> rfl
  exact h _ rfl

/-- What is known of the names after some processors. -/
structure ProcNamed (procs names : List Name) : Prop where
  len : names.length = procs.length
  nodup : names.Nodup
  each : ∀ (j : Nat) (p : Name), procs[j]? = some p →
    ∃ k, names[j]? = some (procCand p k) ∧ ∀ i, i < k → procCand p i ∈ names.take j

theorem ProcNamed.snoc {procs names : List Name} (h : ProcNamed procs names) (p : Name) (k : Nat)
    (hk : procCand p k ∉ names) (hlt : ∀ j, j < k → procCand p j ∈ names) :
    ProcNamed (procs ++ [p]) (names ++ [procCand p k]) where
  len := by simp [h.len]
  nodup := by
    rw [List.nodup_append]
    refine ⟨h.nodup, by simp, ?_⟩
    rintro a ha b hb rfl
    rw [List.mem_singleton] at hb
    exact hk (hb ▸ ha)
  each := by
    intro j q hj
    by_cases hjl : j < procs.length
    · rw [List.getElem?_append_left hjl] at hj
      obtain ⟨k', h1, h2⟩ := h.each j q hj
      refine ⟨k', ?_, ?_⟩
      · rw [List.getElem?_append_left (by rw [h.len]; exact hjl)]; exact h1
      · intro i hi
        rw [List.take_append_of_le_length (by rw [h.len]; omega)]
        exact h2 i hi
    · have hjl' : j = procs.length := by
        have hh := (List.getElem?_eq_some_iff.1 hj).1
        simp only [List.length_append, List.length_singleton] at hh
        omega
      subst hjl'
      rw [List.getElem?_concat_length, Option.some.injEq] at hj
      subst hj
      refine ⟨k, ?_, ?_⟩
      · rw [← h.len, List.getElem?_concat_length]
      · intro i hi
        rw [← h.len, List.take_left]
        exact hlt i hi

theorem uniqueProcNames_spec (procs : List Name) :
    ∃ names, ProcNamed procs names ∧
      ∀ fuel, procs.length ≤ fuel → uniqueProcNames fuel procs = .ok names := by
  induction procs using List.reverseRecOn with
  | nil => exact ⟨[], ⟨rfl, by simp, by simp⟩, fun _ _ => rfl⟩
  | append_singleton procs p ih =>
    obtain ⟨names, hn, hrun⟩ := ih
    obtain ⟨k, h1, h2, h3⟩ := uniqueProcLoop_least names p (names.length + 1) (by omega)
    refine ⟨names ++ [procCand p k], hn.snoc p k h2 h3, ?_⟩
    intro fuel hf
    rw [List.length_append, List.length_singleton] at hf
    rw [uniqueProcNames_snoc, hrun fuel (by omega)]
    obtain ⟨k', h1', h2', h3'⟩ := uniqueProcLoop_least names p fuel (by rw [hn.len]; omega)
    have : k' = k := by
      rcases Nat.lt_trichotomy k' k with hlt | heq | hgt
      · exact absurd (h3 k' hlt) h2'
      · exact heq
      · exact absurd (h3' k hgt) h2
    subst this
    show (uniqueProcLoop names p fuel p 1).bind _ = _
    rw [h1']; rfl

/-- A name that is not a numbered version of another keeps its first place. -/
theorem ProcNamed.first {procs names : List Name} (h : ProcNamed procs names)
    (hfree : ∀ p ∈ procs, ∀ q ∈ procs, ∀ i, p ≠ q ++ [' '] ++ pyStr i) (j : Nat) (p : Name)
    (hj : procs[j]? = some p) (hfirst : p ∉ procs.take j) : names[j]? = some p := by
  obtain ⟨k, h1, h2⟩ := h.each j p hj
  cases k with
  | zero => exact h1
  | succ k =>
    exfalso
    have hm : p ∈ names.take j := h2 0 (by omega)
    obtain ⟨i, hi⟩ := List.mem_iff_getElem?.1 hm
    rw [List.getElem?_take] at hi
    split_ifs at hi with hij
    have hil : i < procs.length := by
      rw [← h.len]; exact (List.getElem?_eq_some_iff.1 hi).1
    obtain ⟨q, hq⟩ : ∃ q, procs[i]? = some q := ⟨_, List.getElem?_eq_getElem hil⟩
    obtain ⟨k', h3, _⟩ := h.each i q hq
    rw [hi, Option.some.injEq] at h3
    cases k' with
    | zero =>
      have h3' : p = q := h3
      subst h3'
      exact hfirst (List.mem_iff_getElem?.2 ⟨i, by rw [List.getElem?_take, if_pos hij]; exact hq⟩)
    | succ k' =>
      exact hfree p (List.mem_iff_getElem?.2 ⟨j, hj⟩) q (List.mem_iff_getElem?.2 ⟨i, hq⟩) _ h3

end Verif

/-
Properties C160 to C163: where sound field images show the values, comparing sound fields,
and showing points in space from above.
-/
import Verif.Props.Imshow
import Verif.Model.FieldPlot
namespace Verif

section
variable {F : Type} [Field F] [LinearOrder F]

theorem foldl_min_eq : ∀ (l : List F) (a m : F), m ∈ a :: l → (∀ x ∈ a :: l, m ≤ x) → l.foldl min a = m
  | [], a, m, hm, _ => by rw [List.foldl_nil]; exact (List.mem_singleton.1 hm).symm
  | b :: l, a, m, hm, hle => by
    rw [List.foldl_cons]
    refine foldl_min_eq l (min a b) m ?_ ?_
    · rcases List.mem_cons.1 hm with rfl | h
      · rw [min_eq_left (hle b (by simp))]; simp
      · rcases List.mem_cons.1 h with rfl | h
        · rw [min_eq_right (hle a (by simp))]; simp
        · simp [h]
    · intro x hx
      rcases List.mem_cons.1 hx with rfl | h
      · exact le_min (hle a (by simp)) (hle b (by simp))
      · exact hle x (by simp [h])

theorem foldl_max_eq : ∀ (l : List F) (a m : F), m ∈ a :: l → (∀ x ∈ a :: l, x ≤ m) → l.foldl max a = m
  | [], a, m, hm, _ => by rw [List.foldl_nil]; exact (List.mem_singleton.1 hm).symm
  | b :: l, a, m, hm, hle => by
    rw [List.foldl_cons]
    refine foldl_max_eq l (max a b) m ?_ ?_
    · rcases List.mem_cons.1 hm with rfl | h
      · rw [max_eq_left (hle b (by simp))]; simp
      · rcases List.mem_cons.1 h with rfl | h
        · rw [max_eq_right (hle a (by simp))]; simp
        · simp [h]
    · intro x hx
      rcases List.mem_cons.1 hx with rfl | h
      · exact max_le (hle a (by simp)) (hle b (by simp))
      · exact hle x (by simp [h])

theorem arrMin_eq {l : List F} {m : F} (hm : m ∈ l) (hle : ∀ x ∈ l, m ≤ x) : arrMin l = .ok m := by
  cases l with
  | nil => simp at hm
  | cons a l => exact congrArg Except.ok (foldl_min_eq l a m hm hle)

theorem arrMax_eq {l : List F} {m : F} (hm : m ∈ l) (hle : ∀ x ∈ l, x ≤ m) : arrMax l = .ok m := by
  cases l with
  | nil => simp at hm
  | cons a l => exact congrArg Except.ok (foldl_max_eq l a m hm hle)

theorem arrMin_mem : ∀ {l : List F}, l ≠ [] → ∃ m, m ∈ l ∧ ∀ x ∈ l, m ≤ x
  | [], h => absurd rfl h
  | [a], _ => ⟨a, by simp, by simp⟩
  | a :: b :: l, _ => by
    obtain ⟨m, hm, hle⟩ := arrMin_mem (l := b :: l) (by simp)
    rcases le_total a m with h | h
    · exact ⟨a, by simp, fun x hx => by
        rcases List.mem_cons.1 hx with rfl | hx
        · exact le_refl _
        · exact h.trans (hle x hx)⟩
    · exact ⟨m, by simp only [List.mem_cons] at hm ⊢; exact Or.inr hm, fun x hx => by
        rcases List.mem_cons.1 hx with rfl | hx
        · exact h
        · exact hle x hx⟩

theorem arrMax_mem : ∀ {l : List F}, l ≠ [] → ∃ m, m ∈ l ∧ ∀ x ∈ l, x ≤ m
  | [], h => absurd rfl h
  | [a], _ => ⟨a, by simp, by simp⟩
  | a :: b :: l, _ => by
    obtain ⟨m, hm, hle⟩ := arrMax_mem (l := b :: l) (by simp)
    rcases le_total m a with h | h
    · exact ⟨a, by simp, fun x hx => by
        rcases List.mem_cons.1 hx with rfl | hx
        · exact le_refl _
        · exact (hle x hx).trans h⟩
    · exact ⟨m, by simp only [List.mem_cons] at hm ⊢; exact Or.inr hm, fun x hx => by
        rcases List.mem_cons.1 hx with rfl | hx
        · exact h
        · exact hle x hx⟩

end

section
variable {F : Type} [Field F] [LinearOrder F] [IsStrictOrderedRing F]

/-! ### Where the pixels are -/

/-- The image shows value `v` at the point `(x, y)`: the point lies in a pixel with this value.  The
pixels divide the area between the edges evenly, the first row is the topmost. -/
def Image.ShowsAt {V : Type} (im : Image V F) (v : V) (x y : F) : Prop :=
  ∃ (i j : Nat) (row : List V), im.rows[i]? = some row ∧ row[j]? = some v ∧
    im.left + j * ((im.right - im.left) / row.length) ≤ x ∧
    x ≤ im.left + (j + 1) * ((im.right - im.left) / row.length) ∧
    im.top - (i + 1) * ((im.top - im.bottom) / im.rows.length) ≤ y ∧
    y ≤ im.top - i * ((im.top - im.bottom) / im.rows.length)

/-- The coordinates of an evenly spaced axis. -/
def evenAxis (a d : F) (n : Nat) : List F := (List.range n).map fun (j : Nat) => a + j * d

theorem evenAxis_apart {a d : F} {n p : Nat} (hd : 2 / 10 ^ p ≤ d) : Apart p (evenAxis a d n) := by
  unfold Apart evenAxis
  rw [List.pairwise_map]
  refine List.pairwise_lt_range.imp fun {i j} hij => ?_
  have h : (i : F) + 1 ≤ j := by exact_mod_cast hij
  have hp : (0 : F) < 2 / 10 ^ p := by positivity
  nlinarith

theorem evenAxis_get {a d : F} {n j : Nat} (hj : j < n) : (evenAxis a d n)[j]? = some (a + j * d) := by
  unfold evenAxis
  rw [List.getElem?_map, List.getElem?_range hj]; rfl

/-- Position `j` of `n` lies in part `j` of `n` of the interval between the first and the last. -/
theorem even_in_part {n j : Nat} (d : F) (hd : 0 ≤ d) (hj : j < n) :
    (j : F) * (((n - 1 : Nat) : F) * d / n) ≤ j * d ∧ (j : F) * d ≤ (j + 1) * (((n - 1 : Nat) : F) * d / n) := by
  have hn : (0 : F) < n := by exact_mod_cast (by omega : 0 < n)
  have h1 : ((n - 1 : Nat) : F) = (n : F) - 1 := by
    rw [Nat.cast_sub (by omega)]; simp
  have hj' : (j : F) + 1 ≤ n := by exact_mod_cast hj
  have hj0 : (0 : F) ≤ j := by positivity
  rw [h1, ← mul_div_assoc, ← mul_div_assoc, div_le_iff₀ hn, le_div_iff₀ hn]
  constructor <;> nlinarith [mul_nonneg hj0 hd, mul_nonneg (sub_nonneg.2 hj') hd]

variable [FloorRing F]

/-- **C160** For microphones on an evenly spaced rectangular grid, given in any order, the exported
sound field image has as many pixels as there are microphones and shows the value of each
microphone at its position. -/
theorem C160_even_partial {V : Type} (a b d e : F) (n m : Nat) (hn : 0 < n) (hm : 0 < m) (hd : 2 / 10 ^ 5 ≤ d)
    (he : 2 / 10 ^ 5 ≤ e) (z : Option F) (pos : List (Pt F))
    (hpos : pos.Perm (gridPoints (evenAxis a d n) (evenAxis b e m) z)) (sf : List V)
    (hsf : sf.length = pos.length) :
    ∃ im, soundfieldImage pos sf = .ok im ∧ im.rows.length = m ∧ (∀ row ∈ im.rows, row.length = n) ∧
      ∀ (k : Nat) (p : Pt F) (v : V), pos[k]? = some p → sf[k]? = some v → im.ShowsAt v p.x p.y := by
  have hX : Apart 5 (evenAxis a d n) := evenAxis_apart hd
  have hY : Apart 5 (evenAxis b e m) := evenAxis_apart he
  have hX0 : evenAxis a d n ≠ [] := by unfold evenAxis; simp; omega
  have hY0 : evenAxis b e m ≠ [] := by unfold evenAxis; simp; omega
  have hXl : (evenAxis a d n).length = n := by unfold evenAxis; simp
  have hYl : (evenAxis b e m).length = m := by unfold evenAxis; simp
  have hd0 : 0 ≤ d := le_trans (by positivity) hd
  have he0 : 0 ≤ e := le_trans (by positivity) he
  obtain ⟨ps, ss, h, hps, hlen, hrow, hall⟩ := C81_image 5 _ _ z hX hY hX0 hY0 pos hpos sf hsf
  rw [hYl] at hlen
  rw [hXl] at hrow
  have hmem : ∀ q, q ∈ ps.flatten ↔ q.x ∈ evenAxis a d n ∧ q.y ∈ evenAxis b e m ∧ q.z = z := by
    intro q
    rw [hps, ← List.flatMap_def]
    exact mem_gridPoints
  have hin : ∀ (c s : F) (l : Nat), 0 ≤ s → ∀ x ∈ evenAxis c s l, c ≤ x ∧ x ≤ c + ((l - 1 : Nat) : F) * s := by
    intro c s l hs x hx
    unfold evenAxis at hx
    obtain ⟨j, hj, rfl⟩ := List.mem_map.1 hx
    rw [List.mem_range] at hj
    have h1 : (j : F) ≤ ((l - 1 : Nat) : F) := by exact_mod_cast (by omega : j ≤ l - 1)
    have h0 : (0 : F) ≤ j := by positivity
    constructor <;> nlinarith [mul_nonneg h0 hs, mul_le_mul_of_nonneg_right h1 hs]
  have hends : ∀ (c s : F) (l : Nat), 0 < l → c ∈ evenAxis c s l ∧ c + ((l - 1 : Nat) : F) * s ∈ evenAxis c s l := by
    intro c s l hl
    exact ⟨List.mem_map.2 ⟨0, by simpa using hl, by simp⟩, List.mem_map.2 ⟨l - 1, by simp; omega, rfl⟩⟩
  obtain ⟨hxa, hxb⟩ := hends a d n hn
  obtain ⟨hya, hyb⟩ := hends b e m hm
  have hg : ∀ x ∈ evenAxis a d n, ∀ y ∈ evenAxis b e m, (⟨x, y, z⟩ : Pt F) ∈ ps.flatten :=
    fun x hx y hy => (hmem _).2 ⟨hx, hy, rfl⟩
  have e1 : arrMin (ps.flatten.map Pt.x) = .ok a := arrMin_eq (List.mem_map.2 ⟨_, hg a hxa b hya, rfl⟩) (by
    intro x hx; obtain ⟨q, hq, rfl⟩ := List.mem_map.1 hx; exact (hin a d n hd0 _ ((hmem q).1 hq).1).1)
  have e2 : arrMax (ps.flatten.map Pt.x) = .ok (a + ((n - 1 : Nat) : F) * d) :=
    arrMax_eq (List.mem_map.2 ⟨_, hg _ hxb b hya, rfl⟩) (by
      intro x hx; obtain ⟨q, hq, rfl⟩ := List.mem_map.1 hx; exact (hin a d n hd0 _ ((hmem q).1 hq).1).2)
  have e3 : arrMin (ps.flatten.map Pt.y) = .ok b := arrMin_eq (List.mem_map.2 ⟨_, hg a hxa b hya, rfl⟩) (by
    intro x hx; obtain ⟨q, hq, rfl⟩ := List.mem_map.1 hx; exact (hin b e m he0 _ ((hmem q).1 hq).2.1).1)
  have e4 : arrMax (ps.flatten.map Pt.y) = .ok (b + ((m - 1 : Nat) : F) * e) :=
    arrMax_eq (List.mem_map.2 ⟨_, hg a hxa _ hyb, rfl⟩) (by
      intro x hx; obtain ⟨q, hq, rfl⟩ := List.mem_map.1 hx; exact (hin b e m he0 _ ((hmem q).1 hq).2.1).2)
  refine ⟨⟨ss, a, a + ((n - 1 : Nat) : F) * d, b, b + ((m - 1 : Nat) : F) * e⟩, ?_, hlen, hrow, ?_⟩
  · unfold soundfieldImage
    rw [h]
    dsimp only
    unfold sfPlot
    rw [e1, e2, e3, e4]
  · intro k p v hk hv
    obtain ⟨hpx, hpy, hpz⟩ := mem_gridPoints.1 (hpos.subset (List.mem_of_getElem? hk))
    obtain ⟨j, hj, hjx⟩ := List.mem_map.1 hpx
    obtain ⟨i, hi, hiy⟩ := List.mem_map.1 hpy
    rw [List.mem_range] at hj hi
    have hp : p = ⟨a + j * d, b + i * e, z⟩ := by
      cases p; simp only [Pt.mk.injEq]; exact ⟨hjx.symm, hiy.symm, hpz⟩
    obtain ⟨r, hr, hr2⟩ := hall i j k _ _ (evenAxis_get hi) (evenAxis_get hj) (hp ▸ hk)
    rw [hYl] at hr
    rw [hv] at hr2
    have hrl := hrow r (List.mem_of_getElem? hr)
    refine ⟨m - 1 - i, j, r, hr, hr2, ?_⟩
    dsimp only
    rw [hrl, hlen, ← hjx, ← hiy]
    obtain ⟨x1, x2⟩ := even_in_part d hd0 hj
    obtain ⟨y1, y2⟩ := even_in_part e he0 hi
    have hmi : ((m - 1 - i : Nat) : F) = (m : F) - 1 - i := by
      rw [Nat.cast_sub (by omega), Nat.cast_sub (by omega)]; simp
    have hm1 : ((m - 1 : Nat) : F) = (m : F) - 1 := by rw [Nat.cast_sub (by omega)]; simp
    have hmF : (m : F) ≠ 0 := by
      have : (0 : F) < m := by exact_mod_cast hm
      exact ne_of_gt this
    obtain ⟨w, hw⟩ : ∃ w, w = ((m - 1 : Nat) : F) * e / m := ⟨_, rfl⟩
    have hw2 : (m : F) * w = ((m - 1 : Nat) : F) * e := by rw [hw]; field_simp
    rw [← hw] at y1 y2
    simp only [add_sub_cancel_left]
    rw [hmi, ← hw]
    refine ⟨by linarith, by linarith, ?_, ?_⟩
    · have : ((m : F) - 1 - i + 1) * w = m * w - i * w := by ring
      rw [this, hw2]; linarith
    · have : ((m : F) - 1 - i) * w = m * w - (i + 1) * w := by ring
      rw [this, hw2]; linarith

/-! ### The size of a plot -/

omit [FloorRing F] in
/-- **C162** The size of a plot: no two points of the arrays are further apart than the reported width
and height, there are points that far apart, and there is a size exactly if there is a point. -/
theorem C162_size (arrays : List (List (Pt F))) :
    (arrays.flatten = [] ↔ sizeOf2dPlot arrays = .error .value) ∧
    (arrays.flatten ≠ [] → ∃ w h, sizeOf2dPlot arrays = .ok (w, h) ∧
      (∀ A ∈ arrays, ∀ B ∈ arrays, ∀ p ∈ A, ∀ q ∈ B, q.x - p.x ≤ w ∧ q.y - p.y ≤ h) ∧
      (∃ A ∈ arrays, ∃ B ∈ arrays, ∃ p ∈ A, ∃ q ∈ B, q.x - p.x = w) ∧
      (∃ A ∈ arrays, ∃ B ∈ arrays, ∃ p ∈ A, ∃ q ∈ B, q.y - p.y = h)) := by
  have key : arrays.flatten ≠ [] → ∃ w h, sizeOf2dPlot arrays = .ok (w, h) ∧
      (∀ A ∈ arrays, ∀ B ∈ arrays, ∀ p ∈ A, ∀ q ∈ B, q.x - p.x ≤ w ∧ q.y - p.y ≤ h) ∧
      (∃ A ∈ arrays, ∃ B ∈ arrays, ∃ p ∈ A, ∃ q ∈ B, q.x - p.x = w) ∧
      (∃ A ∈ arrays, ∃ B ∈ arrays, ∃ p ∈ A, ∃ q ∈ B, q.y - p.y = h) := by
    intro hne
    have hx : arrays.flatten.map Pt.x ≠ [] := by simpa using hne
    have hy : arrays.flatten.map Pt.y ≠ [] := by simpa using hne
    obtain ⟨l, hl, hl2⟩ := arrMin_mem hx
    obtain ⟨r, hr, hr2⟩ := arrMax_mem hx
    obtain ⟨b, hb, hb2⟩ := arrMin_mem hy
    obtain ⟨t, ht, ht2⟩ := arrMax_mem hy
    refine ⟨r - l, t - b, ?_, ?_, ?_, ?_⟩
    · unfold sizeOf2dPlot
      rw [arrMin_eq hl hl2, arrMax_eq hr hr2, arrMin_eq hb hb2, arrMax_eq ht ht2]
    · intro A hA B hB p hp q hq
      have hp' : p ∈ arrays.flatten := List.mem_flatten.2 ⟨A, hA, hp⟩
      have hq' : q ∈ arrays.flatten := List.mem_flatten.2 ⟨B, hB, hq⟩
      exact ⟨sub_le_sub (hr2 _ (List.mem_map.2 ⟨q, hq', rfl⟩)) (hl2 _ (List.mem_map.2 ⟨p, hp', rfl⟩)),
        sub_le_sub (ht2 _ (List.mem_map.2 ⟨q, hq', rfl⟩)) (hb2 _ (List.mem_map.2 ⟨p, hp', rfl⟩))⟩
    · obtain ⟨p, hp, rfl⟩ := List.mem_map.1 hl
      obtain ⟨q, hq, rfl⟩ := List.mem_map.1 hr
      obtain ⟨A, hA, hpA⟩ := List.mem_flatten.1 hp
      obtain ⟨B, hB, hqB⟩ := List.mem_flatten.1 hq
      exact ⟨A, hA, B, hB, p, hpA, q, hqB, rfl⟩
    · obtain ⟨p, hp, rfl⟩ := List.mem_map.1 hb
      obtain ⟨q, hq, rfl⟩ := List.mem_map.1 ht
      obtain ⟨A, hA, hpA⟩ := List.mem_flatten.1 hp
      obtain ⟨B, hB, hqB⟩ := List.mem_flatten.1 hq
      exact ⟨A, hA, B, hB, p, hpA, q, hqB, rfl⟩
  refine ⟨⟨fun h => ?_, fun h => ?_⟩, key⟩
  · unfold sizeOf2dPlot; rw [h]; rfl
  · by_contra hne
    obtain ⟨w, h', he, _⟩ := key hne
    rw [he] at h
    injection h

/-! ### Points in space seen from above -/

omit [IsStrictOrderedRing F] [FloorRing F] in
theorem heights_eq : ∀ (pos : List (Pt F)), (∀ p ∈ pos, p.z ≠ none) → heights pos = .ok (pos.map fun p => p.z.getD 0)
  | [], _ => rfl
  | p :: ps, h => by
    unfold heights
    cases hz : p.z with
    | none => exact absurd hz (h p (by simp))
    | some z =>
      dsimp only
      rw [heights_eq ps fun q hq => h q (by simp [hq])]
      simp [hz]

theorem partition_perm {A K : Type} [DecidableEq K] (key : A → K) (l : List A) : ∀ (ks : List K), ks.Nodup →
    (∀ a ∈ l, key a ∈ ks) → (ks.flatMap fun k => l.filter fun a => decide (key a = k)).Perm l
  | [], _, h => by
    cases l with
    | nil => exact List.Perm.refl _
    | cons a l => exact absurd (h a (by simp)) (by simp)
  | k :: ks, hn, h => by
    obtain ⟨hk, hn'⟩ := List.nodup_cons.1 hn
    rw [List.flatMap_cons]
    have h1 : (ks.flatMap fun k' => l.filter fun a => decide (key a = k')) =
        ks.flatMap fun k' => (l.filter fun a => !decide (key a = k)).filter fun a => decide (key a = k') := by
      rw [List.flatMap_def, List.flatMap_def]
      congr 1
      apply List.map_congr_left
      intro k' hk'
      rw [List.filter_filter]
      apply List.filter_congr
      intro a _
      by_cases hak : key a = k'
      · have : key a ≠ k := fun h2 => hk (by rw [← h2, hak]; exact hk')
        simp [hak ▸ this, hak]
      · simp [hak]
    rw [h1]
    refine ((partition_perm key _ ks hn' ?_).append_left _).trans (List.filter_append_perm _ _)
    intro a ha
    rw [List.mem_filter] at ha
    rcases List.mem_cons.1 (h a ha.1) with h2 | h2
    · simp [h2] at ha
    · exact h2

/-- **C163** Points in space seen from above: every point is drawn exactly once.  The heights in the
labels are increasing and every line has points.  A line has, in the given order, exactly the points
whose height belongs to its label; a label is a function of the height and differs from it by at
most half a unit of the fourth decimal. -/
theorem C163_lines (pos : List (Pt F)) (h3 : ∀ p ∈ pos, p.z ≠ none) :
    ∃ ls, plot3dIn2d pos = .ok ls ∧
      (ls.flatMap Prod.snd).Perm (pos.map fun p => (p.x, p.y)) ∧
      (ls.map Prod.fst).Pairwise (· < ·) ∧ (∀ l ∈ ls, l.2 ≠ []) ∧
      ∃ label : F → F, (∀ z, |label z - z| ≤ 1 / 20000) ∧
        ∀ l ∈ ls, l.2 = (pos.filter fun p => decide (label (p.z.getD 0) = l.1)).map fun p => (p.x, p.y) := by
  obtain ⟨ks, hks⟩ : ∃ ks, ks = npUnique ((pos.map fun p => p.z.getD 0).map (roundDec 4)) := ⟨_, rfl⟩
  have hmem : ∀ v, v ∈ ks ↔ ∃ p ∈ pos, roundDec 4 (p.z.getD 0) = v := by
    intro v
    rw [hks]
    unfold npUnique
    rw [List.mem_mergeSort, List.mem_dedup]
    simp
  have hnd : ks.Nodup := by
    rw [hks]
    exact (List.mergeSort_perm _ _).symm.nodup (List.nodup_dedup _)
  have hsorted : ks.Pairwise (· < ·) := by
    have h1 := List.pairwise_mergeSort (le := fun a b : F => decide (a ≤ b)) (fun a b c h1 h2 => by
      simp only [decide_eq_true_eq] at *; exact h1.trans h2) (fun a b => by
      simp only [Bool.or_eq_true, decide_eq_true_eq]; exact le_total a b)
      ((pos.map fun p => p.z.getD 0).map (roundDec 4)).dedup
    have h2 : ks.Pairwise (· ≤ ·) := by rw [hks]; exact h1.imp fun h => by simpa using h
    exact (h2.and hnd).imp fun h => lt_of_le_of_ne h.1 h.2
  have hline : ∀ v, ((pos.zip (pos.map fun p => p.z.getD 0)).filter fun q => decide (roundDec 4 q.2 = v)).map
      (fun q => (q.1.x, q.1.y)) =
      (pos.filter fun p => decide (roundDec 4 (p.z.getD 0) = v)).map fun p => (p.x, p.y) := by
    intro v
    rw [List.zip_map_right, ← List.map_id pos, List.zip_map']
    simp only [List.map_id, List.map_map]
    rw [List.filter_map, List.map_map]
    rfl
  refine ⟨ks.map fun v => (v, (pos.filter fun p => decide (roundDec 4 (p.z.getD 0) = v)).map fun p => (p.x, p.y)),
    ?_, ?_, ?_, ?_, roundDec 4, ?_, ?_⟩
  · unfold plot3dIn2d
    rw [heights_eq pos h3]
    dsimp only
    rw [← hks]
    simp only [hline]
  · rw [List.flatMap_map]
    have h1 : (ks.flatMap fun v => (pos.filter fun p => decide (roundDec 4 (p.z.getD 0) = v)).map
        fun p => (p.x, p.y)) = (ks.flatMap fun v => pos.filter fun p => decide (roundDec 4 (p.z.getD 0) = v)).map
          fun p => (p.x, p.y) := by rw [List.map_flatMap]
    rw [h1]
    exact (partition_perm (fun p : Pt F => roundDec 4 (p.z.getD 0)) pos ks hnd fun p hp =>
      (hmem _).2 ⟨p, hp, rfl⟩).map _
  · rw [List.map_map]
    have : ((Prod.fst : F × List (F × F) → F) ∘ fun v => (v, (pos.filter fun p =>
      decide (roundDec 4 (p.z.getD 0) = v)).map fun p => (p.x, p.y))) = id := rfl
    rw [this, List.map_id]
    exact hsorted
  · intro l hl
    obtain ⟨v, hv, rfl⟩ := List.mem_map.1 hl
    obtain ⟨p, hp, hpv⟩ := (hmem v).1 hv
    dsimp only
    rw [ne_eq, List.map_eq_nil_iff, List.filter_eq_nil_iff]
    intro hall
    exact hall p hp (by simpa using hpv)
  · intro z
    refine (roundDec_near 4 z).trans (le_of_eq ?_)
    norm_num
  · intro l hl
    obtain ⟨v, _, rfl⟩ := List.mem_map.1 hl
    rfl

/-- **C163** Points without height cannot be drawn: an exception is raised instead of leaving points out. -/
theorem C163_flat {pos : List (Pt F)} {p : Pt F} (hp : p ∈ pos) (hz : p.z = none) : plot3dIn2d pos = .error .index := by
  have : heights pos = .error .index := by
    induction pos with
    | nil => cases hp
    | cons q pos ih =>
      rw [heights]
      cases hq : q.z with
      | none => rfl
      | some z =>
        dsimp only
        rcases List.mem_cons.1 hp with rfl | hp
        · rw [hz] at hq; cases hq
        · rw [ih hp]
  unfold plot3dIn2d
  rw [this]

example : plot3dIn2d (F := Rat) [⟨0, 1, none⟩, ⟨3, 2, none⟩] = .error .index :=
  C163_flat (p := ⟨3, 2, none⟩) (by simp) rfl

end

/-- **C160** On a rectangular grid whose columns are not evenly spaced a value is not shown at its
microphone: with columns at 0, 1 and 10, the microphone at 1 lies in the pixel of the one at 0. -/
theorem C160_violated : ∃ im, soundfieldImage (F := Rat) [⟨0, 0, none⟩, ⟨1, 0, none⟩, ⟨10, 0, none⟩]
    ["left", "middle", "right"] = .ok im ∧ im.ShowsAt "left" 1 0 ∧ ¬ im.ShowsAt "middle" 1 0 := by
  have h : soundfieldImage (F := Rat) [⟨0, 0, none⟩, ⟨1, 0, none⟩, ⟨10, 0, none⟩]
      ["left", "middle", "right"] = .ok ⟨[["left", "middle", "right"]], 0, 10, 0, 0⟩ := by
    have hX : Apart (F := Rat) 5 [0, 1, 10] := by unfold Apart; simp; norm_num
    have hY : Apart (F := Rat) 5 [0] := by unfold Apart; simp
    obtain ⟨ps, ss, h, hps, hl, hr, hall⟩ := C81_image 5 [0, 1, 10] [0] none hX hY (by simp) (by simp)
      [⟨0, 0, none⟩, ⟨1, 0, none⟩, ⟨10, 0, none⟩] (List.Perm.refl _) ["left", "middle", "right"] rfl
    obtain ⟨r0, h0, h0'⟩ := hall 0 0 0 0 0 rfl rfl rfl
    obtain ⟨r1, h1, h1'⟩ := hall 0 1 1 1 0 rfl rfl rfl
    obtain ⟨r2, h2, h2'⟩ := hall 0 2 2 10 0 rfl rfl rfl
    have hss : ss = [["left", "middle", "right"]] := by
      match ss, hl with
      | [r], _ =>
        simp at h0 h1 h2
        subst h0; subst h1; subst h2
        have hr' := hr r (by simp)
        match r, hr' with
        | [u, v, w], _ => simp at h0' h1' h2'; rw [h0', h1', h2']
    unfold soundfieldImage
    rw [h]
    dsimp only
    rw [hps, hss]
    decide +kernel
  refine ⟨_, h, ⟨0, 0, _, rfl, rfl, by norm_num, by norm_num, by norm_num, by norm_num⟩, ?_⟩
  rintro ⟨i, j, row, hi, hj, hx, -⟩
  match i with
  | 0 =>
    simp at hi
    subst hi
    match j with
    | 0 => simp at hj
    | 1 => norm_num at hx
    | 2 => simp at hj
    | (k + 3) => simp at hj
  | (k + 1) => simp at hi

/-- A concrete case of the hypotheses of C160: a grid of 3 × 2 points half a metre apart. -/
example : (2 : Rat) / 10 ^ 5 ≤ 1 / 2 ∧
    ([⟨1, 1/2, some 2⟩, ⟨0, 0, some 2⟩, ⟨1/2, 1/2, some 2⟩, ⟨1/2, 0, some 2⟩, ⟨1, 0, some 2⟩,
      ⟨0, 1/2, some 2⟩] : List (Pt Rat)).Perm
      (gridPoints (evenAxis 0 (1/2) 3) (evenAxis 0 (1/2) 2) (some 2)) := by
  exact ⟨by norm_num, by decide +kernel⟩

/-- A concrete case of C162. -/
example : sizeOf2dPlot (F := Rat) [[⟨0, 1, none⟩, ⟨3, 2, none⟩], [⟨-1, 5, some 2⟩]] = .ok (4, 4) := by decide +kernel

/-- A concrete case of the hypothesis of C163: two points of one height and one higher. -/
example : ∃ ls, plot3dIn2d (F := Rat) [⟨0, 1, some 2⟩, ⟨3, 2, some 1⟩, ⟨5, 6, some 2⟩] = .ok ls ∧
    (ls.flatMap Prod.snd).Perm [(0, 1), (3, 2), (5, 6)] := by
  obtain ⟨ls, h, h2, -⟩ := C163_lines (F := Rat) [⟨0, 1, some 2⟩, ⟨3, 2, some 1⟩, ⟨5, 6, some 2⟩] (by simp)
  exact ⟨ls, h, h2⟩

/-! ### Comparing sound fields -/

section
variable {F : Type} [Field F] [LinearOrder F] [IsStrictOrderedRing F] [FloorRing F]

theorem untilRaise_ok {A B : Type} (f : A → Except PyErr B) (g : A → B) : ∀ (l : List A), (∀ a ∈ l, f a = .ok (g a)) →
    untilRaise (l.map f) = .ok (l.map g)
  | [], _ => rfl
  | a :: l, h => by
    rw [List.map_cons]
    unfold untilRaise
    rw [h a (by simp), untilRaise_ok f g l fun b hb => h b (by simp [hb])]
    rfl

theorem untilRaise_all {A : Type} : ∀ {l : List (Except PyErr A)} {r : List A}, untilRaise l = .ok r →
    ∀ x ∈ l, ∃ a, x = .ok a
  | [], _, _, x, hx => by simp at hx
  | y :: l, r, h, x, hx => by
    unfold untilRaise at h
    cases y with
    | error e => injection h
    | ok a =>
      dsimp only at h
      cases hl : untilRaise l with
      | error e => rw [hl] at h; injection h
      | ok as =>
        rcases List.mem_cons.1 hx with rfl | hx
        · exact ⟨a, rfl⟩
        · exact untilRaise_all hl x hx

theorem gather_long {V : Type} {l : List V} : ∀ {r : List Nat} {v : List V}, gather l r = .ok v →
    ∀ k ∈ r, k < l.length
  | [], _, _, k, hk => by simp at hk
  | a :: r, v, h, k, hk => by
    unfold gather at h
    cases ha : l[a]? with
    | none => rw [ha] at h; injection h
    | some w =>
      rw [ha] at h
      dsimp only at h
      cases hg : gather l r with
      | error x => rw [hg] at h; injection h
      | ok vs =>
        rcases List.mem_cons.1 hk with rfl | hk
        · exact (List.getElem?_eq_some_iff.1 ha).1
        · exact gather_long hg k hk

theorem gatherRows_long {V : Type} {l : List V} : ∀ {rs : List (List Nat)} {v : List (List V)},
    gatherRows l rs = .ok v → ∀ r ∈ rs, ∀ k ∈ r, k < l.length
  | [], _, _, r, hr => by simp at hr
  | a :: rs, v, h, r, hr => by
    unfold gatherRows at h
    cases ha : gather l a with
    | error x => rw [ha] at h; injection h
    | ok w =>
      rw [ha] at h
      dsimp only at h
      cases hg : gatherRows l rs with
      | error x => rw [hg] at h; injection h
      | ok vs =>
        rcases List.mem_cons.1 hr with rfl | hr
        · exact gather_long ha
        · exact gatherRows_long hg r hr

/-- Sorting succeeds only if there is a signal for the position with the largest index. -/
theorem sortForImshow_long {V : Type} (p : Nat) (X Y : List F) (z : Option F) (hX : Apart p X) (hY : Apart p Y)
    (pos : List (Pt F)) (hpos : pos.Perm (gridPoints X Y z)) (sig : List V) (ps : List (List (Pt F)))
    (ss : List (List V)) (h : sortForImshow p pos sig = .ok (ps, ss)) : pos.length ≤ sig.length := by
  by_contra hlt
  have hlt : sig.length < pos.length := by omega
  obtain ⟨q, hq⟩ : ∃ q, pos[sig.length]? = some q := ⟨_, List.getElem?_eq_getElem hlt⟩
  obtain ⟨hqx, hqy, hqz⟩ := mem_gridPoints.1 (hpos.subset (List.mem_of_getElem? hq))
  unfold sortForImshow at h
  split at h
  · injection h
  · dsimp only at h
    cases hidx : sortIndices p pos (npUnique (pos.map fun r => roundDec p r.x)).length
        (npUnique (pos.map fun r => roundDec p r.y)) with
    | error x => rw [hidx] at h; injection h
    | ok idx =>
      rw [hidx] at h
      dsimp only at h
      cases hg : gatherRows pos idx with
      | error x => rw [hg] at h; injection h
      | ok psg =>
        rw [hg] at h
        dsimp only at h
        cases hs : gatherRows sig idx with
        | error x => rw [hs] at h; injection h
        | ok ssg =>
          have hall := gatherRows_long hs
          have hrl : ∀ y ∈ Y, (rowIndices p pos (roundDec p y)).map (fun k => (pos[k]?).getD ⟨0, 0, none⟩) =
              X.map fun x => ⟨x, y, z⟩ := fun y hy => rowIndices_points hX hY hpos hy
          have hux : npUnique (pos.map fun q => roundDec p q.x) = X.map (roundDec p) := by
            refine npUnique_eq (apart_round hX) fun v => ?_
            rw [List.mem_map, List.mem_map]
            constructor
            · rintro ⟨x, hx, rfl⟩
              exact ⟨⟨x, q.y, z⟩, hpos.symm.subset (mem_gridPoints.2 ⟨hx, hqy, rfl⟩), rfl⟩
            · rintro ⟨r, hr, rfl⟩
              exact ⟨r.x, (mem_gridPoints.1 (hpos.subset hr)).1, rfl⟩
          have huy : npUnique (pos.map fun q => roundDec p q.y) = Y.map (roundDec p) := by
            refine npUnique_eq (apart_round hY) fun v => ?_
            rw [List.mem_map, List.mem_map]
            constructor
            · rintro ⟨y, hy, rfl⟩
              exact ⟨⟨q.x, y, z⟩, hpos.symm.subset (mem_gridPoints.2 ⟨hqx, hy, rfl⟩), rfl⟩
            · rintro ⟨r, hr, rfl⟩
              exact ⟨r.y, (mem_gridPoints.1 (hpos.subset hr)).2.1, rfl⟩
          rw [hux, huy, List.length_map, sortIndices_ok _ (by
            intro v hv
            obtain ⟨y, hy, rfl⟩ := List.mem_map.1 hv
            have := congrArg List.length (hrl y hy)
            simpa using this)] at hidx
          injection hidx with hidx
          have hmem : sig.length ∈ rowIndices p pos (roundDec p q.y) := by
            unfold rowIndices
            rw [List.mem_mergeSort, List.mem_filter, List.mem_range]
            refine ⟨hlt, ?_⟩
            rw [hq]
            simp only [Option.map_some, Option.getD_some, decide_eq_true_eq]
            exact (apart_row hY hqy hqy).2 rfl
          have := hall _ (by rw [← hidx]; exact List.mem_map.2 ⟨_, List.mem_map.2 ⟨q.y, hqy, rfl⟩, rfl⟩) _ hmem
          omega

/-- **C161** `compare_soundfields` never succeeds if it is called as documented, with a list of one array
for each algorithm; nor with one array of the shape (algorithms, axes, points), unless there are at
least as many algorithms as points; nor with further arrays to plot, be they arrays of the simulation
or arrays of positions. -/
theorem C161_violated {V L : Type} (X Y : List F) (z : Option F) (hX : Apart 5 X) (hY : Apart 5 Y)
    (pos : List (Pt F)) (hpos : pos.Perm (gridPoints X Y z)) (algoLabels rowLabels : List L)
    (arrays : PlotArrays F) :
    (∀ (sig : List (List (List V))) r,
      compareSoundfields pos (.list sig) algoLabels rowLabels arrays ≠ .ok r) ∧
    (∀ (sig : List (List (List V))), sig.length < pos.length → ∀ r,
      compareSoundfields pos (.arr3 sig) algoLabels rowLabels arrays ≠ .ok r) ∧
    (∀ (sig : FieldArg V) r, compareSoundfields pos sig algoLabels rowLabels .objects ≠ .ok r) ∧
    (∀ (sig : List (List V)), X ≠ [] → Y ≠ [] → sig.length = pos.length → ∀ A As r,
      compareSoundfields pos (.arr2 sig) algoLabels rowLabels (.positions (A :: As)) ≠ .ok r) := by
  refine ⟨?_, ?_, ?_, ?_⟩
  · intro sig r h
    unfold compareSoundfields at h
    dsimp only at h
    split at h <;> injection h
  · intro sig hlt r h
    unfold compareSoundfields at h
    dsimp only at h
    cases hs : sortForImshow 5 pos sig with
    | error x => rw [hs] at h; injection h
    | ok w =>
      obtain ⟨ps, ss⟩ := w
      have := sortForImshow_long 5 X Y z hX hY pos hpos sig ps ss hs
      omega
  · intro sig r h
    unfold compareSoundfields at h
    cases sig <;> dsimp only at h <;> split at h
    all_goals first | (injection h; done) | (unfold compareRest at h; injection h)
  · intro sig hX0 hY0 hsig A As r h
    obtain ⟨ps, ss, hs, hps, hlen, hrow, -⟩ := C81_image 5 X Y z hX hY hX0 hY0 pos hpos sig hsig
    have hY1 : 0 < Y.length := List.length_pos_of_ne_nil hY0
    unfold compareSoundfields at h
    dsimp only at h
    rw [hs] at h
    dsimp only at h
    unfold compareRest at h
    dsimp only at h
    split at h
    · injection h
    · obtain ⟨a, ha⟩ := untilRaise_all h _ (List.mem_map.2 ⟨0, by
        rw [List.mem_range]; unfold axesShape; simp, rfl⟩)
      obtain ⟨b, hb⟩ := untilRaise_all ha _ (List.mem_map.2 ⟨0, by
        rw [List.mem_range]; unfold axesShape; simp; omega, rfl⟩)
      unfold compareOne at hb
      have h0 : (0 : Nat) < ss.length := by omega
      simp only [List.getElem?_cons_zero, List.getElem?_eq_getElem h0] at hb
      split at hb <;> injection hb

/-- **C161** What it does instead for one sound field given as an array with one row for each point
and without further arrays: the figure has one image for each row of the grid, from the top, and
image `j` only has the values of row `j`, one line for each point, whatever the labels are. -/
theorem C161_rows_partial {V L : Type} (X Y : List F) (z : Option F) (hX : Apart 5 X) (hY : Apart 5 Y)
    (hX0 : X ≠ []) (hY0 : Y ≠ []) (pos : List (Pt F)) (hpos : pos.Perm (gridPoints X Y z))
    (sig : List (List V)) (hsig : sig.length = pos.length) (algo : L) (algos rowLabels : List L)
    (hlab : Y.length ≤ rowLabels.length) :
    ∃ ims, compareSoundfields pos (.arr2 sig) (algo :: algos) rowLabels .empty = .ok [ims] ∧
      ims.map (fun im => im.1) = (rowLabels.take Y.length).map (fun l => (algo, l)) ∧
      ∀ (i j k : Nat) (x y : F), Y[i]? = some y → X[j]? = some x → pos[k]? = some ⟨x, y, z⟩ →
        ∃ im, ims[Y.length - 1 - i]? = some im ∧ im.2.length = X.length ∧ im.2[j]? = sig[k]? := by
  obtain ⟨ps, ss, h, hps, hlen, hrow, hall⟩ := C81_image 5 X Y z hX hY hX0 hY0 pos hpos sig hsig
  have hYpos : 0 < Y.length := List.length_pos_of_ne_nil hY0
  refine ⟨(List.range ss.length).map fun j =>
    ((algo, (rowLabels[j]?).getD algo), (ss[j]?).getD []), ?_, ?_, ?_⟩
  · unfold compareSoundfields
    dsimp only
    rw [h]
    dsimp only
    unfold compareRest
    have hne : ([ps.flatten] : List (List (Pt F))).flatten ≠ [] := by
      obtain ⟨x, hx⟩ := List.exists_mem_of_ne_nil X hX0
      obtain ⟨y, hy⟩ := List.exists_mem_of_ne_nil Y hY0
      intro he
      have : (⟨x, y, z⟩ : Pt F) ∈ ([ps.flatten] : List (List (Pt F))).flatten := by
        rw [hps]
        simp only [List.flatten_cons, List.flatten_nil, List.append_nil, ← List.flatMap_def]
        exact mem_gridPoints.2 ⟨hx, hy, rfl⟩
      rw [he] at this
      simp at this
    obtain ⟨w, hh, hsz, -⟩ := (C162_size [ps.flatten]).2 hne
    dsimp only
    rw [hsz]
    dsimp only
    have hsh : axesShape ([ss] : List (List (List (List V)))).length
        ((([ss] : List (List (List (List V)))).head?.map List.length).getD 0) = (1, ss.length) := rfl
    rw [hsh]
    have hinner : untilRaise ((List.range ss.length).map fun j =>
        compareOne (F := F) [ss] (algo :: algos) rowLabels .empty 0 j) =
        .ok ((List.range ss.length).map fun j => ((algo, (rowLabels[j]?).getD algo), (ss[j]?).getD [])) := by
      refine untilRaise_ok _ (fun j => ((algo, (rowLabels[j]?).getD algo), (ss[j]?).getD [])) _ fun j hj => ?_
      rw [List.mem_range] at hj
      have hj2 : j < rowLabels.length := by omega
      unfold compareOne
      simp [hj, hj2]
    have houter := untilRaise_ok (fun i => untilRaise ((List.range ss.length).map fun j =>
        compareOne (F := F) [ss] (algo :: algos) rowLabels .empty i j))
      (fun _ => (List.range ss.length).map fun j => ((algo, (rowLabels[j]?).getD algo), (ss[j]?).getD []))
      (List.range 1) (by intro i hi; rw [List.mem_range] at hi; obtain rfl : i = 0 := by omega
                         exact hinner)
    exact houter
  · rw [List.map_map, hlen]
    apply List.ext_getElem?
    intro j
    by_cases hj : j < Y.length
    · have hj2 : j < rowLabels.length := by omega
      simp [hj, hj2]
    · rw [List.getElem?_eq_none (by simp; omega), List.getElem?_eq_none (by simp; omega)]
  · intro i j k x y hi hj hk
    obtain ⟨r, hr, hr2⟩ := hall i j k x y hi hj hk
    have hlt := (List.getElem?_eq_some_iff.1 hr).1
    refine ⟨((algo, (rowLabels[Y.length - 1 - i]?).getD algo), r), ?_, hrow r (List.mem_of_getElem? hr), hr2⟩
    rw [List.getElem?_map, List.getElem?_range hlt, Option.map_some, hr]
    rfl

end

/-- A concrete case of C161: the field of four points on a square with one value each.  The figure has
two images, one for each row of points. -/
example : ∃ ims, compareSoundfields (F := Rat) [⟨0, 0, none⟩, ⟨1, 0, none⟩, ⟨0, 1, none⟩, ⟨1, 1, none⟩]
    (.arr2 [[10], [11], [20], [21]]) ["algorithm"] ["frequency", "unused"] .empty = .ok [ims] ∧
    ims.map (fun im => im.1) = [("algorithm", "frequency"), ("algorithm", "unused")] := by
  have hX : Apart (F := Rat) 5 [0, 1] := by unfold Apart; simp; norm_num
  obtain ⟨ims, h, h2, -⟩ := C161_rows_partial (V := Nat) [0, 1] [0, 1] none hX hX (by simp) (by simp)
    [⟨0, 0, none⟩, ⟨1, 0, none⟩, ⟨0, 1, none⟩, ⟨1, 1, none⟩] (List.Perm.refl _) [[10], [11], [20], [21]] rfl
    "algorithm" [] ["frequency", "unused"] (by simp)
  exact ⟨ims, h, h2⟩

end Verif

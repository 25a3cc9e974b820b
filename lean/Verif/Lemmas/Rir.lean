import Verif.Spec.Rir

namespace Verif

section
variable {R Pt G : Type} [Zero R]

theorem assignRir_length {L d : Nat} {row rir x : List R} (hr : row.length = L)
    (h : assignRir L d row rir = .ok x) : x.length = L := by
  unfold assignRir at h
  dsimp only at h
  split at h
  · cases h
    rw [List.length_append, List.length_take, List.length_drop, List.length_drop, hr]
    omega
  · split at h
    · cases h; exact hr
    · cases h

theorem fillReceiver_length {L d nf dst : Nat} : ∀ (rs : List (List R)) {f : Nat} {ir ir' : Nat → Nat → List R},
    (∀ i j, (ir i j).length = L) → fillReceiver L d nf dst f rs ir = .ok ir' → ∀ i j, (ir' i j).length = L
  | [], f, ir, ir', hi, h => by cases h; exact hi
  | r :: rs, f, ir, ir', hi, h => by
    unfold fillReceiver at h
    split at h
    · cases h
    · cases ha : assignRir L d (ir f dst) r with
      | error x => rw [ha] at h; cases h
      | ok row =>
        rw [ha] at h
        refine fillReceiver_length rs ?_ h
        intro i j
        split
        · exact assignRir_length (hi _ _) ha
        · exact hi _ _

theorem fillBatch_length {L d nf nt : Nat} : ∀ (rs : List (List (List R))) {dst : Nat}
    {ir ir' : Nat → Nat → List R},
    (∀ i j, (ir i j).length = L) → fillBatch L d nf nt dst rs ir = .ok ir' → ∀ i j, (ir' i j).length = L
  | [], f, ir, ir', hi, h => by cases h; exact hi
  | r :: rs, f, ir, ir', hi, h => by
    unfold fillBatch at h
    split at h
    · cases h
    · cases ha : fillReceiver L d nf f 0 r ir with
      | error x => rw [ha] at h; cases h
      | ok ir1 =>
        rw [ha] at h
        exact fillBatch_length rs (fillReceiver_length _ hi ha) h

theorem ismLoop_length {c : RirCfg R Pt G} {src mic : Geo Pt} : ∀ (fuel : Nat) {done : Nat} {g g' : G}
    {ir ir' : Nat → Nat → List R},
    (∀ i j, (ir i j).length = c.irLen) → ismLoop c src mic fuel done g ir = .ok (g', ir') →
      ∀ i j, (ir' i j).length = c.irLen
  | 0, done, g, g', ir, ir', hi, h => by
    unfold ismLoop at h
    split at h
    · cases h; exact hi
    · cases h
  | fuel + 1, done, g, g', ir, ir', hi, h => by
    unfold ismLoop at h
    split at h
    · cases h; exact hi
    · simp only at h
      split at h
      · cases h
      · split at h
        · cases h
        · rename_i ir1 h1
          exact ismLoop_length fuel (fillBatch_length _ hi h1) h

theorem ismPath_shaped {c : RirCfg R Pt G} {src mic : Geo Pt} {g g' : G} {h : IrMat R}
    (he : ismPath c g src mic = .ok (g', h)) : h.Shaped src.pos.length mic.pos.length c.irLen := by
  unfold ismPath at he
  split at he
  · cases he
  · rename_i g1 ir h1
    cases he
    exact ⟨rfl, rfl, fun i _ j _ => ismLoop_length _ (fun _ _ => List.length_replicate ..) h1 i j⟩

theorem filterRow_length {pad : Nat} {sos : List R → List R} (hs : ∀ r, (sos r).length = r.length)
    (hp : 1 ≤ pad) (r : List R) : (filterRow pad sos r).length = r.length := by
  unfold filterRow
  dsimp only
  rw [if_neg (by omega), List.length_drop, List.length_take, hs]
  simp only [List.length_append, List.length_replicate]
  omega

/-- A generated impulse response has the shape of its arrays. -/
theorem createPath_shaped [One R] {c : RirCfg R Pt G} (hc : c.highpass = true → c.Lawful) {g g' : G} {src mic : Geo Pt}
    (hs : src.pos.length = src.num) (hm : mic.pos.length = mic.num) {t : String} {h : IrMat R}
    (he : createPath c g src mic t = .ok (g', h)) :
    h.Shaped src.num mic.num (if t = "none" ∨ t = "direct" then 1 else c.irLen) := by
  have key : ∀ {gh : G × IrMat R} {L : Nat}, gh.2.Shaped src.num mic.num L →
      (if c.highpass then
        (gh.1, { gh.2 with ir := fun i j => filterRow c.pad c.sos (gh.2.ir i j) }) else gh) = (g', h) →
      h.Shaped src.num mic.num L := by
    intro gh L h1 h2
    split at h2
    · rename_i hp
      cases h2
      refine ⟨h1.1, h1.2.1, fun i hi j hj => ?_⟩
      rw [← h1.2.2 i hi j hj]
      exact filterRow_length (hc hp).sos (hc hp).pad _
    · subst h2; exact h1
  unfold createPath at he
  dsimp only at he
  split at he
  · rename_i ht
    rw [if_pos (.inl ht)]
    refine key ?_ (Except.ok.inj he)
    exact ⟨rfl, rfl, fun i _ j _ => rfl⟩
  · split at he
    · rename_i ht
      rw [if_pos (.inr ht)]
      split at he
      · cases he
      · refine key ?_ (Except.ok.inj he)
        exact ⟨rfl, rfl, fun i _ j _ => rfl⟩
    · rename_i h1 h2
      rw [if_neg (by simp [h1, h2])]
      split at he
      · refine key ?_ (Except.ok.inj he)
        exact ⟨rfl, rfl, fun i _ j _ => by simp⟩
      · split at he
        · split at he
          · split at he
            · cases he
            · rename_i gh hgh
              refine key ?_ (Except.ok.inj he)
              have := ismPath_shaped (g' := gh.1) (h := gh.2) hgh
              rwa [hs, hm] at this
          · cases he
        · cases he

/-! ### the batches -/

/-- The row `ir[from, dst]` after the assignment. -/
def assigned (L d : Nat) (row rir : List R) : List R :=
  (rir.drop d).take (min rir.length L - d) ++ row.drop (min rir.length L - d)

theorem assigned_fitted {L d : Nat} {r : List R} (hd : d ≤ min r.length L) :
    Fitted d L r (assigned L d (List.replicate L 0) r) := by
  constructor
  · unfold assigned
    rw [List.length_append, List.length_take, List.length_drop, List.length_drop, List.length_replicate]
    omega
  · intro i hi
    unfold assigned
    by_cases h : i + d < min r.length L
    · rw [if_pos h, List.getElem?_append_left (by
        rw [List.length_take, List.length_drop]; omega), List.getElem?_take_of_lt (by omega),
        List.getElem?_drop, List.getD_eq_getElem?_getD, Nat.add_comm i d]
      rw [List.getElem?_eq_getElem (by omega)]
      rfl
    · rw [if_neg h, List.getElem?_append_right (by
        rw [List.length_take, List.length_drop]; omega), List.getElem?_drop,
        List.getElem?_replicate, if_pos (by rw [List.length_take, List.length_drop]; omega)]

theorem fillReceiver_spec {L d nf dst : Nat} : ∀ (rs : List (List R)) {f : Nat} {ir : Nat → Nat → List R},
    f + rs.length ≤ nf → (∀ r ∈ rs, d ≤ min r.length L) →
    ∃ ir', fillReceiver L d nf dst f rs ir = .ok ir' ∧
      (∀ i j, ¬ (j = dst ∧ f ≤ i ∧ i < f + rs.length) → ir' i j = ir i j) ∧
      ∀ i r, rs[i]? = some r → ir' (f + i) dst = assigned L d (ir (f + i) dst) r
  | [], f, ir, _, _ => ⟨ir, rfl, fun _ _ _ => rfl, fun i r h => by simp at h⟩
  | r :: rs, f, ir, hf, hd => by
    have h0 : d ≤ min r.length L := hd r (by simp)
    rw [List.length_cons] at hf
    obtain ⟨ir', h1, h2, h3⟩ := fillReceiver_spec (L := L) (d := d) (nf := nf) (dst := dst) rs (f := f + 1)
      (ir := fun i j => if i = f ∧ j = dst then assigned L d (ir f dst) r else ir i j) (by omega)
      fun r hr => hd r (by simp [hr])
    refine ⟨ir', ?_, ?_, ?_⟩
    · unfold fillReceiver
      rw [if_neg (by omega)]
      have : assignRir L d (ir f dst) r = .ok (assigned L d (ir f dst) r) := by
        unfold assignRir assigned
        dsimp only
        rw [if_pos h0]
      rw [this]
      exact h1
    · intro i j hij
      rw [List.length_cons] at hij
      rw [h2 i j (by omega)]
      rw [if_neg (by omega)]
    · intro i x hx
      cases i with
      | zero =>
        rw [List.getElem?_cons_zero] at hx
        cases hx
        rw [Nat.add_zero, h2 f dst (by omega), if_pos ⟨rfl, rfl⟩]
      | succ i =>
        rw [List.getElem?_cons_succ] at hx
        have := h3 i x hx
        rw [if_neg (by omega)] at this
        rw [show f + (i + 1) = f + 1 + i by omega]
        exact this

theorem fillBatch_spec {L d nf nt : Nat} : ∀ (rs : List (List (List R))) {dst : Nat}
    {ir : Nat → Nat → List R}, dst + rs.length ≤ nt → (∀ x ∈ rs, x.length = nf) →
    (∀ x ∈ rs, ∀ r ∈ x, d ≤ min r.length L) →
    ∃ ir', fillBatch L d nf nt dst rs ir = .ok ir' ∧
      (∀ i j, ¬ (dst ≤ j ∧ j < dst + rs.length) → ir' i j = ir i j) ∧
      ∀ i j x r, rs[j]? = some x → x[i]? = some r → ir' i (dst + j) = assigned L d (ir i (dst + j)) r
  | [], dst, ir, _, _, _ => ⟨ir, rfl, fun _ _ _ => rfl, fun i j x r h => by simp at h⟩
  | x :: rs, dst, ir, ht, hn, hd => by
    rw [List.length_cons] at ht
    obtain ⟨ir1, g1, g2, g3⟩ := fillReceiver_spec (L := L) (d := d) (nf := nf) (dst := dst) x (f := 0)
      (ir := ir) (by rw [hn x (by simp)]; omega) (hd x (by simp))
    obtain ⟨ir', h1, h2, h3⟩ := fillBatch_spec (L := L) (d := d) (nf := nf) (nt := nt) rs (dst := dst + 1)
      (ir := ir1) (by omega) (fun x hx => hn x (by simp [hx])) (fun x hx => hd x (by simp [hx]))
    refine ⟨ir', ?_, ?_, ?_⟩
    · unfold fillBatch
      rw [if_neg (by omega), g1]
      exact h1
    · intro i j hij
      rw [List.length_cons] at hij
      rw [h2 i j (by omega), g2 i j (by omega)]
    · intro i j y r hy hr
      cases j with
      | zero =>
        rw [List.getElem?_cons_zero] at hy
        cases hy
        rw [Nat.add_zero, h2 i dst (by omega)]
        have := g3 i r hr
        rwa [Nat.zero_add] at this
      | succ j =>
        rw [List.getElem?_cons_succ] at hy
        have := h3 i j y r hy hr
        rw [show dst + (j + 1) = dst + 1 + j by omega, this, g2 _ _ (by omega)]

theorem micBatch_length (ms : List Pt) (b : Nat) :
    (micBatch ms b).length = min 500 (ms.length - 500 * b) := by
  unfold micBatch
  rw [List.length_take, List.length_drop]

theorem ismLoop_spec {c : RirCfg R Pt G} (hc : c.Lawful) {src mic : Geo Pt} (ho : mic.omni = true) {g : G}
    (hd : ∀ g ss ms, ∀ x ∈ (c.roomRir g ss ms).2, ∀ r ∈ x, c.minDly ≤ min r.length c.irLen) :
    ∀ (fuel b : Nat) {ir : Nat → Nat → List R}, mic.pos.length - 500 * b ≤ fuel →
      (∀ i < src.pos.length, ∀ j < mic.pos.length, j < 500 * b → ∃ r,
        c.simulated g src.pos mic.pos i j = some r ∧ Fitted c.minDly c.irLen r (ir i j)) →
      (∀ i j, 500 * b ≤ j → ir i j = List.replicate c.irLen 0) →
      ∃ g' ir', ismLoop c src mic fuel (min (500 * b) mic.pos.length)
          (c.stateBefore g src.pos mic.pos b) ir = .ok (g', ir') ∧
        ∀ i < src.pos.length, ∀ j < mic.pos.length, ∃ r,
          c.simulated g src.pos mic.pos i j = some r ∧ Fitted c.minDly c.irLen r (ir' i j)
  | fuel, b, ir, hf, h1, h2 => by
    by_cases hle : mic.pos.length ≤ 500 * b
    · refine ⟨c.stateBefore g src.pos mic.pos b, ir, ?_, fun i hi j hj => h1 i hi j hj (by omega)⟩
      unfold ismLoop
      rw [if_pos (by omega)]
    · cases fuel with
      | zero => omega
      | succ fuel =>
        have hmin : min (500 * b) mic.pos.length = 500 * b := by omega
        rw [hmin]
        unfold ismLoop
        rw [if_neg hle]
        simp only
        rw [if_neg (by rw [ho]; decide)]
        have hbat : List.take (min 500 (mic.pos.length - 500 * b)) (List.drop (500 * b) mic.pos) =
            micBatch mic.pos b := by
          unfold micBatch
          rw [List.take_eq_take_iff, List.length_drop]
          omega
        rw [hbat]
        have hlen := hc.receivers (c.stateBefore g src.pos mic.pos b) src.pos (micBatch mic.pos b)
        rw [micBatch_length] at hlen
        obtain ⟨ir1, k1, k2, k3⟩ := fillBatch_spec (L := c.irLen) (d := c.minDly) (nf := src.pos.length)
          (nt := mic.pos.length) (c.roomRir (c.stateBefore g src.pos mic.pos b) src.pos (micBatch mic.pos b)).2
          (dst := 500 * b) (ir := ir) (by omega) (hc.sources _ _ _) (hd _ _ _)
        rw [k1]
        have hst : 500 * b + min 500 (mic.pos.length - 500 * b) = min (500 * (b + 1)) mic.pos.length := by
          omega
        simp only
        rw [hst]
        refine ismLoop_spec hc ho hd fuel (b + 1) (by omega) ?_ ?_
        · intro i hi j hj hjb
          by_cases hjo : j < 500 * b
          · rw [k2 i j (by omega)]
            exact h1 i hi j hj hjo
          · have hdiv : j / 500 = b := by omega
            have hmod : j % 500 = j - 500 * b := by omega
            obtain ⟨x, hx⟩ : ∃ x, (c.roomRir (c.stateBefore g src.pos mic.pos b) src.pos
                (micBatch mic.pos b)).2[j - 500 * b]? = some x :=
              ⟨_, List.getElem?_eq_getElem (by omega)⟩
            have hxl := hc.sources _ _ _ x (List.mem_of_getElem? hx)
            obtain ⟨r, hr⟩ : ∃ r, x[i]? = some r := ⟨_, List.getElem?_eq_getElem (by omega)⟩
            refine ⟨r, ?_, ?_⟩
            · unfold RirCfg.simulated
              rw [hdiv, hmod, hx]
              exact hr
            · have := k3 i (j - 500 * b) x r hx hr
              rw [show 500 * b + (j - 500 * b) = j by omega, h2 i j (by omega)] at this
              rw [this]
              exact assigned_fitted (hd _ _ _ x (List.mem_of_getElem? hx) r (List.mem_of_getElem? hr))
        · intro i j hj
          rw [k2 i j (by omega), h2 i j (by omega)]

theorem ismPath_spec {c : RirCfg R Pt G} (hc : c.Lawful) {src mic : Geo Pt} (ho : mic.omni = true) (g : G)
    (hd : ∀ g ss ms, ∀ x ∈ (c.roomRir g ss ms).2, ∀ r ∈ x, c.minDly ≤ min r.length c.irLen) :
    ∃ g' h, ismPath c g src mic = .ok (g', h) ∧ h.numIn = src.pos.length ∧ h.numOut = mic.pos.length ∧
      ∀ i < src.pos.length, ∀ j < mic.pos.length, ∃ r,
        c.simulated g src.pos mic.pos i j = some r ∧ Fitted c.minDly c.irLen r (h.ir i j) := by
  obtain ⟨g', ir', h1, h2⟩ := ismLoop_spec hc (src := src) ho (g := g) hd mic.pos.length 0
    (ir := fun _ _ => List.replicate c.irLen 0) (by omega) (fun i _ j _ h => absurd h (by omega))
    (fun _ _ _ => rfl)
  rw [show min (500 * 0) mic.pos.length = 0 by omega] at h1
  refine ⟨g', ⟨_, _, ir'⟩, ?_, rfl, rfl, h2⟩
  unfold ismPath
  have : c.stateBefore g src.pos mic.pos 0 = g := rfl
  rw [this] at h1
  rw [h1]

end
end Verif

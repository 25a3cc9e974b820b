/-
Changing the order of the arrays of a run.
-/
import Verif.Lemmas.Hide
import Verif.Lemmas.Propagate
import Verif.Lemmas.Run
namespace Verif

/-- A loop whose steps commute can be run in any order. -/
theorem foldlM_perm {ε α γ : Type} {f : α → γ → Except ε α} (Rel : α → α → Prop)
    (hrefl : ∀ a b, Rel a b → Rel b b) (htrans : ∀ a b c, Rel a b → Rel b c → Rel a c) {l l' : List γ} (hp : l.Perm l') :
    (∀ x ∈ l, ∀ a b a1, Rel a b → f a x = .ok a1 → ∃ b1, f b x = .ok b1 ∧ Rel a1 b1) →
    (∀ x ∈ l, ∀ y ∈ l, x ≠ y → ∀ a b a1 a2, Rel a b → f a x = .ok a1 → f a1 y = .ok a2 →
      ∃ b1 b2, f b y = .ok b1 ∧ f b1 x = .ok b2 ∧ Rel a2 b2) →
    l.Nodup → ∀ {a b a1 : α}, Rel a b → l.foldlM f a = .ok a1 → ∃ b1, l'.foldlM f b = .ok b1 ∧ Rel a1 b1 := by
  induction hp with
  | nil =>
    intro _ _ _ a b a1 hr h
    cases h
    exact ⟨b, rfl, hr⟩
  | cons x hp ih =>
    intro hs hc hn a b a1 hr h
    rw [List.foldlM_cons] at h
    cases hx : f a x with
    | error e => rw [hx] at h; cases h
    | ok a2 =>
      rw [hx] at h
      obtain ⟨b2, h2, hr2⟩ := hs x (by simp) a b a2 hr hx
      obtain ⟨b1, h3, hr3⟩ := ih (fun y hy => hs y (by simp [hy])) (fun y hy z hz => hc y (by simp [hy]) z (by simp [hz]))
        (List.nodup_cons.1 hn).2 hr2 h
      refine ⟨b1, ?_, hr3⟩
      rw [List.foldlM_cons, h2]
      exact h3
  | swap x y l =>
    intro hs hc hn a b a1 hr h
    rw [List.foldlM_cons] at h
    cases hy : f a y with
    | error e => rw [hy] at h; cases h
    | ok a2 =>
      rw [hy] at h
      have h : List.foldlM f a2 (x :: l) = .ok a1 := h
      rw [List.foldlM_cons] at h
      cases hx : f a2 x with
      | error e => rw [hx] at h; cases h
      | ok a3 =>
        rw [hx] at h
        have hne : y ≠ x := fun e => (List.nodup_cons.1 hn).1 (by simp [e])
        obtain ⟨b1, b2, e1, e2, hr2⟩ := hc y (by simp) x (by simp) hne a b a2 a3 hr hy hx
        have hfold : ∀ (l : List γ) {a b a1 : α}, (∀ x ∈ l, ∀ a b a1, Rel a b → f a x = .ok a1 → ∃ b1, f b x = .ok b1 ∧ Rel a1 b1) →
            Rel a b → l.foldlM f a = .ok a1 → ∃ b1, l.foldlM f b = .ok b1 ∧ Rel a1 b1 := by
          intro l
          induction l with
          | nil => intro a b a1 _ hr h; cases h; exact ⟨b, rfl, hr⟩
          | cons z l ih =>
            intro a b a1 hs hr h
            rw [List.foldlM_cons] at h
            cases hz : f a z with
            | error e => rw [hz] at h; cases h
            | ok a2 =>
              rw [hz] at h
              obtain ⟨b2, h2, hr2⟩ := hs z (by simp) a b a2 hr hz
              obtain ⟨b1, h3, hr3⟩ := ih (fun y hy => hs y (by simp [hy])) hr2 h
              refine ⟨b1, ?_, hr3⟩
              rw [List.foldlM_cons, h2]
              exact h3
        obtain ⟨b3, h3, hr3⟩ := hfold l (fun z hz => hs z (by simp [hz])) hr2 h
        refine ⟨b3, ?_, hr3⟩
        rw [List.foldlM_cons, e1]
        show List.foldlM f b1 (y :: l) = _
        rw [List.foldlM_cons, e2]
        exact h3
  | trans h1 h2 ih1 ih2 =>
    intro hs hc hn a b a1 hr h
    obtain ⟨b1, h3, hr3⟩ := ih1 hs hc hn hr h
    obtain ⟨b2, h4, hr4⟩ := ih2 (fun x hx => hs x (h1.mem_iff.2 hx)) (fun x hx y hy => hc x (h1.mem_iff.2 hx) y (h1.mem_iff.2 hy))
      (h1.nodup_iff.1 hn) (hrefl _ _ hr) h3
    exact ⟨b2, h4, htrans _ _ _ hr3 hr4⟩

/-- Two steps that can be swapped when they succeed. -/
def Swap {ε α : Type} (f g : α → Except ε α) : Prop :=
  ∀ a a1 a2, f a = .ok a1 → g a1 = .ok a2 → ∃ b1, g a = .ok b1 ∧ f b1 = .ok a2

theorem foldlM_swap {ε α γ : Type} {f : α → γ → Except ε α} {l l' : List γ} (hp : l.Perm l') (hn : l.Nodup)
    (hc : ∀ x ∈ l, ∀ y ∈ l, x ≠ y → Swap (fun a => f a x) (fun a => f a y)) {a a1 : α} (h : l.foldlM f a = .ok a1) :
    l'.foldlM f a = .ok a1 := by
  obtain ⟨b1, h1, rfl⟩ := foldlM_perm (f := f) (fun a b => a = b) (fun _ _ _ => rfl) (fun _ _ _ h1 h2 => h1.trans h2) hp
    (fun x _ a b a1 hab h => ⟨a1, by rw [← hab]; exact h, rfl⟩)
    (fun x hx y hy hne a b a1 a2 hab h1 h2 => by
      obtain ⟨b1, k1, k2⟩ := hc x hx y hy hne a a1 a2 h1 h2
      exact ⟨b1, a2, by rw [← hab]; exact k1, k2, rfl⟩) hn rfl h
  exact h1

/-! ### operations on signals -/

section
variable {R : Type}

/-- An operation on one signal. -/
def sigOp (k : String) (φ : Mat R → Option (Mat R)) (S : Sigs R) : Except PyErr (Sigs R) :=
  match S k with
  | none => .error .key
  | some m =>
    match φ m with
    | none => .error .value
    | some m' => .ok (S.set k m')

theorem sigOp_ok {k : String} {φ : Mat R → Option (Mat R)} {S S1 : Sigs R} :
    sigOp k φ S = .ok S1 ↔ ∃ m m', S k = some m ∧ φ m = some m' ∧ S1 = S.set k m' := by
  unfold sigOp
  constructor
  · intro h
    split at h
    · cases h
    · rename_i m hm
      split at h
      · cases h
      · rename_i m' hm'
        cases h
        exact ⟨m, m', hm, hm', rfl⟩
  · rintro ⟨m, m', h1, h2, rfl⟩
    rw [h1]
    dsimp only
    rw [h2]

theorem sigSet_swap (S : Sigs R) {k k' : String} (h : k ≠ k') (m m' : Mat R) :
    (S.set k m).set k' m' = (S.set k' m').set k m := by
  funext x
  unfold Sigs.set
  by_cases h1 : x = k
  · subst h1
    rw [if_neg h, if_pos rfl, if_pos rfl]
  · simp only [if_neg h1]

theorem sigSet_ne (S : Sigs R) {k k' : String} (h : k' ≠ k) (m : Mat R) : (S.set k m) k' = S k' := by
  unfold Sigs.set
  rw [if_neg h]

theorem sigSet_same (S : Sigs R) (k : String) (m : Mat R) : (S.set k m) k = some m := by
  unfold Sigs.set
  rw [if_pos rfl]

theorem sigSet_twice (S : Sigs R) (k : String) (m m' : Mat R) : (S.set k m).set k m' = S.set k m' := by
  funext x
  unfold Sigs.set
  by_cases h1 : x = k
  · simp only [if_pos h1]
  · simp only [if_neg h1]

theorem sigOp_swap {k k' : String} {φ ψ : Mat R → Option (Mat R)}
    (h : k = k' → ∀ m m1 m2, φ m = some m1 → ψ m1 = some m2 → ∃ n1, ψ m = some n1 ∧ φ n1 = some m2) :
    Swap (sigOp k φ) (sigOp k' ψ) := by
  intro S S1 S2 h1 h2
  obtain ⟨m, m', a1, a2, rfl⟩ := sigOp_ok.1 h1
  obtain ⟨n, n', b1, b2, rfl⟩ := sigOp_ok.1 h2
  by_cases e : k = k'
  · subst e
    rw [sigSet_same] at b1
    cases b1
    obtain ⟨n1, c1, c2⟩ := h rfl _ _ _ a2 b2
    refine ⟨S.set k n1, sigOp_ok.2 ⟨m, n1, a1, c1, rfl⟩, sigOp_ok.2 ⟨n1, n', sigSet_same _ _ _, c2, ?_⟩⟩
    rw [sigSet_twice, sigSet_twice]
  · rw [sigSet_ne _ (Ne.symm e)] at b1
    refine ⟨S.set k' n', sigOp_ok.2 ⟨n, n', b1, b2, rfl⟩, sigOp_ok.2 ⟨m, m', ?_, a2, ?_⟩⟩
    · rw [sigSet_ne _ e, a1]
    · rw [sigSet_swap _ e]

theorem sigAssign_op (S : Sigs R) (k : String) (i j : Int) (v : Mat R) :
    sigAssign S k i j v = sigOp k (fun m => pyAssign2 m i j v) S := rfl

theorem sigAdd_op [Add R] (S : Sigs R) (k : String) (i j : Int) (v : Mat R) :
    sigAdd S k i j v = sigOp k (fun m => pyAddAssign2 m i j v) S := rfl

theorem zipWith_right_comm [Add R] (hcomm : ∀ a b c : R, a + b + c = a + c + b) : ∀ (x v w : List R),
    List.zipWith (· + ·) (List.zipWith (· + ·) x v) w = List.zipWith (· + ·) (List.zipWith (· + ·) x w) v
  | [], _, _ => by simp
  | _ :: _, [], w => by cases w <;> simp
  | _ :: _, _ :: _, [] => by simp
  | a :: x, b :: v, c :: w => by
    simp only [List.zipWith_cons_cons]
    rw [hcomm, zipWith_right_comm hcomm x v w]

theorem pyClamp_le' (n : Nat) (i : Int) : pyClamp n i ≤ n := by
  unfold pyClamp
  split <;> omega

theorem pyAddAssign_swap [Add R] (hcomm : ∀ a b c : R, a + b + c = a + c + b) {i j : Int} {v w r r1 r2 : List R}
    (h1 : pyAddAssign r i j v = some r1) (h2 : pyAddAssign r1 i j w = some r2) :
    ∃ r1', pyAddAssign r i j w = some r1' ∧ pyAddAssign r1' i j v = some r2 := by
  unfold pyAddAssign at h1 h2 ⊢
  dsimp only at h1 h2 ⊢
  rw [Option.map_eq_some_iff] at h1
  obtain ⟨v', hv, rfl⟩ := h1
  obtain ⟨a, ha⟩ : ∃ a, a = pyClamp r.length i := ⟨_, rfl⟩
  obtain ⟨b, hb⟩ : ∃ b, b = max a (pyClamp r.length j) := ⟨_, rfl⟩
  have hal : a ≤ r.length := by rw [ha]; exact pyClamp_le' _ _
  have hjl : pyClamp r.length j ≤ r.length := pyClamp_le' _ _
  have hbl : b ≤ r.length := by rw [hb]; exact max_le hal hjl
  have hab : a ≤ b := by rw [hb]; exact le_max_left _ _
  have len : ∀ (z : List R), z.length = b - a →
      (r.take a ++ List.zipWith (· + ·) ((r.take b).drop a) z ++ r.drop b).length = r.length := by
    intro z hz
    simp only [List.length_append, List.length_take, List.length_zipWith, List.length_drop, hz]
    omega
  have mid : ∀ (z : List R), z.length = b - a →
      ((r.take a ++ List.zipWith (· + ·) ((r.take b).drop a) z ++ r.drop b).take b).drop a =
        List.zipWith (· + ·) ((r.take b).drop a) z := by
    intro z hz
    have hl : (r.take a ++ List.zipWith (· + ·) ((r.take b).drop a) z).length = b := by
      simp only [List.length_append, List.length_take, List.length_zipWith, List.length_drop, hz]
      omega
    rw [List.take_left' hl, List.drop_left' (by simp; omega)]
  have pre : ∀ (z : List R), (r.take a ++ List.zipWith (· + ·) ((r.take b).drop a) z ++ r.drop b).take a = r.take a := by
    intro z
    rw [List.append_assoc, List.take_left' (by simp; omega)]
  have post : ∀ (z : List R), z.length = b - a →
      (r.take a ++ List.zipWith (· + ·) ((r.take b).drop a) z ++ r.drop b).drop b = r.drop b := by
    intro z hz
    rw [List.drop_left']
    simp only [List.length_append, List.length_take, List.length_zipWith, List.length_drop, hz]
    omega
  rw [← ha, ← hb] at hv
  rw [← ha, ← hb] at h2
  have hvl := broadcastRow_length hv
  rw [len v' hvl, ← ha, ← hb, Option.map_eq_some_iff] at h2
  obtain ⟨w', hw, rfl⟩ := h2
  have hwl := broadcastRow_length hw
  refine ⟨_, by rw [← ha, ← hb, hw]; rfl, ?_⟩
  rw [len w' hwl, ← ha, ← hb, hv]
  simp only [Option.map_some]
  rw [mid v' hvl, mid w' hwl, pre, pre, post v' hvl, post w' hwl, zipWith_right_comm hcomm]

theorem zipMapM_swap {f : List R → List R → Option (List R)}
    (hf : ∀ r v w r1 r2, f r v = some r1 → f r1 w = some r2 → ∃ r1', f r w = some r1' ∧ f r1' v = some r2) :
    ∀ (m v w : Mat R) {m1 m2 : Mat R}, v.length = m.length → w.length = m.length →
    (List.zip m v).mapM (fun p => f p.1 p.2) = some m1 → (List.zip m1 w).mapM (fun p => f p.1 p.2) = some m2 →
    m1.length = m.length ∧ ∃ m1', (List.zip m w).mapM (fun p => f p.1 p.2) = some m1' ∧
      (List.zip m1' v).mapM (fun p => f p.1 p.2) = some m2 ∧ m1'.length = m.length
  | [], v, w, m1, m2, _, _, h1, h2 => by
    simp only [List.zip_nil_left, List.mapM_nil] at h1
    cases h1
    simp only [List.zip_nil_left, List.mapM_nil] at h2
    cases h2
    exact ⟨rfl, [], by simp, by simp, rfl⟩
  | r :: m, [], _, _, _, hl, _, _, _ => by cases hl
  | r :: m, _ :: _, [], _, _, _, hl, _, _ => by cases hl
  | r :: m, v :: vs, w :: ws, m1, m2, hl1, hl2, h1, h2 => by
    rw [List.zip_cons_cons, List.mapM_cons] at h1
    cases e1 : f r v with
    | none => simp [e1] at h1
    | some r1 =>
      cases e2 : (List.zip m vs).mapM (fun p => f p.1 p.2) with
      | none => simp [e1, e2] at h1
      | some n1 =>
        simp only [e1, e2] at h1
        cases h1
        rw [List.zip_cons_cons, List.mapM_cons] at h2
        cases e3 : f r1 w with
        | none => simp [e3] at h2
        | some r2 =>
          cases e4 : (List.zip n1 ws).mapM (fun p => f p.1 p.2) with
          | none => simp [e3, e4] at h2
          | some n2 =>
            simp only [e3, e4] at h2
            cases h2
            obtain ⟨k0, n1', k1, k2, k3⟩ := zipMapM_swap hf m vs ws (by simpa using hl1) (by simpa using hl2) e2 e4
            obtain ⟨r1', c1, c2⟩ := hf _ _ _ _ _ e1 e3
            refine ⟨by simp [k0], r1' :: n1', ?_, ?_, by simp [k3]⟩
            · rw [List.zip_cons_cons, List.mapM_cons]
              simp [c1, k1]
            · rw [List.zip_cons_cons, List.mapM_cons]
              simp [c2, k2]

theorem pyAddAssign2_swap [Add R] (hcomm : ∀ a b c : R, a + b + c = a + c + b) {i j : Int} {v w m m1 m2 : Mat R}
    (h1 : pyAddAssign2 m i j v = some m1) (h2 : pyAddAssign2 m1 i j w = some m2) :
    ∃ n1, pyAddAssign2 m i j w = some n1 ∧ pyAddAssign2 n1 i j v = some m2 := by
  unfold pyAddAssign2 pyRows at h1 h2 ⊢
  rw [Option.bind_eq_some_iff] at h1 h2
  obtain ⟨v', hv, h1⟩ := h1
  obtain ⟨w', hw, h2⟩ := h2
  have hvl := broadcastChan_length hv
  have hlen : m1.length = m.length := by
    have := (mapM_length h1)
    rw [this, List.length_zip, hvl, Nat.min_self]
  rw [hlen] at hw
  have hwl := broadcastChan_length hw
  obtain ⟨-, n1, k1, k2, k3⟩ := zipMapM_swap (f := fun r x => pyAddAssign r i j x)
    (fun _ _ _ _ _ => pyAddAssign_swap hcomm) m v' w' hvl hwl h1 h2
  refine ⟨n1, ?_, ?_⟩
  · rw [hw]; exact k1
  · rw [k3, hv]; exact k2

end

/-! ### the steps of a run -/

section
variable {R IR F S A P D O : Type}

theorem micsOf_perm {as as' : List ArrInfo} (h : as.Perm as') : (micsOf as).Perm (micsOf as') := h.filter _
theorem sourcesOf_perm {as as' : List ArrInfo} (h : as.Perm as') : (sourcesOf as).Perm (sourcesOf as') := h.filter _
theorem freeOf_perm {as as' : List ArrInfo} (h : as.Perm as') : (freeOf as).Perm (freeOf as') := h.filter _

theorem combosOf_perm {as as' : List ArrInfo} (h : as.Perm as') : (combosOf as).Perm (combosOf as') := by
  unfold combosOf
  refine List.Perm.flatMap (sourcesOf_perm h) fun s _ => ?_
  exact (micsOf_perm h).map _

/-- The same configuration with the arrays in another order. -/
def SimCfg.reorder (cfg : SimCfg R IR F S A P D O) (as' : List ArrInfo) : SimCfg R IR F S A P D O :=
  { cfg with arrays := as' }

variable {cfg : SimCfg R IR F S A P D O} {as' : List ArrInfo}

theorem signalList_perm (h : cfg.arrays.Perm as') : cfg.signalList.Perm (cfg.reorder as').signalList := by
  have hb : (cfg.arrays.map (fun a => (a.name, a.num)) ++
      (if cfg.contrib then (combosOf cfg.arrays).map fun p => (contribName p.1 p.2, p.2.num) else [])).Perm
      (as'.map (fun a => (a.name, a.num)) ++
      (if cfg.contrib then (combosOf as').map fun p => (contribName p.1 p.2, p.2.num) else [])) := by
    refine (h.map _).append ?_
    split
    · exact (combosOf_perm h).map _
    · exact List.Perm.refl _
  have e : (cfg.reorder as').proc = cfg.proc := rfl
  unfold SimCfg.signalList
  rw [e]
  dsimp only
  cases cfg.proc with
  | none => exact hb
  | some p =>
    refine hb.append ?_
    have : (fun q : String × Nat => !((cfg.arrays.map (fun a => (a.name, a.num)) ++
        (if cfg.contrib then (combosOf cfg.arrays).map fun p => (contribName p.1 p.2, p.2.num) else [])).any fun b => b.1 == q.1)) =
        fun q => !((as'.map (fun a => (a.name, a.num)) ++
        (if cfg.contrib then (combosOf as').map fun p => (contribName p.1 p.2, p.2.num) else [])).any fun b => b.1 == q.1) := by
      funext q
      rw [hb.any_eq]
    rw [this]
    exact List.Perm.refl _

theorem createSignals_perm [Zero R] (h : cfg.arrays.Perm as') {S1 : Sigs R} (hx : cfg.createSignals = .ok S1) :
    (cfg.reorder as').createSignals = .ok S1 := by
  have hnd := createSignals_nodup cfg hx
  refine foldlM_swap (signalList_perm h) (List.Nodup.of_map _ hnd) ?_ hx
  intro x hx y hy hne a a1 a2 h1 h2
  have hne' : x.1 ≠ y.1 := fun e => hne (List.inj_on_of_nodup_map hnd hx hy e)
  unfold createSignal at h1 h2 ⊢
  dsimp only at h1 h2 ⊢
  cases hk : a x.1 with
  | some _ => rw [hk] at h1; cases h1
  | none =>
    rw [hk] at h1
    cases h1
    rw [sigSet_ne _ (Ne.symm hne')] at h2
    cases hk2 : a y.1 with
    | some _ => rw [hk2] at h2; cases h2
    | none =>
      rw [hk2] at h2
      cases h2
      refine ⟨_, rfl, ?_⟩
      rw [sigSet_ne _ hne', hk]
      dsimp only
      rw [sigSet_swap _ hne']

theorem combos_names (hn : Names cfg) {p q : ArrInfo × ArrInfo} (hp : p ∈ combosOf cfg.arrays) (hq : q ∈ combosOf cfg.arrays)
    (hne : p ≠ q) : ¬ (p.1.name = q.1.name ∧ p.2.name = q.2.name) := by
  rintro ⟨h1, h2⟩
  apply hne
  have e1 := hn.inj _ (mem_combos_src hp).1 _ (mem_combos_src hq).1 h1
  have e2 := hn.inj _ (mem_combos_src hp).2.2 _ (mem_combos_src hq).2.2 h2
  exact Prod.ext e1 e2

theorem set2_swap {V : Type} (f : String → String → V) {s1 m1 s2 m2 : String} (h : ¬ (s1 = s2 ∧ m1 = m2)) (v w : V) :
    (fun s m => if s = s2 ∧ m = m2 then w else if s = s1 ∧ m = m1 then v else f s m) =
      fun s m => if s = s1 ∧ m = m1 then v else if s = s2 ∧ m = m2 then w else f s m := by
  funext s m
  by_cases h1 : s = s1 ∧ m = m1
  · rw [if_pos h1, if_neg, if_pos h1]
    rintro ⟨rfl, rfl⟩
    exact h ⟨h1.1.symm, h1.2.symm⟩
  · simp only [if_neg h1]

theorem createFilters_perm (h : cfg.arrays.Perm as') (hn : Names cfg) {arr : A} {f0 fs : String → String → F}
    (hx : cfg.createFilters arr f0 = .ok fs) : (cfg.reorder as').createFilters arr f0 = .ok fs := by
  unfold SimCfg.createFilters at hx ⊢
  refine foldlM_swap (combosOf_perm h) hn.pairs ?_ hx
  intro p hp q hq hne f f1 f2 h1 h2
  have ea : (cfg.reorder as').arrPath = cfg.arrPath := rfl
  simp only [ea] at h1 h2 ⊢
  cases e1 : cfg.arrPath arr p.1.name p.2.name with
  | error x => rw [e1] at h1; cases h1
  | ok u =>
    rw [e1] at h1
    cases h1
    cases e2 : cfg.arrPath arr q.1.name q.2.name with
    | error x => rw [e2] at h2; cases h2
    | ok w =>
      rw [e2] at h2
      cases h2
      refine ⟨_, rfl, ?_⟩
      rw [set2_swap _ (combos_names hn hp hq hne)]

theorem srcs_swap {V : Type} (f : String → V) {k k' : String} (h : k ≠ k') (v w : V) :
    (fun x => if x = k' then w else if x = k then v else f x) = fun x => if x = k then v else if x = k' then w else f x := by
  funext x
  by_cases h1 : x = k
  · subst h1
    rw [if_pos rfl, if_neg h, if_pos rfl]
  · simp only [if_neg h1]

/-- The common part of `prepSource` and `stepSource`. -/
def sourceWith (cfg : SimCfg R IR F S A P D O) (num : Nat) (i j : Int) (e : Eng (Sigs R) F S A P) (a : ArrInfo) :
    Except PyErr (Eng (Sigs R) F S A P) :=
  match cfg.srcGet (e.srcs a.name) num with
  | .error x => .error x
  | .ok (s', v) =>
    match sigAssign e.sig a.name i j v with
    | .error x => .error x
    | .ok sig => .ok { e with sig := sig, srcs := fun k => if k = a.name then s' else e.srcs k }

theorem sourceWith_ok {num : Nat} {i j : Int} {e e1 : Eng (Sigs R) F S A P} {a : ArrInfo} :
    sourceWith cfg num i j e a = .ok e1 ↔ ∃ s' v sig, cfg.srcGet (e.srcs a.name) num = .ok (s', v) ∧
      sigAssign e.sig a.name i j v = .ok sig ∧ e1 = { e with sig := sig, srcs := fun k => if k = a.name then s' else e.srcs k } := by
  unfold sourceWith
  constructor
  · intro h
    split at h
    · cases h
    · rename_i s' v h1
      split at h
      · cases h
      · rename_i sig h2
        cases h
        exact ⟨s', v, sig, h1, h2, rfl⟩
  · rintro ⟨s', v, sig, h1, h2, rfl⟩
    rw [h1]
    dsimp only
    rw [h2]

theorem sourceWith_swap {num : Nat} {i j : Int} {a b : ArrInfo} (hne : a.name ≠ b.name) :
    Swap (fun e => sourceWith cfg num i j e a) (fun e => sourceWith cfg num i j e b) := by
  intro e e1 e2 h1 h2
  dsimp only at h1 h2
  obtain ⟨s1, v1, sig1, a1, a2, rfl⟩ := sourceWith_ok.1 h1
  obtain ⟨s2, v2, sig2, b1, b2, rfl⟩ := sourceWith_ok.1 h2
  dsimp only at b1 b2
  rw [if_neg (Ne.symm hne)] at b1
  obtain ⟨sig3, c1, c2⟩ := sigOp_swap (fun e => absurd e hne) _ _ _ a2 b2
  refine ⟨_, sourceWith_ok.2 ⟨s2, v2, sig3, b1, c1, rfl⟩, sourceWith_ok.2 ⟨s1, v1, sig2, ?_, c2, ?_⟩⟩
  · dsimp only
    rw [if_neg hne]
    exact a1
  · dsimp only
    rw [srcs_swap _ hne]

theorem sources_perm (h : cfg.arrays.Perm as') (hn : Names cfg) {num : Nat} {i j : Int} {e e1 : Eng (Sigs R) F S A P}
    (hx : (freeOf cfg.arrays).foldlM (sourceWith cfg num i j) e = .ok e1) :
    (freeOf as').foldlM (sourceWith cfg num i j) e = .ok e1 := by
  refine foldlM_swap (freeOf_perm h) hn.free ?_ hx
  intro a ha b hb hne
  exact sourceWith_swap fun e => hne (hn.inj a (List.mem_filter.1 ha).1 b (List.mem_filter.1 hb).1 e)

theorem stepUpdate_ok {Sg : Type} {e e1 : Eng Sg F S A P} {p : ArrInfo × ArrInfo} (hd : (p.1.dynamic || p.2.dynamic) = true) :
    cfg.stepUpdate e p = .ok e1 ↔ ∃ ir f', cfg.arrPath e.arr p.1.name p.2.name = .ok ir ∧
      cfg.filt.updateIr (e.filts p.1.name p.2.name) ir = .ok f' ∧
      e1 = { e with filts := fun s m => if s = p.1.name ∧ m = p.2.name then f' else e.filts s m } := by
  unfold SimCfg.stepUpdate
  rw [if_pos hd]
  constructor
  · intro h
    split at h
    · cases h
    · rename_i ir h1
      split at h
      · cases h
      · rename_i f' h2
        cases h
        exact ⟨ir, f', h1, h2, rfl⟩
  · rintro ⟨ir, f', h1, h2, rfl⟩
    rw [h1]
    dsimp only
    rw [h2]

theorem stepUpdate_swap {Sg : Type} {p q : ArrInfo × ArrInfo} (hne : ¬ (p.1.name = q.1.name ∧ p.2.name = q.2.name)) :
    Swap (fun e : Eng Sg F S A P => cfg.stepUpdate e p) (fun e => cfg.stepUpdate e q) := by
  intro e e1 e2 h1 h2
  dsimp only at h1 h2 ⊢
  cases hp : (p.1.dynamic || p.2.dynamic) with
  | false =>
    have e0 : ∀ x : Eng Sg F S A P, cfg.stepUpdate x p = .ok x := fun x => by
      unfold SimCfg.stepUpdate
      rw [if_neg (by rw [hp]; decide)]
    rw [e0] at h1
    cases h1
    exact ⟨e2, h2, e0 _⟩
  | true =>
    cases hq : (q.1.dynamic || q.2.dynamic) with
    | false =>
      have e0 : ∀ x : Eng Sg F S A P, cfg.stepUpdate x q = .ok x := fun x => by
        unfold SimCfg.stepUpdate
        rw [if_neg (by rw [hq]; decide)]
      rw [e0] at h2
      cases h2
      exact ⟨e, e0 _, h1⟩
    | true =>
      obtain ⟨ir1, f1, a1, a2, rfl⟩ := (stepUpdate_ok hp).1 h1
      obtain ⟨ir2, f2, b1, b2, rfl⟩ := (stepUpdate_ok hq).1 h2
      dsimp only at b1 b2
      rw [if_neg (fun h => hne ⟨h.1.symm, h.2.symm⟩)] at b2
      refine ⟨_, (stepUpdate_ok hq).2 ⟨ir2, f2, b1, b2, rfl⟩, (stepUpdate_ok hp).2 ⟨ir1, f1, a1, ?_, ?_⟩⟩
      · dsimp only
        rw [if_neg hne]
        exact a2
      · dsimp only
        rw [set2_swap _ hne]

/-- The contribution signal of a pair, if contributions are saved. -/
def conOp (b : Bool) (k : String) (φ : Mat R → Option (Mat R)) (S : Sigs R) : Except PyErr (Sigs R) :=
  if b then sigOp k φ S else .ok S

theorem conOp_swap_left {b : Bool} {k k' : String} {φ ψ : Mat R → Option (Mat R)} (h : b = true → k ≠ k') :
    Swap (conOp b k φ) (sigOp k' ψ) := by
  cases b with
  | true => exact sigOp_swap fun e => absurd e (h rfl)
  | false =>
    intro S S1 S2 h1 h2
    cases h1
    exact ⟨S2, h2, rfl⟩

theorem conOp_swap_right {b : Bool} {k k' : String} {φ ψ : Mat R → Option (Mat R)} (h : b = true → k ≠ k') :
    Swap (sigOp k φ) (conOp b k' ψ) := by
  cases b with
  | true => exact sigOp_swap fun e => absurd e (h rfl)
  | false =>
    intro S S1 S2 h1 h2
    cases h2
    exact ⟨S, rfl, h1⟩

theorem conOp_swap {b : Bool} {k k' : String} {φ ψ : Mat R → Option (Mat R)} (h : b = true → k ≠ k') :
    Swap (conOp b k φ) (conOp b k' ψ) := by
  cases b with
  | true => exact sigOp_swap fun e => absurd e (h rfl)
  | false =>
    intro S S1 S2 h1 h2
    cases h1
    cases h2
    exact ⟨S, rfl, rfl⟩

theorem sigOp_other {k k' : String} {φ : Mat R → Option (Mat R)} {S S1 : Sigs R} (h : sigOp k φ S = .ok S1) (hne : k' ≠ k) :
    S1 k' = S k' := by
  obtain ⟨m, m', -, -, rfl⟩ := sigOp_ok.1 h
  exact sigSet_ne _ hne _

theorem conOp_other {b : Bool} {k k' : String} {φ : Mat R → Option (Mat R)} {S S1 : Sigs R} (h : conOp b k φ S = .ok S1)
    (hne : b = true → k' ≠ k) : S1 k' = S k' := by
  cases b with
  | true => exact sigOp_other h (hne rfl)
  | false => cases h; rfl

theorem pairWith_ok [Add R] {i j i' : Int} {e e1 : Eng (Sigs R) F S A P} {p : ArrInfo × ArrInfo} :
    pairWith cfg i j i' e p = .ok e1 ↔ ∃ x f' y sig sig2, sigGet e.sig p.1.name i j = .ok x ∧
      cfg.filt.process (e.filts p.1.name p.2.name) x = .ok (f', y) ∧
      sigOp p.2.name (fun m => pyAddAssign2 m i' j y) e.sig = .ok sig ∧
      conOp cfg.contrib (contribName p.1 p.2) (fun m => pyAssign2 m i j y) sig = .ok sig2 ∧
      e1 = { e with sig := sig2, filts := fun s m => if s = p.1.name ∧ m = p.2.name then f' else e.filts s m } := by
  unfold pairWith
  constructor
  · intro h
    split at h
    · cases h
    · rename_i x h1
      split at h
      · cases h
      · rename_i f' y h2
        split at h
        · cases h
        · rename_i sig h3
          split at h
          · cases h
          · rename_i sig2 h4
            cases h
            exact ⟨x, f', y, sig, sig2, h1, h2, h3, h4, rfl⟩
  · rintro ⟨x, f', y, sig, sig2, h1, h2, h3, h4, rfl⟩
    rw [h1]
    dsimp only
    rw [h2]
    dsimp only
    rw [sigAdd_op, h3]
    dsimp only
    have h4' : (if cfg.contrib = true then sigAssign sig (contribName p.1 p.2) i j y else .ok sig) = .ok sig2 := h4
    rw [h4']

theorem pairWith_swap [Add R] (hcomm : ∀ a b c : R, a + b + c = a + c + b) (hn : Names cfg) {i j i' : Int}
    {p q : ArrInfo × ArrInfo} (hp : p ∈ combosOf cfg.arrays) (hq : q ∈ combosOf cfg.arrays) (hne : p ≠ q) :
    Swap (fun e => pairWith cfg i j i' e p) (fun e => pairWith cfg i j i' e q) := by
  intro e e1 e2 h1 h2
  dsimp only at h1 h2 ⊢
  have hnm := combos_names hn hp hq hne
  have hsm : ∀ u ∈ combosOf cfg.arrays, ∀ w ∈ combosOf cfg.arrays, u.1.name ≠ w.2.name := by
    intro u hu w hw e
    have e1 := hn.inj _ (mem_combos_src hu).1 _ (mem_combos_src hw).2.2 e
    have k1 : u.1.kind ≠ .mic := (mem_combos_src hu).2.1
    have k2 : w.2.kind = .mic := by simpa [micsOf] using (List.mem_filter.1 (mem_combosOf.1 hw).2).2
    rw [e1] at k1
    exact k1 k2
  have hsc : ∀ u ∈ combosOf cfg.arrays, ∀ w ∈ combosOf cfg.arrays, cfg.contrib = true → u.1.name ≠ contribName w.1 w.2 :=
    fun u hu w hw hc e => hn.conArr hc w hw u.1 (mem_combos_src hu).1 e.symm
  have hmc : ∀ u ∈ combosOf cfg.arrays, ∀ w ∈ combosOf cfg.arrays, cfg.contrib = true → u.2.name ≠ contribName w.1 w.2 :=
    fun u hu w hw hc e => hn.conArr hc w hw u.2 (mem_combos_src hu).2.2 e.symm
  have hcc : cfg.contrib = true → contribName p.1 p.2 ≠ contribName q.1 q.2 := fun hc e => hne (hn.conInj hc p hp q hq e)
  obtain ⟨x1, f1, y1, s1, t1, a1, a2, a3, a4, rfl⟩ := pairWith_ok.1 h1
  obtain ⟨x2, f2, y2, s2, t2, b1, b2, b3, b4, rfl⟩ := pairWith_ok.1 h2
  dsimp only at b1 b2 b3
  rw [if_neg (fun h => hnm ⟨h.1.symm, h.2.symm⟩)] at b2
  have hsrc2 : t1 q.1.name = e.sig q.1.name :=
    (conOp_other a4 (hsc q hq p hp)).trans (sigOp_other a3 (hsm q hq p hp))
  have b1' : sigGet e.sig q.1.name i j = .ok x2 := by
    unfold sigGet at b1 ⊢
    rw [← hsrc2]
    exact b1
  -- order of the four writes: p-mic, p-con, q-mic, q-con
  obtain ⟨u1, c1, c2⟩ := conOp_swap_left (fun hc => (hmc q hq p hp hc).symm) _ _ _ a4 b3
  -- p-mic, q-mic, p-con, q-con
  obtain ⟨u2, d1, d2⟩ := sigOp_swap (fun _ _ _ _ => pyAddAssign2_swap hcomm) _ _ _ a3 c1
  obtain ⟨u3, g1, g2⟩ := conOp_swap hcc _ _ _ c2 b4
  -- q-mic, p-mic, q-con, p-con
  obtain ⟨u4, k1, k2⟩ := conOp_swap_right (hmc p hp q hq) _ _ _ d2 g1
  refine ⟨_, pairWith_ok.2 ⟨x2, f2, y2, u2, u4, b1', b2, d1, k1, rfl⟩, pairWith_ok.2 ⟨x1, f1, y1, u3, t2, ?_, ?_, k2, g2, ?_⟩⟩
  · dsimp only
    have hsrc1 : u4 p.1.name = e.sig p.1.name :=
      (conOp_other k1 (hsc p hp q hq)).trans (sigOp_other d1 (hsm p hp q hq))
    unfold sigGet at a1 ⊢
    rw [hsrc1]
    exact a1
  · dsimp only
    rw [if_neg hnm]
    exact a2
  · dsimp only
    rw [set2_swap _ hnm]

theorem prepare_perm [Add R] (hcomm : ∀ a b c : R, a + b + c = a + c + b) (h : cfg.arrays.Perm as') (hn : Names cfg)
    {e e1 : Eng (Sigs R) F S A P} (hx : cfg.prepare e = .ok e1) : (cfg.reorder as').prepare e = .ok e1 := by
  unfold SimCfg.prepare at hx ⊢
  cases h1 : (freeOf cfg.arrays).foldlM (cfg.prepSource cfg.prepNum) e with
  | error x => rw [h1] at hx; cases hx
  | ok e2 =>
    rw [h1] at hx
    have h2 := sources_perm h hn (num := cfg.prepNum) (i := (cfg.B : Int) - cfg.prepNum) (j := cfg.B) h1
    have h2' : (freeOf (cfg.reorder as').arrays).foldlM ((cfg.reorder as').prepSource (cfg.reorder as').prepNum) e = .ok e2 := h2
    rw [h2']
    dsimp only at hx ⊢
    exact foldlM_swap (f := pairWith cfg ((cfg.B : Int) - cfg.prepNum) cfg.B 0) (combosOf_perm h) hn.pairs
      (fun p hp q hq hne => pairWith_swap hcomm hn hp hq hne) hx

theorem propagate_perm [Add R] (hcomm : ∀ a b c : R, a + b + c = a + c + b) (h : cfg.arrays.Perm as') (hn : Names cfg)
    {i : Int} {e e1 : Eng (Sigs R) F S A P} (hx : cfg.propagate i e = .ok e1) : (cfg.reorder as').propagate i e = .ok e1 := by
  unfold SimCfg.propagate at hx ⊢
  cases h1 : (freeOf cfg.arrays).foldlM (cfg.stepSource i) e with
  | error x => rw [h1] at hx; cases hx
  | ok e2 =>
    rw [h1] at hx
    have h2 := sources_perm h hn (num := 1) (i := i) (j := i + 1) h1
    have h2' : (freeOf (cfg.reorder as').arrays).foldlM ((cfg.reorder as').stepSource i) e = .ok e2 := h2
    rw [h2']
    dsimp only at hx ⊢
    cases h3 : (combosOf cfg.arrays).foldlM cfg.stepUpdate e2 with
    | error x => rw [h3] at hx; cases hx
    | ok e3 =>
      rw [h3] at hx
      have h4 := foldlM_swap (f := cfg.stepUpdate) (combosOf_perm h) hn.pairs
        (fun p hp q hq hne => stepUpdate_swap (combos_names hn hp hq hne)) h3
      have h4' : (combosOf (cfg.reorder as').arrays).foldlM (cfg.reorder as').stepUpdate e2 = .ok e3 := h4
      rw [h4']
      dsimp only at hx ⊢
      exact foldlM_swap (f := pairWith cfg i (i + 1) i) (combosOf_perm h) hn.pairs
        (fun p hp q hq hne => pairWith_swap hcomm hn hp hq hne) hx

theorem step_perm [Zero R] [Add R] (hcomm : ∀ a b c : R, a + b + c = a + c + b) (h : cfg.arrays.Perm as') (hn : Names cfg)
    {st st1 : SimSt R F S A P D O} (hx : cfg.step st = .ok st1) : (cfg.reorder as').step st = .ok st1 := by
  unfold SimCfg.step at hx ⊢
  cases h1 : cfg.engine st.n st.idx st.eng with
  | error x => rw [h1] at hx; cases hx
  | ok e =>
    rw [h1] at hx
    have h2 : (cfg.reorder as').engine st.n st.idx st.eng = .ok e := by
      unfold SimCfg.engine at h1 ⊢
      have e0 : (cfg.reorder as').arrUpdate = cfg.arrUpdate := rfl
      rw [e0]
      cases h3 : cfg.arrUpdate st.eng.arr st.n with
      | error x => rw [h3] at h1; cases h1
      | ok arr =>
        rw [h3] at h1
        dsimp only at h1 ⊢
        have e1 : ∀ x, (cfg.reorder as').callProc st.n st.idx x = cfg.callProc st.n st.idx x := fun _ => rfl
        rw [e1]
        cases h4 : cfg.callProc st.n st.idx { st.eng with arr := arr } with
        | error x => rw [h4] at h1; cases h1
        | ok e2 =>
          rw [h4] at h1
          exact propagate_perm hcomm h hn h1
    rw [h2]
    exact hx

theorem steps_perm [Zero R] [Add R] (hcomm : ∀ a b c : R, a + b + c = a + c + b) (h : cfg.arrays.Perm as') (hn : Names cfg) :
    ∀ (k : Nat) {st st1 : SimSt R F S A P D O}, cfg.steps k st = .ok st1 → (cfg.reorder as').steps k st = .ok st1
  | 0, _, _, hx => hx
  | k + 1, st, st1, hx => by
    unfold SimCfg.steps at hx ⊢
    cases h1 : cfg.steps k st with
    | error x => rw [h1] at hx; cases hx
    | ok st2 =>
      rw [h1] at hx
      rw [steps_perm hcomm h hn k h1]
      exact step_perm hcomm h hn hx

theorem run_perm [Zero R] [Add R] (hcomm : ∀ a b c : R, a + b + c = a + c + b) (h : cfg.arrays.Perm as')
    {srcs : String → S} {arr : A} {proc : P} {f0 : F} {ds : List (Diag D)} {fin : SimSt R F S A P D O}
    (hx : cfg.run srcs arr proc f0 ds = .ok fin) : (cfg.reorder as').run srcs arr proc f0 ds = .ok fin := by
  unfold SimCfg.run at hx ⊢
  cases h1 : cfg.init srcs arr proc f0 ds with
  | error x => rw [h1] at hx; cases hx
  | ok st =>
    rw [h1] at hx
    have hn : Names cfg := names_of _ (init_nodup _ h1)
    have h2 : (cfg.reorder as').init srcs arr proc f0 ds = .ok st := by
      unfold SimCfg.init at h1 ⊢
      cases h3 : cfg.createSignals with
      | error x => rw [h3] at h1; cases h1
      | ok sig =>
        rw [h3] at h1
        rw [createSignals_perm h h3]
        dsimp only at h1 ⊢
        cases h4 : cfg.createFilters arr (fun _ _ => f0) with
        | error x => rw [h4] at h1; cases h1
        | ok fs =>
          rw [h4] at h1
          rw [createFilters_perm h hn h4]
          dsimp only at h1 ⊢
          cases h5 : cfg.prepare { sig := sig, srcs := srcs, filts := fs, arr := arr, proc := proc } with
          | error x => rw [h5] at h1; cases h1
          | ok e =>
            rw [h5] at h1
            rw [prepare_perm hcomm h hn h5]
            exact h1
    rw [h2]
    dsimp only at hx ⊢
    have e0 : (cfg.reorder as').tot + (cfg.reorder as').mbs = cfg.tot + cfg.mbs := rfl
    rw [e0]
    cases h3 : cfg.steps (cfg.tot + cfg.mbs) st with
    | error x => rw [h3] at hx; cases hx
    | ok st2 =>
      rw [h3] at hx
      rw [steps_perm hcomm h hn _ h3]
      exact hx

end
end Verif

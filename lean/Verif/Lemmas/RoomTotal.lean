/-
Room simulations without user errors: the collection stays usable.
-/
import Verif.Spec.ValidRoom
import Verif.Props.Array
import Verif.Lemmas.Fits
namespace Verif

section
variable {Pt R G : Type} [Zero R] [One R]

theorem createPath_ok {rc : RirCfg R Pt G} (hrc : rc.Lawful) (hd : rc.minDly = 0) {a b : Arr Pt} {t : String}
    (ht : CanGenerate rc.dims a b t) (g : G) (u : Nat) :
    ∃ g' x, createPath rc g (a.geoAt u) (b.geoAt u) t = .ok (g', x) := by
  rcases ht with h | h | ⟨h, h'⟩ | ⟨h, h', h''⟩
  · subst h; exact ⟨_, _, rfl⟩
  · subst h; exact ⟨_, _, rfl⟩
  · subst h
    unfold createPath
    dsimp only
    rw [if_neg (by decide), if_pos rfl, if_neg (not_not.2 (show (a.geoAt u).num = (b.geoAt u).num from h'))]
    exact ⟨_, _, rfl⟩
  · subst h
    obtain ⟨g', x, k, _⟩ := ismPath_spec hrc (src := a.geoAt u) (mic := b.geoAt u) h'' g
      (by intro g ss ms x _ r _; rw [hd]; exact Nat.zero_le _)
    unfold createPath
    dsimp only
    rw [if_neg (by decide), if_neg (by decide), if_neg (by decide), if_pos rfl, if_pos h', k]
    exact ⟨_, _, rfl⟩

/-- A collection with which the simulation can go on. -/
structure Usable (rc : RirCfg R Pt G) (infos : List ArrInfo) (c : Coll Pt (IrMat R)) : Prop where
  con : c.Consistent
  freq : c.freq ≠ 0
  sized : ∀ a ∈ c.arrays, a.Sized
  types : ∀ a ∈ c.arrays, ∀ b ∈ c.arrays, (a.kind = some .free ∨ a.kind = some .ctrl) → b.kind = some .mic →
    a.dynamic = true ∨ b.dynamic = true → ∃ t, c.types a.name b.name = some t ∧ CanGenerate rc.dims a b t
  sources : ∀ b ∈ c.arrays, b.kind = some .mic → b.dynamic = true →
    ∃ a ∈ c.arrays, a.kind = some .free ∨ a.kind = some .ctrl
  paths : ∀ a ∈ c.arrays, ∀ b ∈ c.arrays, (a.kind = some .free ∨ a.kind = some .ctrl) → b.kind = some .mic →
    ∃ h, c.paths a.name b.name = some h ∧ h.numIn = a.num ∧ h.numOut = b.num
  infos : c.infos = infos

theorem CanGenerate.ne_modified {n : Nat} {a b : Arr Pt} {t : String} (h : CanGenerate n a b t) : t ≠ "modified" := by
  rcases h with h | h | ⟨h, _⟩ | ⟨h, _⟩ <;> subst h <;> decide

omit [Zero R] [One R] in
theorem moving_pair {c : Coll Pt (IrMat R)} (hc : c.Consistent) {a b : Arr Pt} (ha : a ∈ c.arrays) (hb : b ∈ c.arrays)
    (h : c.Moving a.name b.name) : a.dynamic = true ∨ b.dynamic = true := by
  obtain ⟨x, hx, hd, hn | hn⟩ := h
  · rw [hc.inj hx ha hn] at hd; exact .inl hd
  · rw [hc.inj hx hb hn] at hd; exact .inr hd

theorem update_infos (n : Nat) (as : List (Arr Pt)) :
    ((as.map (Arr.update n)).filterMap fun a => a.kind.map fun k => (⟨a.name, a.num, k, a.dynamic⟩ : ArrInfo)) =
      as.filterMap fun a => a.kind.map fun k => ⟨a.name, a.num, k, a.dynamic⟩ := by
  rw [List.filterMap_map]
  congr 1
  funext a
  simp [Arr.update_kind, Arr.update_name, Arr.update_num, Arr.dynamic, Arr.update_traj]

theorem Usable.update {rc : RirCfg R Pt G} (hrc : rc.Lawful) (hd : rc.minDly = 0) {infos : List ArrInfo}
    {c : Coll Pt (IrMat R)} (h : Usable rc infos c) (g : G) (n : Nat) :
    ∃ g' c', Coll.update (createPath rc) (g, c) n = .ok (g', c') ∧ Usable rc infos c' := by
  by_cases hdvd : c.freq ∣ n
  swap
  · refine ⟨g, c, ?_, h⟩
    have hmod : n % c.freq ≠ 0 := fun h0 => hdvd (Nat.dvd_of_mod_eq_zero h0)
    unfold Coll.update
    simp [h.freq, hmod]
  have hok : ∃ gc', Coll.update (createPath rc) (g, c) n = .ok gc' := by
    unfold Coll.update
    rw [if_neg h.freq]
    split
    · exact ⟨_, rfl⟩
    · refine updateLoop_ok (p := c.paths) (r := c.rirs) h.con _ _ ?_ ?_ ?_ ?_
      · intro x hx
        obtain ⟨a, ha, rfl⟩ := List.mem_map.1 hx
        exact ⟨a, (List.mem_filter.1 ha).1, rfl⟩
      · intro s hs m hm hmv
        obtain ⟨a, ha, hak, rfl⟩ := h.con.mem_srcs.1 hs
        obtain ⟨b, hb, hbk, rfl⟩ := h.con.mem_mics.1 hm
        have hmov : a.dynamic = true ∨ b.dynamic = true := by
          rcases hmv with hx | hx
          · obtain ⟨x, hx, hn⟩ := List.mem_map.1 hx
            rw [List.mem_filter] at hx
            rw [h.con.inj hx.1 ha hn] at hx
            exact .inl hx.2
          · obtain ⟨x, hx, hn⟩ := List.mem_map.1 hx
            rw [List.mem_filter] at hx
            rw [h.con.inj hx.1 hb hn] at hx
            exact .inr hx.2
        obtain ⟨t, t1, t2⟩ := h.types a ha b hb hak hbk hmov
        refine ⟨t, t1, t2.ne_modified, fun a' ha' b' hb' e1 e2 g => ?_⟩
        rw [h.con.inj ha' ha e1, h.con.inj hb' hb e2]
        exact createPath_ok hrc hd t2 g n
      · rintro ⟨m, hm, hx⟩
        obtain ⟨a, ha, hna⟩ := List.mem_map.1 hx
        obtain ⟨b, hb, hkb, hnb⟩ := h.con.mem_mics.1 hm
        rw [List.mem_filter] at ha
        have := h.con.inj ha.1 hb (hna.trans hnb.symm)
        subst this
        obtain ⟨x, hx, hxk⟩ := h.sources a hb hkb ha.2
        exact List.ne_nil_of_mem (h.con.mem_srcs.2 ⟨x, hx, hxk, rfl⟩)
      · intro s hs m hm
        obtain ⟨a, ha, hak, rfl⟩ := h.con.mem_srcs.1 hs
        obtain ⟨b, hb, hbk, rfl⟩ := h.con.mem_mics.1 hm
        obtain ⟨x, hx, _⟩ := h.paths a ha b hb hak hbk
        rw [hx]; rfl
  obtain ⟨⟨g', c'⟩, hup⟩ := hok
  refine ⟨g', c', hup, ?_⟩
  obtain ⟨ps, r', k1, k2, k3, k4⟩ := update_spec h.con hdvd hup
  have harr : ∀ x ∈ c'.arrays, ∃ a ∈ c.arrays, x = a.update n := by
    intro x hx
    rw [k4] at hx
    obtain ⟨a, ha, rfl⟩ := List.mem_map.1 (show x ∈ c.arrays.map (Arr.update n) from hx)
    exact ⟨a, ha, rfl⟩
  have hdyn : ∀ a : Arr Pt, (a.update n).dynamic = a.dynamic := by
    intro a; unfold Arr.dynamic; rw [Arr.update_traj]
  have homni : ∀ a : Arr Pt, (a.update n).omni = a.omni := fun a =>
    congrArg Geo.omni (Arr.update_geoAt n 0 a)
  refine ⟨by rw [k4]; exact Coll.moved_consistent h.con n _ _, by rw [k4]; exact h.freq, ?_, ?_, ?_, ?_, ?_⟩
  · intro x hx u
    obtain ⟨a, ha, rfl⟩ := harr x hx
    rw [Arr.update_geoAt, Arr.update_num]
    exact h.sized a ha u
  · intro x hx y hy hxk hyk hmv
    obtain ⟨a, ha, rfl⟩ := harr x hx
    obtain ⟨b, hb, rfl⟩ := harr y hy
    rw [Arr.update_kind] at hxk hyk
    rw [hdyn, hdyn] at hmv
    obtain ⟨t, t1, t2⟩ := h.types a ha b hb hxk hyk hmv
    refine ⟨t, by rw [k4, Arr.update_name, Arr.update_name]; exact t1, ?_⟩
    unfold CanGenerate at t2 ⊢
    rw [Arr.update_num, Arr.update_num, homni]
    exact t2
  · intro x hx hxk hxd
    obtain ⟨b, hb, rfl⟩ := harr x hx
    rw [Arr.update_kind] at hxk
    rw [hdyn] at hxd
    obtain ⟨a, ha, hak⟩ := h.sources b hb hxk hxd
    refine ⟨a.update n, ?_, by rw [Arr.update_kind]; exact hak⟩
    rw [k4]
    exact List.mem_map_of_mem (f := Arr.update n) ha
  · intro x hx y hy hxk hyk
    obtain ⟨a, ha, rfl⟩ := harr x hx
    obtain ⟨b, hb, rfl⟩ := harr y hy
    rw [Arr.update_kind] at hxk hyk
    rw [Arr.update_name, Arr.update_name, Arr.update_num, Arr.update_num]
    by_cases hin : (a.name, b.name) ∈ ps
    · obtain ⟨a', ha', b', hb', e1, e2, t, g1, g2, y, _, e4, e5⟩ := k3.new hin
      obtain rfl := h.con.inj ha' ha e1
      obtain rfl := h.con.inj hb' hb e2
      have := createPath_shaped (fun _ => hrc) (h.sized _ ha n) (h.sized _ hb n) e4
      exact ⟨y, e5, this.1, this.2.1⟩
    · rw [k3.old hin]
      exact h.paths a ha b hb hxk hyk
  · rw [← h.infos]
    rw [k4]
    exact update_infos n c.arrays

/-- After `setup_ir`. -/
theorem Usable.setup {rc : RirCfg R Pt G} (hrc : rc.Lawful) (hd : rc.minDly = 0) {c : Coll Pt (IrMat R)}
    (hc : c.Consistent) (hf : c.freq ≠ 0) (hn : ∀ a ∈ c.arrays, 1 ≤ a.num) (hs : ∀ a ∈ c.arrays, a.Sized)
    (hi : ∀ a ∈ c.arrays, a.Initial)
    (ht : ∀ a ∈ c.arrays, ∀ b ∈ c.arrays, (a.kind = some .free ∨ a.kind = some .ctrl) → b.kind = some .mic →
      (∃ t, c.types a.name b.name = some t ∧ CanGenerate rc.dims a b t) ∨
      (c.types a.name b.name = some "modified" ∧ ¬ (a.dynamic = true ∨ b.dynamic = true) ∧
        ∃ h, c.paths a.name b.name = some h ∧ h.numIn = a.num ∧ h.numOut = b.num))
    (hsrc : ∀ b ∈ c.arrays, b.kind = some .mic → b.dynamic = true →
      ∃ a ∈ c.arrays, a.kind = some .free ∨ a.kind = some .ctrl) (g : G) :
    ∃ g' c', c.setupIr (createPath rc) g = .ok (g', c') ∧ Usable rc c.infos c' := by
  have hpos : ∀ a ∈ c.arrays, a.pos ≠ [] := by
    intro a ha h0
    have h1 := hs a ha 0
    rw [← (hi a ha).geo] at h1
    have h2 := hn a ha
    unfold Arr.geo at h1
    simp only [h0, List.length_nil] at h1
    omega
  obtain ⟨⟨g', c'⟩, hset⟩ := C41_setup_succeeds hrc hd hc (by
    intro a ha b hb hak hbk
    rcases ht a ha b hb hak hbk with ⟨t, t1, t2⟩ | ⟨t1, _⟩
    · rw [t1]
      rcases t2 with e | e | ⟨e, e'⟩ | ⟨e, e', e''⟩
      · subst e; exact .inl rfl
      · subst e; exact .inr (.inr (.inl rfl))
      · subst e; exact .inr (.inr (.inr (.inl ⟨rfl, e'⟩)))
      · subst e; exact .inr (.inr (.inr (.inr ⟨rfl, e', e''⟩)))
    · exact .inr (.inl t1)) hpos g
  refine ⟨g', c', hset, ?_⟩
  obtain ⟨e0, e1, e2⟩ := setupIr_spec hc.names hi hset
  have harr : c'.arrays = c.arrays := by rw [e0]; rfl
  have hty : c'.types = c.types := by rw [e0]; rfl
  refine ⟨by rw [e0]; exact hc.with _ _, by rw [e0]; exact hf, by rw [harr]; exact hs, ?_, by rw [harr]; exact hsrc, ?_,
    by rw [e0]; rfl⟩
  · rw [harr, hty]
    intro a ha b hb hak hbk hmv
    rcases ht a ha b hb hak hbk with h | ⟨_, h, _⟩
    · exact h
    · exact absurd hmv h
  · rw [harr]
    intro a ha b hb hak hbk
    have hut := useType_eq hc.names ha hb
    rw [if_neg (by have := hn a ha; have := hn b hb; omega)] at hut
    have hcomb : (a.name, b.name) ∈ c.combos :=
      Coll.mem_combos.2 ⟨hc.mem_srcs.2 ⟨a, ha, hak, rfl⟩, hc.mem_mics.2 ⟨b, hb, hbk, rfl⟩⟩
    rcases ht a ha b hb hak hbk with ⟨t, t1, t2⟩ | ⟨t1, _, x, x1, x2⟩
    · obtain ⟨a', ha', b', hb', n1, n2, ty, g1, g2, x, q1, q2, q3⟩ := e2.new (s := a.name) (m := b.name)
        (List.mem_filter.2 ⟨hcomb, by
          rw [decide_eq_true_eq, hut, t1]
          exact fun he => t2.ne_modified (Option.some.inj he)⟩)
      obtain rfl := hc.inj ha' ha n1
      obtain rfl := hc.inj hb' hb n2
      have := createPath_shaped (fun _ => hrc) (hs _ ha 0) (hs _ hb 0) q2
      exact ⟨x, q3, this.1, this.2.1⟩
    · refine ⟨x, ?_, x2⟩
      rw [e2.old, x1]
      rw [List.mem_filter]
      rintro ⟨_, hne⟩
      rw [decide_eq_true_eq] at hne
      exact hne (hut.trans t1)

end

/-! ### adding arrays -/

section
variable {Pt H : Type}

theorem addAll_arrays : ∀ (as : List (Arr Pt)) {c : Coll Pt H}, c.Consistent → (∀ a ∈ as, a.kind ≠ none) →
    ((c.arrays ++ as).map Arr.name).Nodup →
    (c.addAll as).arrays = c.arrays ++ as ∧ (c.addAll as).paths = c.paths ∧ (c.addAll as).types = c.types ∧
      (c.addAll as).freq = c.freq
  | [], c, _, _, _ => by simp [Coll.addAll]
  | a :: as, c, hc, hk, hnd => by
    have hd : ¬ ∃ b ∈ c.arrays, b.name = a.name := by
      rintro ⟨b, hb, hn⟩
      rw [List.map_append, List.nodup_append] at hnd
      exact hnd.2.2 b.name (List.mem_map_of_mem hb) a.name (by simp) hn
    obtain ⟨g1, g2, g3⟩ := Coll.addArray_new hd (hk a (by simp)) hc
    have hf : (c.addArray a).1.paths = c.paths ∧ (c.addArray a).1.types = c.types ∧ (c.addArray a).1.freq = c.freq := by
      unfold Coll.addArray
      repeat' split
      all_goals exact ⟨rfl, rfl, rfl⟩
    have e : c.addAll (a :: as) = (c.addArray a).1.addAll as := rfl
    obtain ⟨h1, h2, h3, h4⟩ := addAll_arrays as g2 (fun a ha => hk a (by simp [ha]))
      (by rw [g3, List.append_assoc]; exact hnd)
    rw [e, h1, h2, h3, h4, g3, hf.1, hf.2.1, hf.2.2]
    simp

end

section
variable {Pt R : Type}

theorem ops_frame : ∀ (os : List (PathOp R)) (c : Coll Pt (IrMat R)),
    ∃ p ty, os.foldl Coll.op c = { c with paths := p, types := ty }
  | [], c => ⟨c.paths, c.types, rfl⟩
  | o :: os, c => by
    obtain ⟨p, ty, hf⟩ := c.op_frame o
    obtain ⟨p2, ty2, h2⟩ := ops_frame os (c.op o)
    exact ⟨p2, ty2, by rw [List.foldl_cons, h2, hf]⟩

theorem mem_userPaths {a b : Arr Pt} {os : List (PathOp R)} {x : IrMat R} (h : x ∈ userPaths a b os) :
    x.numIn = a.num ∧ x.numOut = b.num := by
  unfold userPaths at h
  obtain ⟨o, _, ho⟩ := List.mem_filterMap.1 h
  cases o with
  | path y s m =>
    simp only at ho
    split at ho
    · rename_i hc
      cases ho
      exact ⟨hc.2.2.1, hc.2.2.2⟩
    · cases ho
  | type s m t => cases ho

end

/-! ### a room -/

section
variable {K R G S P V : Type} [Field K] [LinearOrder K] [Field R] [DecidableEq R]
  {ext : RoomExt K R G} {i : RoomInfo K} {freq : Nat} {as : List (Arr (K × K × K))} {os : List (PathOp R)} {t : String}

omit [DecidableEq R] in
theorem RoomPlan.setup (h : RoomPlan ext i freq as os t) (g : G) :
    (planned freq as os t).infos = infosOf as ∧
    ∃ par gc, roomSetup ext i g (planned freq as os t) = .ok (par, gc) ∧
      Usable (i.cfg ext par) (infosOf as) gc.2 := by
  obtain ⟨c1, c2, c3, c4⟩ := addAll_arrays as (Coll.empty_consistent (Pt := K × K × K) (H := IrMat R) freq) h.kinds
    (by simpa [Coll.empty] using h.names)
  have hc := (Coll.addAll_spec as (Coll.empty_consistent (Pt := K × K × K) (H := IrMat R) freq) h.kinds).1
  rw [show (Coll.empty freq : Coll (K × K × K) (IrMat R)).arrays = [] from rfl, List.nil_append] at c1
  set c : Coll (K × K × K) (IrMat R) := (Coll.empty freq).addAll as with hcd
  obtain ⟨p1, ty1, k0⟩ := ops_frame os c
  obtain ⟨⟨ty2, d0⟩, d1⟩ := setDefault_spec t (os.foldl Coll.op c)
  have hpl : planned freq as os t = (os.foldl Coll.op c).setDefault t := rfl
  have harr : (planned freq as os t).arrays = as := by rw [hpl, d0, k0]; exact c1
  have hcon : (planned freq as os t).Consistent := by
    rw [hpl, d0, k0]
    exact ⟨hc.names, hc.kinds, hc.mics, hc.srcs, hc.frees⟩
  have hinf : (planned freq as os t).infos = infosOf as := by
    unfold Coll.infos infosOf
    rw [harr]
  refine ⟨hinf, ?_⟩
  obtain ⟨par, hpar⟩ : ∃ par, i.parameters ext = .ok par := by
    unfold RoomInfo.parameters
    split
    · rename_i h0
      obtain ⟨r, hr⟩ := h.reverberation h0
      rw [hr]
      exact ⟨_, rfl⟩
    · exact ⟨_, rfl⟩
  obtain ⟨g', c', hs, hu⟩ := Usable.setup (h.external par) (rfl : (i.cfg ext par).minDly = 0) hcon
    (by have h1 : (planned freq as os t).freq = c.freq := by rw [hpl, d0, k0]
        have h2 : (Coll.empty freq : Coll (K × K × K) (IrMat R)).freq = freq := rfl
        have := h.interval
        rw [h1, c4, h2]; omega)
    (by rw [harr]; exact h.channels) (by rw [harr]; exact h.sized) (by rw [harr]; exact h.initial)
    (by
      rw [harr]
      intro a ha b hb hak hbk
      have has : a.name ∈ c.srcs := hc.mem_srcs.2 ⟨a, by rw [c1]; exact ha, hak, rfl⟩
      have hbm : b.name ∈ c.mics := hc.mem_mics.2 ⟨b, by rw [c1]; exact hb, hbk, rfl⟩
      obtain ⟨_, k1, k2⟩ := ops_spec os hc (a := a) (b := b) (by rw [c1]; exact ha) (by rw [c1]; exact hb) has hbm
      have d2 := d1 a.name (by rw [k0]; exact has) b.name (by rw [k0]; exact hbm)
      rw [c2] at k1
      rw [c3] at k2
      rw [show (Coll.empty freq : Coll (K × K × K) (IrMat R)).paths a.name b.name = none from rfl, Option.or_none] at k1
      rw [show (Coll.empty freq : Coll (K × K × K) (IrMat R)).types a.name b.name = none from rfl, Option.or_none] at k2
      rw [k1, k2] at d2
      cases hup : (userPaths a b os).getLast? with
      | none =>
        rw [hup] at d2
        rw [List.getLast?_eq_none_iff] at hup
        exact .inl ⟨_, d2, h.types a ha b hb hak hbk hup⟩
      | some x =>
        rw [hup] at d2
        have hx : x ∈ userPaths a b os := List.mem_of_getLast? hup
        refine .inr ⟨d2, fun hmv => ?_, x, ?_, mem_userPaths hx⟩
        · rw [h.moving a ha b hb hak hbk hmv] at hx
          cases hx
        · rw [hpl, show ((os.foldl Coll.op c).setDefault t).paths = (os.foldl Coll.op c).paths by rw [d0], k1, hup])
    (by rw [harr]; exact h.sources) g
  refine ⟨par, (g', c'), ?_, by rw [← hinf]; exact hu⟩
  unfold roomSetup
  rw [hpar]
  dsimp only
  rw [hs]

/-- The configuration that `simulate` runs. -/
def roomCfg {D O F : Type} (base : SimCfg R (IrMat R) F S (G × Coll (K × K × K) (IrMat R)) P D O) (ext : RoomExt K R G)
    (i : RoomInfo K) (par : K × Nat) (as : List (Arr (K × K × K))) :
    SimCfg R (IrMat R) F S (G × Coll (K × K × K) (IrMat R)) P D O :=
  { base with
    arrays := infosOf as, arrUpdate := Coll.update (createPath (i.cfg ext par)), arrPath := Coll.path }

theorem mem_infosOf {as : List (Arr (K × K × K))} {x : ArrInfo} : x ∈ infosOf as ↔
    ∃ a ∈ as, a.kind = some x.kind ∧ a.name = x.name ∧ a.num = x.num ∧ a.dynamic = x.dynamic := by
  unfold infosOf
  rw [List.mem_filterMap]
  constructor
  · rintro ⟨a, ha, he⟩
    rcases hka : a.kind with _ | k
    · rw [hka] at he; cases he
    · rw [hka] at he
      cases he
      exact ⟨a, ha, hka, rfl, rfl, rfl⟩
  · rintro ⟨a, ha, h1, h2, h3, h4⟩
    refine ⟨a, ha, ?_⟩
    rw [h1, h2, h3, h4]
    rfl

theorem RoomPlan.scene (h : RoomPlan ext i freq as os t)
    (base : SimCfg R (IrMat R) (Fir R) S (G × Coll (K × K × K) (IrMat R)) P (DData R P V) (DOut R V))
    (hdiag : base.diag = diagOps R P V) (hfilt : base.filt = firOps R)
    (hnames : ((base.withArrays as).signalList.map (·.1)).Nodup) {srcs : String → S}
    (hsrcs : ∀ a ∈ as, a.kind = some .free → ∃ x, IsStream base.srcGet (srcs a.name) a.num x)
    {par : K × Nat} {gc : G × Coll (K × K × K) (IrMat R)} (hu : Usable (i.cfg ext par) (infosOf as) gc.2) :
    ValidScene (roomCfg base ext i par as) srcs gc (fun gc => Usable (i.cfg ext par) (infosOf as) gc.2) where
  diag := hdiag
  filt := hfilt
  names := hnames
  channels := by
    intro x hx
    obtain ⟨a, ha, _, _, hn, _⟩ := mem_infosOf.1 (show x ∈ infosOf as from hx)
    rw [← hn]
    exact h.channels a ha
  streams := by
    intro x hx
    obtain ⟨g1, g2⟩ := mem_freeOf hx
    obtain ⟨a, ha, hk, hn, hnum, _⟩ := mem_infosOf.1 (show x ∈ infosOf as from g1)
    obtain ⟨y, hy⟩ := hsrcs a ha (by rw [hk, g2])
    exact ⟨y, by rw [← hn, ← hnum]; exact hy⟩
  arr0 := hu
  moves := by
    intro gc n hgc
    obtain ⟨g', c', h1, h2⟩ := hgc.update (h.external par) rfl gc.1 n
    exact ⟨(g', c'), h1, h2⟩
  paths := by
    intro gc hgc p hp
    obtain ⟨g1, g2⟩ := mem_combosOf.1 hp
    obtain ⟨m1, m2⟩ := mem_sourcesOf g1
    obtain ⟨m3, m4⟩ := mem_micsOf g2
    have hget : ∀ x ∈ infosOf as, ∃ a ∈ gc.2.arrays, a.kind = some x.kind ∧ a.name = x.name ∧ a.num = x.num := by
      intro x hx
      rw [← hgc.infos] at hx
      obtain ⟨a, ha, he⟩ := List.mem_filterMap.1 hx
      rcases hka : a.kind with _ | k
      · rw [hka] at he; cases he
      · rw [hka] at he
        cases he
        exact ⟨a, ha, hka, rfl, rfl⟩
    obtain ⟨a, ha, hka, hna, hnua⟩ := hget p.1 m1
    obtain ⟨b, hb, hkb, hnb, hnub⟩ := hget p.2 m3
    obtain ⟨x, x1, x2, x3⟩ := hgc.paths a ha b hb
      (by rw [hka]
          cases hk : p.1.kind with
          | mic => rw [hk] at m2; simp at m2
          | free => exact .inl rfl
          | ctrl => exact .inr rfl) (by rw [hkb, m4])
    refine ⟨x, ?_, by rw [x2, hnua], by rw [x3, hnub]⟩
    show Coll.path gc p.1.name p.2.name = .ok x
    unfold Coll.path
    rw [← hna, ← hnb, x1]

end

/-! ### diagnostics do not see the collection -/

section
variable {R S A A' P V : Type} [Field R] [DecidableEq R]
  {cfg : SimCfg R (IrMat R) (Fir R) S A P (DData R P V) (DOut R V)}
  {cfg' : SimCfg R (IrMat R) (Fir R) S A' P (DData R P V) (DOut R V)}

theorem Diag.Fits.of_dims {K : P → Prop} (h1 : cfg'.dims = cfg.dims) (h2 : cfg'.tot = cfg.tot)
    (h3 : cfg'.proc = cfg.proc) {d : Diag (DData R P V)} (h : d.Fits cfg K) : d.Fits cfg' K := by
  obtain ⟨ivs, e1, e2, e3, e4, e5⟩ := h
  refine ⟨ivs, e1, e2, by rw [h2]; exact e3, e4, ?_⟩
  generalize d.data = x at e5
  cases e5 with
  | recSignal a b c => rw [← h2]; exact .recSignal (by rw [h1]; exact a) b c
  | recState a b c d e => exact .recState (by rw [h3]; exact a) b c d e
  | power a b c => rw [← h2]; exact .power (by rw [h1]; exact a) b c
  | ratio a b c d e f g => rw [← h2]; exact .ratio (by rw [h1]; exact a) b c (by rw [h1]; exact d) e f g
  | instant a b => exact .instant (by rw [h3]; exact a) b
  | sfPower a b => exact .sfPower (by rw [h3]; exact a) (by rw [h1]; exact b)
  | spectrum a b c => exact .spectrum (by rw [h1]; exact a) b c
  | summary a b c => exact .summary (by rw [h1]; exact a) b c

end
end Verif
